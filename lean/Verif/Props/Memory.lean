import Verif.Spec.Memory
import Verif.Props.Account
import Verif.Props.Modules

/-!
# C102: what a coupler keeps is bounded
-/

namespace Ur20

open Spec Com Coupler

private theorem channelsOf_length (ms : List ModuleType) :
    (channelsOf ms).length = (ms.map (·.channelCount)).sum := by
  unfold channelsOf
  rw [List.length_flatMap]
  congr 1
  have : ∀ (k : Nat), (ms.zipIdx k).map (fun p =>
      ((List.range p.1.channelCount).map fun c => (⟨p.2, c⟩ : Address)).length) =
        ms.map (·.channelCount) := by
    induction ms with
    | nil => intro k; rfl
    | cons t ms ih =>
      intro k
      rw [List.zipIdx_cons, List.map_cons, List.map_cons, ih]
      simp
  exact this 0

/-- C102: at any time, values are pending at existing channels only, of which there is a fixed
number; `set_output` never makes a coupler grow without bound. -/
theorem C102_pending (oc : Bool) (cfg : CouplerConfig) (c : Coupler) (hr : ReachableFrom oc cfg c) :
    (∀ a, c.write a ≠ none → a ∈ channelsOf cfg.modules) ∧
      (channelsOf cfg.modules).length = (cfg.modules.map (·.channelCount)).sum := by
  refine ⟨fun a ha => ?_, channelsOf_length _⟩
  have hv := (inv_of_reachable hr).valid a ha
  unfold isValidAddr at hv
  obtain ⟨hl, hm⟩ := reachable_module hr
  split at hv
  · rename_i m hmod
    have hlt : a.module < cfg.modules.length := by
      rw [← hl]; exact (List.getElem?_eq_some_iff.1 hmod).1
    have ht := List.getElem?_eq_getElem hlt
    obtain ⟨m', h1, h2⟩ := hm _ _ ht
    rw [hmod] at h1
    cases h1
    unfold channelsOf
    rw [List.mem_flatMap]
    refine ⟨(cfg.modules[a.module], a.module), ?_, ?_⟩
    · rw [List.mem_zipIdx_iff_getElem?]
      exact ht
    · rw [List.mem_map]
      refine ⟨a.channel, List.mem_range.2 ?_, rfl⟩
      have := of_decide_eq_true hv
      rwa [(created_channels h2).1] at this
  · cases hv

private theorem inFrame_data {len : ProcessDataLength} {i : Word} {pi : List Word} {f : RsIn}
    (h : inFrame len i pi = some f) : f.data.length ≤ capacity len := by
  unfold inFrame at h
  split at h
  · rename_i v hv
    cases h
    obtain ⟨-, -, d⟩ := (C21_counters _).1 f hv
    have : (bytesAt pi (i.toNat / 8) len.byteCount).length ≤ len.byteCount := by
      unfold bytesAt
      exact (List.length_filterMap_le _ _).trans (by rw [List.length_range])
    cases len <;> simp only [capacity, ProcessDataLength.byteCount] at * <;> omega
  · cases h

/-- What one more call adds to the bytes that arrived. -/
private theorem arrived_append (cfg : CouplerConfig) (len : ProcessDataLength) (i : Word)
    (ops : List COp) (op : COp) :
    ∀ n last, ∃ e, arrived cfg (inFrame len i) n last (ops ++ [op]) =
        arrived cfg (inFrame len i) n last ops ++ e ∧
      e.length ≤ (match op with | .next _ _ => capacity len | _ => 0) := by
  induction ops with
  | nil =>
    intro n last
    cases op with
    | next pi po =>
      simp only [List.nil_append, arrived]
      split
      · split
        · rename_i f hf
          split
          · exact ⟨f.data ++ [], rfl, by rw [List.append_nil]; exact inFrame_data hf⟩
          · exact ⟨[], rfl, Nat.zero_le _⟩
        · exact ⟨[], rfl, Nat.zero_le _⟩
      · exact ⟨[], rfl, Nat.zero_le _⟩
    | setOutput a v => exact ⟨[], rfl, Nat.zero_le _⟩
    | read n k => exact ⟨[], rfl, Nat.zero_le _⟩
    | write n b => exact ⟨[], rfl, Nat.zero_le _⟩
  | cons x ops ih =>
    intro n last
    cases x with
    | next pi po =>
      simp only [List.cons_append, arrived]
      split
      · split
        · split
          · obtain ⟨e, h1, h2⟩ := ih (n + 1) (some _)
            exact ⟨e, by rw [h1, List.append_assoc], h2⟩
          · exact ih _ _
        · exact ih _ _
      · exact ih _ _
    | setOutput a v => exact ih _ _
    | read n k => exact ih _ _
    | write n b => exact ih _ _

/-- What a call reads from module `j`. -/
private theorem readFrom_append (oc : Bool) (j : Nat) (ops ops' : List COp) :
    ∀ c, readFrom oc j c (ops ++ ops') = readFrom oc j c ops ++ readFrom oc j (runC oc c ops) ops' := by
  induction ops with
  | nil => intro c; rfl
  | cons x ops ih =>
    intro c
    simp only [List.cons_append, readFrom, ih, List.append_assoc]
    rfl

private theorem waiting_iff {c : Coupler} {j : Nat} {rest : List Byte}
    (h : ∀ k, ∃ d, c.read j k = .ok (d, some (rest.take k))) (n : Nat) :
    Waiting c j n ↔ rest.length = n := by
  constructor
  · intro hw
    obtain ⟨d, b, h1, h2⟩ := hw (rest.length + n)
    obtain ⟨d', h3⟩ := h (rest.length + n)
    rw [h1] at h3
    cases h3
    rw [List.length_take] at h2
    omega
  · rintro rfl k
    obtain ⟨d, hd⟩ := h k
    exact ⟨d, _, hd, List.length_take⟩

section

variable (oc : Bool) (cfg : CouplerConfig) (c0 : Coupler) (h0 : Coupler.new cfg = .ok c0)
  (j : Nat) (par : List Word) (o i : Word)
  (hcfg : ConfiguredAt cfg j .UR20_1COM_232_485_422 par o i) (ho : o ≠ noOffset)
  (hi : i ≠ noOffset) (hal : o.toNat % 16 = 0 ∧ i.toNat % 16 = 0)

include h0 hcfg ho hi hal

/-- C102: after any history, also with failing cycles, a cycle adds at most the data of one frame to
the bytes waiting to be read, and no other call adds anything. -/
theorem C102_received (ops : List COp) (op : COp) (hsz : ImagesSmall oc (ops ++ [op])) :
    ∃ n n', Waiting (runC oc c0 ops) j n ∧ Waiting (runC oc c0 (ops ++ [op])) j n' ∧
      (match op with
        | .next _ _ => n' ≤ n + capacity (frameLength par)
        | .read m k => n' = if m = j then n - k else n
        | _ => n' = n) := by
  have hsz' : ImagesSmall oc ops := fun pi po hm => hsz pi po (List.mem_append_left _ hm)
  obtain ⟨r, h1, h2⟩ := C99_received oc cfg c0 h0 j par o i hcfg ho hi hal ops hsz'
  obtain ⟨r', h1', h2'⟩ := C99_received oc cfg c0 h0 j par o i hcfg ho hi hal (ops ++ [op]) hsz
  obtain ⟨e, h3, h4⟩ := arrived_append cfg (frameLength par) i ops op 0 none
  rw [h3, ← h1, readFrom_append, List.append_assoc, List.append_assoc] at h1'
  have h5 := List.append_cancel_left h1'
  refine ⟨r.length, r'.length, (waiting_iff h2 _).2 rfl, (waiting_iff h2' _).2 rfl, ?_⟩
  have h6 := congrArg List.length h5
  rw [List.length_append, List.length_append] at h6
  cases op with
  | next pi po => simp only at h4 ⊢; omega
  | setOutput a v => simp only [readFrom, List.append_nil, List.length_nil] at h4 h6 ⊢; omega
  | write n b => simp only [readFrom, List.append_nil, List.length_nil] at h4 h6 ⊢; omega
  | read m k =>
    simp only at h4
    obtain ⟨d, hd⟩ := h2 k
    by_cases hm : m = j
    · subst hm
      simp only [readFrom, if_true, hd, List.append_nil, List.length_take] at h6
      simp only [if_true]
      omega
    · simp only [readFrom, if_neg hm, List.append_nil, List.length_nil] at h6
      simp only [if_neg hm]
      omega

private theorem prompt (pre ops : List COp) (b : Bool) (hsz : ImagesSmall oc (pre ++ ops)) (n : Nat)
    (hn : Waiting (runC oc c0 pre) j n)
    (hb : n ≤ if b then 0 else capacity (frameLength par))
    (hp : PromptReads j (capacity (frameLength par)) b ops) :
    ∃ n', n' ≤ capacity (frameLength par) ∧ Waiting (runC oc c0 (pre ++ ops)) j n' := by
  induction ops generalizing pre b n with
  | nil =>
    rw [List.append_nil]
    refine ⟨n, ?_, hn⟩
    split at hb <;> omega
  | cons op ops ih =>
    have e : pre ++ op :: ops = (pre ++ [op]) ++ ops := by simp
    rw [e] at hsz ⊢
    obtain ⟨m, m', h1, h2, h3⟩ := C102_received oc cfg c0 h0 j par o i hcfg ho hi hal pre op
      (fun pi po hm => hsz pi po (List.mem_append_left _ hm))
    have huniq : m = n := by
      obtain ⟨d, x, e1, e2⟩ := h1 (m + n)
      obtain ⟨d', x', e3, e4⟩ := hn (m + n)
      rw [e1] at e3
      cases e3
      omega
    subst huniq
    cases op with
    | next pi po =>
      obtain ⟨rfl, hp⟩ := hp
      refine ih _ false hsz m' h2 ?_ hp
      simp only [if_true, Bool.false_eq_true, if_false] at hb h3 ⊢
      omega
    | setOutput a v => exact ih _ b hsz m' h2 (by simp only at h3; rw [h3]; exact hb) hp
    | write k x => exact ih _ b hsz m' h2 (by simp only at h3; rw [h3]; exact hb) hp
    | read k len =>
      refine ih _ _ hsz m' h2 ?_ hp
      simp only at h3
      cases b with
      | true =>
        simp only [if_true, Bool.true_or] at hb ⊢
        split at h3 <;> omega
      | false =>
        simp only [Bool.false_eq_true, if_false, Bool.false_or] at hb ⊢
        by_cases hk : k = j ∧ capacity (frameLength par) ≤ len
        · rw [if_pos (by simp [hk.1, hk.2])]
          rw [if_pos hk.1] at h3
          omega
        · rw [if_neg (by simpa using hk)]
          split at h3 <;> omega

/-- C102: if the application reads with a buffer of at least one frame between any two cycles, then
never more than the data of one frame is waiting. -/
theorem C102_prompt (ops : List COp) (hsz : ImagesSmall oc ops)
    (hp : PromptReads j (capacity (frameLength par)) true ops) :
    ∃ n, n ≤ capacity (frameLength par) ∧ Waiting (runC oc c0 ops) j n := by
  have hw : Waiting (runC oc c0 []) j 0 := by
    obtain ⟨r, h1, h2⟩ := C99_received oc cfg c0 h0 j par o i hcfg ho hi hal []
      (fun pi po hm => by cases hm)
    have : r = [] := by simpa [readFrom, arrived] using h1
    exact (waiting_iff h2 0).2 (by rw [this]; rfl)
  exact prompt oc cfg c0 h0 j par o i hcfg ho hi hal [] ops true hsz 0 hw (by simp) hp

end

/-- A history with prompt reads … -/
def exPrompt : List COp :=
  [.next exPi exPo, .read 3 8, .next exPi exPo, .write 3 [1], .read 3 6, .next exFramePi exPo]

/-- … meets the hypotheses of `C102_prompt` with a frame of six bytes of data … -/
example : ConfiguredAt exCfg 3 .UR20_1COM_232_485_422 (List.replicate 10 0) 0x8010#16 0x10#16 ∧
    capacity (frameLength (List.replicate 10 0)) = 6 ∧ ImagesSmall true exPrompt ∧
    PromptReads 3 6 true exPrompt :=
  ⟨⟨rfl, rfl, rfl, rfl⟩, rfl, fun _ _ _ h => (by cases h), rfl, rfl, rfl, trivial⟩

/-- … and leaves two bytes to be read. -/
example : Waiting (runC true (initial exCfg exModules) exPrompt) 3 2 := by
  have h : (match (runC true (initial exCfg exModules) exPrompt).processors 3 with
      | some p => p.inData
      | none => []) = [7#8, 8#8] := by rfl
  intro k
  unfold Coupler.read
  cases hp : (runC true (initial exCfg exModules) exPrompt).processors 3 with
  | none => rw [hp] at h; cases h
  | some p =>
    rw [hp] at h
    simp only at h
    simp only [read_ok, Res.bind_ok]
    exact ⟨_, _, rfl, by rw [List.length_take, h]; rfl⟩

/-- A value is pending at a channel of the example. -/
example : (runC true (initial exCfg exModules) [.setOutput ⟨1, 7⟩ (.bit true)]).write ⟨1, 7⟩ =
      some (.bit true) ∧ (channelsOf exCfg.modules).length = 4 + 8 + 4 + 1 ∧
    (⟨1, 7⟩ : Address) ∈ channelsOf exCfg.modules := by
  refine ⟨rfl, rfl, by decide⟩

end Ur20
