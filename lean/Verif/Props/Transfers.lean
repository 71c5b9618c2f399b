import Verif.Spec.Transfers
import Verif.Props.Loop
import Verif.Props.Histories

/-! # Output values and lost images: C111 -/

namespace Ur20

open Spec Com Coupler

/-- C111 as listed: after a round whose image arrives, the device has the value of the last
`set_output` to each output channel. -/
def C111_statement : Prop :=
  ∀ (oc readBack : Bool) (cfg : CouplerConfig) (c0 : Coupler), Coupler.new cfg = .ok c0 →
    DisjointOutputs cfg →
    ∀ (j : Nat) (t : ModuleType) (par : List Word) (o i : Word), ConfiguredAt cfg j t par o i →
    t ≠ .UR20_1COM_232_485_422 → o ≠ noOffset → (o.toNat % 16 = 0 ∨ outputBytes t par = 1) →
    ∀ ch, ch < outputChannels t →
    ∀ (rounds : List Transfer) (r : Transfer),
      (∀ r' ∈ rounds ++ [r], ∀ op ∈ r'.calls, op.IsCall) → r.arrives = true →
    ∀ (start : List Word) (c : Coupler) (last device : List Word),
      transfers oc readBack c0 start start (rounds ++ [r]) = some (c, last, device) →
    ∀ v, lastSetInRounds ⟨j, ch⟩ (rounds ++ [r]) = some v → Settled t par device (outBit o) ch v

section

variable {oc : Bool} {cfg : CouplerConfig} {j : Nat} (hdis : OutputsKept cfg j)
  {t : ModuleType} {par : List Word} {o i : Word} (hcfg : ConfiguredAt cfg j t par o i)
  (ht : t ≠ .UR20_1COM_232_485_422) (hno : o ≠ noOffset)
  (hal : o.toNat % 16 = 0 ∨ outputBytes t par = 1) {ch : Nat} (hch : ch < outputChannels t)

include hdis hcfg ht hno hal hch

theorem round_written {c c1 : Coupler} {po img pi : List Word} {calls : List COp}
    (hcalls : ∀ op ∈ calls, op.IsCall) (hr : ReachableFrom oc cfg c)
    (hw : c.write ⟨j, ch⟩ = none) (hn : (runC oc c calls).next oc pi po = (c1, .ok img)) :
    ReachableFrom oc cfg c1 ∧ c1.write ⟨j, ch⟩ = none ∧
      (∀ v, lastSet ⟨j, ch⟩ calls = some v → Settled t par img (outBit o) ch v) ∧
      (lastSet ⟨j, ch⟩ calls = none → ∀ v, Settled t par po (outBit o) ch v →
        Settled t par img (outBit o) ch v) := by
  have hr' := reachable_run hr calls
  have hwr := write_calls (oc := oc) (valid_output hr hcfg hch) hcalls
  rw [hw, Option.or_none] at hwr
  have himg := C72_image oc cfg _ hr' j hdis pi po img c1 hn t par o i hcfg ht hno hal ch hch
  rw [hwr] at himg
  refine ⟨?_, C34_consumed oc cfg _ hr' pi po img c1 hn _ (by rw [hcfg.1]; simpa using ht), ?_, ?_⟩
  · have := reachable_run hr' [.next pi po]
    rwa [show runC oc (runC oc c calls) [.next pi po] = c1 from by
      change ((runC oc c calls).next oc pi po).1 = c1
      rw [hn]] at this
  · intro v hv
    rw [hv] at himg
    exact settled_written himg
  · intro hv v hs
    rw [hv] at himg
    exact settled_kept himg hs

/-- The last returned image, without reading back. -/
theorem last_holds (rounds : List Transfer)
    (hcalls : ∀ r ∈ rounds, ∀ op ∈ r.calls, op.IsCall) {c c' : Coupler}
    {last last' device device' : List Word}
    (hr : ReachableFrom oc cfg c) (hw : c.write ⟨j, ch⟩ = none)
    (h : transfers oc false c last device rounds = some (c', last', device')) :
    (∀ v, lastSetInRounds ⟨j, ch⟩ rounds = some v → Settled t par last' (outBit o) ch v) ∧
    (lastSetInRounds ⟨j, ch⟩ rounds = none → ∀ v, Settled t par last (outBit o) ch v →
      Settled t par last' (outBit o) ch v) := by
  induction rounds generalizing c last device with
  | nil =>
    cases h
    exact ⟨fun v hv => by simp [lastSetInRounds, lastSet] at hv, fun _ v hs => hs⟩
  | cons r rounds ih =>
    simp only [transfers, Bool.false_eq_true, if_false] at h
    have hset : lastSetInRounds ⟨j, ch⟩ (r :: rounds) =
        (lastSetInRounds ⟨j, ch⟩ rounds).or (lastSet ⟨j, ch⟩ r.calls) := by
      simp [lastSetInRounds, lastSet_append]
    split at h
    · rename_i c1 img hn
      obtain ⟨a1, a2, a3, a4⟩ := round_written hdis hcfg ht hno hal hch
        (hcalls _ List.mem_cons_self) hr hw hn
      obtain ⟨i1, i2⟩ := ih (fun r hr => hcalls r (List.mem_cons_of_mem _ hr)) a1 a2 h
      rw [hset]
      cases hl : lastSetInRounds ⟨j, ch⟩ rounds with
      | some v => exact ⟨fun v' hv => i1 v' (hl.trans hv), fun hv => by cases hv⟩
      | none =>
        simp only [Option.none_or]
        exact ⟨fun v hv => i2 hl v (a3 v hv), fun hv v hs => i2 hl v (a4 hv v hs)⟩
    · cases h

/-- The image of the device, with reading back. -/
theorem device_holds (rounds : List Transfer)
    (hcalls : ∀ r ∈ rounds, ∀ op ∈ r.calls, op.IsCall) {c c' : Coupler}
    {last last' device device' : List Word}
    (hr : ReachableFrom oc cfg c) (hw : c.write ⟨j, ch⟩ = none)
    (h : transfers oc true c last device rounds = some (c', last', device')) :
    (∀ v, lastSetInRounds ⟨j, ch⟩ (rounds.filter (·.arrives)) = some v →
      Settled t par device' (outBit o) ch v) ∧
    (lastSetInRounds ⟨j, ch⟩ (rounds.filter (·.arrives)) = none →
      ∀ v, Settled t par device (outBit o) ch v → Settled t par device' (outBit o) ch v) := by
  induction rounds generalizing c last device with
  | nil =>
    cases h
    exact ⟨fun v hv => by simp [lastSetInRounds, lastSet] at hv, fun _ v hs => hs⟩
  | cons r rounds ih =>
    simp only [transfers, if_true] at h
    split at h
    · rename_i c1 img hn
      obtain ⟨a1, a2, a3, a4⟩ := round_written hdis hcfg ht hno hal hch
        (hcalls _ List.mem_cons_self) hr hw hn
      obtain ⟨i1, i2⟩ := ih (fun r hr => hcalls r (List.mem_cons_of_mem _ hr)) a1 a2 h
      cases harr : r.arrives with
      | false =>
        rw [List.filter_cons_of_neg (by simp [harr])]
        rw [harr] at i2
        exact ⟨i1, i2⟩
      | true =>
        rw [List.filter_cons_of_pos (by simp [harr])]
        rw [harr] at i2
        have hset : lastSetInRounds ⟨j, ch⟩ (r :: rounds.filter (·.arrives)) =
            (lastSetInRounds ⟨j, ch⟩ (rounds.filter (·.arrives))).or
              (lastSet ⟨j, ch⟩ r.calls) := by
          simp [lastSetInRounds, lastSet_append]
        rw [hset]
        cases hl : lastSetInRounds ⟨j, ch⟩ (rounds.filter (·.arrives)) with
        | some v => exact ⟨fun v' hv => i1 v' (hl.trans hv), fun hv => by cases hv⟩
        | none =>
          simp only [Option.none_or]
          exact ⟨fun v hv => i2 hl v (a3 v hv), fun hv v hs => i2 hl v (a4 hv v hs)⟩
    · cases h

end

theorem transfers_append (oc readBack : Bool) (c : Coupler) (last device : List Word)
    (xs ys : List Transfer) :
    transfers oc readBack c last device (xs ++ ys) =
      (transfers oc readBack c last device xs).bind fun s =>
        transfers oc readBack s.1 s.2.1 s.2.2 ys := by
  induction xs generalizing c last device with
  | nil => rfl
  | cons r xs ih =>
    simp only [List.cons_append, transfers]
    split
    · exact ih _ _ _
    · rfl

/-- C111 for applications that use the last returned image: whatever images got lost before, after a
round whose image arrives the device has the value of the last `set_output` to each output channel;
and what it had on at the start if there was none. -/
theorem C111_returned_partial (oc : Bool) (cfg : CouplerConfig) (c0 : Coupler)
    (h0 : Coupler.new cfg = .ok c0) (j : Nat) (hdis : OutputsKept cfg j)
    (t : ModuleType) (par : List Word) (o i : Word) (hcfg : ConfiguredAt cfg j t par o i)
    (ht : t ≠ .UR20_1COM_232_485_422) (hno : o ≠ noOffset)
    (hal : o.toNat % 16 = 0 ∨ outputBytes t par = 1) (ch : Nat) (hch : ch < outputChannels t)
    (rounds : List Transfer) (r : Transfer)
    (hcalls : ∀ r' ∈ rounds ++ [r], ∀ op ∈ r'.calls, op.IsCall) (hr : r.arrives = true)
    (start : List Word) (c : Coupler) (last device : List Word)
    (h : transfers oc false c0 start start (rounds ++ [r]) = some (c, last, device)) :
    (∀ v, lastSetInRounds ⟨j, ch⟩ (rounds ++ [r]) = some v →
      Settled t par device (outBit o) ch v) ∧
    (lastSetInRounds ⟨j, ch⟩ (rounds ++ [r]) = none → ∀ v, Settled t par start (outBit o) ch v →
      Settled t par device (outBit o) ch v) := by
  have hl : device = last := by
    rw [transfers_append] at h
    obtain ⟨s, -, h⟩ := Option.bind_eq_some_iff.1 h
    simp only [transfers, hr, if_true] at h
    split at h
    · cases h
      rfl
    · cases h
  subst hl
  exact last_holds hdis hcfg ht hno hal hch _ hcalls ⟨c0, [], h0, rfl⟩
    (((C13_success cfg).2 c0 h0).2.2.2.2.2 _) h

/-- C111 for applications that read the output image back from the device: the device has the value
of the last `set_output` in the rounds whose image arrived. Values set in a round whose image is lost
never reach the device. -/
theorem C111_read_back_partial (oc : Bool) (cfg : CouplerConfig) (c0 : Coupler)
    (h0 : Coupler.new cfg = .ok c0) (j : Nat) (hdis : OutputsKept cfg j)
    (t : ModuleType) (par : List Word) (o i : Word) (hcfg : ConfiguredAt cfg j t par o i)
    (ht : t ≠ .UR20_1COM_232_485_422) (hno : o ≠ noOffset)
    (hal : o.toNat % 16 = 0 ∨ outputBytes t par = 1) (ch : Nat) (hch : ch < outputChannels t)
    (rounds : List Transfer) (hcalls : ∀ r ∈ rounds, ∀ op ∈ r.calls, op.IsCall)
    (start : List Word) (c : Coupler) (last device : List Word)
    (h : transfers oc true c0 start start rounds = some (c, last, device)) :
    (∀ v, lastSetInRounds ⟨j, ch⟩ (rounds.filter (·.arrives)) = some v →
      Settled t par device (outBit o) ch v) ∧
    (lastSetInRounds ⟨j, ch⟩ (rounds.filter (·.arrives)) = none →
      ∀ v, Settled t par start (outBit o) ch v → Settled t par device (outBit o) ch v) :=
  device_holds hdis hcfg ht hno hal hch _ hcalls ⟨c0, [], h0, rfl⟩
    (((C13_success cfg).2 c0 h0).2.2.2.2.2 _) h

/-- The first round switches a relay on, its image is lost; the second round has no calls. -/
def exLost : List Transfer :=
  [⟨[.setOutput ⟨0, 1⟩ (.bit true)], [], false⟩, ⟨[], [], true⟩]

theorem exRelay_one {j : Nat} {t : ModuleType} {par : List Word} {o i : Word}
    (h : ConfiguredAt exRelay j t par o i) : j = 0 := by
  have := (List.getElem?_eq_some_iff.1 h.1).1
  simp [exRelay] at this
  omega

theorem exRelay_disjoint : DisjointOutputs exRelay := by
  refine disjointOutputs_of ?_
  intro j k t par o i t' par' o' i' p h1 h2 _ _ _ _ _ _
  rw [exRelay_one h1, exRelay_one h2]

theorem exLost_calls : ∀ r ∈ exLost, ∀ op ∈ r.calls, op.IsCall := by
  simp [exLost, COp.IsCall]

/-- If the application uses the last returned image, the relay is on at the end; if it reads the
image back, it stays off. -/
example : ∃ c, Coupler.new exRelay = .ok c ∧
    (transfers true false c [0#16] [0#16] exLost).map (·.2) = some ([2#16], [2#16]) ∧
    (transfers true true c [0#16] [0#16] exLost).map (·.2) = some ([0#16], [0#16]) :=
  ⟨_, rfl, rfl, rfl⟩

/-- C111 is false: an application that reads the output image back from the device loses the values
set in a round whose image is lost. -/
theorem C111_statement_false : ¬ C111_statement := by
  intro h
  obtain ⟨c, d, h0, h1⟩ : ∃ c d, Coupler.new exRelay = .ok c ∧
      transfers true true c [0#16] [0#16] exLost = some (d, [0#16], [0#16]) :=
    ⟨_, _, rfl, rfl⟩
  obtain ⟨b, h2, h3⟩ := h true true exRelay c h0 exRelay_disjoint 0 .UR20_4RO_CO_255 _ 0x8000#16 _
    ⟨rfl, rfl, rfl, rfl⟩ (by decide) (by decide) (by decide) 1 (by decide) [_] _
    exLost_calls rfl _ _ _ _ h1 (.bit true) rfl
  rcases h3 with h3 | ⟨h3, -⟩
  · cases h3
    revert h2
    decide
  · cases h3

end Ur20
