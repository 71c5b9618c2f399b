import Verif.Spec.Loop
import Verif.Props.Channels
import Verif.Props.Success
import Verif.Props.SerialCoupler

/-!
# An application that runs a coupler in a loop: C85
-/

namespace Ur20

open Spec Coupler Com

theorem registersUpTo_mono (cfg : CouplerConfig) {a b : Nat} (h : a ≤ b) :
    registersUpTo cfg a ≤ registersUpTo cfg b := by
  induction b with
  | zero =>
    have : a = 0 := by omega
    subst this
    exact Nat.le_refl _
  | succ b ih =>
    by_cases hab : a = b + 1
    · subst hab; exact Nat.le_refl _
    · exact Nat.le_trans (ih (by omega)) (Nat.le_add_right _ _)

theorem registersUpTo_at {cfg : CouplerConfig} {j : Nat} {t : ModuleType} {par : List Word}
    {o i : Word} (hcfg : ConfiguredAt cfg j t par o i) (hno : o ≠ noOffset)
    (h0 : o.toNat % 16 = 0) :
    registersUpTo cfg (j + 1) = registersUpTo cfg j + (outputBytes t par + 1) / 2 := by
  obtain ⟨h1, h2, h3, -⟩ := hcfg
  simp only [registersUpTo, h1, h2, h3, if_pos (And.intro hno h0)]

/-- The returned image has room for all modules. -/
theorem covers_returned {cfg : CouplerConfig} {po img : List Word} {j : Nat} {t : ModuleType}
    {par : List Word} {o i : Word} (hcfg : ConfiguredAt cfg j t par o i) (hno : o ≠ noOffset)
    (hin : InPlace o (registersUpTo cfg j)) (hcov : Covers po (outBit o) (outputBytes t par))
    (hlen : img.length = registersUpTo cfg cfg.modules.length) :
    Covers img (outBit o) (outputBytes t par) := by
  obtain ⟨h1, h2, h3⟩ := hcov
  refine ⟨h1, h2, ?_⟩
  have hj : j < cfg.modules.length := (List.getElem?_eq_some_iff.1 hcfg.1).1
  have hm := registersUpTo_mono cfg (show j + 1 ≤ cfg.modules.length from hj)
  obtain ⟨hb, hp⟩ := hin
  unfold outBit outputBase at *
  rcases hp with hp | ⟨hn, hp⟩
  · rw [registersUpTo_at hcfg hno (by omega)] at hm
    omega
  · have := registersUpTo_mono cfg (Nat.le_succ j)
    rw [Nat.succ_eq_add_one] at this
    rcases h2 with h2 | ⟨-, h2⟩ <;> omega

/-- All bytes but the last one of a module that starts at a register are its own, also if later
modules overlap it. -/
theorem inner_bytes {inf : List (Module × ModuleOffset)} {vals : List (List ChannelValue)}
    {img : List Word} (h : processOutputValues inf vals = .ok img)
    {j : Nat} {m : Module} {off : ModuleOffset} {oo : Word}
    (hj : inf[j]? = some (m, off)) (ho : off.output = some oo) (h0 : oo.toNat % 16 = 0) :
    ∃ vs d, vals[j]? = some vs ∧ m.processOutputValues vs = .ok d ∧
      ∀ k, k + 1 < 2 * d.length → byteAt img (outByte oo + k) = byteAt d k := by
  obtain ⟨-, -, hmod⟩ := C41_layout inf vals img h
  obtain ⟨vs, d, h1, h2, h3, h4, -, h6⟩ := hmod j m off oo hj ho
  refine ⟨vs, d, h1, h2, fun k hk => h6 k (by rw [if_neg (by omega)]; omega) ?_⟩
  intro j' m' off' o' hlt hj' ho' ⟨h7, h8⟩
  obtain ⟨-, -, -, -, -, h9, -, -⟩ := hmod j' m' off' o' hj' ho'
  have hm : registersBefore inf (j + 1) ≤ registersBefore inf j' := by
    clear h7 h8 h9 hj' ho'
    induction j' with
    | zero => omega
    | succ n ih =>
      rcases Nat.lt_or_ge j n with hn | hn
      · refine (ih hn).trans ?_
        rw [registersBefore_succ]; omega
      · rw [show n = j by omega]
  have ha : registersBefore inf (j + 1) = registersBefore inf j + d.length := by
    rw [registersBefore_succ]
    simp [hj, registersAdded, ho, h0, h3]
  obtain ⟨-, h4⟩ := h4
  obtain ⟨-, h9⟩ := h9
  unfold outByte outputBase at *
  omega

/-- The length field of a serial frame in the returned image is valid. -/
theorem fits_returned {inf : List (Module × ModuleOffset)} {vals : List (List ChannelValue)}
    {img : List Word} (h : processOutputValues inf vals = .ok img)
    {j : Nat} {cm : Com.Mod} {off : ModuleOffset} {oo : Word}
    (hj : inf[j]? = some (.com cm, off)) (ho : off.output = some oo) (h0 : oo.toNat % 16 = 0) :
    FrameFits img (outByte oo) cm.processDataLen.byteCount := by
  obtain ⟨vs, d, h1, h2, h5⟩ := inner_bytes h hj ho h0
  simp only [Module.processOutputValues, Com.Mod.processOutputValues] at h2
  split at h2
  · split at h2
    · cases h2
    · rename_i o hlen
      simp only [Res.bind_eq, Res.bind_eq_ok, Res.pure_eq, Res.ok.injEq] at h2
      obtain ⟨bytes, h6, h7⟩ := h2
      obtain ⟨hc1, hc2, hc3⟩ := (C20_errors o cm.processDataLen).2.2.1 ⟨_, h6⟩
      obtain ⟨b', g1, g2, g3⟩ := C19_round_trip o cm.processDataLen (by omega) (by omega) hc3
      rw [h6] at g1
      cases g1
      have hbc : capacity cm.processDataLen + 2 = cm.processDataLen.byteCount := by
        cases cm.processDataLen <;> rfl
      have h8 : 8 ≤ cm.processDataLen.byteCount := by cases cm.processDataLen <;> decide
      have hev : bytes.length % 2 = 0 := by
        rw [g2, hbc]; cases cm.processDataLen <;> rfl
      intro b hb
      rw [h5 1 (by rw [← h7, u8ToU16_length]; omega), ← h7, byteAt_eq,
        u16ToU8_u8ToU16 _ hev] at hb
      apply Nat.le_of_not_lt
      intro hlt
      rw [((C21_output bytes).1).2 (.inr ⟨b, hb, by omega⟩)] at g3
      cases g3
  · cases h2

/-- The presets of a counter module in the returned image are in range. -/
theorem presets_returned {inf : List (Module × ModuleOffset)} {vals : List (List ChannelValue)}
    {img : List Word} (h : processOutputValues inf vals = .ok img)
    {j : Nat} {fm : Fcnt.Mod} (hf : fm.chParams.length = 2) {off : ModuleOffset} {oo : Word}
    (hj : inf[j]? = some (.fcnt fm, off)) (ho : off.output = some oo) (h0 : oo.toNat % 16 = 0)
    {ch us : Nat} (hch : ch < 2) (hus : presetAt img (outByte oo + 4 * ch) = some us) :
    us ≤ 0x7FFFFF := by
  obtain ⟨vs, d, -, h2, h5⟩ := inner_bytes h hj ho h0
  have hvs : vs.length = 2 := by
    simp only [Module.processOutputValues, Fcnt.Mod.processOutputValues] at h2
    split at h2
    · cases h2
    · rename_i h; simpa [ModuleType.channelCount] using h
  obtain ⟨v0, v1, rfl⟩ := length_two hvs
  rw [fcnt_encode fm hf] at h2
  have hw : ∀ {v : ChannelValue} {a}, counterWords v = some a →
      a.1.toNat * 65536 + a.2.1.toNat ≤ 0x7FFFFF := by
    intro v a ha
    cases v <;> simp only [counterWords] at ha <;> try cases ha
    · split at ha
      · cases ha
        simp only [microHi, microLo, BitVec.toNat_ofNat]
        omega
      · cases ha
    · decide
  split at h2
  · rename_i a b ha hb
    cases h2
    have e : presetAt img (outByte oo + 4 * ch) =
        presetAt [a.1, a.2.1, b.1, b.2.1, a.2.2, b.2.2] (4 * ch) := by
      unfold presetAt
      rw [Nat.add_assoc, Nat.add_assoc, Nat.add_assoc, h5 _ (by simp; omega), h5 _ (by simp; omega),
        h5 _ (by simp; omega), h5 _ (by simp; omega)]
    rw [e, show 4 * ch = 2 * (2 * ch) by omega, presetAt_registers] at hus
    obtain ⟨hi, lo, e1, e2, rfl⟩ := hus
    have : ch = 0 ∨ ch = 1 := by omega
    rcases this with rfl | rfl
    · simp at e1 e2
      subst e1 e2
      exact hw ha
    · simp at e1 e2
      subst e1 e2
      exact hw hb
  · cases h2

/-- The image a successful cycle returns can be given to the next one. -/
theorem Spec.OutputsReady.registers {cfg : CouplerConfig} {po : List Word} (h : OutputsReady cfg po)
    (j : Nat) (t : ModuleType) (par : List Word) (o i : Word) (hcfg : ConfiguredAt cfg j t par o i)
    (hno : o ≠ noOffset) :
    InPlace o (registersUpTo cfg j) ∧ HasRegisters po (outBit o) (outputBytes t par) ∧
    (t = .UR20_1COM_232_485_422 → FrameFits po (outByte o) (outputBytes t par)) := by
  obtain ⟨h1, h2, h3⟩ := h.data j t par o i hcfg hno
  refine ⟨h1, (hasRegisters_iff_covers bytes_even.2 ?_).2 h2, h3⟩
  rcases h2.2.1 with h | ⟨-, h⟩
  · exact .inl h
  · exact .inr h

theorem outputs_returned {oc : Bool} {cfg : CouplerConfig} {c : Coupler}
    (hr : ReachableFrom oc cfg c) {pi po img : List Word}
    {c' : Coupler} (hpo : OutputsReady cfg po) (hcom : CompleteImages cfg pi po)
    (henc : Encodable cfg c.write po)
    (h : c.next oc pi po = (c', .ok img)) : OutputsReady cfg img := by
  have hlen : img.length = registersUpTo cfg cfg.modules.length := by
    obtain ⟨c1, img1, h1, h2⟩ := C68_success oc cfg c hr pi po hcom henc
    rw [h] at h1
    cases h1
    exact h2
  refine ⟨?_, ?_⟩
  · intro j t par o i hcfg hno
    obtain ⟨hin, hcov, hfit⟩ := hpo.data j t par o i hcfg hno
    refine ⟨hin, covers_returned hcfg hno hin hcov hlen, fun ht => ?_⟩
    obtain ⟨m, hm, hc⟩ := configured_at hr hcfg
    obtain ⟨cm, rfl⟩ := (isSerial_type hc).2 ht
    obtain ⟨ins, outs, st, rs, -, -, -, -, himg⟩ := next_ok h
    have hb : cm.processDataLen.byteCount = outputBytes t par := (create_bytes hc).2
    have h8 : 8 ≤ cm.processDataLen.byteCount := by cases cm.processDataLen <;> decide
    have h0 : o.toNat % 16 = 0 := by
      obtain ⟨-, h2, -⟩ := hcov
      obtain ⟨h3, -⟩ := hin
      unfold outBit outputBase at *
      rcases h2 with h2 | ⟨-, h2⟩ <;> omega
    rw [← hb]
    exact fits_returned himg (infos_getElem? hm)
      (wordToOffset_some.2 ⟨hno, rfl⟩) h0
  · intro j t par o i ch us0 hcfg hno ht hch hus
    obtain ⟨hin, hcov, -⟩ := hpo.data j t par o i hcfg hno
    have h0 : o.toNat % 16 = 0 ∨ outputBytes t par = 1 := by
      obtain ⟨-, h2, -⟩ := hcov
      obtain ⟨h3, -⟩ := hin
      unfold outBit outputBase at *
      rcases h2 with h2 | ⟨-, h2⟩ <;> omega
    obtain ⟨m, hm, hc⟩ := configured_at hr hcfg
    subst ht
    obtain ⟨fm, rfl, h2⟩ := fcnt_params hc
    obtain ⟨ins, outs, st, rs, -, -, -, -, himg⟩ := next_ok h
    exact presets_returned himg h2 (infos_getElem? hm) (wordToOffset_some.2 ⟨hno, rfl⟩)
      (h0.resolve_right (by simp [outputBytes])) hch hus

/-- Every pending value is one its module accepts. -/
def PendingAccepted (cfg : CouplerConfig) (c : Coupler) : Prop :=
  ∀ a v t, c.write a = some v → cfg.modules[a.module]? = some t → Accepts t v

theorem pending_calls {oc : Bool} {cfg : CouplerConfig} {c : Coupler} {calls : List COp}
    (h : PendingAccepted cfg c) (hc : AcceptedCalls cfg calls) :
    PendingAccepted cfg (runC oc c calls) := by
  induction calls generalizing c with
  | nil => exact h
  | cons op calls ih =>
    refine ih ?_ ⟨fun x hx => hc.1 x (List.mem_cons_of_mem _ hx),
      fun a v hx => hc.2 a v (List.mem_cons_of_mem _ hx)⟩
    cases op with
    | setOutput a v =>
      intro b w t hw ht
      simp only [COp.apply, Coupler.setOutput] at hw
      split at hw
      · exact h b w t hw ht
      · simp only [Coupler.insert] at hw
        split at hw
        · rename_i hb
          cases hw
          exact hc.2 a _ (List.mem_cons_self) t (by rwa [hb] at ht)
        · exact h b w t hw ht
    | next pi po => exact (hc.1 _ List.mem_cons_self).elim
    | read n len =>
      have : ((COp.read n len).apply oc c).write = c.write := by
        simp only [COp.apply, Coupler.read]
        cases c.processors n with
        | none => rfl
        | some p => simp only [read_ok, Res.bind_ok]; rfl
      intro b w t hw ht
      rw [this] at hw
      exact h b w t hw ht
    | write n buf =>
      have : ((COp.write n buf).apply oc c).write = c.write := by
        simp only [COp.apply, Coupler.writeBytes]
        cases c.processors n <;> rfl
      intro b w t hw ht
      rw [this] at hw
      exact h b w t hw ht

/-- A loop with accepted calls from a good state. -/
theorem closedLoop_runs {oc : Bool} {cfg : CouplerConfig}
    (rounds : List (List COp × List Word)) (hrounds : ∀ r ∈ rounds,
      AcceptedCalls cfg r.1 ∧ InputsReady cfg r.2) {c : Coupler} (hr : ReachableFrom oc cfg c)
    (hp : PendingAccepted cfg c) {po : List Word} (hpo : OutputsReady cfg po) :
    ∃ c' po', closedLoop oc c po rounds = some (c', po') ∧ OutputsReady cfg po' ∧
      (rounds ≠ [] → po'.length = registersUpTo cfg cfg.modules.length) := by
  induction rounds generalizing c po with
  | nil => exact ⟨c, po, rfl, hpo, fun h => absurd rfl h⟩
  | cons r rounds ih =>
    obtain ⟨calls, pi⟩ := r
    obtain ⟨hc, hi⟩ := hrounds _ List.mem_cons_self
    have hp' := pending_calls (oc := oc) hp hc
    have hr' : ReachableFrom oc cfg (runC oc c calls) := by
      obtain ⟨c0, ops, h0, rfl⟩ := hr
      exact ⟨c0, ops ++ calls, h0, by simp [runC, List.foldl_append]⟩
    have hcom : CompleteImages cfg pi po := ⟨hi, hpo.registers⟩
    have henc : Encodable cfg (runC oc c calls).write po :=
      ⟨fun j t par o i ch v hcfg _ hw => hp' _ _ _ hw hcfg.1,
        fun j t par o i ch us hcfg hno ht hch _ => hpo.preset j t par o i ch us hcfg hno ht hch⟩
    obtain ⟨c', img, hn, hl⟩ := C68_success oc cfg _ hr' pi po hcom henc
    have hr'' : ReachableFrom oc cfg c' := by
      obtain ⟨c0, ops, h0, h1⟩ := hr'
      refine ⟨c0, ops ++ [.next pi po], h0, ?_⟩
      rw [runC, List.foldl_append]
      show c' = (COp.next pi po).apply oc (runC oc c0 ops)
      rw [← h1, COp.apply, hn]
    have hp'' : PendingAccepted cfg c' := by
      intro a v t hw ht
      by_cases hs : t = .UR20_1COM_232_485_422
      · subst hs; trivial
      · rw [C34_consumed oc cfg _ hr' pi po img c' hn a (by rw [ht]; simpa using hs)] at hw
        cases hw
    obtain ⟨d, po', h1, h2, h3⟩ := ih (fun r hr => hrounds r (List.mem_cons_of_mem _ hr)) hr'' hp''
      (outputs_returned hr' hpo hcom henc hn)
    refine ⟨d, po', ?_, h2, fun _ => ?_⟩
    · simp only [closedLoop, hn]; exact h1
    · cases rounds with
      | nil => cases h1; exact hl
      | cons _ _ => exact h3 (by simp)

/-- C85: the image a cycle returns is what the next one needs. If the first output image is complete
and the input images are, and only values the modules accept are written, then every cycle of a loop
succeeds, however long it is and whatever else is called in between. -/
theorem C85_closed_loop (oc : Bool) (cfg : CouplerConfig) (c0 : Coupler)
    (h0 : Coupler.new cfg = .ok c0) (po : List Word)
    (hpo : OutputsReady cfg po) (rounds : List (List COp × List Word))
    (hrounds : ∀ r ∈ rounds, AcceptedCalls cfg r.1 ∧ InputsReady cfg r.2) :
    ∃ c po', closedLoop oc c0 po rounds = some (c, po') ∧ OutputsReady cfg po' ∧
      (rounds ≠ [] → po'.length = registersUpTo cfg cfg.modules.length) := by
  refine closedLoop_runs rounds hrounds ⟨c0, [], h0, rfl⟩ ?_ hpo
  intro a v t hw
  change c0.write a = some v at hw
  rw [((C13_success cfg).2 c0 h0).2.2.2.2.2 a] at hw
  cases hw

/-- C85: an image of zeros is a complete first output image. -/
theorem C85_zeros (cfg : CouplerConfig) (hp : Placed cfg) (n : Nat)
    (hn : registersUpTo cfg cfg.modules.length ≤ n) :
    OutputsReady cfg (List.replicate n 0#16) := by
  refine ⟨?_, ?_⟩
  · intro j t par o i hcfg hno
    obtain ⟨hin, hb, hal⟩ := hp j t par o i hcfg hno
    have hj : j < cfg.modules.length := (List.getElem?_eq_some_iff.1 hcfg.1).1
    have hm := registersUpTo_mono cfg (show j + 1 ≤ cfg.modules.length from hj)
    have hs := registersUpTo_mono cfg (Nat.le_succ j)
    rw [Nat.succ_eq_add_one] at hs
    refine ⟨hin, ⟨hb, ?_, ?_⟩, fun ht => ?_⟩
    · obtain ⟨h1, h2⟩ := hin
      unfold outBit outputBase at *
      rcases h2 with h2 | ⟨-, h2⟩ <;> omega
    · rw [List.length_replicate]
      obtain ⟨h1, h2⟩ := hin
      unfold outBit outputBase at *
      rcases h2 with h2 | ⟨h3, h2⟩
      · rw [registersUpTo_at hcfg hno (by omega)] at hm
        omega
      · omega
    · intro b hb'
      have h8 : 8 ≤ outputBytes t par := by
        subst ht; simp only [outputBytes]; split <;> omega
      have : b = 0#8 := by
        unfold byteAt at hb'
        rw [List.getElem?_replicate] at hb'
        split at hb'
        · simpa using hb'.symm
        · cases hb'
      subst this
      simp
      omega
  · intro j t par o i ch us _ _ _ _ hus
    have hz : ∀ p b, byteAt (List.replicate n 0#16) p = some b → b = 0#8 := by
      intro p b hb
      unfold byteAt at hb
      rw [List.getElem?_replicate] at hb
      split at hb
      · simpa using hb.symm
      · cases hb
    unfold presetAt at hus
    split at hus
    · rename_i h0 h1 h2 h3
      cases hus
      rw [hz _ _ h0, hz _ _ h1, hz _ _ h2, hz _ _ h3]
      decide
    · cases hus

/-! ### C86: outputs keep their values -/

theorem lastSet_append (a : Address) (l l' : List COp) :
    lastSet a (l ++ l') = (lastSet a l').or (lastSet a l) := by
  induction l with
  | nil => simp [lastSet]
  | cons op l ih => cases op <;> simp [lastSet, ih, Option.or_assoc]

theorem write_calls {oc : Bool} {c : Coupler} {a : Address} (hv : c.isValidAddr a = true)
    {calls : List COp} (hc : ∀ op ∈ calls, op.IsCall) :
    (runC oc c calls).write a = (lastSet a calls).or (c.write a) := by
  induction calls generalizing c with
  | nil => simp [lastSet, runC]
  | cons op calls ih =>
    have hrun : runC oc c (op :: calls) = runC oc (op.apply oc c) calls := rfl
    rw [hrun, ih (by rw [isValidAddr_congr (apply_static oc c op).1]; exact hv)
      fun x hx => hc x (List.mem_cons_of_mem _ hx)]
    cases op with
    | setOutput b v =>
      rw [setOutput_state]
      simp only [lastSet, Option.or_assoc]
      congr 1
      by_cases hb : b = a
      · subst hb
        simp [hv, Coupler.insert]
      · rw [if_neg hb, Option.none_or]
        split
        · simp only [Coupler.insert, if_neg (fun h : a = b => hb h.symm)]
        · rfl
    | next pi po => exact (hc _ List.mem_cons_self).elim
    | read n len =>
      have : ((COp.read n len).apply oc c).write = c.write := by
        simp only [COp.apply, Coupler.read]
        cases c.processors n with
        | none => rfl
        | some p => simp only [read_ok, Res.bind_ok]; rfl
      rw [this]
      rfl
    | write n buf =>
      have : ((COp.write n buf).apply oc c).write = c.write := by
        simp only [COp.apply, Coupler.writeBytes]
        cases c.processors n <;> rfl
      rw [this]
      rfl

theorem settled_written {t : ModuleType} {par old new : List Word} {pos ch : Nat} {v : ChannelValue}
    (h : OutputWritten t par old new pos ch (some v)) : Settled t par new pos ch v := by
  cases t <;> simp only [OutputWritten] at h <;> simp only [Settled] <;>
    first
    | (obtain ⟨b, b', -, h2, h3⟩ := h
       refine ⟨b', h2, ?_⟩
       cases v <;> (simp_all; done))
    | (obtain ⟨us, us', ctl, ctl', -, h2, h3⟩ := h
       refine ⟨us', ctl', h2, ?_⟩
       cases v <;> simp_all [CounterWritten])
    | (obtain ⟨w, w', f, r, h1, h2, h3, h4, h5⟩ := h
       intro r' f' hf hr
       cases paramIs_format h3 hf.1
       cases paramIs_range h4 hf.2
       refine ⟨w', w'.toInt, h2, ?_, fun _ => rfl, by omega, by omega⟩
       cases v <;> simp_all [AnalogWritten])

theorem settled_kept {t : ModuleType} {par old new : List Word} {pos ch : Nat} {v : ChannelValue}
    (h : OutputWritten t par old new pos ch none) (hs : Settled t par old pos ch v) :
    Settled t par new pos ch v := by
  cases t <;> simp only [OutputWritten] at h <;> simp only [Settled] at hs ⊢ <;>
    first
    | (obtain ⟨b, b', h1, h2, rfl⟩ := h
       obtain ⟨c, h4, h5⟩ := hs
       rw [h1] at h4
       cases h4
       exact ⟨b', h2, h5⟩)
    | (obtain ⟨us, us', ctl, ctl', ⟨a1, a2, a3, a4, a5, a6⟩, h2, h3⟩ := h
       obtain ⟨us0, ctl0, ⟨b1, b2, b3, b4, b5, b6⟩, h5⟩ := hs
       rw [a3] at b3
       cases b3
       rw [a4] at b4
       cases b4
       rw [a6] at b6
       cases b6
       obtain ⟨rfl, rfl⟩ := h3
       rw [← b5] at a5
       subst a5
       refine ⟨_, _, h2, ?_⟩
       rcases h5 with ⟨x, h6, h7, h8⟩ | ⟨h6, h7, h8⟩
       · exact .inl ⟨x, h6, h7, by rw [h8, commandIn_controlOf]⟩
       · exact .inr ⟨h6, h7, by rw [h8]; decide⟩)
    | (obtain ⟨w, w', f, r, h1, h2, h3, h4, h5⟩ := h
       intro r' f' hf hr
       obtain ⟨w0, e, b1, b2, b3, b4, b5⟩ := hs r' f' hf hr
       cases paramIs_format h3 hf.1
       cases paramIs_range h4 hf.2
       rw [h1] at b1
       cases b1
       simp only [AnalogWritten, AnalogKept, if_neg hr] at h5
       obtain ⟨k1, k2, k3, k4, k5⟩ := h5
       have k2' : w.toInt % 27 = 0 → w'.toInt = w.toInt := fun h =>
         congrArg BitVec.toInt (k2 (Int.dvd_of_emod_eq_zero h))
       refine ⟨w', e, h2, b2, fun hf => by rw [k1 hf]; exact b3 hf, ?_, ?_⟩ <;> omega)

theorem valid_output {oc : Bool} {cfg : CouplerConfig} {c : Coupler} (hr : ReachableFrom oc cfg c)
    {j : Nat} {t : ModuleType} {par : List Word} {o i : Word} (hcfg : ConfiguredAt cfg j t par o i)
    {ch : Nat} (hch : ch < outputChannels t) : c.isValidAddr ⟨j, ch⟩ = true := by
  obtain ⟨m, hm, hc⟩ := configured_at hr hcfg
  unfold isValidAddr
  simp only [hm.1, decide_eq_true_eq]
  rw [isCreated_channels (create_good hc)]
  cases t <;> simp only [outputChannels] at hch <;> simp [ModuleType.channelCount] <;> omega

theorem loop_settles {oc : Bool} {cfg : CouplerConfig} {j : Nat} (hdis : OutputsKept cfg j)
    {t : ModuleType} {par : List Word} {o i : Word} (hcfg : ConfiguredAt cfg j t par o i)
    (ht : t ≠ .UR20_1COM_232_485_422) (hno : o ≠ noOffset)
    (hal : o.toNat % 16 = 0 ∨ outputBytes t par = 1) {ch : Nat} (hch : ch < outputChannels t)
    (rounds : List (List COp × List Word))
    (hcalls : ∀ r ∈ rounds, ∀ op ∈ r.1, op.IsCall) {c c' : Coupler} {po po' : List Word}
    (hr : ReachableFrom oc cfg c) (hw : c.write ⟨j, ch⟩ = none)
    (h : closedLoop oc c po rounds = some (c', po')) :
    (∀ v, lastSetIn ⟨j, ch⟩ rounds = some v → Settled t par po' (outBit o) ch v) ∧
    (∀ v, lastSetIn ⟨j, ch⟩ rounds = none → Settled t par po (outBit o) ch v →
      Settled t par po' (outBit o) ch v) := by
  induction rounds generalizing c po with
  | nil =>
    cases h
    exact ⟨fun v hv => by simp [lastSetIn, lastSet] at hv, fun v _ hs => hs⟩
  | cons r rounds ih =>
    obtain ⟨calls, pi⟩ := r
    simp only [closedLoop] at h
    have hset : lastSetIn ⟨j, ch⟩ ((calls, pi) :: rounds) =
        (lastSetIn ⟨j, ch⟩ rounds).or (lastSet ⟨j, ch⟩ calls) := by
      simp [lastSetIn, lastSet_append]
    have hr' : ReachableFrom oc cfg (runC oc c calls) := by
      obtain ⟨c0, ops, h0, rfl⟩ := hr
      exact ⟨c0, ops ++ calls, h0, by simp [runC, List.foldl_append]⟩
    have hwr := write_calls (oc := oc) (valid_output hr hcfg hch)
      (hcalls (calls, pi) List.mem_cons_self)
    rw [hw, Option.or_none] at hwr
    split at h
    · rename_i c1 img hn
      have hr'' : ReachableFrom oc cfg c1 := by
        obtain ⟨c0, ops, h0, h1⟩ := hr'
        refine ⟨c0, ops ++ [.next pi po], h0, ?_⟩
        rw [runC, List.foldl_append]
        show c1 = (COp.next pi po).apply oc (runC oc c0 ops)
        rw [← h1, COp.apply, hn]
      have hw' : c1.write ⟨j, ch⟩ = none :=
        C34_consumed oc cfg _ hr' pi po img c1 hn _ (by rw [hcfg.1]; simpa using ht)
      have himg := C72_image oc cfg _ hr' j hdis pi po img c1 hn t par o i hcfg ht hno hal ch hch
      rw [hwr] at himg
      obtain ⟨i1, i2⟩ := ih (fun r hr => hcalls r (List.mem_cons_of_mem _ hr)) hr'' hw' h
      rw [hset]
      cases hl : lastSetIn ⟨j, ch⟩ rounds with
      | some v =>
        simp only [Option.some_or]
        exact ⟨fun v' hv => i1 v' (by rw [hl, hv]), fun v' hv => by cases hv⟩
      | none =>
        simp only [Option.none_or]
        cases hc : lastSet ⟨j, ch⟩ calls with
        | some v =>
          rw [hc] at himg
          refine ⟨fun v' hv => ?_, fun v' hv => by cases hv⟩
          cases hv
          exact i2 _ hl (settled_written himg)
        | none =>
          rw [hc] at himg
          exact ⟨fun v' hv => (by cases hv), fun v' _ hs => i2 _ hl (settled_kept himg hs)⟩
    · cases h

/-- C86: in a loop that feeds the returned image back, every output channel holds the value of the
last `set_output` to it, however many rounds ago and whatever is written elsewhere. -/
theorem C86_holds_last (oc : Bool) (cfg : CouplerConfig) (c0 : Coupler)
    (h0 : Coupler.new cfg = .ok c0) (j : Nat) (hdis : OutputsKept cfg j)
    (t : ModuleType) (par : List Word) (o i : Word) (hcfg : ConfiguredAt cfg j t par o i)
    (ht : t ≠ .UR20_1COM_232_485_422) (hno : o ≠ noOffset)
    (hal : o.toNat % 16 = 0 ∨ outputBytes t par = 1) (ch : Nat) (hch : ch < outputChannels t)
    (rounds : List (List COp × List Word)) (hcalls : ∀ r ∈ rounds, ∀ op ∈ r.1, op.IsCall)
    (c : Coupler) (po po' : List Word) (h : closedLoop oc c0 po rounds = some (c, po')) :
    (∀ v, lastSetIn ⟨j, ch⟩ rounds = some v → Settled t par po' (outBit o) ch v) ∧
    (∀ v, lastSetIn ⟨j, ch⟩ rounds = none → Settled t par po (outBit o) ch v →
      Settled t par po' (outBit o) ch v) :=
  loop_settles hdis hcfg ht hno hal hch rounds hcalls ⟨c0, [], h0, rfl⟩
    (((C13_success cfg).2 c0 h0).2.2.2.2.2 _) h

theorem exCfg_disjoint : DisjointOutputs exCfg := by
  refine disjointOutputs_of ?_
  intro j k t par o i t' par' o' i' p h1 h2 n1 n2 a1 a2 b1 b2
  rcases exCfg_at h1 with ⟨rfl, rfl, rfl, rfl, rfl⟩ | ⟨rfl, rfl, rfl, rfl, rfl⟩ |
    ⟨rfl, rfl, rfl, rfl, rfl⟩ | ⟨rfl, rfl, rfl, rfl, rfl⟩ <;>
  rcases exCfg_at h2 with ⟨rfl, rfl, rfl, rfl, rfl⟩ | ⟨rfl, rfl, rfl, rfl, rfl⟩ |
    ⟨rfl, rfl, rfl, rfl, rfl⟩ | ⟨rfl, rfl, rfl, rfl, rfl⟩ <;>
  first
  | rfl
  | exact absurd rfl n1
  | exact absurd rfl n2
  | (exfalso
     simp [outByte, outputBase, outputBytes] at a1 a2 b1 b2
     omega)

theorem exCfg_placed : Placed exCfg := by
  intro j t par o i h hno
  rcases exCfg_at h with ⟨rfl, rfl, rfl, rfl, rfl⟩ | ⟨rfl, rfl, rfl, rfl, rfl⟩ |
    ⟨rfl, rfl, rfl, rfl, rfl⟩ | ⟨rfl, rfl, rfl, rfl, rfl⟩
  · exact ⟨by unfold InPlace; decide, by decide, by decide⟩
  · exact ⟨by unfold InPlace; decide, by decide, by decide⟩
  · exact absurd rfl hno
  · exact ⟨by unfold InPlace; decide, by decide, by decide⟩

/-- Three rounds: a write to module 1, a serial write, and a round without calls. -/
def exRounds : List (List COp × List Word) :=
  [([.setOutput ⟨1, 2⟩ (.bit true)], exPi), ([.write 3 [1#8, 2#8], .read 3 4], exPi), ([], exPi)]

theorem exRounds_ok : ∀ r ∈ exRounds, AcceptedCalls exCfg r.1 ∧ InputsReady exCfg r.2 := by
  intro r hr
  simp only [exRounds, List.mem_cons, List.not_mem_nil, or_false] at hr
  rcases hr with rfl | rfl | rfl
  · refine ⟨⟨by simp [COp.IsCall], ?_⟩, ex_complete.input⟩
    intro a v hm t ht
    simp only [List.mem_cons, COp.setOutput.injEq, List.not_mem_nil, or_false] at hm
    obtain ⟨rfl, rfl⟩ := hm
    cases ht
    exact .inr ⟨_, rfl⟩
  · exact ⟨⟨by simp [COp.IsCall], by simp⟩, ex_complete.input⟩
  · exact ⟨⟨by simp, by simp⟩, ex_complete.input⟩

/-- The three rounds run from an image of zeros, and the bit written in the first is still set at the
end. -/
example : ∃ c po', closedLoop true (initial exCfg exModules) (List.replicate 5 0#16) exRounds =
    some (c, po') ∧ po'.length = 5 ∧ bitAt po' 10 = some true := by
  obtain ⟨c, po', h1, -, h3⟩ := C85_closed_loop true exCfg _ exCfg_new _
    (C85_zeros exCfg exCfg_placed 5 (by decide)) exRounds exRounds_ok
  refine ⟨c, po', h1, h3 (by simp [exRounds]), ?_⟩
  have := (C86_holds_last true exCfg _ exCfg_new 1 (exCfg_disjoint 1) .UR20_8DO_P _ 0x8008#16 _
    ⟨rfl, rfl, rfl, rfl⟩ (by decide) (by decide) (by decide) 2 (by decide) exRounds
    (fun r hr => (exRounds_ok r hr).1.1) c _ po' h1).1 (.bit true) rfl
  obtain ⟨b, hb, h⟩ := this
  rcases h with h | ⟨h, -⟩
  · cases h; exact hb
  · cases h

end Ur20
