import Verif.Props.Loop
import Verif.Props.Settle

/-! # Analog outputs in a loop settle: C86, C107 -/

namespace Ur20

open Spec Com Coupler

/-- One channel of an analog output module of a configuration in a successful cycle. -/
theorem analog_cycle_cfg {oc : Bool} {cfg : CouplerConfig} {c : Coupler}
    (hr : ReachableFrom oc cfg c) {j : Nat} (hdis : OutputsKept cfg j)
    {pi po img : List Word} {c' : Coupler} (h : c.next oc pi po = (c', .ok img))
    {t : ModuleType} {par : List Word} {o i : Word} (hcfg : ConfiguredAt cfg j t par o i)
    (hno : o ≠ noOffset) (hal : o.toNat % 16 = 0) {ch : Nat} (hch : ch < 4) {r : AnalogUIRange}
    {f : DataFormat} (hf : OutputFormat t par ch r f) :
    ∃ w w' : Word, po[outBit o / 16 + ch]? = some w ∧ img[outBit o / 16 + ch]? = some w' ∧
      valueToU16 ((c.write ⟨j, ch⟩).getD (channelValue (r, f) w)) r f = .ok w' := by
  have hdis' := kept_infos hr hdis
  obtain ⟨m, hm, hc⟩ := configured_at hr hcfg
  have ho : wordToOffset o = some o := wordToOffset_some.2 ⟨hno, rfl⟩
  cases t <;> try exact absurd hf id
  · obtain ⟨ps, h1, h2, h3⟩ := ao_params hc
    obtain ⟨f', r', hp, hf', hr'⟩ := h3 ch hch
    cases paramIs_format hf' hf.1
    cases paramIs_range hr' hf.2
    exact analog_cycle hr hdis' h hm h1 ho hal hp
  · obtain ⟨ps, h1, h2, h3⟩ := aoDiag_params hc
    obtain ⟨f', r', hp, hf', hr'⟩ := h3 ch hch
    cases paramIs_format hf' hf.1
    cases paramIs_range hr' hf.2
    exact analog_cycle hr hdis' h hm h1 ho hal hp

section

variable {oc : Bool} {cfg : CouplerConfig} {j : Nat} (hdis : OutputsKept cfg j)
  {t : ModuleType} {par : List Word} {o i : Word} (hcfg : ConfiguredAt cfg j t par o i)
  (hno : o ≠ noOffset) (hal : o.toNat % 16 = 0) {ch : Nat} (hch : ch < 4) {r : AnalogUIRange}
  {f : DataFormat} (hf : OutputFormat t par ch r f)

include hf in
theorem analog_channels (hch : ch < 4) : t ≠ .UR20_1COM_232_485_422 ∧ ch < outputChannels t := by
  cases t <;> first | exact absurd hf id | exact ⟨by decide, hch⟩

include hdis hcfg hno hal hch hf

/-- One round of a loop, with the register of the channel before and after. -/
theorem round_register {c c1 : Coupler} {po img pi : List Word} {calls : List COp}
    (hcalls : ∀ op ∈ calls, op.IsCall) (hr : ReachableFrom oc cfg c)
    (hw : c.write ⟨j, ch⟩ = none) (hn : (runC oc c calls).next oc pi po = (c1, .ok img)) :
    ReachableFrom oc cfg c1 ∧ c1.write ⟨j, ch⟩ = none ∧
    ∃ w w' : Word, po[outBit o / 16 + ch]? = some w ∧ img[outBit o / 16 + ch]? = some w' ∧
      (lastSet ⟨j, ch⟩ calls = none → w' = recode (r, f) w) ∧
      (∀ v, lastSet ⟨j, ch⟩ calls = some v →
        (∃ x, v = .decimal32 x ∧ EncodedAs (r, f) x w'.toInt) ∨ (v = .disabled ∧ w'.toInt = 0)) := by
  obtain ⟨ht, hch'⟩ := analog_channels hf hch
  have hr' := reachable_run hr calls
  have hwr := write_calls (oc := oc) (valid_output hr hcfg hch') hcalls
  rw [hw, Option.or_none] at hwr
  refine ⟨?_, C34_consumed oc cfg _ hr' pi po img c1 hn _ (by rw [hcfg.1]; simpa using ht), ?_⟩
  · have := reachable_run hr' [.next pi po]
    rwa [show runC oc (runC oc c calls) [.next pi po] = c1 from by
      change ((runC oc c calls).next oc pi po).1 = c1
      rw [hn]] at this
  · obtain ⟨w, w', h1, h2, h3⟩ := analog_cycle_cfg hr' hdis hn hcfg hno hal hch hf
    refine ⟨w, w', h1, h2, fun hl => ?_, fun v hl => ?_⟩
    · rw [hwr, hl] at h3
      exact recode_of_idle (p := (r, f)) h3
    · rw [hwr, hl] at h3
      have := analog_written (p := (r, f)) (w := w) (pending := some v) h3
      cases v <;> simp only [AnalogWritten] at this <;> try exact absurd this id
      · exact .inl ⟨_, rfl, this⟩
      · exact .inr ⟨rfl, by rw [this]; rfl⟩

/-- Rounds in which nothing is written to the channel. -/
theorem idle_rounds (rounds : List (List COp × List Word))
    (hcalls : ∀ r ∈ rounds, ∀ op ∈ r.1, op.IsCall) {c c' : Coupler} {po po' : List Word}
    (hr : ReachableFrom oc cfg c) (hw : c.write ⟨j, ch⟩ = none)
    (h : closedLoop oc c po rounds = some (c', po')) (hl : lastSetIn ⟨j, ch⟩ rounds = none)
    {w : Word} (hpo : po[outBit o / 16 + ch]? = some w) :
    po'[outBit o / 16 + ch]? = some ((recode (r, f))^[rounds.length] w) := by
  induction rounds generalizing c po w with
  | nil =>
    cases h
    exact hpo
  | cons x rounds ih =>
    obtain ⟨calls, pi⟩ := x
    simp only [closedLoop] at h
    have hset : lastSetIn ⟨j, ch⟩ ((calls, pi) :: rounds) =
        (lastSetIn ⟨j, ch⟩ rounds).or (lastSet ⟨j, ch⟩ calls) := by
      simp [lastSetIn, lastSet_append]
    rw [hset, Option.or_eq_none_iff] at hl
    split at h
    · rename_i c1 img hn
      obtain ⟨a1, a2, v, v', a3, a4, a5, -⟩ := round_register hdis hcfg hno hal hch hf
        (hcalls _ List.mem_cons_self) hr hw hn
      rw [hpo] at a3
      cases a3
      rw [a5 hl.2] at a4
      exact ih (fun r hr => hcalls r (List.mem_cons_of_mem _ hr)) a1 a2 h hl.1 a4
    · cases h

/-- Rounds in which something is written to the channel. -/
theorem set_rounds (rounds : List (List COp × List Word))
    (hcalls : ∀ r ∈ rounds, ∀ op ∈ r.1, op.IsCall) {c c' : Coupler} {po po' : List Word}
    (hr : ReachableFrom oc cfg c) (hw : c.write ⟨j, ch⟩ = none)
    (h : closedLoop oc c po rounds = some (c', po')) {v : ChannelValue}
    (hl : lastSetIn ⟨j, ch⟩ rounds = some v) :
    ∃ (w : Word) (n : Nat), ((∃ x, v = .decimal32 x ∧ EncodedAs (r, f) x w.toInt) ∨
        (v = .disabled ∧ w.toInt = 0)) ∧
      po'[outBit o / 16 + ch]? = some ((recode (r, f))^[n] w) := by
  induction rounds generalizing c po with
  | nil => simp [lastSetIn, lastSet] at hl
  | cons x rounds ih =>
    obtain ⟨calls, pi⟩ := x
    simp only [closedLoop] at h
    have hset : lastSetIn ⟨j, ch⟩ ((calls, pi) :: rounds) =
        (lastSetIn ⟨j, ch⟩ rounds).or (lastSet ⟨j, ch⟩ calls) := by
      simp [lastSetIn, lastSet_append]
    rw [hset] at hl
    split at h
    · rename_i c1 img hn
      obtain ⟨a1, a2, u, u', a3, a4, -, a6⟩ := round_register hdis hcfg hno hal hch hf
        (hcalls _ List.mem_cons_self) hr hw hn
      have hcalls' : ∀ r ∈ rounds, ∀ op ∈ r.1, op.IsCall :=
        fun r hr => hcalls r (List.mem_cons_of_mem _ hr)
      cases hs : lastSetIn ⟨j, ch⟩ rounds with
      | some v' =>
        rw [hs] at hl
        cases hl
        exact ih hcalls' a1 a2 h hs
      | none =>
        rw [hs, Option.none_or] at hl
        exact ⟨u', rounds.length, a6 v hl,
          idle_rounds hdis hcfg hno hal hch hf rounds hcalls' a1 a2 h hs a4⟩
    · cases h

end

theorem recode_settles {r : AnalogUIRange} (hen : r ≠ .Disabled) (f : DataFormat) (w : Word) (n : Nat) :
    |((recode (r, f))^[n] w).toInt - w.toInt| ≤ maxDrift r ∧
      (maxDrift r ≤ n → ∀ k, (recode (r, f))^[k] ((recode (r, f))^[n] w) = (recode (r, f))^[n] w) := by
  obtain ⟨a, b⟩ := settle_seq hen f (fun n => (recode (r, f))^[n] w)
    (fun n => Function.iterate_succ_apply' _ _ _)
  refine ⟨a n, fun hn k => ?_⟩
  rw [← Function.iterate_add_apply]
  exact (b (k + n) (by omega)).trans (b n hn).symm

/-- C86 with the bounds of C107: in a loop the register of an enabled analog output channel stays
within 2 or 5 steps, depending on the range, of the encoded value of the last `set_output`, and of
where it was at the start if there was none. -/
theorem C86_analog (oc : Bool) (cfg : CouplerConfig) (c0 : Coupler)
    (h0 : Coupler.new cfg = .ok c0) (j : Nat) (hdis : OutputsKept cfg j)
    (t : ModuleType) (par : List Word) (o i : Word) (hcfg : ConfiguredAt cfg j t par o i)
    (hno : o ≠ noOffset) (hal : o.toNat % 16 = 0) (ch : Nat) (hch : ch < 4)
    (r : AnalogUIRange) (f : DataFormat) (hf : OutputFormat t par ch r f) (hen : r ≠ .Disabled)
    (rounds : List (List COp × List Word)) (hcalls : ∀ r ∈ rounds, ∀ op ∈ r.1, op.IsCall)
    (c : Coupler) (po po' : List Word) (h : closedLoop oc c0 po rounds = some (c, po')) :
    (∀ v, lastSetIn ⟨j, ch⟩ rounds = some v → ∃ (w : Word) (e : ℤ),
      po'[outBit o / 16 + ch]? = some w ∧
      ((∃ x, v = .decimal32 x ∧ EncodedAs (r, f) x e) ∨ (v = .disabled ∧ e = 0)) ∧
      |w.toInt - e| ≤ maxDrift r) ∧
    (∀ w0 : Word, lastSetIn ⟨j, ch⟩ rounds = none → po[outBit o / 16 + ch]? = some w0 →
      ∃ w : Word, po'[outBit o / 16 + ch]? = some w ∧ |w.toInt - w0.toInt| ≤ maxDrift r) := by
  have hr : ReachableFrom oc cfg c0 := ⟨c0, [], h0, rfl⟩
  have hw := ((C13_success cfg).2 c0 h0).2.2.2.2.2 ⟨j, ch⟩
  refine ⟨fun v hl => ?_, fun w0 hl hpo => ?_⟩
  · obtain ⟨w, n, a1, a2⟩ := set_rounds hdis hcfg hno hal hch hf rounds hcalls hr hw h hl
    exact ⟨_, w.toInt, a2, a1, (recode_settles hen f w n).1⟩
  · exact ⟨_, idle_rounds hdis hcfg hno hal hch hf rounds hcalls hr hw h hl hpo,
      (recode_settles hen f w0 _).1⟩

theorem closedLoop_append (oc : Bool) (c : Coupler) (po : List Word)
    (xs ys : List (List COp × List Word)) :
    closedLoop oc c po (xs ++ ys) =
      (closedLoop oc c po xs).bind fun s => closedLoop oc s.1 s.2 ys := by
  induction xs generalizing c po with
  | nil => rfl
  | cons x xs ih =>
    obtain ⟨calls, pi⟩ := x
    simp only [List.cons_append, closedLoop]
    split
    · exact ih _ _
    · rfl

/-- C86 with C107: after 2 or 5 rounds without a `set_output` to the channel its register does not
move any more, however many such rounds follow. -/
theorem C86_rests (oc : Bool) (cfg : CouplerConfig) (c0 : Coupler)
    (h0 : Coupler.new cfg = .ok c0) (j : Nat) (hdis : OutputsKept cfg j)
    (t : ModuleType) (par : List Word) (o i : Word) (hcfg : ConfiguredAt cfg j t par o i)
    (hno : o ≠ noOffset) (hal : o.toNat % 16 = 0) (ch : Nat) (hch : ch < 4)
    (r : AnalogUIRange) (f : DataFormat) (hf : OutputFormat t par ch r f) (hen : r ≠ .Disabled)
    (rounds idle more : List (List COp × List Word))
    (hcalls : ∀ r ∈ rounds ++ idle ++ more, ∀ op ∈ r.1, op.IsCall)
    (hl : lastSetIn ⟨j, ch⟩ (idle ++ more) = none) (hn : maxDrift r ≤ idle.length)
    (po : List Word) (c c' : Coupler) (po' po'' : List Word)
    (h : closedLoop oc c0 po (rounds ++ idle) = some (c, po'))
    (h' : closedLoop oc c0 po (rounds ++ idle ++ more) = some (c', po'')) :
    ∃ w : Word, po'[outBit o / 16 + ch]? = some w ∧ po''[outBit o / 16 + ch]? = some w := by
  have hset : ∀ xs ys, lastSetIn ⟨j, ch⟩ (xs ++ ys) =
      (lastSetIn ⟨j, ch⟩ ys).or (lastSetIn ⟨j, ch⟩ xs) := by
    intro xs ys
    simp [lastSetIn, lastSet_append]
  rw [hset, Option.or_eq_none_iff] at hl
  -- reachable and nothing pending after any rounds
  have key : ∀ (xs : List (List COp × List Word)), (∀ r ∈ xs, ∀ op ∈ r.1, op.IsCall) →
      ∀ (c : Coupler) (po : List Word), ReachableFrom oc cfg c → c.write ⟨j, ch⟩ = none →
      ∀ c' po', closedLoop oc c po xs = some (c', po') →
      ReachableFrom oc cfg c' ∧ c'.write ⟨j, ch⟩ = none := by
    intro xs
    induction xs with
    | nil =>
      intro _ c po hr hw c' po' h
      cases h
      exact ⟨hr, hw⟩
    | cons x xs ih =>
      obtain ⟨calls, pi⟩ := x
      intro hcalls c po hr hw c' po' h
      simp only [closedLoop] at h
      split at h
      · rename_i c1 img hn
        obtain ⟨a1, a2, -⟩ := round_register hdis hcfg hno hal hch hf
          (hcalls _ List.mem_cons_self) hr hw hn
        exact ih (fun r hr => hcalls r (List.mem_cons_of_mem _ hr)) c1 img a1 a2 c' po' h
      · cases h
  have hr0 : ReachableFrom oc cfg c0 := ⟨c0, [], h0, rfl⟩
  have hw0 := ((C13_success cfg).2 c0 h0).2.2.2.2.2 ⟨j, ch⟩
  have hc1 : ∀ r ∈ rounds, ∀ op ∈ r.1, op.IsCall := fun r hr => hcalls r (by simp [hr])
  have hc2 : ∀ r ∈ idle, ∀ op ∈ r.1, op.IsCall := fun r hr => hcalls r (by simp [hr])
  have hc3 : ∀ r ∈ more, ∀ op ∈ r.1, op.IsCall := fun r hr => hcalls r (by simp [hr])
  rw [closedLoop_append, h] at h'
  simp only [Option.bind_some] at h'
  rw [closedLoop_append] at h
  cases h1 : closedLoop oc c0 po rounds with
  | none => rw [h1] at h; cases h
  | some s =>
    obtain ⟨c1, po1⟩ := s
    rw [h1] at h
    simp only [Option.bind_some] at h
    obtain ⟨r1, w1⟩ := key rounds hc1 c0 po hr0 hw0 c1 po1 h1
    obtain ⟨r2, w2⟩ := key idle hc2 c1 po1 r1 w1 c po' h
    obtain ⟨w, hw⟩ : ∃ w : Word, po1[outBit o / 16 + ch]? = some w := by
      cases idle with
      | nil =>
        have : 2 ≤ maxDrift r := by cases r <;> decide
        simp at hn
        omega
      | cons x xs =>
        obtain ⟨calls, pi⟩ := x
        simp only [closedLoop] at h
        split at h
        · rename_i c1 img hn
          obtain ⟨-, -, w, -, a3, -⟩ := round_register hdis hcfg hno hal hch hf
            (hc2 _ List.mem_cons_self) r1 w1 hn
          exact ⟨w, a3⟩
        · cases h
    have e1 := idle_rounds hdis hcfg hno hal hch hf idle hc2 r1 w1 h hl.2 hw
    have e2 := idle_rounds hdis hcfg hno hal hch hf more hc3 r2 w2 h' hl.1 e1
    rw [(recode_settles hen f w _).2 hn] at e2
    exact ⟨_, e1, e2⟩

/-- 4110/1024 mA, encoded as 5548, is written to the first channel and 6 mA to the second one, then two
idle rounds: the first register moves by two steps, the second one does not. -/
example : (closedLoop true (initial exAoCfg exAoModules) [3#16, 45#16, 90#16, 0xABCD#16, 0#16]
    [([.setOutput ⟨1, 0⟩ (.decimal32 (.fin (4110 / 1024))),
       .setOutput ⟨1, 1⟩ (.decimal32 (.fin 6))], []), ([], []), ([], [])]).map (·.2) =
    some [3#16, 5546#16, 3456#16, 0xABCD#16, 0#16] := by decide +kernel

theorem exAoCfg_at {j : Nat} {t : ModuleType} {par : List Word} {o i : Word}
    (h : ConfiguredAt exAoCfg j t par o i) :
    (j = 0 ∧ o = 0x8000#16 ∧ outputBytes t par = 1) ∨ (j = 1 ∧ o = 0x8010#16 ∧ outputBytes t par = 8) := by
  obtain ⟨h1, h2, h3, h4⟩ := h
  have hj : j < 2 := (List.getElem?_eq_some_iff.1 h1).1
  match j, hj with
  | 0, _ => cases h1; cases h2; cases h3; cases h4; decide
  | 1, _ => cases h1; cases h2; cases h3; cases h4; decide

theorem exAoCfg_kept : OutputsKept exAoCfg 1 := by
  intro k t par o i t' par' o' i' p hk h h' _ _ _ _
  rcases exAoCfg_at h' with ⟨rfl, -⟩ | ⟨rfl, -⟩ <;> omega

/-- The hypotheses of `C86_rests` are met: the value of the first channel is set, five idle rounds and
two more follow. -/
example : ∃ c po c' po',
    closedLoop true (initial exAoCfg exAoModules) [3#16, 45#16, 90#16, 0xABCD#16, 0#16]
      ([([.setOutput ⟨1, 0⟩ (.decimal32 (.fin (4110 / 1024)))], [])] ++ List.replicate 5 ([], [])) =
        some (c, po) ∧
    closedLoop true (initial exAoCfg exAoModules) [3#16, 45#16, 90#16, 0xABCD#16, 0#16]
      ([([.setOutput ⟨1, 0⟩ (.decimal32 (.fin (4110 / 1024)))], [])] ++ List.replicate 5 ([], []) ++
        List.replicate 2 ([], [])) = some (c', po') ∧
    ∃ w : Word, po[1]? = some w ∧ po'[1]? = some w := by
  obtain ⟨c, po, h⟩ : ∃ c po, closedLoop true (initial exAoCfg exAoModules)
      [3#16, 45#16, 90#16, 0xABCD#16, 0#16]
      ([([.setOutput ⟨1, 0⟩ (.decimal32 (.fin (4110 / 1024)))], [])] ++ List.replicate 5 ([], [])) =
        some (c, po) := ⟨_, _, rfl⟩
  obtain ⟨c', po', h'⟩ : ∃ c po, closedLoop true (initial exAoCfg exAoModules)
      [3#16, 45#16, 90#16, 0xABCD#16, 0#16]
      ([([.setOutput ⟨1, 0⟩ (.decimal32 (.fin (4110 / 1024)))], [])] ++ List.replicate 5 ([], []) ++
        List.replicate 2 ([], [])) = some (c, po) := ⟨_, _, rfl⟩
  refine ⟨c, po, c', po', h, h', ?_⟩
  exact C86_rests true exAoCfg _ exAoCfg_new 1 exAoCfg_kept .UR20_4AO_UI_16 exAoParams 0x8010#16 0xFFFF#16
    ⟨rfl, rfl, rfl, rfl⟩ (by decide) (by decide) 0 (by decide) .mA0To20 .S7
    ⟨⟨_, rfl, rfl⟩, ⟨_, rfl, rfl⟩⟩ (by decide) _ _ _ (by simp [COp.IsCall]) (by decide) (by decide)
    _ _ _ _ _ h h'

end Ur20
