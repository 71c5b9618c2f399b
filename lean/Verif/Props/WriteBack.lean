import Verif.Props.Settable
import Verif.Props.Held

/-! # Writing back what `outputs` shows: C118 -/

namespace Ur20

open Spec Com Coupler

/-- Pending values that say what the loop would encode anyway make no difference to it. -/
theorem cycleLoop_restate {k : Nat} {w w' : Address → Option ChannelValue}
    {ps : Nat → Option MessageProcessor} {lt : Nat}
    {l : List (List ChannelValue × List ChannelValue)}
    (h : ∀ a : Address, w' a = w a ∨ (w a = none ∧ ps a.module = none ∧ k ≤ a.module ∧
      ∃ e v, l[a.module - k]? = some e ∧ e.2[a.channel]? = some v ∧ w' a = some v)) :
    cycleLoop k ⟨w', ps, lt⟩ l = cycleLoop k ⟨w, ps, lt⟩ l := by
  induction l generalizing k w w' ps lt with
  | nil =>
    have e : w' = w := by
      funext a
      rcases h a with h | ⟨-, -, -, e, v, h, -⟩
      · exact h
      · simp at h
    rw [e]
  | cons p l ih =>
    obtain ⟨inV, outV⟩ := p
    have later : ∀ a : Address, a.module ≠ k → w' a = w a ∨ (w a = none ∧ ps a.module = none ∧
        k + 1 ≤ a.module ∧ ∃ e v, l[a.module - (k + 1)]? = some e ∧ e.2[a.channel]? = some v ∧
          w' a = some v) := by
      intro a ha
      rcases h a with h | ⟨h1, h2, h3, e, v, h4, h5, h6⟩
      · exact .inl h
      · refine .inr ⟨h1, h2, by omega, e, v, ?_, h5, h6⟩
        rwa [show a.module - k = (a.module - (k + 1)) + 1 by omega, List.getElem?_cons_succ] at h4
    have here : ∀ a : Address, a.module = k → w' a = w a ∨ (w a = none ∧ ps k = none ∧
        ∃ v, outV[a.channel]? = some v ∧ w' a = some v) := by
      intro a ha
      rcases h a with h | ⟨h1, h2, h3, e, v, h4, h5, h6⟩
      · exact .inl h
      · rw [show a.module - k = 0 by omega, List.getElem?_cons_zero] at h4
        cases h4
        exact .inr ⟨h1, ha ▸ h2, v, h5, h6⟩
    simp only [cycleLoop]
    cases hp : ps k with
    | some q =>
      have same : ∀ a : Address, a.module = k → w' a = w a := by
        intro a ha
        rcases here a ha with h | ⟨-, h, -⟩
        · exact h
        · rw [hp] at h; cases h
      have rest : ∀ (x y : Address → Option ChannelValue) (qs : Nat → Option MessageProcessor)
          (lt' : Nat), (∀ a : Address, a.module ≠ k → x a = w a ∧ y a = w' a ∧
            qs a.module = ps a.module) → (∀ a : Address, a.module = k → x a = y a) →
          cycleLoop (k + 1) ⟨y, qs, lt'⟩ l = cycleLoop (k + 1) ⟨x, qs, lt'⟩ l := by
        intro x y qs lt' hne heq
        apply ih
        intro a
        by_cases ha : a.module = k
        · exact .inl (heq a ha).symm
        · obtain ⟨e1, e2, e3⟩ := hne a ha
          rw [e1, e2, e3]
          exact later a ha
      simp only [moduleStep, hp]
      cases inV with
      | nil => rfl
      | cons i inTl =>
        have plain : ∀ r : ModuleResult,
            (Res.bind (.ok ((⟨w', ps, lt⟩ : LoopState), r)) fun x =>
              Res.bind (cycleLoop (k + 1) x.1 l) fun y => .ok (y.1, x.2 :: y.2)) =
            (Res.bind (.ok ((⟨w, ps, lt⟩ : LoopState), r)) fun x =>
              Res.bind (cycleLoop (k + 1) x.1 l) fun y => .ok (y.1, x.2 :: y.2)) := by
          intro r
          simp only [Res.bind]
          rw [rest w w' ps lt (fun a ha => ⟨rfl, rfl, rfl⟩) fun a ha => (same a ha).symm]
        cases i <;> try exact plain _
        cases outV with
        | nil => rfl
        | cons o outTl =>
          cases o <;> try exact plain _
          rename_i i o
          have h0 := same ⟨k, 0⟩ rfl
          simp only [serialStep, h0]
          change Res.bind _ _ = Res.bind _ _
          simp only [Res.bind]
          rw [rest (remove w ⟨k, 0⟩) (remove w' ⟨k, 0⟩) _ _ (fun a ha => ?_) fun a ha => ?_]
          · have : a ≠ ⟨k, 0⟩ := fun e => ha (by rw [e])
            simp [remove, this, ha]
          · simp [remove, same a ha]
    | none =>
      simp only [moduleStep, hp]
      obtain ⟨e1, e2⟩ := applyWrites_eq k 0 w outV
      obtain ⟨e1', e2'⟩ := applyWrites_eq k 0 w' outV
      have e3 : (applyWrites k 0 w' outV).2 = (applyWrites k 0 w outV).2 := by
        rw [e1, e1']
        apply List.ext_getElem?
        intro n
        simp only [List.getElem?_mapIdx, Nat.zero_add]
        cases hn : outV[n]? with
        | none => rfl
        | some v =>
          simp only [Option.map_some, Option.some.injEq]
          rcases here ⟨k, n⟩ rfl with h | ⟨h1, -, u, h2, h3⟩
          · rw [h]
          · simp only [hn, Option.some.injEq] at h2
            rw [h1, h3, h2]
            rfl
      change Res.bind _ _ = Res.bind _ _
      simp only [Res.bind, e3]
      rw [ih (w := (applyWrites k 0 w outV).1) fun a => ?_]
      rw [e2, e2']
      by_cases ha : a.module = k
      · refine .inl ?_
        split
        · rfl
        · rename_i hc
          rcases here a ha with h | ⟨-, -, u, h2, -⟩
          · exact h
          · have := (List.getElem?_eq_some_iff.1 h2).1
            exact absurd ⟨ha, Nat.zero_le _, by omega⟩ hc
      · rw [if_neg fun e => ha e.1, if_neg fun e => ha e.1]
        exact later a ha

/-- Pending values that say what is shown make no difference to a cycle. -/
theorem next_restate {oc : Bool} {c : Coupler} {pi po : List Word}
    {w' : Address → Option ChannelValue}
    (h : ∀ ins outs, processInputData oc (infos c) pi = .ok ins →
      processOutputData oc (infos c) po = .ok outs → ∀ a : Address, w' a = c.write a ∨
        (c.write a = none ∧ c.processors a.module = none ∧
          ∃ vs v, outs[a.module]? = some vs ∧ vs[a.channel]? = some v ∧ w' a = some v)) :
    (({ c with write := w' } : Coupler).next oc pi po).2 = (c.next oc pi po).2 ∧
    ∀ img, (c.next oc pi po).2 = .ok img →
      ({ c with write := w' } : Coupler).next oc pi po = c.next oc pi po := by
  have key : ∀ ins outs, processInputData oc (infos c) pi = .ok ins →
      processOutputData oc (infos c) po = .ok outs →
      cycleLoop 0 ⟨w', c.processors, c.lastTxCnt⟩ (ins.zip outs) =
        cycleLoop 0 ⟨c.write, c.processors, c.lastTxCnt⟩ (ins.zip outs) := by
    intro ins outs h1 h2
    apply cycleLoop_restate
    intro a
    rcases h ins outs h1 h2 a with h | ⟨g1, g2, vs, v, g3, g4, g5⟩
    · exact .inl h
    · have hlen : a.module < ins.length := by
        have k1 := mapRes_length h1
        have k2 := mapRes_length h2
        have k3 := (List.getElem?_eq_some_iff.1 g3).1
        omega
      exact .inr ⟨g1, g2, Nat.zero_le _, (ins[a.module], vs), v, by
        rw [Nat.sub_zero, List.getElem?_zip_eq_some]
        exact ⟨List.getElem?_eq_getElem hlen, g3⟩, g4, g5⟩
  unfold next
  cases h1 : processInputData oc (c.modules.zip c.offsets) pi with
  | err e => simp [h1]
  | panic => simp [h1]
  | ok ins =>
    cases h2 : processOutputData oc (c.modules.zip c.offsets) po with
    | err e => simp [h1, h2]
    | panic => simp [h1, h2]
    | ok outs =>
      simp only [h1, h2, key ins outs h1 h2]
      cases h3 : cycleLoop 0 ⟨c.write, c.processors, c.lastTxCnt⟩ (ins.zip outs) with
      | err e => simp
      | panic => simp
      | ok r => simp

theorem setAll_write (oc : Bool) (c : Coupler) (vals : List (Address × ChannelValue)) :
    ∃ w, setAll oc c vals = { c with write := w } ∧
      ∀ a, w a = c.write a ∨ ∃ e ∈ vals, e.1 = a ∧ w a = some e.2 := by
  induction vals generalizing c with
  | nil => exact ⟨c.write, rfl, fun a => .inl rfl⟩
  | cons e vals ih =>
    obtain ⟨w, h1, h2⟩ := ih ((COp.setOutput e.1 e.2).apply oc c)
    have hrun : setAll oc c (e :: vals) = setAll oc ((COp.setOutput e.1 e.2).apply oc c) vals := rfl
    rw [setOutput_state] at h1 h2
    refine ⟨w, ?_, fun a => ?_⟩
    · rw [hrun, setOutput_state, h1]
      split <;> rfl
    · rcases h2 a with h | ⟨x, hx, h3, h4⟩
      · rw [h]
        split
        · simp only [Coupler.insert]
          split
          · rename_i ha
            exact .inr ⟨e, List.mem_cons_self, ha.symm, rfl⟩
          · exact .inl rfl
        · exact .inl rfl
      · exact .inr ⟨x, List.mem_cons_of_mem _ hx, h3, h4⟩

/-- The module of a list of shown values. -/
theorem shown_module {oc : Bool} {cfg : CouplerConfig} {c c' : Coupler}
    (hr : ReachableFrom oc cfg c) {pi po img : List Word} (h : c.next oc pi po = (c', .ok img))
    {j : Nat} (hs : cfg.modules[j]? ≠ some .UR20_1COM_232_485_422) {vs : List ChannelValue}
    (hv : c'.outputs[j]? = some vs) :
    ∃ m off, ModuleAt c j m off ∧ cfg.modules[j]? ≠ none ∧ ¬ IsSerial m := by
  have hi := inv_of_reachable hr
  obtain ⟨ins, outs, st, rs, h1, h2, h3, rfl, -⟩ := next_ok h
  have hj : j < c.modules.length := by
    have k1 := (List.getElem?_eq_some_iff.1 hv).1
    simp only [outputs, after, List.length_map, (cycleLoop_spec h3).1, List.length_zip,
      mapRes_length h1, infos] at k1
    omega
  obtain ⟨off, hm⟩ := hi.moduleAt (List.getElem?_eq_getElem hj)
  obtain ⟨t, par, o, i, hcfg, hc, -⟩ := reachable_at hr hm
  refine ⟨_, off, hm, by rw [hcfg.1]; simp, ?_⟩
  rw [isSerial_type hc]
  intro ht
  exact hs (by rw [hcfg.1, ht])

/-- C118: calling `set_output` with values that `outputs` shows, for any channels of modules that
are not serial, makes no difference to the next cycle if it is given the same output image again:
it has the same result, and if it succeeds it leaves the same coupler. -/
theorem C118_write_back (oc : Bool) (cfg : CouplerConfig) (c : Coupler)
    (hr : ReachableFrom oc cfg c) (pi po img : List Word) (c' : Coupler)
    (h : c.next oc pi po = (c', .ok img)) (vals : List (Address × ChannelValue))
    (hvals : ∀ e ∈ vals, cfg.modules[e.1.module]? ≠ some .UR20_1COM_232_485_422 ∧
      ∃ vs, c'.outputs[e.1.module]? = some vs ∧ vs[e.1.channel]? = some e.2) (pi' : List Word) :
    ((setAll oc c' vals).next oc pi' po).2 = (c'.next oc pi' po).2 ∧
    ∀ img', (c'.next oc pi' po).2 = .ok img' →
      (setAll oc c' vals).next oc pi' po = c'.next oc pi' po := by
  obtain ⟨w, h1, h2⟩ := setAll_write oc c' vals
  rw [h1]
  have hr' : ReachableFrom oc cfg c' := by
    have := reachable_run hr [.next pi po]
    rwa [show runC oc c [.next pi po] = c' from congrArg Prod.fst h] at this
  apply next_restate
  intro ins outs g1 g2 a
  rcases h2 a with h2 | ⟨e, he, rfl, h2⟩
  · exact .inl h2
  obtain ⟨hs, vs, k1, k2⟩ := hvals e he
  have hi := inv_of_reachable hr
  have hst : c'.modules = c.modules ∧ c'.offsets = c.offsets := by
    have := next_static oc c pi po
    rwa [h] at this
  obtain ⟨m, off, hm, -, hser⟩ := shown_module hr h hs k1
  obtain ⟨-, outV, -, a1, -, a2⟩ := plain_shown hi h hm hser
  rw [k1] at a2
  cases a2
  obtain ⟨vs', b1, b2⟩ := mapRes_getElem? g2 (i := e.1.module) (a := (m, off)) (by
    rw [show infos c' = infos c by simp only [infos, hst.1, hst.2]]
    exact infos_getElem? hm)
  have : vs' = vs := by
    have := b2.symm.trans a1
    cases this
    rfl
  subst this
  refine .inr ⟨C34_consumed oc cfg c hr pi po img c' h e.1 hs, ?_, vs', e.2, b1, k2, h2⟩
  exact (inv_of_reachable hr').none (j := e.1.module) (m := m) (by rw [hst.1]; exact hm.1) hser

/-- Two couplers with the same pending value for a channel return the same for it. -/
theorem pending_same {oc : Bool} {cfg : CouplerConfig} {j : Nat} (hdis : OutputsKept cfg j) {c d : Coupler}
    (hr : ReachableFrom oc cfg c) (hr' : ReachableFrom oc cfg d) {pi po img : List Word}
    {c' : Coupler} (h : c.next oc pi po = (c', .ok img)) {pi' po' img' : List Word} {d' : Coupler}
    (h' : d.next oc pi' po' = (d', .ok img')) {t : ModuleType} {par : List Word}
    {pos ch : Nat} (hat : OutputAt cfg j t par pos ch) {v : ChannelValue}
    (hw : c.write ⟨j, ch⟩ = some v) (hw' : d.write ⟨j, ch⟩ = some v) :
    SameOutput t img img' pos ch := by
  obtain ⟨o, i, hcfg, ht, hno, hal, hpos, hch⟩ := hat
  rw [hpos]
  have k := C72_image oc cfg _ hr j hdis pi po img c' h t par o i hcfg ht hno hal ch hch
  have k' := C72_image oc cfg _ hr' j hdis pi' po' img' d' h' t par o i hcfg ht hno hal ch hch
  rw [hw] at k
  rw [hw'] at k'
  have analog : ∀ r f, OutputFormat t par ch r f → ch < 4 → o.toNat % 16 = 0 →
      img[outBit o / 16 + ch]? = img'[outBit o / 16 + ch]? := by
    intro r f hf hch4 hal
    obtain ⟨w0, w, -, e1, e2⟩ := analog_cycle_cfg hr hdis h hcfg hno hal hch4 hf
    obtain ⟨w0', w', -, e1', e2'⟩ := analog_cycle_cfg hr' hdis h' hcfg hno hal hch4 hf
    rw [hw, Option.getD_some] at e2
    rw [hw', Option.getD_some, e2] at e2'
    cases e2'
    rw [e1, e1']
  cases t
  case UR20_4AO_UI_16 =>
    obtain ⟨_, _, f, r, -, -, hf, hr, -⟩ := k
    exact analog r f ⟨hf, hr⟩ hch (by simpa [outputBytes] using hal)
  case UR20_4AO_UI_16_DIAG =>
    obtain ⟨_, _, f, r, -, -, hf, hr, -⟩ := k
    exact analog r f ⟨hf, hr⟩ hch (by simpa [outputBytes] using hal)
  case UR20_2FCNT_100 =>
    obtain ⟨_, us, _, ctl, -, k1, k2⟩ := k
    obtain ⟨_, us', _, ctl', -, k1', k2'⟩ := k'
    have : us = us' ∧ ctl = ctl' := by
      cases v <;> first
        | exact k2.elim
        | exact ⟨k2.1.trans k2'.1.symm, k2.2.trans k2'.2.symm⟩
    rw [this.1, this.2] at k1
    exact preset_unique k1 k1'
  all_goals first
    | exact trivial
    | (obtain ⟨_, b, -, k1, k2⟩ := k
       obtain ⟨_, b', -, k1', k2'⟩ := k'
       change bitAt _ _ = bitAt _ _
       rw [k1, k1']
       cases v <;> first
         | exact k2.elim
         | exact congrArg some (Eq.trans k2 (Eq.symm k2')))

/-- C118: a value that `outputs` has shown for a channel puts its data back later, whatever has
happened since: the image returned after `set_output` has the same data for the channel as the
image returned for the output image the value was shown for, without a pending value. -/
theorem C118_restore (oc : Bool) (cfg : CouplerConfig) (j : Nat) (hdis : OutputsKept cfg j)
    (c d e : Coupler) (hr : ReachableFrom oc cfg c) (hr' : ReachableFrom oc cfg d)
    (hr'' : ReachableFrom oc cfg e)
    (t : ModuleType) (par : List Word) (pos ch : Nat) (hat : OutputAt cfg j t par pos ch)
    (pi po img : List Word) (c' : Coupler) (h : c.next oc pi po = (c', .ok img))
    (vs : List ChannelValue) (v : ChannelValue) (hvs : c'.outputs[j]? = some vs)
    (hv : vs[ch]? = some v)
    (pi' po' img' : List Word) (d' : Coupler)
    (h' : (d.setOutput ⟨j, ch⟩ v).1.next oc pi' po' = (d', .ok img'))
    (pi'' img'' : List Word) (e' : Coupler) (h'' : e.next oc pi'' po = (e', .ok img''))
    (hn : e.write ⟨j, ch⟩ = none) : SameOutput t img' img'' pos ch := by
  obtain ⟨o, i, hcfg, ht, hno, hal, hpos, hch⟩ := id hat
  obtain ⟨g1, g2⟩ := set_write hr' hcfg hch v
  obtain ⟨g1', g2'⟩ := set_write hr'' hcfg hch v
  have hs : cfg.modules[j]? ≠ some .UR20_1COM_232_485_422 := by rw [hcfg.1]; simpa using ht
  have hwe : (e.setOutput ⟨j, ch⟩ v).1 = { e with write := Coupler.insert e.write ⟨j, ch⟩ v } := by
    simp [setOutput, valid_output hr'' hcfg hch]
  have hnext : (e.setOutput ⟨j, ch⟩ v).1.next oc pi'' po = (e', .ok img'') := by
    rw [hwe, ← h'']
    refine (next_restate fun ins outs k1 k2 a => ?_).2 img'' (by rw [h''])
    by_cases ha : a = ⟨j, ch⟩
    · subst ha
      obtain ⟨m, hm, hc⟩ := configured_at hr hcfg
      obtain ⟨m', hm', hc'⟩ := configured_at hr'' hcfg
      rw [hc] at hc'
      cases hc'
      have hser : ¬ IsSerial m := by rw [isSerial_type hc]; exact ht
      obtain ⟨-, outV, -, a1, -, a2⟩ := plain_shown (inv_of_reachable hr) h hm hser
      rw [hvs] at a2
      cases a2
      obtain ⟨vs', b1, b2⟩ := mapRes_getElem? k2 (infos_getElem? hm')
      have e1 := b2.symm.trans a1
      cases e1
      exact .inr ⟨hn, (inv_of_reachable hr'').none hm'.1 hser, vs, v, b1, hv,
        by simp [Coupler.insert]⟩
    · exact .inl (by simp [Coupler.insert, ha])
  exact pending_same hdis g1 g1' h' hnext hat g2 g2'

/-- Values shown after the cycle of the mixed coupler: a bit and the presets of both counters. The
calls of `exMix` have changed the bit and the second preset. -/
def exShownValues : List (Address × ChannelValue) :=
  [(⟨0, 9⟩, .bit false), (⟨2, 0⟩, .fcntOut ⟨77000, some .stop⟩), (⟨2, 1⟩, .fcntOut ⟨0, none⟩)]

example : ∀ e ∈ exShownValues, exMixCfg.modules[e.1.module]? ≠ some .UR20_1COM_232_485_422 ∧
    (((exMix.next true exMixPi exMixPo).1.outputs[e.1.module]?).bind (·[e.1.channel]?)) =
      some e.2 := by decide +kernel

/-- With the same image again nothing changes; with the image that was returned these values put the
old data back. -/
example :
    ((setAll true (exMix.next true exMixPi exMixPo).1 exShownValues).next true exMixPi exMixPo).2 =
      .ok exMixPo ∧
    ((exMix.next true exMixPi exMixPo).1.next true exMixPi exMixPo).2 = .ok exMixPo ∧
    ((setAll true (exMix.next true exMixPi exMixPo).1 exShownValues).next true exMixPi exMixImg).2 =
      .ok [1#16, 0x3600#16, 54#16, 7#16, 0#16, 0#16, 77#16, 0#16, 0#16, 0x200#16, 0#16] := by
  decide +kernel

/-- The hypotheses of `C118_restore` are met: bit 9 was off when it was shown, the cycle switched it on,
and setting the shown value switches it off again. -/
example : ∃ d' img', ((exMix.next true exMixPi exMixPo).1.setOutput ⟨0, 9⟩ (.bit false)).1.next true
      exMixPi exMixImg = (d', .ok img') ∧ SameOutput .UR20_16DO_P img' exMixPo 0 9 := by
  obtain ⟨c', h⟩ := exMix_next
  have hr' : ReachableFrom true exMixCfg (exMix.next true exMixPi exMixPo).1 :=
    ⟨_, [.setOutput ⟨0, 9⟩ (.bit true), .setOutput ⟨1, 0⟩ (.decimal32 (.fin 10)),
      .setOutput ⟨2, 1⟩ (.fcntOut ⟨1500500, some .start⟩), .next exMixPi exMixPo], exMixCfg_new, rfl⟩
  obtain ⟨d', img', h'⟩ : ∃ d' img', ((exMix.next true exMixPi exMixPo).1.setOutput ⟨0, 9⟩
      (.bit false)).1.next true exMixPi exMixImg = (d', .ok img') :=
    ⟨_, [1#16, 0x3600#16, 54#16, 7#16, 0#16, 0#16, 77#16, 0#16, 1500#16, 0x200#16, 0x100#16],
      Prod.ext rfl (by decide +kernel)⟩
  obtain ⟨e', h''⟩ : ∃ e', (initial exMixCfg exMixModules).next true exMixPi exMixPo =
      (e', .ok exMixPo) := ⟨_, Prod.ext rfl (by decide +kernel)⟩
  obtain ⟨vs, h1, h2⟩ : ∃ vs, c'.outputs[0]? = some vs ∧ vs[9]? = some (.bit false) := by
    rw [← show (exMix.next true exMixPi exMixPo).1 = c' from congrArg Prod.fst h]
    exact ⟨_, rfl, by decide +kernel⟩
  exact ⟨d', img', h', C118_restore true exMixCfg 0 (exMix_disjoint 0) exMix _ _ exMix_reachable hr'
    ⟨_, [], exMixCfg_new, rfl⟩ .UR20_16DO_P [] 0 9 ⟨0x8000#16, 0xFFFF#16, ⟨rfl, rfl, rfl, rfl⟩, by decide,
      by decide, .inl (by decide), by decide, by decide⟩ _ _ _ c' h vs _ h1 h2 _ _ _ d' h' _ _ e' h'' rfl⟩

end Ur20
