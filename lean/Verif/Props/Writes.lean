import Verif.Props.Coupler

/-! # Pending writes: C33, C34, C35, C61 -/

namespace Ur20

open Spec Com Coupler

theorem digitalOutputs_not_serial {m : Module} {n : Nat} (h : digitalOutputs m = some n) :
    ¬ IsSerial m := by
  rintro ⟨cm, rfl⟩
  simp [digitalOutputs] at h

/-- C33: after a successful cycle every channel of a digital output module has the value written to
it, if a bit was pending, and the value of the given image, if no write was pending. -/
theorem C33_writes_reach_image (oc : Bool) (cfg : CouplerConfig) (c : Coupler)
    (hr : ReachableFrom oc cfg c) (j : Nat) (hdis : BytesKept (infos c) j)
    (pi po img : List Word) (c' : Coupler) (h : c.next oc pi po = (c', .ok img))
    (m : Module) (off : ModuleOffset) (hm : ModuleAt c j m off)
    (n : Nat) (hd : digitalOutputs m = some n) (o : Word) (ho : off.output = some o)
    (hn : n ≤ 8 ∨ o.toNat % 16 = 0) (ch : Nat) (hch : ch < n) :
    (∀ b, c.write ⟨j, ch⟩ = some (.bit b) → bitAt img (outBit o + ch) = some b) ∧
    (c.write ⟨j, ch⟩ = none →
      ∃ b, bitAt po (outBit o + ch) = some b ∧ bitAt img (outBit o + ch) = some b) := by
  have hi := inv_of_reachable hr
  obtain ⟨inV, outV, st1, r, vals, -, a2, ⟨lt, a3, -⟩, -, -, -, -, a8, a9⟩ := next_module h hm
  rw [moduleStep_plain (hi.none hm.1 (digitalOutputs_not_serial hd))] at a3
  cases a3
  simp only [(applyWrites_eq _ _ _ _).1] at a8
  obtain ⟨vs, b1, b2, b3⟩ := C44_encode (infos c) vals img a9 j hdis m n hd off o
    (infos_getElem? hm) ho hn
  obtain ⟨-, -, -, -, hbase, h8, -⟩ := C41_own_bytes (infos c) vals img a9 j hdis m off o
    (infos_getElem? hm) ho
  rw [a8] at b1
  cases b1
  obtain ⟨inp, out⟩ := off
  simp only at ho
  subst ho
  have hlen : outBit o / 16 < po.length := by
    have a2' := a2
    unfold moduleOutput at a2'
    simp only [Res.bind_eq, Res.bind_eq_ok] at a2'
    obtain ⟨raw, h1, -⟩ := a2'
    obtain ⟨-, h2, -⟩ := prepareRaw_ok h1
    have ha : addrPackedProcessOutputData.toNat * 16 = outputBase := by decide
    rw [rawStart_eq _ _ (by rw [ha]; exact hbase), ha] at h2
    have := rawWords_pos m.outputByteCount
    unfold outBit
    omega
  obtain ⟨vs', d1, d2, d3⟩ := C44_decode_output oc po m n hd o inp h8 hn hbase hlen
  rw [a2] at d1
  cases d1
  obtain ⟨b, e1, e2⟩ := d3 ch hch
  rw [b3 ch hch, List.getElem?_mapIdx, e2]
  simp only [Option.map_some, Nat.zero_add, Option.some.injEq]
  constructor
  · intro b' hb'
    rw [hb']
    cases b' <;> simp
  · intro hnone
    refine ⟨b, e1, ?_⟩
    rw [hnone]
    cases b <;> simp

/-- C33 for a single call: the bit set by `set_output` is in the image of the next successful
cycle. -/
theorem C33_set_output (oc : Bool) (cfg : CouplerConfig) (c : Coupler)
    (hr : ReachableFrom oc cfg c) (j : Nat) (hdis : BytesKept (infos c) j)
    (m : Module) (off : ModuleOffset) (hm : ModuleAt c j m off)
    (n : Nat) (hd : digitalOutputs m = some n) (o : Word) (ho : off.output = some o)
    (hn : n ≤ 8 ∨ o.toNat % 16 = 0) (ch : Nat) (hch : ch < n) (b : Bool)
    (pi po img : List Word) (c' : Coupler)
    (h : (c.setOutput ⟨j, ch⟩ (.bit b)).1.next oc pi po = (c', .ok img)) :
    bitAt img (outBit o + ch) = some b := by
  have hr' : ReachableFrom oc cfg (c.setOutput ⟨j, ch⟩ (.bit b)).1 := by
    obtain ⟨c0, ops, h0, rfl⟩ := hr
    exact ⟨c0, ops ++ [.setOutput ⟨j, ch⟩ (.bit b)], h0, by simp [runC, List.foldl_append, COp.apply]⟩
  have hst := apply_static oc c (.setOutput ⟨j, ch⟩ (.bit b))
  have hcc : ch < m.moduleType.channelCount := by
    unfold digitalOutputs at hd
    split at hd <;> cases hd <;> exact hch
  have hv : c.isValidAddr ⟨j, ch⟩ = true := by
    unfold isValidAddr
    simp only [hm.1, hcc, decide_true]
  simp only [COp.apply] at hst
  refine (C33_writes_reach_image oc cfg _ hr' j ?_ pi po img c' h m off ?_ n hd o ho hn ch hch).1 b ?_
  · unfold infos at hdis ⊢; rw [hst.1, hst.2]; exact hdis
  · unfold ModuleAt at hm ⊢; rw [hst.1, hst.2]; exact hm
  · simp [setOutput, hv, Coupler.insert]

/-- C35: without pending writes a successful cycle returns the bits of the given image for all
digital output modules. -/
theorem C35_idle_digital (oc : Bool) (cfg : CouplerConfig) (c : Coupler)
    (hr : ReachableFrom oc cfg c) (j : Nat) (hdis : BytesKept (infos c) j)
    (hw : ∀ a, c.write a = none)
    (pi po img : List Word) (c' : Coupler) (h : c.next oc pi po = (c', .ok img))
    (m : Module) (off : ModuleOffset) (hm : ModuleAt c j m off)
    (n : Nat) (hd : digitalOutputs m = some n) (o : Word) (ho : off.output = some o)
    (hn : n ≤ 8 ∨ o.toNat % 16 = 0) (ch : Nat) (hch : ch < n) :
    ∃ b, bitAt po (outBit o + ch) = some b ∧ bitAt img (outBit o + ch) = some b :=
  (C33_writes_reach_image oc cfg c hr j hdis pi po img c' h m off hm n hd o ho hn ch hch).2 (hw _)

/-- The hypotheses are met by the example coupler: a write to one of two modules sharing a
register, the other channels keep the values of the image. -/
example : ∃ c' img, (runC true (initial exCfg exModules) [.setOutput ⟨0, 2⟩ (.bit true)]).next true
    exPi exPo = (c', .ok img) ∧ img[0]? = some 0x5507#16 := ⟨_, _, rfl, rfl⟩

theorem exCoupler_disjoint : DisjointBytes (infos (initial exCfg exModules)) := by
  refine disjointBytes_of ?_
  have hown : ∀ (i : Nat) e p, (infos (initial exCfg exModules))[i]? = some e → Owns e p →
      (i = 0 ∧ p = 0) ∨ (i = 1 ∧ p = 1) ∨ (i = 3 ∧ 2 ≤ p) := by
    intro i e p he ⟨o, ho, h1, h2⟩
    match i with
    | 0 => cases he; cases ho; change 0 ≤ p at h1; change p < 0 + 1 at h2; omega
    | 1 => cases he; cases ho; change 1 ≤ p at h1; change p < 1 + 1 at h2; omega
    | 2 => cases he; cases ho
    | 3 => cases he; cases ho; change 2 ≤ p at h1; omega
    | i + 4 =>
      have : (infos (initial exCfg exModules)).length = 4 := rfl
      rw [List.getElem?_eq_none (by omega)] at he
      cases he
  intro i j e e' p hi hj h1 h2
  have := hown i e p hi h1
  have := hown j e' p hj h2
  omega

/-! ### C34 -/

/-- C34: a successful cycle leaves no write pending, except for serial modules. -/
theorem C34_consumed (oc : Bool) (cfg : CouplerConfig) (c : Coupler) (hr : ReachableFrom oc cfg c)
    (pi po img : List Word) (c' : Coupler) (h : c.next oc pi po = (c', .ok img)) (a : Address)
    (ha : cfg.modules[a.module]? ≠ some .UR20_1COM_232_485_422) : c'.write a = none := by
  have hi := inv_of_reachable hr
  have hi' : c'.Inv := by have := hi.next oc pi po; rwa [h] at this
  have hst := next_static oc c pi po
  rw [h] at hst
  cases hw : c'.write a with
  | none => rfl
  | some v =>
    exfalso
    have hv := hi'.valid a (by simp [hw])
    unfold isValidAddr at hv
    rw [hst.1] at hv
    cases hm : c.modules[a.module]? with
    | none => simp [hm] at hv
    | some m =>
      simp only [hm, decide_eq_true_eq] at hv
      have hser : ¬ IsSerial m := by
        intro hs
        obtain ⟨hl, hmm⟩ := reachable_module hr
        have hlt : a.module < cfg.modules.length := by
          rw [← hl]; exact (List.getElem?_eq_some_iff.1 hm).1
        obtain ⟨m', h1, h2⟩ := hmm a.module _ (List.getElem?_eq_getElem hlt)
        rw [hm] at h1
        cases h1
        exact ha (by rw [List.getElem?_eq_getElem hlt, (isCreated_serial h2).1 hs])
      obtain ⟨off, hat⟩ := hi.moduleAt hm
      obtain ⟨inV, outV, st1, r, vals, -, a2, ⟨lt, a3, -⟩, -, -, a6, -⟩ := next_module h hat
      rw [moduleStep_plain (hi.none hm hser)] at a3
      cases a3
      rw [a6 a rfl] at hw
      simp only [(applyWrites_eq _ _ _ _).2] at hw
      rw [if_pos ⟨trivial, by omega, by rw [moduleOutput_length a2]; omega⟩] at hw
      cases hw

/-- C34: two couplers with the same configuration, without serial modules and without pending
writes, behave the same in the next cycle, whatever happened before. -/
theorem C34_only_images (oc : Bool) (cfg : CouplerConfig) (c d : Coupler)
    (hc : ReachableFrom oc cfg c) (hd : ReachableFrom oc cfg d)
    (hser : ∀ n : Nat, cfg.modules[n]? ≠ some ModuleType.UR20_1COM_232_485_422)
    (hwc : ∀ a, c.write a = none) (hwd : ∀ a, d.write a = none) (pi po : List Word) :
    (c.next oc pi po).2 = (d.next oc pi po).2 ∧
    ∀ img, (c.next oc pi po).2 = .ok img →
      (c.next oc pi po).1.inputs = (d.next oc pi po).1.inputs ∧
      (c.next oc pi po).1.outputs = (d.next oc pi po).1.outputs := by
  have hi := inv_of_reachable hc
  have hi' := inv_of_reachable hd
  have hinf : infos c = infos d := by
    obtain ⟨c0, ops, h0, rfl⟩ := id hc
    obtain ⟨d0, ops', h0', rfl⟩ := id hd
    rw [h0] at h0'
    cases h0'
    unfold infos
    rw [(run_static oc c0 ops).1, (run_static oc c0 ops).2, (run_static oc c0 ops').1,
      (run_static oc c0 ops').2]
  have hp : ∀ {x : Coupler}, ReachableFrom oc cfg x → ∀ n, x.processors n = none := by
    intro x hx n
    have := (C14_readers oc cfg x hx n).1
    cases hpn : x.processors n with
    | none => rfl
    | some p => exact absurd (this.1 (by simp [hasReader, hpn])) (hser n)
  rcases next_cases oc c pi po with ⟨e, h1, h2⟩ | ⟨h1, h2⟩ | ⟨ins, e, h1, h2, h3⟩ |
    ⟨ins, h1, h2, h3⟩ | ⟨ins, outs, h1, h2, h3, h4⟩ | ⟨ins, outs, st, rs, h1, h2, h3, h4⟩
  · rw [h2, (C37_no_partial_effect oc d pi po e).1 (hinf ▸ h1)]; simp
  · have : d.next oc pi po = (d, .panic) := by
      rw [hinf] at h1
      unfold infos at h1
      simp [Coupler.next, h1]
    rw [h2, this]; simp
  · rw [h3, ((C37_no_partial_effect oc d pi po e).2 ins (hinf ▸ h1) (hinf ▸ h2)).1]; simp
  · have : d.next oc pi po = ({ d with inValues := ins }, .panic) := by
      rw [hinf] at h1 h2
      unfold infos at h1 h2
      simp [Coupler.next, h1, h2]
    rw [h3, this]; simp
  · obtain ⟨st', rs, h5⟩ := hi.cycle_ok h1 h2
    rw [h5] at h3
    cases h3
  · obtain ⟨st', rs', h5⟩ := hi'.cycle_ok (hinf ▸ h1) (hinf ▸ h2)
    obtain ⟨h6, h7⟩ := Coupler.next_done (hinf ▸ h1) (hinf ▸ h2) h5 (c' := (d.next oc pi po).1)
      (r := (d.next oc pi po).2) rfl
    have hrs : rs = rs' := by
      apply List.ext_getElem?
      intro j
      have l1 := (cycleLoop_spec h3).1
      have l2 := (cycleLoop_spec h5).1
      by_cases hj : j < (ins.zip outs).length
      · obtain ⟨s1, r1, b1, b2, -⟩ := (cycleLoop_spec h3).2.2.2.2 j _ _ (List.getElem?_eq_getElem hj)
        obtain ⟨s2, r2, d1, d2, -⟩ := (cycleLoop_spec h5).2.2.2.2 j _ _ (List.getElem?_eq_getElem hj)
        rw [moduleStep_plain (hp hc _)] at b2
        rw [moduleStep_plain (hp hd _)] at d2
        cases b2
        cases d2
        rw [b1, d1, show c.write = d.write from funext fun a => by rw [hwc, hwd]]
      · rw [List.getElem?_eq_none (by omega), List.getElem?_eq_none (by omega)]
    subst hrs
    rw [h4, h7, h6, hinf]
    exact ⟨rfl, fun _ _ => ⟨rfl, rfl⟩⟩

/-- C34: after a successful cycle of a coupler without serial modules, the next cycle is that of a
new coupler. -/
theorem C34_applied_once (oc : Bool) (cfg : CouplerConfig) (c0 c : Coupler)
    (h0 : Coupler.new cfg = .ok c0) (hc : ReachableFrom oc cfg c)
    (hser : ∀ n : Nat, cfg.modules[n]? ≠ some ModuleType.UR20_1COM_232_485_422)
    (pi po img : List Word) (c' : Coupler) (h : c.next oc pi po = (c', .ok img))
    (pi' po' : List Word) :
    (c'.next oc pi' po').2 = (c0.next oc pi' po').2 := by
  have hc' : ReachableFrom oc cfg c' := by
    obtain ⟨c1, ops, h1, rfl⟩ := hc
    exact ⟨c1, ops ++ [.next pi po], h1, by simp [runC, List.foldl_append, COp.apply] at h ⊢; rw [h]⟩
  exact (C34_only_images oc cfg c' c0 hc' ⟨c0, [], h0, rfl⟩ hser
    (fun a => C34_consumed oc cfg c hc pi po img c' h a (hser _))
    ((C13_success cfg).2 c0 h0).2.2.2.2.2 pi' po').1

/-- A write that is visible in one image and not in the next one. -/
example : ∃ c c1 c2,
    Coupler.new exRelay = .ok c ∧
    (runC true c [.setOutput ⟨0, 1⟩ (.bit true)]).next true [] [0#16] = (c1, .ok [2#16]) ∧
    c1.next true [] [0#16] = (c2, .ok [0#16]) := ⟨_, _, _, rfl, rfl, rfl⟩

/-! ### C61 -/

/-- C61: pending writes to modules without process output change neither the result nor anything
but the pending writes themselves. -/
theorem C61_input_only (oc : Bool) (cfg : CouplerConfig) (c : Coupler)
    (hr : ReachableFrom oc cfg c) (w : Address → Option ChannelValue)
    (hw : ∀ a m, c.modules[a.module]? = some m → m.outputByteCount ≠ 0 → w a = c.write a)
    (pi po : List Word) :
    (({ c with write := w } : Coupler).next oc pi po).2 = (c.next oc pi po).2 ∧
    ∃ w', (({ c with write := w } : Coupler).next oc pi po).1 =
      { (c.next oc pi po).1 with write := w' } := by
  have hi := inv_of_reachable hr
  generalize hd : ({ c with write := w } : Coupler) = d
  have hinf : infos d = infos c := by subst hd; rfl
  rcases next_cases oc c pi po with ⟨e, h1, h2⟩ | ⟨h1, h2⟩ | ⟨ins, e, h1, h2, h3⟩ |
    ⟨ins, h1, h2, h3⟩ | ⟨ins, outs, h1, h2, h3, h4⟩ | ⟨ins, outs, st, rs, h1, h2, h3, h4⟩
  · rw [h2, (C37_no_partial_effect oc d pi po e).1 (by rw [hinf]; exact h1)]
    subst hd
    exact ⟨rfl, w, rfl⟩
  · have : d.next oc pi po = (d, .panic) := by
      rw [← hinf] at h1
      unfold infos at h1
      simp [Coupler.next, h1]
    rw [h2, this]
    subst hd
    exact ⟨rfl, w, rfl⟩
  · rw [h3, ((C37_no_partial_effect oc d pi po e).2 ins (by rw [hinf]; exact h1)
      (by rw [hinf]; exact h2)).1]
    subst hd
    exact ⟨rfl, w, rfl⟩
  · have : d.next oc pi po = ({ d with inValues := ins }, .panic) := by
      rw [← hinf] at h1 h2
      unfold infos at h1 h2
      simp [Coupler.next, h1, h2]
    rw [h3, this]
    subst hd
    exact ⟨rfl, w, rfl⟩
  · obtain ⟨st', rs, h5⟩ := hi.cycle_ok h1 h2
    rw [h5] at h3
    cases h3
  · obtain ⟨st', rs', h5⟩ : ∃ st rs, cycleLoop 0 ⟨d.write, d.processors, d.lastTxCnt⟩
        (ins.zip outs) = .ok (st, rs) := by
      apply cycleLoop_ok
      intro j inV outV hj hs
      rw [Nat.zero_add] at hs
      have hs' : (c.processors j).isSome := by subst hd; exact hs
      obtain ⟨p, hp⟩ := Option.isSome_iff_exists.1 hs'
      obtain ⟨st1, r, -, hstep, -⟩ := (cycleLoop_spec h3).2.2.2.2 j inV outV hj
      rw [Nat.zero_add] at hstep
      obtain ⟨cm, hcm, -⟩ := hi.proc j p hp
      obtain ⟨off, hat⟩ := hi.moduleAt hcm
      rw [List.getElem?_zip_eq_some] at hj
      obtain ⟨inV', hi1, hi2⟩ := mapRes_getElem? h1 (infos_getElem? hat)
      obtain ⟨outV', ho1, ho2⟩ := mapRes_getElem? h2 (infos_getElem? hat)
      rw [hj.1] at hi1
      rw [hj.2] at ho1
      cases hi1
      cases ho1
      have l1 := moduleInput_length hi2 (by simp)
      have l2 := moduleOutput_length ho2
      have hcc : (Module.com cm).moduleType.channelCount = 1 := rfl
      rw [hcc] at l1 l2
      constructor
      · rintro rfl; simp at l1
      · rintro rfl; simp at l2
    obtain ⟨h6, h7⟩ := Coupler.next_done (by rw [hinf]; exact h1) (by rw [hinf]; exact h2) h5
      (c' := (d.next oc pi po).1) (r := (d.next oc pi po).2) rfl
    have hpr : d.processors = c.processors := by subst hd; rfl
    have hlt : d.lastTxCnt = c.lastTxCnt := by subst hd; rfl
    have hdw : d.write = w := by subst hd; rfl
    obtain ⟨q1, q2, q3⟩ := cycleLoop_pair h3 h5 (by simp [hpr]) hlt.symm
    have hll := (cycleLoop_spec h3).1
    have e1 := mapRes_length h1
    have e2 := mapRes_length h2
    -- the results of the two loops, module by module
    have key : ∀ (j : Nat), j < rs.length → ∃ r r' m off, rs[j]? = some r ∧ rs'[j]? = some r' ∧
        (infos c)[j]? = some (m, off) ∧ r.inV = r'.inV ∧ r.outV = r'.outV ∧
        (off.output ≠ none → r.nextV = r'.nextV) ∧ st.processors j = st'.processors j := by
      intro j hj
      rw [hll] at hj
      obtain ⟨lt, a, b, r, r', b1, b2, b3, b4, -, b6, b7⟩ :=
        q3 j _ _ (List.getElem?_eq_getElem hj)
      have hjj := List.length_zip ▸ hj
      have hzi := List.getElem?_zip_eq_some.1 (List.getElem?_eq_getElem hj)
      have hji : j < (infos c).length := by omega
      obtain ⟨outV, ho1, ho2⟩ := mapRes_getElem? h2 (List.getElem?_eq_getElem hji)
      have hmo : c.modules[j]? = some (infos c)[j].1 := by
        have := List.getElem?_eq_getElem hji
        unfold infos at this
        rw [List.getElem?_zip_eq_some] at this
        exact this.1
      refine ⟨r, r', (infos c)[j].1, (infos c)[j].2, b3, b4, List.getElem?_eq_getElem hji, ?_⟩
      by_cases hbc : (infos c)[j].1.outputByteCount = 0
      · have hser : ¬ IsSerial (infos c)[j].1 := by
          rintro ⟨cm, hcm⟩
          rw [hcm] at hbc
          obtain ⟨l, cp⟩ := cm
          cases l <;> cases hbc
        have hn := hi.none hmo hser
        rw [moduleStep_plain hn] at b1
        rw [moduleStep_plain (by rw [hpr]; exact hn)] at b2
        cases b1
        cases b2
        refine ⟨rfl, rfl, fun hne => ?_, ?_⟩
        · exfalso
          cases hoo : (infos c)[j].2.output with
          | none => exact hne hoo
          | some o => exact moduleOutput_has_output hoo ho2 hbc
        · rw [b6, b7, hpr]
      · obtain ⟨b', c1, -, c3⟩ := moduleStep_congr (st2 := ⟨d.write, d.processors, lt⟩) b1
          (fun a ha => by
            simp only [hdw]
            exact hw a _ (by rw [ha]; exact hmo) hbc) (by simp [hpr]) rfl
        rw [b2] at c1
        cases c1
        exact ⟨rfl, rfl, fun _ => rfl, by rw [b6, b7, c3]⟩
    have hin : rs.map (·.inV) = rs'.map (·.inV) := by
      apply List.ext_getElem?
      intro j
      by_cases hj : j < rs.length
      · obtain ⟨r, r', m, off, k1, k2, -, k4, -⟩ := key j hj
        simp [k1, k2, k4]
      · simp [List.getElem?_eq_none (show rs.length ≤ j by omega),
          List.getElem?_eq_none (show rs'.length ≤ j by omega)]
    have hout : rs.map (·.outV) = rs'.map (·.outV) := by
      apply List.ext_getElem?
      intro j
      by_cases hj : j < rs.length
      · obtain ⟨r, r', m, off, k1, k2, -, -, k5, -⟩ := key j hj
        simp [k1, k2, k5]
      · simp [List.getElem?_eq_none (show rs.length ≤ j by omega),
          List.getElem?_eq_none (show rs'.length ≤ j by omega)]
    have himg : processOutputValues (infos c) (rs.map (·.nextV)) =
        processOutputValues (infos c) (rs'.map (·.nextV)) := by
      unfold processOutputValues
      simp only [List.length_map, q1]
      split
      · rfl
      · apply outputLoop_congr
        · simp [q1]
        · intro j e e' he he'
          rw [List.getElem?_zip_eq_some] at he he'
          rw [he.1] at he'
          refine ⟨Option.some.inj he'.1, fun hne => ?_⟩
          have hj : j < rs.length := by
            have := (List.getElem?_eq_some_iff.1 he.2).1
            simpa using this
          obtain ⟨r, r', m, off, k1, k2, k3, -, -, k6, -⟩ := key j hj
          simp only [List.getElem?_map, k1, k2, Option.map_some, Option.some.injEq] at he he'
          rw [he.1] at k3
          rw [← he.2, ← he'.2]
          exact k6 (by
            have := Option.some.inj k3
            rw [this] at hne
            exact hne)
    have hproc : st.processors = st'.processors := by
      funext n
      by_cases hn : n < rs.length
      · obtain ⟨-, -, -, -, -, -, -, -, -, -, k7⟩ := key n hn
        exact k7
      · rw [(cycleLoop_spec h3).2.2.1 n (.inr (by omega)),
          (cycleLoop_spec h5).2.2.1 n (.inr (by omega)), hpr]
    rw [h4, h7, h6, hinf, himg]
    refine ⟨rfl, st'.write, ?_⟩
    simp only [after, hin, hout, hproc, q2]
    subst hd
    rfl

/-- C61 for a call: setting an output of a module without process output does not change the
result of the next cycle. -/
theorem C61_set_output (oc : Bool) (cfg : CouplerConfig) (c : Coupler)
    (hr : ReachableFrom oc cfg c) (a : Address) (v : ChannelValue)
    (hm : ∀ m, c.modules[a.module]? = some m → m.outputByteCount = 0) (pi po : List Word) :
    ((c.setOutput a v).1.next oc pi po).2 = (c.next oc pi po).2 := by
  have hs := setOutput_state oc c a v
  simp only [COp.apply] at hs
  rw [hs]
  split
  · refine (C61_input_only oc cfg c hr _ (fun b m hb hm' => ?_) pi po).1
    simp only [Coupler.insert]
    rw [if_neg]
    rintro rfl
    exact hm' (hm m hb)
  · rfl

example : ((runC true (initial exCfg exModules) [.setOutput ⟨2, 0⟩ (.bytes [])]).next true exPi exPo).2
    = ((initial exCfg exModules).next true exPi exPo).2 :=
  C61_set_output true exCfg (initial exCfg exModules) ⟨_, [], exCfg_new, rfl⟩ ⟨2, 0⟩ (.bytes [])
    (by intro m h; cases h; rfl) exPi exPo

end Ur20
