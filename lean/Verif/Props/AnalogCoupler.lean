import Verif.Props.Analog
import Verif.Props.Writes

/-! # Analog outputs of a coupler: C36, C55, C66, C67 -/

namespace Ur20

open Spec Com Coupler

theorem register_ext {a b : List Word} {p q : Nat}
    (h0 : byteAt a (2 * p) = byteAt b (2 * q)) (h1 : byteAt a (2 * p + 1) = byteAt b (2 * q + 1)) :
    a[p]? = b[q]? := by
  unfold byteAt at h0 h1
  rw [show 2 * p / 2 = p by omega, show 2 * q / 2 = q by omega, show 2 * p % 2 = 0 by omega,
    show 2 * q % 2 = 0 by omega] at h0
  rw [show (2 * p + 1) / 2 = p by omega, show (2 * q + 1) / 2 = q by omega,
    show (2 * p + 1) % 2 = 1 by omega, show (2 * q + 1) % 2 = 1 by omega] at h1
  cases ha : a[p]? with
  | none => cases hb : b[q]? with
    | none => rfl
    | some w => simp [ha, hb] at h0
  | some v => cases hb : b[q]? with
    | none => simp [ha, hb] at h0
    | some w =>
      simp only [ha, hb, Option.map_some, Option.some.injEq] at h0 h1
      congr 1
      apply BitVec.eq_of_getLsbD_eq
      intro i hi
      by_cases h8 : i < 8
      · have := congrArg (fun x => BitVec.getLsbD x i) h0
        simpa [BitVec.getLsbD_extractLsb', h8] using this
      · have := congrArg (fun x => BitVec.getLsbD x (i - 8)) h1
        simp only [BitVec.getLsbD_extractLsb', show i - 8 < 8 by omega, decide_true,
          Bool.true_and] at this
        rwa [show 8 * 1 + (i - 8) = i by omega] at this

/-- The modules of a coupler have been created from parameter words. -/
theorem reachable_created {oc : Bool} {cfg : CouplerConfig} {c : Coupler}
    (hr : ReachableFrom oc cfg c) {j : Nat} {m : Module} (hm : c.modules[j]? = some m) :
    ∃ t par, Module.create t par = .ok m := by
  obtain ⟨c0, ops, h0, rfl⟩ := hr
  rw [(run_static oc c0 ops).1] at hm
  obtain ⟨-, -, ms, h1, rfl⟩ := new_ok h0
  have hl := mapRes_length h1
  obtain ⟨hj, -⟩ := List.getElem?_eq_some_iff.1 hm
  change j < ms.length at hj
  obtain ⟨b, h2, h3⟩ := mapRes_getElem? h1
    (List.getElem?_eq_getElem (l := cfg.modules.zip cfg.params) (i := j) (by omega))
  change ms[j]? = some m at hm
  rw [hm] at h2
  cases h2
  exact ⟨_, _, h3⟩

/-- The registers of a module that is not serial and starts at a register: they are decoded, pending
writes replace values, and the result is encoded into the same registers. -/
theorem module_cycle {oc : Bool} {c c' : Coupler} (hi : c.Inv) {j : Nat}
    (hdis : BytesKept (infos c) j)
    {pi po img : List Word} (h : c.next oc pi po = (c', .ok img))
    {m : Module} {off : ModuleOffset} (hm : ModuleAt c j m off) (hs : ¬ IsSerial m)
    {o : Word} (ho : off.output = some o) (ha : o.toNat % 16 = 0) (n : Nat) (hn : 0 < n)
    (hb : m.outputByteCount = 2 * n) :
    ∃ raw vs d, raw.length = n ∧ m.processOutputData raw = .ok vs ∧
      m.processOutputValues (vs.mapIdx fun k v => (c.write ⟨j, k⟩).getD v) = .ok d ∧
      ∀ k, k < n → po[outBit o / 16 + k]? = raw[k]? ∧ img[outBit o / 16 + k]? = d[k]? := by
  obtain ⟨inV, outV, st1, r, vals, -, a2, ⟨lt, a3, -⟩, -, -, -, -, a8, a9⟩ := next_module h hm
  rw [moduleStep_plain (hi.none hm.1 hs)] at a3
  cases a3
  simp only [(applyWrites_eq _ _ _ _).1, Nat.zero_add] at a8
  obtain ⟨vs, d, e1, e2, hbase, h8, e3⟩ := C41_own_bytes (infos c) vals img a9 j hdis m off o
    (infos_getElem? hm) ho
  rw [a8] at e1
  cases e1
  obtain ⟨inp, out⟩ := off
  simp only at ho
  subst ho
  unfold moduleOutput at a2
  simp only [Res.bind_eq, Res.bind_eq_ok] at a2
  obtain ⟨raw, h1, hdec⟩ := a2
  obtain ⟨g1, g2, g3⟩ := prepareRaw_ok h1
  have hw : rawWords m.outputByteCount = n := by
    unfold rawWords
    rw [hb, if_neg (by omega)]
    omega
  rw [hw] at g1 g3
  have hadr : addrPackedProcessOutputData.toNat * 16 = outputBase := by decide
  rw [rawStart_eq _ _ (by rw [hadr]; exact hbase), hadr] at g3
  rcases g3 with ⟨-, g3⟩ | ⟨g3, -⟩
  swap
  · omega
  refine ⟨raw, outV, d, g1, hdec, e2, fun k hk => ⟨(register_ext ?_ ?_).symm, register_ext ?_ ?_⟩⟩
  · rw [g3 _ (by omega)]
    congr 1
    unfold outBit
    omega
  · rw [g3 _ (by omega)]
    congr 1
    unfold outBit
    omega
  · rw [← e3 _ (by omega) (by omega)]
    congr 1
    unfold outBit outByte
    unfold outputBase at *
    omega
  · rw [← e3 _ (by omega) (by omega)]
    congr 1
    unfold outBit outByte
    unfold outputBase at *
    omega

theorem analogOutputs_not_serial {m : Module} {ps : List (AnalogUIRange × DataFormat)}
    (h : analogOutputs m = some ps) : ¬ IsSerial m := by
  rintro ⟨cm, rfl⟩
  simp [analogOutputs] at h

/-- One channel of an analog output module in a successful cycle. -/
theorem analog_cycle {oc : Bool} {cfg : CouplerConfig} {c : Coupler}
    (hr : ReachableFrom oc cfg c) {j : Nat} (hdis : BytesKept (infos c) j)
    {pi po img : List Word} {c' : Coupler} (h : c.next oc pi po = (c', .ok img))
    {m : Module} {off : ModuleOffset} (hm : ModuleAt c j m off)
    {ps : List (AnalogUIRange × DataFormat)} (ha : analogOutputs m = some ps)
    {o : Word} (ho : off.output = some o) (hal : o.toNat % 16 = 0)
    {ch : Nat} {p : AnalogUIRange × DataFormat} (hp : ps[ch]? = some p) :
    ∃ w w' : Word, po[outBit o / 16 + ch]? = some w ∧ img[outBit o / 16 + ch]? = some w' ∧
      valueToU16 ((c.write ⟨j, ch⟩).getD (channelValue p w)) p.1 p.2 = .ok w' := by
  obtain ⟨t, par, hc⟩ := reachable_created hr hm.1
  obtain ⟨h4, hb⟩ := analogOutputs_length hc ha
  obtain ⟨raw, vs, d, h1, h2, h3, hk⟩ := module_cycle (inv_of_reachable hr) hdis h hm
    (analogOutputs_not_serial ha) ho hal 4 (by omega) hb
  rw [analogOutputs_decode hc ha raw h1] at h2
  cases h2
  have hch : ch < 4 := by rw [← h4]; exact (List.getElem?_eq_some_iff.1 hp).1
  obtain ⟨k1, k2⟩ := hk ch hch
  obtain ⟨w, hw⟩ : ∃ w, raw[ch]? = some w := ⟨raw[ch]'(by omega), List.getElem?_eq_getElem _⟩
  rw [analogOutputs_encode hc ha _ (by simp [h1, h4])] at h3
  obtain ⟨w', hw', he⟩ := mapRes_getElem? h3 (i := ch)
    (a := ((c.write ⟨j, ch⟩).getD (channelValue p w), p)) (by
      rw [List.getElem?_zip_eq_some, List.getElem?_mapIdx,
        List.getElem?_zipWith_eq_some.2 ⟨w, p, hw, hp, rfl⟩]
      exact ⟨rfl, hp⟩)
  exact ⟨w, w', k1.trans hw, k2.trans hw', he⟩

/-- Encoding what was decoded. -/
theorem recode_of_idle {p : AnalogUIRange × DataFormat} {w w' : Word}
    (h : valueToU16 (channelValue p w) p.1 p.2 = .ok w') : w' = recode p w := by
  obtain ⟨r, f⟩ := p
  unfold channelValue at h
  unfold recode
  simp only at h ⊢
  rw [decode_eq] at h
  cases hs : uiScale r with
  | none =>
    rw [hs] at h
    exact (Res.ok.inj h).symm
  | some s =>
    rw [hs] at h
    exact (Res.ok.inj h).symm

/-! ### C36 -/

/-- C36 as listed: without a pending write, a successful cycle returns the register of every enabled
analog output channel. -/
def C36_statement : Prop :=
  ∀ (oc : Bool) (cfg : CouplerConfig) (c : Coupler), ReachableFrom oc cfg c →
    DisjointBytes (infos c) → (∀ a, c.write a = none) →
    ∀ (pi po img : List Word) (c' : Coupler), c.next oc pi po = (c', .ok img) →
    ∀ (j : Nat) (m : Module) (off : ModuleOffset), ModuleAt c j m off →
    ∀ ps : List (AnalogUIRange × DataFormat), analogOutputs m = some ps →
    ∀ o : Word, off.output = some o → o.toNat % 16 = 0 →
    ∀ (ch : Nat) (r : AnalogUIRange) (f : DataFormat), ps[ch]? = some (r, f) → r ≠ .Disabled →
      img[outBit o / 16 + ch]? = po[outBit o / 16 + ch]?

/-- A coupler with a digital output module and an analog output module. -/
def exAoCfg : CouplerConfig :=
  { modules := [.UR20_4DO_P, .UR20_4AO_UI_16]
    offsets := [0x8000#16, 0xFFFF#16, 0x8010#16, 0xFFFF#16]
    params := [List.replicate 4 0, exAoParams] }

def exAoModules : List Module := [.dout ⟨.UR20_4DO_P, List.replicate 4 ⟨false⟩⟩, .ao exAo]

theorem exAoCfg_new : Coupler.new exAoCfg = .ok (initial exAoCfg exAoModules) := by
  have h : mapRes (fun p : ModuleType × List Word => Module.create p.1 p.2)
      (exAoCfg.modules.zip exAoCfg.params) = .ok exAoModules := by decide +kernel
  rw [new_eq, h]; rfl

theorem exAo_reachable (ops : List COp) :
    ReachableFrom true exAoCfg (runC true (initial exAoCfg exAoModules) ops) :=
  ⟨_, ops, exAoCfg_new, rfl⟩

theorem exAo_disjoint : DisjointBytes (infos (initial exAoCfg exAoModules)) := by
  refine disjointBytes_of ?_
  have hown : ∀ (i : Nat) e p, (infos (initial exAoCfg exAoModules))[i]? = some e → Owns e p →
      (i = 0 ∧ p = 0) ∨ (i = 1 ∧ 2 ≤ p) := by
    intro i e p he ⟨o, ho, h1, h2⟩
    match i with
    | 0 => cases he; cases ho; change 0 ≤ p at h1; change p < 0 + 1 at h2; omega
    | 1 => cases he; cases ho; change 2 ≤ p at h1; omega
    | i + 2 =>
      have : (infos (initial exAoCfg exAoModules)).length = 2 := rfl
      rw [List.getElem?_eq_none (by omega)] at he
      cases he
  intro i j e e' p hi hj h1 h2
  have := hown i e p hi h1
  have := hown j e' p hj h2
  omega

/-- An output image for the example: 45 in the first analog register. -/
def exAoPo : List Word := [3#16, 45#16, 90#16, 0xABCD#16, 7#16]

theorem exAo_next : ∃ c', (initial exAoCfg exAoModules).next true [] exAoPo =
    (c', .ok [3#16, 44#16, 90#16, 0xABCD#16, 0#16]) := by
  have h : ((initial exAoCfg exAoModules).next true [] exAoPo).2 =
      .ok [3#16, 44#16, 90#16, 0xABCD#16, 0#16] := by decide +kernel
  exact ⟨_, by rw [← h]⟩

/-- C36 is false: 45 becomes 44 in the range 0 to 20 mA in format S7. -/
theorem C36_statement_false : ¬ C36_statement := by
  intro hst
  obtain ⟨c', h⟩ := exAo_next
  have := hst true exAoCfg _ (exAo_reachable []) exAo_disjoint (fun _ => rfl) [] exAoPo _ c' h 1
    (.ao exAo) ⟨none, some 0x8010#16⟩ ⟨rfl, rfl⟩ exAoChannels rfl 0x8010#16 rfl rfl 0 .mA0To20 .S7
    rfl (by simp)
  have e : outBit 0x8010#16 / 16 = 1 := by decide
  rw [e] at this
  simp [exAoPo] at this

/-- C36 up to one: without a pending write for the channel the register is returned unchanged in
format S5 and for the multiples of 27, and is else the same or one nearer to zero. -/
theorem C36_idle_analog_partial (oc : Bool) (cfg : CouplerConfig) (c : Coupler)
    (hr : ReachableFrom oc cfg c) (j : Nat) (hdis : BytesKept (infos c) j)
    (pi po img : List Word) (c' : Coupler) (h : c.next oc pi po = (c', .ok img))
    (m : Module) (off : ModuleOffset) (hm : ModuleAt c j m off)
    (ps : List (AnalogUIRange × DataFormat)) (ha : analogOutputs m = some ps)
    (o : Word) (ho : off.output = some o) (hal : o.toNat % 16 = 0)
    (ch : Nat) (r : AnalogUIRange) (f : DataFormat) (hp : ps[ch]? = some (r, f))
    (hen : r ≠ .Disabled) (hw : c.write ⟨j, ch⟩ = none) :
    ∃ w w' : Word, po[outBit o / 16 + ch]? = some w ∧ img[outBit o / 16 + ch]? = some w' ∧
      (f = .S5 → w' = w) ∧ ((27 : ℤ) ∣ w.toInt → w' = w) ∧
      (0 < w.toInt → w'.toInt = w.toInt ∨ w'.toInt = w.toInt - 1) ∧
      (w.toInt < 0 → w'.toInt = w.toInt ∨ w'.toInt = w.toInt + 1) ∧
      (w.toInt = 0 → w'.toInt = 0) := by
  obtain ⟨w, w', h1, h2, h3⟩ := analog_cycle hr hdis h hm ha ho hal hp
  rw [hw] at h3
  have h4 := recode_of_idle h3
  subst h4
  refine ⟨w, _, h1, h2, ?_, fun h27 => recode_27 hen f w h27, recode_step hen f w⟩
  rintro rfl
  exact recode_S5 hen w

example : ∃ c', (initial exAoCfg exAoModules).next true [] exAoPo =
    (c', .ok [3#16, 44#16, 90#16, 0xABCD#16, 0#16]) := exAo_next

/-! ### C55 for cycles -/

/-- An analog register without a pending write from one of many cycles to the next. -/
theorem recode_cycles {oc : Bool} {cfg : CouplerConfig} {c : Nat → Coupler} {pi po : Nat → List Word}
    (hr : ReachableFrom oc cfg (c 0)) {j : Nat} (hdis : BytesKept (infos (c 0)) j)
    (h : ∀ n, (c n).next oc (pi n) (po n) = (c (n + 1), .ok (po (n + 1))))
    {m : Module} {off : ModuleOffset} (hm : ModuleAt (c 0) j m off)
    {ps : List (AnalogUIRange × DataFormat)} (ha : analogOutputs m = some ps)
    {o : Word} (ho : off.output = some o) (hal : o.toNat % 16 = 0)
    {ch : Nat} {r : AnalogUIRange} {f : DataFormat} (hp : ps[ch]? = some (r, f))
    (hw : (c 0).write ⟨j, ch⟩ = none) (n : Nat) (w : Word)
    (hn : (po n)[outBit o / 16 + ch]? = some w) :
    (po (n + 1))[outBit o / 16 + ch]? = some (recode (r, f) w) := by
  have hstep : ∀ n, ReachableFrom oc cfg (c n) ∧ (c n).modules = (c 0).modules ∧
      (c n).offsets = (c 0).offsets ∧ (c n).write ⟨j, ch⟩ = none := by
    intro n
    induction n with
    | zero => exact ⟨hr, rfl, rfl, hw⟩
    | succ n ih =>
      obtain ⟨a, b, d, e⟩ := ih
      have hst := next_static oc (c n) (pi n) (po n)
      rw [h n] at hst
      have hmod : (c n).modules[j]? = some m := by rw [b]; exact hm.1
      refine ⟨?_, hst.1.trans b, hst.2.trans d, ?_⟩
      · obtain ⟨c0, ops, h0, h1⟩ := a
        refine ⟨c0, ops ++ [.next (pi n) (po n)], h0, ?_⟩
        simp only [runC, List.foldl_append, List.foldl_cons, List.foldl_nil, COp.apply]
        rw [show List.foldl (COp.apply oc) c0 ops = c n from h1.symm, h n]
      · obtain ⟨inV, outV, st1, r', vals, -, -, ⟨lt, a3, -⟩, -, -, h6, -, -⟩ :=
          next_module (h n) (j := j) (m := m) (off := off) ⟨hmod, by rw [d]; exact hm.2⟩
        rw [h6 _ rfl]
        rw [moduleStep_plain ((inv_of_reachable a).none hmod (analogOutputs_not_serial ha))] at a3
        cases a3
        simp only [(applyWrites_eq _ _ _ _).2, e, ite_self]
  obtain ⟨a, b, d, e⟩ := hstep n
  obtain ⟨w1, w2, k1, k2, k3⟩ := analog_cycle a (by unfold infos; rw [b, d]; exact hdis) (h n)
    (j := j) (m := m) (off := off) ⟨by rw [b]; exact hm.1, by rw [d]; exact hm.2⟩ ha ho hal hp
  rw [hn] at k1
  cases k1
  rw [e] at k3
  rw [k2, recode_of_idle k3]

/-- C55 for a coupler: cycle after cycle, each with the image returned by the one before, an analog
register without a pending write only moves towards zero, keeps its sign, and never gets past the
next multiple of 27. -/
theorem C55_cycles (oc : Bool) (cfg : CouplerConfig) (c : Nat → Coupler) (pi po : Nat → List Word)
    (hr : ReachableFrom oc cfg (c 0)) (j : Nat) (hdis : BytesKept (infos (c 0)) j)
    (h : ∀ n, (c n).next oc (pi n) (po n) = (c (n + 1), .ok (po (n + 1))))
    (m : Module) (off : ModuleOffset) (hm : ModuleAt (c 0) j m off)
    (ps : List (AnalogUIRange × DataFormat)) (ha : analogOutputs m = some ps)
    (o : Word) (ho : off.output = some o) (hal : o.toNat % 16 = 0)
    (ch : Nat) (r : AnalogUIRange) (f : DataFormat) (hp : ps[ch]? = some (r, f))
    (hen : r ≠ .Disabled) (hw : (c 0).write ⟨j, ch⟩ = none) (w0 : Word)
    (hw0 : (po 0)[outBit o / 16 + ch]? = some w0) (n : Nat) :
    ∃ w : Word, (po n)[outBit o / 16 + ch]? = some w ∧ (f = .S5 → w = w0) ∧
      (0 ≤ w0.toInt → 27 * (w0.toInt / 27) ≤ w.toInt ∧ w.toInt ≤ w0.toInt ∧ w0.toInt - n ≤ w.toInt) ∧
      (w0.toInt ≤ 0 → w0.toInt ≤ w.toInt ∧ w.toInt ≤ -(27 * (-w0.toInt / 27)) ∧
        w.toInt ≤ w0.toInt + n) := by
  have hone := recode_cycles hr hdis h hm ha ho hal hp hw
  induction n with
  | zero => exact ⟨w0, hw0, fun _ => rfl, by intro; omega, by intro; omega⟩
  | succ n ih =>
    obtain ⟨w, h1, h5, h2, h3⟩ := ih
    refine ⟨recode (r, f) w, hone n w h1, ?_, recode_drift_step hen f w w0.toInt n ⟨h2, h3⟩⟩
    rintro rfl
    rw [recode_S5 hen, h5 rfl]

/-! ### C66, C67: pending writes to analog outputs -/

/-- C67: after a successful cycle the register of an analog output channel is the encoded pending
number, or 0 if `Disabled` was pending. -/
theorem C67_analog_write (oc : Bool) (cfg : CouplerConfig) (c : Coupler)
    (hr : ReachableFrom oc cfg c) (j : Nat) (hdis : BytesKept (infos c) j)
    (pi po img : List Word) (c' : Coupler) (h : c.next oc pi po = (c', .ok img))
    (m : Module) (off : ModuleOffset) (hm : ModuleAt c j m off)
    (ps : List (AnalogUIRange × DataFormat)) (ha : analogOutputs m = some ps)
    (o : Word) (ho : off.output = some o) (hal : o.toNat % 16 = 0)
    (ch : Nat) (p : AnalogUIRange × DataFormat) (hp : ps[ch]? = some p) :
    (∀ v, c.write ⟨j, ch⟩ = some (.decimal32 v) →
      ∃ w' : Word, img[outBit o / 16 + ch]? = some w' ∧ EncodedAs p v w'.toInt) ∧
    (c.write ⟨j, ch⟩ = some .disabled → img[outBit o / 16 + ch]? = some 0#16) := by
  obtain ⟨w, w', h1, h2, h3⟩ := analog_cycle hr hdis h hm ha ho hal hp
  constructor
  · intro v hv
    rw [hv] at h3
    refine ⟨w', h2, ?_⟩
    cases (Res.ok.inj h3)
    exact encodedAs p v
  · intro hv
    rw [hv] at h3
    cases (Res.ok.inj h3)
    exact h2

/-- C66, for a module: values other than numbers and `Disabled`, or another number of values, are
rejected; all others are encoded. -/
theorem C66_accepts (t : ModuleType) (par : List Word) (m : Module)
    (hc : Module.create t par = .ok m) (ps : List (AnalogUIRange × DataFormat))
    (ha : analogOutputs m = some ps) (vs : List ChannelValue) :
    ((∃ ws, m.processOutputValues vs = .ok ws) ↔
      vs.length = 4 ∧ ∀ v ∈ vs, v = .disabled ∨ ∃ x, v = .decimal32 x) ∧
    ((¬ ∃ ws, m.processOutputValues vs = .ok ws) → m.processOutputValues vs = .err .channelValue) := by
  obtain ⟨h4, -⟩ := analogOutputs_length hc ha
  by_cases hl : vs.length = 4
  · rw [analogOutputs_encode hc ha vs hl]
    have hv : ∀ (v : ChannelValue) (p : AnalogUIRange × DataFormat),
        ((∃ w, valueToU16 v p.1 p.2 = .ok w) ↔ v = .disabled ∨ ∃ x, v = .decimal32 x) ∧
        valueToU16 v p.1 p.2 ≠ .panic ∧
        ∀ e, valueToU16 v p.1 p.2 = .err e → e = .channelValue := by
      intro v p
      cases v <;> simp [valueToU16]
    constructor
    · rw [mapRes_ok_iff]
      constructor
      · intro h
        refine ⟨hl, fun v hvm => ?_⟩
        obtain ⟨i, hi⟩ := List.mem_iff_getElem?.1 hvm
        have hlt : i < 4 := by rw [← hl]; exact (List.getElem?_eq_some_iff.1 hi).1
        exact (hv v (ps[i]'(by omega))).1.1 (h (v, ps[i]'(by omega)) (List.mem_iff_getElem?.2
          ⟨i, List.getElem?_zip_eq_some.2 ⟨hi, List.getElem?_eq_getElem _⟩⟩))
      · rintro ⟨-, h⟩ ⟨v, p⟩ hvp
        exact (hv v p).1.2 (h v (List.of_mem_zip hvp).1)
    · intro hn
      cases hres : mapRes (fun p : ChannelValue × (AnalogUIRange × DataFormat) =>
          valueToU16 p.1 p.2.1 p.2.2) (vs.zip ps) with
      | ok ws => exact absurd ⟨ws, hres⟩ hn
      | err e =>
        obtain ⟨a, -, h2⟩ := mapRes_err_mem hres
        rw [(hv a.1 a.2).2.2 e h2]
      | panic =>
        obtain ⟨a, -, h2⟩ := mapRes_panic_mem hres
        exact absurd h2 (hv a.1 a.2).2.1
  · rw [analogOutputs_encode_length hc ha vs hl]
    simp [hl]

/-- C66, for a coupler: no cycle succeeds while a value other than a number or `Disabled` is pending
for an analog output. -/
theorem C66_pending (oc : Bool) (cfg : CouplerConfig) (c : Coupler)
    (hr : ReachableFrom oc cfg c) (j : Nat) (hdis : BytesKept (infos c) j)
    (pi po : List Word) (m : Module) (off : ModuleOffset) (hm : ModuleAt c j m off)
    (ps : List (AnalogUIRange × DataFormat)) (ha : analogOutputs m = some ps)
    (o : Word) (ho : off.output = some o) (hal : o.toNat % 16 = 0) (ch : Nat) (hch : ch < 4)
    (v : ChannelValue) (hw : c.write ⟨j, ch⟩ = some v) (hv1 : v ≠ .disabled)
    (hv2 : ∀ x, v ≠ .decimal32 x) (img : List Word) : (c.next oc pi po).2 ≠ .ok img := by
  intro hcontra
  obtain ⟨t, par, hc⟩ := reachable_created hr hm.1
  obtain ⟨h4, -⟩ := analogOutputs_length hc ha
  obtain ⟨w, w', h1, h2, h3⟩ := analog_cycle hr hdis (c' := (c.next oc pi po).1) (img := img)
    (pi := pi) (po := po) (by rw [← hcontra]) hm ha ho hal
    (List.getElem?_eq_getElem (l := ps) (i := ch) (by omega))
  rw [hw] at h3
  cases v <;> simp [valueToU16] at h3 hv1 hv2

example : ((runC true (initial exAoCfg exAoModules)
    [.setOutput ⟨1, 0⟩ (.decimal32 (.fin 10)), .setOutput ⟨1, 1⟩ .disabled]).next true [] exAoPo).2 =
    .ok [3#16, 0x3600#16, 0#16, 0xABCD#16, 0#16] := by decide +kernel
example : ((runC true (initial exAoCfg exAoModules)
    [.setOutput ⟨1, 0⟩ (.bit true)]).next true [] exAoPo).2 = .err .channelValue := by decide +kernel

end Ur20
