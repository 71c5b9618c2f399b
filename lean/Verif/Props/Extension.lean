import Verif.Props.Coupler
import Verif.Lemmas.Decode
import Verif.Lemmas.Image
import Verif.Props.Histories
import Verif.Props.Failure
import Verif.Spec.Extension

/-!
# C122: adding modules at the end of a station
-/

namespace Ur20

open Spec Coupler
open scoped List

theorem mapRes_append_ok {α β : Type} {f : α → Res β} {a b : List α} {r : List β}
    (h : mapRes f (a ++ b) = .ok r) :
    ∃ r1 r2, mapRes f a = .ok r1 ∧ mapRes f b = .ok r2 ∧ r = r1 ++ r2 := by
  induction a generalizing r with
  | nil => exact ⟨[], r, rfl, h, rfl⟩
  | cons x a ih =>
    simp only [List.cons_append, mapRes_cons, Res.bind_eq_ok] at h
    obtain ⟨y, hy, cs, hcs, h⟩ := h
    cases h
    obtain ⟨r1, r2, h1, h2, rfl⟩ := ih hcs
    exact ⟨y :: r1, r2, by simp [hy, h1], h2, rfl⟩

theorem cycleLoop_append {k : Nat} {st st' : LoopState}
    {a b : List (List ChannelValue × List ChannelValue)} {rs : List ModuleResult}
    (h : cycleLoop k st (a ++ b) = .ok (st', rs)) :
    ∃ st1 r1 r2, cycleLoop k st a = .ok (st1, r1) ∧
      cycleLoop (k + a.length) st1 b = .ok (st', r2) ∧ rs = r1 ++ r2 := by
  induction a generalizing k st rs with
  | nil => exact ⟨st, [], rs, rfl, h, rfl⟩
  | cons x a ih =>
    obtain ⟨inV, outV⟩ := x
    simp only [List.cons_append, cycleLoop, Res.bind_eq, Res.bind_eq_ok] at h
    obtain ⟨⟨s1, q⟩, h1, ⟨s2, qs⟩, h2, h3⟩ := h
    cases h3
    obtain ⟨s3, r1, r2, h4, h5, rfl⟩ := ih h2
    refine ⟨s3, q :: r1, r2, ?_, ?_, rfl⟩
    · simp only [cycleLoop, h1, Res.bind_eq, Res.bind_ok, h4]; rfl
    · rw [List.length_cons, show k + (a.length + 1) = k + 1 + a.length by omega]; exact h5

theorem offsets_append (a b : List Word) (h : a.length % 2 = 0) :
    offsetsOfProcessData a <+: offsetsOfProcessData (a ++ b) := by
  fun_induction offsetsOfProcessData a with
  | case1 o i rest ih =>
    simp only [List.length_cons] at h
    simp only [List.cons_append, offsetsOfProcessData]
    exact (List.prefix_cons_inj _).2 (ih (by omega))
  | case2 ws hne => exact List.nil_prefix

/-- Two states of the loop agree for the first `n` modules. -/
def AgreeBelow (n : Nat) (s s' : LoopState) : Prop :=
  (∀ k, k < n → s.processors k = s'.processors k) ∧
  ∀ a : Address, a.module < n → s.write a = s'.write a

theorem moduleStep_below {n k : Nat} {s s' t' : LoopState} {inV outV : List ChannelValue}
    {r' : ModuleResult} (hk : k < n) (ha : AgreeBelow n s s')
    (h : moduleStep k s' inV outV = .ok (t', r')) :
    ∃ t r, moduleStep k s inV outV = .ok (t, r) ∧ AgreeBelow n t t' ∧ r.inV = r'.inV ∧
      r.nextV = r'.nextV ∧ (s.processors k = none → r.outV = r'.outV) := by
  obtain ⟨h1, h2⟩ := ha
  unfold moduleStep at h ⊢
  rw [h1 k hk]
  cases hp : s'.processors k with
  | none =>
    rw [hp] at h
    simp only [Res.ok.injEq, Prod.mk.injEq] at h
    obtain ⟨rfl, rfl⟩ := h
    obtain ⟨e1, e2⟩ := applyWrites_eq k 0 s.write outV
    obtain ⟨f1, f2⟩ := applyWrites_eq k 0 s'.write outV
    refine ⟨_, _, rfl, ⟨h1, fun a hm => ?_⟩, rfl, ?_, fun _ => rfl⟩
    · simp only [e2, f2, h2 a hm]
    · simp only [e1, f1]
      apply congrArg (fun f => List.mapIdx f outV)
      funext i v
      rw [h2 ⟨k, 0 + i⟩ hk]
  | some p =>
    rw [hp] at h
    simp only at h ⊢
    split at h
    · cases h
    · split at h
      · cases h
      · simp only [Res.ok.injEq] at h
        refine ⟨_, _, rfl, ?_⟩
        rename_i i inTl _ o outTl
        simp only [serialStep, Prod.mk.injEq] at h ⊢
        obtain ⟨rfl, rfl⟩ := h
        rw [h2 ⟨k, 0⟩ hk]
        refine ⟨⟨fun j hj => ?_, fun a hm => ?_⟩, rfl, rfl, fun h => by cases h⟩
        · simp only
          split
          · rfl
          · exact h1 j hj
        · simp only [remove]
          split
          · rfl
          · exact h2 a hm
      · simp only [Res.ok.injEq, Prod.mk.injEq] at h
        obtain ⟨rfl, rfl⟩ := h
        exact ⟨_, _, rfl, ⟨h1, h2⟩, rfl, rfl, fun _ => rfl⟩
    · simp only [Res.ok.injEq, Prod.mk.injEq] at h
      obtain ⟨rfl, rfl⟩ := h
      exact ⟨_, _, rfl, ⟨h1, h2⟩, rfl, rfl, fun _ => rfl⟩

theorem moduleStep_others {k : Nat} {s t : LoopState} {inV outV : List ChannelValue}
    {r : ModuleResult} (h : moduleStep k s inV outV = .ok (t, r)) (j : Nat) (hj : j ≠ k) :
    t.processors j = s.processors j := by
  have h1 : cycleLoop k s [(inV, outV)] = .ok (t, [r]) := by
    simp only [cycleLoop, h, Res.bind_eq, Res.bind_ok]; rfl
  exact (cycleLoop_spec h1).2.2.1 j (by simp only [List.length_singleton]; omega)

theorem cycleLoop_below {n k : Nat} {s s' t' : LoopState}
    {l : List (List ChannelValue × List ChannelValue)} {rs' : List ModuleResult}
    (hk : k + l.length ≤ n) (ha : AgreeBelow n s s') (h : cycleLoop k s' l = .ok (t', rs')) :
    ∃ t rs, cycleLoop k s l = .ok (t, rs) ∧ AgreeBelow n t t' ∧
      rs.map (·.inV) = rs'.map (·.inV) ∧ rs.map (·.nextV) = rs'.map (·.nextV) ∧
      ∀ j : Nat, s.processors (k + j) = none → (rs.map (·.outV))[j]? = (rs'.map (·.outV))[j]? := by
  induction l generalizing k s s' rs' with
  | nil =>
    simp only [cycleLoop, Res.ok.injEq, Prod.mk.injEq] at h
    obtain ⟨rfl, rfl⟩ := h
    exact ⟨s, [], rfl, ha, rfl, rfl, fun _ _ => rfl⟩
  | cons x l ih =>
    obtain ⟨inV, outV⟩ := x
    rw [List.length_cons] at hk
    simp only [cycleLoop, Res.bind_eq, Res.bind_eq_ok] at h
    obtain ⟨⟨u', q'⟩, h1, ⟨w', qs'⟩, h2, h3⟩ := h
    cases h3
    obtain ⟨u, q, e1, e2, e3, e4, e5⟩ := moduleStep_below (by omega) ha h1
    obtain ⟨t, rs, f1, f2, f3, f4, f5⟩ := ih (by omega) e2 h2
    refine ⟨t, q :: rs, ?_, f2, ?_, ?_, fun j hj => ?_⟩
    · simp only [cycleLoop, e1, Res.bind_eq, Res.bind_ok, f1]; rfl
    · simp only [List.map_cons, e3, f3]
    · simp only [List.map_cons, e4, f4]
    · cases j with
      | zero => simp only [List.map_cons, List.getElem?_cons_zero, e5 hj]
      | succ j =>
        simp only [List.map_cons, List.getElem?_cons_succ]
        apply f5
        rw [moduleStep_others e1 _ (by omega), show k + 1 + j = k + (j + 1) by omega]
        exact hj

/-- One cycle of the loop over the modules of an extended station. -/
theorem outputLoop_beginsWith (out img : List Word)
    (l : List ((Module × ModuleOffset) × List ChannelValue)) (h : outputLoop out l = .ok img) :
    BeginsWith out img ∧
    ((∀ e ∈ l, ∀ o, e.1.2.output = some o → o.toNat % 16 = 0) → out <+: img) := by
  induction l generalizing out with
  | nil =>
    cases h
    exact ⟨⟨le_rfl, fun _ _ _ => rfl⟩, fun _ => List.prefix_rfl⟩
  | cons e l ih =>
    obtain ⟨⟨m, off⟩, vs⟩ := e
    simp only [outputLoop] at h
    cases ho : off.output with
    | none =>
      rw [ho] at h
      obtain ⟨h1, h2⟩ := ih out h
      exact ⟨h1, fun h3 => h2 fun e he => h3 e (by simp [he])⟩
    | some o =>
      rw [ho] at h
      simp only [Res.bind_eq, Res.bind_eq_ok] at h
      obtain ⟨d, -, mid, h1, h2⟩ := h
      obtain ⟨⟨h3, h4⟩, h5⟩ := ih mid h2
      rcases (placeWords_spec _ _ _ _).1 h1 with ⟨-, ⟨h6, h7, rfl⟩ | ⟨h6, h7, -, h8, h9⟩⟩
      · rw [List.length_append] at h3 h4
        refine ⟨⟨by omega, fun p hp hp' => ?_⟩, fun h10 =>
          (List.prefix_append _ _).trans (h5 fun e he => h10 e (by simp [he]))⟩
        by_cases hq : p + 1 = 2 * (out.length + d.length)
        · omega
        · rw [← h4 p (by omega) hq, byteAt_append_left _ _ _ hp]
      · rw [h8] at h3 h4
        refine ⟨⟨h3, fun p hp hp' => ?_⟩, fun h10 => ?_⟩
        · rw [← h4 p hp hp', h9, if_neg (by omega)]
        · have := h10 ((m, off), vs) (by simp) o ho
          omega

/-- The first coupler is that of the first `n` modules of the second one. -/
structure Below (cfg : CouplerConfig) (n : Nat) (c c' : Coupler) : Prop where
  len : c.modules.length = n
  olen : c.offsets.length = n
  modules : c.modules <+: c'.modules
  offsets : c.offsets <+: c'.offsets
  processors : ∀ k, k < n → c.processors k = c'.processors k
  others : ∀ k, n ≤ k → c.processors k = none
  write : ∀ a : Address, a.module < n → c.write a = c'.write a
  inputs : c.inValues <+: c'.inValues
  outLen : c.outValues.length ≤ c'.outValues.length
  outputs : ∀ j, j < c.outValues.length →
    cfg.modules[j]? ≠ some .UR20_1COM_232_485_422 → c.outValues[j]? = c'.outValues[j]?

theorem Below.infos {cfg : CouplerConfig} {n : Nat} {c c' : Coupler} (h : Below cfg n c c') :
    infos c' = infos c ++ (c'.modules.drop n).zip (c'.offsets.drop n) := by
  obtain ⟨ms, hm⟩ := h.modules
  obtain ⟨os, ho⟩ := h.offsets
  unfold Spec.infos
  rw [← hm, ← ho, List.zip_append (by rw [h.len, h.olen])]
  congr 1
  rw [List.drop_left' h.len, List.drop_left' h.olen]

theorem no_processor {oc : Bool} {cfg : CouplerConfig} {c : Coupler} (hr : ReachableFrom oc cfg c)
    {j : Nat} (h : cfg.modules[j]? ≠ some .UR20_1COM_232_485_422) : c.processors j = none := by
  have h1 := mt (C14_readers oc cfg c hr j).1.1 h
  unfold hasReader at h1
  simpa using h1

theorem Below.next {cfg : CouplerConfig} {n : Nat} {c c' : Coupler} (hb : Below cfg n c c') (oc : Bool)
    (hr : ReachableFrom oc cfg c) (pi po img' : List Word)
    (h : (c'.next oc pi po).2 = .ok img') :
    ∃ img, (c.next oc pi po).2 = .ok img ∧ BeginsWith img img' ∧
      ((∀ p ∈ (c'.modules.drop n).zip (c'.offsets.drop n), ∀ o, p.2.output = some o →
        o.toNat % 16 = 0) → img <+: img') ∧
      Below cfg n (c.next oc pi po).1 (c'.next oc pi po).1 := by
  have hx := hb.infos
  generalize (c'.modules.drop n).zip (c'.offsets.drop n) = ext at *
  obtain ⟨ins', outs', st', rs', h1, h2, h3, h4, h5⟩ : ∃ ins outs st rs,
      processInputData oc (Spec.infos c') pi = .ok ins ∧
      processOutputData oc (Spec.infos c') po = .ok outs ∧
      cycleLoop 0 ⟨c'.write, c'.processors, c'.lastTxCnt⟩ (ins.zip outs) = .ok (st, rs) ∧
      c'.next oc pi po = (c'.after st rs, processOutputValues (Spec.infos c') (rs.map (·.nextV))) ∧
      processOutputValues (Spec.infos c') (rs.map (·.nextV)) = .ok img' := by
    rcases next_cases oc c' pi po with ⟨e, -, h1⟩ | ⟨-, h1⟩ | ⟨_, e, -, -, h1⟩ | ⟨_, -, -, h1⟩ |
      ⟨_, _, -, -, -, h1⟩ | ⟨ins, outs, st, rs, h1, h2, h3, h4⟩
    · rw [h1] at h; cases h
    · rw [h1] at h; cases h
    · rw [h1] at h; cases h
    · rw [h1] at h; cases h
    · rw [h1] at h; cases h
    · rw [h4] at h
      exact ⟨ins, outs, st, rs, h1, h2, h3, h4, h⟩
  rw [hx] at h1 h2 h5
  have hlen : (Spec.infos c).length = n := by
    unfold Spec.infos; rw [List.length_zip, hb.len, hb.olen, Nat.min_self]
  obtain ⟨ins, ins2, a1, -, rfl⟩ := mapRes_append_ok h1
  obtain ⟨outs, outs2, b1, -, rfl⟩ := mapRes_append_ok h2
  have la : ins.length = n := by rw [mapRes_length a1, hlen]
  have lb : outs.length = n := by rw [mapRes_length b1, hlen]
  rw [List.zip_append (by rw [la, lb])] at h3
  obtain ⟨st1, r1, r2, c1, c2, rfl⟩ := cycleLoop_append h3
  have lz : (ins.zip outs).length = n := by rw [List.length_zip, la, lb, Nat.min_self]
  obtain ⟨t, rs, d1, d2, d3, d4, d5⟩ := cycleLoop_below (n := n)
    (s := ⟨c.write, c.processors, c.lastTxCnt⟩) (by omega) ⟨hb.processors, hb.write⟩ c1
  obtain ⟨e1, e2, e3, -⟩ := cycleLoop_spec c2
  obtain ⟨f1, -, f3, -⟩ := cycleLoop_spec d1
  obtain ⟨f1', -⟩ := cycleLoop_spec c1
  obtain ⟨g1, g2⟩ := Coupler.next_done (c' := (c.next oc pi po).1) (r := (c.next oc pi po).2) a1 b1 d1 rfl
  have lr1 : r1.length = n := by rw [f1', lz]
  have lr : rs.length = n := by rw [f1, lz]
  unfold processOutputValues at h5 g2
  split at h5
  · cases h5
  rename_i hl5
  rw [List.map_append, List.zip_append (by rw [hlen, List.length_map, lr1]), outputLoop_append,
    Res.bind_eq_ok] at h5
  obtain ⟨img, i1, i2⟩ := h5
  rw [if_neg (by rw [List.length_map, lr, hlen]; simp), d4, i1] at g2
  obtain ⟨j1, j2⟩ := outputLoop_beginsWith img img' _ i2
  refine ⟨img, g2, j1, fun hal => j2 fun e he o ho => hal e.1 (List.of_mem_zip he).1 o ho, ?_⟩
  rw [g1, h4]
  unfold after
  have hfr : ∀ k, k < n → st'.processors k = st1.processors k := fun k hk => e3 k (.inl (by omega))
  refine ⟨hb.len, hb.olen, hb.modules, hb.offsets, fun k hk => ?_, fun k hk => ?_, fun a ha => ?_,
    ?_, ?_, fun j hj hp => ?_⟩
  · simp only
    rw [hfr k hk]
    exact d2.1 k hk
  · simp only
    rw [f3 k (.inr (by omega))]
    exact hb.others k hk
  · simp only
    rw [e2 a (.inl (by omega))]
    exact d2.2 a ha
  · simp only [List.map_append]
    rw [d3]
    exact List.prefix_append _ _
  · simp only [List.length_map, List.length_append, lr, lr1]
    omega
  · simp only [List.length_map] at hj
    simp only [List.map_append]
    rw [List.getElem?_append_left (by rw [List.length_map, lr1]; omega)]
    apply d5
    rw [Nat.zero_add]
    simp only at hp ⊢
    exact no_processor hr hp

theorem Below.setProcessor {cfg : CouplerConfig} {n : Nat} {c c' : Coupler} (hb : Below cfg n c c')
    (k : Nat) (hk : k < n) (p : Com.MessageProcessor) :
    Below cfg n (c.setProcessor k p) (c'.setProcessor k p) := by
  refine ⟨hb.len, hb.olen, hb.modules, hb.offsets, fun j hj => ?_, fun j hj => ?_, hb.write, hb.inputs,
    hb.outLen, hb.outputs⟩
  · simp only [Coupler.setProcessor]
    split
    · rfl
    · exact hb.processors j hj
  · simp only [Coupler.setProcessor]
    rw [if_neg (by omega)]
    exact hb.others j hj

/-- A call that concerns one of the first modules. -/
theorem Below.call {cfg : CouplerConfig} {n : Nat} {c c' : Coupler} (hb : Below cfg n c c') (oc : Bool)
    (op : COp) (hop : op.below n = true) (hc : ∀ pi po, op ≠ .next pi po) :
    (call oc c op).2 = (call oc c' op).2 ∧ Below cfg n (call oc c op).1 (call oc c' op).1 := by
  cases op with
  | next pi po => exact absurd rfl (hc pi po)
  | setOutput a v =>
    simp only [COp.below, decide_eq_true_eq] at hop
    have hv : c.isValidAddr a = c'.isValidAddr a := by
      obtain ⟨ms, hm⟩ := hb.modules
      unfold isValidAddr
      rw [← hm, List.getElem?_append_left (by rw [hb.len]; exact hop)]
    simp only [Spec.call, Coupler.setOutput, hv]
    split
    · exact ⟨rfl, hb⟩
    · refine ⟨rfl, hb.len, hb.olen, hb.modules, hb.offsets, hb.processors, hb.others, fun b hm => ?_,
        hb.inputs, hb.outLen, hb.outputs⟩
      simp only [Coupler.insert]
      split
      · rfl
      · exact hb.write b hm
  | read k len =>
    simp only [COp.below, decide_eq_true_eq] at hop
    simp only [Spec.call, Coupler.read, hb.processors k hop]
    cases c'.processors k with
    | none => exact ⟨rfl, hb⟩
    | some p =>
      simp only
      cases p.read len with
      | err e => exact ⟨rfl, hb⟩
      | panic => exact ⟨rfl, hb⟩
      | ok r => exact ⟨rfl, hb.setProcessor k hop r.1⟩
  | write k buf =>
    simp only [COp.below, decide_eq_true_eq] at hop
    simp only [Spec.call, Coupler.writeBytes, hb.processors k hop]
    cases c'.processors k with
    | none => exact ⟨rfl, hb⟩
    | some p => exact ⟨rfl, hb.setProcessor k hop _⟩

/-- A call that concerns one of the modules added. -/
theorem Below.other {cfg : CouplerConfig} {n : Nat} {c c' : Coupler} (hb : Below cfg n c c') (oc : Bool)
    (op : COp) (hop : op.below n = false) : Below cfg n c (op.apply oc c') := by
  have hp : ∀ k p, n ≤ k → Below cfg n c (c'.setProcessor k p) := by
    intro k p hk
    refine ⟨hb.len, hb.olen, hb.modules, hb.offsets, fun j hj => ?_, hb.others, hb.write, hb.inputs,
      hb.outLen, hb.outputs⟩
    simp only [Coupler.setProcessor]
    rw [if_neg (by omega)]
    exact hb.processors j hj
  cases op with
  | next pi po => cases hop
  | setOutput a v =>
    simp only [COp.below, decide_eq_false_iff_not] at hop
    simp only [COp.apply, Coupler.setOutput]
    split
    · exact hb
    · refine ⟨hb.len, hb.olen, hb.modules, hb.offsets, hb.processors, hb.others, fun b hm => ?_,
        hb.inputs, hb.outLen, hb.outputs⟩
      simp only [Coupler.insert]
      rw [if_neg (by rintro rfl; exact hop hm)]
      exact hb.write b hm
  | read k len =>
    simp only [COp.below, decide_eq_false_iff_not] at hop
    simp only [COp.apply, Coupler.read]
    cases c'.processors k with
    | none => exact hb
    | some p =>
      simp only
      cases p.read len with
      | err e => exact hb
      | panic => exact hb
      | ok r => exact hp k r.1 (by omega)
  | write k buf =>
    simp only [COp.below, decide_eq_false_iff_not] at hop
    simp only [COp.apply, Coupler.writeBytes]
    cases c'.processors k with
    | none => exact hb
    | some p => exact hp k _ (by omega)

theorem call_apply (oc : Bool) (c : Coupler) (op : COp) : (call oc c op).1 = op.apply oc c := by
  cases op with
  | read n len =>
    simp only [Spec.call, COp.apply]
    cases c.read n len <;> rfl
  | _ => rfl

theorem below_start {cfg cfg' : CouplerConfig} (hext : Extends cfg cfg') {c' : Coupler}
    (h' : Coupler.new cfg' = .ok c') (h1 : cfg.modules.length = cfg.params.length)
    (h2 : 2 * cfg.modules.length = cfg.offsets.length) :
    ∃ c, Coupler.new cfg = .ok c ∧ Below cfg cfg.modules.length c c' := by
  obtain ⟨⟨ts, ht⟩, ⟨ps, hp⟩, ⟨os, ho⟩⟩ := hext
  obtain ⟨e1, e2, ms', e3, rfl⟩ := Coupler.new_ok h'
  rw [← ht, ← hp, List.zip_append h1] at e3
  obtain ⟨ms, ms2, f1, -, rfl⟩ := mapRes_append_ok e3
  have lm : ms.length = cfg.modules.length := by
    rw [mapRes_length f1, List.length_zip]; omega
  have lo : (offsetsOfProcessData cfg.offsets).length = cfg.modules.length := by
    rw [offsetsOfProcessData_length]; omega
  refine ⟨Coupler.initial cfg ms, ?_, ?_⟩
  · rw [Coupler.new_eq, if_neg (by simpa using h1), if_neg (by omega), f1]
    rfl
  · refine ⟨lm, lo, List.prefix_append _ _, ?_, fun k hk => ?_, fun k hk => ?_, fun _ _ => rfl,
      List.prefix_rfl, le_rfl, fun _ _ _ => rfl⟩
    · simp only [Coupler.initial]
      rw [← ho]
      exact offsets_append _ _ (by omega)
    · simp only [Coupler.initial]
      rw [List.getElem?_append_left (by omega)]
    · simp only [Coupler.initial]
      rw [List.getElem?_eq_none (by omega)]
      rfl

theorem own_registers {oc : Bool} {cfg cfg' : CouplerConfig} {c' : Coupler}
    (hr : ReachableFrom oc cfg' c') (h : OwnRegisters cfg cfg') :
    ∀ p ∈ (c'.modules.drop cfg.modules.length).zip (c'.offsets.drop cfg.modules.length),
      ∀ o, p.2.output = some o → o.toNat % 16 = 0 := by
  intro p hp o ho
  obtain ⟨i, hi⟩ := List.mem_iff_getElem?.1 hp
  obtain ⟨m, off⟩ := p
  rw [List.getElem?_zip_eq_some, List.getElem?_drop, List.getElem?_drop] at hi
  obtain ⟨t, par, o', i', h1, -, rfl⟩ := reachable_at hr (j := cfg.modules.length + i) hi
  have hno : o' ≠ noOffset := by
    rintro rfl
    simp [wordToOffset, noOffset] at ho
  have h2 := h _ t par o' i' (by omega) h1 hno
  unfold wordToOffset at ho
  simp only at ho
  split at ho
  · cases ho
  · cases ho; exact h2

theorem extended_run (oc : Bool) {cfg cfg' : CouplerConfig} (xs : List COp) {c c' : Coupler}
    (hb : Below cfg cfg.modules.length c c') (hr : ReachableFrom oc cfg c)
    (hr' : ReachableFrom oc cfg' c') (hx : CyclesSucceed oc c' xs) :
    CyclesSucceed oc c (xs.filter (COp.below cfg.modules.length)) ∧
    List.Forall₂ (SameBelow cfg cfg')
      (seenBelow cfg.modules.length oc c (xs.filter (COp.below cfg.modules.length)))
      (seenBelow cfg.modules.length oc c' xs) := by
  induction xs generalizing c c' with
  | nil => exact ⟨trivial, .nil⟩
  | cons op xs ih =>
    obtain ⟨hx1, hx2⟩ := hx
    have hr2 : ReachableFrom oc cfg' (op.apply oc c') := reachable_run hr' [op]
    cases hop : op.below cfg.modules.length with
    | false =>
      rw [List.filter_cons_of_neg (by simp [hop])]
      obtain ⟨h1, h2⟩ := ih (hb.other oc op hop) hr hr2 hx2
      refine ⟨h1, ?_⟩
      rw [seenBelow, if_neg (by simp [hop]), List.nil_append]
      exact h2
    | true =>
      have hr1 : ReachableFrom oc cfg (op.apply oc c) := reachable_run hr [op]
      rw [List.filter_cons_of_pos hop]
      have key : (∀ pi po, op = .next pi po → ∃ img, (c.next oc pi po).2 = .ok img) ∧
          Below cfg cfg.modules.length (op.apply oc c) (op.apply oc c') ∧
          (match (call oc c op).2, (call oc c' op).2 with
            | .next (.ok img), .next (.ok img') =>
              BeginsWith img img' ∧ (OwnRegisters cfg cfg' → img <+: img')
            | r, r' => r = r') := by
        by_cases hc : ∃ pi po, op = .next pi po
        · obtain ⟨pi, po, rfl⟩ := hc
          obtain ⟨img', hi'⟩ := hx1 pi po rfl
          obtain ⟨img, h1, h2, h3, h4⟩ := hb.next oc hr pi po img' hi'
          refine ⟨fun _ _ e => by cases e; exact ⟨img, h1⟩, h4, ?_⟩
          simp only [call, h1, hi']
          exact ⟨h2, fun h => h3 (own_registers hr' h)⟩
        · have hc' : ∀ pi po, op ≠ .next pi po := fun pi po e => hc ⟨pi, po, e⟩
          obtain ⟨h1, h2⟩ := hb.call oc op hop hc'
          rw [call_apply, call_apply] at h2
          refine ⟨fun pi po e => absurd e (hc' pi po), h2, ?_⟩
          rw [h1]
          cases op with
          | next pi po => exact absurd rfl (hc' pi po)
          | setOutput a v => exact rfl
          | write n b => exact rfl
          | read n k =>
            simp only [call]
            cases c'.read n k <;> exact rfl
      obtain ⟨k1, k2, k3⟩ := key
      obtain ⟨h1, h2⟩ := ih k2 hr1 hr2 hx2
      refine ⟨⟨k1, h1⟩, ?_⟩
      rw [seenBelow, seenBelow, if_pos hop, if_pos hop]
      refine List.Forall₂.cons ⟨k3, ?_⟩ h2
      rw [call_apply, call_apply]
      exact ⟨k2.inputs, k2.outLen, k2.outputs⟩

/-- C122: a station with modules added at its end. Whatever an application does with the extended
station, as long as its cycles succeed: the same calls without those for the modules added, with the same
images, succeed with the original station, and show the same. -/
theorem C122_extended (oc : Bool) (cfg cfg' : CouplerConfig) (hext : Extends cfg cfg')
    (h1 : cfg.modules.length = cfg.params.length)
    (h2 : 2 * cfg.modules.length = cfg.offsets.length) (c' : Coupler)
    (hnew : Coupler.new cfg' = .ok c') :
    ∃ c, Coupler.new cfg = .ok c ∧
      ∀ xs : List COp, CyclesSucceed oc c' xs →
        CyclesSucceed oc c (xs.filter (COp.below cfg.modules.length)) ∧
        List.Forall₂ (SameBelow cfg cfg')
          (seenBelow cfg.modules.length oc c (xs.filter (COp.below cfg.modules.length)))
          (seenBelow cfg.modules.length oc c' xs) := by
  obtain ⟨c, hc, hb⟩ := below_start hext hnew h1 h2
  exact ⟨c, hc, fun xs hx => extended_run oc xs hb ⟨c, [], hc, rfl⟩ ⟨c', [], hnew, rfl⟩ hx⟩

/-! ### Examples -/

/-- The first of the four modules of `exCfg`. -/
def exFirst : CouplerConfig :=
  { modules := [.UR20_4DO_P], offsets := [0x8000#16, 0xFFFF#16], params := [List.replicate 4 0] }

/-- The calls of the example: the second concerns a module added. -/
def exCalls : List COp := [.setOutput ⟨0, 2⟩ (.bit true), .write 3 [1, 2], .next exPi exPo]

/-- The hypotheses of C122 hold. -/
example : Extends exFirst exCfg ∧ Coupler.new exCfg = .ok (initial exCfg exModules) ∧
    CyclesSucceed true (initial exCfg exModules) exCalls :=
  ⟨⟨⟨_, rfl⟩, ⟨_, rfl⟩, ⟨_, rfl⟩⟩, exCfg_new, (fun _ _ h => nomatch h), (fun _ _ h => nomatch h),
    (fun pi po h => by cases h; exact ⟨_, rfl⟩), trivial⟩

/-- The two images differ in the high byte of the register shared with the second module. -/
example :
    ((runC true (initial exFirst [.dout ⟨.UR20_4DO_P, List.replicate 4 ⟨false⟩⟩])
      [.setOutput ⟨0, 2⟩ (.bit true)]).next true exPi exPo).2 = .ok [0x0007#16] ∧
    ∃ img, ((runC true (initial exCfg exModules)
      [.setOutput ⟨0, 2⟩ (.bit true), .write 3 [1, 2]]).next true exPi exPo).2 = .ok img ∧
      img[0]? = some 0x5507#16 := ⟨rfl, _, rfl, rfl⟩

end Ur20
