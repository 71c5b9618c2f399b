import Verif.Spec.Interleaving
import Verif.Lemmas.Coupler
import Verif.Props.Coupler

/-!
# C100: how the calls between two cycles are interleaved does not matter
-/

namespace Ur20

open Spec Com Coupler

theorem apply_set (oc : Bool) (c : Coupler) (a : Address) (v : ChannelValue) :
    COp.apply oc c (.setOutput a v) =
      { c with write := fun b => if b = a ∧ c.isValidAddr a = true then some v else c.write b } ∧
    (call oc c (.setOutput a v)).2 =
      .setOutput (if c.isValidAddr a = true then .ok () else .err .address) := by
  simp only [COp.apply, call, setOutput]
  by_cases h : c.isValidAddr a = true
  · simp only [h, Bool.not_true, Bool.false_eq_true, if_false, and_true, if_true]
    rfl
  · simp [h]

theorem apply_read (oc : Bool) (c : Coupler) (n k : Nat) :
    COp.apply oc c (.read n k) =
      { c with processors := fun m => if m = n then
          (c.processors n).map fun p => { p with inData := p.inData.drop k }
        else c.processors m } ∧
    (call oc c (.read n k)).2 = .read (.ok ((c.processors n).map fun p => p.inData.take k)) := by
  simp only [COp.apply, call, Coupler.read]
  cases h : c.processors n with
  | none =>
    refine ⟨?_, rfl⟩
    have : (fun m => if m = n then none else c.processors m) = c.processors := by
      funext m
      by_cases hm : m = n <;> simp [hm, h]
    simp only [Option.map_none, this]
  | some p => simp only [read_ok, Res.bind_ok, Option.map_some, setProcessor, and_self]

theorem apply_write (oc : Bool) (c : Coupler) (n : Nat) (b : List Byte) :
    COp.apply oc c (.write n b) =
      { c with processors := fun m => if m = n then (c.processors n).map fun p => (p.write b).1
        else c.processors m } ∧
    (call oc c (.write n b)).2 = .write ((c.processors n).map fun _ => b.length) := by
  simp only [COp.apply, call, writeBytes]
  cases h : c.processors n with
  | none =>
    refine ⟨?_, rfl⟩
    have : (fun m => if m = n then none else c.processors m) = c.processors := by
      funext m
      by_cases hm : m = n <;> simp [hm, h]
    simp only [Option.map_none, this]
  | some p => exact ⟨rfl, rfl⟩

private theorem call_fst (oc : Bool) (c : Coupler) (op : COp) :
    (call oc c op).1 = op.apply oc c := by
  cases op with
  | read n k =>
    simp only [call, COp.apply]
    cases c.read n k <;> rfl
  | _ => rfl

/-- Two calls with different targets commute, and neither changes the result of the other. -/
private theorem commute (oc : Bool) (c : Coupler) {x y : COp} (hx : x.target ≠ none)
    (hy : y.target ≠ none) (hxy : x.target ≠ y.target) :
    x.apply oc (y.apply oc c) = y.apply oc (x.apply oc c) ∧
      (call oc (y.apply oc c) x).2 = (call oc c x).2 := by
  cases x with
  | next pi po => exact absurd rfl hx
  | setOutput a v =>
    cases y with
    | next pi po => exact absurd rfl hy
    | setOutput b w =>
      have hab : a ≠ b := fun h => hxy (by rw [h]; rfl)
      simp only [(apply_set _ _ _ _).1, (apply_set _ _ _ _).2, isValidAddr]
      refine ⟨?_, rfl⟩
      congr 1
      funext d
      by_cases h1 : d = a
      · subst h1; simp [hab]
      · simp only [h1, false_and, if_false]
        rfl
    | read n k =>
      simp only [(apply_set _ _ _ _).1, (apply_set _ _ _ _).2, (apply_read _ _ _ _).1, isValidAddr]
      exact ⟨rfl, rfl⟩
    | write n b =>
      simp only [(apply_set _ _ _ _).1, (apply_set _ _ _ _).2, (apply_write _ _ _ _).1, isValidAddr]
      exact ⟨rfl, rfl⟩
  | read n k =>
    cases y with
    | next pi po => exact absurd rfl hy
    | setOutput a v =>
      simp only [(apply_set _ _ _ _).1, (apply_read _ _ _ _).1, (apply_read _ _ _ _).2, isValidAddr]
      exact ⟨rfl, trivial⟩
    | read m l =>
      have hnm : n ≠ m := fun h => hxy (by rw [h]; rfl)
      simp only [(apply_read _ _ _ _).1, (apply_read _ _ _ _).2, if_neg hnm, if_neg hnm.symm]
      refine ⟨?_, trivial⟩
      congr 1
      funext d
      by_cases h1 : d = n
      · subst h1; simp [hnm]
      · simp [h1]
    | write m b =>
      simp only [(apply_read _ _ _ _).1, (apply_read _ _ _ _).2, (apply_write _ _ _ _).1]
      by_cases hnm : n = m
      · subst hnm
        simp only [if_true, Option.map_map]
        refine ⟨?_, rfl⟩
        congr 1
        funext d
        by_cases h1 : d = n
        · subst h1; simp only [if_true]; rfl
        · simp [h1]
      · simp only [if_neg hnm, if_neg (Ne.symm hnm)]
        refine ⟨?_, trivial⟩
        congr 1
        funext d
        by_cases h1 : d = n
        · subst h1; simp [hnm]
        · simp [h1]
  | write n b =>
    cases y with
    | next pi po => exact absurd rfl hy
    | setOutput a v =>
      simp only [(apply_set _ _ _ _).1, (apply_write _ _ _ _).1, (apply_write _ _ _ _).2,
        isValidAddr]
      exact ⟨rfl, trivial⟩
    | read m l =>
      simp only [(apply_read _ _ _ _).1, (apply_write _ _ _ _).2, (apply_write _ _ _ _).1]
      by_cases hnm : n = m
      · subst hnm
        simp only [if_true, Option.map_map]
        refine ⟨?_, rfl⟩
        congr 1
        funext d
        by_cases h1 : d = n
        · subst h1; simp only [if_true]; rfl
        · simp [h1]
      · simp only [if_neg hnm, if_neg (Ne.symm hnm)]
        refine ⟨?_, trivial⟩
        congr 1
        funext d
        by_cases h1 : d = n
        · subst h1; simp [hnm]
        · simp [h1]
    | write m d =>
      have hnm : n ≠ m := fun h => hxy (by rw [h]; rfl)
      simp only [(apply_write _ _ _ _).1, (apply_write _ _ _ _).2, if_neg hnm, if_neg hnm.symm]
      refine ⟨?_, trivial⟩
      congr 1
      funext d
      by_cases h1 : d = n
      · subst h1; simp [hnm]
      · simp [h1]

/-- A call that is not a cycle does not change what `inputs()` and `outputs()` show. -/
private theorem apply_shown (oc : Bool) (c : Coupler) {op : COp} (h : op.target ≠ none) :
    (op.apply oc c).inputs = c.inputs ∧ (op.apply oc c).outputs = c.outputs := by
  cases op with
  | next pi po => exact absurd rfl h
  | setOutput a v => rw [(apply_set _ _ _ _).1]; exact ⟨rfl, rfl⟩
  | read n k => rw [(apply_read _ _ _ _).1]; exact ⟨rfl, rfl⟩
  | write n b => rw [(apply_write _ _ _ _).1]; exact ⟨rfl, rfl⟩

private theorem seenOf_append (oc : Bool) (t : Target) (c : Coupler) (xs ys : List COp) :
    seenOf oc t c (xs ++ ys) = seenOf oc t c xs ++ seenOf oc t (runC oc c xs) ys := by
  induction xs generalizing c with
  | nil => rfl
  | cons op xs ih =>
    simp only [List.cons_append, seenOf, ih, List.append_assoc]
    rfl

/-- A call can be moved before calls with other targets. -/
private theorem move (oc : Bool) {x : COp} (hx : x.target ≠ none) (pre : List COp)
    (hpre : ∀ y ∈ pre, y.target ≠ none ∧ y.target ≠ x.target) :
    ∀ c, runC oc c (pre ++ [x]) = runC oc c (x :: pre) ∧
      ∀ t, seenOf oc t c (pre ++ [x]) = seenOf oc t c (x :: pre) := by
  induction pre with
  | nil => intro c; exact ⟨rfl, fun _ => rfl⟩
  | cons y pre ih =>
    intro c
    obtain ⟨h1, h2⟩ := hpre y List.mem_cons_self
    obtain ⟨ih1, ih2⟩ := ih (fun z hz => hpre z (List.mem_cons_of_mem _ hz)) (y.apply oc c)
    obtain ⟨c1, c2⟩ := commute oc c hx h1 (Ne.symm h2)
    obtain ⟨-, c3⟩ := commute oc c h1 hx h2
    refine ⟨?_, fun t => ?_⟩
    · change runC oc (y.apply oc c) (pre ++ [x]) = runC oc (y.apply oc (x.apply oc c)) pre
      rw [ih1, ← c1]
      rfl
    · simp only [List.cons_append, seenOf]
      rw [ih2 t]
      simp only [seenOf]
      rw [c1, c2, c3, (apply_shown oc c h1).1, (apply_shown oc c h1).2,
        (apply_shown oc _ h1).1, (apply_shown oc _ h1).2, (apply_shown oc c hx).1,
        (apply_shown oc c hx).2]
      by_cases g1 : y.concerns t = true
      · have g2 : ¬ x.concerns t = true := by
          intro g2
          unfold COp.concerns at g1 g2
          simp only [decide_eq_true_eq] at g1 g2
          exact h2 ((g1.resolve_left h1).trans (g2.resolve_left hx).symm)
        simp [g1, g2]
      · simp [g1]

/-- C100: if two histories have, for each channel and each direction of each serial module, the same
calls in the same order between the same cycles, the state after them is the same, and so are the
results of all calls on that channel or in that direction and of all cycles, and what `inputs()` and
`outputs()` show after them. -/
theorem C100_interleaving (oc : Bool) (c : Coupler) (xs ys : List COp) (h : Interleaved xs ys) :
    runC oc c xs = runC oc c ys ∧ ∀ t, seenOf oc t c xs = seenOf oc t c ys := by
  induction xs generalizing c ys with
  | nil =>
    cases ys with
    | nil => exact ⟨rfl, fun _ => rfl⟩
    | cons y ys =>
      exfalso
      have := h (y.target.getD (.received 0))
      rw [List.filter_nil, List.filter_cons_of_pos] at this
      · cases this
      · unfold COp.concerns
        cases y.target <;> simp
  | cons x xs ih =>
    have hc : x.concerns (x.target.getD (.received 0)) = true := by
      unfold COp.concerns
      cases x.target <;> simp
    by_cases hx : x.target = none
    · -- a cycle comes first in both
      have hall : ∀ t, x.concerns t = true := fun t => by simp [COp.concerns, hx]
      cases ys with
      | nil =>
        have := h (.received 0)
        rw [List.filter_cons_of_pos (hall _)] at this
        cases this
      | cons y ys =>
        have hy := h (y.target.getD (.received 0))
        rw [List.filter_cons_of_pos (hall _), List.filter_cons_of_pos (by
          unfold COp.concerns
          cases y.target <;> simp)] at hy
        obtain ⟨rfl, -⟩ := List.cons.inj hy
        obtain ⟨i1, i2⟩ := ih (x.apply oc c) ys fun t => by
          have := h t
          rw [List.filter_cons_of_pos (hall _), List.filter_cons_of_pos (hall _)] at this
          exact (List.cons.inj this).2
        exact ⟨i1, fun t => by simp only [seenOf, i2 t]⟩
    · obtain ⟨t0, ht0⟩ := Option.ne_none_iff_exists'.1 hx
      have h0 := h t0
      rw [List.filter_cons_of_pos (by simp [COp.concerns, ht0])] at h0
      obtain ⟨pre, post, rfl, hpre, hx0, hpost⟩ := List.filter_eq_cons_iff.1 h0.symm
      have hpre' : ∀ y ∈ pre, y.target ≠ none ∧ y.target ≠ x.target := by
        intro y hy
        have := hpre y hy
        unfold COp.concerns at this
        simp only [decide_eq_true_eq, not_or] at this
        rw [ht0]
        exact this
      have hint : Interleaved xs (pre ++ post) := by
        intro t
        have := h t
        rw [List.filter_append, List.filter_cons, List.filter_cons] at this
        rw [List.filter_append]
        by_cases hxt : x.concerns t = true
        · have ht : t = t0 := by
            unfold COp.concerns at hxt
            rw [ht0] at hxt
            simpa [eq_comm] using hxt
          subst ht
          rw [if_pos hxt, if_pos hxt] at this
          have hp : pre.filter (COp.concerns t) = [] := by
            rw [List.filter_eq_nil_iff]
            exact fun y hy => by simpa using hpre y hy
          rw [hp] at this ⊢
          exact (List.cons.inj this).2
        · rw [if_neg hxt, if_neg hxt] at this
          exact this
      obtain ⟨i1, i2⟩ := ih (x.apply oc c) (pre ++ post) hint
      obtain ⟨m1, m2⟩ := move oc hx pre hpre' c
      have e : ∀ (d : Coupler) (as bs : List COp),
          runC oc d (as ++ bs) = runC oc (runC oc d as) bs := fun d as bs => List.foldl_append ..
      constructor
      · change runC oc (x.apply oc c) xs = _
        rw [i1, show pre ++ x :: post = (pre ++ [x]) ++ post by simp, e, e c, m1]
        rfl
      · intro t
        rw [show pre ++ x :: post = (pre ++ [x]) ++ post by simp, seenOf_append, m1, m2 t]
        simp only [seenOf]
        rw [i2 t, seenOf_append, List.append_assoc]
        rfl

/-! ### Examples -/

/-- Two interleavings of three writers, with a cycle in the middle. -/
def exOrder : List COp :=
  [.setOutput ⟨0, 1⟩ (.bit true), .setOutput ⟨1, 2⟩ (.bit true), .write 3 [1, 2],
    .setOutput ⟨0, 1⟩ (.bit false), .next exPi exPo, .read 3 4, .write 3 [3]]

/-- The same calls in another order. -/
def exOrder' : List COp :=
  [.write 3 [1, 2], .setOutput ⟨0, 1⟩ (.bit true), .setOutput ⟨0, 1⟩ (.bit false),
    .setOutput ⟨1, 2⟩ (.bit true), .next exPi exPo, .write 3 [3], .read 3 4]

example : Interleaved exOrder exOrder' := by
  intro t
  simp only [exOrder, exOrder', List.filter_cons, List.filter_nil, COp.concerns, COp.target]
  cases t with
  | channel a =>
    by_cases h1 : (⟨0, 1⟩ : Address) = a
    · subst h1
      simp
    · by_cases h2 : (⟨1, 2⟩ : Address) = a
      · subst h2
        simp
      · simp [h1, h2]
  | received n => simp
  | sent n => by_cases h : 3 = n <;> simp [h]

/-- The order of two values set for the same channel does matter. -/
example : ¬ Interleaved [.setOutput ⟨0, 1⟩ (.bit true), .setOutput ⟨0, 1⟩ (.bit false)]
    [.setOutput ⟨0, 1⟩ (.bit false), .setOutput ⟨0, 1⟩ (.bit true)] := by
  intro h
  have := h (.channel ⟨0, 1⟩)
  simp [COp.concerns, COp.target] at this

end Ur20
