import Verif.Props.Addressing
import Verif.Props.Failure
import Verif.Spec.Trace

/-!
# C119: builds with and without overflow checks

Rust compiles arithmetic with overflow checks in debug builds and without in release builds. What an
application sees of a coupler is the same in both, up to the panics of C77.
-/

namespace Ur20

open Spec

/-- The output offset of a module lies before the output area. -/
def BelowOutputArea (p : Module × ModuleOffset) : Prop :=
  ∃ off, p.2.output = some off ∧ off.toNat / 16 < addrPackedProcessOutputData.toNat

theorem mapRes_or {α β : Type} {P : Prop} {e : Error} {f g : α → Res β} {Q : α → Prop} (l : List α)
    (h : ∀ a ∈ l, f a = g a ∨ ((f a = .panic ∧ Q a) ∧ (P → g a = .err e))) :
    mapRes f l = mapRes g l ∨
    ((mapRes f l = .panic ∧ ∃ a ∈ l, Q a) ∧ (P → mapRes g l = .err e)) := by
  induction l with
  | nil => exact .inl rfl
  | cons a l ih =>
    simp only [mapRes]
    rcases h a (by simp) with ha | ⟨⟨ha, hq⟩, hb⟩
    · rw [ha]
      cases hg : g a with
      | err e' => exact .inl rfl
      | panic => exact .inl rfl
      | ok b =>
        rcases ih fun x hx => h x (by simp [hx]) with h1 | ⟨⟨h1, x, hx, hq⟩, h2⟩
        · rw [h1]; exact .inl rfl
        · refine .inr ⟨⟨by rw [h1]; rfl, x, by simp [hx], hq⟩, fun p => by rw [h2 p]; rfl⟩
    · exact .inr ⟨⟨by rw [ha]; rfl, a, by simp, hq⟩, fun p => by rw [hb p]; rfl⟩

theorem prepareRaw_builds (off addr : Word) (bc : Nat) (data : List Word) :
    prepareRawDataToProcess true off addr bc data = prepareRawDataToProcess false off addr bc data ∨
    (off.toNat / 16 < addr.toNat ∧ prepareRawDataToProcess true off addr bc data = .panic) := by
  rw [prepareRaw_unfold, prepareRaw_unfold]
  by_cases h : off.toNat / 16 < addr.toNat
  · exact .inr ⟨h, by simp [h]⟩
  · exact .inl (by simp [h])

theorem prepareRaw_below (off : Word) (bc : Nat) (data : List Word)
    (h : off.toNat / 16 < addrPackedProcessOutputData.toNat) (hd : data.length ≤ 0xF800) :
    prepareRawDataToProcess false off addrPackedProcessOutputData bc data = .err .bufferLength := by
  rw [prepareRaw_unfold]
  have hr := reg_toNat off
  have hw := rawWords_pos bc
  have ha : addrPackedProcessOutputData.toNat = 0x800 := rfl
  have hs : 0xF800 ≤ rawStart off addrPackedProcessOutputData := by
    unfold rawStart
    rw [BitVec.toNat_sub, hr, ha]
    omega
  simp only [Bool.false_and, Bool.false_eq_true, if_false]
  rw [if_pos (by omega)]

theorem processInputData_builds (ms : List (Module × ModuleOffset)) (pi : List Word) :
    processInputData true ms pi = processInputData false ms pi := by
  have h : ∀ p : Module × ModuleOffset, moduleInput true pi p.1 p.2 = moduleInput false pi p.1 p.2 := by
    intro p
    unfold moduleInput
    cases p.2.input with
    | none => rfl
    | some off =>
      rcases prepareRaw_builds off addrPackedProcessInputData p.1.inputByteCount pi with h | ⟨h, -⟩
      · simp only [h]
      · exact absurd h (Nat.not_lt_zero _)
  unfold processInputData
  simp only [h]

theorem processOutputData_builds (ms : List (Module × ModuleOffset)) (po : List Word) :
    processOutputData true ms po = processOutputData false ms po ∨
    ((processOutputData true ms po = .panic ∧ ∃ p ∈ ms, BelowOutputArea p) ∧
      (po.length ≤ 0xF800 → processOutputData false ms po = .err .bufferLength)) := by
  unfold processOutputData
  refine mapRes_or ms fun p _ => ?_
  unfold moduleOutput
  cases ho : p.2.output with
  | none => exact .inl rfl
  | some off =>
    rcases prepareRaw_builds off addrPackedProcessOutputData p.1.outputByteCount po with h | ⟨h, h1⟩
    · exact .inl (by simp only [h])
    · refine .inr ⟨⟨by simp only [h1]; rfl, off, ho, h⟩, fun hp => ?_⟩
      simp only [prepareRaw_below off _ po h hp]
      rfl

theorem outputLoop_below {l : List ((Module × ModuleOffset) × List ChannelValue)}
    (h : ∃ x ∈ l, BelowOutputArea x.1) (out img : List Word) : outputLoop out l ≠ .ok img := by
  induction l generalizing out with
  | nil => simp at h
  | cons x l ih =>
    obtain ⟨⟨m, off⟩, vs⟩ := x
    intro he
    have hrest : (∃ off', off.output = some off' ∧
        off'.toNat / 16 < addrPackedProcessOutputData.toNat) ∨ ∃ x ∈ l, BelowOutputArea x.1 := by
      obtain ⟨y, hy, hb⟩ := h
      rcases List.mem_cons.1 hy with rfl | hy
      · exact .inl hb
      · exact .inr ⟨y, hy, hb⟩
    unfold outputLoop at he
    cases ho : off.output with
    | none =>
      rw [ho] at he hrest
      rcases hrest with ⟨_, h1, -⟩ | h1
      · cases h1
      · exact ih h1 out he
    | some o =>
      rw [ho] at he hrest
      simp only at he
      cases hv : m.processOutputValues vs with
      | err e => rw [hv] at he; cases he
      | panic => rw [hv] at he; cases he
      | ok data =>
        rw [hv] at he
        change (placeWords out o data).bind (fun out => outputLoop out l) = _ at he
        rcases hrest with ⟨o', h1, h2⟩ | h1
        · cases h1
          have hp : placeWords out o data = .err .moduleOffset := by
            unfold placeWords
            have hr := reg_toNat o
            simp only [hr]
            rw [if_pos h2]
          rw [hp] at he
          cases he
        · cases hp : placeWords out o data with
          | err e => rw [hp] at he; cases he
          | panic => rw [hp] at he; cases he
          | ok out' => rw [hp] at he; exact ih h1 out' he

theorem next_below (oc : Bool) (c : Coupler) (h : ∃ p ∈ infos c, BelowOutputArea p)
    (pi po img : List Word) : (c.next oc pi po).2 ≠ .ok img := by
  intro he
  rcases Coupler.next_cases oc c pi po with ⟨e, h1, h2⟩ | ⟨h1, h2⟩ | ⟨ins, e, h1, h2, h3⟩ |
    ⟨ins, h1, h2, h3⟩ | ⟨ins, outs, h1, h2, h3, h4⟩ | ⟨ins, outs, st, rs, h1, h2, h3, h4⟩
  · rw [h2] at he; cases he
  · rw [h2] at he; cases he
  · rw [h3] at he; cases he
  · rw [h3] at he; cases he
  · rw [h4] at he; cases he
  · rw [h4] at he
    simp only at he
    unfold processOutputValues at he
    split at he
    · cases he
    · rename_i hl
      simp only [ne_eq, Decidable.not_not] at hl
      obtain ⟨p, hp, hb⟩ := h
      obtain ⟨k, hk, rfl⟩ := List.getElem_of_mem hp
      refine outputLoop_below ⟨((infos c).zip (rs.map (·.nextV)))[k]'(by
        rw [List.length_zip]; omega), List.getElem_mem _, ?_⟩ _ _ he
      rw [List.getElem_zip]
      exact hb

/-- C119: a cycle does the same with and without overflow checks, unless it panics with them; then it
leaves the coupler in the same state without them and, if the output image has at most `0xF800`
registers, returns the error `BufferLength`; it never succeeds. -/
theorem C119_cycle (c : Coupler) (pi po : List Word) :
    c.next true pi po = c.next false pi po ∨
    ((c.next true pi po).2 = .panic ∧ (∀ img, (c.next false pi po).2 ≠ .ok img) ∧
      (po.length ≤ 0xF800 → c.next false pi po = ((c.next true pi po).1, .err .bufferLength))) := by
  have hb := fun h img => next_below false c h pi po img
  revert hb
  unfold Coupler.next infos
  simp only [processInputData_builds]
  cases processInputData false (c.modules.zip c.offsets) pi with
  | err e => exact fun _ => .inl rfl
  | panic => exact fun _ => .inl rfl
  | ok ins =>
    intro hb
    rcases processOutputData_builds (c.modules.zip c.offsets) po with h | ⟨⟨h, hq⟩, h1⟩
    · exact .inl (by simp only [h])
    · simp only [h]
      refine .inr ⟨trivial, hb hq, fun hp => by simp only [h1 hp]⟩

/-- C119: what an application sees of any history of calls is the same in both builds, or it is the
same until a cycle panics with overflow checks; in the build without them that cycle returns the error
`BufferLength`, if its output image has at most `0xF800` registers. -/
theorem C119_builds (c : Coupler) (ops : List COp) :
    trace true c ops = trace false c ops ∨
    ∃ before pi po after seen rest,
      ops = before ++ .next pi po :: after ∧
      trace true c ops = trace false c before ++ [⟨.next .panic, [], []⟩] ∧
      trace false c ops = trace false c before ++ seen :: rest ∧
      (∀ img, seen.result ≠ .next (.ok img)) ∧
      (po.length ≤ 0xF800 → seen.result = .next (.err .bufferLength)) := by
  induction ops generalizing c with
  | nil => exact .inl rfl
  | cons op ops ih =>
    have step : ∀ c' r, call true c op = (c', r) → call false c op = (c', r) →
        trace true c (op :: ops) = trace false c (op :: ops) ∨
        ∃ before pi po after seen rest,
          op :: ops = before ++ .next pi po :: after ∧
          trace true c (op :: ops) = trace false c before ++ [⟨.next .panic, [], []⟩] ∧
          trace false c (op :: ops) = trace false c before ++ seen :: rest ∧
          (∀ img, seen.result ≠ .next (.ok img)) ∧
          (po.length ≤ 0xF800 → seen.result = .next (.err .bufferLength)) := by
      intro c' r h1 h2
      simp only [trace, h1, h2]
      by_cases hp : r.panicked
      · exact .inl (by simp only [hp, if_true])
      · simp only [hp, Bool.false_eq_true, if_false]
        rcases ih c' with h | ⟨before, pi, po, after, seen, rest, e1, e2, e3, e4⟩
        · exact .inl (by rw [h])
        · refine .inr ⟨op :: before, pi, po, after, seen, rest, by rw [e1]; rfl, ?_, ?_, e4⟩
          · simp only [e2, trace, h2, hp, Bool.false_eq_true, if_false, List.cons_append]
          · simp only [e3, trace, h2, hp, Bool.false_eq_true, if_false, List.cons_append]
    cases op with
    | setOutput a v => exact step _ _ rfl rfl
    | read n len => exact step _ _ rfl rfl
    | write n buf => exact step _ _ rfl rfl
    | next pi po =>
      rcases C119_cycle c pi po with h | ⟨h, h0, h1⟩
      · exact step _ _ (by simp only [call, h]) rfl
      · refine .inr ⟨[], pi, po, ops, ?_⟩
        have ht : trace true c (.next pi po :: ops) = [⟨.next .panic, [], []⟩] := by
          simp only [trace, call, h, Ret.panicked, if_true]
        cases hr : (call false c (.next pi po)).2.panicked with
        | true =>
          refine ⟨⟨(call false c (.next pi po)).2, [], []⟩, [], rfl, ht, ?_, fun img he => h0 img (Ret.next.inj he),
            fun hp => ?_⟩
          · simp only [trace, hr, if_true, List.nil_append]
          · simp only [call, h1 hp]
        | false =>
          refine ⟨⟨(call false c (.next pi po)).2, (call false c (.next pi po)).1.inputs,
            (call false c (.next pi po)).1.outputs⟩, trace false (call false c (.next pi po)).1 ops, rfl,
            ht, ?_, fun img he => h0 img (Ret.next.inj he), fun hp => ?_⟩
          · simp only [trace, hr, Bool.false_eq_true, if_false, List.nil_append]
          · simp only [call, h1 hp]

/-- C119: a program that does not panic with overflow checks does exactly the same without them. -/
theorem C119_tested (c : Coupler) (ops : List COp)
    (h : ∀ seen ∈ trace true c ops, seen.result ≠ .next .panic) :
    trace false c ops = trace true c ops := by
  rcases C119_builds c ops with h1 | ⟨before, pi, po, after, seen, rest, -, e2, -⟩
  · exact h1.symm
  · exact absurd rfl (h ⟨.next .panic, [], []⟩ (by simp [e2]))

/-- C119: the windows of the parameter registers are the same in both builds, or there are more than
64 modules and computing them panics with overflow checks. -/
theorem C119_parameters (ts : List ModuleType) :
    paramAddressesAndRegisterCounts true ts = paramAddressesAndRegisterCounts false ts ∨
    (paramAddressesAndRegisterCounts true ts = .panic ∧ 64 < ts.length) := by
  by_cases h : 64 < ts.length
  · exact .inr ⟨(C08_outcome true ts).1.2 (.inr ⟨rfl, h⟩), h⟩
  · left
    unfold paramAddressesAndRegisterCounts
    refine (mapRes_or (P := False) (e := .address) (Q := fun _ => False) ts.zipIdx
      fun a ha => .inl ?_).resolve_right fun h1 => ?_
    · unfold paramAddress
      have hi : a.2 < ts.length := by
        have := List.mem_zipIdx ha
        omega
      have : ¬ addrModuleParameters.toNat + (BitVec.ofNat 16 (a.2 * 256)).toNat ≥ 65536 := by
        rw [BitVec.toNat_ofNat]
        change ¬ 0xC000 + _ ≥ 65536
        omega
      simp only [this, Bool.and_false, decide_false]
    · obtain ⟨⟨-, -, -, h1⟩, -⟩ := h1
      exact h1

/-! ### Examples -/

/-- A relay module before the output area: the cycle panics with overflow checks and returns an error
without. -/
example : ∃ c, Coupler.new exLow = .ok c ∧
    trace true c [.setOutput ⟨0, 1⟩ (.bit true), .next [] [0]] =
      [⟨.setOutput (.ok ()), [], []⟩, ⟨.next .panic, [], []⟩] ∧
    trace false c [.setOutput ⟨0, 1⟩ (.bit true), .next [] [0], .next [] [0]] =
      [⟨.setOutput (.ok ()), [], []⟩,
        ⟨.next (.err .bufferLength), [[.none, .none, .none, .none]], []⟩,
        ⟨.next (.err .bufferLength), [[.none, .none, .none, .none]], []⟩] :=
  ⟨_, rfl, by decide +kernel, by decide +kernel⟩

/-- A history without panics, which meets the hypothesis of `C119_tested`. -/
example : ∀ seen ∈ trace true (Coupler.initial exCfg exModules)
      [.setOutput ⟨0, 2⟩ (.bit true), .next exPi exPo, .next [] []],
    seen.result ≠ .next .panic := by decide +kernel

end Ur20
