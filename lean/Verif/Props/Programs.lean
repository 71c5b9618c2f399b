import Verif.Spec.Programs
import Verif.Props.SourceRuns
import Verif.Props.Processor
import Verif.Props.Network

/-!
# C140: no program can tell the translated source from the model
-/

namespace Ur20

open Spec

open Src.ur20_fbc_mod_tcp (embed new_eq)

namespace Src

/-- The objects of a program with the translated source and with the model are in the same state. -/
structure SameObjects (s : Objects Src.ur20_fbc_mod_tcp.Coupler) (t : Objects Ur20.Coupler) :
    Prop where
  couplers : ∀ k, match s.couplers k, t.couplers k with
    | some c, some d => ∃ i, c = embed i ∧ Imp.SameC i d
    | none, none => True
    | _, _ => False
  processors : s.processors = t.processors

theorem SameObjects.setCoupler {s t} (h : SameObjects s t) (k : Nat) {i : Imp.Coupler}
    {d : Ur20.Coupler} (hs : Imp.SameC i d) :
    SameObjects (s.setCoupler k (some (embed i))) (t.setCoupler k (some d)) where
  couplers n := by
    have := h.couplers n
    simp only [Objects.setCoupler]
    by_cases e : n = k
    · simp only [e, if_true]; exact ⟨i, rfl, hs⟩
    · simp only [e, if_false]; exact this
  processors := h.processors

theorem SameObjects.dropCoupler {s t} (h : SameObjects s t) (k : Nat) :
    SameObjects (s.setCoupler k none) (t.setCoupler k none) where
  couplers n := by
    have := h.couplers n
    simp only [Objects.setCoupler]
    by_cases e : n = k
    · simp only [e, if_true]
    · simp only [e, if_false]; exact this
  processors := h.processors

theorem SameObjects.setProcessor {s t} (h : SameObjects s t) (k : Nat)
    (p : Option Com.MessageProcessor) :
    SameObjects (s.setProcessor k p) (t.setProcessor k p) where
  couplers := h.couplers
  processors := by simp only [Objects.setProcessor, h.processors]

theorem SameObjects.act {s t} (h : SameObjects s t) (oc : Bool) (ord : Imp.Orders)
    (fill : Nat → Byte) (a : Act) :
    (Spec.Src.act oc ord fill s a).2 = (Spec.act oc t a).2 ∧
      SameObjects (Spec.Src.act oc ord fill s a).1 (Spec.act oc t a).1 := by
  cases a with
  | newCoupler k cfg =>
    simp only [Spec.Src.act, Spec.act]
    rw [new_eq]
    have hs := Imp.new_same cfg
    cases hn : Ur20.Coupler.new cfg with
    | err e => rw [hn] at hs; rw [hs]; exact ⟨rfl, h⟩
    | panic => rw [hn] at hs; rw [hs]; exact ⟨rfl, h⟩
    | ok d =>
      rw [hn] at hs
      obtain ⟨i, h1, h2⟩ := hs
      rw [h1]
      exact ⟨rfl, h.setCoupler k h2⟩
  | call k op =>
    simp only [Spec.Src.act, Spec.act]
    have hk := h.couplers k
    cases hc : s.couplers k with
    | none =>
      rw [hc] at hk
      cases hd : t.couplers k with
      | none => exact ⟨rfl, h⟩
      | some d => rw [hd] at hk; exact hk.elim
    | some c =>
      rw [hc] at hk
      cases hd : t.couplers k with
      | none => rw [hd] at hk; exact hk.elim
      | some d =>
        rw [hd] at hk
        obtain ⟨i, rfl, hs⟩ := hk
        obtain ⟨h1, h2⟩ := call_model oc hs ord fill op
        simp only [h1]
        cases hp : (Spec.call oc d op).2.panicked with
        | true => exact ⟨rfl, h.dropCoupler k⟩
        | false =>
          obtain ⟨i', h3, h4⟩ := h2 hp
          rw [h4, call_apply]
          refine ⟨?_, h.setCoupler k h3⟩
          have e1 : i'.inValues = (op.apply oc d).inValues := h3.inValues
          have e2 : i'.outValues = (op.apply oc d).outValues := h3.outValues
          simp only [Bool.false_eq_true, if_false, Answer.called.injEq, Seen.mk.injEq, true_and]
          exact ⟨e1, e2⟩
  | newProcessor k len => exact ⟨rfl, h.setProcessor k _⟩
  | next k i o =>
    simp only [Spec.Src.act, Spec.act]
    rw [h.processors]
    cases t.processors k with
    | none => exact ⟨rfl, h⟩
    | some p =>
      simp only [Src.ur20_1com_232_485_422.next_eq]
      exact ⟨trivial, h.setProcessor k _⟩
  | read k buf =>
    simp only [Spec.Src.act, Spec.act]
    rw [h.processors]
    cases t.processors k with
    | none => exact ⟨rfl, h⟩
    | some p =>
      obtain ⟨bytes, rest, -, -, e1, e2⟩ := C98_read p buf
      simp only [Src.ur20_1com_232_485_422.read_eq, e1, e2]
      exact ⟨trivial, h.setProcessor k _⟩
  | write k buf =>
    simp only [Spec.Src.act, Spec.act]
    rw [h.processors]
    cases t.processors k with
    | none => exact ⟨rfl, h⟩
    | some p =>
      simp only [Src.ur20_1com_232_485_422.write_eq]
      exact ⟨trivial, h.setProcessor k _⟩

end Src

/-- C140: a program that makes any number of couplers and message processors, and decides what to do
next by the answers it has got, gets the same answers from the translated source as from the model,
whatever the orders of iteration over hash maps and the buffers. -/
theorem C140_programs (oc : Bool) (ord : Nat → Imp.Orders) (fill : Nat → Nat → Byte)
    (prog : List Answer → Act) (n : Nat) :
    (transcript (fun k => Spec.Src.act oc (ord k) (fill k)) .none prog n).2 =
      (transcript (fun _ => act oc) .none prog n).2 := by
  suffices h : (transcript (fun k => Spec.Src.act oc (ord k) (fill k)) .none prog n).2 =
      (transcript (fun _ => act oc) .none prog n).2 ∧
      Src.SameObjects (transcript (fun k => Spec.Src.act oc (ord k) (fill k)) .none prog n).1
        (transcript (fun _ => act oc) .none prog n).1 from h.1
  induction n with
  | zero => exact ⟨rfl, ⟨fun k => trivial, rfl⟩⟩
  | succ n ih =>
    obtain ⟨h1, h2⟩ := ih
    simp only [transcript]
    rw [h1]
    obtain ⟨h3, h4⟩ := h2.act oc (ord n) (fill n) (prog (transcript (fun _ => act oc) .none prog n).2)
    exact ⟨by rw [h3], h4⟩

/-- The same for a given list of actions. -/
theorem answers_same (oc : Bool) (ord : Nat → Imp.Orders) (fill : Nat → Nat → Byte)
    (as : List Act) : ∀ (k : Nat) {s t}, Src.SameObjects s t →
      answers (fun k => Spec.Src.act oc (ord k) (fill k)) k s as = answers (fun _ => act oc) k t as := by
  induction as with
  | nil => intros; rfl
  | cons a as ih =>
    intro k s t h
    obtain ⟨h1, h2⟩ := h.act oc (ord k) (fill k) a
    simp only [answers]
    rw [h1, ih (k + 1) h2]

/-- The two states agree on an object. -/
def AgreeOn (x : Obj) (s t : Objects Coupler) : Prop :=
  match x with
  | .coupler k => s.couplers k = t.couplers k
  | .processor k => s.processors k = t.processors k

theorem act_own (oc : Bool) (s t : Objects Coupler) (a : Act) (h : AgreeOn a.obj s t) :
    (act oc s a).2 = (act oc t a).2 ∧ AgreeOn a.obj (act oc s a).1 (act oc t a).1 := by
  cases a with
  | newCoupler k cfg =>
    simp only [act, Act.obj, AgreeOn] at h ⊢
    cases Coupler.new cfg <;> simp [Objects.setCoupler, h]
  | call k op =>
    simp only [act, Act.obj, AgreeOn] at h ⊢
    rw [h]
    cases hk : t.couplers k with
    | none => exact ⟨rfl, by simp only [h, hk]⟩
    | some c => cases hp : (call oc c op).2.panicked <;> simp [Objects.setCoupler, hp]
  | newProcessor k len => simp [act, Act.obj, AgreeOn, Objects.setProcessor]
  | next k i o =>
    simp only [act, Act.obj, AgreeOn] at h ⊢
    rw [h]
    cases hk : t.processors k with
    | none => exact ⟨rfl, by simp only [h, hk]⟩
    | some p => simp [Objects.setProcessor]
  | read k buf =>
    simp only [act, Act.obj, AgreeOn] at h ⊢
    rw [h]
    cases hk : t.processors k with
    | none => exact ⟨rfl, by simp only [h, hk]⟩
    | some p =>
      simp only
      cases p.read buf.length <;> simp [Objects.setProcessor]
  | write k buf =>
    simp only [act, Act.obj, AgreeOn] at h ⊢
    rw [h]
    cases hk : t.processors k with
    | none => exact ⟨rfl, by simp only [h, hk]⟩
    | some p => simp [Objects.setProcessor]

theorem act_other (oc : Bool) (s : Objects Coupler) (a : Act) (x : Obj) (h : a.obj ≠ x) :
    AgreeOn x (act oc s a).1 s := by
  cases a with
  | newCoupler k cfg =>
    simp only [act, Act.obj] at h ⊢
    cases x <;> cases Coupler.new cfg <;> simp_all [Objects.setCoupler, AgreeOn, Ne.symm]
  | call k op =>
    simp only [act, Act.obj] at h ⊢
    cases hk : s.couplers k with
    | none => cases x <;> rfl
    | some c =>
      cases x <;> cases hp : (call oc c op).2.panicked <;>
        simp_all [Objects.setCoupler, AgreeOn, Ne.symm]
  | newProcessor k len =>
    simp only [act, Act.obj] at h ⊢
    cases x <;> simp_all [Objects.setProcessor, AgreeOn]
    all_goals (intro e; exact absurd e.symm h)
  | next k i o =>
    simp only [act, Act.obj] at h ⊢
    cases hk : s.processors k with
    | none => cases x <;> rfl
    | some c =>
      cases x <;> simp_all [Objects.setProcessor, AgreeOn]
      all_goals (intro e; exact absurd e.symm h)
  | read k buf =>
    simp only [act, Act.obj] at h ⊢
    cases hk : s.processors k with
    | none => cases x <;> rfl
    | some p =>
      simp only
      cases x <;> cases p.read buf.length <;> simp_all [Objects.setProcessor, AgreeOn]
      all_goals (intro e; exact absurd e.symm h)
  | write k buf =>
    simp only [act, Act.obj] at h ⊢
    cases hk : s.processors k with
    | none => cases x <;> rfl
    | some c =>
      cases x <;> simp_all [Objects.setProcessor, AgreeOn]
      all_goals (intro e; exact absurd e.symm h)

theorem AgreeOn.trans {x : Obj} {s t u : Objects Coupler} (h : AgreeOn x s t) (h' : AgreeOn x t u) :
    AgreeOn x s u := by
  cases x <;> exact Eq.trans h h'

theorem answers_separate (oc : Bool) (x : Obj) (as : List Act) :
    ∀ (k k' : Nat) (s t : Objects Coupler), AgreeOn x s t →
      answersAbout x as (answers (fun _ => act oc) k s as) =
        answers (fun _ => act oc) k' t (as.filter fun a => a.obj = x) := by
  induction as with
  | nil => intros; rfl
  | cons a as ih =>
    intro k k' s t h
    by_cases e : a.obj = x
    · obtain ⟨h1, h2⟩ := act_own oc s t a (e ▸ h)
      have h3 := ih (k + 1) (k' + 1) _ _ (e ▸ h2)
      rw [List.filter_cons_of_pos (by simpa using e)]
      simp only [answers]
      rw [← h3, ← h1]
      unfold answersAbout
      rw [List.zip_cons_cons, List.filter_cons_of_pos (by simpa using e), List.map_cons]
    · rw [List.filter_cons_of_neg (by simpa using e), ← ih (k + 1) k' _ _
        ((act_other oc s a x e).trans h)]
      unfold answersAbout
      simp only [answers]
      rw [List.zip_cons_cons, List.filter_cons_of_neg (by simpa using e)]

/-- C140: couplers and processors do not influence each other. What a program is answered by one of
them is what it would be answered if it had none of the others. -/
theorem C140_separate (oc : Bool) (ord ord' : Nat → Imp.Orders) (fill fill' : Nat → Nat → Byte)
    (x : Obj) (as : List Act) :
    answersAbout x as (answers (fun k => Spec.Src.act oc (ord k) (fill k)) 0 .none as) =
      answers (fun k => Spec.Src.act oc (ord' k) (fill' k)) 0 .none
        (as.filter fun a => a.obj = x) := by
  have h : Src.SameObjects .none .none := ⟨fun k => trivial, rfl⟩
  rw [answers_same oc ord fill as 0 h, answers_same oc ord' fill' _ 0 h]
  exact answers_separate oc x as 0 0 _ _ (by cases x <;> rfl)

/-! ## An adaptive program -/

/-- It makes a coupler and a processor, and writes to the coupler as many bytes as the processor
took. Then it reads again and again as many bytes as the last call handled. -/
def exProg (h : List Answer) : Act :=
  match h.length with
  | 0 => .newCoupler 7 exDuo
  | 1 => .newProcessor 7 .EightBytes
  | 2 => .write 7 [1, 2, 3]
  | _ => match h.getLast? with
    | some (.written n) => .call 7 (.write 1 (List.replicate n 9))
    | some (.called ⟨.write (some n), _, _⟩) => .read 7 (List.replicate n 5)
    | some (.filled _ n) => .call 7 (.read 2 n)
    | _ => .call 8 (.read 1 4)

example (ord : Nat → Imp.Orders) (fill : Nat → Nat → Byte) :
    ((transcript (fun k => Spec.Src.act true (ord k) (fill k)) .none exProg 7).2.drop 2).map
      (fun a : Answer => match a with
        | .called s => Answer.called { s with inputs := [], outputs := [] }
        | a => a) =
      [.written 3, .called ⟨.write (some 3), [], []⟩, .filled [5, 5, 5] 0,
        .called ⟨.read (.ok (some [])), [], []⟩, .absent] := by
  rw [C140_programs]
  decide +kernel

/-- The actions of a program with two couplers, one of which fails, and a processor. -/
def exActs : List Act :=
  [.newCoupler 0 exDuo, .newCoupler 1 exDuo, .call 1 (.next [] []), .call 0 (.write 1 [1, 2]),
    .newProcessor 0 .EightBytes]

example (ord ord' : Nat → Imp.Orders) (fill fill' : Nat → Nat → Byte) :
    answersAbout (.coupler 0) exActs
        (answers (fun k => Spec.Src.act true (ord k) (fill k)) 0 .none exActs) =
      answers (fun k => Spec.Src.act true (ord' k) (fill' k)) 0 .none
        [.newCoupler 0 exDuo, .call 0 (.write 1 [1, 2])] :=
  C140_separate true ord ord' fill fill' (.coupler 0) exActs

end Ur20
