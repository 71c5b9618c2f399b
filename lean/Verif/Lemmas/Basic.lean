import Verif.Model.Util
import Mathlib.Data.List.Forall2

/-! Lemmas about outcomes, indexing and `mapRes`. -/

namespace Ur20

namespace Res

@[simp] theorem bind_ok {α β : Type} (a : α) (f : α → Res β) : (Res.ok a).bind f = f a := rfl
@[simp] theorem bind_err {α β : Type} (e : Error) (f : α → Res β) :
    (Res.err e : Res α).bind f = .err e := rfl
@[simp] theorem bind_panic {α β : Type} (f : α → Res β) :
    (Res.panic : Res α).bind f = .panic := rfl
@[simp] theorem bind_eq {α β : Type} (x : Res α) (f : α → Res β) : (x >>= f) = x.bind f := rfl
@[simp] theorem pure_eq {α : Type} (a : α) : (pure a : Res α) = .ok a := rfl
@[simp] theorem map_ok {α β : Type} (f : α → β) (a : α) : (Res.ok a).map f = .ok (f a) := rfl
@[simp] theorem map_err {α β : Type} (f : α → β) (e : Error) :
    (Res.err e : Res α).map f = .err e := rfl
@[simp] theorem map_panic {α β : Type} (f : α → β) : (Res.panic : Res α).map f = .panic := rfl

theorem bind_assoc {α β γ : Type} (x : Res α) (f : α → Res β) (g : β → Res γ) :
    (x.bind f).bind g = x.bind fun a => (f a).bind g := by
  cases x <;> rfl

theorem bind_eq_ok {α β : Type} {x : Res α} {f : α → Res β} {b : β} :
    x.bind f = .ok b ↔ ∃ a, x = .ok a ∧ f a = .ok b := by
  cases x <;> simp

theorem bind_eq_err {α β : Type} {x : Res α} {f : α → Res β} {e : Error} :
    x.bind f = .err e ↔ x = .err e ∨ ∃ a, x = .ok a ∧ f a = .err e := by
  cases x <;> simp

theorem bind_eq_panic {α β : Type} {x : Res α} {f : α → Res β} :
    x.bind f = .panic ↔ x = .panic ∨ ∃ a, x = .ok a ∧ f a = .panic := by
  cases x <;> simp

theorem map_eq_ok {α β : Type} {x : Res α} {f : α → β} {b : β} :
    x.map f = .ok b ↔ ∃ a, x = .ok a ∧ f a = b := by
  cases x <;> simp

theorem map_eq_err {α β : Type} {x : Res α} {f : α → β} {e : Error} :
    x.map f = .err e ↔ x = .err e := by
  cases x <;> simp

theorem map_eq_panic {α β : Type} {x : Res α} {f : α → β} :
    x.map f = .panic ↔ x = .panic := by
  cases x <;> simp

end Res

theorem idx_of_lt {α : Type} {l : List α} {i : Nat} (h : i < l.length) : idx l i = .ok l[i] := by
  simp [idx, h]

theorem idx_eq_ok {α : Type} {l : List α} {i : Nat} {a : α} : idx l i = .ok a ↔ l[i]? = some a := by
  unfold idx; cases h : l[i]? <;> simp

theorem idx_ne_err {α : Type} {l : List α} {i : Nat} {e : Error} : idx l i ≠ .err e := by
  unfold idx; cases h : l[i]? <;> simp

theorem idx_eq_panic {α : Type} {l : List α} {i : Nat} : idx l i = .panic ↔ l.length ≤ i := by
  unfold idx
  cases h : l[i]? with
  | none => simpa using h
  | some a => simpa using (List.getElem?_eq_some_iff.1 h).1

@[simp] theorem idx_cons_zero {α : Type} (a : α) (l : List α) : idx (a :: l) 0 = .ok a := rfl
@[simp] theorem idx_cons_succ {α : Type} (a : α) (l : List α) (i : Nat) :
    idx (a :: l) (i + 1) = idx l i := rfl
@[simp] theorem idx_nil {α : Type} (i : Nat) : idx ([] : List α) i = .panic := rfl

section mapRes
variable {α β : Type} {f : α → Res β}

@[simp] theorem mapRes_nil : mapRes f [] = .ok [] := rfl
@[simp] theorem mapRes_cons (a : α) (l : List α) :
    mapRes f (a :: l) = (f a).bind fun b => (mapRes f l).bind fun bs => .ok (b :: bs) := rfl

theorem mapRes_eq_ok {l : List α} {bs : List β} :
    mapRes f l = .ok bs ↔ List.Forall₂ (fun a b => f a = .ok b) l bs := by
  induction l generalizing bs with
  | nil => simp [eq_comm]
  | cons a l ih =>
    simp only [mapRes_cons, Res.bind_eq_ok]
    constructor
    · rintro ⟨b, hb, cs, hcs, h⟩
      cases h
      exact .cons hb (ih.1 hcs)
    · intro h
      cases h with
      | cons h1 h2 => exact ⟨_, h1, _, ih.2 h2, rfl⟩

theorem mapRes_length {l : List α} {bs : List β} (h : mapRes f l = .ok bs) :
    bs.length = l.length := (mapRes_eq_ok.1 h).length_eq.symm

theorem mapRes_getElem? {l : List α} {bs : List β} (h : mapRes f l = .ok bs) {i : Nat} {a : α}
    (ha : l[i]? = some a) : ∃ b, bs[i]? = some b ∧ f a = .ok b := by
  replace h := mapRes_eq_ok.1 h
  induction h generalizing i with
  | nil => simp at ha
  | cons h1 _ ih =>
    cases i with
    | zero => simp at ha; subst ha; exact ⟨_, by simp, h1⟩
    | succ i => simpa using ih (by simpa using ha)

theorem mapRes_total {l : List α} (h : ∀ a ∈ l, ∃ b, f a = .ok b) : ∃ bs, mapRes f l = .ok bs := by
  induction l with
  | nil => exact ⟨[], rfl⟩
  | cons a l ih =>
    obtain ⟨b, hb⟩ := h a (by simp)
    obtain ⟨bs, hbs⟩ := ih fun x hx => h x (by simp [hx])
    exact ⟨b :: bs, by simp [hb, hbs]⟩

theorem mapRes_ok_iff {l : List α} : (∃ bs, mapRes f l = .ok bs) ↔ ∀ a ∈ l, ∃ b, f a = .ok b := by
  refine ⟨?_, mapRes_total⟩
  rintro ⟨bs, h⟩ a ha
  obtain ⟨i, hi⟩ := List.mem_iff_getElem?.1 ha
  obtain ⟨b, _, hb⟩ := mapRes_getElem? h hi
  exact ⟨b, hb⟩

theorem mapRes_err_mem {l : List α} {e : Error} (h : mapRes f l = .err e) :
    ∃ a ∈ l, f a = .err e := by
  induction l with
  | nil => simp at h
  | cons a l ih =>
    simp only [mapRes_cons, Res.bind_eq_err] at h
    rcases h with h | ⟨b, hb, h | ⟨_, _, h⟩⟩
    · exact ⟨a, by simp, h⟩
    · obtain ⟨x, hx, hf⟩ := ih h
      exact ⟨x, by simp [hx], hf⟩
    · simp at h

theorem mapRes_panic_mem {l : List α} (h : mapRes f l = .panic) : ∃ a ∈ l, f a = .panic := by
  induction l with
  | nil => simp at h
  | cons a l ih =>
    simp only [mapRes_cons, Res.bind_eq_panic] at h
    rcases h with h | ⟨b, hb, h | ⟨_, _, h⟩⟩
    · exact ⟨a, by simp, h⟩
    · obtain ⟨x, hx, hf⟩ := ih h
      exact ⟨x, by simp [hx], hf⟩
    · simp at h

theorem mapRes_map {γ : Type} {g : γ → α} (l : List γ) :
    mapRes f (l.map g) = mapRes (fun x => f (g x)) l := by
  induction l with
  | nil => rfl
  | cons a l ih => simp [ih]

theorem mapRes_pure {g : α → β} (l : List α) : mapRes (fun a => .ok (g a)) l = .ok (l.map g) := by
  induction l with
  | nil => rfl
  | cons a l ih => simp [ih]

theorem mapRes_congr {g : α → Res β} {l : List α} (h : ∀ a ∈ l, f a = g a) :
    mapRes f l = mapRes g l := by
  induction l with
  | nil => rfl
  | cons a l ih => simp [h a (by simp), ih fun x hx => h x (by simp [hx])]

end mapRes

end Ur20

namespace Ur20

/-- Indexing a `flatMap` whose pieces all have length `n`. -/
theorem getElem?_flatMap_const {α β : Type} {n : Nat} (f : α → List β) (l : List α)
    (hf : ∀ a, (f a).length = n) (i j : Nat) (hj : j < n) (a : α) (h : l[i]? = some a) :
    (l.flatMap f)[n * i + j]? = (f a)[j]? := by
  induction l generalizing i with
  | nil => simp at h
  | cons b l ih =>
    rw [List.flatMap_cons]
    cases i with
    | zero =>
      simp only [List.getElem?_cons_zero, Option.some.injEq] at h
      subst h
      rw [Nat.mul_zero, Nat.zero_add, List.getElem?_append_left (by rw [hf]; exact hj)]
    | succ i =>
      rw [List.getElem?_cons_succ] at h
      rw [List.getElem?_append_right (by rw [hf, Nat.mul_succ]; omega), hf, ← ih i h]
      congr 1
      rw [Nat.mul_succ]
      omega

end Ur20
