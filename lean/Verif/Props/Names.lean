import Verif.Spec.Names

/-!
# C05, C06: parsing names of module types and categories
-/

namespace Ur20

open Spec

private theorem find_typeName (t : ModuleType) :
    ModuleType.nameTable.find? (fun p => p.1 == typeName t) = some (typeName t, t) := by
  cases t <;> decide +kernel

private theorem nameTable_typeName : ∀ p ∈ ModuleType.nameTable, p.1 = typeName p.2 := by
  decide +kernel

/-- C05: a string parses to `t` exactly when its upper case form, with every dash replaced by an
underscore, is the name of `t`. `up` is the upper case mapping of single characters; nothing is
assumed about it. -/
theorem C05_parse_iff (up : Char → List Char) (s : String) (t : ModuleType) :
    ModuleType.fromStr up s = .ok t ↔
      (s.toList.flatMap up).map (fun c => if c = '-' then '_' else c) = (typeName t).toList := by
  have hn : ModuleType.normalise up s = typeName t ↔
      (s.toList.flatMap up).map (fun c => if c = '-' then '_' else c) = (typeName t).toList := by
    unfold ModuleType.normalise
    rw [String.ext_iff, String.toList_ofList]
  rw [← hn]
  constructor
  · intro h
    unfold ModuleType.fromStr at h
    split at h
    · rename_i p hp
      have h1 := List.mem_of_find?_eq_some hp
      have h2 := List.find?_some hp
      simp at h h2
      rw [← h2, nameTable_typeName p h1, h]
    · simp at h
  · intro h
    unfold ModuleType.fromStr
    rw [h, find_typeName]

/-- C05: everything else is `UnknownModule`. -/
theorem C05_parse_error (up : Char → List Char) (s : String)
    (h : ∀ t, ModuleType.fromStr up s ≠ .ok t) :
    ModuleType.fromStr up s = .err .unknownModule := by
  unfold ModuleType.fromStr at *
  split
  · rename_i p hp; simp [hp] at h
  · rfl

private theorem toUpper_ascii {c d : Char} (h : c.toUpper = d) (hd : d.toNat < 128) :
    c.toNat < 128 := by
  subst h
  unfold Char.toUpper at hd
  split at hd
  · rename_i h
    have := UInt32.le_iff_toNat_le.1 h.2
    simp at this
    exact Nat.lt_of_le_of_lt this (by decide)
  · exact hd

private theorem spelled_chars (up : Char → List Char) (hup : AsciiUpper up) (l m : List Char)
    (hm : ∀ c ∈ m, c.toNat < 128 ∧ c ≠ '-')
    (h : List.Forall₂ (fun c d => c.toUpper = d ∨ (c = '-' ∧ d = '_')) l m) :
    (l.flatMap up).map (fun c => if c = '-' then '_' else c) = m := by
  induction h with
  | nil => rfl
  | cons hcd _ ih =>
    rename_i c d l m _
    have hd := hm d (by simp)
    simp only [List.flatMap_cons, List.map_append, ih fun x hx => hm x (by simp [hx])]
    rcases hcd with h | ⟨rfl, rfl⟩
    · rw [hup c (toUpper_ascii h hd.1)]
      simp [h, hd.2]
    · rw [hup '-' (by decide)]
      simp

private theorem typeName_ascii (t : ModuleType) :
    ∀ c ∈ (typeName t).toList, c.toNat < 128 ∧ c ≠ '-' := by
  cases t <;> decide +kernel

/-- C05: every spelling of a type name in any ASCII case, with dashes or underscores, parses to
that type. -/
theorem C05_spelling (up : Char → List Char) (hup : AsciiUpper up) (s : String) (t : ModuleType)
    (h : SpelledLike s (typeName t)) : ModuleType.fromStr up s = .ok t := by
  rw [C05_parse_iff]
  exact spelled_chars up hup _ _ (typeName_ascii t) h

/-- An upper case mapping that meets the hypothesis of `C05_spelling`. -/
example : AsciiUpper fun c => [c.toUpper] := fun _ _ => rfl

example : SpelledLike "ur20-4Di-p" (typeName .UR20_4DI_P) := by
  unfold SpelledLike
  simp only [typeName]
  decide +kernel

example : ModuleType.fromStr (fun c => [c.toUpper]) "ur20-8di-p-2W" = .ok .UR20_8DI_P_2W := by
  decide +kernel
example : ModuleType.fromStr (fun c => [c.toUpper]) "UR20" = .err .unknownModule := by
  decide +kernel

/-! ### Categories -/

private theorem find_categoryName (t : ModuleCategory) (h : t ≠ .PF) :
    ModuleCategory.nameTable.find? (fun p => p.1 == categoryName t) = some (categoryName t, t) := by
  cases t <;> first | exact absurd rfl h | decide +kernel

private theorem categoryTable_name : ∀ p ∈ ModuleCategory.nameTable,
    p.1 = categoryName p.2 ∧ p.2 ≠ .PF := by
  decide +kernel

/-- C06, full statement: a string parses to category `c` exactly when its upper case form is the
name of `c`. -/
def C06_statement : Prop :=
  ∀ (up : Char → List Char), AsciiUpper up → ∀ (s : String) (c : ModuleCategory),
    ModuleCategory.fromStr up s = .ok c ↔ s.toList.flatMap up = (categoryName c).toList

/-- C06 holds for every category except `PF`, which no string parses to. -/
theorem C06_category_partial (up : Char → List Char) (s : String) (c : ModuleCategory) :
    ModuleCategory.fromStr up s = .ok c ↔
      c ≠ .PF ∧ s.toList.flatMap up = (categoryName c).toList := by
  have hn : String.ofList (s.toList.flatMap up) = categoryName c ↔
      s.toList.flatMap up = (categoryName c).toList := by
    rw [String.ext_iff, String.toList_ofList]
  rw [← hn]
  constructor
  · intro h
    unfold ModuleCategory.fromStr at h
    split at h
    · rename_i p hp
      have h1 := List.mem_of_find?_eq_some hp
      have h2 := List.find?_some hp
      simp only [Res.ok.injEq, beq_iff_eq] at h h2
      have h3 := categoryTable_name p h1
      rw [h] at h3
      exact ⟨h3.2, by rw [← h2, h3.1]⟩
    · simp at h
  · rintro ⟨h0, h⟩
    unfold ModuleCategory.fromStr
    rw [h, find_categoryName c h0]

/-- C06: everything that is not accepted is `UnknownCategory`. -/
theorem C06_category_error (up : Char → List Char) (s : String)
    (h : ∀ c, ModuleCategory.fromStr up s ≠ .ok c) :
    ModuleCategory.fromStr up s = .err .unknownCategory := by
  unfold ModuleCategory.fromStr at *
  split
  · rename_i p hp; simp [hp] at h
  · rfl

/-- C06: in particular every ASCII case variant of a category name other than `PF` parses. -/
theorem C06_spelling_partial (up : Char → List Char) (hup : AsciiUpper up) (s : String)
    (c : ModuleCategory) (hc : c ≠ .PF)
    (h : s.toList.map Char.toUpper = (categoryName c).toList) :
    ModuleCategory.fromStr up s = .ok c := by
  rw [C06_category_partial]
  refine ⟨hc, ?_⟩
  rw [← h]
  have ha : ∀ d ∈ (categoryName c).toList, d.toNat < 128 := by
    cases c <;> decide +kernel
  rw [← h] at ha
  generalize s.toList = l at ha
  induction l with
  | nil => rfl
  | cons x l ih =>
    simp only [List.flatMap_cons, List.map_cons]
    rw [ih fun d hd => ha d (by simp [hd]), hup x (toUpper_ascii rfl (ha _ (by simp)))]
    rfl

/-- C06 as stated is false: power feed modules have category `PF`, whose name does not parse. -/
theorem C06_statement_false :
    ¬ C06_statement ∧ ModuleType.category .UR20_PF_O_1DI_SIL = .PF ∧
    ModuleCategory.fromStr (fun c => [c.toUpper]) "PF" = .err .unknownCategory := by
  have h : ModuleCategory.fromStr (fun c => [c.toUpper]) "PF" = .err .unknownCategory := by
    decide +kernel
  refine ⟨fun hs => ?_, rfl, h⟩
  have := (hs (fun c => [c.toUpper]) (fun _ _ => rfl) "PF" .PF).2 (by decide +kernel)
  rw [h] at this
  simp at this

example : ModuleCategory.fromStr (fun c => [c.toUpper]) "cnT" = .ok .CNT := by decide +kernel

end Ur20
