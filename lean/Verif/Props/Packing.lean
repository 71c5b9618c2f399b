import Verif.Spec.Packing
import Verif.Props.Runs
import Verif.Props.Loop

/-!
# C120: every list of modules can be run

The process data of any list of up to 64 supported modules can be placed so that a coupler is
created, and a loop of cycles runs forever.
-/

namespace Ur20

open Spec

/-! ### Positions -/

/-- What is taken after the first `j` modules. -/
def takenAfter (s : Taken) (sizes : List Nat) : Nat → Taken
  | 0 => s
  | j + 1 => match sizes with
    | [] => s
    | b :: bs => takenAfter (s.take b).2 bs j

theorem positions_length (s : Taken) (sizes : List Nat) :
    (positions s sizes).length = sizes.length := by
  induction sizes generalizing s with
  | nil => rfl
  | cons b bs ih => simp [positions, ih]

theorem positions_at (s : Taken) (sizes : List Nat) (j : Nat) :
    (positions s sizes)[j]? = sizes[j]?.map fun b => ((takenAfter s sizes j).take b).1 := by
  induction sizes generalizing s j with
  | nil => simp [positions]
  | cons b bs ih =>
    cases j with
    | zero => simp [positions, takenAfter]
    | succ j => simp [positions, takenAfter, ih]

theorem takenAfter_succ (s : Taken) (sizes : List Nat) (j b : Nat) (h : sizes[j]? = some b) :
    takenAfter s sizes (j + 1) = ((takenAfter s sizes j).take b).2 := by
  induction sizes generalizing s j with
  | nil => simp at h
  | cons a bs ih =>
    cases j with
    | zero =>
      simp only [List.getElem?_cons_zero, Option.some.injEq] at h
      subst h
      simp [takenAfter]
    | succ j =>
      simp only [List.getElem?_cons_succ] at h
      have := ih (s.take a).2 j h
      simpa [takenAfter] using this

/-- The first byte that is not taken. -/
def Spec.Taken.endByte (s : Taken) : Nat := if s.highFree then 2 * s.registers - 1 else 2 * s.registers

/-- The high byte of a register is free only if there is one. -/
def Spec.Taken.Good (s : Taken) : Prop := s.highFree = true → 0 < s.registers

theorem take_spec (s : Taken) (hs : s.Good) (b : Nat) :
    (s.take b).2.Good ∧ s.endByte ≤ (s.take b).2.endByte ∧
    s.registers ≤ (s.take b).2.registers ∧ (s.take b).2.registers ≤ s.registers + (b + 1) / 2 ∧
    ((s.take b).1 = none ↔ b = 0) ∧
    ∀ p, (s.take b).1 = some p →
      8 * s.endByte ≤ p ∧ p % 8 = 0 ∧ p / 8 + b ≤ (s.take b).2.endByte ∧
      p + 8 * b ≤ 16 * (s.take b).2.registers ∧
      (p % 16 = 0 ∧ p = 16 * s.registers ∧ (s.take b).2.registers = s.registers + (b + 1) / 2 ∨
        p % 16 = 8 ∧ b = 1 ∧ 0 < s.registers ∧ p = 16 * (s.registers - 1) + 8 ∧
          (s.take b).2.registers = s.registers) := by
  obtain ⟨r, h⟩ := s
  unfold Taken.Good at *
  unfold Taken.take Taken.endByte
  simp only at *
  by_cases hb : b = 0
  · subst hb
    simp
    exact hs
  · simp only [hb, if_false]
    by_cases h1 : b = 1 ∧ h = true
    · obtain ⟨rfl, rfl⟩ := h1
      have := hs rfl
      simp
      omega
    · rw [if_neg h1]
      cases h with
      | false =>
        by_cases h2 : b = 1
        · subst h2; simp; omega
        · simp [h2]; omega
      | true =>
        have h2 : b ≠ 1 := fun h => h1 ⟨h, rfl⟩
        have := hs rfl
        simp [h2]
        omega

theorem takenAfter_good (sizes : List Nat) (j : Nat) : (takenAfter .nothing sizes j).Good := by
  have : ∀ s : Taken, s.Good → (takenAfter s sizes j).Good := by
    induction sizes generalizing j with
    | nil => intro s hs; cases j <;> exact hs
    | cons b bs ih =>
      intro s hs
      cases j with
      | zero => exact hs
      | succ j => exact ih j _ (take_spec s hs b).1
  exact this _ (by intro h; cases h)

theorem takenAfter_mono (sizes : List Nat) {j k : Nat} (h : j ≤ k) (hk : k ≤ sizes.length) :
    (takenAfter .nothing sizes j).endByte ≤ (takenAfter .nothing sizes k).endByte ∧
    (takenAfter .nothing sizes j).registers ≤ (takenAfter .nothing sizes k).registers := by
  induction k with
  | zero =>
    obtain rfl : j = 0 := by omega
    exact ⟨le_rfl, le_rfl⟩
  | succ k ih =>
    by_cases he : j = k + 1
    · subst he; exact ⟨le_rfl, le_rfl⟩
    · have hk' : k < sizes.length := by omega
      have h1 := ih (by omega) (by omega)
      have h2 := take_spec _ (takenAfter_good sizes k) sizes[k]
      rw [takenAfter_succ _ _ k _ (List.getElem?_eq_getElem hk')]
      exact ⟨h1.1.trans h2.2.1, h1.2.trans h2.2.2.1⟩

theorem takenAfter_bound (sizes : List Nat) (n : Nat) (hb : ∀ b ∈ sizes, (b + 1) / 2 ≤ n) (j : Nat)
    (hj : j ≤ sizes.length) : (takenAfter .nothing sizes j).registers ≤ n * j := by
  induction j with
  | zero => simp [takenAfter, Taken.nothing]
  | succ j ih =>
    have hj' : j < sizes.length := by omega
    have h2 := (take_spec _ (takenAfter_good sizes j) sizes[j]).2.2.2.1
    rw [takenAfter_succ _ _ j _ (List.getElem?_eq_getElem hj')]
    have h1 := ih (by omega)
    have h3 := hb _ (List.getElem_mem hj')
    have : n * (j + 1) = n * j + n := by ring
    omega

/-! ### The packed configuration -/

/-- Sizes of the process output data. -/
def outSizes (l : List (ModuleType × List Word)) : List Nat := l.map fun p => outputBytes p.1 p.2

/-- Sizes of the process input data. -/
def inSizes (l : List (ModuleType × List Word)) : List Nat := l.map fun p => inputBytes p.1 p.2

theorem pairs_at {α β γ : Type} (f : α → γ) (g : β → γ) (as : List α) (bs : List β) (j : Nat) :
    ((List.zipWith (fun a b => [f a, g b]) as bs).flatten)[2 * j]? =
      (if j < bs.length then as[j]?.map f else none) ∧
    ((List.zipWith (fun a b => [f a, g b]) as bs).flatten)[2 * j + 1]? =
      (if j < as.length then bs[j]?.map g else none) := by
  induction as generalizing bs j with
  | nil => simp
  | cons a as ih =>
    cases bs with
    | nil => simp
    | cons b bs =>
      cases j with
      | zero => simp
      | succ j =>
        have := ih bs j
        simpa [Nat.mul_succ, Nat.add_right_comm] using this

theorem pairs_length {α β γ : Type} (f : α → γ) (g : β → γ) (as : List α) (bs : List β)
    (h : as.length = bs.length) :
    ((List.zipWith (fun a b => [f a, g b]) as bs).flatten).length = 2 * as.length := by
  induction as generalizing bs with
  | nil => simp
  | cons a as ih =>
    cases bs with
    | nil => simp at h
    | cons b bs =>
      simp only [List.length_cons, Nat.add_right_cancel_iff] at h
      simp [ih bs h]
      omega

theorem packed_at {l : List (ModuleType × List Word)} {j : Nat} {t : ModuleType} {par : List Word}
    {o i : Word} : ConfiguredAt (packed l) j t par o i ↔
      l[j]? = some (t, par) ∧
      o = offsetWord outputBase ((takenAfter .nothing (outSizes l) j).take (outputBytes t par)).1 ∧
      i = offsetWord 0 ((takenAfter .nothing (inSizes l) j).take (inputBytes t par)).1 := by
  unfold ConfiguredAt packed
  simp only [pairs_at, positions_length, positions_at, List.length_map, List.getElem?_map]
  cases h : l[j]? with
  | none => simp
  | some p =>
    have hj : j < l.length := (List.getElem?_eq_some_iff.1 h).1
    obtain ⟨t', par'⟩ := p
    simp only [hj, if_true, Option.map_some, Option.some.injEq, Prod.mk.injEq]
    constructor
    · rintro ⟨rfl, rfl, rfl, rfl⟩
      exact ⟨⟨rfl, rfl⟩, rfl, rfl⟩
    · rintro ⟨⟨rfl, rfl⟩, rfl, rfl⟩
      exact ⟨rfl, rfl, rfl, rfl⟩

theorem outputBytes_le (t : ModuleType) (par : List Word) : (outputBytes t par + 1) / 2 ≤ 8 := by
  cases t <;> simp [outputBytes]; split <;> omega

theorem inputBytes_le (t : ModuleType) (par : List Word) : (inputBytes t par + 1) / 2 ≤ 10 := by
  cases t <;> simp [inputBytes]; split <;> omega

section
variable {l : List (ModuleType × List Word)} (hl : l.length ≤ 64)
include hl

theorem out_registers (j : Nat) (hj : j ≤ l.length) :
    (takenAfter .nothing (outSizes l) j).registers ≤ 512 := by
  have h1 := takenAfter_bound (outSizes l) 8 (fun b hb => by
    obtain ⟨p, -, rfl⟩ := List.mem_map.1 hb
    exact outputBytes_le _ _) j (by simpa [outSizes] using hj)
  omega

theorem in_registers (j : Nat) (hj : j ≤ l.length) :
    (takenAfter .nothing (inSizes l) j).registers ≤ 640 := by
  have h1 := takenAfter_bound (inSizes l) 10 (fun b hb => by
    obtain ⟨p, -, rfl⟩ := List.mem_map.1 hb
    exact inputBytes_le _ _) j (by simpa [inSizes] using hj)
  omega

/-- Where the outputs of module `j` are. -/
theorem out_at {j : Nat} {t : ModuleType} {par : List Word} {o i : Word}
    (h : ConfiguredAt (packed l) j t par o i) :
    (o = noOffset ↔ outputBytes t par = 0) ∧
    (o ≠ noOffset → ((takenAfter .nothing (outSizes l) j).take (outputBytes t par)).1 =
      some (o.toNat - outputBase) ∧ outputBase ≤ o.toNat) := by
  obtain ⟨hj, ho, -⟩ := packed_at.1 h
  have hlt : j < l.length := (List.getElem?_eq_some_iff.1 hj).1
  have hs := take_spec _ (takenAfter_good (outSizes l) j) (outputBytes t par)
  have hr := out_registers hl (j + 1) hlt
  rw [takenAfter_succ _ _ j (outputBytes t par) (by simp [outSizes, hj])] at hr
  cases hp : ((takenAfter .nothing (outSizes l) j).take (outputBytes t par)).1 with
  | none =>
    have h0 := hs.2.2.2.2.1.1 hp
    rw [hp] at ho
    exact ⟨⟨fun _ => h0, fun _ => ho⟩, fun h => absurd ho h⟩
  | some p =>
    have h1 := hs.2.2.2.2.2 p hp
    rw [hp] at ho
    have h2 : o.toNat = outputBase + p := by
      rw [ho]
      simp only [offsetWord, BitVec.toNat_ofNat]
      unfold outputBase
      omega
    have h3 : o ≠ noOffset := by
      intro h
      rw [h] at h2
      simp only [noOffset, BitVec.toNat_ofNat] at h2
      unfold outputBase at h2
      omega
    refine ⟨⟨fun h => absurd h h3, fun h => ?_⟩, fun _ => ⟨?_, by omega⟩⟩
    · rw [hs.2.2.2.2.1.2 h] at hp; cases hp
    · rw [h2, Nat.add_sub_cancel_left]

/-- Where the inputs of module `j` are. -/
theorem in_at {j : Nat} {t : ModuleType} {par : List Word} {o i : Word}
    (h : ConfiguredAt (packed l) j t par o i) :
    (i = noOffset ↔ inputBytes t par = 0) ∧
    (i ≠ noOffset → ((takenAfter .nothing (inSizes l) j).take (inputBytes t par)).1 =
      some i.toNat) := by
  obtain ⟨hj, -, ho⟩ := packed_at.1 h
  have hlt : j < l.length := (List.getElem?_eq_some_iff.1 hj).1
  have hs := take_spec _ (takenAfter_good (inSizes l) j) (inputBytes t par)
  have hr := in_registers hl (j + 1) hlt
  rw [takenAfter_succ _ _ j (inputBytes t par) (by simp [inSizes, hj])] at hr
  cases hp : ((takenAfter .nothing (inSizes l) j).take (inputBytes t par)).1 with
  | none =>
    have h0 := hs.2.2.2.2.1.1 hp
    rw [hp] at ho
    exact ⟨⟨fun _ => h0, fun _ => ho⟩, fun h => absurd ho h⟩
  | some p =>
    have h1 := hs.2.2.2.2.2 p hp
    rw [hp] at ho
    have h2 : i.toNat = p := by
      rw [ho]
      simp only [offsetWord, BitVec.toNat_ofNat]
      omega
    have h3 : i ≠ noOffset := by
      intro h
      rw [h] at h2
      simp only [noOffset, BitVec.toNat_ofNat] at h2
      omega
    refine ⟨⟨fun h => absurd h h3, fun h => ?_⟩, fun _ => ?_⟩
    · rw [hs.2.2.2.2.1.2 h] at hp; cases hp
    · rw [h2]

theorem packed_registers (j : Nat) (hj : j ≤ l.length) :
    registersUpTo (packed l) j = (takenAfter .nothing (outSizes l) j).registers := by
  induction j with
  | zero => simp [registersUpTo, takenAfter, Taken.nothing]
  | succ j ih =>
    have hlt : j < l.length := by omega
    obtain ⟨⟨t, par⟩, hp⟩ : ∃ p, l[j]? = some p := ⟨_, List.getElem?_eq_getElem hlt⟩
    have hc : ConfiguredAt (packed l) j t par _ _ := packed_at.2 ⟨hp, rfl, rfl⟩
    rw [takenAfter_succ _ _ j (outputBytes t par) (by simp [outSizes, hp])]
    have hs := take_spec _ (takenAfter_good (outSizes l) j) (outputBytes t par)
    obtain ⟨h1, h2⟩ := out_at hl hc
    revert h1 h2 hc
    generalize offsetWord outputBase _ = o
    intro hc h1 h2
    obtain ⟨c1, c2, c3, -⟩ := hc
    simp only [registersUpTo, c1, c2, c3, ih (by omega)]
    by_cases hno : o = noOffset
    · have h0 := h1.1 hno
      rw [h0]
      simp [hno, Taken.take]
    · obtain ⟨h3, h4⟩ := h2 hno
      obtain ⟨-, -, -, -, h5⟩ := hs.2.2.2.2.2 _ h3
      unfold outputBase at h4 h5
      simp only [ne_eq, hno, not_false_eq_true, true_and]
      rcases h5 with ⟨h6, h7, h8⟩ | ⟨h6, h7, -, -, h8⟩
      · rw [if_pos (by omega), h8]
      · rw [if_neg (by omega), h8, Nat.add_zero]

end

/-! ### The theorems -/

/-- C120: the packed configuration of up to 64 modules. Every module with process data has an offset,
the offsets are as the coupler needs them, and modules share no bytes. -/
theorem C120_packed (l : List (ModuleType × List Word)) (hl : l.length ≤ 64) :
    (∀ j t par o i, ConfiguredAt (packed l) j t par o i →
      (0 < outputBytes t par → o ≠ noOffset) ∧ (0 < inputBytes t par → i ≠ noOffset)) ∧
    Placed (packed l) ∧ WellPlaced (packed l) ∧ DisjointOutputs (packed l) ∧
    DisjointInputs (packed l) := by
  have hplaced : Placed (packed l) := by
    intro j t par o i h hno
    obtain ⟨hj, -⟩ := packed_at.1 h
    have hlt : j < l.length := (List.getElem?_eq_some_iff.1 hj).1
    obtain ⟨h1, h2⟩ := out_at hl h
    obtain ⟨h3, h4⟩ := h2 hno
    have hs := take_spec _ (takenAfter_good (outSizes l) j) (outputBytes t par)
    obtain ⟨-, h6, -, -, h5⟩ := hs.2.2.2.2.2 _ h3
    rw [packed_registers hl j hlt.le]
    have h0 : outputBytes t par ≠ 0 := fun h => hno (h1.2 h)
    unfold InPlace
    unfold outputBase at *
    refine ⟨⟨h4, ?_⟩, by omega, by omega⟩
    rcases h5 with ⟨h5, h7, -⟩ | ⟨h5, -, h8, h7, -⟩
    · left; omega
    · right; omega
  refine ⟨fun j t par o i h => ⟨fun h1 h2 => ?_, fun h1 h2 => ?_⟩, hplaced,
    fun j t par o i h => ⟨fun hi => ?_, fun ho => ?_⟩, ?_, ?_⟩
  · rw [(out_at hl h).1.1 h2] at h1; omega
  · rw [(in_at hl h).1.1 h2] at h1; omega
  · obtain ⟨h1, h2⟩ := in_at hl h
    have hs := take_spec _ (takenAfter_good (inSizes l) j) (inputBytes t par)
    have h0 : inputBytes t par ≠ 0 := fun h => hi (h1.2 h)
    exact ⟨by omega, (hs.2.2.2.2.2 _ (h2 hi)).2.1⟩
  · exact ⟨(hplaced j t par o i h ho).2.1, (hplaced j t par o i h ho).1⟩
  · have key : ∀ j k t par o i t' par' o' i' p, ConfiguredAt (packed l) j t par o i →
        ConfiguredAt (packed l) k t' par' o' i' → o ≠ noOffset → o' ≠ noOffset →
        p < outByte o + outputBytes t par → outByte o' ≤ p → ¬ j < k := by
      intro j k t par o i t' par' o' i' p h h' hno hno' h1 h2 hjk
      obtain ⟨hj, -⟩ := packed_at.1 h
      obtain ⟨hk, -⟩ := packed_at.1 h'
      have hkl : k < l.length := (List.getElem?_eq_some_iff.1 hk).1
      obtain ⟨h3, h4⟩ := (out_at hl h).2 hno
      obtain ⟨h3', h4'⟩ := (out_at hl h').2 hno'
      have hs := (take_spec _ (takenAfter_good (outSizes l) j) (outputBytes t par)).2.2.2.2.2 _ h3
      have hs' := (take_spec _ (takenAfter_good (outSizes l) k) (outputBytes t' par')).2.2.2.2.2 _ h3'
      rw [← takenAfter_succ _ _ j (outputBytes t par) (by simp [outSizes, hj])] at hs
      have hm := (takenAfter_mono (outSizes l) (show j + 1 ≤ k from hjk)
        (by simpa [outSizes] using hkl.le)).1
      unfold outByte at h1 h2
      omega
    refine disjointOutputs_of ?_
    intro j k t par o i t' par' o' i' p h h' hno hno' h1 h2 h1' h2'
    have a := key j k t par o i t' par' o' i' p h h' hno hno' h2 h1'
    have b := key k j t' par' o' i' t par o i p h' h hno' hno h2' h1
    omega
  · have key : ∀ j k t par o i t' par' o' i' p, ConfiguredAt (packed l) j t par o i →
        ConfiguredAt (packed l) k t' par' o' i' → i ≠ noOffset → i' ≠ noOffset →
        p < i.toNat / 8 + inputBytes t par → i'.toNat / 8 ≤ p → ¬ j < k := by
      intro j k t par o i t' par' o' i' p h h' hno hno' h1 h2 hjk
      obtain ⟨hj, -⟩ := packed_at.1 h
      obtain ⟨hk, -⟩ := packed_at.1 h'
      have hkl : k < l.length := (List.getElem?_eq_some_iff.1 hk).1
      have hs := (take_spec _ (takenAfter_good (inSizes l) j) (inputBytes t par)).2.2.2.2.2 _
        ((in_at hl h).2 hno)
      have hs' := (take_spec _ (takenAfter_good (inSizes l) k) (inputBytes t' par')).2.2.2.2.2 _
        ((in_at hl h').2 hno')
      rw [← takenAfter_succ _ _ j (inputBytes t par) (by simp [inSizes, hj])] at hs
      have hm := (takenAfter_mono (inSizes l) (show j + 1 ≤ k from hjk)
        (by simpa [inSizes] using hkl.le)).1
      omega
    intro j k t par o i t' par' o' i' p h h' hno hno' h1 h2 h1' h2'
    have a := key j k t par o i t' par' o' i' p h h' hno hno' h2 h1'
    have b := key k j t' par' o' i' t par o i p h' h hno' hno h2' h1
    omega

/-- C120: an input image of 640 zeros has the data of all modules. -/
theorem C120_inputs (l : List (ModuleType × List Word)) (hl : l.length ≤ 64) (n : Nat)
    (hn : 640 ≤ n) : InputsReady (packed l) (List.replicate n 0#16) := by
  intro j t par o i h hi
  obtain ⟨h1, h2⟩ := in_at hl h
  obtain ⟨hj, -⟩ := packed_at.1 h
  have hlt : j < l.length := (List.getElem?_eq_some_iff.1 hj).1
  have hs := (take_spec _ (takenAfter_good (inSizes l) j) (inputBytes t par)).2.2.2.2.2 _ (h2 hi)
  have hr := in_registers hl (j + 1) hlt
  rw [takenAfter_succ _ _ j (inputBytes t par) (by simp [inSizes, hj])] at hr
  have h0 : inputBytes t par ≠ 0 := fun h => hi (h1.2 h)
  refine ⟨⟨by omega, hs.2.1, ?_⟩, fun ht b hb => ?_⟩
  · rw [List.length_replicate]
    omega
  · have h8 : 8 ≤ inputBytes t par := by
      subst ht; simp only [inputBytes]; split <;> omega
    have : b = 0#8 := by
      unfold byteAt at hb
      rw [List.getElem?_replicate] at hb
      split at hb
      · simpa using hb.symm
      · cases hb
    subst this
    simp only [BitVec.toNat_ofNat]
    omega

/-- C120: any list of up to 64 supported modules with acceptable parameters can be run. With the packed
configuration a coupler is created and, starting from an output image of 512 zeros, every cycle of a
loop succeeds, as long as the input images are complete and the values written are of the right
kinds. -/
theorem C120_runs (oc : Bool) (l : List (ModuleType × List Word)) (hl : l.length ≤ 64)
    (hok : ∀ p ∈ l, ∃ m, Module.create p.1 p.2 = .ok m) :
    ∃ c0, Coupler.new (packed l) = .ok c0 ∧
      ∀ rounds : List (List COp × List Word),
        (∀ r ∈ rounds, AcceptedCalls (packed l) r.1 ∧ InputsReady (packed l) r.2) →
        ∃ c img, closedLoop oc c0 (List.replicate 512 0#16) rounds = some (c, img) ∧
          OutputsReady (packed l) img := by
  obtain ⟨-, hp, -, hdis, -⟩ := C120_packed l hl
  obtain ⟨c0, h0⟩ := (C13_success (packed l)).1.2 ⟨by simp [packed], by
    simp only [packed]
    rw [pairs_length _ _ _ _ (by simp [positions_length])]
    simp [positions_length], fun i t ws ht hw => by
    simp only [packed, List.getElem?_map] at ht hw
    cases hi : l[i]? with
    | none => rw [hi] at ht; cases ht
    | some p =>
      rw [hi] at ht hw
      cases ht; cases hw
      exact hok p (List.mem_of_getElem? hi)⟩
  refine ⟨c0, h0, fun rounds hr => ?_⟩
  have hz := C85_zeros (packed l) hp 512 (by
    rw [show (packed l).modules.length = l.length by simp [packed], packed_registers hl _ le_rfl]
    exact out_registers hl _ le_rfl)
  obtain ⟨c, img, h1, h2, -⟩ := C85_closed_loop oc (packed l) c0 h0 _ hz rounds hr
  exact ⟨c, img, h1, h2⟩

/-! ### Examples -/

/-- Two relay modules share a register; the 16-channel module and the inputs have registers of their
own. -/
example : (packed [(.UR20_4RO_CO_255, [0, 0, 0, 0]), (.UR20_4DI_P, [0, 0, 0, 0]),
      (.UR20_4RO_CO_255, [0, 0, 0, 0]), (.UR20_16DO_P, []), (.UR20_2FCNT_100, [0, 0]),
      (.UR20_4DO_P, [0, 0, 0, 0])]).offsets =
    [0x8000#16, 0xFFFF#16, 0xFFFF#16, 0x0000#16, 0x8008#16, 0xFFFF#16, 0x8010#16, 0xFFFF#16,
      0x8020#16, 0x0010#16, 0x8080#16, 0xFFFF#16] := by decide +kernel

/-- The hypotheses of C120 hold for these modules. -/
example : ∀ p ∈ [(ModuleType.UR20_4RO_CO_255, [0#16, 0#16, 0#16, 0#16]),
      (.UR20_4DI_P, [0, 0, 0, 0]), (.UR20_16DO_P, []), (.UR20_2FCNT_100, [0, 0])],
    ∃ m, Module.create p.1 p.2 = .ok m := by
  intro p hp
  simp only [List.mem_cons, List.not_mem_nil, or_false] at hp
  rcases hp with rfl | rfl | rfl | rfl <;> exact ⟨_, rfl⟩

end Ur20
