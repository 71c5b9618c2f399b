import Verif.Lemmas.Settle

/-!
# Fixed points of the ranges from an offset, positive registers

Each theorem is evaluated by the kernel: 1024 jumps from one fixed point to the next.
Together they reach every register.
-/

namespace Ur20
namespace Settle

theorem coverP0 : Nat.beq (cover fixP 3 10 0) 2766 = true := by
  decide +kernel

theorem coverP1 : Nat.beq (cover fixP 3 10 2766) 5530 = true := by
  decide +kernel

theorem coverP2 : Nat.beq (cover fixP 3 10 5530) 8168 = true := by
  decide +kernel

theorem coverP3 : Nat.beq (cover fixP 3 10 8168) 10682 = true := by
  decide +kernel

theorem coverP4 : Nat.beq (cover fixP 3 10 10682) 13196 = true := by
  decide +kernel

theorem coverP5 : Nat.beq (cover fixP 3 10 13196) 15897 = true := by
  decide +kernel

theorem coverP6 : Nat.beq (cover fixP 3 10 15897) 18915 = true := by
  decide +kernel

theorem coverP7 : Nat.beq (cover fixP 3 10 18915) 21921 = true := by
  decide +kernel

theorem coverP8 : Nat.beq (cover fixP 3 10 21921) 24831 = true := by
  decide +kernel

theorem coverP9 : Nat.beq (cover fixP 3 10 24831) 27737 = true := by
  decide +kernel

theorem coverP10 : Nat.beq (cover fixP 3 10 27737) 30502 = true := by
  decide +kernel

theorem coverP11 : Nat.beq (cover fixP 3 10 30502) 32770 = true := by
  decide +kernel

/-- Every register is at most 2 above a fixed point. -/
theorem fixP_cover (n : Nat) (hn : n ≤ 32768) : ∃ p, p ≤ n ∧ n ≤ p + 2 ∧ fixP p = true := by
  obtain ⟨a0, b0, c0⟩ := cover_spec fixP 2 10 0 (by decide +kernel)
  rw [Nat.eq_of_beq_eq_true coverP0] at a0 b0 c0
  obtain ⟨a1, b1, c1⟩ := cover_spec fixP 2 10 _ b0
  rw [Nat.eq_of_beq_eq_true coverP1] at a1 b1 c1
  obtain ⟨a2, b2, c2⟩ := cover_spec fixP 2 10 _ b1
  rw [Nat.eq_of_beq_eq_true coverP2] at a2 b2 c2
  obtain ⟨a3, b3, c3⟩ := cover_spec fixP 2 10 _ b2
  rw [Nat.eq_of_beq_eq_true coverP3] at a3 b3 c3
  obtain ⟨a4, b4, c4⟩ := cover_spec fixP 2 10 _ b3
  rw [Nat.eq_of_beq_eq_true coverP4] at a4 b4 c4
  obtain ⟨a5, b5, c5⟩ := cover_spec fixP 2 10 _ b4
  rw [Nat.eq_of_beq_eq_true coverP5] at a5 b5 c5
  obtain ⟨a6, b6, c6⟩ := cover_spec fixP 2 10 _ b5
  rw [Nat.eq_of_beq_eq_true coverP6] at a6 b6 c6
  obtain ⟨a7, b7, c7⟩ := cover_spec fixP 2 10 _ b6
  rw [Nat.eq_of_beq_eq_true coverP7] at a7 b7 c7
  obtain ⟨a8, b8, c8⟩ := cover_spec fixP 2 10 _ b7
  rw [Nat.eq_of_beq_eq_true coverP8] at a8 b8 c8
  obtain ⟨a9, b9, c9⟩ := cover_spec fixP 2 10 _ b8
  rw [Nat.eq_of_beq_eq_true coverP9] at a9 b9 c9
  obtain ⟨a10, b10, c10⟩ := cover_spec fixP 2 10 _ b9
  rw [Nat.eq_of_beq_eq_true coverP10] at a10 b10 c10
  obtain ⟨a11, b11, c11⟩ := cover_spec fixP 2 10 _ b10
  rw [Nat.eq_of_beq_eq_true coverP11] at a11 b11 c11
  by_cases h0 : n ≤ 2766
  · exact c0 n (by omega) h0
  by_cases h1 : n ≤ 5530
  · exact c1 n (by omega) h1
  by_cases h2 : n ≤ 8168
  · exact c2 n (by omega) h2
  by_cases h3 : n ≤ 10682
  · exact c3 n (by omega) h3
  by_cases h4 : n ≤ 13196
  · exact c4 n (by omega) h4
  by_cases h5 : n ≤ 15897
  · exact c5 n (by omega) h5
  by_cases h6 : n ≤ 18915
  · exact c6 n (by omega) h6
  by_cases h7 : n ≤ 21921
  · exact c7 n (by omega) h7
  by_cases h8 : n ≤ 24831
  · exact c8 n (by omega) h8
  by_cases h9 : n ≤ 27737
  · exact c9 n (by omega) h9
  by_cases h10 : n ≤ 30502
  · exact c10 n (by omega) h10
  exact c11 n (by omega) (by omega)

end Settle
end Ur20
