import Verif.Lemmas.Settle

/-!
# Fixed points of the ranges from an offset, negative registers

Each theorem is evaluated by the kernel: 1024 jumps from one fixed point to the next.
Together they reach every register.
-/

namespace Ur20
namespace Settle

theorem coverN0 : Nat.beq (cover fixN 3 10 0) 2607 = true := by
  decide +kernel

theorem coverN1 : Nat.beq (cover fixN 3 10 2607) 5515 = true := by
  decide +kernel

theorem coverN2 : Nat.beq (cover fixN 3 10 5515) 8445 = true := by
  decide +kernel

theorem coverN3 : Nat.beq (cover fixN 3 10 8445) 11517 = true := by
  decide +kernel

theorem coverN4 : Nat.beq (cover fixN 3 10 11517) 14512 = true := by
  decide +kernel

theorem coverN5 : Nat.beq (cover fixN 3 10 14512) 17376 = true := by
  decide +kernel

theorem coverN6 : Nat.beq (cover fixN 3 10 17376) 20448 = true := by
  decide +kernel

theorem coverN7 : Nat.beq (cover fixN 3 10 20448) 23520 = true := by
  decide +kernel

theorem coverN8 : Nat.beq (cover fixN 3 10 23520) 26592 = true := by
  decide +kernel

theorem coverN9 : Nat.beq (cover fixN 3 10 26592) 29462 = true := by
  decide +kernel

theorem coverN10 : Nat.beq (cover fixN 3 10 29462) 32227 = true := by
  decide +kernel

theorem coverN11 : Nat.beq (cover fixN 3 10 32227) 32770 = true := by
  decide +kernel

/-- Every register is at most 2 above a fixed point. -/
theorem fixN_cover (n : Nat) (hn : n ≤ 32768) : ∃ p, p ≤ n ∧ n ≤ p + 2 ∧ fixN p = true := by
  obtain ⟨a0, b0, c0⟩ := cover_spec fixN 2 10 0 (by decide +kernel)
  rw [Nat.eq_of_beq_eq_true coverN0] at a0 b0 c0
  obtain ⟨a1, b1, c1⟩ := cover_spec fixN 2 10 _ b0
  rw [Nat.eq_of_beq_eq_true coverN1] at a1 b1 c1
  obtain ⟨a2, b2, c2⟩ := cover_spec fixN 2 10 _ b1
  rw [Nat.eq_of_beq_eq_true coverN2] at a2 b2 c2
  obtain ⟨a3, b3, c3⟩ := cover_spec fixN 2 10 _ b2
  rw [Nat.eq_of_beq_eq_true coverN3] at a3 b3 c3
  obtain ⟨a4, b4, c4⟩ := cover_spec fixN 2 10 _ b3
  rw [Nat.eq_of_beq_eq_true coverN4] at a4 b4 c4
  obtain ⟨a5, b5, c5⟩ := cover_spec fixN 2 10 _ b4
  rw [Nat.eq_of_beq_eq_true coverN5] at a5 b5 c5
  obtain ⟨a6, b6, c6⟩ := cover_spec fixN 2 10 _ b5
  rw [Nat.eq_of_beq_eq_true coverN6] at a6 b6 c6
  obtain ⟨a7, b7, c7⟩ := cover_spec fixN 2 10 _ b6
  rw [Nat.eq_of_beq_eq_true coverN7] at a7 b7 c7
  obtain ⟨a8, b8, c8⟩ := cover_spec fixN 2 10 _ b7
  rw [Nat.eq_of_beq_eq_true coverN8] at a8 b8 c8
  obtain ⟨a9, b9, c9⟩ := cover_spec fixN 2 10 _ b8
  rw [Nat.eq_of_beq_eq_true coverN9] at a9 b9 c9
  obtain ⟨a10, b10, c10⟩ := cover_spec fixN 2 10 _ b9
  rw [Nat.eq_of_beq_eq_true coverN10] at a10 b10 c10
  obtain ⟨a11, b11, c11⟩ := cover_spec fixN 2 10 _ b10
  rw [Nat.eq_of_beq_eq_true coverN11] at a11 b11 c11
  by_cases h0 : n ≤ 2607
  · exact c0 n (by omega) h0
  by_cases h1 : n ≤ 5515
  · exact c1 n (by omega) h1
  by_cases h2 : n ≤ 8445
  · exact c2 n (by omega) h2
  by_cases h3 : n ≤ 11517
  · exact c3 n (by omega) h3
  by_cases h4 : n ≤ 14512
  · exact c4 n (by omega) h4
  by_cases h5 : n ≤ 17376
  · exact c5 n (by omega) h5
  by_cases h6 : n ≤ 20448
  · exact c6 n (by omega) h6
  by_cases h7 : n ≤ 23520
  · exact c7 n (by omega) h7
  by_cases h8 : n ≤ 26592
  · exact c8 n (by omega) h8
  by_cases h9 : n ≤ 29462
  · exact c9 n (by omega) h9
  by_cases h10 : n ≤ 32227
  · exact c10 n (by omega) h10
  exact c11 n (by omega) (by omega)

end Settle
end Ur20
