import Verif.Lemmas.Settle

/-!
# Fixed points of the ranges from zero

Each theorem is evaluated by the kernel: 1024 jumps from one fixed point to the next.
Together they reach every register.
-/

namespace Ur20
namespace Settle

theorem coverZ0 : Nat.beq (cover fixZ 6 10 0) 6014 = true := by
  decide +kernel

theorem coverZ1 : Nat.beq (cover fixZ 6 10 6014) 12061 = true := by
  decide +kernel

theorem coverZ2 : Nat.beq (cover fixZ 6 10 12061) 18167 = true := by
  decide +kernel

theorem coverZ3 : Nat.beq (cover fixZ 6 10 18167) 24233 = true := by
  decide +kernel

theorem coverZ4 : Nat.beq (cover fixZ 6 10 24233) 30304 = true := by
  decide +kernel

theorem coverZ5 : Nat.beq (cover fixZ 6 10 30304) 32770 = true := by
  decide +kernel

/-- Every register is at most 5 above a fixed point. -/
theorem fixZ_cover (n : Nat) (hn : n ≤ 32768) : ∃ p, p ≤ n ∧ n ≤ p + 5 ∧ fixZ p = true := by
  obtain ⟨a0, b0, c0⟩ := cover_spec fixZ 5 10 0 (by decide +kernel)
  rw [Nat.eq_of_beq_eq_true coverZ0] at a0 b0 c0
  obtain ⟨a1, b1, c1⟩ := cover_spec fixZ 5 10 _ b0
  rw [Nat.eq_of_beq_eq_true coverZ1] at a1 b1 c1
  obtain ⟨a2, b2, c2⟩ := cover_spec fixZ 5 10 _ b1
  rw [Nat.eq_of_beq_eq_true coverZ2] at a2 b2 c2
  obtain ⟨a3, b3, c3⟩ := cover_spec fixZ 5 10 _ b2
  rw [Nat.eq_of_beq_eq_true coverZ3] at a3 b3 c3
  obtain ⟨a4, b4, c4⟩ := cover_spec fixZ 5 10 _ b3
  rw [Nat.eq_of_beq_eq_true coverZ4] at a4 b4 c4
  obtain ⟨a5, b5, c5⟩ := cover_spec fixZ 5 10 _ b4
  rw [Nat.eq_of_beq_eq_true coverZ5] at a5 b5 c5
  by_cases h0 : n ≤ 6014
  · exact c0 n (by omega) h0
  by_cases h1 : n ≤ 12061
  · exact c1 n (by omega) h1
  by_cases h2 : n ≤ 18167
  · exact c2 n (by omega) h2
  by_cases h3 : n ≤ 24233
  · exact c3 n (by omega) h3
  by_cases h4 : n ≤ 30304
  · exact c4 n (by omega) h4
  exact c5 n (by omega) (by omega)

end Settle
end Ur20
