import Verif.Lemmas.SettleCount

/-!
# The number of registers that `fixN` rejects
-/

namespace Ur20
namespace Settle

theorem tallyN0 : Nat.beq (tally fixN 11 0 0) 787 = true := by
  decide +kernel

theorem tallyN1 : Nat.beq (tally fixN 11 2048 787) 1218 = true := by
  decide +kernel

theorem tallyN2 : Nat.beq (tally fixN 11 4096 1218) 1218 = true := by
  decide +kernel

theorem tallyN3 : Nat.beq (tally fixN 11 6144 1218) 1454 = true := by
  decide +kernel

theorem tallyN4 : Nat.beq (tally fixN 11 8192 1454) 1454 = true := by
  decide +kernel

theorem tallyN5 : Nat.beq (tally fixN 11 10240 1454) 1454 = true := by
  decide +kernel

theorem tallyN6 : Nat.beq (tally fixN 11 12288 1454) 1549 = true := by
  decide +kernel

theorem tallyN7 : Nat.beq (tally fixN 11 14336 1549) 1928 = true := by
  decide +kernel

theorem tallyN8 : Nat.beq (tally fixN 11 16384 1928) 1928 = true := by
  decide +kernel

theorem tallyN9 : Nat.beq (tally fixN 11 18432 1928) 1928 = true := by
  decide +kernel

theorem tallyN10 : Nat.beq (tally fixN 11 20480 1928) 1928 = true := by
  decide +kernel

theorem tallyN11 : Nat.beq (tally fixN 11 22528 1928) 1928 = true := by
  decide +kernel

theorem tallyN12 : Nat.beq (tally fixN 11 24576 1928) 1928 = true := by
  decide +kernel

theorem tallyN13 : Nat.beq (tally fixN 11 26624 1928) 2118 = true := by
  decide +kernel

theorem tallyN14 : Nat.beq (tally fixN 11 28672 2118) 2497 = true := by
  decide +kernel

theorem tallyN15 : Nat.beq (tally fixN 11 30720 2497) 2876 = true := by
  decide +kernel

theorem fixN_count :
    ((Finset.Ico 0 32768).filter fun n => fixN n = false).card = 2876 := by
  have step : ∀ a c d : Nat, Nat.beq (tally fixN 11 a c) d = true →
      ((Finset.Ico 0 a).filter fun n => fixN n = false).card = c →
      ((Finset.Ico 0 (a + 2048)).filter fun n => fixN n = false).card = d :=
    fun a c d h hc => tally_step fixN 11 a c d h hc
  have h : ((Finset.Ico 0 0).filter fun n => fixN n = false).card = 0 := by simp
  replace h := step _ _ _ tallyN0 h
  replace h := step _ _ _ tallyN1 h
  replace h := step _ _ _ tallyN2 h
  replace h := step _ _ _ tallyN3 h
  replace h := step _ _ _ tallyN4 h
  replace h := step _ _ _ tallyN5 h
  replace h := step _ _ _ tallyN6 h
  replace h := step _ _ _ tallyN7 h
  replace h := step _ _ _ tallyN8 h
  replace h := step _ _ _ tallyN9 h
  replace h := step _ _ _ tallyN10 h
  replace h := step _ _ _ tallyN11 h
  replace h := step _ _ _ tallyN12 h
  replace h := step _ _ _ tallyN13 h
  replace h := step _ _ _ tallyN14 h
  replace h := step _ _ _ tallyN15 h
  exact h

end Settle
end Ur20
