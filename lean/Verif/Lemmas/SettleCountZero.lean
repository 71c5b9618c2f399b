import Verif.Lemmas.SettleCount

/-!
# The number of registers that `fixZ` rejects
-/

namespace Ur20
namespace Settle

theorem tallyZ0 : Nat.beq (tally fixZ 11 0 0) 94 = true := by
  decide +kernel

theorem tallyZ1 : Nat.beq (tally fixZ 11 2048 94) 189 = true := by
  decide +kernel

theorem tallyZ2 : Nat.beq (tally fixZ 11 4096 189) 304 = true := by
  decide +kernel

theorem tallyZ3 : Nat.beq (tally fixZ 11 6144 304) 379 = true := by
  decide +kernel

theorem tallyZ4 : Nat.beq (tally fixZ 11 8192 379) 379 = true := by
  decide +kernel

theorem tallyZ5 : Nat.beq (tally fixZ 11 10240 379) 609 = true := by
  decide +kernel

theorem tallyZ6 : Nat.beq (tally fixZ 11 12288 609) 759 = true := by
  decide +kernel

theorem tallyZ7 : Nat.beq (tally fixZ 11 14336 759) 759 = true := by
  decide +kernel

theorem tallyZ8 : Nat.beq (tally fixZ 11 16384 759) 759 = true := by
  decide +kernel

theorem tallyZ9 : Nat.beq (tally fixZ 11 18432 759) 759 = true := by
  decide +kernel

theorem tallyZ10 : Nat.beq (tally fixZ 11 20480 759) 835 = true := by
  decide +kernel

theorem tallyZ11 : Nat.beq (tally fixZ 11 22528 835) 1214 = true := by
  decide +kernel

theorem tallyZ12 : Nat.beq (tally fixZ 11 24576 1214) 1518 = true := by
  decide +kernel

theorem tallyZ13 : Nat.beq (tally fixZ 11 26624 1518) 1518 = true := by
  decide +kernel

theorem tallyZ14 : Nat.beq (tally fixZ 11 28672 1518) 1518 = true := by
  decide +kernel

theorem tallyZ15 : Nat.beq (tally fixZ 11 30720 1518) 1518 = true := by
  decide +kernel

theorem fixZ_count :
    ((Finset.Ico 0 32768).filter fun n => fixZ n = false).card = 1518 := by
  have step : ∀ a c d : Nat, Nat.beq (tally fixZ 11 a c) d = true →
      ((Finset.Ico 0 a).filter fun n => fixZ n = false).card = c →
      ((Finset.Ico 0 (a + 2048)).filter fun n => fixZ n = false).card = d :=
    fun a c d h hc => tally_step fixZ 11 a c d h hc
  have h : ((Finset.Ico 0 0).filter fun n => fixZ n = false).card = 0 := by simp
  replace h := step _ _ _ tallyZ0 h
  replace h := step _ _ _ tallyZ1 h
  replace h := step _ _ _ tallyZ2 h
  replace h := step _ _ _ tallyZ3 h
  replace h := step _ _ _ tallyZ4 h
  replace h := step _ _ _ tallyZ5 h
  replace h := step _ _ _ tallyZ6 h
  replace h := step _ _ _ tallyZ7 h
  replace h := step _ _ _ tallyZ8 h
  replace h := step _ _ _ tallyZ9 h
  replace h := step _ _ _ tallyZ10 h
  replace h := step _ _ _ tallyZ11 h
  replace h := step _ _ _ tallyZ12 h
  replace h := step _ _ _ tallyZ13 h
  replace h := step _ _ _ tallyZ14 h
  replace h := step _ _ _ tallyZ15 h
  exact h

end Settle
end Ur20
