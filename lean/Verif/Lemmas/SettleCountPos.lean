import Verif.Lemmas.SettleCount

/-!
# The number of registers that `fixP` rejects
-/

namespace Ur20
namespace Settle

theorem tallyP0 : Nat.beq (tally fixP 11 0 0) 891 = true := by
  decide +kernel

theorem tallyP1 : Nat.beq (tally fixP 11 2048 891) 1572 = true := by
  decide +kernel

theorem tallyP2 : Nat.beq (tally fixP 11 4096 1572) 2027 = true := by
  decide +kernel

theorem tallyP3 : Nat.beq (tally fixP 11 6144 2027) 2624 = true := by
  decide +kernel

theorem tallyP4 : Nat.beq (tally fixP 11 8192 2624) 3079 = true := by
  decide +kernel

theorem tallyP5 : Nat.beq (tally fixP 11 10240 3079) 3534 = true := by
  decide +kernel

theorem tallyP6 : Nat.beq (tally fixP 11 12288 3534) 3971 = true := by
  decide +kernel

theorem tallyP7 : Nat.beq (tally fixP 11 14336 3971) 4350 = true := by
  decide +kernel

theorem tallyP8 : Nat.beq (tally fixP 11 16384 4350) 4350 = true := by
  decide +kernel

theorem tallyP9 : Nat.beq (tally fixP 11 18432 4350) 4350 = true := by
  decide +kernel

theorem tallyP10 : Nat.beq (tally fixP 11 20480 4350) 4748 = true := by
  decide +kernel

theorem tallyP11 : Nat.beq (tally fixP 11 22528 4748) 5202 = true := by
  decide +kernel

theorem tallyP12 : Nat.beq (tally fixP 11 24576 5202) 5658 = true := by
  decide +kernel

theorem tallyP13 : Nat.beq (tally fixP 11 26624 5658) 6076 = true := by
  decide +kernel

theorem tallyP14 : Nat.beq (tally fixP 11 28672 6076) 6455 = true := by
  decide +kernel

theorem tallyP15 : Nat.beq (tally fixP 11 30720 6455) 6834 = true := by
  decide +kernel

theorem fixP_count :
    ((Finset.Ico 0 32768).filter fun n => fixP n = false).card = 6834 := by
  have step : ∀ a c d : Nat, Nat.beq (tally fixP 11 a c) d = true →
      ((Finset.Ico 0 a).filter fun n => fixP n = false).card = c →
      ((Finset.Ico 0 (a + 2048)).filter fun n => fixP n = false).card = d :=
    fun a c d h hc => tally_step fixP 11 a c d h hc
  have h : ((Finset.Ico 0 0).filter fun n => fixP n = false).card = 0 := by simp
  replace h := step _ _ _ tallyP0 h
  replace h := step _ _ _ tallyP1 h
  replace h := step _ _ _ tallyP2 h
  replace h := step _ _ _ tallyP3 h
  replace h := step _ _ _ tallyP4 h
  replace h := step _ _ _ tallyP5 h
  replace h := step _ _ _ tallyP6 h
  replace h := step _ _ _ tallyP7 h
  replace h := step _ _ _ tallyP8 h
  replace h := step _ _ _ tallyP9 h
  replace h := step _ _ _ tallyP10 h
  replace h := step _ _ _ tallyP11 h
  replace h := step _ _ _ tallyP12 h
  replace h := step _ _ _ tallyP13 h
  replace h := step _ _ _ tallyP14 h
  replace h := step _ _ _ tallyP15 h
  exact h

end Settle
end Ur20
