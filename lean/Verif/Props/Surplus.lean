import Verif.Props.Params

/-! # Surplus parameter words of the thermocouple module: C12 -/

namespace Ur20

open Spec

theorem getElem?_blocks (n : Nat) (l : List Nat) (hl : l.length = 7) (i : Nat) (hi : i < 7 * n) :
    ((List.replicate n l).flatten)[i]? = l[i % 7]? := by
  induction n generalizing i with
  | zero => omega
  | succ n ih =>
    rw [List.replicate_succ, List.flatten_cons]
    by_cases h : i < 7
    · rw [List.getElem?_append_left (by omega), Nat.mod_eq_of_lt h]
    · rw [List.getElem?_append_right (by omega), hl, ih (i - 7) (by omega)]
      congr 1
      omega

/-- The largest codes of the seven parameter words of a thermocouple channel. -/
def thermocoupleCodes : List Nat := [19, 4, 5, 1, 1, 65535, 65535]

/-- C12, the thermocouple module with seven or more surplus words, exactly: every complete block of
seven words counts as a channel. If all words of all blocks are in range the construction panics, else
it fails with `ChannelParameter`; what comes after the last complete block does not matter. -/
theorem C12_thermocouple_outcome (ws : List Word) (hl : 36 ≤ ws.length) :
    ((∀ (i : Nat) (w : Word), ws[i]? = some w →
        (i = 0 → w.toNat ≤ 2) ∧
        ∀ k f m, i = 1 + 7 * k + f → 1 + 7 * (k + 1) ≤ ws.length → thermocoupleCodes[f]? = some m →
          w.toNat ≤ m) →
      Module.create .UR20_4AI_TC_DIAG ws = .panic) ∧
    (∀ (i : Nat) (w : Word), ws[i]? = some w →
      ((i = 0 ∧ 2 < w.toNat) ∨
        ∃ k f m, i = 1 + 7 * k + f ∧ 1 + 7 * (k + 1) ≤ ws.length ∧ thermocoupleCodes[f]? = some m ∧
          m < w.toNat) →
      Module.create .UR20_4AI_TC_DIAG ws = .err .channelParameter) := by
  have h := Tc.too_long ws hl
  have hlen : thermocoupleCodes.length = 7 := rfl
  have hflat : (List.replicate ((ws.length - 1) / 7) thermocoupleCodes).flatten.length =
      7 * ((ws.length - 1) / 7) := by
    simp [List.length_flatten, List.map_replicate, hlen, Nat.mul_comm]
  constructor
  · intro hall
    simp only [Module.create]
    rw [h.1 ?_]
    · rfl
    rw [within_iff]
    intro i m hi
    cases i with
    | zero =>
      cases hi
      exact ⟨ws[0], List.getElem?_eq_getElem _, (hall 0 _ (List.getElem?_eq_getElem _)).1 rfl⟩
    | succ i =>
      rw [List.getElem?_cons_succ] at hi
      have hlt := (List.getElem?_eq_some_iff.1 hi).1
      change i < (List.replicate ((ws.length - 1) / 7) thermocoupleCodes).flatten.length at hlt
      rw [hflat] at hlt
      change (List.replicate ((ws.length - 1) / 7) thermocoupleCodes).flatten[i]? = some m at hi
      rw [getElem?_blocks _ _ hlen i hlt] at hi
      refine ⟨ws[i + 1]'(by omega), List.getElem?_eq_getElem _, ?_⟩
      exact (hall (i + 1) _ (List.getElem?_eq_getElem (by omega))).2 (i / 7) (i % 7) m (by omega)
        (by omega) hi
  · intro i w hw hbad
    simp only [Module.create]
    rw [h.2 ?_]
    · rfl
    rw [within_iff]
    intro hall
    rcases hbad with ⟨rfl, hb⟩ | ⟨k, f, m, rfl, hk, hm, hb⟩
    · obtain ⟨w', h1, h2⟩ := hall 0 2 rfl
      rw [hw] at h1
      cases h1
      omega
    · have hf : f < 7 := by rw [← hlen]; exact (List.getElem?_eq_some_iff.1 hm).1
      obtain ⟨w', h1, h2⟩ := hall (7 * k + f + 1) m (by
        rw [List.getElem?_cons_succ]
        change (List.replicate ((ws.length - 1) / 7) thermocoupleCodes).flatten[7 * k + f]? = some m
        rw [getElem?_blocks _ _ hlen _ (by omega), show (7 * k + f) % 7 = f by omega, hm])
      rw [show 7 * k + f + 1 = 1 + 7 * k + f by omega, hw] at h1
      cases h1
      omega

/-- Both outcomes: an invalid diagnostics flag in a fifth block, and a word behind it. -/
example : Module.create .UR20_4AI_TC_DIAG (List.replicate 36 0 ++ [999]) = .panic ∧
    Module.create .UR20_4AI_TC_DIAG (List.replicate 32 0 ++ [2, 0, 0, 0]) =
      .err .channelParameter := by decide +kernel

end Ur20
