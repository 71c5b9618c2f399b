import Verif.Lemmas.Bits
import Verif.Spec.Digital

/-! Lemmas about the digital modules. -/

namespace Ur20

theorem bitValues_length (n : Nat) (w : Word) : (bitValues n w).length = n := by
  simp [bitValues]

theorem bitValues_getElem? (n : Nat) (w : Word) (i : Nat) (hn : n ≤ 16) (hi : i < n) :
    (bitValues n w)[i]? = some (.bit (w.getLsbD i)) := by
  simp [bitValues, hi, testBit16_eq w i (by omega)]

/-- Values that a digital output accepts. -/
def IsBitOrDisabled (v : ChannelValue) : Prop := (∃ b, v = .bit b) ∨ v = .disabled

theorem encodeBits_ok (i : Nat) (res : Word) (vs : List ChannelValue)
    (h : ∀ v ∈ vs, IsBitOrDisabled v) :
    ∃ w, encodeBits i res vs = .ok w ∧
      ∀ j, j < 16 → (w.getLsbD j = true ↔
        res.getLsbD j = true ∨ (i ≤ j ∧ vs[j - i]? = some (.bit true))) := by
  induction vs generalizing i res with
  | nil => exact ⟨res, rfl, fun j _ => by simp⟩
  | cons v vs ih =>
    have ih' := fun res => ih (i + 1) res fun v hv => h v (by simp [hv])
    rcases h v (by simp) with ⟨b, rfl⟩ | rfl
    · obtain ⟨w, hw, hb⟩ := ih' (if b then setBit16 res i else res)
      refine ⟨w, hw, fun j hj => ?_⟩
      rw [hb j hj]
      by_cases hij : i < j
      · rw [show j - i = j - (i + 1) + 1 by omega, List.getElem?_cons_succ]
        have : (if b then setBit16 res i else res).getLsbD j = res.getLsbD j := by
          cases b
          · rfl
          · simp only [if_true]
            rw [getLsbD_setBit16 res i j hj]
            simp [show j ≠ i by omega]
        rw [this]
        simp [show i ≤ j by omega, show i + 1 ≤ j by omega]
      · by_cases hji : j = i
        · subst hji
          cases b
          · simp [show ¬ j + 1 ≤ j by omega]
          · simp only [if_true]
            rw [getLsbD_setBit16 res j j hj]
            simp
        · have : (if b then setBit16 res i else res).getLsbD j = res.getLsbD j := by
            cases b
            · rfl
            · simp only [if_true]
              rw [getLsbD_setBit16 res i j hj]
              simp [hji]
          rw [this]
          simp [show ¬ i ≤ j by omega, show ¬ i + 1 ≤ j by omega]
    · obtain ⟨w, hw, hb⟩ := ih' res
      refine ⟨w, hw, fun j hj => ?_⟩
      rw [hb j hj]
      by_cases hij : i < j
      · rw [show j - i = j - (i + 1) + 1 by omega, List.getElem?_cons_succ]
        simp [show i ≤ j by omega, show i + 1 ≤ j by omega]
      · by_cases hji : j = i
        · subst hji; simp [show ¬ j + 1 ≤ j by omega]
        · simp [show ¬ i ≤ j by omega, show ¬ i + 1 ≤ j by omega]

theorem encodeBits_err (i : Nat) (res : Word) (vs : List ChannelValue)
    (h : ¬ ∀ v ∈ vs, IsBitOrDisabled v) : encodeBits i res vs = .err .channelValue := by
  induction vs generalizing i res with
  | nil => simp at h
  | cons v vs ih =>
    cases v with
    | bit b =>
      refine ih (i + 1) _ fun hall => h ?_
      intro v hv
      rcases List.mem_cons.1 hv with rfl | hv
      · exact .inl ⟨b, rfl⟩
      · exact hall v hv
    | disabled =>
      refine ih (i + 1) _ fun hall => h ?_
      intro v hv
      rcases List.mem_cons.1 hv with rfl | hv
      · exact .inr rfl
      · exact hall v hv
    | _ => rfl

/-- All digital output modules decode and encode through the same two functions. -/
theorem digitalOutputs_spec (m : Module) (n : Nat) (h : Spec.digitalOutputs m = some n) :
    n ≤ 16 ∧ m.moduleType.channelCount = n ∧
    (∀ ws, m.processOutputData ws =
      if ws.length ≠ 1 then .err .bufferLength else (idx ws 0).map (bitValues n)) ∧
    (∀ vs, m.processOutputValues vs =
      if vs.length ≠ n then .err .channelValue else (encodeBits 0 0#16 vs).map fun w => [w]) := by
  have key : ∀ {α β : Type} (r : Res α) (f : α → β),
      (r >>= fun x => pure (f x)) = r.map f := by
    intro α β r f; cases r <;> rfl
  unfold Spec.digitalOutputs at h
  split at h <;> simp only [Option.some.injEq, reduceCtorEq] at h <;> subst h <;>
    refine ⟨by omega, by rfl, ?_, ?_⟩ <;> intro l <;>
    simp only [Module.processOutputData, Module.processOutputValues, Do.Mod.processOutputData,
      Do16.processOutputData, Ro.processOutputData, Do.Mod.processOutputValues,
      Do16.processOutputValues, Ro.processOutputValues, key, Do.Variant.moduleType,
      ModuleType.channelCount]

end Ur20
