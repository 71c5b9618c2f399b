import Verif.Lemmas.Bits

/-! Lemmas about offset registers, module ids and parameter windows. -/

namespace Ur20

theorem offsetsOfProcessData_length (ws : List Word) :
    (offsetsOfProcessData ws).length = ws.length / 2 := by
  fun_induction offsetsOfProcessData ws with
  | case1 o i rest ih => simp [ih]; omega
  | case2 ws h =>
    match ws with
    | [] => rfl
    | [_] => simp
    | a :: b :: r => exact absurd rfl (h a b r)

theorem offsetsOfProcessData_getElem? (ws : List Word) (i : Nat) (o n : Word)
    (ho : ws[2 * i]? = some o) (hn : ws[2 * i + 1]? = some n) :
    (offsetsOfProcessData ws)[i]? =
      some { input := wordToOffset n, output := wordToOffset o } := by
  fun_induction offsetsOfProcessData ws generalizing i with
  | case1 o' i' rest ih =>
    cases i with
    | zero => simp at ho hn; simp [ho, hn]
    | succ k =>
      rw [show 2 * (k + 1) = 2 * k + 1 + 1 by omega] at ho hn
      simp only [List.getElem?_cons_succ] at ho hn ⊢
      exact ih k ho hn
  | case2 ws h =>
    match ws with
    | [] => simp at hn
    | [_] => simp at hn
    | a :: b :: r => exact absurd rfl (h a b r)

theorem pairId_eq (hi lo : Word) :
    (hi.setWidth 32 <<< 16) + lo.setWidth 32
      = BitVec.ofNat 32 (hi.toNat * 65536 + lo.toNat) := by
  apply BitVec.eq_of_toNat_eq
  have h1 := hi.isLt
  have h2 := lo.isLt
  simp only [BitVec.toNat_add, BitVec.toNat_shiftLeft, BitVec.toNat_setWidth, BitVec.toNat_ofNat,
    Nat.shiftLeft_eq]
  omega

theorem tryFromU32_ne_panic (id : BitVec 32) : ModuleType.tryFromU32 id ≠ .panic := by
  unfold ModuleType.tryFromU32; split <;> simp

theorem tryFromU32_err (id : BitVec 32) (e : Error) (h : ModuleType.tryFromU32 id = .err e) :
    e = .unknownModule := by
  unfold ModuleType.tryFromU32 at h
  split at h
  · simp at h
  · simp at h; exact h.symm

theorem idTable_find {id : BitVec 32} {t : ModuleType} (h : ModuleType.tryFromU32 id = .ok t) :
    (id.toNat, t) ∈ ModuleType.idTable := by
  unfold ModuleType.tryFromU32 at h
  split at h
  · rename_i p hp
    have h1 := List.mem_of_find?_eq_some hp
    have h2 := List.find?_some hp
    simp at h h2
    subst h
    rw [← h2]
    exact h1
  · simp at h

theorem moduleListLoop_spec (ws : List Word) :
    (moduleListLoop ws ≠ .panic) ∧ (∀ e, moduleListLoop ws = .err e → e = .unknownModule) := by
  fun_induction moduleListLoop ws with
  | case1 hi lo rest id ih =>
    constructor
    · intro h
      rw [Res.bind_eq, Res.bind_eq_panic] at h
      rcases h with h | ⟨m, hm, h⟩
      · exact tryFromU32_ne_panic _ h
      · rw [Res.bind_eq, Res.bind_eq_panic] at h
        rcases h with h | ⟨ms, hms, h⟩
        · exact ih.1 h
        · simp [Res.pure_eq] at h
    · intro e h
      rw [Res.bind_eq, Res.bind_eq_err] at h
      rcases h with h | ⟨m, hm, h⟩
      · exact tryFromU32_err _ _ h
      · rw [Res.bind_eq, Res.bind_eq_err] at h
        rcases h with h | ⟨ms, hms, h⟩
        · exact ih.2 e h
        · simp [Res.pure_eq] at h
  | case2 => simp

theorem moduleListLoop_ok (ws : List Word) (he : ws.length % 2 = 0) (ts : List ModuleType) :
    moduleListLoop ws = .ok ts ↔
      ts.length = ws.length / 2 ∧ ∀ i hi lo t, ws[2 * i]? = some hi → ws[2 * i + 1]? = some lo →
        ts[i]? = some t →
        ModuleType.tryFromU32 (BitVec.ofNat 32 (hi.toNat * 65536 + lo.toNat)) = .ok t := by
  fun_induction moduleListLoop ws generalizing ts with
  | case1 hi lo rest id ih =>
    have he' : rest.length % 2 = 0 := by simp at he; omega
    rw [Res.bind_eq, Res.bind_eq_ok]
    constructor
    · rintro ⟨m, hm, h⟩
      rw [Res.bind_eq, Res.bind_eq_ok] at h
      obtain ⟨ms, hms, h⟩ := h
      simp only [Res.pure_eq, Res.ok.injEq] at h
      subst h
      obtain ⟨hl, hall⟩ := (ih he' ms).1 hms
      refine ⟨by simp [hl]; omega, ?_⟩
      intro i a b t ha hb ht
      cases i with
      | zero =>
        simp at ha hb ht
        subst ha hb ht
        rw [← pairId_eq]; exact hm
      | succ k =>
        rw [show 2 * (k + 1) = 2 * k + 1 + 1 by omega] at ha hb
        simp only [List.getElem?_cons_succ] at ha hb ht
        exact hall k a b t ha hb ht
    · rintro ⟨hl, hall⟩
      cases ts with
      | nil => simp at hl; omega
      | cons t ts =>
        refine ⟨t, ?_, ?_⟩
        · have := hall 0 hi lo t (by simp) (by simp) (by simp)
          rw [← pairId_eq] at this; exact this
        · rw [Res.bind_eq, Res.bind_eq_ok]
          refine ⟨ts, (ih he' ts).2 ⟨by simp at hl; omega, ?_⟩, rfl⟩
          intro i a b t' ha hb ht
          refine hall (i + 1) a b t' ?_ ?_ ?_
          · rw [show 2 * (i + 1) = 2 * i + 1 + 1 by omega]; simpa using ha
          · rw [show 2 * (i + 1) = 2 * i + 1 + 1 by omega]; simpa using hb
          · simpa using ht
  | case2 ws h =>
    match ws with
    | [] => simp [eq_comm]
    | [_] => simp at he
    | a :: b :: r => exact absurd rfl (h a b r)

theorem paramRegisterCount_le (t : ModuleType) (n : Nat) (h : paramRegisterCount t = .ok n) :
    n ≤ 33 := by
  cases t <;> simp [paramRegisterCount] at h <;> omega

end Ur20
