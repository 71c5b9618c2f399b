import Verif.Lemmas.Basic
import Verif.Spec.Params

/-! Lemmas about the parameter registers. -/

namespace Ur20

open Spec

/-- `r` succeeds if `P` and is rejected with `ChannelParameter` otherwise; if it succeeds the
value satisfies `Q`. -/
structure Checked {α : Type} (r : Res α) (P : Prop) (Q : α → Prop) : Prop where
  ok : P → ∃ a, r = .ok a
  err : ¬ P → r = .err .channelParameter
  val : ∀ a, r = .ok a → Q a

namespace Checked

variable {α β : Type}

theorem prop {r : Res α} {P : Prop} {Q : α → Prop} (h : Checked r P Q) {a : α} (e : r = .ok a) :
    P := by
  by_contra hn
  rw [h.err hn] at e
  simp at e

theorem pure (a : α) : Checked (.ok a) True (· = a) :=
  ⟨fun _ => ⟨a, rfl⟩, fun h => absurd trivial h, fun b hb => by simpa using hb.symm⟩

theorem weaken {r : Res α} {P P' : Prop} {Q Q' : α → Prop} (h : Checked r P Q) (hp : P ↔ P')
    (hq : ∀ a, P → Q a → Q' a) : Checked r P' Q' :=
  ⟨fun p => h.ok (hp.2 p), fun p => h.err fun q => p (hp.1 q),
    fun a ha => hq a (h.prop ha) (h.val a ha)⟩

theorem bind {r : Res α} {f : α → Res β} {P P' : Prop} {Q : α → Prop} {Q' : β → Prop}
    (h : Checked r P Q) (hf : ∀ a, P → Q a → Checked (f a) P' Q') :
    Checked (r.bind f) (P ∧ P') Q' := by
  refine ⟨?_, ?_, ?_⟩
  · rintro ⟨p, p'⟩
    obtain ⟨a, ha⟩ := h.ok p
    rw [ha]
    exact (hf a p (h.val a ha)).ok p'
  · intro hn
    by_cases p : P
    · obtain ⟨a, ha⟩ := h.ok p
      rw [ha]
      exact (hf a p (h.val a ha)).err fun p' => hn ⟨p, p'⟩
    · rw [h.err p]; rfl
  · intro b hb
    obtain ⟨a, ha, hb⟩ := Res.bind_eq_ok.1 hb
    exact (hf a (h.prop ha) (h.val a ha)).val b hb

theorem map {r : Res α} {f : α → β} {P : Prop} {Q : α → Prop} (h : Checked r P Q) :
    Checked (r.map f) P (fun b => ∃ a, Q a ∧ b = f a) := by
  refine ⟨?_, ?_, ?_⟩
  · intro p; obtain ⟨a, ha⟩ := h.ok p; exact ⟨f a, by rw [ha]; rfl⟩
  · intro p; rw [h.err p]; rfl
  · intro b hb
    obtain ⟨a, ha, rfl⟩ := Res.map_eq_ok.1 hb
    exact ⟨a, h.val a ha, rfl⟩

theorem mapRes {f : α → Res β} {P : α → Prop} {Q : α → β → Prop} (l : List α)
    (h : ∀ a ∈ l, Checked (f a) (P a) (Q a)) :
    Checked (mapRes f l) (∀ a ∈ l, P a) (List.Forall₂ Q l) := by
  induction l with
  | nil => exact ⟨fun _ => ⟨[], rfl⟩, fun h => by simp at h, fun a ha => by simp at ha; simp [ha]⟩
  | cons a l ih =>
    have h1 := h a (by simp)
    have h2 := ih fun x hx => h x (by simp [hx])
    have := h1.bind (f := fun b => (Ur20.mapRes f l).bind fun bs => .ok (b :: bs))
      (P' := ∀ x ∈ l, P x) (Q' := List.Forall₂ Q (a :: l)) (by
        intro b _ qb
        refine ⟨?_, ?_, ?_⟩
        · intro p; obtain ⟨bs, hbs⟩ := h2.ok p; exact ⟨b :: bs, by rw [hbs]; rfl⟩
        · intro p; rw [h2.err p]; rfl
        · intro cs hcs
          obtain ⟨bs, hbs, hcs⟩ := Res.bind_eq_ok.1 hcs
          cases hcs
          exact .cons qb (h2.val _ hbs))
    exact this.weaken (by simp) (fun _ _ q => q)

end Checked

/-- From register `k` on, the registers satisfy the given predicates. -/
def Fits (data : List Word) (k : Nat) : List (Word → Prop) → Prop
  | [] => True
  | p :: ps => (∃ w, data[k]? = some w ∧ p w) ∧ Fits data (k + 1) ps

theorem fits_iff (data : List Word) (k : Nat) (ps : List (Word → Prop)) :
    Fits data k ps ↔ ∀ i p, ps[i]? = some p → ∃ w, data[k + i]? = some w ∧ p w := by
  induction ps generalizing k with
  | nil => simp [Fits]
  | cons p ps ih =>
    rw [Fits, ih]
    constructor
    · rintro ⟨h1, h2⟩ i q hq
      cases i with
      | zero => simp at hq; subst hq; exact h1
      | succ i =>
        have := h2 i q (by simpa using hq)
        rwa [show k + 1 + i = k + (i + 1) by omega] at this
    · intro h
      refine ⟨h 0 p rfl, fun i q hq => ?_⟩
      have := h (i + 1) q (by simpa using hq)
      rwa [show k + (i + 1) = k + 1 + i by omega] at this

theorem fits_append (data : List Word) (k : Nat) (ps qs : List (Word → Prop)) :
    Fits data k (ps ++ qs) ↔ Fits data k ps ∧ Fits data (k + ps.length) qs := by
  induction ps generalizing k with
  | nil => simp [Fits]
  | cons p ps ih =>
    simp only [List.cons_append, Fits, ih, List.length_cons, and_assoc]
    rw [show k + 1 + ps.length = k + (ps.length + 1) by omega]

/-- The registers are at most the given codes. -/
def Within (data : List Word) (k : Nat) (ms : List Nat) : Prop :=
  Fits data k (ms.map fun m w => w.toNat ≤ m)

theorem within_iff (data : List Word) (ms : List Nat) :
    Within data 0 ms ↔
      ∀ (i m : Nat), ms[i]? = some m → ∃ w : Word, data[i]? = some w ∧ w.toNat ≤ m := by
  rw [Within, fits_iff]
  constructor
  · intro h i m hm
    simpa using h i _ (by rw [List.getElem?_map, hm]; rfl)
  · intro h i p hp
    rw [List.getElem?_map, Option.map_eq_some_iff] at hp
    obtain ⟨m, hm, rfl⟩ := hp
    simpa using h i m hm

theorem within_replicate (data : List Word) (k n : Nat) (ms : List Nat) :
    Within data k (List.replicate n ms).flatten ↔
      ∀ i ∈ List.range n, Within data (k + i * ms.length) ms := by
  induction n generalizing k with
  | zero => simp [Within, Fits]
  | succ n ih =>
    rw [List.replicate_succ, List.flatten_cons, Within, List.map_append, fits_append,
      ← Within, ← Within, ih, List.length_map]
    simp only [List.mem_range]
    constructor
    · rintro ⟨h0, h⟩ i hi
      cases i with
      | zero => simpa using h0
      | succ i =>
        have := h i (by omega)
        rwa [show k + (i + 1) * ms.length = k + ms.length + i * ms.length by
          rw [Nat.succ_mul]; omega]
    · intro h
      refine ⟨by simpa using h 0 (by omega), fun i hi => ?_⟩
      have := h (i + 1) (by omega)
      rwa [show k + (i + 1) * ms.length = k + ms.length + i * ms.length by
        rw [Nat.succ_mul]; omega] at this

theorem fits_channels {β : Type} (data : List Word) (g : β → List (Word → Prop)) (n : Nat)
    (hg : ∀ b, (g b).length = n) (k s : Nat) (l : List β)
    (h : List.Forall₂ (fun i b => Fits data (k + i * n) (g b)) (List.range' s l.length) l) :
    Fits data (k + s * n) (l.flatMap g) := by
  induction l generalizing s with
  | nil => simp [Fits]
  | cons b l ih =>
    rw [List.length_cons, List.range'_succ] at h
    cases h with
    | cons h1 h2 =>
      rw [List.flatMap_cons, fits_append]
      refine ⟨h1, ?_⟩
      rw [hg, show k + s * n + n = k + (s + 1) * n by rw [Nat.succ_mul]; omega]
      exact ih _ h2

theorem checked_idx (data : List Word) (k : Nat) (h : k < data.length) :
    Checked (idx data k) True (fun w => data[k]? = some w) := by
  refine ⟨fun _ => ⟨_, idx_of_lt h⟩, fun h => absurd trivial h, fun a ha => idx_eq_ok.1 ha⟩

/-- A parser of one register. -/
structure RegParser {α : Type} (f : Word → Res α) (m : Nat) (R : α → Word → Prop) : Prop where
  parse : ∀ w, Checked (f w) (w.toNat ≤ m) (fun a => R a w)

theorem RegParser.at {α : Type} {f : Word → Res α} {m : Nat} {R : α → Word → Prop}
    (h : RegParser f m R) (data : List Word) (k : Nat) (hk : k < data.length) :
    Checked ((idx data k).bind f) (∃ w, data[k]? = some w ∧ w.toNat ≤ m)
      (fun a => ∃ w, data[k]? = some w ∧ R a w) := by
  rw [idx_of_lt hk]
  refine (h.parse data[k]).weaken ?_ ?_
  · simp [hk]
  · intro a _ ha; exact ⟨_, List.getElem?_eq_getElem hk, ha⟩

theorem bool_parser : RegParser boolParam 1 holds := by
  refine ⟨fun w => ?_⟩
  unfold boolParam
  split <;> rename_i h
  · exact ⟨fun _ => ⟨_, rfl⟩, fun hn => by omega, fun a ha => by cases ha; exact h⟩
  · exact ⟨fun _ => ⟨_, rfl⟩, fun hn => by omega, fun a ha => by cases ha; exact h⟩
  · refine ⟨fun hn => ?_, fun _ => rfl, fun a ha => by simp at ha⟩
    have : w.toNat = 0 ∨ w.toNat = 1 := by omega
    simp_all

theorem any_parser : RegParser (fun w => .ok w) 65535 (fun a w => w = a) :=
  ⟨fun w => ⟨fun _ => ⟨_, rfl⟩, fun h => by have := w.isLt; omega,
    fun a ha => by simpa using ha⟩⟩

theorem char_parser : RegParser Com.charParam 255 holdsChar := by
  refine ⟨fun w => ?_⟩
  unfold Com.charParam
  split <;> rename_i h
  · refine ⟨fun _ => ⟨_, rfl⟩, fun hn => by omega, fun a ha => ?_⟩
    cases ha
    simp only [holdsChar, BitVec.toNat_setWidth]
    omega
  · exact ⟨fun hn => absurd hn h, fun _ => rfl, fun a ha => by simp at ha⟩

theorem code_parser {α : Type} [Coded α] (f : Word → Option α) (m : Nat)
    (h1 : ∀ w v, f w = some v → w.toNat ≤ m ∧ holds v w) (h2 : ∀ w, w.toNat ≤ m → f w ≠ none) :
    RegParser (codeParam f) m holds := by
  refine ⟨fun w => ⟨?_, ?_, ?_⟩⟩
  · intro h
    cases hf : f w with
    | none => exact absurd hf (h2 w h)
    | some v => exact ⟨v, by simp [codeParam, hf, Res.ofOption]⟩
  · intro h
    cases hf : f w with
    | none => simp [codeParam, hf, Res.ofOption]
    | some v => exact absurd (h1 w v hf).1 h
  · intro a ha
    cases hf : f w with
    | none => simp [codeParam, hf, Res.ofOption] at ha
    | some v =>
      simp only [codeParam, hf, Res.ofOption, Res.ok.injEq] at ha
      subst ha
      exact (h1 w _ hf).2

theorem DataFormat.parser : RegParser (codeParam DataFormat.fromU16) 1 holds := by
  refine code_parser _ _ (fun w v h => ?_) (fun w h hn => ?_)
  · unfold DataFormat.fromU16 at h
    split at h <;> first | (cases h; rename_i e; exact ⟨by omega, e⟩) | simp at h
  · unfold DataFormat.fromU16 at hn
    split at hn <;> simp_all
    omega

theorem AnalogUIRange.parser : RegParser (codeParam AnalogUIRange.fromU16) 8 holds := by
  refine code_parser _ _ (fun w v h => ?_) (fun w h hn => ?_)
  · unfold AnalogUIRange.fromU16 at h
    split at h <;> first | (cases h; rename_i e; exact ⟨by omega, e⟩) | simp at h
  · unfold AnalogUIRange.fromU16 at hn
    split at hn <;> simp_all
    omega

theorem AnalogIRange.parser : RegParser (codeParam AnalogIRange.fromU16) 2 holds := by
  refine code_parser _ _ (fun w v h => ?_) (fun w h hn => ?_)
  · unfold AnalogIRange.fromU16 at h
    split at h <;> first | (cases h; rename_i e; exact ⟨by omega, e⟩) | simp at h
  · unfold AnalogIRange.fromU16 at hn
    split at hn <;> simp_all
    omega

theorem RtdRange.parser : RegParser (codeParam RtdRange.fromU16) 18 holds := by
  refine code_parser _ _ (fun w v h => ?_) (fun w h hn => ?_)
  · unfold RtdRange.fromU16 at h
    split at h <;> first | (cases h; rename_i e; exact ⟨by omega, e⟩) | simp at h
  · unfold RtdRange.fromU16 at hn
    split at hn <;> simp_all
    omega

theorem TemperatureUnit.parser : RegParser (codeParam TemperatureUnit.fromU16) 2 holds := by
  refine code_parser _ _ (fun w v h => ?_) (fun w h hn => ?_)
  · unfold TemperatureUnit.fromU16 at h
    split at h <;> first | (cases h; rename_i e; exact ⟨by omega, e⟩) | simp at h
  · unfold TemperatureUnit.fromU16 at hn
    split at hn <;> simp_all
    omega

theorem ConnectionType.parser : RegParser (codeParam ConnectionType.fromU16) 2 holds := by
  refine code_parser _ _ (fun w v h => ?_) (fun w h hn => ?_)
  · unfold ConnectionType.fromU16 at h
    split at h <;> first | (cases h; rename_i e; exact ⟨by omega, e⟩) | simp at h
  · unfold ConnectionType.fromU16 at hn
    split at hn <;> simp_all
    omega

theorem ConversionTime.parser : RegParser (codeParam ConversionTime.fromU16) 5 holds := by
  refine code_parser _ _ (fun w v h => ?_) (fun w h hn => ?_)
  · unfold ConversionTime.fromU16 at h
    split at h <;> first | (cases h; rename_i e; exact ⟨by omega, e⟩) | simp at h
  · unfold ConversionTime.fromU16 at hn
    split at hn <;> simp_all
    omega

theorem InputFilter.parser : RegParser (codeParam InputFilter.fromU16) 16 holds := by
  refine code_parser _ _ (fun w v h => ?_) (fun w h hn => ?_)
  · unfold InputFilter.fromU16 at h
    split at h <;> first | (cases h; rename_i e; exact ⟨by omega, e⟩) | simp at h
  · unfold InputFilter.fromU16 at hn
    split at hn <;> simp_all
    omega

theorem InputDelay.parser : RegParser (codeParam InputDelay.fromU16) 5 holds := by
  refine code_parser _ _ (fun w v h => ?_) (fun w h hn => ?_)
  · unfold InputDelay.fromU16 at h
    split at h <;> first | (cases h; rename_i e; exact ⟨by omega, e⟩) | simp at h
  · unfold InputDelay.fromU16 at hn
    split at hn <;> simp_all
    omega

theorem FrequencySuppression.parser : RegParser (codeParam FrequencySuppression.fromU16) 3 holds := by
  refine code_parser _ _ (fun w v h => ?_) (fun w h hn => ?_)
  · unfold FrequencySuppression.fromU16 at h
    split at h <;> first | (cases h; rename_i e; exact ⟨by omega, e⟩) | simp at h
  · unfold FrequencySuppression.fromU16 at hn
    split at hn <;> simp_all
    omega

theorem TcRange.parser : RegParser (codeParam TcRange.fromU16) 19 holds := by
  refine code_parser _ _ (fun w v h => ?_) (fun w h hn => ?_)
  · unfold TcRange.fromU16 at h
    split at h <;> first | (cases h; rename_i e; exact ⟨by omega, e⟩) | simp at h
  · unfold TcRange.fromU16 at hn
    split at hn <;> simp_all
    omega

theorem ColdJunctionCompensation.parser : RegParser (codeParam ColdJunctionCompensation.fromU16) 4 holds := by
  refine code_parser _ _ (fun w v h => ?_) (fun w h hn => ?_)
  · unfold ColdJunctionCompensation.fromU16 at h
    split at h <;> first | (cases h; rename_i e; exact ⟨by omega, e⟩) | simp at h
  · unfold ColdJunctionCompensation.fromU16 at hn
    split at hn <;> simp_all
    omega

theorem OperatingMode.parser : RegParser (codeParam OperatingMode.fromU16) 3 holds := by
  refine code_parser _ _ (fun w v h => ?_) (fun w h hn => ?_)
  · unfold OperatingMode.fromU16 at h
    split at h <;> first | (cases h; rename_i e; exact ⟨by omega, e⟩) | simp at h
  · unfold OperatingMode.fromU16 at hn
    split at hn <;> simp_all
    omega

theorem DataBits.parser : RegParser (codeParam DataBits.fromU16) 1 holds := by
  refine code_parser _ _ (fun w v h => ?_) (fun w h hn => ?_)
  · unfold DataBits.fromU16 at h
    split at h <;> first | (cases h; rename_i e; exact ⟨by omega, e⟩) | simp at h
  · unfold DataBits.fromU16 at hn
    split at hn <;> simp_all
    omega

theorem BaudRate.parser : RegParser (codeParam BaudRate.fromU16) 11 holds := by
  refine code_parser _ _ (fun w v h => ?_) (fun w h hn => ?_)
  · unfold BaudRate.fromU16 at h
    split at h <;> first | (cases h; rename_i e; exact ⟨by omega, e⟩) | simp at h
  · unfold BaudRate.fromU16 at hn
    split at hn <;> simp_all
    omega

theorem StopBit.parser : RegParser (codeParam StopBit.fromU16) 1 holds := by
  refine code_parser _ _ (fun w v h => ?_) (fun w h hn => ?_)
  · unfold StopBit.fromU16 at h
    split at h <;> first | (cases h; rename_i e; exact ⟨by omega, e⟩) | simp at h
  · unfold StopBit.fromU16 at hn
    split at hn <;> simp_all
    omega

theorem Parity.parser : RegParser (codeParam Parity.fromU16) 2 holds := by
  refine code_parser _ _ (fun w v h => ?_) (fun w h hn => ?_)
  · unfold Parity.fromU16 at h
    split at h <;> first | (cases h; rename_i e; exact ⟨by omega, e⟩) | simp at h
  · unfold Parity.fromU16 at hn
    split at hn <;> simp_all
    omega

theorem FlowControl.parser : RegParser (codeParam FlowControl.fromU16) 2 holds := by
  refine code_parser _ _ (fun w v h => ?_) (fun w h hn => ?_)
  · unfold FlowControl.fromU16 at h
    split at h <;> first | (cases h; rename_i e; exact ⟨by omega, e⟩) | simp at h
  · unfold FlowControl.fromU16 at hn
    split at hn <;> simp_all
    omega

theorem ProcessDataLength.parser : RegParser (codeParam ProcessDataLength.fromU16) 1 holds := by
  refine code_parser _ _ (fun w v h => ?_) (fun w h hn => ?_)
  · unfold ProcessDataLength.fromU16 at h
    split at h <;> first | (cases h; rename_i e; exact ⟨by omega, e⟩) | simp at h
  · unfold ProcessDataLength.fromU16 at hn
    split at hn <;> simp_all
    omega

end Ur20
