import Verif.Lemmas.Module
import Verif.Spec.Image

/-! The layout of the output image and the decoding of modules at bit and byte positions. -/

namespace Ur20

open Spec

theorem extract_lo (w : Word) : w.extractLsb' 0 8 = loByte w := by
  apply BitVec.eq_of_getLsbD_eq
  intro i hi
  rw [getLsbD_loByte, BitVec.getLsbD_extractLsb']
  simp [hi]

theorem extract_hi (w : Word) : w.extractLsb' 8 8 = hiByte w := by
  apply BitVec.eq_of_getLsbD_eq
  intro i hi
  rw [getLsbD_hiByte, BitVec.getLsbD_extractLsb']

theorem byteAt_eq (img : List Word) (p : Nat) : byteAt img p = (u16ToU8 img)[p]? := by
  induction img generalizing p with
  | nil => simp [byteAt, u16ToU8]
  | cons w ws ih =>
    match p with
    | 0 => simp [byteAt, u16ToU8, extract_lo]
    | 1 => simp [byteAt, u16ToU8, extract_hi]
    | p + 2 =>
      rw [u16ToU8, List.getElem?_cons_succ, List.getElem?_cons_succ, ← ih]
      simp [byteAt]

theorem byteAt_none {img : List Word} {p : Nat} : byteAt img p = none ↔ 2 * img.length ≤ p := by
  rw [byteAt_eq, List.getElem?_eq_none_iff, u16ToU8_length]

theorem byteAt_append_left (a b : List Word) (p : Nat) (h : p < 2 * a.length) :
    byteAt (a ++ b) p = byteAt a p := by
  rw [byteAt_eq, byteAt_eq, u16ToU8_append, List.getElem?_append_left (by rw [u16ToU8_length]; omega)]

theorem byteAt_append_right (a b : List Word) (p : Nat) (h : 2 * a.length ≤ p) :
    byteAt (a ++ b) p = byteAt b (p - 2 * a.length) := by
  rw [byteAt_eq, byteAt_eq, u16ToU8_append, List.getElem?_append_right (by rw [u16ToU8_length]; omega),
    u16ToU8_length]

/-- The bytes of an image determine it. -/
theorem image_ext {a b : List Word} (h : ∀ p, byteAt a p = byteAt b p) : a = b := by
  have : u16ToU8 a = u16ToU8 b := by
    apply List.ext_getElem?
    intro p
    rw [← byteAt_eq, ← byteAt_eq, h]
  rw [← u8ToU16_u16ToU8 a, this, u8ToU16_u16ToU8]

/-- What placing the encoded words `d` of a module with output offset `o` writes at byte `p` of the
image. -/
def placed (o : Word) (d : List Word) (p : Nat) : Option Byte :=
  if o.toNat % 16 = 0 then if outByte o ≤ p then byteAt d (p - outByte o) else none
  else if p = outByte o then byteAt d 0 else none

theorem getLsbD_255 (i : Nat) : (255#16).getLsbD i = decide (i < 8) := by
  rw [show 255#16 = (BitVec.allOnes 8).setWidth 16 by decide, BitVec.getLsbD_setWidth,
    BitVec.getLsbD_allOnes]
  by_cases h : i < 8
  · simp [h, show i < 16 by omega]
  · simp [h]

theorem merge_eq (v w : Word) : BitVec.setWidth 16 (loByte w) <<< 8 ||| v &&& 255#16 =
    leWord (loByte v) (loByte w) := by
  unfold leWord
  congr 1
  apply BitVec.eq_of_getLsbD_eq
  intro i hi
  rw [BitVec.getLsbD_setWidth, getLsbD_loByte, BitVec.getLsbD_and, getLsbD_255]
  by_cases h8' : i < 8 <;> simp [h8', hi]

theorem placeWords_spec (out : List Word) (o : Word) (d img : List Word) :
    placeWords out o d = .ok img ↔
      outputBase ≤ o.toNat ∧
      ((o.toNat % 16 = 0 ∧ outByte o = 2 * out.length ∧ img = out ++ d) ∨
       (o.toNat % 16 = 8 ∧ outByte o + 1 = 2 * out.length ∧ d ≠ [] ∧ img.length = out.length ∧
        ∀ p, byteAt img p = if p = outByte o then byteAt d 0 else byteAt out p)) := by
  have hr := reg_toNat o
  have hb := bit_eq o
  have hlt := o.isLt
  unfold placeWords
  generalize toRegisterAddress o = r at hr hb
  obtain ⟨start, bit⟩ := r
  simp only at hr hb
  have hbase : addrPackedProcessOutputData.toNat = 2048 := rfl
  simp only [hbase]
  unfold outputBase outByte outputBase
  by_cases h1 : start.toNat < 2048
  · rw [if_pos h1]
    constructor
    · intro h; cases h
    · rintro ⟨h, -⟩; omega
  · rw [if_neg h1]
    have hsub : (start - addrPackedProcessOutputData).toNat = start.toNat - 2048 := by
      rw [BitVec.toNat_sub_of_le (by rw [BitVec.le_def, hbase]; omega), hbase]
    rw [hsub]
    obtain ⟨s, hs⟩ : ∃ s, s = start.toNat - 2048 := ⟨_, rfl⟩
    rw [← hs]
    split
    · rename_i h0
      split
      · constructor
        · intro h; cases h
        · rintro ⟨-, ⟨-, h, -⟩ | ⟨h, -⟩⟩ <;> omega
      · constructor
        · intro h
          cases h
          exact ⟨by omega, .inl ⟨by omega, by omega, rfl⟩⟩
        · rintro ⟨-, ⟨-, -, h⟩ | ⟨h, -⟩⟩
          · rw [h]
          · omega
    · rename_i h8
      split
      · constructor
        · intro h; cases h
        · rintro ⟨-, ⟨h, -, -⟩ | ⟨-, h, -⟩⟩ <;> omega
      · rename_i hlen
        simp only [ne_eq, Decidable.not_not] at hlen
        simp only [Res.bind_eq, Res.pure_eq]
        have hlt' : s < out.length := by omega
        rw [idx_of_lt hlt', Res.bind_ok]
        cases d with
        | nil =>
          simp only [u16ToU8, idx_nil, Res.bind_panic]
          constructor
          · intro h; cases h
          · rintro ⟨-, ⟨h, -, -⟩ | ⟨-, -, h, -⟩⟩
            · omega
            · exact absurd rfl h
        | cons w ws =>
          simp only [u16ToU8, idx_cons_zero, Res.bind_ok, Res.ok.injEq]
          have hbyte : ∀ p, byteAt (out.set s
              (BitVec.setWidth 16 (loByte w) <<< 8 ||| out[s]'hlt' &&& 255#16)) p =
              if p = (o.toNat - 32768) / 8 then byteAt (w :: ws) 0 else byteAt out p := by
            intro p
            rw [merge_eq]
            unfold byteAt
            by_cases hp2 : p / 2 = s
            · rw [hp2, List.getElem?_set_self hlt', List.getElem?_eq_getElem hlt']
              simp only [Option.map_some]
              rcases Nat.mod_two_eq_zero_or_one p with hm | hm
              · rw [if_neg (by omega), hm]
                simp [extract_lo]
              · rw [if_pos (by omega), hm]
                simp [extract_lo, extract_hi]
            · rw [List.getElem?_set_ne (by omega), if_neg (by omega)]
          constructor
          · intro h
            subst h
            refine ⟨by omega, .inr ⟨by omega, ?_, by simp, by simp, hbyte⟩⟩
            omega
          · rintro ⟨-, ⟨h, -, -⟩ | ⟨-, -, -, -, h⟩⟩
            · omega
            · apply image_ext
              intro p
              rw [h, hbyte]
    · rename_i hn0 hn8
      constructor
      · intro h; cases h
      · rintro ⟨-, ⟨h, -, -⟩ | ⟨h, -⟩⟩
        · exact absurd (by omega) hn0
        · exact absurd (by omega) hn8

theorem placeWords_err (out : List Word) (o : Word) (d : List Word) (e : Error)
    (h : placeWords out o d = .err e) : e = .moduleOffset := by
  unfold placeWords at h
  generalize toRegisterAddress o = r at h
  obtain ⟨start, bit⟩ := r
  simp only at h
  split at h
  · cases h; rfl
  · split at h
    · split at h <;> cases h
      rfl
    · split at h
      · cases h; rfl
      · simp only [Res.bind_eq, Res.pure_eq, Res.bind_eq_err] at h
        rcases h with h | ⟨_, -, h | ⟨_, -, h⟩⟩
        · exact absurd h idx_ne_err
        · exact absurd h idx_ne_err
        · cases h
    · cases h; rfl

theorem placeWords_panic (out : List Word) (o : Word) (d : List Word)
    (h : placeWords out o d = .panic) : d = [] := by
  unfold placeWords at h
  generalize toRegisterAddress o = r at h
  obtain ⟨start, bit⟩ := r
  simp only at h
  split at h
  · cases h
  · split at h
    · split at h <;> cases h
    · split at h
      · cases h
      · rename_i hl
        simp only [ne_eq, Decidable.not_not] at hl
        simp only [Res.bind_eq, Res.pure_eq] at h
        rw [idx_of_lt (by omega), Res.bind_ok, Res.bind_eq_panic] at h
        rcases h with h | ⟨_, -, h⟩
        · rw [idx_eq_panic, u16ToU8_length] at h
          exact List.length_eq_zero_iff.1 (by omega)
        · cases h
    · cases h

theorem inPlace_iff (o : Word) (n : Nat) : InPlace o n ↔
    outputBase ≤ o.toNat ∧ ((o.toNat % 16 = 0 ∧ outByte o = 2 * n) ∨
      (o.toNat % 16 = 8 ∧ outByte o + 1 = 2 * n)) := by
  unfold InPlace outByte outputBase
  omega

theorem placeWords_misplaced (out : List Word) (o : Word) (d : List Word)
    (h : ¬ InPlace o out.length) : placeWords out o d = .err .moduleOffset := by
  rw [inPlace_iff] at h
  cases hp : placeWords out o d with
  | err e => rw [placeWords_err _ _ _ _ hp]
  | ok img =>
    obtain ⟨h1, ⟨h2, h3, -⟩ | ⟨h2, h3, -⟩⟩ := (placeWords_spec _ _ _ _).1 hp
    · exact absurd ⟨h1, .inl ⟨h2, h3⟩⟩ h
    · exact absurd ⟨h1, .inr ⟨h2, h3⟩⟩ h
  | panic =>
    have hr := reg_toNat o
    have hb := bit_eq o
    exfalso
    apply h
    unfold placeWords at hp
    generalize toRegisterAddress o = r at hr hb hp
    obtain ⟨start, bit⟩ := r
    simp only at hr hb hp
    have hbase : addrPackedProcessOutputData.toNat = 2048 := rfl
    simp only [hbase] at hp
    split at hp
    · cases hp
    · rename_i h1
      have hsub : (start - addrPackedProcessOutputData).toNat = start.toNat - 2048 := by
        rw [BitVec.toNat_sub_of_le (by rw [BitVec.le_def, hbase]; omega), hbase]
      rw [hsub] at hp
      split at hp
      · split at hp <;> cases hp
      · split at hp
        · cases hp
        · unfold outByte outputBase
          omega
      · cases hp

theorem placeWords_ne_err {out : List Word} {o : Word} {d : List Word} {e : Error}
    (hin : InPlace o out.length) : placeWords out o d ≠ .err e := by
  intro h
  have hr := reg_toNat o
  have hb := bit_eq o
  unfold placeWords at h
  generalize toRegisterAddress o = r at hr hb h
  obtain ⟨start, bit⟩ := r
  have hbase : addrPackedProcessOutputData.toNat = 2048 := rfl
  simp only [hbase] at hr hb h
  obtain ⟨h1, h2⟩ := (inPlace_iff _ _).1 hin
  unfold outputBase at h1
  unfold outByte outputBase at h2
  split at h
  · omega
  · rename_i h3
    have hsub : (start - addrPackedProcessOutputData).toNat = start.toNat - 2048 := by
      rw [BitVec.toNat_sub_of_le (by rw [BitVec.le_def, hbase]; omega), hbase]
    rw [hsub] at h
    split at h
    · split at h
      · omega
      · cases h
    · split at h
      · omega
      · simp only [Res.bind_eq, Res.pure_eq, Res.bind_eq_err] at h
        rcases h with h | ⟨_, -, h | ⟨_, -, h⟩⟩
        · exact idx_ne_err h
        · exact idx_ne_err h
        · cases h
    · rename_i h0 h8
      rcases h2 with h2 | h2
      · exact h0 (by omega)
      · exact h8 (by omega)

theorem placeWords_placed {out : List Word} {o : Word} {d img : List Word}
    (h : placeWords out o d = .ok img) (p : Nat) :
    byteAt img p = (placed o d p).or (byteAt out p) := by
  obtain ⟨h1, ⟨h2, h3, h4⟩ | ⟨h2, h3, h4, h5, h6⟩⟩ := (placeWords_spec _ _ _ _).1 h
  · subst h4
    unfold placed
    rw [if_pos h2]
    by_cases hp : outByte o ≤ p
    · rw [if_pos hp, byteAt_append_right _ _ _ (by omega), ← h3,
        byteAt_none.2 (show 2 * out.length ≤ p by omega), Option.or_none]
    · rw [if_neg hp, byteAt_append_left _ _ _ (by omega)]
      rfl
  · rw [h6]
    unfold placed
    rw [if_neg (show ¬ o.toNat % 16 = 0 by omega)]
    by_cases hp : p = outByte o
    · rw [if_pos hp, if_pos hp]
      cases d with
      | nil => exact absurd rfl h4
      | cons w ws => simp [byteAt]
    · rw [if_neg hp, if_neg hp]
      rfl

theorem outputLoop_append (out : List Word)
    (a b : List ((Module × ModuleOffset) × List ChannelValue)) :
    outputLoop out (a ++ b) = (outputLoop out a).bind fun o => outputLoop o b := by
  induction a generalizing out with
  | nil => rfl
  | cons e a ih =>
    obtain ⟨⟨m, off⟩, vs⟩ := e
    simp only [List.cons_append, outputLoop]
    cases off.output with
    | none => exact ih out
    | some o =>
      simp only [Res.bind_eq]
      rw [Res.bind_assoc]
      congr 1
      funext d
      rw [Res.bind_assoc]
      congr 1
      funext out'
      exact ih out'

/-- What module `e` writes at byte `p`. -/
def written (e : (Module × ModuleOffset) × List ChannelValue) (p : Nat) : Option Byte :=
  match e.1.2.output with
  | none => none
  | some o =>
    match e.1.1.processOutputValues e.2 with
    | .ok d => placed o d p
    | _ => none

/-- What the modules of a list write at byte `p`: the last one wins. -/
def writtenBy : List ((Module × ModuleOffset) × List ChannelValue) → Nat → Option Byte
  | [], _ => none
  | e :: es, p => (writtenBy es p).or (written e p)

theorem outputLoop_bytes {out : List Word} {l : List ((Module × ModuleOffset) × List ChannelValue)}
    {img : List Word} (h : outputLoop out l = .ok img) (p : Nat) :
    byteAt img p = (writtenBy l p).or (byteAt out p) := by
  induction l generalizing out with
  | nil => cases h; rfl
  | cons e l ih =>
    obtain ⟨⟨m, off⟩, vs⟩ := e
    simp only [outputLoop] at h
    unfold writtenBy written
    cases ho : off.output with
    | none =>
      rw [ho] at h
      rw [ih h]
      simp
    | some o =>
      rw [ho] at h
      simp only [Res.bind_eq, Res.bind_eq_ok] at h
      obtain ⟨d, hd, out', hout', h⟩ := h
      rw [ih h, placeWords_placed hout']
      simp only [hd, Option.or_assoc]

/-- Registers appended by a list of modules. -/
def wordsOf (l : List ((Module × ModuleOffset) × List ChannelValue)) : Nat :=
  (l.map fun e => registersAdded e.1).sum

theorem outputLoop_length {out : List Word} {l : List ((Module × ModuleOffset) × List ChannelValue)}
    {img : List Word} (h : outputLoop out l = .ok img) : img.length = out.length + wordsOf l := by
  induction l generalizing out with
  | nil => cases h; rfl
  | cons e l ih =>
    have hw : wordsOf (e :: l) = registersAdded e.1 + wordsOf l := by simp [wordsOf]
    rw [hw]
    obtain ⟨⟨m, off⟩, vs⟩ := e
    simp only [outputLoop] at h
    simp only [registersAdded]
    cases ho : off.output with
    | none =>
      rw [ho] at h
      rw [ih h]
      simp
    | some o =>
      rw [ho] at h
      simp only [Res.bind_eq, Res.bind_eq_ok] at h
      obtain ⟨d, hd, out', hout', h⟩ := h
      rw [ih h]
      have hl := Module.processOutputValues_length _ _ _ hd
      obtain ⟨h1, ⟨h2, h3, h4⟩ | ⟨h2, h3, h4, h5, h6⟩⟩ := (placeWords_spec _ _ _ _).1 hout'
      · simp only [h2, if_true, h4, List.length_append, hl]
        omega
      · simp only [h2, h5]
        simp

/-- Splitting a successful encoding at module `e`. -/
theorem outputLoop_split {l r : List ((Module × ModuleOffset) × List ChannelValue)}
    {e : (Module × ModuleOffset) × List ChannelValue} {img : List Word}
    (h : outputLoop [] (l ++ e :: r) = .ok img) (o : Word) (ho : e.1.2.output = some o) :
    ∃ out d out', outputLoop [] l = .ok out ∧ e.1.1.processOutputValues e.2 = .ok d ∧
      placeWords out o d = .ok out' ∧ outputLoop out' r = .ok img := by
  rw [outputLoop_append, Res.bind_eq_ok] at h
  obtain ⟨out, h1, h⟩ := h
  obtain ⟨⟨m, off⟩, vs⟩ := e
  simp only at ho
  simp only [outputLoop, ho, Res.bind_eq, Res.bind_eq_ok] at h
  obtain ⟨d, hd, out', hout', h⟩ := h
  exact ⟨out, d, out', h1, hd, hout', h⟩

/-- Later modules change a byte of the image only if one of them is byte-packed at that byte. -/
theorem outputLoop_keeps {out : List Word} {l : List ((Module × ModuleOffset) × List ChannelValue)}
    {img : List Word} (h : outputLoop out l = .ok img) (p : Nat) (hp : p < 2 * out.length)
    (hn : ∀ e ∈ l, ∀ o, e.1.2.output = some o → ¬ (o.toNat % 16 = 8 ∧ outByte o = p)) :
    byteAt img p = byteAt out p := by
  induction l generalizing out with
  | nil => cases h; rfl
  | cons e l ih =>
    obtain ⟨⟨m, off⟩, vs⟩ := e
    simp only [outputLoop] at h
    cases ho : off.output with
    | none =>
      rw [ho] at h
      exact ih h hp fun e he => hn e (List.mem_cons_of_mem _ he)
    | some o =>
      rw [ho] at h
      simp only [Res.bind_eq, Res.bind_eq_ok] at h
      obtain ⟨d, hd, out', hout', h⟩ := h
      obtain ⟨h1, ⟨h2, h3, h4⟩ | ⟨h2, h3, h4, h5, h6⟩⟩ := (placeWords_spec _ _ _ _).1 hout'
      · rw [ih h (by rw [h4, List.length_append]; omega) fun e he => hn e (List.mem_cons_of_mem _ he), h4,
          byteAt_append_left _ _ _ hp]
      · rw [ih h (by omega) fun e he => hn e (List.mem_cons_of_mem _ he), h6, if_neg]
        intro hpo
        exact hn _ List.mem_cons_self o ho ⟨h2, hpo.symm⟩

/-- The bytes of a module in the image. -/
theorem outputLoop_module {l r : List ((Module × ModuleOffset) × List ChannelValue)}
    {e : (Module × ModuleOffset) × List ChannelValue} {img : List Word}
    (h : outputLoop [] (l ++ e :: r) = .ok img) (o : Word) (ho : e.1.2.output = some o) :
    ∃ d, e.1.1.processOutputValues e.2 = .ok d ∧
      InPlace o (wordsOf l) ∧
      (o.toNat % 16 = 8 → d ≠ []) ∧
      ∀ k, k < (if o.toNat % 16 = 8 then 1 else 2 * d.length) →
        (∀ e' ∈ r, ∀ o', e'.1.2.output = some o' →
          ¬ (o'.toNat % 16 = 8 ∧ outByte o' = outByte o + k)) →
        byteAt img (outByte o + k) = byteAt d k := by
  obtain ⟨out, d, out', h1, hd, hp, h⟩ := outputLoop_split h o ho
  have hlen := outputLoop_length h1
  simp only [List.length_nil, Nat.zero_add] at hlen
  refine ⟨d, hd, ?_⟩
  obtain ⟨b, ⟨h2, h3, h4⟩ | ⟨h2, h3, h4, h5, h6⟩⟩ := (placeWords_spec _ _ _ _).1 hp
  · refine ⟨(inPlace_iff _ _).2 ⟨b, .inl ⟨h2, by omega⟩⟩, by omega, fun k hk hn => ?_⟩
    rw [if_neg (by omega)] at hk
    rw [outputLoop_keeps h _ (by rw [h4, List.length_append]; omega) hn, h4,
      byteAt_append_right _ _ _ (by omega)]
    congr 1
    omega
  · refine ⟨(inPlace_iff _ _).2 ⟨b, .inr ⟨h2, by omega⟩⟩, fun _ => h4, fun k hk hn => ?_⟩
    rw [if_pos h2] at hk
    obtain rfl : k = 0 := by omega
    rw [outputLoop_keeps h _ (by omega) hn, Nat.add_zero, h6, if_pos rfl]

/-- Encoding succeeds or fails with a wrong offset, when all values can be encoded. -/
theorem outputLoop_outcome (out : List Word)
    (l : List ((Module × ModuleOffset) × List ChannelValue))
    (henc : ∀ e ∈ l, ∀ o, e.1.2.output = some o →
      e.1.1.outputByteCount ≠ 0 ∧ ∃ d, e.1.1.processOutputValues e.2 = .ok d) :
    ((∃ img, outputLoop out l = .ok img) ∧
      ∀ i e o, l[i]? = some e → e.1.2.output = some o →
        InPlace o (out.length + wordsOf (l.take i))) ∨
    (outputLoop out l = .err .moduleOffset ∧
      ∃ i e o, l[i]? = some e ∧ e.1.2.output = some o ∧
        ¬ InPlace o (out.length + wordsOf (l.take i))) := by
  induction l generalizing out with
  | nil => exact .inl ⟨⟨out, rfl⟩, by simp⟩
  | cons e l ih =>
    have ih' := fun out => ih out fun e he => henc e (List.mem_cons_of_mem _ he)
    have hw : ∀ i, wordsOf ((e :: l).take (i + 1)) = registersAdded e.1 + wordsOf (l.take i) := by
      intro i; simp [wordsOf]
    obtain ⟨⟨m, off⟩, vs⟩ := e
    simp only [outputLoop]
    cases ho : off.output with
    | none =>
      have ha : registersAdded (m, off) = 0 := by simp [registersAdded, ho]
      rcases ih' out with ⟨h1, h2⟩ | ⟨h1, i, e, o, h2, h3, h4⟩
      · refine .inl ⟨h1, ?_⟩
        intro i e o he heo
        cases i with
        | zero =>
          simp only [List.getElem?_cons_zero, Option.some.injEq] at he
          subst he
          simp [ho] at heo
        | succ i =>
          rw [hw, ha, Nat.zero_add]
          exact h2 i e o he heo
      · refine .inr ⟨h1, i + 1, e, o, h2, h3, ?_⟩
        rw [hw, ha, Nat.zero_add]
        exact h4
    | some o =>
      obtain ⟨hc, d, hd⟩ := henc _ List.mem_cons_self o ho
      simp only at hc hd
      simp only [Res.bind_eq, hd, Res.bind_ok]
      have hl := Module.processOutputValues_length _ _ _ hd
      by_cases hin : InPlace o out.length
      · cases hp : placeWords out o d with
        | err err =>
          exfalso
          obtain ⟨h1, ⟨h2, h3⟩ | ⟨h2, h3⟩⟩ := (inPlace_iff _ _).1 hin
          · rw [(placeWords_spec out o d (out ++ d)).2 ⟨h1, .inl ⟨h2, h3, rfl⟩⟩] at hp
            cases hp
          · exact placeWords_ne_err hin hp
        | panic =>
          have := placeWords_panic _ _ _ hp
          rw [this, List.length_nil] at hl
          omega
        | ok out' =>
          have hlen : out'.length = out.length + registersAdded (m, off) := by
            simp only [registersAdded, ho]
            obtain ⟨h1, ⟨h2, h3, h4⟩ | ⟨h2, h3, h4, h5, h6⟩⟩ := (placeWords_spec _ _ _ _).1 hp
            · rw [if_pos h2, h4, List.length_append, hl]
            · rw [if_neg (by omega), h5, Nat.add_zero]
          rw [Res.bind_ok]
          rcases ih' out' with ⟨h1, h2⟩ | ⟨h1, i, e, o', h2, h3, h4⟩
          · refine .inl ⟨h1, ?_⟩
            intro i e o' he heo
            cases i with
            | zero =>
              simp only [List.getElem?_cons_zero, Option.some.injEq] at he
              subst he
              simp only [ho, Option.some.injEq] at heo
              subst heo
              simpa [wordsOf] using hin
            | succ i =>
              rw [hw, ← Nat.add_assoc, ← hlen]
              exact h2 i e o' he heo
          · refine .inr ⟨h1, i + 1, e, o', h2, h3, ?_⟩
            rw [hw, ← Nat.add_assoc, ← hlen]
            exact h4
      · refine .inr ⟨?_, 0, ((m, off), vs), o, rfl, ho, by simpa [wordsOf] using hin⟩
        rw [placeWords_misplaced _ _ _ hin]
        rfl

end Ur20
