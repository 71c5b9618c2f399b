import Verif.Model.ErrorText
import Verif.Model.StdIo
import Verif.Props.Protocol

/-!
# Error texts and the methods of the standard library: C87, C88
-/

namespace Ur20

open Spec Com

/-! ### C87: error texts -/

private theorem io_ne {s t : String} (c : Char) (h : t.toList.head? = some c) (hc : c ≠ 'I') :
    "I/O error: " ++ s ≠ t := by
  rintro rfl
  simp at h
  exact hc h.symm

/-- C87: the displayed text identifies the error. -/
theorem C87_display (a b : Error) (h : a.display = b.display) : a = b := by
  cases a <;> cases b <;> simp only [Error.display] at h <;>
    first
    | rfl
    | exact absurd h (by decide)
    | exact absurd h (io_ne 'u' (by decide) (by decide))
    | exact absurd h (io_ne 'i' (by decide) (by decide))
    | exact absurd h.symm (io_ne 'u' (by decide) (by decide))
    | exact absurd h.symm (io_ne 'i' (by decide) (by decide))
    | (congr 1
       have := congrArg String.toList h
       simp only [String.toList_append, List.append_cancel_left_eq] at this
       exact String.toList_inj.1 this)

/-- C87: an error made from an I/O error shows the text of that error. -/
theorem C87_io (shown : String) : ∃ pre, (Error.fromIo shown).display = pre ++ shown ∧
    (Error.fromIo shown).description = shown := ⟨_, rfl, rfl⟩

/-- C87: all other errors are described as they are displayed. -/
theorem C87_description (e : Error) (h : ∀ s, e ≠ .io s) : e.description = e.display := by
  cases e <;> first | rfl | exact absurd rfl (h _)

example : (Error.io "invalid buffer length").display ≠ Error.bufferLength.display := by decide

/-! ### C88: `read_to_end`, `read_exact` and `write_all` -/

/-- C88: `read_to_end` returns everything read ahead and leaves nothing, whatever buffers it uses. -/
theorem C88_read_to_end {p p' : MessageProcessor} {bs : List Byte} (h : ReadToEnd p bs p') :
    bs = p.inData ∧ p' = { p with inData := [] } := by
  induction h with
  | @done p p' n hn h =>
    rw [read_ok, Res.ok.injEq, Prod.mk.injEq] at h
    obtain ⟨rfl, h⟩ := h
    have hnil : p.inData = [] := by
      rcases List.take_eq_nil_iff.1 h with h | h
      · omega
      · exact h
    exact ⟨hnil.symm, by rw [hnil, List.drop_nil]⟩
  | more n hn h hb rest ih =>
    rw [read_ok] at h
    cases h
    obtain ⟨h1, h2⟩ := ih
    refine ⟨?_, h2⟩
    rw [h1]
    exact List.take_append_drop _ _

/-- C88: `read_to_end` ends, whatever the sizes of the buffers it uses. -/
theorem C88_read_to_end_ends (size : Nat → Nat) (hs : ∀ k, 0 < size k) (p : MessageProcessor) :
    ∃ bs p', ReadToEnd p bs p' := by
  suffices ∀ (l k : Nat) (p : MessageProcessor), p.inData.length ≤ l →
      ∃ bs p', ReadToEnd p bs p' from this _ 0 p (Nat.le_refl _)
  intro l
  induction l with
  | zero =>
    intro k p hl
    have : p.inData = [] := by simpa using hl
    exact ⟨_, _, .done (size k) (hs k) (by rw [read_ok, this, List.take_nil])⟩
  | succ l ih =>
    intro k p hl
    have hk := hs k
    cases hd : p.inData with
    | nil => exact ⟨_, _, .done (size k) hk (by rw [read_ok, hd, List.take_nil])⟩
    | cons a t =>
      obtain ⟨bs, p', h⟩ := ih (k + 1) { p with inData := p.inData.drop (size k) } (by
        simp only [List.length_drop]; omega)
      refine ⟨_, _, .more (size k) hk (read_ok _ _) ?_ h⟩
      obtain ⟨m, hm⟩ : ∃ m, size k = m + 1 := ⟨size k - 1, by omega⟩
      rw [hd, hm]
      simp

private theorem readExactLoop_eq (fuel : Nat) (p : MessageProcessor) (n : Nat) (acc : List Byte)
    (hf : n < fuel) :
    readExactLoop fuel p n acc = .ok ({ p with inData := p.inData.drop n },
      if n ≤ p.inData.length then some (acc ++ p.inData.take n) else none) := by
  induction fuel generalizing p n acc with
  | zero => omega
  | succ fuel ih =>
    unfold readExactLoop
    by_cases h0 : n = 0
    · subst h0; simp
    · rw [if_neg h0, read_ok, Res.bind_ok]
      simp only
      by_cases he : p.inData = []
      · rw [he, if_pos (by simp), if_neg (by simp; omega)]
      · have hlen : 0 < p.inData.length := List.length_pos_iff.2 he
        rw [if_neg (by
          rw [← List.length_eq_zero_iff, List.length_take]; omega),
          ih _ _ _ (by rw [List.length_take]; omega)]
        simp only [List.length_take, List.length_drop, List.drop_drop, Res.ok.injEq, Prod.mk.injEq]
        by_cases hn : n ≤ p.inData.length
        · refine ⟨by congr 2; omega, ?_⟩
          rw [if_pos (by omega), if_pos hn, show n - min n p.inData.length = 0 by omega]
          simp
        · refine ⟨?_, ?_⟩
          · rw [List.drop_eq_nil_of_le (by omega), List.drop_eq_nil_of_le (by omega)]
          · rw [if_neg (by omega), if_neg hn]

/-- C88: `read_exact` succeeds exactly if enough bytes are read ahead; it then takes the first `n` of
them. If it fails, the bytes that were there are gone. -/
theorem C88_read_exact (p : MessageProcessor) (n : Nat) :
    (n ≤ p.inData.length →
      p.readExact n = .ok ({ p with inData := p.inData.drop n }, some (p.inData.take n))) ∧
    (p.inData.length < n → p.readExact n = .ok ({ p with inData := [] }, none)) := by
  unfold MessageProcessor.readExact
  rw [readExactLoop_eq _ _ _ _ (Nat.lt_succ_self n)]
  constructor
  · intro h
    rw [if_pos h, List.nil_append]
  · intro h
    rw [if_neg (by omega), List.drop_eq_nil_of_le (by omega)]

/-- C88: `write_all` always succeeds and does what a single `write` does. -/
theorem C88_write_all (p : MessageProcessor) (buf : List Byte) :
    p.writeAll buf = ((p.write buf).1, true) := by
  unfold MessageProcessor.writeAll
  cases buf with
  | nil =>
    simp only [List.length_nil, writeAllLoop, List.isEmpty_nil, MessageProcessor.write]
    cases p
    simp [chunks, chunksAux]
  | cons b l =>
    simp only [List.length_cons, writeAllLoop, List.isEmpty_cons, Bool.false_eq_true, if_false]
    rw [show (p.write (b :: l)).2 = (b :: l).length from rfl, if_neg (by simp), List.drop_length]
    cases l.length <;> simp [writeAllLoop]

/-- C88: what these methods and `flush` do to a processor can be done with plain reads and writes, so
everything proved about histories of reads and writes holds of histories with them. -/
theorem C88_plain (p : MessageProcessor) :
    (∀ bs p', ReadToEnd p bs p' → p' = runOps p [.read p.inData.length]) ∧
    (∀ n p' r, p.readExact n = .ok (p', r) → p' = runOps p [.read n]) ∧
    (∀ buf, (p.writeAll buf).1 = runOps p [.write buf]) ∧ p.flush = runOps p [] := by
  refine ⟨?_, ?_, ?_, rfl⟩
  · intro bs p' h
    rw [(C88_read_to_end h).2]
    simp [runOps, Op.apply, read_ok]
  · intro n p' r h
    unfold MessageProcessor.readExact at h
    rw [readExactLoop_eq _ _ _ _ (Nat.lt_succ_self n)] at h
    cases h
    simp [runOps, Op.apply, read_ok]
  · intro buf
    rw [C88_write_all]
    rfl

/-- A processor that has read five bytes ahead. -/
def exAhead : MessageProcessor := { MessageProcessor.new .EightBytes with inData := [1, 2, 3, 4, 5] }

example : ReadToEnd exAhead [1, 2, 3, 4, 5] { exAhead with inData := [] } :=
  .more (b := [1, 2, 3]) 3 (by decide) rfl (by decide)
    (.more (b := [4, 5]) 32 (by decide) rfl (by decide) (.done 32 (by decide) rfl))

example : (exAhead.readExact 2).map (·.2) = .ok (some [1, 2]) ∧
    exAhead.readExact 6 = .ok ({ exAhead with inData := [] }, none) := by decide

example : (exAhead.writeAll [1, 2, 3, 4, 5, 6, 7]).1.outData = [[1, 2, 3, 4, 5, 6], [7]] := by decide

end Ur20
