import Verif.Props.Lost
import Verif.Props.PowerNet
import Verif.Spec.Skipped

/-!
# C146: exactly which received segments are lost if the station may lose power
-/

namespace Ur20

open Spec Com

open scoped List

namespace Spec.PowerSys

/-- The state as if everything that is not buffered or read had never been shown. -/
def forgiven (t : Sys) : Sys := { t with seen := t.delivered ++ t.p.inData }

/-- What holds of the receive direction, with the segments skipped so far, after at most `n` power
failures, since a state in which `d` was delivered and `b` seen. -/
structure SkipInv (d b : List Byte) (n : Nat) (t : Sys) (sh : Option Nat)
    (sk : List (List Byte)) : Prop where
  init : t.p.initState = initStateOf t.cycles
  cnt : t.rxCnt < 4
  early : t.cycles < 2 → t.fresh = true
  shown : 2 ≤ t.cycles → t.p.lastRxCnt = sh.getD 4
  unshown : t.cycles < 2 → sh = .none
  logged : t.fresh = false → t.p.lastRxCnt = t.rxCnt
  pieces : ∃ (l : Pieces) (e : List Byte), t.delivered = d ++ e ∧ t.seen = b ++ l.all ∧
    l.kept = e ++ t.p.inData ∧ l.gone = sk
  credit : (RecInv ⟨forgiven t, sh⟩ ∧ sk.length ≤ n) ∨ sk.length < n

theorem forgiven_seen (t : Sys) (e : Ev) :
    ∃ x, (forgiven t).step e = { t.step e with seen := x } := by
  obtain ⟨p, cycles, out, pending, ack, rxCnt, avail, rxData, wr, re, seen, del, fresh⟩ := t
  cases e with
  | write b => exact ⟨_, rfl⟩
  | read n => simp only [Sys.step, read_ok, forgiven]; exact ⟨_, rfl⟩
  | start nf rdy =>
    cases pending with
    | some r => exact ⟨_, rfl⟩
    | none =>
      by_cases h2 : 2 < cycles + 1 ∧ avail = true ∧ fresh = true
      · refine ⟨del ++ p.inData ++ rxData, ?_⟩
        obtain ⟨k1, rfl, rfl⟩ := h2
        simp only [Sys.step, forgiven, Sys.input, Option.isSome_none, Bool.false_eq_true, if_false,
          k1, and_self, if_true]
      · refine ⟨del ++ p.inData, ?_⟩
        simp only [Sys.step, forgiven, Sys.input, Option.isSome_none, Bool.false_eq_true, if_false,
          h2]
  | finish => cases pending <;> exact ⟨_, rfl⟩
  | take =>
    by_cases h : out.txCnt = (ack + 1) % 4
    · refine ⟨del ++ p.inData, ?_⟩
      simp only [Sys.step, forgiven, h, if_true]
    · refine ⟨del ++ p.inData, ?_⟩
      simp only [Sys.step, forgiven, h, if_false]
  | post seg =>
    by_cases h : out.rxCntAck = rxCnt
    · refine ⟨del ++ p.inData, ?_⟩
      simp only [Sys.step, forgiven, h, if_true]
    · refine ⟨del ++ p.inData, ?_⟩
      simp only [Sys.step, forgiven, h, if_false]
  | hide =>
    by_cases h : out.rxCntAck = rxCnt
    · refine ⟨del ++ p.inData, ?_⟩
      simp only [Sys.step, forgiven, h, if_true]
    · refine ⟨del ++ p.inData, ?_⟩
      simp only [Sys.step, forgiven, h, if_false]
  | restart n =>
    by_cases h : pending = none ∧ out.data = []
    · refine ⟨del ++ p.inData, ?_⟩
      simp only [Sys.step, forgiven, h, and_self, if_true]
    · refine ⟨del ++ p.inData, ?_⟩
      simp only [Sys.step, forgiven, h, if_false]

theorem forgiven_step {t : Sys} {sh : Option Nat} {e : Ev} (h : RecInv ⟨forgiven t, sh⟩) :
    RecInv ⟨forgiven (t.step e), (⟨t, sh⟩ : PowerSys).note (.ev e)⟩ := by
  have h1 := h.ev e
  have hn : (⟨forgiven t, sh⟩ : PowerSys).note (.ev e) = (⟨t, sh⟩ : PowerSys).note (.ev e) := rfl
  obtain ⟨x, hx⟩ := forgiven_seen t e
  simp only [hn] at h1
  rw [hx] at h1
  have hb := h1.bytes
  simp only at hb
  rw [← hb] at h1
  exact h1

/-- All steps but the start of a cycle. -/
theorem SkipInv.quiet {d b : List Byte} {n : Nat} {t : Sys} {sh : Option Nat}
    {sk : List (List Byte)} (h : SkipInv d b n t sh sk) (e : Ev) (he : ∀ nf rdy, e ≠ .start nf rdy) :
    SkipInv d b n (t.step e) sh sk := by
  have hcr : (RecInv ⟨forgiven (t.step e), sh⟩ ∧ sk.length ≤ n) ∨ sk.length < n := by
    rcases h.credit with ⟨h1, h2⟩ | h1
    · refine .inl ⟨?_, h2⟩
      have := forgiven_step (e := e) h1
      cases e <;> first | exact absurd rfl (he _ _) | exact this
    · exact .inr h1
  obtain ⟨l, x, p1, p2, p3, p4⟩ := h.pieces
  cases e with
  | start nf rdy => exact absurd rfl (he _ _)
  | write b => exact ⟨h.init, h.cnt, h.early, h.shown, h.unshown, h.logged, ⟨l, x, p1, p2, p3, p4⟩, hcr⟩
  | read m =>
    simp only [Sys.step, read_ok] at hcr ⊢
    refine ⟨h.init, h.cnt, h.early, h.shown, h.unshown, h.logged,
      ⟨l, x ++ t.p.inData.take m, ?_, p2, ?_, p4⟩, hcr⟩
    · simp only [p1, List.append_assoc]
    · simp only [p3, List.append_assoc, List.take_append_drop]
  | take =>
    simp only [Sys.step] at hcr ⊢
    split at hcr
    · rename_i hg
      rw [if_pos hg]
      exact ⟨h.init, h.cnt, h.early, h.shown, h.unshown, h.logged, ⟨l, x, p1, p2, p3, p4⟩, hcr⟩
    · rename_i hg
      rw [if_neg hg]; exact h
  | restart n =>
    simp only [Sys.step] at hcr ⊢
    split at hcr
    · rename_i hg
      rw [if_pos hg]
      exact ⟨h.init, h.cnt, h.early, h.shown, h.unshown, h.logged, ⟨l, x, p1, p2, p3, p4⟩, hcr⟩
    · rename_i hg
      rw [if_neg hg]; exact h
  | hide =>
    simp only [Sys.step] at hcr ⊢
    split at hcr
    · rename_i hg
      rw [if_pos hg]
      exact ⟨h.init, h.cnt, h.early, h.shown, h.unshown, h.logged, ⟨l, x, p1, p2, p3, p4⟩, hcr⟩
    · rename_i hg
      rw [if_neg hg]; exact h
  | finish =>
    simp only [Sys.step] at hcr ⊢
    cases hp : t.pending with
    | none => exact h
    | some r =>
      rw [hp] at hcr
      exact ⟨h.init, h.cnt, h.early, h.shown, h.unshown, h.logged, ⟨l, x, p1, p2, p3, p4⟩, hcr⟩
  | post seg =>
    simp only [Sys.step] at hcr ⊢
    split at hcr
    · rename_i hg
      rw [if_pos hg]
      exact ⟨h.init, Nat.mod_lt _ (by omega), fun _ => rfl, h.shown, h.unshown, by simp,
        ⟨l, x, p1, p2, p3, p4⟩, hcr⟩
    · rename_i hg
      rw [if_neg hg]; exact h

theorem SkipInv.lost {d b : List Byte} {n : Nat} {t : Sys} {sh : Option Nat}
    {sk : List (List Byte)} (h : SkipInv d b n t sh sk) :
    SkipInv d b n { t with pending := none } sh sk := by
  refine ⟨h.init, h.cnt, h.early, h.shown, h.unshown, h.logged, h.pieces, ?_⟩
  rcases h.credit with ⟨h1, h2⟩ | h1
  · exact .inl ⟨RecInv.run (len := .EightBytes) h1 [.ev .lost] (by
      intro e he; simp at he; subst he; simp) trivial trivial, h2⟩
  · exact .inr h1

theorem SkipInv.power {d b : List Byte} {n : Nat} {t : Sys} {sh : Option Nat}
    {sk : List (List Byte)} (h : SkipInv d b n t sh sk) (len : ProcessDataLength) (a r : Fin 4) :
    SkipInv d b (n + 1) ((⟨t, sh⟩ : PowerSys).step len (.power a r)).sys sh sk := by
  refine ⟨h.init, r.isLt, fun _ => rfl, h.shown, h.unshown, by simp [PowerSys.step], h.pieces, .inr ?_⟩
  rcases h.credit with ⟨-, h2⟩ | h1 <;> omega

/-- The start of a cycle. -/
theorem SkipInv.start {d b : List Byte} {n : Nat} {t : Sys} {sh : Option Nat}
    {sk : List (List Byte)} (h : SkipInv d b n t sh sk) (hp : t.pending = none) (nf rdy : Bool) :
    SkipInv d b n (t.step (.start nf rdy))
      (if 2 < t.cycles + 1 ∧ t.avail = true then some t.rxCnt else sh)
      (sk ++ if 2 < t.cycles + 1 ∧ t.avail = true ∧ t.fresh = true ∧ sh = some t.rxCnt then
        [t.rxData] else []) := by
  have hi := h.init
  have hinit := next_initState t.p (t.input nf rdy) t.out _ hi
  obtain ⟨l, x, p1, p2, p3, p4⟩ := h.pieces
  -- without a skipped segment the credit is as before
  have hcr : (RecInv ⟨forgiven (t.step (.start nf rdy)),
      if 2 < t.cycles + 1 ∧ t.avail = true then some t.rxCnt else sh⟩ ∧ sk.length ≤ n) ∨
      sk.length < n := by
    rcases h.credit with ⟨h1, h2⟩ | h1
    · refine .inl ⟨?_, h2⟩
      have := forgiven_step (e := .start nf rdy) h1
      have e : (2 < t.cycles + 1 ∧ t.avail = true) = (2 ≤ t.cycles ∧ t.avail = true) := by
        rw [Nat.lt_succ_iff]
      simp only [PowerSys.note, hp, true_and] at this
      simp only [e]
      exact this
    · exact .inr h1
  revert hcr
  simp only [Sys.step, hp, Option.isSome_none, Bool.false_eq_true, if_false]
  match hc : t.cycles with
  | 0 =>
    rw [hc] at hi hinit
    have hf := h.early (by omega)
    have hn := h.unshown (by omega)
    rw [if_neg (by simp), if_neg (by simp), if_neg (by simp), List.append_nil]
    intro hcr
    refine ⟨hinit, h.cnt, fun _ => hf, fun (hlt : 2 ≤ 0 + 1) => by omega, fun _ => hn,
      by simp [hf], ⟨l, x, p1, p2, ?_, p4⟩, hcr⟩
    simp only
    rw [next_clear _ _ _ hi]; exact p3
  | 1 =>
    rw [hc] at hi hinit
    have hf := h.early (by omega)
    have hn := h.unshown (by omega)
    rw [if_neg (by simp), if_neg (by simp), if_neg (by simp), List.append_nil]
    intro hcr
    refine ⟨hinit, h.cnt, fun _ => hf, ?_, fun (hlt : 1 + 1 < 2) => by omega,
      by simp [hf], ⟨l, x, p1, p2, ?_, p4⟩, hcr⟩
    · intro _
      simp only
      rw [next_reset _ _ _ hi, hn]; rfl
    · simp only
      rw [next_reset _ _ _ hi]; exact p3
  | m + 2 =>
    rw [hc] at hi hinit
    obtain ⟨g1, g2⟩ := start_rx (s := t) nf rdy hi
    have hsh := h.shown (by omega)
    have hlo := h.logged
    have hc4 := h.cnt
    by_cases hav : t.avail = true
    · simp only [hav, true_and, and_true, show 2 < m + 2 + 1 from by omega, if_true]
      cases hf : t.fresh with
      | true =>
        simp only [true_and, if_true]
        intro hcr
        by_cases heq : sh = some t.rxCnt
        · -- the segment is skipped
          have hl : t.p.lastRxCnt = t.rxCnt := by rw [hsh, heq]; rfl
          rw [if_pos heq]
          have hkey : (t.p.next (t.input nf rdy) t.out).1.inData = t.p.inData := by
            rw [g1, if_neg (by simp [hl])]
          have hlast : (t.p.next (t.input nf rdy) t.out).1.lastRxCnt = t.rxCnt := by
            rw [g2, if_pos hav]
          refine ⟨hinit, h.cnt, fun (hlt : m + 2 + 1 < 2) => by omega, ?_,
            fun (hlt : m + 2 + 1 < 2) => by omega, fun _ => hlast,
            ⟨l ++ [(t.rxData, false)], x, p1, ?_, ?_, ?_⟩, ?_⟩
          · intro _; exact hlast
          · simp only [p2, Pieces.all_append, List.append_assoc]
            simp [Pieces.all]
          · simp only [Pieces.kept_append, hkey, p3]
            simp [Pieces.kept]
          · simp only [Pieces.gone_append, p4]
            simp [Pieces.gone]
          · -- the credit is used up
            have hlt : sk.length < n := by
              rcases hcr with ⟨-, h2⟩ | h1
              · rcases h.credit with ⟨k1, k2⟩ | k1
                · exfalso
                  have := k1.unlogged (by simp only [forgiven]; omega) (by simpa [forgiven] using hf)
                  simp only [forgiven, hl, hav, ne_eq, not_true_eq_false, false_and,
                    Bool.true_eq_false, or_false] at this
                  omega
                · exact k1
              · exact h1
            refine .inl ⟨⟨hinit, h.cnt, rfl, fun (hlt : m + 2 + 1 < 2) => by omega, fun _ => hlast,
              fun (hlt : m + 2 + 1 < 2) => by omega, fun _ => hlast, by simp [forgiven], ?_⟩, ?_⟩
            · intro r hr
              simp only [forgiven, Option.some.injEq] at hr
              subst hr
              exact .inl rfl
            · simp only [List.length_append, List.length_singleton]; omega
        · rw [if_neg heq, List.append_nil]
          have hne : t.p.lastRxCnt ≠ t.rxCnt := by
            rw [hsh]
            cases sh with
            | none => simp only [Option.getD_none]; omega
            | some v => simp only [Option.getD_some]; intro hv; exact heq (by rw [hv])
          have hkey : (t.p.next (t.input nf rdy) t.out).1.inData = t.p.inData ++ t.rxData := by
            rw [g1, if_pos ⟨hav, hne⟩]
          have hlast : (t.p.next (t.input nf rdy) t.out).1.lastRxCnt = t.rxCnt := by
            rw [g2, if_pos hav]
          refine ⟨hinit, h.cnt, fun (hlt : m + 2 + 1 < 2) => by omega, ?_,
            fun (hlt : m + 2 + 1 < 2) => by omega, fun _ => hlast,
            ⟨l ++ [(t.rxData, true)], x, p1, ?_, ?_, ?_⟩, hcr⟩
          · intro _; exact hlast
          · simp only [p2, Pieces.all_append, List.append_assoc]
            simp [Pieces.all]
          · simp only [Pieces.kept_append, hkey, p3]
            simp [Pieces.kept]
          · simp only [Pieces.gone_append, p4]
            simp [Pieces.gone]
      | false =>
        simp only [false_and, Bool.false_eq_true, if_false, List.append_nil]
        intro hcr
        have hl := hlo hf
        have hlast : (t.p.next (t.input nf rdy) t.out).1.lastRxCnt = t.rxCnt := by
          rw [g2, if_pos hav]
        refine ⟨hinit, h.cnt, fun (hlt : m + 2 + 1 < 2) => by omega, ?_,
          fun (hlt : m + 2 + 1 < 2) => by omega, fun _ => hlast, ⟨l, x, p1, p2, ?_, p4⟩, hcr⟩
        · intro _; exact hlast
        · simp only [g1, hl, ne_eq, not_true_eq_false, and_false, if_false]
          exact p3
    · simp only [hav, false_and, and_false, if_false, List.append_nil, Bool.false_eq_true]
      intro hcr
      refine ⟨hinit, h.cnt, fun (hlt : m + 2 + 1 < 2) => by omega, ?_,
        fun (hlt : m + 2 + 1 < 2) => by omega, ?_, ⟨l, x, p1, p2, ?_, p4⟩, hcr⟩
      · intro _
        simp only [g2, hav]
        exact hsh
      · intro hf
        simp only [g2, hav]
        exact hlo hf
      · simp only [g1, hav]
        simpa using p3

/-- A schedule of the closed system in which no cycle starts. -/
theorem SkipInv.silent {d b : List Byte} {n : Nat} {len : ProcessDataLength} {t : Sys}
    {sh : Option Nat} {sk : List (List Byte)} (h : SkipInv d b n t sh sk) (evs : List UEv)
    (hc : NoCrash evs) : t.cycles ≤ (t.urun len evs).cycles ∧
      ((t.urun len evs).cycles = t.cycles → SkipInv d b n (t.urun len evs) sh sk) := by
  have key : ∀ (l : List UEv), NoCrash l → t.cycles ≤ (t.urun len l).cycles ∧
      ∃ sh' sk', SkipInv d b n (t.urun len l) sh' sk' ∧
        ((t.urun len l).cycles = t.cycles → sh' = sh ∧ sk' = sk) := by
    intro l
    induction l using List.reverseRecOn with
    | nil => intro _; exact ⟨Nat.le_refl _, sh, sk, h, fun _ => ⟨rfl, rfl⟩⟩
    | append_singleton l x ih =>
      intro hl
      obtain ⟨h1, sh', sk', h2, h3⟩ := ih fun e he => hl e (List.mem_append_left _ he)
      have hu : t.urun len (l ++ [x]) = (t.urun len l).ustep len x := by
        simp [Sys.urun, List.foldl_append]
      rw [hu]
      generalize t.urun len l = u at h1 h2 h3
      cases x with
      | crash => exact absurd rfl (hl .crash (by simp))
      | lost => exact ⟨h1, sh', sk', h2.lost, h3⟩
      | ev e =>
        by_cases hs : ∃ nf rdy, e = .start nf rdy
        · obtain ⟨nf, rdy, rfl⟩ := hs
          by_cases hp : u.pending = none
          · have hcy : (u.ustep len (.ev (.start nf rdy))).cycles = u.cycles + 1 := by
              simp only [Sys.ustep, Sys.step, hp, Option.isSome_none, Bool.false_eq_true, if_false]
              split <;> rfl
            exact ⟨by omega, _, _, h2.start hp nf rdy, fun h => by omega⟩
          · have hst : u.ustep len (.ev (.start nf rdy)) = u := by
              simp only [Sys.ustep, Sys.step]
              rw [if_pos (by cases hq : u.pending <;> simp_all)]
            rw [hst]
            exact ⟨h1, sh', sk', h2, h3⟩
        · have hcy : (u.ustep len (.ev e)).cycles = u.cycles := by
            cases e with
            | start nf rdy => exact absurd ⟨nf, rdy, rfl⟩ hs
            | write b => rfl
            | read n => simp only [Sys.ustep, Sys.step, read_ok]
            | finish => simp only [Sys.ustep, Sys.step]; split <;> rfl
            | take => simp only [Sys.ustep, Sys.step]; split <;> rfl
            | post seg => simp only [Sys.ustep, Sys.step]; split <;> rfl
            | hide => simp only [Sys.ustep, Sys.step]; split <;> rfl
            | restart n => simp only [Sys.ustep, Sys.step]; split <;> rfl
          exact ⟨by omega, sh', sk', h2.quiet e (fun nf rdy he => hs ⟨nf, rdy, he⟩),
            fun h => h3 (by omega)⟩
  obtain ⟨h1, sh', sk', h2, h3⟩ := key evs hc
  exact ⟨h1, fun h => by obtain ⟨rfl, rfl⟩ := h3 h; exact h2⟩

/-- A cycle, after the processor has been fed. -/
theorem SkipInv.fed {d b : List Byte} {n : Nat} {t : Sys} {sh : Option Nat}
    {sk : List (List Byte)} (h : SkipInv d b n t sh sk) (v : Option ChannelValue)
    (hp : t.pending = none) (nf rdy : Bool) :
    ((t.run (Sending.feedEvs v)).step (.start nf rdy)).cycles = t.cycles + 1 ∧
    SkipInv d b n ((t.run (Sending.feedEvs v)).step (.start nf rdy))
      (if 2 < t.cycles + 1 ∧ t.avail = true then some t.rxCnt else sh)
      (sk ++ if 2 < t.cycles + 1 ∧ t.avail = true ∧ t.fresh = true ∧ sh = some t.rxCnt then
        [t.rxData] else []) := by
  have h1 : SkipInv d b n (t.run (Sending.feedEvs v)) sh sk := by
    cases v with
    | none => exact h
    | some v => cases v <;> first | exact h | exact h.quiet (.write _) (by simp)
  have h2 := Sending.feed_run t v
  rw [h2] at h1 ⊢
  refine ⟨?_, h1.start hp nf rdy⟩
  simp only [Sys.step, hp, Option.isSome_none, Bool.false_eq_true, if_false]
  split <;> rfl

end Spec.PowerSys

namespace Spec.PowerNet

open PowerSys

/-- Every step but a crash, with the segments skipped. -/
theorem skip_step {oc : Bool} {cfg : CouplerConfig} {w : Wiring} {j : Nat} (hj : j ∈ w.modules)
    {c0 : Coupler} (h0 : Coupler.new cfg = .ok c0)
    (hs0 : SerialAt c0 j (w.wire j).len (w.wire j).oi (w.wire j).oo)
    (hd0 : BytesKept (infos c0) j) {s : PowerNet} {t : Sys}
    (h : Sending.QSim oc cfg j (w.wire j).len (w.wire j).oi (w.wire j).oo (s.net.at_ j) t)
    {d b : List Byte} {n : Nat} {sk : List (List Byte)}
    (hr : SkipInv d b n t (s.shown j) sk) (e : NEv) (he : e ≠ .crash) :
    ∃ t', Sending.QSim oc cfg j (w.wire j).len (w.wire j).oi (w.wire j).oo
        ((s.step oc cfg w (.ev e)).net.at_ j) t' ∧
      SkipInv d b n t' ((s.step oc cfg w (.ev e)).shown j)
        (sk ++ s.skippedIn oc cfg w j (.ev e)) := by
  -- what is noted, from the states of the closed system
  have hnote : ∀ t' : Sys, Sending.QSim oc cfg j (w.wire j).len (w.wire j).oi (w.wire j).oo
        ((s.step oc cfg w (.ev e)).net.at_ j) t' →
      (s.step oc cfg w (.ev e)).shown j =
        (if t'.cycles = t.cycles + 1 ∧ 2 < t'.cycles ∧ t.avail = true then some t.rxCnt
        else s.shown j) ∧
      s.skippedIn oc cfg w j (.ev e) =
        if t'.cycles = t.cycles + 1 ∧ 2 < t'.cycles ∧ t.avail = true ∧ t.fresh = true ∧
          s.shown j = some t.rxCnt then [t.rxData] else [] := by
    intro t' h'
    have e1 : t'.cycles = (s.net.step oc cfg w e).cycles := h'.sim.cycles
    have e2 : t.cycles = s.net.cycles := h.sim.cycles
    have e3 : t.avail = (s.net.line j).avail := h.sim.avail
    have e4 : t.rxCnt = (s.net.line j).rxCnt := h.sim.rxCnt
    have e5 : t.rxData = (s.net.line j).rxData := h.sim.rxData
    have e6 : t.fresh = (s.net.line j).fresh := h.sim.fresh
    rw [e1, e2, e3, e4, e5, e6]
    cases e <;> first | exact absurd rfl he | exact ⟨rfl, rfl⟩
  suffices H : ∃ t', Sending.QSim oc cfg j (w.wire j).len (w.wire j).oi (w.wire j).oo
        ((s.step oc cfg w (.ev e)).net.at_ j) t' ∧
      SkipInv d b n t' (if t'.cycles = t.cycles + 1 ∧ 2 < t'.cycles ∧ t.avail = true then
          some t.rxCnt else s.shown j)
        (sk ++ if t'.cycles = t.cycles + 1 ∧ 2 < t'.cycles ∧ t.avail = true ∧ t.fresh = true ∧
          s.shown j = some t.rxCnt then [t.rxData] else []) by
    obtain ⟨t', g1, g2⟩ := H
    exact ⟨t', g1, by rw [(hnote t' g1).1, (hnote t' g1).2]; exact g2⟩
  have quiet : ∀ t' : Sys, t'.cycles = t.cycles → SkipInv d b n t' (s.shown j) sk →
      SkipInv d b n t' (if t'.cycles = t.cycles + 1 ∧ 2 < t'.cycles ∧ t.avail = true then
          some t.rxCnt else s.shown j)
        (sk ++ if t'.cycles = t.cycles + 1 ∧ 2 < t'.cycles ∧ t.avail = true ∧ t.fresh = true ∧
          s.shown j = some t.rxCnt then [t.rxData] else []) := by
    intro t' hc hq
    rw [if_neg (by omega), if_neg (by omega), List.append_nil]
    exact hq
  have loud : ∀ t' : Sys, t'.cycles = t.cycles + 1 →
      SkipInv d b n t' (if 2 < t.cycles + 1 ∧ t.avail = true then some t.rxCnt else s.shown j)
        (sk ++ if 2 < t.cycles + 1 ∧ t.avail = true ∧ t.fresh = true ∧
          s.shown j = some t.rxCnt then [t.rxData] else []) →
      SkipInv d b n t' (if t'.cycles = t.cycles + 1 ∧ 2 < t'.cycles ∧ t.avail = true then
          some t.rxCnt else s.shown j)
        (sk ++ if t'.cycles = t.cycles + 1 ∧ 2 < t'.cycles ∧ t.avail = true ∧ t.fresh = true ∧
          s.shown j = some t.rxCnt then [t.rxData] else []) := by
    intro t' hc hq
    simp only [hc, true_and]
    exact hq
  show ∃ t', Sending.QSim oc cfg j (w.wire j).len (w.wire j).oi (w.wire j).oo
        ((s.net.step oc cfg w e).at_ j) t' ∧ _
  rcases Net.step_at (oc := oc) (cfg := cfg) hj s.net e with h1 | ⟨e', h1, hcr, -⟩
  · rw [h1]
    exact ⟨t, h, quiet t rfl hr⟩
  · rw [h1]
    have hcr := hcr he
    have hsil : ∀ evs : List UEv, NoCrash evs →
        Sending.QSim oc cfg j (w.wire j).len (w.wire j).oi (w.wire j).oo
          ((s.net.at_ j).step oc cfg j (w.wire j).len (w.wire j).oi (w.wire j).oo e')
          (t.urun (w.wire j).len evs) →
        ((s.net.at_ j).step oc cfg j (w.wire j).len (w.wire j).oi (w.wire j).oo e').plant.cycles =
          (s.net.at_ j).plant.cycles →
        ∃ t', Sending.QSim oc cfg j (w.wire j).len (w.wire j).oi (w.wire j).oo
          ((s.net.at_ j).step oc cfg j (w.wire j).len (w.wire j).oi (w.wire j).oo e') t' ∧
        SkipInv d b n t' (if t'.cycles = t.cycles + 1 ∧ 2 < t'.cycles ∧ t.avail = true then
            some t.rxCnt else s.shown j)
          (sk ++ if t'.cycles = t.cycles + 1 ∧ 2 < t'.cycles ∧ t.avail = true ∧ t.fresh = true ∧
            s.shown j = some t.rxCnt then [t.rxData] else []) := by
      intro evs hnc hq hcy
      have k1 : (t.urun (w.wire j).len evs).cycles = t.cycles := by
        rw [hq.sim.cycles, h.sim.cycles]; exact hcy
      exact ⟨_, hq, quiet _ k1 ((hr.silent evs hnc).2 k1)⟩
    obtain ⟨evs, h2, h3, -⟩ := h.step h0 hs0 hd0 e'
    have hcy : (∀ pi, e' ≠ .ev (.ev (.start pi))) → (∀ pi, e' ≠ .ev (.failing pi)) →
        ((s.net.at_ j).step oc cfg j (w.wire j).len (w.wire j).oi (w.wire j).oo e').plant.cycles =
          (s.net.at_ j).plant.cycles := by
      intro n1 n2
      cases e' with
      | set v => rfl
      | ev e' =>
        cases e' with
        | crash => exact absurd rfl hcr
        | failing pi => exact absurd rfl (n2 pi)
        | lost => simp [Sending.step, Plant.ustep]
        | ev e' =>
          have := (Plant.step_cleared (oc := oc) (j := j) (len := (w.wire j).len)
            (oi := (w.wire j).oi) (oo := (w.wire j).oo) (s.net.at_ j).plant e'
            (fun pi hp => n1 pi (by rw [hp]))).2.2
          rw [Net.sending_ev _ _ this]
          exact this
    by_cases n1 : ∃ pi, e' = .ev (.ev (.start pi))
    · obtain ⟨pi, rfl⟩ := n1
      rcases Sending.start_cases oc j (w.wire j).len (w.wire j).oi (w.wire j).oo
        (s.net.at_ j).plant pi with hst | ⟨f, c', img, hp, hf, hn, hpr⟩
      · refine hsil evs (h3 hcr) h2 ?_
        simp only [Sending.step, Plant.ustep, hst]
        rw [if_neg (by omega)]
      · obtain ⟨q1, -⟩ := h.start hp hf hpr hn
        obtain ⟨k1, k2⟩ := hr.fed (s.net.at_ j).waiting (sim_pending h hp)
          f.bufferNearlyFull f.ready
        exact ⟨_, q1, loud _ k1 k2⟩
    · by_cases n2 : ∃ pi, e' = .ev (.failing pi)
      · obtain ⟨pi, rfl⟩ := n2
        obtain ⟨evs', q1, q2, -, q4⟩ := h.failing pi
        rcases q4 with rfl | ⟨nf, rdy, rfl⟩
        · exact ⟨t, q1, quiet t rfl hr⟩
        · by_cases hp : s.net.pending = none
          · obtain ⟨k1, k2⟩ := hr.fed (s.net.at_ j).waiting (sim_pending h hp) nf rdy
            have hu : t.urun (w.wire j).len ((Sending.feedEvs (s.net.at_ j).waiting).map .ev ++
                [.ev (.start nf rdy), .lost]) =
                ((t.run (Sending.feedEvs (s.net.at_ j).waiting)).step (.start nf rdy)).ustep
                  (w.wire j).len .lost := by
              rw [urun_append, run_urun]; rfl
            rw [hu] at q1
            exact ⟨_, q1, loud _ k1 k2.lost⟩
          · refine hsil evs (h3 hcr) h2 ?_
            have hst : (s.net.at_ j).plant.ustep oc cfg j (w.wire j).len (w.wire j).oi (w.wire j).oo
                (.failing pi) = (s.net.at_ j).plant := by
              obtain ⟨x, hx⟩ := Option.ne_none_iff_exists'.1 hp
              have hx : (s.net.at_ j).plant.pending = some x := hx
              simp only [Plant.ustep, hx]
            simp only [Sending.step, hst]
            rw [if_neg (by omega)]
      · exact hsil evs (h3 hcr) h2 (hcy (fun pi hp => n1 ⟨pi, hp⟩) (fun pi hp => n2 ⟨pi, hp⟩))

theorem skip_run {oc : Bool} {cfg : CouplerConfig} {w : Wiring} {j : Nat} (hj : j ∈ w.modules)
    {c0 : Coupler} (h0 : Coupler.new cfg = .ok c0)
    (hs0 : SerialAt c0 j (w.wire j).len (w.wire j).oi (w.wire j).oo)
    (hd0 : BytesKept (infos c0) j) (s : PowerNet) {t : Sys}
    (h : Sending.QSim oc cfg j (w.wire j).len (w.wire j).oi (w.wire j).oo (s.net.at_ j) t)
    {d b : List Byte} {n : Nat} {sk : List (List Byte)}
    (hr : SkipInv d b n t (s.shown j) sk) (evs : List StationEv) (hc : KeepsGoing evs) :
    ∃ t', Sending.QSim oc cfg j (w.wire j).len (w.wire j).oi (w.wire j).oo
        ((s.run oc cfg w evs).net.at_ j) t' ∧
      SkipInv d b (n + powerFailures evs) t' ((s.run oc cfg w evs).shown j)
        (sk ++ s.skipped oc cfg w j evs) := by
  induction evs generalizing s t n sk with
  | nil => exact ⟨t, h, by simp only [skipped, powerFailures, List.append_nil]; exact hr⟩
  | cons e evs ih =>
    have hc' : KeepsGoing evs := fun e he => hc e (List.mem_cons_of_mem _ he)
    cases e with
    | ev e =>
      obtain ⟨t', g1, g2⟩ := skip_step hj h0 hs0 hd0 h hr e (by
        rintro rfl; exact hc (.ev .crash) (by simp) rfl)
      have := ih (s.step oc cfg w (.ev e)) g1 g2 hc'
      rw [List.append_assoc] at this
      exact this
    | power a r =>
      have := ih (s.step oc cfg w (.power a r)) (sim_power (s.shown j) h a r)
        (hr.power (w.wire j).len (a j) (r j)) hc'
      have e1 : n + 1 + powerFailures evs = n + powerFailures (.power a r :: evs) := by
        simp only [powerFailures]; omega
      rw [e1] at this
      exact this

/-- The closed system of a module after a restart of the application. -/
theorem skip_restarted {oc : Bool} {cfg : CouplerConfig} {w : Wiring} {s : Net} {j : Nat} {t : Sys}
    (h : Sending.QSim oc cfg j (w.wire j).len (w.wire j).oi (w.wire j).oo (s.at_ j) t)
    (hc : t.rxCnt < 4) (hp : t.p = MessageProcessor.new (w.wire j).len) (hz : s.cycles = 0)
    (hf : (s.line j).fresh = true) (hn : s.pending = none) :
    SkipInv (s.line j).delivered (s.line j).seen 0 t none [] := by
  have e1 : t.cycles = 0 := h.sim.cycles.trans hz
  have e2 : t.fresh = true := h.sim.fresh.trans hf
  have e3 : t.delivered = (s.line j).delivered := h.sim.delivered
  have e4 : t.seen = (s.line j).seen := h.sim.seen
  refine ⟨by rw [hp, e1]; rfl, hc, fun _ => e2, by omega, fun _ => rfl, by simp [e2],
    ⟨[], [], by simp [e3], by simp [e4, Pieces.all], by simp [Pieces.kept, hp, MessageProcessor.new],
      rfl⟩, .inl ⟨⟨by simp only [forgiven]; rw [hp, e1]; rfl, hc, rfl, fun _ => e2, ?_, fun _ => rfl,
        ?_, ?_, ?_⟩, by simp⟩⟩
  · simp only [forgiven]; omega
  · simp [forgiven, e2]
  · simp only [forgiven]; omega
  · simp only [forgiven]
    rw [sim_pending h hn]
    simp

/-- The closed system of a module after any schedule. -/
theorem rx_run {oc : Bool} {cfg : CouplerConfig} {w : Wiring} {j : Nat} (hj : j ∈ w.modules)
    {c0 : Coupler} (h0 : Coupler.new cfg = .ok c0)
    (hs0 : SerialAt c0 j (w.wire j).len (w.wire j).oi (w.wire j).oo)
    (hd0 : BytesKept (infos c0) j) (s : PowerNet) {t : Sys}
    (h : Sending.QSim oc cfg j (w.wire j).len (w.wire j).oi (w.wire j).oo (s.net.at_ j) t)
    (hr : t.rxCnt < 4) (evs : List StationEv) :
    ∃ t', Sending.QSim oc cfg j (w.wire j).len (w.wire j).oi (w.wire j).oo
        ((s.run oc cfg w evs).net.at_ j) t' ∧ t'.rxCnt < 4 := by
  induction evs generalizing s t with
  | nil => exact ⟨t, h, hr⟩
  | cons e evs ih =>
    cases e with
    | ev e =>
      obtain ⟨tevs, h1⟩ := sim_step hj h0 hs0 hd0 h e
      refine ih (s.step oc cfg w (.ev e)) h1 ?_
      clear h1
      induction tevs using List.reverseRecOn with
      | nil => exact hr
      | append_singleton l x ih =>
        have hu : t.urun (w.wire j).len (l ++ [x]) =
            (t.urun (w.wire j).len l).ustep (w.wire j).len x := by
          simp [Sys.urun, List.foldl_append]
        rw [hu]
        generalize t.urun (w.wire j).len l = u at ih
        cases x with
        | crash => exact ih
        | lost => exact ih
        | ev e =>
          cases e with
          | write b => exact ih
          | read n => simp only [Sys.ustep, Sys.step, read_ok]; exact ih
          | start nf rdy =>
            simp only [Sys.ustep, Sys.step]
            split
            · exact ih
            · split <;> exact ih
          | finish => simp only [Sys.ustep, Sys.step]; split <;> exact ih
          | take => simp only [Sys.ustep, Sys.step]; split <;> exact ih
          | post seg =>
            simp only [Sys.ustep, Sys.step]
            split
            · exact Nat.mod_lt _ (by omega)
            · exact ih
          | hide => simp only [Sys.ustep, Sys.step]; split <;> exact ih
          | restart n => simp only [Sys.ustep, Sys.step]; split <;> exact ih
    | power a r =>
      exact ih (s.step oc cfg w (.power a r)) (sim_power none h a r) (r j).isLt

end Spec.PowerNet

/-- C146: as long as the application does not crash, whenever the power fails, whatever cycles fail
and whatever images are lost: what the device of a module has shown divides into pieces in this
order. Those that are kept are what has been read and what is buffered; those that are not kept are
the segments whose number is that of the last segment shown before them. There are not more of these
than power failures. -/
theorem C146_exact (oc : Bool) (cfg : CouplerConfig) (w : Wiring) (s : Net) (h : s.Initial cfg w)
    (evs : List StationEv) (hc : KeepsGoing evs) (j : Nat) (hj : j ∈ w.modules) :
    let r := ((⟨s, fun _ => none⟩ : PowerNet).run oc cfg w evs).net
    let lost := (⟨s, fun _ => none⟩ : PowerNet).skipped oc cfg w j evs
    (∃ l : Pieces, l.all = (r.line j).seen ∧ l.kept = (r.line j).delivered ++ r.buffered j ∧
      l.gone = lost) ∧
    lost.length ≤ powerFailures evs := by
  obtain ⟨t, h1, h2⟩ := PowerNet.initial_sim (oc := oc) h hj
  have hl := h.logs j hj
  have h3 := PowerNet.skip_restarted h2 h1.rxCnt h1.p h.cycles hl.2.2.2.2.1 h.pending
  rw [hl.2.2.1, hl.2.2.2.1] at h3
  obtain ⟨t', g1, g2⟩ := PowerNet.skip_run hj h.c (h.serial j hj) (h.disjoint j hj)
    ⟨s, fun _ => none⟩ h2 h3 evs hc
  have hb : ((((⟨s, fun _ => none⟩ : PowerNet).run oc cfg w evs).net)).buffered j = t'.p.inData := by
    have := g1.sim.proc
    simp only [Plant.cleared, Net.at_] at this
    unfold Net.buffered
    rw [this]
  have e1 := g1.sim.delivered
  have e2 := g1.sim.seen
  simp only [Plant.cleared, Net.at_] at e1 e2
  obtain ⟨l, x, p1, p2, p3, p4⟩ := g2.pieces
  simp only
  rw [hb, ← e1, ← e2]
  rw [List.nil_append] at p1 p2 p4
  refine ⟨⟨l, p2.symm, by rw [p1]; exact p3, p4⟩, ?_⟩
  have := g2.credit
  rw [List.nil_append, Nat.zero_add] at this
  rcases this with ⟨-, h1⟩ | h1 <;> omega

/-- C146: the same since the last restart of the application, wherever it crashed before. -/
theorem C146_since_restart (oc : Bool) (cfg : CouplerConfig) (w : Wiring) (s : Net)
    (h : s.Initial cfg w) (evs evs' : List StationEv) (hc : KeepsGoing evs') (j : Nat)
    (hj : j ∈ w.modules) :
    let p := (⟨s, fun _ => none⟩ : PowerNet).run oc cfg w (evs ++ [.ev .crash])
    let r := (p.run oc cfg w evs').net
    let lost := p.skipped oc cfg w j evs'
    (∃ (l : Pieces) (read : List Byte), (r.line j).delivered = (p.net.line j).delivered ++ read ∧
      (r.line j).seen = (p.net.line j).seen ++ l.all ∧ l.kept = read ++ r.buffered j ∧
      l.gone = lost) ∧
    lost.length ≤ powerFailures evs' := by
  obtain ⟨t, h1, h2⟩ := PowerNet.initial_sim (oc := oc) h hj
  obtain ⟨u, u1, u2⟩ := PowerNet.rx_run hj h.c (h.serial j hj) (h.disjoint j hj)
    ⟨s, fun _ => none⟩ h2 h1.rxCnt evs
  have ea : (⟨s, fun _ => none⟩ : PowerNet).run oc cfg w (evs ++ [.ev .crash]) =
      ((⟨s, fun _ => none⟩ : PowerNet).run oc cfg w evs).step oc cfg w (.ev .crash) := by
    simp [PowerNet.run, List.foldl_append]
  simp only
  rw [ea]
  generalize (⟨s, fun _ => none⟩ : PowerNet).run oc cfg w evs = q at u1
  have hcr := u1.crash h.c (h.serial j hj) (h.disjoint j hj)
  have hst : (q.net.at_ j).step oc cfg j (w.wire j).len (w.wire j).oi (w.wire j).oo (.ev .crash) =
      (q.step oc cfg w (.ev .crash)).net.at_ j := by
    simp [PowerNet.step, Net.step, Net.at_, Sending.step, Plant.ustep, h.c]
  rw [hst] at hcr
  have h3 := PowerNet.skip_restarted hcr u2 rfl (by simp [PowerNet.step, Net.step, h.c])
    (by simp [PowerNet.step, Net.step, h.c]) (by simp [PowerNet.step, Net.step, h.c])
  obtain ⟨t', g1, g2⟩ := PowerNet.skip_run hj h.c (h.serial j hj) (h.disjoint j hj)
    (q.step oc cfg w (.ev .crash)) hcr h3 evs' hc
  have hb : (((q.step oc cfg w (.ev .crash)).run oc cfg w evs').net).buffered j = t'.p.inData := by
    have := g1.sim.proc
    simp only [Plant.cleared, Net.at_] at this
    unfold Net.buffered
    rw [this]
  have e1 := g1.sim.delivered
  have e2 := g1.sim.seen
  simp only [Plant.cleared, Net.at_] at e1 e2
  obtain ⟨l, x, p1, p2, p3, p4⟩ := g2.pieces
  rw [hb, ← e1, ← e2]
  rw [List.nil_append] at p4
  refine ⟨⟨l, x, p1, p2, p3, p4⟩, ?_⟩
  have := g2.credit
  rw [List.nil_append, Nat.zero_add] at this
  rcases this with ⟨-, h1⟩ | h1 <;> omega

/-- As the example of C124, but the first segment of the second device after the power failure has
the number of the last one shown before; the one after it has the next number. -/
def exSkipEvs : List StationEv :=
  [.ev (.start (List.replicate 8 0#16)), .ev .finish, .ev (.start (List.replicate 8 0#16)),
   .ev .finish, .ev (.post 2 [0x41#8]),
   .ev (.start [0#16, 0#16, 0#16, 0#16, 0x0109#16, 0x0041#16, 0#16, 0#16]), .ev .finish,
   .power (fun _ => 2) (fun _ => 0),
   .ev (.start [0x0040#16, 0#16, 0#16, 0#16, 0x0040#16, 0#16, 0#16, 0#16]), .ev .finish,
   .ev (.post 2 [0x42#8]),
   .ev (.start [0x0040#16, 0#16, 0#16, 0#16, 0x0149#16, 0x0042#16, 0#16, 0#16]), .ev .finish,
   .ev (.post 2 [0x43#8]),
   .ev (.start [0x0040#16, 0#16, 0#16, 0#16, 0x0151#16, 0x0043#16, 0#16, 0#16]), .ev .finish]

/-- The second segment is lost, the others are received. -/
example : (⟨exNet, fun _ => none⟩ : PowerNet).skipped true exDuo exWires 2 exSkipEvs = [[0x42#8]] ∧
    (((⟨exNet, fun _ => none⟩ : PowerNet).run true exDuo exWires exSkipEvs).net.line 2).seen =
      [0x41#8, 0x42#8, 0x43#8] ∧
    ((⟨exNet, fun _ => none⟩ : PowerNet).run true exDuo exWires exSkipEvs).net.buffered 2 =
      [0x41#8, 0x43#8] ∧ powerFailures exSkipEvs = 1 := by
  simp only [exSkipEvs, PowerNet.skipped, PowerNet.skippedIn]
  decide +kernel

example := C146_exact true exDuo exWires exNet exNet_initial exSkipEvs
  (by intro e he; rintro rfl; simp [exSkipEvs] at he) 2 (by decide)

example := C146_since_restart true exDuo exWires exNet exNet_initial exSkipEvs exSkipEvs
  (by intro e he; rintro rfl; simp [exSkipEvs] at he) 2 (by decide)

end Ur20
