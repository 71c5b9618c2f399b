import Verif.Props.LostPower
import Verif.Spec.Repeats

/-!
# C147: what a device takes over more than once if the station may lose power
-/

namespace Ur20

open Spec Com Coupler
open scoped List

namespace Spec

namespace Repeated

theorem all_append (a b : Repeated) : Repeated.all (a ++ b) = Repeated.all a ++ Repeated.all b := by
  simp [Repeated.all]

theorem once_append (a b : Repeated) :
    Repeated.once (a ++ b) = Repeated.once a ++ Repeated.once b := by
  simp [Repeated.once]

theorem repeats_append (a b : Repeated) :
    Repeated.repeats (a ++ b) = Repeated.repeats a + Repeated.repeats b := by
  simp [Repeated.repeats]

theorem all_length (l : Repeated) {n : Nat} (h : ∀ p ∈ l, p.1.length ≤ n) :
    (Repeated.all l).length ≤ (Repeated.once l).length + n * Repeated.repeats l := by
  induction l with
  | nil => simp [Repeated.all]
  | cons p l ih =>
    have h1 := ih fun q hq => h q (List.mem_cons_of_mem _ hq)
    have h2 : p.1.length * p.2 ≤ n * p.2 := Nat.mul_le_mul_right _ (h p List.mem_cons_self)
    have h3 : ∀ k, ((List.replicate k p.1).flatten).length = p.1.length * k := by
      intro k
      induction k with
      | zero => rfl
      | succ k ih => rw [List.replicate_succ, List.flatten_cons, List.length_append, ih,
          Nat.mul_succ, Nat.add_comm]
    simp only [Repeated.all, Repeated.once, Repeated.repeats, List.map_cons, List.flatten_cons,
      List.length_append, List.sum_cons, h3, Nat.mul_add, Nat.mul_one] at h1 ⊢
    omega

/-- One more segment `d`, a new one or a repetition of the last one. -/
inductive Ext (l : Repeated) (d : List Byte) : Repeated → Prop
  | new : Ext l d (l ++ [(d, 0)])
  | again (l0 : Repeated) (k : Nat) (h : l = l0 ++ [(d, k)]) : Ext l d (l0 ++ [(d, k + 1)])

theorem Ext.all {l l' : Repeated} {d : List Byte} (h : Ext l d l') :
    Repeated.all l' = Repeated.all l ++ d := by
  cases h with
  | new => simp [Repeated.all]
  | again l0 k h =>
    subst h
    rw [all_append, all_append, List.append_assoc]
    simp only [Repeated.all, List.map_cons, List.map_nil, List.flatten_cons, List.flatten_nil,
      List.append_nil]
    rw [List.replicate_succ' (n := k + 1), List.flatten_append]
    simp

theorem Ext.once_le {l l' : Repeated} {d : List Byte} (h : Ext l d l') :
    Repeated.once l <+ Repeated.once l' := by
  cases h with
  | new => rw [once_append]; exact List.sublist_append_left _ _
  | again l0 k h =>
    subst h
    rw [once_append, once_append]
    simp [Repeated.once]

theorem Ext.repeats_le {l l' : Repeated} {d : List Byte} (h : Ext l d l') :
    Repeated.repeats l' ≤ Repeated.repeats l + 1 := by
  cases h with
  | new => simp [Repeated.repeats]
  | again l0 k h =>
    subst h
    rw [repeats_append, repeats_append]
    simp [Repeated.repeats]
    omega

/-- The segment added last can be repeated. -/
theorem Ext.bump {l l' : Repeated} {d : List Byte} (h : Ext l d l') :
    ∃ l'', Ext l' d l'' ∧ Repeated.once l'' = Repeated.once l' := by
  cases h with
  | new => exact ⟨_, .again l 0 rfl, by simp [Repeated.once]⟩
  | again l0 k h => exact ⟨_, .again l0 (k + 1) rfl, by simp [Repeated.once]⟩

theorem Ext.mem {l l' : Repeated} {d : List Byte} (h : Ext l d l') {n : Nat}
    (h1 : ∀ p ∈ l, p.1.length ≤ n) (h2 : d.length ≤ n) : ∀ p ∈ l', p.1.length ≤ n := by
  cases h with
  | new =>
    intro p hp
    rcases List.mem_append.1 hp with hp | hp
    · exact h1 p hp
    · cases List.mem_singleton.1 hp; exact h2
  | again l0 k h =>
    subst h
    intro p hp
    rcases List.mem_append.1 hp with hp | hp
    · exact h1 p (List.mem_append_left _ hp)
    · cases List.mem_singleton.1 hp; exact h2

theorem once_new (l : Repeated) (d : List Byte) :
    Repeated.once (l ++ [(d, 0)]) = Repeated.once l ++ d := by
  simp [Repeated.once]

theorem repeats_new (l : Repeated) (d : List Byte) :
    Repeated.repeats (l ++ [(d, 0)]) = Repeated.repeats l := by
  simp [Repeated.repeats]

end Repeated

namespace Sys

/-- The segment in the output image is one the device takes over. -/
def Live (s : Sys) : Prop := s.out.txCnt = (s.ack + 1) % 4

/-- What the device has taken over (`l`), and what it has taken over together with the segment that
comes next (`l'`). -/
inductive Stage (m : Nat) (s : Sys) (l l' : Repeated) : Prop
  /-- the output image is not replaced by another segment -/
  | steady (ext : Repeated.Ext l s.out.data l') (live : s.Live → Repeated.repeats l' ≤ m)
      (pend : ∀ r, s.pending = some r →
        r.txCnt = s.out.txCnt ∧ (r.data = s.out.data ∨ r.data = []))
      (bytes : Repeated.once l' ++ s.queued <+ s.written)
  /-- a new segment is about to be transferred -/
  | fresh (r : RsOut) (pend : s.pending = some r) (ext : Repeated.Ext l s.out.data l') (dead : ¬ s.Live)
      (cnt : r.txCnt = (s.ack + 1) % 4) (bytes : Repeated.once l' ++ r.data ++ s.queued <+ s.written)
  /-- the power has failed and the image of the cycle is about to be transferred -/
  | again (r : RsOut) (pend : s.pending = some r) (out : s.out.data = []) (ext : Repeated.Ext l r.data l')
      (paid : Repeated.repeats l' ≤ m) (bytes : Repeated.once l' ++ s.queued <+ s.written)

/-- What holds of the transmit direction whatever happens, after `m` power failures in the middle of
a cycle. -/
structure RepInv (len : ProcessDataLength) (m : Nat) (s : Sys) : Prop where
  init : s.p.initState = initStateOf s.cycles
  ack : s.ack < 4
  queue : QueueOk len s.p
  out : s.out.data.length ≤ len.userDataLen
  pend : ∀ r, s.pending = some r → r.data.length ≤ len.userDataLen
  bytes : ∃ l l', s.received = Repeated.all l ∧ Repeated.repeats l ≤ m ∧
    (∀ p ∈ l, p.1.length ≤ len.userDataLen) ∧ s.Stage m l l'

/-- What is in the output image is given up. -/
theorem Stage.none_left {m : Nat} {s t : Sys} {l l' : Repeated} (h : s.Stage m l l')
    (hm : Repeated.repeats l ≤ m) (h1 : t.pending = none) (h2 : t.out.data = [])
    (h3 : t.queued <+ s.queued) (h4 : t.written = s.written) :
    t.Stage m l (l ++ [([], 0)]) := by
  have hb : Repeated.once l ++ s.queued <+ s.written := by
    cases h with
    | steady ext live pend bytes => exact (ext.once_le.append (.refl _)).trans bytes
    | fresh r pend ext dead cnt bytes =>
      refine List.Sublist.trans ?_ bytes
      rw [List.append_assoc]
      exact ext.once_le.append (List.sublist_append_right _ _)
    | again r pend out ext paid bytes => exact (ext.once_le.append (.refl _)).trans bytes
  refine .steady (by rw [h2]; exact .new) (fun _ => by rw [Repeated.repeats_new]; exact hm)
    (by rw [h1]; simp) ?_
  rw [Repeated.once_new, List.append_nil, h4]
  exact ((List.Sublist.refl _).append h3).trans hb

/-- The image of a cycle is not transferred. -/
theorem Stage.drop {m : Nat} {s t : Sys} {l l' : Repeated} (h : s.Stage m l l')
    (hm : Repeated.repeats l ≤ m) (h1 : t.pending = none) (h2 : t.out = s.out)
    (h3 : t.queued <+ s.queued) (h4 : t.written = s.written) (h5 : t.ack = s.ack) :
    ∃ l', t.Stage m l l' := by
  cases h with
  | steady ext live pend bytes =>
    refine ⟨l', .steady (by rw [h2]; exact ext) (fun hl => live ?_) (by rw [h1]; simp) ?_⟩
    · unfold Live at hl ⊢; rwa [h2, h5] at hl
    · rw [h4]; exact ((List.Sublist.refl _).append h3).trans bytes
  | fresh r pend ext dead cnt bytes =>
    refine ⟨l', .steady (by rw [h2]; exact ext) (fun hl => absurd ?_ dead) (by rw [h1]; simp) ?_⟩
    · unfold Live at hl ⊢; rwa [h2, h5] at hl
    · rw [h4]
      refine List.Sublist.trans ?_ bytes
      rw [List.append_assoc]
      exact (List.Sublist.refl _).append (h3.trans (List.sublist_append_right _ _))
  | again r pend out ext paid bytes =>
    exact ⟨_, Stage.none_left (.again r pend out ext paid bytes) hm h1 (by rw [h2]; exact out) h3 h4⟩

/-- Steps that change neither the images nor the queue. -/
theorem Stage.of_same {m : Nat} {s t : Sys} {l l' : Repeated} (h : s.Stage m l l')
    (h1 : t.pending = s.pending) (h2 : t.out = s.out) (h3 : t.queued = s.queued)
    (h4 : t.written = s.written) (h5 : t.ack = s.ack) : t.Stage m l l' := by
  have hl : t.Live ↔ s.Live := by unfold Live; rw [h2, h5]
  cases h with
  | steady ext live pend bytes =>
    exact .steady (by rw [h2]; exact ext) (fun h => live (hl.1 h)) (by rw [h1, h2]; exact pend)
      (by rw [h3, h4]; exact bytes)
  | fresh r pend ext dead cnt bytes =>
    exact .fresh r (by rw [h1]; exact pend) (by rw [h2]; exact ext) (fun h => dead (hl.1 h))
      (by rw [h5]; exact cnt) (by rw [h3, h4]; exact bytes)
  | again r pend out ext paid bytes =>
    exact .again r (by rw [h1]; exact pend) (by rw [h2]; exact out) ext paid
      (by rw [h3, h4]; exact bytes)

theorem RepInv.step {len : ProcessDataLength} {m : Nat} {s : Sys} (h : s.RepInv len m) (e : Ev) :
    (s.step e).RepInv len m := by
  obtain ⟨l, l', hr, hm, hz, hs⟩ := h.bytes
  cases e with
  | write b =>
    refine ⟨h.init, h.ack, h.queue.write b, h.out, h.pend, l, l', hr, hm, hz, ?_⟩
    have hq : (s.step (.write b)).queued = s.queued ++ b := write_outData_flatten _ _
    have hw : (s.step (.write b)).written = s.written ++ b := rfl
    cases hs with
    | steady ext live pend bytes =>
      exact .steady ext live pend (by
        rw [hq, hw, ← List.append_assoc]; exact bytes.append (.refl _))
    | fresh r pend ext dead cnt bytes =>
      exact .fresh r pend ext dead cnt (by
        rw [hq, hw, ← List.append_assoc]; exact bytes.append (.refl _))
    | again r pend out ext paid bytes =>
      exact .again r pend out ext paid (by
        rw [hq, hw, ← List.append_assoc]; exact bytes.append (.refl _))
  | read n =>
    simp only [Sys.step, read_ok]
    exact ⟨h.init, h.ack, ⟨h.queue.1, h.queue.2⟩, h.out, h.pend, l, l', hr, hm, hz,
      hs.of_same rfl rfl rfl rfl rfl⟩
  | post seg =>
    simp only [Sys.step]
    split
    · exact ⟨h.init, h.ack, h.queue, h.out, h.pend, l, l', hr, hm, hz,
        hs.of_same rfl rfl rfl rfl rfl⟩
    · exact h
  | hide =>
    simp only [Sys.step]
    split
    · exact ⟨h.init, h.ack, h.queue, h.out, h.pend, l, l', hr, hm, hz,
        hs.of_same rfl rfl rfl rfl rfl⟩
    · exact h
  | restart n =>
    simp only [Sys.step]
    split
    · rename_i hg
      exact ⟨h.init, n.isLt, h.queue, h.out, h.pend, l, _, hr, hm, hz,
        hs.none_left hm hg.1 hg.2 (.refl _) rfl⟩
    · exact h
  | take =>
    simp only [Sys.step]
    split
    · rename_i hg
      have ha : s.out.txCnt < 4 := by omega
      have hd : s.out.txCnt ≠ (s.out.txCnt + 1) % 4 := by omega
      cases hs with
      | steady ext live pend bytes =>
        obtain ⟨l'', k1, k2⟩ := ext.bump
        refine ⟨h.init, ha, h.queue, h.out, h.pend, l', l'', ?_, live hg, ext.mem hz h.out, ?_⟩
        · show s.received ++ s.out.data = _
          rw [ext.all, hr]
        · exact .steady k1 (fun hl => absurd hl hd) pend (by rw [k2]; exact bytes)
      | fresh r pend ext dead cnt bytes => exact absurd hg dead
      | again r pend out ext paid bytes =>
        refine ⟨h.init, ha, h.queue, h.out, h.pend, l, l', ?_, hm, hz, ?_⟩
        · show s.received ++ s.out.data = _
          rw [out, hr, List.append_nil]
        · exact .again r pend out ext paid bytes
    · exact h
  | finish =>
    simp only [Sys.step]
    split
    · rename_i r hp
      have hl := h.pend r hp
      cases hs with
      | steady ext live pend bytes =>
        obtain ⟨h1, h2⟩ := pend r hp
        rcases h2 with h2 | h2
        · refine ⟨h.init, h.ack, h.queue, hl, by simp, l, l', hr, hm, hz, ?_⟩
          refine .steady (by show Repeated.Ext l r.data l'; rw [h2]; exact ext) (fun hv => live ?_) (by simp)
            bytes
          unfold Live at hv ⊢
          rw [← h1]
          exact hv
        · exact ⟨h.init, h.ack, h.queue, hl, by simp, l, _, hr, hm, hz,
            Stage.none_left (.steady ext live pend bytes) hm rfl h2 (.refl _) rfl⟩
      | fresh r' pend ext dead cnt bytes =>
        rw [hp] at pend
        cases pend
        refine ⟨h.init, h.ack, h.queue, hl, by simp, l, l ++ [(r.data, 0)], hr, hm, hz, ?_⟩
        refine .steady .new (fun _ => by rw [Repeated.repeats_new]; exact hm) (by simp) ?_
        rw [Repeated.once_new]
        exact ((ext.once_le.append (.refl _)).append (.refl _)).trans bytes
      | again r' pend out ext paid bytes =>
        rw [hp] at pend
        cases pend
        exact ⟨h.init, h.ack, h.queue, hl, by simp, l, l', hr, hm, hz,
          .steady ext (fun _ => paid) (by simp) bytes⟩
    · exact h
  | start nf rdy =>
    simp only [Sys.step]
    split
    · exact h
    · rename_i hp
      have hp : s.pending = none := by simpa using hp
      have hi := h.init
      cases hs with
      | fresh r pend ext dead cnt bytes => rw [hp] at pend; cases pend
      | again r pend out ext paid bytes => rw [hp] at pend; cases pend
      | steady ext live pend bytes =>
        have key : RepInv len m { s with
            p := (s.p.next (s.input nf rdy) s.out).1
            pending := some (s.p.next (s.input nf rdy) s.out).2
            cycles := s.cycles + 1 } := by
          have hq := h.queue.next (s.input nf rdy) s.out
          match hc : s.cycles with
          | 0 =>
            rw [hc] at hi
            refine ⟨next_initState _ _ _ _ hi, h.ack, hq, h.out, ?_, l, l', hr, hm, hz, ?_⟩
            · rw [next_clear _ _ _ hi]; simp
            · refine .steady ext live ?_ ?_
              · simp only [next_clear _ _ _ hi, Option.some.injEq]
                rintro r rfl
                exact ⟨rfl, .inr rfl⟩
              · simp only [queued, next_clear _ _ _ hi]
                exact bytes
          | 1 =>
            rw [hc] at hi
            refine ⟨next_initState _ _ _ _ hi, h.ack, hq, h.out, ?_, l, l', hr, hm, hz, ?_⟩
            · rw [next_reset _ _ _ hi]; simp
            · refine .steady ext live ?_ ?_
              · simp only [next_reset _ _ _ hi, Option.some.injEq]
                rintro r rfl
                exact ⟨rfl, .inr rfl⟩
              · simp only [queued, next_reset _ _ _ hi]
                exact bytes
          | n + 2 =>
            rw [hc] at hi
            have hn := next_initState _ (s.input nf rdy) s.out _ hi
            rw [next_done _ _ _ hi] at hn hq ⊢
            by_cases hbusy : incCnt s.ack = s.out.txCnt
            · rw [nextTx_busy _ _ _ (by simpa [input] using hbusy)] at hn hq ⊢
              refine ⟨hn, h.ack, hq, h.out, ?_, l, l', hr, hm, hz, ?_⟩
              · simp only [Option.some.injEq]
                rintro r rfl
                exact h.out
              · refine .steady ext live ?_ ?_
                · simp only [Option.some.injEq]
                  rintro r rfl
                  exact ⟨rfl, .inl rfl⟩
                · simp only [queued, (nextRx_frame _ _).1]
                  exact bytes
            · cases hq' : s.p.outData with
              | nil =>
                rw [nextTx_nil _ _ _ hq'] at hn hq ⊢
                refine ⟨hn, h.ack, hq, h.out, ?_, l, l', hr, hm, hz, ?_⟩
                · simp only [Option.some.injEq]
                  rintro r rfl
                  exact h.out
                · refine .steady ext live ?_ ?_
                  · simp only [Option.some.injEq]
                    rintro r rfl
                    exact ⟨rfl, .inl rfl⟩
                  · simp only [queued, (nextRx_frame _ _).1]
                    exact bytes
              | cons c cs =>
                rw [nextTx_send _ _ _ c cs hq' (by simpa [input] using hbusy)] at hn hq ⊢
                have hsz := h.queue.2 c (by rw [hq']; simp)
                rw [incCnt_eq _ h.ack] at hbusy
                refine ⟨hn, h.ack, hq, h.out, ?_, l, l', hr, hm, hz, ?_⟩
                · simp only [Option.some.injEq]
                  rintro r rfl
                  exact hsz.2
                · refine .fresh _ rfl ext (fun hl => hbusy hl.symm) (incCnt_eq _ h.ack) ?_
                  simp only [queued, (nextRx_frame _ _).1]
                  simp only [queued, hq'] at bytes
                  simpa using bytes
        split
        · obtain ⟨l, l', k1, k2, k3, k4⟩ := key.bytes
          exact ⟨key.init, key.ack, key.queue, key.out, key.pend, l, l', k1, k2, k3,
            k4.of_same rfl rfl rfl rfl rfl⟩
        · exact key

theorem RepInv.ustep {len : ProcessDataLength} {m : Nat} {s : Sys} (h : s.RepInv len m) (e : UEv) :
    (s.ustep len e).RepInv len m := by
  obtain ⟨l, l', hr, hm, hz, hs⟩ := h.bytes
  cases e with
  | ev e => exact h.step e
  | lost =>
    obtain ⟨l'', h1⟩ := hs.drop (t := s.ustep len .lost) hm rfl rfl (.refl _) rfl rfl
    exact ⟨h.init, h.ack, h.queue, h.out, by simp [Sys.ustep], l, l'', hr, hm, hz, h1⟩
  | crash =>
    obtain ⟨l'', h1⟩ := hs.drop (t := s.ustep len .crash) hm rfl rfl
      (by simp [Sys.ustep, queued, MessageProcessor.new]) rfl rfl
    exact ⟨rfl, h.ack, QueueOk.new len, h.out, by simp [Sys.ustep], l, l'', hr, hm, hz, h1⟩

theorem RepInv.urun {len : ProcessDataLength} {m : Nat} {s : Sys} (h : s.RepInv len m)
    (evs : List UEv) : (s.urun len evs).RepInv len m := by
  induction evs generalizing s with
  | nil => exact h
  | cons e evs ih => exact ih (h.ustep e)

theorem RepInv.initial {len : ProcessDataLength} {s : Sys} (h : s.Initial len) :
    s.RepInv len 0 := by
  have hu := UInv.initial h
  have hf := Fits.initial h
  have hb := hu.bytes
  refine ⟨hu.init, hu.ack, hf.queue, hf.out, fun r hr => (hf.pend r hr).1, [], [([], 0)], ?_, ?_, ?_,
    .steady (by rw [h.data]; exact .new) (fun _ => by simp [Repeated.repeats])
      (by rw [h.pending]; simp) ?_⟩
  · simp [h.logs.2.1, Repeated.all]
  · simp [Repeated.repeats]
  · simp
  · refine List.Sublist.trans ?_ hb
    simp [Repeated.once]

/-- A power failure; in the middle of a cycle it counts. -/
theorem RepInv.power {len : ProcessDataLength} {m : Nat} {s : Sys} {sh : Option Nat}
    (h : s.RepInv len m) (a r : Fin 4) :
    ((⟨s, sh⟩ : PowerSys).step len (.power a r)).sys.RepInv len
      (m + if s.pending = none then 0 else 1) := by
  obtain ⟨l, l', hr, hm, hz, hs⟩ := h.bytes
  cases hp : s.pending with
  | none =>
    refine ⟨h.init, a.isLt, h.queue, by simp [PowerSys.step, PowerSys.blank],
      by simp [PowerSys.step, hp], l, _, hr, hm, hz, hs.none_left hm hp rfl (.refl _) rfl⟩
  | some x =>
    have base : ∀ l'', Repeated.Ext l x.data l'' → Repeated.once l'' ++ s.queued <+ s.written →
        ((⟨s, sh⟩ : PowerSys).step len (.power a r)).sys.RepInv len
          (m + if (some x : Option RsOut) = none then 0 else 1) := by
      intro l'' hx hb
      have := hx.repeats_le
      refine ⟨h.init, a.isLt, h.queue, by simp [PowerSys.step, PowerSys.blank], ?_, l, l'', hr, ?_, hz,
        .again x hp rfl hx ?_ hb⟩
      · intro y hy
        exact h.pend y hy
      · simp; omega
      · simp; omega
    cases hs with
    | steady ext live pend bytes =>
      rcases (pend x hp).2 with h2 | h2
      · exact base l' (by rw [h2]; exact ext) bytes
      · refine base _ .new ?_
        rw [Repeated.once_new, h2, List.append_nil]
        exact (ext.once_le.append (.refl _)).trans bytes
    | fresh y pend ext dead cnt bytes =>
      rw [hp] at pend
      cases pend
      refine base _ .new ?_
      rw [Repeated.once_new]
      exact ((ext.once_le.append (.refl _)).append (.refl _)).trans bytes
    | again y pend out ext paid bytes =>
      rw [hp] at pend
      cases pend
      exact base l' ext bytes

/-- What the invariant says about the bytes. -/
theorem RepInv.result {len : ProcessDataLength} {m : Nat} {s : Sys} (h : s.RepInv len m) :
    ∃ l : Repeated, l.all = s.received ∧ l.once ++ s.queued <+ s.written ∧ l.repeats ≤ m ∧
      ∀ p ∈ l, p.1.length ≤ len.userDataLen := by
  obtain ⟨l, l', hr, hm, hz, hs⟩ := h.bytes
  refine ⟨l, hr.symm, ?_, hm, hz⟩
  cases hs with
  | steady ext live pend bytes => exact (ext.once_le.append (.refl _)).trans bytes
  | fresh r pend ext dead cnt bytes =>
    refine List.Sublist.trans ?_ bytes
    rw [List.append_assoc]
    exact ext.once_le.append (List.sublist_append_right _ _)
  | again r pend out ext paid bytes => exact (ext.once_le.append (.refl _)).trans bytes

end Sys

theorem PowerSys.rep_run {len : ProcessDataLength} {m : Nat} (s : PowerSys) (h : s.sys.RepInv len m)
    (evs : List PowerEv) : (s.run len evs).sys.RepInv len (m + s.midCycle len evs) := by
  induction evs generalizing s m with
  | nil => exact h
  | cons e evs ih =>
    cases e with
    | ev e => exact ih (s.step len (.ev e)) (h.ustep e)
    | power a r =>
      have := ih (s.step len (.power a r)) (h.power (sh := s.shown) a r)
      rw [Nat.add_assoc] at this
      exact this

theorem PowerNet.rep_run {oc : Bool} {cfg : CouplerConfig} {w : Wiring} {j : Nat}
    (hj : j ∈ w.modules) {c0 : Coupler} (h0 : Coupler.new cfg = .ok c0)
    (hs0 : SerialAt c0 j (w.wire j).len (w.wire j).oi (w.wire j).oo)
    (hd0 : BytesKept (infos c0) j) (s : PowerNet) {t : Sys}
    (h : Sending.QSim oc cfg j (w.wire j).len (w.wire j).oi (w.wire j).oo (s.net.at_ j) t) {m : Nat}
    (hr : t.RepInv (w.wire j).len m) (evs : List StationEv) :
    ∃ t', Sending.QSim oc cfg j (w.wire j).len (w.wire j).oi (w.wire j).oo
        ((s.run oc cfg w evs).net.at_ j) t' ∧
      t'.RepInv (w.wire j).len (m + s.midCycle oc cfg w evs) := by
  induction evs generalizing s t m with
  | nil => exact ⟨t, h, hr⟩
  | cons e evs ih =>
    cases e with
    | ev e =>
      obtain ⟨tevs, h1⟩ := sim_step hj h0 hs0 hd0 h e
      obtain ⟨t', g1, g2⟩ := ih (s.step oc cfg w (.ev e)) h1 (hr.urun tevs)
      refine ⟨t', g1, ?_⟩
      simp only [midCycle, Nat.zero_add]
      exact g2
    | power a r =>
      obtain ⟨t', g1, g2⟩ := ih (s.step oc cfg w (.power a r)) (sim_power none h a r)
        (hr.power (sh := none) (a j) (r j))
      refine ⟨t', g1, ?_⟩
      have hp : (t.pending = none) = (s.net.pending = none) := by
        have := h.sim.pending
        simp only [Plant.cleared, Net.at_] at this
        cases ht : t.pending <;> cases hs : s.net.pending <;> rw [ht, hs] at this <;> simp at this ⊢
      simp only [midCycle]
      rw [← Nat.add_assoc]
      simp only [hp] at g2
      exact g2

end Spec

/-- C147 for one processor and one device: whatever transfers are lost, and wherever the application
crashes or the power fails: what the device has taken over are segments of what was written, in this
order, each at most once apart from repetitions that directly follow it; what is queued was written
after them; and there are not more repetitions than power failures in the middle of a cycle. -/
theorem C147_closed {len : ProcessDataLength} {s : Sys} (h : s.Initial len) (evs : List PowerEv) :
    let t := ((⟨s, none⟩ : PowerSys).run len evs).sys
    ∃ l : Repeated, l.all = t.received ∧ l.once ++ t.queued <+ t.written ∧
      l.repeats ≤ (⟨s, none⟩ : PowerSys).midCycle len evs ∧ ∀ p ∈ l, p.1.length ≤ capacity len := by
  have := (PowerSys.rep_run ⟨s, none⟩ (Sys.RepInv.initial h) evs).result
  rw [Nat.zero_add] at this
  have hc : capacity len = len.userDataLen := by cases len <;> rfl
  rw [hc]
  exact this

/-- C147 for a station with any number of serial devices: whatever transfers are lost, whichever
cycles fail, and wherever the application crashes or the power fails, for each of them: what the
device has taken over are segments of what was sent, in this order, each at most once apart from
repetitions that directly follow it; what is queued was sent after them; and there are not more
repetitions than power failures in the middle of a cycle. -/
theorem C147_repeats (oc : Bool) (cfg : CouplerConfig) (w : Wiring) (s : Net) (h : s.Initial cfg w)
    (evs : List StationEv) (j : Nat) (hj : j ∈ w.modules) :
    let r := ((⟨s, fun _ => none⟩ : PowerNet).run oc cfg w evs).net
    ∃ l : Repeated, l.all = (r.line j).received ∧ l.once ++ r.queued j <+ (r.line j).written ∧
      l.repeats ≤ (⟨s, fun _ => none⟩ : PowerNet).midCycle oc cfg w evs ∧
      ∀ p ∈ l, p.1.length ≤ capacity (w.wire j).len := by
  obtain ⟨t, h1, hq⟩ := PowerNet.initial_sim (oc := oc) h hj
  obtain ⟨t', g1, g2⟩ := PowerNet.rep_run hj h.c (h.serial j hj) (h.disjoint j hj)
    ⟨s, fun _ => none⟩ hq (.initial h1) evs
  rw [Nat.zero_add] at g2
  have hc : capacity (w.wire j).len = (w.wire j).len.userDataLen := by
    cases (w.wire j).len <;> rfl
  have e1 : (((⟨s, fun _ => none⟩ : PowerNet).run oc cfg w evs).net).queued j = _ :=
    g1.sim.same_queued
  have e3 : _ = ((((⟨s, fun _ => none⟩ : PowerNet).run oc cfg w evs).net).line j).received :=
    g1.sim.received
  have e4 : _ = ((((⟨s, fun _ => none⟩ : PowerNet).run oc cfg w evs).net).line j).written :=
    g1.sim.written
  simp only
  rw [e1, ← e3, ← e4, hc]
  exact g2.result

/-- C147 in numbers: a device takes over at most as many bytes as were sent, and those of one segment
for each power failure in the middle of a cycle. -/
theorem C147_count (oc : Bool) (cfg : CouplerConfig) (w : Wiring) (s : Net) (h : s.Initial cfg w)
    (evs : List StationEv) (j : Nat) (hj : j ∈ w.modules) :
    let r := ((⟨s, fun _ => none⟩ : PowerNet).run oc cfg w evs).net
    (r.line j).received.length + (r.queued j).length ≤ (r.line j).written.length +
      capacity (w.wire j).len * (⟨s, fun _ => none⟩ : PowerNet).midCycle oc cfg w evs := by
  obtain ⟨l, h1, h2, h3, h4⟩ := C147_repeats oc cfg w s h evs j hj
  have h5 := Repeated.all_length l h4
  have h6 := h2.length_le
  have h7 := Nat.mul_le_mul_left (capacity (w.wire j).len) h3
  rw [List.length_append] at h6
  simp only at h6 h7 ⊢
  rw [← h1]
  omega

/-- C147 for one processor and one device: after any such history, rounds of a complete cycle followed
by a look of the device deliver everything that is in the image or queued. -/
theorem C147_recovers {len : ProcessDataLength} {s : Sys} (h : s.Initial len) (evs : List PowerEv)
    (k : Nat) :
    let t := ((⟨s, none⟩ : PowerSys).run len evs).sys
    t.pending = none → 2 ≤ t.cycles → 1 + t.p.outData.length ≤ k →
    (rounds k t).received = t.received ++ t.inFlight ++ t.queued := by
  intro t hp hc hk
  have := PowerSys.rep_run ⟨s, none⟩ (Sys.RepInv.initial h) evs
  exact Sys.recovers this.init this.ack hp hc k hk

/-- C147: after any such history, rounds of a cycle in which every device looks at the image deliver
everything that is in flight, queued or waiting, on all modules at once. -/
theorem C147_delivered (oc : Bool) (cfg : CouplerConfig) (w : Wiring)
    (s : Net) (h : s.Initial cfg w) (evs : List StationEv) (hv : AcceptedValuesP cfg evs) :
    let r := ((⟨s, fun _ => none⟩ : PowerNet).run oc cfg w evs).net
    r.pending = none → OutputsReady cfg r.out → 2 ≤ r.cycles →
    ∀ pis, r.GoodInputs oc cfg w pis →
      (∀ j ∈ w.modules, 1 + r.segments j + ((sentBytes (r.line j).waiting).length +
        capacity (w.wire j).len - 1) / capacity (w.wire j).len ≤ pis.length) →
      ∀ j ∈ w.modules, ((r.rounds oc cfg w pis).line j).received =
        (r.line j).received ++ r.inFlight w j ++ r.queued j ++ sentBytes (r.line j).waiting := by
  intro r hp ho hc pis hg hk j hj
  obtain ⟨t, h1, h2⟩ := PowerNet.initial_sim (oc := oc) h hj
  obtain ⟨t', g1, g2⟩ := PowerNet.rep_run hj h.c (h.serial j hj) (h.disjoint j hj)
    ⟨s, fun _ => none⟩ h2 (.initial h1) evs
  have hacc := PowerNet.accepted_run (Net.initial_accepts h) hj h.c (h.serial j hj) (h.disjoint j hj)
    ⟨s, fun _ => none⟩ h2 (initial_pending (Net.initial_at h hj).1) evs hv
  obtain ⟨k1, wr, k2⟩ := Net.rounds_at (oc := oc) (cfg := cfg) h.distinct hj r pis hg
  have := g1.deliver g2.init g2.ack hp ho hc hacc pis k1 (hk j hj)
  have h5 : ((r.rounds oc cfg w pis).line j).received =
    (((r.rounds oc cfg w pis).at_ j).plant).received := rfl
  rw [h5, k2]
  exact this

/-! ### Examples -/

/-- The schedule that refutes C123 has one power failure in the middle of a cycle, and one
repetition. -/
example : (⟨exSys, none⟩ : PowerSys).midCycle .EightBytes exTwice = 1 ∧
    Repeated.all [([1#8], 1)] =
      ((⟨exSys, none⟩ : PowerSys).run .EightBytes exTwice).sys.received := by
  constructor <;> decide

example := C147_closed exSys_ready exTwice

/-- A byte is sent to the first device and taken over; the power fails in the middle of the next
cycle. Then another byte is sent. -/
def exRepeatEvs : List StationEv :=
  [.ev (.start (List.replicate 8 0#16)), .ev .finish, .ev (.start (List.replicate 8 0#16)),
   .ev .finish, .ev (.write 1 [9#8]), .ev (.start (List.replicate 8 0#16)), .ev .finish,
   .ev (.take 1), .ev (.start [0x0020#16, 0#16, 0#16, 0#16, 0#16, 0#16, 0#16, 0#16]),
   .power (fun _ => 0) (fun _ => 0), .ev .finish, .ev (.take 1), .ev (.write 1 [7#8]),
   .ev (.start [0x0020#16, 0#16, 0#16, 0#16, 0#16, 0#16, 0#16, 0#16]), .ev .finish, .ev (.take 1)]

/-- The first byte is taken over twice, as the theorem allows. -/
theorem exRepeat_midCycle :
    (⟨exNet, fun _ => none⟩ : PowerNet).midCycle true exDuo exWires exRepeatEvs = 1 := by
  simp only [exRepeatEvs, PowerNet.midCycle]
  decide +kernel

example : (((⟨exNet, fun _ => none⟩ : PowerNet).run true exDuo exWires exRepeatEvs).net.line 1).received =
      [9#8, 9#8, 7#8] ∧ Repeated.all [([9#8], 1), ([7#8], 0)] = [9#8, 9#8, 7#8] ∧
    (((⟨exNet, fun _ => none⟩ : PowerNet).run true exDuo exWires exRepeatEvs).net.line 1).written =
      [9#8, 7#8] := by
  decide +kernel

example := C147_repeats true exDuo exWires exNet exNet_initial exRepeatEvs 1 (by decide)

example := C147_count true exDuo exWires exNet exNet_initial exRepeatEvs 1 (by decide)

example := C147_recovers exSys_ready exTwice 1 (by decide) (by decide) (by decide)

/-- The schedule of the example up to the transfer after the power failure; then a byte is written. -/
def exRecoverEvs : List StationEv := exRepeatEvs.take 11 ++ [.ev (.write 1 [7#8])]

noncomputable def exRecoverNet : Net :=
  ((⟨exNet, fun _ => none⟩ : PowerNet).run true exDuo exWires exRecoverEvs).net

def exRecoverInputs : List (List Word) :=
  [List.replicate 8 0#16, [0x0020#16, 0#16, 0#16, 0#16, 0#16, 0#16, 0#16, 0#16]]

/-- The state before the rounds meets the hypotheses of `C147_delivered`. -/
theorem exRecoverNet_good : exRecoverNet.pending = none ∧ OutputsReady exDuo exRecoverNet.out ∧
    2 ≤ exRecoverNet.cycles ∧ exRecoverNet.GoodInputs true exDuo exWires exRecoverInputs ∧
    (∀ j ∈ exWires.modules, 1 + exRecoverNet.segments j +
      ((sentBytes (exRecoverNet.line j).waiting).length + capacity (exWires.wire j).len - 1) /
        capacity (exWires.wire j).len ≤ exRecoverInputs.length) := by
  refine ⟨by decide +kernel, ?_, by decide +kernel, ?_, by decide +kernel⟩
  · rw [show exRecoverNet.out =
      [0#16, 0x0188#16, 9#16, 0#16, 0#16, 0x0080#16, 0#16, 0#16, 0#16] by decide +kernel]
    constructor
    · intro j t par o i h hn
      rcases exDuo_at h with ⟨rfl, rfl, rfl, rfl, rfl⟩ | ⟨rfl, rfl, rfl, rfl, rfl⟩ |
        ⟨rfl, rfl, rfl, rfl, rfl⟩
      · exact ⟨by unfold InPlace; decide, by unfold Covers; decide, fun h => by cases h⟩
      · refine ⟨by unfold InPlace; decide, by unfold Covers; decide, fun _ b hb => ?_⟩
        rw [show byteAt _ _ = some 1#8 by decide] at hb
        cases hb; decide
      · refine ⟨by unfold InPlace; decide, by unfold Covers; decide, fun _ b hb => ?_⟩
        rw [show byteAt _ _ = some 0#8 by decide] at hb
        cases hb; decide
    · intro j t par o i ch us h hno ht
      rcases exDuo_at h with ⟨rfl, rfl, rfl, rfl, rfl⟩ | ⟨rfl, rfl, rfl, rfl, rfl⟩ |
        ⟨rfl, rfl, rfl, rfl, rfl⟩ <;> cases ht
  · have hin : ∀ pi ∈ exRecoverInputs, InputsReady exDuo pi := by
      intro pi hpi j t par o i h hn
      simp only [exRecoverInputs, List.mem_cons, List.not_mem_nil, or_false] at hpi
      rcases exDuo_at h with ⟨rfl, rfl, rfl, rfl, rfl⟩ | ⟨rfl, rfl, rfl, rfl, rfl⟩ |
        ⟨rfl, rfl, rfl, rfl, rfl⟩
      · exact absurd rfl hn
      all_goals
        rcases hpi with rfl | rfl <;>
        · refine ⟨by unfold HasRegisters; decide, fun _ b hb => ?_⟩
          rw [show byteAt _ _ = some 0#8 by decide] at hb
          cases hb; decide
    exact ⟨hin _ (by simp [exRecoverInputs]), by decide +kernel, hin _ (by simp [exRecoverInputs]),
      by decide +kernel, trivial⟩

/-- The byte is delivered after the repetition. -/
example : ((exRecoverNet.rounds true exDuo exWires exRecoverInputs).line 1).received =
    [9#8, 9#8, 7#8] := by
  have h := C147_delivered true exDuo exWires exNet exNet_initial exRecoverEvs
    (fun _ _ he => by simp [exRecoverEvs, exRepeatEvs] at he) exRecoverNet_good.1
    exRecoverNet_good.2.1 exRecoverNet_good.2.2.1 exRecoverInputs exRecoverNet_good.2.2.2.1
    exRecoverNet_good.2.2.2.2 1 (by decide)
  exact h.trans (by decide +kernel)

end Ur20
