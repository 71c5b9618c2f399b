import Verif.Spec.LateCable
import Verif.Props.LatePlant

/-! # A cable between two serial modules with late and lost images: C131 -/

namespace Ur20

open Spec Com Coupler
open scoped List

/-- `t` comes after `s`, and the device presents the same. -/
structure LateNext (s t : LatePlant) : Prop where
  received : ∃ more, t.received = s.received ++ more
  shown : t.shown = s.shown
  cycles : t.cycles = s.cycles ∧ t.early = s.early ∨
    t.cycles = s.cycles + 1 ∧ t.early = if s.cycles < 2 then s.shown.length else s.early

/-- What a step does if the device presents nothing new. -/
theorem lateSide_next (oc : Bool) (k : LateSide) (s : LatePlant) (e : LatePlantEv)
    (he : e.Posts = false) : LateNext s (k.step oc s e) := by
  have same : ∀ {t : LatePlant}, t.received = s.received → t.shown = s.shown → t.cycles = s.cycles →
      t.early = s.early → LateNext s t :=
    fun h1 h2 h3 h4 => ⟨⟨[], by simp [h1]⟩, h2, .inl ⟨h3, h4⟩⟩
  cases e with
  | cycle =>
    simp only [LateSide.step, LatePlant.step]
    split
    · exact ⟨⟨[], by simp⟩, rfl, .inr ⟨rfl, rfl⟩⟩
    · exact same rfl rfl rfl rfl
  | take =>
    simp only [LateSide.step, LatePlant.step]
    split
    · split
      · exact ⟨⟨_, rfl⟩, rfl, .inl ⟨rfl, rfl⟩⟩
      · exact same rfl rfl rfl rfl
    · exact same rfl rfl rfl rfl
  | post seg => cases he
  | _ =>
    simp only [LateSide.step, LatePlant.step]
    (repeat' split) <;> exact same rfl rfl rfl rfl

theorem lateSide_posted (oc : Bool) (k : LateSide) (s : LatePlant) (seg : List Byte) :
    (k.step oc s (.post seg)).received = s.received ∧ (k.step oc s (.post seg)).cycles = s.cycles ∧
      (k.step oc s (.post seg)).early = s.early := by
  simp only [LateSide.step, LatePlant.step]
  repeat' split
  all_goals exact ⟨rfl, rfl, rfl⟩

theorem lateSide_received (oc : Bool) (k : LateSide) (s : LatePlant) (e : LatePlantEv) :
    ∃ more, (k.step oc s e).received = s.received ++ more := by
  by_cases he : e.Posts = false
  · exact (lateSide_next oc k s e he).received
  · cases e <;> simp only [LatePlantEv.Posts, not_true_eq_false] at he
    exact ⟨[], by rw [(lateSide_posted oc k s _).1, List.append_nil]⟩

/-- A new segment. -/
theorem lateSide_post (oc : Bool) (k : LateSide) (s : LatePlant) (seg : List Byte) :
    ((k.step oc s (.post seg)).shown = s.shown ++ [seg] ∨ k.step oc s (.post seg) = s) ∧
    ((∃ f, outFrame k.len k.oo s.out = some f ∧ f.rxCntAck = s.rxCnt) →
      (k.step oc s (.post seg)).shown = s.shown ++ [seg]) := by
  simp only [LateSide.step, LatePlant.step]
  cases hf : outFrame k.len k.oo s.out with
  | none => exact ⟨.inr rfl, fun ⟨f, h, _⟩ => by cases h⟩
  | some f =>
    simp only
    by_cases ha : f.rxCntAck = s.rxCnt
    · rw [if_pos ha]
      exact ⟨.inl rfl, fun _ => rfl⟩
    · rw [if_neg ha]
      exact ⟨.inr rfl, fun ⟨g, h, h'⟩ => by cases h; exact absurd h' ha⟩

namespace Spec.LateLink

/-- Where the state of a side comes from. -/
def From (oc : Bool) (k : LateSide) (s0 s : LatePlant) : Prop :=
  ∃ evs, LatePlant.OnlyUndecodable oc k.cfg evs ∧ s = s0.run oc k.j k.len k.oi k.oo evs

theorem From.step {oc : Bool} {k : LateSide} {s0 s : LatePlant} (h : From oc k s0 s) (e : LatePlantEv)
    (he : ∀ pi po, e = .failing pi po →
      ¬ Decodable k.cfg pi po ∧ (oc = false → po.length ≤ 0xF800)) : From oc k s0 (k.step oc s e) := by
  obtain ⟨evs, h1, rfl⟩ := h
  refine ⟨evs ++ [e], fun pi po hm => ?_, by simp [LateSide.step, LatePlant.run, List.foldl_append]⟩
  rcases List.mem_append.1 hm with hm | hm
  · exact h1 pi po hm
  · exact he pi po (List.mem_singleton.1 hm).symm

/-- What holds of the direction from the first to the second side. -/
structure Inv (oc : Bool) (k : LateCable) (s0 s : LateLink) : Prop where
  a : From oc k.a s0.a s.a
  b : From oc k.b s0.b s.b
  le : s.ab ≤ s.a.received.length
  shown : s.b.shown.flatten = s.a.received.take s.ab

/-- What holds if the second device presents segments to an initialised module only. -/
structure Calm (s : LateLink) : Prop where
  silent : s.b.cycles < 2 → s.b.shown = [[]]
  first : ∃ rest, s.b.shown = [] :: rest
  early : 2 ≤ s.b.cycles → s.b.early = 1

theorem Inv.step {oc : Bool} {k : LateCable} {s0 s : LateLink} (h : Inv oc k s0 s) (e : LateLinkEv)
    (hu : OnlyUndecodable oc k [e]) : Inv oc k s0 (s.step oc k e) := by
  have ha : ∀ e', (∀ pi po, e' = .failing pi po →
      ¬ Decodable k.a.cfg pi po ∧ (oc = false → po.length ≤ 0xF800)) → ∀ ba,
      Inv oc k s0 { s with a := k.a.step oc s.a e', ba := ba } := by
    intro e' he ba
    obtain ⟨more, h1⟩ := lateSide_received oc k.a s.a e'
    refine ⟨h.a.step e' he, h.b, ?_, ?_⟩
    · have := h.le
      simp only [h1, List.length_append]
      omega
    · rw [h1, List.take_append_of_le_length h.le]
      exact h.shown
  cases e with
  | a e' =>
    simp only [LateLink.step]
    split
    · exact h
    · exact ha e' (fun pi po he => hu.1 pi po (by simp [he])) s.ba
  | b e' =>
    simp only [LateLink.step]
    split
    · exact h
    · rename_i hp
      obtain ⟨-, h2, -⟩ := lateSide_next oc k.b s.b e' (by simpa using hp)
      refine ⟨h.a, h.b.step e' (fun pi po he => hu.2 pi po (by simp [he])), h.le, ?_⟩
      simp only
      rw [h2]
      exact h.shown
  | ab n =>
    simp only [LateLink.step]
    split
    · exact h
    · rename_i hp
      obtain ⟨h1 | h1, -⟩ := lateSide_post oc k.b s.b (s.onCable.take n)
      · refine ⟨h.a, h.b.step (.post _) (fun pi po he => (by cases he)), ?_, ?_⟩
        · have := h.le
          simp only [onCable, List.length_take, List.length_drop]
          omega
        · simp only
          rw [h1, List.flatten_append, List.flatten_singleton, h.shown]
          simp only [onCable]
          rw [List.length_take, List.length_drop, List.take_add]
          congr 1
          rw [List.take_eq_take_iff]
          simp only [List.length_drop]
          omega
      · rw [h1] at hp
        exact absurd rfl hp
  | ba n =>
    simp only [LateLink.step]
    split
    · exact h
    · exact ha (.post _) (fun pi po he => by cases he) _

theorem Inv.run {oc : Bool} {k : LateCable} {s0 s : LateLink} (h : Inv oc k s0 s)
    (evs : List LateLinkEv) (hu : OnlyUndecodable oc k evs) : Inv oc k s0 (s.run oc k evs) := by
  induction evs generalizing s with
  | nil => exact h
  | cons e evs ih =>
    refine ih (h.step e ⟨fun pi po hm => hu.1 pi po ?_, fun pi po hm => hu.2 pi po ?_⟩)
      ⟨fun pi po hm => hu.1 pi po (List.mem_cons_of_mem _ hm),
        fun pi po hm => hu.2 pi po (List.mem_cons_of_mem _ hm)⟩
    · rw [List.mem_singleton.1 hm]
      exact List.mem_cons_self
    · rw [List.mem_singleton.1 hm]
      exact List.mem_cons_self

theorem Inv.initial {oc : Bool} {k : LateCable} {s : LateLink} (h : s.Initial k) : Inv oc k s s where
  a := ⟨[], fun _ _ h => (by cases h), rfl⟩
  b := ⟨[], fun _ _ h => (by cases h), rfl⟩
  le := by rw [h.silent.1]; exact Nat.zero_le _
  shown := by rw [h.silent.1, h.silent.2.2.2]; rfl

theorem Calm.step {oc : Bool} {k : LateCable} {s : LateLink} (h : s.Calm) (e : LateLinkEv)
    (hc : match e with | .ab _ => 2 ≤ s.b.cycles | _ => True) : (s.step oc k e).Calm := by
  cases e with
  | a e' =>
    simp only [LateLink.step]
    split <;> exact ⟨h.silent, h.first, h.early⟩
  | b e' =>
    simp only [LateLink.step]
    split
    · exact h
    · rename_i hp
      obtain ⟨-, h2, h3⟩ := lateSide_next oc k.b s.b e' (by simpa using hp)
      rcases h3 with ⟨h3, h4⟩ | ⟨h3, h4⟩
      · exact ⟨fun hc => by rw [h2]; exact h.silent (by simpa only [h3] using hc),
          by simp only [h2]; exact h.first,
          fun hc => by rw [h4]; exact h.early (by simpa only [h3] using hc)⟩
      · refine ⟨fun hc => ?_, by simp only [h2]; exact h.first, fun hc => ?_⟩
        · simp only [h3] at hc
          rw [h2]
          exact h.silent (by omega)
        · simp only [h3] at hc
          simp only [h4]
          split
          · rename_i hlt
            rw [h.silent hlt]
            rfl
          · exact h.early (by omega)
  | ab n =>
    simp only at hc
    simp only [LateLink.step]
    split
    · exact h
    · rename_i hp
      obtain ⟨h1 | h1, -⟩ := lateSide_post oc k.b s.b (s.onCable.take n)
      · have h3 := (lateSide_posted oc k.b s.b (s.onCable.take n)).2
        obtain ⟨rest, hr⟩ := h.first
        refine ⟨fun hc' => ?_, ⟨rest ++ [s.onCable.take n], ?_⟩, fun _ => ?_⟩
        · simp only [h3.1] at hc'
          omega
        · simp only [h1, hr, List.cons_append]
        · simp only [h3.2]
          exact h.early hc
      · rw [h1] at hp
        exact absurd rfl hp
  | ba n =>
    simp only [LateLink.step]
    split <;> exact ⟨h.silent, h.first, h.early⟩

theorem Calm.run {oc : Bool} {k : LateCable} {s : LateLink} (h : s.Calm) (evs : List LateLinkEv)
    (hc : s.Careful oc k evs) : (s.run oc k evs).Calm := by
  induction evs generalizing s with
  | nil => exact h
  | cons e evs ih => exact ih (h.step e hc.1) hc.2

theorem Calm.initial {k : LateCable} {s : LateLink} (h : s.Initial k) : s.Calm where
  silent := fun _ => h.silent.2.2.2
  first := ⟨[], h.silent.2.2.2⟩
  early := fun hc => by rw [h.b.logs.1] at hc; omega

/-- What was skipped during the initialisation is empty. -/
theorem Calm.skipped {s : LateLink} (h : s.Calm) {skipped rest : List (List Byte)}
    (hs : s.b.shown = skipped ++ rest) (hl : skipped.length ≤ s.b.early) (hc : 2 ≤ s.b.cycles) :
    s.b.shown.flatten = rest.flatten := by
  rw [h.early hc] at hl
  obtain ⟨xs, hx⟩ := h.first
  rw [hs] at hx ⊢
  match skipped, hl with
  | [], _ => rfl
  | [x], _ =>
    simp only [List.cons_append, List.nil_append, List.cons.injEq] at hx
    rw [hx.1]
    rfl
  | _ :: _ :: _, hl => exact absurd hl (by simp)

end Spec.LateLink

/-- C131: whatever is late or lost on both sides, what the second application gets is a contiguous part
of what the first application has written: nothing is missing in between, nothing is doubled and
nothing is out of order. -/
theorem C131_contiguous (oc : Bool) (k : LateCable) (s : LateLink) (h : s.Initial k)
    (evs : List LateLinkEv) (hu : LateLink.OnlyUndecodable oc k evs) :
    let r := s.run oc k evs
    r.b.delivered ++ r.b.buffered k.b.j <:+: r.a.written := by
  intro r
  obtain ⟨⟨ea, ha1, ha2⟩, ⟨eb, hb1, hb2⟩, -, hs⟩ := (LateLink.Inv.initial (oc := oc) h).run evs hu
  have h1 := C129_coupler_sent oc k.a.cfg k.a.j k.a.len k.a.oi k.a.oo s.a h.a ea ha1
  simp only [← ha2] at h1
  have hpre : r.b.shown.flatten <+: r.a.written := by
    rw [hs, ← h1, List.append_assoc]
    exact (List.take_prefix _ _).trans (List.prefix_append _ _)
  by_cases hc : 2 ≤ r.b.cycles
  · have h2 := C129_coupler_received oc k.b.cfg k.b.j k.b.len k.b.oi k.b.oo s.b h.b eb hb1
      (by rw [← hb2]; exact hc)
    simp only [← hb2] at h2
    obtain ⟨skipped, got, ahead, e1, -, -, e4⟩ := h2
    rw [e4]
    refine List.IsInfix.trans ⟨skipped.flatten, ahead.flatten, ?_⟩ hpre.isInfix
    rw [e1]
    simp
  · have h2 := C129_coupler_early oc k.b.cfg k.b.j k.b.len k.b.oi k.b.oo s.b h.b eb hb1
      (by rw [← hb2]; exact Nat.lt_of_not_le hc)
    simp only [← hb2] at h2
    rw [h2]
    exact (List.nil_prefix).isInfix

/-- C131: if the second device presents segments to an initialised module only, what the first
application has written arrives exactly once and in order: it is what the second application has got,
followed by the segment that is presented and not seen yet, if there is one, the bytes on the cable,
those in the image the first application has returned last and those in its queue. -/
theorem C131_exactly_once (oc : Bool) (k : LateCable) (s : LateLink) (h : s.Initial k)
    (evs : List LateLinkEv) (hu : LateLink.OnlyUndecodable oc k evs) (hc : s.Careful oc k evs) :
    let r := s.run oc k evs
    ∃ ahead, (ahead = [] ∨ r.b.shown.getLast? = some ahead) ∧
      r.b.delivered ++ r.b.buffered k.b.j ++ ahead ++ r.onCable ++
        r.a.inFlight k.a.len k.a.oo ++ r.a.queued k.a.j = r.a.written := by
  intro r
  obtain ⟨⟨ea, ha1, ha2⟩, ⟨eb, hb1, hb2⟩, -, hs⟩ := (LateLink.Inv.initial (oc := oc) h).run evs hu
  have hcalm : r.Calm := (LateLink.Calm.initial h).run evs hc
  have h1 := C129_coupler_sent oc k.a.cfg k.a.j k.a.len k.a.oi k.a.oo s.a h.a ea ha1
  simp only [← ha2] at h1
  have key : r.b.shown.flatten ++ r.onCable = r.a.received := by
    rw [hs]
    exact List.take_append_drop _ _
  by_cases hcy : 2 ≤ r.b.cycles
  · have h2 := C129_coupler_received oc k.b.cfg k.b.j k.b.len k.b.oi k.b.oo s.b h.b eb hb1
      (by rw [← hb2]; exact hcy)
    simp only [← hb2] at h2
    obtain ⟨skipped, got, ahead, e1, e2, e3, e4⟩ := h2
    have hsk := hcalm.skipped (rest := got ++ ahead) (by rw [← List.append_assoc]; exact e1) e2 hcy
    have hsum : got.flatten ++ ahead.flatten = r.b.shown.flatten := by
      rw [hsk, List.flatten_append]
    have hfin : r.b.delivered ++ r.b.buffered k.b.j ++ ahead.flatten ++ r.onCable ++
        r.a.inFlight k.a.len k.a.oo ++ r.a.queued k.a.j = r.a.written := by
      rw [e4, hsum, key]
      exact h1
    match ahead, e3 with
    | [], _ => exact ⟨[], .inl rfl, hfin⟩
    | [x], _ =>
      refine ⟨x, .inr (by rw [e1]; simp), ?_⟩
      simpa using hfin
    | _ :: _ :: _, h => exact absurd h (by simp)
  · have h2 := C129_coupler_early oc k.b.cfg k.b.j k.b.len k.b.oi k.b.oo s.b h.b eb hb1
      (by rw [← hb2]; exact Nat.lt_of_not_le hcy)
    simp only [← hb2] at h2
    refine ⟨[], .inl rfl, ?_⟩
    have hz : r.b.shown.flatten = [] := by rw [hcalm.silent (Nat.lt_of_not_le hcy)]; rfl
    rw [hz, List.nil_append] at key
    rw [h2, ← h1, key]
    simp [r]

theorem lateLink_swap_step (oc : Bool) (k : LateCable) (s : LateLink) (e : LateLinkEv) :
    (s.step oc k e).swap = s.swap.step oc k.swap e.swap := by
  cases e <;> (simp only [LateLink.step, LateLinkEv.swap]; rw [apply_ite LateLink.swap]; rfl)

theorem lateLink_swap_run (oc : Bool) (k : LateCable) (s : LateLink) (evs : List LateLinkEv) :
    (s.run oc k evs).swap = s.swap.run oc k.swap (evs.map LateLinkEv.swap) := by
  induction evs generalizing s with
  | nil => rfl
  | cons e evs ih =>
    change ((s.step oc k e).run oc k evs).swap = _
    rw [ih, lateLink_swap_step]
    rfl

/-- C131 in both directions at the same time. -/
theorem C131_both (oc : Bool) (k : LateCable) (s : LateLink) (h : s.Initial k)
    (evs : List LateLinkEv) (hu : LateLink.OnlyUndecodable oc k evs) :
    let r := s.run oc k evs
    r.b.delivered ++ r.b.buffered k.b.j <:+: r.a.written ∧
    r.a.delivered ++ r.a.buffered k.a.j <:+: r.b.written := by
  intro r
  refine ⟨C131_contiguous oc k s h evs hu, ?_⟩
  have hmem : ∀ e, e ∈ evs.map LateLinkEv.swap → e.swap ∈ evs := by
    intro e he
    obtain ⟨x, hx, rfl⟩ := List.mem_map.1 he
    cases x <;> exact hx
  have h2 := C131_contiguous oc k.swap s.swap
    ⟨h.b, h.a, h.silent.2.1, h.silent.1, h.silent.2.2.2, h.silent.2.2.1⟩ (evs.map LateLinkEv.swap)
    ⟨fun pi po hm => hu.2 pi po (hmem _ hm), fun pi po hm => hu.1 pi po (hmem _ hm)⟩
  rw [← lateLink_swap_run] at h2
  exact h2

/-! ### Progress -/

/-- The device sees its last segment acknowledged. -/
def LateAcked (k : LateSide) (s : LatePlant) : Prop :=
  ∃ f, outFrame k.len k.oo s.out = some f ∧ f.rxCntAck = s.rxCnt

theorem lateRound_ack (fl : Bool × Bool) (t : Late) (hi : t.ins = []) (ho : t.outs = []) :
    (t.run (Late.round fl)).out.rxCntAck = (t.run (Late.round fl)).rxCnt := by
  simp only [Late.run, Late.round, List.foldl_cons, List.foldl_nil, Late.step, hi, ho, List.nil_append]
  split <;> rfl

/-- After a round without losses and delays the device sees its segment acknowledged, and the application
has everything it has presented. -/
theorem lateSide_round {oc : Bool} {k : LateSide} {s0 s : LatePlant}
    (h0 : s0.Initial k.cfg k.j k.len k.oi k.oo) (h : LateLink.From oc k s0 s) (hc : 2 ≤ s.cycles)
    (hi : s.ins = []) (ho : s.outs = []) {pi : List Word}
    (hg : LatePlant.GoodRounds oc k.j k.len k.oi k.oo s [pi]) :
    let r := s.rounds oc k.j k.len k.oi k.oo [pi]
    r.ins = [] ∧ r.outs = [] ∧ LateAcked k r ∧ ∃ skipped got, r.shown = skipped ++ got ∧
      skipped.length ≤ r.early ∧ r.delivered ++ r.buffered k.j = got.flatten := by
  obtain ⟨evs, hu, rfl⟩ := h
  have hrd := C129_coupler_read oc k.cfg k.j k.len k.oi k.oo s0 h0 evs hu hc hi ho pi hg
  obtain ⟨t, ht, hsim⟩ := h0.lsim (oc := oc)
  obtain ⟨evs', hs⟩ := hsim.run evs hu
  obtain ⟨fl, hx, h1, h2⟩ := LatePlant_round hs hi ho hg.1 hg.2.1
  have hti : (t.run evs').ins = [] := by
    have := hs.ins
    rw [hi] at this
    exact List.map_eq_nil_iff.1 this.symm
  have hto : (t.run evs').outs = [] := by
    have := hs.outs
    rw [ho] at this
    exact List.map_eq_nil_iff.1 this.symm
  refine ⟨h1, h2, ⟨_, hx.out, ?_⟩, hrd⟩
  rw [← hx.rxCnt]
  exact lateRound_ack fl _ hti hto

theorem lateLink_run_b (oc : Bool) (k : LateCable) (evs : List LatePlantEv)
    (hp : ∀ e ∈ evs, e.Posts = false) (s : LateLink) :
    s.run oc k (evs.map .b) = { s with b := s.b.run oc k.b.j k.b.len k.b.oi k.b.oo evs } := by
  induction evs generalizing s with
  | nil => rfl
  | cons e evs ih =>
    have h1 : s.step oc k (.b e) = { s with b := k.b.step oc s.b e } := by
      simp [LateLink.step, hp e List.mem_cons_self]
    change (s.step oc k (.b e)).run oc k (evs.map .b) = _
    rw [ih (fun e he => hp e (List.mem_cons_of_mem _ he)), h1]
    rfl

theorem lateLink_run_a (oc : Bool) (k : LateCable) (evs : List LatePlantEv)
    (hp : ∀ e ∈ evs, e.Posts = false) (s : LateLink) :
    s.run oc k (evs.map .a) = { s with a := s.a.run oc k.a.j k.a.len k.a.oi k.a.oo evs } := by
  induction evs generalizing s with
  | nil => rfl
  | cons e evs ih =>
    have h1 : s.step oc k (.a e) = { s with a := k.a.step oc s.a e } := by
      simp [LateLink.step, hp e List.mem_cons_self]
    change (s.step oc k (.a e)).run oc k (evs.map .a) = _
    rw [ih (fun e he => hp e (List.mem_cons_of_mem _ he)), h1]
    rfl

theorem lateLink_run_append (oc : Bool) (k : LateCable) (s : LateLink) (xs ys : List LateLinkEv) :
    s.run oc k (xs ++ ys) = (s.run oc k xs).run oc k ys := by
  simp [LateLink.run, List.foldl_append]

/-- The state between relays. -/
structure LateRelayed (oc : Bool) (k : LateCable) (s0 s : LateLink) : Prop where
  inv : LateLink.Inv oc k s0 s
  calm : s.Calm
  cycles : 2 ≤ s.b.cycles
  ins : s.b.ins = []
  outs : s.b.outs = []

theorem LateRelayed.relay {oc : Bool} {k : LateCable} {s0 s : LateLink} (h0 : s0.Initial k)
    (h : LateRelayed oc k s0 s) (r : Nat × List Word)
    (hg : LatePlant.GoodRounds oc k.b.j k.b.len k.b.oi k.b.oo (s.step oc k (.ab r.1)).b [r.2]) :
    let t := s.run oc k (LateLink.relay r)
    LateRelayed oc k s0 t ∧ t.a = s.a ∧ LateAcked k.b t.b ∧
      t.b.delivered ++ t.b.buffered k.b.j = t.b.shown.flatten ∧
      t.onCable.length ≤ s.onCable.length ∧
      (LateAcked k.b s.b → t.onCable = s.onCable.drop r.1) := by
  obtain ⟨n, pi⟩ := r
  intro t
  simp only at hg
  have hnp : ∀ e ∈ [LatePlantEv.sample pi, .arrive, .cycle, .deliver, .take], e.Posts = false := by
    intro e he
    simp only [List.mem_cons, List.not_mem_nil, or_false] at he
    rcases he with rfl | rfl | rfl | rfl | rfl <;> rfl
  have hund : LateLink.OnlyUndecodable oc k (LateLink.relay (n, pi)) :=
    ⟨fun _ _ hm => by simp [LateLink.relay] at hm, fun _ _ hm => by simp [LateLink.relay] at hm⟩
  have hI : LateLink.Inv oc k s0 t := h.inv.run _ hund
  have hC : t.Calm := by
    refine h.calm.run _ ⟨h.cycles, ?_⟩
    simp [LateLink.Careful]
  have hmid : LateLink.Inv oc k s0 (s.step oc k (.ab n)) :=
    h.inv.step _ ⟨fun _ _ hm => by simp at hm, fun _ _ hm => by simp at hm⟩
  have ht : t = { s.step oc k (.ab n) with
      b := (s.step oc k (.ab n)).b.rounds oc k.b.j k.b.len k.b.oi k.b.oo [pi] } := by
    have := lateLink_run_b oc k _ hnp (s.step oc k (.ab n))
    exact this
  have hsame : (s.step oc k (.ab n)).b.ins = [] ∧ (s.step oc k (.ab n)).b.outs = [] ∧
      (s.step oc k (.ab n)).b.cycles = s.b.cycles ∧ (s.step oc k (.ab n)).a = s.a := by
    simp only [LateLink.step]
    split
    · exact ⟨h.ins, h.outs, rfl, rfl⟩
    · simp only [LateSide.step, LatePlant.step]
      (repeat' split) <;> simp [h.ins, h.outs]
  obtain ⟨m1, m2, m3, m4⟩ := hsame
  obtain ⟨g1, g2, g3, skipped, got, g4, g5, g6⟩ := lateSide_round h0.b hmid.b
    (by rw [m3]; exact h.cycles) m1 m2 hg
  have hcy : 2 ≤ t.b.cycles := by
    have key : ∀ (evs : List LatePlantEv), (∀ e ∈ evs, e.Posts = false) → ∀ x : LatePlant,
        x.cycles ≤ (x.run oc k.b.j k.b.len k.b.oi k.b.oo evs).cycles := by
      intro evs hp
      induction evs with
      | nil => exact fun x => Nat.le_refl _
      | cons e evs ih =>
        intro x
        refine Nat.le_trans ?_ (ih (fun e he => hp e (List.mem_cons_of_mem _ he)) _)
        rcases (lateSide_next oc k.b x e (hp e List.mem_cons_self)).cycles with ⟨c, -⟩ | ⟨c, -⟩
        · exact Nat.le_of_eq c.symm
        · exact Nat.le_trans (Nat.le_succ _) (Nat.le_of_eq c.symm)
    have := key _ hnp (s.step oc k (.ab n)).b
    rw [m3] at this
    rw [ht]
    exact Nat.le_trans h.cycles this
  have hbt : t.b = (s.step oc k (.ab n)).b.rounds oc k.b.j k.b.len k.b.oi k.b.oo [pi] := by rw [ht]
  rw [← hbt] at g1 g2 g3 g4 g5 g6
  have hcable : t.onCable = (s.step oc k (.ab n)).onCable := by
    rw [ht]
    rfl
  have hdrop : (s.step oc k (.ab n)).onCable = s.onCable ∨
      (s.step oc k (.ab n)).onCable = s.onCable.drop n := by
    simp only [LateLink.step]
    split
    · exact .inl rfl
    · right
      simp only [LateLink.onCable, List.length_take, List.length_drop, List.drop_drop]
      rcases Nat.le_total n (s.a.received.length - s.ab) with hle | hle
      · rw [Nat.min_eq_left hle]
      · rw [Nat.min_eq_right hle, List.drop_eq_nil_of_le (by omega), List.drop_eq_nil_of_le (by omega)]
  refine ⟨⟨hI, hC, hcy, g1, g2⟩, by rw [ht]; exact m4, g3, ?_, ?_, fun hack => ?_⟩
  · rw [g6]
    exact (hC.skipped g4 g5 hcy).symm
  · rw [hcable]
    rcases hdrop with e | e
    · rw [e]
    · rw [e, List.length_drop]
      exact Nat.sub_le _ _
  · rw [hcable]
    rcases hdrop with e | e
    · have hp := (lateSide_post oc k.b s.b (s.onCable.take n)).2 hack
      have hne : ¬ (k.b.step oc s.b (.post (s.onCable.take n))).shown.length = s.b.shown.length := by
        rw [hp, List.length_append, List.length_singleton]
        omega
      simp only [LateLink.step]
      rw [if_neg hne]
      simp only [LateLink.onCable, List.length_take, List.length_drop, List.drop_drop]
      rcases Nat.le_total n (s.a.received.length - s.ab) with hle | hle
      · rw [Nat.min_eq_left hle]
      · rw [Nat.min_eq_right hle, List.drop_eq_nil_of_le (by omega), List.drop_eq_nil_of_le (by omega)]
    · exact e

theorem LateRelayed.relays {oc : Bool} {k : LateCable} {s0 s : LateLink} (h0 : s0.Initial k)
    (h : LateRelayed oc k s0 s) (hack : LateAcked k.b s.b) (rs : List (Nat × List Word))
    (hg : LateLink.GoodRelays oc k s rs)
    (hlen : s.onCable.length ≤ (rs.map (·.1)).sum)
    (hread : s.b.delivered ++ s.b.buffered k.b.j = s.b.shown.flatten) :
    let t := s.run oc k (rs.flatMap LateLink.relay)
    t.a = s.a ∧ t.b.delivered ++ t.b.buffered k.b.j = s.a.received := by
  induction rs generalizing s with
  | nil =>
    have hz : s.onCable = [] := List.length_eq_zero_iff.1 (Nat.le_zero.1 hlen)
    refine ⟨rfl, ?_⟩
    have : s.b.delivered ++ s.b.buffered k.b.j = s.a.received := by
      rw [hread, h.inv.shown]
      have := List.take_append_drop s.ab s.a.received
      rw [show s.a.received.drop s.ab = [] from hz, List.append_nil] at this
      exact this
    exact this
  | cons r rs ih =>
    obtain ⟨h1, h2, h3, h4, -, h6⟩ := h.relay h0 r hg.1
    have := ih h1 h3 hg.2 (by
      rw [h6 hack, List.length_drop]
      simp only [List.map_cons, List.sum_cons] at hlen
      omega) h4
    rw [h2] at this
    simpa only [List.flatMap_cons, lateLink_run_append] using this

/-- C131, progress: whatever was late or lost before, when nothing is on the way any more then rounds of
the first coupler, followed by rounds of the second one in which the device presents what is on the
cable, bring everything the first application has written to the second one. The first of these rounds
acknowledges what was presented before. -/
theorem C131_progress (oc : Bool) (k : LateCable) (s : LateLink) (h : s.Initial k)
    (evs : List LateLinkEv) (hu : LateLink.OnlyUndecodable oc k evs) (hc : s.Careful oc k evs)
    (ha : (s.run oc k evs).a.ins = [] ∧ (s.run oc k evs).a.outs = [])
    (hb : (s.run oc k evs).b.ins = [] ∧ (s.run oc k evs).b.outs = [])
    (hcy : 2 ≤ (s.run oc k evs).b.cycles) (pis : List (List Word))
    (hg : LatePlant.GoodRounds oc k.a.j k.a.len k.a.oi k.a.oo (s.run oc k evs).a pis)
    (hk : ∀ p, (s.run oc k evs).a.c.processors k.a.j = some p → 3 + p.outData.length ≤ pis.length)
    (first : Nat × List Word) (rs : List (Nat × List Word))
    (hr : LateLink.GoodRelays oc k ((s.run oc k evs).run oc k
      ((pis.flatMap fun pi => [.sample pi, .arrive, .cycle, .deliver, .take]).map .a)) (first :: rs))
    (hlen : (s.run oc k evs).a.written.length ≤ (rs.map (·.1)).sum) :
    let t := ((s.run oc k evs).run oc k
      ((pis.flatMap fun pi => [.sample pi, .arrive, .cycle, .deliver, .take]).map .a)).run oc k
      ((first :: rs).flatMap LateLink.relay)
    t.b.delivered ++ t.b.buffered k.b.j = (s.run oc k evs).a.written := by
  intro t
  have hnp : ∀ e ∈ (pis.flatMap fun pi => [LatePlantEv.sample pi, .arrive, .cycle, .deliver, .take]),
      e.Posts = false := by
    intro e he
    simp only [List.mem_flatMap, List.mem_cons, List.not_mem_nil, or_false] at he
    obtain ⟨pi, -, rfl | rfl | rfl | rfl | rfl⟩ := he <;> rfl
  have hI := (LateLink.Inv.initial (oc := oc) h).run evs hu
  have hC := (LateLink.Calm.initial h).run evs hc
  obtain ⟨ea, ha1, ha2⟩ := hI.a
  have hp := C129_coupler_progress oc k.a.cfg k.a.j k.a.len k.a.oi k.a.oo s.a h.a ea ha1
  rw [← ha2] at hp
  obtain ⟨hp, -⟩ := hp ha.1 ha.2 pis hg hk
  have hrun := lateLink_run_a oc k _ hnp (s.run oc k evs)
  have hund : LateLink.OnlyUndecodable oc k
      ((pis.flatMap fun pi => [LatePlantEv.sample pi, .arrive, .cycle, .deliver, .take]).map .a) := by
    refine ⟨fun pi po hm => ?_, fun pi po hm => ?_⟩
    · simp at hm
    · simp at hm
  have hI' := hI.run _ hund
  have hR : LateRelayed oc k s ((s.run oc k evs).run oc k
      ((pis.flatMap fun pi => [.sample pi, .arrive, .cycle, .deliver, .take]).map .a)) := by
    refine ⟨hI', ?_, ?_, ?_, ?_⟩
    · rw [hrun]
      exact ⟨hC.silent, hC.first, hC.early⟩
    · rw [hrun]; exact hcy
    · rw [hrun]; exact hb.1
    · rw [hrun]; exact hb.2
  obtain ⟨r1, r2, r3, r4, r5, -⟩ := hR.relay h first hr.1
  have hrec : ((s.run oc k evs).run oc k ((pis.flatMap fun pi =>
      [.sample pi, .arrive, .cycle, .deliver, .take]).map .a)).a.received =
      (s.run oc k evs).a.written := by
    rw [hrun]
    exact hp
  have hfin := (r1.relays h r3 rs hr.2 (by
    refine Nat.le_trans r5 (Nat.le_trans ?_ hlen)
    rw [← hrec, LateLink.onCable, List.length_drop]
    exact Nat.sub_le _ _) r4).2
  rw [r2, hrec] at hfin
  simpa only [t, List.flatMap_cons, lateLink_run_append] using hfin

/-! ### The hypotheses are satisfiable -/

/-- Two couplers as in `exLatePlant`, connected by a cable. -/
def exLateCable : LateCable :=
  ⟨⟨exCfg, 3, .EightBytes, 0x0010#16, 0x8010#16⟩, ⟨exCfg, 3, .EightBytes, 0x0010#16, 0x8010#16⟩⟩

/-- Their initial state. -/
def exLateLink : LateLink := ⟨exLatePlant, exLatePlant, 0, 0⟩

theorem exLateLink_initial : exLateLink.Initial exLateCable :=
  ⟨exLatePlant_initial, exLatePlant_initial, rfl, rfl, rfl, rfl⟩

/-- The first application writes a byte, and all images with it are lost; the second module has been
initialised. -/
def exLateSched : List LateLinkEv :=
  [.b .cycle, .b .cycle, .b (.loseOut 0), .b (.loseOut 0), .a (.write [7#8]), .a .cycle, .a .cycle,
    .a .cycle, .a (.loseOut 0), .a (.loseOut 0), .a (.loseOut 0)]

theorem exLateSched_ok : LateLink.OnlyUndecodable true exLateCable exLateSched ∧
    exLateLink.Careful true exLateCable exLateSched :=
  ⟨⟨fun _ _ h => by simp [exLateSched] at h, fun _ _ h => by simp [exLateSched] at h⟩,
    by simp [exLateSched, LateLink.Careful]⟩

/-- The images of the inputs of the rounds that follow. -/
def exLateRounds : List (List Word) := [exPi, exPi.set 1 0x0020#16, exPi.set 1 0x0020#16]

/-- The first presents the byte, the second an empty segment. -/
def exLateRelays : List (Nat × List Word) :=
  [(5, (exPi.set 1 0x0109#16).set 2 0x0007#16), (5, exPi.set 1 0x0011#16)]

theorem ok_of_isOk {α : Type} {x : Res α} (h : (match x with | .ok _ => true | _ => false) = true) :
    ∃ v, x = .ok v := by
  cases x with
  | ok v => exact ⟨v, rfl⟩
  | _ => cases h

theorem some_of_all {α : Type} {x : Option α} {P : α → Prop} [DecidablePred P]
    (h : x.any (fun v => decide (P v)) = true) : ∃ v, x = some v ∧ P v := by
  cases x with
  | none => cases h
  | some v => exact ⟨v, rfl, of_decide_eq_true h⟩

/-- The hypotheses of `C131_progress` are met, and the byte arrives. -/
example :
    let s := exLateLink.run true exLateCable exLateSched
    let m := s.run true exLateCable
      ((exLateRounds.flatMap fun pi => [.sample pi, .arrive, .cycle, .deliver, .take]).map .a)
    (s.a.ins = [] ∧ s.a.outs = []) ∧ (s.b.ins = [] ∧ s.b.outs = []) ∧ 2 ≤ s.b.cycles ∧
      LatePlant.GoodRounds true 3 .EightBytes 0x0010#16 0x8010#16 s.a exLateRounds ∧
      LateLink.GoodRelays true exLateCable m exLateRelays ∧ s.a.written = [7#8] ∧
      (m.run true exLateCable (exLateRelays.flatMap LateLink.relay)).b.buffered 3 = [7#8] := by
  refine ⟨by decide +kernel, by decide +kernel, by decide +kernel,
    ⟨some_of_all (by decide +kernel), ok_of_isOk (by decide +kernel), some_of_all (by decide +kernel),
      ok_of_isOk (by decide +kernel), some_of_all (by decide +kernel), ok_of_isOk (by decide +kernel),
      trivial⟩,
    ⟨⟨some_of_all (by decide +kernel), ok_of_isOk (by decide +kernel), trivial⟩,
      ⟨some_of_all (by decide +kernel), ok_of_isOk (by decide +kernel), trivial⟩, trivial⟩, by decide +kernel, by decide +kernel⟩

/-- Without care: the second device presents the byte before its module has been initialised, the first
cycle acknowledges it, the device presents the next segment, and the byte is lost. -/
example :
    let t := exLateLink.run true exLateCable [.a (.write [7#8]), .a .cycle, .a .cycle, .a .cycle,
      .a .deliver, .a .deliver, .a .deliver, .a .take, .ab 5,
      .b (.sample ((exPi.set 1 0x0109#16).set 2 0x0007#16)), .b .arrive, .b .cycle, .b .deliver, .ab 0,
      .b (.sample (exPi.set 1 0x0011#16)), .b .arrive, .b .cycle, .b .cycle]
    t.b.shown = [[], [7#8], []] ∧ t.b.delivered ++ t.b.buffered 3 = [] ∧ t.onCable = [] ∧
      t.a.queued 3 = [] ∧ t.a.inFlight .EightBytes 0x8010#16 = [] := by
  decide +kernel

end Ur20
