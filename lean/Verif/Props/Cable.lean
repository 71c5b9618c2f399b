import Verif.Spec.Cable
import Verif.Props.Network

/-! # A cable between two serial modules: C115 -/

namespace Ur20

open Spec Com Coupler
open scoped List

theorem Spec.NEv.presents_iff {j : Nat} {e : NEv} :
    e.Presents j = true ↔ ∃ seg, e = .post j seg := by
  cases e <;> simp [NEv.Presents]

theorem Spec.NEv.presents_post {j : Nat} {e : NEv} {seg : List Byte} (h : e = .post j seg) :
    e.Presents j = true := NEv.presents_iff.2 ⟨seg, h⟩

namespace Spec.Net

variable {oc : Bool} {cfg : CouplerConfig} {w : Wiring}

/-- What a device has taken over only grows. -/
theorem received_grows (s : Net) (e : NEv) (j : Nat) :
    ∃ l, ((s.step oc cfg w e).line j).received = (s.line j).received ++ l := by
  have same : ∀ {t : Net}, (t.line j).received = (s.line j).received →
      ∃ l, (t.line j).received = (s.line j).received ++ l := fun h => ⟨[], by simp [h]⟩
  have set : ∀ {t : Net} (i : Nat) (l : Line), t.line = s.line →
      l.received = (s.line i).received →
      ((t.setLine i l).line j).received = (s.line j).received := by
    intro t i l h1 h2
    by_cases hij : i = j
    · subst hij; rw [setLine_at_self, h2]
    · rw [setLine_at_ne hij, h1]
  cases e with
  | write i buf => simp only [step]; split; exacts [same (set i _ rfl rfl), same rfl]
  | read i n =>
    simp only [step]
    split
    · split
      · exact same (set i _ rfl rfl)
      · exact same rfl
    · exact same rfl
  | set i v => simp only [step]; split; exacts [same (set i _ rfl rfl), same rfl]
  | other op => simp only [step]; split <;> exact same rfl
  | start pi =>
    simp only [step]
    split
    · split
      · refine same ?_
        simp only [Line.cycled]; split <;> rfl
      · exact same rfl
    · exact same rfl
  | failing pi =>
    simp only [step]
    split
    · split
      · split
        · refine same ?_
          simp only [Line.cycled]; split <;> rfl
        · exact same rfl
      · exact same rfl
    · exact same rfl
  | finish => simp only [step]; split <;> exact same rfl
  | lost => exact same rfl
  | crash => simp only [step]; split <;> exact same rfl
  | take i =>
    simp only [step]
    split
    · split
      · split
        · by_cases hij : i = j
          · subst hij
            rw [setLine_at_self]
            exact ⟨_, rfl⟩
          · exact same (by rw [setLine_at_ne hij])
        · exact same rfl
      · exact same rfl
    · exact same rfl
  | post i seg =>
    simp only [step]
    split
    · split
      · split
        · exact same (set i _ rfl rfl)
        · exact same rfl
      · exact same rfl
    · exact same rfl
  | hide i =>
    simp only [step]
    split
    · split
      · split
        · exact same (set i _ rfl rfl)
        · exact same rfl
      · exact same rfl
    · exact same rfl

/-- Two states of a device that present the same and have shown the same. -/
structure SameRx (l l' : Line) : Prop where
  avail : l'.avail = l.avail
  fresh : l'.fresh = l.fresh
  rxData : l'.rxData = l.rxData
  rxCnt : l'.rxCnt = l.rxCnt
  seen : l'.seen = l.seen

theorem SameRx.refl (l : Line) : SameRx l l := ⟨rfl, rfl, rfl, rfl, rfl⟩

/-- What a step can do to what a device presents, if it does not present a new segment and the
application does not crash. -/
theorem step_rx (s : Net) (e : NEv) (j : Nat) (hc : e ≠ .crash) (hp : ∀ seg, e ≠ .post j seg) :
    let t := s.step oc cfg w e
    (SameRx (s.line j) (t.line j) ∧ t.cycles = s.cycles ∧ t.out = s.out ∧ t.pending = s.pending) ∨
    (SameRx ((s.line j).cycled (s.cycles + 1)) (t.line j) ∧ t.cycles = s.cycles + 1) ∨
    (SameRx (s.line j) (t.line j) ∧ t.cycles = s.cycles ∧ t.pending = none ∧
      (t.out = s.out ∨ s.pending = some t.out)) ∨
    ((t.line j).avail = false ∧ (t.line j).seen = (s.line j).seen ∧
      ∃ f, outFrame (w.wire j).len (w.wire j).oo s.out = some f ∧ f.rxCntAck = (s.line j).rxCnt) := by
  have same : ∀ {t : Net}, t.line = s.line → t.cycles = s.cycles → t.out = s.out →
      t.pending = s.pending → SameRx (s.line j) (t.line j) ∧ t.cycles = s.cycles ∧ t.out = s.out ∧
        t.pending = s.pending := by
    intro t h1 h2 h3 h4
    exact ⟨by rw [h1]; exact .refl _, h2, h3, h4⟩
  have set : ∀ {t : Net} (i : Nat) (l : Line), t.line = s.line → t.cycles = s.cycles →
      t.out = s.out → t.pending = s.pending → SameRx (s.line i) l →
      SameRx (s.line j) ((t.setLine i l).line j) ∧ (t.setLine i l).cycles = s.cycles ∧
        (t.setLine i l).out = s.out ∧ (t.setLine i l).pending = s.pending := by
    intro t i l h1 h2 h3 h4 h5
    refine ⟨?_, h2, h3, h4⟩
    by_cases hij : i = j
    · subst hij; rw [setLine_at_self]; exact h5
    · rw [setLine_at_ne hij, h1]; exact .refl _
  intro t
  cases e with
  | write i buf =>
    simp only [t, step]
    split
    exacts [.inl (set i _ rfl rfl rfl rfl ⟨rfl, rfl, rfl, rfl, rfl⟩), .inl (same rfl rfl rfl rfl)]
  | read i n =>
    simp only [t, step]
    split
    · split
      · exact .inl (set i _ rfl rfl rfl rfl ⟨rfl, rfl, rfl, rfl, rfl⟩)
      · exact .inl (same rfl rfl rfl rfl)
    · exact .inl (same rfl rfl rfl rfl)
  | set i v =>
    simp only [t, step]
    split
    exacts [.inl (set i _ rfl rfl rfl rfl ⟨rfl, rfl, rfl, rfl, rfl⟩), .inl (same rfl rfl rfl rfl)]
  | other op => simp only [t, step]; split <;> exact .inl (same rfl rfl rfl rfl)
  | start pi =>
    simp only [t, step]
    split
    · split
      · exact .inr (.inl ⟨.refl _, rfl⟩)
      · exact .inl (same rfl rfl rfl rfl)
    · exact .inl (same rfl rfl rfl rfl)
  | failing pi =>
    simp only [t, step]
    split
    · split
      · split
        · exact .inr (.inl ⟨.refl _, rfl⟩)
        · exact .inl (same rfl rfl rfl rfl)
      · exact .inl (same rfl rfl rfl rfl)
    · exact .inl (same rfl rfl rfl rfl)
  | finish =>
    simp only [t, step]
    split
    · rename_i img hi
      exact .inr (.inr (.inl ⟨.refl _, rfl, rfl, .inr hi⟩))
    · exact .inl (same rfl rfl rfl rfl)
  | lost => exact .inr (.inr (.inl ⟨.refl _, rfl, rfl, .inl rfl⟩))
  | crash => exact absurd rfl hc
  | take i =>
    simp only [t, step]
    split
    · split
      · split
        · exact .inl (set i _ rfl rfl rfl rfl ⟨rfl, rfl, rfl, rfl, rfl⟩)
        · exact .inl (same rfl rfl rfl rfl)
      · exact .inl (same rfl rfl rfl rfl)
    · exact .inl (same rfl rfl rfl rfl)
  | post i seg =>
    have hij : i ≠ j := by rintro rfl; exact hp seg rfl
    have hset : ∀ l, SameRx (s.line j) ((s.setLine i l).line j) ∧
        (s.setLine i l).cycles = s.cycles ∧ (s.setLine i l).out = s.out ∧
        (s.setLine i l).pending = s.pending :=
      fun l => ⟨by rw [setLine_at_ne hij]; exact .refl _, rfl, rfl, rfl⟩
    simp only [t, step]
    split
    · split
      · split
        · exact .inl (hset _)
        · exact .inl (same rfl rfl rfl rfl)
      · exact .inl (same rfl rfl rfl rfl)
    · exact .inl (same rfl rfl rfl rfl)
  | hide i =>
    simp only [t, step]
    split
    · split
      · rename_i f hf
        split
        · rename_i ha
          by_cases hij : i = j
          · subst hij
            refine .inr (.inr (.inr ?_))
            rw [setLine_at_self]
            exact ⟨rfl, rfl, f, hf, ha⟩
          · exact .inl ⟨by rw [setLine_at_ne hij]; exact .refl _, rfl, rfl, rfl⟩
        · exact .inl (same rfl rfl rfl rfl)
      · exact .inl (same rfl rfl rfl rfl)
    · exact .inl (same rfl rfl rfl rfl)

/-- What a new segment does, and when it is presented. -/
theorem post_rx (s : Net) (j : Nat) (seg : List Byte)
    (h : ((s.step oc cfg w (.post j seg)).line j).rxCnt ≠ (s.line j).rxCnt) :
    let t := s.step oc cfg w (.post j seg)
    (∃ f, outFrame (w.wire j).len (w.wire j).oo s.out = some f ∧ f.rxCntAck = (s.line j).rxCnt) ∧
    (t.line j).avail = true ∧ (t.line j).fresh = true ∧ (t.line j).rxData = seg ∧
      (t.line j).seen = (s.line j).seen ∧ t.cycles = s.cycles ∧ t.out = s.out ∧
      t.pending = s.pending := by
  intro t
  simp only [t, step] at h ⊢
  split at h
  · rename_i hj
    split at h
    · rename_i f hf
      split at h
      · rename_i ha
        rw [if_pos hj, if_pos ha]
        refine ⟨⟨f, hf, ha⟩, ?_⟩
        rw [setLine_at_self]
        exact ⟨rfl, rfl, rfl, rfl, rfl, rfl, rfl⟩
      · exact absurd rfl h
    · exact absurd rfl h
  · exact absurd rfl h

theorem run_append (s : Net) (a b : List NEv) :
    s.run oc cfg w (a ++ b) = (s.run oc cfg w a).run oc cfg w b := by
  simp [run, List.foldl_append]

theorem onlyUndecodable_snoc (s : Net) (evs : List NEv) (e : NEv)
    (h : s.OnlyUndecodable oc cfg w evs) (he : (s.run oc cfg w evs).Lossless cfg e) :
    s.OnlyUndecodable oc cfg w (evs ++ [e]) := by
  induction evs generalizing s with
  | nil => exact ⟨by cases e <;> exact he, trivial⟩
  | cons x evs ih => exact ⟨h.1, ih _ h.2 he⟩

end Spec.Net

/-- The result of a cycle that is under way acknowledges the segment that is presented, if the image
the device sees does. -/
theorem pending_ack {oc : Bool} {cfg : CouplerConfig} {w : Wiring} {s : Net} (h : s.Initial cfg w)
    (evs : List NEv) (hc : NoCrashesN evs) {j : Nat} (hj : j ∈ w.modules) :
    let r := s.run oc cfg w evs
    (r.line j).rxCnt < 4 ∧
    ∀ f, outFrame (w.wire j).len (w.wire j).oo r.out = some f → f.rxCntAck = (r.line j).rxCnt →
      ∀ img g, r.pending = some img → outFrame (w.wire j).len (w.wire j).oo img = some g →
        g.rxCntAck = (r.line j).rxCnt := by
  intro r
  obtain ⟨sevs, h1, h2, -⟩ := Net.run_at (oc := oc) hj (Net.initial_accepts h) s evs
  obtain ⟨hi, he⟩ := Net.initial_at h hj
  rw [he] at h1
  obtain ⟨t, tevs, t1, t2, t3, -⟩ := Sending.initial_run (oc := oc) hi sevs
  rw [← h1] at t2
  have hrx : (t.urun (w.wire j).len tevs).RxInv := by
    have key : ∀ (es : List UEv) (x : Sys), x.RxInv → NoCrash es →
        (x.urun (w.wire j).len es).RxInv := by
      intro es
      induction es with
      | nil => exact fun x hx _ => hx
      | cons e es ih =>
        intro x hx hn
        refine ih _ ?_ fun y hy => hn y (List.mem_cons_of_mem _ hy)
        cases e with
        | ev e => exact hx.step e
        | lost => exact hx.lost
        | crash => exact absurd rfl (hn _ List.mem_cons_self)
    exact key _ _ (.initial t1) (t3 (h2 hc))
  have hsim := t2.sim
  have hrc : (t.urun (w.wire j).len tevs).rxCnt = (r.line j).rxCnt := hsim.rxCnt
  refine ⟨hrc ▸ hrx.cnt, fun f hf ha img g hp hg => ?_⟩
  have hout : outFrame (w.wire j).len (w.wire j).oo r.out = some (t.urun (w.wire j).len tevs).out :=
    hsim.out
  have hpend : r.pending.map (outFrame (w.wire j).len (w.wire j).oo) =
    (t.urun (w.wire j).len tevs).pending.map some := hsim.pending
  rw [hout] at hf
  cases hf
  rw [hp, Option.map_some, hg] at hpend
  cases hq : (t.urun (w.wire j).len tevs).pending with
  | none => rw [hq] at hpend; simp at hpend
  | some q =>
    rw [hq] at hpend
    simp only [Option.map_some, Option.some.injEq] at hpend
    subst hpend
    rcases hrx.pend g hq with h | ⟨h, -⟩
    · rw [h, hrc]
    · exact absurd (ha.trans hrc.symm) h

/-- The presented segment has not been acknowledged, as long as the module has not seen it. -/
def Unacked (w : Wiring) (j : Nat) (s : Net) : Prop :=
  (s.line j).avail = true → (s.line j).fresh = true →
    2 ≤ s.cycles ∧
    (∀ f, outFrame (w.wire j).len (w.wire j).oo s.out = some f → f.rxCntAck ≠ (s.line j).rxCnt) ∧
    ∀ img f, s.pending = some img → outFrame (w.wire j).len (w.wire j).oo img = some f →
      f.rxCntAck ≠ (s.line j).rxCnt

/-- What the device has shown to the initialised module and what it presents. -/
def shownBy (l : Line) : List Byte :=
  l.seen ++ (if l.avail = true ∧ l.fresh = true then l.rxData else [])

theorem shownBy_same {l l' : Line} (h : Net.SameRx l l') : shownBy l' = shownBy l := by
  simp only [shownBy, h.avail, h.fresh, h.rxData, h.seen]

theorem shownBy_cycled (l : Line) (n : Nat) : shownBy (l.cycled n) = shownBy l := by
  simp only [Line.cycled]
  split
  · rename_i h
    simp [shownBy, h.2.1, h.2.2]
  · rfl

theorem shownBy_step {oc : Bool} {cfg : CouplerConfig} {w : Wiring} (s : Net) (e : NEv) (j : Nat)
    (hc : e ≠ .crash) (hp : ∀ seg, e ≠ .post j seg) :
    shownBy ((s.step oc cfg w e).line j) <+ shownBy (s.line j) := by
  rcases Net.step_rx (oc := oc) (cfg := cfg) (w := w) s e j hc hp with
    ⟨h, -⟩ | ⟨h, -⟩ | ⟨h, -⟩ | ⟨h1, h2, -⟩
  · rw [shownBy_same h]
  · rw [shownBy_same h, shownBy_cycled]
  · rw [shownBy_same h]
  · simp [shownBy, h1, h2]

theorem unacked_step {oc : Bool} {cfg : CouplerConfig} {w : Wiring} (s : Net) (e : NEv) (j : Nat)
    (hc : e ≠ .crash) (hp : ∀ seg, e ≠ .post j seg) (hk : Unacked w j s) :
    Unacked w j (s.step oc cfg w e) ∧
      shownBy ((s.step oc cfg w e).line j) = shownBy (s.line j) := by
  rcases Net.step_rx (oc := oc) (cfg := cfg) (w := w) s e j hc hp with
    ⟨h, h1, h2, h3⟩ | ⟨h, h1⟩ | ⟨h, h1, h2, h3⟩ | ⟨h1, h2, f, h3, h4⟩
  · refine ⟨?_, shownBy_same h⟩
    simp only [Unacked, h.avail, h.fresh, h.rxCnt, h1, h2, h3]
    exact hk
  · refine ⟨?_, by rw [shownBy_same h, shownBy_cycled]⟩
    intro ha hf
    rw [h.avail] at ha
    rw [h.fresh] at hf
    simp only [Line.cycled] at ha hf
    split at ha
    · rename_i hg; rw [if_pos hg] at hf; simp at hf
    · rename_i hg
      rw [if_neg hg] at hf
      have := (hk ha hf).1
      exact absurd ⟨by omega, ha, hf⟩ hg
  · refine ⟨?_, shownBy_same h⟩
    intro ha hf
    rw [h.avail] at ha
    rw [h.fresh] at hf
    obtain ⟨k1, k2, k3⟩ := hk ha hf
    rw [h.rxCnt, h1, h2]
    refine ⟨k1, ?_, by simp⟩
    rcases h3 with h3 | h3
    · rw [h3]; exact k2
    · exact fun f hf => k3 _ f h3 hf
  · refine ⟨fun ha => by rw [h1] at ha; simp at ha, ?_⟩
    have : ¬ ((s.line j).avail = true ∧ (s.line j).fresh = true) :=
      fun hh => (hk hh.1 hh.2).2.1 f h3 h4
    simp [shownBy, h1, h2, this]

namespace Spec.Link

variable {oc : Bool} {k : Cable}

/-- What holds in every schedule in which the second application does not crash. -/
structure Inv (oc : Bool) (k : Cable) (s0 s : Link) : Prop where
  a : ∃ evs, s.a = s0.a.run oc k.cfgA k.wA evs
  b : ∃ evs, NoCrashesN evs ∧ s.b = s0.b.run oc k.cfgB k.wB evs
  shown : shownBy (s.b.line k.jB) <+ (s.a.line k.jA).received.take s.ab
  count : s.ab ≤ (s.a.line k.jA).received.length

/-- What holds in addition in a careful schedule. -/
structure Exact (oc : Bool) (k : Cable) (s0 s : Link) : Prop where
  a : ∃ evs, s0.a.OnlyUndecodable oc k.cfgA k.wA evs ∧ s.a = s0.a.run oc k.cfgA k.wA evs
  unacked : Unacked k.wB k.jB s.b
  shown : shownBy (s.b.line k.jB) = (s.a.line k.jA).received.take s.ab

theorem snoc_a {s : Net} {cfg : CouplerConfig} {w : Wiring} (evs : List NEv) (e : NEv) :
    (s.run oc cfg w evs).step oc cfg w e = s.run oc cfg w (evs ++ [e]) := by
  simp [Net.run, List.foldl_append]

theorem grow_take {l l' : List Byte} {n : Nat} (h : n ≤ l.length) : (l ++ l').take n = l.take n := by
  rw [List.take_append_of_le_length h]

theorem take_grow (l : List Byte) (n m : Nat) :
    l.take (n + ((l.drop n).take m).length) = l.take n ++ (l.drop n).take m := by
  rw [List.take_add]
  congr 1
  simp only [List.length_take]
  rw [Nat.min_comm, ← List.take_take, List.take_of_length_le (by simp)]

theorem Inv.step {s0 s : Link} (h : Inv oc k s0 s) (e : LEv) (he : e ≠ .b .crash) :
    Inv oc k s0 (s.step oc k e) := by
  obtain ⟨⟨ea, ha⟩, ⟨eb, hb1, hb2⟩, hs, hc⟩ := h
  cases e with
  | a e =>
    simp only [Link.step]
    split
    · exact ⟨⟨ea, ha⟩, ⟨eb, hb1, hb2⟩, hs, hc⟩
    · obtain ⟨l, hl⟩ := Net.received_grows (oc := oc) (cfg := k.cfgA) (w := k.wA) s.a e k.jA
      refine ⟨⟨ea ++ [e], ?_⟩, ⟨eb, hb1, hb2⟩, ?_, ?_⟩
      · rw [← snoc_a, ← ha]
      · simp only [hl, grow_take hc]; exact hs
      · simp only [hl, List.length_append]; omega
  | b e =>
    simp only [Link.step]
    split
    · exact ⟨⟨ea, ha⟩, ⟨eb, hb1, hb2⟩, hs, hc⟩
    · rename_i hp
      have hne : e ≠ .crash := by rintro rfl; exact he rfl
      refine ⟨⟨ea, ha⟩, ⟨eb ++ [e], ?_, ?_⟩, ?_, hc⟩
      · intro x hx
        rcases List.mem_append.1 hx with hx | hx
        · exact hb1 x hx
        · cases List.mem_singleton.1 hx; exact hne
      · rw [← snoc_a, ← hb2]
      · exact (shownBy_step s.b e k.jB hne fun seg hh => hp (NEv.presents_post hh)).trans hs
  | ab n =>
    simp only [Link.step]
    split
    · exact ⟨⟨ea, ha⟩, ⟨eb, hb1, hb2⟩, hs, hc⟩
    · rename_i hne
      obtain ⟨-, p1, p2, p3, p4, -⟩ := Net.post_rx s.b k.jB _ hne
      refine ⟨⟨ea, ha⟩, ⟨eb ++ [.post k.jB ((s.onCable k).take n)], ?_, ?_⟩, ?_, ?_⟩
      · intro x hx
        rcases List.mem_append.1 hx with hx | hx
        · exact hb1 x hx
        · cases List.mem_singleton.1 hx; simp
      · rw [← snoc_a, ← hb2]
      · simp only [shownBy, p1, p2, p3, p4, and_self, if_true]
        simp only [onCable, take_grow]
        exact List.Sublist.append ((List.sublist_append_left _ _).trans hs) (List.Sublist.refl _)
      · simp only [onCable, List.length_take, List.length_drop]; omega
  | ba n =>
    simp only [Link.step]
    split
    · exact ⟨⟨ea, ha⟩, ⟨eb, hb1, hb2⟩, hs, hc⟩
    · obtain ⟨l, hl⟩ := Net.received_grows (oc := oc) (cfg := k.cfgA) (w := k.wA) s.a
        (.post k.jA ((s.onCableBack k).take n)) k.jA
      refine ⟨⟨ea ++ [.post k.jA ((s.onCableBack k).take n)], ?_⟩, ⟨eb, hb1, hb2⟩, ?_, ?_⟩
      · rw [← snoc_a, ← ha]
      · simp only [hl, grow_take hc]; exact hs
      · simp only [hl, List.length_append]; omega

theorem Exact.step {s0 s : Link} (h0 : s0.Initial k) (hi : Inv oc k s0 s) (h : Exact oc k s0 s)
    (e : LEv) (he : e ≠ .b .crash) (hg : match e with
      | .a (.failing pi) => ¬ Decodable k.cfgA pi s.a.out
      | .a .lost => False
      | .a .crash => False
      | .ab _ => 2 ≤ s.b.cycles
      | _ => True) : Exact oc k s0 (s.step oc k e) := by
  obtain ⟨⟨ea, hu, ha⟩, hk, hs⟩ := h
  have hc := hi.count
  cases e with
  | a e =>
    simp only [Link.step]
    split
    · exact ⟨⟨ea, hu, ha⟩, hk, hs⟩
    · obtain ⟨l, hl⟩ := Net.received_grows (oc := oc) (cfg := k.cfgA) (w := k.wA) s.a e k.jA
      refine ⟨⟨ea ++ [e], Net.onlyUndecodable_snoc _ _ _ hu ?_, ?_⟩, hk, ?_⟩
      · rw [← ha]; cases e <;> exact hg
      · rw [← snoc_a, ← ha]
      · simp only [hl, grow_take hc]; exact hs
  | b e =>
    simp only [Link.step]
    split
    · exact ⟨⟨ea, hu, ha⟩, hk, hs⟩
    · rename_i hp
      have hne : e ≠ .crash := by rintro rfl; exact he rfl
      obtain ⟨q1, q2⟩ := unacked_step (oc := oc) (cfg := k.cfgB) s.b e k.jB hne
        (fun seg hh => hp (NEv.presents_post hh)) hk
      exact ⟨⟨ea, hu, ha⟩, q1, q2.trans hs⟩
  | ab n =>
    simp only [Link.step]
    split
    · exact ⟨⟨ea, hu, ha⟩, hk, hs⟩
    · rename_i hne
      obtain ⟨⟨f, hf, hfa⟩, p1, p2, p3, p4, p5, p6, p7⟩ := Net.post_rx s.b k.jB _ hne
      obtain ⟨eb, hb1, hb2⟩ := hi.b
      have hpa := pending_ack (oc := oc) h0.b eb hb1 h0.jB
      rw [← hb2] at hpa
      have hold : ¬ ((s.b.line k.jB).avail = true ∧ (s.b.line k.jB).fresh = true) :=
        fun hh => (hk hh.1 hh.2).2.1 f hf hfa
      refine ⟨⟨ea, hu, ha⟩, ?_, ?_⟩
      · intro _ _
        refine ⟨p5 ▸ hg, ?_, ?_⟩
        · intro g hgf hga
          rw [p6, hf] at hgf
          cases hgf
          exact hne (hga.symm.trans hfa)
        · intro img g hgi hgf hga
          rw [p7] at hgi
          exact hne (hga.symm.trans (hpa.2 f hf hfa img g hgi hgf))
      · simp only [shownBy, p1, p2, p3, p4, and_self, if_true]
        simp only [onCable, take_grow]
        rw [← hs]
        simp [shownBy, hold]
  | ba n =>
    simp only [Link.step]
    split
    · exact ⟨⟨ea, hu, ha⟩, hk, hs⟩
    · obtain ⟨l, hl⟩ := Net.received_grows (oc := oc) (cfg := k.cfgA) (w := k.wA) s.a
        (.post k.jA ((s.onCableBack k).take n)) k.jA
      refine ⟨⟨ea ++ [.post k.jA ((s.onCableBack k).take n)],
        Net.onlyUndecodable_snoc _ _ (.post _ _) hu trivial, ?_⟩, hk, ?_⟩
      · rw [← snoc_a, ← ha]
      · simp only [hl, grow_take hc]; exact hs

theorem Inv.initial {s : Link} (h : s.Initial k) : Inv oc k s s where
  a := ⟨[], rfl⟩
  b := ⟨[], by simp [NoCrashesN], rfl⟩
  shown := by
    have hl := h.b.logs k.jB h.jB
    simp [shownBy, hl.2.2.1, h.silent.2.2.2]
  count := by simp [h.silent.1]

theorem Exact.initial {s : Link} (h : s.Initial k) : Exact oc k s s where
  a := ⟨[], trivial, rfl⟩
  unacked := fun ha => by simp [h.silent.2.2.2] at ha
  shown := by
    have hl := h.b.logs k.jB h.jB
    simp [shownBy, hl.2.2.1, h.silent.2.2.2, h.silent.1]

theorem Inv.run {s0 s : Link} (h : Inv oc k s0 s) (evs : List LEv) (he : SecondLives evs) :
    Inv oc k s0 (s.run oc k evs) := by
  induction evs generalizing s with
  | nil => exact h
  | cons e evs ih =>
    exact ih (h.step e (he e List.mem_cons_self)) fun x hx => he x (List.mem_cons_of_mem _ hx)

theorem Exact.run {s0 s : Link} (h0 : s0.Initial k) (hi : Inv oc k s0 s) (h : Exact oc k s0 s)
    (evs : List LEv) (he : SecondLives evs) (hg : s.Careful oc k evs) :
    Exact oc k s0 (s.run oc k evs) := by
  induction evs generalizing s with
  | nil => exact h
  | cons e evs ih =>
    have hne := he e List.mem_cons_self
    exact ih (hi.step e hne) (h.step h0 hi e hne (by cases e <;> first | exact hg.1 | (rename_i e; cases e <;> exact hg.1)))
      (fun x hx => he x (List.mem_cons_of_mem _ hx)) hg.2

end Spec.Link

/-- C115: whatever cycles fail and whatever images are lost on both sides, and wherever the first
application crashes: what the second application has read, what it can read, what its device presents,
what is on the cable, in flight and queued are bytes that the first application has written, each at
most once and in this order. -/
theorem C115_order (oc : Bool) (k : Cable) (s : Link) (h : s.Initial k) (evs : List LEv)
    (he : SecondLives evs) :
    let r := s.run oc k evs
    (r.b.line k.jB).delivered ++ r.b.buffered k.jB ++ r.presented k ++ r.onCable k ++
      r.a.inFlight k.wA k.jA ++ r.a.queued k.jA <+ (r.a.line k.jA).written := by
  intro r
  obtain ⟨⟨ea, ha⟩, ⟨eb, hb1, hb2⟩, hs, hc⟩ := (Link.Inv.initial (oc := oc) h).run evs he
  have h1 := C95_order oc k.cfgA k.wA s.a h.a ea k.jA h.jA
  have h2 := C95_receive oc k.cfgB k.wB s.b h.b eb hb1 k.jB h.jB
  simp only [← ha, ← hb2] at h1 h2
  rw [h2]
  refine List.Sublist.trans ?_ h1
  refine List.Sublist.append (List.Sublist.append ?_ (List.Sublist.refl _)) (List.Sublist.refl _)
  have := List.Sublist.append hs (List.Sublist.refl (r.onCable k))
  simp only [Link.onCable] at this
  rw [List.take_append_drop] at this
  exact this

/-- C115: if on the first side nothing is lost and the second device presents segments to an
initialised module only, the bytes that the first application has written arrive exactly once and in
order, whatever cycles fail and whatever images are lost on the second side. -/
theorem C115_exactly_once (oc : Bool) (k : Cable) (s : Link) (h : s.Initial k) (evs : List LEv)
    (he : SecondLives evs) (hg : s.Careful oc k evs) :
    let r := s.run oc k evs
    (r.b.line k.jB).delivered ++ r.b.buffered k.jB ++ r.presented k ++ r.onCable k ++
      r.a.inFlight k.wA k.jA ++ r.a.queued k.jA = (r.a.line k.jA).written := by
  intro r
  obtain ⟨-, ⟨eb, hb1, hb2⟩, -, hc⟩ := (Link.Inv.initial (oc := oc) h).run evs he
  obtain ⟨⟨ea, hu, ha⟩, -, hs⟩ :=
    (Link.Exact.initial (oc := oc) h).run h (Link.Inv.initial h) evs he hg
  have h1 := C95_exactly_once oc k.cfgA k.wA s.a h.a ea hu k.jA h.jA
  have h2 := C95_receive oc k.cfgB k.wB s.b h.b eb hb1 k.jB h.jB
  simp only [← ha, ← hb2] at h1 h2
  rw [h2, ← h1]
  congr 2
  have : shownBy (r.b.line k.jB) ++ r.onCable k = (r.a.line k.jA).received := by
    rw [hs]; exact List.take_append_drop _ _
  exact this

theorem Spec.Link.step_swap (oc : Bool) (k : Cable) (s : Link) (e : LEv) :
    (s.step oc k e).swap = s.swap.step oc k.swap e.swap := by
  cases e <;> (simp only [Link.step, LEv.swap]; rw [apply_ite Link.swap]; rfl)

theorem Spec.Link.run_swap (oc : Bool) (k : Cable) (s : Link) (evs : List LEv) :
    (s.run oc k evs).swap = s.swap.run oc k.swap (evs.map LEv.swap) := by
  induction evs generalizing s with
  | nil => rfl
  | cons e evs ih =>
    show ((s.step oc k e).run oc k evs).swap = (s.swap.step oc k.swap e.swap).run oc k.swap _
    rw [ih, Link.step_swap]

/-- C115: the cable carries both directions. If neither application crashes, what each of them has
read and can read are bytes that the other has written, each at most once and in order. -/
theorem C115_both (oc : Bool) (k : Cable) (s : Link) (h : s.Initial k) (evs : List LEv)
    (ha : LEv.a .crash ∉ evs) (hb : LEv.b .crash ∉ evs) :
    let r := s.run oc k evs
    (r.b.line k.jB).delivered ++ r.b.buffered k.jB <+ (r.a.line k.jA).written ∧
    (r.a.line k.jA).delivered ++ r.a.buffered k.jA <+ (r.b.line k.jB).written := by
  intro r
  have h1 := C115_order oc k s h evs (fun e he hc => hb (hc ▸ he))
  have h2 := C115_order oc k.swap s.swap
    ⟨h.b, h.a, h.jB, h.jA, h.silent.2.1, h.silent.1, h.silent.2.2.2, h.silent.2.2.1⟩
    (evs.map LEv.swap) (by
      intro e he hc
      obtain ⟨x, hx, rfl⟩ := List.mem_map.1 he
      cases x with
      | a e => cases hc; exact ha hx
      | b e => cases hc
      | ab n => cases hc
      | ba n => cases hc)
  rw [← Link.run_swap] at h2
  have sub : ∀ x p o i q : List Byte, x <+ x ++ p ++ o ++ i ++ q := fun x p o i q => by
    rw [List.append_assoc, List.append_assoc, List.append_assoc]
    exact List.sublist_append_left _ _
  exact ⟨(sub _ _ _ _ _).trans h1, (sub _ _ _ _ _).trans h2⟩

end Ur20
