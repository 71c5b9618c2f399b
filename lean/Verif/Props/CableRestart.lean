import Verif.Props.CableProgress

/-! # A cable between two serial modules when the second application crashes too: C115 -/

namespace Ur20

open Spec Com Coupler
open scoped List

namespace Spec.Link

variable {oc : Bool} {k : Cable}

/-- What holds in every schedule. -/
structure AnyInv (oc : Bool) (k : Cable) (s0 s : Link) : Prop where
  a : ∃ evs, s.a = s0.a.run oc k.cfgA k.wA evs
  b : ∃ evs, s.b = s0.b.run oc k.cfgB k.wB evs
  one : (s.b.line k.jB).avail = true → (s.b.line k.jB).rxData <+ (s.a.line k.jA).received.take s.ab
  count : s.ab ≤ (s.a.line k.jA).received.length

theorem cycled_rx (l : Line) (n : Nat) :
    (l.cycled n).avail = l.avail ∧ (l.cycled n).rxData = l.rxData := by
  simp only [Line.cycled]
  split <;> exact ⟨rfl, rfl⟩

theorem crash_line (s : Net) {cfg : CouplerConfig} {w : Wiring} (j : Nat) {c0 : Coupler}
    (h : Coupler.new cfg = .ok c0) : ((s.step oc cfg w .crash).line j) =
      { s.line j with fresh := true, waiting := none } := by
  simp only [Net.step, h]

theorem AnyInv.step {s0 s : Link} (h0 : s0.Initial k) (h : AnyInv oc k s0 s) (e : LEv) :
    AnyInv oc k s0 (s.step oc k e) := by
  obtain ⟨⟨ea, ha⟩, ⟨eb, hb⟩, hs, hc⟩ := h
  cases e with
  | a e =>
    simp only [Link.step]
    split
    · exact ⟨⟨ea, ha⟩, ⟨eb, hb⟩, hs, hc⟩
    · obtain ⟨l, hl⟩ := Net.received_grows (oc := oc) (cfg := k.cfgA) (w := k.wA) s.a e k.jA
      refine ⟨⟨ea ++ [e], ?_⟩, ⟨eb, hb⟩, ?_, ?_⟩
      · rw [← snoc_a, ← ha]
      · simp only [hl, grow_take hc]; exact hs
      · simp only [hl, List.length_append]; omega
  | b e =>
    simp only [Link.step]
    split
    · exact ⟨⟨ea, ha⟩, ⟨eb, hb⟩, hs, hc⟩
    · rename_i hp
      refine ⟨⟨ea, ha⟩, ⟨eb ++ [e], by rw [← snoc_a, ← hb]⟩, ?_, hc⟩
      simp only
      by_cases hne : e = .crash
      · subst hne
        rw [crash_line _ _ h0.b.c]
        exact hs
      · rcases Net.step_rx (oc := oc) (cfg := k.cfgB) (w := k.wB) s.b e k.jB hne
          (fun seg hh => hp (NEv.presents_post hh)) with ⟨g, -⟩ | ⟨g, -⟩ | ⟨g, -⟩ | ⟨g, -⟩
        · rw [g.avail, g.rxData]; exact hs
        · rw [g.avail, g.rxData, (cycled_rx _ _).1, (cycled_rx _ _).2]; exact hs
        · rw [g.avail, g.rxData]; exact hs
        · rw [g]; simp
  | ab n =>
    simp only [Link.step]
    split
    · exact ⟨⟨ea, ha⟩, ⟨eb, hb⟩, hs, hc⟩
    · rename_i hne
      obtain ⟨-, p1, p2, p3, p4, -⟩ := Net.post_rx s.b k.jB _ hne
      refine ⟨⟨ea, ha⟩, ⟨eb ++ [.post k.jB ((s.onCable k).take n)], by rw [← snoc_a, ← hb]⟩, ?_, ?_⟩
      · simp only [p3]
        simp only [onCable, take_grow]
        exact fun _ => List.sublist_append_right _ _
      · simp only [onCable, List.length_take, List.length_drop]; omega
  | ba n =>
    simp only [Link.step]
    split
    · exact ⟨⟨ea, ha⟩, ⟨eb, hb⟩, hs, hc⟩
    · obtain ⟨l, hl⟩ := Net.received_grows (oc := oc) (cfg := k.cfgA) (w := k.wA) s.a
        (.post k.jA ((s.onCableBack k).take n)) k.jA
      refine ⟨⟨ea ++ [.post k.jA ((s.onCableBack k).take n)], ?_⟩, ⟨eb, hb⟩, ?_, ?_⟩
      · rw [← snoc_a, ← ha]
      · simp only [hl, grow_take hc]; exact hs
      · simp only [hl, List.length_append]; omega

theorem AnyInv.run {s0 s : Link} (h0 : s0.Initial k) (h : AnyInv oc k s0 s) (evs : List LEv) :
    AnyInv oc k s0 (s.run oc k evs) := by
  induction evs generalizing s with
  | nil => exact h
  | cons e evs ih => exact ih (h.step h0 e)

theorem AnyInv.initial {s : Link} (h : s.Initial k) : AnyInv oc k s s where
  a := ⟨[], rfl⟩
  b := ⟨[], rfl⟩
  one := by simp [h.silent.2.2.2]
  count := by simp [h.silent.1]

/-- What holds after a crash of the second application, up to the next: `base` has been shown before,
`b0` is the second coupler right after the crash. -/
structure SinceInv (oc : Bool) (k : Cable) (s0 : Link) (b0 : Net) (s : Link) : Prop where
  a : ∃ evs, s.a = s0.a.run oc k.cfgA k.wA evs
  b : ∃ evs, NoCrashesN evs ∧ s.b = b0.run oc k.cfgB k.wB evs
  shown : ∃ l, shownBy (s.b.line k.jB) = (b0.line k.jB).seen ++ l ∧
    (∃ l', (s.b.line k.jB).seen = (b0.line k.jB).seen ++ l') ∧
    l <+ (s.a.line k.jA).received.take s.ab
  count : s.ab ≤ (s.a.line k.jA).received.length

/-- Without crashes, what the device has shown only grows. -/
theorem seen_grows {cfg : CouplerConfig} {w : Wiring} (s : Net) (e : NEv) (j : Nat)
    (hc : e ≠ .crash) (hp : ∀ seg, e ≠ .post j seg) :
    ∃ l, ((s.step oc cfg w e).line j).seen = (s.line j).seen ++ l := by
  rcases Net.step_rx (oc := oc) (cfg := cfg) (w := w) s e j hc hp with
    ⟨h, -⟩ | ⟨h, -⟩ | ⟨h, -⟩ | ⟨-, h2, -⟩
  · exact ⟨[], by rw [h.seen]; simp⟩
  · rw [h.seen]
    simp only [Line.cycled]
    split
    · exact ⟨_, rfl⟩
    · exact ⟨[], by simp⟩
  · exact ⟨[], by rw [h.seen]; simp⟩
  · exact ⟨[], by rw [h2]; simp⟩

/-- A step does not add to what has been shown and is presented. -/
theorem shownBy_shrinks {cfg : CouplerConfig} {w : Wiring} (s : Net) (e : NEv) (j : Nat)
    (hc : e ≠ .crash) (hp : ∀ seg, e ≠ .post j seg) {base l : List Byte}
    (h : shownBy (s.line j) = base ++ l) (hb : ∃ l', (s.line j).seen = base ++ l') :
    ∃ l1, shownBy ((s.step oc cfg w e).line j) = base ++ l1 ∧ l1 <+ l := by
  rcases Net.step_rx (oc := oc) (cfg := cfg) (w := w) s e j hc hp with
    ⟨g, -⟩ | ⟨g, -⟩ | ⟨g, -⟩ | ⟨g1, g2, -⟩
  · exact ⟨l, by rw [shownBy_same g, h], .refl _⟩
  · exact ⟨l, by rw [shownBy_same g, shownBy_cycled, h], .refl _⟩
  · exact ⟨l, by rw [shownBy_same g, h], .refl _⟩
  · obtain ⟨l', hl'⟩ := hb
    refine ⟨l', by simp [shownBy, g1, g2, hl'], ?_⟩
    simp only [shownBy, hl', List.append_assoc, List.append_cancel_left_eq] at h
    rw [← h]
    exact List.sublist_append_left _ _

theorem SinceInv.step {s0 s : Link} {b0 : Net} (h : SinceInv oc k s0 b0 s) (e : LEv)
    (he : e ≠ .b .crash) : SinceInv oc k s0 b0 (s.step oc k e) := by
  obtain ⟨⟨ea, ha⟩, ⟨eb, hb1, hb2⟩, ⟨l, hl1, hl2, hl3⟩, hc⟩ := h
  have snoc : ∀ e : NEv, e ≠ .crash → NoCrashesN (eb ++ [e]) := by
    intro e hne x hx
    rcases List.mem_append.1 hx with hx | hx
    · exact hb1 x hx
    · cases List.mem_singleton.1 hx; exact hne
  cases e with
  | a e =>
    simp only [Link.step]
    split
    · exact ⟨⟨ea, ha⟩, ⟨eb, hb1, hb2⟩, ⟨l, hl1, hl2, hl3⟩, hc⟩
    · obtain ⟨m, hm⟩ := Net.received_grows (oc := oc) (cfg := k.cfgA) (w := k.wA) s.a e k.jA
      refine ⟨⟨ea ++ [e], ?_⟩, ⟨eb, hb1, hb2⟩, ⟨l, hl1, hl2, ?_⟩, ?_⟩
      · rw [← snoc_a, ← ha]
      · simp only [hm, grow_take hc]; exact hl3
      · simp only [hm, List.length_append]; omega
  | b e =>
    simp only [Link.step]
    split
    · exact ⟨⟨ea, ha⟩, ⟨eb, hb1, hb2⟩, ⟨l, hl1, hl2, hl3⟩, hc⟩
    · rename_i hp
      have hne : e ≠ .crash := by rintro rfl; exact he rfl
      have hp' : ∀ seg, e ≠ .post k.jB seg := fun seg hh => hp (NEv.presents_post hh)
      obtain ⟨l1, q1, q2⟩ := shownBy_shrinks (oc := oc) (cfg := k.cfgB) (w := k.wB) s.b e k.jB hne
        hp' hl1 hl2
      obtain ⟨l2, q3⟩ := seen_grows (oc := oc) (cfg := k.cfgB) (w := k.wB) s.b e k.jB hne hp'
      obtain ⟨l', hl'⟩ := hl2
      refine ⟨⟨ea, ha⟩, ⟨eb ++ [e], snoc e hne, by rw [← snoc_a, ← hb2]⟩,
        ⟨l1, q1, ⟨l' ++ l2, ?_⟩, q2.trans hl3⟩, hc⟩
      simp only [q3, hl', List.append_assoc]
  | ab n =>
    simp only [Link.step]
    split
    · exact ⟨⟨ea, ha⟩, ⟨eb, hb1, hb2⟩, ⟨l, hl1, hl2, hl3⟩, hc⟩
    · rename_i hne
      obtain ⟨-, p1, p2, p3, p4, -⟩ := Net.post_rx s.b k.jB _ hne
      obtain ⟨l', hl'⟩ := hl2
      refine ⟨⟨ea, ha⟩, ⟨eb ++ [.post k.jB ((s.onCable k).take n)], snoc _ (by simp),
        by rw [← snoc_a, ← hb2]⟩, ⟨l' ++ (s.onCable k).take n, ?_, ⟨l', ?_⟩, ?_⟩, ?_⟩
      · simp only [shownBy, p1, p2, p3, p4, and_self, if_true, hl', List.append_assoc]
      · simp only [p4, hl']
      · simp only [onCable, take_grow]
        refine List.Sublist.append (List.Sublist.trans ?_ hl3) (List.Sublist.refl _)
        simp only [shownBy, hl', List.append_assoc, List.append_cancel_left_eq] at hl1
        rw [← hl1]
        exact List.sublist_append_left _ _
      · simp only [onCable, List.length_take, List.length_drop]; omega
  | ba n =>
    simp only [Link.step]
    split
    · exact ⟨⟨ea, ha⟩, ⟨eb, hb1, hb2⟩, ⟨l, hl1, hl2, hl3⟩, hc⟩
    · obtain ⟨m, hm⟩ := Net.received_grows (oc := oc) (cfg := k.cfgA) (w := k.wA) s.a
        (.post k.jA ((s.onCableBack k).take n)) k.jA
      refine ⟨⟨ea ++ [.post k.jA ((s.onCableBack k).take n)], ?_⟩, ⟨eb, hb1, hb2⟩,
        ⟨l, hl1, hl2, ?_⟩, ?_⟩
      · rw [← snoc_a, ← ha]
      · simp only [hm, grow_take hc]; exact hl3
      · simp only [hm, List.length_append]; omega

theorem SinceInv.run {s0 s : Link} {b0 : Net} (h : SinceInv oc k s0 b0 s) (evs : List LEv)
    (he : SecondLives evs) : SinceInv oc k s0 b0 (s.run oc k evs) := by
  induction evs generalizing s with
  | nil => exact h
  | cons e evs ih =>
    exact ih (h.step e (he e List.mem_cons_self)) fun x hx => he x (List.mem_cons_of_mem _ hx)

/-- Right after the crash at most the segment that is presented has not been read since. -/
theorem AnyInv.since {s0 s : Link} (h0 : s0.Initial k) (h : AnyInv oc k s0 s) :
    SinceInv oc k s0 (s.step oc k (.b .crash)).b (s.step oc k (.b .crash)) := by
  have hb : (s.step oc k (.b .crash)) = { s with b := s.b.step oc k.cfgB k.wB .crash } := by
    simp [Link.step, NEv.Presents]
  rw [hb]
  refine ⟨h.a, ⟨[], by simp [NoCrashesN], rfl⟩, ?_, h.count⟩
  simp only [crash_line _ _ h0.b.c]
  refine ⟨_, rfl, ⟨[], by simp⟩, ?_⟩
  simp only [and_true]
  split
  · rename_i ha
    exact h.one ha
  · exact List.nil_sublist _

end Spec.Link

/-- C115: both applications may crash. Since the last start of the second application, what it has
read, what it can read, what its device presents, what is on the cable, in flight and queued are bytes
that the first application has written, each at most once and in this order, whatever cycles fail,
whatever images are lost on both sides, and wherever the first application crashes. (A segment that
was read before the crash and is still presented is read again.) -/
theorem C115_since_restart (oc : Bool) (k : Cable) (s : Link) (h : s.Initial k)
    (evs evs' : List LEv) (he : SecondLives evs') :
    let a := s.run oc k (evs ++ [.b .crash])
    let r := s.run oc k (evs ++ [.b .crash] ++ evs')
    ∃ read, (r.b.line k.jB).delivered = (a.b.line k.jB).delivered ++ read ∧
      read ++ r.b.buffered k.jB ++ r.presented k ++ r.onCable k ++
        r.a.inFlight k.wA k.jA ++ r.a.queued k.jA <+ (r.a.line k.jA).written := by
  intro a r
  have hany := (Link.AnyInv.initial (oc := oc) h).run h evs
  have ea : a = (s.run oc k evs).step oc k (.b .crash) := by
    simp [a, Link.run, List.foldl_append]
  have er : r = a.run oc k evs' := by
    simp [a, r, Link.run, List.foldl_append]
  have hsi := hany.since h
  rw [← ea] at hsi
  obtain ⟨⟨e1, h1⟩, ⟨e2, h2, h3⟩, ⟨l, h4, -, h5⟩, h6⟩ := hsi.run evs' he
  rw [← er] at h1 h3 h4 h5 h6
  obtain ⟨eb, hb⟩ := hany.b
  have hab : a.b = s.b.run oc k.cfgB k.wB (eb ++ [.crash]) := by
    rw [ea]
    simp only [Link.step, NEv.Presents, Bool.false_eq_true, if_false]
    rw [hb, Link.snoc_a]
  have hrb : r.b = s.b.run oc k.cfgB k.wB (eb ++ [.crash] ++ e2) := by
    rw [h3, hab, ← Net.run_append]
  obtain ⟨read, shown, k1, k2, k3⟩ := C95_since_restart oc k.cfgB k.wB s.b h.b eb e2 h2 k.jB h.jB
  rw [← hab, ← hrb] at k1 k2
  rw [← hrb] at k3
  refine ⟨read, k1, ?_⟩
  have hw := C95_order oc k.cfgA k.wA s.a h.a e1 k.jA h.jA
  simp only [← h1] at hw
  refine List.Sublist.trans ?_ hw
  refine List.Sublist.append (List.Sublist.append ?_ (List.Sublist.refl _)) (List.Sublist.refl _)
  have hl : read ++ r.b.buffered k.jB ++ r.presented k = l := by
    rw [k3]
    simp only [shownBy, k2, List.append_assoc, List.append_cancel_left_eq] at h4
    exact h4
  rw [hl]
  have := List.Sublist.append h5 (List.Sublist.refl (r.onCable k))
  simp only [Link.onCable] at this
  rw [List.take_append_drop] at this
  exact this

/-- Six bytes are shown to the second application. It crashes before it reads them … -/
def exCableCrash : List LEv :=
  [.ab 6, .b (.start [0#16, 0#16, 0#16, 0#16, 0x0609#16, 0x0201#16, 0x0403#16, 0x0605#16]),
    .b .crash]

/-- … and gets them after the restart, because they are still presented. -/
def exCableAgain : List LEv :=
  let pi := [0#16, 0#16, 0#16, 0#16, 0x0609#16, 0x0201#16, 0x0403#16, 0x0605#16]
  [.b (.start pi), .b .finish, .b (.start pi), .b .finish, .b (.start pi), .b .finish]

example : ((exLink2.run true exCable (exCableCrash.take 2)).b.buffered 2 =
      [1#8, 2#8, 3#8, 4#8, 5#8, 6#8]) ∧
    (exLink2.run true exCable exCableCrash).b.buffered 2 = [] ∧
    ((exLink2.run true exCable exCableCrash).presented exCable =
      [1#8, 2#8, 3#8, 4#8, 5#8, 6#8]) ∧
    ((exLink2.run true exCable (exCableCrash ++ exCableAgain)).b.buffered 2 =
      [1#8, 2#8, 3#8, 4#8, 5#8, 6#8]) ∧
    SecondLives exCableAgain := by
  refine ⟨by decide +kernel, by decide +kernel, by decide +kernel, by decide +kernel, ?_⟩
  intro e he
  rintro rfl
  simp [exCableAgain] at he

end Ur20
