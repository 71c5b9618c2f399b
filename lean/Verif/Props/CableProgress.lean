import Verif.Props.Cable

/-! # Everything arrives over the cable: C115 -/

namespace Ur20

open Spec Com Coupler
open scoped List

/-- Any state of a coupler with devices, seen from one module. -/
theorem net_state {oc : Bool} {cfg : CouplerConfig} {w : Wiring} {s : Net} (h : s.Initial cfg w)
    (evs : List NEv) (hv : AcceptedValuesN cfg evs) {j : Nat} (hj : j ∈ w.modules) :
    ∃ t, Sending.QSim oc cfg j (w.wire j).len (w.wire j).oi (w.wire j).oo
        ((s.run oc cfg w evs).at_ j) t ∧ PendingAccepted cfg (s.run oc cfg w evs).c := by
  obtain ⟨sevs, e1, -, -, e4⟩ := Net.run_at (oc := oc) hj (Net.initial_accepts h) s evs
  obtain ⟨hi, he⟩ := Net.initial_at h hj
  rw [he] at e1
  obtain ⟨t, tevs, -, h2, -, -⟩ := Sending.initial_run (oc := oc) hi sevs
  have hacc : PendingAccepted cfg (Sending.run oc cfg j (w.wire j).len (w.wire j).oi (w.wire j).oo
      ⟨(s.at_ j).plant, none⟩ sevs).plant.c := by
    obtain ⟨t2, -, k2⟩ := hi.sim
    exact Sending.pending_run hi.c hi.serial hi.disjoint (s := ⟨(s.at_ j).plant, none⟩) (t := t2)
      ⟨by rw [Sending.cleared_eq k2.write]; exact k2, ⟨s.c, [], h.c, rfl⟩, k2.write⟩
      (initial_pending hi) sevs (e4 hv)
  rw [← e1] at h2 hacc
  exact ⟨_, h2, hacc⟩

/-- The image of a cycle acknowledges what the device presents. -/
theorem Spec.Sending.QSim.start_ack {oc : Bool} {cfg : CouplerConfig} {j : Nat}
    {len : ProcessDataLength} {oi oo : Word} {A : Sending} {t : Sys}
    (h : Sending.QSim oc cfg j len oi oo A t) {pi img : List Word}
    {c' : Coupler} {f : RsIn} (hap : A.plant.pending = none) (hf : inFrame len oi pi = some f)
    (hpr : A.plant.Presents f) (hn : A.plant.c.next oc pi A.plant.out = (c', .ok img)) :
    ∃ g, outFrame len oo img = some g ∧ g.rxCntAck = A.plant.rxCnt := by
  obtain ⟨q1, -⟩ := h.start hap hf hpr hn
  have hpend := q1.sim.pending
  have hst : (A.step oc cfg j len oi oo (.ev (.ev (.start pi)))).plant.pending = some img := by
    have hst1 : (A.plant.step oc j len oi oo (.start pi)).pending = some img := by
      simp only [Plant.step, hap, hf, hn, if_pos hpr]
      split <;> rfl
    simp only [Sending.step]
    split <;> exact hst1
  have hcl : ∀ x : Plant, (x.cleared j).pending = x.pending := fun _ => rfl
  rw [hcl, hst, Option.map_some] at hpend
  have ht : t.pending = none := by
    have hp := h.sim.pending
    rw [hcl, hap] at hp
    cases hx : t.pending with
    | none => rfl
    | some _ => rw [hx] at hp; simp at hp
  have hrc : t.rxCnt = A.plant.rxCnt := h.sim.rxCnt
  rw [Sending.feed_run] at hpend
  generalize feed t.p A.waiting = p at hpend
  generalize t.written ++ sentBytes A.waiting = wr at hpend
  have key : (Sys.step { t with p := p, written := wr }
      (.start f.bufferNearlyFull f.ready)).pending =
      some (p.next (({ t with p := p, written := wr } : Sys).input f.bufferNearlyFull f.ready)
        t.out).2 := by
    simp only [Sys.step, ht, Option.isSome_none, Bool.false_eq_true, if_false]
    split <;> rfl
  rw [key, Option.map_some, Option.some.injEq] at hpend
  exact ⟨_, hpend, hrc⟩

/-- A cycle with complete images succeeds and acknowledges what the device presents. -/
theorem net_cycle {oc : Bool} {cfg : CouplerConfig} {w : Wiring}
    {s : Net} (h : s.Initial cfg w) (evs : List NEv) (hv : AcceptedValuesN cfg evs) {j : Nat}
    (hj : j ∈ w.modules) :
    let r := s.run oc cfg w evs
    r.pending = none → OutputsReady cfg r.out → ∀ pi, InputsReady cfg pi → r.Shows w pi →
    ∃ c' img, r.c.next oc pi r.out = (c', .ok img) ∧ OutputsReady cfg img ∧
      ∃ g, outFrame (w.wire j).len (w.wire j).oo img = some g ∧
        g.rxCntAck = (r.line j).rxCnt := by
  intro r hap ho pi hi hsh
  obtain ⟨t, hq, hacc⟩ := net_state (oc := oc) h evs hv hj
  have hcom : CompleteImages cfg pi r.out := ⟨hi, ho.registers⟩
  have henc : Encodable cfg r.c.write r.out :=
    ⟨fun j t par o i ch v hcfg _ hw => hacc _ _ _ hw hcfg.1,
      fun j t par o i ch us hcfg hno ht hch _ => ho.preset j t par o i ch us hcfg hno ht hch⟩
  have hreach : ReachableFrom oc cfg r.c := hq.reach
  obtain ⟨c', img, hn, -⟩ := C68_success oc cfg _ hreach pi r.out hcom henc
  refine ⟨c', img, hn, outputs_returned hreach ho hcom henc hn, ?_⟩
  obtain ⟨f, hf, hpr⟩ := hsh j hj
  exact hq.start_ack hap hf hpr hn

namespace Spec.Link

variable {oc : Bool} {k : Cable}

/-- The histories of the two couplers in a schedule. -/
theorem traced (s0 : Link) (evs : List LEv) :
    (∃ ea, (s0.run oc k evs).a = s0.a.run oc k.cfgA k.wA ea ∧
      ∀ x ∈ ea, (∃ seg, x = .post k.jA seg) ∨ LEv.a x ∈ evs) ∧
    (∃ eb, (s0.run oc k evs).b = s0.b.run oc k.cfgB k.wB eb ∧
      ∀ x ∈ eb, (∃ seg, x = .post k.jB seg) ∨ LEv.b x ∈ evs) := by
  induction evs using List.reverseRecOn with
  | nil => exact ⟨⟨[], rfl, by simp⟩, ⟨[], rfl, by simp⟩⟩
  | append_singleton evs e ih =>
    obtain ⟨⟨ea, a1, a2⟩, ⟨eb, b1, b2⟩⟩ := ih
    have hrun : s0.run oc k (evs ++ [e]) = (s0.run oc k evs).step oc k e := by
      simp [run, List.foldl_append]
    have keepA : ∀ x ∈ ea, (∃ seg, x = .post k.jA seg) ∨ LEv.a x ∈ evs ++ [e] :=
      fun x hx => (a2 x hx).imp id (List.mem_append_left _)
    have keepB : ∀ x ∈ eb, (∃ seg, x = .post k.jB seg) ∨ LEv.b x ∈ evs ++ [e] :=
      fun x hx => (b2 x hx).imp id (List.mem_append_left _)
    rw [hrun]
    generalize s0.run oc k evs = s at a1 b1
    have same : (∃ ea, s.a = s0.a.run oc k.cfgA k.wA ea ∧
        ∀ x ∈ ea, (∃ seg, x = .post k.jA seg) ∨ LEv.a x ∈ evs ++ [e]) ∧
        (∃ eb, s.b = s0.b.run oc k.cfgB k.wB eb ∧
        ∀ x ∈ eb, (∃ seg, x = .post k.jB seg) ∨ LEv.b x ∈ evs ++ [e]) :=
      ⟨⟨ea, a1, keepA⟩, ⟨eb, b1, keepB⟩⟩
    cases e with
    | a e =>
      simp only [step]
      split
      · exact same
      · refine ⟨⟨ea ++ [e], by rw [← snoc_a, ← a1], ?_⟩, same.2⟩
        intro x hx
        rcases List.mem_append.1 hx with hx | hx
        · exact keepA x hx
        · cases List.mem_singleton.1 hx; exact .inr (by simp)
    | b e =>
      simp only [step]
      split
      · exact same
      · refine ⟨same.1, ⟨eb ++ [e], by rw [← snoc_a, ← b1], ?_⟩⟩
        intro x hx
        rcases List.mem_append.1 hx with hx | hx
        · exact keepB x hx
        · cases List.mem_singleton.1 hx; exact .inr (by simp)
    | ab n =>
      simp only [step]
      split
      · exact same
      · refine ⟨same.1, ⟨eb ++ [.post k.jB ((s.onCable k).take n)], by rw [← snoc_a, ← b1], ?_⟩⟩
        intro x hx
        rcases List.mem_append.1 hx with hx | hx
        · exact keepB x hx
        · cases List.mem_singleton.1 hx; exact .inl ⟨_, rfl⟩
    | ba n =>
      simp only [step]
      split
      · exact same
      · refine ⟨⟨ea ++ [.post k.jA ((s.onCableBack k).take n)], by rw [← snoc_a, ← a1], ?_⟩, same.2⟩
        intro x hx
        rcases List.mem_append.1 hx with hx | hx
        · exact keepA x hx
        · cases List.mem_singleton.1 hx; exact .inl ⟨_, rfl⟩

/-- The second coupler between two relays. -/
structure Ready (oc : Bool) (k : Cable) (b0 : Net) (s : Link) : Prop where
  hist : ∃ eb, s.b = b0.run oc k.cfgB k.wB eb ∧ NoCrashesN eb ∧ AcceptedValuesN k.cfgB eb
  pending : s.b.pending = none
  out : OutputsReady k.cfgB s.b.out
  cycles : 2 ≤ s.b.cycles
  ack : s.Acknowledged k

theorem Ready.relay {b0 : Net} (h0 : b0.Initial k.cfgB k.wB) (hj : k.jB ∈ k.wB.modules)
    {s : Link} (h : Ready oc k b0 s) (r : Nat × List Word)
    (hi : InputsReady k.cfgB r.2) (hs : (s.step oc k (.ab r.1)).b.Shows k.wB r.2) :
    Ready oc k b0 (s.relay oc k r) ∧ (s.relay oc k r).a = s.a ∧
      ((s.relay oc k r).b.line k.jB).seen = (s.b.line k.jB).seen ++ (s.onCable k).take r.1 ∧
      (s.relay oc k r).ab = s.ab + ((s.onCable k).take r.1).length := by
  obtain ⟨⟨eb, hb, hnc, hv⟩, hp, ho, hc, f, hf, hfa⟩ := h
  set seg := (s.onCable k).take r.1 with hseg
  -- the segment is presented
  have hpost : s.b.step oc k.cfgB k.wB (.post k.jB seg) = s.b.setLine k.jB { s.b.line k.jB with
      rxCnt := ((s.b.line k.jB).rxCnt + 1) % 4, avail := true, rxData := seg, fresh := true } := by
    simp only [Net.step, if_pos hj, hf, if_pos hfa]
  have hne : ¬ ((s.b.step oc k.cfgB k.wB (.post k.jB seg)).line k.jB).rxCnt =
      (s.b.line k.jB).rxCnt := by
    rw [hpost, Net.setLine_at_self]
    show ¬ ((s.b.line k.jB).rxCnt + 1) % 4 = (s.b.line k.jB).rxCnt
    omega
  have h1 : s.step oc k (.ab r.1) = { s with
      b := s.b.step oc k.cfgB k.wB (.post k.jB seg), ab := s.ab + seg.length } := by
    simp only [Link.step, ← hseg, if_neg hne]
  set b1 := s.b.step oc k.cfgB k.wB (.post k.jB seg) with hb1
  rw [h1] at hs
  -- the cycle
  have hb1' : b1 = b0.run oc k.cfgB k.wB (eb ++ [.post k.jB seg]) := by
    rw [← snoc_a, ← hb]
  have hv1 : AcceptedValuesN k.cfgB (eb ++ [.post k.jB seg]) := by
    intro a v hx
    rcases List.mem_append.1 hx with hx | hx
    · exact hv a v hx
    · simp at hx
  have hb1out : b1.out = s.b.out := by rw [hpost]; rfl
  have hb1p : b1.pending = none := by rw [hpost]; exact hp
  have hb1c : b1.cycles = s.b.cycles := by rw [hpost]; rfl
  have hcyc := net_cycle (oc := oc) h0 (eb ++ [.post k.jB seg]) hv1 hj
  simp only [← hb1'] at hcyc
  obtain ⟨c', img, hn, hoi, g, hg, hga⟩ := hcyc hb1p (hb1out ▸ ho) r.2 hi hs
  set b2 := b1.step oc k.cfgB k.wB (.start r.2) with hb2
  have hb2e : b2 = { b1 with
      c := c', pending := some img, cycles := b1.cycles + 1,
      line := fun j => (b1.line j).cycled (b1.cycles + 1) } := by
    rw [hb2]
    simp only [Net.step, hb1p, hn]
    rw [if_pos hs]
  set b3 := b2.step oc k.cfgB k.wB .finish with hb3
  have hb3e : b3 = { b2 with out := img, pending := none } := by
    rw [hb3]
    simp only [Net.step, hb2e]
  have hrel : s.relay oc k r = { s with b := b3, ab := s.ab + seg.length } := by
    simp only [Link.relay, Link.run, List.foldl_cons, List.foldl_nil]
    rw [h1]
    simp only [Link.step]
    rw [if_neg (by simp [NEv.Presents]), if_neg (by simp [NEv.Presents])]
  have hl1 : b1.line k.jB = { s.b.line k.jB with
      rxCnt := ((s.b.line k.jB).rxCnt + 1) % 4, avail := true, rxData := seg, fresh := true } := by
    rw [hpost, Net.setLine_at_self]
  have hl3 : b3.line k.jB = (b1.line k.jB).cycled (b1.cycles + 1) := by rw [hb3e, hb2e]
  have hcy : (b1.line k.jB).cycled (b1.cycles + 1) = { b1.line k.jB with
      written := (b1.line k.jB).written ++ sentBytes (b1.line k.jB).waiting, waiting := none,
      seen := (s.b.line k.jB).seen ++ seg, fresh := false } := by
    have h2 : 2 < b1.cycles + 1 := by omega
    simp only [Line.cycled, hl1]
    rw [if_pos ⟨h2, trivial, trivial⟩]
  have hrx : (b3.line k.jB).rxCnt = (b1.line k.jB).rxCnt := by rw [hl3, hcy]
  refine ⟨⟨⟨eb ++ [.post k.jB seg] ++ [.start r.2] ++ [.finish], ?_, ?_, ?_⟩, ?_, ?_, ?_, ?_⟩, ?_, ?_, ?_⟩
  · rw [hrel, ← snoc_a, ← snoc_a, ← hb1']
  · intro x hx
    simp only [List.mem_append, List.mem_singleton] at hx
    rcases hx with ((hx | rfl) | rfl) | rfl
    · exact hnc x hx
    all_goals simp
  · intro a v hx
    simp only [List.mem_append, List.mem_singleton] at hx
    rcases hx with ((hx | hx) | hx) | hx
    · exact hv a v hx
    all_goals cases hx
  · rw [hrel, hb3e]
  · rw [hrel, hb3e]; exact hoi
  · rw [hrel, hb3e, hb2e]; show 2 ≤ b1.cycles + 1; omega
  · rw [hrel]
    refine ⟨g, ?_, ?_⟩
    · rw [hb3e]; exact hg
    · show g.rxCntAck = (b3.line k.jB).rxCnt
      rw [hrx]; exact hga
  · rw [hrel]
  · rw [hrel]
    show (b3.line k.jB).seen = _
    rw [hl3, hcy]
  · rw [hrel]

theorem Ready.relays {b0 : Net} (h0 : b0.Initial k.cfgB k.wB) (hj : k.jB ∈ k.wB.modules)
    (rs : List (Nat × List Word)) {s : Link}
    (h : Ready oc k b0 s) (hg : s.GoodRelays oc k rs) :
    Ready oc k b0 (s.relays oc k rs) ∧ (s.relays oc k rs).a = s.a ∧
      ((s.relays oc k rs).b.line k.jB).seen =
        (s.b.line k.jB).seen ++ (s.onCable k).take (rs.map (·.1)).sum := by
  induction rs generalizing s with
  | nil => exact ⟨h, rfl, by simp [Link.relays]⟩
  | cons r rs ih =>
    obtain ⟨g1, g2, g3⟩ := hg
    obtain ⟨r1, r2, r3, r4⟩ := h.relay h0 hj r g1 g2
    obtain ⟨i1, i2, i3⟩ := ih r1 g3
    have hrun : s.relays oc k (r :: rs) = (s.relay oc k r).relays oc k rs := rfl
    rw [hrun]
    refine ⟨i1, i2.trans r2, ?_⟩
    rw [i3, r3, List.map_cons, List.sum_cons, List.append_assoc]
    congr 1
    have hon : (s.relay oc k r).onCable k = (s.onCable k).drop r.1 := by
      simp only [Link.onCable, r2, r4, List.drop_drop]
      rw [List.length_take, List.length_drop]
      by_cases hle : r.1 ≤ (s.a.line k.jA).received.length - s.ab
      · rw [Nat.min_eq_left hle]
      · rw [List.drop_eq_nil_of_le (by omega), List.drop_eq_nil_of_le (by omega)]
    rw [hon, List.take_add]

theorem run_firsts (s : Link) (es : List NEv) (he : ∀ e ∈ es, ∀ j seg, e ≠ .post j seg) :
    s.run oc k (es.map .a) = { s with a := s.a.run oc k.cfgA k.wA es } := by
  induction es generalizing s with
  | nil => rfl
  | cons e es ih =>
    have h1 : s.step oc k (.a e) = { s with a := s.a.step oc k.cfgA k.wA e } := by
      simp only [Link.step]
      rw [if_neg fun hh => (NEv.presents_iff.1 hh).elim fun seg hh => he e List.mem_cons_self _ _ hh]
    show (s.step oc k (.a e)).run oc k (es.map .a) = _
    rw [h1, ih _ fun x hx => he x (List.mem_cons_of_mem _ hx)]
    rfl

theorem run_rounds (s : Link) (pis : List (List Word)) :
    s.run oc k (roundsEvs k pis) = { s with a := s.a.rounds oc k.cfgA k.wA pis } := by
  induction pis generalizing s with
  | nil => rfl
  | cons pi pis ih =>
    have h1 : s.run oc k (roundsEvs k (pi :: pis)) =
        (s.run oc k (([NEv.start pi, .finish] ++ k.wA.modules.map NEv.take).map LEv.a)).run oc k
          (roundsEvs k pis) := by
      simp [roundsEvs, Link.run, List.foldl_append]
    rw [h1, run_firsts, ih]
    · rfl
    · intro e he j seg
      simp only [List.mem_append, List.mem_cons, List.mem_map, List.not_mem_nil, or_false] at he
      rcases he with (rfl | rfl) | ⟨_, -, rfl⟩ <;> simp

end Spec.Link

/-- C115: everything arrives. After any careful history, rounds of the first coupler, as many as its
queues need, and then cycles of the second coupler in which its device presents all that is on the
cable, give the second application everything that the first one has written: what it has read and
what it can read now is exactly that. -/
theorem C115_arrives (oc : Bool) (k : Cable) (s : Link) (h : s.Initial k)
    (evs : List LEv)
    (he : SecondLives evs) (hg : s.Careful oc k evs) (hv : AcceptedValuesL k evs) :
    let r := s.run oc k evs
    r.a.pending = none → OutputsReady k.cfgA r.a.out → 2 ≤ r.a.cycles →
    r.b.pending = none → OutputsReady k.cfgB r.b.out → 2 ≤ r.b.cycles → r.Acknowledged k →
    ∀ pis, r.a.GoodInputs oc k.cfgA k.wA pis →
      (∀ j ∈ k.wA.modules, 1 + r.a.segments j + ((sentBytes (r.a.line j).waiting).length +
        capacity (k.wA.wire j).len - 1) / capacity (k.wA.wire j).len ≤ pis.length) →
    let r1 := r.run oc k (Link.roundsEvs k pis)
    ∀ rs, r1.GoodRelays oc k rs → (r1.onCable k).length ≤ (rs.map (·.1)).sum →
    let r2 := r1.relays oc k rs
    (r2.b.line k.jB).delivered ++ r2.b.buffered k.jB =
      (r.a.line k.jA).written ++ sentBytes (r.a.line k.jA).waiting := by
  intro r ap ao ac bp bo bc back pis hgi hk r1 rs hgr hlen r2
  obtain ⟨⟨ea, a1, a2⟩, ⟨eb, b1, b2⟩⟩ := Link.traced (oc := oc) (k := k) s evs
  have hva : AcceptedValuesN k.cfgA ea := by
    intro a v hx t ht
    rcases a2 _ hx with ⟨_, hh⟩ | hh
    · cases hh
    · exact hv.1 a v hh t ht
  have hvb : AcceptedValuesN k.cfgB eb := by
    intro a v hx t ht
    rcases b2 _ hx with ⟨_, hh⟩ | hh
    · cases hh
    · exact hv.2 a v hh t ht
  have hnb : NoCrashesN eb := by
    rintro x hx rfl
    rcases b2 _ hx with ⟨_, hh⟩ | hh
    · cases hh
    · exact he _ hh rfl
  have hr1 : r1 = { r with a := r.a.rounds oc k.cfgA k.wA pis } := Link.run_rounds r pis
  -- the first coupler
  have hdel := C95_delivered oc k.cfgA k.wA s.a h.a ea hva
  simp only [← a1] at hdel
  have hrec := hdel ap ao ac pis hgi hk k.jA h.jA
  have hex := (Link.Exact.initial (oc := oc) h).run h (Link.Inv.initial h) evs he hg
  have hinv := (Link.Inv.initial (oc := oc) h).run evs he
  obtain ⟨ea', hu, a1'⟩ := hex.a
  have honce := C95_exactly_once oc k.cfgA k.wA s.a h.a ea' hu k.jA h.jA
  simp only [← a1'] at honce
  have hrec1 : (r1.a.line k.jA).received =
      (r.a.line k.jA).written ++ sentBytes (r.a.line k.jA).waiting := by
    rw [hr1]
    exact hrec.trans (congrArg (· ++ sentBytes (r.a.line k.jA).waiting) honce)
  -- the second coupler
  have hready : Link.Ready oc k s.b r1 := by
    rw [hr1]
    exact ⟨⟨eb, b1, hnb, hvb⟩, bp, bo, bc, back⟩
  obtain ⟨⟨⟨eb2, e1, e2, -⟩, -⟩, q2, q3⟩ := hready.relays h.b h.jB rs hgr
  have hrx := C95_receive oc k.cfgB k.wB s.b h.b eb2 e2 k.jB h.jB
  simp only [← e1] at hrx
  have hseen : (r1.b.line k.jB).seen = (r.a.line k.jA).received.take r.ab := by
    rw [hr1, ← hex.shown]
    obtain ⟨f, hf, hfa⟩ := back
    have : ¬ ((r.b.line k.jB).avail = true ∧ (r.b.line k.jB).fresh = true) :=
      fun hh => (hex.unacked hh.1 hh.2).2.1 f hf hfa
    simp only [shownBy]
    rw [if_neg this, List.append_nil]
  show (r2.b.line k.jB).delivered ++ r2.b.buffered k.jB = _
  rw [hrx, q3, hseen, List.take_of_length_le hlen, ← hrec1]
  have hpre : (r1.a.line k.jA).received.take r.ab = (r.a.line k.jA).received.take r.ab := by
    have e : (r1.a.line k.jA).received = (r.a.line k.jA).received ++ (r.a.inFlight k.wA k.jA ++
        r.a.queued k.jA ++ sentBytes (r.a.line k.jA).waiting) := by
      rw [hr1]
      refine hrec.trans ?_
      rw [List.append_assoc, List.append_assoc, List.append_assoc]
    rw [e, Link.grow_take hinv.count]
  rw [← hpre]
  have : r1.onCable k = (r1.a.line k.jA).received.drop r.ab := by
    rw [Link.onCable, hr1]
  rw [this, List.take_append_drop]

/-! Two couplers of the kind of `exDuo`. The first serial module of one is connected to the second
serial module of the other. -/

def exCable : Cable := ⟨exDuo, exWires, 1, exDuo, exWires, 2⟩

def exLink : Link := ⟨exNet, exNet, 0, 0⟩

theorem exLink_initial : exLink.Initial exCable :=
  ⟨exNet_initial, exNet_initial, by decide, by decide, rfl, rfl, rfl, rfl⟩

/-- Both are initialised, and the first application writes seven bytes. -/
def exLinkEvs : List LEv :=
  [.a (.start (List.replicate 8 0#16)), .a .finish, .b (.start (List.replicate 8 0#16)), .b .finish,
    .b (.start (List.replicate 8 0#16)), .a (.start (List.replicate 8 0#16)), .a .finish, .b .finish,
    .a (.write 1 [1#8, 2#8, 3#8, 4#8, 5#8, 6#8, 7#8])]

noncomputable def exLink1 : Link := exLink.run true exCable exLinkEvs

def exLinkInputs : List (List Word) :=
  [List.replicate 8 0#16,
   [0x0020#16, 0#16, 0#16, 0#16, 0#16, 0#16, 0#16, 0#16],
   [0x0040#16, 0#16, 0#16, 0#16, 0#16, 0#16, 0#16, 0#16]]

noncomputable def exLink2 : Link := exLink1.run true exCable (Link.roundsEvs exCable exLinkInputs)

def exRelays : List (Nat × List Word) :=
  [(6, [0#16, 0#16, 0#16, 0#16, 0x0609#16, 0x0201#16, 0x0403#16, 0x0605#16]),
   (6, [0#16, 0#16, 0#16, 0#16, 0x0111#16, 0x0007#16, 0#16, 0#16])]

theorem exLink1_good : exLink1.a.GoodInputs true exDuo exWires exLinkInputs ∧
    exLink1.a.segments 1 = 2 ∧ exLink1.a.pending = none ∧ exLink1.a.cycles = 2 ∧
    exLink1.b.pending = none ∧ exLink1.b.cycles = 2 ∧ exLink1.Acknowledged exCable := by
  refine ⟨?_, by decide +kernel, by decide +kernel, by decide +kernel, by decide +kernel,
    by decide +kernel, ?_⟩
  · have hin : ∀ pi ∈ exLinkInputs, InputsReady exDuo pi := by
      intro pi hpi j t par o i h hn
      simp only [exLinkInputs, List.mem_cons, List.not_mem_nil, or_false] at hpi
      rcases exDuo_at h with ⟨rfl, rfl, rfl, rfl, rfl⟩ | ⟨rfl, rfl, rfl, rfl, rfl⟩ |
        ⟨rfl, rfl, rfl, rfl, rfl⟩
      · exact absurd rfl hn
      · rcases hpi with rfl | rfl | rfl <;>
        · refine ⟨by unfold HasRegisters; decide, fun _ b hb => ?_⟩
          rw [show byteAt _ _ = some 0#8 by decide] at hb
          cases hb; decide
      · rcases hpi with rfl | rfl | rfl <;>
        · refine ⟨by unfold HasRegisters; decide, fun _ b hb => ?_⟩
          rw [show byteAt _ _ = some 0#8 by decide] at hb
          cases hb; decide
    exact ⟨hin _ (by simp [exLinkInputs]), by decide +kernel, hin _ (by simp [exLinkInputs]),
      by decide +kernel, hin _ (by simp [exLinkInputs]), by decide +kernel, trivial⟩
  · exact ⟨_, rfl, by decide +kernel⟩

theorem exLink2_good : exLink2.GoodRelays true exCable exRelays ∧ (exLink2.onCable exCable).length = 7 := by
  refine ⟨?_, by decide +kernel⟩
  have hin : ∀ r ∈ exRelays, InputsReady exDuo r.2 := by
    intro r hr j t par o i h hn
    simp only [exRelays, List.mem_cons, List.not_mem_nil, or_false] at hr
    rcases exDuo_at h with ⟨rfl, rfl, rfl, rfl, rfl⟩ | ⟨rfl, rfl, rfl, rfl, rfl⟩ |
      ⟨rfl, rfl, rfl, rfl, rfl⟩
    · exact absurd rfl hn
    · rcases hr with rfl | rfl <;>
      · refine ⟨by unfold HasRegisters; decide, fun _ b hb => ?_⟩
        rw [show byteAt _ _ = some 0#8 by decide] at hb
        cases hb; decide
    · rcases hr with rfl | rfl
      · refine ⟨by unfold HasRegisters; decide, fun _ b hb => ?_⟩
        rw [show byteAt _ _ = some 6#8 by decide] at hb
        cases hb; decide
      · refine ⟨by unfold HasRegisters; decide, fun _ b hb => ?_⟩
        rw [show byteAt _ _ = some 1#8 by decide] at hb
        cases hb; decide
  exact ⟨hin _ (by simp [exRelays]), by decide +kernel, hin _ (by simp [exRelays]),
    by decide +kernel, trivial⟩

example : (exLink2.relays true exCable exRelays).b.buffered 2 =
    [1#8, 2#8, 3#8, 4#8, 5#8, 6#8, 7#8] := by decide +kernel

theorem exDuo_ready : OutputsReady exDuo
    [0#16, 0x0080#16, 0#16, 0#16, 0#16, 0x0080#16, 0#16, 0#16, 0#16] := by
  constructor
  · intro j t par o i h hn
    rcases exDuo_at h with ⟨rfl, rfl, rfl, rfl, rfl⟩ | ⟨rfl, rfl, rfl, rfl, rfl⟩ |
      ⟨rfl, rfl, rfl, rfl, rfl⟩
    · exact ⟨by unfold InPlace; decide, by unfold Covers; decide, fun h => by cases h⟩
    · refine ⟨by unfold InPlace; decide, by unfold Covers; decide, fun _ b hb => ?_⟩
      rw [show byteAt _ _ = some 0#8 by decide] at hb
      cases hb; decide
    · refine ⟨by unfold InPlace; decide, by unfold Covers; decide, fun _ b hb => ?_⟩
      rw [show byteAt _ _ = some 0#8 by decide] at hb
      cases hb; decide
  · intro j t par o i ch us h hno ht
    rcases exDuo_at h with ⟨rfl, rfl, rfl, rfl, rfl⟩ | ⟨rfl, rfl, rfl, rfl, rfl⟩ |
      ⟨rfl, rfl, rfl, rfl, rfl⟩ <;> cases ht

theorem exLink1_ready : OutputsReady exDuo exLink1.a.out ∧ OutputsReady exDuo exLink1.b.out := by
  rw [show exLink1.a.out = [0#16, 0x0080#16, 0#16, 0#16, 0#16, 0x0080#16, 0#16, 0#16, 0#16] by
      decide +kernel,
    show exLink1.b.out = [0#16, 0x0080#16, 0#16, 0#16, 0#16, 0x0080#16, 0#16, 0#16, 0#16] by
      decide +kernel]
  exact ⟨exDuo_ready, exDuo_ready⟩

theorem exLinkEvs_ok : SecondLives exLinkEvs ∧ exLink.Careful true exCable exLinkEvs ∧
    AcceptedValuesL exCable exLinkEvs := by
  refine ⟨fun e he => ?_, by simp [exLinkEvs, Link.Careful], fun a v h => ?_, fun a v h => ?_⟩
  · rintro rfl; simp [exLinkEvs] at he
  · simp [exLinkEvs] at h
  · simp [exLinkEvs] at h

end Ur20
