import Verif.Spec.Throughput
import Verif.Props.Sending

/-!
# C127, C128: how fast a serial module sends and receives
-/

namespace Ur20

open Spec Com Coupler

/-- The first `k` chunks are the first `k * n` bytes. -/
theorem chunksAux_take {n : Nat} (fuel : Nat) (l : List Byte) (hf : l.length ≤ fuel) (hn : 0 < n)
    (k : Nat) : ((chunksAux n fuel l).take k).flatten = l.take (k * n) := by
  induction fuel generalizing l k with
  | zero =>
    have : l = [] := List.length_eq_zero_iff.1 (by omega)
    subst this
    simp [chunksAux]
  | succ fuel ih =>
    cases k with
    | zero => simp
    | succ k =>
      unfold chunksAux
      by_cases he : l = []
      · subst he; simp
      · have hl : 0 < l.length := List.length_pos_iff.2 he
        rw [if_neg (by simpa using he), List.take_succ_cons, List.flatten_cons,
          ih (l.drop n) (by rw [List.length_drop]; omega) k, Nat.succ_mul, Nat.add_comm (k * n),
          List.take_add]

section
variable {oc : Bool} {cfg : CouplerConfig} {j : Nat} {len : ProcessDataLength} {oi oo : Word}

/-- The processor after writes, and what they leave alone. -/
theorem Spec.Plant.writes_proc {s : Plant} {p : MessageProcessor} (hp : s.c.processors j = some p)
    (bufs : List (List Byte)) :
    (∃ q, (s.writes oc j len oi oo bufs).c.processors j = some q ∧
      q.outData = p.outData ++ bufs.flatMap (chunks p.processDataLen.userDataLen)) ∧
    (s.writes oc j len oi oo bufs).pending = s.pending ∧
    (s.writes oc j len oi oo bufs).out = s.out ∧ (s.writes oc j len oi oo bufs).ack = s.ack ∧
    (s.writes oc j len oi oo bufs).cycles = s.cycles ∧
    (s.writes oc j len oi oo bufs).received = s.received := by
  induction bufs generalizing s p with
  | nil => exact ⟨⟨p, hp, by simp⟩, rfl, rfl, rfl, rfl, rfl⟩
  | cons b bufs ih =>
    have h1 : (s.step oc j len oi oo (.write b)).c.processors j = some (p.write b).1 := by
      simp [Plant.step, writeBytes, hp, setProcessor]
    obtain ⟨⟨q, a1, a2⟩, a3, a4, a5, a6, a7⟩ := ih h1
    refine ⟨⟨q, a1, ?_⟩, a3, a4, a5, a6, a7⟩
    rw [a2]
    simp [MessageProcessor.write]

/-- The closed system behind an idle plant after writes: the segments to be sent are those of the
buffers. -/
theorem Spec.Plant.Initial.idle {s : Plant}
    (h : s.Initial cfg j len oi oo) (evs : List UPEv) (hv : AcceptedValues cfg evs)
    (hp : (s.urun oc cfg j len oi oo evs).pending = none)
    (ho : OutputsReady cfg (s.urun oc cfg j len oi oo evs).out)
    (hc : 2 ≤ (s.urun oc cfg j len oi oo evs).cycles)
    (hi : (s.urun oc cfg j len oi oo evs).Idle j len oo) (bufs : List (List Byte)) :
    ∃ u : Sys, Plant.Ready oc cfg j len oi oo
        ((s.urun oc cfg j len oi oo evs).writes oc j len oi oo bufs) u ∧
      u.UInv ∧ (∃ d n, (u.relog d n).RxInv) ∧ u.pending = none ∧ 2 ≤ u.cycles ∧
      u.received = (s.urun oc cfg j len oi oo evs).received ∧
      outstanding u = bufs.flatMap (chunks len.userDataLen) := by
  -- the processor before the writes
  obtain ⟨t0, tevs0, -, k2, -, -⟩ := h.urun (oc := oc) evs
  obtain ⟨cm, k3, k4⟩ := (inv_of_reachable k2.reach).proc j _ k2.sim.proc
  obtain ⟨cm', k5, k6, -⟩ := k2.sim.serial
  rw [k5.1] at k3
  cases k3
  have hlen : (t0.urun len tevs0).p.processDataLen = len := by rw [k4.1, k6]
  have hq : (t0.urun len tevs0).p.outData = [] := by
    obtain ⟨p, p1, p2⟩ := hi.2
    rw [k2.sim.proc] at p1
    rw [Option.some.inj p1, p2]
  obtain ⟨⟨q, a1, a2⟩, a3, a4, a5, a6, a7⟩ :=
    Spec.Plant.writes_proc (oc := oc) (len := len) (oi := oi) (oo := oo) k2.sim.proc bufs
  rw [hlen, hq, List.nil_append] at a2
  -- the whole history
  have hw : (s.urun oc cfg j len oi oo evs).writes oc j len oi oo bufs =
      s.urun oc cfg j len oi oo (evs ++ bufs.map fun b => .ev (.write b)) := by
    have : ∀ (bufs : List (List Byte)) (r : Plant), r.writes oc j len oi oo bufs =
        r.urun oc cfg j len oi oo (bufs.map fun b => .ev (.write b)) := by
      intro bufs
      induction bufs with
      | nil => exact fun r => rfl
      | cons b bufs ih => exact fun r => ih (r.step oc j len oi oo (.write b))
    rw [this]
    simp [Plant.urun, List.foldl_append]
  have hv' : AcceptedValues cfg (evs ++ bufs.map fun b => .ev (.write b)) := by
    intro a v hm
    refine hv a v ?_
    rcases List.mem_append.1 hm with hm | hm
    · exact hm
    · obtain ⟨b, -, hb⟩ := List.mem_map.1 hm
      cases hb
  obtain ⟨t, tevs, h1, h2, -, -⟩ := h.urun (oc := oc) (evs ++ bufs.map fun b => .ev (.write b))
  have hacc := Plant.pending_urun (oc := oc) (j := j) (len := len) (oi := oi) (oo := oo)
    (initial_pending h) _ hv'
  have hui := (Sys.UInv.initial h1).urun (len := len) tevs
  have hrx : ∃ d n, ((t.urun len tevs).relog d n).RxInv := by
    obtain ⟨d0, n0, d, n, -, -, -, h4⟩ := (Sys.RxSince.initial h1).urun (len := len) tevs
    exact ⟨d, n, h4⟩
  rw [← hw] at h2 hacc
  generalize hr : (s.urun oc cfg j len oi oo evs).writes oc j len oi oo bufs = r at *
  generalize s.urun oc cfg j len oi oo evs = r0 at *
  generalize t.urun len tevs = u at *
  have hpu : u.pending = none := by
    have := h2.sim.pending
    rw [a3, hp] at this
    cases ht : u.pending with
    | none => rfl
    | some x => rw [ht] at this; simp at this
  refine ⟨u, ⟨h2, by rw [a3]; exact hp, by rw [a4]; exact ho, hacc⟩, hui, hrx, hpu,
    by rw [h2.sim.cycles, a6]; exact hc, by rw [h2.sim.received, a7], ?_⟩
  have hpr : u.p = q := by
    have := h2.sim.proc
    rw [a1] at this
    exact (Option.some.inj this).symm
  unfold outstanding
  obtain ⟨f, f1, f2⟩ := hi.1
  have hf := h2.sim.out
  rw [a4, f1] at hf
  rw [← Option.some.inj hf, h2.sim.ack, a5, if_neg f2, List.nil_append, hpr, a2]

/-- An initialised processor. -/
theorem Spec.Sys.UInv.done {u : Sys} (h : u.UInv) (hc : 2 ≤ u.cycles) : u.p.initState = .done := by
  have hcy : u.cycles = (u.cycles - 2) + 2 := by omega
  rw [h.init, hcy]
  rfl

/-- `k` rounds after writes in an idle state hand over the first `k` frames. -/
theorem Spec.Plant.Initial.idle_rounds {s : Plant}
    (h : s.Initial cfg j len oi oo) (evs : List UPEv) (hv : AcceptedValues cfg evs)
    (hp : (s.urun oc cfg j len oi oo evs).pending = none)
    (ho : OutputsReady cfg (s.urun oc cfg j len oi oo evs).out)
    (hc : 2 ≤ (s.urun oc cfg j len oi oo evs).cycles)
    (hi : (s.urun oc cfg j len oi oo evs).Idle j len oo) (bufs : List (List Byte))
    (pis : List (List Word))
    (hg : ((s.urun oc cfg j len oi oo evs).writes oc j len oi oo bufs).GoodInputs oc cfg j len oi oo
      pis) :
    (((s.urun oc cfg j len oi oo evs).writes oc j len oi oo bufs).rounds oc j len oi oo pis).received =
      (s.urun oc cfg j len oi oo evs).received ++
        ((bufs.flatMap (chunks len.userDataLen)).take pis.length).flatten := by
  obtain ⟨u, h1, h2, -, h3, h4, h5, h6⟩ := h.idle evs hv hp ho hc hi bufs
  have hR := Plant.Ready.rounds h1 pis hg
  obtain ⟨c1, -⟩ := C26_rounds pis.length u (h2.done h4) h3 h2.ack
  rw [← hR.sim.sim.received, c1, h5, h6]

/-- Rounds in which the device also presents segments. -/
theorem duplex_rounds (segs : List (List Byte × List Word)) (r : Plant)
    (u : Sys) (hr : Plant.Ready oc cfg j len oi oo r u) (hu : u.UInv)
    (hrx : ∃ d n, (u.relog d n).RxInv) (hack : u.out.rxCntAck = u.rxCnt) (hcy : 2 ≤ u.cycles)
    (hg : r.GoodDuplex oc cfg j len oi oo segs) :
    ∃ v : Sys, Plant.Ready oc cfg j len oi oo (r.duplexes oc j len oi oo segs) v ∧
      v.p.inData = u.p.inData ++ (segs.map (·.1)).flatten ∧
      v.received = u.received ++ ((outstanding u).take segs.length).flatten := by
  induction segs generalizing r u with
  | nil => exact ⟨u, hr, by simp, by simp⟩
  | cons x segs ih =>
    obtain ⟨d, n, hrx⟩ := hrx
    obtain ⟨g1, ⟨f, g2, g3⟩, g4⟩ := hg
    have hup : u.pending = none := by
      have := hr.sim.sim.pending
      rw [hr.pending] at this
      cases ht : u.pending with
      | none => rfl
      | some x => rw [ht] at this; simp at this
    obtain ⟨a1, a2, a3, a4, a5⟩ := sys_receive u x.1 f.bufferNearlyFull f.ready hup hcy hack
    have hr' := ((hr.post x.1).cycle g1 g2 g3).take
    have hrx' : ((u.relog d n).run [.post x.1, .start f.bufferNearlyFull f.ready, .finish]).RxInv :=
      ((hrx.step (.post x.1)).step (.start f.bufferNearlyFull f.ready)).step .finish
    obtain ⟨d', n', b1, b2, b3⟩ := Sys.relog_urun (len := len) u
      ([Ev.post x.1, .start f.bufferNearlyFull f.ready, .finish].map UEv.ev)
    rw [run_urun] at b1 b2
    have b3 := b3 d n
    rw [run_urun, run_urun] at b3
    rw [b3] at hrx'
    rw [b1] at a5
    rw [b2] at a4
    have hd' : d' = [] := by simpa using a5
    have hn' : n' = x.1 := List.append_cancel_left a4
    have hbytes := hrx'.bytes
    have hbytes0 := hrx.bytes
    simp only [Sys.relog, hd', hn', List.append_nil] at hbytes hbytes0
    rw [← hbytes0, List.append_assoc] at hbytes
    have hin := List.append_cancel_left hbytes
    -- the round as a round after presenting the segment
    have hround : ((u.step (.post x.1)).run [.start f.bufferNearlyFull f.ready, .finish]).step .take =
        (u.step (.post x.1)).round := Plant.round_flags _ f.bufferNearlyFull f.ready
    have hpost : (u.step (.post x.1)).UInv := hu.step _
    have hpost2 : (u.step (.post x.1)).pending = none ∧ (u.step (.post x.1)).cycles = u.cycles ∧
        (u.step (.post x.1)).received = u.received ∧ outstanding (u.step (.post x.1)) = outstanding u := by
      simp only [Sys.step]
      split
      · exact ⟨hup, rfl, rfl, rfl⟩
      · exact ⟨hup, rfl, rfl, rfl⟩
    obtain ⟨c1, c2⟩ := C26_rounds 1 (u.step (.post x.1)) (hpost.done (by omega)) hpost2.1 hpost.ack
    have hone : rounds 1 (u.step (.post x.1)) = (u.step (.post x.1)).round := rfl
    rw [hone, hpost2.2.2.2, hpost2.2.2.1] at c1
    rw [hone, hpost2.2.2.2] at c2
    have htake : ∀ w : Sys, (w.step .take).p = w.p ∧ (w.step .take).out = w.out ∧
        (w.step .take).rxCnt = w.rxCnt ∧ (w.step .take).cycles = w.cycles := by
      intro w
      simp only [Sys.step]
      split <;> exact ⟨rfl, rfl, rfl, rfl⟩
    have hu' : ((u.step (.post x.1)).run [.start f.bufferNearlyFull f.ready, .finish]) =
        u.run [.post x.1, .start f.bufferNearlyFull f.ready, .finish] := rfl
    rw [hround] at hr'
    rw [hu'] at hround
    have ht := htake (u.run [.post x.1, .start f.bufferNearlyFull f.ready, .finish])
    rw [hround] at ht
    have hrx2 : ∃ d n, (((u.step (.post x.1)).round).relog d n).RxInv := by
      rw [← hround]
      obtain ⟨d2, n2, -, -, h2⟩ := Sys.relog_step
        (u.run [.post x.1, .start f.bufferNearlyFull f.ready, .finish]) .take
      exact ⟨_, _, by rw [← h2]; exact hrx'.step .take⟩
    obtain ⟨v, e1, e2, e3⟩ := ih _ _ hr' (by
        rw [← hround]
        exact (((hu.step (.post x.1)).step (.start f.bufferNearlyFull f.ready)).step .finish).step .take) hrx2
      (by rw [ht.2.1, ht.2.2.1]; exact a3) (by rw [ht.2.2.2]; exact a2) g4
    refine ⟨v, e1, ?_, ?_⟩
    · rw [e2, ht.1, hin]
      simp
    · rw [e3, c1, c2, List.append_assoc, ← List.flatten_append, List.length_cons,
        Nat.add_comm, List.take_add]

end

/-- C127: after any history of successful and failing cycles, losses and crashes, once everything is
sent: `k` rounds after a write, of a cycle and a look of the device each, have handed over exactly
the first `k` times 6 (14) bytes of the buffer, or all of it if that is less. -/
theorem C127_rate (oc : Bool) (cfg : CouplerConfig)
    (j : Nat) (len : ProcessDataLength) (oi oo : Word) (s : Plant)
    (h : s.Initial cfg j len oi oo) (evs : List UPEv) (hv : AcceptedValues cfg evs) :
    let r := s.urun oc cfg j len oi oo evs
    r.pending = none → OutputsReady cfg r.out → 2 ≤ r.cycles → r.Idle j len oo →
    ∀ buf pis, (r.writes oc j len oi oo [buf]).GoodInputs oc cfg j len oi oo pis →
      ((r.writes oc j len oi oo [buf]).rounds oc j len oi oo pis).received =
        r.received ++ buf.take (pis.length * capacity len) := by
  intro r hp ho hc hi buf pis hg
  rw [h.idle_rounds evs hv hp ho hc hi [buf] pis hg]
  have hcap : capacity len = len.userDataLen := by cases len <;> rfl
  rw [hcap, List.flatMap_cons, List.flatMap_nil, List.append_nil]
  congr 1
  exact chunksAux_take _ _ (Nat.le_refl _) (userDataLen_pos len) _

/-- C127: several buffers written at once arrive as soon as there were as many rounds as they need
frames, and not earlier. -/
theorem C127_writes (oc : Bool) (cfg : CouplerConfig)
    (j : Nat) (len : ProcessDataLength) (oi oo : Word) (s : Plant)
    (h : s.Initial cfg j len oi oo) (evs : List UPEv) (hv : AcceptedValues cfg evs) :
    let r := s.urun oc cfg j len oi oo evs
    r.pending = none → OutputsReady cfg r.out → 2 ≤ r.cycles → r.Idle j len oo →
    ∀ bufs pis, (r.writes oc j len oi oo bufs).GoodInputs oc cfg j len oi oo pis →
      (((r.writes oc j len oi oo bufs).rounds oc j len oi oo pis).received =
        r.received ++ bufs.flatten ↔ framesNeeded (capacity len) bufs ≤ pis.length) := by
  intro r hp ho hc hi bufs pis hg
  rw [h.idle_rounds evs hv hp ho hc hi bufs pis hg]
  have hcap : capacity len = len.userDataLen := by cases len <;> rfl
  have hpos := userDataLen_pos len
  have hfl : (bufs.flatMap (chunks len.userDataLen)).flatten = bufs.flatten := by
    clear hg
    induction bufs with
    | nil => rfl
    | cons b bufs ih =>
      rw [List.flatMap_cons, List.flatten_append, chunks_flatten _ hpos, List.flatten_cons, ih]
  have hct : (bufs.flatMap (chunks len.userDataLen)).length = framesNeeded (capacity len) bufs := by
    clear hg hfl
    induction bufs with
    | nil => rfl
    | cons b bufs ih =>
      rw [List.flatMap_cons, List.length_append, ih]
      show _ = (b.length + capacity len - 1) / capacity len + framesNeeded (capacity len) bufs
      congr 1
      rw [hcap]
      exact chunksAux_length hpos _ _ (Nat.le_refl _)
  have hne : ∀ d ∈ bufs.flatMap (chunks len.userDataLen), 0 < d.length := by
    intro d hd
    obtain ⟨b, -, hb⟩ := List.mem_flatMap.1 hd
    exact (chunks_mem _ hpos _ _ hb).1
  rw [← hct, ← hfl]
  generalize bufs.flatMap (chunks len.userDataLen) = ds at hne
  show r.received ++ _ = r.received ++ _ ↔ _
  rw [List.append_cancel_left_eq]
  constructor
  · intro he
    by_contra hlt
    have h1 : ds = ds.take pis.length ++ ds.drop pis.length := (List.take_append_drop _ _).symm
    have h2 : 0 < (ds.drop pis.length).length := by rw [List.length_drop]; omega
    have h3 := congrArg List.flatten h1
    rw [List.flatten_append, he] at h3
    have h4 := congrArg List.length h3
    rw [List.length_append] at h4
    cases hd : ds.drop pis.length with
    | nil => rw [hd] at h2; simp at h2
    | cons d dr =>
      have h5 := hne d (List.mem_of_mem_drop (by rw [hd]; simp))
      rw [hd, List.flatten_cons, List.length_append] at h4
      omega
  · intro hle
    rw [List.take_of_length_le hle]

/-- C128: sending and receiving do not slow each other down. After any history, once everything is
sent and the last segment acknowledged: if the device presents a segment in each of `k` cycles and
looks at the image after each, it has taken over the first `k` times 6 (14) bytes of a buffer
written before, and all its segments can be read, after what was already waiting. -/
theorem C128_duplex (oc : Bool) (cfg : CouplerConfig)
    (j : Nat) (len : ProcessDataLength) (oi oo : Word) (s : Plant)
    (h : s.Initial cfg j len oi oo) (evs : List UPEv) (hv : AcceptedValues cfg evs) :
    let r := s.urun oc cfg j len oi oo evs
    r.pending = none → OutputsReady cfg r.out → 2 ≤ r.cycles → r.Idle j len oo →
    r.Acknowledged len oo →
    ∀ buf segs, (r.writes oc j len oi oo [buf]).GoodDuplex oc cfg j len oi oo segs →
      let e := (r.writes oc j len oi oo [buf]).duplexes oc j len oi oo segs
      e.received = r.received ++ buf.take (segs.length * capacity len) ∧
      ∀ n, (r.buffered j ++ (segs.map (·.1)).flatten).length ≤ n →
        ∃ c', e.c.read j n = .ok (c', some (r.buffered j ++ (segs.map (·.1)).flatten)) := by
  intro r hp ho hc hi ha buf segs hg
  obtain ⟨u, h1, h2, h3, h4, h5, h6, h7⟩ := h.idle evs hv hp ho hc hi [buf]
  obtain ⟨t0, tevs0, -, k2, -, -⟩ := h.urun (oc := oc) evs
  obtain ⟨⟨q, a1, -⟩, a3, a4, a5, a6, a7⟩ :=
    Spec.Plant.writes_proc (oc := oc) (len := len) (oi := oi) (oo := oo) k2.sim.proc [buf]
  have hb : r.buffered j = u.p.inData := by
    have e1 := h1.sim.sim.proc
    have e2 : ((s.urun oc cfg j len oi oo evs).writes oc j len oi oo [buf]).c.processors j =
        some ((t0.urun len tevs0).p.write buf).1 := by
      simp [Plant.writes, Plant.run, Plant.step, writeBytes, k2.sim.proc, setProcessor]
    rw [e2] at e1
    unfold Plant.buffered
    rw [show r.c.processors j = some (t0.urun len tevs0).p from k2.sim.proc, ← Option.some.inj e1]
    rfl
  have hack : u.out.rxCntAck = u.rxCnt := by
    obtain ⟨f, hf, hfa⟩ := ha
    have := h1.sim.sim.out
    rw [a4, show outFrame len oo (s.urun oc cfg j len oi oo evs).out = some f from hf] at this
    rw [← Option.some.inj this, h1.sim.sim.rxCnt]
    exact hfa
  obtain ⟨v, e1, e2, e3⟩ := duplex_rounds segs _ u h1 h2 h3 hack h5 hg
  refine ⟨?_, ?_⟩
  · rw [← e1.sim.sim.received, e3, h6, h7]
    have hcap : capacity len = len.userDataLen := by cases len <;> rfl
    rw [hcap, List.flatMap_cons, List.flatMap_nil, List.append_nil]
    congr 1
    exact chunksAux_take _ _ (Nat.le_refl _) (userDataLen_pos len) _
  · intro n hn
    rw [hb, ← e2] at hn ⊢
    have : ∀ (d : Coupler) (p : MessageProcessor), d.processors j = some p → p.inData.length ≤ n →
        ∃ c', d.read j n = .ok (c', some p.inData) := by
      intro d p hd hl
      simp only [Coupler.read, hd, read_ok, Res.bind_ok, List.take_of_length_le hl]
      exact ⟨_, rfl⟩
    exact this _ _ e1.sim.sim.proc hn

/-- Two buffers of seven bytes and one byte need three frames of six bytes. After two cycles nothing is
left to be sent; then three rounds hand over both buffers. -/
example : ∃ pis, framesNeeded 6 [[1#8, 2#8, 3#8, 4#8, 5#8, 6#8, 7#8], [8#8]] = 3 ∧
    (exPlant.run true 3 .EightBytes 0x0010#16 0x8010#16 (exBefore.take 4)).Idle 3 .EightBytes 0x8010#16 ∧
    OutputsReady exCfg (exPlant.run true 3 .EightBytes 0x0010#16 0x8010#16 (exBefore.take 4)).out ∧
    ((exPlant.run true 3 .EightBytes 0x0010#16 0x8010#16 (exBefore.take 4)).writes true 3 .EightBytes
      0x0010#16 0x8010#16 [[1#8, 2#8, 3#8, 4#8, 5#8, 6#8, 7#8], [8#8]]).GoodInputs true exCfg 3 .EightBytes
      0x0010#16 0x8010#16 pis ∧ pis.length = 3 := by
  refine ⟨[[0#16, 0#16, 0#16, 0#16, 0#16], [0#16, 0x0020#16, 0#16, 0#16, 0#16],
    [0#16, 0x0040#16, 0#16, 0#16, 0#16]], by decide, ⟨⟨_, rfl, by decide +kernel⟩, _, rfl, by decide +kernel⟩, ?_,
    ⟨exInput_ready _ (by simp), ⟨_, rfl, by decide +kernel⟩,
    exInput_ready _ (by simp), ⟨_, rfl, by decide +kernel⟩, exInput_ready _ (by simp),
    ⟨_, rfl, by decide +kernel⟩, trivial⟩, rfl⟩
  rw [show (exPlant.run true 3 .EightBytes 0x0010#16 0x8010#16 (exBefore.take 4)).out = exImage by
    decide +kernel]
  exact exImage_ready

/-- The device presents two segments while two frames are sent. -/
theorem exDuplex_good : ∃ segs, (exPlant.run true 3 .EightBytes 0x0010#16 0x8010#16 (exBefore.take 4)).Idle 3 .EightBytes
      0x8010#16 ∧
    (exPlant.run true 3 .EightBytes 0x0010#16 0x8010#16 (exBefore.take 4)).Acknowledged .EightBytes
      0x8010#16 ∧
    ((exPlant.run true 3 .EightBytes 0x0010#16 0x8010#16 (exBefore.take 4)).writes true 3 .EightBytes
      0x0010#16 0x8010#16 [[1#8, 2#8, 3#8, 4#8, 5#8, 6#8, 7#8]]).GoodDuplex true exCfg 3 .EightBytes
      0x0010#16 0x8010#16 segs ∧ segs.map (·.1) = [[0x41#8], [0x42#8, 0x43#8]] := by
  refine ⟨[([0x41#8], [0#16, 0x0109#16, 0x0041#16, 0#16, 0#16]),
    ([0x42#8, 0x43#8], [0#16, 0x0231#16, 0x4342#16, 0#16, 0#16])],
    ⟨⟨_, rfl, by decide +kernel⟩, _, rfl, by decide +kernel⟩, ⟨_, rfl, by decide +kernel⟩,
    ⟨?_, ⟨_, rfl, by decide +kernel⟩, ?_, ⟨_, rfl, by decide +kernel⟩, trivial⟩, rfl⟩
  · intro j t par o i h hn
    rcases exCfg_at h with ⟨rfl, rfl, rfl, rfl, rfl⟩ | ⟨rfl, rfl, rfl, rfl, rfl⟩ |
      ⟨rfl, rfl, rfl, rfl, rfl⟩ | ⟨rfl, rfl, rfl, rfl, rfl⟩
    · exact absurd rfl hn
    · exact absurd rfl hn
    · refine ⟨by unfold HasRegisters; decide, fun h => by cases h⟩
    · refine ⟨by unfold HasRegisters; decide, fun _ b hb => ?_⟩
      rw [show byteAt [0#16, 0x0109#16, 0x0041#16, 0#16, 0#16] _ = some 1#8 by decide] at hb
      cases hb; decide
  · intro j t par o i h hn
    rcases exCfg_at h with ⟨rfl, rfl, rfl, rfl, rfl⟩ | ⟨rfl, rfl, rfl, rfl, rfl⟩ |
      ⟨rfl, rfl, rfl, rfl, rfl⟩ | ⟨rfl, rfl, rfl, rfl, rfl⟩
    · exact absurd rfl hn
    · exact absurd rfl hn
    · refine ⟨by unfold HasRegisters; decide, fun h => by cases h⟩
    · refine ⟨by unfold HasRegisters; decide, fun _ b hb => ?_⟩
      rw [show byteAt [0#16, 0x0231#16, 0x4342#16, 0#16, 0#16] _ = some 2#8 by decide] at hb
      cases hb; decide

/-- The hypotheses of `C128_duplex` are met: both frames arrive and the segments can be read. -/
example : ∃ segs c', segs.map (·.1) = [[0x41#8], [0x42#8, 0x43#8]] ∧
    let e := ((exPlant.urun true exCfg 3 .EightBytes 0x0010#16 0x8010#16
      ((exBefore.take 4).map .ev)).writes true 3 .EightBytes 0x0010#16 0x8010#16
      [[1#8, 2#8, 3#8, 4#8, 5#8, 6#8, 7#8]]).duplexes true 3 .EightBytes 0x0010#16 0x8010#16 segs
    e.received = [1#8, 2#8, 3#8, 4#8, 5#8, 6#8, 7#8] ∧
    e.c.read 3 10 = .ok (c', some [0x41#8, 0x42#8, 0x43#8]) := by
  obtain ⟨segs, h0, h1, h2, h3⟩ := exDuplex_good
  have hb : (exPlant.run true 3 .EightBytes 0x0010#16 0x8010#16 (exBefore.take 4)).buffered 3 = [] := by
    decide +kernel
  have hr : (exPlant.run true 3 .EightBytes 0x0010#16 0x8010#16 (exBefore.take 4)).received = [] := by
    decide +kernel
  have hl : segs.length = 2 := by simpa using congrArg List.length h3
  have := C128_duplex true exCfg 3 .EightBytes 0x0010#16 0x8010#16 exPlant exPlant_initial
    ((exBefore.take 4).map .ev) (by intro a v h; simp [exBefore] at h)
  rw [exBefore_start] at this ⊢
  obtain ⟨g1, g2⟩ := this (by decide +kernel) (by
    rw [show (exPlant.run true 3 .EightBytes 0x0010#16 0x8010#16 (exBefore.take 4)).out = exImage by
      decide +kernel]
    exact exImage_ready) (by decide +kernel) h0 h1 _ segs h2
  obtain ⟨c', h⟩ := g2 10 (by rw [hb, h3]; decide)
  exact ⟨segs, c', h3, by rw [g1, hr, hl]; rfl, by rw [h, hb, h3]; rfl⟩

end Ur20
