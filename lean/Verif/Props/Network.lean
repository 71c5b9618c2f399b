import Verif.Props.Receiving
import Verif.Spec.Network

/-!
# C95: any number of serial devices at once
-/

namespace Ur20

open Spec Com Coupler
open scoped List

namespace Spec.Net

/-- What concerns module `j` only. -/
def at_ (s : Net) (j : Nat) : Sending where
  plant := {
    c := s.c, cycles := s.cycles, out := s.out, pending := s.pending
    ack := (s.line j).ack, rxCnt := (s.line j).rxCnt, avail := (s.line j).avail
    rxData := (s.line j).rxData, written := (s.line j).written, received := (s.line j).received
    seen := (s.line j).seen, delivered := (s.line j).delivered, fresh := (s.line j).fresh }
  waiting := (s.line j).waiting

theorem presents_at (s : Net) (j : Nat) (f : RsIn) :
    (s.at_ j).plant.Presents f ↔ (s.line j).Presents f := Iff.rfl

theorem initial_at {cfg : CouplerConfig} {w : Wiring} {s : Net} (h : s.Initial cfg w) {j : Nat}
    (hj : j ∈ w.modules) :
    (s.at_ j).plant.Initial cfg j (w.wire j).len (w.wire j).oi (w.wire j).oo ∧
    s.at_ j = ⟨(s.at_ j).plant, none⟩ := by
  obtain ⟨l1, l2, l3, l4, l5, l6⟩ := h.logs j hj
  refine ⟨⟨h.c, h.serial j hj, h.disjoint j hj, h.cycles, h.out j hj, h.pending, (h.devices j hj).1,
    (h.devices j hj).2, l1, l2, l3, l4, l5⟩, ?_⟩
  rw [← l6]
  rfl

/-- A step that leaves the number of cycles unchanged leaves the waiting value alone. -/
theorem sending_ev {oc : Bool} {cfg : CouplerConfig} {j : Nat} {len : ProcessDataLength}
    {oi oo : Word} (s : Sending) (e : PEv) (h : (s.plant.step oc j len oi oo e).cycles = s.plant.cycles) :
    s.step oc cfg j len oi oo (.ev (.ev e)) = ⟨s.plant.step oc j len oi oo e, s.waiting⟩ := by
  simp only [Sending.step, Plant.ustep, h]
  rw [if_neg (by omega)]

theorem sending_other {oc : Bool} {cfg : CouplerConfig} {j : Nat} {len : ProcessDataLength}
    {oi oo : Word} (s : Sending) (op : COp) (h : op.Elsewhere j) :
    s.step oc cfg j len oi oo (.ev (.ev (.other op))) =
      ⟨{ s.plant with c := op.apply oc s.plant.c }, s.waiting⟩ := by
  rw [sending_ev] <;> simp [Plant.step, h]

/-- Reading from a module without a reader changes nothing. -/
theorem read_apply {oc : Bool} (c : Coupler) (i n : Nat) :
    COp.apply oc c (.read i n) = (match c.read i n with
      | .ok (c', some _) => c'
      | _ => c) := by
  simp only [COp.apply]
  cases hp : c.processors i with
  | none => simp [Coupler.read, hp]
  | some p => cases hr : p.read n <;> simp [Coupler.read, hp, hr, Res.bind]

theorem setLine_at_self (s : Net) (j : Nat) (l : Line) :
    (s.setLine j l).line j = l := by simp [setLine]

theorem setLine_at_ne {i j : Nat} (h : i ≠ j) (s : Net) (l : Line) :
    (s.setLine i l).line j = s.line j := by simp [setLine, Ne.symm h]

/-- What an event of the network must satisfy so that nothing is lost. -/
def Lossless (cfg : CouplerConfig) (s : Net) : NEv → Prop
  | .failing pi => ¬ Decodable cfg pi s.out
  | .lost => False
  | .crash => False
  | _ => True

/-- Every step of the network is a step, or none, of what concerns one module; the steps
that may lose something are the same. -/
theorem step_at_events {oc : Bool} {cfg : CouplerConfig} {w : Wiring} {j : Nat} (hj : j ∈ w.modules)
    (s : Net) (e : NEv) :
    ((s.step oc cfg w e).at_ j = s.at_ j ∧ e ≠ .finish ∧ e ≠ .lost ∧
      ∀ c0, Coupler.new cfg = .ok c0 → e ≠ .crash) ∨
    ∃ e', (s.step oc cfg w e).at_ j =
        (s.at_ j).step oc cfg j (w.wire j).len (w.wire j).oi (w.wire j).oo e' ∧
      (e ≠ .crash → e' ≠ .ev .crash) ∧
      (s.Lossless cfg e → match e' with
        | .set _ => True
        | .ev (.ev _) => True
        | .ev (.failing pi) => ¬ Decodable cfg pi (s.at_ j).plant.out
        | .ev .lost => False
        | .ev .crash => False) ∧
      (∀ a v, e' = .ev (.ev (.other (.setOutput a v))) →
        e = .other (.setOutput a v) ∨ a.module ∈ w.modules) ∧
      (e' = .ev (.ev .finish) ↔ e = .finish) ∧ (e' = .ev .lost ↔ e = .lost) ∧
      (e' = .ev .crash ↔ e = .crash) ∧ (∀ pi, e' = .ev (.failing pi) ↔ e = .failing pi) := by
  cases e with
  | write i buf =>
    simp only [step]
    split
    · right
      by_cases h : i = j
      · subst h
        refine ⟨.ev (.ev (.write buf)), ?_, by simp, fun _ => trivial, by simp, by simp, by simp, by simp, by simp⟩
        rw [sending_ev _ _ rfl]
        simp [at_, setLine, Plant.step]
      · refine ⟨.ev (.ev (.other (.write i buf))), ?_, by simp, fun _ => trivial, by simp, by simp, by simp, by simp, by simp⟩
        rw [sending_other _ (.write i buf) h]
        simp [at_, setLine, Ne.symm h, COp.apply]
    · exact .inl ⟨rfl, by simp, by simp, by simp⟩
  | read i n =>
    simp only [step]
    split
    · by_cases h : i = j
      · subst h
        split
        · rename_i c' bytes hr
          right
          refine ⟨.ev (.ev (.read n)), ?_, by simp, fun _ => trivial, by simp, by simp, by simp, by simp, by simp⟩
          rw [sending_ev]
          · simp [at_, setLine, Plant.step, hr]
          · simp [at_, Plant.step, hr]
        · exact .inl ⟨rfl, by simp, by simp, by simp⟩
      · right
        refine ⟨.ev (.ev (.other (.read i n))), ?_, by simp, fun _ => trivial, by simp, by simp, by simp, by simp, by simp⟩
        rw [sending_other _ (.read i n) h]
        simp only [at_, read_apply]
        cases hr : s.c.read i n with
        | ok r =>
          obtain ⟨c', b⟩ := r
          cases b <;> simp [setLine, Ne.symm h]
        | err => rfl
        | panic => rfl
    · exact .inl ⟨rfl, by simp, by simp, by simp⟩
  | set i v =>
    simp only [step]
    split
    · rename_i hi
      right
      by_cases h : i = j
      · subst h
        refine ⟨.set v, ?_, by simp, fun _ => trivial, by simp, by simp, by simp, by simp, by simp⟩
        simp [at_, setLine, Sending.step]
      · refine ⟨.ev (.ev (.other (.setOutput ⟨i, 0⟩ v))), ?_, by simp, fun _ => trivial, ?_, by simp, by simp, by simp, by simp⟩
        · rw [sending_other _ (.setOutput ⟨i, 0⟩ v) h]
          simp [at_, setLine, Ne.symm h, COp.apply]
        · intro a v' h
          cases h
          exact .inr hi
    · exact .inl ⟨rfl, by simp, by simp, by simp⟩
  | other op =>
    simp only [step]
    split
    · rename_i h
      right
      refine ⟨.ev (.ev (.other op)), ?_, by simp, fun _ => trivial, ?_, by simp, by simp, by simp, by simp⟩
      · rw [sending_other _ _ (h j hj)]
        rfl
      · intro a v h
        cases h
        exact .inl rfl
    · exact .inl ⟨rfl, by simp, by simp, by simp⟩
  | start pi =>
    simp only [step]
    split
    · rename_i c' img hp hn
      split
      · rename_i hs
        obtain ⟨f, hf, hpr⟩ := hs j hj
        right
        refine ⟨.ev (.ev (.start pi)), ?_, by simp, fun _ => trivial, by simp, by simp, by simp, by simp, by simp⟩
        have h1 : (s.at_ j).plant.pending = none := hp
        have h2 : (s.at_ j).plant.c.next oc pi (s.at_ j).plant.out = (c', .ok img) := hn
        have h3 : (s.at_ j).plant.Presents f := hpr
        simp only [Sending.step, Plant.ustep, Plant.step, h1, hf, h2, if_pos h3]
        simp only [at_, Line.cycled]
        split <;> rename_i hc <;> simp [hc]
      · exact .inl ⟨rfl, by simp, by simp, by simp⟩
    · exact .inl ⟨rfl, by simp, by simp, by simp⟩
  | failing pi =>
    simp only [step]
    split
    · rename_i c' er hp hn
      split
      · rename_i hs
        right
        refine ⟨.ev (.failing pi), ?_, by simp, fun h => h, by simp, by simp, by simp, by simp, by simp⟩
        have h1 : (s.at_ j).plant.pending = none := hp
        have h2 : (s.at_ j).plant.c.next oc pi (s.at_ j).plant.out = (c', .err er) := hn
        have h3 : (∀ f, inFrame (w.wire j).len (w.wire j).oi pi = some f →
          (s.at_ j).plant.Presents f) ∧ (oc = false → (s.at_ j).plant.out.length ≤ 0xF800) :=
          ⟨hs.1 j hj, hs.2⟩
        simp only [Sending.step, Plant.ustep, h1, h2, if_pos h3]
        by_cases hd : Decodable cfg pi s.out
        · have hd' : Decodable cfg pi (s.at_ j).plant.out := hd
          simp only [Plant.failed, if_pos hd, if_pos hd']
          simp only [at_, Line.cycled]
          split <;> rename_i hc <;> simp [hc]
        · have hd' : ¬ Decodable cfg pi (s.at_ j).plant.out := hd
          simp only [Plant.failed, if_neg hd, if_neg hd']
          simp [at_]
      · exact .inl ⟨rfl, by simp, by simp, by simp⟩
    · exact .inl ⟨rfl, by simp, by simp, by simp⟩
  | finish =>
    right
    refine ⟨.ev (.ev .finish), ?_, by simp, fun _ => trivial, by simp, by simp, by simp, by simp, by simp⟩
    rw [sending_ev]
    · simp only [step, at_, Plant.step]
      cases h : s.pending <;> simp [h]
    · simp only [at_, Plant.step]
      cases s.pending <;> rfl
  | lost =>
    right
    refine ⟨.ev .lost, ?_, by simp, fun h => h, by simp, by simp, by simp, by simp, by simp⟩
    simp [step, at_, Sending.step, Plant.ustep]
  | crash =>
    cases hn : Coupler.new cfg with
    | ok c0 =>
      right
      refine ⟨.ev .crash, ?_, by simp, fun h => h, by simp, by simp, by simp, by simp, by simp⟩
      simp [step, at_, Sending.step, Plant.ustep, hn]
    | err => left; exact ⟨by simp [step, hn], by simp, by simp, by simp⟩
    | panic => left; exact ⟨by simp [step, hn], by simp, by simp, by simp⟩
  | take i =>
    simp only [step]
    split
    · by_cases h : i = j
      · subst h
        right
        refine ⟨.ev (.ev .take), ?_, by simp, fun _ => trivial, by simp, by simp, by simp, by simp, by simp⟩
        rw [sending_ev]
        · simp only [at_, Plant.step]
          cases outFrame (w.wire i).len (w.wire i).oo s.out with
          | none => rfl
          | some f => by_cases hc : f.txCnt = ((s.line i).ack + 1) % 4 <;> simp [hc, setLine]
        · simp only [at_, Plant.step]
          cases outFrame (w.wire i).len (w.wire i).oo s.out with
          | none => rfl
          | some f => by_cases hc : f.txCnt = ((s.line i).ack + 1) % 4 <;> simp [hc]
      · left
        refine ⟨?_, by simp, by simp, by simp⟩
        split
        · split
          · simp [at_, setLine, Ne.symm h]
          · rfl
        · rfl
    · exact .inl ⟨rfl, by simp, by simp, by simp⟩
  | post i seg =>
    simp only [step]
    split
    · by_cases h : i = j
      · subst h
        right
        refine ⟨.ev (.ev (.post seg)), ?_, by simp, fun _ => trivial, by simp, by simp, by simp, by simp, by simp⟩
        rw [sending_ev]
        · simp only [at_, Plant.step]
          cases outFrame (w.wire i).len (w.wire i).oo s.out with
          | none => rfl
          | some f => by_cases hc : f.rxCntAck = (s.line i).rxCnt <;> simp [hc, setLine]
        · simp only [at_, Plant.step]
          cases outFrame (w.wire i).len (w.wire i).oo s.out with
          | none => rfl
          | some f => by_cases hc : f.rxCntAck = (s.line i).rxCnt <;> simp [hc]
      · left
        refine ⟨?_, by simp, by simp, by simp⟩
        split
        · split
          · simp [at_, setLine, Ne.symm h]
          · rfl
        · rfl
    · exact .inl ⟨rfl, by simp, by simp, by simp⟩
  | hide i =>
    simp only [step]
    split
    · by_cases h : i = j
      · subst h
        right
        refine ⟨.ev (.ev .hide), ?_, by simp, fun _ => trivial, by simp, by simp, by simp, by simp, by simp⟩
        rw [sending_ev]
        · simp only [at_, Plant.step]
          cases outFrame (w.wire i).len (w.wire i).oo s.out with
          | none => rfl
          | some f => by_cases hc : f.rxCntAck = (s.line i).rxCnt <;> simp [hc, setLine]
        · simp only [at_, Plant.step]
          cases outFrame (w.wire i).len (w.wire i).oo s.out with
          | none => rfl
          | some f => by_cases hc : f.rxCntAck = (s.line i).rxCnt <;> simp [hc]
      · left
        refine ⟨?_, by simp, by simp, by simp⟩
        split
        · split
          · simp [at_, setLine, Ne.symm h]
          · rfl
        · rfl
    · exact .inl ⟨rfl, by simp, by simp, by simp⟩

/-- Every step of the network is a step, or none, of what concerns one module. -/
theorem step_at {oc : Bool} {cfg : CouplerConfig} {w : Wiring} {j : Nat} (hj : j ∈ w.modules)
    (s : Net) (e : NEv) :
    (s.step oc cfg w e).at_ j = s.at_ j ∨
    ∃ e', (s.step oc cfg w e).at_ j =
        (s.at_ j).step oc cfg j (w.wire j).len (w.wire j).oi (w.wire j).oo e' ∧
      (e ≠ .crash → e' ≠ .ev .crash) ∧
      (s.Lossless cfg e → match e' with
        | .set _ => True
        | .ev (.ev _) => True
        | .ev (.failing pi) => ¬ Decodable cfg pi (s.at_ j).plant.out
        | .ev .lost => False
        | .ev .crash => False) ∧
      (∀ a v, e' = .ev (.ev (.other (.setOutput a v))) →
        e = .other (.setOutput a v) ∨ a.module ∈ w.modules) := by
  rcases step_at_events hj s e with ⟨h, -⟩ | ⟨e', h1, h2, h3, h4, -⟩
  · exact .inl h
  · exact .inr ⟨e', h1, h2, h3, h4⟩

/-- A serial module accepts every value. -/
theorem accepts_serial {cfg : CouplerConfig} {c : Coupler} (h0 : Coupler.new cfg = .ok c) {j : Nat}
    {len : ProcessDataLength} {oi oo : Word} (hs : SerialAt c j len oi oo) (t : ModuleType)
    (ht : cfg.modules[j]? = some t) (v : ChannelValue) : Accepts t v := by
  obtain ⟨cm, hm, -⟩ := hs
  obtain ⟨-, -, h3, -⟩ := (C13_success cfg).2 c h0
  have hlt : j < cfg.params.length := by
    have := ((C13_success cfg).1.1 ⟨c, h0⟩).1
    rw [← this]
    exact (List.getElem?_eq_some_iff.1 ht).1
  obtain ⟨m, o, n, g1, g2, -⟩ := h3 j t _ ht (List.getElem?_eq_getElem hlt)
  have : m = .com cm := by
    have := hm.1
    rw [g1] at this
    exact Option.some.inj this
  subst this
  rw [(isSerial_type g2).1 ⟨cm, rfl⟩]
  trivial

/-- Every schedule of the network is a schedule of what concerns one module. -/
theorem run_at {oc : Bool} {cfg : CouplerConfig} {w : Wiring} {j : Nat} (hj : j ∈ w.modules)
    (hacc : ∀ i ∈ w.modules, ∀ t, cfg.modules[i]? = some t → ∀ v, Accepts t v)
    (s : Net) (evs : List NEv) :
    ∃ sevs : List SPEv, (s.run oc cfg w evs).at_ j =
        (s.at_ j).run oc cfg j (w.wire j).len (w.wire j).oi (w.wire j).oo sevs ∧
      (NoCrashesN evs → NoCrashesS sevs) ∧
      (s.OnlyUndecodable oc cfg w evs → Sending.OnlyUndecodable oc cfg j (w.wire j).len (w.wire j).oi
        (w.wire j).oo (s.at_ j) sevs) ∧
      (AcceptedValuesN cfg evs → AcceptedValuesS cfg sevs) := by
  induction evs generalizing s with
  | nil =>
    exact ⟨[], rfl, fun _ e he => by simp at he, fun _ => trivial, fun _ a v he => by simp at he⟩
  | cons e evs ih =>
    obtain ⟨sevs, h1, h2, h3, h4⟩ := ih (s.step oc cfg w e)
    have hL : s.OnlyUndecodable oc cfg w (e :: evs) → s.Lossless cfg e := by
      intro h
      have := h.1
      cases e <;> exact this
    rcases step_at (oc := oc) (cfg := cfg) hj s e with h | ⟨e', h, g2, g3, g4⟩
    · rw [h] at h1 h3
      refine ⟨sevs, h1, fun hc => h2 fun x hx => hc x (List.mem_cons_of_mem _ hx),
        fun hu => h3 hu.2, fun ha => h4 fun a v hx => ha a v (List.mem_cons_of_mem _ hx)⟩
    · rw [h] at h1 h3
      refine ⟨e' :: sevs, h1, fun hc x hx => ?_, fun hu => ⟨g3 (hL hu), h3 hu.2⟩,
        fun ha a v hx t ht => ?_⟩
      · rcases List.mem_cons.1 hx with rfl | hx
        · exact g2 (hc e List.mem_cons_self)
        · exact h2 (fun x hx => hc x (List.mem_cons_of_mem _ hx)) x hx
      · rcases List.mem_cons.1 hx with rfl | hx
        · rcases g4 a v rfl with rfl | hi
          · exact ha a v List.mem_cons_self t ht
          · exact hacc _ hi t ht v
        · exact h4 (fun a v hx => ha a v (List.mem_cons_of_mem _ hx)) a v hx t ht

theorem initial_accepts {cfg : CouplerConfig} {w : Wiring} {s : Net} (h : s.Initial cfg w) :
    ∀ i ∈ w.modules, ∀ t, cfg.modules[i]? = some t → ∀ v, Accepts t v :=
  fun i hi t ht v => accepts_serial h.c (h.serial i hi) t ht v

/-! ### Rounds -/

theorem take_at {oc : Bool} {cfg : CouplerConfig} {w : Wiring} {j : Nat} (hj : j ∈ w.modules)
    (s : Net) : ((s.step oc cfg w (.take j)).at_ j).plant =
      (s.at_ j).plant.step oc j (w.wire j).len (w.wire j).oi (w.wire j).oo .take := by
  simp only [step, if_pos hj, at_, Plant.step]
  cases outFrame (w.wire j).len (w.wire j).oo s.out with
  | none => rfl
  | some f => by_cases hc : f.txCnt = ((s.line j).ack + 1) % 4 <;> simp [hc, setLine]

theorem take_ne {oc : Bool} {cfg : CouplerConfig} {w : Wiring} {i j : Nat} (h : i ≠ j) (s : Net) :
    (s.step oc cfg w (.take i)).at_ j = s.at_ j := by
  simp only [step]
  split
  · split
    · split
      · simp [at_, setLine, Ne.symm h]
      · rfl
    · rfl
  · rfl

theorem takes_at {oc : Bool} {cfg : CouplerConfig} {w : Wiring} {j : Nat} (hj : j ∈ w.modules)
    (js : List Nat) (hn : js.Nodup) (s : Net) :
    ((s.run oc cfg w (js.map .take)).at_ j).plant =
      if j ∈ js then (s.at_ j).plant.step oc j (w.wire j).len (w.wire j).oi (w.wire j).oo .take
      else (s.at_ j).plant := by
  induction js generalizing s with
  | nil => rfl
  | cons i js ih =>
    obtain ⟨hi, hn⟩ := List.nodup_cons.1 hn
    have h1 := ih hn (s.step oc cfg w (.take i))
    have h2 : s.run oc cfg w ((i :: js).map .take) =
      (s.step oc cfg w (.take i)).run oc cfg w (js.map .take) := rfl
    rw [h2, h1]
    by_cases h : i = j
    · subst h
      rw [if_neg hi, take_at hj, if_pos List.mem_cons_self]
    · rw [take_ne h]
      by_cases hm : j ∈ js
      · rw [if_pos hm, if_pos (List.mem_cons_of_mem _ hm)]
      · rw [if_neg hm, if_neg (by simp [hm, Ne.symm h])]

theorem start_at {oc : Bool} {cfg : CouplerConfig} {w : Wiring} {j : Nat} (hj : j ∈ w.modules)
    (s : Net) {pi : List Word} (hs : s.Shows w pi) :
    ∃ wr, ((s.step oc cfg w (.start pi)).at_ j).plant = ((s.at_ j).plant.step oc j (w.wire j).len
      (w.wire j).oi (w.wire j).oo (.start pi)).withWritten wr := by
  obtain ⟨f, hf, hpr⟩ := hs j hj
  have h3 : (s.at_ j).plant.Presents f := hpr
  simp only [step, Plant.step, hf]
  rcases hp : s.pending with _ | img
  · have h1 : (s.at_ j).plant.pending = none := hp
    rcases hn : s.c.next oc pi s.out with ⟨c', r⟩
    have h2 : (s.at_ j).plant.c.next oc pi (s.at_ j).plant.out = (c', r) := hn
    cases r with
    | ok img =>
      simp only [h1, h2, if_pos hs, if_pos h3]
      refine ⟨(s.line j).written ++ sentBytes (s.line j).waiting, ?_⟩
      simp only [at_, Line.cycled]
      split <;> rename_i hc <;> simp [hc, Plant.withWritten]
    | err e => simp only [h1, h2]; exact ⟨_, rfl⟩
    | panic => simp only [h1, h2]; exact ⟨_, rfl⟩
  · have h1 : (s.at_ j).plant.pending = some img := hp
    simp only [h1]
    exact ⟨_, rfl⟩

theorem round_at {oc : Bool} {cfg : CouplerConfig} {w : Wiring} (hw : w.modules.Nodup) {j : Nat}
    (hj : j ∈ w.modules) (s : Net) {pi : List Word} (hs : s.Shows w pi) :
    ∃ wr, ((s.round oc cfg w pi).at_ j).plant = ((s.at_ j).plant.round oc j (w.wire j).len
      (w.wire j).oi (w.wire j).oo pi).withWritten wr := by
  obtain ⟨wr, h⟩ := start_at (oc := oc) (cfg := cfg) hj s hs
  refine ⟨wr, ?_⟩
  have hr : s.round oc cfg w pi = (((s.step oc cfg w (.start pi)).step oc cfg w .finish).run oc cfg w
    (w.modules.map .take)) := by
    simp [round, run]
  have hf : ∀ u : Net, ((u.step oc cfg w .finish).at_ j).plant = (u.at_ j).plant.step oc j
      (w.wire j).len (w.wire j).oi (w.wire j).oo .finish := by
    intro u
    simp only [step, at_, Plant.step]
    cases h : u.pending <;> simp [h]
  rw [hr, takes_at hj _ hw, if_pos hj, hf, h, Plant.withWritten_finish, Plant.withWritten_take]
  rfl

theorem rounds_at {oc : Bool} {cfg : CouplerConfig} {w : Wiring} (hw : w.modules.Nodup) {j : Nat}
    (hj : j ∈ w.modules) (s : Net) (pis : List (List Word)) (hg : s.GoodInputs oc cfg w pis) :
    (s.at_ j).plant.GoodInputs oc cfg j (w.wire j).len (w.wire j).oi (w.wire j).oo pis ∧
    ∃ wr, ((s.rounds oc cfg w pis).at_ j).plant = ((s.at_ j).plant.rounds oc j (w.wire j).len
      (w.wire j).oi (w.wire j).oo pis).withWritten wr := by
  induction pis generalizing s with
  | nil => exact ⟨trivial, _, rfl⟩
  | cons pi pis ih =>
    obtain ⟨g1, g2, g3⟩ := hg
    obtain ⟨wr, h⟩ := round_at (oc := oc) (cfg := cfg) hw hj s g2
    obtain ⟨h1, wr', h2⟩ := ih _ g3
    rw [h] at h1 h2
    refine ⟨⟨g1, g2 j hj, ?_⟩, wr', ?_⟩
    · generalize (s.at_ j).plant.round oc j (w.wire j).len (w.wire j).oi (w.wire j).oo pi = x at h1
      exact Plant.withWritten_good (x.withWritten wr) x.written _ h1
    · have h3 : s.rounds oc cfg w (pi :: pis) = (s.round oc cfg w pi).rounds oc cfg w pis := rfl
      rw [h3, h2, Plant.withWritten_rounds]
      rfl

end Spec.Net

/-! ### C95 -/

/-- C95: whatever cycles fail, whatever images are lost and wherever the application crashes, every
device takes over bytes that were written to its own module, each at most once and in order. -/
theorem C95_order (oc : Bool) (cfg : CouplerConfig) (w : Wiring)
    (s : Net) (h : s.Initial cfg w) (evs : List NEv) (j : Nat) (hj : j ∈ w.modules) :
    let r := s.run oc cfg w evs
    (r.line j).received ++ r.inFlight w j ++ r.queued j <+ (r.line j).written := by
  obtain ⟨sevs, h1, -⟩ := Net.run_at (oc := oc) hj (Net.initial_accepts h) s evs
  obtain ⟨hi, he⟩ := Net.initial_at h hj
  rw [he] at h1
  have := C92_order oc cfg j _ _ _ _ hi sevs
  rw [← h1] at this
  exact this

/-- C95: if nothing is lost, every device takes over exactly what was written to its own module. -/
theorem C95_exactly_once (oc : Bool) (cfg : CouplerConfig) (w : Wiring)
    (s : Net) (h : s.Initial cfg w) (evs : List NEv) (hu : s.OnlyUndecodable oc cfg w evs)
    (j : Nat) (hj : j ∈ w.modules) :
    let r := s.run oc cfg w evs
    (r.line j).received ++ r.inFlight w j ++ r.queued j = (r.line j).written := by
  obtain ⟨sevs, h1, -, h3, -⟩ := Net.run_at (oc := oc) hj (Net.initial_accepts h) s evs
  obtain ⟨hi, he⟩ := Net.initial_at h hj
  have h3 := h3 hu
  rw [he] at h1 h3
  have := C92_exactly_once oc cfg j _ _ _ _ hi sevs h3
  rw [← h1] at this
  exact this

/-- C95: what is read from a module comes from its own device, each segment at most once and in
order. -/
theorem C95_receive_order (oc : Bool) (cfg : CouplerConfig)
    (w : Wiring) (s : Net) (h : s.Initial cfg w) (evs : List NEv) (j : Nat) (hj : j ∈ w.modules) :
    let r := s.run oc cfg w evs
    (r.line j).delivered ++ r.buffered j <+ (r.line j).seen := by
  obtain ⟨sevs, h1, -⟩ := Net.run_at (oc := oc) hj (Net.initial_accepts h) s evs
  obtain ⟨hi, he⟩ := Net.initial_at h hj
  rw [he] at h1
  have := C93_order oc cfg j _ _ _ _ hi sevs
  rw [← h1] at this
  exact this

/-- C95: without crashes, what is read from a module is exactly what its own device showed. -/
theorem C95_receive (oc : Bool) (cfg : CouplerConfig) (w : Wiring)
    (s : Net) (h : s.Initial cfg w) (evs : List NEv) (hc : NoCrashesN evs)
    (j : Nat) (hj : j ∈ w.modules) :
    let r := s.run oc cfg w evs
    (r.line j).delivered ++ r.buffered j = (r.line j).seen := by
  obtain ⟨sevs, h1, h2, -⟩ := Net.run_at (oc := oc) hj (Net.initial_accepts h) s evs
  obtain ⟨hi, he⟩ := Net.initial_at h hj
  rw [he] at h1
  have := C92_receive oc cfg j _ _ _ _ hi sevs (h2 hc)
  rw [← h1] at this
  exact this

/-- C95: since the last restart of the application nothing is lost: what has been read from a module
since and what is buffered are exactly what its own device has shown since. -/
theorem C95_since_restart (oc : Bool) (cfg : CouplerConfig) (w : Wiring)
    (s : Net) (h : s.Initial cfg w) (evs evs' : List NEv) (hc : NoCrashesN evs')
    (j : Nat) (hj : j ∈ w.modules) :
    let a := s.run oc cfg w (evs ++ [.crash])
    let r := s.run oc cfg w (evs ++ [.crash] ++ evs')
    ∃ read shown, (r.line j).delivered = (a.line j).delivered ++ read ∧
      (r.line j).seen = (a.line j).seen ++ shown ∧ read ++ r.buffered j = shown := by
  obtain ⟨sevs, h1, -⟩ := Net.run_at (oc := oc) hj (Net.initial_accepts h) s evs
  obtain ⟨hi, he⟩ := Net.initial_at h hj
  rw [he] at h1
  have ea : s.run oc cfg w (evs ++ [.crash]) = (s.run oc cfg w evs).step oc cfg w .crash := by
    simp [Net.run, List.foldl_append]
  have er : s.run oc cfg w (evs ++ [.crash] ++ evs') =
      ((s.run oc cfg w evs).step oc cfg w .crash).run oc cfg w evs' := by
    simp [Net.run, List.foldl_append]
  have hcr : ((s.run oc cfg w evs).step oc cfg w .crash).at_ j = Sending.run oc cfg j (w.wire j).len
      (w.wire j).oi (w.wire j).oo ⟨(s.at_ j).plant, none⟩ (sevs ++ [.ev .crash]) := by
    have : Sending.run oc cfg j (w.wire j).len (w.wire j).oi (w.wire j).oo ⟨(s.at_ j).plant, none⟩
        (sevs ++ [.ev .crash]) = ((s.run oc cfg w evs).at_ j).step oc cfg j (w.wire j).len
          (w.wire j).oi (w.wire j).oo (.ev .crash) := by
      rw [h1]; simp [Sending.run, List.foldl_append]
    rw [this]
    simp [Net.step, Net.at_, Sending.step, Plant.ustep, h.c]
  obtain ⟨sevs', k1, k2, -⟩ := Net.run_at (oc := oc) hj (Net.initial_accepts h)
    ((s.run oc cfg w evs).step oc cfg w .crash) evs'
  have k3 : (((s.run oc cfg w evs).step oc cfg w .crash).run oc cfg w evs').at_ j =
      Sending.run oc cfg j (w.wire j).len (w.wire j).oi (w.wire j).oo ⟨(s.at_ j).plant, none⟩
        (sevs ++ [.ev .crash] ++ sevs') := by
    rw [k1, hcr]
    simp [Sending.run, List.foldl_append]
  have := C93_since_restart oc cfg j _ _ _ _ hi sevs sevs' (k2 hc)
  simp only [ea, er]
  rw [← hcr, ← k3] at this
  exact this

/-- C95: after any history, rounds of a cycle in which every device looks at the image deliver
everything on all modules at once: as many as the longest queue needs. -/
theorem C95_delivered (oc : Bool) (cfg : CouplerConfig)
    (w : Wiring) (s : Net) (h : s.Initial cfg w) (evs : List NEv)
    (hv : AcceptedValuesN cfg evs) :
    let r := s.run oc cfg w evs
    r.pending = none → OutputsReady cfg r.out → 2 ≤ r.cycles →
    ∀ pis, r.GoodInputs oc cfg w pis →
      (∀ j ∈ w.modules, 1 + r.segments j + ((sentBytes (r.line j).waiting).length +
        capacity (w.wire j).len - 1) / capacity (w.wire j).len ≤ pis.length) →
      ∀ j ∈ w.modules, ((r.rounds oc cfg w pis).line j).received =
        (r.line j).received ++ r.inFlight w j ++ r.queued j ++ sentBytes (r.line j).waiting := by
  intro r hp ho hc pis hg hk j hj
  obtain ⟨sevs, e1, -, -, e4⟩ := Net.run_at (oc := oc) hj (Net.initial_accepts h) s evs
  obtain ⟨hi, he⟩ := Net.initial_at h hj
  rw [he] at e1
  obtain ⟨t, tevs, h1, h2, -, -⟩ := Sending.initial_run (oc := oc) hi sevs
  have hacc : PendingAccepted cfg (Sending.run oc cfg j (w.wire j).len (w.wire j).oi (w.wire j).oo
      ⟨(s.at_ j).plant, none⟩ sevs).plant.c := by
    obtain ⟨t2, -, k2⟩ := hi.sim
    exact Sending.pending_run hi.c hi.serial hi.disjoint (s := ⟨(s.at_ j).plant, none⟩) (t := t2)
      ⟨by rw [Sending.cleared_eq k2.write]; exact k2, ⟨s.c, [], h.c, rfl⟩, k2.write⟩
      (initial_pending hi) sevs (e4 hv)
  rw [← e1] at h2 hacc
  obtain ⟨g1, wr, g2⟩ := Net.rounds_at (oc := oc) (cfg := cfg) h.distinct hj r pis hg
  have := h2.deliver ((Sys.UInv.initial h1).urun (len := (w.wire j).len) tevs).init
    ((Sys.UInv.initial h1).urun (len := (w.wire j).len) tevs).ack hp ho hc hacc pis g1 (hk j hj)
  have h5 : ((r.rounds oc cfg w pis).line j).received =
    (((r.rounds oc cfg w pis).at_ j).plant).received := rfl
  rw [h5, g2]
  exact this

/-! A digital output and two serial modules, both connected. -/

def exDuo : CouplerConfig :=
  { modules := [.UR20_4DO_P, .UR20_1COM_232_485_422, .UR20_1COM_232_485_422]
    offsets := [0x8000#16, 0xFFFF#16, 0x8010#16, 0x0000#16, 0x8050#16, 0x0040#16]
    params := [List.replicate 4 0, List.replicate 10 0, List.replicate 10 0] }

def exDuoModules : List Module :=
  let com := match Module.create .UR20_1COM_232_485_422 (List.replicate 10 0) with
    | .ok m => m
    | _ => .sil
  [.dout ⟨.UR20_4DO_P, List.replicate 4 ⟨false⟩⟩, com, com]

theorem exDuo_new : Coupler.new exDuo = .ok (initial exDuo exDuoModules) := by
  rw [new_eq]; rfl

def exWires : Wiring where
  modules := [1, 2]
  wire j := if j = 1 then ⟨.EightBytes, 0x0000#16, 0x8010#16⟩ else ⟨.EightBytes, 0x0040#16, 0x8050#16⟩

def exNet : Net where
  c := initial exDuo exDuoModules
  cycles := 0
  out := List.replicate 9 0#16
  pending := none
  line _ := ⟨0, 0, false, [], [], [], [], [], true, none⟩

theorem exDuo_disjoint : DisjointBytes (infos (initial exDuo exDuoModules)) := by
  refine disjointBytes_of ?_
  have hown : ∀ (i : Nat) e p, (infos (initial exDuo exDuoModules))[i]? = some e → Owns e p →
      (i = 0 ∧ p = 0) ∨ (i = 1 ∧ 2 ≤ p ∧ p < 10) ∨ (i = 2 ∧ 10 ≤ p) := by
    intro i e p he ⟨o, ho, h1, h2⟩
    match i with
    | 0 => cases he; cases ho; change 0 ≤ p at h1; change p < 0 + 1 at h2; omega
    | 1 => cases he; cases ho; change 2 ≤ p at h1; change p < 2 + 8 at h2; omega
    | 2 => cases he; cases ho; change 10 ≤ p at h1; omega
    | i + 3 =>
      have : (infos (initial exDuo exDuoModules)).length = 3 := rfl
      rw [List.getElem?_eq_none (by omega)] at he
      cases he
  intro i j e e' p h1 h2 o1 o2
  have := hown i e p h1 o1
  have := hown j e' p h2 o2
  omega

theorem exNet_initial : exNet.Initial exDuo exWires where
  c := exDuo_new
  distinct := by decide
  serial := by
    intro j hj
    simp only [exWires, List.mem_cons, List.not_mem_nil, or_false] at hj
    rcases hj with rfl | rfl
    · exact ⟨_, ⟨rfl, rfl⟩, rfl, by decide, by decide, by decide⟩
    · exact ⟨_, ⟨rfl, rfl⟩, rfl, by decide, by decide, by decide⟩
  disjoint := fun j _ => exDuo_disjoint j
  cycles := rfl
  out := by
    intro j hj
    simp only [exWires, List.mem_cons, List.not_mem_nil, or_false] at hj
    rcases hj with rfl | rfl <;> exact ⟨⟨false, false, false, 0, 0, false, []⟩, by decide, rfl⟩
  pending := rfl
  devices := fun _ _ => ⟨Nat.zero_lt_succ 3, Nat.zero_lt_succ 3⟩
  logs := fun _ _ => ⟨rfl, rfl, rfl, rfl, rfl, rfl⟩

theorem exDuo_at {j : Nat} {t : ModuleType} {par : List Word} {o i : Word}
    (h : ConfiguredAt exDuo j t par o i) :
    (j = 0 ∧ t = .UR20_4DO_P ∧ o = 0x8000#16 ∧ i = noOffset ∧ par = List.replicate 4 0) ∨
    (j = 1 ∧ t = .UR20_1COM_232_485_422 ∧ o = 0x8010#16 ∧ i = 0x00#16 ∧
      par = List.replicate 10 0) ∨
    (j = 2 ∧ t = .UR20_1COM_232_485_422 ∧ o = 0x8050#16 ∧ i = 0x40#16 ∧
      par = List.replicate 10 0) := by
  obtain ⟨h1, h2, h3, h4⟩ := h
  have hj : j < 3 := (List.getElem?_eq_some_iff.1 h1).1
  match j, hj with
  | 0, _ => cases h1; cases h2; cases h3; cases h4; decide
  | 1, _ => cases h1; cases h2; cases h3; cases h4; decide
  | 2, _ => cases h1; cases h2; cases h3; cases h4; decide

theorem exDuo_outputs : DisjointOutputs exDuo := by
  refine disjointOutputs_of ?_
  intro j k t par o i t' par' o' i' p h1 h2 n1 n2 a1 a2 b1 b2
  rcases exDuo_at h1 with ⟨rfl, rfl, rfl, rfl, rfl⟩ | ⟨rfl, rfl, rfl, rfl, rfl⟩ |
    ⟨rfl, rfl, rfl, rfl, rfl⟩ <;>
  rcases exDuo_at h2 with ⟨rfl, rfl, rfl, rfl, rfl⟩ | ⟨rfl, rfl, rfl, rfl, rfl⟩ |
    ⟨rfl, rfl, rfl, rfl, rfl⟩ <;>
  first
  | rfl
  | (exfalso
     simp [outByte, outputBase, outputBytes] at a1 a2 b1 b2
     omega)

/-- Two cycles; seven bytes are written to the first serial module, two are set on the second, and
the device of the second presents a segment. -/
def exDuoEvs : List NEv :=
  [.start (List.replicate 8 0#16), .finish, .start (List.replicate 8 0#16), .finish,
    .write 1 [1#8, 2#8, 3#8, 4#8, 5#8, 6#8, 7#8], .set 2 (.bytes [8#8, 9#8]), .post 2 [0x41#8]]

def exDuoInputs : List (List Word) :=
  [[0#16, 0#16, 0#16, 0#16, 0x0109#16, 0x0041#16, 0#16, 0#16],
   [0x0020#16, 0#16, 0#16, 0#16, 0x0129#16, 0x0041#16, 0#16, 0#16],
   [0x0040#16, 0#16, 0#16, 0#16, 0x0129#16, 0x0041#16, 0#16, 0#16]]

/-- The state before the rounds … -/
noncomputable def exDuoNet : Net := exNet.run true exDuo exWires exDuoEvs

/-- … meets the hypotheses of `C95_delivered` … -/
theorem exDuoNet_good : exDuoNet.pending = none ∧ OutputsReady exDuo exDuoNet.out ∧ exDuoNet.cycles = 2 ∧
    exDuoNet.GoodInputs true exDuo exWires exDuoInputs ∧ exDuoNet.segments 1 = 2 ∧
    exDuoNet.segments 2 = 0 ∧ (exDuoNet.line 2).waiting = some (.bytes [8#8, 9#8]) := by
  refine ⟨by decide +kernel, ?_, by decide +kernel, ?_, by decide +kernel, by decide +kernel,
    by decide +kernel⟩
  · rw [show exDuoNet.out = [0#16, 0x0080#16, 0#16, 0#16, 0#16, 0x0080#16, 0#16, 0#16, 0#16] by
      decide +kernel]
    constructor
    · intro j t par o i h hn
      rcases exDuo_at h with ⟨rfl, rfl, rfl, rfl, rfl⟩ | ⟨rfl, rfl, rfl, rfl, rfl⟩ |
        ⟨rfl, rfl, rfl, rfl, rfl⟩
      · exact ⟨by unfold InPlace; decide, by unfold Covers; decide, fun h => by cases h⟩
      · refine ⟨by unfold InPlace; decide, by unfold Covers; decide, fun _ b hb => ?_⟩
        rw [show byteAt _ _ = some 0#8 by decide] at hb
        cases hb; decide
      · refine ⟨by unfold InPlace; decide, by unfold Covers; decide, fun _ b hb => ?_⟩
        rw [show byteAt _ _ = some 0#8 by decide] at hb
        cases hb; decide
    · intro j t par o i ch us h hno ht
      rcases exDuo_at h with ⟨rfl, rfl, rfl, rfl, rfl⟩ | ⟨rfl, rfl, rfl, rfl, rfl⟩ |
        ⟨rfl, rfl, rfl, rfl, rfl⟩ <;> cases ht
  · have hin : ∀ pi ∈ exDuoInputs, InputsReady exDuo pi := by
      intro pi hpi j t par o i h hn
      simp only [exDuoInputs, List.mem_cons, List.not_mem_nil, or_false] at hpi
      rcases exDuo_at h with ⟨rfl, rfl, rfl, rfl, rfl⟩ | ⟨rfl, rfl, rfl, rfl, rfl⟩ |
        ⟨rfl, rfl, rfl, rfl, rfl⟩
      · exact absurd rfl hn
      · rcases hpi with rfl | rfl | rfl <;>
        · refine ⟨by unfold HasRegisters; decide, fun _ b hb => ?_⟩
          rw [show byteAt _ _ = some 0#8 by decide] at hb
          cases hb; decide
      · rcases hpi with rfl | rfl | rfl <;>
        · refine ⟨by unfold HasRegisters; decide, fun _ b hb => ?_⟩
          rw [show byteAt _ _ = some 1#8 by decide] at hb
          cases hb; decide
    exact ⟨hin _ (by simp [exDuoInputs]), by decide +kernel, hin _ (by simp [exDuoInputs]),
      by decide +kernel, hin _ (by simp [exDuoInputs]), by decide +kernel, trivial⟩

/-- … and after three rounds both devices have everything. -/
example : ((exDuoNet.rounds true exDuo exWires exDuoInputs).line 1).received =
    [1#8, 2#8, 3#8, 4#8, 5#8, 6#8, 7#8] := by decide +kernel
example : ((exDuoNet.rounds true exDuo exWires exDuoInputs).line 2).received = [8#8, 9#8] ∧
    ((exDuoNet.rounds true exDuo exWires exDuoInputs).line 2).seen = [0x41#8] := by decide +kernel
theorem exDuoEvs_calm : exNet.OnlyUndecodable true exDuo exWires exDuoEvs ∧ NoCrashesN exDuoEvs ∧
    AcceptedValuesN exDuo exDuoEvs := by
  refine ⟨by simp [exDuoEvs, Net.OnlyUndecodable], fun e he => ?_, fun a v h => ?_⟩
  · rintro rfl; simp [exDuoEvs] at he
  · simp [exDuoEvs] at h

end Ur20
