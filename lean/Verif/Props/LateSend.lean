import Verif.Spec.LateSend
import Verif.Props.LateNet
import Verif.Props.Sending

/-! # Sending with `set_output`, with late and lost images: C151 -/

namespace Ur20

open Spec Com Coupler
open scoped List

namespace Spec.LateSend

/-! ### One cycle of the coupler -/

theorem inv_feed {oc : Bool} {c : Coupler} (hi : c.Inv) {j : Nat} {p : MessageProcessor}
    (hp : c.processors j = some p) (v : Option ChannelValue) : (c.setProcessor j (feed p v)).Inv := by
  by_cases hb : ∃ data, v = some (.bytes data)
  · obtain ⟨data, rfl⟩ := hb
    have := hi.apply oc (.write j data)
    simp only [COp.apply, writeBytes, hp] at this
    exact this
  · have hf : feed p v = p := by
      unfold feed
      split
      · exact absurd ⟨_, rfl⟩ hb
      · rfl
    have : c.setProcessor j p = c := by
      simp only [setProcessor]
      congr
      funext k
      split
      · rename_i h; rw [h, hp]
      · rfl
    rw [hf, this]
    exact hi

/-- The bytes of the values that are set are given to the message processors. -/
def feeds (pend : Nat → Option ChannelValue) (js : List Nat) (c : Coupler) : Coupler :=
  js.foldl (fun c j => match pend j with
    | some (.bytes data) => (c.writeBytes j data).1
    | _ => c) c

/-- The values are set on these modules. -/
def sets (pend : Nat → Option ChannelValue) (js : List Nat) (c : Coupler) : Coupler :=
  { c with write := fun a => if a.channel = 0 ∧ a.module ∈ js then pend a.module else c.write a }

theorem inv_sets (pend : Nat → Option ChannelValue) {js : List Nat} {c : Coupler} (hi : c.Inv)
    (hs : ∀ j ∈ js, ∃ len oi oo, SerialAt c j len oi oo) : (sets pend js c).Inv := by
  refine ⟨hi.len, hi.good, hi.proc, hi.com, fun a ha => ?_⟩
  simp only [sets] at ha
  split at ha
  · rename_i h
    obtain ⟨len, oi, oo, h'⟩ := hs _ h.2
    have := h'.valid
    obtain ⟨m, ch⟩ := a
    obtain ⟨h1, h2⟩ := h
    simp only at h1
    subst h1
    exact this
  · exact hi.valid a ha

theorem feeds_cons {pend : Nat → Option ChannelValue} {j : Nat} {js : List Nat} {c : Coupler}
    {p : MessageProcessor} (hp : c.processors j = some p) :
    feeds pend (j :: js) c = feeds pend js (c.setProcessor j (feed p (pend j))) := by
  simp only [feeds, List.foldl_cons]
  congr 1
  by_cases hb : ∃ data, pend j = some (.bytes data)
  · obtain ⟨data, hd⟩ := hb
    simp only [hd, writeBytes, hp, feed]
  · have hf : feed p (pend j) = p := by
      unfold feed
      split
      · rename_i h; exact absurd ⟨_, h⟩ hb
      · rfl
    rw [hf]
    split
    · rename_i h; exact absurd ⟨_, h⟩ hb
    · have : (fun k => if k = j then some p else c.processors k) = c.processors := by
        funext k
        split
        · rename_i h; rw [h, hp]
        · rfl
      simp only [setProcessor, this]

/-- A cycle takes the values of all serial modules as if their bytes had been written. -/
theorem sets_decoded (oc : Bool) (pend : Nat → Option ChannelValue) (js : List Nat) (hn : js.Nodup)
    {c : Coupler} (hi : c.Inv) (hs : ∀ j ∈ js, ∃ len oi oo, SerialAt c j len oi oo)
    (hw : ∀ j ∈ js, c.write ⟨j, 0⟩ = none) {pi po : List Word} {ins outs}
    (h1 : processInputData oc (infos c) pi = .ok ins)
    (h2 : processOutputData oc (infos c) po = .ok outs) :
    (sets pend js c).next oc pi po = (feeds pend js c).next oc pi po := by
  induction js generalizing c with
  | nil =>
    have : sets pend [] c = c := by simp [sets]
    rw [this]
    rfl
  | cons j js ih =>
    obtain ⟨len, oi, oo, hsj⟩ := hs j List.mem_cons_self
    obtain ⟨cm, hm, -⟩ := id hsj
    obtain ⟨p, hp⟩ := hi.com j cm hm.1
    have hjs : j ∉ js := (List.nodup_cons.1 hn).1
    have hi' := inv_sets pend hi fun k hk => hs k (List.mem_cons_of_mem _ hk)
    have key : (sets pend (j :: js) c).next oc pi po =
        (sets pend js (c.setProcessor j (feed p (pend j)))).next oc pi po := by
      cases hpj : pend j with
      | none =>
        have e1 : sets pend (j :: js) c = sets pend js c := by
          simp only [sets]
          congr
          funext a
          by_cases ha : a = ⟨j, 0⟩
          · subst ha
            simp [hpj, hjs, hw j List.mem_cons_self]
          · have : a.channel = 0 ∧ a.module ∈ j :: js ↔ a.channel = 0 ∧ a.module ∈ js := by
              constructor
              · rintro ⟨h1, h2⟩
                refine ⟨h1, (List.mem_cons.1 h2).resolve_left fun h => ha ?_⟩
                obtain ⟨m, ch⟩ := a
                simp only at h h1
                rw [h, h1]
              · rintro ⟨h1, h2⟩
                exact ⟨h1, List.mem_cons_of_mem _ h2⟩
            simp only [this]
        have e2 : c.setProcessor j (feed p none) = c := by
          simp only [setProcessor, feed]
          congr
          funext k
          split
          · rename_i h; rw [h, hp]
          · rfl
        rw [e1, e2]
      | some v =>
        have hv : (sets pend js c).isValidAddr ⟨j, 0⟩ = true := hsj.valid
        have e1 : sets pend (j :: js) c = ((sets pend js c).setOutput ⟨j, 0⟩ v).1 := by
          simp only [setOutput, hv, Bool.not_true, Bool.false_eq_true, if_false]
          simp only [sets]
          congr
          funext a
          by_cases ha : a = ⟨j, 0⟩
          · subst ha
            simp [hpj, Coupler.insert]
          · have : a.channel = 0 ∧ a.module ∈ j :: js ↔ a.channel = 0 ∧ a.module ∈ js := by
              constructor
              · rintro ⟨h1, h2⟩
                refine ⟨h1, (List.mem_cons.1 h2).resolve_left fun h => ha ?_⟩
                obtain ⟨m, ch⟩ := a
                simp only at h h1
                rw [h, h1]
              · rintro ⟨h1, h2⟩
                exact ⟨h1, List.mem_cons_of_mem _ h2⟩
            simp only [this, Coupler.insert, if_neg ha]
        rw [e1, set_serial_decoded oc hi' (p := p) (len := len) (oi := oi) (oo := oo)
          (hsj.congr rfl rfl) (by simp [sets, hjs, hw j List.mem_cons_self]) hp v h1 h2]
        rfl
    rw [key, feeds_cons hp]
    exact ih (List.nodup_cons.1 hn).2 (inv_feed (oc := oc) hi hp _)
      (fun k hk => by
        obtain ⟨l, a, b, h⟩ := hs k (List.mem_cons_of_mem _ hk)
        exact ⟨l, a, b, h.congr rfl rfl⟩)
      (fun k hk => hw k (List.mem_cons_of_mem _ hk)) h1 h2

theorem infos_feeds (pend : Nat → Option ChannelValue) (js : List Nat) (c : Coupler) :
    infos (feeds pend js c) = infos c := by
  induction js generalizing c with
  | nil => rfl
  | cons j js ih =>
    change infos (feeds pend js _) = _
    rw [ih]
    dsimp only
    split
    · simp only [writeBytes]
      split <;> rfl
    · rfl

theorem sets_next (oc : Bool) (pend : Nat → Option ChannelValue) (js : List Nat) (hn : js.Nodup)
    {c : Coupler} (hi : c.Inv) (hs : ∀ j ∈ js, ∃ len oi oo, SerialAt c j len oi oo)
    (hw : ∀ j ∈ js, c.write ⟨j, 0⟩ = none) (pi po img : List Word) (c' : Coupler) :
    (sets pend js c).next oc pi po = (c', .ok img) ↔
    (feeds pend js c).next oc pi po = (c', .ok img) := by
  constructor
  · intro h
    obtain ⟨ins, outs, st, rs, h1, h2, -⟩ := next_ok h
    rw [← sets_decoded oc pend js hn hi hs hw h1 h2, h]
  · intro h
    obtain ⟨ins, outs, st, rs, h1, h2, -⟩ := next_ok h
    rw [infos_feeds] at h1 h2
    rw [sets_decoded oc pend js hn hi hs hw h1 h2, h]

/-! ### The system without the values -/

/-- The coupler without the values set on connected modules. -/
def clean (w : Wiring) (c : Coupler) : Coupler :=
  { c with write := fun a => if a.channel = 0 ∧ a.module ∈ w.modules then none else c.write a }

/-- The system without the values set on connected modules. -/
def cleanNet (w : Wiring) (n : LateNet) : LateNet := { n with c := clean w n.c }

/-- The system after the values have been given to the message processors. -/
def given (w : Wiring) (s : LateSend) : LateNet :=
  taken s.pend { s.net with c := feeds s.pend w.modules (clean w s.net.c) }

structure Ok (oc : Bool) (cfg : CouplerConfig) (w : Wiring) (s : LateSend) : Prop where
  reach : ReachableFrom oc cfg (clean w s.net.c)
  serial : ∀ j ∈ w.modules, SerialAt s.net.c j (w.wire j).len (w.wire j).oi (w.wire j).oo
  pend : ∀ j, s.pend j = if j ∈ w.modules then s.net.c.write ⟨j, 0⟩ else none

theorem Ok.sets {oc : Bool} {cfg : CouplerConfig} {w : Wiring} {s : LateSend} (h : Ok oc cfg w s) :
    LateSend.sets s.pend w.modules (clean w s.net.c) = s.net.c := by
  simp only [LateSend.sets, clean]
  congr
  funext a
  split
  · rename_i ha
    obtain ⟨m, ch⟩ := a
    obtain ⟨h1, h2⟩ := ha
    simp only at h1
    subst h1
    rw [h.pend, if_pos h2]
  · rfl

theorem clean_none (w : Wiring) (c : Coupler) {j : Nat} (hj : j ∈ w.modules) :
    (clean w c).write ⟨j, 0⟩ = none := by simp [clean, hj]

theorem clean_eq {w : Wiring} {c : Coupler} (h : ∀ j ∈ w.modules, c.write ⟨j, 0⟩ = none) :
    clean w c = c := by
  simp only [clean]
  congr
  funext a
  split
  · rename_i ha
    obtain ⟨m, ch⟩ := a
    obtain ⟨h1, h2⟩ := ha
    simp only at h1
    subst h1
    exact (h m h2).symm
  · rfl

/-- A cycle. -/
theorem cycle_step {oc : Bool} {cfg : CouplerConfig} {w : Wiring} (hd : w.modules.Nodup) {s : LateSend}
    (h : Ok oc cfg w s) :
    ((∃ c' img, (given w s).c.next oc s.net.inp s.net.kept = (c', .ok img)) ∧
      s.step oc w (.ev .cycle) = start ((given w s).step oc w .cycle)) ∨
    ((∀ img, ((given w s).c.next oc s.net.inp s.net.kept).2 ≠ .ok img) ∧
      s.step oc w (.ev .cycle) = s) := by
  have hx := sets_next oc s.pend w.modules hd (inv_of_reachable h.reach)
    (fun j hj => ⟨_, _, _, (h.serial j hj).congr rfl rfl⟩) (fun j hj => clean_none w _ hj)
    s.net.inp s.net.kept
  rw [h.sets] at hx
  rcases hn : s.net.c.next oc s.net.inp s.net.kept with ⟨c', r⟩
  cases r with
  | ok img =>
    left
    have hg : (given w s).c.next oc s.net.inp s.net.kept = (c', .ok img) := (hx img c').1 hn
    refine ⟨⟨c', img, hg⟩, ?_⟩
    have hg' : (given w s).c.next oc (given w s).inp (given w s).kept = (c', .ok img) := hg
    simp only [step, LateNet.step, hn, hg']
    rw [if_neg (by omega)]
    rfl
  | err e =>
    right
    refine ⟨fun img hi => ?_, ?_⟩
    · have := (hx img _).2 (Prod.ext rfl hi)
      rw [hn] at this
      cases this
    · simp only [step, LateNet.step, hn, if_true]
  | panic =>
    right
    refine ⟨fun img hi => ?_, ?_⟩
    · have := (hx img _).2 (Prod.ext rfl hi)
      rw [hn] at this
      cases this
    · simp only [step, LateNet.step, hn, if_true]

/-- The calls that give the values to the message processors. -/
def writeEvs (pend : Nat → Option ChannelValue) (js : List Nat) : List LateNetEv :=
  js.flatMap fun j => match pend j with
    | some (.bytes data) => [.write j data]
    | _ => []

theorem writes_run {oc : Bool} {w : Wiring} (pend : Nat → Option ChannelValue) (js : List Nat)
    (hn : js.Nodup) (hj : ∀ j ∈ js, j ∈ w.modules) (n : LateNet) :
    n.run oc w (writeEvs pend js) =
      { n with
        c := feeds pend js n.c
        line := fun i => if i ∈ js then
          { n.line i with written := (n.line i).written ++ sentBytes (pend i) } else n.line i } := by
  induction js generalizing n with
  | nil => simp [writeEvs, LateNet.run, feeds]
  | cons j js ih =>
    have hjs : j ∉ js := (List.nodup_cons.1 hn).1
    have ih' := ih (List.nodup_cons.1 hn).2 (fun i hi => hj i (List.mem_cons_of_mem _ hi))
    by_cases hb : ∃ data, pend j = some (.bytes data)
    · obtain ⟨data, hd⟩ := hb
      have e1 : writeEvs pend (j :: js) = .write j data :: writeEvs pend js := by
        simp [writeEvs, hd]
      have e2 : n.run oc w (.write j data :: writeEvs pend js) =
          (n.step oc w (.write j data)).run oc w (writeEvs pend js) := rfl
      rw [e1, e2, ih']
      simp only [LateNet.step, hj j List.mem_cons_self, if_true, LateNet.setLine]
      simp only [feeds, List.foldl_cons, hd]
      congr
      funext i
      by_cases hi : i = j
      · subst hi
        simp [hjs, hd, sentBytes]
      · simp [hi]
    · have e1 : writeEvs pend (j :: js) = writeEvs pend js := by
        simp only [writeEvs, List.flatMap_cons]
        split
        · rename_i h; exact absurd ⟨_, h⟩ hb
        · rfl
      have e2 : feeds pend (j :: js) n.c = feeds pend js n.c := by
        simp only [feeds, List.foldl_cons]
        congr 1
        split
        · rename_i h; exact absurd ⟨_, h⟩ hb
        · rfl
      have e3 : sentBytes (pend j) = [] := by
        unfold sentBytes
        split
        · rename_i h; exact absurd ⟨_, h⟩ hb
        · rfl
      rw [e1, e2, ih']
      congr
      funext i
      by_cases hi : i = j
      · subst hi
        simp [hjs, e3]
      · simp [hi]

theorem Ok.given_run {oc : Bool} {cfg : CouplerConfig} {w : Wiring} (hd : w.modules.Nodup) {s : LateSend}
    (h : Ok oc cfg w s) :
    given w s = (cleanNet w s.net).run oc w (writeEvs s.pend w.modules) := by
  rw [writes_run _ _ hd (fun _ h => h)]
  simp only [given, taken, cleanNet]
  congr
  funext i
  split
  · rfl
  · rename_i hi
    have : s.pend i = none := by rw [h.pend, if_neg hi]
    simp [this, sentBytes]

/-- What a step does to the coupler. -/
theorem step_c (oc : Bool) (w : Wiring) (n : LateNet) (e : LateNetEv) :
    (n.step oc w e).c = n.c ∨ ∃ op : COp, (n.step oc w e).c = op.apply oc n.c := by
  cases e with
  | write j buf =>
    simp only [LateNet.step]
    split
    · exact .inr ⟨.write j buf, rfl⟩
    · exact .inl rfl
  | read j k =>
    simp only [LateNet.step]
    split
    · split
      · rename_i c' bytes hr
        exact .inr ⟨.read j k, by simp only [LateNet.setLine, COp.apply, hr]⟩
      · exact .inl rfl
    · exact .inl rfl
  | other op =>
    simp only [LateNet.step]
    split
    · exact .inr ⟨op, rfl⟩
    · exact .inl rfl
  | sample pi => simp only [LateNet.step]; split <;> exact .inl rfl
  | arrive => simp only [LateNet.step]; split <;> exact .inl rfl
  | loseIn k => exact .inl rfl
  | cycle =>
    simp only [LateNet.step]
    split
    · rename_i c' img hn
      exact .inr ⟨.next n.inp n.kept, by simp only [COp.apply, hn]⟩
    · exact .inl rfl
  | failing pi po =>
    simp only [LateNet.step]
    split
    · rename_i c' er hn
      exact .inr ⟨.next pi po, by simp only [COp.apply, hn]⟩
    · exact .inl rfl
  | again => exact .inl rfl
  | deliver => simp only [LateNet.step]; split <;> exact .inl rfl
  | loseOut k => exact .inl rfl
  | take j =>
    simp only [LateNet.step]
    split
    · split
      · split <;> exact .inl rfl
      · exact .inl rfl
    · exact .inl rfl
  | post j seg =>
    simp only [LateNet.step]
    split
    · split
      · split <;> exact .inl rfl
      · exact .inl rfl
    · exact .inl rfl
  | hide j =>
    simp only [LateNet.step]
    split
    · split
      · split <;> exact .inl rfl
      · exact .inl rfl
    · exact .inl rfl

theorem run_reach {oc : Bool} {cfg : CouplerConfig} {w : Wiring} {n : LateNet}
    (h : ReachableFrom oc cfg n.c) (evs : List LateNetEv) :
    ReachableFrom oc cfg (n.run oc w evs).c ∧ (n.run oc w evs).c.modules = n.c.modules ∧
      (n.run oc w evs).c.offsets = n.c.offsets := by
  induction evs generalizing n with
  | nil => exact ⟨h, rfl, rfl⟩
  | cons e evs ih =>
    rcases step_c oc w n e with he | ⟨op, he⟩
    · have := ih (n := n.step oc w e) (by rw [he]; exact h)
      rw [he] at this
      exact this
    · have := ih (n := n.step oc w e) (by rw [he]; exact LateNet.fit_apply h op)
      rw [he] at this
      have hst := apply_static oc n.c op
      exact ⟨this.1, this.2.1.trans hst.1, this.2.2.trans hst.2⟩

/-- A cycle with images that cannot be decoded does not look at the values. -/
theorem undecoded_write {oc : Bool} {c : Coupler} {pi po : List Word}
    (h : ¬ ((∃ ins, processInputData oc (infos c) pi = .ok ins) ∧
      ∃ outs, processOutputData oc (infos c) po = .ok outs))
    (wr : Address → Option ChannelValue) :
    ({ c with write := wr } : Coupler).next oc pi po =
      ({ (c.next oc pi po).1 with write := wr }, (c.next oc pi po).2) ∧
    (c.next oc pi po).1.write = c.write := by
  unfold infos at h
  simp only [next]
  cases h1 : processInputData oc (c.modules.zip c.offsets) pi with
  | err e => exact ⟨rfl, rfl⟩
  | panic => exact ⟨rfl, rfl⟩
  | ok ins =>
    simp only
    cases h2 : processOutputData oc (c.modules.zip c.offsets) po with
    | err e => exact ⟨rfl, rfl⟩
    | panic => exact ⟨rfl, rfl⟩
    | ok outs => exact absurd ⟨⟨_, h1⟩, ⟨_, h2⟩⟩ h

/-- The steps that are not cycles do not look at the values. -/
theorem clean_step {oc : Bool} {cfg : CouplerConfig} {w : Wiring} (hw : w.modules ≠ []) {n : LateNet}
    (hr : ReachableFrom oc cfg (clean w n.c)) (e : LateNetEv) (hc : e ≠ .cycle)
    (hu : ∀ pi po, e = .failing pi po → ¬ Decodable cfg pi po ∧ (oc = false → po.length ≤ 0xF800)) :
    cleanNet w (n.step oc w e) = (cleanNet w n).step oc w e ∧
    (∀ j ∈ w.modules, (n.step oc w e).c.write ⟨j, 0⟩ = n.c.write ⟨j, 0⟩) ∧
    (n.step oc w e).cycles = n.cycles := by
  cases e with
  | write j buf =>
    simp only [LateNet.step]
    split
    · simp only [cleanNet, LateNet.setLine, clean, writeBytes]
      cases n.c.processors j <;> exact ⟨rfl, fun _ _ => rfl, trivial⟩
    · exact ⟨rfl, fun _ _ => rfl, rfl⟩
  | read j k =>
    simp only [LateNet.step]
    split
    · simp only [cleanNet, clean, Coupler.read]
      cases n.c.processors j with
      | none => exact ⟨rfl, fun _ _ => rfl, rfl⟩
      | some p =>
        simp only [read_ok, Res.bind_ok, setProcessor]
        exact ⟨rfl, fun _ _ => rfl, rfl⟩
    · exact ⟨rfl, fun _ _ => rfl, rfl⟩
  | other op =>
    simp only [LateNet.step]
    split
    · rename_i hop
      cases op with
      | setOutput a v =>
        have hna : ∀ j ∈ w.modules, (⟨j, 0⟩ : Address) ≠ a := by
          rintro j hj rfl
          exact hop j hj rfl
        have hva : ∀ wr, ({ n.c with write := wr } : Coupler).isValidAddr a = n.c.isValidAddr a :=
          fun _ => rfl
        simp only [COp.apply, setOutput, cleanNet, clean, hva]
        by_cases hb : (!n.c.isValidAddr a) = true
        · simp only [if_pos hb]; exact ⟨trivial, fun _ _ => trivial, trivial⟩
        simp only [if_neg hb]
        refine ⟨?_, fun j hj => by simp [Coupler.insert, hna j hj], trivial⟩
        congr 2
        funext x
        simp only [Coupler.insert]
        by_cases h1 : x = a
        · subst h1
          rw [if_neg]
          · simp
          · rintro ⟨h2, h3⟩
            obtain ⟨m, ch⟩ := x
            simp only at h2 h3
            subst h2
            exact hna m h3 rfl
        · simp [h1]
      | next _ _ =>
        obtain ⟨j, hj⟩ := List.exists_mem_of_ne_nil _ hw
        exact (hop j hj).elim
      | read m k =>
        simp only [COp.apply, Coupler.read, cleanNet, clean]
        cases n.c.processors m with
        | none => exact ⟨rfl, fun _ _ => rfl, trivial⟩
        | some p =>
          simp only [read_ok, Res.bind_ok, setProcessor]
          exact ⟨trivial, fun _ _ => trivial, trivial⟩
      | write m b =>
        simp only [COp.apply, writeBytes, cleanNet, clean]
        cases n.c.processors m <;> exact ⟨rfl, fun _ _ => rfl, trivial⟩
    · exact ⟨rfl, fun _ _ => rfl, rfl⟩
  | sample pi =>
    have hsh : (cleanNet w n).Shows w pi ↔ n.Shows w pi := Iff.rfl
    simp only [LateNet.step, hsh]
    split <;> exact ⟨rfl, fun _ _ => rfl, rfl⟩
  | arrive =>
    have : (cleanNet w n).ins = n.ins := rfl
    simp only [LateNet.step, this]
    cases n.ins <;> exact ⟨rfl, fun _ _ => rfl, rfl⟩
  | loseIn k => exact ⟨rfl, fun _ _ => rfl, rfl⟩
  | cycle => exact absurd rfl hc
  | failing pi po =>
    obtain ⟨hd, hsz⟩ := hu pi po rfl
    have h' : ¬ ((∃ ins, processInputData oc (infos n.c) pi = .ok ins) ∧
        ∃ outs, processOutputData oc (infos n.c) po = .ok outs) := fun hh =>
      hd ⟨(decode_inputs hr pi).1 hh.1, (decode_outputs hr hsz).1 hh.2⟩
    obtain ⟨h1, h2⟩ := undecoded_write h'
      (fun a => if a.channel = 0 ∧ a.module ∈ w.modules then none else n.c.write a)
    have h3 : (cleanNet w n).c.next oc pi po = _ := h1
    simp only [LateNet.step, h3]
    rcases hn : n.c.next oc pi po with ⟨c', r⟩
    rw [hn] at h2
    simp only at h2
    cases r with
    | ok img => exact ⟨rfl, fun _ _ => rfl, rfl⟩
    | panic => exact ⟨rfl, fun _ _ => rfl, rfl⟩
    | err e =>
      refine ⟨?_, fun j _ => by rw [h2], rfl⟩
      simp only [cleanNet, clean, h2]
  | again => exact ⟨rfl, fun _ _ => rfl, rfl⟩
  | deliver =>
    have : (cleanNet w n).outs = n.outs := rfl
    simp only [LateNet.step, this]
    cases n.outs <;> exact ⟨rfl, fun _ _ => rfl, rfl⟩
  | loseOut k => exact ⟨rfl, fun _ _ => rfl, rfl⟩
  | take j =>
    have e1 : (cleanNet w n).out = n.out := rfl
    have e2 : (cleanNet w n).line = n.line := rfl
    simp only [LateNet.step, e1, e2]
    split
    · split
      · split <;> exact ⟨rfl, fun _ _ => rfl, rfl⟩
      · exact ⟨rfl, fun _ _ => rfl, rfl⟩
    · exact ⟨rfl, fun _ _ => rfl, rfl⟩
  | post j seg =>
    have e1 : (cleanNet w n).out = n.out := rfl
    have e2 : (cleanNet w n).line = n.line := rfl
    simp only [LateNet.step, e1, e2]
    split
    · split
      · split <;> exact ⟨rfl, fun _ _ => rfl, rfl⟩
      · exact ⟨rfl, fun _ _ => rfl, rfl⟩
    · exact ⟨rfl, fun _ _ => rfl, rfl⟩
  | hide j =>
    have e1 : (cleanNet w n).out = n.out := rfl
    have e2 : (cleanNet w n).line = n.line := rfl
    simp only [LateNet.step, e1, e2]
    split
    · split
      · split <;> exact ⟨rfl, fun _ _ => rfl, rfl⟩
      · exact ⟨rfl, fun _ _ => rfl, rfl⟩
    · exact ⟨rfl, fun _ _ => rfl, rfl⟩

theorem Ok.of_run {oc : Bool} {cfg : CouplerConfig} {w : Wiring} {s s' : LateSend} (h : Ok oc cfg w s)
    {evs : List LateNetEv} (he : cleanNet w s'.net = (cleanNet w s.net).run oc w evs)
    (hp : ∀ j, s'.pend j = if j ∈ w.modules then s'.net.c.write ⟨j, 0⟩ else none) : Ok oc cfg w s' := by
  obtain ⟨h1, h2, h3⟩ := run_reach (w := w) (n := cleanNet w s.net) h.reach evs
  rw [← he] at h1 h2 h3
  exact ⟨h1, fun j hj => (h.serial j hj).congr h2 h3, hp⟩

/-- The system behaves like that without the values, with the bytes written when they are taken. -/
theorem step_clean {oc : Bool} {cfg : CouplerConfig} {w : Wiring} (hw : w.modules ≠ [])
    (hd : w.modules.Nodup) {s : LateSend} (h : Ok oc cfg w s) (e : LateSendEv)
    (hu : ∀ pi po, e = .ev (.failing pi po) →
      ¬ Decodable cfg pi po ∧ (oc = false → po.length ≤ 0xF800)) :
    Ok oc cfg w (s.step oc w e) ∧
    ∃ evs, cleanNet w (s.step oc w e).net = (cleanNet w s.net).run oc w evs ∧
      (∀ pi po, .failing pi po ∈ evs → e = .ev (.failing pi po)) ∧
      (∀ a v, .other (.setOutput a v) ∈ evs → e = .ev (.other (.setOutput a v))) := by
  suffices hsuff : ∃ evs, cleanNet w (s.step oc w e).net = (cleanNet w s.net).run oc w evs ∧
      (∀ j, (s.step oc w e).pend j =
        if j ∈ w.modules then (s.step oc w e).net.c.write ⟨j, 0⟩ else none) ∧
      (∀ pi po, .failing pi po ∈ evs → e = .ev (.failing pi po)) ∧
      (∀ a v, .other (.setOutput a v) ∈ evs → e = .ev (.other (.setOutput a v))) by
    obtain ⟨evs, h1, h2, h3, h4⟩ := hsuff
    exact ⟨h.of_run h1 h2, evs, h1, h3, h4⟩
  cases e with
  | set j v =>
    refine ⟨[], ?_, ?_, by simp, by simp⟩
    · simp only [step]
      split
      · rename_i hj
        have hv := (h.serial j hj).valid
        simp only [cleanNet, clean, setOutput, hv, Bool.not_true, Bool.false_eq_true, if_false,
          LateNet.run, List.foldl_nil]
        congr 2
        funext a
        by_cases ha : a = ⟨j, 0⟩
        · subst ha; simp [hj]
        · simp [Coupler.insert, ha]
      · rfl
    · intro i
      simp only [step]
      split
      · rename_i hj
        have hv := (h.serial j hj).valid
        simp only [setOutput, hv, Bool.not_true, Bool.false_eq_true, if_false]
        by_cases hi : i = j
        · subst hi; simp [hj, Coupler.insert]
        · simp [hi, Coupler.insert, h.pend]
      · exact h.pend i
  | ev e =>
    by_cases hc : e = .cycle
    · subst hc
      rcases cycle_step hd h with ⟨⟨c', img, hn⟩, hs⟩ | ⟨-, hs⟩
      · have hg := h.given_run hd
        have hcl : (given w s).step oc w .cycle =
            (cleanNet w s.net).run oc w (writeEvs s.pend w.modules ++ [.cycle]) := by
          rw [hg]
          simp [LateNet.run, List.foldl_append]
        have hwr : ∀ j ∈ w.modules, ((given w s).step oc w .cycle).c.write ⟨j, 0⟩ = none := by
          intro j hj
          obtain ⟨r1, r2, r3⟩ := run_reach (w := w) (n := cleanNet w s.net) h.reach
            (writeEvs s.pend w.modules)
          rw [← hg] at r1 r2 r3
          have hsj : SerialAt (given w s).c j _ _ _ := (h.serial j hj).congr r2 r3
          obtain ⟨-, -, -, -, -, -, -, -, -, -, -, h8, -⟩ := serial_cycle (inv_of_reachable r1) hsj hn
          have hn' : (given w s).c.next oc (given w s).inp (given w s).kept = (c', .ok img) := hn
          simp only [LateNet.step, hn']
          exact h8
        refine ⟨writeEvs s.pend w.modules ++ [.cycle], ?_, ?_, ?_, ?_⟩
        · rw [hs, ← hcl]
          simp only [start, cleanNet, clean_eq hwr]
        · intro j
          rw [hs]
          simp only [start]
          split
          · rename_i hj; exact (hwr j hj).symm
          · rfl
        · intro pi po hm
          simp only [writeEvs, List.mem_append, List.mem_flatMap, List.mem_cons, List.not_mem_nil,
            or_false, reduceCtorEq] at hm
          obtain ⟨j, -, hm⟩ := hm
          split at hm <;> simp at hm
        · intro a v hm
          simp only [writeEvs, List.mem_append, List.mem_flatMap, List.mem_cons, List.not_mem_nil,
            or_false, reduceCtorEq] at hm
          obtain ⟨j, -, hm⟩ := hm
          split at hm <;> simp at hm
      · refine ⟨[], by rw [hs]; rfl, by rw [hs]; exact h.pend, by simp, by simp⟩
    · obtain ⟨h1, h2, h3⟩ := clean_step hw h.reach e hc (fun pi po he => hu pi po (by rw [he]))
      have hs : s.step oc w (.ev e) = ⟨s.net.step oc w e, s.pend⟩ := by simp only [step, h3, if_true]
      rw [hs]
      refine ⟨[e], h1, fun j => ?_, ?_, ?_⟩
      · rw [h.pend]
        split
        · rename_i hj; exact (h2 j hj).symm
        · rfl
      · intro pi po hm
        rw [List.mem_singleton.1 hm]
      · intro a v hm
        rw [List.mem_singleton.1 hm]

theorem run_clean {oc : Bool} {cfg : CouplerConfig} {w : Wiring} (hw : w.modules ≠ [])
    (hd : w.modules.Nodup) {s : LateSend} (h : Ok oc cfg w s) (evs : List LateSendEv)
    (hu : OnlyUndecodable oc cfg evs) :
    Ok oc cfg w (s.run oc w evs) ∧
    ∃ evs', cleanNet w (s.run oc w evs).net = (cleanNet w s.net).run oc w evs' ∧
      LateNet.OnlyUndecodable oc cfg evs' ∧ (AcceptedValues cfg evs → LateNet.AcceptedValues cfg evs') := by
  induction evs generalizing s with
  | nil => exact ⟨h, [], rfl, by intro pi po hm; simp at hm, fun _ a v hm => by simp at hm⟩
  | cons e evs ih =>
    have hu0 : ∀ pi po, e = .ev (.failing pi po) →
        ¬ Decodable cfg pi po ∧ (oc = false → po.length ≤ 0xF800) :=
      fun pi po he => hu pi po (by rw [← he]; exact List.mem_cons_self)
    obtain ⟨h1, evs1, h2, h3, h4⟩ := step_clean hw hd h e hu0
    obtain ⟨g1, evs2, g2, g3, g4⟩ := ih h1 (fun pi po hm => hu pi po (List.mem_cons_of_mem _ hm))
    refine ⟨g1, evs1 ++ evs2, ?_, ?_, ?_⟩
    · change cleanNet w ((s.step oc w e).run oc w evs).net = _
      rw [g2, h2]
      simp only [LateNet.run, List.foldl_append]
    · intro pi po hm
      rcases List.mem_append.1 hm with hm | hm
      · exact hu0 pi po (h3 pi po hm)
      · exact g3 pi po hm
    · intro hv a v hm
      rcases List.mem_append.1 hm with hm | hm
      · exact hv a v (by rw [← h4 a v hm]; exact List.mem_cons_self)
      · exact g4 (fun a v hm => hv a v (List.mem_cons_of_mem _ hm)) a v hm

theorem started {oc : Bool} {cfg : CouplerConfig} {w : Wiring} {s : LateNet} (h : s.Started cfg w) :
    Ok oc cfg w (start s) ∧ cleanNet w s = s := by
  have hn : ∀ a, s.c.write a = none := by
    obtain ⟨-, -, ms, -, hc⟩ := new_ok h.c
    rw [hc]
    exact fun _ => rfl
  have hc : clean w s.c = s.c := clean_eq fun j _ => hn _
  refine ⟨⟨?_, h.serial, fun j => ?_⟩, by simp only [cleanNet, hc]⟩
  · simp only [start, hc]
    exact ⟨s.c, [], h.c, rfl⟩
  · simp only [start, hn, ite_self]

/-! ### Rounds -/

/-- Without values that are set the steps are those of `Spec/LateNet.lean`. -/
theorem run_none (oc : Bool) (w : Wiring) (n : LateNet) (evs : List LateNetEv) :
    (start n).run oc w (evs.map .ev) = start (n.run oc w evs) := by
  induction evs generalizing n with
  | nil => rfl
  | cons e evs ih =>
    have e1 : (start n).step oc w (.ev e) = start (n.step oc w e) := by
      have ht : taken (fun _ => none) (n.step oc w e) = n.step oc w e := by
        simp [taken, sentBytes]
      simp only [step, start, ht, ite_self]
    change ((start n).step oc w (.ev e)).run oc w (evs.map .ev) = _
    rw [e1, ih]
    rfl

theorem round_none (oc : Bool) (w : Wiring) (n : LateNet) (pi : List Word) :
    (start n).round oc w pi = start (n.round oc w pi) := run_none oc w n _

theorem rounds_none (oc : Bool) (w : Wiring) (n : LateNet) (pis : List (List Word)) :
    (start n).rounds oc w pis = start (n.rounds oc w pis) := by
  induction pis generalizing n with
  | nil => rfl
  | cons pi pis ih =>
    change ((start n).round oc w pi).rounds oc w pis = _
    rw [round_none, ih]
    rfl

theorem good_none {oc : Bool} {cfg : CouplerConfig} {w : Wiring} (n : LateNet) (pis : List (List Word))
    (h : GoodInputs oc cfg w (start n) pis) : n.GoodInputs oc cfg w pis := by
  induction pis generalizing n with
  | nil => trivial
  | cons pi pis ih =>
    refine ⟨h.1, h.2.1, ih _ ?_⟩
    rw [← round_none]
    exact h.2.2

/-- The first round takes the values. -/
theorem Ok.first_round {oc : Bool} {cfg : CouplerConfig} {w : Wiring} (hd : w.modules.Nodup) {s : LateSend} (h : Ok oc cfg w s) (hi : s.net.ins = [])
    (hF : (given w s).Fit oc cfg) {pi : List Word} (hpi : InputsReady cfg pi) (hsh : s.net.Shows w pi) :
    s.round oc w pi = start ((given w s).round oc w pi) := by
  have hns : ∀ pi po, (LateSendEv.ev (.sample pi)) ≠ .ev (.failing pi po) := by simp
  have hsh' : (given w s).Shows w pi := hsh
  -- the image of the inputs arrives
  have a1 : s.step oc w (.ev (.sample pi)) =
      ⟨{ s.net with ins := s.net.ins ++ [pi] }, s.pend⟩ := by
    simp only [step, LateNet.step, hsh, if_true]
  have a2 : (⟨{ s.net with ins := s.net.ins ++ [pi] }, s.pend⟩ : LateSend).step oc w (.ev .arrive) =
      ⟨{ s.net with inp := pi }, s.pend⟩ := by
    simp only [step, LateNet.step, hi, List.nil_append, if_true]
  have b1 : (given w s).run oc w [.sample pi, .arrive] =
      given w ⟨{ s.net with inp := pi }, s.pend⟩ := by
    simp only [LateNet.run, List.foldl]
    have : (given w s).step oc w (.sample pi) = { given w s with ins := (given w s).ins ++ [pi] } := by
      simp only [LateNet.step, hsh', if_true]
    rw [this]
    have hgi : (given w s).ins = [] := hi
    simp only [LateNet.step, hgi, List.nil_append]
    simp only [given, taken, hi]
  have ok' : Ok oc cfg w ⟨{ s.net with inp := pi }, s.pend⟩ := ⟨h.reach, h.serial, h.pend⟩
  obtain ⟨img, hn⟩ := hF.succeeds hpi
  have a3 : (⟨{ s.net with inp := pi }, s.pend⟩ : LateSend).step oc w (.ev .cycle) =
      start ((given w ⟨{ s.net with inp := pi }, s.pend⟩).step oc w .cycle) := by
    rcases cycle_step hd ok' with ⟨-, hs⟩ | ⟨hne, -⟩
    · exact hs
    · exact absurd hn (hne img)
  have e1 : s.round oc w pi =
      (((s.step oc w (.ev (.sample pi))).step oc w (.ev .arrive)).step oc w (.ev .cycle)).run oc w
        ((.deliver :: w.modules.map .take : List LateNetEv).map .ev) := by
    simp only [LateSend.round, run, List.map_cons, List.cons_append, List.nil_append, List.foldl_cons]
  have e2 : (given w s).round oc w pi =
      (((given w s).run oc w [.sample pi, .arrive]).step oc w .cycle).run oc w
        (.deliver :: w.modules.map .take) := by
    simp only [LateNet.round, LateNet.run, List.cons_append, List.nil_append, List.foldl_cons, List.foldl_nil]
  rw [e1, e2, a1, a2, a3, b1, run_none]

/-- All rounds. -/
theorem Ok.rounds {oc : Bool} {cfg : CouplerConfig} {w : Wiring} (hd : w.modules.Nodup) {s : LateSend} (h : Ok oc cfg w s) (hi : s.net.ins = [])
    (hF : (given w s).Fit oc cfg) {pis : List (List Word)} (hne : pis ≠ [])
    (hg : GoodInputs oc cfg w s pis) :
    s.rounds oc w pis = start ((given w s).rounds oc w pis) ∧ (given w s).GoodInputs oc cfg w pis := by
  cases pis with
  | nil => exact absurd rfl hne
  | cons pi pis =>
    obtain ⟨g1, g2, g3⟩ := hg
    have e := h.first_round hd hi hF g1 g2
    rw [e] at g3
    refine ⟨?_, g1, g2, good_none _ _ g3⟩
    change (s.round oc w pi).rounds oc w pis = _
    rw [e, rounds_none]
    rfl

/-! ### The queues -/

theorem feed_queue {p : MessageProcessor} {len : ProcessDataLength} (hl : p.processDataLen = len)
    (v : Option ChannelValue) :
    (feed p v).outData.length =
      p.outData.length + ((sentBytes v).length + capacity len - 1) / capacity len := by
  have hcap : capacity len = len.userDataLen := by cases len <;> rfl
  have hpos := userDataLen_pos len
  have hno : (([] : List Byte).length + capacity len - 1) / capacity len = 0 := by
    rw [hcap]; exact Nat.div_eq_of_lt (by simp; omega)
  cases v with
  | none =>
    show _ = _ + (([] : List Byte).length + capacity len - 1) / capacity len
    rw [hno]; rfl
  | some v =>
    cases v <;> try (simp only [feed, sentBytes, hno]; rfl)
    rename_i data
    have hchunks : (chunks len.userDataLen data).length =
        (data.length + capacity len - 1) / capacity len := by
      rw [hcap]
      exact chunksAux_length hpos _ _ (Nat.le_refl _)
    show ((p.write data).1.outData).length = _
    simp only [MessageProcessor.write, List.length_append, hl, hchunks, sentBytes]

theorem feeds_processors (pend : Nat → Option ChannelValue) (js : List Nat) (hn : js.Nodup) (c : Coupler)
    (hp : ∀ j ∈ js, ∃ p, c.processors j = some p) (j : Nat) :
    (feeds pend js c).processors j =
      if j ∈ js then (c.processors j).map (feed · (pend j)) else c.processors j := by
  induction js generalizing c with
  | nil => simp [feeds]
  | cons k js ih =>
    obtain ⟨p, hpk⟩ := hp k List.mem_cons_self
    obtain ⟨hk, hn'⟩ := List.nodup_cons.1 hn
    rw [feeds_cons hpk, ih hn' _ (fun i hi => by
      obtain ⟨q, hq⟩ := hp i (List.mem_cons_of_mem _ hi)
      exact ⟨q, by simp only [setProcessor]; rw [if_neg (fun h : i = k => hk (h ▸ hi))]; exact hq⟩)]
    by_cases hj : j = k
    · subst hj
      simp [hk, setProcessor, hpk]
    · simp [hj, setProcessor]

theorem Ok.segments {oc : Bool} {cfg : CouplerConfig} {w : Wiring} (hd : w.modules.Nodup) {s : LateSend}
    (h : Ok oc cfg w s) {j : Nat} (hj : j ∈ w.modules) :
    (given w s).segments j = s.net.segments j +
      ((sentBytes (s.pend j)).length + capacity (w.wire j).len - 1) / capacity (w.wire j).len := by
  have hi := inv_of_reachable h.reach
  have hp : ∀ i ∈ w.modules, ∃ p, (clean w s.net.c).processors i = some p := by
    intro i hi'
    obtain ⟨cm, hm, -⟩ := h.serial i hi'
    exact hi.com i cm hm.1
  obtain ⟨p, hpj⟩ := hp j hj
  have hl : p.processDataLen = (w.wire j).len := by
    obtain ⟨cm, k1, k2⟩ := hi.proc j p hpj
    obtain ⟨cm', k3, k4, -⟩ := h.serial j hj
    have k3' : (clean w s.net.c).modules[j]? = some (.com cm') := k3.1
    rw [k3'] at k1
    cases k1
    rw [k2.1, k4]
  have e1 : (given w s).c.processors j = some (feed p (s.pend j)) := by
    have := feeds_processors s.pend w.modules hd (clean w s.net.c) hp j
    rw [if_pos hj, hpj] at this
    exact this
  have e2 : s.net.c.processors j = some p := hpj
  simp only [LateNet.segments, e1, e2]
  exact feed_queue hl _

/-- The state before the rounds, with the values given to the message processors, is one of a run without
values. -/
theorem Ok.given_good {oc : Bool} {cfg : CouplerConfig} {w : Wiring} (hd : w.modules.Nodup)
    {s : LateNet} {r : LateSend} (h : Ok oc cfg w r) {evs : List LateNetEv}
    (he : cleanNet w r.net = s.run oc w evs) (hu : LateNet.OnlyUndecodable oc cfg evs)
    (hv : LateNet.AcceptedValues cfg evs) :
    given w r = s.run oc w (evs ++ writeEvs r.pend w.modules) ∧
    LateNet.OnlyUndecodable oc cfg (evs ++ writeEvs r.pend w.modules) ∧
    LateNet.AcceptedValues cfg (evs ++ writeEvs r.pend w.modules) := by
  refine ⟨?_, fun pi po hm => ?_, fun a v hm => ?_⟩
  · rw [h.given_run hd, he]
    simp only [LateNet.run, List.foldl_append]
  · rcases List.mem_append.1 hm with hm | hm
    · exact hu pi po hm
    · simp only [writeEvs, List.mem_flatMap] at hm
      obtain ⟨j, -, hm⟩ := hm
      split at hm <;> simp at hm
  · rcases List.mem_append.1 hm with hm | hm
    · exact hv a v hm
    · simp only [writeEvs, List.mem_flatMap] at hm
      obtain ⟨j, -, hm⟩ := hm
      split at hm <;> simp at hm

end Spec.LateSend

/-! ### C151 -/

/-- C151: bytes may also be sent by setting them on the channels of the serial modules: whatever is set,
written or read, in which order, however late the images are and whichever get lost, every device takes
over what was written to its own module or set on it, the bytes that are set being taken by the next cycle
that succeeds: completely, once and in order, possibly after the segment that was waiting for it at the
start. -/
theorem C151_sent (oc : Bool) (cfg : CouplerConfig) (w : Wiring) (s : LateNet) (h : s.Started cfg w)
    (evs : List LateSendEv) (hu : LateSend.OnlyUndecodable oc cfg evs) (j : Nat) (hj : j ∈ w.modules) :
    let r := ((LateSend.start s).run oc w evs).net
    ∃ old, (old = [] ∨ old = s.waiting w j) ∧
      (r.line j).received ++ r.inFlight w j ++ r.queued j = old ++ (r.line j).written := by
  obtain ⟨h1, h2⟩ := LateSend.started (oc := oc) h
  obtain ⟨-, evs', h3, h4, -⟩ := LateSend.run_clean (List.ne_nil_of_mem hj) h.distinct h1 evs hu
  have := C148_sent oc cfg w s h evs' h4 j hj
  rw [show LateSend.cleanNet w (LateSend.start s).net = s from h2] at h3
  rw [← h3] at this
  exact this

/-- C151, receiving: setting bytes does not disturb what is received. -/
theorem C151_received (oc : Bool) (cfg : CouplerConfig) (w : Wiring) (s : LateNet) (h : s.Started cfg w)
    (evs : List LateSendEv) (hu : LateSend.OnlyUndecodable oc cfg evs)
    (hc : 2 ≤ ((LateSend.start s).run oc w evs).net.cycles) (j : Nat) (hj : j ∈ w.modules) :
    let r := ((LateSend.start s).run oc w evs).net
    ∃ skipped got ahead, (r.line j).shown = skipped ++ got ++ ahead ∧
      skipped.length ≤ (r.line j).early ∧ ahead.length ≤ 1 ∧
      (r.line j).delivered ++ r.buffered j = got.flatten := by
  obtain ⟨h1, h2⟩ := LateSend.started (oc := oc) h
  obtain ⟨-, evs', h3, h4, -⟩ := LateSend.run_clean (List.ne_nil_of_mem hj) h.distinct h1 evs hu
  rw [show LateSend.cleanNet w (LateSend.start s).net = s from h2] at h3
  have hc' : 2 ≤ (LateSend.cleanNet w ((LateSend.start s).run oc w evs).net).cycles := hc
  rw [h3] at hc'
  have := C148_received oc cfg w s h evs' h4 hc' j hj
  rw [← h3] at this
  exact this

/-- C151, receiving: before the end of the initialisation nothing is received. -/
theorem C151_early (oc : Bool) (cfg : CouplerConfig) (w : Wiring) (s : LateNet) (h : s.Started cfg w)
    (evs : List LateSendEv) (hu : LateSend.OnlyUndecodable oc cfg evs)
    (hc : ((LateSend.start s).run oc w evs).net.cycles < 2) (j : Nat) (hj : j ∈ w.modules) :
    let r := ((LateSend.start s).run oc w evs).net
    (r.line j).delivered ++ r.buffered j = [] := by
  obtain ⟨h1, h2⟩ := LateSend.started (oc := oc) h
  obtain ⟨-, evs', h3, h4, -⟩ := LateSend.run_clean (List.ne_nil_of_mem hj) h.distinct h1 evs hu
  rw [show LateSend.cleanNet w (LateSend.start s).net = s from h2] at h3
  have hc' : (LateSend.cleanNet w ((LateSend.start s).run oc w evs).net).cycles < 2 := hc
  rw [h3] at hc'
  have := C148_early oc cfg w s h evs' h4 hc' j hj
  rw [← h3] at this
  exact this

/-- C151, progress: when nothing is on the way any more, rounds in which the images arrive bring
everything that was written and then the bytes that are set to all devices at once: as many as the longest
queue needs, counting the segments of the bytes that are set. All cycles of these rounds succeed. -/
theorem C151_progress (oc : Bool) (cfg : CouplerConfig) (w : Wiring) (s : LateNet) (h : s.Started cfg w)
    (ho : OutputsReady cfg s.out) (evs : List LateSendEv) (hu : LateSend.OnlyUndecodable oc cfg evs)
    (hv : LateSend.AcceptedValues cfg evs) (pis : List (List Word)) (j : Nat) (hj : j ∈ w.modules) :
    let r := (LateSend.start s).run oc w evs
    r.net.ins = [] → r.net.outs = [] → r.GoodInputs oc cfg w pis →
    (∀ i ∈ w.modules, 3 + r.net.segments i +
      ((sentBytes (r.pend i)).length + capacity (w.wire i).len - 1) / capacity (w.wire i).len ≤ pis.length) →
    (∃ old, (old = [] ∨ old = s.waiting w j) ∧ ((r.rounds oc w pis).net.line j).received =
        old ++ (r.net.line j).written ++ sentBytes (r.pend j)) ∧
      (r.rounds oc w pis).net.queued j = [] ∧
      (r.rounds oc w pis).net.cycles = r.net.cycles + pis.length := by
  intro r hi hos hg hk
  obtain ⟨h1, h2⟩ := LateSend.started (oc := oc) h
  have hw := List.ne_nil_of_mem hj
  obtain ⟨g1, evs', h3, h4, h5⟩ := LateSend.run_clean hw h.distinct h1 evs hu
  rw [show LateSend.cleanNet w (LateSend.start s).net = s from h2] at h3
  obtain ⟨k1, k2, k3⟩ := g1.given_good h.distinct h3 h4 (h5 hv)
  have hF : (LateSend.given w r).Fit oc cfg := by
    rw [show LateSend.given w r = _ from k1]
    exact (LateNet.Started.fit (oc := oc) h ho).run (w := w) _ k3
  have hne : pis ≠ [] := by
    have := hk j hj
    rintro rfl
    simp at this
  obtain ⟨m1, m2⟩ := g1.rounds h.distinct hi hF hne hg
  have hseg : ∀ i ∈ w.modules, 3 + (LateSend.given w r).segments i ≤ pis.length := by
    intro i hi'
    have := hk i hi'
    have e : (LateSend.given w r).segments i = _ := g1.segments h.distinct hi'
    rw [e]
    show 3 + (r.net.segments i + ((sentBytes (r.pend i)).length + _ - 1) / _) ≤ _
    omega
  have hi' : (LateSend.given w r).ins = [] := hi
  have hos' : (LateSend.given w r).outs = [] := hos
  rw [show LateSend.given w r = _ from k1] at hi' hos' hseg m2
  obtain ⟨⟨old, p1, p2⟩, p3, p4⟩ := C148_progress oc cfg w s h ho _ k2 k3 hi' hos' pis m2 hseg j hj
  rw [← k1, show LateNet.rounds oc w (LateSend.given w r) pis = (r.rounds oc w pis).net by
    rw [show r.rounds oc w pis = _ from m1]; rfl] at p2 p3 p4
  refine ⟨⟨old, p1, ?_⟩, p3, p4⟩
  rw [p2, List.append_assoc]
  rfl

/-- C151, receiving: when nothing is on the way any more, one round in which the images arrive is enough
to have received, from all devices, everything they have presented. -/
theorem C151_read (oc : Bool) (cfg : CouplerConfig) (w : Wiring) (s : LateNet) (h : s.Started cfg w)
    (ho : OutputsReady cfg s.out) (evs : List LateSendEv) (hu : LateSend.OnlyUndecodable oc cfg evs)
    (hv : LateSend.AcceptedValues cfg evs) (hc : 2 ≤ ((LateSend.start s).run oc w evs).net.cycles)
    (hi : ((LateSend.start s).run oc w evs).net.ins = [])
    (hos : ((LateSend.start s).run oc w evs).net.outs = []) (pi : List Word)
    (hg : ((LateSend.start s).run oc w evs).GoodInputs oc cfg w [pi]) (j : Nat) (hj : j ∈ w.modules) :
    let r := (((LateSend.start s).run oc w evs).rounds oc w [pi]).net
    ∃ skipped got, (r.line j).shown = skipped ++ got ∧ skipped.length ≤ (r.line j).early ∧
      (r.line j).delivered ++ r.buffered j = got.flatten := by
  obtain ⟨h1, h2⟩ := LateSend.started (oc := oc) h
  have hw := List.ne_nil_of_mem hj
  obtain ⟨g1, evs', h3, h4, h5⟩ := LateSend.run_clean hw h.distinct h1 evs hu
  rw [show LateSend.cleanNet w (LateSend.start s).net = s from h2] at h3
  obtain ⟨k1, k2, k3⟩ := g1.given_good h.distinct h3 h4 (h5 hv)
  have hF : (LateSend.given w ((LateSend.start s).run oc w evs)).Fit oc cfg := by
    rw [k1]
    exact (LateNet.Started.fit (oc := oc) h ho).run (w := w) _ k3
  obtain ⟨m1, m2⟩ := g1.rounds h.distinct hi hF (by simp) hg
  have hi' : (LateSend.given w ((LateSend.start s).run oc w evs)).ins = [] := hi
  have hos' : (LateSend.given w ((LateSend.start s).run oc w evs)).outs = [] := hos
  have hc' : 2 ≤ (LateSend.given w ((LateSend.start s).run oc w evs)).cycles := hc
  rw [k1] at hi' hos' hc' m2
  have := C148_read oc cfg w s h ho _ k2 k3 hc' hi' hos' pi m2 j hj
  rw [← k1] at this
  rw [m1]
  exact this

/-- C151, restarts: over any number of restarts of the application every device takes over bytes that
were written to its own module or set on it and taken by a cycle, each at most once and in order, possibly
after the segment that was waiting for it at the start. -/
theorem C151_restarts (oc : Bool) (cfg : CouplerConfig) (w : Wiring) (s : LateNet) (h : s.Started cfg w)
    (runs : List (List LateSendEv × List Word)) (hg : LateSend.GoodSessions oc cfg w s.c s runs)
    (j : Nat) (hj : j ∈ w.modules) :
    ((LateSend.sessions oc w s.c j s runs).map (·.2)).flatten <+
      s.waiting w j ++ ((LateSend.sessions oc w s.c j s runs).map (·.1)).flatten := by
  have hw := List.ne_nil_of_mem hj
  have key : ∀ (runs : List (List LateSendEv × List Word)) (n : LateNet),
      LateSend.Ok oc cfg w (LateSend.start n) → LateSend.cleanNet w n = n → n.c = s.c →
      LateSend.GoodSessions oc cfg w s.c n runs → ∃ runs',
        LateSend.sessions oc w s.c j n runs = LateNet.sessions oc w s.c j n runs' ∧
        LateNet.GoodSessions oc cfg w s.c n runs' := by
    intro runs
    induction runs with
    | nil => exact fun n _ _ _ _ => ⟨[], rfl, trivial⟩
    | cons x runs ih =>
      obtain ⟨evs, pi⟩ := x
      intro n h1 h2 h6 ⟨g1, g2, g3⟩
      obtain ⟨-, evs', h3, h4, -⟩ := LateSend.run_clean hw h.distinct h1 evs g1
      rw [show LateSend.cleanNet w (LateSend.start n).net = n from h2] at h3
      have hcl : LateSend.clean w s.c = s.c := by
        rw [← h6]
        exact congrArg LateNet.c h2
      have hok : LateSend.Ok oc cfg w
          (LateSend.start (((LateSend.start n).run oc w evs).net.restart s.c pi)) := by
        obtain ⟨q1, q2, q3⟩ := h1
        simp only [LateSend.start, h6] at q1 q2 q3
        exact ⟨q1, q2, q3⟩
      obtain ⟨runs', k1, k2⟩ := ih _ hok (by
        show ({ LateNet.restart s.c pi _ with c := LateSend.clean w s.c } : LateNet) = _
        rw [hcl]; rfl) rfl g3
      have hr : ((LateSend.start n).run oc w evs).net.restart s.c pi =
          (n.run oc w evs').restart s.c pi := by rw [← h3]; rfl
      have hs : (n.run oc w evs').Shows w pi := by rw [← h3]; exact g2
      rw [hr] at k1 k2
      refine ⟨(evs', pi) :: runs', ?_, h4, hs, k2⟩
      simp only [LateSend.sessions, LateNet.sessions]
      rw [hr, k1, ← h3]
      rfl
  obtain ⟨h1, h2⟩ := LateSend.started (oc := oc) h
  obtain ⟨runs', k1, k2⟩ := key runs s h1 h2 rfl hg
  rw [k1]
  exact C148_restarts oc cfg w s h runs' k2 j hj

/-! The station of `Props/LateNet.lean`: bytes are set on both modules next to bytes that are written. -/

/-- The bytes `[9]` are replaced before a cycle takes them; the image of the second cycle is lost; the
bytes `[5, 6]` are not taken yet. -/
def exLateSendEvs : List LateSendEv :=
  [.ev (.write 1 [1#8, 2#8]), .set 1 (.bytes [9#8]), .set 1 (.bytes [3#8, 4#8]), .set 2 (.bytes [8#8, 9#8]),
    .ev (.other (.setOutput ⟨0, 1⟩ (.bit true))), .ev (.take 1), .ev .cycle, .ev .cycle, .ev (.loseOut 1),
    .ev .deliver, .ev (.take 1), .ev (.take 2), .ev (.post 2 [0x41#8]), .set 1 (.bytes [5#8, 6#8])]

noncomputable def exLateSendRun : LateSend := (LateSend.start exLateNet).run true exWires exLateSendEvs

def exLateSendInputs : List (List Word) :=
  let last := [0x0000#16, 0#16, 0#16, 0#16, 0x0129#16, 0x0041#16, 0#16, 0#16]
  [[0x0020#16, 0#16, 0#16, 0#16, 0x0109#16, 0x0041#16, 0#16, 0#16],
   [0x0040#16, 0#16, 0#16, 0#16, 0x0129#16, 0x0041#16, 0#16, 0#16],
   [0x0060#16, 0#16, 0#16, 0#16, 0x0129#16, 0x0041#16, 0#16, 0#16], last, last, last]

example : exLateSendRun.net.segments 1 = 2 ∧ exLateSendRun.net.segments 2 = 1 ∧
    (exLateSendRun.net.line 1).written = [1#8, 2#8, 3#8, 4#8] ∧
    (exLateSendRun.net.line 2).written = [8#8, 9#8] ∧
    sentBytes (exLateSendRun.pend 1) = [5#8, 6#8] := by decide +kernel

theorem exLateSendRun_good : exLateSendRun.net.ins = [] ∧ exLateSendRun.net.outs = [] ∧
    exLateSendRun.net.cycles = 2 ∧
    exLateSendRun.GoodInputs true exDuo exWires exLateSendInputs ∧
    ∀ j ∈ exWires.modules, 3 + exLateSendRun.net.segments j +
      ((sentBytes (exLateSendRun.pend j)).length + capacity (exWires.wire j).len - 1) /
        capacity (exWires.wire j).len ≤ exLateSendInputs.length := by
  refine ⟨by decide +kernel, by decide +kernel, by decide +kernel, ?_, by decide +kernel⟩
  have hin : ∀ pi ∈ exLateSendInputs, InputsReady exDuo pi := by
    intro pi hpi j t par o i h hn
    simp only [exLateSendInputs, List.mem_cons, List.not_mem_nil, or_false, or_self] at hpi
    rcases exDuo_at h with ⟨rfl, rfl, rfl, rfl, rfl⟩ | ⟨rfl, rfl, rfl, rfl, rfl⟩ |
      ⟨rfl, rfl, rfl, rfl, rfl⟩
    · exact absurd rfl hn
    · rcases hpi with rfl | rfl | rfl | rfl <;>
      · refine ⟨by unfold HasRegisters; decide, fun _ b hb => ?_⟩
        rw [show byteAt _ _ = some 0#8 by decide] at hb
        cases hb; decide
    · rcases hpi with rfl | rfl | rfl | rfl <;>
      · refine ⟨by unfold HasRegisters; decide, fun _ b hb => ?_⟩
        rw [show byteAt _ _ = some 1#8 by decide] at hb
        cases hb; decide
  exact ⟨hin _ (by simp [exLateSendInputs]), by decide +kernel, hin _ (by simp [exLateSendInputs]),
    by decide +kernel, hin _ (by simp [exLateSendInputs]), by decide +kernel,
    hin _ (by simp [exLateSendInputs]), by decide +kernel, hin _ (by simp [exLateSendInputs]),
    by decide +kernel, hin _ (by simp [exLateSendInputs]), by decide +kernel, trivial⟩

theorem exLateSendEvs_good : LateSend.OnlyUndecodable true exDuo exLateSendEvs ∧
    LateSend.AcceptedValues exDuo exLateSendEvs := by
  refine ⟨fun pi po h => by simp [exLateSendEvs] at h, fun a v h t ht => ?_⟩
  simp only [exLateSendEvs, List.mem_cons, LateSendEv.ev.injEq, LateNetEv.other.injEq, COp.setOutput.injEq,
    reduceCtorEq, List.not_mem_nil, or_false, false_or] at h
  obtain ⟨rfl, rfl⟩ := h
  cases ht
  exact .inr ⟨true, rfl⟩

/-- The hypotheses of `C151_progress` are met … -/
example := C151_progress true exDuo exWires exLateNet exLateNet_started exLateNet_ready exLateSendEvs
  exLateSendEvs_good.1 exLateSendEvs_good.2 exLateSendInputs 1 (by decide) exLateSendRun_good.1
  exLateSendRun_good.2.1 exLateSendRun_good.2.2.2.1 exLateSendRun_good.2.2.2.2

/-- … and after the rounds both devices have everything, also the bytes that were set last. -/
example : ((exLateSendRun.rounds true exWires exLateSendInputs).net.line 1).received =
      [8#8, 9#8] ++ [1#8, 2#8, 3#8, 4#8, 5#8, 6#8] ∧
    ((exLateSendRun.rounds true exWires exLateSendInputs).net.line 2).received = [8#8, 9#8] ∧
    (exLateSendRun.rounds true exWires exLateSendInputs).net.buffered 2 = [0x41#8] := by decide +kernel

/-- The hypotheses of `C151_read` are met by the same state and the first of these images. -/
example := C151_read true exDuo exWires exLateNet exLateNet_started exLateNet_ready exLateSendEvs
  exLateSendEvs_good.1 exLateSendEvs_good.2 (by exact (exLateSendRun_good.2.2.1).ge) exLateSendRun_good.1
  exLateSendRun_good.2.1 _ ⟨exLateSendRun_good.2.2.2.1.1, exLateSendRun_good.2.2.2.1.2.1, trivial⟩ 2 (by decide)

/-- So are those of the other theorems. -/
example := C151_sent true exDuo exWires exLateNet exLateNet_started exLateSendEvs exLateSendEvs_good.1 1
  (by decide)
example := C151_received true exDuo exWires exLateNet exLateNet_started exLateSendEvs exLateSendEvs_good.1
  (by exact (exLateSendRun_good.2.2.1).ge) 2 (by decide)
example := C151_early true exDuo exWires exLateNet exLateNet_started [.set 1 (.bytes [1#8]), .ev .cycle]
  (fun pi po h => by simp at h) (by decide +kernel) 2 (by decide)

/-- Two runs: the bytes set last in the first one are dropped at the restart, because no cycle has taken
them. -/
def exLateSendRuns : List (List LateSendEv × List Word) :=
  [([.set 1 (.bytes [1#8]), .set 2 (.bytes [2#8]), .ev .cycle, .ev .deliver, .ev .cycle, .ev .deliver,
      .ev .cycle, .ev .deliver, .set 2 (.bytes [7#8])],
    List.replicate 8 0#16),
   ([.ev (.take 2), .set 1 (.bytes [4#8]), .ev .cycle, .ev .deliver, .ev (.take 1),
      .ev (.sample [0x0020#16, 0#16, 0#16, 0#16, 0x0020#16, 0#16, 0#16, 0#16]), .ev .arrive,
      .ev .cycle, .ev .cycle, .ev .deliver, .ev .deliver, .ev (.take 1)],
    [0x0040#16, 0#16, 0#16, 0#16, 0x0020#16, 0#16, 0#16, 0#16])]

theorem exLateSendRuns_good :
    LateSend.GoodSessions true exDuo exWires exLateNet.c exLateNet exLateSendRuns ∧
    LateSend.sessions true exWires exLateNet.c 1 exLateNet exLateSendRuns = [([1#8], []), ([4#8], [4#8])] ∧
    LateSend.sessions true exWires exLateNet.c 2 exLateNet exLateSendRuns = [([2#8], []), ([], [2#8])] := by
  refine ⟨⟨fun pi po h => by simp at h, by decide +kernel, fun pi po h => by simp at h,
    by decide +kernel, trivial⟩, by decide +kernel, by decide +kernel⟩

example := C151_restarts true exDuo exWires exLateNet exLateNet_started exLateSendRuns
  exLateSendRuns_good.1 1 (by decide)

end Ur20
