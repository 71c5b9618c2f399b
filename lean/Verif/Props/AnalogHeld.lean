import Verif.Props.Held
import Verif.Props.Outage

/-!
# Analog outputs through lost images, restarts and power failures: C111, C112, C125

The theorems of these properties with the bounds of C107.
-/

namespace Ur20

open Spec Com Coupler

/-- The register `w` carries the value `v`. -/
def Carries (p : AnalogUIRange × DataFormat) (v : ChannelValue) (w : Word) : Prop :=
  (∃ x, v = .decimal32 x ∧ EncodedAs p x w.toInt) ∨ (v = .disabled ∧ w.toInt = 0)

section

variable {oc : Bool} {cfg : CouplerConfig} {j : Nat} (hdis : OutputsKept cfg j)
  {t : ModuleType} {par : List Word} {o i : Word} (hcfg : ConfiguredAt cfg j t par o i)
  (hno : o ≠ noOffset) (hal : o.toNat % 16 = 0) {ch : Nat} (hch : ch < 4) {r : AnalogUIRange}
  {f : DataFormat} (hf : OutputFormat t par ch r f)

include hdis hcfg hno hal hch hf

/-- One round, in terms of where the register came from: `last` is the value last set and `w0` the
register before anything was set. -/
theorem round_orbit {c c1 : Coupler} {po img pi : List Word} {calls : List COp}
    (hcalls : ∀ op ∈ calls, op.IsCall) (hr : ReachableFrom oc cfg c)
    (hw : c.write ⟨j, ch⟩ = none) (hn : (runC oc c calls).next oc pi po = (c1, .ok img))
    {last : Option ChannelValue} {w0 : Word}
    (ha : ∀ v, last = some v → ∃ (w : Word) (n : Nat), Carries (r, f) v w ∧
      po[outBit o / 16 + ch]? = some ((recode (r, f))^[n] w))
    (hb : last = none → ∃ n : Nat, po[outBit o / 16 + ch]? = some ((recode (r, f))^[n] w0)) :
    ReachableFrom oc cfg c1 ∧ c1.write ⟨j, ch⟩ = none ∧
    (∀ v, (lastSet ⟨j, ch⟩ calls).or last = some v → ∃ (w : Word) (n : Nat), Carries (r, f) v w ∧
      img[outBit o / 16 + ch]? = some ((recode (r, f))^[n] w)) ∧
    ((lastSet ⟨j, ch⟩ calls).or last = none →
      ∃ n : Nat, img[outBit o / 16 + ch]? = some ((recode (r, f))^[n] w0)) := by
  obtain ⟨a1, a2, u, u', a3, a4, a5, a6⟩ := round_register hdis hcfg hno hal hch hf hcalls hr hw hn
  refine ⟨a1, a2, fun v hv => ?_, fun hv => ?_⟩
  · cases hl : lastSet ⟨j, ch⟩ calls with
    | some v' =>
      rw [hl] at hv
      cases hv
      exact ⟨u', 0, a6 v hl, a4⟩
    | none =>
      rw [hl, Option.none_or] at hv
      obtain ⟨w, n, b1, b2⟩ := ha v hv
      rw [a3] at b2
      refine ⟨w, n + 1, b1, ?_⟩
      rw [a4, a5 hl, Option.some.inj b2, Function.iterate_succ_apply']
  · rw [Option.or_eq_none_iff] at hv
    obtain ⟨n, b2⟩ := hb hv.2
    rw [a3] at b2
    refine ⟨n + 1, ?_⟩
    rw [a4, a5 hv.1, Option.some.inj b2, Function.iterate_succ_apply']

/-- The loop with crashes and power failures. -/
theorem outages_orbit {c0 : Coupler} (h0 : Coupler.new cfg = .ok c0) (evs : List OutageEv)
    (hcalls : ∀ r, .round r ∈ evs → ∀ op ∈ r.calls, op.IsCall) {c1 c : Coupler}
    {start device : List Word} (hr : ReachableFrom oc cfg c1) (hw : c1.write ⟨j, ch⟩ = none)
    (acc : List Transfer) {w0 : Word} (hpow : .power ∈ evs → w0 = 0#16)
    (hs : ∃ w, start[outBit o / 16 + ch]? = some w)
    (ha : ∀ v, lastSetInRounds ⟨j, ch⟩ acc = some v → ∃ (w : Word) (n : Nat), Carries (r, f) v w ∧
      start[outBit o / 16 + ch]? = some ((recode (r, f))^[n] w))
    (hb : lastSetInRounds ⟨j, ch⟩ acc = none →
      ∃ n : Nat, start[outBit o / 16 + ch]? = some ((recode (r, f))^[n] w0))
    (h : outages oc cfg c1 start evs = some (c, device)) :
    (∀ v, lastSetInRounds ⟨j, ch⟩ (arrivedSince acc evs) = some v →
      ∃ (w : Word) (n : Nat), Carries (r, f) v w ∧
        device[outBit o / 16 + ch]? = some ((recode (r, f))^[n] w)) ∧
    (lastSetInRounds ⟨j, ch⟩ (arrivedSince acc evs) = none →
      ∃ n : Nat, device[outBit o / 16 + ch]? = some ((recode (r, f))^[n] w0)) := by
  induction evs generalizing c1 start acc with
  | nil =>
    cases h
    exact ⟨ha, hb⟩
  | cons ev evs ih =>
    have ih' := @ih (fun r hr => hcalls r (List.mem_cons_of_mem _ hr))
    have hpow' : .power ∈ evs → w0 = 0#16 := fun h => hpow (List.mem_cons_of_mem _ h)
    cases ev with
    | power =>
      obtain ⟨w, hs⟩ := hs
      have hz : (allOff start)[outBit o / 16 + ch]? = some w0 := by
        rw [hpow List.mem_cons_self, allOff, List.getElem?_replicate,
          if_pos (List.getElem?_eq_some_iff.1 hs).1]
      exact ih' hr hw [] hpow' ⟨_, hz⟩ (fun v hv => by simp [lastSetInRounds, lastSet] at hv)
        (fun _ => ⟨0, hz⟩) h
    | crash lost =>
      simp only [outages, h0] at h
      exact ih' ⟨c0, [], h0, rfl⟩ (((C13_success cfg).2 c0 h0).2.2.2.2.2 ⟨j, ch⟩) acc hpow' hs ha hb h
    | round x =>
      simp only [outages] at h
      split at h
      · rename_i c2 img hn
        have hcr := hcalls x List.mem_cons_self
        obtain ⟨a1, a2, a3, a4⟩ := round_orbit hdis hcfg hno hal hch hf hcr hr hw hn ha hb
        simp only [arrivedSince]
        cases harr : x.arrives with
        | false =>
          rw [harr] at h
          exact ih' a1 a2 acc hpow' hs ha hb h
        | true =>
          rw [harr] at h
          have hset : lastSetInRounds ⟨j, ch⟩ (acc ++ [x]) =
              (lastSet ⟨j, ch⟩ x.calls).or (lastSetInRounds ⟨j, ch⟩ acc) := by
            simp [lastSetInRounds, lastSet_append]
          rw [← hset] at a3 a4
          refine ih' a1 a2 (acc ++ [x]) hpow' ?_ a3 a4 h
          cases hl : lastSetInRounds ⟨j, ch⟩ (acc ++ [x]) with
          | some v => obtain ⟨w, n, -, b⟩ := a3 v hl; exact ⟨_, b⟩
          | none => obtain ⟨n, b⟩ := a4 hl; exact ⟨_, b⟩
      · cases h

/-- The loop without reading back. -/
theorem last_orbit (rounds : List Transfer)
    (hcalls : ∀ r ∈ rounds, ∀ op ∈ r.calls, op.IsCall) {c c' : Coupler}
    {last last' device device' : List Word}
    (hr : ReachableFrom oc cfg c) (hw : c.write ⟨j, ch⟩ = none)
    (acc : List Transfer) {w0 : Word}
    (ha : ∀ v, lastSetInRounds ⟨j, ch⟩ acc = some v → ∃ (w : Word) (n : Nat), Carries (r, f) v w ∧
      last[outBit o / 16 + ch]? = some ((recode (r, f))^[n] w))
    (hb : lastSetInRounds ⟨j, ch⟩ acc = none →
      ∃ n : Nat, last[outBit o / 16 + ch]? = some ((recode (r, f))^[n] w0))
    (h : transfers oc false c last device rounds = some (c', last', device')) :
    (∀ v, lastSetInRounds ⟨j, ch⟩ (acc ++ rounds) = some v →
      ∃ (w : Word) (n : Nat), Carries (r, f) v w ∧
        last'[outBit o / 16 + ch]? = some ((recode (r, f))^[n] w)) ∧
    (lastSetInRounds ⟨j, ch⟩ (acc ++ rounds) = none →
      ∃ n : Nat, last'[outBit o / 16 + ch]? = some ((recode (r, f))^[n] w0)) := by
  induction rounds generalizing c last device acc with
  | nil =>
    cases h
    rw [List.append_nil]
    exact ⟨ha, hb⟩
  | cons x rounds ih =>
    simp only [transfers, Bool.false_eq_true, if_false] at h
    split at h
    · rename_i c1 img hn
      obtain ⟨a1, a2, a3, a4⟩ := round_orbit hdis hcfg hno hal hch hf
        (hcalls _ List.mem_cons_self) hr hw hn ha hb
      have hset : lastSetInRounds ⟨j, ch⟩ (acc ++ [x]) =
          (lastSet ⟨j, ch⟩ x.calls).or (lastSetInRounds ⟨j, ch⟩ acc) := by
        simp [lastSetInRounds, lastSet_append]
      rw [← hset] at a3 a4
      have := ih (fun r hr => hcalls r (List.mem_cons_of_mem _ hr)) a1 a2 (acc ++ [x]) a3 a4 h
      rwa [List.append_assoc, List.singleton_append] at this
    · cases h

end

/-- A restart is an outage without a power failure. -/
theorem restarts_outages (oc : Bool) (cfg : CouplerConfig) (c : Coupler) (device : List Word)
    (evs : List REv) :
    restarts oc cfg c device evs = outages oc cfg c device (evs.map fun
      | .round r => .round r
      | .crash l => .crash l) := by
  induction evs generalizing c device with
  | nil => rfl
  | cons ev evs ih =>
    cases ev with
    | round r =>
      simp only [restarts, List.map_cons, outages]
      rcases next oc (runC oc c r.calls) r.input device with ⟨c1, _ | _ | _⟩
      all_goals first | rfl | exact ih _ _
    | crash l =>
      simp only [restarts, List.map_cons, outages]
      rcases Coupler.new cfg with _ | _ | _
      all_goals first | rfl | exact ih _ _

theorem sentRounds_arrived (acc : List Transfer) (evs : List REv) :
    arrivedSince acc (evs.map fun
      | .round r => .round r
      | .crash l => .crash l) = acc ++ sentRounds evs := by
  induction evs generalizing acc with
  | nil => simp [arrivedSince, sentRounds]
  | cons ev evs ih =>
    cases ev with
    | round r =>
      simp only [List.map_cons, arrivedSince, sentRounds, ih]
      split <;> simp
    | crash l => simp only [List.map_cons, arrivedSince, sentRounds, ih]

/-- Reading back is an outage without crashes and power failures. -/
theorem transfers_outages (oc : Bool) (cfg : CouplerConfig) (c : Coupler) (last device : List Word)
    (rounds : List Transfer) :
    (transfers oc true c last device rounds).map (fun s => (s.1, s.2.2)) =
      outages oc cfg c device (rounds.map .round) := by
  induction rounds generalizing c last device with
  | nil => rfl
  | cons r rounds ih =>
    simp only [transfers, List.map_cons, outages, if_true]
    rcases next oc (runC oc c r.calls) r.input device with ⟨c1, _ | _ | _⟩
    all_goals first | rfl | exact ih _ _ _

theorem arrived_rounds (acc rounds : List Transfer) :
    arrivedSince acc (rounds.map .round) = acc ++ rounds.filter (·.arrives) := by
  induction rounds generalizing acc with
  | nil => simp [arrivedSince]
  | cons r rounds ih =>
    simp only [List.map_cons, arrivedSince, ih]
    cases hr : r.arrives <;> simp [hr]

/-- C111 with the bounds of C107, for applications that use the last returned image: after a round
whose image arrives the register of an enabled analog output channel is within 2 or 5 steps, depending
on the range, of the encoded value of the last `set_output`, and of where it was at the start if there
was none. -/
theorem C111_returned_analog_partial (oc : Bool) (cfg : CouplerConfig) (c0 : Coupler)
    (h0 : Coupler.new cfg = .ok c0) (j : Nat) (hdis : OutputsKept cfg j)
    (t : ModuleType) (par : List Word) (o i : Word) (hcfg : ConfiguredAt cfg j t par o i)
    (hno : o ≠ noOffset) (hal : o.toNat % 16 = 0) (ch : Nat) (hch : ch < 4)
    (r : AnalogUIRange) (f : DataFormat) (hf : OutputFormat t par ch r f) (hen : r ≠ .Disabled)
    (rounds : List Transfer) (x : Transfer)
    (hcalls : ∀ r ∈ rounds ++ [x], ∀ op ∈ r.calls, op.IsCall) (hx : x.arrives = true)
    (start : List Word) (c : Coupler) (last device : List Word)
    (h : transfers oc false c0 start start (rounds ++ [x]) = some (c, last, device))
    (w0 : Word) (hw0 : start[outBit o / 16 + ch]? = some w0) :
    (∀ v, lastSetInRounds ⟨j, ch⟩ (rounds ++ [x]) = some v → ∃ (w : Word) (e : ℤ),
      device[outBit o / 16 + ch]? = some w ∧
      ((∃ x, v = .decimal32 x ∧ EncodedAs (r, f) x e) ∨ (v = .disabled ∧ e = 0)) ∧
      |w.toInt - e| ≤ maxDrift r) ∧
    (lastSetInRounds ⟨j, ch⟩ (rounds ++ [x]) = none →
      ∃ w : Word, device[outBit o / 16 + ch]? = some w ∧ |w.toInt - w0.toInt| ≤ maxDrift r) := by
  have hl : device = last := by
    rw [transfers_append] at h
    obtain ⟨s, -, h⟩ := Option.bind_eq_some_iff.1 h
    simp only [transfers, hx, if_true] at h
    split at h
    · cases h
      rfl
    · cases h
  subst hl
  obtain ⟨a1, a2⟩ := last_orbit hdis hcfg hno hal hch hf _ hcalls ⟨c0, [], h0, rfl⟩
    (((C13_success cfg).2 c0 h0).2.2.2.2.2 _) [] (w0 := w0)
    (fun v hv => by simp [lastSetInRounds, lastSet] at hv) (fun _ => ⟨0, hw0⟩) h
  rw [List.nil_append] at a1 a2
  refine ⟨fun v hv => ?_, fun hv => ?_⟩
  · obtain ⟨w, n, b1, b2⟩ := a1 v hv
    exact ⟨_, w.toInt, b2, b1, (recode_settles hen f w n).1⟩
  · obtain ⟨n, b2⟩ := a2 hv
    exact ⟨_, b2, (recode_settles hen f w0 n).1⟩

/-- C111 with the bounds of C107, for applications that read the output image back. -/
theorem C111_read_back_analog_partial (oc : Bool) (cfg : CouplerConfig) (c0 : Coupler)
    (h0 : Coupler.new cfg = .ok c0) (j : Nat) (hdis : OutputsKept cfg j)
    (t : ModuleType) (par : List Word) (o i : Word) (hcfg : ConfiguredAt cfg j t par o i)
    (hno : o ≠ noOffset) (hal : o.toNat % 16 = 0) (ch : Nat) (hch : ch < 4)
    (r : AnalogUIRange) (f : DataFormat) (hf : OutputFormat t par ch r f) (hen : r ≠ .Disabled)
    (rounds : List Transfer) (hcalls : ∀ r ∈ rounds, ∀ op ∈ r.calls, op.IsCall)
    (start : List Word) (c : Coupler) (last device : List Word)
    (h : transfers oc true c0 start start rounds = some (c, last, device))
    (w0 : Word) (hw0 : start[outBit o / 16 + ch]? = some w0) :
    (∀ v, lastSetInRounds ⟨j, ch⟩ (rounds.filter (·.arrives)) = some v → ∃ (w : Word) (e : ℤ),
      device[outBit o / 16 + ch]? = some w ∧
      ((∃ x, v = .decimal32 x ∧ EncodedAs (r, f) x e) ∨ (v = .disabled ∧ e = 0)) ∧
      |w.toInt - e| ≤ maxDrift r) ∧
    (lastSetInRounds ⟨j, ch⟩ (rounds.filter (·.arrives)) = none →
      ∃ w : Word, device[outBit o / 16 + ch]? = some w ∧ |w.toInt - w0.toInt| ≤ maxDrift r) := by
  have h' : outages oc cfg c0 start (rounds.map .round) = some (c, device) := by
    rw [← transfers_outages oc cfg c0 start start rounds, h]
    rfl
  obtain ⟨a1, a2⟩ := outages_orbit hdis hcfg hno hal hch hf h0 _ (fun r hr => by
      obtain ⟨x, hx, hxr⟩ := List.mem_map.1 hr
      cases hxr
      exact hcalls _ hx) ⟨c0, [], h0, rfl⟩
    (((C13_success cfg).2 c0 h0).2.2.2.2.2 _) [] (w0 := w0) (fun hp => by simp at hp) ⟨w0, hw0⟩
    (fun v hv => by simp [lastSetInRounds, lastSet] at hv) (fun _ => ⟨0, hw0⟩) h'
  rw [arrived_rounds, List.nil_append] at a1 a2
  refine ⟨fun v hv => ?_, fun hv => ?_⟩
  · obtain ⟨w, n, b1, b2⟩ := a1 v hv
    exact ⟨_, w.toInt, b2, b1, (recode_settles hen f w n).1⟩
  · obtain ⟨n, b2⟩ := a2 hv
    exact ⟨_, b2, (recode_settles hen f w0 n).1⟩

/-- C112 with the bounds of C107: wherever the application crashes and is started again, and whatever
images are lost, the register of an enabled analog output channel is within 2 or 5 steps, depending on
the range, of the encoded value of the last `set_output` in the rounds whose image arrived, and of
where it was at the start if there was none. -/
theorem C112_analog (oc : Bool) (cfg : CouplerConfig) (c0 : Coupler)
    (h0 : Coupler.new cfg = .ok c0) (j : Nat) (hdis : OutputsKept cfg j)
    (t : ModuleType) (par : List Word) (o i : Word) (hcfg : ConfiguredAt cfg j t par o i)
    (hno : o ≠ noOffset) (hal : o.toNat % 16 = 0) (ch : Nat) (hch : ch < 4)
    (r : AnalogUIRange) (f : DataFormat) (hf : OutputFormat t par ch r f) (hen : r ≠ .Disabled)
    (evs : List REv) (hcalls : ∀ r, .round r ∈ evs → ∀ op ∈ r.calls, op.IsCall)
    (start : List Word) (c : Coupler) (device : List Word)
    (h : restarts oc cfg c0 start evs = some (c, device))
    (w0 : Word) (hw0 : start[outBit o / 16 + ch]? = some w0) :
    (∀ v, lastSetInRounds ⟨j, ch⟩ (sentRounds evs) = some v → ∃ (w : Word) (e : ℤ),
      device[outBit o / 16 + ch]? = some w ∧
      ((∃ x, v = .decimal32 x ∧ EncodedAs (r, f) x e) ∨ (v = .disabled ∧ e = 0)) ∧
      |w.toInt - e| ≤ maxDrift r) ∧
    (lastSetInRounds ⟨j, ch⟩ (sentRounds evs) = none →
      ∃ w : Word, device[outBit o / 16 + ch]? = some w ∧ |w.toInt - w0.toInt| ≤ maxDrift r) := by
  rw [restarts_outages] at h
  obtain ⟨a1, a2⟩ := outages_orbit hdis hcfg hno hal hch hf h0 _ (fun r hr => by
      obtain ⟨x, hx, hxr⟩ := List.mem_map.1 hr
      cases x <;> cases hxr
      exact hcalls _ hx) ⟨c0, [], h0, rfl⟩
    (((C13_success cfg).2 c0 h0).2.2.2.2.2 _) [] (w0 := w0) (fun hp => by
      obtain ⟨x, -, hx⟩ := List.mem_map.1 hp
      cases x <;> cases hx) ⟨w0, hw0⟩
    (fun v hv => by simp [lastSetInRounds, lastSet] at hv) (fun _ => ⟨0, hw0⟩) h
  rw [sentRounds_arrived, List.nil_append] at a1 a2
  refine ⟨fun v hv => ?_, fun hv => ?_⟩
  · obtain ⟨w, n, b1, b2⟩ := a1 v hv
    exact ⟨_, w.toInt, b2, b1, (recode_settles hen f w n).1⟩
  · obtain ⟨n, b2⟩ := a2 hv
    exact ⟨_, b2, (recode_settles hen f w0 n).1⟩

/-- C125 with the bounds of C107: from a `set_output` that arrives after the last power failure on, the
register of an enabled analog output channel is within 2 or 5 steps, depending on the range, of the
encoded value of the last one, through all rounds, lost images and crashes. -/
theorem C125_analog (oc : Bool) (cfg : CouplerConfig) (c0 : Coupler)
    (h0 : Coupler.new cfg = .ok c0) (j : Nat) (hdis : OutputsKept cfg j)
    (t : ModuleType) (par : List Word) (o i : Word) (hcfg : ConfiguredAt cfg j t par o i)
    (hno : o ≠ noOffset) (hal : o.toNat % 16 = 0) (ch : Nat) (hch : ch < 4)
    (r : AnalogUIRange) (f : DataFormat) (hf : OutputFormat t par ch r f) (hen : r ≠ .Disabled)
    (evs : List OutageEv) (hcalls : ∀ r, .round r ∈ evs → ∀ op ∈ r.calls, op.IsCall)
    (start : List Word) (hs : start[outBit o / 16 + ch]? = some 0#16) (c : Coupler)
    (device : List Word) (h : outages oc cfg c0 start evs = some (c, device))
    (v : ChannelValue) (hv : lastSetInRounds ⟨j, ch⟩ (arrivedSince [] evs) = some v) :
    ∃ (w : Word) (e : ℤ), device[outBit o / 16 + ch]? = some w ∧
      ((∃ x, v = .decimal32 x ∧ EncodedAs (r, f) x e) ∨ (v = .disabled ∧ e = 0)) ∧
      |w.toInt - e| ≤ maxDrift r := by
  obtain ⟨a1, -⟩ := outages_orbit hdis hcfg hno hal hch hf h0 evs hcalls ⟨c0, [], h0, rfl⟩
    (((C13_success cfg).2 c0 h0).2.2.2.2.2 _) [] (w0 := 0#16) (fun _ => rfl) ⟨_, hs⟩
    (fun v hv => by simp [lastSetInRounds, lastSet] at hv) (fun _ => ⟨0, hs⟩) h
  obtain ⟨w, n, b1, b2⟩ := a1 v hv
  exact ⟨_, w.toInt, b2, b1, (recode_settles hen f w n).1⟩

/-- 4110/1024 mA, encoded as 5548, arrives. Then an image is lost, the application crashes and two idle
rounds follow: the register moves by two steps. -/
example : (outages true exAoCfg (initial exAoCfg exAoModules) [3#16, 45#16, 90#16, 0xABCD#16, 0#16]
    [.round ⟨[.setOutput ⟨1, 0⟩ (.decimal32 (.fin (4110 / 1024)))], [], true⟩,
     .round ⟨[.setOutput ⟨1, 1⟩ (.decimal32 (.fin 6))], [], false⟩, .crash [],
     .round ⟨[], [], true⟩, .round ⟨[], [], true⟩]).map (·.2) =
    some [3#16, 5546#16, 90#16, 0xABCD#16, 0#16] := by decide +kernel

/-- After a power failure 6 mA are set and stay. -/
example : (outages true exAoCfg (initial exAoCfg exAoModules) [3#16, 0#16, 90#16, 0xABCD#16, 0#16]
    [.round ⟨[.setOutput ⟨1, 0⟩ (.decimal32 (.fin (4110 / 1024)))], [], true⟩, .power,
     .round ⟨[.setOutput ⟨1, 0⟩ (.decimal32 (.fin 6))], [], true⟩,
     .round ⟨[], [], true⟩]).map (·.2) = some [0#16, 8294#16, 0#16, 0#16, 0#16] := by
  decide +kernel

/-- The same rounds without a crash, reading back and not reading back: the lost value is missing in
the one case and on the device in the other. -/
example : (transfers true true (initial exAoCfg exAoModules) [3#16, 45#16, 90#16, 0xABCD#16, 0#16]
    [3#16, 45#16, 90#16, 0xABCD#16, 0#16]
    [⟨[.setOutput ⟨1, 0⟩ (.decimal32 (.fin (4110 / 1024)))], [], true⟩,
     ⟨[.setOutput ⟨1, 1⟩ (.decimal32 (.fin 6))], [], false⟩, ⟨[], [], true⟩]).map (·.2.2) =
    some [3#16, 5547#16, 90#16, 0xABCD#16, 0#16] := by decide +kernel

example : (transfers true false (initial exAoCfg exAoModules) [3#16, 45#16, 90#16, 0xABCD#16, 0#16]
    [3#16, 45#16, 90#16, 0xABCD#16, 0#16]
    [⟨[.setOutput ⟨1, 0⟩ (.decimal32 (.fin (4110 / 1024)))], [], true⟩,
     ⟨[.setOutput ⟨1, 1⟩ (.decimal32 (.fin 6))], [], false⟩, ⟨[], [], true⟩]).map (·.2.2) =
    some [3#16, 5546#16, 3456#16, 0xABCD#16, 0#16] := by decide +kernel

end Ur20
