import Verif.Spec.Outage
import Verif.Props.Restarts

/-! # Outputs stay off until they are set: C125 -/

namespace Ur20

open Spec Com Coupler

/-- A cycle with nothing pending leaves a channel off. -/
theorem channelOff_kept {t : ModuleType} {par old new : List Word} {pos ch : Nat}
    (h : OutputWritten t par old new pos ch none) (hs : ChannelOff t old pos ch) :
    ChannelOff t new pos ch := by
  cases t <;> simp only [OutputWritten] at h <;> simp only [ChannelOff] at hs ⊢ <;>
    first
    | (obtain ⟨b, b', h1, h2, rfl⟩ := h
       rw [h1] at hs
       rw [h2, hs])
    | (obtain ⟨us, us', ctl, ctl', ⟨hi, lo, a3, a4, a5, a6⟩, h2, h3⟩ := h
       obtain ⟨hi', lo', b3, b4, b5, b6⟩ := hs
       rw [a3] at b3
       cases b3
       rw [a4] at b4
       cases b4
       rw [a6] at b6
       have b7 := Option.some.inj b6
       rw [← b5] at a5
       simp only [CounterWritten, a5, b7] at h3
       rw [h3.1, h3.2] at h2
       exact h2)
    | (obtain ⟨w, w', f, r, h1, h2, -, -, h5⟩ := h
       rw [h1] at hs
       cases hs
       rw [h2]
       simp only [AnalogWritten, AnalogKept] at h5
       split at h5
       · rw [h5]
       · exact congrArg some (BitVec.eq_of_toInt_eq (y := 0#16) (h5.2.2.2.2 rfl)))

/-- A cycle returns an image that has the channel. -/
theorem channelOff_new {t : ModuleType} {par old new : List Word} {pos ch : Nat}
    {p : Option ChannelValue} (h : OutputWritten t par old new pos ch p) :
    ChannelOff t (allOff new) pos ch := by
  have key : ∀ k (w : Word), new[k]? = some w → (allOff new)[k]? = some 0#16 := fun k w hk => by
    rw [allOff, List.getElem?_replicate, if_pos (List.getElem?_eq_some_iff.1 hk).1]
  cases t <;> simp only [OutputWritten] at h <;> simp only [ChannelOff] <;>
    first
    | (obtain ⟨b, b', h1, h2, -⟩ := h
       unfold bitAt at h2 ⊢
       obtain ⟨w, hw, -⟩ := Option.map_eq_some_iff.1 h2
       rw [key _ w hw]
       simp)
    | (obtain ⟨us, us', ctl, ctl', h1, ⟨hi, lo, a3, a4, a5, a6⟩, h3⟩ := h
       exact ⟨_, _, key _ _ a3, key _ _ a4, rfl, key _ _ a6⟩)
    | (obtain ⟨w, w', f, r, h1, h2, -⟩ := h
       exact key _ _ h2)

theorem allOff_allOff (img : List Word) : allOff (allOff img) = allOff img := by simp [allOff]

section
variable {oc : Bool} {cfg : CouplerConfig} {j : Nat} (hdis : OutputsKept cfg j)
  {t : ModuleType} {par : List Word} {o i : Word} (hcfg : ConfiguredAt cfg j t par o i)
  (ht : t ≠ .UR20_1COM_232_485_422) (hno : o ≠ noOffset)
  (hal : o.toNat % 16 = 0 ∨ outputBytes t par = 1) {ch : Nat} (hch : ch < outputChannels t)
include hdis hcfg ht hno hal hch

/-- One cycle. -/
theorem round_off {c c1 : Coupler} {po img pi : List Word} {calls : List COp}
    (hcalls : ∀ op ∈ calls, op.IsCall) (hr : ReachableFrom oc cfg c)
    (hw : c.write ⟨j, ch⟩ = none) (hn : (runC oc c calls).next oc pi po = (c1, .ok img)) :
    ChannelOff t (allOff img) (outBit o) ch ∧
    (lastSet ⟨j, ch⟩ calls = none → ChannelOff t po (outBit o) ch →
      ChannelOff t img (outBit o) ch) := by
  have hr' := reachable_run hr calls
  have hwr := write_calls (oc := oc) (valid_output hr hcfg hch) hcalls
  rw [hw, Option.or_none] at hwr
  have himg := C72_image oc cfg _ hr' j hdis pi po img c1 hn t par o i hcfg ht hno hal ch hch
  rw [hwr] at himg
  refine ⟨channelOff_new himg, fun hv hs => ?_⟩
  rw [hv] at himg
  exact channelOff_kept himg hs

/-- The loop from any state in which nothing is pending for the channel. -/
theorem outages_hold {c0 : Coupler} (h0 : Coupler.new cfg = .ok c0) (evs : List OutageEv)
    (hcalls : ∀ r, .round r ∈ evs → ∀ op ∈ r.calls, op.IsCall) {c1 c : Coupler}
    {start device : List Word} (hr : ReachableFrom oc cfg c1) (hw : c1.write ⟨j, ch⟩ = none)
    (acc : List Transfer)
    (ha : ∀ v, lastSetInRounds ⟨j, ch⟩ acc = some v → Settled t par start (outBit o) ch v)
    (hb : lastSetInRounds ⟨j, ch⟩ acc = none → ChannelOff t start (outBit o) ch)
    (hz : ChannelOff t (allOff start) (outBit o) ch)
    (h : outages oc cfg c1 start evs = some (c, device)) :
    (∀ v, lastSetInRounds ⟨j, ch⟩ (arrivedSince acc evs) = some v →
      Settled t par device (outBit o) ch v) ∧
    (lastSetInRounds ⟨j, ch⟩ (arrivedSince acc evs) = none →
      ChannelOff t device (outBit o) ch) := by
  induction evs generalizing c1 start acc with
  | nil =>
    cases h
    exact ⟨ha, hb⟩
  | cons ev evs ih =>
    have ih' := @ih fun r hr => hcalls r (List.mem_cons_of_mem _ hr)
    cases ev with
    | power =>
      exact ih' hr hw [] (fun v hv => by simp [lastSetInRounds, lastSet] at hv) (fun _ => hz)
        (by rw [allOff_allOff]; exact hz) h
    | crash lost =>
      simp only [outages, h0] at h
      exact ih' ⟨c0, [], h0, rfl⟩ (((C13_success cfg).2 c0 h0).2.2.2.2.2 ⟨j, ch⟩) acc ha hb hz h
    | round r =>
      simp only [outages] at h
      split at h
      · rename_i c2 img hn
        have hcr := hcalls r List.mem_cons_self
        obtain ⟨a1, a2, a3, a4⟩ := round_written hdis hcfg ht hno hal hch hcr hr hw hn
        obtain ⟨b1, b2⟩ := round_off hdis hcfg ht hno hal hch hcr hr hw hn
        simp only [arrivedSince]
        cases harr : r.arrives with
        | false =>
          rw [harr] at h
          exact ih' a1 a2 acc ha hb hz h
        | true =>
          rw [harr] at h
          have hset : lastSetInRounds ⟨j, ch⟩ (acc ++ [r]) =
              (lastSet ⟨j, ch⟩ r.calls).or (lastSetInRounds ⟨j, ch⟩ acc) := by
            simp [lastSetInRounds, lastSet_append]
          refine ih' a1 a2 (acc ++ [r]) (fun v hv => ?_) (fun hv => ?_) b1 h
          · rw [hset] at hv
            cases hl : lastSet ⟨j, ch⟩ r.calls with
            | some v' =>
              rw [hl] at hv
              cases hv
              exact a3 v hl
            | none =>
              rw [hl] at hv
              exact a4 hl v (ha v hv)
          · rw [hset, Option.or_eq_none_iff] at hv
            exact b2 hv.1 (hb hv.2)
      · cases h

/-- Nothing is pending after any of the events. -/
theorem outages_idle {c0 : Coupler} (h0 : Coupler.new cfg = .ok c0) (evs : List OutageEv)
    (hcalls : ∀ r, .round r ∈ evs → ∀ op ∈ r.calls, op.IsCall) {c1 c : Coupler}
    {start device : List Word} (hr : ReachableFrom oc cfg c1) (hw : c1.write ⟨j, ch⟩ = none)
    (hz : ChannelOff t (allOff start) (outBit o) ch)
    (h : outages oc cfg c1 start evs = some (c, device)) :
    ReachableFrom oc cfg c ∧ c.write ⟨j, ch⟩ = none ∧
      ChannelOff t (allOff device) (outBit o) ch := by
  induction evs generalizing c1 start with
  | nil =>
    cases h
    exact ⟨hr, hw, hz⟩
  | cons ev evs ih =>
    have ih' := @ih fun r hr => hcalls r (List.mem_cons_of_mem _ hr)
    cases ev with
    | power => exact ih' hr hw (by rw [allOff_allOff]; exact hz) h
    | crash lost =>
      simp only [outages, h0] at h
      exact ih' ⟨c0, [], h0, rfl⟩ (((C13_success cfg).2 c0 h0).2.2.2.2.2 ⟨j, ch⟩) hz h
    | round r =>
      simp only [outages] at h
      split at h
      · rename_i c2 img hn
        have hcr := hcalls r List.mem_cons_self
        obtain ⟨a1, a2, -, -⟩ := round_written hdis hcfg ht hno hal hch hcr hr hw hn
        obtain ⟨b1, -⟩ := round_off hdis hcfg ht hno hal hch hcr hr hw hn
        refine ih' a1 a2 ?_ h
        split
        · exact b1
        · exact hz
      · cases h

end

theorem outages_append (oc : Bool) (cfg : CouplerConfig) (evs evs' : List OutageEv) (c : Coupler)
    (device : List Word) : outages oc cfg c device (evs ++ evs') =
      (outages oc cfg c device evs).bind fun s => outages oc cfg s.1 s.2 evs' := by
  induction evs generalizing c device with
  | nil => rfl
  | cons ev evs ih =>
    cases ev <;> simp only [List.cons_append, outages]
    · split
      · exact ih _ _
      · rfl
    · split
      · exact ih _ _
      · rfl
    · exact ih _ _

/-- C125: no output is switched on by itself. Whatever rounds, lost images, crashes of the
application and power failures of the station came before: after a power failure an output channel
that is not serial is off, and it stays off through all rounds, crashes and further power failures,
until a round with a `set_output` for it arrives; from then on the device has the value of the last
such `set_output` on, until the next power failure. Values of before the power failure do not come
back. -/
theorem C125_power (oc : Bool) (cfg : CouplerConfig) (c0 : Coupler)
    (h0 : Coupler.new cfg = .ok c0) (j : Nat) (hdis : OutputsKept cfg j)
    (t : ModuleType) (par : List Word) (o i : Word) (hcfg : ConfiguredAt cfg j t par o i)
    (ht : t ≠ .UR20_1COM_232_485_422) (hno : o ≠ noOffset)
    (hal : o.toNat % 16 = 0 ∨ outputBytes t par = 1) (ch : Nat) (hch : ch < outputChannels t)
    (before evs : List OutageEv)
    (hcalls : ∀ r, .round r ∈ before ++ .power :: evs → ∀ op ∈ r.calls, op.IsCall)
    (start : List Word) (hlen : ChannelOff t (allOff start) (outBit o) ch)
    (c : Coupler) (device : List Word)
    (h : outages oc cfg c0 start (before ++ .power :: evs) = some (c, device)) :
    (∀ v, lastSetInRounds ⟨j, ch⟩ (arrivedSince [] evs) = some v →
      Settled t par device (outBit o) ch v) ∧
    (lastSetInRounds ⟨j, ch⟩ (arrivedSince [] evs) = none →
      ChannelOff t device (outBit o) ch) := by
  rw [outages_append] at h
  obtain ⟨⟨c1, d1⟩, h1, h2⟩ := Option.bind_eq_some_iff.1 h
  obtain ⟨a1, a2, a3⟩ := outages_idle hdis hcfg ht hno hal hch h0 before
    (fun r hr => hcalls r (List.mem_append_left _ hr)) ⟨c0, [], h0, rfl⟩
    (((C13_success cfg).2 c0 h0).2.2.2.2.2 _) hlen h1
  exact outages_hold hdis hcfg ht hno hal hch h0 evs
    (fun r hr => hcalls r (List.mem_append_right _ (List.mem_cons_of_mem _ hr))) a1 a2 []
    (fun v hv => by simp [lastSetInRounds, lastSet] at hv) (fun _ => a3)
    (by rw [allOff_allOff]; exact a3) h2

/-- C125: the same from the first start of the station on. -/
theorem C125_start (oc : Bool) (cfg : CouplerConfig) (c0 : Coupler)
    (h0 : Coupler.new cfg = .ok c0) (j : Nat) (hdis : OutputsKept cfg j)
    (t : ModuleType) (par : List Word) (o i : Word) (hcfg : ConfiguredAt cfg j t par o i)
    (ht : t ≠ .UR20_1COM_232_485_422) (hno : o ≠ noOffset)
    (hal : o.toNat % 16 = 0 ∨ outputBytes t par = 1) (ch : Nat) (hch : ch < outputChannels t)
    (evs : List OutageEv) (hcalls : ∀ r, .round r ∈ evs → ∀ op ∈ r.calls, op.IsCall)
    (start : List Word) (hoff : ChannelOff t start (outBit o) ch)
    (hlen : ChannelOff t (allOff start) (outBit o) ch) (c : Coupler) (device : List Word)
    (h : outages oc cfg c0 start evs = some (c, device)) :
    (∀ v, lastSetInRounds ⟨j, ch⟩ (arrivedSince [] evs) = some v →
      Settled t par device (outBit o) ch v) ∧
    (lastSetInRounds ⟨j, ch⟩ (arrivedSince [] evs) = none →
      ChannelOff t device (outBit o) ch) :=
  outages_hold hdis hcfg ht hno hal hch h0 evs hcalls ⟨c0, [], h0, rfl⟩
    (((C13_success cfg).2 c0 h0).2.2.2.2.2 _) [] (fun v hv => by
      simp [lastSetInRounds, lastSet] at hv) (fun _ => hoff) hlen h

/-- Two relays are switched on, then the power fails. The next cycles do not switch them on again; a
third relay is switched on, and stays on through a crash. -/
def exOutage : List OutageEv :=
  [.round ⟨[.setOutput ⟨0, 0⟩ (.bit true), .setOutput ⟨0, 1⟩ (.bit true)], [], true⟩, .power,
   .round ⟨[], [], true⟩, .round ⟨[.setOutput ⟨0, 2⟩ (.bit true)], [], true⟩,
   .crash [.setOutput ⟨0, 3⟩ (.bit true)], .round ⟨[], [], true⟩]

example : ∃ c, Coupler.new exRelay = .ok c ∧
    (outages true exRelay c [0#16] (exOutage.take 1)).map (·.2) = some [3#16] ∧
    (outages true exRelay c [0#16] exOutage).map (·.2) = some [4#16] ∧
    lastSetInRounds ⟨0, 1⟩ (arrivedSince [] exOutage) = none ∧
    lastSetInRounds ⟨0, 2⟩ (arrivedSince [] exOutage) = some (.bit true) :=
  ⟨_, rfl, rfl, rfl, rfl, rfl⟩

theorem exOutage_calls : ∀ r, .round r ∈ exOutage → ∀ op ∈ r.calls, op.IsCall := by
  simp [exOutage, COp.IsCall]

/-- The theorem about the second relay: it is off at the end. -/
example : ∃ c d, Coupler.new exRelay = .ok c ∧
    outages true exRelay c [0#16] exOutage = some (d, [4#16]) ∧
    ChannelOff .UR20_4RO_CO_255 [4#16] (outBit 0x8000#16) 1 := by
  obtain ⟨c, d, h0, h1⟩ : ∃ c d, Coupler.new exRelay = .ok c ∧
      outages true exRelay c [0#16] exOutage = some (d, [4#16]) := ⟨_, _, rfl, rfl⟩
  exact ⟨c, d, h0, h1, (C125_power true exRelay c h0 0 (exRelay_disjoint 0) .UR20_4RO_CO_255 _
    0x8000#16 _ ⟨rfl, rfl, rfl, rfl⟩ (by decide) (by decide) (by decide) 1 (by decide) (exOutage.take 1)
    (exOutage.drop 2) exOutage_calls [0#16]
    (by simp [ChannelOff, allOff, bitAt, outBit, outputBase]) d _ h1).2 rfl⟩

end Ur20
