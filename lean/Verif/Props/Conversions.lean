import Verif.Model.Conversions
import Verif.Props.Transfers

/-! # Converted values in a coupler: C113 -/

namespace Ur20

open Spec Com Coupler

/-- C113: a counter output given to `set_output` by way of the conversion is accepted for both
channels of a counter module, and the next cycle that succeeds puts its duration in microseconds,
high word first, and its command in the registers of the channel. -/
theorem C113_written (oc : Bool) (cfg : CouplerConfig) (c : Coupler) (hr : ReachableFrom oc cfg c)
    (j : Nat) (hdis : OutputsKept cfg j) (par : List Word) (o i : Word)
    (hcfg : ConfiguredAt cfg j .UR20_2FCNT_100 par o i) (hno : o ≠ noOffset)
    (hal : o.toNat % 16 = 0) (ch : Nat) (hch : ch < 2) (x : FcntOut) :
    (c.setOutput ⟨j, ch⟩ (.ofFcntOut x)).2 = .ok () ∧
    ∀ (pi po img : List Word) (c' : Coupler),
      (c.setOutput ⟨j, ch⟩ (.ofFcntOut x)).1.next oc pi po = (c', .ok img) →
      ∃ hi lo : Word, img[outBit o / 16 + 2 * ch]? = some hi ∧
        img[outBit o / 16 + 2 * ch + 1]? = some lo ∧
        hi.toNat * 65536 + lo.toNat = x.duration / 1000 ∧
        img[outBit o / 16 + 4 + ch]? = some (match x.command with
          | some .start => 0x0100#16
          | some .stop => 0x0200#16
          | none => 0#16) := by
  have hok : (c.setOutput ⟨j, ch⟩ (.ofFcntOut x)).2 = .ok () :=
    (C31_addresses oc cfg c hr _ _).1.2 ⟨_, hcfg.1, hch⟩
  refine ⟨hok, fun pi po img c' hn => ?_⟩
  have hst := (C31_addresses oc cfg c hr ⟨j, ch⟩ (.ofFcntOut x)).2.1 hok
  have hr' := reachable_run hr [.setOutput ⟨j, ch⟩ (.ofFcntOut x)]
  have himg := C72_image oc cfg _ hr' j hdis pi po img c' hn _ par o i hcfg (by decide) hno
    (.inl hal) ch hch
  have hw : (runC oc c [.setOutput ⟨j, ch⟩ (.ofFcntOut x)]).write ⟨j, ch⟩ =
      some (.fcntOut x) := by
    change (c.setOutput ⟨j, ch⟩ (.ofFcntOut x)).1.write ⟨j, ch⟩ = _
    rw [hst]
    simp [ChannelValue.ofFcntOut]
  rw [hw] at himg
  obtain ⟨us, us', ctl, ctl', -, ⟨hi, lo, h1, h2, h3, h4⟩, h5, h6⟩ := himg
  refine ⟨hi, lo, h1, h2, h3 ▸ h5, ?_⟩
  rw [h4, h6]
  unfold controlOf
  rfl

/-- C113: after a successful cycle `inputs` shows, for both channels of a counter module, the
conversion of a counter input with the count, the flag and the duration in the registers of the
channel. -/
theorem C113_counter (oc : Bool) (cfg : CouplerConfig) (c : Coupler) (hr : ReachableFrom oc cfg c)
    (pi po img : List Word) (c' : Coupler) (h : c.next oc pi po = (c', .ok img))
    (j : Nat) (par : List Word) (o i : Word) (hcfg : ConfiguredAt cfg j .UR20_2FCNT_100 par o i)
    (hno : i ≠ noOffset) (hal : i.toNat % 16 = 0) (ch : Nat) (hch : ch < 2) :
    ∃ (vs : List ChannelValue) (x : FcntIn) (dh dl nh nl s : Word),
      c'.inputs[j]? = some vs ∧ vs[ch]? = some (.ofFcntIn x) ∧
      pi[i.toNat / 16 + 4 * ch]? = some dh ∧ pi[i.toNat / 16 + 4 * ch + 1]? = some dl ∧
      pi[i.toNat / 16 + 4 * ch + 2]? = some nh ∧ pi[i.toNat / 16 + 4 * ch + 3]? = some nl ∧
      pi[i.toNat / 16 + 8 + ch]? = some s ∧
      x.count.toNat = nh.toNat * 65536 + nl.toNat ∧ x.active = s.getLsbD 8 ∧
      x.duration = (if 0x07FFFFFF ≤ dh.toNat * 65536 + dl.toNat then none
        else some ((dh.toNat * 65536 + dl.toNat) * 125)) := by
  obtain ⟨vs, hvs, -, hall⟩ := (C70_inputs oc cfg c hr pi po img c' h j _ par o i hcfg
    (by decide)).2 hno (.inl hal)
  obtain ⟨v, hv, dh, dl, nh, nl, s, h1, h2, h3, h4, h5, x, rfl, h6, h7, h8⟩ := hall ch hch
  exact ⟨vs, x, dh, dl, nh, nl, s, hvs, hv, h1, h2, h3, h4, h5, h6, h7, h8⟩

/-- C113: after a successful cycle `inputs` shows, for a safe power feed module, the conversion of
the status with the bits of its register. -/
theorem C113_safety (oc : Bool) (cfg : CouplerConfig) (c : Coupler) (hr : ReachableFrom oc cfg c)
    (pi po img : List Word) (c' : Coupler) (h : c.next oc pi po = (c', .ok img))
    (j : Nat) (par : List Word) (o i : Word) (hcfg : ConfiguredAt cfg j .UR20_PF_O_1DI_SIL par o i)
    (hno : i ≠ noOffset) (hal : i.toNat % 16 = 0) :
    ∃ (vs : List ChannelValue) (x : SilIn) (w : Word),
      c'.inputs[j]? = some vs ∧ vs[0]? = some (.ofSilIn x) ∧ pi[i.toNat / 16]? = some w ∧
      x.safetyInput = w.getLsbD 0 ∧ x.autostart = w.getLsbD 2 ∧ x.manualStart = w.getLsbD 3 ∧
      x.safetyInputChannel1 = w.getLsbD 4 ∧ x.safetyInputChannel2 = w.getLsbD 5 ∧
      x.volt24SafeOutput = w.getLsbD 8 ∧ x.volt24Dc = w.getLsbD 10 := by
  obtain ⟨vs, hvs, -, hall⟩ := (C70_inputs oc cfg c hr pi po img c' h j _ par o i hcfg
    (by decide)).2 hno (.inl hal)
  obtain ⟨v, hv, w, h1, rfl⟩ := hall 0 (by decide)
  exact ⟨vs, _, w, hvs, hv, h1, rfl, rfl, rfl, rfl, rfl, rfl, rfl⟩

/-- A counter module and a safe power feed module. -/
def exConversions : CouplerConfig where
  modules := [.UR20_2FCNT_100, .UR20_PF_O_1DI_SIL]
  offsets := [0x8000, 0x0000, 0xFFFF, 0x00A0]
  params := [[0, 0], []]

example : ∃ c, Coupler.new exConversions = .ok c ∧
    ∃ c' img, (c.setOutput ⟨0, 1⟩ (.ofFcntOut ⟨70000000, some .start⟩)).1.next true
      [0, 1, 0, 7, 0, 0, 0, 0, 0x0100, 0, 0x0105, 0] [0, 0, 0, 0, 0, 0] = (c', .ok img) ∧
      img = [0, 0, 1, 4464, 0, 0x0100] ∧
      c'.inputs[0]?.bind (·[0]?) = some (.ofFcntIn ⟨some 125, 7, true⟩) ∧
      c'.inputs[1]?.bind (·[0]?) = some (.ofSilIn ⟨true, true, false, false, false, true, false⟩) :=
  ⟨_, rfl, _, _, rfl, by decide +kernel, by decide +kernel, by decide +kernel⟩

end Ur20
