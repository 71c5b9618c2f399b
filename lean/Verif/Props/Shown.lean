import Verif.Props.Channels
import Verif.Props.Histories

/-! # What is shown after a cycle that fails to encode: C81 -/

namespace Ur20

open Spec Com Coupler

theorem decoded_plain {oc : Bool} {cfg : CouplerConfig} {c : Coupler}
    (hr : ReachableFrom oc cfg c) {pi po : List Word}
    (hd : Decodable cfg pi po) {j : Nat} {m : Module} {off : ModuleOffset}
    (hm : ModuleAt c j m off) (hs : ¬ IsSerial m) :
    ∃ inV outV, moduleInput oc pi m off = .ok inV ∧ moduleOutput oc po m off = .ok outV ∧
      (c.next oc pi po).1.inputs[j]? = some inV ∧ (c.next oc pi po).1.outputs[j]? = some outV := by
  have hi := inv_of_reachable hr
  obtain ⟨ins, outs, h1, h2⟩ := decodable_ok hr hd
  obtain ⟨inV, outV, st1, r, lt, d1, d2, d3, d4, d5, -⟩ := decoded_module hi h1 h2 hm
  rw [moduleStep_plain (hi.none hm.1 hs)] at d3
  cases d3
  exact ⟨inV, outV, d1, d2, d4, d5⟩

/-- C81: after a cycle whose images can be decoded, also one that fails to encode, `inputs()` shows
for every module that is not serial what the given input image stands for (as in C70). -/
theorem C81_inputs (oc : Bool) (cfg : CouplerConfig) (c : Coupler) (hr : ReachableFrom oc cfg c)
    (pi po : List Word) (hd : Decodable cfg pi po)
    (j : Nat) (t : ModuleType) (par : List Word) (o i : Word) (hcfg : ConfiguredAt cfg j t par o i)
    (ht : t ≠ .UR20_1COM_232_485_422) :
    (i = noOffset → ∃ vs, (c.next oc pi po).1.inputs[j]? = some vs ∧ ∀ v ∈ vs, v = .none) ∧
    (i ≠ noOffset → i.toNat % 16 = 0 ∨ inputBytes t par = 1 →
      ∃ vs, (c.next oc pi po).1.inputs[j]? = some vs ∧ vs.length = inputChannels t ∧
        ∀ ch, ch < inputChannels t → ∃ v, vs[ch]? = some v ∧ InputShown t par pi i.toNat ch v) := by
  obtain ⟨m, hm, hc⟩ := configured_at hr hcfg
  obtain ⟨vs, -, a1, -, a4, -⟩ := decoded_plain hr hd hm (by rw [isSerial_type hc]; exact ht)
  obtain ⟨g1, g2⟩ := inputs_shown hc ht a1 a4
  exact ⟨g1, g2⟩

/-- C81: and `outputs()` what the given output image stands for (as in C71). -/
theorem C81_outputs (oc : Bool) (cfg : CouplerConfig) (c : Coupler) (hr : ReachableFrom oc cfg c)
    (pi po : List Word) (hd : Decodable cfg pi po)
    (j : Nat) (t : ModuleType) (par : List Word) (o i : Word) (hcfg : ConfiguredAt cfg j t par o i)
    (ht : t ≠ .UR20_1COM_232_485_422) :
    (o = noOffset → ∃ vs, (c.next oc pi po).1.outputs[j]? = some vs ∧ ∀ v ∈ vs, v = .none) ∧
    (o ≠ noOffset → o.toNat % 16 = 0 ∨ outputBytes t par = 1 →
      ∃ vs, (c.next oc pi po).1.outputs[j]? = some vs ∧ vs.length = outputChannels t ∧
        ∀ ch, ch < outputChannels t → ∃ v, vs[ch]? = some v ∧
          OutputShown t par po (outBit o) ch v) := by
  obtain ⟨m, hm, hc⟩ := configured_at hr hcfg
  obtain ⟨-, vs, -, a1, -, a4⟩ := decoded_plain hr hd hm (by rw [isSerial_type hc]; exact ht)
  obtain ⟨g1, g2⟩ := outputs_shown hc ht a1 (fun hno => (hd.2 j t par o i hcfg hno).1) a4
  exact ⟨g1, g2⟩

/-- The example coupler with a pending value of the wrong kind: the cycle fails, the values of the
images are shown. -/
example : Decodable exCfg exPi exPo := exCfg_decodable
example :
    let r := (runC true (initial exCfg exModules) [.setOutput ⟨0, 2⟩ (.bytes [])]).next true exPi exPo
    r.2 = .err .channelValue ∧
    r.1.inputs[2]? = some [.bit false, .bit true, .bit false, .bit true] ∧
    r.1.outputs[0]? = some [.bit true, .bit true, .bit false, .bit false] := ⟨rfl, rfl, rfl⟩

end Ur20
