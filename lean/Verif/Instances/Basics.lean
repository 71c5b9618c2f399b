import Verif.Props.Names
import Verif.Props.Protocol
import Verif.Props.HighByte
import Verif.Props.Loop
import Verif.Props.Unreliable

/-!
# Instances: names, the serial protocol, coupler construction, writes and the image

Each example applies a theorem to a concrete case; its hypotheses are proved there.
-/

namespace Ur20.Instances

open Spec Com Coupler

/-- Every coupler that the example coupler becomes in some history. -/
theorem exCfg_reach (ops : List COp) :
    ReachableFrom true exCfg (runC true (initial exCfg exModules) ops) := ⟨_, ops, exCfg_new, rfl⟩

/-- C05: a name that no module has. -/
example : ModuleType.fromStr (fun c => [c]) "UR20-5DI-P" = .err .unknownModule :=
  C05_parse_error _ _ (by intro t; cases t <;> decide +kernel)

/-- C06: a category that does not exist. -/
example : ModuleCategory.fromStr (fun c => [c]) "DIO" = .err .unknownCategory :=
  C06_category_error _ _ (by intro c; cases c <;> decide +kernel)

/-- C13: the second module has parameters that stand for nothing. -/
example : Coupler.new { exCfg with params :=
    [List.replicate 4 0, List.replicate 8 2, [], List.replicate 10 0] } = .err .channelParameter :=
  (C13_first_error { exCfg with params :=
    [List.replicate 4 0, List.replicate 8 2, [], List.replicate 10 0] } (by decide) (by decide) 1
    .UR20_8DO_P (List.replicate 8 2) rfl rfl (by
      intro k t ws hk ht hw
      obtain rfl : k = 0 := by omega
      cases ht; cases hw
      exact ⟨_, rfl⟩)).1 _ rfl

/-- C25: a write of eight bytes, with two cycles of initialisation and one look of the device. -/
def exEvs : List Ev :=
  [.write [1#8, 2#8, 3#8, 4#8, 5#8, 6#8, 7#8, 8#8], .start false true, .finish, .start false true,
    .finish, .start false true, .finish, .take, .start false true, .finish]

example :
    (exSys.run exEvs).received ++ (exSys.run exEvs).inFlight ++ (exSys.run exEvs).queued =
      [1#8, 2#8, 3#8, 4#8, 5#8, 6#8, 7#8, 8#8] :=
  C25_exactly_once .EightBytes exSys exSys_ready exEvs

example : (exSys.run exEvs).received <+: [1#8, 2#8, 3#8, 4#8, 5#8, 6#8, 7#8, 8#8] :=
  C25_prefix .EightBytes exSys exSys_ready exEvs

example : (exSys.run exEvs).received = [1#8, 2#8, 3#8, 4#8, 5#8, 6#8] ∧
    (exSys.run exEvs).inFlight = [7#8, 8#8] := by decide

/-- C26: after these events one more round delivers the segment in flight. -/
example : (rounds 1 (exSys.run exEvs)).received =
    (exSys.run exEvs).received ++ ((outstanding (exSys.run exEvs)).take 1).flatten :=
  (C26_rounds 1 (exSys.run exEvs) (by decide) (by decide) (by decide)).1

/-- C32: two values for the same channel, and another one in between. -/
example : runC true (initial exCfg exModules)
      [.setOutput ⟨0, 2⟩ (.bit false), .setOutput ⟨1, 5⟩ (.bit true), .setOutput ⟨0, 2⟩ (.bit true)] =
    runC true (initial exCfg exModules)
      [.setOutput ⟨1, 5⟩ (.bit true), .setOutput ⟨0, 2⟩ (.bit true)] :=
  C32_last_wins true (initial exCfg exModules) ⟨0, 2⟩ (.bit false) (.bit true)
    [.setOutput ⟨1, 5⟩ (.bit true)] (by intro op h; simp at h; subst h; trivial)

/-- C33: channel 6 of the module in the high byte is switched on after some history. -/
example : ∃ c' img, ((runC true (initial exCfg exModules)
      [.write 3 [1#8], .next exPi exPo]).setOutput ⟨1, 6⟩ (.bit false)).1.next true exPi exPo =
        (c', .ok img) ∧ bitAt img 14 = some false :=
  ⟨_, _, rfl, C33_set_output true exCfg _ (exCfg_reach [.write 3 [1#8], .next exPi exPo])
    1 (exCoupler_disjoint 1) (.dout ⟨.UR20_8DO_P, List.replicate 8 ⟨false⟩⟩) ⟨none, some 0x8008#16⟩
    ⟨rfl, rfl⟩ 8 rfl 0x8008#16 rfl (.inl (by decide)) 6 (by decide) false exPi exPo _ _ rfl⟩

/-- C33: the pending value, and the bits of the given image for the other channels. -/
example : ∃ c' img, (runC true (initial exCfg exModules)
      [.setOutput ⟨0, 2⟩ (.bit true)]).next true exPi exPo = (c', .ok img) ∧
    bitAt img 2 = some true ∧ ∃ b, bitAt exPo 1 = some b ∧ bitAt img 1 = some b :=
  ⟨_, _, rfl,
    (C33_writes_reach_image true exCfg _ (exCfg_reach [.setOutput ⟨0, 2⟩ (.bit true)])
      0 (exCoupler_disjoint 0) exPi exPo _ _ rfl (.dout ⟨.UR20_4DO_P, List.replicate 4 ⟨false⟩⟩)
      ⟨none, some 0x8000#16⟩ ⟨rfl, rfl⟩ 4 rfl 0x8000#16 rfl (.inl (by decide)) 2 (by decide)).1
      true rfl,
    (C33_writes_reach_image true exCfg _ (exCfg_reach [.setOutput ⟨0, 2⟩ (.bit true)])
      0 (exCoupler_disjoint 0) exPi exPo _ _ rfl (.dout ⟨.UR20_4DO_P, List.replicate 4 ⟨false⟩⟩)
      ⟨none, some 0x8000#16⟩ ⟨rfl, rfl⟩ 4 rfl 0x8000#16 rfl (.inl (by decide)) 1 (by decide)).2
      rfl⟩

/-- C34: the value is used up by the cycle. -/
example : ((runC true (initial exCfg exModules)
      [.setOutput ⟨0, 2⟩ (.bit true)]).next true exPi exPo).1.write ⟨0, 2⟩ = none :=
  C34_consumed true exCfg _ (exCfg_reach [.setOutput ⟨0, 2⟩ (.bit true)]) exPi exPo _ _ rfl ⟨0, 2⟩
    (by decide)

/-- C38: a cycle without images keeps the pending value. -/
example : ((runC true (initial exCfg exModules)
      [.setOutput ⟨0, 2⟩ (.bit true)]).next true [] []).1.write ⟨0, 2⟩ = some (.bit true) := by
  rw [(C38_partial true (runC true (initial exCfg exModules) [.setOutput ⟨0, 2⟩ (.bit true)]) [] []
    (.inl ⟨.bufferLength, rfl⟩)).1]
  rfl

/-- C39, C40: a successful cycle after a history. -/
example := C39_partial true exCfg _ (exCfg_reach [.setOutput ⟨0, 2⟩ (.bit true), .next exPi exPo])
  exPi exPo _ _ rfl

example := C40_inputs true exCfg _ (exCfg_reach [.setOutput ⟨0, 2⟩ (.bit true), .next exPi exPo])
  exPi exPo _ _ rfl 2 (.di ⟨.UR20_4DI_P, List.replicate 4 ⟨.no⟩⟩) ⟨some 0x0000#16, none⟩ ⟨rfl, rfl⟩
  (by rintro ⟨m, h⟩; cases h)

example : ((runC true (initial exCfg exModules)
      [.setOutput ⟨0, 2⟩ (.bit true), .next exPi exPo]).next true exPi exPo).1.inputs[2]? =
    ((initial exCfg exModules).next true exPi exPo).1.inputs[2]? :=
  C40_latest_only true exCfg _ _
    (exCfg_reach [.setOutput ⟨0, 2⟩ (.bit true), .next exPi exPo]) (exCfg_reach [])
    exPi exPo exPo _ _ _ _ rfl rfl 2 .UR20_4DI_P rfl (by decide)

/-- C41: the image of the example modules. -/
example := C41_no_gaps exInfos (exVals true) [0xFF0D#16, 0x0001#16] (by decide) 3 (by decide)

example := C41_own_bytes exInfos (exVals true) [0xFF0D#16, 0x0001#16] (by decide) 1 (exInfos_disjoint 1)
  (.dout ⟨.UR20_8DO_P, []⟩) ⟨none, some 0x8008#16⟩ 0x8008#16 rfl rfl

/-- C44: modules in the high byte of a register. -/
example := C44_decode_input true [0x0500#16] (.di ⟨.UR20_4DI_P, []⟩) 4 rfl 0x0008#16 none (by decide)
  (by decide)

example := C44_decode_output true [0xFF09#16] (.dout ⟨.UR20_8DO_P, []⟩) 8 rfl 0x8008#16 none
  (by decide) (.inl (by decide)) (by decide) (by decide)

/-- C45: the counter and the 16-channel module in the high bytes of `exHigh`. -/
example : ∃ (c c' : Coupler) (d : List Word) (vs : List ChannelValue),
    c.next true exHighPi exHighPo = (c', .ok [0#16]) ∧ c'.inputs[3]? = some vs ∧ vs.length = 2 ∧
      OwnBytesButLast exHighPi 8 20 d := by
  obtain ⟨c, c', hr, h, -⟩ := exHigh_next
  obtain ⟨d, vs, h1, h2, h3, -⟩ := C45_inputs_partial true exHigh c hr _ _ _ c' h 3 .UR20_2FCNT_100
    [0, 0] 0xFFFF#16 0x0008#16 ⟨rfl, rfl, rfl, rfl⟩ (by decide) (by decide) (by decide) (by decide)
  exact ⟨c, c', d, vs, h, h2, h3, h1⟩

example : ∃ (c c' : Coupler) (d : List Word) (vs : List ChannelValue),
    c.next true exHighPi exHighPo = (c', .ok [0#16]) ∧ c'.outputs[1]? = some vs ∧ vs.length = 16 ∧
      OwnBytesButLast exHighPo 8 2 d := by
  obtain ⟨c, c', hr, h, -⟩ := exHigh_next
  obtain ⟨d, vs, h1, h2, h3, -⟩ := C45_outputs_partial true exHigh c hr _ _ _ c' h 1 .UR20_16DO_P
    [] 0x8008#16 0xFFFF#16 ⟨rfl, rfl, rfl, rfl⟩ (by decide) (by decide) (by decide) (by decide)
  exact ⟨c, c', d, vs, h, h2, h3, h1⟩

example : ∃ (c c' : Coupler) (old new : List Word) (b : Byte),
    c.next true exHighPi exHighPo = (c', .ok [0#16]) ∧ OwnBytesButLast exHighPo 8 2 old ∧
      byteAt new 0 = some b ∧ byteAt [0#16] 1 = some b := by
  obtain ⟨c, c', hr, h, -⟩ := exHigh_next
  obtain ⟨old, new, b, h1, h2, h3, h4, -⟩ := C45_returned_partial true exHigh c hr 1
    (exHigh_disjoint 1) _ _ _ c' h .UR20_16DO_P [] 0x8008#16 0xFFFF#16 ⟨rfl, rfl, rfl, rfl⟩ (by decide) (by decide) (by decide) (by decide)
  exact ⟨c, c', old, new, b, h, h1, h3, h4⟩

end Ur20.Instances
