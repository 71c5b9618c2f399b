import Verif.Instances.Small
import Verif.Instances.Cycles
import Verif.Props.Station
import Verif.Props.Settings
import Verif.Props.Edited
import Verif.Props.Setup
import Verif.Props.Pending
import Verif.Props.Faults
import Verif.Props.StdIo

/-!
# Instances: places of modules, values, settings, serial modules in a coupler

Each example applies a theorem to a concrete case; its hypotheses are proved there.
-/

namespace Ur20.Instances

open Spec Com Coupler

/-- C45: a serial frame in the high bytes. -/
example := C45_decode_partial true [0x0100#16, 0x0006#16, 0#16, 0#16, 0x00AA#16]
  (.com ⟨.EightBytes, []⟩) 8#16 none (by decide) (by decide) (by decide) (by decide)

theorem exHigh16_disjoint : DisjointBytes
    [(.ro ⟨[]⟩, ⟨none, some 0x8000#16⟩), (.do16, ⟨none, some 0x8008#16⟩)] := by
  refine disjointBytes_of ?_
  intro i j e e' p hi hj ⟨o, ho, h1, h2⟩ ⟨o', ho', h1', h2'⟩
  match i, j with
  | 0, 0 => rfl
  | 0, 1 =>
    cases hi; cases hj; cases ho; cases ho'
    change p < 0 + 1 at h2; change 1 ≤ p at h1'; omega
  | 1, 0 =>
    cases hi; cases hj; cases ho; cases ho'
    change 1 ≤ p at h1; change p < 0 + 1 at h2'; omega
  | 1, 1 => rfl
  | i + 2, _ => simp at hi
  | _, j + 2 => simp at hj

example := C45_encode_partial
  [(.ro ⟨[]⟩, ⟨none, some 0x8000#16⟩), (.do16, ⟨none, some 0x8008#16⟩)]
  [List.replicate 4 (.bit false), List.replicate 16 (.bit true)] [0xFF00#16] (by decide)
  1 (exHigh16_disjoint 1) .do16 ⟨none, some 0x8008#16⟩ 0x8008#16 rfl rfl (by decide)

example := C46_decode ⟨[⟨.us5⟩, ⟨.us5⟩]⟩ rfl
  [0#16, 8000#16, 1#16, 2#16, 0x07FF#16, 0xFFFF#16, 0#16, 7#16, 0x100#16, 0#16]

/-- C49: 1000 pulses in a quarter of a second, and durations of zero. -/
example := C49_accuracy ⟨some 250000000, 1000#32, true⟩ 250000000 rfl (by decide) (by decide)

example := C49_zero ⟨some 0, 1000#32, true⟩ rfl

/-! ### Analog values -/

example := C52_encode _ _ _ exAo_create exAoChannels rfl [.nan, .inf true, .fin 5, .fin 7] rfl

example : (0x3600#16 : Word).toInt ≤ (0x7FFF#16 : Word).toInt :=
  C52_monotone _ _ _ exAo_create exAoChannels rfl
    [.fin 10, .fin 12, .fin 5, .fin 0] [.inf false, .fin 4, .fin 0, .fin 0] rfl rfl
    [0x3600#16, 0x3600#16, 0x2000#16, 0#16] [0x7FFF#16, 0#16, 0#16, 0#16]
    (by decide +kernel) (by decide +kernel) 0 (.fin 10) (.inf false) _ _ rfl rfl rfl rfl trivial

example := C53_s5_exact _ _ _ exAo_create exAoChannels rfl [45#16, 90#16, 0xABCD#16, 7#16] rfl

/-- C56: a resistance thermometer module with four channels for PT100. -/
def exRtd : Rtd.Mod :=
  ⟨.Celsius, List.replicate 4 ⟨.PT100, .TwoWire, .ms80, false, false, 0, 0⟩⟩

theorem exRtd_create : Module.create .UR20_4AI_RTD_DIAG
    (0 :: (List.replicate 4 [0, 0, 2, 0, 0, 0, 0]).flatten) = .ok (.rtd exRtd) := by decide +kernel

example := C56_rtd _ _ _ exRtd_create [215#16, 0xFFFF#16, 0#16, 1000#16] rfl

/-- C57: the factory settings of a thermocouple module. -/
example : ∃ m, Module.create .UR20_4AI_TC_DIAG (List.replicate 29 0) = .ok (.tc m) ∧
    ∃ vs, (Module.tc m).processInputData [215#16, 0x7FFF#16, 0#16, 1000#16] = .ok vs ∧
      vs.length = 4 := by
  refine ⟨_, rfl, ?_⟩
  obtain ⟨vs, h1, h2, -⟩ := C57_thermocouple _ [215#16, 0x7FFF#16, 0#16, 1000#16] rfl
  exact ⟨vs, h1, h2⟩

def exSubst : Ao.Mod :=
  ⟨[⟨.S5, .mA0To20, .fin 10⟩, ⟨.S5, .Disabled, .fin 0⟩, ⟨.S7, .VMinus10To10, .fin 0⟩,
      ⟨.S7, .V0To10, .fin (-10)⟩]⟩

example : AnalogReading (.V0To10, .S7) 0x9400#16 (.decimal32 (.fin (-10))) := by
  obtain ⟨w, h1, -, h2⟩ := C64_substitute [0, 0, 8192, 0, 8, 5, 1, 3, 0, 1, 2, 0x9400] rfl
    exSubst (by decide +kernel) 3 ⟨.S7, .V0To10, .fin (-10)⟩ rfl
  cases h1
  exact h2 (by simp)

def exSubstDiag : AoDiag.Mod :=
  ⟨[⟨.S5, .mA0To20, .fin 10, true⟩, ⟨.S5, .Disabled, .fin 0, false⟩,
      ⟨.S7, .VMinus10To10, .fin 0, false⟩, ⟨.S7, .V0To10, .fin (-10), true⟩]⟩

example : AnalogReading (.mA0To20, .S5) 8192#16 (.decimal32 (.fin 10)) := by
  obtain ⟨w, h1, -, h2⟩ := C64_substitute_diag
    [0, 0, 8192, 1, 0, 8, 5, 0, 1, 3, 0, 0, 1, 2, 0x9400, 1] rfl
    exSubstDiag (by decide +kernel) 0 _ rfl
  cases h1
  exact h2 (by simp)

example : (Module.dout ⟨.UR20_8DO_P, [⟨false⟩, ⟨true⟩, ⟨false⟩, ⟨true⟩, ⟨false⟩, ⟨false⟩, ⟨true⟩,
    ⟨true⟩]⟩).moduleType = .UR20_8DO_P :=
  (C65_module_type_partial .UR20_8DO_P [0, 1, 0, 1, 0, 0, 1, 1] _ rfl).1 (by decide)

example : (Module.ao exAo).processOutputValues
    [.disabled, .bit true, .disabled, .disabled] = .err .channelValue :=
  (C66_accepts _ _ _ exAo_create exAoChannels rfl _).2 (by
    rw [(C66_accepts _ _ _ exAo_create exAoChannels rfl _).1]
    rintro ⟨-, h⟩
    simpa using h (.bit true) (by simp))

/-- C66: a bit for an analog channel, for all images. -/
example (pi po img : List Word) : ((runC true (initial exAoCfg exAoModules)
    [.setOutput ⟨1, 2⟩ (.bit true)]).next true pi po).2 ≠ .ok img :=
  C66_pending true exAoCfg _ (exAo_reachable [.setOutput ⟨1, 2⟩ (.bit true)]) 1 (exAo_disjoint 1) pi po
    (.ao exAo) ⟨none, some 0x8010#16⟩ ⟨rfl, rfl⟩ exAoChannels rfl 0x8010#16 rfl rfl 2 (by decide)
    (.bit true) rfl (by simp) (by simp) img

example (pi po img : List Word) : ((runC true (initial exAoCfg exAoModules)
    [.setOutput ⟨1, 2⟩ (.bit true)]).next true pi po).2 ≠ .ok img :=
  C66_pending_anywhere true exAoCfg _ (exAo_reachable [.setOutput ⟨1, 2⟩ (.bit true)]) pi po 1
    .UR20_4AO_UI_16 exAoParams 0x8010#16 0xFFFF#16 ⟨rfl, rfl, rfl, rfl⟩ (.inl rfl) (by decide) 2
    (.bit true) rfl (by simp) (by simp) img

/-! ### Serial modules and modules without outputs -/

/-- C60: with the same bytes set and written. -/
example (c' : Coupler) (img : List Word) :=
  C60_set_output_bytes true exCfg _ (exCfg_reach [.next exPi exPo]) 3 .EightBytes 0x0010#16 0x8010#16
    ⟨_, ⟨rfl, rfl⟩, rfl, by decide, by decide, by decide⟩ rfl [7#8] exPi exPo img c'

/-- C61: a value for an input channel. -/
example := C61_input_only true exCfg _ (exCfg_reach [])
  (fun a => if a.module = 2 then some (.bytes []) else none) (by
    intro a m h hm
    rw [if_neg]
    · rfl
    · intro e
      rw [e] at h
      cases h
      exact hm rfl) exPi exPo

theorem exTwo_inFrame :
    inFrame .EightBytes 0#16 exTwoPi = inFrame .EightBytes 0x0040#16 exTwoPi := by decide +kernel

theorem exTwo_outFrame :
    outFrame .EightBytes 0x8000#16 exTwoPi = outFrame .EightBytes 0x8040#16 exTwoPi := by
  decide +kernel

/-- C63: the two modules of a coupler, used alike. -/
example := (C63_independent true exTwo exTwo _ _ exTwo_new exTwo_new 0 1 .EightBytes _ _ _ _
  exTwo_serial.1 exTwo_serial.2
  [.next exTwoPi exTwoPi, .write 1 [9#8], .next exTwoPi exTwoPi, .write 0 [1#8, 2#8]]
  [.write 0 [9#8, 9#8], .next exTwoPi exTwoPi, .next exTwoPi exTwoPi, .write 1 [1#8, 2#8]]
  ⟨(fun _ _ h => by cases h; exact ⟨_, rfl⟩), (fun _ _ h => by cases h),
    (fun _ _ h => by cases h; exact ⟨_, rfl⟩), (fun _ _ h => by cases h), trivial⟩
  ⟨(fun _ _ h => by cases h), (fun _ _ h => by cases h; exact ⟨_, rfl⟩),
    (fun _ _ h => by cases h; exact ⟨_, rfl⟩), (fun _ _ h => by cases h), trivial⟩
  (by simp [serialCalls, exTwo_inFrame, exTwo_outFrame])).1 5

example := (C75_no_outputs .UR20_4DI_P (List.replicate 4 0) _ rfl (by decide) [.bit true]).2
  (by decide)

example := ((C75_serial (List.replicate 10 0) _ rfl [.comRsOut exRsOut]).1 exRsOut rfl).1 (by decide)
  (by decide) (by decide)

example : ∃ m, Module.default? .UR20_8AI_I_16_DIAG_HD = some m ∧
    m.processInputData (List.replicate 8 77#16) = .ok (List.replicate 8 .disabled) :=
  ⟨_, rfl, C76_inputs_disabled .UR20_8AI_I_16_DIAG_HD _ rfl (by decide) (by decide) _ (by decide)⟩

example : ∃ m, Module.default? .UR20_4AO_UI_16 = some m ∧
    m.processOutputData [1#16, 2#16, 3#16, 4#16] = .ok (List.replicate 4 .disabled) :=
  ⟨_, rfl, (C76_outputs_disabled .UR20_4AO_UI_16 _ rfl (.inl rfl)).1 _ rfl⟩

/-! ### Failing cycles, crashes, settings -/

example : ∃ vs, ((runC true (initial exCfg exModules)
    [.setOutput ⟨0, 2⟩ (.bytes [])]).next true exPi exPo).1.outputs[1]? = some vs ∧ vs.length = 8 := by
  obtain ⟨vs, h1, h2, -⟩ := (C81_outputs true exCfg _ (exCfg_reach [.setOutput ⟨0, 2⟩ (.bytes [])])
    exPi exPo exCfg_decodable 1 .UR20_8DO_P (List.replicate 8 0) 0x8008#16 0xFFFF#16
    ⟨rfl, rfl, rfl, rfl⟩ (by decide)).2 (by decide) (.inr (by decide))
  exact ⟨vs, h1, h2⟩

example := C82_kinds true exCfg _ (exCfg_reach [.setOutput ⟨1, 2⟩ (.bytes [])]) exPi exPo
  (by intro h; cases h) .channelValue rfl

example := C84_after_crash exSys_ready exLosses [1#8, 2#8, 3#8] 4 (by decide)

example : Error.description .bufferLength = Error.display .bufferLength :=
  C87_description _ (by simp)

example := (C96_range .UR20_1COM_232_485_422 _ rfl exSettings).2 [1, 2, 7, 0, 1, 2, 1, 1, 17, 19] rfl

/-- C103: there is no third module. -/
example : setup true exStation 3 = .err .unknownModule :=
  (C103_rejected true exStation 3 (by decide) (by decide)).1
    ⟨2, by decide, by intro t; cases t <;> decide +kernel⟩

example := C104_settings .UR20_4AI_RTD_DIAG _ rfl (.rtd ⟨.Celsius, List.replicate 4
  ⟨.PT100, .TwoWire, .ms80, false, true, 100000, -100000⟩⟩) (by simp [SettingsOf])

example := (C104_wrong_number (.fcnt ⟨[]⟩) (by decide)).1 trivial [1#16]

end Ur20.Instances
