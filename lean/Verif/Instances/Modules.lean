import Verif.Instances.Basics
import Verif.Props.Counter
import Verif.Props.Modules
import Verif.Props.AnalogCoupler
import Verif.Props.SerialCoupler
import Verif.Props.Success
import Verif.Props.Settle

/-!
# Instances: single modules, analog outputs, the serial module in a coupler, success of cycles

Each example applies a theorem to a concrete case; its hypotheses are proved there.
-/

namespace Ur20.Instances

open Spec Com Coupler Fcnt

/-- C48: one counter channel within the range and one beyond it. -/
example := C48_cycle_partial ⟨[⟨.us5⟩, ⟨.us5⟩]⟩ rfl 0x7F#16 0xFFFF#16 0#16 3#16 0x300#16 0x200#16

example : (0x7F#16).toNat * 65536 + (0xFFFF#16).toNat ≤ 0x7FFFFF ∧
    0x7FFFFF < (0x80#16).toNat * 65536 + (0#16).toNat := by decide

/-- An analog input module: 0–20 mA (S7), 4–20 mA (S7), 0–10 V (S5), disabled. -/
def exAi : Ai.Mod :=
  ⟨.UR20_4AI_UI_16, .Disabled,
    [⟨.S7, .mA0To20⟩, ⟨.S7, .mA4To20⟩, ⟨.S5, .V0To10⟩, ⟨.S7, .Disabled⟩]⟩

def exAiParams : List Word := [0#16, 1#16, 0#16, 1#16, 1#16, 0#16, 2#16, 1#16, 8#16]

theorem exAi_create : Module.create .UR20_4AI_UI_16 exAiParams = .ok (.ai exAi) := by
  decide +kernel

/-- C50, C51 for the inputs. -/
example := C50_inputs _ _ _ exAi_create exAoChannels rfl [0x3600#16, 0x3600#16, 0x2000#16, 7#16] rfl

example : F32Le (.fin 5) (.fin 10) :=
  C51_inputs _ _ _ exAi_create exAoChannels rfl [0x3600#16, 0#16, 0x2000#16, 7#16]
    [0x3600#16, 0#16, 0x4000#16, 7#16]
    [.decimal32 (.fin 10), .decimal32 (.fin 4), .decimal32 (.fin 5), .disabled]
    [.decimal32 (.fin 10), .decimal32 (.fin 4), .decimal32 (.fin 10), .disabled]
    (by decide +kernel) (by decide +kernel) rfl rfl 2 _ _ rfl rfl (by decide) _ _ rfl rfl

example : F32Le (.fin 10) (.fin (3155437 / 262144)) :=
  C51_outputs _ _ _ exAo_create exAoChannels rfl [0x3600#16, 0x3600#16, 0x2000#16, 7#16]
    [0x4100#16, 0#16, 0#16, 0#16]
    [.decimal32 (.fin 10), .decimal32 (.fin 12), .decimal32 (.fin 5), .disabled]
    [.decimal32 (.fin (3155437 / 262144)), .decimal32 (.fin 4), .decimal32 (.fin 0), .disabled]
    (by decide +kernel) (by decide +kernel) rfl rfl 0 _ _ rfl rfl (by decide) _ _ rfl rfl

/-- C54: 54 is a multiple of 27 and stays; 45 falls by one. -/
example : ([54#16, 90#16, 0xABCD#16, 0#16] : List Word)[0]? = some 54#16 :=
  C54_multiples_partial _ _ _ exAo_create exAoChannels rfl [54#16, 90#16, 0xABCD#16, 7#16] _ rfl
    ⟨_, rfl, by decide +kernel⟩ 0 .mA0To20 .S7 54#16 rfl (by simp) rfl (by decide)

example := C54_step_partial _ _ _ exAo_create exAoChannels rfl [45#16, 90#16, 0xABCD#16, 7#16]
  [44#16, 90#16, 0xABCD#16, 0#16] rfl ⟨_, rfl, by decide +kernel⟩ 0 .mA0To20 .S7 45#16 rfl (by simp)
  rfl

/-- C55 and C107: the words of the analog module alone, for all times. -/
def exAlone (n : Nat) : List Word :=
  [BitVec.ofNat 16 (5548 - min n 5), BitVec.ofNat 16 (8 - min n 2), 0xABCD#16, 0#16]

theorem exAlone_recoded (n : Nat) : Recoded (.ao exAo) (exAlone n) (exAlone (n + 1)) := by
  have h5 : ∀ n, 5 ≤ n → exAlone n = exAlone 5 := by
    intro n hn
    unfold exAlone
    rw [Nat.min_eq_right hn, Nat.min_eq_right (by omega : 2 ≤ n)]
    rfl
  by_cases hn : 5 ≤ n
  · rw [h5 n hn, h5 (n + 1) (by omega)]
    exact ⟨_, rfl, by decide +kernel⟩
  · obtain h | h | h | h | h : n = 0 ∨ n = 1 ∨ n = 2 ∨ n = 3 ∨ n = 4 := by omega
    all_goals (subst h; exact ⟨_, rfl, by decide +kernel⟩)

example (n : Nat) := C55_drift _ _ _ exAo_create exAoChannels rfl exAlone rfl exAlone_recoded 0
  .mA0To20 .S7 rfl (by simp) 5548#16 rfl n

example := C107_settles _ _ _ exAo_create exAoChannels rfl exAlone rfl exAlone_recoded 0
  .mA0To20 .S7 rfl (by simp) 5548#16 rfl

example (n : Nat) := C55_cycles true exAoCfg exHeldRun (fun _ => []) exHeld (exAo_reachable [])
  1 (exAo_disjoint 1) exHeldRun_next (.ao exAo) ⟨none, some 0x8010#16⟩ ⟨rfl, rfl⟩ exAoChannels rfl
  0x8010#16 rfl rfl 0 .mA0To20 .S7 rfl (by simp) rfl 5548#16 rfl n

/-- C58, C59, C63: the serial module of the example coupler. -/
example := C58_outputs_partial true exCfg _ exCfg_new 3 .EightBytes _ _ exCfg_serial exCfg_only
  [.next exPi [0#16, 0x0110#16, 0x0041#16, 0#16, 0#16], .write 3 [1#8]]
  ⟨(fun _ _ h => by cases h; exact ⟨_, rfl⟩), (fun _ _ h => by cases h), trivial⟩
  exPi [0#16, 0x0108#16, 0x0042#16, 0#16, 0#16] _ _ rfl

example := C59_inputs true exCfg _ (exCfg_reach [.write 3 [1#8]]) 3 .EightBytes _ _ exCfg_serial
  [0#16, 0x0101#16, 0x0041#16, 0#16, 0#16] exPo _ _ rfl

example := C63_own_calls true exTwo _ exTwo_new 0 .EightBytes _ _ exTwo_serial.1
  [.next exTwoPi exTwoPi, .write 1 [9#8], .next exTwoPi exTwoPi, .write 0 [1#8, 2#8]]
  ⟨(fun _ _ h => by cases h; exact ⟨_, rfl⟩), (fun _ _ h => by cases h), (fun _ _ h => by cases h; exact ⟨_, rfl⟩),
    (fun _ _ h => by cases h), trivial⟩

/-- C62: for every list of events of the example plant. -/
example (evs : List PEv) := C62_transmit true exCfg 3 .EightBytes _ _ exPlant exPlant_initial evs

example (evs : List PEv) := C62_receive true exCfg 3 .EightBytes _ _ exPlant exPlant_initial evs

/-- C67: a value for an analog channel, and a channel switched off. -/
example : ∃ img : List Word, ((runC true (initial exAoCfg exAoModules)
    [.setOutput ⟨1, 0⟩ (.decimal32 (.fin 10)), .setOutput ⟨1, 1⟩ .disabled]).next true [] exAoPo).2 =
      .ok img ∧ (∃ w' : Word, img[1]? = some w' ∧ EncodedAs (.mA0To20, .S7) (.fin 10) w'.toInt) ∧
      img[2]? = some 0#16 := by
  have h : ((runC true (initial exAoCfg exAoModules)
    [.setOutput ⟨1, 0⟩ (.decimal32 (.fin 10)), .setOutput ⟨1, 1⟩ .disabled]).next true [] exAoPo).2 =
    .ok [3#16, 0x3600#16, 0#16, 0xABCD#16, 0#16] := by decide +kernel
  refine ⟨_, h, ?_, ?_⟩
  · exact (C67_analog_write true exAoCfg _ (exAo_reachable [.setOutput ⟨1, 0⟩ (.decimal32 (.fin 10)),
      .setOutput ⟨1, 1⟩ .disabled]) 1 (exAo_disjoint 1) [] exAoPo
      [3#16, 0x3600#16, 0#16, 0xABCD#16, 0#16] _ (Prod.ext rfl h) (.ao exAo)
      ⟨none, some 0x8010#16⟩ ⟨rfl, rfl⟩ exAoChannels rfl 0x8010#16 rfl rfl 0 _ rfl).1 _ rfl
  · exact (C67_analog_write true exAoCfg _ (exAo_reachable [.setOutput ⟨1, 0⟩ (.decimal32 (.fin 10)),
      .setOutput ⟨1, 1⟩ .disabled]) 1 (exAo_disjoint 1) [] exAoPo
      [3#16, 0x3600#16, 0#16, 0xABCD#16, 0#16] _ (Prod.ext rfl h) (.ao exAo)
      ⟨none, some 0x8010#16⟩ ⟨rfl, rfl⟩ exAoChannels rfl 0x8010#16 rfl rfl 1 _ rfl).2 rfl

/-- C68: no value is pending. -/
theorem exCfg_encodable : Encodable exCfg (initial exCfg exModules).write exPo := by
  constructor
  · intro j t par o i ch v h hn hw
    cases hw
  · intro j t par o i ch us h hn ht
    rcases exCfg_at h with ⟨rfl, rfl, rfl, rfl, rfl⟩ | ⟨rfl, rfl, rfl, rfl, rfl⟩ |
      ⟨rfl, rfl, rfl, rfl, rfl⟩ | ⟨rfl, rfl, rfl, rfl, rfl⟩ <;> cases ht

example : ∃ c' img, (initial exCfg exModules).next true exPi exPo = (c', .ok img) ∧
    img.length = 5 :=
  C68_success true exCfg _ (exCfg_reach []) exPi exPo ex_complete exCfg_encodable

/-- C69, in both directions. -/
example : Encodable exCfg
    (runC true (initial exCfg exModules) [.setOutput ⟨0, 2⟩ (.bit true)]).write exPo :=
  ((C69_success_iff true exCfg _ (exCfg_reach [.setOutput ⟨0, 2⟩ (.bit true)]) exPi exPo).1
    ⟨_, rfl⟩).2

example : ¬ Encodable exCfg
    (runC true (initial exCfg exModules) [.setOutput ⟨0, 2⟩ (.bytes [])]).write exPo := fun h => by
  obtain ⟨img, hi⟩ := (C69_success_iff true exCfg _
    (exCfg_reach [.setOutput ⟨0, 2⟩ (.bytes [])]) exPi exPo).2 ⟨ex_complete, h⟩
  cases hi

/-- C74, C75: a module of each direction. -/
example := C74_inputs .UR20_4DI_P (List.replicate 4 0) _ rfl [0xFF0D#16]

example := C74_outputs .UR20_4DO_P (List.replicate 4 0) _ rfl []

example := C75_outputs .UR20_4DO_P (List.replicate 4 0) _ rfl (by decide) (by decide)
  [.bit true, .none, .bit false, .bit true]

end Ur20.Instances
