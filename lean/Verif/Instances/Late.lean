import Verif.Props.Power
import Verif.Props.PowerNet
import Verif.Props.Isolation
import Verif.Props.Late
import Verif.Props.LatePlant
import Verif.Props.LateOutputs
import Verif.Props.LateCable
import Verif.Props.LateWire
import Verif.Props.LateRestart

/-!
Concrete cases for the theorems on a module that loses power (C123, C124), on a process that does not
disturb a module (C126) and on images that arrive late (C129 to C133): each theorem is applied to a
written-out configuration and a written-out history, so that its hypotheses are met there.
-/

namespace Ur20.Instances
open Spec Com Coupler
open scoped List

/-! ### A serial module that loses power (C123) -/

theorem exGentle_between : (⟨exSys, none⟩ : PowerSys).BetweenCycles .EightBytes exGentle := by
  simp only [exGentle, PowerSys.BetweenCycles, and_true]
  exact ⟨rfl, rfl⟩

example := C123_loss_partial .EightBytes ((⟨exSys, none⟩ : PowerSys).run .EightBytes (exGentle.take 8))
  (by decide +kernel) 2 1

example : let t := ((⟨exSys, none⟩ : PowerSys).run .EightBytes exTwice).sys
    t.delivered ++ t.p.inData <+ t.seen := C123_receive_order exSys_ready exTwice

example : let t := ((⟨exSys, none⟩ : PowerSys).run .EightBytes exGentle).sys
    t.received ++ t.inFlight ++ t.queued <+ t.written :=
  C123_transmit_partial exSys_ready exGentle exGentle_between

example := C123_recovers_partial exSys_ready exGentle exGentle_between (by decide +kernel)
  (by decide +kernel) 3 (by decide +kernel)

/-! ### A station that loses power (C124) -/

theorem exPower_between :
    (⟨exNet, fun _ => none⟩ : PowerNet).BetweenCycles true exDuo exWires exPowerEvs := by
  simp only [exPowerEvs, PowerNet.BetweenCycles, true_and, and_true]
  decide +kernel

example (j : Nat) (hj : j ∈ exWires.modules) :=
  C124_order true exDuo exWires exNet exNet_initial exPowerEvs exPower_between j hj

example (j : Nat) (hj : j ∈ exWires.modules) :=
  C124_receive_order true exDuo exWires exNet exNet_initial exPowerEvs j hj

example := C124_receive true exDuo exWires exNet exNet_initial exPowerEvs
  (by intro e he; rintro rfl; simp [exPowerEvs] at he) exPower_between 2 (by decide)
  (by
    simp only [exPowerEvs, PowerNet.NewNumbers, true_and, and_true]
    decide +kernel)

example (j : Nat) := C124_loss true exDuo exWires exPowerNet (by decide +kernel) (fun _ => 2) (fun _ => 1) j

example := C124_delivered true exDuo exWires exNet exNet_initial exPowerEvs
  (fun _ _ he => by simp [exPowerEvs] at he) exPower_between

/-! ### A module that does not notice its neighbours (C126) -/

example (c : Ur20.Coupler) (h : Coupler.new exCfg = .ok c) :=
  C126_isolated true true exCfg exCfg c c h h 1 1 (exCfg_disjoint 1) (exCfg_disjoint 1) _ _ _ _ _ _
    (fun _ => .inr (by decide)) ⟨.rfl, fun _ => .inl rfl⟩ ⟨.rfl, fun _ => .inl rfl⟩ ⟨rfl, rfl, rfl, rfl⟩ ⟨rfl, rfl, rfl, rfl⟩ exIsolated
    exUndisturbed (fun _ _ _ h => by cases h) (fun _ _ _ h => by cases h) (exIsolated_view _)

/-! ### Images that arrive late: one processor (C129, C133) -/

def exLateEvs : List LateEv :=
  [.write [1#8, 2#8, 3#8, 4#8, 5#8, 6#8, 7#8], .take, .cycle, .cycle, .sample false true, .arrive, .cycle,
    .loseOut 2, .cycle, .cycle, .loseOut 0, .loseOut 0, .loseOut 0, .loseOut 0]

example := C129_early .EightBytes exLate exLate_initial [.write [1#8], .take, .cycle] (by decide)
example := C129_sent .EightBytes exLate exLate_initial exLateEvs
example := C129_received .EightBytes exLate exLate_initial exLateEvs (by decide +kernel)
example := C129_read .EightBytes exLate exLate_initial exLateEvs (by decide +kernel) (by decide +kernel)
  false true
example := C129_progress .EightBytes exLate exLate_initial exLateEvs (by decide +kernel) (by decide +kernel)
  (List.replicate 5 (false, true)) (by decide +kernel)

example := C133_early .EightBytes exLateRestart exLateRestart_started [.write [1#8], .take, .cycle]
  (by decide)
example := C133_sent .EightBytes exLateRestart exLateRestart_started exLateEvs
example := C133_received .EightBytes exLateRestart exLateRestart_started exLateEvs (by decide +kernel)
example := C133_progress .EightBytes exLateRestart exLateRestart_started exLateEvs (by decide +kernel)
  (by decide +kernel) (List.replicate 5 (false, true)) (by decide +kernel)
example := C133_restarts .EightBytes exLateRestart exLateRestart_started
  [(exLateEvs, false, true), ([.write [9#8], .cycle, .deliver, .take], true, false)]

/-! ### Images that arrive late: a whole coupler (C129, C133) -/

def exLatePlantEvs : List LatePlantEv :=
  [.write [1#8], .cycle, .cycle, .cycle, .loseOut 0, .loseOut 0, .loseOut 0]

theorem exLatePlantEvs_ok : LatePlant.OnlyUndecodable true exCfg exLatePlantEvs :=
  fun _ _ h => by simp [exLatePlantEvs] at h

def exLatePis : List (List Word) := [exPi, exPi.set 1 0x0020#16, exPi.set 1 0x0020#16]

theorem exLatePis_good : LatePlant.GoodRounds true 3 .EightBytes 0x0010#16 0x8010#16
    (exLatePlant.run true 3 .EightBytes 0x0010#16 0x8010#16 exLatePlantEvs) exLatePis :=
  ⟨⟨_, rfl, by decide +kernel⟩, ⟨_, rfl⟩, ⟨_, rfl, by decide +kernel⟩, ⟨_, rfl⟩,
    ⟨_, rfl, by decide +kernel⟩, ⟨_, rfl⟩, trivial⟩

theorem exLatePis_enough : ∀ p, (exLatePlant.run true 3 .EightBytes 0x0010#16 0x8010#16
    exLatePlantEvs).c.processors 3 = some p → 3 + p.outData.length ≤ exLatePis.length := by
  intro p hp
  have h : ((exLatePlant.run true 3 .EightBytes 0x0010#16 0x8010#16
    exLatePlantEvs).c.processors 3).map (·.outData) = some [] := by decide +kernel
  rw [hp] at h
  simp only [Option.map_some, Option.some.injEq] at h
  rw [h]
  decide

example := C129_coupler_early true exCfg 3 .EightBytes _ _ exLatePlant exLatePlant_initial
  [.write [1#8], .cycle] (fun _ _ h => by simp at h) (by decide +kernel)
example := C129_coupler_sent true exCfg 3 .EightBytes _ _ exLatePlant exLatePlant_initial exLatePlantEvs
  exLatePlantEvs_ok
example := C129_coupler_received true exCfg 3 .EightBytes _ _ exLatePlant exLatePlant_initial
  exLatePlantEvs exLatePlantEvs_ok (by decide +kernel)
example := C129_coupler_read true exCfg 3 .EightBytes _ _ exLatePlant exLatePlant_initial
  exLatePlantEvs exLatePlantEvs_ok (by decide +kernel) (by decide +kernel) (by decide +kernel) exPi
  ⟨⟨_, rfl, by decide +kernel⟩, ⟨_, rfl⟩, trivial⟩
example := C129_coupler_progress true exCfg 3 .EightBytes _ _ exLatePlant exLatePlant_initial
  exLatePlantEvs exLatePlantEvs_ok (by decide +kernel) (by decide +kernel) exLatePis exLatePis_good
  exLatePis_enough

example := C133_coupler_early true exCfg 3 .EightBytes _ _ exLatePlant exLatePlant_started
  [.write [1#8], .cycle] (fun _ _ h => by simp at h) (by decide +kernel)
example := C133_coupler_sent true exCfg 3 .EightBytes _ _ exLatePlant exLatePlant_started exLatePlantEvs
  exLatePlantEvs_ok
example := C133_coupler_received true exCfg 3 .EightBytes _ _ exLatePlant exLatePlant_started
  exLatePlantEvs exLatePlantEvs_ok (by decide +kernel)
example := C133_coupler_progress true exCfg 3 .EightBytes _ _ exLatePlant exLatePlant_started
  exLatePlantEvs exLatePlantEvs_ok (by decide +kernel) (by decide +kernel) exLatePis exLatePis_good
  exLatePis_enough
example := C133_coupler_restarts true exCfg 3 .EightBytes _ _ exLatePlant exLatePlant_started
  [([.write [1#8, 2#8], .cycle, .cycle, .cycle, .deliver, .deliver, .deliver], exPi)]
  ⟨fun _ _ h => by simp at h, ⟨_, rfl, by decide +kernel⟩, trivial⟩

/-! ### Outputs that arrive late (C130, C132) -/

theorem exLateOut_ok : ∀ e ∈ exLateOut, LateOut.Admissible true exRelay e := by
  intro e he
  simp only [exLateOut, List.mem_cons, List.not_mem_nil, or_false] at he
  rcases he with rfl | rfl | rfl | rfl | rfl | rfl | rfl <;> trivial

example (c : Ur20.Coupler) (h : Coupler.new exRelay = .ok c) :
    let s := (LateOut.start c [0#16]).run true exLateOut
    (s.run true (.cycle [] :: List.replicate (s.outs.length + 1) .deliver)).out = (s.calls, [2#16]) :=
  C130_arrives true c [0#16] exLateOut [] [2#16] (by
    obtain ⟨d, hd⟩ : ∃ d, Coupler.new exRelay = .ok d := ⟨_, rfl⟩
    cases h.symm.trans hd
    cases hd
    rfl)

example (c : Ur20.Coupler) (h : Coupler.new exAo1Cfg = .ok c) :=
  C130_analog true exAo1Cfg c h 0 (exAo1_disjoint 0) .UR20_4AO_UI_16 _ 0x8000#16 _ ⟨rfl, rfl, rfl, rfl⟩
    (by decide) (by decide) 0 (by decide) .mA0To20 .S7 ⟨⟨_, rfl, rfl⟩, ⟨_, rfl, rfl⟩⟩ (by decide)
    [45#16, 0#16, 0#16, 0#16]
    [.call (.setOutput ⟨0, 0⟩ (.decimal32 (.fin (4110 / 1024)))), .cycle [], .cycle [], .lose 1, .deliver]
    (by
      intro e he
      simp only [List.mem_cons, List.not_mem_nil, or_false] at he
      rcases he with rfl | rfl | rfl | rfl | rfl <;> trivial)
    45#16 rfl

theorem exLateWire_ok : ∀ e ∈ exLateWire ++ [.sample [4#16]], LateWire.Admissible true exRelay e := by
  intro e he
  simp only [exLateWire, List.cons_append, List.nil_append, List.mem_cons, List.not_mem_nil, or_false] at he
  rcases he with rfl | rfl | rfl | rfl | rfl | rfl | rfl <;> trivial

example (c d : Ur20.Coupler) (h : Coupler.new exDiCfg = .ok d) (x : Sampled)
    (hx : ((LateWire.start c d [0#16]).run true (LateWire.bitWire 1 2) exLateWire).seen = some x) :=
  C132_order true (LateWire.bitWire 1 2) exRelay exDiCfg c d h [0#16] exLateWire [.sample [4#16]] exLateWire_ok x hx

/-! ### Two stations whose images arrive late (C131) -/

example := C131_both true exLateCable exLateLink exLateLink_initial exLateSched exLateSched_ok.1
example := C131_contiguous true exLateCable exLateLink exLateLink_initial exLateSched exLateSched_ok.1
example := C131_exactly_once true exLateCable exLateLink exLateLink_initial exLateSched exLateSched_ok.1
  exLateSched_ok.2

end Ur20.Instances
