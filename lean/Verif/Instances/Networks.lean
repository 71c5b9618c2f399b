import Verif.Instances.Cycles
import Verif.Props.Network
import Verif.Props.FloatBits
import Verif.Props.Settings
import Verif.Props.Imperative
import Verif.Props.Processor
import Verif.Props.Account
import Verif.Props.Interleaving
import Verif.Props.Noninterference
import Verif.Props.Memory
import Verif.Props.Setup
import Verif.Props.Edited
import Verif.Props.Alone

/-!
# Instances: stations with lost images and crashes, several serial modules, accounts and views

Each example applies a theorem to a concrete case; its hypotheses are proved there.
-/

namespace Ur20.Instances

open Spec Com Coupler

/-- C89: the example plant with every schedule; a schedule without crashes; one without failures. -/
example (evs : List UPEv) := C89_order_partial true exCfg 3 .EightBytes _ _ exPlant exPlant_initial evs

theorem exBefore_calm : NoCrashes (exBefore.map .ev ++ [.failing exPi, .ev (.start exPi), .lost]) := by
  intro e he
  simp [exBefore] at he
  rcases he with rfl | rfl | rfl | rfl | rfl | rfl | rfl | rfl | rfl <;> simp

example := C89_receive_partial true exCfg 3 .EightBytes _ _ exPlant exPlant_initial _ exBefore_calm

example := C89_undecodable_partial true exCfg 3 .EightBytes _ _ exPlant exPlant_initial
  (exBefore.map .ev) (by simp [exBefore, Plant.OnlyUndecodable])

/-- C90: seven bytes are written after the initialisation and arrive in three rounds. -/
def exWrote : List UPEv := (exBefore.take 5).map .ev

theorem exWrote_run : exPlant.urun true exCfg 3 .EightBytes 0x0010#16 0x8010#16 exWrote =
    exPlant.run true 3 .EightBytes 0x0010#16 0x8010#16 (exBefore.take 5) := by
  have := plant_urun_ev (oc := true) (cfg := exCfg) (j := 3) (len := .EightBytes) (oi := 0x0010#16)
    (oo := 0x8010#16) exPlant (exBefore.take 5) []
  rwa [List.append_nil] at this

theorem exWrote_accepted : AcceptedValues exCfg exWrote := by
  intro a v h
  simp [exWrote, exBefore] at h

theorem exWrote_out :
    (exPlant.run true 3 .EightBytes 0x0010#16 0x8010#16 (exBefore.take 5)).out = exImage := by
  decide +kernel

def exWroteInputs : List (List Word) :=
  [[0#16, 0#16, 0#16, 0#16, 0#16], [0#16, 0x0020#16, 0#16, 0#16, 0#16],
    [0#16, 0x0040#16, 0#16, 0#16, 0#16]]

theorem exWrote_inputs :
    (exPlant.run true 3 .EightBytes 0x0010#16 0x8010#16 (exBefore.take 5)).GoodInputs
      true exCfg 3 .EightBytes 0x0010#16 0x8010#16 exWroteInputs :=
  ⟨exInput_ready _ (by simp), ⟨_, rfl, by decide +kernel⟩,
    exInput_ready _ (by simp), ⟨_, rfl, by decide +kernel⟩, exInput_ready _ (by simp),
    ⟨_, rfl, by decide +kernel⟩, trivial⟩

example : ((exPlant.run true 3 .EightBytes 0x0010#16 0x8010#16 (exBefore.take 5)).rounds true 3
      .EightBytes 0x0010#16 0x8010#16 exWroteInputs).received =
    [1#8, 2#8, 3#8, 4#8, 5#8, 6#8, 7#8] := by
  have h := C90_recovers true exCfg 3 .EightBytes _ _ exPlant exPlant_initial exWrote
    exWrote_accepted
  rw [exWrote_run] at h
  rw [h (by decide +kernel) (by rw [exWrote_out]; exact exImage_ready) (by decide +kernel) _
    exWrote_inputs (by decide +kernel)]
  decide +kernel

/-- C91: the first of these cycles acknowledges. -/
example : ((exPlant.run true 3 .EightBytes 0x0010#16 0x8010#16 (exBefore.take 5)).run true 3
    .EightBytes 0x0010#16 0x8010#16 [.start [0#16, 0#16, 0#16, 0#16, 0#16], .finish]).Acknowledged
      .EightBytes 0x8010#16 := by
  have h := C91_acknowledged true exCfg 3 .EightBytes _ _ exPlant exPlant_initial
    exWrote exWrote_accepted
  rw [exWrote_run] at h
  exact h (by decide +kernel) (by rw [exWrote_out]; exact exImage_ready) _
    ⟨false, false, 0, 0, false, []⟩ (exInput_ready _ (by simp)) (by decide) (by decide +kernel)

/-- C92, C93: every schedule with values that are set, and the schedules of the examples. -/
example (evs : List SPEv) := C92_order true exCfg 3 .EightBytes _ _ exPlant exPlant_initial evs

example (evs : List SPEv) := C93_order true exCfg 3 .EightBytes _ _ exPlant exPlant_initial evs

example := C92_exactly_once true exCfg 3 .EightBytes _ _ exPlant exPlant_initial
  (exSends ++ exSends2) (by simp [exSends, exSends2, Sending.OnlyUndecodable])

theorem exAgain_calm : NoCrashesS exAgain := by
  intro e he
  simp only [exAgain, List.mem_map] at he
  obtain ⟨x, -, rfl⟩ := he
  simp

example := C92_receive true exCfg 3 .EightBytes _ _ exPlant exPlant_initial exAgain exAgain_calm

example := C93_since_restart true exCfg 3 .EightBytes _ _ exPlant exPlant_initial exRestarted exAgain
  exAgain_calm

/-- C94: the two zeros. -/
example : FB.analogUiValueToU16 ⟨0#32⟩ .VMinus10To10 .S7 =
    FB.analogUiValueToU16 ⟨0x80000000#32⟩ .VMinus10To10 .S7 :=
  C94_equal _ _ _ _ (.inl (by decide +kernel))

/-- C95: two serial modules. -/
example (evs : List NEv) := C95_order true exDuo exWires exNet exNet_initial evs 2 (by decide)

example (evs : List NEv) := C95_receive_order true exDuo exWires exNet exNet_initial evs 2 (by decide)

example := C95_exactly_once true exDuo exWires exNet exNet_initial exDuoEvs
  (by simp [exDuoEvs, Net.OnlyUndecodable]) 2 (by decide)

theorem exDuoEvs_calm : NoCrashesN exDuoEvs := by
  intro e he
  rintro rfl; simp [exDuoEvs] at he

example := C95_receive true exDuo exWires exNet exNet_initial exDuoEvs exDuoEvs_calm 2 (by decide)

example := C95_since_restart true exDuo exWires exNet exNet_initial exDuoEvs exDuoEvs exDuoEvs_calm 2
  (by decide)

/-- C96: words for given settings. -/
example : Module.create .UR20_1COM_232_485_422 [1, 2, 7, 0, 1, 2, 1, 1, 17, 19] = .ok exSettings :=
  (C96_configures .UR20_1COM_232_485_422 _ rfl exSettings rfl [1, 2, 7, 0, 1, 2, 1, 1, 17, 19]
    ⟨rfl, by
      intro i P w hP hw
      match i with
      | 0 | 1 | 2 | 3 | 4 | 5 | 6 | 7 | 8 | 9 => cases hP; cases hw; rfl
      | i + 10 => cases hP⟩).2

/-- C97: forwards and backwards. -/
example : ∃ c, Imp.new exTwo = .ok c ∧
    Imp.trace true (fun _ => exForward) 0 c exHistory =
      Imp.trace true (fun _ => exBackward) 0 c exHistory :=
  ⟨_, rfl, C97_deterministic true exTwo rfl _ _ exHistory⟩

/-- C98: the history of the processor. -/
theorem exDirect_small : ∀ i o, Op.next i o ∈ exDirect → i.rxCnt < 4 := by
  intro i o h
  simp only [exDirect, List.mem_cons, Op.next.injEq, List.not_mem_nil, or_false, reduceCtorEq,
    false_or] at h
  rcases h with h | h | h | h | h <;> obtain ⟨rfl, rfl⟩ := h <;> decide

example := C98_received .EightBytes exDirect exDirect_small

example := C98_repeated .EightBytes exDirect (by decide) ⟨true, false, 2, 0, true, [14]⟩ exOut

example : ImpCom.next true 64 (runOps (MessageProcessor.new .EightBytes) exDirect)
    ⟨true, false, 2, 2 ^ 64 - 1, false, []⟩ exOut = .panic :=
  (C98_panics true 64 (by decide) .EightBytes exDirect ⟨true, false, 2, 2 ^ 64 - 1, false, []⟩ exOut
    (by decide)).2 ⟨rfl, by decide, by decide, rfl⟩

example := C98_cycle true 64 (by decide) (runOps (MessageProcessor.new .EightBytes) exDirect)
    ⟨true, false, 2, 3, false, []⟩ exOut (by decide)

/-- C99: what is accepted. -/
example : ((runC true (initial exCfg exModules) [.write 3 [1#8]]).writeBytes 3 [2#8, 3#8]).2 =
    some 2 :=
  (C99_accepted true exCfg _ (exCfg_reach [.write 3 [1#8]]) 3 [2#8, 3#8]).1 rfl

/-- C100: two orders of the same calls. -/
theorem exOrder_interleaved : Interleaved exOrder exOrder' := by
  intro t
  simp only [exOrder, exOrder', List.filter_cons, List.filter_nil, COp.concerns, COp.target]
  cases t with
  | channel a =>
    by_cases h1 : (⟨0, 1⟩ : Address) = a
    · subst h1
      simp
    · by_cases h2 : (⟨1, 2⟩ : Address) = a
      · subst h2
        simp
      · simp [h1, h2]
  | received n => simp
  | sent n => by_cases h : 3 = n <;> simp [h]

example : runC true (initial exCfg exModules) exOrder = runC true (initial exCfg exModules) exOrder' :=
  (C100_interleaving true (initial exCfg exModules) exOrder exOrder' exOrder_interleaved).1

/-- C102: pending values and buffered bytes. -/
example := C102_pending true exCfg _ (exCfg_reach [.setOutput ⟨1, 7⟩ (.bit true)])

/-- C103: the station with two modules. -/
example : ∃ c, setup true exStation 2 = .ok c ∧ c.modules = exSlots.map (·.settings) := by
  obtain ⟨c, h1, h2, -⟩ := (C103_setup true exStation 2 (by decide) (by decide)).2 exSlots rfl
    exSlots_station
  exact ⟨c, h1, h2⟩

end Ur20.Instances
