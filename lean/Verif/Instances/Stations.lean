import Verif.Instances.Networks
import Verif.Props.Runs
import Verif.Props.Pending
import Verif.Props.AnalogHeld
import Verif.Props.Conversions
import Verif.Props.Wiring
import Verif.Props.CableRestart
import Verif.Props.Settable
import Verif.Props.WriteBack
import Verif.Props.Builds
import Verif.Props.Packing
import Verif.Props.Frequency
import Verif.Props.Extension

/-!
# Instances: placement, lost transfers, wires, cables, packing and extension

Each example applies a theorem to a concrete case; its hypotheses are proved there.
-/

namespace Ur20.Instances

open Spec Com Coupler

theorem exOther_succeeds : CyclesSucceed true (initial exCfg exModules) exOther := by
  refine ⟨?_, ?_, ?_, ?_, trivial⟩ <;> intro pi po h <;> cases h
  exact ⟨_, rfl⟩

/-- C101 and C108: the same calls seen twice, and the same module at the same place twice. -/
example := C101_noninterference true exCfg _ exCfg_new 1 (exCfg_disjoint 1) .UR20_8DO_P
  (List.replicate 8 0) 0x8008#16 0xFFFF#16 (fun _ => .inr rfl) ⟨rfl, rfl, rfl, rfl⟩ exOther exOther
  exOther_succeeds exOther_succeeds rfl

example := C108_alone true exCfg _ exCfg_new 1 (exCfg_disjoint 1) .UR20_8DO_P (List.replicate 8 0)
  0x8008#16 0xFFFF#16 ⟨rfl, rfl, rfl, rfl⟩ (fun h => absurd rfl h) (fun _ => .inr rfl) exOther
  exOther_succeeds

/-- C109: a station whose cycles all work with images of zeros, and one whose cycles never work. -/
example : ∃ c img, Coupler.new exHigh = .ok c ∧
    (c.next true (List.replicate 5000 0#16) (List.replicate 5000 0#16)).2 = .ok img := by
  obtain ⟨c, hc⟩ : ∃ c, Coupler.new exHigh = .ok c := ⟨_, rfl⟩
  obtain ⟨img, h⟩ := C109_runs true exHigh c ⟨c, [], hc, rfl⟩ exHigh_placed (by
    intro j t par o i ch v _ _ hw
    rw [((C13_success exHigh).2 c hc).2.2.2.2.2 _] at hw
    cases hw) 5000 5000 (by decide) (by decide)
  exact ⟨c, img, hc, h⟩

example : ∃ c, Coupler.new exLow = .ok c ∧ ∀ pi po img, (c.next true pi po).2 ≠ .ok img := by
  obtain ⟨c, hc⟩ := exLow_new
  refine ⟨c, hc, C109_never true exLow c ⟨c, [], hc, rfl⟩ fun h => ?_⟩
  have := ((h 0 _ _ _ _ ⟨rfl, rfl, rfl, rfl⟩).2 (by decide)).2.1
  revert this
  decide

/-- C110: the relay module after a cycle without images. -/
def exKept : List COp := [.setOutput ⟨0, 1⟩ (.bit true), .next [] []]

theorem exKept_waiting : waiting exRelay exKept ⟨0, 1⟩ = some (.bit true) := by
  simp only [exKept, waiting, waitingFor]
  rw [if_neg fun h => exRelay_undecodable h.1, if_pos ⟨rfl, _, rfl, by decide⟩]

example : ∃ c0 img, Coupler.new exRelay = .ok c0 ∧
    ((runC true c0 exKept).next true [] [0#16]).2 = .ok img ∧
    OutputWritten .UR20_4RO_CO_255 [0, 0, 0, 0] [0#16] img 0 1 (some (.bit true)) := by
  obtain ⟨c0, h0, himg⟩ : ∃ c0, Coupler.new exRelay = .ok c0 ∧
      ((runC true c0 exKept).next true [] [0#16]).2 = .ok [2#16] := ⟨_, rfl, rfl⟩
  have h := C110_image true exRelay c0 h0 exKept (fun _ _ _ h => by cases h) 0
    (exRelay_disjoint 0) [] [0#16] _ himg .UR20_4RO_CO_255 _ 0x8000#16 0xFFFF#16 ⟨rfl, rfl, rfl, rfl⟩ (by decide) (by decide)
    (.inr rfl) 1 (by decide)
  rw [exKept_waiting] at h
  exact ⟨c0, _, h0, himg, h⟩

/-- C111: a transfer that does not arrive, in both ways of going on. -/
example : ∃ c0 c last device, Coupler.new exRelay = .ok c0 ∧
    transfers true true c0 [0#16] [0#16] exLost = some (c, last, device) ∧
    (Settled .UR20_4RO_CO_255 [0, 0, 0, 0] [0#16] 0 1 (.bit false) →
      Settled .UR20_4RO_CO_255 [0, 0, 0, 0] device 0 1 (.bit false)) := by
  obtain ⟨c0, c, last, device, h0, h⟩ : ∃ c0 c last device, Coupler.new exRelay = .ok c0 ∧
    transfers true true c0 [0#16] [0#16] exLost = some (c, last, device) := ⟨_, _, _, _, rfl, rfl⟩
  exact ⟨c0, c, last, device, h0, h, (C111_read_back_partial true exRelay c0 h0 0 (exRelay_disjoint 0)
    .UR20_4RO_CO_255 _ 0x8000#16 0xFFFF#16 ⟨rfl, rfl, rfl, rfl⟩ (by decide) (by decide) (.inr rfl) 1
    (by decide) exLost exLost_calls _ _ _ _ h).2 rfl _⟩

example : ∃ c0 c last device, Coupler.new exRelay = .ok c0 ∧
    transfers true false c0 [0#16] [0#16] exLost = some (c, last, device) ∧
    Settled .UR20_4RO_CO_255 [0, 0, 0, 0] device 0 1 (.bit true) := by
  obtain ⟨c0, c, last, device, h0, h⟩ : ∃ c0 c last device, Coupler.new exRelay = .ok c0 ∧
    transfers true false c0 [0#16] [0#16] exLost = some (c, last, device) := ⟨_, _, _, _, rfl, rfl⟩
  exact ⟨c0, c, last, device, h0, h, (C111_returned_partial true exRelay c0 h0 0 (exRelay_disjoint 0)
    .UR20_4RO_CO_255 _ 0x8000#16 0xFFFF#16 ⟨rfl, rfl, rfl, rfl⟩ (by decide) (by decide) (.inr rfl) 1
    (by decide) [⟨[.setOutput ⟨0, 1⟩ (.bit true)], [], false⟩] ⟨[], [], true⟩ exLost_calls rfl
    _ _ _ _ h).1 _ rfl⟩

/-- C99, C102: the account of the serial module. -/
theorem exAccount_returns : DecodedReturn true exCfg (initial exCfg exModules) exAccount := by
  simp only [exAccount, DecodedReturn, COp.next.injEq, reduceCtorEq, false_imp_iff, implies_true,
    true_and, and_true, and_imp]
  refine ⟨?_, ?_, ?_, ?_, ?_⟩
  · rintro pi po rfl rfl h
    exact absurd h exFrame_fails
  all_goals
    rintro pi po rfl rfl -
    exact ⟨_, rfl⟩

example := C99_sent true exCfg _ exCfg_new 3 (List.replicate 10 0) 0x8010#16 0x10#16
  ⟨rfl, rfl, rfl, rfl⟩ (by decide) (by decide) (by decide) exAccount (fun _ _ _ h => by cases h)
  (exCfg_disjoint 3) exAccount_returns

example (ops : List COp) := C99_sent_once true exCfg _ exCfg_new 3 (List.replicate 10 0) 0x8010#16
  0x10#16 ⟨rfl, rfl, rfl, rfl⟩ (by decide) (by decide) (by decide) ops (fun _ _ _ h => by cases h)
  (exCfg_disjoint 3)

example := C102_prompt true exCfg _ exCfg_new 3 (List.replicate 10 0) 0x8010#16
  0x10#16 ⟨rfl, rfl, rfl, rfl⟩ (by decide) (by decide) (by decide) exPrompt (fun _ _ _ h => by cases h)
  ⟨rfl, rfl, rfl, trivial⟩

example (ops : List COp) := C102_received true exCfg _ exCfg_new 3 (List.replicate 10 0) 0x8010#16
  0x10#16 ⟨rfl, rfl, rfl, rfl⟩ (by decide) (by decide) (by decide) ops (.next exFramePi exPo)
  (fun _ _ _ h => by cases h)

/-- C110: a pending value of the wrong kind is the first fault. -/
example := (C110_error true exCfg _ exCfg_new [.setOutput ⟨1, 2⟩ (.bytes [])]
  (fun _ _ _ h => by cases h) exPi exPo (fun h => by cases h) (fun h => by cases h) .channelValue).1 rfl

/-- C110: two histories that leave the same pending values. -/
example : ∃ c0, Coupler.new exRelay = .ok c0 ∧ ∀ pi po,
    ((runC true c0 [.setOutput ⟨0, 1⟩ (.bit true)]).next true pi po).2 =
      ((runC true c0 [.setOutput ⟨0, 1⟩ (.bit false), .setOutput ⟨0, 1⟩ (.bit true)]).next true
        pi po).2 := by
  obtain ⟨c0, h0⟩ : ∃ c0, Coupler.new exRelay = .ok c0 := ⟨_, rfl⟩
  refine ⟨c0, h0, fun pi po => (C110_memory true exRelay c0 h0 _ (fun _ _ _ h => by cases h) _
    (fun _ _ _ h => by cases h) ?_ ?_ pi po).1⟩
  · intro n
    match n with
    | 0 => decide
    | n + 1 => simp [exRelay]
  · funext a
    by_cases h : (⟨0, 1⟩ : Address) = a ∧ ChannelExists exRelay a <;> simp [waiting, waitingFor, h]

/-- C111, C112 for an analog output: the value is set, a later one does not arrive. -/
example : ∃ (c : Coupler) (last device : List Word),
    transfers true true (initial exAoCfg exAoModules) [3#16, 45#16, 90#16, 0xABCD#16, 0#16]
      [3#16, 45#16, 90#16, 0xABCD#16, 0#16]
      [⟨[.setOutput ⟨1, 0⟩ (.decimal32 (.fin (4110 / 1024)))], [], true⟩,
       ⟨[.setOutput ⟨1, 0⟩ (.decimal32 (.fin 6))], [], false⟩, ⟨[], [], true⟩] =
        some (c, last, device) ∧
    ∃ (w : Word) (e : ℤ), device[1]? = some w ∧ |w.toInt - e| ≤ 5 := by
  have h : (transfers true true (initial exAoCfg exAoModules) [3#16, 45#16, 90#16, 0xABCD#16, 0#16]
      [3#16, 45#16, 90#16, 0xABCD#16, 0#16]
      [⟨[.setOutput ⟨1, 0⟩ (.decimal32 (.fin (4110 / 1024)))], [], true⟩,
       ⟨[.setOutput ⟨1, 0⟩ (.decimal32 (.fin 6))], [], false⟩, ⟨[], [], true⟩]).isSome = true := by
    decide +kernel
  obtain ⟨⟨c, last, device⟩, h⟩ := Option.isSome_iff_exists.1 h
  obtain ⟨w, e, h1, -, h2⟩ := (C111_read_back_analog_partial true exAoCfg _ exAoCfg_new
    1 (exAoCfg_disjoint 1) .UR20_4AO_UI_16 exAoParams 0x8010#16 0xFFFF#16 ⟨rfl, rfl, rfl, rfl⟩ (by decide)
    (by decide) 0 (by decide) .mA0To20 .S7 ⟨⟨_, rfl, rfl⟩, ⟨_, rfl, rfl⟩⟩ (by simp) _
    (by simp [COp.IsCall]) _ c last device h 45#16 rfl).1 _ rfl
  exact ⟨c, last, device, h, w, e, h1, h2⟩

example : ∃ (c : Coupler) (last device : List Word),
    transfers true false (initial exAoCfg exAoModules) [3#16, 45#16, 90#16, 0xABCD#16, 0#16]
      [3#16, 45#16, 90#16, 0xABCD#16, 0#16]
      ([⟨[.setOutput ⟨1, 0⟩ (.decimal32 (.fin (4110 / 1024)))], [], false⟩] ++ [⟨[], [], true⟩]) =
        some (c, last, device) ∧
    ∃ (w : Word) (e : ℤ), device[1]? = some w ∧ |w.toInt - e| ≤ 5 := by
  have h : (transfers true false (initial exAoCfg exAoModules)
      [3#16, 45#16, 90#16, 0xABCD#16, 0#16] [3#16, 45#16, 90#16, 0xABCD#16, 0#16]
      ([⟨[.setOutput ⟨1, 0⟩ (.decimal32 (.fin (4110 / 1024)))], [], false⟩] ++
        [⟨[], [], true⟩])).isSome = true := by
    decide +kernel
  obtain ⟨⟨c, last, device⟩, h⟩ := Option.isSome_iff_exists.1 h
  obtain ⟨w, e, h1, -, h2⟩ := (C111_returned_analog_partial true exAoCfg _ exAoCfg_new
    1 (exAoCfg_disjoint 1) .UR20_4AO_UI_16 exAoParams 0x8010#16 0xFFFF#16 ⟨rfl, rfl, rfl, rfl⟩ (by decide)
    (by decide) 0 (by decide) .mA0To20 .S7 ⟨⟨_, rfl, rfl⟩, ⟨_, rfl, rfl⟩⟩ (by simp) _ _
    (by simp [COp.IsCall]) rfl _ c last device h 45#16 rfl).1 _ rfl
  exact ⟨c, last, device, h, w, e, h1, h2⟩

/-- C113: the counter of the mixed coupler. -/
example : ∃ c' vs x, exMix.next true exMixPi exMixPo = (c', .ok exMixImg) ∧
    c'.inputs[2]? = some vs ∧ vs[1]? = some (.ofFcntIn x) := by
  obtain ⟨c', h⟩ := exMix_next
  obtain ⟨vs, x, dh, dl, nh, nl, s, h1, h2, -⟩ := C113_counter true exMixCfg exMix exMix_reachable
    _ _ _ _ h 2 [0#16, 0#16] 0x8050#16 0#16 ⟨rfl, rfl, rfl, rfl⟩ (by decide) (by decide) 1 (by decide)
  exact ⟨c', vs, x, h, h1, h2⟩

example := C113_written true exMixCfg exMix exMix_reachable 2 (exMix_disjoint 2) [0#16, 0#16] 0x8050#16
  0#16 ⟨rfl, rfl, rfl, rfl⟩ (by decide) (by decide) 1 (by decide) ⟨70000000, some .start⟩

/-- C114: output 2 of the first module is wired to input 3 of the third module. -/
example : ∃ (c' d' : Coupler) (img img' : List Word) (vs : List ChannelValue),
    ((initial exCfg exModules).setOutput ⟨0, 2⟩ (.bit true)).1.next true exPi exPo = (c', .ok img) ∧
    (initial exCfg exModules).next true [8#16, 0#16, 0#16, 0#16, 0#16] exPo = (d', .ok img') ∧
    d'.inputs[2]? = some vs ∧ vs[3]? = some (.bit true) := by
  obtain ⟨vs, h1, h2⟩ := C114_digital true exCfg exCfg _ _ (exCfg_reach []) (exCfg_reach [])
    0 (exCfg_disjoint 0) .UR20_4DO_P (List.replicate 4 0) 0x8000#16 0xFFFF#16 ⟨rfl, rfl, rfl, rfl⟩
    (by decide) (.inr rfl) 2 (by decide) 2 .UR20_4DI_P (List.replicate 4 0) 0xFFFF#16 0#16
    ⟨rfl, rfl, rfl, rfl⟩ (.inl rfl) (by decide) 3 (by decide) true exPi exPo _ _ rfl
    [8#16, 0#16, 0#16, 0#16, 0#16] exPo _ _ rfl (by decide) (by decide)
  exact ⟨_, _, _, _, vs, rfl, rfl, h1, h2⟩

/-- C115: two couplers with a cable. -/
example (evs : List LEv) (he : SecondLives evs) := C115_order true exCable exLink exLink_initial evs he

theorem exLinkEvs_lives : SecondLives exLinkEvs := by
  intro e he
  rintro rfl; simp [exLinkEvs] at he

example := C115_exactly_once true exCable exLink exLink_initial exLinkEvs exLinkEvs_lives
  (by simp [exLinkEvs, Link.Careful])

example := C115_both true exCable exLink exLink_initial exLinkEvs (by simp [exLinkEvs])
  (by simp [exLinkEvs])

example := C115_since_restart true exCable exLink exLink_initial exLinkEvs exLinkEvs exLinkEvs_lives

/-- C117: a goal that can be reached, and the image of a cycle. -/
example := C117_settable true exMixCfg exGoal fun j t par pos ch _ => exGoal_settable j t par pos ch

example : Settable .UR20_2FCNT_100 [0#16, 0#16] exMixImg 80 1 := by
  obtain ⟨c', h⟩ := exMix_next
  exact C117_possible true exMixCfg 2 (exMix_disjoint 2) exMix exMix_reachable _ _ _ _ h _ _ _ _
    ⟨0x8050#16, 0#16, ⟨rfl, rfl, rfl, rfl⟩, by decide, by decide, by decide, by decide, by decide⟩

/-- C118: values shown by a cycle. -/
example : ∃ c', exMix.next true exMixPi exMixPo = (c', .ok exMixImg) ∧ ∀ pi' : List Word,
    ((setAll true c' exShownValues).next true pi' exMixPo).2 = (c'.next true pi' exMixPo).2 := by
  obtain ⟨c', h⟩ := exMix_next
  have hv : ∀ e ∈ exShownValues, exMixCfg.modules[e.1.module]? ≠ some .UR20_1COM_232_485_422 ∧
      (((exMix.next true exMixPi exMixPo).1.outputs[e.1.module]?).bind (·[e.1.channel]?)) =
        some e.2 := by decide +kernel
  refine ⟨c', h, fun pi' => (C118_write_back true exMixCfg exMix exMix_reachable _ _ _ _ h
    exShownValues (fun e he => ⟨(hv e he).1, ?_⟩) pi').1⟩
  have := (hv e he).2
  rw [h] at this
  exact Option.bind_eq_some_iff.1 this

/-- C119: a history without overflow. -/
example : trace false (initial exCfg exModules)
      [.setOutput ⟨0, 2⟩ (.bit true), .next exPi exPo, .next [] []] =
    trace true (initial exCfg exModules)
      [.setOutput ⟨0, 2⟩ (.bit true), .next exPi exPo, .next [] []] :=
  C119_tested _ _ (by decide +kernel)

/-- C120: six modules, packed. -/
def exPacked : List (ModuleType × List Word) :=
  [(.UR20_4RO_CO_255, [0, 0, 0, 0]), (.UR20_4DI_P, [0, 0, 0, 0]), (.UR20_4RO_CO_255, [0, 0, 0, 0]),
    (.UR20_16DO_P, []), (.UR20_2FCNT_100, [0, 0]), (.UR20_4DO_P, [0, 0, 0, 0])]

example : DisjointOutputs (packed exPacked) := (C120_packed exPacked (by decide)).2.2.2.1

example := C120_inputs exPacked (by decide) 1000 (by decide)

/-- C121: frequencies. -/
example := C121_compare ⟨some 3000000000, 1000#32, true⟩ ⟨some 2999999125, 1001#32, true⟩ _ _ rfl rfl
  (by decide) (by decide) (by decide) (by decide)

example := C121_nearest ⟨some 3000000000, 1000#32, true⟩ 3 rfl (by decide) (by decide) (by decide)

example : Fcnt.hertz ⟨some 3000000000, 0#32, true⟩ = some (.fin 0) :=
  (C121_zero ⟨some 3000000000, 0#32, true⟩ 3000000000 rfl (by decide) (by decide)).2 rfl

/-- C122: three modules are added behind the first one. -/
example := C122_extended true exFirst exCfg ⟨⟨_, rfl⟩, ⟨_, rfl⟩, ⟨_, rfl⟩⟩ rfl rfl _ exCfg_new

end Ur20.Instances
