import Verif.Instances.Cycles
import Verif.Props.Restarts
import Verif.Props.Outage
import Verif.Props.Conversions
import Verif.Props.Packing
import Verif.Props.Frequency
import Verif.Props.Power
import Verif.Props.Unreliable
import Verif.Props.Source
import Verif.Props.SourceModules
import Verif.Props.AnalogHeld
import Verif.Props.Held

/-!
# Instances: outages, restarts, layouts, counters

Each example applies a theorem to a concrete case; its hypotheses are proved there.
-/

namespace Ur20.Instances

open Spec Com Coupler PowerSys

/-- C112: the second relay is on after lost answers and a crash. -/
example : ∃ c d, Coupler.new exRelay = .ok c ∧
    restarts true exRelay c [0#16] exCrash = some (d, [2#16]) ∧
    Settled .UR20_4RO_CO_255 [0, 0, 0, 0] [2#16] (outBit 0x8000#16) 1 (.bit true) := by
  obtain ⟨c, d, h0, h1⟩ : ∃ c d, Coupler.new exRelay = .ok c ∧
      restarts true exRelay c [0#16] exCrash = some (d, [2#16]) := ⟨_, _, rfl, rfl⟩
  exact ⟨c, d, h0, h1, (C112_restarts true exRelay c h0 0 (exRelay_disjoint 0) .UR20_4RO_CO_255 _
    0x8000#16 _ ⟨rfl, rfl, rfl, rfl⟩ (by decide) (by decide) (by decide) 1 (by decide) exCrash
    (by simp [exCrash, COp.IsCall]) [0#16] d _ h1).1 _ rfl⟩

/-- C125: the second relay is off after the power failure, the third is on. -/
example : ∃ c d, Coupler.new exRelay = .ok c ∧
    outages true exRelay c [0#16] exOutage = some (d, [4#16]) ∧
    Settled .UR20_4RO_CO_255 [0, 0, 0, 0] [4#16] (outBit 0x8000#16) 2 (.bit true) := by
  obtain ⟨c, d, h0, h1⟩ : ∃ c d, Coupler.new exRelay = .ok c ∧
      outages true exRelay c [0#16] exOutage = some (d, [4#16]) := ⟨_, _, rfl, rfl⟩
  exact ⟨c, d, h0, h1, (C125_start true exRelay c h0 0 (exRelay_disjoint 0) .UR20_4RO_CO_255 _ 0x8000#16
    _ ⟨rfl, rfl, rfl, rfl⟩ (by decide) (by decide) (by decide) 2 (by decide) exOutage
    exOutage_calls [0#16] (by simp [ChannelOff, bitAt, outBit, outputBase])
    (by simp [ChannelOff, allOff, bitAt, outBit, outputBase]) d _ h1).1 _ rfl⟩

/-- C113: the safety module behind the counter. -/
example : ∃ c, Coupler.new exConversions = .ok c ∧
    ∃ c' img, c.next true [0, 1, 0, 7, 0, 0, 0, 0, 0x0100, 0, 0x0105, 0] [0, 0, 0, 0, 0, 0] =
      (c', .ok img) ∧ ∃ vs x, c'.inputs[1]? = some vs ∧ vs[0]? = some (.ofSilIn x) ∧
        x.safetyInput = true ∧ x.volt24SafeOutput = true ∧ x.manualStart = false := by
  obtain ⟨c, h0, e⟩ : ∃ c, Coupler.new exConversions = .ok c ∧
      (c.next true [0, 1, 0, 7, 0, 0, 0, 0, 0x0100, 0, 0x0105, 0] [0, 0, 0, 0, 0, 0]).2 =
        .ok [0, 0, 0, 0, 0, 0] := ⟨_, rfl, by decide +kernel⟩
  have hr : ReachableFrom true exConversions c := ⟨c, [], h0, rfl⟩
  refine ⟨c, h0, _, _, Prod.ext rfl e, ?_⟩
  obtain ⟨vs, x, w, h1, h2, h3, h4, -, h6, -, -, h9, -⟩ :=
    C113_safety true exConversions c hr _ _ _ _ (Prod.ext rfl e) 1 _ _ _ ⟨rfl, rfl, rfl, rfl⟩
      (by decide) (by decide)
  cases h3
  exact ⟨vs, x, h1, h2, h4, h9, h6⟩

theorem exPacked_ok : ∀ p ∈ [(ModuleType.UR20_4RO_CO_255, [0#16, 0#16, 0#16, 0#16]),
      (.UR20_4DI_P, [0, 0, 0, 0]), (.UR20_16DO_P, []), (.UR20_2FCNT_100, [0, 0])],
    ∃ m, Module.create p.1 p.2 = .ok m := by
  intro p hp
  simp only [List.mem_cons, List.not_mem_nil, or_false] at hp
  rcases hp with rfl | rfl | rfl | rfl <;> exact ⟨_, rfl⟩

example := C120_runs true _ (by decide) exPacked_ok

/-- C121: a counter module with both channels on. -/
example : ∃ vs, (Module.fcnt ⟨[⟨.us5⟩, ⟨.us5⟩]⟩).processInputData
    [0xFFFF#16, 0xFFFF#16, 1#16, 2#16, 0#16, 125#16, 0#16, 7#16, 1#16, 1#16] = .ok vs ∧
    ∀ v d, .fcntIn v ∈ vs → v.duration = some d → d < 17 * 1000000000 :=
  ⟨_, rfl, fun _ _ hv hd => C121_durations ⟨[⟨.us5⟩, ⟨.us5⟩]⟩
    [0xFFFF#16, 0xFFFF#16, 1#16, 2#16, 0#16, 125#16, 0#16, 7#16, 1#16, 1#16] _ _ _ rfl hv hd⟩

example : let t := ((⟨exSys, none⟩ : PowerSys).run .EightBytes exGentle).sys
    t.delivered ++ t.p.inData = t.seen :=
  C123_receive_partial exSys_ready exGentle
    (by intro e he; rintro rfl; simp [exGentle] at he)
    (by simp only [exGentle, BetweenCycles, and_true]; exact ⟨rfl, rfl⟩)
    (by simp only [exGentle, NewNumbers, and_true]; decide)

def exAoOutage : List OutageEv :=
  [.round ⟨[.setOutput ⟨1, 0⟩ (.decimal32 (.fin (4110 / 1024)))], [], true⟩, .power,
   .round ⟨[.setOutput ⟨1, 0⟩ (.decimal32 (.fin 6))], [], true⟩, .round ⟨[], [], true⟩]

/-- C125: 6 mA set after a power failure stay. -/
example : ∃ c, outages true exAoCfg (initial exAoCfg exAoModules)
      [3#16, 0#16, 90#16, 0xABCD#16, 0#16] exAoOutage =
        some (c, [0#16, 8294#16, 0#16, 0#16, 0#16]) ∧
    ∃ e : ℤ, EncodedAs (.mA0To20, .S7) (.fin 6) e ∧ |8294 - e| ≤ maxDrift .mA0To20 := by
  obtain ⟨c, h⟩ : ∃ c, outages true exAoCfg (initial exAoCfg exAoModules)
      [3#16, 0#16, 90#16, 0xABCD#16, 0#16] exAoOutage =
        some (c, [0#16, 8294#16, 0#16, 0#16, 0#16]) := by
    have e : (outages true exAoCfg (initial exAoCfg exAoModules)
      [3#16, 0#16, 90#16, 0xABCD#16, 0#16] exAoOutage).map (·.2) =
        some [0#16, 8294#16, 0#16, 0#16, 0#16] := by decide +kernel
    obtain ⟨⟨c, d⟩, h1, h2⟩ := Option.map_eq_some_iff.1 e
    cases h2
    exact ⟨c, h1⟩
  obtain ⟨w, e, hw, he, hd⟩ := C125_analog true exAoCfg _ exAoCfg_new 1 (exAoCfg_disjoint 1)
    .UR20_4AO_UI_16 exAoParams 0x8010#16 0xFFFF#16 ⟨rfl, rfl, rfl, rfl⟩ (by decide) (by decide) 0
    (by decide) .mA0To20 .S7 ⟨⟨_, rfl, rfl⟩, ⟨_, rfl, rfl⟩⟩ (by decide) exAoOutage
    (by simp [exAoOutage, COp.IsCall]) _ rfl c _ h (.decimal32 (.fin 6)) rfl
  cases hw
  rcases he with ⟨x, hx, he⟩ | ⟨hx, -⟩
  · cases hx
    exact ⟨c, h, e, he, hd⟩
  · cases hx

example {c : Src.ur20_fbc_mod_tcp.Coupler}
    (hc : Src.ur20_fbc_mod_tcp.Coupler.new true exTwo = .ok c) :=
  C134_deterministic true exTwo hc (fun _ => exForward) (fun _ => exBackward)
    (fun _ _ => 0#8) (fun k i => BitVec.ofNat 8 (k + i)) exHistory

example := C135_hertz true ⟨some 2000000000, 5#32, true⟩ (by intro d h; cases h; decide)

end Ur20.Instances
