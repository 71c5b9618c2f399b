import Verif.Instances.Modules
import Verif.Props.Shown
import Verif.Props.Faults
import Verif.Props.Unreliable
import Verif.Props.Held
import Verif.Props.StdIo

/-!
# Instances: values of all channels, failing cycles, whole histories, unreliable networks

Each example applies a theorem to a concrete case; its hypotheses are proved there.
-/

namespace Ur20.Instances

open Spec Com Coupler

/-- C71, C72: the counter of the mixed coupler and a bit of its first module. -/
example : ∃ c' vs, exMix.next true exMixPi exMixPo = (c', .ok exMixImg) ∧
    c'.outputs[2]? = some vs ∧ vs.length = 2 ∧
    OutputWritten .UR20_16DO_P [] exMixPo exMixImg 0 9 (some (.bit true)) := by
  obtain ⟨c', h⟩ := exMix_next
  obtain ⟨vs, h1, h2, -⟩ := (C71_outputs true exMixCfg exMix exMix_reachable _ _ _ _ h 2
    .UR20_2FCNT_100 [0#16, 0#16] 0x8050#16 0#16 ⟨rfl, rfl, rfl, rfl⟩ (by simp)).2 (by decide)
    (by decide)
  exact ⟨c', vs, h, h1, h2, C72_image true exMixCfg exMix exMix_reachable 0 (exMix_disjoint 0) _ _ _ _ h
    .UR20_16DO_P [] 0x8000#16 0xFFFF#16 ⟨rfl, rfl, rfl, rfl⟩ (by simp) (by decide) (by decide) 9
    (by decide)⟩

/-- C77: the module below the output region. -/
example : ∃ c, Coupler.new exLow = .ok c ∧ (c.next true [] []).2 = .panic := by
  obtain ⟨c, h⟩ := exLow_new
  refine ⟨c, h, (C77_panics true exLow c ⟨c, [], h, rfl⟩ [] []).2 ⟨rfl, ?_, 0,
    ⟨_, _, _, _, ⟨rfl, rfl, rfl, rfl⟩, by decide, by decide⟩, fun k hk => by omega⟩⟩
  intro j t par o i h hn
  obtain ⟨rfl, rfl, rfl, rfl, rfl⟩ := exLow_at h
  exact absurd rfl hn

/-- No image is decodable for the example coupler when it is empty. -/
theorem exCfg_empty : ¬ (InputsPresent exCfg [] ∧ ∀ j, OutputPresent exCfg [] j) := by
  rintro ⟨h, -⟩
  have := (h 2 .UR20_4DI_P _ _ _ ⟨rfl, rfl, rfl, rfl⟩ (by decide)).1.2.2
  revert this
  decide

/-- C78: a value that its module does not accept is used up by a cycle that can be decoded, and
stays after one that cannot. -/
example : ((runC true (initial exCfg exModules)
    [.setOutput ⟨0, 2⟩ (.bytes [])]).next true exPi exPo).1.write ⟨0, 2⟩ = none :=
  ((C78_consumed true exCfg _ (exCfg_reach [.setOutput ⟨0, 2⟩ (.bytes [])]) exPi exPo
    exCfg_decodable.1 exCfg_decodable.2).2 ⟨0, 2⟩).2 (by
      rintro ⟨par, o, i, h, -⟩
      cases h.1)

example : ((runC true (initial exCfg exModules)
    [.setOutput ⟨0, 2⟩ (.bytes [])]).next true [] []).1.write ⟨0, 2⟩ = some (.bytes []) := by
  rw [(C78_undecodable true exCfg _ (exCfg_reach [.setOutput ⟨0, 2⟩ (.bytes [])]) [] []
    (by simp) exCfg_empty).2.1]
  rfl

example (ops : List COp) := C78_no_trace true exCfg _ (exCfg_reach [.write 3 [1#8]]) [] [] (by simp)
  exCfg_empty ops

/-- C79, C80: every history of the coupler with two serial modules, and the example image after
it. -/
example (ops : List COp) := C79_decoded_only true exTwo _ exTwo_new ops (fun _ _ _ h => by cases h)

example (ops : List COp) := C79_serial true exTwo _ exTwo_new 1 .EightBytes _ _ exTwo_serial.2 ops
  (fun _ _ _ h => by cases h)

example : ∃ f, inFrame .EightBytes 0x10#16 exPi = some f := by
  obtain ⟨f, h, -⟩ := C80_inputs true exCfg _ (exCfg_reach [.write 3 [1#8]]) exPi exPo
    exCfg_decodable 3 (List.replicate 10 0) 0x8010#16 0x10#16 ⟨rfl, rfl, rfl, rfl⟩ (by decide)
    (by decide) (by decide)
  exact ⟨f, h⟩

example (ops : List COp) := C80_outputs true exTwo _ exTwo_new ops (fun _ _ _ h => by cases h) exTwoPi
  exTwoPo exTwo_decodable 1 (List.replicate 10 0) 0x8040#16 0x40#16 ⟨rfl, rfl, rfl, rfl⟩ (by decide)
  (by decide) (by decide)

/-- C81: the inputs after a cycle whose encoding fails. -/
example : ∃ vs, ((runC true (initial exCfg exModules)
    [.setOutput ⟨0, 2⟩ (.bytes [])]).next true exPi exPo).1.inputs[2]? = some vs ∧ vs.length = 4 := by
  obtain ⟨vs, h1, h2, -⟩ := (C81_inputs true exCfg _ (exCfg_reach [.setOutput ⟨0, 2⟩ (.bytes [])])
    exPi exPo exCfg_decodable 2 .UR20_4DI_P (List.replicate 4 0) 0xFFFF#16 0#16 ⟨rfl, rfl, rfl, rfl⟩
    (by decide)).2 (by decide) (by decide)
  exact ⟨vs, h1, h2⟩

/-- C82: the error tells which fault came first. -/
example := (C82_error true exCfg _ (exCfg_reach [.setOutput ⟨1, 2⟩ (.bytes [])]) exPi exPo (by simp)
  (by intro h; cases h) .channelValue).1 rfl

/-- C83, C84: lost replies and a crash. -/
example := C83_harmless_partial exSys_ready
  [.ev (.start false true), .lost, .ev (.start false true), .ev .finish, .ev .take,
     .ev (.write [1#8]), .ev (.start false true), .ev .finish, .ev (.start false true), .lost] (by
  simp only [Sys.Harmless, Sys.NewSegment, and_true]
  refine ⟨?_, ?_⟩ <;> rintro ⟨r, hr, hn⟩ <;> revert hn <;> cases hr <;> decide)

example := C83_order_partial exSys_ready exLosses

example := C84_crash exSys_ready exLosses

example := C83_receive_partial exSys_ready
  [.ev (.start false true), .lost, .ev (.start false true), .ev .finish, .ev .take]
  (by intro e he; simp at he; rcases he with rfl | rfl | rfl | rfl | rfl <;> simp)

example := C83_recovers_partial exSys_ready exLosses (by decide) (by decide) 4 (by decide)

/-- C86: an analog output that is set once and then held. -/
theorem exAoCfg_disjoint : DisjointOutputs exAoCfg := by
  refine disjointOutputs_of ?_
  have key : ∀ {j t par o i p}, ConfiguredAt exAoCfg j t par o i → o ≠ noOffset →
      outByte o ≤ p → p < outByte o + outputBytes t par → (j = 0 ∧ p < 2) ∨ (j = 1 ∧ 2 ≤ p) := by
    rintro j t par o i p ⟨h1, h2, h3, h4⟩ hno h5 h6
    have hj : j < 2 := (List.getElem?_eq_some_iff.1 h1).1
    match j, hj with
    | 0, _ =>
      cases h1; cases h2; cases h3
      rw [show outByte 0x8000#16 = 0 by decide] at h6
      exact .inl ⟨rfl, Nat.lt_of_lt_of_le h6 (by decide)⟩
    | 1, _ =>
      cases h1; cases h2; cases h3
      rw [show outByte 0x8010#16 = 2 by decide] at h5
      exact .inr ⟨rfl, h5⟩
  intro j k t par o i t' par' o' i' p h h' hn hn' h1 h2 h3 h4
  have := key h hn h1 h2
  have := key h' hn' h3 h4
  omega

example : ∃ (c : Coupler) (po : List Word), closedLoop true (initial exAoCfg exAoModules)
      [3#16, 45#16, 90#16, 0xABCD#16, 0#16]
      [([.setOutput ⟨1, 0⟩ (.decimal32 (.fin (4110 / 1024)))], []), ([], []), ([], [])] =
        some (c, po) ∧ ∃ (w : Word) (e : ℤ), po[1]? = some w ∧ |w.toInt - e| ≤ 5 := by
  have h : (closedLoop true (initial exAoCfg exAoModules) [3#16, 45#16, 90#16, 0xABCD#16, 0#16]
      [([.setOutput ⟨1, 0⟩ (.decimal32 (.fin (4110 / 1024)))], []), ([], []), ([], [])]).isSome =
        true := by decide +kernel
  obtain ⟨⟨c, po⟩, h⟩ := Option.isSome_iff_exists.1 h
  obtain ⟨w, e, h1, -, h2⟩ := (C86_analog true exAoCfg _ exAoCfg_new 1 (exAoCfg_disjoint 1)
    .UR20_4AO_UI_16 exAoParams 0x8010#16 0xFFFF#16 ⟨rfl, rfl, rfl, rfl⟩ (by decide) (by decide) 0
    (by decide) .mA0To20 .S7 (by constructor <;> first | rfl | exact ⟨_, rfl, rfl⟩) (by simp) _ (by
      intro r hr op hop
      simp at hr
      rcases hr with rfl | rfl
      · simp at hop; subst hop; trivial
      · cases hop) c _ po h).1 _ rfl
  exact ⟨c, po, h, w, e, h1, h2⟩

/-- C88: reading everything. -/
example := C88_read_to_end (p := exAhead) (.more (b := [1, 2, 3]) 3 (by decide) rfl (by decide)
  (.more (b := [4, 5]) 32 (by decide) rfl (by decide) (.done 32 (by decide) rfl)))

example := C88_read_to_end_ends (fun k => k + 1) (fun k => Nat.succ_pos k) exAhead

/-- C87: the texts of two errors differ. -/
example : Error.bufferLength.display ≠ (Error.io "x").display := fun h => by cases C87_display _ _ h

end Ur20.Instances
