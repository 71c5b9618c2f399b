import Verif.Instances.Modules
import Verif.Props.Addressing
import Verif.Props.Surplus
import Verif.Props.Digital
import Verif.Props.Hertz
import Verif.Props.Thermal
import Verif.Props.AnalogCount

/-!
# Instances: addresses, names, parameters, frames, single modules and single cycles

Each example applies a theorem to a concrete case; its hypotheses are proved there.
-/

namespace Ur20.Instances

open Spec Com Coupler

/-! ### C01 to C12 -/

example : toRegisterAddress (toBitAddress 0x0800#16 8) = (0x0800#16, 8) :=
  (C01_merge_split 0x0800#16 8 (by decide) (by decide)).2

/-- C02: a trailing word that has no partner. -/
example : ∃ m, (offsetsOfProcessData [0x8000#16, 0xFFFF#16, 0xFFFF#16, 0x0010#16, 7#16])[1]? =
    some m ∧ m.output = none ∧ m.input = some 0x0010#16 := by
  simpa using (C02_offsets [0x8000#16, 0xFFFF#16, 0xFFFF#16, 0x0010#16, 7#16]).2 1 (by decide)

example (id : BitVec 32) (h : ModuleType.tryFromU32 id = .ok .UR20_4DI_P) : id = 0x00091F84#32 :=
  C04_injective _ _ _ h rfl

example : ModuleType.tryFromU32 0x00091F85#32 = .err .unknownModule :=
  C04_unknown _ (by intro t; cases t <;> decide)

theorem ascii_upper : AsciiUpper fun c => [c.toUpper] := fun _ _ => rfl

/-- C05: dashes, underscores and both cases mixed. -/
example : ModuleType.fromStr (fun c => [c.toUpper]) "ur20-1Com_232-485_422" =
    .ok .UR20_1COM_232_485_422 :=
  C05_spelling _ ascii_upper _ _ (by
    unfold SpelledLike
    rw [show "ur20-1Com_232-485_422".toList = ['u', 'r', '2', '0', '-', '1', 'C', 'o', 'm', '_', '2',
      '3', '2', '-', '4', '8', '5', '_', '4', '2', '2'] from by decide +kernel,
      show (typeName .UR20_1COM_232_485_422).toList = ['U', 'R', '2', '0', '_', '1', 'C', 'O', 'M',
      '_', '2', '3', '2', '_', '4', '8', '5', '_', '4', '2', '2'] from by decide +kernel]
    simp only [List.forall₂_cons, List.forall₂_nil_left_iff, and_true]
    decide +kernel)

example : ModuleCategory.fromStr (fun c => [c.toUpper]) "cNt" = .ok .CNT :=
  C06_spelling_partial _ ascii_upper _ _ (by decide) (by decide +kernel)

example : ([.bit false, .bit true, .bit true, .bit false] : List ChannelValue).length =
    (Module.di ⟨.UR20_4DI_P, []⟩).moduleType.channelCount :=
  (C07_input_partial (.di ⟨.UR20_4DI_P, []⟩) [0xFFF6#16] _ (by decide)).1 (by simp)

example : ([.bit true, .bit false, .bit true, .bit false] : List ChannelValue).length =
    (Module.ro ⟨[]⟩).moduleType.channelCount :=
  C07_output (.ro ⟨[]⟩) [0xFFF5#16] _ (by decide)

/-- C08: a full station. -/
example := C08_windows true (List.replicate 64 .UR20_4AI_TC_DIAG) (by simp)
  (by intro t h; rw [List.eq_of_mem_replicate h]; exact ⟨_, rfl⟩)

example := C09_register_count .UR20_4AI_RTD_DIAG _ rfl 29 rfl (List.replicate 29 3)

example := C11_fields .UR20_1COM_232_485_422 _ rfl [1, 3, 11, 1, 2, 0, 1, 1, 17, 19] rfl _ rfl

example : Module.create .UR20_16DO_P [0, 0] = .err .bufferLength :=
  C12_parameterless_reject _ (.inl rfl) _ _

example : Module.create .UR20_4AI_TC_DIAG (List.replicate 29 0 ++ List.replicate 9 0) = .panic :=
  (C12_thermocouple_never _ (List.replicate 9 0) rfl (by decide) (.do16)).2 (by simp) (by
    exact ((C10_accepted _ _ rfl _).1 rfl).1.2 (by
      intro i m w _ h
      rw [List.getElem?_replicate] at h
      split at h <;> simp at h
      subst h
      simp))

/-- C12: the last two words do not belong to a complete block. -/
example : Module.create .UR20_4AI_TC_DIAG (List.replicate 36 0 ++ [999, 999]) = .panic :=
  (C12_thermocouple_outcome _ (by decide)).1 (by
    intro i w h
    by_cases hi : i < 36
    · rw [List.getElem?_append_left (by simpa using hi), List.getElem?_replicate, if_pos hi] at h
      cases h
      simp
    · refine ⟨by omega, ?_⟩
      intro k f m e hk hf
      have : f < thermocoupleCodes.length := (List.getElem?_eq_some_iff.1 hf).1
      simp [thermocoupleCodes] at this hk
      omega)

example : Module.create .UR20_4AI_TC_DIAG (3 :: List.replicate 35 0) = .err .channelParameter :=
  (C12_thermocouple_outcome _ (by decide)).2 0 3 rfl (.inl ⟨rfl, by decide⟩)

/-! ### C14 to C28 -/

example : (runC true (initial exCfg exModules) [.next [] [], .write 3 [1#8]]).hasReader 3 = true ∧
    (runC true (initial exCfg exModules) [.next [] [], .write 3 [1#8]]).hasWriter 0 ≠ true :=
  ⟨(C14_readers true exCfg _ (exCfg_reach [.next [] [], .write 3 [1#8]]) 3).1.2 rfl,
    fun h => by cases (C14_readers true exCfg _ (exCfg_reach [.next [] [], .write 3 [1#8]]) 0).2.1 h⟩

example := (C15_digital_input (.di ⟨.UR20_4DI_P, []⟩) 4 rfl [0xFFF6#16]).2 _ rfl

example := (C16_accepts (.dout ⟨.UR20_4DO_P, []⟩) 4 rfl
  [.bit true, .disabled, .bit false, .bit true]).1.2 (by decide)

example := C16_bits (.dout ⟨.UR20_4DO_P, []⟩) 4 rfl [.bit true, .disabled, .bit false, .bit true]
  [0b1001#16] (by decide)

example := C17_decode_encode (.ro ⟨[]⟩) 4 rfl 0xFFF5#16

example := C17_encode_decode .do16 16 rfl
  [true, false, false, true, false, false, false, false, true, true, true, true, true, false, true,
    false] rfl

/-- A message with three bytes. -/
def exRsOut : RsOut :=
  { rxBufFlush := false, txBufFlush := true, disableTxHwBuffer := false, txCnt := 3, rxCntAck := 2,
    reset := true, data := [1#8, 2#8, 3#8] }

example := C19_round_trip exRsOut .EightBytes (by decide) (by decide) (by decide)

example := C19_layout exRsOut .EightBytes [0xDA#8, 3#8, 1#8, 2#8, 3#8, 0#8, 0#8, 0#8] (by decide)

example := C22_registers ⟨.SixteenBytes, []⟩ exRsOut (by decide) (by decide) (by decide)

/-- The module has taken over segment 2. -/
def exRsIn : RsIn :=
  { dataAvailable := false, ready := true, bufferNearlyFull := false, rxCnt := 0,
    txCntAck := 2, data := [] }

/-- C24: a segment waits for the acknowledgement of the one before. -/
example := C24_stop_and_wait .EightBytes
  [.next exRsIn exRsOut, .write [1#8, 2#8], .next exRsIn exRsOut] (by decide)
  exRsIn exRsOut (by decide)

example := C26_everything_delivered .EightBytes exSys exSys_ready exEvs (by decide) 4 (by decide)

example := C27_encodable .EightBytes [.write (List.replicate 40 1#8)]
  [0#8, 0#8, 0#8, 0#8, 0#8, 0#8, 0#8, 0#8] [0xDA#8, 3#8, 1#8, 2#8, 3#8, 0#8, 0#8, 0#8] _ _ rfl rfl
  (by decide)

example := C28_exactly_once .EightBytes exSys exSys_ready
  [.start false true, .finish, .start false true, .finish, .post [1#8, 2#8], .start false true,
    .finish, .start false true, .finish, .read 1]

/-! ### C32 to C45 -/

example : runC true (initial exCfg exModules)
      [.setOutput ⟨0, 1⟩ (.bit true), .setOutput ⟨1, 1⟩ (.bit false)] =
    runC true (initial exCfg exModules)
      [.setOutput ⟨1, 1⟩ (.bit false), .setOutput ⟨0, 1⟩ (.bit true)] :=
  C32_commute true _ _ _ _ _ (by decide)

theorem exAo_no_serial : ∀ n : Nat, exAoCfg.modules[n]? ≠ some ModuleType.UR20_1COM_232_485_422 := by
  intro n h
  match n with
  | 0 => cases h
  | 1 => cases h
  | n + 2 => cases h

example : ∃ c', (runC true (initial exAoCfg exAoModules) [.setOutput ⟨0, 1⟩ (.bit false)]).next true
    [] exAoPo = (c', .ok [1#16, 44#16, 90#16, 0xABCD#16, 0#16]) ∧
    (c'.next true [] exAoPo).2 = ((initial exAoCfg exAoModules).next true [] exAoPo).2 := by
  have h : ((runC true (initial exAoCfg exAoModules) [.setOutput ⟨0, 1⟩ (.bit false)]).next true
    [] exAoPo).2 = .ok [1#16, 44#16, 90#16, 0xABCD#16, 0#16] := by decide +kernel
  obtain ⟨c', h'⟩ : ∃ c', (runC true (initial exAoCfg exAoModules)
      [.setOutput ⟨0, 1⟩ (.bit false)]).next true [] exAoPo =
      (c', .ok [1#16, 44#16, 90#16, 0xABCD#16, 0#16]) := ⟨_, by rw [← h]⟩
  exact ⟨c', h', C34_applied_once true exAoCfg _ _ exAoCfg_new
    (exAo_reachable [.setOutput ⟨0, 1⟩ (.bit false)]) exAo_no_serial [] exAoPo _ c' h' [] exAoPo⟩

example := C35_idle_digital true exCfg _ (exCfg_reach []) 1 (exCoupler_disjoint 1) (fun _ => rfl)
  exPi exPo _ _ rfl (.dout ⟨.UR20_8DO_P, List.replicate 8 ⟨false⟩⟩) ⟨none, some 0x8008#16⟩ ⟨rfl, rfl⟩ 8 rfl
  0x8008#16 rfl (.inl (by decide)) 6 (by decide)

/-- C36: 45 becomes 44. -/
example : ∃ w w' : Word, exAoPo[1]? = some w ∧
    ([3#16, 44#16, 90#16, 0xABCD#16, 0#16] : List Word)[1]? = some w' ∧ w' ≠ w := by
  obtain ⟨c', h⟩ := exAo_next
  obtain ⟨w, w', h1, h2, -, -, -, -, -⟩ := C36_idle_analog_partial true exAoCfg _ (exAo_reachable [])
    1 (exAo_disjoint 1) [] exAoPo _ c' h (.ao exAo) ⟨none, some 0x8010#16⟩ ⟨rfl, rfl⟩ exAoChannels rfl
    0x8010#16 rfl rfl 0 .mA0To20 .S7 rfl (by simp) rfl
  refine ⟨w, w', h1, h2, ?_⟩
  cases h1; cases h2; decide

example : ∃ changed : Set Word, changed.ncard = 3036 ∧ 45#16 ∈ changed := by
  obtain ⟨s, h1, h2⟩ := C36_count_partial .mA0To20 (by simp)
  obtain ⟨c', h⟩ := exAo_next
  obtain ⟨w, w', e1, e2, e3⟩ := h2 true exAoCfg _ (exAo_reachable [])
    1 (exAo_disjoint 1) [] exAoPo _ c' h (.ao exAo) ⟨none, some 0x8010#16⟩ ⟨rfl, rfl⟩ exAoChannels rfl
    0x8010#16 rfl rfl 0 rfl rfl
  cases e1; cases e2
  exact ⟨s, h1, e3.1 (by decide)⟩

example := C41_layout exInfos (exVals true) [0xFF0D#16, 0x0001#16] (by decide)

example : processOutputValues exInfos (exVals true ++ [[]]) = .err .channelValue :=
  C41_length _ _ (by decide)

theorem exMisplaced_encodable (i : Nat) (m : Module) (off : ModuleOffset) (vs : List ChannelValue)
    (h : (exInfos.take 3 ++ [(.do16, ⟨none, some 0x8020#16⟩)])[i]? = some (m, off))
    (hv : (exVals false)[i]? = some vs) (ho : off.output ≠ none) :
    m.outputByteCount ≠ 0 ∧ ∃ d, m.processOutputValues vs = .ok d := by
  match i with
  | 0 => cases h; cases hv; exact ⟨by decide, _, rfl⟩
  | 1 => cases h; cases hv; exact ⟨by decide, _, rfl⟩
  | 2 => cases h; exact absurd rfl ho
  | 3 => cases h; cases hv; exact ⟨by decide, _, rfl⟩
  | i + 4 => cases h

example : processOutputValues (exInfos.take 3 ++ [(.do16, ⟨none, some 0x8020#16⟩)]) (exVals false) =
    .err .moduleOffset :=
  (C41_misplaced _ _ rfl exMisplaced_encodable).2 fun h => by
    have := h 3 .do16 ⟨none, some 0x8020#16⟩ 0x8020#16 rfl rfl
    revert this
    unfold InPlace
    decide

/-- C42: a bit of the first module changes. -/
example : byteAt [0xFF0D#16, 0x0001#16] 1 = byteAt [0xFF09#16, 0x0001#16] 1 :=
  (C42_independent exInfos (exVals true) (exVals false) 0
    (by intro i h; match i with | 0 => exact absurd rfl h | i + 1 => rfl) _ _ (by decide)
    (by decide)).2 1 (by
      rintro e h ⟨o, ho, h1, h2⟩
      cases h; cases ho
      revert h2; decide)

example (pi po : List Word) :
    ((runC true (initial exCfg exModules) [.write 3 [1#8]]).next true pi po).2 ≠ .panic :=
  C43_no_panic_partial true exCfg _ (exCfg_reach [.write 3 [1#8]]) pi po (by
    intro _ i o h hne
    match i with
    | 0 => cases h; decide
    | 1 => cases h; decide
    | 2 => cases h; exact absurd rfl hne
    | 3 => cases h; decide
    | i + 4 => cases h)

example := C44_encode exInfos (exVals true) [0xFF0D#16, 0x0001#16] (by decide) 1 (exInfos_disjoint 1)
  (.dout ⟨.UR20_8DO_P, []⟩) 8 rfl ⟨none, some 0x8008#16⟩ 0x8008#16 rfl rfl (.inl (by decide))

end Ur20.Instances
