import Verif.Lemmas.SourceTables
import Verif.Source.Ur20_di_generic
import Verif.Source.Ur20_do_generic
import Verif.Source.Ur20_16do_p
import Verif.Source.Ur20_4ro_co_255
import Verif.Source.Ur20_pf_o_1di_sil
import Verif.Model.Coupler
import Verif.Model.Defaults

/-!
The translated source of the digital modules is the model of them.
-/

namespace Ur20.Src

/-! ## Tools -/

theorem res_map_bind {α β γ : Type} (x : Res α) (f : α → Res β) (g : β → γ) :
    (x.bind f).map g = x.bind fun a => (f a).map g := by cases x <;> rfl

theorem res_bind_map {α β γ : Type} (x : Res α) (f : β → Res γ) (g : α → β) :
    (x.map g).bind f = x.bind fun a => f (g a) := by cases x <;> rfl

theorem res_map_map {α β γ : Type} (x : Res α) (f : β → γ) (g : α → β) :
    (x.map g).map f = x.map fun a => f (g a) := by cases x <;> rfl

theorem res_bind_self {α : Type} (x : Res α) : (x.bind fun a => .ok a) = x := by cases x <;> rfl

theorem res_bind_ok {α β : Type} (x : Res α) (f : α → β) : (x.bind fun a => .ok (f a)) = x.map f := by
  cases x <;> rfl

theorem map_ite {α β : Type} (c : Prop) [Decidable c] (x y : Res α) (g : α → β) :
    (if c then x else y).map g = if c then x.map g else y.map g := by split <;> rfl

theorem guard_bind {α : Type} (c : Prop) [Decidable c] (e : Error) (f : Unit → Res α) :
    (if c then (Res.err e : Res Unit) else .ok ()).bind f = if c then .err e else f () := by
  split <;> rfl

theorem mapRes_map {α β γ : Type} (f : α → Res β) (g : β → γ) (l : List α) :
    (mapRes f l).map (List.map g) = mapRes (fun a => (f a).map g) l := by
  induction l with
  | nil => rfl
  | cons a l ih =>
    simp only [mapRes_cons, res_map_bind, Res.map_ok, List.map_cons, res_bind_map]
    rw [← ih]; simp only [res_bind_map]

theorem mapRes_ok {α β : Type} (f : α → β) (l : List α) :
    mapRes (fun a => .ok (f a)) l = .ok (l.map f) := by
  induction l with
  | nil => rfl
  | cons a l ih => simp only [mapRes_cons, ih, Res.bind_ok, List.map_cons]

theorem mapRes_congr' {α β : Type} {f g : α → Res β} {l : List α} (h : ∀ a ∈ l, f a = g a) :
    mapRes f l = mapRes g l := by
  induction l with
  | nil => rfl
  | cons a l ih =>
    simp only [mapRes_cons]
    rw [h a (by simp), ih fun b hb => h b (by simp [hb])]

/-- The list of converted items, as part of a value. -/
theorem mapRes_bind_conv {α β γ δ : Type} {f : α → Res β} {f' : α → Res γ} (g : β → γ)
    (k : List γ → δ) {l : List α} (h : ∀ a ∈ l, (f a).map g = f' a) :
    ((mapRes f l).bind fun a => .ok (k (a.map g))) = (mapRes f' l).bind fun a => .ok (k a) := by
  rw [← mapRes_congr' h, ← mapRes_map, res_bind_map]

theorem idx_map {α β : Type} (l : List α) (g : α → β) (i : Nat) :
    idx (l.map g) i = (idx l i).map g := by
  simp only [idx, List.getElem?_map]; cases l[i]? <;> rfl

theorem map_map_iter {α β γ : Type} (it : Iter α) (f : α → Res β) (g : β → Res γ) :
    r_map (r_map it f) g = r_map it fun a => (f a).bind g := by
  simp only [r_map, List.map_map]
  congr 1; funext x; simp only [Function.comp_apply, Res.bind_assoc]

theorem bool_eq (w : Word) : (if w == 0 then Res.ok false
    else if w == 1 then Res.ok true else Res.err Error.channelParameter) = boolParam w := by
  simp only [boolParam, beq_iff_eq, BitVec.toNat_eq]
  generalize w.toNat = n
  rcases n with _ | _ | n
  · rfl
  · rfl
  · rfl

theorem code_eq {α : Type} (o : Option α) : (match o with
    | some x => Res.ok x
    | _ => Res.err Error.channelParameter) = Res.ofOption .channelParameter o := by
  cases o <;> rfl

theorem capture_release {α : Type} (x : Res α) : (r_capture x).bind r_release = x := by
  cases x <;> rfl

/-- The methods of a module of the model, as a trait object. -/
def dynOf (m : Module) : Dyn where
  module_type := .ok m.moduleType
  process_input_byte_count := .ok m.inputByteCount
  process_output_byte_count := .ok m.outputByteCount
  process_input_data := m.processInputData
  process_output_data := m.processOutputData
  process_output_values := m.processOutputValues

open ur20_fbc_mod_tcp in
theorem default_input_eq (oc : Bool) (t : ModuleType) (data : List Word) :
    ProcessModbusTcpData.process_input_data oc (.ok t) data = defaultProcessData t data := by
  simp only [ProcessModbusTcpData.process_input_data, Res.bind_eq, Res.pure_eq, guard_bind,
    Res.bind_ok, channel_count_eq, defaultProcessData]

open ur20_fbc_mod_tcp in
theorem default_output_eq (oc : Bool) (t : ModuleType) (data : List Word) :
    ProcessModbusTcpData.process_output_data oc (.ok t) data = defaultProcessData t data := by
  simp only [ProcessModbusTcpData.process_output_data, Res.bind_eq, Res.pure_eq, guard_bind,
    Res.bind_ok, channel_count_eq, defaultProcessData]

open ur20_fbc_mod_tcp in
theorem default_values_eq (oc : Bool) (t : ModuleType) (values : List ChannelValue) :
    ProcessModbusTcpData.process_output_values oc (.ok t) values =
      defaultProcessOutputValues t values := by
  simp only [ProcessModbusTcpData.process_output_values, Res.bind_eq, Res.pure_eq, guard_bind,
    Res.bind_ok, channel_count_eq, defaultProcessOutputValues]
  cases values.isEmpty <;> simp

theorem test_bits_eq (oc : Bool) (w : Word) {n : Nat} (h : n ≤ 16) :
    mapRes (fun i => (util.test_bit_16 oc w i).bind fun b => .ok (ChannelValue.bit b))
      (List.range n) = .ok (bitValues n w) := by
  rw [bitValues, ← mapRes_ok]
  apply mapRes_congr'
  intro i hi
  rw [test_bit_16_eq oc w (by have := List.mem_range.1 hi; omega)]
  rfl

/-- One step of the loop over the channels of a digital output. -/
def bitStep (res : Word) (i : Nat) : ChannelValue → Res Word
  | .bit b => .ok (if b then setBit16 res i else res)
  | .disabled => .ok res
  | _ => .err .channelValue

theorem bits_loop (f : Word → Nat × ChannelValue → Res Word)
    (hf : ∀ res i v, i < 64 → f res (i, v) = bitStep res i v) (values : List ChannelValue) (n : Nat)
    (res : Word) (h : n + values.length ≤ 16) :
    r_loop ((values.zipIdx n).map fun p => (p.2, p.1)) res f = encodeBits n res values := by
  induction values generalizing n res with
  | nil => rfl
  | cons v values ih =>
    have h' : n + 1 + values.length ≤ 16 := by simp only [List.length_cons] at h; omega
    simp only [List.zipIdx_cons, List.map_cons, loop_cons, Res.bind_eq, hf res n v (by omega)]
    cases v with
    | bit b => simp only [bitStep, Res.bind_ok, encodeBits, ih (n + 1) _ h']
    | disabled => simp only [bitStep, Res.bind_ok, encodeBits, ih (n + 1) _ h']
    | _ => rfl

theorem out_bits_eq (oc : Bool) (data : List Word) {n : Nat} (h : n ≤ 16) :
    (if data.length ≠ 1 then Res.err Error.bufferLength
      else mapRes (fun i => ((idx data 0).bind fun w => util.test_bit_16 oc w i).bind fun b =>
        .ok (ChannelValue.bit b)) (List.range n)) =
      if data.length ≠ 1 then .err .bufferLength
      else (idx data 0).bind fun w => .ok (bitValues n w) := by
  match data with
  | [] => rfl
  | [w] =>
    simp only [List.length_singleton, ne_eq, not_true_eq_false, if_false, idx_cons_zero,
      Res.bind_ok]
    exact test_bits_eq oc w h
  | _ :: _ :: _ => simp

/-! ## `src/ur20_di_generic.rs` -/

namespace ur20_di_generic

/-- The module as the model has it. -/
def Mod.conv (v : Di.Variant) (m : Mod v.moduleType) : Di.Mod :=
  ⟨v, m.chParams.map fun p => ⟨p.inputDelay⟩⟩

theorem from_eq (oc : Bool) (v : Di.Variant) (data : List Word) :
    (Mod.from_modbus_parameter_data oc v.moduleType data).map (Mod.conv v) =
      Di.fromModbusParameterData v data := by
  simp only [Mod.from_modbus_parameter_data, parameters_from_raw_data, Res.bind_eq, Res.pure_eq,
    guard_bind, Res.bind_ok, channel_count_eq, index_eq, collect_map_range,
    InputDelay_from_u16, Di.fromModbusParameterData, Di.parametersFromRawData, decide_eq_true_eq]
  split
  · rfl
  rw [capture_release, res_map_bind]
  refine mapRes_bind_conv _ (Di.Mod.mk v) fun i _ => ?_
  cases idx data i with
  | ok w => simp only [Res.bind_ok, codeParam]; cases InputDelay.fromU16 w <;> rfl
  | _ => rfl

theorem default_eq (oc : Bool) (v : Di.Variant) :
    (Mod.default oc v.moduleType).map (Mod.conv v) = .ok (Di.Mod.default v) := by
  cases v <;> rfl

theorem dyn_eq (oc : Bool) (v : Di.Variant) (m : Mod v.moduleType) :
    ToDyn.toDyn oc m = dynOf (.di (m.conv v)) := by
  have hc : v.moduleType.channelCount ≤ 16 := by cases v <;> decide
  simp only [ToDyn.toDyn, dynOf, Dyn.mk.injEq]
  refine ⟨rfl, ?_, rfl, ?_, ?_, ?_⟩
  · simp only [Mod.process_input_byte_count, Res.bind_eq, Res.pure_eq, channel_count_eq,
      Res.bind_ok, Module.inputByteCount, Di.Mod.inputByteCount, Mod.conv]
    cases v <;> rfl
  · funext data
    simp only [Mod.process_input_data, Res.bind_eq, Res.pure_eq, guard_bind, Res.bind_ok,
      channel_count_eq, index_eq, collect_map_range, test_bits_eq oc _ hc, Module.processInputData,
      Di.Mod.processInputData, Mod.conv, bne_iff_ne]
  · funext data; exact default_output_eq oc _ data
  · funext values; exact default_values_eq oc _ values

end ur20_di_generic

/-! ## `src/ur20_do_generic.rs` -/

namespace ur20_do_generic

/-- The module as the model has it. -/
def Mod.conv (v : Do.Variant) (m : Mod v.moduleType) : Do.Mod :=
  ⟨v, m.chParams.map fun p => ⟨p.substituteValue⟩⟩

theorem from_eq (oc : Bool) (v : Do.Variant) (data : List Word) :
    (Mod.from_modbus_parameter_data oc v.moduleType data).map (Mod.conv v) =
      Do.fromModbusParameterData v data := by
  simp only [Mod.from_modbus_parameter_data, parameters_from_raw_data, Res.bind_eq, Res.pure_eq,
    guard_bind, Res.bind_ok, channel_count_eq, index_eq, collect_map_range, bool_eq,
    Do.fromModbusParameterData, Do.parametersFromRawData, decide_eq_true_eq]
  split
  · rfl
  rw [capture_release, res_map_bind]
  refine mapRes_bind_conv _ (Do.Mod.mk v) fun i _ => ?_
  simp only [res_map_bind, Res.map_ok]

theorem default_eq (oc : Bool) (v : Do.Variant) :
    (Mod.default oc v.moduleType).map (Mod.conv v) = .ok (Do.Mod.default v) := by
  cases v <;> rfl

theorem dyn_eq (oc : Bool) (v : Do.Variant) (m : Mod v.moduleType) :
    ToDyn.toDyn oc m = dynOf (.dout (m.conv v)) := by
  have hc : v.moduleType.channelCount ≤ 16 := by cases v <;> decide
  simp only [ToDyn.toDyn, dynOf, Dyn.mk.injEq]
  refine ⟨rfl, rfl, ?_, ?_, ?_, ?_⟩
  · simp only [Mod.process_output_byte_count, Res.bind_eq, Res.pure_eq, channel_count_eq,
      Res.bind_ok, Module.outputByteCount, Do.Mod.outputByteCount, Mod.conv]
    cases v <;> rfl
  · funext data; exact default_input_eq oc _ data
  · funext data
    simp only [Mod.process_output_data, Res.bind_eq, Res.pure_eq, guard_bind, Res.bind_ok,
      channel_count_eq, index_eq, map_map_iter, collect_map_range, Module.processOutputData,
      Do.Mod.processOutputData, Mod.conv, bne_iff_ne]
    exact out_bits_eq oc data hc
  · funext values
    simp only [Mod.process_output_values, Res.bind_eq, Res.pure_eq, guard_bind, Res.bind_ok,
      channel_count_eq, Module.processOutputValues, enumerate_iter, collect_iter,
      Do.Mod.processOutputValues, Mod.conv, bne_iff_ne]
    by_cases h : values.length ≠ v.moduleType.channelCount
    · rw [if_pos h]; exact (if_pos h).symm
    · rw [if_neg h]
      refine Eq.trans ?_ (if_neg h).symm
      refine congrArg (Res.bind · _) (bits_loop _ ?_ values 0 0 (by omega))
      intro res i v hi
      cases v <;> simp [set_bit_16_eq oc _ hi, bitStep, res_bind_self]
      all_goals rename_i b; cases b <;> rfl

end ur20_do_generic

/-! ## `src/ur20_16do_p.rs` -/

namespace ur20_16do_p

theorem from_eq (oc : Bool) (data : List Word) :
    (Mod.from_modbus_parameter_data oc data).map (fun _ => Module.do16) =
      (Do16.fromModbusParameterData data).map fun _ => .do16 := by
  simp only [Mod.from_modbus_parameter_data, Res.bind_eq, Res.pure_eq, guard_bind,
    Do16.fromModbusParameterData, map_ite, Res.map_ok, Res.map_err]

theorem dyn_eq (oc : Bool) (m : Mod) : ToDyn.toDyn oc m = dynOf .do16 := by
  simp only [ToDyn.toDyn, dynOf, Dyn.mk.injEq]
  refine ⟨rfl, rfl, rfl, ?_, ?_, ?_⟩
  · funext data; exact default_input_eq oc _ data
  · funext data
    simp only [Mod.process_output_data, Res.bind_eq, Res.pure_eq, guard_bind,
      index_eq, map_map_iter, collect_map_range, Module.processOutputData,
      Do16.processOutputData, bne_iff_ne]
    exact out_bits_eq oc data (Nat.le_refl 16)
  · funext values
    simp only [Mod.process_output_values, Res.bind_eq, Res.pure_eq, guard_bind, Res.bind_ok,
      Module.processOutputValues, enumerate_iter, collect_iter, Do16.processOutputValues, bne_iff_ne]
    by_cases h : values.length ≠ 16
    · rw [if_pos h]; exact (if_pos h).symm
    · rw [if_neg h]
      refine Eq.trans ?_ (if_neg h).symm
      refine congrArg (Res.bind · _) (bits_loop _ ?_ values 0 0 (by omega))
      intro res i v hi
      cases v <;> simp [set_bit_16_eq oc _ hi, bitStep, res_bind_self]
      all_goals rename_i b; cases b <;> rfl

end ur20_16do_p

/-! ## `src/ur20_4ro_co_255.rs` -/

namespace ur20_4ro_co_255

/-- The module as the model has it. -/
def Mod.conv (m : Mod) : Ro.Mod := ⟨m.chParams.map fun p => ⟨p.substituteValue⟩⟩

theorem from_eq (oc : Bool) (data : List Word) :
    (Mod.from_modbus_parameter_data oc data).map Mod.conv = Ro.fromModbusParameterData data := by
  simp only [Mod.from_modbus_parameter_data, parameters_from_raw_data, Res.bind_eq, Res.pure_eq,
    guard_bind, index_eq, collect_map_range, bool_eq,
    Ro.fromModbusParameterData, Ro.parametersFromRawData, decide_eq_true_eq]
  split
  · rfl
  rw [capture_release, res_map_bind]
  refine mapRes_bind_conv _ Ro.Mod.mk fun i _ => ?_
  simp only [res_map_bind, Res.map_ok]

theorem default_eq (oc : Bool) : (Mod.default oc).map Mod.conv = .ok Ro.Mod.default := rfl

theorem dyn_eq (oc : Bool) (m : Mod) : ToDyn.toDyn oc m = dynOf (.ro m.conv) := by
  simp only [ToDyn.toDyn, dynOf, Dyn.mk.injEq]
  refine ⟨rfl, rfl, rfl, ?_, ?_, ?_⟩
  · funext data; exact default_input_eq oc _ data
  · funext data
    simp only [Mod.process_output_data, Res.bind_eq, Res.pure_eq, guard_bind,
      index_eq, map_map_iter, collect_map_range, Module.processOutputData,
      Ro.processOutputData, bne_iff_ne]
    exact out_bits_eq oc data (by decide)
  · funext values
    simp only [Mod.process_output_values, Res.bind_eq, Res.pure_eq, guard_bind, Res.bind_ok,
      Module.processOutputValues, enumerate_iter, collect_iter, Ro.processOutputValues, bne_iff_ne]
    by_cases h : values.length ≠ 4
    · rw [if_pos h]; exact (if_pos h).symm
    · rw [if_neg h]
      refine Eq.trans ?_ (if_neg h).symm
      refine congrArg (Res.bind · _) (bits_loop _ ?_ values 0 0 (by omega))
      intro res i v hi
      cases v <;> simp [set_bit_16_eq oc _ hi, bitStep, res_bind_self]
      all_goals rename_i b; cases b <;> rfl

end ur20_4ro_co_255

/-! ## `src/ur20_pf_o_1di_sil.rs` -/

namespace ur20_pf_o_1di_sil

theorem from_eq (oc : Bool) (data : List Word) :
    (Mod.from_modbus_parameter_data oc data).map (fun _ => Module.sil) =
      (Sil.fromModbusParameterData data).map fun _ => .sil := by
  simp only [Mod.from_modbus_parameter_data, Res.bind_eq, Res.pure_eq, guard_bind,
    Sil.fromModbusParameterData, map_ite, Res.map_ok, Res.map_err]

theorem dyn_eq (oc : Bool) (m : Mod) : ToDyn.toDyn oc m = dynOf .sil := by
  simp only [ToDyn.toDyn, dynOf, Dyn.mk.injEq]
  refine ⟨rfl, rfl, rfl, ?_, ?_, ?_⟩
  · funext data
    simp only [Mod.process_input_data, Res.bind_eq, Res.pure_eq, guard_bind,
      index_eq, Module.processInputData, Sil.processInputData, bne_iff_ne, test_bit_eq oc _ (by decide : 0 < 64),
      test_bit_eq oc _ (by decide : 2 < 64), test_bit_eq oc _ (by decide : 3 < 64),
      test_bit_eq oc _ (by decide : 4 < 64), test_bit_eq oc _ (by decide : 5 < 64), Res.bind_ok,
      ChannelValue.from_ProcessInput, loByte_eq]
    rfl
  · funext data; exact default_output_eq oc _ data
  · funext values; exact default_values_eq oc _ values

end ur20_pf_o_1di_sil

end Ur20.Src
