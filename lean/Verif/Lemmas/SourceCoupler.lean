import Verif.Lemmas.SourceTc
import Verif.Lemmas.SourceFcnt
import Verif.Lemmas.SourceCom
import Verif.Source.Ur20_fbc_mod_tcp
import Verif.Lemmas.Imperative

/-!
The translated source of the coupler is the statement-by-statement model of it.
-/

namespace Ur20.Src.ur20_fbc_mod_tcp

theorem bind_ext {α β : Type} {x : Res α} {f g : α → Res β} (h : ∀ a, f a = g a) :
    x.bind f = x.bind g := by
  rw [show f = g from funext h]

theorem validate_eq (oc : Bool) (cfg : CouplerConfig) :
    CouplerConfig.validate oc cfg = cfg.validate := by
  simp only [CouplerConfig.validate, Ur20.CouplerConfig.validate, Res.bind_eq, Res.pure_eq,
    guard_bind, mul_nat, Res.bind_ok, bne_iff_ne]

theorem word_to_offset_eq (oc : Bool) (w : Word) : word_to_offset oc w = .ok (wordToOffset w) := by
  simp only [word_to_offset, wordToOffset, beq_iff_eq]
  by_cases h : w = 65535#16
  · rw [if_pos h, if_pos (show w = 65535 from h)]; rfl
  · rw [if_neg h, if_neg (show ¬w = 65535 from h)]; rfl

theorem offsets_eq (oc : Bool) (data : List Word) :
    offsets_of_process_data oc data = Imp.offsetsOfProcessData data := by
  simp only [offsets_of_process_data, Imp.offsetsOfProcessData, Res.bind_eq, Res.pure_eq,
    div_nat oc _ (by decide : (2 : Nat) ≠ 0), Res.bind_ok, range_eq, collect_iter, mul_nat, add_nat,
    index_eq, word_to_offset_eq]
  have : ∀ (is : List Nat) (acc : List ModuleOffset),
      r_loop is acc (fun acc i => (idx data (i * 2 + 1)).bind fun t5 =>
        (idx data (i * 2)).bind fun t8 =>
          Res.ok (acc ++ [({ input := wordToOffset t5, output := wordToOffset t8 } : ModuleOffset)])) =
        Imp.offsetsLoop data acc is := by
    intro is
    induction is with
    | nil => intro acc; rfl
    | cons i is ih =>
      intro acc
      simp only [loop_cons, Imp.offsetsLoop, Res.bind_eq, Res.bind_assoc, Res.bind_ok, ih]
  exact this _ _

theorem add32 (oc : Bool) (hi lo : Word) :
    r_add oc (hi.setWidth 32 <<< 16) (lo.setWidth 32) =
      .ok ((hi.setWidth 32 <<< 16) + lo.setWidth 32) := by
  have h1 : (hi.setWidth 32 <<< 16).toNat ≤ 65535 * 65536 := by
    rw [BitVec.toNat_shiftLeft, BitVec.toNat_setWidth]
    have := hi.isLt
    have h2 : hi.toNat % 2 ^ 32 = hi.toNat := Nat.mod_eq_of_lt (by omega)
    rw [h2, Nat.shiftLeft_eq]
    exact (Nat.mod_le _ _).trans (Nat.mul_le_mul (by omega) (by decide))
  have h2 : (lo.setWidth 32).toNat ≤ 65535 := by
    rw [BitVec.toNat_setWidth]
    have := lo.isLt
    exact (Nat.mod_le _ _).trans (by omega)
  simp only [r_add, Arith.add, checked]
  rw [if_neg (by omega)]

theorem module_list_eq (oc : Bool) (ws : List Word) :
    module_list_from_registers oc ws = Imp.moduleListFromRegisters ws := by
  simp only [module_list_from_registers, Imp.moduleListFromRegisters, Res.bind_eq, Res.pure_eq,
    div_nat oc _ (by decide : (2 : Nat) ≠ 0), rem_nat oc _ (by decide : (2 : Nat) ≠ 0), Res.bind_ok,
    range_eq, collect_iter, mul_nat, add_nat, index_eq, guard_bind,
    ur20_2fcnt_100.shl_eq, try_from_u32_eq]
  have hloop : ∀ (is : List Nat) (acc : List ModuleType),
      r_loop is acc (fun acc i => (idx ws (i * 2)).bind fun t6 =>
        (idx ws (i * 2 + 1)).bind fun t9 =>
          (r_add oc (t6.setWidth 32 <<< 16) (r_from t9 : BitVec 32)).bind fun t11 =>
            (ModuleType.tryFromU32 t11).bind fun t12 => Res.ok (acc ++ [t12])) =
        Imp.moduleListLoop ws acc is := by
    intro is
    induction is with
    | nil => intro acc; rfl
    | cons i is ih =>
      intro acc
      have hr : ∀ w : Word, (r_from w : BitVec 32) = w.setWidth 32 := fun _ => rfl
      simp only [hr, add32, Res.bind_ok] at ih
      simp only [loop_cons, Imp.moduleListLoop, Res.bind_eq, Res.bind_assoc, Res.bind_ok, hr, add32,
        ih]
  rw [hloop]
  cases ws.isEmpty
  · simp only [Bool.false_eq_true, if_false, Res.bind_ok, bne_iff_ne, Bool.false_or,
      decide_eq_true_eq]
  · rfl

theorem register_address_eq (oc : Bool) (w : Word) :
    to_register_address oc w = .ok (toRegisterAddress w) := by
  simp only [to_register_address, r_shr, Shift.shr]
  rw [if_neg (by omega)]
  rfl

theorem bit_address_eq (oc : Bool) (w : Word) (bit : Nat) :
    to_bit_address oc w bit = .ok (toBitAddress w bit) := by
  simp only [to_bit_address, r_shl, Shift.shl]
  rw [if_neg (by omega)]
  rfl

theorem param_count_eq (oc : Bool) (t : ModuleType) :
    (ModuleType.param_register_count oc t).map BitVec.toNat = paramRegisterCount t := by
  cases t <;> rfl

theorem param_addresses_eq (oc : Bool) (ms : List ModuleType) :
    (param_addresses_and_register_counts oc ms).map (List.map fun p => (p.1, p.2.toNat)) =
      paramAddressesAndRegisterCounts oc ms := by
  simp only [param_addresses_and_register_counts, paramAddressesAndRegisterCounts, Res.bind_eq,
    Res.pure_eq, enumerate_iter, collect_map_iter, mul_nat, Res.bind_ok, mapRes_map,
    mapRes_of_map]
  refine mapRes_congr' fun p _ => ?_
  simp only [paramAddress, r_add, Arith.add, checked, Bool.and_eq_true, decide_eq_true_eq]
  have h1 : (ADDR_MODULE_PARAMETERS).toNat = 49152 := rfl
  have h2 : addrModuleParameters.toNat = 49152 := rfl
  have h3 : (r_as (p.2 * 256) : Word) = BitVec.ofNat 16 (p.2 * 256) := rfl
  rw [h1, h2, h3]
  generalize BitVec.ofNat 16 (p.2 * 256) = off
  by_cases h : oc = true ∧ 49152 + off.toNat ≥ 65536
  · rw [if_pos h, if_pos ⟨h.1, by omega⟩]; rfl
  · rw [if_neg h, if_neg (by intro h'; exact h ⟨h'.1, by omega⟩)]
    simp only [Res.bind_ok, ← param_count_eq oc, res_bind_map, res_map_bind, Res.bind_eq, Res.map_ok,
      Res.pure_eq]
    rfl

theorem prepare_eq (oc : Bool) (offset addr : Word) (n : Nat) (data : List Word) :
    prepare_raw_data_to_process oc offset addr n data =
      prepareRawDataToProcess oc offset addr n data := by
  simp only [prepare_raw_data_to_process, prepareRawDataToProcess, Res.bind_eq, Res.pure_eq,
    register_address_eq, Res.bind_ok, div_nat oc _ (by decide : (2 : Nat) ≠ 0), add_nat, guard_bind,
    shift_data_eq, to_vec_eq, decide_eq_true_eq]
  rcases toRegisterAddress offset with ⟨start, bit⟩
  simp only [r_sub, Arith.sub, checked, Bool.and_eq_true, decide_eq_true_eq]
  have hs := start.isLt
  by_cases h : oc = true ∧ start.toNat < addr.toNat
  · rw [if_pos h, if_pos ⟨h.1, by omega⟩]; rfl
  · rw [if_neg h, if_neg (by intro h'; exact h ⟨h'.1, by omega⟩)]
    have hc : (r_as (start - addr) : Nat) = (start - addr).toNat := rfl
    simp only [Res.bind_ok, hc]
    generalize (start - addr).toNat = s
    have hw : (if (n / 2 == 0) = true then Res.ok 1 else Res.ok (n / 2)) =
        Res.ok (if n / 2 = 0 then 1 else n / 2) := by
      simp only [beq_iff_eq]; split <;> rfl
    rw [hw]
    simp only [Res.bind_ok]
    generalize (if n / 2 = 0 then 1 else n / 2) = k
    split
    · rfl
    rename_i hk
    have : r_slice data s (s + k) = .ok ((data.drop s).take k) := by
      simp only [r_slice]
      rw [if_pos ⟨by omega, by omega⟩, List.drop_take]
      congr 2
      omega
    simp only [this, Res.bind_ok, beq_iff_eq]
    split
    · rename_i h0; subst h0; rfl
    split
    · rename_i h8; subst h8; rfl
    · split
      · contradiction
      · contradiction
      · rfl

theorem input_eq (oc : Bool) (ms : List (Module × ModuleOffset)) (data : List Word) :
    process_input_data oc (ms.map fun p => (dynOf p.1, p.2)) data = processInputData oc ms data := by
  simp only [process_input_data, processInputData, collect_map_iter, mapRes_of_map, prepare_eq]
  refine mapRes_congr' fun p _ => ?_
  simp only [moduleInput, dynOf, Res.bind_eq, Res.bind_ok, channel_count_eq]
  cases p.2.input <;> rfl

theorem output_eq (oc : Bool) (ms : List (Module × ModuleOffset)) (data : List Word) :
    process_output_data oc (ms.map fun p => (dynOf p.1, p.2)) data =
      processOutputData oc ms data := by
  simp only [process_output_data, processOutputData, collect_map_iter, mapRes_of_map, prepare_eq]
  refine mapRes_congr' fun p _ => ?_
  simp only [moduleOutput, dynOf, Res.bind_eq, Res.bind_ok, channel_count_eq]
  cases p.2.output <;> rfl

theorem out_loop (values : List (List ChannelValue))
    (f : List Word → Nat × (Dyn × ModuleOffset) → Res (List Word))
    (hf : ∀ out i (m : Module) offset, f out (i, (dynOf m, offset)) = match offset.output with
      | some o => (idx values i).bind fun vs => (m.processOutputValues vs).bind fun data =>
          placeWords out o data
      | none => .ok out) :
    ∀ (ms : List (Module × ModuleOffset)) (n : Nat) (out : List Word),
      r_loop ((((ms.map fun p => (dynOf p.1, p.2)).zipIdx n)).map fun p => (p.2, p.1)) out f =
        Imp.outputLoop values n out ms := by
  intro ms
  induction ms with
  | nil => intro n out; rfl
  | cons a ms ih =>
    intro n out
    obtain ⟨m, o⟩ := a
    simp only [List.map_cons, List.zipIdx_cons, loop_cons, hf, Imp.outputLoop, Res.bind_eq]
    cases o.output with
    | none => simp only [Res.bind_ok, ih]
    | some w => simp only [Res.bind_assoc, ih]

theorem output_values_eq (oc : Bool) (ms : List (Module × ModuleOffset))
    (values : List (List ChannelValue)) :
    process_output_values oc (ms.map fun p => (dynOf p.1, p.2)) values =
      Imp.processOutputValues ms values := by
  simp only [process_output_values, Imp.processOutputValues, Res.bind_eq, Res.pure_eq, guard_bind,
    enumerate_iter, collect_iter, Res.bind_ok, List.length_map, bne_iff_ne, register_address_eq,
    index_eq, res_bind_self, u16_to_u8_eq, add_nat]
  split
  · rfl
  refine out_loop values _ ?_ ms 0 []
  intro out i m offset
  simp only [dynOf]
  cases offset.output with
  | none => rfl
  | some o =>
    simp only
    refine bind_ext fun vs => bind_ext fun data => ?_
    simp only [placeWords]
    rcases toRegisterAddress o with ⟨start, bit⟩
    have hc : ADDR_PACKED_PROCESS_OUTPUT_DATA = addrPackedProcessOutputData := rfl
    simp only [hc, BitVec.lt_def, decide_eq_true_eq]
    split
    · rfl
    rename_i hlt
    have hs : r_sub oc start addrPackedProcessOutputData =
        .ok (start - addrPackedProcessOutputData) := by
      simp only [r_sub, Arith.sub, checked]
      have := start.isLt
      rw [if_neg (by omega)]
    have hk : (r_as (start - addrPackedProcessOutputData) : Nat) =
        (start - addrPackedProcessOutputData).toNat := rfl
    simp only [hs, Res.bind_ok, hk]
    generalize (start - addrPackedProcessOutputData).toNat = k
    simp only [beq_iff_eq]
    split
    · rename_i h0; subst h0; rfl
    split
    · rename_i h8; subst h8
      split
      · rfl
      rename_i hlen
      have hlen : out.length = k + 1 := by omega
      refine bind_ext fun w => bind_ext fun b => ?_
      simp only [r_shl, Shift.shl, r_set]
      rw [if_neg (by omega)]
      simp only [Res.bind_ok]
      rw [if_pos (by omega)]
      rfl
    · split
      · contradiction
      · contradiction
      · rfl

/-- The processors after module number `i` was created. -/
def addProc (ps : HMap Nat Com.MessageProcessor) (i : Nat) (m : Module) :
    HMap Nat Com.MessageProcessor :=
  match m.processor? with
  | some p => Imp.HMap.insert ps i p
  | none => ps

theorem new_loop (params : List (List Word))
    (f : HMap Nat Com.MessageProcessor × List Dyn → Nat × ModuleType →
      Res (HMap Nat Com.MessageProcessor × List Dyn))
    (hf : ∀ ps ds i t, f (ps, ds) (i, t) = (idx params i).bind fun param =>
      ((Module.create t param).map fun m => (addProc ps i m, ds ++ [dynOf m]))) :
    ∀ (ts : List ModuleType) (n : Nat) (ms : List Module) (ps : HMap Nat Com.MessageProcessor),
      r_loop ((ts.zipIdx n).map fun p => (p.2, p.1)) (ps, ms.map dynOf) f =
        (Imp.newLoop params n ms ps ts).map fun r => (r.2, r.1.map dynOf) := by
  intro ts
  induction ts with
  | nil => intro n ms ps; rfl
  | cons t ts ih =>
    intro n ms ps
    simp only [List.map_cons, List.zipIdx_cons, loop_cons, hf, Imp.newLoop, Res.bind_eq,
      Res.bind_assoc, res_map_bind, res_bind_map]
    refine bind_ext fun param => bind_ext fun m => ?_
    have := ih (n + 1) (ms ++ [m]) (addProc ps n m)
    rw [List.map_append, List.map_singleton] at this
    rw [this]
    rfl

theorem made {M M' : Type} [ToDyn M] (oc : Bool) (ps : HMap Nat Com.MessageProcessor)
    (ds : List Dyn) (i : Nat) {x : Res M} {y : Res M'} (g : M → M') (c : M' → Module)
    (h : x.map g = y) (hd : ∀ m, x = .ok m → ToDyn.toDyn oc m = dynOf (c (g m)))
    (hp : ∀ m, (c m).processor? = none) :
    (x.bind fun m => Res.ok (ps, ds ++ [ToDyn.toDyn oc m])) =
      (y.map c).map fun m => (addProc ps i m, ds ++ [dynOf m]) := by
  subst h
  cases x with
  | ok m =>
    simp only [Res.bind_ok, Res.map_ok, hd m rfl, addProc, hp]
  | err e => rfl
  | panic => rfl

/-- The state of the translated coupler that corresponds to a state of the model. -/
@[reducible] def embed (c : Imp.Coupler) : Coupler :=
  { inValues := c.inValues, outValues := c.outValues, write := c.write,
    modules := c.modules.map dynOf, offsets := c.offsets, processors := c.processors,
    lastTxCnt := c.lastTxCnt }

theorem new_eq (oc : Bool) (cfg : CouplerConfig) :
    Coupler.new oc cfg = (Imp.new cfg).map embed := by
  simp only [Coupler.new, Imp.new, Res.bind_eq, Res.pure_eq, validate_eq, offsets_eq,
    enumerate_iter, collect_iter, Res.bind_ok, index_eq, res_map_bind]
  refine bind_ext fun _ => bind_ext fun offsets => ?_
  have h := new_loop cfg.params (fun (ps, ds) (i, t) => (idx cfg.params i).bind fun param =>
      ((Module.create t param).map fun m => (addProc ps i m, ds ++ [dynOf m])))
    (fun _ _ _ _ => rfl) cfg.modules 0 [] []
  have h2 : ∀ {γ : Type} (l : List (Nat × ModuleType))
      (f g : HMap Nat Com.MessageProcessor × List Dyn → Nat × ModuleType →
        Res (HMap Nat Com.MessageProcessor × List Dyn)) (k : _ → Res γ) s, (∀ s a, f s a = g s a) →
      (r_loop l s f).bind k = (r_loop l s g).bind k := by
    intro γ l f g k s hfg
    rw [show f = g from funext fun s => funext fun a => hfg s a]
  refine (h2 _ _ _ _ _ ?_).trans ((congrArg (Res.bind · _) h).trans ?_)
  · rintro ⟨ps, ds⟩ ⟨i, t⟩
    refine bind_ext fun param => ?_
    cases t <;> simp only [Res.bind_assoc, Res.bind_ok, Module.create]
    all_goals try rfl
    · exact made oc ps ds i _ _ (ur20_di_generic.from_eq oc .UR20_4DI_P param)
        (fun m _ => ur20_di_generic.dyn_eq oc .UR20_4DI_P m) fun _ => rfl
    · exact made oc ps ds i _ _ (ur20_di_generic.from_eq oc .UR20_8DI_P_2W param)
        (fun m _ => ur20_di_generic.dyn_eq oc .UR20_8DI_P_2W m) fun _ => rfl
    · exact made oc ps ds i _ _ (ur20_do_generic.from_eq oc .UR20_4DO_P param)
        (fun m _ => ur20_do_generic.dyn_eq oc .UR20_4DO_P m) fun _ => rfl
    · exact made oc ps ds i _ _ (ur20_do_generic.from_eq oc .UR20_4DO_P_2A param)
        (fun m _ => ur20_do_generic.dyn_eq oc .UR20_4DO_P_2A m) fun _ => rfl
    · exact made oc ps ds i _ _ (ur20_do_generic.from_eq oc .UR20_8DO_P param)
        (fun m _ => ur20_do_generic.dyn_eq oc .UR20_8DO_P m) fun _ => rfl
    · rw [← ur20_16do_p.from_eq oc param]
      cases ur20_16do_p.Mod.from_modbus_parameter_data oc param with
      | ok m => simp only [Res.bind_ok, Res.map_ok, ur20_16do_p.dyn_eq]; rfl
      | err e => rfl
      | panic => rfl
    · exact made oc ps ds i _ _ (ur20_4ro_co_255.from_eq oc param)
        (fun m _ => ur20_4ro_co_255.dyn_eq oc m) fun _ => rfl
    · exact made oc ps ds i _ _ (ur20_ai_ui_generic.from_eq oc .UR20_4AI_UI_16 param)
        (fun m _ => ur20_ai_ui_generic.dyn_eq oc .UR20_4AI_UI_16 m) fun _ => rfl
    · exact made oc ps ds i _ _ (ur20_4ai_ui_16_diag.from_eq oc param)
        (fun m _ => ur20_4ai_ui_16_diag.dyn_eq oc m) fun _ => rfl
    · exact made oc ps ds i _ _ (ur20_ai_ui_generic.from_eq oc .UR20_4AI_UI_12 param)
        (fun m _ => ur20_ai_ui_generic.dyn_eq oc .UR20_4AI_UI_12 m) fun _ => rfl
    · exact made oc ps ds i _ _ (ur20_8ai_i_16_diag_hd.from_eq oc param)
        (fun m _ => ur20_8ai_i_16_diag_hd.dyn_eq oc m) fun _ => rfl
    · exact made oc ps ds i _ _ (ur20_4ao_ui_16.from_eq oc param)
        (fun m _ => ur20_4ao_ui_16.dyn_eq oc m) fun _ => rfl
    · exact made oc ps ds i _ _ (ur20_4ao_ui_16_diag.from_eq oc param)
        (fun m _ => ur20_4ao_ui_16_diag.dyn_eq oc m) fun _ => rfl
    · exact made oc ps ds i _ _ (ur20_2fcnt_100.from_eq oc param)
        (fun m _ => ur20_2fcnt_100.dyn_eq oc m) fun _ => rfl
    · rw [← ur20_1com_232_485_422.from_eq oc param]
      cases ur20_1com_232_485_422.Mod.from_modbus_parameter_data oc param with
      | ok m => simp only [Res.bind_ok, Res.map_ok, ur20_1com_232_485_422.dyn_eq, ur20_1com_232_485_422.new_eq]; rfl
      | err e => rfl
      | panic => rfl
    · exact made oc ps ds i _ _ (ur20_4ai_rtd_diag.from_eq oc param)
        (fun m _ => ur20_4ai_rtd_diag.dyn_eq oc m) fun _ => rfl
    · exact made oc ps ds i _ _ (ur20_4ai_tc_diag.from_eq oc param)
        (fun m h => ur20_4ai_tc_diag.dyn_eq oc m (ur20_4ai_tc_diag.from_length h)) fun _ => rfl
    · rw [← ur20_pf_o_1di_sil.from_eq oc param]
      cases ur20_pf_o_1di_sil.Mod.from_modbus_parameter_data oc param with
      | ok m => simp only [Res.bind_ok, Res.map_ok, ur20_pf_o_1di_sil.dyn_eq]; rfl
      | err e => rfl
      | panic => rfl
  · rw [res_bind_map]
    rfl

theorem is_valid_addr_eq (oc : Bool) (c : Imp.Coupler) (a : Address) :
    Coupler.is_valid_addr oc (embed c) a = Imp.isValidAddr c a := by
  simp only [Coupler.is_valid_addr, Imp.isValidAddr, List.length_map, index_eq, idx_map,
    decide_eq_true_eq, Res.bind_eq, Res.pure_eq, res_bind_map, dynOf, Res.bind_ok, channel_count_eq]

/-! ## Methods with `&mut self` -/

section ex
variable {σ α β : Type}

@[simp] theorem ex_bind_eq (x : Ex σ α) (f : α → Ex σ β) : x >>= f = x.bind f := rfl
@[simp] theorem ex_pure_eq (a : α) : (pure a : Ex σ α) = .ok a := rfl
@[simp] theorem ex_bind_ok (a : α) (f : α → Ex σ β) : (Ex.ok a).bind f = f a := rfl
@[simp] theorem ex_bind_err (e : Error) (s : σ) (f : α → Ex σ β) :
    (Ex.err e s).bind f = .err e s := rfl
@[simp] theorem ex_bind_panic (s : σ) (f : α → Ex σ β) : (Ex.panic s).bind f = .panic s := rfl
@[simp] theorem ex_at_ok (s : σ) (a : α) : Ex.at s (.ok a) = .ok a := rfl
@[simp] theorem ex_at_err (s : σ) (e : Error) : Ex.at s (.err e : Res α) = .err e s := rfl
@[simp] theorem ex_at_panic (s : σ) : Ex.at s (.panic : Res α) = .panic s := rfl

end ex

/-- The outcome of a translated method and the outcome of the model: the same result, and the same
state unless the method panics. -/
def Agree {α : Type} : Ex Coupler (Coupler × α) → Imp.Coupler × Res α → Prop
  | .ok (s, a), (c, r) => r = .ok a ∧ s = embed c
  | .err e s, (c, r) => r = .err e ∧ s = embed c
  | .panic _, (_, r) => r = .panic

theorem set_output_eq (oc : Bool) (c : Imp.Coupler) (a : Address) (v : ChannelValue) :
    Agree (Coupler.set_output oc (embed c) a v) (Imp.setOutput c a v) := by
  simp only [Coupler.set_output, is_valid_addr_eq, Imp.setOutput, ex_bind_eq, ex_pure_eq]
  cases Imp.isValidAddr c a with
  | ok b => cases b <;> exact ⟨rfl, rfl⟩
  | err e => exact ⟨rfl, rfl⟩
  | panic => rfl

/-- The local variables of `next` in the translation. -/
abbrev Vars := HMap Nat ChannelValue × HMap Nat ChannelValue × Coupler × List (List ChannelValue)

/-- The local variables of `next` in the translation for those of the model. -/
abbrev vars (f : Imp.Frame) : Vars := (f.outBytes, f.inBytes, embed f.self, f.nextOut)

/-- The outcome of statements of the model as an outcome in the translation. -/
def toEx : Imp.Frame × Res Unit → Ex Coupler Vars
  | (f, .ok _) => .ok (vars f)
  | (f, .err e) => .err e (embed f.self)
  | (f, .panic) => .panic (embed f.self)

theorem write_all_eq (oc : Bool) (p : Com.MessageProcessor) (data : List Byte) :
    r_write_all (ur20_1com_232_485_422.MessageProcessor.write oc) p data =
      .ok (p.write data).1 := by
  cases data with
  | nil =>
    simp only [r_write_all, writeAllFrom, List.isEmpty_nil, if_true, Com.MessageProcessor.write]
    cases p
    simp [Com.chunks, Com.chunksAux]
  | cons b l =>
    simp only [r_write_all, writeAllFrom, List.length_cons, List.isEmpty_cons, Bool.false_eq_true,
      if_false, ur20_1com_232_485_422.write_eq, Res.bind_ok]
    rw [show (p.write (b :: l)).2 = (b :: l).length from rfl, if_neg (by simp),
      if_pos (by simp), List.drop_length]
    simp

/-- `v[i][j] = x` in the translation. -/
theorem assign_eq {β : Type} (s : Coupler) (v : List (List ChannelValue)) (i j : Nat)
    (x : ChannelValue) (k : List (List ChannelValue) → Ex Coupler β) :
    ((Ex.at s (idx v i)).bind fun row => (Ex.at s (r_set row j x)).bind fun row =>
      (Ex.at s (r_set v i row)).bind k) = (Ex.at s (Imp.assign v i j x)).bind k := by
  simp only [Imp.assign, Res.bind_eq, Res.pure_eq]
  cases h : v[i]? with
  | none => simp [idx, h]
  | some row =>
    have hi : i < v.length := by
      rw [List.getElem?_eq_some_iff] at h
      exact h.1
    simp only [Imp.idx_ok h, ex_at_ok, ex_bind_ok, Res.bind_ok, r_set]
    split
    · simp only [ex_at_ok, ex_bind_ok]
    · rfl

theorem assign_ne_err (v : List (List ChannelValue)) (i j : Nat) (x : ChannelValue) (e : Error) :
    Imp.assign v i j x ≠ .err e := by
  simp only [Imp.assign, Res.bind_eq, Res.pure_eq, idx]
  cases v[i]? with
  | none => exact fun h => by cases h
  | some row =>
    simp only [Res.bind_ok]
    split <;> exact fun h => by cases h

theorem map_iter_id {α : Type} (l : List α) : r_map (r_iter l) (fun a => .ok a) = r_iter l := by
  exact (map_iter_ok l id).trans (by rw [List.map_id])

theorem module_loop (F : Vars → Nat × (List ChannelValue × List ChannelValue) → Ex Coupler Vars)
    (hF : ∀ f n i o, F (vars f) (n, (i, o)) = toEx (Imp.body n i o f)) :
    ∀ (l : List (List ChannelValue × List ChannelValue)) (n : Nat) (f : Imp.Frame),
      r_loop ((l.zipIdx n).map fun p => (p.2, p.1)) (vars f) F = toEx (Imp.moduleLoop n l f) := by
  intro l
  induction l with
  | nil => intro n f; rfl
  | cons a l ih =>
    intro n f
    obtain ⟨i, o⟩ := a
    simp only [List.map_cons, List.zipIdx_cons, loop_cons, hF, Imp.moduleLoop, ex_bind_eq]
    rw [Imp.Stm.bind_eq]
    generalize Imp.body n i o f = r
    obtain ⟨f', r⟩ := r
    cases r with
    | ok a => exact ih (n + 1) f'
    | err e => rfl
    | panic => rfl

/-- The part of the local variables that the loop over the channels assigns. -/
def toEx2 : Imp.Frame × Res Unit → Ex Coupler (Coupler × List (List ChannelValue))
  | (f, .ok _) => .ok (embed f.self, f.nextOut)
  | (f, .err e) => .err e (embed f.self)
  | (f, .panic) => .panic (embed f.self)

/-- The frame without a pending write. -/
def taken (f : Imp.Frame) (a : Address) : Imp.Frame :=
  { f with self := { f.self with write := Imp.HMap.remove f.self.write a } }

theorem channel_loop (n : Nat)
    (F : Coupler × List (List ChannelValue) → Nat × ChannelValue →
      Ex Coupler (Coupler × List (List ChannelValue)))
    (hF : ∀ (f : Imp.Frame) (i : Nat) (v : ChannelValue), F (embed f.self, f.nextOut) (i, v) =
      match Imp.HMap.get f.self.write ⟨n, i⟩ with
      | none => .ok (embed (taken f ⟨n, i⟩).self, f.nextOut)
      | some v => (Ex.at (embed (taken f ⟨n, i⟩).self) (Imp.assign f.nextOut n i v)).bind fun no =>
          .ok (embed (taken f ⟨n, i⟩).self, no)) :
    ∀ (l : List ChannelValue) (i : Nat) (f : Imp.Frame),
      r_loop ((l.zipIdx i).map fun p => (p.2, p.1)) (embed f.self, f.nextOut) F =
        toEx2 (Imp.channelLoop n i l f) ∧
      (Imp.channelLoop n i l f).1.inBytes = f.inBytes ∧
      (Imp.channelLoop n i l f).1.outBytes = f.outBytes := by
  intro l
  induction l with
  | nil => intro i f; exact ⟨rfl, rfl, rfl⟩
  | cons a l ih =>
    intro i f
    simp only [List.map_cons, List.zipIdx_cons, loop_cons, hF, Imp.channelLoop, ex_bind_eq]
    rw [Imp.Stm.bind_ok (Imp.takeWrite_eq ⟨n, i⟩ f)]
    cases h : Imp.HMap.get f.self.write ⟨n, i⟩ with
    | none => exact ih (i + 1) (taken f ⟨n, i⟩)
    | some v =>
      simp only [Imp.assignNext, Imp.Stm.assoc, Imp.Stm.frame_bind, Imp.Stm.eval_bind]
      cases h2 : Imp.assign f.nextOut n i v with
      | ok no => exact ih (i + 1) { taken f ⟨n, i⟩ with nextOut := no }
      | err e => exact ⟨rfl, rfl, rfl⟩
      | panic => exact ⟨rfl, rfl, rfl⟩

theorem assign_all_in (F : Coupler → Nat × ChannelValue → Ex Coupler Coupler)
    (hF : ∀ s n v, F s (n, v) = (Ex.at s (Imp.assign s.inValues n 0 v)).bind fun x =>
      .ok { s with inValues := x }) : ∀ (es : List (Nat × ChannelValue)) (s : Coupler),
    (∃ x, Imp.assignAll s.inValues es = .ok x ∧ r_loop es s F = .ok { s with inValues := x }) ∨
      (Imp.assignAll s.inValues es = .panic ∧ ∃ s', r_loop es s F = .panic s') := by
  intro es
  induction es with
  | nil => intro s; exact .inl ⟨_, rfl, rfl⟩
  | cons e es ih =>
    intro s
    obtain ⟨n, v⟩ := e
    simp only [loop_cons, hF, ex_bind_eq, Imp.assignAll, Res.bind_eq]
    cases h : Imp.assign s.inValues n 0 v with
    | ok x => exact ih { s with inValues := x }
    | err e => exact absurd h (assign_ne_err _ _ _ _ _)
    | panic => exact .inr ⟨rfl, _, rfl⟩

theorem assign_all_out (F : Coupler → Nat × ChannelValue → Ex Coupler Coupler)
    (hF : ∀ s n v, F s (n, v) = (Ex.at s (Imp.assign s.outValues n 0 v)).bind fun x =>
      .ok { s with outValues := x }) : ∀ (es : List (Nat × ChannelValue)) (s : Coupler),
    (∃ x, Imp.assignAll s.outValues es = .ok x ∧ r_loop es s F = .ok { s with outValues := x }) ∨
      (Imp.assignAll s.outValues es = .panic ∧ ∃ s', r_loop es s F = .panic s') := by
  intro es
  induction es with
  | nil => intro s; exact .inl ⟨_, rfl, rfl⟩
  | cons e es ih =>
    intro s
    obtain ⟨n, v⟩ := e
    simp only [loop_cons, hF, ex_bind_eq, Imp.assignAll, Res.bind_eq]
    cases h : Imp.assign s.outValues n 0 v with
    | ok x => exact ih { s with outValues := x }
    | err e => exact absurd h (assign_ne_err _ _ _ _ _)
    | panic => exact .inr ⟨rfl, _, rfl⟩

theorem next_core {oc : Bool} {ord : Imp.Orders} {infos : List (Module × ModuleOffset)}
    {F : Vars → Nat × (List ChannelValue × List ChannelValue) → Ex Coupler Vars}
    {G H : Coupler → Nat × ChannelValue → Ex Coupler Coupler}
    {l : List (List ChannelValue × List ChannelValue)} {f : Imp.Frame}
    (hF : ∀ f n i o, F (vars f) (n, (i, o)) = toEx (Imp.body n i o f))
    (hG : ∀ s n v, G s (n, v) = (Ex.at s (Imp.assign s.inValues n 0 v)).bind fun x =>
      .ok { s with inValues := x })
    (hH : ∀ s n v, H s (n, v) = (Ex.at s (Imp.assign s.outValues n 0 v)).bind fun x =>
      .ok { s with outValues := x }) :
    Agree ((r_loop (l.zipIdx.map fun p => (p.2, p.1)) (vars f) F).bind fun x =>
        (r_loop (ord.inOrd x.2.1) x.2.2.1 G).bind fun self =>
          (r_loop (ord.outOrd x.1) self H).bind fun self =>
            (Ex.at self (process_output_values oc (infos.map fun p => (dynOf p.1, p.2))
              x.2.2.2)).bind fun t => .ok (self, t))
      ((Imp.cycle ord infos l f).1.self, (Imp.cycle ord infos l f).2) := by
  rw [module_loop F hF l 0 f]
  simp only [Imp.cycle]
  rw [Imp.Stm.bind_eq]
  generalize Imp.moduleLoop 0 l f = r
  obtain ⟨f', r⟩ := r
  cases r with
  | err e => exact ⟨rfl, rfl⟩
  | panic => exact rfl
  | ok _ =>
    simp only [toEx, vars, ex_bind_ok, Imp.Stm.frame_bind, Imp.Stm.eval_bind]
    rcases assign_all_in G hG (ord.inOrd f'.inBytes) (embed f'.self) with ⟨x, h1, h2⟩ | ⟨h1, s', h2⟩
    · rw [h2, show Imp.assignAll f'.self.inValues _ = .ok x from h1]
      simp only [ex_bind_ok, Imp.Stm.set_bind, Imp.Stm.eval_bind]
      rcases assign_all_out H hH (ord.outOrd f'.outBytes) { embed f'.self with inValues := x } with
        ⟨y, h3, h4⟩ | ⟨h3, s', h4⟩
      · rw [h4, show Imp.assignAll f'.self.outValues _ = .ok y from h3]
        simp only [ex_bind_ok, output_values_eq, Imp.Stm.eval]
        cases Imp.processOutputValues infos f'.nextOut with
        | ok w => exact ⟨rfl, rfl⟩
        | err e => exact ⟨rfl, rfl⟩
        | panic => exact rfl
      · rw [h4, show Imp.assignAll f'.self.outValues _ = .panic from h3]
        exact rfl
    · rw [h2, show Imp.assignAll f'.self.inValues _ = .panic from h1]
      exact rfl

theorem serial_tail {n : Nat} {g : Imp.Frame} {p : Com.MessageProcessor} (i : RsIn) (o : RsOut)
    (hp : Imp.HMap.get g.self.processors n = some p) :
    toEx (Imp.serialTail n i o g) =
      (Ex.at (embed { g.self with processors := Imp.HMap.insert g.self.processors n (p.next i o).1 })
        (Imp.assign g.nextOut n 0 (.comRsOut (p.next i o).2))).bind fun t => .ok
          (g.outBytes,
            (if i.dataAvailable && !i.data.isEmpty then Imp.HMap.insert g.inBytes n (.bytes i.data)
              else g.inBytes),
            embed { g.self with processors := Imp.HMap.insert g.self.processors n (p.next i o).1 },
            t) := by
  unfold Imp.serialTail
  rw [Imp.Stm.bind_ok (Imp.callProcessor_eq (fun p => p.next i o) hp)]
  simp only [Imp.assignNext, Imp.Stm.assoc, Imp.Stm.frame_bind, Imp.Stm.eval_bind]
  cases Imp.assign g.nextOut n 0 (.comRsOut (p.next i o).2) with
  | ok x =>
    simp only [Imp.Stm.set_bind]
    split <;> rfl
  | err e => rfl
  | panic => rfl

theorem serial_mid {n : Nat} {g : Imp.Frame} {p : Com.MessageProcessor} (i : RsIn) (o : RsOut)
    (hp : Imp.HMap.get g.self.processors n = some p) :
    Imp.serialMid n i o g = match Imp.HMap.get g.self.write ⟨n, 0⟩ with
      | some (.bytes data) => Imp.serialTail n i o
          { g with self := { g.self with
              write := Imp.HMap.remove g.self.write ⟨n, 0⟩, lastTxCnt := o.txCnt,
              processors := Imp.HMap.insert g.self.processors n (p.write data).1 } }
      | _ => Imp.serialTail n i o
          { g with self := { g.self with
              write := Imp.HMap.remove g.self.write ⟨n, 0⟩, lastTxCnt := o.txCnt } } := by
  unfold Imp.serialMid
  simp only [Imp.Stm.set_bind]
  rw [Imp.Stm.bind_ok (Imp.takeWrite_eq _ _)]
  cases hw : Imp.HMap.get g.self.write ⟨n, 0⟩ with
  | none => rfl
  | some v =>
    cases v with
    | bytes data => exact Imp.Stm.bind_ok (Imp.writeAll_eq data (p := p) hp)
    | _ => rfl

theorem next_eq (oc : Bool) (ord : Imp.Orders) (c : Imp.Coupler) (pi po : List Word) :
    Agree (Coupler.next oc (embed c) pi po ord.inOrd ord.outOrd) (Imp.next oc ord c pi po) := by
  have hi : (embed c).modules.zip (embed c).offsets =
      (c.modules.zip c.offsets).map fun p => (dynOf p.1, p.2) := by
    simp only [List.zip_map_left]
    rfl
  simp only [Coupler.next, Imp.next, zip_iter, ex_bind_eq, ex_pure_eq, Res.pure_eq, map_iter_id,
    collect_iter, ex_at_ok, ex_bind_ok, Prod.mk.eta, hi, input_eq, output_eq,
    enumerate_iter, index_eq, assign_eq, write_all_eq, ur20_1com_232_485_422.next_eq]
  cases processInputData oc (c.modules.zip c.offsets) pi with
  | err e => exact ⟨rfl, rfl⟩
  | panic => exact rfl
  | ok inV =>
  simp only [ex_at_ok, ex_bind_ok]
  cases processOutputData oc (c.modules.zip c.offsets) po with
  | err e => exact ⟨rfl, rfl⟩
  | panic => exact rfl
  | ok outV =>
  simp only [ex_at_ok, ex_bind_ok]
  refine next_core (oc := oc) (f := ⟨{ c with inValues := inV, outValues := outV }, outV, [], []⟩)
    ?_ (fun _ _ _ => rfl) (fun _ _ _ => rfl)
  intro f n i o
  simp only [Imp.body, Imp.Stm.frame_bind]
  cases hp : Imp.HMap.get f.self.processors n with
  | none =>
    rw [show r_get (embed f.self).processors n = none from hp]
    have h := channel_loop n (fun x y =>
      match Imp.HMap.get x.1.write ⟨n, y.1⟩ with
      | some v => (Ex.at { x.1 with write := Imp.HMap.remove x.1.write ⟨n, y.1⟩ }
          (Imp.assign x.2 n y.1 v)).bind fun t =>
            .ok ({ x.1 with write := Imp.HMap.remove x.1.write ⟨n, y.1⟩ }, t)
      | none => .ok ({ x.1 with write := Imp.HMap.remove x.1.write ⟨n, y.1⟩ }, x.2))
      (by
        intro f i v
        simp only
        cases Imp.HMap.get f.self.write ⟨n, i⟩ <;> rfl) o 0 f
    simp only
    have h2 : ∀ {l : List (Nat × ChannelValue)}
        {F G : Coupler × List (List ChannelValue) → Nat × ChannelValue →
          Ex Coupler (Coupler × List (List ChannelValue))} {s}, (∀ x y, F x y = G x y) →
        r_loop l s F = r_loop l s G := by
      intro l F G s hFG
      rw [show F = G from funext fun x => funext fun y => hFG x y]
    rw [h2 (G := _) ?_, h.1]
    · generalize Imp.channelLoop n 0 o f = r at h
      obtain ⟨f', r⟩ := r
      obtain ⟨-, h3, h4⟩ := h
      simp only at h3 h4
      cases r with
      | ok _ => simp only [toEx2, toEx, vars, ex_bind_ok, h3, h4]
      | err e => rfl
      | panic => rfl
    · intro x y
      simp only [r_get, r_remove]
      cases Imp.HMap.get x.1.write ⟨n, y.1⟩ with
      | none => rfl
      | some v =>
        simp only
        cases Imp.assign x.2 n y.1 v <;> rfl
  | some p =>
    rw [show r_get (embed f.self).processors n = some p from hp]
    simp only [Imp.Stm.eval_bind]
    cases idx i 0 with
    | err e => rfl
    | panic => rfl
    | ok v =>
    cases v with
    | comRsIn iv =>
      simp only [ex_at_ok, ex_bind_ok, Imp.Stm.eval_bind]
      cases idx o 0 with
      | err e => rfl
      | panic => rfl
      | ok v =>
      cases v with
      | comRsOut ov =>
        simp only [ex_at_ok, ex_bind_ok, Imp.serialBody_eq]
        rw [serial_mid iv ov (p := p) (by exact hp)]
        simp only [r_get, r_remove, r_insert]
        have hb : ∀ {α : Type} (c : Bool) (d : Decidable (c = true)) (x y : α),
            @ite (Ex Coupler α) (c = true) d (.ok x) (.ok y) = .ok (if c then x else y) := by
          intro α c d x y
          cases c <;> simp
        simp only [hb, ex_bind_ok]
        cases hw : Imp.HMap.get f.self.write ⟨n, 0⟩ with
        | none =>
          simp only [ex_bind_ok]
          rw [serial_tail iv ov (p := p) (by exact hp)]
          cases Imp.assign f.nextOut n 0 (.comRsOut (p.next iv ov).2) <;> rfl
        | some v =>
          cases v with
          | bytes data =>
            simp only [ex_bind_ok]
            rw [serial_tail iv ov (p := (p.write data).1) (by simp [Imp.HMap.get_insert])]
            cases Imp.assign f.nextOut n 0 (.comRsOut ((p.write data).1.next iv ov).2) <;> rfl
          | _ =>
            simp only [ex_bind_ok]
            rw [serial_tail iv ov (p := p) (by exact hp)]
            cases Imp.assign f.nextOut n 0 (.comRsOut (p.next iv ov).2) <;> rfl
      | _ => rfl
    | _ => rfl

end Ur20.Src.ur20_fbc_mod_tcp
