import Verif.Lemmas.Source
import Verif.Source.Ur20_1com_232_485_422
import Verif.Source.Ur20_4ai_tc_diag

/-!
The tables of the translated source (`src/lib.rs` and the enumerations of parameters) are those of
the model.
-/

namespace Ur20.Src

/-! Choices by a table -/

/-- The first entry of a table that fits. -/
def chain {α β : Type} (f : α → Bool) (e : Error) : List (α × β) → Res β
  | [] => .err e
  | p :: l => if f p.1 then .ok p.2 else chain f e l

theorem chain_eq {α β : Type} (f : α → Bool) (e : Error) (l : List (α × β)) :
    chain f e l = (l.find? fun p => f p.1).elim (.err e) fun p => .ok p.2 := by
  induction l with
  | nil => rfl
  | cons p l ih =>
    simp only [List.find?_cons, chain]
    cases f p.1
    · simpa using ih
    · rfl

theorem beq_toNat {n : Nat} (a b : BitVec n) : (a == b) = (b.toNat == a.toNat) := by
  rw [Bool.eq_iff_iff]; simp only [beq_iff_eq, BitVec.toNat_eq]; exact eq_comm

theorem try_from_u32_eq (oc : Bool) (id : BitVec 32) :
    lib.ModuleType.try_from_u32 oc id = ModuleType.tryFromU32 id := by
  unfold ModuleType.tryFromU32
  refine Eq.trans ?_ (Eq.trans (chain_eq (fun k => k == id.toNat) .unknownModule ModuleType.idTable) (by
    split <;> rename_i h <;> simp only [h, Option.elim_some, Option.elim_none]))
  simp only [ModuleType.idTable, chain, lib.ModuleType.try_from_u32, beq_toNat, Res.pure_eq]
  rfl

theorem replace_eq (up : Char → List Char) (s : String) :
    r_replace (r_to_uppercase up s) '-' "_" = ModuleType.normalise up s := by
  simp only [r_replace, r_to_uppercase, ModuleType.normalise, String.toList_ofList]
  congr 1
  induction s.toList.flatMap up with
  | nil => rfl
  | cons c l ih =>
    rw [List.flatMap_cons, ih, List.map_cons]
    by_cases h : c = '-' <;> simp [h]

theorem beq_swap {β : Type} (l : List (String × β)) (t : String) :
    l.find? (fun p => p.1 == t) = l.find? (fun p => t == p.1) := by
  congr 1; funext p; exact Bool.beq_comm

theorem from_str_eq (oc : Bool) (s : String) (up : Char → List Char) :
    lib.ModuleType.from_str oc s up = ModuleType.fromStr up s := by
  unfold ModuleType.fromStr lib.ModuleType.from_str
  rw [replace_eq]
  generalize ModuleType.normalise up s = t
  rw [beq_swap]
  refine Eq.trans ?_ (Eq.trans (chain_eq (fun k => t == k) .unknownModule ModuleType.nameTable) (by
    split <;> rename_i h <;> simp only [h, Option.elim_some, Option.elim_none]))
  simp only [ModuleType.nameTable, chain, Res.pure_eq]

theorem category_from_str_eq (oc : Bool) (s : String) (up : Char → List Char) :
    lib.ModuleCategory.from_str oc s up = ModuleCategory.fromStr up s := by
  unfold ModuleCategory.fromStr lib.ModuleCategory.from_str r_to_uppercase
  generalize String.ofList (s.toList.flatMap up) = t
  rw [beq_swap]
  refine Eq.trans ?_ (Eq.trans (chain_eq (fun k => t == k) .unknownCategory
    ModuleCategory.nameTable) (by
    split <;> rename_i h <;> simp only [h, Option.elim_some, Option.elim_none]))
  simp only [ModuleCategory.nameTable, chain, Res.pure_eq]

/-! Codes of parameters -/

theorem DataFormat_from_u16 (w : Word) : FromPrimitive.from_u16 w = DataFormat.fromU16 w := by
  simp only [FromPrimitive.from_u16, lookup_code, DataFormat.fromU16]
  generalize w.toNat = n
  iterate 2 (rcases n with _ | n; · rfl)
  rfl

theorem DataFormat_to_u16 (x : DataFormat) : ToPrimitive.to_u16 x = x.toU16 := by
  cases x <;> rfl

theorem AnalogUIRange_from_u16 (w : Word) : FromPrimitive.from_u16 w = AnalogUIRange.fromU16 w := by
  simp only [FromPrimitive.from_u16, lookup_code, AnalogUIRange.fromU16]
  generalize w.toNat = n
  iterate 9 (rcases n with _ | n; · rfl)
  rfl

theorem AnalogUIRange_to_u16 (x : AnalogUIRange) : ToPrimitive.to_u16 x = x.toU16 := by
  cases x <;> rfl

theorem AnalogIRange_from_u16 (w : Word) : FromPrimitive.from_u16 w = AnalogIRange.fromU16 w := by
  simp only [FromPrimitive.from_u16, lookup_code, AnalogIRange.fromU16]
  generalize w.toNat = n
  iterate 3 (rcases n with _ | n; · rfl)
  rfl

theorem AnalogIRange_to_u16 (x : AnalogIRange) : ToPrimitive.to_u16 x = x.toU16 := by
  cases x <;> rfl

theorem RtdRange_from_u16 (w : Word) : FromPrimitive.from_u16 w = RtdRange.fromU16 w := by
  simp only [FromPrimitive.from_u16, lookup_code, RtdRange.fromU16]
  generalize w.toNat = n
  iterate 19 (rcases n with _ | n; · rfl)
  rfl

theorem RtdRange_to_u16 (x : RtdRange) : ToPrimitive.to_u16 x = x.toU16 := by
  cases x <;> rfl

theorem TemperatureUnit_from_u16 (w : Word) : FromPrimitive.from_u16 w = TemperatureUnit.fromU16 w := by
  simp only [FromPrimitive.from_u16, lookup_code, TemperatureUnit.fromU16]
  generalize w.toNat = n
  iterate 3 (rcases n with _ | n; · rfl)
  rfl

theorem TemperatureUnit_to_u16 (x : TemperatureUnit) : ToPrimitive.to_u16 x = x.toU16 := by
  cases x <;> rfl

theorem ConnectionType_from_u16 (w : Word) : FromPrimitive.from_u16 w = ConnectionType.fromU16 w := by
  simp only [FromPrimitive.from_u16, lookup_code, ConnectionType.fromU16]
  generalize w.toNat = n
  iterate 3 (rcases n with _ | n; · rfl)
  rfl

theorem ConnectionType_to_u16 (x : ConnectionType) : ToPrimitive.to_u16 x = x.toU16 := by
  cases x <;> rfl

theorem ConversionTime_from_u16 (w : Word) : FromPrimitive.from_u16 w = ConversionTime.fromU16 w := by
  simp only [FromPrimitive.from_u16, lookup_code, ConversionTime.fromU16]
  generalize w.toNat = n
  iterate 6 (rcases n with _ | n; · rfl)
  rfl

theorem ConversionTime_to_u16 (x : ConversionTime) : ToPrimitive.to_u16 x = x.toU16 := by
  cases x <;> rfl

theorem InputFilter_from_u16 (w : Word) : FromPrimitive.from_u16 w = InputFilter.fromU16 w := by
  simp only [FromPrimitive.from_u16, lookup_code, InputFilter.fromU16]
  generalize w.toNat = n
  iterate 17 (rcases n with _ | n; · rfl)
  rfl

theorem InputFilter_to_u16 (x : InputFilter) : ToPrimitive.to_u16 x = x.toU16 := by
  cases x <;> rfl

theorem InputDelay_from_u16 (w : Word) : FromPrimitive.from_u16 w = InputDelay.fromU16 w := by
  simp only [FromPrimitive.from_u16, lookup_code, InputDelay.fromU16]
  generalize w.toNat = n
  iterate 6 (rcases n with _ | n; · rfl)
  rfl

theorem InputDelay_to_u16 (x : InputDelay) : ToPrimitive.to_u16 x = x.toU16 := by
  cases x <;> rfl

theorem FrequencySuppression_from_u16 (w : Word) : FromPrimitive.from_u16 w = FrequencySuppression.fromU16 w := by
  simp only [FromPrimitive.from_u16, lookup_code, FrequencySuppression.fromU16]
  generalize w.toNat = n
  iterate 4 (rcases n with _ | n; · rfl)
  rfl

theorem FrequencySuppression_to_u16 (x : FrequencySuppression) : ToPrimitive.to_u16 x = x.toU16 := by
  cases x <;> rfl

theorem OperatingMode_from_u16 (w : Word) : FromPrimitive.from_u16 w = OperatingMode.fromU16 w := by
  simp only [FromPrimitive.from_u16, lookup_code, OperatingMode.fromU16]
  generalize w.toNat = n
  iterate 4 (rcases n with _ | n; · rfl)
  rfl

theorem OperatingMode_to_u16 (x : OperatingMode) : ToPrimitive.to_u16 x = x.toU16 := by
  cases x <;> rfl

theorem DataBits_from_u16 (w : Word) : FromPrimitive.from_u16 w = DataBits.fromU16 w := by
  simp only [FromPrimitive.from_u16, lookup_code, DataBits.fromU16]
  generalize w.toNat = n
  iterate 2 (rcases n with _ | n; · rfl)
  rfl

theorem DataBits_to_u16 (x : DataBits) : ToPrimitive.to_u16 x = x.toU16 := by
  cases x <;> rfl

theorem BaudRate_from_u16 (w : Word) : FromPrimitive.from_u16 w = BaudRate.fromU16 w := by
  simp only [FromPrimitive.from_u16, lookup_code, BaudRate.fromU16]
  generalize w.toNat = n
  iterate 12 (rcases n with _ | n; · rfl)
  rfl

theorem BaudRate_to_u16 (x : BaudRate) : ToPrimitive.to_u16 x = x.toU16 := by
  cases x <;> rfl

theorem StopBit_from_u16 (w : Word) : FromPrimitive.from_u16 w = StopBit.fromU16 w := by
  simp only [FromPrimitive.from_u16, lookup_code, StopBit.fromU16]
  generalize w.toNat = n
  iterate 2 (rcases n with _ | n; · rfl)
  rfl

theorem StopBit_to_u16 (x : StopBit) : ToPrimitive.to_u16 x = x.toU16 := by
  cases x <;> rfl

theorem Parity_from_u16 (w : Word) : FromPrimitive.from_u16 w = Parity.fromU16 w := by
  simp only [FromPrimitive.from_u16, lookup_code, Parity.fromU16]
  generalize w.toNat = n
  iterate 3 (rcases n with _ | n; · rfl)
  rfl

theorem Parity_to_u16 (x : Parity) : ToPrimitive.to_u16 x = x.toU16 := by
  cases x <;> rfl

theorem FlowControl_from_u16 (w : Word) : FromPrimitive.from_u16 w = FlowControl.fromU16 w := by
  simp only [FromPrimitive.from_u16, lookup_code, FlowControl.fromU16]
  generalize w.toNat = n
  iterate 3 (rcases n with _ | n; · rfl)
  rfl

theorem FlowControl_to_u16 (x : FlowControl) : ToPrimitive.to_u16 x = x.toU16 := by
  cases x <;> rfl

theorem ProcessDataLength_from_u16 (w : Word) : FromPrimitive.from_u16 w = ProcessDataLength.fromU16 w := by
  simp only [FromPrimitive.from_u16, lookup_code, ProcessDataLength.fromU16]
  generalize w.toNat = n
  iterate 2 (rcases n with _ | n; · rfl)
  rfl

theorem ProcessDataLength_to_u16 (x : ProcessDataLength) : ToPrimitive.to_u16 x = x.toU16 := by
  cases x <;> rfl

theorem TcRange_from_u16 (w : Word) : FromPrimitive.from_u16 w = TcRange.fromU16 w := by
  simp only [FromPrimitive.from_u16, lookup_code, TcRange.fromU16]
  generalize w.toNat = n
  iterate 20 (rcases n with _ | n; · rfl)
  rfl

theorem TcRange_to_u16 (x : TcRange) : ToPrimitive.to_u16 x = x.toU16 := by
  cases x <;> rfl

theorem ColdJunctionCompensation_from_u16 (w : Word) : FromPrimitive.from_u16 w = ColdJunctionCompensation.fromU16 w := by
  simp only [FromPrimitive.from_u16, lookup_code, ColdJunctionCompensation.fromU16]
  generalize w.toNat = n
  iterate 5 (rcases n with _ | n; · rfl)
  rfl

theorem ColdJunctionCompensation_to_u16 (x : ColdJunctionCompensation) : ToPrimitive.to_u16 x = x.toU16 := by
  cases x <;> rfl

end Ur20.Src
