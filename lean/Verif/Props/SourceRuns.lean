import Verif.Spec.SourceRuns
import Verif.Spec.SourceModules
import Verif.Props.Source
import Verif.Props.SourceTables
import Verif.Props.Setup
import Verif.Props.Failure
import Verif.Props.Channels
import Verif.Props.Loop
import Verif.Props.Account

/-!
# C137: guarantees of the translated source

The main guarantees, stated of the functions of the translated source (`Verif/Source`) only. They
follow from those of the model by C134–C136.
-/

namespace Ur20

open Spec

open Src.ur20_fbc_mod_tcp (embed new_eq)

open scoped List

namespace Src

theorem call_apply (oc : Bool) (d : Ur20.Coupler) (op : COp) :
    (Spec.call oc d op).1 = op.apply oc d := by
  cases op with
  | setOutput a v => rfl
  | next i o => rfl
  | write n buf => rfl
  | read n len =>
    simp only [Spec.call, COp.apply]
    cases d.read n len <;> rfl

theorem call_model (oc : Bool) {i : Imp.Coupler} {d : Ur20.Coupler} (h : Imp.SameC i d)
    (ord : Imp.Orders) (fill : Nat → Byte) (op : COp) :
    (Spec.Src.call oc (embed i) ord fill op).2 = (Spec.call oc d op).2 ∧
      ((Spec.call oc d op).2.panicked = false → ∃ i', Imp.SameC i' (op.apply oc d) ∧
        (Spec.Src.call oc (embed i) ord fill op).1 = embed i') := by
  obtain ⟨a1, a2⟩ := Src.call_same oc i ord fill op
  obtain ⟨b1, b2⟩ := Imp.call_same oc h ord op
  refine ⟨a1.trans b1, fun hp => ?_⟩
  have h3 := b2 hp
  rw [call_apply] at h3
  exact ⟨_, h3, a2 (b1 ▸ hp)⟩

theorem reaches_model {oc : Bool} {cfg : CouplerConfig} {ops : List COp}
    {c : Src.ur20_fbc_mod_tcp.Coupler} (h : Spec.Src.Reaches oc cfg ops c) :
    ∃ d0 i, Ur20.Coupler.new cfg = .ok d0 ∧ c = embed i ∧ Imp.SameC i (runC oc d0 ops) := by
  induction h with
  | @new c h =>
    rw [new_eq] at h
    have hs := Imp.new_same cfg
    cases hn : Ur20.Coupler.new cfg with
    | err e => rw [hn] at hs; rw [hs] at h; cases h
    | panic => rw [hn] at hs; rw [hs] at h; cases h
    | ok d0 =>
      rw [hn] at hs
      obtain ⟨i, h1, h2⟩ := hs
      rw [h1] at h
      cases h
      exact ⟨d0, i, rfl, rfl, h2⟩
  | @call ops c _ ord fill op hp ih =>
    obtain ⟨d0, i, h0, rfl, hs⟩ := ih
    obtain ⟨h1, h2⟩ := call_model oc hs ord fill op
    rw [h1] at hp
    obtain ⟨i', h3, h4⟩ := h2 hp
    refine ⟨d0, i', h0, h4, ?_⟩
    unfold runC at h3 ⊢
    rw [List.foldl_append]
    exact h3

theorem next_call (oc : Bool) (c : Src.ur20_fbc_mod_tcp.Coupler) (ord : Imp.Orders)
    (fill : Nat → Byte) (pi po : List Word) {c' : Src.ur20_fbc_mod_tcp.Coupler} {img : List Word} :
    ur20_fbc_mod_tcp.Coupler.next oc c pi po ord.inOrd ord.outOrd = .ok (c', img) ↔
      Spec.Src.call oc c ord fill (.next pi po) = (c', .next (.ok img)) := by
  simp only [Spec.Src.call]
  cases ur20_fbc_mod_tcp.Coupler.next oc c pi po ord.inOrd ord.outOrd with
  | ok r => obtain ⟨a, b⟩ := r; simp [Spec.Src.outcome]
  | err e s => simp [Spec.Src.outcome]
  | panic s => simp [Spec.Src.outcome]

theorem call_no_panic (oc : Bool) (d : Ur20.Coupler) (op : COp) (h : op.IsCall) :
    (Spec.call oc d op).2.panicked = false := by
  cases op with
  | next i o => cases h
  | write n buf => rfl
  | setOutput a v =>
    simp only [Spec.call, Ur20.Coupler.setOutput]
    split <;> rfl
  | read n len =>
    simp only [Spec.call, Ur20.Coupler.read]
    cases d.processors n with
    | none => rfl
    | some p => simp only [read_ok, Res.bind_ok]; rfl

theorem calls_model (oc : Bool) (ord : Nat → Imp.Orders) (fill : Nat → Nat → Byte)
    (ops : List COp) : ∀ (k : Nat) {i : Imp.Coupler} {d : Ur20.Coupler}, Imp.SameC i d →
      (∀ op ∈ ops, op.IsCall) →
      ∃ i', Imp.SameC i' (runC oc d ops) ∧ Spec.Src.calls oc ord fill k (embed i) ops = embed i' := by
  induction ops with
  | nil => intro k i d h _; exact ⟨i, h, rfl⟩
  | cons op ops ih =>
    intro k i d h hc
    obtain ⟨-, h2⟩ := call_model oc h (ord k) (fill k) op
    obtain ⟨i1, h3, h4⟩ := h2 (call_no_panic oc d op (hc op (by simp)))
    obtain ⟨i2, h5, h6⟩ := ih (k + 1) h3 fun o ho => hc o (by simp [ho])
    exact ⟨i2, h5, by rw [Spec.Src.calls, h4, h6]⟩

theorem loop_model (oc : Bool) (ord : Nat → Imp.Orders) (fill : Nat → Nat → Byte)
    (rounds : List (List COp × List Word)) :
    ∀ (k : Nat) (po : List Word) {i : Imp.Coupler} {d : Ur20.Coupler}, Imp.SameC i d →
      (∀ r ∈ rounds, ∀ op ∈ r.1, op.IsCall) →
      match closedLoop oc d po rounds with
      | some (d', po') => ∃ i', Imp.SameC i' d' ∧
          Spec.Src.closedLoop oc ord fill k (embed i) po rounds = some (embed i', po')
      | none => Spec.Src.closedLoop oc ord fill k (embed i) po rounds = none := by
  induction rounds with
  | nil => intro k po i d h _; exact ⟨i, h, rfl⟩
  | cons r rounds ih =>
    obtain ⟨calls, pi⟩ := r
    intro k po i d h hc
    obtain ⟨i1, h1, h2⟩ := calls_model oc ord fill calls k h (hc (calls, pi) (by simp))
    obtain ⟨h3, h4⟩ := call_model oc h1 (ord (k + calls.length)) (fill 0) (.next pi po)
    simp only [closedLoop, Spec.Src.closedLoop, h2]
    simp only [Spec.Src.call, Spec.call, COp.apply] at h3 h4
    generalize ur20_fbc_mod_tcp.Coupler.next oc (embed i1) pi po _ _ = x at h3 h4 ⊢
    generalize (runC oc d calls).next oc pi po = y at h3 h4 ⊢
    obtain ⟨d1, y⟩ := y
    cases y with
    | ok img =>
      obtain ⟨i2, h5, h6⟩ := h4 rfl
      cases x with
      | ok x =>
        obtain ⟨c1, img'⟩ := x
        simp only [Spec.Src.outcome, Ret.next.injEq, Res.ok.injEq] at h3 h6
        subst h3
        subst h6
        exact ih _ _ h5 fun r hr => hc r (by simp [hr])
      | err e s => cases h3
      | panic s => cases h3
    | err e => cases x with
      | ok x => cases h3
      | err e s => rfl
      | panic s => rfl
    | panic => cases x with
      | ok x => cases h3
      | err e s => rfl
      | panic s => rfl

theorem readFrom_trace (oc : Bool) (j : Nat) (ops : List COp) : ∀ d : Ur20.Coupler,
    (∀ s ∈ trace oc d ops, s.result.panicked = false) →
    readFrom oc j d ops = readIn j ops (trace oc d ops) := by
  induction ops with
  | nil => intro d _; rfl
  | cons op ops ih =>
    intro d h
    simp only [trace] at h ⊢
    cases hp : (Spec.call oc d op).2.panicked with
    | true => simp [hp] at h
    | false =>
      simp only [hp, Bool.false_eq_true, if_false, List.mem_cons, forall_eq_or_imp] at h ⊢
      rw [readIn, ← ih _ h.2, call_apply]
      refine congrArg (· ++ _) ?_
      cases op with
      | read n k =>
        simp only [Spec.call]
        cases d.read n k with
        | ok r => obtain ⟨_, r⟩ := r; cases r <;> simp [readOf]
        | err e => simp [readOf]
        | panic => simp [readOf]
      | next pi po => rfl
      | setOutput a v => rfl
      | write n b => rfl

theorem sentBy_trace (oc : Bool) (outF : List Word → Option RsOut) (ops : List COp) :
    ∀ d : Ur20.Coupler, (∀ s ∈ trace oc d ops, s.result.panicked = false) →
    sentBy oc outF d ops = sentIn outF ops (trace oc d ops) := by
  induction ops with
  | nil => intro d _; rfl
  | cons op ops ih =>
    intro d h
    simp only [trace] at h ⊢
    cases hp : (Spec.call oc d op).2.panicked with
    | true => simp [hp] at h
    | false =>
      simp only [hp, Bool.false_eq_true, if_false, List.mem_cons, forall_eq_or_imp] at h ⊢
      rw [sentIn, ← ih _ h.2, call_apply]
      refine congrArg (· ++ _) ?_
      cases op with
      | next pi po => rfl
      | read n k => simp only [Spec.call]; cases d.read n k <;> rfl
      | setOutput a v => rfl
      | write n b => rfl

theorem decodedReturn_trace (oc : Bool) (cfg : CouplerConfig) (ops : List COp) :
    ∀ d : Ur20.Coupler, (∀ s ∈ trace oc d ops, s.result.panicked = false) →
    DecodedReturned cfg ops (trace oc d ops) → DecodedReturn oc cfg d ops := by
  induction ops with
  | nil => intro d _ _; trivial
  | cons op ops ih =>
    intro d h hr
    simp only [trace] at h hr
    cases hp : (Spec.call oc d op).2.panicked with
    | true => simp [hp] at h
    | false =>
      simp only [hp, Bool.false_eq_true, if_false, List.mem_cons, forall_eq_or_imp,
        DecodedReturned, call_apply] at h hr
      refine ⟨fun pi po he hd => ?_, ih _ h.2 hr.2⟩
      subst he
      obtain ⟨img, hi⟩ := hr.1 pi po rfl hd
      exact ⟨img, by simpa [Spec.call] using hi⟩

theorem new_model {oc : Bool} {cfg : CouplerConfig} {c : Src.ur20_fbc_mod_tcp.Coupler}
    (h : ur20_fbc_mod_tcp.Coupler.new oc cfg = .ok c) :
    ∃ d i, Ur20.Coupler.new cfg = .ok d ∧ c = embed i ∧ Imp.SameC i d := by
  obtain ⟨d, i, h1, h2, h3⟩ := reaches_model (Spec.Src.Reaches.new h)
  exact ⟨d, i, h1, h2, h3⟩

theorem next_model {oc : Bool} {i : Imp.Coupler} {d : Ur20.Coupler} (hs : Imp.SameC i d)
    {ord : Imp.Orders} {pi po img : List Word} {c' : Src.ur20_fbc_mod_tcp.Coupler}
    (h : ur20_fbc_mod_tcp.Coupler.next oc (embed i) pi po ord.inOrd ord.outOrd = .ok (c', img)) :
    ∃ i' d', d.next oc pi po = (d', .ok img) ∧ c' = embed i' ∧ Imp.SameC i' d' := by
  obtain ⟨h1, h2⟩ := call_model oc hs ord (fun _ => 0#8) (.next pi po)
  rw [(next_call oc _ ord _ pi po).1 h] at h1 h2
  simp only [Spec.call, Ret.next.injEq, COp.apply] at h1 h2
  rw [← h1] at h2
  obtain ⟨i', h3, h4⟩ := h2 rfl
  exact ⟨i', _, by rw [h1], h4, h3⟩

end Src

/-- C137: an application sets up a coupler with the translated functions exactly if the registers
of the station describe its modules. The coupler then has these modules, with these settings and at
these addresses. -/
theorem C137_setup (oc : Bool) (mem : Nat → Word) (n : Nat) (hn : 1 ≤ n) (hn' : n ≤ 64) :
    ((∃ c, Spec.Src.setup oc mem n = .ok c) ↔ ∃ slots, slots.length = n ∧ Station mem slots) ∧
    ∀ slots, slots.length = n → Station mem slots →
      ∃ c, Spec.Src.setup oc mem n = .ok c ∧
        List.Forall₂ (fun m (s : Slot) => Spec.Src.SameMethods m s.settings) c.modules slots ∧
        c.offsets = slots.map (fun s => ⟨bitAddress s.input, bitAddress s.output⟩) ∧
        Src.ur20_fbc_mod_tcp.Coupler.inputs oc c = .ok [] ∧
        Src.ur20_fbc_mod_tcp.Coupler.outputs oc c = .ok [] := by
  have key : Spec.Src.setup oc mem n = (do
      let types ← moduleListFromRegisters (readRegisters mem addrCurrentModuleList.toNat (2 * n))
      let windows ← paramAddressesAndRegisterCounts oc types
      (Imp.new { modules := types
                 offsets := readRegisters mem addrModuleOffsets.toNat (2 * n)
                 params := windows.map fun w => readRegisters mem w.1.toNat w.2 }).map embed) := by
    simp only [Spec.Src.setup, Res.bind_eq, Src.ur20_fbc_mod_tcp.module_list_eq,
      Imp.moduleListFromRegisters_eq]
    refine Src.ur20_fbc_mod_tcp.bind_ext fun types => ?_
    rw [← Src.ur20_fbc_mod_tcp.param_addresses_eq]
    cases Src.ur20_fbc_mod_tcp.param_addresses_and_register_counts oc types with
    | err e => rfl
    | panic => rfl
    | ok w => simp only [Res.bind_ok, Res.map_ok, new_eq, List.map_map]; rfl
  have same : match setup oc mem n with
      | .ok d => ∃ i, Spec.Src.setup oc mem n = .ok (embed i) ∧ Imp.SameC i d
      | .err e => Spec.Src.setup oc mem n = .err e
      | .panic => Spec.Src.setup oc mem n = .panic := by
    rw [key]
    simp only [setup, Res.bind_eq]
    cases moduleListFromRegisters (readRegisters mem addrCurrentModuleList.toNat (2 * n)) with
    | err e => rfl
    | panic => rfl
    | ok types =>
      simp only [Res.bind_ok]
      cases paramAddressesAndRegisterCounts oc types with
      | err e => rfl
      | panic => rfl
      | ok windows =>
        simp only [Res.bind_ok]
        generalize CouplerConfig.mk _ _ _ = cfg
        have h := Imp.new_same cfg
        cases hn : Coupler.new cfg with
        | err e => rw [hn] at h; simp only [h]; rfl
        | panic => rw [hn] at h; simp only [h]; rfl
        | ok d =>
          rw [hn] at h
          obtain ⟨i, h1, h2⟩ := h
          simp only [h1]
          exact ⟨i, rfl, h2⟩
  obtain ⟨h1, h2⟩ := C103_setup oc mem n hn hn'
  refine ⟨?_, fun slots hl hst => ?_⟩
  · rw [← h1]
    cases hm : setup oc mem n with
    | ok d => rw [hm] at same; obtain ⟨i, h3, -⟩ := same; simp [h3]
    | err e => rw [hm] at same; simp [same]
    | panic => rw [hm] at same; simp [same]
  · obtain ⟨d, h3, h4, h5, h6, h7, -⟩ := h2 slots hl hst
    rw [h3] at same
    obtain ⟨i, h8, h9⟩ := same
    refine ⟨_, h8, ?_, h9.offsets.trans h5, ?_, ?_⟩
    · show List.Forall₂ _ (i.modules.map Src.dynOf) slots
      rw [h9.modules, h4, List.map_map, List.forall₂_map_left_iff, List.forall₂_same]
      exact fun s _ => ⟨rfl, rfl, rfl, fun _ => rfl, fun _ => rfl, fun _ => rfl⟩
    · show Res.ok i.inValues = _
      rw [h9.inValues]; exact congrArg Res.ok h6
    · show Res.ok i.outValues = _
      rw [h9.outValues]; exact congrArg Res.ok h7

/-- C137: exactly which calls panic, after any history without panics: cycles with overflow checks
compiled in whose input image is complete, if some module has an output offset before the output
area while the registers of all modules before it are in the output image. -/
theorem C137_panics (oc : Bool) (cfg : CouplerConfig) (ops : List COp)
    (c : Src.ur20_fbc_mod_tcp.Coupler) (h : Spec.Src.Reaches oc cfg ops c) (ord : Imp.Orders)
    (fill : Nat → Byte) (op : COp) :
    (Spec.Src.call oc c ord fill op).2.panicked = true ↔
      ∃ pi po, op = .next pi po ∧ oc = true ∧ InputsPresent cfg pi ∧
        ∃ j, BelowOutputs cfg j ∧ ∀ k, k < j → OutputPresent cfg po k := by
  obtain ⟨d0, i, h0, rfl, hs⟩ := Src.reaches_model h
  rw [(Src.call_model oc hs ord fill op).1]
  by_cases hop : op.IsCall
  · rw [Src.call_no_panic oc _ op hop]
    refine ⟨fun h => (by cases h), ?_⟩
    rintro ⟨pi, po, rfl, -⟩
    cases hop
  · cases op with
    | next pi po =>
      have h77 := C77_panics oc cfg _ ⟨d0, ops, h0, rfl⟩ pi po
      have hp : ∀ r : Res (List Word), (Ret.next r).panicked = true ↔ r = .panic := by
        intro r; cases r <;> simp [Ret.panicked]
      simp only [Spec.call, hp, h77]
      constructor
      · intro h; exact ⟨pi, po, rfl, h⟩
      · rintro ⟨_, _, heq, h⟩; cases heq; exact h
    | setOutput a v => exact absurd trivial hop
    | read n k => exact absurd trivial hop
    | write n b => exact absurd trivial hop

/-- C137: after a successful cycle, whatever was called before, `inputs()` shows the values of the
registers of every module that is not serial, decoded as its parameter words say. -/
theorem C137_inputs (oc : Bool) (cfg : CouplerConfig) (ops : List COp)
    (c : Src.ur20_fbc_mod_tcp.Coupler) (h : Spec.Src.Reaches oc cfg ops c) (ord : Imp.Orders)
    (pi po img : List Word) (c' : Src.ur20_fbc_mod_tcp.Coupler)
    (hn : Src.ur20_fbc_mod_tcp.Coupler.next oc c pi po ord.inOrd ord.outOrd = .ok (c', img))
    (j : Nat) (t : ModuleType) (par : List Word) (o i : Word) (hcfg : ConfiguredAt cfg j t par o i)
    (ht : t ≠ .UR20_1COM_232_485_422) (hi : i ≠ noOffset)
    (hal : i.toNat % 16 = 0 ∨ inputBytes t par = 1) :
    ∃ ins vs, Src.ur20_fbc_mod_tcp.Coupler.inputs oc c' = .ok ins ∧ ins[j]? = some vs ∧
      vs.length = inputChannels t ∧
      ∀ ch, ch < inputChannels t → ∃ v, vs[ch]? = some v ∧ InputShown t par pi i.toNat ch v := by
  obtain ⟨d0, im, h0, rfl, hs⟩ := Src.reaches_model h
  obtain ⟨i', d', h1, rfl, h3⟩ := Src.next_model hs hn
  obtain ⟨vs, h4, h5⟩ :=
    (C70_inputs oc cfg _ ⟨d0, ops, h0, rfl⟩ pi po img d' h1 j t par o i hcfg ht).2 hi hal
  exact ⟨_, vs, rfl, by
    show i'.inValues[j]? = some vs
    rw [h3.inValues]; exact h4, h5⟩

/-- C137: a loop that feeds the returned images back runs forever. If the first output image is
complete and the input images are, and only values the modules accept are written, then every cycle
succeeds. -/
theorem C137_loop (oc : Bool) (cfg : CouplerConfig) (c : Src.ur20_fbc_mod_tcp.Coupler)
    (h : Src.ur20_fbc_mod_tcp.Coupler.new oc cfg = .ok c)
    (po : List Word) (hpo : OutputsReady cfg po) (rounds : List (List COp × List Word))
    (hrounds : ∀ r ∈ rounds, AcceptedCalls cfg r.1 ∧ InputsReady cfg r.2)
    (ord : Nat → Imp.Orders) (fill : Nat → Nat → Byte) :
    ∃ c' po', Spec.Src.closedLoop oc ord fill 0 c po rounds = some (c', po') ∧
      OutputsReady cfg po' := by
  obtain ⟨d, i, h0, rfl, hs⟩ := Src.new_model h
  obtain ⟨d', po', h1, h2, -⟩ := C85_closed_loop oc cfg d h0 po hpo rounds hrounds
  have h3 := Src.loop_model oc ord fill rounds 0 po hs fun r hr => (hrounds r hr).1.1
  rw [h1] at h3
  obtain ⟨i', -, h4⟩ := h3
  exact ⟨_, _, h4, h2⟩

/-- C137: in such a loop every output channel holds the value of the last `set_output` to it, however
many rounds ago and whatever is written elsewhere; without one it holds what it held at the start. -/
theorem C137_holds_last (oc : Bool) (cfg : CouplerConfig) (c : Src.ur20_fbc_mod_tcp.Coupler)
    (h : Src.ur20_fbc_mod_tcp.Coupler.new oc cfg = .ok c) (j : Nat) (hdis : OutputsKept cfg j)
    (t : ModuleType) (par : List Word) (o i : Word) (hcfg : ConfiguredAt cfg j t par o i)
    (ht : t ≠ .UR20_1COM_232_485_422) (hno : o ≠ noOffset)
    (hal : o.toNat % 16 = 0 ∨ outputBytes t par = 1) (ch : Nat) (hch : ch < outputChannels t)
    (rounds : List (List COp × List Word)) (hcalls : ∀ r ∈ rounds, ∀ op ∈ r.1, op.IsCall)
    (ord : Nat → Imp.Orders) (fill : Nat → Nat → Byte)
    (c' : Src.ur20_fbc_mod_tcp.Coupler) (po po' : List Word)
    (hl : Spec.Src.closedLoop oc ord fill 0 c po rounds = some (c', po')) :
    (∀ v, lastSetIn ⟨j, ch⟩ rounds = some v → Settled t par po' (outBit o) ch v) ∧
    (∀ v, lastSetIn ⟨j, ch⟩ rounds = none → Settled t par po (outBit o) ch v →
      Settled t par po' (outBit o) ch v) := by
  obtain ⟨d, im, h0, rfl, hs⟩ := Src.new_model h
  have h3 := Src.loop_model oc ord fill rounds 0 po hs hcalls
  cases h1 : closedLoop oc d po rounds with
  | none => rw [h1] at h3; rw [h3] at hl; cases hl
  | some r =>
    obtain ⟨d', po1⟩ := r
    rw [h1] at h3
    obtain ⟨i', -, h4⟩ := h3
    rw [h4] at hl
    cases hl
    exact C86_holds_last oc cfg d h0 j hdis t par o i hcfg ht hno hal ch hch rounds hcalls d' po po' h1

section

variable (oc : Bool) (cfg : CouplerConfig) (c : Src.ur20_fbc_mod_tcp.Coupler)
  (h : Src.ur20_fbc_mod_tcp.Coupler.new oc cfg = .ok c)
  (j : Nat) (par : List Word) (o i : Word)
  (hcfg : ConfiguredAt cfg j .UR20_1COM_232_485_422 par o i) (ho : o ≠ noOffset)
  (hi : i ≠ noOffset) (hal : o.toNat % 16 = 0 ∧ i.toNat % 16 = 0) (ops : List COp)
  (hsz : ImagesSmall oc ops) (ord : Nat → Imp.Orders) (fill : Nat → Nat → Byte)
  (hp : ∀ s ∈ Spec.Src.trace oc ord fill 0 c ops, s.result.panicked = false)

include h hcfg ho hi hal hsz hp

/-- C137: whatever is called, what the reads from a serial module returned is the beginning of what
arrived in the images that could be decoded, in order and each frame once. -/
theorem C137_received :
    readIn j ops (Spec.Src.trace oc ord fill 0 c ops) <+:
      arrived cfg (inFrame (frameLength par) i) 0 none ops := by
  obtain ⟨d, im, h0, rfl, hs⟩ := Src.new_model h
  have ht : Spec.Src.trace oc ord fill 0 (embed im) ops = trace oc d ops :=
    (Src.trace_same oc ord fill ops 0 im).trans (Imp.trace_same oc ord ops 0 hs)
  rw [ht] at hp ⊢
  obtain ⟨rest, h1, -⟩ := C99_received oc cfg d h0 j par o i hcfg ho hi hal ops hsz
  rw [← Src.readFrom_trace oc j ops d hp]
  exact ⟨rest, h1⟩

/-- C137: if the cycles whose images can be decoded return an image, the data of the segments they
start are the beginning of what was given to the module. -/
theorem C137_sent (hdis : OutputsKept cfg j)
    (hret : DecodedReturned cfg ops (Spec.Src.trace oc ord fill 0 c ops)) :
    sentIn (outFrame (frameLength par) o) ops (Spec.Src.trace oc ord fill 0 c ops) <+:
      given cfg j none ops := by
  obtain ⟨d, im, h0, rfl, hs⟩ := Src.new_model h
  have ht : Spec.Src.trace oc ord fill 0 (embed im) ops = trace oc d ops :=
    (Src.trace_same oc ord fill ops 0 im).trans (Imp.trace_same oc ord ops 0 hs)
  rw [ht] at hp hret ⊢
  obtain ⟨p, -, h1⟩ := C99_sent oc cfg d h0 j par o i hcfg ho hi hal ops hsz hdis
    (Src.decodedReturn_trace oc cfg ops d hp hret)
  rw [← Src.sentBy_trace oc _ ops d hp]
  exact ⟨_, h1⟩

/-- C137: whatever cycles fail, nothing is sent that was not given to the module, nothing twice and
nothing out of order. -/
theorem C137_sent_once (hdis : OutputsKept cfg j) :
    sentIn (outFrame (frameLength par) o) ops (Spec.Src.trace oc ord fill 0 c ops) <+
      given cfg j none ops := by
  obtain ⟨d, im, h0, rfl, hs⟩ := Src.new_model h
  have ht : Spec.Src.trace oc ord fill 0 (embed im) ops = trace oc d ops :=
    (Src.trace_same oc ord fill ops 0 im).trans (Imp.trace_same oc ord ops 0 hs)
  rw [ht] at hp ⊢
  obtain ⟨p, -, h1⟩ := C99_sent_once oc cfg d h0 j par o i hcfg ho hi hal ops hsz hdis
  rw [← Src.sentBy_trace oc _ ops d hp]
  exact (List.sublist_append_left _ _).trans h1

end

/-- The station of the example of C103 is set up. -/
example : (Spec.Src.setup true exStation 2).map (fun c => (c.offsets, c.modules.map (·.module_type))) =
    .ok ([⟨some 0x0010#16, none⟩, ⟨none, some 0x8000#16⟩],
      [.ok .UR20_4DI_P, .ok .UR20_4DO_P]) ∧ Station exStation exSlots :=
  ⟨by decide +kernel, exSlots_station⟩

/-- The coupler of the example configuration. -/
def exSource : Src.ur20_fbc_mod_tcp.Coupler :=
  match Src.ur20_fbc_mod_tcp.Coupler.new true exCfg with
  | .ok c => c
  | _ => ⟨[], [], [], [], [], [], 0⟩

theorem exSource_new : Src.ur20_fbc_mod_tcp.Coupler.new true exCfg = .ok exSource := by
  have h : ∃ c, Src.ur20_fbc_mod_tcp.Coupler.new true exCfg = .ok c := ⟨_, rfl⟩
  obtain ⟨c, h⟩ := h
  unfold exSource
  rw [h]

/-- What is seen of the history of the example of C99: no panic, an error in the first cycle, a byte
read, and the bytes sent. -/
example :
    let tr := Spec.Src.trace true (fun _ => exBackward) (fun k i => BitVec.ofNat 8 (k + i)) 0
      exSource exAccount
    tr.length = 8 ∧ (tr.all fun s => !s.result.panicked) = true ∧
    tr[0]?.map (·.result) = some (.next (.err .bufferLength)) ∧
    readIn 3 exAccount tr = [7] ∧
    sentIn (outFrame .EightBytes 0x8010#16) exAccount tr = [1, 2, 3, 4] := by
  decide +kernel

/-- The cycles of this history whose images can be decoded return an image. -/
theorem exAccount_returned : DecodedReturned exCfg exAccount
    (Spec.Src.trace true (fun _ => exBackward) (fun k i => BitVec.ofNat 8 (k + i)) 0 exSource
      exAccount) := by
  have h : ∀ (l : List Seen), l.map (fun s => match s.result with | .next (.ok _) => true | _ => false) =
      [false, false, true, false, true, true, false, true] →
      DecodedReturned exCfg exAccount l := by
    intro l hl
    · simp only [List.map_eq_cons_iff, List.map_eq_nil_iff] at hl
      obtain ⟨a0, _, rfl, -, a1, _, rfl, -, a2, _, rfl, h2, a3, _, rfl, -, a4, _, rfl, h4,
        a5, _, rfl, h5, a6, _, rfl, -, a7, _, rfl, h7, rfl⟩ := hl
      have key : ∀ s : Seen, (match s.result with | .next (.ok _) => true | _ => false) = true →
          ∃ img, s.result = .next (.ok img) := by
        intro s hs
        split at hs
        · exact ⟨_, by assumption⟩
        · cases hs
      refine ⟨?_, ?_, ?_, ?_, ?_, ?_, ?_, ?_, trivial⟩
      · rintro pi po h hd
        cases h
        exact absurd hd exFrame_fails
      · rintro pi po h; cases h
      · exact fun _ _ _ _ => key _ h2
      · rintro pi po h; cases h
      · exact fun _ _ _ _ => key _ h4
      · exact fun _ _ _ _ => key _ h5
      · rintro pi po h; cases h
      · exact fun _ _ _ _ => key _ h7
  exact h _ (by decide +kernel)

/-- The three rounds of the example of C85 run, and the bit set in the first is set at the end. -/
example : (Spec.Src.closedLoop true (fun _ => exForward) (fun _ _ => 0#8) 0 exSource
      (List.replicate 5 0#16) exRounds).map (fun r => (r.2.length, bitAt r.2 10)) =
    some (5, some true) := by
  decide +kernel

/-- With an output offset before the output area a cycle panics in debug builds and not in release
builds. -/
example : (match Src.ur20_fbc_mod_tcp.Coupler.new true ⟨[.UR20_4DO_P], [0x7FF0#16, 0xFFFF#16],
        [List.replicate 4 0#16]⟩ with
      | .ok c => (Spec.Src.call true c exForward (fun _ => 0#8) (.next [] [0#16])).2.panicked
      | _ => false) = true ∧
    (match Src.ur20_fbc_mod_tcp.Coupler.new false ⟨[.UR20_4DO_P], [0x7FF0#16, 0xFFFF#16],
        [List.replicate 4 0#16]⟩ with
      | .ok c => (Spec.Src.call false c exForward (fun _ => 0#8) (.next [] [0#16])).2.panicked
      | _ => true) = false := by
  decide +kernel

/-- A cycle after a cycle, for C137_inputs. -/
example : ∃ c' img, Src.ur20_fbc_mod_tcp.Coupler.next true exSource exPi exPo exForward.inOrd
    exForward.outOrd = .ok (c', img) ∧
    Src.ur20_fbc_mod_tcp.Coupler.inputs true c' =
      .ok [[.none, .none, .none, .none], List.replicate 8 .none,
        [.bit false, .bit true, .bit false, .bit true], [.none]] := ⟨_, _, rfl, by decide +kernel⟩

end Ur20
