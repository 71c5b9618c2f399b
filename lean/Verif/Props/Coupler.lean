import Verif.Lemmas.Coupler
import Verif.Props.Image
import Verif.Props.Params

/-! # Construction and state of a coupler: C07, C13, C14, C31, C32, C37–C40, C43 -/

namespace Ur20

open Spec Com Coupler

/-! ### C07 -/

/-- C07 for input data. -/
def C07_statement : Prop :=
  ∀ (m : Module) (ws : List Word) (vs : List ChannelValue),
    m.processInputData ws = .ok vs → vs.length = m.moduleType.channelCount

/-- C07 does not hold for the safety module, which has no channels but decodes to one value. -/
theorem C07_statement_false : ¬ C07_statement := by
  intro h
  have := h .sil [0#16, 0#16] _ rfl
  revert this
  decide

/-- C07 for the input data of all other modules; the safety module always yields one value. -/
theorem C07_input_partial (m : Module) (ws : List Word) (vs : List ChannelValue)
    (h : m.processInputData ws = .ok vs) :
    (m ≠ .sil → vs.length = m.moduleType.channelCount) ∧ (m = .sil → vs.length = 1) := by
  have := Module.processInputData_length m ws vs h
  constructor
  · intro hm; rw [this, if_neg hm]
  · intro hm; rw [this, if_pos hm]

/-- C07 for output data, all modules. -/
theorem C07_output (m : Module) (ws : List Word) (vs : List ChannelValue)
    (h : m.processOutputData ws = .ok vs) : vs.length = m.moduleType.channelCount :=
  Module.processOutputData_length m ws vs h

example : (Module.di ⟨.UR20_4DI_P, []⟩).processInputData [5#16] =
    .ok [.bit true, .bit false, .bit true, .bit false] := by decide
example : ∃ vs, Module.do16.processOutputData [0xA0A0#16] = .ok vs ∧ vs.length = 16 :=
  ⟨_, rfl, rfl⟩

/-! ### C13 -/

theorem mapRes_first {α β : Type} {f : α → Res β} {l : List α} {i : Nat} {a : α}
    (hi : l[i]? = some a) (hb : ∀ (k : Nat) (x : α), k < i → l[k]? = some x → ∃ b, f x = .ok b) :
    (∀ e, f a = .err e → mapRes f l = .err e) ∧ (f a = .panic → mapRes f l = .panic) := by
  induction l generalizing i with
  | nil => simp at hi
  | cons x l ih =>
    cases i with
    | zero =>
      simp only [List.getElem?_cons_zero, Option.some.injEq] at hi
      subst hi
      constructor
      · intro e he; simp [mapRes_cons, he]
      · intro he; simp [mapRes_cons, he]
    | succ i =>
      rw [List.getElem?_cons_succ] at hi
      obtain ⟨b, hx⟩ := hb 0 x (by omega) rfl
      obtain ⟨h1, h2⟩ := ih hi fun k y hk hy => hb (k + 1) y (by omega) (by simpa using hy)
      constructor
      · intro e he; simp [mapRes_cons, hx, h1 e he]
      · intro he; simp [mapRes_cons, hx, h2 he]

/-- C13: the two length checks, in this order. -/
theorem C13_lengths (cfg : CouplerConfig) :
    (cfg.modules.length ≠ cfg.params.length → Coupler.new cfg = .err .bufferLength) ∧
    (cfg.modules.length = cfg.params.length → 2 * cfg.modules.length ≠ cfg.offsets.length →
      Coupler.new cfg = .err .moduleOffset) := by
  rw [new_eq]
  refine ⟨fun h => by rw [if_pos h], fun h1 h2 => ?_⟩
  rw [if_neg (by simpa using h1), if_pos (by omega)]

/-- C13: if the lengths match and module `i` is the first whose parameters are not acceptable,
its error is returned; the first unsupported module type panics. -/
theorem C13_first_error (cfg : CouplerConfig) (h1 : cfg.modules.length = cfg.params.length)
    (h2 : 2 * cfg.modules.length = cfg.offsets.length) (i : Nat) (t : ModuleType) (ws : List Word)
    (ht : cfg.modules[i]? = some t) (hw : cfg.params[i]? = some ws)
    (hb : ∀ (k : Nat) t' ws', k < i → cfg.modules[k]? = some t' → cfg.params[k]? = some ws' →
      ∃ m, Module.create t' ws' = .ok m) :
    (∀ e, Module.create t ws = .err e → Coupler.new cfg = .err e) ∧
    (Module.create t ws = .panic → Coupler.new cfg = .panic) := by
  rw [new_eq, if_neg (by simpa using h1), if_neg (by omega)]
  have hz : (cfg.modules.zip cfg.params)[i]? = some (t, ws) := by
    rw [List.getElem?_zip_eq_some]; exact ⟨ht, hw⟩
  obtain ⟨a1, a2⟩ := mapRes_first (f := fun p : ModuleType × List Word => Module.create p.1 p.2) hz
    (by
      rintro k ⟨t', ws'⟩ hk hx
      rw [List.getElem?_zip_eq_some] at hx
      exact hb k t' ws' hk hx.1 hx.2)
  constructor
  · intro e he; rw [a1 e he]; rfl
  · intro he; rw [a2 he]; rfl

/-- C13: if the lengths match and every module can be created, the coupler is created. It holds
one module per configured type, in this order, each created from its own type and parameters, with
its own pair of offset words (output first, `0xFFFF` for none); no values are known and no writes
are pending. Conversely a coupler is created only under these conditions. -/
theorem C13_success (cfg : CouplerConfig) :
    ((∃ c, Coupler.new cfg = .ok c) ↔
      cfg.modules.length = cfg.params.length ∧ 2 * cfg.modules.length = cfg.offsets.length ∧
      ∀ (i : Nat) t ws, cfg.modules[i]? = some t → cfg.params[i]? = some ws →
        ∃ m, Module.create t ws = .ok m) ∧
    ∀ c, Coupler.new cfg = .ok c →
      c.modules.length = cfg.modules.length ∧ c.offsets.length = cfg.modules.length ∧
      (∀ (i : Nat) t ws, cfg.modules[i]? = some t → cfg.params[i]? = some ws →
        ∃ m o n, c.modules[i]? = some m ∧ Module.create t ws = .ok m ∧
          cfg.offsets[2 * i]? = some o ∧ cfg.offsets[2 * i + 1]? = some n ∧
          c.offsets[i]? = some ⟨if n = 0xFFFF#16 then none else some n,
            if o = 0xFFFF#16 then none else some o⟩) ∧
      c.inputs = [] ∧ c.outputs = [] ∧ ∀ a, c.write a = none := by
  constructor
  · constructor
    · rintro ⟨c, h⟩
      obtain ⟨h1, h2, ms, h3, -⟩ := new_ok h
      refine ⟨h1, by omega, fun i t ws ht hw => ?_⟩
      obtain ⟨m, -, hm⟩ := mapRes_getElem? h3 (i := i) (a := (t, ws)) (by
        rw [List.getElem?_zip_eq_some]; exact ⟨ht, hw⟩)
      exact ⟨m, hm⟩
    · rintro ⟨h1, h2, h3⟩
      rw [new_eq, if_neg (by simpa using h1), if_neg (by omega)]
      obtain ⟨ms, hms⟩ := mapRes_total (f := fun p : ModuleType × List Word => Module.create p.1 p.2)
        (l := cfg.modules.zip cfg.params) (by
          rintro ⟨t, ws⟩ hp
          obtain ⟨i, hi⟩ := List.mem_iff_getElem?.1 hp
          rw [List.getElem?_zip_eq_some] at hi
          exact h3 i t ws hi.1 hi.2)
      exact ⟨initial cfg ms, by rw [hms]; rfl⟩
  · intro c h
    obtain ⟨h1, h2, ms, h3, rfl⟩ := new_ok h
    have hlen : ms.length = cfg.modules.length := by
      rw [mapRes_length h3, List.length_zip]; omega
    refine ⟨hlen, ?_, fun i t ws ht hw => ?_, rfl, rfl, fun _ => rfl⟩
    · simp only [initial, offsetsOfProcessData_length]; omega
    · have hi : i < cfg.modules.length := (List.getElem?_eq_some_iff.1 ht).1
      obtain ⟨m, hm, hc⟩ := mapRes_getElem? h3 (i := i) (a := (t, ws)) (by
        rw [List.getElem?_zip_eq_some]; exact ⟨ht, hw⟩)
      have e1 : cfg.offsets[2 * i]? = some cfg.offsets[2 * i] := List.getElem?_eq_getElem (by omega)
      have e2 : cfg.offsets[2 * i + 1]? = some cfg.offsets[2 * i + 1] :=
        List.getElem?_eq_getElem (by omega)
      exact ⟨m, _, _, hm, hc, e1, e2, offsetsOfProcessData_getElem? _ _ _ _ e1 e2⟩

/-- The configuration of the examples: two digital outputs sharing a register, a digital input and
a serial module. -/
def exCfg : CouplerConfig :=
  { modules := [.UR20_4DO_P, .UR20_8DO_P, .UR20_4DI_P, .UR20_1COM_232_485_422]
    offsets := [0x8000#16, 0xFFFF#16, 0x8008#16, 0xFFFF#16, 0xFFFF#16, 0x0000#16,
      0x8010#16, 0x0010#16]
    params := [List.replicate 4 0, List.replicate 8 0, List.replicate 4 0, List.replicate 10 0] }

/-- The modules of the example. -/
def exModules : List Module :=
  [.dout ⟨.UR20_4DO_P, List.replicate 4 ⟨false⟩⟩, .dout ⟨.UR20_8DO_P, List.replicate 8 ⟨false⟩⟩,
   .di ⟨.UR20_4DI_P, List.replicate 4 ⟨.no⟩⟩,
   (match Module.create .UR20_1COM_232_485_422 (List.replicate 10 0) with
    | .ok m => m
    | _ => .sil)]

theorem exCfg_new : Coupler.new exCfg = .ok (initial exCfg exModules) := by
  rw [new_eq]; rfl

example : Coupler.new { exCfg with params := [] } = .err .bufferLength :=
  (C13_lengths _).1 (by decide)
example : Coupler.new { exCfg with offsets := [0#16] } = .err .moduleOffset :=
  (C13_lengths _).2 (by decide) (by decide)
example : Coupler.new { exCfg with params :=
    [List.replicate 4 0, List.replicate 8 2, [], List.replicate 10 0] } = .err .channelParameter :=
  by rw [new_eq]; rfl

/-! ### C14 -/

theorem isCreated_serial {t : ModuleType} {m : Module} (h : IsCreated t m) :
    IsSerial m ↔ t = .UR20_1COM_232_485_422 := by
  unfold IsSerial
  cases t <;> cases m <;> simp only [IsCreated] at h <;> simp

theorem isCreated_channels {t : ModuleType} {m : Module} (h : IsCreated t m) :
    m.moduleType.channelCount = t.channelCount := by
  cases t <;> cases m <;> simp only [IsCreated] at h <;>
    first
    | rfl
    | (rename_i m; obtain ⟨v, c⟩ := m; obtain ⟨rfl, -⟩ := h; rfl)

/-- The modules of a reachable coupler and its configuration. -/
theorem reachable_module {oc : Bool} {cfg : CouplerConfig} {c : Coupler}
    (h : ReachableFrom oc cfg c) :
    c.modules.length = cfg.modules.length ∧
    ∀ (i : Nat) t, cfg.modules[i]? = some t → ∃ m, c.modules[i]? = some m ∧ IsCreated t m := by
  obtain ⟨c0, ops, h0, rfl⟩ := h
  obtain ⟨h1, -⟩ := run_static oc c0 ops
  obtain ⟨h2, -, h3, -⟩ := (C13_success cfg).2 c0 h0
  rw [h1]
  refine ⟨h2, fun i t ht => ?_⟩
  obtain ⟨hl, -, -⟩ := (C13_success cfg).1.1 ⟨c0, h0⟩
  have hi : i < cfg.params.length := by rw [← hl]; exact (List.getElem?_eq_some_iff.1 ht).1
  obtain ⟨m, o, n, hm, hc, -⟩ := h3 i t _ ht (List.getElem?_eq_getElem hi)
  exact ⟨m, hm, create_good hc⟩

/-- C14: after any history, there is a reader and a writer for exactly the serial modules of the
configuration. -/
theorem C14_readers (oc : Bool) (cfg : CouplerConfig) (c : Coupler) (h : ReachableFrom oc cfg c)
    (n : Nat) :
    (c.hasReader n = true ↔ cfg.modules[n]? = some .UR20_1COM_232_485_422) ∧
    (c.hasWriter n = true ↔ cfg.modules[n]? = some .UR20_1COM_232_485_422) := by
  have hi := inv_of_reachable h
  obtain ⟨hl, hm⟩ := reachable_module h
  have key : (c.processors n).isSome = true ↔ cfg.modules[n]? = some .UR20_1COM_232_485_422 := by
    constructor
    · intro hs
      obtain ⟨p, hp⟩ := Option.isSome_iff_exists.1 hs
      obtain ⟨cm, hcm, -⟩ := hi.proc n p hp
      have hlt : n < cfg.modules.length := by
        rw [← hl]; exact (List.getElem?_eq_some_iff.1 hcm).1
      obtain ⟨m, h1, h2⟩ := hm n _ (List.getElem?_eq_getElem hlt)
      rw [hcm] at h1
      cases h1
      rw [List.getElem?_eq_getElem hlt, (isCreated_serial h2).1 ⟨cm, rfl⟩]
    · intro ht
      obtain ⟨m, h1, h2⟩ := hm n _ ht
      obtain ⟨cm, rfl⟩ := (isCreated_serial h2).2 rfl
      obtain ⟨p, hp⟩ := hi.com n cm h1
      rw [hp]; rfl
  exact ⟨key, key⟩

example : ReachableFrom true exCfg (runC true (initial exCfg exModules)
    [.write 3 [1#8, 2#8], .next [0#16] [], .setOutput ⟨0, 0⟩ (.bit true)]) :=
  ⟨_, _, exCfg_new, rfl⟩

/-! ### C31 and C32 -/

/-- C31: `set_output` succeeds exactly for the channels of the configured modules; it then makes
the value pending at that address and changes nothing else, otherwise it changes nothing. -/
theorem C31_addresses (oc : Bool) (cfg : CouplerConfig) (c : Coupler) (h : ReachableFrom oc cfg c)
    (a : Address) (v : ChannelValue) :
    ((c.setOutput a v).2 = .ok () ↔
      ∃ t, cfg.modules[a.module]? = some t ∧ a.channel < t.channelCount) ∧
    ((c.setOutput a v).2 = .ok () → (c.setOutput a v).1 =
      { c with write := fun b => if b = a then some v else c.write b }) ∧
    ((c.setOutput a v).2 ≠ .ok () → c.setOutput a v = (c, .err .address)) := by
  obtain ⟨hl, hm⟩ := reachable_module h
  have hv : c.isValidAddr a = true ↔
      ∃ t, cfg.modules[a.module]? = some t ∧ a.channel < t.channelCount := by
    unfold isValidAddr
    cases ht : cfg.modules[a.module]? with
    | none =>
      rw [List.getElem?_eq_none_iff] at ht
      rw [List.getElem?_eq_none (by omega)]
      simp
    | some t =>
      obtain ⟨m, h1, h2⟩ := hm _ t ht
      rw [h1]
      simp [isCreated_channels h2]
  rw [← hv]
  unfold setOutput
  cases c.isValidAddr a <;> simp
  rfl

example : ((initial exCfg exModules).setOutput ⟨1, 7⟩ (.bit true)).2 = .ok () := by
  rw [(C31_addresses true exCfg (initial exCfg exModules) ⟨_, [], exCfg_new, rfl⟩ _ _).1]
  exact ⟨_, rfl, by decide⟩
example : ((initial exCfg exModules).setOutput ⟨0, 4⟩ (.bit true)).2 ≠ .ok () := by
  rw [Ne, (C31_addresses true exCfg (initial exCfg exModules) ⟨_, [], exCfg_new, rfl⟩ _ _).1]
  rintro ⟨t, h, h'⟩
  cases h; revert h'; decide

/-- A call of `set_output`. -/
def IsSetOutput : COp → Prop
  | .setOutput _ _ => True
  | _ => False

theorem setOutput_state (oc : Bool) (c : Coupler) (a : Address) (v : ChannelValue) :
    (COp.setOutput a v).apply oc c =
      if c.isValidAddr a then { c with write := Coupler.insert c.write a v } else c := by
  simp only [COp.apply, setOutput]
  cases c.isValidAddr a <;> simp

/-- C32: of two `set_output` calls to the same address, with any other `set_output` calls in
between, the first has no effect. -/
theorem C32_last_wins (oc : Bool) (c : Coupler) (a : Address) (v w : ChannelValue)
    (ops : List COp) (hops : ∀ op ∈ ops, IsSetOutput op) :
    runC oc c (.setOutput a v :: ops ++ [.setOutput a w]) =
      runC oc c (ops ++ [.setOutput a w]) := by
  cases hv : c.isValidAddr a with
  | false =>
    have : (COp.setOutput a v).apply oc c = c := by rw [setOutput_state, hv]; rfl
    rw [List.cons_append, show runC oc c (.setOutput a v :: (ops ++ [.setOutput a w])) =
      runC oc ((COp.setOutput a v).apply oc c) (ops ++ [.setOutput a w]) from rfl, this]
  | true =>
    -- the two runs agree except possibly at `a`
    have key : ∀ (ops : List COp), (∀ op ∈ ops, IsSetOutput op) → ∀ (c : Coupler) x,
        (∀ b, b ≠ a → x b = c.write b) →
        ∃ y, runC oc { c with write := x } ops = { runC oc c ops with write := y } ∧
          ∀ b, b ≠ a → y b = (runC oc c ops).write b := by
      intro ops
      induction ops with
      | nil => intro _ c x h; exact ⟨x, rfl, h⟩
      | cons op ops ih =>
        intro hops c x hx
        have hop := hops op List.mem_cons_self
        have ih := ih fun o ho => hops o (List.mem_cons_of_mem _ ho)
        cases op with
        | setOutput b u =>
          have e1 : ∀ d : Coupler, runC oc d (.setOutput b u :: ops) =
            runC oc ((COp.setOutput b u).apply oc d) ops := fun _ => rfl
          rw [e1, e1, setOutput_state, setOutput_state,
            isValidAddr_congr (c := c) (c' := { c with write := x }) rfl]
          cases c.isValidAddr b with
          | false => exact ih c x hx
          | true =>
            refine ih { c with write := Coupler.insert c.write b u } (Coupler.insert x b u) ?_
            intro b' hb'
            simp only [Coupler.insert]
            split
            · rfl
            · exact hx b' hb'
        | next i o => exact absurd hop id
        | read n l => exact absurd hop id
        | write n b => exact absurd hop id
    obtain ⟨y, h1, h2⟩ := key ops hops c (Coupler.insert c.write a v) (by
      intro b hb
      simp only [Coupler.insert]
      rw [if_neg hb])
    have e1 : ∀ d : Coupler, runC oc d (ops ++ [.setOutput a w]) =
        (COp.setOutput a w).apply oc (runC oc d ops) := by
      intro d; simp [runC, List.foldl_append]
    have e2 : runC oc c (.setOutput a v :: ops ++ [.setOutput a w]) =
        runC oc ((COp.setOutput a v).apply oc c) (ops ++ [.setOutput a w]) := rfl
    rw [e2, e1, e1, setOutput_state (c := c), hv, if_pos rfl, h1, setOutput_state, setOutput_state,
      isValidAddr_congr (c := runC oc c ops) (c' := { runC oc c ops with write := y }) rfl,
      isValidAddr_congr (c := c) (run_static oc c ops).1, hv, if_pos rfl, if_pos rfl]
    simp only [Coupler.mk.injEq, true_and, and_true]
    funext b
    simp only [Coupler.insert]
    split
    · rfl
    · rename_i hb; exact h2 b hb

/-- C32: `set_output` calls to different addresses commute. -/
theorem C32_commute (oc : Bool) (c : Coupler) (a b : Address) (v w : ChannelValue) (hab : a ≠ b) :
    runC oc c [.setOutput a v, .setOutput b w] = runC oc c [.setOutput b w, .setOutput a v] := by
  have e : ∀ (d : Coupler) (x y : COp), runC oc d [x, y] = y.apply oc (x.apply oc d) :=
    fun _ _ _ => rfl
  have hs : ∀ (x : Address) (y : ChannelValue) (z : Address),
      ((COp.setOutput x y).apply oc c).isValidAddr z = c.isValidAddr z :=
    fun x y z => isValidAddr_congr (apply_static oc c _).1 z
  rw [e, e, setOutput_state, setOutput_state (c := (COp.setOutput b w).apply oc c), hs, hs,
    setOutput_state, setOutput_state]
  cases c.isValidAddr a <;> cases c.isValidAddr b <;> try rfl
  simp only [if_true, Coupler.mk.injEq, true_and, and_true]
  funext d
  simp only [Coupler.insert]
  by_cases h1 : d = a
  · subst h1; simp [hab]
  · simp [h1]

/-- The hypotheses are met by calls that matter: both addresses exist. -/
example : (initial exCfg exModules).isValidAddr ⟨0, 1⟩ = true ∧
    (initial exCfg exModules).isValidAddr ⟨1, 7⟩ = true := by decide

/-! ### Failed cycles: C37 and C38 -/

/-- C37: a cycle that fails because the input image cannot be decoded changes nothing; one that
fails because the output image cannot be decoded changes only `inputs()`. -/
theorem C37_no_partial_effect (oc : Bool) (c : Coupler) (pi po : List Word) (e : Error) :
    (processInputData oc (infos c) pi = .err e → c.next oc pi po = (c, .err e)) ∧
    (∀ ins, processInputData oc (infos c) pi = .ok ins →
      processOutputData oc (infos c) po = .err e →
      c.next oc pi po = ({ c with inValues := ins }, .err e) ∧
      (c.next oc pi po).1.outputs = c.outputs) := by
  unfold infos
  constructor
  · intro h; simp only [next, h]
  · intro ins h1 h2; simp [next, h1, h2, outputs]

example : (initial exCfg exModules).next true [] [] = (initial exCfg exModules, .err .bufferLength) :=
  (C37_no_partial_effect true _ [] [] .bufferLength).1 (by decide)

/-- C38: a failed cycle keeps the pending writes and the serial queues. -/
def C38_statement : Prop :=
  ∀ (oc : Bool) (cfg : CouplerConfig) (c : Coupler), ReachableFrom oc cfg c →
    ∀ (pi po : List Word) (e : Error), (c.next oc pi po).2 = .err e →
      (c.next oc pi po).1.write = c.write ∧
      ∀ n p, c.processors n = some p → ∃ p', (c.next oc pi po).1.processors n = some p' ∧
        p'.outData = p.outData

/-- A coupler with one relay module. -/
def exRelay : CouplerConfig :=
  { modules := [.UR20_4RO_CO_255], offsets := [0x8000#16, 0xFFFF#16], params := [[0, 0, 0, 0]] }

/-- C38 does not hold: when the values cannot be encoded, here because an unsuitable value is
pending at channel 0, all pending writes are lost, here the one at channel 1. -/
theorem C38_statement_false : ¬ C38_statement := by
  intro h
  have hc : Coupler.new exRelay = .ok (initial exRelay [.ro ⟨List.replicate 4 ⟨false⟩⟩]) := by
    rw [new_eq]; rfl
  have := h true exRelay _ ⟨_, [.setOutput ⟨0, 0⟩ (.bytes []), .setOutput ⟨0, 1⟩ (.bit true)], hc, rfl⟩
    [] [0#16] .channelValue rfl
  have : (none : Option ChannelValue) = some (.bit true) := congrFun this.1 ⟨0, 1⟩
  cases this

/-- C38 when an image cannot be decoded. (The remaining failures, of encoding, consume the pending
writes and the serial segment chosen for the cycle.) -/
theorem C38_partial (oc : Bool) (c : Coupler) (pi po : List Word)
    (hd : (∃ e, processInputData oc (infos c) pi = .err e) ∨
      ∃ e, processOutputData oc (infos c) po = .err e) :
    (c.next oc pi po).1.write = c.write ∧ (c.next oc pi po).1.processors = c.processors := by
  rcases next_cases oc c pi po with ⟨e, h1, h2⟩ | ⟨h1, h2⟩ | ⟨ins, e, h1, h2, h3⟩ |
    ⟨ins, h1, h2, h3⟩ | ⟨ins, outs, h1, h2, h3, h4⟩ | ⟨ins, outs, st, rs, h1, h2, h3, h4⟩
  · rw [h2]; exact ⟨rfl, rfl⟩
  · rw [h2]; exact ⟨rfl, rfl⟩
  · rw [h3]; exact ⟨rfl, rfl⟩
  · rw [h3]; exact ⟨rfl, rfl⟩
  · rw [h4]; exact ⟨rfl, rfl⟩
  · rw [h1, h2] at hd
    rcases hd with ⟨e, he⟩ | ⟨e, he⟩ <;> cases he

/-! ### The values shown: C39 and C40 -/

theorem next_shape {oc : Bool} {c c' : Coupler} {pi po img : List Word}
    (h : c.next oc pi po = (c', .ok img)) :
    c'.inputs.length = (infos c).length ∧ c'.outputs.length = (infos c).length := by
  obtain ⟨ins, outs, st, rs, h1, h2, h3, rfl, h5⟩ := next_ok h
  obtain ⟨h6, -⟩ := cycleLoop_spec h3
  have e1 := mapRes_length h1
  have e2 := mapRes_length h2
  rw [List.length_zip] at h6
  simp only [inputs, outputs, after, List.length_map]
  omega

/-- C39. -/
def C39_statement : Prop :=
  ∀ (oc : Bool) (cfg : CouplerConfig) (c : Coupler), ReachableFrom oc cfg c →
    ∀ (pi po img : List Word) (c' : Coupler), c.next oc pi po = (c', .ok img) →
      c'.inputs.length = cfg.modules.length ∧ c'.outputs.length = cfg.modules.length ∧
      ∀ (i : Nat) t, cfg.modules[i]? = some t →
        (∃ vs, c'.inputs[i]? = some vs ∧ vs.length = t.channelCount) ∧
        (∃ vs, c'.outputs[i]? = some vs ∧ vs.length = t.channelCount)

/-- C39 does not hold for the safety module, see C07. -/
theorem C39_statement_false : ¬ C39_statement := by
  intro h
  let cfg : CouplerConfig := ⟨[.UR20_PF_O_1DI_SIL], [0xFFFF#16, 0x0000#16], [[]]⟩
  have hc : Coupler.new cfg = .ok (initial cfg [.sil]) := by rw [new_eq]; rfl
  obtain ⟨-, -, h3⟩ := h true cfg _ ⟨_, [], hc, rfl⟩ [0#16, 0#16] [] [] _ rfl
  obtain ⟨⟨vs, h4, h5⟩, -⟩ := h3 0 _ rfl
  cases h4
  revert h5
  decide

/-- C39 except for the input values of safety modules. -/
theorem C39_partial (oc : Bool) (cfg : CouplerConfig) (c : Coupler) (hr : ReachableFrom oc cfg c)
    (pi po img : List Word) (c' : Coupler) (h : c.next oc pi po = (c', .ok img)) :
    c'.inputs.length = cfg.modules.length ∧ c'.outputs.length = cfg.modules.length ∧
    ∀ (i : Nat) t, cfg.modules[i]? = some t →
      (t ≠ .UR20_PF_O_1DI_SIL → ∃ vs, c'.inputs[i]? = some vs ∧ vs.length = t.channelCount) ∧
      (∃ vs, c'.outputs[i]? = some vs ∧ vs.length = t.channelCount) := by
  have hi := inv_of_reachable hr
  obtain ⟨hl, hm⟩ := reachable_module hr
  obtain ⟨s1, s2⟩ := next_shape h
  have hlen : (infos c).length = cfg.modules.length := by
    unfold infos
    rw [List.length_zip, hi.len, hl]
    omega
  refine ⟨by omega, by omega, fun i t ht => ?_⟩
  obtain ⟨m, hmi, hcr⟩ := hm i t ht
  obtain ⟨off, hat⟩ := hi.moduleAt hmi
  obtain ⟨inV, outV, st1, r, vals, a1, a2, ⟨lt, a3, -⟩, a4, a5, -⟩ := next_module h hat
  obtain ⟨b1, b2, -⟩ := moduleStep_lengths a3
  rw [← isCreated_channels hcr]
  refine ⟨fun hs => ⟨_, a4, ?_⟩, ⟨_, a5, ?_⟩⟩
  · rw [b1]
    refine moduleInput_length a1 ?_
    rintro rfl
    cases t <;> simp only [IsCreated] at hcr
    exact hs rfl
  · rw [b2, moduleOutput_length a2]

/-- C40: after a successful cycle the input values of a module that is not serial are those
decoded from the input image of that cycle. -/
theorem C40_inputs (oc : Bool) (cfg : CouplerConfig) (c : Coupler) (hr : ReachableFrom oc cfg c)
    (pi po img : List Word) (c' : Coupler) (h : c.next oc pi po = (c', .ok img))
    (j : Nat) (m : Module) (off : ModuleOffset) (hm : ModuleAt c j m off) (hs : ¬ IsSerial m) :
    ∃ vs, c'.inputs[j]? = some vs ∧ moduleInput oc pi m off = .ok vs := by
  have hi := inv_of_reachable hr
  obtain ⟨inV, outV, st1, r, vals, a1, a2, ⟨lt, a3, -⟩, a4, a5, -⟩ := next_module h hm
  rw [moduleStep_plain (hi.none hm.1 hs)] at a3
  cases a3
  exact ⟨inV, a4, a1⟩

/-- C40: whatever happened before, and whatever the output image is, two successful cycles with
the same input image, of couplers with the same configuration, show the same input values for
modules that are not serial. -/
theorem C40_latest_only (oc : Bool) (cfg : CouplerConfig) (c d : Coupler)
    (hc : ReachableFrom oc cfg c) (hd : ReachableFrom oc cfg d)
    (pi po po' img img' : List Word) (c' d' : Coupler) (h : c.next oc pi po = (c', .ok img))
    (h' : d.next oc pi po' = (d', .ok img')) (j : Nat) (t : ModuleType)
    (ht : cfg.modules[j]? = some t) (hs : t ≠ .UR20_1COM_232_485_422) :
    c'.inputs[j]? = d'.inputs[j]? := by
  obtain ⟨c0, ops, h0, rfl⟩ := id hc
  obtain ⟨d0, ops', h0', rfl⟩ := id hd
  rw [h0] at h0'
  cases h0'
  obtain ⟨m, hm, hcr⟩ := (reachable_module hc).2 j t ht
  obtain ⟨off, hat⟩ := (inv_of_reachable hc).moduleAt hm
  have hser : ¬ IsSerial m := fun h => hs ((isCreated_serial hcr).1 h)
  have hat' : ModuleAt (runC oc c0 ops') j m off := by
    unfold ModuleAt at hat ⊢
    rw [(run_static oc c0 ops').1, (run_static oc c0 ops').2]
    rwa [(run_static oc c0 ops).1, (run_static oc c0 ops).2] at hat
  obtain ⟨vs, h1, h2⟩ := C40_inputs oc cfg _ hc pi po img c' h j m off hat hser
  obtain ⟨vs', h1', h2'⟩ := C40_inputs oc cfg _ hd pi po' img' d' h' j m off hat' hser
  rw [h2] at h2'
  cases h2'
  rw [h1, h1']

/-- A successful cycle of the example coupler. -/
def exPi : List Word := [0x000A#16, 0#16, 0#16, 0#16, 0#16, 0#16, 0#16, 0#16, 0#16]
/-- The output image of that cycle. -/
def exPo : List Word := [0x5503#16, 0#16, 0#16, 0#16, 0#16, 0#16, 0#16, 0#16, 0#16]

example : ∃ img, ((initial exCfg exModules).next true exPi exPo).2 = .ok img ∧ img[0]? = some 0x5503#16 :=
  ⟨_, rfl, rfl⟩

/-! ### C43 -/

/-- C43: no cycle panics. -/
def C43_statement : Prop :=
  ∀ (oc : Bool) (cfg : CouplerConfig) (c : Coupler), ReachableFrom oc cfg c →
    ∀ (pi po : List Word), (c.next oc pi po).2 ≠ .panic

/-- C43 does not hold when overflow checks are on: an output offset below `0x8000` (the offset
register of the output area) makes the cycle panic. -/
theorem C43_statement_false : ¬ C43_statement := by
  intro h
  let cfg : CouplerConfig := { exRelay with offsets := [0x0000#16, 0xFFFF#16] }
  have hc : Coupler.new cfg = .ok (initial cfg [.ro ⟨List.replicate 4 ⟨false⟩⟩]) := by
    rw [new_eq]; rfl
  exact h true cfg _ ⟨_, [], hc, rfl⟩ [] [0#16] rfl

theorem moduleInput_ne_panic (oc : Bool) (pi : List Word) (m : Module) (off : ModuleOffset) :
    moduleInput oc pi m off ≠ .panic := by
  unfold moduleInput
  split
  · intro h
    simp only [Res.bind_eq, Res.bind_eq_panic] at h
    rcases h with h | ⟨raw, -, h⟩
    · exact prepareRaw_ne_panic _ _ _ _ _ (by simp [addrPackedProcessInputData]) h
    · exact Module.processInputData_ne_panic _ _ h
  · simp

theorem moduleOutput_ne_panic (oc : Bool) (po : List Word) (m : Module) (hg : m.Good)
    (off : ModuleOffset) (ho : oc = true → ∀ o, off.output = some o → outputBase ≤ o.toNat) :
    moduleOutput oc po m off ≠ .panic := by
  unfold moduleOutput
  split
  · rename_i o hoo
    intro h
    simp only [Res.bind_eq, Res.bind_eq_panic] at h
    rcases h with h | ⟨raw, -, h⟩
    · refine prepareRaw_ne_panic _ _ _ _ _ (fun hoc => ?_) h
      have := ho hoc o hoo
      rw [show addrPackedProcessOutputData.toNat * 16 = outputBase by decide]
      exact this
    · exact Module.processOutputData_ne_panic _ hg _ h
  · simp

/-- A module with an output offset whose output data could be decoded has process output. -/
theorem moduleOutput_has_output {oc : Bool} {po : List Word} {m : Module} {off : ModuleOffset}
    {o : Word} (ho : off.output = some o) {vs : List ChannelValue}
    (h : moduleOutput oc po m off = .ok vs) : m.outputByteCount ≠ 0 := by
  intro h0
  unfold moduleOutput at h
  rw [ho] at h
  simp only [Res.bind_eq, Res.bind_eq_ok] at h
  obtain ⟨raw, h1, h2⟩ := h
  obtain ⟨hl, -⟩ := prepareRaw_ok h1
  rw [Module.processOutputData_none m h0 raw (by
    rintro rfl
    have := rawWords_pos m.outputByteCount
    simp at hl
    omega)] at h2
  cases h2

theorem outputLoop_ne_panic (out : List Word)
    (l : List ((Module × ModuleOffset) × List ChannelValue))
    (h : ∀ e ∈ l, ∀ o, e.1.2.output = some o → e.1.1.outputByteCount ≠ 0) :
    outputLoop out l ≠ .panic := by
  induction l generalizing out with
  | nil => simp [outputLoop]
  | cons e l ih =>
    have ih := fun out => ih out fun e he => h e (List.mem_cons_of_mem _ he)
    have hm := h e List.mem_cons_self
    obtain ⟨⟨m, off⟩, vs⟩ := e
    simp only [outputLoop]
    split
    · rename_i o ho
      intro hp
      simp only [Res.bind_eq, Res.bind_eq_panic] at hp
      rcases hp with hp | ⟨d, hd, hp | ⟨out', -, hp⟩⟩
      · exact Module.processOutputValues_ne_panic _ _ hp
      · have := placeWords_panic _ _ _ hp
        subst this
        have hl := Module.processOutputValues_length _ _ _ hd
        have := hm o ho
        simp only [List.length_nil] at hl
        simp only at this
        omega
      · exact ih _ hp
    · exact ih out

/-- C43 whenever the output offsets lie in the output area, which the coupler's own registers
always do, and without that condition if overflow checks are off (release builds). -/
theorem C43_no_panic_partial (oc : Bool) (cfg : CouplerConfig) (c : Coupler)
    (hr : ReachableFrom oc cfg c) (pi po : List Word)
    (ho : oc = true → ∀ (i : Nat) (o : Word), cfg.offsets[2 * i]? = some o → o ≠ 0xFFFF#16 →
      0x8000 ≤ o.toNat) :
    (c.next oc pi po).2 ≠ .panic := by
  have hi := inv_of_reachable hr
  have hoff : oc = true → ∀ e ∈ infos c, ∀ o, e.2.output = some o → outputBase ≤ o.toNat := by
    rintro hoc ⟨m, off⟩ he o hoo
    obtain ⟨j, hj⟩ := List.mem_iff_getElem?.1 he
    unfold infos at hj
    rw [List.getElem?_zip_eq_some] at hj
    obtain ⟨c0, ops, h0, rfl⟩ := hr
    rw [(run_static oc c0 ops).1, (run_static oc c0 ops).2] at hj
    obtain ⟨k1, k2, k3, -⟩ := (C13_success cfg).2 c0 h0
    have hlt : j < c0.modules.length := (List.getElem?_eq_some_iff.1 hj.1).1
    obtain ⟨q1, -, -⟩ := (C13_success cfg).1.1 ⟨c0, h0⟩
    obtain ⟨m', o', n', -, -, e1, -, e2⟩ := k3 j _ _ (List.getElem?_eq_getElem (by omega))
      (List.getElem?_eq_getElem (by omega))
    rw [hj.2] at e2
    cases e2
    simp only at hoo
    split at hoo
    · cases hoo
    · rename_i hne
      cases hoo
      exact ho hoc j o e1 hne
  have hgood : ∀ e ∈ infos c, e.1.Good := by
    rintro ⟨m, off⟩ he
    exact hi.good m (List.of_mem_zip he).1
  rcases next_cases oc c pi po with ⟨e, h1, h2⟩ | ⟨h1, h2⟩ | ⟨ins, e, h1, h2, h3⟩ |
    ⟨ins, h1, h2, h3⟩ | ⟨ins, outs, h1, h2, h3, h4⟩ | ⟨ins, outs, st, rs, h1, h2, h3, h4⟩
  · rw [h2]; simp
  · exact absurd h1 (mapRes_ne_panic fun e _ => moduleInput_ne_panic _ _ _ _)
  · rw [h3]; simp
  · exact absurd h2 (mapRes_ne_panic fun e he => moduleOutput_ne_panic _ _ _ (hgood e he) _
      fun hoc => hoff hoc e he)
  · exfalso
    obtain ⟨st', rs, h5⟩ := hi.cycle_ok h1 h2
    rw [h5] at h3
    cases h3
  · rw [h4]
    simp only
    unfold processOutputValues
    split
    · simp
    · apply outputLoop_ne_panic
      rintro ⟨⟨m, off⟩, vs⟩ he o hoo
      obtain ⟨j, hj⟩ := List.mem_iff_getElem?.1 (List.of_mem_zip he).1
      obtain ⟨outV, -, ho2⟩ := mapRes_getElem? h2 hj
      exact moduleOutput_has_output hoo ho2

example : ∀ (i : Nat) (o : Word), exCfg.offsets[2 * i]? = some o → o ≠ 0xFFFF#16 →
    0x8000 ≤ o.toNat := by
  intro i o h hne
  match i with
  | 0 => cases h; decide
  | 1 => cases h; decide
  | 2 => cases h; exact absurd rfl hne
  | 3 => cases h; decide
  | i + 4 => rw [List.getElem?_eq_none (by simp [exCfg]; omega)] at h; cases h

end Ur20
