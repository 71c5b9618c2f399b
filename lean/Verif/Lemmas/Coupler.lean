import Verif.Lemmas.Raw
import Verif.Lemmas.Module
import Verif.Lemmas.Address
import Verif.Lemmas.Protocol
import Verif.Spec.Coupler

/-! Construction of a coupler, the loop of `next` and invariants of histories. -/

namespace Ur20

open Spec Com

namespace Coupler

/-! ### Construction -/

theorem newLoop_eq (params : List (List Word)) (i : Nat) (ms : List Module)
    (procs : Nat → Option MessageProcessor) (ts : List ModuleType)
    (hl : params.length = i + ts.length) (hp : ∀ n, i ≤ n → procs n = none) :
    newLoop params i ms procs ts =
      (mapRes (fun p => Module.create p.1 p.2) (ts.zip (params.drop i))).map fun new =>
        (ms ++ new, fun n => if n < i then procs n else (new[n - i]?).bind Module.processor?) := by
  induction ts generalizing i ms procs with
  | nil =>
    simp only [newLoop, List.zip_nil_left, mapRes_nil, Res.map_ok, List.append_nil, Res.ok.injEq,
      Prod.mk.injEq, true_and]
    funext n
    by_cases h : n < i
    · simp [h]
    · simp [h, hp n (by omega)]
  | cons t ts ih =>
    simp only [List.length_cons] at hl
    have hi : i < params.length := by omega
    simp only [newLoop, Res.bind_eq]
    rw [idx_of_lt hi, Res.bind_ok, List.drop_eq_getElem_cons hi, List.zip_cons_cons, mapRes_cons]
    simp only
    cases hc : Module.create t params[i] with
    | err e => rfl
    | panic => rfl
    | ok m =>
      simp only [Res.bind_ok]
      rw [ih (i + 1) _ _ (by omega)]
      · cases mapRes (fun p => Module.create p.1 p.2) (ts.zip (params.drop (i + 1))) with
        | err e => rfl
        | panic => rfl
        | ok new =>
          simp only [Res.map_ok, Res.bind_ok, Res.ok.injEq, Prod.mk.injEq, List.append_assoc,
            List.singleton_append, true_and]
          funext n
          by_cases h : n < i
          · rw [if_pos (by omega), if_pos h]
            cases m.processor? with
            | none => rfl
            | some p => simp only; rw [if_neg (by omega)]
          · rw [if_neg h]
            by_cases h' : n = i
            · subst h'
              rw [if_pos (by omega), Nat.sub_self]
              cases hmp : m.processor? with
              | none => simp [hmp, hp n (Nat.le_refl _)]
              | some p => simp [hmp]
            · rw [if_neg (by omega), show n - i = (n - (i + 1)) + 1 by omega,
                List.getElem?_cons_succ]
      · intro n hn
        cases m.processor? with
        | none => exact hp n (by omega)
        | some p => simp only; rw [if_neg (by omega)]; exact hp n (by omega)

/-- The state of a new coupler. -/
def initial (cfg : CouplerConfig) (ms : List Module) : Coupler :=
  { inValues := [], outValues := [], write := fun _ => none, lastTxCnt := 0, modules := ms,
    offsets := offsetsOfProcessData cfg.offsets,
    processors := fun n => (ms[n]?).bind Module.processor? }

theorem new_eq (cfg : CouplerConfig) :
    new cfg = if cfg.modules.length ≠ cfg.params.length then .err .bufferLength
      else if cfg.modules.length * 2 ≠ cfg.offsets.length then .err .moduleOffset
      else (mapRes (fun p => Module.create p.1 p.2) (cfg.modules.zip cfg.params)).map
        (initial cfg) := by
  unfold new CouplerConfig.validate
  simp only [Res.bind_eq, Res.pure_eq]
  split
  · rfl
  · split
    · rfl
    · rename_i h1 h2
      rw [Res.bind_ok, newLoop_eq _ _ _ _ _ (by omega) (fun _ _ => rfl)]
      rw [List.drop_zero]
      cases mapRes (fun p => Module.create p.1 p.2) (cfg.modules.zip cfg.params) with
      | err e => rfl
      | panic => rfl
      | ok new =>
        simp [initial]

theorem new_ok {cfg : CouplerConfig} {c : Coupler} (h : new cfg = .ok c) :
    cfg.modules.length = cfg.params.length ∧ cfg.modules.length * 2 = cfg.offsets.length ∧
    ∃ ms, mapRes (fun p => Module.create p.1 p.2) (cfg.modules.zip cfg.params) = .ok ms ∧
      c = initial cfg ms := by
  rw [new_eq] at h
  split at h
  · cases h
  · split at h
    · cases h
    · rename_i h1 h2
      rw [Res.map_eq_ok] at h
      obtain ⟨ms, h3, h4⟩ := h
      exact ⟨by omega, by omega, ms, h3, h4.symm⟩

/-! ### Pending writes -/

theorem applyWrites_eq (mNr i : Nat) (w : Address → Option ChannelValue) (vs : List ChannelValue) :
    (applyWrites mNr i w vs).2 = vs.mapIdx (fun k v => (w ⟨mNr, i + k⟩).getD v) ∧
    ∀ a, (applyWrites mNr i w vs).1 a =
      if a.module = mNr ∧ i ≤ a.channel ∧ a.channel < i + vs.length then none else w a := by
  induction vs generalizing i w with
  | nil => refine ⟨rfl, fun a => ?_⟩; rw [if_neg (by simp only [List.length_nil]; omega)]; rfl
  | cons v vs ih =>
    obtain ⟨h1, h2⟩ := ih (i + 1) (remove w ⟨mNr, i⟩)
    simp only [applyWrites]
    constructor
    · rw [h1, List.mapIdx_cons]
      congr 1
      apply congrArg (fun f => List.mapIdx f vs)
      funext k v
      unfold remove
      rw [if_neg (by simp only [Address.mk.injEq]; omega), show i + 1 + k = i + (k + 1) by omega]
    · intro a
      rw [h2]
      simp only [List.length_cons]
      by_cases ha : a.module = mNr ∧ a.channel = i
      · obtain ⟨rfl, rfl⟩ := ha
        rw [if_neg (by omega), if_pos ⟨rfl, by omega, by omega⟩]
        simp [remove]
      · by_cases hc : a.module = mNr ∧ i + 1 ≤ a.channel ∧ a.channel < i + 1 + vs.length
        · rw [if_pos hc, if_pos ⟨hc.1, by omega, by omega⟩]
        · rw [if_neg hc, if_neg (by
            rintro ⟨h3, h4, h5⟩
            by_cases h6 : a.channel = i
            · exact ha ⟨h3, h6⟩
            · exact hc ⟨h3, by omega, by omega⟩)]
          unfold remove
          rw [if_neg]
          rintro rfl
          exact ha ⟨rfl, rfl⟩

/-! ### One module in the loop of `next` -/

/-- The frames a serial module decodes. -/
def serialFrames (inV outV : List ChannelValue) :
    Option (RsIn × List ChannelValue × RsOut × List ChannelValue) :=
  match inV, outV with
  | .comRsIn i :: it, .comRsOut o :: ot => some (i, it, o, ot)
  | _, _ => none

/-- `lastTxCnt` after a module. -/
def txAfter (p? : Option MessageProcessor) (lt : Nat) (inV outV : List ChannelValue) : Nat :=
  match p?, serialFrames inV outV with
  | some _, some (_, _, o, _) => o.txCnt
  | _, _ => lt

/-- The processor after the pending write of the module's channel 0 was used. -/
def feed (p : MessageProcessor) : Option ChannelValue → MessageProcessor
  | some (.bytes data) => (p.write data).1
  | _ => p

/-- The bytes `inputs()` shows for a frame. -/
def shownIn (i : RsIn) : ChannelValue :=
  if i.dataAvailable && !i.data.isEmpty then .bytes i.data else .none

/-- The bytes `outputs()` shows for a frame. -/
def shownOut (o : RsOut) (lt : Nat) : ChannelValue :=
  if !o.data.isEmpty && o.txCnt != lt then .bytes o.data else .none

theorem serialStep_eq (mNr : Nat) (p : MessageProcessor) (st : LoopState) (i : RsIn)
    (it : List ChannelValue) (o : RsOut) (ot : List ChannelValue) :
    serialStep mNr p st i it o ot =
      (⟨remove st.write ⟨mNr, 0⟩,
        fun k => if k = mNr then some ((feed p (st.write ⟨mNr, 0⟩)).next i o).1
          else st.processors k, o.txCnt⟩,
       ⟨shownIn i :: it, shownOut o st.lastTxCnt :: ot,
        .comRsOut ((feed p (st.write ⟨mNr, 0⟩)).next i o).2 :: ot⟩) := rfl

/-- A module without processor. -/
theorem moduleStep_plain {mNr : Nat} {st : LoopState} {inV outV : List ChannelValue}
    (h : st.processors mNr = none) :
    moduleStep mNr st inV outV =
      .ok ({ st with write := (applyWrites mNr 0 st.write outV).1 },
        ⟨inV, outV, (applyWrites mNr 0 st.write outV).2⟩) := by
  unfold moduleStep
  rw [h]

/-- A serial module that shows frames. -/
theorem moduleStep_serial {mNr : Nat} {st : LoopState} {p : MessageProcessor} {i : RsIn}
    {o : RsOut} {it ot : List ChannelValue} (h : st.processors mNr = some p) :
    moduleStep mNr st (.comRsIn i :: it) (.comRsOut o :: ot) =
      .ok (⟨remove st.write ⟨mNr, 0⟩,
        fun k => if k = mNr then some ((feed p (st.write ⟨mNr, 0⟩)).next i o).1
          else st.processors k, o.txCnt⟩,
       ⟨shownIn i :: it, shownOut o st.lastTxCnt :: ot,
        .comRsOut ((feed p (st.write ⟨mNr, 0⟩)).next i o).2 :: ot⟩) := by
  unfold moduleStep
  rw [h]
  simp only [serialStep_eq]

/-- A serial module that does not show frames is left alone. -/
theorem moduleStep_other {mNr : Nat} {st : LoopState} {p : MessageProcessor}
    {inV outV : List ChannelValue} (h : st.processors mNr = some p)
    (hn : serialFrames inV outV = none) (hi : inV ≠ []) (ho : outV ≠ []) :
    moduleStep mNr st inV outV = .ok (st, ⟨inV, outV, outV⟩) := by
  unfold moduleStep
  rw [h]
  cases inV with
  | nil => exact absurd rfl hi
  | cons v it =>
    cases outV with
    | nil => exact absurd rfl ho
    | cons u ot =>
      cases v <;> try rfl
      cases u <;> first | rfl | simp [serialFrames] at hn

theorem moduleStep_ne_err {mNr : Nat} {st : LoopState} {inV outV : List ChannelValue} {e : Error} :
    moduleStep mNr st inV outV ≠ .err e := by
  unfold moduleStep
  split
  · split
    · simp
    · split <;> simp
    · simp
  · simp

/-- What a step leaves unchanged. -/
theorem moduleStep_frame {mNr : Nat} {st st' : LoopState} {inV outV : List ChannelValue}
    {r : ModuleResult} (h : moduleStep mNr st inV outV = .ok (st', r)) :
    (∀ a : Address, a.module ≠ mNr → st'.write a = st.write a) ∧
    (∀ n, n ≠ mNr → st'.processors n = st.processors n) ∧
    ((st'.processors mNr).isSome = (st.processors mNr).isSome) ∧
    st'.lastTxCnt = txAfter (st.processors mNr) st.lastTxCnt inV outV := by
  cases hp : st.processors mNr with
  | none =>
    rw [moduleStep_plain hp] at h
    cases h
    refine ⟨fun a ha => ?_, fun n _ => rfl, by simp [hp], by simp [txAfter]⟩
    simp only
    rw [(applyWrites_eq _ _ _ _).2, if_neg (by simp [ha])]
  | some p =>
    cases hf : serialFrames inV outV with
    | none =>
      have : st' = st := by
        unfold moduleStep at h
        rw [hp] at h
        cases inV with
        | nil => cases h
        | cons v it =>
          cases v <;> simp only [Res.ok.injEq, Prod.mk.injEq] at h <;> try exact h.1.symm
          cases outV with
          | nil => cases h
          | cons u ot =>
            cases u <;> simp only [Res.ok.injEq, Prod.mk.injEq] at h <;>
              first | exact h.1.symm | simp [serialFrames] at hf
      subst this
      exact ⟨fun _ _ => rfl, fun _ _ => rfl, by simp [hp], by simp [txAfter, hf]⟩
    | some f =>
      obtain ⟨i, it, o, ot⟩ := f
      have hio : inV = .comRsIn i :: it ∧ outV = .comRsOut o :: ot := by
        unfold serialFrames at hf
        split at hf
        · cases hf; exact ⟨rfl, rfl⟩
        · cases hf
      obtain ⟨rfl, rfl⟩ := hio
      rw [moduleStep_serial hp] at h
      cases h
      refine ⟨fun a ha => ?_, fun n hn => ?_, by simp, by simp [txAfter, hf]⟩
      · simp only [remove]
        rw [if_neg]
        rintro rfl
        exact ha rfl
      · simp only
        rw [if_neg hn]

/-- A step depends only on the module's own pending writes and processor, and on `lastTxCnt`. -/
theorem moduleStep_congr {mNr : Nat} {st st2 st' : LoopState} {inV outV : List ChannelValue}
    {r : ModuleResult} (h : moduleStep mNr st inV outV = .ok (st', r))
    (hw : ∀ a : Address, a.module = mNr → st2.write a = st.write a)
    (hp : st2.processors mNr = st.processors mNr) (ht : st2.lastTxCnt = st.lastTxCnt) :
    ∃ st2', moduleStep mNr st2 inV outV = .ok (st2', r) ∧
      (∀ a : Address, a.module = mNr → st2'.write a = st'.write a) ∧
      st2'.processors mNr = st'.processors mNr := by
  cases hpr : st.processors mNr with
  | none =>
    rw [moduleStep_plain hpr] at h
    cases h
    rw [moduleStep_plain (hp.trans hpr)]
    have hv : (applyWrites mNr 0 st2.write outV).2 = (applyWrites mNr 0 st.write outV).2 := by
      rw [(applyWrites_eq _ _ _ _).1, (applyWrites_eq _ _ _ _).1]
      congr 1
      funext k v
      rw [hw _ rfl]
    rw [hv]
    refine ⟨_, rfl, fun a ha => ?_, hp⟩
    simp only
    rw [(applyWrites_eq _ _ _ _).2, (applyWrites_eq _ _ _ _).2, hw a ha]
  | some p =>
    cases hf : serialFrames inV outV with
    | none =>
      have : st' = st ∧ moduleStep mNr st2 inV outV = .ok (st2, r) := by
        unfold moduleStep at h ⊢
        rw [hpr] at h
        rw [hp, hpr]
        cases inV with
        | nil => cases h
        | cons v it =>
          cases v <;> simp only [Res.ok.injEq, Prod.mk.injEq] at h ⊢ <;>
            try exact ⟨h.1.symm, trivial, h.2⟩
          cases outV with
          | nil => cases h
          | cons u ot =>
            cases u <;> simp only [Res.ok.injEq, Prod.mk.injEq] at h ⊢ <;>
              first | exact ⟨h.1.symm, trivial, h.2⟩ | simp [serialFrames] at hf
      obtain ⟨rfl, h2⟩ := this
      exact ⟨st2, h2, hw, hp⟩
    | some f =>
      obtain ⟨i, it, o, ot⟩ := f
      have hio : inV = .comRsIn i :: it ∧ outV = .comRsOut o :: ot := by
        unfold serialFrames at hf
        split at hf
        · cases hf; exact ⟨rfl, rfl⟩
        · cases hf
      obtain ⟨rfl, rfl⟩ := hio
      rw [moduleStep_serial hpr] at h
      cases h
      rw [moduleStep_serial (hp.trans hpr)]
      rw [hw ⟨mNr, 0⟩ rfl, ht]
      refine ⟨_, rfl, fun a ha => ?_, ?_⟩
      · simp only [remove, hw a ha]
      · simp only [if_true]

/-! ### The loop -/

/-- `lastTxCnt` after a list of modules starting with module `k`. -/
def txLoop (procs : Nat → Option MessageProcessor) (k lt : Nat) :
    List (List ChannelValue × List ChannelValue) → Nat
  | [] => lt
  | p :: l => txLoop procs (k + 1) (txAfter (procs k) lt p.1 p.2) l

theorem txLoop_congr {procs procs' : Nat → Option MessageProcessor} (k lt : Nat)
    (l : List (List ChannelValue × List ChannelValue))
    (h : ∀ n, k ≤ n → procs n = procs' n) : txLoop procs k lt l = txLoop procs' k lt l := by
  induction l generalizing k lt with
  | nil => rfl
  | cons p l ih =>
    simp only [txLoop]
    rw [ih _ _ fun n hn => h n (by omega), h k (Nat.le_refl _)]

theorem txLoop_none {procs : Nat → Option MessageProcessor} (k lt : Nat)
    (l : List (List ChannelValue × List ChannelValue))
    (h : ∀ j, j < l.length → procs (k + j) = none) : txLoop procs k lt l = lt := by
  induction l generalizing k lt with
  | nil => rfl
  | cons p l ih =>
    simp only [txLoop]
    have h0 := h 0 (by simp)
    rw [Nat.add_zero] at h0
    rw [ih _ _ fun j hj => by
      have := h (j + 1) (by simpa using hj)
      rwa [show k + (j + 1) = k + 1 + j by omega] at this]
    simp [txAfter, h0]

/-- The effect of the loop, module by module. -/
theorem cycleLoop_spec {k : Nat} {st st' : LoopState}
    {l : List (List ChannelValue × List ChannelValue)} {rs : List ModuleResult}
    (h : cycleLoop k st l = .ok (st', rs)) :
    rs.length = l.length ∧
    (∀ a : Address, (a.module < k ∨ k + l.length ≤ a.module) → st'.write a = st.write a) ∧
    (∀ n, (n < k ∨ k + l.length ≤ n) → st'.processors n = st.processors n) ∧
    st'.lastTxCnt = txLoop st.processors k st.lastTxCnt l ∧
    ∀ (j : Nat) inV outV, l[j]? = some (inV, outV) →
      ∃ st1 r, rs[j]? = some r ∧
        moduleStep (k + j)
          { st with lastTxCnt := txLoop st.processors k st.lastTxCnt (l.take j) } inV outV
          = .ok (st1, r) ∧
        (∀ a : Address, a.module = k + j → st'.write a = st1.write a) ∧
        st'.processors (k + j) = st1.processors (k + j) := by
  induction l generalizing k st rs with
  | nil =>
    simp only [cycleLoop, Res.ok.injEq, Prod.mk.injEq] at h
    obtain ⟨rfl, rfl⟩ := h
    exact ⟨rfl, fun _ _ => rfl, fun _ _ => rfl, rfl, by simp⟩
  | cons p l ih =>
    obtain ⟨inV, outV⟩ := p
    simp only [cycleLoop, Res.bind_eq, Res.bind_eq_ok, Res.pure_eq, Res.ok.injEq,
      Prod.exists, Prod.mk.injEq] at h
    obtain ⟨st1, r, hstep, st2, rs2, hloop, rfl, rfl⟩ := h
    obtain ⟨h1, h2, h3, h4, h5⟩ := ih hloop
    obtain ⟨f1, f2, f3, f4⟩ := moduleStep_frame hstep
    have htx : ∀ l lt, txLoop st1.processors (k + 1) lt l = txLoop st.processors (k + 1) lt l :=
      fun l lt => txLoop_congr _ _ _ fun n hn => f2 n (by omega)
    refine ⟨by simp [h1], fun a ha => ?_, fun n hn => ?_, ?_, ?_⟩
    · simp only [List.length_cons] at ha
      rw [h2 a (by omega), f1 a (by omega)]
    · simp only [List.length_cons] at hn
      rw [h3 n (by omega), f2 n (by omega)]
    · rw [h4, f4, htx]; rfl
    · intro j inV' outV' hj
      cases j with
      | zero =>
        simp only [List.getElem?_cons_zero, Option.some.injEq, Prod.mk.injEq] at hj
        obtain ⟨rfl, rfl⟩ := hj
        refine ⟨st1, r, rfl, hstep, fun a ha => ?_, ?_⟩
        · exact h2 a (by omega)
        · exact h3 _ (by omega)
      | succ j =>
        rw [List.getElem?_cons_succ] at hj
        obtain ⟨st3, r', hr', hstep', hw', hp'⟩ := h5 j inV' outV' hj
        obtain ⟨st4, g1, g2, g3⟩ := moduleStep_congr
          (st2 := ⟨st.write, st.processors, txLoop st.processors k st.lastTxCnt
            (((inV, outV) :: l).take (j + 1))⟩) hstep'
          (fun a ha => (f1 a (by omega)).symm) (f2 _ (by omega)).symm (by
            simp only [List.take_succ_cons, txLoop, f4, htx])
        refine ⟨st4, r', by simpa using hr', ?_, fun a ha => ?_, ?_⟩
        · rw [show k + (j + 1) = k + 1 + j by omega]
          exact g1
        · rw [hw' a (by omega), g2 a (by omega)]
        · rw [show k + (j + 1) = k + 1 + j by omega, hp', g3]

theorem cycleLoop_ne_err {k : Nat} {st : LoopState}
    {l : List (List ChannelValue × List ChannelValue)} {e : Error} :
    cycleLoop k st l ≠ .err e := by
  induction l generalizing k st with
  | nil => simp [cycleLoop]
  | cons p l ih =>
    obtain ⟨inV, outV⟩ := p
    intro h
    simp only [cycleLoop, Res.bind_eq, Res.bind_eq_err, Res.pure_eq] at h
    rcases h with h | ⟨_, -, h | ⟨_, -, h⟩⟩
    · exact moduleStep_ne_err h
    · exact ih h
    · cases h

/-- The loop does not panic if modules with a processor show values. -/
theorem cycleLoop_ok {k : Nat} {st : LoopState}
    {l : List (List ChannelValue × List ChannelValue)}
    (h : ∀ (j : Nat) inV outV, l[j]? = some (inV, outV) → (st.processors (k + j)).isSome →
      inV ≠ [] ∧ outV ≠ []) : ∃ st' rs, cycleLoop k st l = .ok (st', rs) := by
  induction l generalizing k st with
  | nil => exact ⟨_, _, rfl⟩
  | cons p l ih =>
    obtain ⟨inV, outV⟩ := p
    have hstep : ∃ st1 r, moduleStep k st inV outV = .ok (st1, r) := by
      cases hp : st.processors k with
      | none => exact ⟨_, _, moduleStep_plain hp⟩
      | some p =>
        obtain ⟨hi, ho⟩ := h 0 inV outV rfl (by simp [hp])
        cases hf : serialFrames inV outV with
        | none => exact ⟨_, _, moduleStep_other hp hf hi ho⟩
        | some f =>
          obtain ⟨i, it, o, ot⟩ := f
          unfold serialFrames at hf
          split at hf
          · exact ⟨_, _, moduleStep_serial hp⟩
          · cases hf
    obtain ⟨st1, r, hstep⟩ := hstep
    obtain ⟨f1, f2, f3, f4⟩ := moduleStep_frame hstep
    obtain ⟨st', rs, hl⟩ := ih (k := k + 1) (st := st1) (fun j a b hj hs => by
      rw [f2 _ (by omega)] at hs
      exact h (j + 1) a b hj (by rwa [show k + (j + 1) = k + 1 + j by omega]))
    exact ⟨st', r :: rs, by simp [cycleLoop, hstep, hl]⟩

/-! ### A cycle -/

/-- The state after a cycle that gets as far as encoding. -/
def after (c : Coupler) (st : LoopState) (rs : List ModuleResult) : Coupler :=
  { inValues := rs.map (·.inV), outValues := rs.map (·.outV), write := st.write,
    modules := c.modules, offsets := c.offsets, processors := st.processors,
    lastTxCnt := st.lastTxCnt }

/-- What a cycle that gets as far as encoding does. -/
theorem next_done {oc : Bool} {c c' : Coupler} {pi po : List Word} {r : Res (List Word)}
    {ins outs : List (List ChannelValue)} {st : LoopState} {rs : List ModuleResult}
    (h1 : processInputData oc (infos c) pi = .ok ins)
    (h2 : processOutputData oc (infos c) po = .ok outs)
    (h3 : cycleLoop 0 ⟨c.write, c.processors, c.lastTxCnt⟩ (ins.zip outs) = .ok (st, rs))
    (h : c.next oc pi po = (c', r)) :
    c' = c.after st rs ∧
    r = processOutputValues (infos c) (rs.map (·.nextV)) := by
  unfold next at h
  unfold infos at h1 h2
  simp only [h1, h2, h3] at h
  cases h
  exact ⟨rfl, rfl⟩

/-- The possible outcomes of a cycle. -/
theorem next_cases (oc : Bool) (c : Coupler) (pi po : List Word) :
    (∃ e, processInputData oc (infos c) pi = .err e ∧ c.next oc pi po = (c, .err e)) ∨
    (processInputData oc (infos c) pi = .panic ∧ c.next oc pi po = (c, .panic)) ∨
    (∃ ins e, processInputData oc (infos c) pi = .ok ins ∧
      processOutputData oc (infos c) po = .err e ∧
      c.next oc pi po = ({ c with inValues := ins }, .err e)) ∨
    (∃ ins, processInputData oc (infos c) pi = .ok ins ∧
      processOutputData oc (infos c) po = .panic ∧
      c.next oc pi po = ({ c with inValues := ins }, .panic)) ∨
    (∃ ins outs, processInputData oc (infos c) pi = .ok ins ∧
      processOutputData oc (infos c) po = .ok outs ∧
      cycleLoop 0 ⟨c.write, c.processors, c.lastTxCnt⟩ (ins.zip outs) = .panic ∧
      c.next oc pi po = ({ c with inValues := ins, outValues := outs }, .panic)) ∨
    (∃ ins outs st rs, processInputData oc (infos c) pi = .ok ins ∧
      processOutputData oc (infos c) po = .ok outs ∧
      cycleLoop 0 ⟨c.write, c.processors, c.lastTxCnt⟩ (ins.zip outs) = .ok (st, rs) ∧
      c.next oc pi po = (c.after st rs, processOutputValues (infos c) (rs.map (·.nextV)))) := by
  unfold next infos
  cases h1 : processInputData oc (c.modules.zip c.offsets) pi with
  | err e => exact .inl ⟨e, rfl, by simp only [h1]⟩
  | panic => exact .inr (.inl ⟨rfl, by simp only [h1]⟩)
  | ok ins =>
    cases h2 : processOutputData oc (c.modules.zip c.offsets) po with
    | err e => exact .inr (.inr (.inl ⟨ins, e, rfl, rfl, by simp only [h1, h2]⟩))
    | panic => exact .inr (.inr (.inr (.inl ⟨ins, rfl, rfl, by simp only [h1, h2]⟩)))
    | ok outs =>
      cases h3 : cycleLoop 0 ⟨c.write, c.processors, c.lastTxCnt⟩ (ins.zip outs) with
      | err e => exact absurd h3 cycleLoop_ne_err
      | panic =>
        exact .inr (.inr (.inr (.inr (.inl ⟨ins, outs, rfl, rfl, h3, by simp only [h1, h2, h3]⟩))))
      | ok r =>
        exact .inr (.inr (.inr (.inr (.inr ⟨ins, outs, r.1, r.2, rfl, rfl, h3,
          by simp only [h1, h2, h3, after]⟩))))

theorem next_ok {oc : Bool} {c c' : Coupler} {pi po img : List Word}
    (h : c.next oc pi po = (c', .ok img)) :
    ∃ ins outs st rs, processInputData oc (infos c) pi = .ok ins ∧
      processOutputData oc (infos c) po = .ok outs ∧
      cycleLoop 0 ⟨c.write, c.processors, c.lastTxCnt⟩ (ins.zip outs) = .ok (st, rs) ∧
      c' = c.after st rs ∧
      processOutputValues (infos c) (rs.map (·.nextV)) = .ok img := by
  rcases next_cases oc c pi po with ⟨e, h1, h2⟩ | ⟨h1, h2⟩ | ⟨ins, e, h1, h2, h3⟩ |
    ⟨ins, h1, h2, h3⟩ | ⟨ins, outs, h1, h2, h3, h4⟩ | ⟨ins, outs, st, rs, h1, h2, h3, h4⟩
  · rw [h2] at h; cases h
  · rw [h2] at h; cases h
  · rw [h3] at h; cases h
  · rw [h3] at h; cases h
  · rw [h4] at h; cases h
  · rw [h4] at h
    simp only [Prod.mk.injEq] at h
    exact ⟨ins, outs, st, rs, h1, h2, h3, h.1.symm, h.2⟩

theorem infos_getElem? {c : Coupler} {j : Nat} {m : Module} {off : ModuleOffset}
    (h : ModuleAt c j m off) : (infos c)[j]? = some (m, off) := by
  unfold infos
  rw [List.getElem?_zip_eq_some]
  exact h

/-- The values of a module in a cycle. -/
theorem next_module {oc : Bool} {c c' : Coupler} {pi po img : List Word}
    (h : c.next oc pi po = (c', .ok img)) {j : Nat} {m : Module} {off : ModuleOffset}
    (hm : ModuleAt c j m off) :
    ∃ inV outV st1 r vals,
      moduleInput oc pi m off = .ok inV ∧ moduleOutput oc po m off = .ok outV ∧
      (∃ lt, moduleStep j ⟨c.write, c.processors, lt⟩ inV outV = .ok (st1, r) ∧
        ((∀ k, k < j → c.processors k = none) → lt = c.lastTxCnt)) ∧
      c'.inputs[j]? = some r.inV ∧ c'.outputs[j]? = some r.outV ∧
      (∀ a : Address, a.module = j → c'.write a = st1.write a) ∧
      c'.processors j = st1.processors j ∧
      vals[j]? = some r.nextV ∧ processOutputValues (infos c) vals = .ok img := by
  obtain ⟨ins, outs, st, rs, h1, h2, h3, rfl, h5⟩ := next_ok h
  obtain ⟨inV, hi1, hi2⟩ := mapRes_getElem? h1 (infos_getElem? hm)
  obtain ⟨outV, ho1, ho2⟩ := mapRes_getElem? h2 (infos_getElem? hm)
  obtain ⟨h6, h7, h8, h9, h10⟩ := cycleLoop_spec h3
  obtain ⟨st1, r, hr, hstep, hw, hp⟩ := h10 j inV outV (by
    rw [List.getElem?_zip_eq_some]; exact ⟨hi1, ho1⟩)
  rw [Nat.zero_add] at hstep hw hp
  refine ⟨inV, outV, st1, r, rs.map (·.nextV), hi2, ho2, ⟨_, hstep, fun hn => ?_⟩, ?_, ?_, hw, hp,
    ?_, h5⟩
  · apply txLoop_none
    intro k hk
    rw [List.length_take] at hk
    rw [Nat.zero_add]
    exact hn k (by omega)
  · simp [inputs, after, hr]
  · simp [outputs, after, hr]
  · simp [hr]

/-! ### Invariant -/

/-- What holds of every coupler after any history. -/
structure Inv (c : Coupler) : Prop where
  len : c.offsets.length = c.modules.length
  good : ∀ m ∈ c.modules, m.Good
  proc : ∀ n p, c.processors n = some p →
    ∃ cm, c.modules[n]? = some (.com cm) ∧ QueueOk cm.processDataLen p
  com : ∀ (n : Nat) (cm : Com.Mod), c.modules[n]? = some (Module.com cm) →
    ∃ p, c.processors n = some p
  valid : ∀ a, c.write a ≠ none → c.isValidAddr a = true

theorem Inv.moduleAt {c : Coupler} (h : c.Inv) {j : Nat} {m : Module}
    (hm : c.modules[j]? = some m) : ∃ off, ModuleAt c j m off := by
  have hlt : j < c.modules.length := (List.getElem?_eq_some_iff.1 hm).1
  exact ⟨c.offsets[j]'(by rw [h.len]; exact hlt), hm, List.getElem?_eq_getElem _⟩

theorem Inv.none {c : Coupler} (h : c.Inv) {j : Nat} {m : Module} (hm : c.modules[j]? = some m)
    (hs : ¬ IsSerial m) : c.processors j = none := by
  cases hp : c.processors j with
  | none => rfl
  | some p =>
    obtain ⟨cm, h1, -⟩ := h.proc j p hp
    rw [hm] at h1
    cases h1
    exact absurd ⟨cm, rfl⟩ hs

theorem Inv.new {cfg : CouplerConfig} {c : Coupler} (h : Coupler.new cfg = .ok c) : c.Inv := by
  obtain ⟨h1, h2, ms, h3, rfl⟩ := new_ok h
  have hlen : ms.length = cfg.modules.length := by
    rw [mapRes_length h3, List.length_zip]; omega
  refine ⟨?_, ?_, ?_, ?_, fun a ha => absurd rfl ha⟩
  · simp only [initial, offsetsOfProcessData_length, hlen]
    omega
  · intro m hm
    obtain ⟨i, hi⟩ := List.mem_iff_getElem?.1 hm
    have hlt : i < (cfg.modules.zip cfg.params).length := by
      rw [← mapRes_length h3]; exact (List.getElem?_eq_some_iff.1 hi).1
    obtain ⟨b, hb, hc⟩ := mapRes_getElem? h3 (List.getElem?_eq_getElem hlt)
    have hi' : ms[i]? = some m := hi
    rw [hi'] at hb
    cases hb
    exact ⟨_, create_good hc⟩
  · intro n p hp
    simp only [initial] at hp ⊢
    cases hm : ms[n]? with
    | none => simp [hm] at hp
    | some m =>
      simp only [hm, Option.bind_some] at hp
      cases m <;> simp only [Module.processor?, reduceCtorEq, Option.some.injEq] at hp
      case com cm =>
        subst hp
        exact ⟨cm, rfl, QueueOk.new _⟩
  · intro n cm hm
    simp only [initial] at hm ⊢
    exact ⟨MessageProcessor.new cm.processDataLen, by rw [hm]; rfl⟩

theorem isValidAddr_congr {c c' : Coupler} (h : c'.modules = c.modules) (a : Address) :
    c'.isValidAddr a = c.isValidAddr a := by
  unfold isValidAddr; rw [h]

theorem next_static (oc : Bool) (c : Coupler) (pi po : List Word) :
    (c.next oc pi po).1.modules = c.modules ∧ (c.next oc pi po).1.offsets = c.offsets := by
  rcases next_cases oc c pi po with ⟨e, h1, h2⟩ | ⟨h1, h2⟩ | ⟨ins, e, h1, h2, h3⟩ |
    ⟨ins, h1, h2, h3⟩ | ⟨ins, outs, h1, h2, h3, h4⟩ | ⟨ins, outs, st, rs, h1, h2, h3, h4⟩ <;>
    first
    | (rw [h4]; exact ⟨rfl, rfl⟩)
    | (rw [h3]; exact ⟨rfl, rfl⟩)
    | (rw [h2]; exact ⟨rfl, rfl⟩)

theorem setProcessor_inv {c : Coupler} (h : c.Inv) {n : Nat} {p p' : MessageProcessor}
    (hp : c.processors n = some p)
    (hq : ∀ len, QueueOk len p → QueueOk len p') : (c.setProcessor n p').Inv := by
  refine ⟨h.len, h.good, ?_, ?_, h.valid⟩
  · intro k q hk
    simp only [setProcessor] at hk ⊢
    by_cases hkn : k = n
    · subst hkn
      rw [if_pos rfl] at hk
      cases hk
      obtain ⟨cm, h1, h2⟩ := h.proc k p hp
      exact ⟨cm, h1, hq _ h2⟩
    · rw [if_neg hkn] at hk
      exact h.proc k q hk
  · intro k cm hk
    simp only [setProcessor] at hk ⊢
    by_cases hkn : k = n
    · exact ⟨p', by rw [if_pos hkn]⟩
    · rw [if_neg hkn]
      exact h.com k cm hk

/-- The processors after a successful loop. -/
theorem cycleLoop_processors {st st' : LoopState} {c : Coupler}
    {l : List (List ChannelValue × List ChannelValue)} {rs : List ModuleResult}
    (hst : st.processors = c.processors) (h : cycleLoop 0 st l = .ok (st', rs)) (n : Nat) :
    (∀ p, st'.processors n = some p → ∃ p0, c.processors n = some p0 ∧
      ∀ len, QueueOk len p0 → QueueOk len p) ∧
    ((c.processors n).isSome → (st'.processors n).isSome) := by
  obtain ⟨h1, h2, h3, h4, h5⟩ := cycleLoop_spec h
  by_cases hn : n < l.length
  · obtain ⟨st1, r, hr, hstep, -, hp⟩ := h5 n l[n].1 l[n].2 (by simp [hn])
    rw [Nat.zero_add] at hstep hp
    obtain ⟨-, -, f3, -⟩ := moduleStep_frame hstep
    rw [hp]
    simp only [hst] at f3
    refine ⟨fun p hps => ?_, fun hs => by rw [f3]; exact hs⟩
    cases h0 : c.processors n with
    | none => rw [h0, hps] at f3; simp at f3
    | some p0 =>
      refine ⟨p0, rfl, fun len hq => ?_⟩
      have hp0 : (LoopState.mk st.write st.processors
          (txLoop st.processors 0 st.lastTxCnt (l.take n))).processors n = some p0 := by
        simp only [hst, h0]
      generalize hin : l[n].1 = inV at hstep
      generalize hout : l[n].2 = outV at hstep
      cases hf : serialFrames inV outV with
      | none =>
        by_cases hii : inV = []
        · subst hii
          unfold moduleStep at hstep
          rw [hp0] at hstep
          cases hstep
        · by_cases hoo : outV = []
          · subst hoo
            cases inV with
            | nil => exact absurd rfl hii
            | cons v it =>
              unfold moduleStep at hstep
              rw [hp0] at hstep
              cases v <;> simp only [Res.ok.injEq, Prod.mk.injEq, reduceCtorEq] at hstep <;>
                (obtain ⟨rfl, -⟩ := hstep; rw [hp0] at hps; cases hps; exact hq)
          · rw [moduleStep_other hp0 hf hii hoo] at hstep
            cases hstep
            rw [hp0] at hps
            cases hps
            exact hq
      | some f =>
        obtain ⟨i, it, o, ot⟩ := f
        have hio : inV = .comRsIn i :: it ∧ outV = .comRsOut o :: ot := by
          unfold serialFrames at hf
          split at hf
          · cases hf; exact ⟨rfl, rfl⟩
          · cases hf
        obtain ⟨rfl, rfl⟩ := hio
        rw [moduleStep_serial hp0] at hstep
        cases hstep
        simp only [if_true, Option.some.injEq] at hps
        subst hps
        apply QueueOk.next
        unfold feed
        split
        · exact hq.write _
        · exact hq
  · rw [h3 n (by omega), hst]
    exact ⟨fun p hp => ⟨p, hp, fun _ h => h⟩, fun h => h⟩

theorem cycleLoop_write {st st' : LoopState}
    {l : List (List ChannelValue × List ChannelValue)} {rs : List ModuleResult} {k : Nat}
    (h : cycleLoop k st l = .ok (st', rs)) (a : Address) (ha : st'.write a ≠ none) :
    st.write a ≠ none := by
  induction l generalizing k st rs with
  | nil =>
    simp only [cycleLoop, Res.ok.injEq, Prod.mk.injEq] at h
    rw [h.1]; exact ha
  | cons p l ih =>
    obtain ⟨inV, outV⟩ := p
    simp only [cycleLoop, Res.bind_eq, Res.bind_eq_ok, Res.pure_eq, Res.ok.injEq,
      Prod.exists, Prod.mk.injEq] at h
    obtain ⟨st1, r, hstep, st2, rs2, hloop, rfl, rfl⟩ := h
    have h1 := ih hloop
    cases hp : st.processors k with
    | none =>
      rw [moduleStep_plain hp] at hstep
      cases hstep
      simp only [(applyWrites_eq _ _ _ _).2] at h1
      split at h1
      · exact absurd rfl h1
      · exact h1
    | some p =>
      cases hf : serialFrames inV outV with
      | none =>
        have : st1 = st := by
          unfold moduleStep at hstep
          rw [hp] at hstep
          cases inV with
          | nil => cases hstep
          | cons v it =>
            cases v <;> simp only [Res.ok.injEq, Prod.mk.injEq] at hstep <;>
              try exact hstep.1.symm
            cases outV with
            | nil => cases hstep
            | cons u ot =>
              cases u <;> simp only [Res.ok.injEq, Prod.mk.injEq] at hstep <;>
                first | exact hstep.1.symm | simp [serialFrames] at hf
        rw [this] at h1
        exact h1
      | some f =>
        obtain ⟨i, it, o, ot⟩ := f
        have hio : inV = .comRsIn i :: it ∧ outV = .comRsOut o :: ot := by
          unfold serialFrames at hf
          split at hf
          · cases hf; exact ⟨rfl, rfl⟩
          · cases hf
        obtain ⟨rfl, rfl⟩ := hio
        rw [moduleStep_serial hp] at hstep
        cases hstep
        simp only [remove] at h1
        split at h1
        · exact absurd rfl h1
        · exact h1

theorem Inv.next {c : Coupler} (h : c.Inv) (oc : Bool) (pi po : List Word) :
    (c.next oc pi po).1.Inv := by
  rcases next_cases oc c pi po with ⟨e, h1, h2⟩ | ⟨h1, h2⟩ | ⟨ins, e, h1, h2, h3⟩ |
    ⟨ins, h1, h2, h3⟩ | ⟨ins, outs, h1, h2, h3, h4⟩ | ⟨ins, outs, st, rs, h1, h2, h3, h4⟩
  · rw [h2]; exact h
  · rw [h2]; exact h
  · rw [h3]; exact ⟨h.len, h.good, h.proc, h.com, h.valid⟩
  · rw [h3]; exact ⟨h.len, h.good, h.proc, h.com, h.valid⟩
  · rw [h4]; exact ⟨h.len, h.good, h.proc, h.com, h.valid⟩
  · rw [h4]
    have hpr := cycleLoop_processors rfl h3
    refine ⟨h.len, h.good, ?_, ?_, ?_⟩
    · intro n p hp
      obtain ⟨p0, hp0, hq⟩ := (hpr n).1 p hp
      obtain ⟨cm, hm, hq0⟩ := h.proc n p0 hp0
      exact ⟨cm, hm, hq _ hq0⟩
    · intro n cm hm
      obtain ⟨p0, hp0⟩ := h.com n cm hm
      exact Option.isSome_iff_exists.1 ((hpr n).2 (by rw [hp0]; rfl))
    · intro a ha
      exact h.valid a (cycleLoop_write h3 a ha)

theorem Inv.apply {c : Coupler} (h : c.Inv) (oc : Bool) (op : COp) : (op.apply oc c).Inv := by
  cases op with
  | setOutput a v =>
    simp only [COp.apply, setOutput]
    split
    · exact h
    · rename_i hv
      refine ⟨h.len, h.good, h.proc, h.com, ?_⟩
      intro b hb
      simp only [insert] at hb
      split at hb
      · rename_i hba
        subst hba
        have hv' : c.isValidAddr b = true := by simpa using hv
        exact hv'
      · exact h.valid b hb
  | next i o => exact h.next oc i o
  | read n len =>
    simp only [COp.apply, read]
    cases hp : c.processors n with
    | none => exact h
    | some p =>
      simp only [read_ok, Res.bind_ok]
      exact setProcessor_inv h hp fun len hq => hq
  | write n buf =>
    simp only [COp.apply, writeBytes]
    cases hp : c.processors n with
    | none => exact h
    | some p => exact setProcessor_inv h hp fun len hq => hq.write buf

theorem apply_static (oc : Bool) (c : Coupler) (op : COp) :
    (op.apply oc c).modules = c.modules ∧ (op.apply oc c).offsets = c.offsets := by
  cases op with
  | setOutput a v => simp only [COp.apply, setOutput]; split <;> exact ⟨rfl, rfl⟩
  | next i o => exact next_static oc c i o
  | read n len =>
    simp only [COp.apply, read]
    cases hp : c.processors n with
    | none => exact ⟨rfl, rfl⟩
    | some p => simp only [read_ok, Res.bind_ok]; exact ⟨rfl, rfl⟩
  | write n buf =>
    simp only [COp.apply, writeBytes]
    cases hp : c.processors n with
    | none => exact ⟨rfl, rfl⟩
    | some p => exact ⟨rfl, rfl⟩

theorem Inv.run {c : Coupler} (h : c.Inv) (oc : Bool) (ops : List COp) : (runC oc c ops).Inv := by
  induction ops generalizing c with
  | nil => exact h
  | cons op ops ih => exact ih (h.apply oc op)

theorem run_static (oc : Bool) (c : Coupler) (ops : List COp) :
    (runC oc c ops).modules = c.modules ∧ (runC oc c ops).offsets = c.offsets := by
  induction ops generalizing c with
  | nil => exact ⟨rfl, rfl⟩
  | cons op ops ih =>
    obtain ⟨h1, h2⟩ := ih (op.apply oc c)
    obtain ⟨h3, h4⟩ := apply_static oc c op
    exact ⟨h1.trans h3, h2.trans h4⟩

theorem inv_of_reachable {oc : Bool} {cfg : CouplerConfig} {c : Coupler}
    (h : ReachableFrom oc cfg c) : c.Inv := by
  obtain ⟨c0, ops, h1, rfl⟩ := h
  exact (Inv.new h1).run oc ops

/-! ### Two cycles compared -/

theorem txLoop_some {procs procs' : Nat → Option MessageProcessor} (k lt : Nat)
    (l : List (List ChannelValue × List ChannelValue))
    (h : ∀ n, (procs n).isSome = (procs' n).isSome) : txLoop procs k lt l = txLoop procs' k lt l := by
  induction l generalizing k lt with
  | nil => rfl
  | cons p l ih =>
    have : txAfter (procs k) lt p.1 p.2 = txAfter (procs' k) lt p.1 p.2 := by
      have := h k
      cases h1 : procs k <;> cases h2 : procs' k <;> simp only [h1, h2] at this
      · rfl
      · cases this
      · cases this
      · unfold txAfter
        cases serialFrames p.1 p.2 <;> rfl
    simp only [txLoop]
    rw [ih, this]

/-- Two runs of the loop over the same decoded values, module by module. -/
theorem cycleLoop_pair {st st2 st' st2' : LoopState}
    {l : List (List ChannelValue × List ChannelValue)} {rs rs2 : List ModuleResult}
    (h : cycleLoop 0 st l = .ok (st', rs)) (h2 : cycleLoop 0 st2 l = .ok (st2', rs2))
    (hs : ∀ n, (st.processors n).isSome = (st2.processors n).isSome)
    (hlt : st.lastTxCnt = st2.lastTxCnt) :
    rs.length = rs2.length ∧ st'.lastTxCnt = st2'.lastTxCnt ∧
    ∀ (j : Nat) inV outV, l[j]? = some (inV, outV) → ∃ lt a b r r2,
      moduleStep j ⟨st.write, st.processors, lt⟩ inV outV = .ok (a, r) ∧
      moduleStep j ⟨st2.write, st2.processors, lt⟩ inV outV = .ok (b, r2) ∧
      rs[j]? = some r ∧ rs2[j]? = some r2 ∧
      (∀ x : Address, x.module = j → st'.write x = a.write x ∧ st2'.write x = b.write x) ∧
      st'.processors j = a.processors j ∧ st2'.processors j = b.processors j := by
  obtain ⟨a1, a2, a3, a4, a5⟩ := cycleLoop_spec h
  obtain ⟨b1, b2, b3, b4, b5⟩ := cycleLoop_spec h2
  refine ⟨by omega, ?_, fun j inV outV hj => ?_⟩
  · rw [a4, b4, hlt, txLoop_some _ _ _ hs]
  · obtain ⟨s1, r1, c1, c2, c3, c4⟩ := a5 j inV outV hj
    obtain ⟨s2, r2, d1, d2, d3, d4⟩ := b5 j inV outV hj
    rw [Nat.zero_add] at c2 c3 c4 d2 d3 d4
    rw [txLoop_some _ _ _ hs, hlt] at c2
    exact ⟨_, s1, s2, r1, r2, c2, d2, c1, d1, fun x hx => ⟨c3 x hx, d3 x hx⟩, c4, d4⟩

theorem moduleInput_length {oc : Bool} {pi : List Word} {m : Module} {off : ModuleOffset}
    {vs : List ChannelValue} (h : moduleInput oc pi m off = .ok vs) (hm : m ≠ .sil) :
    vs.length = m.moduleType.channelCount := by
  unfold moduleInput at h
  split at h
  · simp only [Res.bind_eq, Res.bind_eq_ok] at h
    obtain ⟨raw, -, h⟩ := h
    rw [Module.processInputData_length m raw vs h, if_neg hm]
  · cases h; simp

theorem moduleOutput_length {oc : Bool} {po : List Word} {m : Module} {off : ModuleOffset}
    {vs : List ChannelValue} (h : moduleOutput oc po m off = .ok vs) :
    vs.length = m.moduleType.channelCount := by
  unfold moduleOutput at h
  split at h
  · simp only [Res.bind_eq, Res.bind_eq_ok] at h
    obtain ⟨raw, -, h⟩ := h
    exact Module.processOutputData_length m raw vs h
  · cases h; simp

theorem moduleStep_lengths {mNr : Nat} {st st' : LoopState} {inV outV : List ChannelValue}
    {r : ModuleResult} (h : moduleStep mNr st inV outV = .ok (st', r)) :
    r.inV.length = inV.length ∧ r.outV.length = outV.length ∧ r.nextV.length = outV.length := by
  unfold moduleStep at h
  split at h
  · split at h
    · cases h
    · split at h
      · cases h
      · rw [serialStep_eq] at h; cases h; simp
      · cases h; simp
    · cases h; simp
  · cases h
    simp [(applyWrites_eq _ _ _ _).1]

theorem Inv.cycle_ok {c : Coupler} (hi : c.Inv) {oc : Bool} {pi po : List Word}
    {ins outs : List (List ChannelValue)} (h1 : processInputData oc (infos c) pi = .ok ins)
    (h2 : processOutputData oc (infos c) po = .ok outs) :
    ∃ st rs, cycleLoop 0 ⟨c.write, c.processors, c.lastTxCnt⟩ (ins.zip outs) = .ok (st, rs) := by
  apply cycleLoop_ok
  intro j inV outV hj hs
  rw [Nat.zero_add] at hs
  rw [List.getElem?_zip_eq_some] at hj
  obtain ⟨p, hp⟩ := Option.isSome_iff_exists.1 hs
  obtain ⟨cm, hcm, -⟩ := hi.proc j p hp
  obtain ⟨off, hat⟩ := hi.moduleAt hcm
  obtain ⟨inV', hi1, hi2⟩ := mapRes_getElem? h1 (infos_getElem? hat)
  obtain ⟨outV', ho1, ho2⟩ := mapRes_getElem? h2 (infos_getElem? hat)
  rw [hj.1] at hi1
  rw [hj.2] at ho1
  cases hi1
  cases ho1
  have l1 := moduleInput_length hi2 (by simp)
  have l2 := moduleOutput_length ho2
  have hcc : (Module.com cm).moduleType.channelCount = 1 := rfl
  rw [hcc] at l1 l2
  constructor
  · rintro rfl; simp at l1
  · rintro rfl; simp at l2

/-- Values of modules without output offset do not matter for the image. -/
theorem outputLoop_congr (out : List Word)
    (l l' : List ((Module × ModuleOffset) × List ChannelValue)) (hl : l.length = l'.length)
    (h : ∀ (i : Nat) e e', l[i]? = some e → l'[i]? = some e' →
      e.1 = e'.1 ∧ (e.1.2.output ≠ none → e.2 = e'.2)) :
    outputLoop out l = outputLoop out l' := by
  induction l generalizing l' out with
  | nil => cases l' with
    | nil => rfl
    | cons _ _ => simp at hl
  | cons e l ih =>
    cases l' with
    | nil => simp at hl
    | cons e' l' =>
      simp only [List.length_cons, Nat.add_right_cancel_iff] at hl
      obtain ⟨h1, h2⟩ := h 0 e e' rfl rfl
      have ih := fun out => ih out l' hl fun i x y hx hy =>
        h (i + 1) x y (by simpa using hx) (by simpa using hy)
      obtain ⟨⟨m, off⟩, vs⟩ := e
      obtain ⟨⟨m', off'⟩, vs'⟩ := e'
      simp only [Prod.mk.injEq] at h1 h2
      obtain ⟨rfl, rfl⟩ := h1
      simp only [outputLoop]
      cases ho : off.output with
      | none => exact ih out
      | some o =>
        rw [h2 (by simp [ho])]
        simp only [Res.bind_eq]
        congr 1
        funext d
        congr 1
        funext out'
        exact ih out'

end Coupler

end Ur20
