import Verif.Spec.Isolation
import Verif.Props.Noninterference
import Verif.Props.Failure

/-! # What one module depends on when cycles fail: C126 -/

namespace Ur20

open Spec Com Coupler

/-! ### One cycle -/

/-- A cycle with an image that cannot be decoded does not change what concerns a module. -/
theorem undecoded_agree {oc : Bool} {cfg : CouplerConfig} {c : Coupler}
    (hr : ReachableFrom oc cfg c) {pi po : List Word} (hsz : oc = false → po.length ≤ 0xF800)
    (h : ¬ Decodable cfg pi po) (j : Nat) : Agree j j (c.next oc pi po).1 c := by
  have h' : ¬ ((∃ ins, processInputData oc (infos c) pi = .ok ins) ∧
      ∃ outs, processOutputData oc (infos c) po = .ok outs) := fun hh =>
    h ⟨(decode_inputs hr pi).1 hh.1, (decode_outputs hr hsz).1 hh.2⟩
  obtain ⟨-, ins, e, -⟩ := not_decoded h'
  rw [e]
  exact ⟨fun _ => rfl, rfl⟩

theorem decoded_outputs {oc : Bool} {cfg : CouplerConfig} {c : Coupler}
    (hr : ReachableFrom oc cfg c) {po : List Word} (hout : ∀ j, OutputPresent cfg po j) :
    ∃ outs, processOutputData oc (infos c) po = .ok outs := by
  unfold processOutputData
  rw [mapRes_ok_iff]
  rintro ⟨m, off⟩ he
  obtain ⟨j, hj⟩ := List.mem_iff_getElem?.1 he
  obtain ⟨t, par, o, i, hcfg, hc, rfl⟩ := reachable_at hr (infos_at.1 hj)
  simp only
  cases ho : wordToOffset o with
  | none => exact ⟨_, rfl⟩
  | some v =>
    obtain ⟨hno, rfl⟩ := wordToOffset_some.1 ho
    obtain ⟨g1, g2⟩ := hout j t par v i hcfg hno
    exact (moduleOutput_iff hc g1).2 g2

section
variable {oc oc' : Bool} {cfg cfg' : CouplerConfig} {j j' : Nat}
  (hd : OutputsKept cfg j) (hd' : OutputsKept cfg' j') {t : ModuleType} {par : List Word} {o i o' i' : Word}
  (hal : o ≠ noOffset → o.toNat % 16 = 0 ∨ outputBytes t par = 1) (hil : InputLike t par i i')
  (hol : OutputLike t par o o') (hcfg : ConfiguredAt cfg j t par o i)
  (hcfg' : ConfiguredAt cfg' j' t par o' i')

include hil hol hcfg hcfg'

theorem decoded_same {c d : Coupler}
    (hrc : ReachableFrom oc cfg c) (hrd : ReachableFrom oc' cfg' d) (h : Agree j j' c d)
    {pi po pi' po' : List Word} (h1 : Decodable cfg pi po) (h2 : Decodable cfg' pi' po')
    (hi : Place.inBytes ⟨t, par, o, i⟩ pi = Place.inBytes ⟨t, par, o', i'⟩ pi')
    (ho : Place.outBytes ⟨t, par, o, i⟩ po = Place.outBytes ⟨t, par, o', i'⟩ po') :
    (c.next oc pi po).1.inputs[j]? = (d.next oc' pi' po').1.inputs[j']? ∧
    (t ≠ .UR20_1COM_232_485_422 →
      (c.next oc pi po).1.outputs[j]? = (d.next oc' pi' po').1.outputs[j']?) ∧
    Agree j j' (c.next oc pi po).1 (d.next oc' pi' po').1 := by
  obtain ⟨m, hm, hcr⟩ := configured_at hrc hcfg
  obtain ⟨m', hm', hcr'⟩ := configured_at hrd hcfg'
  rw [hcr] at hcr'
  cases hcr'
  have hic := inv_of_reachable hrc
  have hid := inv_of_reachable hrd
  obtain ⟨ins, d1⟩ := (decode_inputs hrc pi).2 h1.1
  obtain ⟨ins', d1'⟩ := (decode_inputs hrd pi').2 h2.1
  obtain ⟨outs, d2⟩ := decoded_outputs hrc h1.2
  obtain ⟨outs', d2'⟩ := decoded_outputs hrd h2.2
  obtain ⟨inV, outV, st, r, lt, a1, a2, a3, a4, a5, a6, a7⟩ := decoded_module hic d1 d2 hm
  obtain ⟨inV', outV', st', r', lt', b1, b2, b3, b4, b5, b6, b7⟩ := decoded_module hid d1' d2' hm'
  have q1 := input_same hcr hil a1 b1 hi
  have q2 := output_same hcr hol (fun hn => (h1.2 j t par o i hcfg hn).1)
    (fun hn => (h2.2 j' t par o' i' hcfg' hn).1) a2 b2 ho
  subst q1
  subst q2
  obtain ⟨s1, s2, s3, s4, s5⟩ := step_same a3 b3 h.1 h.2
  refine ⟨by rw [a4, b4, s1], fun ht => ?_, fun ch => ?_, by rw [a7, b7, s5]⟩
  · rw [a5, b5, s3]
    exact hic.none hm.1 fun hser => ht ((isSerial_type hcr).1 hser)
  · rw [a6 _ rfl, b6 _ rfl, s4 ch]

end

/-! ### Histories -/

theorem viewIn_call {cfg : CouplerConfig} {j : Nat} {p : Place} {op : COp}
    (hn : ∀ pi po, op ≠ .next pi po) : op.viewIn cfg j p = op.view j p := by
  cases op <;> first | rfl | exact absurd rfl (hn _ _)

theorem viewIn_cycle {cfg : CouplerConfig} {j : Nat} {p : Place} {op : COp}
    {x y : List (Option Byte)} (h : op.viewIn cfg j p = some (.cycle x y)) :
    ∃ pi po, op = .next pi po ∧ Decodable cfg pi po ∧ p.inBytes pi = x ∧ p.outBytes po = y := by
  cases op with
  | next pi po =>
    simp only [COp.viewIn] at h
    split at h <;> cases h
    exact ⟨pi, po, rfl, ‹_›, rfl, rfl⟩
  | _ =>
    obtain ⟨pi, po, h, -⟩ := view_cycle ((viewIn_call (by intro _ _ h; cases h)).symm.trans h)
    cases h

theorem viewIn_own {cfg : CouplerConfig} {j : Nat} {p : Place} {op : COp} {v : View}
    (h : op.viewIn cfg j p = some v) (hn : ∀ x y, v ≠ .cycle x y) :
    op.view j p = some v ∧ ∀ pi po, op ≠ .next pi po := by
  cases op with
  | next pi po =>
    simp only [COp.viewIn] at h
    split at h <;> cases h
    exact absurd rfl (hn _ _)
  | _ => exact ⟨h, by intro _ _ h; cases h⟩

/-- A call that does not reach module `j` leaves its part of the state alone. -/
theorem unreached_call {oc : Bool} {cfg : CouplerConfig} {c : Coupler}
    (hr : ReachableFrom oc cfg c) {j : Nat} {p : Place} {op : COp}
    (hsz : ImagesSmall oc [op]) (hv : op.viewIn cfg j p = none) : Agree j j (op.apply oc c) c := by
  cases op with
  | next pi po =>
    simp only [COp.viewIn] at hv
    split at hv
    · cases hv
    · exact undecoded_agree hr (hsz pi po List.mem_cons_self) ‹_› j
  | _ => exact other_call ((viewIn_call (by intro _ _ h; cases h)).symm.trans hv) c

theorem seenReached_none {oc : Bool} {cfg : CouplerConfig} {j : Nat} {p : Place} {op : COp}
    (hv : op.viewIn cfg j p = none) (c : Coupler) (ops : List COp) :
    seenReached oc cfg j p c (op :: ops) = seenReached oc cfg j p (op.apply oc c) ops := by
  simp [seenReached, hv]

theorem seenReached_call {oc : Bool} {cfg : CouplerConfig} {j : Nat} {p : Place} {op : COp} {v : View}
    (hv : op.viewIn cfg j p = some v) (hn : ∀ pi po, op ≠ .next pi po) (c : Coupler)
    (ops : List COp) : seenReached oc cfg j p c (op :: ops) =
      .call (call oc c op).2 :: seenReached oc cfg j p (op.apply oc c) ops := by
  cases op
  case next => exact absurd rfl (hn _ _)
  all_goals simp [seenReached, hv]

theorem seenReached_cycle {oc : Bool} {cfg : CouplerConfig} {j : Nat} {p : Place} {pi po : List Word}
    (hd : Decodable cfg pi po) (c : Coupler) (ops : List COp) :
    seenReached oc cfg j p c (.next pi po :: ops) =
      .cycle (c.next oc pi po).1.inputs[j]?
        (if p.type = .UR20_1COM_232_485_422 then none else (c.next oc pi po).1.outputs[j]?)
        ((c.next oc pi po).2.map p.outBytes) ::
        seenReached oc cfg j p ((COp.next pi po).apply oc c) ops := by
  simp [seenReached, COp.viewIn, hd]

theorem Spec.ImagesSmall.head {oc : Bool} {op : COp} {ops : List COp} (h : ImagesSmall oc (op :: ops)) :
    ImagesSmall oc [op] := fun pi po hm => h pi po (by
  rw [List.mem_singleton.1 hm]
  exact List.mem_cons_self)

theorem Spec.ImagesSmall.tail {oc : Bool} {op : COp} {ops : List COp} (h : ImagesSmall oc (op :: ops)) :
    ImagesSmall oc ops := fun pi po hm => h pi po (List.mem_cons_of_mem _ hm)

section
variable {oc oc' : Bool} {cfg cfg' : CouplerConfig} {j j' : Nat}
  (hd : OutputsKept cfg j) (hd' : OutputsKept cfg' j') {t : ModuleType} {par : List Word} {o i o' i' : Word}
  (hal : o ≠ noOffset → o.toNat % 16 = 0 ∨ outputBytes t par = 1) (hil : InputLike t par i i')
  (hol : OutputLike t par o o') (hcfg : ConfiguredAt cfg j t par o i)
  (hcfg' : ConfiguredAt cfg' j' t par o' i')

include hd hd' hal hil hol hcfg hcfg'

theorem same_reached (xs ys : List COp) {c d : Coupler}
    (hrc : ReachableFrom oc cfg c) (hrd : ReachableFrom oc' cfg' d) (h : Agree j j' c d)
    (hx : ImagesSmall oc xs) (hy : ImagesSmall oc' ys)
    (hv : viewIn cfg j ⟨t, par, o, i⟩ xs = viewIn cfg' j' ⟨t, par, o', i'⟩ ys) :
    List.Forall₂ SeenAlike (seenReached oc cfg j ⟨t, par, o, i⟩ c xs)
      (seenReached oc' cfg' j' ⟨t, par, o', i'⟩ d ys) := by
  induction xs generalizing c d ys with
  | nil =>
    clear hx
    induction ys generalizing d with
    | nil => exact .nil
    | cons y ys ih =>
      simp only [viewIn, List.filterMap_nil, List.filterMap_cons] at hv
      cases hvy : y.viewIn cfg' j' ⟨t, par, o', i'⟩ with
      | some v => rw [hvy] at hv; cases hv
      | none =>
        rw [hvy] at hv
        rw [seenReached_none hvy]
        exact ih (reachable_run hrd [y]) (h.trans_right (unreached_call hrd hy.head hvy)) hy.tail hv
  | cons x xs ihx =>
    cases hvx : x.viewIn cfg j ⟨t, par, o, i⟩ with
    | none =>
      rw [seenReached_none hvx]
      refine ihx ys (reachable_run hrc [x]) hrd (h.trans_left (unreached_call hrc hx.head hvx))
        hx.tail hy ?_
      rw [← hv]
      simp [viewIn, hvx]
    | some v =>
      induction ys generalizing d with
      | nil =>
        simp only [viewIn, List.filterMap_nil, List.filterMap_cons, hvx] at hv
        cases hv
      | cons y ys ihy =>
        cases hvy : y.viewIn cfg' j' ⟨t, par, o', i'⟩ with
        | none =>
          rw [seenReached_none hvy]
          refine ihy (reachable_run hrd [y]) (h.trans_right (unreached_call hrd hy.head hvy))
            hy.tail ?_
          rw [hv]
          simp [viewIn, hvy]
        | some v' =>
          simp only [viewIn, List.filterMap_cons, hvx, hvy, List.cons.injEq] at hv
          obtain ⟨rfl, hv⟩ := hv
          by_cases hc : ∃ a b, v = .cycle a b
          · obtain ⟨a, b, rfl⟩ := hc
            obtain ⟨pi, po, rfl, h0, h1, h2⟩ := viewIn_cycle hvx
            obtain ⟨pi', po', rfl, h0', h1', h2'⟩ := viewIn_cycle hvy
            obtain ⟨q1, q2, q4⟩ := decoded_same hil hol hcfg hcfg' hrc hrd h h0 h0'
              (h1.trans h1'.symm) (h2.trans h2'.symm)
            rw [seenReached_cycle h0, seenReached_cycle h0']
            refine .cons ⟨q1, ?_, fun bs bs' e e' => ?_⟩
              (ihx ys (reachable_run hrc [.next pi po]) (reachable_run hrd [.next pi' po']) q4 hx.tail hy.tail hv)
            · simp only
              split
              · rfl
              · rename_i ht
                exact q2 ht
            · cases hn : (c.next oc pi po).2 with
              | ok img =>
                cases hn' : (d.next oc' pi' po').2 with
                | ok img' =>
                  rw [hn] at e
                  rw [hn'] at e'
                  cases e
                  cases e'
                  exact (cycle_same hd hd' hal hil hol hcfg hcfg' hrc hrd h hn hn'
                    (h1.trans h1'.symm) (h2.trans h2'.symm)).2.2.1
                | err x => rw [hn'] at e'; cases e'
                | panic => rw [hn'] at e'; cases e'
              | err x => rw [hn] at e; cases e
              | panic => rw [hn] at e; cases e
          · have hn : ∀ a b, v ≠ .cycle a b := fun a b e => hc ⟨a, b, e⟩
            obtain ⟨u1, u2⟩ := viewIn_own hvx hn
            obtain ⟨w1, w2⟩ := viewIn_own hvy hn
            obtain ⟨q1, q2⟩ := own_call hrc hrd hcfg hcfg' u1 w1 hn h
            rw [seenReached_call hvx u2, seenReached_call hvy w2]
            exact .cons q2 (ihx ys (reachable_run hrc [x]) (reachable_run hrd [y]) q1 hx.tail
              hy.tail hv)

end

/-- C126: failures caused by other modules do not reach a module. Take two couplers that have a module
of the same type with the same parameters, and any two histories with any failing cycles. If they
look the same to the module — the same calls with its number, and its own bytes are the same in each
cycle whose images can be decoded — then the application sees the same of it: the results of these
calls, after each of these cycles, also those that fail because some module cannot write its value,
its values in `inputs()` and `outputs()` (except for a serial module), and its bytes of the image if
both cycles return one. -/
theorem C126_isolated (oc oc' : Bool) (cfg cfg' : CouplerConfig) (c d : Coupler)
    (hnew : Coupler.new cfg = .ok c) (hnew' : Coupler.new cfg' = .ok d)
    (j j' : Nat) (hd : OutputsKept cfg j) (hd' : OutputsKept cfg' j') (t : ModuleType)
    (par : List Word) (o i o' i' : Word)
    (hal : o ≠ noOffset → o.toNat % 16 = 0 ∨ outputBytes t par = 1) (hil : InputLike t par i i')
    (hol : OutputLike t par o o') (hcfg : ConfiguredAt cfg j t par o i)
    (hcfg' : ConfiguredAt cfg' j' t par o' i') (xs ys : List COp)
    (hx : ImagesSmall oc xs) (hy : ImagesSmall oc' ys)
    (hv : viewIn cfg j ⟨t, par, o, i⟩ xs = viewIn cfg' j' ⟨t, par, o', i'⟩ ys) :
    List.Forall₂ SeenAlike (seenReached oc cfg j ⟨t, par, o, i⟩ c xs)
      (seenReached oc' cfg' j' ⟨t, par, o', i'⟩ d ys) :=
  same_reached hd hd' hal hil hol hcfg hcfg' xs ys ⟨c, [], hnew, rfl⟩ ⟨d, [], hnew', rfl⟩
    (agree_new hnew hnew' hcfg hcfg') hx hy hv

/-- In the first history a cycle fails because of images without registers, and the last one because of
a value that the first module cannot write … -/
def exIsolated : List COp :=
  [.setOutput ⟨0, 2⟩ (.bytes []), .next [] [], .setOutput ⟨1, 1⟩ (.bit true), .next exPi exPo]

/-- … in the second history no cycle fails. -/
def exUndisturbed : List COp := [.setOutput ⟨1, 1⟩ (.bit true), .next exPi exPo]

example : ((runC true (initial exCfg exModules) (exIsolated.take 3)).next true exPi exPo).2 =
      .err .channelValue ∧
    ∃ img, ((runC true (initial exCfg exModules) (exUndisturbed.take 1)).next true exPi exPo).2 = .ok img :=
  ⟨rfl, _, rfl⟩

/-- They look the same to the second module … -/
theorem exIsolated_view (p : Place) : viewIn exCfg 1 p exIsolated = viewIn exCfg 1 p exUndisturbed := by
  have h : ¬ Decodable exCfg [] [] := fun h => by
    obtain ⟨c, h0⟩ : ∃ c, Coupler.new exCfg = .ok c := ⟨_, exCfg_new⟩
    obtain ⟨ins, h1⟩ := (decode_inputs (oc := true) ⟨c, [], h0, rfl⟩ []).2 h.1
    rw [exCfg_new] at h0
    cases h0
    cases h1
  have h' : Decodable exCfg exPi exPo := exCfg_decodable
  simp [viewIn, exIsolated, exUndisturbed, COp.viewIn, COp.view, h, h']

/-- … which shows the same after the last cycle of both. -/
example : (runC true (initial exCfg exModules) exIsolated).outputs[1]? =
      (runC true (initial exCfg exModules) exUndisturbed).outputs[1]? ∧
    (runC true (initial exCfg exModules) exUndisturbed).outputs[1]? =
      some [.bit true, .bit false, .bit true, .bit false, .bit true, .bit false, .bit true,
        .bit false] := ⟨rfl, rfl⟩

end Ur20
