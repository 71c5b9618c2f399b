import Verif.Spec.Pending
import Verif.Props.Histories
import Verif.Props.Channels
import Verif.Props.Faults

/-! # A coupler described by the calls made on it: C110 -/

namespace Ur20

open Spec Com Coupler

theorem read_write {c d : Coupler} {n len : Nat} {b : Option (List Byte)}
    (h : c.read n len = .ok (d, b)) : d.write = c.write := by
  unfold Coupler.read at h
  split at h
  · simp only [Res.bind_eq_ok] at h
    obtain ⟨x, -, h⟩ := h
    cases h
    rfl
  · cases h
    rfl

theorem waiting_run {oc : Bool} {cfg : CouplerConfig} {c : Coupler}
    (hr : ReachableFrom oc cfg c) (ops : List COp) (hsz : ImagesSmall oc ops) (a : Address) :
    (runC oc c ops).write a = waitingFor cfg a (c.write a) ops := by
  induction ops generalizing c with
  | nil => rfl
  | cons op ops ih =>
    have hr' : ReachableFrom oc cfg (op.apply oc c) := reachable_run hr [op]
    have hsz' : ImagesSmall oc ops := fun pi po h => hsz pi po (List.mem_cons_of_mem _ h)
    rw [show runC oc c (op :: ops) = runC oc (op.apply oc c) ops from rfl, ih hr' hsz']
    cases op with
    | setOutput b v =>
      change waitingFor cfg a ((c.setOutput b v).1.write a) ops = waitingFor cfg a _ ops
      obtain ⟨h1, h2, h3⟩ := C31_addresses oc cfg c hr b v
      congr 1
      by_cases hok : (c.setOutput b v).2 = .ok ()
      · rw [h2 hok]
        change (if a = b then some v else c.write a) = _
        by_cases hab : a = b
        · subst hab
          rw [if_pos rfl, if_pos ⟨rfl, h1.1 hok⟩]
        · rw [if_neg hab, if_neg fun h => hab h.1.symm]
      · rw [h3 hok, if_neg]
        rintro ⟨rfl, h⟩
        exact hok (h1.2 h)
    | next pi po =>
      change waitingFor cfg a ((c.next oc pi po).1.write a) ops = waitingFor cfg a _ ops
      congr 1
      by_cases hd : Decodable cfg pi po
      · obtain ⟨-, h⟩ := C78_consumed oc cfg c hr pi po hd.1 hd.2
        by_cases hs : DetachedSerial cfg a.module
        · rw [(h a).1 hs, if_neg fun h => h.2 hs]
        · rw [(h a).2 hs, if_pos ⟨hd, hs⟩]
      · rw [(C78_undecodable oc cfg c hr pi po (hsz pi po List.mem_cons_self) hd).2.1,
          if_neg fun h => hd h.1]
    | read n len =>
      change waitingFor cfg a (Coupler.write _ a) ops = waitingFor cfg a _ ops
      congr 1
      unfold COp.apply
      simp only
      split
      · rename_i r hrd
        rw [read_write (d := r.1) (b := r.2) hrd]
      · rfl
    | write n buf =>
      change waitingFor cfg a (Coupler.write (c.writeBytes n buf).1 a) ops = waitingFor cfg a _ ops
      congr 1
      unfold Coupler.writeBytes
      split <;> rfl

theorem same_writes (oc : Bool) (cfg : CouplerConfig) (c d : Coupler)
    (hc : ReachableFrom oc cfg c) (hd : ReachableFrom oc cfg d)
    (hser : ∀ n : Nat, cfg.modules[n]? ≠ some ModuleType.UR20_1COM_232_485_422)
    (hw : c.write = d.write) (pi po : List Word) :
    (c.next oc pi po).2 = (d.next oc pi po).2 ∧
    ∀ img, (c.next oc pi po).2 = .ok img →
      (c.next oc pi po).1.inputs = (d.next oc pi po).1.inputs ∧
      (c.next oc pi po).1.outputs = (d.next oc pi po).1.outputs := by
  have hi := inv_of_reachable hc
  have hi' := inv_of_reachable hd
  have hinf : infos c = infos d := by
    obtain ⟨c0, ops, h0, rfl⟩ := id hc
    obtain ⟨d0, ops', h0', rfl⟩ := id hd
    rw [h0] at h0'
    cases h0'
    unfold infos
    rw [(run_static oc c0 ops).1, (run_static oc c0 ops).2, (run_static oc c0 ops').1,
      (run_static oc c0 ops').2]
  have hp : ∀ {x : Coupler}, ReachableFrom oc cfg x → ∀ n, x.processors n = none := by
    intro x hx n
    have := (C14_readers oc cfg x hx n).1
    cases hpn : x.processors n with
    | none => rfl
    | some p => exact absurd (this.1 (by simp [hasReader, hpn])) (hser n)
  rcases next_cases oc c pi po with ⟨e, h1, h2⟩ | ⟨h1, h2⟩ | ⟨ins, e, h1, h2, h3⟩ |
    ⟨ins, h1, h2, h3⟩ | ⟨ins, outs, h1, h2, h3, h4⟩ | ⟨ins, outs, st, rs, h1, h2, h3, h4⟩
  · rw [h2, (C37_no_partial_effect oc d pi po e).1 (hinf ▸ h1)]; simp
  · have : d.next oc pi po = (d, .panic) := by
      rw [hinf] at h1
      unfold infos at h1
      simp [Coupler.next, h1]
    rw [h2, this]; simp
  · rw [h3, ((C37_no_partial_effect oc d pi po e).2 ins (hinf ▸ h1) (hinf ▸ h2)).1]; simp
  · have : d.next oc pi po = ({ d with inValues := ins }, .panic) := by
      rw [hinf] at h1 h2
      unfold infos at h1 h2
      simp [Coupler.next, h1, h2]
    rw [h3, this]; simp
  · obtain ⟨st', rs, h5⟩ := hi.cycle_ok h1 h2
    rw [h5] at h3
    cases h3
  · obtain ⟨st', rs', h5⟩ := hi'.cycle_ok (hinf ▸ h1) (hinf ▸ h2)
    obtain ⟨h6, h7⟩ := Coupler.next_done (hinf ▸ h1) (hinf ▸ h2) h5 (c' := (d.next oc pi po).1)
      (r := (d.next oc pi po).2) rfl
    have hrs : rs = rs' := by
      apply List.ext_getElem?
      intro j
      have l1 := (cycleLoop_spec h3).1
      have l2 := (cycleLoop_spec h5).1
      by_cases hj : j < (ins.zip outs).length
      · obtain ⟨s1, r1, b1, b2, -⟩ := (cycleLoop_spec h3).2.2.2.2 j _ _ (List.getElem?_eq_getElem hj)
        obtain ⟨s2, r2, d1, d2, -⟩ := (cycleLoop_spec h5).2.2.2.2 j _ _ (List.getElem?_eq_getElem hj)
        rw [moduleStep_plain (hp hc _)] at b2
        rw [moduleStep_plain (hp hd _)] at d2
        cases b2
        cases d2
        rw [b1, d1, hw]
      · rw [List.getElem?_eq_none (by omega), List.getElem?_eq_none (by omega)]
    subst hrs
    rw [h4, h7, h6, hinf]
    exact ⟨rfl, fun _ _ => ⟨rfl, rfl⟩⟩

section

variable (oc : Bool) (cfg : CouplerConfig) (c0 : Coupler) (h0 : Coupler.new cfg = .ok c0)
  (ops : List COp) (hsz : ImagesSmall oc ops)

include h0 hsz

theorem waiting_eq : (runC oc c0 ops).write = waiting cfg ops := by
  funext a
  rw [waiting_run (c := c0) ⟨c0, [], h0, rfl⟩ ops hsz a, waiting]
  congr 1
  exact ((C13_success cfg).2 c0 h0).2.2.2.2.2 a

/-- C110: after any history, a cycle succeeds exactly if the images hold the data of all modules in
their places, and the values written since the last decodable cycle can be encoded. -/
theorem C110_success (pi po : List Word) :
    (∃ img, ((runC oc c0 ops).next oc pi po).2 = .ok img) ↔
      CompleteImages cfg pi po ∧ Encodable cfg (waiting cfg ops) po := by
  rw [← waiting_eq oc cfg c0 h0 ops hsz]
  exact C69_success_iff oc cfg _ ⟨c0, ops, h0, rfl⟩ pi po

/-- C110: it panics only as C77 says, whatever was called before; otherwise its error is that of the
first module, in the order of decoding inputs, decoding outputs and encoding, at fault. -/
theorem C110_error (pi po : List Word) (hpo : oc = false → po.length ≤ 0xF800)
    (hp : ((runC oc c0 ops).next oc pi po).2 ≠ .panic) (e : Error) :
    ((runC oc c0 ops).next oc pi po).2 = .err e ↔
      FirstFault (InputFault cfg pi) e ∨
      ((∀ j e', ¬ InputFault cfg pi j e') ∧ FirstFault (OutputFault cfg po) e) ∨
      ((∀ j e', ¬ InputFault cfg pi j e') ∧ (∀ j e', ¬ OutputFault cfg po j e') ∧
        FirstFault (EncodeFault cfg (waiting cfg ops) po) e) := by
  rw [← waiting_eq oc cfg c0 h0 ops hsz]
  exact C82_error oc cfg _ ⟨c0, ops, h0, rfl⟩ pi po hpo hp e

/-- C110: the image it returns has, for every output channel of the modules that are not serial, the
value of the last `set_output` to it since the last decodable cycle; without one it has what the
given output image says. -/
theorem C110_image (j : Nat) (hdis : OutputsKept cfg j) (pi po img : List Word)
    (h : ((runC oc c0 ops).next oc pi po).2 = .ok img)
    (t : ModuleType) (par : List Word) (o i : Word) (hcfg : ConfiguredAt cfg j t par o i)
    (ht : t ≠ .UR20_1COM_232_485_422) (hno : o ≠ noOffset)
    (hal : o.toNat % 16 = 0 ∨ outputBytes t par = 1) (ch : Nat) (hch : ch < outputChannels t) :
    OutputWritten t par po img (outBit o) ch (waiting cfg ops ⟨j, ch⟩) := by
  rw [← waiting_eq oc cfg c0 h0 ops hsz]
  exact C72_image oc cfg _ ⟨c0, ops, h0, rfl⟩ j hdis pi po img _ (Prod.ext rfl h) t par o i hcfg ht
    hno hal ch hch

/-- C110: a coupler without serial modules remembers nothing but the values written since the last
decodable cycle: after two histories that agree in these, a cycle returns and shows the same. -/
theorem C110_memory (ops' : List COp) (hsz' : ImagesSmall oc ops')
    (hser : ∀ n : Nat, cfg.modules[n]? ≠ some ModuleType.UR20_1COM_232_485_422)
    (hw : waiting cfg ops = waiting cfg ops') (pi po : List Word) :
    ((runC oc c0 ops).next oc pi po).2 = ((runC oc c0 ops').next oc pi po).2 ∧
    ∀ img, ((runC oc c0 ops).next oc pi po).2 = .ok img →
      ((runC oc c0 ops).next oc pi po).1.inputs = ((runC oc c0 ops').next oc pi po).1.inputs ∧
      ((runC oc c0 ops).next oc pi po).1.outputs = ((runC oc c0 ops').next oc pi po).1.outputs :=
  same_writes oc cfg _ _ ⟨c0, ops, h0, rfl⟩ ⟨c0, ops', h0, rfl⟩ hser
    (by rw [waiting_eq oc cfg c0 h0 ops hsz, waiting_eq oc cfg c0 h0 ops' hsz', hw]) pi po

end

/-- C66, wherever the module lies: no cycle succeeds while a value other than a number or `Disabled`
is pending for an analog output. -/
theorem C66_pending_anywhere (oc : Bool) (cfg : CouplerConfig) (c : Coupler)
    (hr : ReachableFrom oc cfg c) (pi po : List Word) (j : Nat) (t : ModuleType) (par : List Word)
    (o i : Word) (hcfg : ConfiguredAt cfg j t par o i)
    (ht : t = .UR20_4AO_UI_16 ∨ t = .UR20_4AO_UI_16_DIAG) (hno : o ≠ noOffset)
    (ch : Nat) (v : ChannelValue) (hw : c.write ⟨j, ch⟩ = some v) (hv1 : v ≠ .disabled)
    (hv2 : ∀ x, v ≠ .decimal32 x) (img : List Word) : (c.next oc pi po).2 ≠ .ok img := by
  intro h
  have := (C69_needed oc cfg c hr pi po img _ (Prod.ext rfl h)).2.pending j t par o i ch v hcfg hno hw
  rcases ht with rfl | rfl
  all_goals
    rcases this with h | ⟨x, h⟩
    · exact hv1 h
    · exact hv2 x h

/-! ### A history with an undecodable cycle -/

theorem exRelay_undecodable : ¬ Decodable exRelay [] [] := by
  rintro ⟨-, h⟩
  obtain ⟨-, ⟨-, -, h⟩, -⟩ := h 0 .UR20_4RO_CO_255 _ 0x8000#16 noOffset ⟨rfl, rfl, rfl, rfl⟩ (by decide)
  revert h
  decide

/-- The write survives the cycle without output image, so a later cycle writes it. -/
example : ∃ c0, Coupler.new exRelay = .ok c0 ∧
    waiting exRelay [.setOutput ⟨0, 1⟩ (.bit true), .next [] []] ⟨0, 1⟩ = some (.bit true) ∧
    ((runC true c0 [.setOutput ⟨0, 1⟩ (.bit true), .next [] []]).next true [] [0#16]).2 =
      .ok [2#16] := by
  refine ⟨_, rfl, ?_, rfl⟩
  simp only [waiting, waitingFor]
  rw [if_neg fun h => exRelay_undecodable h.1, if_pos ⟨rfl, _, rfl, by decide⟩]

end Ur20
