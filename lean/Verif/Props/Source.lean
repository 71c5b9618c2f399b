import Verif.Spec.Source
import Verif.Lemmas.SourceCoupler
import Verif.Props.Imperative
import Verif.Props.Processor

/-!
# C134: the translated source shows what the model shows

`tools/rust2lean.py` translates the Rust source to `Verif/Source`, function by function and statement
by statement. The model, which is written by hand and which all other properties are about, shows
the same as the translation.
-/

namespace Ur20

open Spec

theorem Src.call_same (oc : Bool) (c : Imp.Coupler) (ord : Imp.Orders) (fill : Nat → Byte)
    (op : COp) :
    (Spec.Src.call oc (Src.ur20_fbc_mod_tcp.embed c) ord fill op).2 = (Imp.call oc c ord op).2 ∧
      ((Imp.call oc c ord op).2.panicked = false →
        (Spec.Src.call oc (Src.ur20_fbc_mod_tcp.embed c) ord fill op).1 =
          Src.ur20_fbc_mod_tcp.embed (Imp.call oc c ord op).1) := by
  cases op with
  | setOutput a v =>
    have h := Src.ur20_fbc_mod_tcp.set_output_eq oc c a v
    simp only [Spec.Src.call, Imp.call]
    generalize Src.ur20_fbc_mod_tcp.Coupler.set_output oc _ a v = x at h
    generalize Imp.setOutput c a v = y at h
    obtain ⟨c', y⟩ := y
    cases x with
    | ok x => obtain ⟨rfl, h⟩ := h; exact ⟨rfl, fun _ => h⟩
    | err e s => obtain ⟨rfl, h⟩ := h; exact ⟨rfl, fun _ => h⟩
    | panic s => cases h; exact ⟨rfl, fun h => by cases h⟩
  | next i o =>
    have h := Src.ur20_fbc_mod_tcp.next_eq oc ord c i o
    simp only [Spec.Src.call, Imp.call]
    generalize Src.ur20_fbc_mod_tcp.Coupler.next oc _ i o _ _ = x at h
    generalize Imp.next oc ord c i o = y at h
    obtain ⟨c', y⟩ := y
    cases x with
    | ok x => obtain ⟨rfl, h⟩ := h; exact ⟨rfl, fun _ => h⟩
    | err e s => obtain ⟨rfl, h⟩ := h; exact ⟨rfl, fun _ => h⟩
    | panic s => cases h; exact ⟨rfl, fun h => by cases h⟩
  | read n len =>
    simp only [Spec.Src.call, Imp.call, Imp.read, Src.r_get]
    cases h : Imp.HMap.get c.processors n with
    | none => exact ⟨rfl, fun _ => rfl⟩
    | some p =>
      obtain ⟨bytes, rest, h1, h2, h3, h4⟩ := C98_read p ((List.range len).map fill)
      rw [List.length_map, List.length_range] at h4
      simp only [Src.ur20_1com_232_485_422.read_eq, h3, h4, Res.bind_ok]
      refine ⟨?_, fun _ => rfl⟩
      rw [List.take_left']
      rfl
  | write n buf =>
    simp only [Spec.Src.call, Imp.call, Imp.writeBytes, Src.r_get]
    cases h : Imp.HMap.get c.processors n with
    | none => exact ⟨rfl, fun _ => rfl⟩
    | some p =>
      simp only [Src.ur20_1com_232_485_422.write_eq]
      exact ⟨trivial, fun _ => rfl⟩

theorem Src.trace_same (oc : Bool) (ord : Nat → Imp.Orders) (fill : Nat → Nat → Byte)
    (ops : List COp) : ∀ (k : Nat) (c : Imp.Coupler),
      Spec.Src.trace oc ord fill k (Src.ur20_fbc_mod_tcp.embed c) ops = Imp.trace oc ord k c ops := by
  induction ops with
  | nil => intro k c; rfl
  | cons op ops ih =>
    intro k c
    obtain ⟨h1, h2⟩ := Src.call_same oc c (ord k) (fill k) op
    simp only [Spec.Src.trace, Imp.trace, h1]
    cases hp : (Imp.call oc c (ord k) op).2.panicked with
    | true => rfl
    | false =>
      simp only [Bool.false_eq_true, if_false, h2 hp, ih]
      rfl

/-- C134: construction has the same outcome in the translated source and in the model, and then every
history of calls shows the same results, inputs and outputs, whatever the orders of iteration over
hash maps are and whatever the buffers of reads hold before. -/
theorem C134_source_is_model (oc : Bool) (cfg : CouplerConfig) :
    match Coupler.new cfg with
    | .ok d => ∃ c, Src.ur20_fbc_mod_tcp.Coupler.new oc cfg = .ok c ∧
        ∀ (ord : Nat → Imp.Orders) (fill : Nat → Nat → Byte) (ops : List COp),
          Spec.Src.trace oc ord fill 0 c ops = trace oc d ops
    | .err e => Src.ur20_fbc_mod_tcp.Coupler.new oc cfg = .err e
    | .panic => Src.ur20_fbc_mod_tcp.Coupler.new oc cfg = .panic := by
  have h := C97_refines oc cfg
  rw [Src.ur20_fbc_mod_tcp.new_eq]
  cases hn : Coupler.new cfg with
  | err e => rw [hn] at h; rw [h]; rfl
  | panic => rw [hn] at h; rw [h]; rfl
  | ok d =>
    rw [hn] at h
    obtain ⟨c, h1, h2⟩ := h
    rw [h1]
    exact ⟨_, rfl, fun ord fill ops => (Src.trace_same oc ord fill ops 0 c).trans (h2 ord ops)⟩

/-- C134: two runs of the translated source on the same history show the same, whatever the orders
of iteration and the buffers are. -/
theorem C134_deterministic (oc : Bool) (cfg : CouplerConfig)
    {c : Src.ur20_fbc_mod_tcp.Coupler} (hc : Src.ur20_fbc_mod_tcp.Coupler.new oc cfg = .ok c)
    (ord ord' : Nat → Imp.Orders) (fill fill' : Nat → Nat → Byte) (ops : List COp) :
    Spec.Src.trace oc ord fill 0 c ops = Spec.Src.trace oc ord' fill' 0 c ops := by
  have h := C134_source_is_model oc cfg
  cases hn : Coupler.new cfg with
  | err e => rw [hn] at h; rw [h] at hc; cases hc
  | panic => rw [hn] at h; rw [h] at hc; cases hc
  | ok d =>
    rw [hn] at h
    obtain ⟨c', h1, h2⟩ := h
    rw [h1] at hc
    cases hc
    rw [h2, h2]

/-- A station with two serial modules can be built from the translated source, and the history of
`exHistory` shows bytes sent and received and two kinds of errors. -/
example : (match Src.ur20_fbc_mod_tcp.Coupler.new true exTwo with
    | .ok c => Spec.Src.trace true (fun k => if k = 1 then exForward else exBackward)
        (fun k i => BitVec.ofNat 8 (k + i)) 0 c exHistory
    | _ => []) =
    [⟨.write (some 1), [], []⟩,
      ⟨.next (.ok [0x002b#16, 0#16, 0#16, 0#16, 0x0013#16, 0#16, 0#16, 0#16]),
        [[.bytes [0x41#8]], [.none]], [[.bytes [0x41#8]], [.bytes [0x42#8]]]⟩,
      ⟨.read (.ok (some [])), [[.bytes [0x41#8]], [.none]],
        [[.bytes [0x41#8]], [.bytes [0x42#8]]]⟩,
      ⟨.setOutput (.err .address), [[.bytes [0x41#8]], [.none]],
        [[.bytes [0x41#8]], [.bytes [0x42#8]]]⟩,
      ⟨.next (.err .bufferLength), [[.bytes [0x41#8]], [.none]],
        [[.bytes [0x41#8]], [.bytes [0x42#8]]]⟩] := by decide +kernel

end Ur20
