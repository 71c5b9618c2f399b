import Verif.Spec.Alone
import Verif.Props.Noninterference
import Verif.Props.Success

/-! # C108: a module of a coupler and the same module alone -/

namespace Ur20

open Spec Com Coupler

private theorem registerOf_bytes (lo hi : Option Byte) :
    (registerOf lo hi).extractLsb' 0 8 = lo.getD 0#8 ∧
      (registerOf lo hi).extractLsb' 8 8 = hi.getD 0#8 := by
  have key : ∀ k, (registerOf lo hi).getLsbD k =
      if k < 8 then (lo.getD 0#8).getLsbD k else (hi.getD 0#8).getLsbD (k - 8) := fun k =>
    BitVec.getLsbD_append
  constructor <;>
  · apply BitVec.eq_of_getLsbD_eq
    intro k hk
    simp [key, hk]

/-- The bytes of the registers cut out of an image that has them. -/
theorem byteAt_cutOut {img : List Word} {pos n k : Nat} (hk : k < n)
    (h : pos + n ≤ 2 * img.length) : byteAt (cutOut img pos n) k = byteAt img (pos + k) := by
  have hb : ∀ p, p < 2 * img.length → ∃ b, byteAt img p = some b := fun p hp => by
    cases hq : byteAt img p with
    | some b => exact ⟨b, rfl⟩
    | none => have := byteAt_none.1 hq; omega
  obtain ⟨b, e⟩ := hb (pos + k) (by omega)
  have hl : (List.range ((n + 1) / 2))[k / 2]? = some (k / 2) := by
    rw [List.getElem?_range]; omega
  conv_lhs => unfold byteAt cutOut
  rw [List.getElem?_map, hl]
  simp only [Option.map_some]
  rcases Nat.mod_two_eq_zero_or_one k with h0 | h0
  · rw [h0, Nat.mul_zero, (registerOf_bytes _ _).1, show 2 * (k / 2) = k by omega, e]
    rfl
  · rw [h0, Nat.mul_one, (registerOf_bytes _ _).2, show 2 * (k / 2) + 1 = k by omega, if_pos hk, e]
    rfl

theorem cutOut_length (img : List Word) (pos n : Nat) : (cutOut img pos n).length = (n + 1) / 2 := by
  simp [cutOut]

private theorem region_cutOut {img : List Word} {pos n : Nat} (h : pos + n ≤ 2 * img.length) :
    region (cutOut img pos n) 0 n = region img pos n := by
  unfold region
  apply List.map_congr_left
  intro k hk
  rw [Nat.zero_add, byteAt_cutOut (List.mem_range.1 hk) h]

private theorem config_at {p : Place} {j : Nat} {t : ModuleType} {par : List Word} {o i : Word}
    (h : ConfiguredAt p.config j t par o i) :
    j = 0 ∧ t = p.type ∧ par = p.par ∧ o = p.output ∧ i = p.input := by
  obtain ⟨h1, h2, h3, h4⟩ := h
  obtain rfl : j = 0 := by
    have : j < 1 := (List.getElem?_eq_some_iff.1 h1).1
    omega
  cases h1; cases h2; cases h3; cases h4
  exact ⟨rfl, rfl, rfl, rfl, rfl⟩

private theorem config_self (p : Place) : ConfiguredAt p.config 0 p.type p.par p.output p.input :=
  ⟨rfl, rfl, rfl, rfl⟩

private theorem outByte_start : outByte 0x8000#16 = 0 ∧ outBit 0x8000#16 = 0 := by decide

private theorem covered {img : List Word} {pos n : Nat} (h : HasRegisters img pos n)
    (he : n % 2 = 0 ∨ n = 1) (hal : pos % 16 = 0 ∨ n = 1) : pos / 8 + n ≤ 2 * img.length := by
  obtain ⟨h1, h2, h3⟩ := (hasRegisters_iff_covers he hal).1 h
  omega

section

variable {cfg : CouplerConfig} {j : Nat} {t : ModuleType} {par : List Word} {o i : Word}
  (hai : i ≠ noOffset → i.toNat % 16 = 0 ∨ inputBytes t par = 1)
  (hao : o ≠ noOffset → o.toNat % 16 = 0 ∨ outputBytes t par = 1)
  (hcfg : ConfiguredAt cfg j t par o i)

include hai hao hcfg

private theorem alone_view {pi po : List Word} (h : CompleteImages cfg pi po) {op : COp}
    (hop : op = .next pi po) :
    ∃ op', op.alone j ⟨t, par, o, i⟩ = some op' ∧
      op.view j ⟨t, par, o, i⟩ = op'.view 0 (Place.alone ⟨t, par, o, i⟩) := by
  subst hop
  refine ⟨_, rfl, ?_⟩
  have hev := bytes_cases t par
  simp only [COp.view, Place.inBytes, Place.outBytes, Place.alone, Option.some.injEq,
    View.cycle.injEq]
  constructor
  · by_cases hn : i = noOffset
    · simp [hn]
    · have hc := covered (h.input j t par o i hcfg hn).1 (by omega) (hai hn)
      rw [if_neg hn, if_neg hn, if_neg (by decide), if_neg hn,
        show (0#16).toNat / 8 = 0 by decide]
      exact (region_cutOut hc).symm
  · by_cases hn : o = noOffset
    · simp [hn]
    · have hin := (h.output j t par o i hcfg hn).1.1
      have hc := covered (h.output j t par o i hcfg hn).2.1 (by omega) (by
        have := hao hn
        unfold outBit
        unfold outputBase at hin ⊢
        omega)
      rw [if_neg hn, if_neg hn, if_neg (by decide), if_neg hn, outByte_start.1]
      have hc' : outByte o + outputBytes t par ≤ 2 * po.length := by
        unfold outByte
        unfold outBit at hc
        exact hc
      exact (region_cutOut hc').symm

/-- Images that are complete for the coupler are complete for the module alone. -/
private theorem alone_complete {c s : Coupler} (hg : Agree j 0 c s) {pi po : List Word}
    (h : CompleteImages cfg pi po) (he : Encodable cfg c.write po) :
    let p : Place := ⟨t, par, o, i⟩
    let pi' := if i = noOffset then [] else cutOut pi (i.toNat / 8) (inputBytes t par)
    let po' := if o = noOffset then [] else cutOut po (outByte o) (outputBytes t par)
    CompleteImages p.alone.config pi' po' ∧ Encodable p.alone.config s.write po' := by
  have hev := bytes_cases t par
  refine ⟨⟨?_, ?_⟩, ?_, ?_⟩
  · intro k t' par' o' i' hk hn
    obtain ⟨rfl, e1, e2, e3, e4⟩ := config_at hk
    simp only [Place.alone] at e1 e2 e3 e4
    subst t' par' o' i'
    by_cases hi : i = noOffset
    · exact absurd (if_pos hi) hn
    · obtain ⟨h1, h2⟩ := h.input j t par o i hcfg hi
      have hc := covered h1 (by omega) (hai hi)
      rw [if_neg hi, if_neg hi, show (0#16).toNat = 0 by decide]
      refine ⟨⟨h1.1, by decide, ?_⟩, fun ht b hb => h2 ht b ?_⟩
      · have := h1.1
        rw [cutOut_length]
        omega
      · have h8 : 8 ≤ inputBytes t par := by
          rw [ht]; simp only [inputBytes]; split <;> decide
        rw [Nat.zero_div, Nat.zero_add, byteAt_cutOut (by omega) hc] at hb
        exact hb
  · intro k t' par' o' i' hk hn
    obtain ⟨rfl, e1, e2, e3, e4⟩ := config_at hk
    simp only [Place.alone] at e1 e2 e3 e4
    subst t' par' o' i'
    by_cases ho : o = noOffset
    · exact absurd (if_pos ho) hn
    · obtain ⟨h0, h1, h2⟩ := h.output j t par o i hcfg ho
      have hc := covered h1 (by omega) (by
        have := hao ho
        have hin := h0.1
        unfold outBit
        unfold outputBase at hin ⊢
        omega)
      have hc' : outByte o + outputBytes t par ≤ 2 * po.length := by
        unfold outByte
        unfold outBit at hc
        exact hc
      rw [if_neg ho, if_neg ho, outByte_start.1, outByte_start.2]
      refine ⟨by unfold InPlace registersUpTo; decide, ⟨h1.1, by decide, ?_⟩, fun ht b hb =>
        h2 ht b ?_⟩
      · have := h1.1
        rw [cutOut_length]
        omega
      · have h8 : 8 ≤ outputBytes t par := by
          rw [ht]; simp only [outputBytes]; split <;> decide
        rw [Nat.zero_add, byteAt_cutOut (by omega) hc'] at hb
        exact hb
  · intro k t' par' o' i' ch v hk hn hw
    obtain ⟨rfl, e1, e2, e3, e4⟩ := config_at hk
    simp only [Place.alone] at e1 e2 e3 e4
    subst t' par' o' i'
    by_cases ho : o = noOffset
    · exact absurd (if_pos ho) hn
    · exact he.pending j t par o i ch v hcfg ho (by rw [hg.1 ch, hw])
  · intro k t' par' o' i' ch us hk hn ht hch hw hp
    obtain ⟨rfl, e1, e2, e3, e4⟩ := config_at hk
    simp only [Place.alone] at e1 e2 e3 e4
    rw [e1] at ht
    subst t' par' o' i'
    by_cases ho : o = noOffset
    · exact absurd (if_pos ho) hn
    · obtain ⟨h0, h1, -⟩ := h.output j t par o i hcfg ho
      have hc := covered h1 (by omega) (by
        have := hao ho
        have hin := h0.1
        unfold outBit
        unfold outputBase at hin ⊢
        omega)
      have hc' : outByte o + outputBytes t par ≤ 2 * po.length := by
        unfold outByte
        unfold outBit at hc
        exact hc
      refine he.preset j t par o i ch us hcfg ho ht hch (by rw [hg.1 ch, hw]) ?_
      have h12 : outputBytes t par = 12 := by rw [ht]; rfl
      rw [if_neg ho, if_neg ho, outByte_start.1, Nat.zero_add] at hp
      unfold presetAt at hp ⊢
      rw [byteAt_cutOut (by omega) hc', byteAt_cutOut (by omega) hc',
        byteAt_cutOut (by omega) hc', byteAt_cutOut (by omega) hc'] at hp
      simpa only [Nat.add_assoc] using hp

end

private theorem alone_disjoint (p : Place) : DisjointOutputs p.config := by
  refine disjointOutputs_of ?_
  intro k k' t par o i t' par' o' i' q h h' _ _ _ _ _ _
  rw [(config_at h).1, (config_at h').1]

private theorem alone_input {t : ModuleType} {par : List Word} {o i : Word}
    (hai : i ≠ noOffset → i.toNat % 16 = 0 ∨ inputBytes t par = 1) :
    InputLike t par i (Place.alone ⟨t, par, o, i⟩).input := by
  by_cases hn : i = noOffset
  · simp only [Place.alone, if_pos hn]
    exact ⟨by simp [hn], fun h => absurd hn h⟩
  · simp only [Place.alone, if_neg hn]
    exact ⟨⟨fun h => absurd h hn, fun h => absurd h (by decide)⟩, hai⟩

private theorem alone_output {t : ModuleType} {par : List Word} {o i : Word}
    (hao : o ≠ noOffset → o.toNat % 16 = 0 ∨ outputBytes t par = 1) :
    OutputLike t par o (Place.alone ⟨t, par, o, i⟩).output := by
  by_cases hn : o = noOffset
  · simp only [Place.alone, if_pos hn]
    exact ⟨by simp [hn], fun h => absurd hn h⟩
  · simp only [Place.alone, if_neg hn]
    exact ⟨⟨fun h => absurd h hn, fun h => absurd h (by decide)⟩, hao⟩

/-- A call is left out for the module alone exactly if the module does not see it, and otherwise it
sees the same. -/
private theorem alone_call (j : Nat) (p : Place) (op : COp) (h : ∀ pi po, op ≠ .next pi po) :
    (op.alone j p = none ∧ op.view j p = none) ∨
    ∃ op' v, op.alone j p = some op' ∧ op.view j p = some v ∧ op'.view 0 p.alone = some v ∧
      (∀ x y, v ≠ .cycle x y) ∧ ∀ pi po, op' ≠ .next pi po := by
  cases op with
  | next pi po => exact absurd rfl (h pi po)
  | setOutput a v =>
    simp only [COp.alone, COp.view]
    by_cases hj : a.module = j
    · exact .inr ⟨_, _, if_pos hj, if_pos hj, rfl, by simp, by simp⟩
    · exact .inl ⟨if_neg hj, if_neg hj⟩
  | read n k =>
    simp only [COp.alone, COp.view]
    by_cases hj : n = j
    · exact .inr ⟨_, _, if_pos hj, if_pos hj, rfl, by simp, by simp⟩
    · exact .inl ⟨if_neg hj, if_neg hj⟩
  | write n b =>
    simp only [COp.alone, COp.view]
    by_cases hj : n = j
    · exact .inr ⟨_, _, if_pos hj, if_pos hj, rfl, by simp, by simp⟩
    · exact .inl ⟨if_neg hj, if_neg hj⟩

section

variable {oc : Bool} {cfg : CouplerConfig} {j : Nat} (hd : OutputsKept cfg j) {t : ModuleType}
  {par : List Word} {o i : Word}
  (hai : i ≠ noOffset → i.toNat % 16 = 0 ∨ inputBytes t par = 1)
  (hao : o ≠ noOffset → o.toNat % 16 = 0 ∨ outputBytes t par = 1)
  (hcfg : ConfiguredAt cfg j t par o i)

include hd hai hao hcfg

private theorem alone_succeeds (xs : List COp) {c s : Coupler} (hrc : ReachableFrom oc cfg c)
    (hrs : ReachableFrom oc (Place.alone ⟨t, par, o, i⟩).config s) (hg : Agree j 0 c s)
    (hx : CyclesSucceed oc c xs) :
    CyclesSucceed oc s (xs.filterMap (COp.alone j ⟨t, par, o, i⟩)) ∧
    viewOf j ⟨t, par, o, i⟩ xs =
      viewOf 0 (Place.alone ⟨t, par, o, i⟩) (xs.filterMap (COp.alone j ⟨t, par, o, i⟩)) := by
  induction xs generalizing c s with
  | nil => exact ⟨trivial, rfl⟩
  | cons x xs ih =>
    by_cases hc : ∃ pi po, x = .next pi po
    · obtain ⟨pi, po, rfl⟩ := hc
      obtain ⟨img, himg⟩ := hx.1 pi po rfl
      obtain ⟨h1, h2⟩ := (C69_success_iff oc cfg c hrc pi po).1 ⟨img, himg⟩
      obtain ⟨op', e1, e2⟩ := alone_view hai hao hcfg h1 rfl
      obtain ⟨img', himg'⟩ := (C69_success_iff oc _ s hrs _ _).2 (alone_complete hai hao hcfg hg h1 h2)
      simp only [COp.alone, Option.some.injEq] at e1
      subst e1
      simp only [COp.view, Option.some.injEq, View.cycle.injEq] at e2
      have hg' := (cycle_same hd (alone_disjoint _ _) hao (alone_input (o := o) hai)
        (alone_output (i := i) hao) hcfg (config_self (Place.alone ⟨t, par, o, i⟩)) hrc hrs hg himg
        himg' e2.1 e2.2).2.2.2
      obtain ⟨r1, r2⟩ := ih (reachable_run hrc [.next pi po]) (reachable_run hrs [.next _ _]) hg' hx.2
      refine ⟨⟨?_, r1⟩, ?_⟩
      · rintro pi' po' e
        cases e
        exact ⟨img', himg'⟩
      · simp only [viewOf, List.filterMap_cons, COp.view, COp.alone] at r2 ⊢
        rw [r2, e2.1, e2.2]
    · have hc' : ∀ pi po, x ≠ .next pi po := fun pi po e => hc ⟨pi, po, e⟩
      rcases alone_call j ⟨t, par, o, i⟩ x hc' with ⟨e1, e2⟩ | ⟨op', v, e1, e2, e3, e4, e5⟩
      · obtain ⟨r1, r2⟩ := ih (reachable_run hrc [x]) hrs (hg.trans_left (other_call e2 c)) hx.2
        rw [List.filterMap_cons, e1]
        refine ⟨r1, ?_⟩
        rw [← r2, viewOf, List.filterMap_cons, e2]
        rfl
      · obtain ⟨hg', -⟩ := own_call hrc hrs hcfg (config_self (Place.alone ⟨t, par, o, i⟩)) e2 e3 e4 hg
        obtain ⟨r1, r2⟩ := ih (reachable_run hrc [x]) (reachable_run hrs [op']) hg' hx.2
        rw [List.filterMap_cons, e1]
        refine ⟨⟨fun pi po e => absurd e (e5 pi po), r1⟩, ?_⟩
        simp only [viewOf, List.filterMap_cons, e2, e3] at r2 ⊢
        rw [r2]

end

/-- **C108.** Every module of a coupler, one whose data starts at a register or has just one byte,
behaves as if it were alone. Take any history in which all cycles succeed, give a coupler with just
this module the calls that have its number and images with just its own bytes, and the same is seen
of it: all cycles succeed, the calls return the same, and its values in `inputs()` and `outputs()`
(except for a serial module) and its bytes of the returned images are the same. -/
theorem C108_alone (oc : Bool) (cfg : CouplerConfig) (c : Coupler)
    (hnew : Coupler.new cfg = .ok c) (j : Nat) (hd : OutputsKept cfg j) (t : ModuleType)
    (par : List Word) (o i : Word) (hcfg : ConfiguredAt cfg j t par o i)
    (hai : i ≠ noOffset → i.toNat % 16 = 0 ∨ inputBytes t par = 1)
    (hao : o ≠ noOffset → o.toNat % 16 = 0 ∨ outputBytes t par = 1) (xs : List COp)
    (hx : CyclesSucceed oc c xs) :
    let p : Place := ⟨t, par, o, i⟩
    let ys := xs.filterMap (COp.alone j p)
    ∃ s, Coupler.new p.alone.config = .ok s ∧ CyclesSucceed oc s ys ∧
      moduleSeen oc j p c xs = moduleSeen oc 0 p.alone s ys := by
  intro p ys
  obtain ⟨m, hm, hcr⟩ := configured_at (oc := oc) ⟨c, [], hnew, rfl⟩ hcfg
  have hcfg' := config_self p.alone
  obtain ⟨s, hs⟩ := (C13_success p.alone.config).1.2 ⟨rfl, rfl, by
    intro k t' ws h1 h2
    obtain rfl : k = 0 := by
      have : k < 1 := (List.getElem?_eq_some_iff.1 h1).1
      omega
    cases h1
    cases h2
    exact ⟨m, hcr⟩⟩
  obtain ⟨h1, h2⟩ := alone_succeeds hd hai hao hcfg xs ⟨c, [], hnew, rfl⟩ ⟨s, [], hs, rfl⟩
    (agree_new hnew hs hcfg hcfg') hx
  exact ⟨s, hs, h1, C108_elsewhere oc oc cfg _ c s hnew hs j 0 hd (alone_disjoint _ _) t par o i
    _ _ hao (alone_input hai) (alone_output hao) hcfg hcfg' xs ys hx h1 h2⟩

/-- The second module of the example coupler, in the high byte of a register … -/
def exPlace : Place := ⟨.UR20_8DO_P, List.replicate 8 0, 0x8008#16, 0xFFFF#16⟩

/-- … meets the hypotheses with the history of the example of C101 … -/
example : ConfiguredAt exCfg 1 .UR20_8DO_P (List.replicate 8 0) 0x8008#16 0xFFFF#16 ∧
    outputBytes .UR20_8DO_P (List.replicate 8 0) = 1 ∧ DisjointOutputs exCfg ∧
    CyclesSucceed true (initial exCfg exModules) exOther := by
  refine ⟨⟨rfl, rfl, rfl, rfl⟩, rfl, exCfg_disjoint, ?_⟩
  refine ⟨?_, ?_, ?_, ?_, trivial⟩ <;> intro pi po h <;> cases h
  exact ⟨_, rfl⟩

/-- … alone it gets one register with its byte as the low byte … -/
example : exOther.filterMap (COp.alone 1 exPlace) =
    [.setOutput ⟨0, 1⟩ (.bit true), .next [] [0x0005#16]] := by rfl

theorem exPlace_alone :
    exPlace.alone = ⟨.UR20_8DO_P, List.replicate 8 0, 0x8000#16, 0xFFFF#16⟩ := by
  simp [exPlace, Place.alone, noOffset]

/-- … and shows the same: the value set is in the image, with the other outputs. -/
example :
    let s := initial exPlace.alone.config [.dout ⟨.UR20_8DO_P, List.replicate 8 ⟨false⟩⟩]
    let s' := COp.apply true s (.setOutput ⟨0, 1⟩ (.bit true))
    Coupler.new exPlace.alone.config = .ok s ∧
    (s'.next true [] [0x0005#16]).1.inputs[0]? = some (List.replicate 8 .none) ∧
    (s'.next true [] [0x0005#16]).1.outputs[0]? = some [.bit true, .bit false, .bit true, .bit false,
      .bit false, .bit false, .bit false, .bit false] ∧
    (s'.next true [] [0x0005#16]).2 = .ok [0x0007#16] := by
  rw [exPlace_alone]
  exact ⟨by rw [new_eq]; rfl, rfl, rfl, rfl⟩

end Ur20
