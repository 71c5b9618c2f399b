import Verif.Props.HighByte

/-! # Configurations that can run: C109 -/

namespace Ur20

open Spec Com Coupler

theorem byteAt_zeros {n p : Nat} {b : BitVec 8}
    (h : byteAt (List.replicate n 0#16) p = some b) : b = 0#8 := by
  unfold byteAt at h
  rw [List.getElem?_replicate] at h
  split at h
  · simpa using h.symm
  · cases h

/-- C109: a cycle of a coupler whose configuration is not well placed never succeeds, whatever was
called before and whatever the images are. -/
theorem C109_never (oc : Bool) (cfg : CouplerConfig) (c : Coupler) (hr : ReachableFrom oc cfg c)
    (h : ¬ WellPlaced cfg) (pi po img : List Word) : (c.next oc pi po).2 ≠ .ok img := by
  intro hok
  obtain ⟨⟨h1, h2⟩, -⟩ := C69_needed oc cfg c hr pi po img _ (Prod.ext rfl hok)
  refine h fun j t par o i hcfg => ⟨fun hi => ?_, fun ho => ?_⟩
  · obtain ⟨⟨g1, g2, -⟩, -⟩ := h1 j t par o i hcfg hi
    exact ⟨g1, g2⟩
  · obtain ⟨g1, ⟨g2, -⟩, -⟩ := h2 j t par o i hcfg ho
    exact ⟨g2, g1⟩

/-- C109: if it is well placed, a cycle succeeds with images of zeros that are long enough, unless a
value of the wrong kind is pending. -/
theorem C109_runs (oc : Bool) (cfg : CouplerConfig) (c : Coupler) (hr : ReachableFrom oc cfg c)
    (h : WellPlaced cfg)
    (hw : ∀ j t par o i ch v, ConfiguredAt cfg j t par o i → o ≠ noOffset →
      c.write ⟨j, ch⟩ = some v → Accepts t v)
    (n m : Nat) (hn : 4116 ≤ n) (hm : 4116 ≤ m) :
    ∃ img, (c.next oc (List.replicate n 0#16) (List.replicate m 0#16)).2 = .ok img := by
  refine (C69_success_iff oc cfg c hr _ _).2 ⟨⟨fun j t par o i hcfg hi => ?_,
    fun j t par o i hcfg ho => ?_⟩, hw, fun j t par o i ch us _ _ _ _ _ hus => ?_⟩
  · obtain ⟨g1, g2⟩ := (h j t par o i hcfg).1 hi
    have hb : inputBytes t par ≤ 40 := by
      cases t <;> simp only [inputBytes] <;> first | omega | (split <;> omega)
    have := i.isLt
    refine ⟨⟨g1, g2, by rw [List.length_replicate]; omega⟩, fun ht b hb' => ?_⟩
    rw [byteAt_zeros hb']
    subst ht
    simp only [inputBytes]
    split <;> decide
  · obtain ⟨g1, g2⟩ := (h j t par o i hcfg).2 ho
    have hb : outputBytes t par ≤ 40 := by
      cases t <;> simp only [outputBytes] <;> first | omega | (split <;> omega)
    have := o.isLt
    have hbase : outputBase % 16 = 0 := by decide
    obtain ⟨g3, g4⟩ := g2
    refine ⟨⟨g3, g4⟩, ⟨g1, by unfold outBit; omega, by
      rw [List.length_replicate]; unfold outBit; omega⟩, fun ht b hb' => ?_⟩
    rw [byteAt_zeros hb']
    subst ht
    simp only [outputBytes]
    split <;> decide
  · unfold presetAt at hus
    split at hus
    · rename_i b0 b1 b2 b3 e0 e1 e2 e3
      rw [byteAt_zeros e0, byteAt_zeros e1, byteAt_zeros e2, byteAt_zeros e3] at hus
      have hz : us = 0 := by simpa using hus.symm
      rw [hz]
      exact Nat.zero_le _
    · cases hus

/-- C109: a module of several output bytes in the high byte of a register has to be the last one with
process output data. If another one follows, in bytes of its own, no cycle ever succeeds. -/
theorem C109_last (oc : Bool) (cfg : CouplerConfig) (c : Coupler)
    (hr : ReachableFrom oc cfg c) (j k : Nat) (hdis : OutputsKept cfg j)
    (hjk : j < k) (t t' : ModuleType) (par par' : List Word) (o i o' i' : Word)
    (hcfg : ConfiguredAt cfg j t par o i) (hcfg' : ConfiguredAt cfg k t' par' o' i')
    (ho : o ≠ noOffset) (h8 : o.toNat % 16 = 8) (hb : 2 ≤ outputBytes t par)
    (ho' : o' ≠ noOffset) (pi po img : List Word) : (c.next oc pi po).2 ≠ .ok img := by
  intro h
  obtain ⟨hcom, -⟩ := C69_needed oc cfg c hr pi po img _ (Prod.ext rfl h)
  exact ho' (last_output (offsets_length hr) hcom hdis hcfg ho h8 hb k hjk t' par' o' i' hcfg')

/-- The example `exHigh` is well placed, and runs. -/
theorem exHigh_placed : WellPlaced exHigh := by
  intro j t par o i h
  rcases exHigh_at h with ⟨rfl, rfl, rfl, rfl, rfl⟩ | ⟨rfl, rfl, rfl, rfl, rfl⟩ |
    ⟨rfl, rfl, rfl, rfl, rfl⟩ | ⟨rfl, rfl, rfl, rfl, rfl⟩ <;>
    refine ⟨fun hi => ?_, fun ho => ?_⟩ <;>
    first
      | exact absurd rfl hi
      | exact absurd rfl ho
      | exact ⟨by decide, by decide⟩
      | exact ⟨by decide, by unfold InPlace; decide⟩

/-- A 16-channel output module in a high byte, right behind a 4-channel one, with a
4-channel output module behind it: the configuration is accepted, but no cycle succeeds. -/
def exBlocked : CouplerConfig :=
  { modules := [.UR20_4DO_P, .UR20_16DO_P, .UR20_4DO_P]
    offsets := [0x8000#16, 0xFFFF#16, 0x8008#16, 0xFFFF#16, 0x8018#16, 0xFFFF#16]
    params := [List.replicate 4 0, [], List.replicate 4 0] }

theorem exBlocked_disjoint : DisjointOutputs exBlocked := by
  refine disjointOutputs_of ?_
  have hat : ∀ {j : Nat} {t : ModuleType} {par : List Word} {o i : Word},
      ConfiguredAt exBlocked j t par o i →
      (j = 0 ∧ outByte o = 0 ∧ outputBytes t par = 1) ∨
      (j = 1 ∧ outByte o = 1 ∧ outputBytes t par = 2) ∨
      (j = 2 ∧ outByte o = 3 ∧ outputBytes t par = 1) := by
    rintro j t par o i ⟨h1, h2, h3, h4⟩
    have hj : j < 3 := (List.getElem?_eq_some_iff.1 h1).1
    match j, hj with
    | 0, _ => cases h1; cases h2; cases h3; cases h4; decide
    | 1, _ => cases h1; cases h2; cases h3; cases h4; decide
    | 2, _ => cases h1; cases h2; cases h3; cases h4; decide
  intro j k t par o i t' par' o' i' p h h' _ _ h1 h2 h3 h4
  have := hat h
  have := hat h'
  omega

example : ∃ c, Coupler.new exBlocked = .ok c ∧
    ∀ pi po img, (c.next true pi po).2 ≠ .ok img := by
  have h : ∃ c, Coupler.new exBlocked = .ok c := ⟨_, rfl⟩
  obtain ⟨c, hc⟩ := h
  exact ⟨c, hc, C109_last true exBlocked c ⟨c, [], hc, rfl⟩ 1 2
    (exBlocked_disjoint 1) (by decide) .UR20_16DO_P .UR20_4DO_P [] (List.replicate 4 0) 0x8008#16 noOffset 0x8018#16 noOffset
    ⟨rfl, rfl, rfl, rfl⟩ ⟨rfl, rfl, rfl, rfl⟩ (by decide) (by decide) (by decide) (by decide)⟩

end Ur20
