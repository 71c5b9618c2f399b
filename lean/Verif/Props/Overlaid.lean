import Verif.Props.Channels

/-! # Modules that share a byte of the output image

`Coupler::new` accepts offsets that put a module into the high byte of a register which another
module before it uses already. The image then has the data of the later module, so what C72 and all
theorems that rest on it say of a module needs that no later module uses its bytes, and only this. -/

namespace Ur20
open Spec Coupler

/-- A module with 16 digital outputs and one with 8 in the high byte of the same register. -/
def exOverlaid : CouplerConfig :=
  { modules := [.UR20_16DO_P, .UR20_8DO_P]
    offsets := [0x8000#16, 0xFFFF#16, 0x8008#16, 0xFFFF#16]
    params := [[], List.replicate 8 0] }

/-- C72: the image does not have the value set for a channel if a later module uses its byte, although
the configuration is accepted, `set_output` takes the value and the cycle succeeds. -/
theorem C72_overwritten : ∃ (c c' : Coupler) (img : List Word), Coupler.new exOverlaid = .ok c ∧
    (c.setOutput ⟨0, 9⟩ (.bit true)).2 = .ok () ∧
    (c.setOutput ⟨0, 9⟩ (.bit true)).1.next true [] [0#16] = (c', .ok img) ∧
    ¬ OutputWritten .UR20_16DO_P [] [0#16] img 0 9 (some (.bit true)) := by
  refine ⟨_, _, [0#16], rfl, rfl, rfl, ?_⟩
  rintro ⟨b, b', -, h, rfl⟩
  simp [bitAt] at h

/-- No module comes after the second one, so its outputs are kept, although they are also in bytes of
the first one. -/
theorem exOverlaid_kept : OutputsKept exOverlaid 1 := by
  intro k t par o i t' par' o' i' p hk _ h
  have := (List.getElem?_eq_some_iff.1 h.1).1
  simp [exOverlaid] at this
  omega

example : ∃ (c c' : Coupler) (img : List Word), Coupler.new exOverlaid = .ok c ∧
    (c.setOutput ⟨1, 1⟩ (.bit true)).1.next true [] [0#16] = (c', .ok img) ∧
    OutputWritten .UR20_8DO_P (List.replicate 8 0) [0#16] img 8 1 (some (.bit true)) := by
  obtain ⟨c, c', img, h0, h⟩ : ∃ (c c' : Coupler) (img : List Word),
    Coupler.new exOverlaid = .ok c ∧
    (c.setOutput ⟨1, 1⟩ (.bit true)).1.next true [] [0#16] = (c', .ok img) := ⟨_, _, _, rfl, rfl⟩
  refine ⟨c, c', img, h0, h, ?_⟩
  have := C72_image true exOverlaid _ ⟨c, [.setOutput ⟨1, 1⟩ (.bit true)], h0, rfl⟩ 1
    exOverlaid_kept _ _ _ _ h .UR20_8DO_P (List.replicate 8 0) 0x8008#16 0xFFFF#16
    ⟨rfl, rfl, rfl, rfl⟩ (by decide) (by decide) (by decide) 1 (by decide)
  cases h0
  exact this

end Ur20
