import Verif.Props.Skipped
import Verif.Props.SourcePower
import Verif.Spec.SkippedSource

/-!
# C146 for the translated source
-/

namespace Ur20

open Spec

namespace Src

theorem SamePower.skipped {oc : Bool} {cfg : CouplerConfig} {w : Wiring} (hw : w.modules ≠ [])
    (ord : Nat → Imp.Orders) (fill : Nat → Nat → Byte) (j : Nat) (evs : List StationEv) :
    ∀ (k : Nat) {s : Spec.Src.PowerNet} {t : Spec.PowerNet}, SamePower s t →
      s.skipped oc cfg w ord fill j k evs = t.skipped oc cfg w j evs := by
  induction evs with
  | nil => intro k s t h; rfl
  | cons e evs ih =>
    intro k s t h
    have h1 : s.skippedIn oc cfg w (ord k) (fill k) j e = t.skippedIn oc cfg w j e := by
      cases e with
      | power a r => rfl
      | ev e =>
        have h1 := h.net.step oc cfg w hw (ord k) (fill k) e
        cases e <;> first
          | rfl
          | (simp only [Spec.Src.PowerNet.skippedIn, Spec.PowerNet.skippedIn]
             rw [h1.cycles, h.net.cycles, h.net.line, h.shown])
    simp only [Spec.Src.PowerNet.skipped, Spec.PowerNet.skipped]
    rw [h1, ih (k + 1) (h.step oc cfg w hw (ord k) (fill k) e)]

end Src

/-- C146 for the translated source, whatever the orders in which hash maps are iterated: what the
device of a module has shown divides into pieces in this order. Those that are kept are what has been
read and what is buffered; those that are not kept are the segments whose number is that of the last
segment shown before them. There are not more of these than power failures. -/
theorem C146_source (oc : Bool) (cfg : CouplerConfig) (w : Wiring) (ord : Nat → Imp.Orders)
    (fill : Nat → Nat → Byte) (s : Spec.Src.Net) (h : s.Initial oc cfg w) (evs : List StationEv)
    (hc : KeepsGoing evs) (j : Nat) (hj : j ∈ w.modules) :
    let r := ((⟨s, fun _ => none⟩ : Spec.Src.PowerNet).run oc cfg w ord fill 0 evs).net
    let lost := (⟨s, fun _ => none⟩ : Spec.Src.PowerNet).skipped oc cfg w ord fill j 0 evs
    (∃ l : Pieces, l.all = (r.line j).seen ∧ l.kept = (r.line j).delivered ++ r.buffered j ∧
      l.gone = lost) ∧
    lost.length ≤ powerFailures evs := by
  obtain ⟨t, ht, hs⟩ := Src.net_initial h
  have hw := List.ne_nil_of_mem hj
  have h0 : Src.SamePower ⟨s, fun _ => none⟩ ⟨t, fun _ => none⟩ := ⟨hs, rfl⟩
  have hr := (Src.SamePower.run (oc := oc) (cfg := cfg) hw ord fill evs 0 h0).net
  have := C146_exact oc cfg w t ht evs hc j hj
  simp only at this ⊢
  rwa [hr.line, (hr.processors j).2.2,
    Src.SamePower.skipped (oc := oc) (cfg := cfg) hw ord fill j evs 0 h0]

example (ord : Nat → Imp.Orders) (fill : Nat → Nat → Byte) :=
  C146_source true exDuo exWires ord fill exSourceNet exSourceNet_initial exSkipEvs
    (by intro e he; rintro rfl; simp [exSkipEvs] at he) 2 (by decide)

/-- C146 for the translated source: the same since the last restart of the application, wherever it
crashed before. -/
theorem C146_source_since_restart (oc : Bool) (cfg : CouplerConfig) (w : Wiring)
    (ord : Nat → Imp.Orders) (fill : Nat → Nat → Byte) (s : Spec.Src.Net) (h : s.Initial oc cfg w)
    (evs evs' : List StationEv) (hc : KeepsGoing evs') (j : Nat) (hj : j ∈ w.modules) :
    let p := (⟨s, fun _ => none⟩ : Spec.Src.PowerNet).run oc cfg w ord fill 0 (evs ++ [.ev .crash])
    let r := (p.run oc cfg w ord fill (evs.length + 1) evs').net
    let lost := p.skipped oc cfg w ord fill j (evs.length + 1) evs'
    (∃ (l : Pieces) (read : List Byte), (r.line j).delivered = (p.net.line j).delivered ++ read ∧
      (r.line j).seen = (p.net.line j).seen ++ l.all ∧ l.kept = read ++ r.buffered j ∧
      l.gone = lost) ∧
    lost.length ≤ powerFailures evs' := by
  obtain ⟨t, ht, hs⟩ := Src.net_initial h
  have hw := List.ne_nil_of_mem hj
  have h0 : Src.SamePower ⟨s, fun _ => none⟩ ⟨t, fun _ => none⟩ := ⟨hs, rfl⟩
  have hp := Src.SamePower.run (oc := oc) (cfg := cfg) hw ord fill (evs ++ [.ev .crash]) 0 h0
  have hr := (Src.SamePower.run (oc := oc) (cfg := cfg) hw ord fill evs' (evs.length + 1) hp).net
  have := C146_since_restart oc cfg w t ht evs evs' hc j hj
  simp only at this ⊢
  rwa [hr.line, hp.net.line, (hr.processors j).2.2,
    Src.SamePower.skipped (oc := oc) (cfg := cfg) hw ord fill j evs' (evs.length + 1) hp]

example (ord : Nat → Imp.Orders) (fill : Nat → Nat → Byte) :=
  C146_source_since_restart true exDuo exWires ord fill exSourceNet exSourceNet_initial exSkipEvs
    exSkipEvs (by intro e he; rintro rfl; simp [exSkipEvs] at he) 2 (by decide)

/-- The schedule of the example loses the second segment. -/
example (ord : Nat → Imp.Orders) (fill : Nat → Nat → Byte) :
    (⟨exSourceNet, fun _ => none⟩ : Spec.Src.PowerNet).skipped true exDuo exWires ord fill 2 0
      exSkipEvs = [[0x42#8]] := by
  rw [Src.SamePower.skipped (by decide) ord fill 2 exSkipEvs 0 exSourcePower_same]
  simp only [exSkipEvs, PowerNet.skipped, PowerNet.skippedIn]
  decide +kernel

end Ur20
