import Verif.Props.LostSource
import Verif.Spec.Dropped

/-!
# C144: exactly which received bytes are lost in crashes
-/

namespace Ur20

open Spec

namespace Spec.Net

theorem dropped_append (oc : Bool) (cfg : CouplerConfig) (w : Wiring) (j : Nat) (s : Net)
    (a b : List NEv) : s.dropped oc cfg w j (a ++ b) =
      s.dropped oc cfg w j a ++ (s.run oc cfg w a).dropped oc cfg w j b := by
  induction a generalizing s with
  | nil => rfl
  | cons e a ih =>
    simp only [List.cons_append, dropped, ih, List.append_assoc]
    rfl

theorem dropped_none {oc : Bool} {cfg : CouplerConfig} {w : Wiring} {j : Nat} (s : Net)
    (evs : List NEv) (hc : NoCrashesN evs) : s.dropped oc cfg w j evs = [] := by
  induction evs generalizing s with
  | nil => rfl
  | cons e evs ih =>
    simp only [dropped]
    rw [ih _ fun x hx => hc x (List.mem_cons_of_mem _ hx)]
    cases e with
    | crash => exact absurd rfl (hc _ List.mem_cons_self)
    | _ => rfl

theorem crash_logs {oc : Bool} {cfg : CouplerConfig} {w : Wiring} (s : Net) (j : Nat) :
    ((s.step oc cfg w .crash).line j).seen = (s.line j).seen ∧
    ((s.step oc cfg w .crash).line j).delivered = (s.line j).delivered := by
  simp only [step]
  split <;> exact ⟨rfl, rfl⟩

end Spec.Net

/-- A schedule has no crash, or a last one. -/
theorem last_crash (evs : List NEv) :
    NoCrashesN evs ∨ ∃ a b, evs = a ++ [.crash] ++ b ∧ NoCrashesN b := by
  induction evs with
  | nil => exact .inl fun e he => by cases he
  | cons e evs ih =>
    rcases ih with h | ⟨a, b, rfl, hb⟩
    · by_cases he : e = .crash
      · exact .inr ⟨[], evs, by simp [he], h⟩
      · left
        intro x hx
        rcases List.mem_cons.1 hx with rfl | hx
        · exact he
        · exact h x hx
    · exact .inr ⟨e :: a, b, rfl, hb⟩

/-- C144: with any number of serial devices, whatever cycles fail, whatever images are lost and
wherever the application crashes: what the device of a module has shown divides into pieces in this
order. Those that are kept are what was read from the module and what is in its receive buffer; those
that are not kept are the contents of the receive buffer at the crashes, one after the other. -/
theorem C144_exact (oc : Bool) (cfg : CouplerConfig) (w : Wiring) (s : Net) (h : s.Initial cfg w)
    (evs : List NEv) (j : Nat) (hj : j ∈ w.modules) :
    let r := s.run oc cfg w evs
    ∃ l : Pieces, l.all = (r.line j).seen ∧ l.kept = (r.line j).delivered ++ r.buffered j ∧
      l.gone = s.dropped oc cfg w j evs := by
  -- what is still in the buffer comes last
  suffices ∀ n (evs : List NEv), evs.length ≤ n → ∃ l : Pieces,
      l.all ++ (s.run oc cfg w evs).buffered j = ((s.run oc cfg w evs).line j).seen ∧
      l.kept = ((s.run oc cfg w evs).line j).delivered ∧ l.gone = s.dropped oc cfg w j evs by
    obtain ⟨l, h1, h2, h3⟩ := this _ evs (Nat.le_refl _)
    refine ⟨l ++ [((s.run oc cfg w evs).buffered j, true)], ?_, ?_, ?_⟩
    · rw [Pieces.all_append, ← h1]
      simp [Pieces.all]
    · rw [Pieces.kept_append, h2]
      simp [Pieces.kept]
    · rw [Pieces.gone_append, h3]
      simp [Pieces.gone]
  intro n
  induction n with
  | zero =>
    intro evs hn
    obtain rfl := List.length_eq_zero_iff.1 (Nat.le_zero.1 hn)
    have := C95_receive oc cfg w s h [] (fun e he => by cases he) j hj
    refine ⟨[((s.line j).delivered, true)], ?_, by simp [Pieces.kept, Net.run], rfl⟩
    rw [← this]
    simp [Pieces.all, Net.run]
  | succ n ih =>
    intro evs hn
    rcases last_crash evs with hc | ⟨a, b, rfl, hb⟩
    · have := C95_receive oc cfg w s h evs hc j hj
      refine ⟨[(((s.run oc cfg w evs).line j).delivered, true)], ?_, by simp [Pieces.kept], ?_⟩
      · rw [← this]
        simp [Pieces.all]
      · rw [Net.dropped_none s evs hc]
        rfl
    · simp only [List.length_append, List.length_cons, List.length_nil] at hn
      obtain ⟨l, h1, h2, h3⟩ := ih a (by omega)
      obtain ⟨read, shown, g1, g2, g3⟩ := C95_since_restart oc cfg w s h a b hb j hj
      have hac : s.run oc cfg w (a ++ [.crash]) = (s.run oc cfg w a).step oc cfg w .crash := by
        simp [Net.run, List.foldl_append]
      obtain ⟨k1, k2⟩ := Net.crash_logs (oc := oc) (cfg := cfg) (w := w) (s.run oc cfg w a) j
      rw [hac] at g1 g2
      rw [k2] at g1
      rw [k1] at g2
      refine ⟨l ++ [((s.run oc cfg w a).buffered j, false)] ++ [(read, true)], ?_, ?_, ?_⟩
      · rw [g2, ← h1, ← g3, Pieces.all_append, Pieces.all_append]
        simp [Pieces.all]
      · rw [g1, ← h2, Pieces.kept_append, Pieces.kept_append]
        simp [Pieces.kept]
      · rw [Net.dropped_append, Net.dropped_append, Net.dropped_none _ b hb, ← h3,
          Pieces.gone_append, Pieces.gone_append]
        simp [Pieces.gone, Net.dropped]

theorem Src.SameNet.dropped {oc : Bool} {cfg : CouplerConfig} {w : Wiring} (hw : w.modules ≠ [])
    (ord : Nat → Imp.Orders) (fill : Nat → Nat → Byte) (j : Nat) (evs : List NEv) :
    ∀ (k : Nat) {s : Spec.Src.Net} {t : Spec.Net}, Src.SameNet s t →
      s.dropped oc cfg w ord fill j k evs = t.dropped oc cfg w j evs := by
  induction evs with
  | nil => intro k s t h; rfl
  | cons e evs ih =>
    intro k s t h
    simp only [Spec.Src.Net.dropped, Spec.Net.dropped]
    rw [ih (k + 1) (h.step oc cfg w hw (ord k) (fill k) e), (h.processors j).2.2]

/-- C144 for the translated source, whatever the orders in which hash maps are iterated. -/
theorem C144_source (oc : Bool) (cfg : CouplerConfig) (w : Wiring) (ord : Nat → Imp.Orders)
    (fill : Nat → Nat → Byte) (s : Spec.Src.Net) (h : s.Initial oc cfg w) (evs : List NEv)
    (j : Nat) (hj : j ∈ w.modules) :
    let r := s.run oc cfg w ord fill 0 evs
    ∃ l : Pieces, l.all = (r.line j).seen ∧ l.kept = (r.line j).delivered ++ r.buffered j ∧
      l.gone = s.dropped oc cfg w ord fill j 0 evs := by
  obtain ⟨t, ht, hs⟩ := Src.net_initial h
  have hw := List.ne_nil_of_mem hj
  have hr := Src.SameNet.run (oc := oc) (cfg := cfg) hw ord fill evs 0 hs
  have := C144_exact oc cfg w t ht evs j hj
  simp only at this ⊢
  rwa [hr.line, (hr.processors j).2.2,
    Src.SameNet.dropped (oc := oc) (cfg := cfg) hw ord fill j evs 0 hs]

/-! ### An example -/

/-- The device of module 2 shows two bytes; one is read, the other is lost in the crash. The device
presents the segment again to the restarted application. -/
def exDuoCrash : List NEv :=
  [.start (List.replicate 8 0#16), .finish, .start (List.replicate 8 0#16), .finish,
    .post 2 [0x41#8, 0x42#8],
    .start [0#16, 0#16, 0#16, 0#16, 0x0209#16, 0x4241#16, 0#16, 0#16], .read 2 1, .crash]

example : let r := exNet.run true exDuo exWires exDuoCrash
    (r.line 2).seen = [0x41#8, 0x42#8] ∧ (r.line 2).delivered = [0x41#8] ∧
    exNet.dropped true exDuo exWires 2 exDuoCrash = [[0x42#8]] := by
  decide +kernel

example := C144_exact true exDuo exWires exNet exNet_initial exDuoCrash 2 (by decide)

example (ord : Nat → Imp.Orders) (fill : Nat → Nat → Byte) :=
  C144_source true exDuo exWires ord fill exSourceNet exSourceNet_initial exDuoCrash 2 (by decide)

end Ur20
