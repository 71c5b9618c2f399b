import Verif.Props.SourceRuns
import Verif.Props.LateCable
import Verif.Props.Throughput
import Verif.Props.Edited

/-!
Concrete cases for the theorems about runs of the translated source (C137) and for the theorems that
count rounds (C127, C131).
-/

namespace Ur20.Instances
open Spec Com Coupler
open scoped List

/-! ### Runs of the translated source (C137) -/

example := C137_setup true exStation 2 (by decide) (by decide)

theorem exAccount_calm : ∀ s ∈ Spec.Src.trace true (fun _ => exBackward)
    (fun k i => BitVec.ofNat 8 (k + i)) 0 exSource exAccount, s.result.panicked = false := by
  have h : ((Spec.Src.trace true (fun _ => exBackward) (fun k i => BitVec.ofNat 8 (k + i)) 0
      exSource exAccount).all fun s => !s.result.panicked) = true := by decide +kernel
  intro s hs
  simpa using List.all_eq_true.1 h s hs

example := C137_received true exCfg exSource exSource_new 3 _ _ _ ⟨rfl, rfl, rfl, rfl⟩ (by decide)
  (by decide) (by decide) exAccount (fun _ _ _ h => by cases h) _ _ exAccount_calm

example := C137_sent true exCfg exSource exSource_new 3 _ _ _ ⟨rfl, rfl, rfl, rfl⟩ (by decide)
  (by decide) (by decide) exAccount (fun _ _ _ h => by cases h) _ _ exAccount_calm (exCfg_disjoint 3)
  exAccount_returned

example := C137_sent_once true exCfg exSource exSource_new 3 _ _ _ ⟨rfl, rfl, rfl, rfl⟩ (by decide)
  (by decide) (by decide) exAccount (fun _ _ _ h => by cases h) _ _ exAccount_calm (exCfg_disjoint 3)

example (ord : Nat → Imp.Orders) (fill : Nat → Nat → Byte) :=
  C137_loop true exCfg exSource exSource_new (List.replicate 5 0#16)
    (C85_zeros exCfg exCfg_placed 5 (by decide)) exRounds exRounds_ok ord fill

example (ord : Nat → Imp.Orders) (fill : Nat → Nat → Byte) :
    ∃ c' po', Spec.Src.closedLoop true ord fill 0 exSource (List.replicate 5 0#16) exRounds =
      some (c', po') ∧ bitAt po' 10 = some true := by
  obtain ⟨c', po', h, -⟩ := C137_loop true exCfg exSource exSource_new
    (List.replicate 5 0#16) (C85_zeros exCfg exCfg_placed 5 (by decide)) exRounds exRounds_ok ord fill
  refine ⟨c', po', h, ?_⟩
  obtain ⟨b, hb, h | ⟨h, -⟩⟩ := (C137_holds_last true exCfg exSource exSource_new 1 (exCfg_disjoint 1)
    .UR20_8DO_P _ 0x8008#16 _ ⟨rfl, rfl, rfl, rfl⟩ (by decide) (by decide) (by decide) 2 (by decide)
    exRounds (fun r hr => (exRounds_ok r hr).1.1) ord fill c' _ po' h).1 (.bit true) rfl
  · cases h; exact hb
  · cases h

example (ord : Imp.Orders) (fill : Nat → Byte) (op : COp) :=
  C137_panics true exCfg [] exSource (.new exSource_new) ord fill op

example (ord : Imp.Orders) (c' : Src.ur20_fbc_mod_tcp.Coupler) (img : List Word)
    (h : Src.ur20_fbc_mod_tcp.Coupler.next true exSource exPi exPo ord.inOrd ord.outOrd =
      .ok (c', img)) :=
  C137_inputs true exCfg [] exSource (.new exSource_new) ord exPi exPo img c' h 2 .UR20_4DI_P _ _ _
    ⟨rfl, rfl, rfl, rfl⟩ (by decide) (by decide) (.inr (by decide))

/-! ### Rounds until everything has been sent (C127) -/

example : ∃ pis : List (List Word), pis.length = 3 ∧
    let r := exPlant.urun true exCfg 3 .EightBytes 0x0010#16 0x8010#16 ((exBefore.take 4).map .ev)
    ((r.writes true 3 .EightBytes 0x0010#16 0x8010#16
      [[1#8, 2#8, 3#8, 4#8, 5#8, 6#8, 7#8], [8#8]]).rounds true 3 .EightBytes 0x0010#16 0x8010#16
        pis).received =
      r.received ++ [1#8, 2#8, 3#8, 4#8, 5#8, 6#8, 7#8, 8#8] := by
  refine ⟨[[0#16, 0#16, 0#16, 0#16, 0#16], [0#16, 0x0020#16, 0#16, 0#16, 0#16],
    [0#16, 0x0040#16, 0#16, 0#16, 0#16]], rfl, ?_⟩
  refine (C127_writes true exCfg 3 .EightBytes _ _ exPlant exPlant_initial
    ((exBefore.take 4).map .ev) ?_ ?_ ?_ ?_ ?_ _ _ ?_).2 (by decide)
  · intro a v h
    simp [exBefore] at h
  · decide +kernel
  · rw [show (exPlant.urun true exCfg 3 .EightBytes 0x0010#16 0x8010#16
      ((exBefore.take 4).map .ev)).out = exImage by decide +kernel]
    exact exImage_ready
  · decide +kernel
  · exact ⟨⟨_, rfl, by decide +kernel⟩, _, rfl, by decide +kernel⟩
  · exact ⟨exInput_ready _ (by simp), ⟨_, rfl, by decide +kernel⟩, exInput_ready _ (by simp),
      ⟨_, rfl, by decide +kernel⟩, exInput_ready _ (by simp), ⟨_, rfl, by decide +kernel⟩, trivial⟩

/-- One round after a write of seven bytes six of them have arrived. -/
example :
    let r := exPlant.urun true exCfg 3 .EightBytes 0x0010#16 0x8010#16 ((exBefore.take 4).map .ev)
    ((r.writes true 3 .EightBytes 0x0010#16 0x8010#16
      [[1#8, 2#8, 3#8, 4#8, 5#8, 6#8, 7#8]]).rounds true 3 .EightBytes 0x0010#16 0x8010#16
        [[0#16, 0#16, 0#16, 0#16, 0#16]]).received =
      r.received ++ [1#8, 2#8, 3#8, 4#8, 5#8, 6#8] := by
  refine C127_rate true exCfg 3 .EightBytes _ _ exPlant exPlant_initial
    ((exBefore.take 4).map .ev) ?_ ?_ ?_ ?_ ?_ [1#8, 2#8, 3#8, 4#8, 5#8, 6#8, 7#8]
    [[0#16, 0#16, 0#16, 0#16, 0#16]] ?_
  · intro a v h
    simp [exBefore] at h
  · decide +kernel
  · rw [show (exPlant.urun true exCfg 3 .EightBytes 0x0010#16 0x8010#16
      ((exBefore.take 4).map .ev)).out = exImage by decide +kernel]
    exact exImage_ready
  · decide +kernel
  · exact ⟨⟨_, rfl, by decide +kernel⟩, _, rfl, by decide +kernel⟩
  · exact ⟨exInput_ready _ (by simp), ⟨_, rfl, by decide +kernel⟩, trivial⟩

/-! ### Everything arrives over the cable although the images are late (C131) -/

example : ∃ t : LateLink, t.b.delivered ++ t.b.buffered 3 = [7#8] := by
  have hw : (exLateLink.run true exLateCable exLateSched).a.written = [7#8] := by decide +kernel
  have := C131_progress true exLateCable exLateLink exLateLink_initial exLateSched exLateSched_ok.1
    exLateSched_ok.2 (by decide +kernel) (by decide +kernel) (by decide +kernel) exLateRounds
    ⟨some_of_all (by decide +kernel), ok_of_isOk (by decide +kernel), some_of_all (by decide +kernel),
      ok_of_isOk (by decide +kernel), some_of_all (by decide +kernel), ok_of_isOk (by decide +kernel),
      trivial⟩
    (by
      intro p hp
      have h : ((exLateLink.run true exLateCable exLateSched).a.c.processors 3).map (·.outData) =
        some [] := by decide +kernel
      have hp' : (exLateLink.run true exLateCable exLateSched).a.c.processors 3 = some p := hp
      rw [hp'] at h
      simp only [Option.map_some, Option.some.injEq] at h
      rw [h]
      decide)
    (5, (exPi.set 1 0x0109#16).set 2 0x0007#16) [(5, exPi.set 1 0x0011#16)]
    ⟨⟨some_of_all (by decide +kernel), ok_of_isOk (by decide +kernel), trivial⟩,
      ⟨some_of_all (by decide +kernel), ok_of_isOk (by decide +kernel), trivial⟩, trivial⟩
    (by rw [hw]; decide)
  exact ⟨_, this.trans hw⟩

end Ur20.Instances
