import Verif.Spec.Account
import Verif.Props.Processor
import Verif.Props.Histories
import Verif.Props.Channels

/-!
# C99: every byte of a serial module of a coupler is accounted for

For any history of calls with any images: no assumption about the device or the field bus.
-/

namespace Ur20

open Spec Com Coupler

open scoped List

private theorem reading_append (p : MessageProcessor) (a b : List Op) :
    Spec.reading p (a ++ b) = Spec.reading p a ++ Spec.reading (runOps p a) b := by
  induction a generalizing p with
  | nil => rfl
  | cons op a ih =>
    simp only [List.cons_append, Spec.reading, ih, List.append_assoc]
    rfl

private theorem sending_append (p : MessageProcessor) (a b : List Op) :
    sending p (a ++ b) = sending p a ++ sending (runOps p a) b := by
  induction a generalizing p with
  | nil => rfl
  | cons op a ih =>
    simp only [List.cons_append, sending, ih, List.append_assoc]
    rfl

private theorem writing_append (a b : List Op) : writing (a ++ b) = writing a ++ writing b := by
  induction a with
  | nil => rfl
  | cons op a ih => cases op <;> simp [writing, ih]

private theorem pendingWrite_run (p : MessageProcessor) (w : Option ChannelValue) :
    runOps p (pendingWrite w) = feed p w ∧ Spec.reading p (pendingWrite w) = [] ∧
      sending p (pendingWrite w) = [] := by
  cases w with
  | none => exact ⟨rfl, rfl, rfl⟩
  | some v => cases v <;> exact ⟨rfl, rfl, rfl⟩

private theorem pendingWrite_writing (w : Option ChannelValue) :
    writing (pendingWrite w) = bytesOf w := by
  cases w with
  | none => rfl
  | some v => cases v <;> simp [pendingWrite, writing, bytesOf]

private theorem pendingWrite_arriving (n : Nat) (last : Option Nat) (w : Option ChannelValue)
    (ops : List Op) : arriving n last (pendingWrite w ++ ops) = arriving n last ops := by
  cases w with
  | none => rfl
  | some v => cases v <;> rfl

/-- What is written to the module's own processor. -/
private theorem writing_calls (cfg : CouplerConfig) (j : Nat) (inF : List Word → Option RsIn)
    (outF : List Word → Option RsOut) (ops : List COp) :
    ∀ w, writing (serialCalls j inF outF w (decodedOnly cfg ops)) = given cfg j w ops := by
  induction ops with
  | nil => intro w; rfl
  | cons op ops ih =>
    intro w
    cases op with
    | setOutput a v => simp only [decodedOnly, serialCalls, given, ih]
    | read n k =>
      simp only [decodedOnly, serialCalls, given, writing_append, ih]
      split <;> rfl
    | write n b =>
      simp only [decodedOnly, serialCalls, given, writing_append, ih]
      split <;> simp [writing]
    | next pi po =>
      simp only [decodedOnly, given]
      split
      · simp only [serialCalls, writing_append, ih, pendingWrite_writing]
        cases inF pi with
        | none => simp [writing]
        | some i => cases outF po <;> simp [writing]
      · exact ih w

/-- What arrives at the module's own processor. -/
private theorem arriving_calls (cfg : CouplerConfig) (j : Nat) (inF : List Word → Option RsIn)
    (outF : List Word → Option RsOut)
    (hf : ∀ pi po, Decodable cfg pi po → ∃ o, outF po = some o) (ops : List COp) :
    ∀ w n last, arriving n last (serialCalls j inF outF w (decodedOnly cfg ops)) =
      arrived cfg inF n last ops := by
  induction ops with
  | nil => intro w n last; rfl
  | cons op ops ih =>
    intro w n last
    cases op with
    | setOutput a v => simp only [decodedOnly, serialCalls, arrived, ih]
    | read m k =>
      simp only [decodedOnly, serialCalls, arrived]
      split
      · exact ih w n last
      · exact ih w n last
    | write m b =>
      simp only [decodedOnly, serialCalls, arrived]
      split
      · exact ih w n last
      · exact ih w n last
    | next pi po =>
      simp only [decodedOnly, arrived]
      split
      · rename_i hd
        obtain ⟨o, ho⟩ := hf pi po hd
        simp only [serialCalls, List.append_assoc, pendingWrite_arriving, ho]
        cases inF pi with
        | none => exact ih none n last
        | some i =>
          simp only [List.cons_append, List.nil_append, arriving, ih]
      · exact ih w n last

private theorem calls_count (j : Nat) (len : ProcessDataLength) (oi : Word)
    (outF : List Word → Option RsOut) (ops : List COp) :
    ∀ w i o, Op.next i o ∈ serialCalls j (inFrame len oi) outF w ops → i.rxCnt < 4 := by
  induction ops with
  | nil => intro w i o h; cases h
  | cons op ops ih =>
    intro w i o h
    cases op with
    | setOutput a v => exact ih _ i o h
    | read n k =>
      simp only [serialCalls, List.mem_append] at h
      rcases h with h | h
      · split at h <;> simp at h
      · exact ih _ i o h
    | write n k =>
      simp only [serialCalls, List.mem_append] at h
      rcases h with h | h
      · split at h <;> simp at h
      · exact ih _ i o h
    | next pi po =>
      simp only [serialCalls, List.mem_append] at h
      rcases h with (h | h) | h
      · cases w with
        | none => cases h
        | some v => cases v <;> simp [pendingWrite] at h
      · cases hi : inFrame len oi pi with
        | none => simp [hi] at h
        | some i' =>
          cases ho : outF po with
          | none => simp [hi, ho] at h
          | some o' =>
            simp only [hi, ho, List.mem_singleton, Op.next.injEq] at h
            obtain ⟨rfl, rfl⟩ := h
            unfold inFrame at hi
            split at hi
            · rename_i f hf
              cases hi
              exact ((C21_counters _).1 _ hf).1
            · cases hi
      · exact ih _ i o h

/-- The module's own processor sees the calls, reads and segments of the coupler. -/
private theorem own {oc : Bool} {cfg : CouplerConfig}
    {j : Nat} {par : List Word} {o i : Word}
    (hcfg : ConfiguredAt cfg j .UR20_1COM_232_485_422 par o i) (ho : o ≠ noOffset)
    (hi : i ≠ noOffset) (hal : o.toNat % 16 = 0 ∧ i.toNat % 16 = 0) (ops : List COp) :
    ∀ (c : Coupler) (p : MessageProcessor), ReachableFrom oc cfg c → ImagesSmall oc ops →
      c.processors j = some p →
      let calls := serialCalls j (inFrame (frameLength par) i) (outFrame (frameLength par) o)
        (c.write ⟨j, 0⟩) (decodedOnly cfg ops)
      (runC oc c ops).processors j = some (runOps p calls) ∧
      readFrom oc j c ops = Spec.reading p calls ∧
      (OutputsKept cfg j → sentBy oc (outFrame (frameLength par) o) c ops <+ sending p calls) ∧
      (OutputsKept cfg j → DecodedReturn oc cfg c ops →
        sentBy oc (outFrame (frameLength par) o) c ops = sending p calls) := by
  induction ops with
  | nil => intro c p _ _ hp; exact ⟨hp, rfl, fun _ => List.Sublist.refl _, fun _ _ => rfl⟩
  | cons op ops ih =>
    intro c p hr hsz hp
    have ih' := fun p' hp' => ih (op.apply oc c) p' (reachable_run hr [op])
      (fun pi po h => hsz pi po (List.mem_cons_of_mem _ h)) hp'
    rw [show runC oc c (op :: ops) = runC oc (op.apply oc c) ops from rfl]
    cases op with
    | setOutput a v =>
      simp only [COp.apply, decodedOnly, serialCalls, readFrom, sentBy, DecodedReturn,
        List.nil_append] at ih' ⊢
      have e1 : (c.setOutput a v).1.processors j = some p := by
        unfold setOutput; split <;> exact hp
      have e2 : (c.setOutput a v).1.write ⟨j, 0⟩ =
          if a = ⟨j, 0⟩ then some v else c.write ⟨j, 0⟩ := by
        unfold setOutput
        split
        · rename_i hva
          rw [if_neg]
          rintro rfl
          obtain ⟨m, hm, hc⟩ := configured_at hr hcfg
          obtain ⟨cm, rfl⟩ := (isSerial_type hc).2 rfl
          unfold isValidAddr at hva
          rw [hm.1] at hva
          exact absurd hva (by simp [Module.moduleType, ModuleType.channelCount])
        · simp only [Coupler.insert, eq_comm]
      have := ih' p e1
      rw [e2] at this
      exact ⟨this.1, this.2.1, this.2.2.1, fun hdis h => this.2.2.2 hdis h.2⟩
    | read n k =>
      simp only [COp.apply, decodedOnly, serialCalls, readFrom, sentBy, DecodedReturn,
        List.nil_append, Coupler.read] at ih' ⊢
      by_cases hn : n = j
      · subst hn
        simp only [hp, read_ok, Res.bind_ok, if_true] at ih' ⊢
        have := ih' { p with inData := p.inData.drop k } (by simp [setProcessor])
        simp only [setProcessor] at this ⊢
        refine ⟨?_, ?_, fun hdis => ?_, fun hdis h => ?_⟩
        · rw [this.1]
          simp [runOps, Op.apply, read_ok]
        · rw [this.2.1]
          simp [Spec.reading, Op.apply, read_ok]
        · have := this.2.2.1 hdis
          simpa [sending, Op.apply, read_ok] using this
        · rw [this.2.2.2 hdis h.2]
          simp [sending, Op.apply, read_ok]
      · simp only [if_neg hn, List.nil_append] at ih' ⊢
        cases hpn : c.processors n with
        | none =>
          simp only [hpn] at ih' ⊢
          have := ih' p hp
          exact ⟨this.1, this.2.1, this.2.2.1, fun hdis h => this.2.2.2 hdis h.2⟩
        | some q =>
          simp only [hpn, read_ok, Res.bind_ok] at ih' ⊢
          have := ih' p (by simp [setProcessor, hp, Ne.symm hn])
          exact ⟨this.1, this.2.1, this.2.2.1, fun hdis h => this.2.2.2 hdis h.2⟩
    | write n b =>
      simp only [COp.apply, decodedOnly, serialCalls, readFrom, sentBy, DecodedReturn,
        List.nil_append, writeBytes] at ih' ⊢
      by_cases hn : n = j
      · subst hn
        simp only [hp, if_true] at ih' ⊢
        have := ih' (p.write b).1 (by simp [setProcessor])
        simp only [setProcessor] at this ⊢
        refine ⟨?_, ?_, fun hdis => ?_, fun hdis h => ?_⟩
        · rw [this.1]; rfl
        · rw [this.2.1]; rfl
        · exact this.2.2.1 hdis
        · rw [this.2.2.2 hdis h.2]; rfl
      · simp only [if_neg hn, List.nil_append] at ih' ⊢
        cases hpn : c.processors n with
        | none =>
          simp only [hpn] at ih' ⊢
          have := ih' p hp
          exact ⟨this.1, this.2.1, this.2.2.1, fun hdis h => this.2.2.2 hdis h.2⟩
        | some q =>
          simp only [hpn] at ih' ⊢
          have := ih' p (by simp [setProcessor, hp, Ne.symm hn])
          exact ⟨this.1, this.2.1, this.2.2.1, fun hdis h => this.2.2.2 hdis h.2⟩
    | next pi po =>
      simp only [COp.apply, decodedOnly, readFrom, sentBy, DecodedReturn, List.nil_append]
        at ih' ⊢
      by_cases hd : Decodable cfg pi po
      · rw [if_pos hd]
        have hs := serialAt_of_configured hr hcfg ho hi hal (hd.2 _ _ _ _ _ hcfg ho).1
        obtain ⟨p', fi, fo, g1, g2, g3, -, -, g7, g8⟩ := decoded_serial hr hd hs
        rw [hp] at g1
        cases g1
        simp only [serialCalls, g2, g3, List.append_assoc]
        obtain ⟨f1, f2, f3⟩ := pendingWrite_run p (c.write ⟨j, 0⟩)
        have := ih' _ g7
        rw [g8] at this
        obtain ⟨k1, k2, k3, k4⟩ := this
        have e1 : sending p (pendingWrite (c.write ⟨j, 0⟩) ++ ([Op.next fi fo] ++
              serialCalls j (inFrame (frameLength par) i) (outFrame (frameLength par) o) none
                (decodedOnly cfg ops))) =
            (if ((feed p (c.write ⟨j, 0⟩)).next fi fo).2.txCnt ≠ fo.txCnt then
              ((feed p (c.write ⟨j, 0⟩)).next fi fo).2.data else []) ++
            sending ((feed p (c.write ⟨j, 0⟩)).next fi fo).1
              (serialCalls j (inFrame (frameLength par) i) (outFrame (frameLength par) o) none
                (decodedOnly cfg ops)) := by
          rw [sending_append, f3, f1]
          rfl
        have himg : OutputsKept cfg j → ∀ img, (c.next oc pi po).2 = .ok img →
            outFrame (frameLength par) o img =
              some ((feed p (c.write ⟨j, 0⟩)).next fi fo).2 := by
          intro hdis img h
          obtain ⟨q, i', o', lt, a1, a2, a3, -, -, -, -, -, a9⟩ :=
            serial_cycle (inv_of_reachable hr) hs (c' := (c.next oc pi po).1) (img := img)
              (by rw [← h])
          rw [hp] at a1
          cases a1
          rw [g2] at a2
          cases a2
          rw [g3] at a3
          cases a3
          exact a9 (kept_infos hr hdis)
        refine ⟨?_, ?_, fun hdis => ?_, fun hdis h => ?_⟩
        · rw [k1]
          congr 1
          unfold runOps
          rw [List.foldl_append]
          change _ = runOps (runOps p (pendingWrite (c.write ⟨j, 0⟩))) _
          rw [f1]
          rfl
        · rw [k2, reading_append, f2, f1]
          rfl
        · rw [e1]
          refine List.Sublist.append ?_ (k3 hdis)
          cases hres : (c.next oc pi po).2 with
          | ok img => simp only [startedBy, g3, himg hdis img hres]; exact List.Sublist.refl _
          | err e => exact List.nil_sublist _
          | panic => exact List.nil_sublist _
        · rw [e1, ← k4 hdis h.2]
          obtain ⟨img, hres⟩ := h.1 pi po rfl hd
          simp only [hres, startedBy, g3, himg hdis img hres]
      · rw [if_neg hd]
        have hd' := hd
        unfold Decodable at hd'
        rw [← decode_inputs hr, ← decode_outputs hr (hsz pi po List.mem_cons_self)] at hd'
        obtain ⟨h1, ins1, h2, -⟩ := not_decoded hd'
        have e : startedBy (outFrame (frameLength par) o) po (c.next oc pi po).2 = [] := by
          cases hres : (c.next oc pi po).2 with
          | ok img => exact absurd hres (h1 img)
          | err e => rfl
          | panic => rfl
        rw [e, List.nil_append]
        have := ih' p (by rw [h2]; exact hp)
        have hw : (c.next oc pi po).1.write = c.write := by rw [h2]
        rw [hw] at this
        exact ⟨this.1, this.2.1, this.2.2.1, fun hdis h => this.2.2.2 hdis h.2⟩

private theorem start {oc : Bool} {cfg : CouplerConfig} {c0 : Coupler}
    (h0 : Coupler.new cfg = .ok c0) {j : Nat} {par : List Word} {o i : Word}
    (hcfg : ConfiguredAt cfg j .UR20_1COM_232_485_422 par o i) :
    c0.processors j = some (MessageProcessor.new (frameLength par)) ∧ c0.write ⟨j, 0⟩ = none := by
  refine ⟨?_, ((C13_success cfg).2 c0 h0).2.2.2.2.2 _⟩
  obtain ⟨m, hm, hc⟩ := configured_at (oc := oc) ⟨c0, [], h0, rfl⟩ hcfg
  obtain ⟨cm, rfl⟩ := (isSerial_type hc).2 rfl
  have hl := frameLength_eq hc
  obtain ⟨-, -, ms, -, rfl⟩ := new_ok h0
  simp only [initial]
  have : ms[j]? = some (Module.com cm) := hm.1
  rw [this, ← hl]
  rfl

section

variable (oc : Bool) (cfg : CouplerConfig) (c0 : Coupler) (h0 : Coupler.new cfg = .ok c0)
  (j : Nat) (par : List Word) (o i : Word)
  (hcfg : ConfiguredAt cfg j .UR20_1COM_232_485_422 par o i) (ho : o ≠ noOffset)
  (hi : i ≠ noOffset) (hal : o.toNat % 16 = 0 ∧ i.toNat % 16 = 0) (ops : List COp) (hsz : ImagesSmall oc ops)

include h0 hcfg ho hi hal hsz

/-- C99: for every history, also with failing cycles: what the reads returned, followed by what
further reads will return, is what arrived in the images, in order and each frame once. -/
theorem C99_received :
    ∃ rest, readFrom oc j c0 ops ++ rest =
        arrived cfg (inFrame (frameLength par) i) 0 none ops ∧
      ∀ k, ∃ d, (runC oc c0 ops).read j k = .ok (d, some (rest.take k)) := by
  have hr : ReachableFrom oc cfg c0 := ⟨c0, [], h0, rfl⟩
  obtain ⟨s1, s2⟩ := start (oc := oc) h0 hcfg
  obtain ⟨k1, k2, -, -⟩ := own hcfg ho hi hal ops c0 _ hr hsz s1
  rw [s2] at k1 k2
  refine ⟨(runOps (MessageProcessor.new (frameLength par)) (serialCalls j
    (inFrame (frameLength par) i) (outFrame (frameLength par) o) none (decodedOnly cfg ops))).inData,
    ?_, fun k => ?_⟩
  rotate_left
  · unfold Coupler.read
    rw [k1]
    simp only [read_ok, Res.bind_ok]
    exact ⟨_, rfl⟩
  · rw [k2, C98_received _ _ (fun a b => calls_count _ _ _ _ _ _ _ _), arriving_calls]
    intro pi po hd
    obtain ⟨-, -, fo, -, -, g, -⟩ := decoded_serial hr hd
      (serialAt_of_configured hr hcfg ho hi hal (hd.2 _ _ _ _ _ hcfg ho).1)
    exact ⟨fo, g⟩

/-- C99: if the cycles whose images can be decoded return an image: the data of the segments they
start, followed by what is queued, is what was given to the module. -/
theorem C99_sent (hdis : OutputsKept cfg j) (hret : DecodedReturn oc cfg c0 ops) :
    ∃ p, (runC oc c0 ops).processors j = some p ∧
      sentBy oc (outFrame (frameLength par) o) c0 ops ++ p.outData.flatten =
        given cfg j none ops := by
  have hr : ReachableFrom oc cfg c0 := ⟨c0, [], h0, rfl⟩
  obtain ⟨s1, s2⟩ := start (oc := oc) h0 hcfg
  obtain ⟨k1, -, -, k4⟩ := own hcfg ho hi hal ops c0 _ hr hsz s1
  rw [s2] at k1 k4
  refine ⟨_, k1, ?_⟩
  rw [k4 hdis hret, C98_sent, writing_calls]

/-- C99: whatever cycles fail, nothing is sent that was not given to the module, nothing twice and
nothing out of order. -/
theorem C99_sent_once (hdis : OutputsKept cfg j) :
    ∃ p, (runC oc c0 ops).processors j = some p ∧
      sentBy oc (outFrame (frameLength par) o) c0 ops ++ p.outData.flatten <+
        given cfg j none ops := by
  have hr : ReachableFrom oc cfg c0 := ⟨c0, [], h0, rfl⟩
  obtain ⟨s1, s2⟩ := start (oc := oc) h0 hcfg
  obtain ⟨k1, -, k3, -⟩ := own hcfg ho hi hal ops c0 _ hr hsz s1
  rw [s2] at k1 k3
  refine ⟨_, k1, ?_⟩
  rw [← writing_calls cfg j (inFrame (frameLength par) i) (outFrame (frameLength par) o),
    ← C98_sent (frameLength par)]
  exact List.Sublist.append (k3 hdis) (List.Sublist.refl _)

end

/-- C99: in every reachable state `writer(n)` exists exactly for the serial modules and accepts
every buffer as a whole. -/
theorem C99_accepted (oc : Bool) (cfg : CouplerConfig) (c : Coupler)
    (hr : ReachableFrom oc cfg c) (n : Nat) (buf : List Byte) :
    (cfg.modules[n]? = some .UR20_1COM_232_485_422 →
      (c.writeBytes n buf).2 = some buf.length) ∧
    (cfg.modules[n]? ≠ some .UR20_1COM_232_485_422 → c.writeBytes n buf = (c, none)) := by
  have h := (C14_readers oc cfg c hr n).2
  unfold hasWriter at h
  unfold writeBytes
  cases hp : c.processors n with
  | none =>
    rw [hp] at h
    exact ⟨fun ht => absurd (h.2 ht) (by simp), fun _ => rfl⟩
  | some p =>
    rw [hp] at h
    exact ⟨fun _ => rfl, fun ht => absurd (h.1 rfl) ht⟩


/-! ### Examples -/

/-- An input image in which the serial module of the example has a frame of two bytes. -/
def exFramePi : List Word :=
  [0x000A#16, 0x0289#16, 0x0807#16, 0#16, 0#16, 0#16, 0#16, 0#16, 0#16]

theorem exFrame_decodable : Decodable exCfg exFramePi exPo := by
  refine ⟨?_, exCfg_decodable.2⟩
  intro j t par o i h hni
  rcases exCfg_at h with ⟨rfl, rfl, rfl, rfl, rfl⟩ | ⟨rfl, rfl, rfl, rfl, rfl⟩ |
    ⟨rfl, rfl, rfl, rfl, rfl⟩ | ⟨rfl, rfl, rfl, rfl, rfl⟩
  · exact absurd rfl hni
  · exact absurd rfl hni
  · exact ⟨by unfold HasRegisters; decide, fun h => by cases h⟩
  · refine ⟨by unfold HasRegisters; decide, fun _ b hb => ?_⟩
    rw [show byteAt exFramePi _ = some 2#8 by decide] at hb
    cases hb; decide

theorem exFrame_fails : ¬ Decodable exCfg [] [] := by
  rintro ⟨h, -⟩
  have := (h 2 .UR20_4DI_P _ _ _ ⟨rfl, rfl, rfl, rfl⟩ (by decide)).1.2.2
  revert this
  decide

/-- A cycle that fails, two that initialise the module, one with a frame, the same frame again, and
reads and writes in between. -/
def exAccount : List COp :=
  [.next [] [], .write 3 [1, 2, 3], .next exPi exPo, .setOutput ⟨3, 0⟩ (.bytes [4]),
    .next exPi exPo, .next exFramePi exPo, .read 3 1, .next exFramePi exPo]

example : arrived exCfg (inFrame .EightBytes 0x0010#16) 0 none exAccount = [7, 8] := by
  simp only [exAccount, arrived, exFrame_fails, if_false, exFrame_decodable,
    show Decodable exCfg exPi exPo from exCfg_decodable, if_true,
    show inFrame .EightBytes 0x0010#16 exPi = some ⟨false, false, 0, 0, false, []⟩ by decide,
    show inFrame .EightBytes 0x0010#16 exFramePi = some ⟨true, false, 1, 0, true, [7, 8]⟩ by decide]
  decide

example : readFrom true 3 (initial exCfg exModules) exAccount = [7] := by rfl

example : given exCfg 3 none exAccount = [1, 2, 3, 4] := by
  simp only [exAccount, given, exFrame_fails, if_false, exFrame_decodable,
    show Decodable exCfg exPi exPo from exCfg_decodable, if_true]
  decide

example : sentBy true (outFrame .EightBytes 0x8010#16) (initial exCfg exModules) exAccount =
    [1, 2, 3, 4] := by rfl

example : ConfiguredAt exCfg 3 .UR20_1COM_232_485_422 (List.replicate 10 0) 0x8010#16 0x10#16 ∧
    frameLength (List.replicate 10 0) = .EightBytes ∧ ImagesSmall true exAccount ∧
    DecodedReturn true exCfg (initial exCfg exModules) exAccount := by
  refine ⟨⟨rfl, rfl, rfl, rfl⟩, rfl, fun _ _ _ h => (by cases h), ?_⟩
  simp only [exAccount, DecodedReturn, COp.next.injEq, reduceCtorEq, false_imp_iff, implies_true,
    true_and, and_true, and_imp]
  refine ⟨?_, ?_, ?_, ?_, ?_⟩
  · rintro pi po rfl rfl h
    exact absurd h exFrame_fails
  all_goals
    rintro pi po rfl rfl -
    exact ⟨_, rfl⟩

end Ur20
