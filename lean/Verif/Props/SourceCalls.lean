import Verif.Props.SourceRuns
import Verif.Props.Pending
import Verif.Props.Shown

/-!
# C138: what every call of the translated source returns

After any history of calls the outcome of the next one can be told from the configuration and the
calls. The statements are about the functions of the translated source (`Verif/Source`) only.
-/

namespace Ur20

open Spec

open Src.ur20_fbc_mod_tcp (embed new_eq)

theorem decoded_model {oc : Bool} {cfg : CouplerConfig} {ops : List COp}
    {c : Src.ur20_fbc_mod_tcp.Coupler} (h : Spec.Src.Reaches oc cfg ops c) (ord : Imp.Orders)
    (fill : Nat → Byte) {pi po : List Word} (hd : Decodable cfg pi po) :
    ∃ d0, Coupler.new cfg = .ok d0 ∧
      Src.ur20_fbc_mod_tcp.Coupler.inputs oc (Spec.Src.call oc c ord fill (.next pi po)).1 =
        .ok ((runC oc d0 ops).next oc pi po).1.inputs ∧
      Src.ur20_fbc_mod_tcp.Coupler.outputs oc (Spec.Src.call oc c ord fill (.next pi po)).1 =
        .ok ((runC oc d0 ops).next oc pi po).1.outputs := by
  obtain ⟨d0, im, h0, rfl, hs⟩ := Src.reaches_model h
  have hr : ReachableFrom oc cfg (runC oc d0 ops) := ⟨d0, ops, h0, rfl⟩
  have hnp := (C78_consumed oc cfg _ hr pi po hd.1 hd.2).1
  obtain ⟨im', h1, h2⟩ := (Src.call_model oc hs ord fill (.next pi po)).2 (by
    simp only [Spec.call]
    cases hx : ((runC oc d0 ops).next oc pi po).2 with
    | panic => exact absurd hx hnp
    | ok _ => rfl
    | err _ => rfl)
  refine ⟨d0, h0, ?_, ?_⟩
  · rw [h2]
    show Res.ok im'.inValues = _
    rw [h1.inValues]; rfl
  · rw [h2]
    show Res.ok im'.outValues = _
    rw [h1.outValues]; rfl

section

variable (oc : Bool) (cfg : CouplerConfig) (ops : List COp) (c : Src.ur20_fbc_mod_tcp.Coupler)
  (h : Spec.Src.Reaches oc cfg ops c) (ord : Imp.Orders) (fill : Nat → Byte)

include h

/-- C138: `set_output` accepts exactly the channels of the configured modules and returns `Address`
for all others. -/
theorem C138_set_output (a : Address) (v : ChannelValue) :
    (ChannelExists cfg a ∧
      (Spec.Src.call oc c ord fill (.setOutput a v)).2 = .setOutput (.ok ())) ∨
    (¬ ChannelExists cfg a ∧
      (Spec.Src.call oc c ord fill (.setOutput a v)).2 = .setOutput (.err .address)) := by
  obtain ⟨d0, i, h0, rfl, hs⟩ := Src.reaches_model h
  rw [(Src.call_model oc hs ord fill _).1]
  obtain ⟨h1, -, h3⟩ := C31_addresses oc cfg _ ⟨d0, ops, h0, rfl⟩ a v
  by_cases hok : ((runC oc d0 ops).setOutput a v).2 = .ok ()
  · exact .inl ⟨h1.1 hok, by simp only [Spec.call, hok]⟩
  · exact .inr ⟨fun he => hok (h1.2 he), by simp only [Spec.call, h3 hok]⟩

/-- C138: `writer(n)` exists exactly for serial modules and takes all bytes it is given. -/
theorem C138_write (n : Nat) (buf : List Byte) :
    (cfg.modules[n]? = some .UR20_1COM_232_485_422 ∧
      (Spec.Src.call oc c ord fill (.write n buf)).2 = .write (some buf.length)) ∨
    (cfg.modules[n]? ≠ some .UR20_1COM_232_485_422 ∧
      (Spec.Src.call oc c ord fill (.write n buf)).2 = .write none) := by
  obtain ⟨d0, i, h0, rfl, hs⟩ := Src.reaches_model h
  rw [(Src.call_model oc hs ord fill _).1]
  have h1 := (C14_readers oc cfg _ ⟨d0, ops, h0, rfl⟩ n).2
  simp only [Spec.call, Coupler.writeBytes, Coupler.hasWriter] at h1 ⊢
  cases hp : (runC oc d0 ops).processors n with
  | none =>
    rw [hp] at h1
    exact .inr ⟨fun h2 => (by simpa using h1.2 h2), rfl⟩
  | some p =>
    rw [hp] at h1
    exact .inl ⟨h1.1 rfl, rfl⟩

/-- C138: `reader(n)` exists exactly for serial modules; reading never fails and returns at most as
many bytes as asked for. -/
theorem C138_read (n len : Nat) :
    (cfg.modules[n]? = some .UR20_1COM_232_485_422 ∧ ∃ bytes, bytes.length ≤ len ∧
      (Spec.Src.call oc c ord fill (.read n len)).2 = .read (.ok (some bytes))) ∨
    (cfg.modules[n]? ≠ some .UR20_1COM_232_485_422 ∧
      (Spec.Src.call oc c ord fill (.read n len)).2 = .read (.ok none)) := by
  obtain ⟨d0, i, h0, rfl, hs⟩ := Src.reaches_model h
  rw [(Src.call_model oc hs ord fill _).1]
  have h1 := (C14_readers oc cfg _ ⟨d0, ops, h0, rfl⟩ n).1
  simp only [Spec.call, Coupler.read, Coupler.hasReader] at h1 ⊢
  cases hp : (runC oc d0 ops).processors n with
  | none =>
    rw [hp] at h1
    exact .inr ⟨fun h2 => (by simpa using h1.2 h2), rfl⟩
  | some p =>
    rw [hp] at h1
    refine .inl ⟨h1.1 rfl, ?_⟩
    simp only [read_ok, Res.bind_ok]
    exact ⟨_, by simp, rfl⟩

variable (hsz : ImagesSmall oc ops)

include hsz

/-- C138: a cycle succeeds exactly if the images hold the data of all modules in their places and
the values written since the last cycle that could be decoded can be encoded. -/
theorem C138_success (pi po : List Word) :
    (∃ img, (Spec.Src.call oc c ord fill (.next pi po)).2 = .next (.ok img)) ↔
      CompleteImages cfg pi po ∧ Encodable cfg (waiting cfg ops) po := by
  obtain ⟨d0, i, h0, rfl, hs⟩ := Src.reaches_model h
  rw [(Src.call_model oc hs ord fill _).1, ← C110_success oc cfg d0 h0 ops hsz pi po]
  simp [Spec.call]

/-- C138: a cycle that does not panic (see C137) fails with the error of the first module at fault, in
the order of decoding inputs, decoding outputs and encoding. -/
theorem C138_error (pi po : List Word) (hpo : oc = false → po.length ≤ 0xF800)
    (hp : (Spec.Src.call oc c ord fill (.next pi po)).2.panicked = false) (e : Error) :
    (Spec.Src.call oc c ord fill (.next pi po)).2 = .next (.err e) ↔
      FirstFault (InputFault cfg pi) e ∨
      ((∀ j e', ¬ InputFault cfg pi j e') ∧ FirstFault (OutputFault cfg po) e) ∨
      ((∀ j e', ¬ InputFault cfg pi j e') ∧ (∀ j e', ¬ OutputFault cfg po j e') ∧
        FirstFault (EncodeFault cfg (waiting cfg ops) po) e) := by
  obtain ⟨d0, i, h0, rfl, hs⟩ := Src.reaches_model h
  rw [(Src.call_model oc hs ord fill _).1] at hp ⊢
  have hp' : ((runC oc d0 ops).next oc pi po).2 ≠ .panic := by
    intro hx
    simp [Spec.call, hx, Ret.panicked] at hp
  rw [← C110_error oc cfg d0 h0 ops hsz pi po hpo hp' e]
  simp [Spec.call]

/-- C138: the image a successful cycle returns has, for every output channel of the modules that are
not serial, the value of the last `set_output` since the last cycle that could be decoded; without
one it has what the given output image says. -/
theorem C138_image (j : Nat) (hdis : OutputsKept cfg j) (pi po img : List Word)
    (hn : (Spec.Src.call oc c ord fill (.next pi po)).2 = .next (.ok img))
    (t : ModuleType) (par : List Word) (o i : Word) (hcfg : ConfiguredAt cfg j t par o i)
    (ht : t ≠ .UR20_1COM_232_485_422) (hno : o ≠ noOffset)
    (hal : o.toNat % 16 = 0 ∨ outputBytes t par = 1) (ch : Nat) (hch : ch < outputChannels t) :
    OutputWritten t par po img (outBit o) ch (waiting cfg ops ⟨j, ch⟩) := by
  obtain ⟨d0, im, h0, rfl, hs⟩ := Src.reaches_model h
  rw [(Src.call_model oc hs ord fill _).1] at hn
  exact C110_image oc cfg d0 h0 ops hsz j hdis pi po img (by simpa [Spec.call] using hn) t par o i
    hcfg ht hno hal ch hch

omit hsz in
/-- C138: after a cycle whose images can be decoded, also one that fails to encode, `inputs()` shows
for every module that is not serial the values of the given input image, and no values if it has no
process input data. -/
theorem C138_inputs (pi po : List Word) (hd : Decodable cfg pi po)
    (j : Nat) (t : ModuleType) (par : List Word) (o i : Word) (hcfg : ConfiguredAt cfg j t par o i)
    (ht : t ≠ .UR20_1COM_232_485_422) :
    ∃ ins, Src.ur20_fbc_mod_tcp.Coupler.inputs oc
        (Spec.Src.call oc c ord fill (.next pi po)).1 = .ok ins ∧
      (i = noOffset → ∃ vs, ins[j]? = some vs ∧ ∀ v ∈ vs, v = .none) ∧
      (i ≠ noOffset → i.toNat % 16 = 0 ∨ inputBytes t par = 1 →
        ∃ vs, ins[j]? = some vs ∧ vs.length = inputChannels t ∧
          ∀ ch, ch < inputChannels t → ∃ v, vs[ch]? = some v ∧ InputShown t par pi i.toNat ch v) := by
  obtain ⟨d0, h0, h1, -⟩ := decoded_model h ord fill hd
  exact ⟨_, h1, C81_inputs oc cfg _ ⟨d0, ops, h0, rfl⟩ pi po hd j t par o i hcfg ht⟩

omit hsz in
/-- C138: and `outputs()` the values of the given output image. -/
theorem C138_outputs (pi po : List Word) (hd : Decodable cfg pi po)
    (j : Nat) (t : ModuleType) (par : List Word) (o i : Word) (hcfg : ConfiguredAt cfg j t par o i)
    (ht : t ≠ .UR20_1COM_232_485_422) :
    ∃ outs, Src.ur20_fbc_mod_tcp.Coupler.outputs oc
        (Spec.Src.call oc c ord fill (.next pi po)).1 = .ok outs ∧
      (o = noOffset → ∃ vs, outs[j]? = some vs ∧ ∀ v ∈ vs, v = .none) ∧
      (o ≠ noOffset → o.toNat % 16 = 0 ∨ outputBytes t par = 1 →
        ∃ vs, outs[j]? = some vs ∧ vs.length = outputChannels t ∧
          ∀ ch, ch < outputChannels t → ∃ v, vs[ch]? = some v ∧
            OutputShown t par po (outBit o) ch v) := by
  obtain ⟨d0, h0, -, h1⟩ := decoded_model h ord fill hd
  exact ⟨_, h1, C81_outputs oc cfg _ ⟨d0, ops, h0, rfl⟩ pi po hd j t par o i hcfg ht⟩

/-- C138: for a serial module with both offsets, at registers, `inputs()` then shows the data that its
input frame says is available, and `outputs()` the data of its output frame if the segment number
differs from that of the serial module before it or, for the first one, from that of the last serial
module in the last cycle that could be decoded. -/
theorem C138_serial (pi po : List Word) (hd : Decodable cfg pi po)
    (j : Nat) (par : List Word) (o i : Word)
    (hcfg : ConfiguredAt cfg j .UR20_1COM_232_485_422 par o i) (ho : o ≠ noOffset)
    (hi : i ≠ noOffset) (hal : o.toNat % 16 = 0 ∧ i.toNat % 16 = 0) :
    let before := countBefore cfg po (lastCountOf cfg 0 (decodedOnly cfg ops)) j
    ∃ ins outs fi fo,
      Src.ur20_fbc_mod_tcp.Coupler.inputs oc
        (Spec.Src.call oc c ord fill (.next pi po)).1 = .ok ins ∧
      Src.ur20_fbc_mod_tcp.Coupler.outputs oc
        (Spec.Src.call oc c ord fill (.next pi po)).1 = .ok outs ∧
      inFrame (frameLength par) i pi = some fi ∧ outFrame (frameLength par) o po = some fo ∧
      (fi.dataAvailable = true → fi.data ≠ [] → ins[j]? = some [.bytes fi.data]) ∧
      ((fi.dataAvailable = false ∨ fi.data = []) → ins[j]? = some [.none]) ∧
      (fo.data ≠ [] → fo.txCnt ≠ before → outs[j]? = some [.bytes fo.data]) ∧
      ((fo.data = [] ∨ fo.txCnt = before) → outs[j]? = some [.none]) := by
  obtain ⟨d0, h0, h1, h2⟩ := decoded_model h ord fill hd
  obtain ⟨fo, a1, a2, a3⟩ :=
    C80_outputs oc cfg d0 h0 ops hsz pi po hd j par o i hcfg ho hi hal
  obtain ⟨fi, b1, b2, b3⟩ :=
    C80_inputs oc cfg _ ⟨d0, ops, h0, rfl⟩ pi po hd j par o i hcfg ho hi hal
  exact ⟨_, _, fi, fo, h1, h2, b1, a1, b2, b3, a2, a3⟩

omit hsz in
/-- C138: a cycle whose images cannot be decoded does not succeed and leaves `outputs()` as it was. If
the input image cannot be decoded it leaves `inputs()` as it was, too. -/
theorem C138_undecodable (pi po : List Word) (hpo : oc = false → po.length ≤ 0xF800)
    (hd : ¬ Decodable cfg pi po)
    (hp : (Spec.Src.call oc c ord fill (.next pi po)).2.panicked = false) :
    (∀ img, (Spec.Src.call oc c ord fill (.next pi po)).2 ≠ .next (.ok img)) ∧
    Src.ur20_fbc_mod_tcp.Coupler.outputs oc (Spec.Src.call oc c ord fill (.next pi po)).1 =
      Src.ur20_fbc_mod_tcp.Coupler.outputs oc c ∧
    (¬ InputsPresent cfg pi →
      Src.ur20_fbc_mod_tcp.Coupler.inputs oc (Spec.Src.call oc c ord fill (.next pi po)).1 =
        Src.ur20_fbc_mod_tcp.Coupler.inputs oc c) := by
  obtain ⟨d0, im, h0, rfl, hs⟩ := Src.reaches_model h
  obtain ⟨h1, h2⟩ := Src.call_model oc hs ord fill (.next pi po)
  rw [h1] at hp
  obtain ⟨im', h3, h4⟩ := h2 hp
  obtain ⟨a1, -, a3, a4⟩ :=
    C78_undecodable oc cfg _ ⟨d0, ops, h0, rfl⟩ pi po hpo hd
  refine ⟨fun img => ?_, ?_, fun hi => ?_⟩
  · rw [h1]
    simpa [Spec.call] using a1 img
  · rw [h4]
    show Res.ok im'.outValues = Res.ok im.outValues
    rw [h3.outValues, hs.outValues]
    exact congrArg _ a3
  · rw [h4]
    show Res.ok im'.inValues = Res.ok im.inValues
    rw [h3.inValues, hs.inValues]
    exact congrArg (Res.ok ·.inValues) (a4 hi)

end

/-! ### A history that meets the hypotheses -/

/-- The source after a cycle that cannot be decoded, a `set_output` to a digital output and a write
to the serial module. -/
def exSourceCalls : List COp := [.next [] [], .setOutput ⟨1, 2⟩ (.bit true), .write 3 [1#8, 2#8]]

def exSourceCalled : Src.ur20_fbc_mod_tcp.Coupler :=
  Spec.Src.calls true (fun _ => exBackward) (fun _ _ => 0#8) 0 exSource exSourceCalls

theorem exSourceCalled_reached : Spec.Src.Reaches true exCfg exSourceCalls exSourceCalled :=
  .call (.call (.call (.new exSource_new) exBackward (fun _ => 0#8) (.next [] []) (by decide +kernel))
    exBackward (fun _ => 0#8) (.setOutput ⟨1, 2⟩ (.bit true)) (by decide +kernel))
    exBackward (fun _ => 0#8) (.write 3 [1#8, 2#8]) (by decide +kernel)

theorem exSourceCalls_small : ImagesSmall true exSourceCalls := fun _ _ _ h => by cases h

theorem exSourceCalls_waiting : waiting exCfg exSourceCalls ⟨1, 2⟩ = some (.bit true) := by
  have h : ChannelExists exCfg ⟨1, 2⟩ := ⟨_, rfl, by decide⟩
  simp [waiting, exSourceCalls, waitingFor, h]

/-- The next cycle succeeds, whatever the order of iteration over hash maps, and the bit is set in
the image it returns. -/
example (ord : Imp.Orders) (fill : Nat → Byte) :
    ∃ img, (Spec.Src.call true exSourceCalled ord fill (.next exPi exPo)).2 = .next (.ok img) ∧
      bitAt img 10 = some true := by
  obtain ⟨img, h⟩ : ∃ img, (Spec.Src.call true exSourceCalled ord fill (.next exPi exPo)).2 =
      .next (.ok img) := by
    obtain ⟨d0, i, h0, hc, hs⟩ := Src.reaches_model exSourceCalled_reached
    rw [hc, (Src.call_model true hs ord fill _).1]
    rw [exCfg_new] at h0
    cases h0
    exact ⟨_, rfl⟩
  refine ⟨img, h, ?_⟩
  have := C138_image true exCfg exSourceCalls exSourceCalled exSourceCalled_reached ord fill
    exSourceCalls_small 1 (exCfg_disjoint 1) exPi exPo img h .UR20_8DO_P _ 0x8008#16 _ ⟨rfl, rfl, rfl, rfl⟩ (by decide)
    (by decide) (by decide) 2 (by decide)
  rw [exSourceCalls_waiting] at this
  obtain ⟨b, b', -, hb, rfl⟩ := this
  exact hb

example (ord : Imp.Orders) (fill : Nat → Byte) :=
  C138_success true exCfg exSourceCalls exSourceCalled exSourceCalled_reached ord fill exSourceCalls_small exPi exPo

example (ord : Imp.Orders) (fill : Nat → Byte) (e : Error) :=
  C138_error true exCfg exSourceCalls exSourceCalled exSourceCalled_reached ord fill exSourceCalls_small [] [] (by simp)
    (by
      obtain ⟨d0, i, h0, hc, hs⟩ := Src.reaches_model exSourceCalled_reached
      rw [hc, (Src.call_model true hs ord fill _).1]
      rw [exCfg_new] at h0
      cases h0
      rfl) e

example (ord : Imp.Orders) (fill : Nat → Byte) :=
  C138_inputs true exCfg exSourceCalls exSourceCalled exSourceCalled_reached ord fill exPi exPo exCfg_decodable 2
    .UR20_4DI_P _ _ _ ⟨rfl, rfl, rfl, rfl⟩ (by decide)

example (ord : Imp.Orders) (fill : Nat → Byte) :=
  C138_outputs true exCfg exSourceCalls exSourceCalled exSourceCalled_reached ord fill exPi exPo exCfg_decodable 1
    .UR20_8DO_P _ _ _ ⟨rfl, rfl, rfl, rfl⟩ (by decide)

example (ord : Imp.Orders) (fill : Nat → Byte) :=
  C138_undecodable true exCfg exSourceCalls exSourceCalled exSourceCalled_reached ord fill [] []
    (by simp) exFrame_fails (by
      obtain ⟨d0, i, h0, hc, hs⟩ := Src.reaches_model exSourceCalled_reached
      rw [hc, (Src.call_model true hs ord fill _).1]
      rw [exCfg_new] at h0
      cases h0
      rfl)

example (ord : Imp.Orders) (fill : Nat → Byte) :=
  C138_serial true exCfg exSourceCalls exSourceCalled exSourceCalled_reached ord fill exSourceCalls_small exFramePi exPo
    exFrame_decodable 3 _ _ _ ⟨rfl, rfl, rfl, rfl⟩ (by decide) (by decide) (by decide)

end Ur20
