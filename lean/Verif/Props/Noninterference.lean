import Verif.Spec.Noninterference
import Verif.Props.Modules
import Verif.Props.Channels
import Verif.Props.Histories
import Verif.Props.Interleaving
import Verif.Props.Loop

/-!
# C101: what one module depends on
-/

namespace Ur20

open Spec Com Coupler

/-! ### Decoding -/

/-- The registers passed to a module of an even number of bytes depend on its bytes only. -/
private theorem raw_same {oc oc' : Bool} {off off' addr : Word} {bc : Nat}
    {data data' raw raw' : List Word}
    (h : prepareRawDataToProcess oc off addr bc data = .ok raw)
    (h' : prepareRawDataToProcess oc' off' addr bc data' = .ok raw')
    (ha : addr.toNat * 16 ≤ off.toNat) (ha' : addr.toNat * 16 ≤ off'.toNat)
    (ho : off.toNat % 16 = off'.toNat % 16) (h2 : 2 ≤ bc) (he : bc % 2 = 0)
    (hb : ∀ k, k < bc → byteAt data ((off.toNat - addr.toNat * 16) / 8 + k) =
      byteAt data' ((off'.toNat - addr.toNat * 16) / 8 + k)) : raw = raw' := by
  have hw : 2 * rawWords bc = bc := by unfold rawWords; rw [if_neg (by omega)]; omega
  obtain ⟨l1, -, c1⟩ := prepareRaw_ok h
  obtain ⟨l2, -, c2⟩ := prepareRaw_ok h'
  apply image_ext
  intro p
  by_cases hp : p < 2 * rawWords bc - off.toNat % 16 / 8
  · rw [prepareRaw_bytes h ha p hp, prepareRaw_bytes h' ha' p (by omega), hb p (by omega)]
  · by_cases hp2 : p < bc
    · rcases c1 with ⟨c1, -⟩ | ⟨-, -, c1⟩
      · omega
      · rcases c2 with ⟨c2, -⟩ | ⟨h8, -, c2⟩
        · omega
        · rw [show p = 2 * rawWords bc - 1 by omega, c1, c2]
    · rw [byteAt_none.2 (by omega), byteAt_none.2 (by omega)]

/-- The register passed to a module of one byte has this byte as its low byte. -/
private theorem raw_low {oc oc' : Bool} {off off' addr : Word} {data data' raw raw' : List Word}
    (h : prepareRawDataToProcess oc off addr 1 data = .ok raw)
    (h' : prepareRawDataToProcess oc' off' addr 1 data' = .ok raw')
    (ha : addr.toNat * 16 ≤ off.toNat) (ha' : addr.toNat * 16 ≤ off'.toNat)
    (hb : byteAt data ((off.toNat - addr.toNat * 16) / 8) =
      byteAt data' ((off'.toNat - addr.toNat * 16) / 8)) :
    ∃ w w', raw = [w] ∧ raw' = [w'] ∧ ∀ k, k < 8 → w.getLsbD k = w'.getLsbD k := by
  obtain ⟨l1, -⟩ := prepareRaw_ok h
  obtain ⟨l2, -⟩ := prepareRaw_ok h'
  obtain ⟨w, rfl⟩ := List.length_eq_one_iff.1 (l1.trans (by rfl))
  obtain ⟨w', rfl⟩ := List.length_eq_one_iff.1 (l2.trans (by rfl))
  have b1 := prepareRaw_bytes h ha 0 (by simp only [rawWords]; simp; omega)
  have b2 := prepareRaw_bytes h' ha' 0 (by simp only [rawWords]; simp; omega)
  rw [Nat.add_zero] at b1 b2
  have hl : byteAt [w] 0 = byteAt [w'] 0 := by rw [b1, b2, hb]
  refine ⟨w, w', rfl, rfl, fun k hk => ?_⟩
  have e : ∀ v : Word, byteAt [v] 0 = some (v.extractLsb' 0 8) := fun v => rfl
  rw [e, e, Option.some.injEq] at hl
  have := congrArg (fun b => b.getLsbD k) hl
  simpa [hk] using this

private theorem bits_same {n : Nat} (hn : n ≤ 8) {w w' : Word}
    (h : ∀ k, k < 8 → w.getLsbD k = w'.getLsbD k) : bitValues n w = bitValues n w' := by
  apply List.ext_getElem?
  intro k
  by_cases hk : k < n
  · rw [bitValues_getElem? n w k (by omega) hk, bitValues_getElem? n w' k (by omega) hk,
      h k (by omega)]
  · rw [List.getElem?_eq_none (by rw [bitValues_length]; omega),
      List.getElem?_eq_none (by rw [bitValues_length]; omega)]

theorem bytes_cases (t : ModuleType) (par : List Word) :
    (inputBytes t par = 0 ∨ inputBytes t par = 1 ∨
      (2 ≤ inputBytes t par ∧ inputBytes t par % 2 = 0)) ∧
    (outputBytes t par = 0 ∨ outputBytes t par = 1 ∨
      (2 ≤ outputBytes t par ∧ outputBytes t par % 2 = 0)) := by
  constructor
  · unfold inputBytes
    split <;> first | simp | (split <;> simp)
  · unfold outputBytes
    split <;> first | simp | (split <;> simp)

private theorem region_eq {a b : List Word} {pos pos' n : Nat}
    (h : region a pos n = region b pos' n) (k : Nat) (hk : k < n) :
    byteAt a (pos + k) = byteAt b (pos' + k) := by
  have := congrArg (fun l => l[k]?) h
  simpa [region, hk] using this

/-- A module without data in an image does not decode registers. -/
private theorem no_input {t : ModuleType} {par : List Word} {m : Module}
    (hc : Module.create t par = .ok m) (h0 : inputBytes t par = 0) {ws : List Word}
    (hl : ws.length = 1) {v : List ChannelValue} : m.processInputData ws ≠ .ok v := by
  intro h
  rw [(C74_inputs t par m hc ws).2 ?_] at h
  · cases h
  · unfold Decodes
    split
    · rename_i ht
      subst ht
      simp only [inputBytes] at h0
      split at h0 <;> cases h0
    · rw [h0, hl]; decide

private theorem no_output {t : ModuleType} {par : List Word} {m : Module}
    (hc : Module.create t par = .ok m) (h0 : outputBytes t par = 0) {ws : List Word}
    (hl : ws.length = 1) {v : List ChannelValue} : m.processOutputData ws ≠ .ok v := by
  intro h
  rw [(C74_outputs t par m hc ws).2 ?_] at h
  · cases h
  · unfold Decodes
    split
    · rename_i ht
      subst ht
      simp only [outputBytes] at h0
      split at h0 <;> cases h0
    · rw [h0, hl]; decide

/-- A module with one byte of input data is a digital input module. -/
private theorem one_input {t : ModuleType} {par : List Word} {m : Module}
    (hc : Module.create t par = .ok m) (h1 : inputBytes t par = 1) :
    ∃ n, n ≤ 8 ∧ digitalInputs m = some n := by
  have hg := create_good hc
  cases t <;> simp only [inputBytes] at h1 <;> first | omega | (split at h1 <;> omega) | skip
  all_goals
    cases m <;> simp only [IsCreated] at hg
    rename_i mm
    obtain ⟨v, ps⟩ := mm
    obtain ⟨rfl, -⟩ := hg
    exact ⟨_, by decide, rfl⟩

private theorem one_output {t : ModuleType} {par : List Word} {m : Module}
    (hc : Module.create t par = .ok m) (h1 : outputBytes t par = 1) :
    ∃ n, n ≤ 8 ∧ digitalOutputs m = some n := by
  have hg := create_good hc
  cases t <;> simp only [outputBytes] at h1 <;> first | omega | (split at h1 <;> omega) | skip
  all_goals
    cases m <;> simp only [IsCreated] at hg
    first
    | exact ⟨4, by decide, rfl⟩
    | (rename_i mm
       obtain ⟨v, ps⟩ := mm
       obtain ⟨rfl, -⟩ := hg
       exact ⟨_, by decide, rfl⟩)

/-- What a module decodes from an input image depends on its bytes only. -/
theorem input_same {oc oc' : Bool} {t : ModuleType} {par : List Word} {m : Module}
    (hc : Module.create t par = .ok m) {o i o' i' : Word} {pi pi' : List Word}
    {v v' : List ChannelValue} (hi : InputLike t par i i')
    (h : moduleInput oc pi m ⟨wordToOffset i, wordToOffset o⟩ = .ok v)
    (h' : moduleInput oc' pi' m ⟨wordToOffset i', wordToOffset o'⟩ = .ok v')
    (hb : Place.inBytes ⟨t, par, o, i⟩ pi = Place.inBytes ⟨t, par, o', i'⟩ pi') : v = v' := by
  unfold moduleInput at h h'
  by_cases hn : i = noOffset
  · obtain rfl := hi.1.1 hn
    subst hn
    rw [show wordToOffset noOffset = none by rfl] at h h'
    simp only at h h'
    rw [h] at h'
    cases h'
    rfl
  · have hn' : i' ≠ noOffset := fun h => hn (hi.1.2 h)
    rw [wordToOffset_some.2 ⟨hn, rfl⟩] at h
    rw [wordToOffset_some.2 ⟨hn', rfl⟩] at h'
    simp only [Res.bind_eq, Res.bind_eq_ok] at h h'
    obtain ⟨raw, h1, h2⟩ := h
    obtain ⟨raw', h1', h2'⟩ := h'
    rw [(create_bytes hc).1] at h1 h1'
    simp only [Place.inBytes, if_neg hn, if_neg hn'] at hb
    have hb' := region_eq hb
    have ha : ∀ off : Word, addrPackedProcessInputData.toNat * 16 ≤ off.toNat := fun off => by
      simp [addrPackedProcessInputData]
    have hz : ∀ off : Word, off.toNat - addrPackedProcessInputData.toNat * 16 = off.toNat :=
      fun off => by simp [addrPackedProcessInputData]
    rcases (bytes_cases t par).1 with h0 | h0 | ⟨h0, he⟩
    · exact absurd h2 (no_input hc h0 ((prepareRaw_ok h1).1.trans (by rw [h0]; rfl)))
    · rw [h0] at h1 h1'
      obtain ⟨w, w', rfl, rfl, hww⟩ := raw_low h1 h1' (ha _) (ha _)
        (by rw [hz, hz]; exact hb' 0 (by omega))
      obtain ⟨n, hn8, hd⟩ := one_input hc h0
      obtain ⟨u, e1, e2, e3⟩ := (C15_digital_input m n hd [w]).2 w rfl
      obtain ⟨u', e1', e2', e3'⟩ := (C15_digital_input m n hd [w']).2 w' rfl
      rw [h2] at e1
      rw [h2'] at e1'
      cases e1
      cases e1'
      apply List.ext_getElem?
      intro k
      by_cases hk : k < n
      · rw [e3 k hk, e3' k hk, hww k (by omega)]
      · rw [List.getElem?_eq_none (by omega), List.getElem?_eq_none (by omega)]
    · have := raw_same h1 h1' (ha _) (ha _) ((hi.2 hn).resolve_right (by omega)) h0 he
        (fun k hk => by rw [hz, hz]; exact hb' k hk)
      subst this
      rw [h2] at h2'
      cases h2'
      rfl

/-- What a module decodes from an output image depends on its bytes only. -/
theorem output_same {oc oc' : Bool} {t : ModuleType} {par : List Word} {m : Module}
    (hc : Module.create t par = .ok m) {o i o' i' : Word} {po po' : List Word}
    {v v' : List ChannelValue} (hol : OutputLike t par o o')
    (hbase : o ≠ noOffset → outputBase ≤ o.toNat)
    (hbase' : o' ≠ noOffset → outputBase ≤ o'.toNat)
    (h : moduleOutput oc po m ⟨wordToOffset i, wordToOffset o⟩ = .ok v)
    (h' : moduleOutput oc' po' m ⟨wordToOffset i', wordToOffset o'⟩ = .ok v')
    (hb : Place.outBytes ⟨t, par, o, i⟩ po = Place.outBytes ⟨t, par, o', i'⟩ po') : v = v' := by
  unfold moduleOutput at h h'
  by_cases hn : o = noOffset
  · obtain rfl := hol.1.1 hn
    subst hn
    rw [show wordToOffset noOffset = none by rfl] at h h'
    simp only at h h'
    rw [h] at h'
    cases h'
    rfl
  · have hn' : o' ≠ noOffset := fun h => hn (hol.1.2 h)
    rw [wordToOffset_some.2 ⟨hn, rfl⟩] at h
    rw [wordToOffset_some.2 ⟨hn', rfl⟩] at h'
    simp only [Res.bind_eq, Res.bind_eq_ok] at h h'
    obtain ⟨raw, h1, h2⟩ := h
    obtain ⟨raw', h1', h2'⟩ := h'
    rw [(create_bytes hc).2] at h1 h1'
    simp only [Place.outBytes, if_neg hn, if_neg hn'] at hb
    have hb' := region_eq hb
    have hzero : addrPackedProcessOutputData.toNat * 16 = outputBase := by decide
    have ha : addrPackedProcessOutputData.toNat * 16 ≤ o.toNat := by rw [hzero]; exact hbase hn
    have ha' : addrPackedProcessOutputData.toNat * 16 ≤ o'.toNat := by
      rw [hzero]; exact hbase' hn'
    have hz : ∀ off : Word,
        (off.toNat - addrPackedProcessOutputData.toNat * 16) / 8 = outByte off :=
      fun off => by simp only [outByte, hzero]
    rcases (bytes_cases t par).2 with h0 | h0 | ⟨h0, he⟩
    · exact absurd h2 (no_output hc h0 ((prepareRaw_ok h1).1.trans (by rw [h0]; rfl)))
    · rw [h0] at h1 h1'
      obtain ⟨w, w', rfl, rfl, hww⟩ := raw_low h1 h1' ha ha' (by
        have := hb' 0 (by omega)
        rwa [Nat.add_zero, Nat.add_zero, ← hz, ← hz] at this)
      obtain ⟨n, hn8, hd⟩ := one_output hc h0
      obtain ⟨-, -, e, -⟩ := digitalOutputs_spec m n hd
      rw [e] at h2 h2'
      simp only [List.length_singleton, ne_eq, not_true_eq_false, if_false] at h2 h2'
      simp only [idx, List.getElem?_cons_zero, Res.map] at h2 h2'
      cases h2
      cases h2'
      exact bits_same hn8 hww
    · have := raw_same h1 h1' ha ha' ((hol.2 hn).resolve_right (by omega)) h0 he
        (fun k hk => by rw [hz, hz]; exact hb' k hk)
      subst this
      rw [h2] at h2'
      cases h2'
      rfl

/-! ### One cycle -/

/-- Without the counter of the other serial modules, a module yields the same values, up to what
`outputs()` shows of a serial module. -/
theorem step_same {j j' : Nat} {st st' s t : LoopState} {inV outV : List ChannelValue}
    {r r' : ModuleResult} (h : moduleStep j st inV outV = .ok (s, r))
    (h' : moduleStep j' st' inV outV = .ok (t, r'))
    (hw : ∀ ch, st.write ⟨j, ch⟩ = st'.write ⟨j', ch⟩)
    (hp : st.processors j = st'.processors j') :
    r.inV = r'.inV ∧ r.nextV = r'.nextV ∧ (st.processors j = none → r.outV = r'.outV) ∧
      (∀ ch, s.write ⟨j, ch⟩ = t.write ⟨j', ch⟩) ∧ s.processors j = t.processors j' := by
  cases hpr : st.processors j with
  | none =>
    rw [moduleStep_plain hpr] at h
    rw [moduleStep_plain (hp ▸ hpr)] at h'
    cases h
    cases h'
    obtain ⟨e1, e2⟩ := applyWrites_eq j 0 st.write outV
    obtain ⟨e1', e2'⟩ := applyWrites_eq j' 0 st'.write outV
    refine ⟨rfl, ?_, fun _ => rfl, ?_, hp⟩
    · simp only
      rw [e1, e1']
      congr 1
      funext k v
      rw [hw _]
    · intro ch
      simp only
      rw [e2, e2', hw ch]
      simp only [true_and]
  | some p =>
    have hpr' := hp ▸ hpr
    cases hf : serialFrames inV outV with
    | none =>
      have key : ∀ {n : Nat} {u v : LoopState} {q : ModuleResult}, u.processors n = some p →
          moduleStep n u inV outV = .ok (v, q) → v = u ∧ q = ⟨inV, outV, outV⟩ := by
        intro n u v q hu hq
        unfold moduleStep at hq
        rw [hu] at hq
        cases inV with
        | nil => cases hq
        | cons x it =>
          cases x <;> simp only [Res.ok.injEq, Prod.mk.injEq] at hq <;>
            try exact ⟨hq.1.symm, hq.2.symm⟩
          cases outV with
          | nil => cases hq
          | cons y ot =>
            cases y <;> simp only [Res.ok.injEq, Prod.mk.injEq] at hq <;>
              first | exact ⟨hq.1.symm, hq.2.symm⟩ | simp [serialFrames] at hf
      obtain ⟨rfl, rfl⟩ := key hpr h
      obtain ⟨rfl, rfl⟩ := key hpr' h'
      exact ⟨rfl, rfl, fun _ => rfl, hw, hp⟩
    | some f =>
      obtain ⟨i, it, o, ot⟩ := f
      have hio : inV = .comRsIn i :: it ∧ outV = .comRsOut o :: ot := by
        unfold serialFrames at hf
        split at hf
        · cases hf; exact ⟨rfl, rfl⟩
        · cases hf
      obtain ⟨rfl, rfl⟩ := hio
      rw [moduleStep_serial hpr] at h
      rw [moduleStep_serial hpr'] at h'
      cases h
      cases h'
      refine ⟨rfl, ?_, fun h => ?_, ?_, ?_⟩
      · simp only [hw 0]
      · cases h
      · intro ch
        simp only [remove, hw ch, Address.mk.injEq, true_and]
      · simp only [hw 0, if_true]

/-- Two states agree on what concerns module `j` of the first and module `j'` of the second. -/
def Agree (j j' : Nat) (c d : Coupler) : Prop :=
  (∀ ch, c.write ⟨j, ch⟩ = d.write ⟨j', ch⟩) ∧ c.processors j = d.processors j'

section

variable {oc oc' : Bool} {cfg cfg' : CouplerConfig} {j j' : Nat}
  (hd : OutputsKept cfg j) (hd' : OutputsKept cfg' j') {t : ModuleType} {par : List Word} {o i o' i' : Word}
  (hal : o ≠ noOffset → o.toNat % 16 = 0 ∨ outputBytes t par = 1) (hil : InputLike t par i i')
  (hol : OutputLike t par o o') (hcfg : ConfiguredAt cfg j t par o i)
  (hcfg' : ConfiguredAt cfg' j' t par o' i')

include hd hd' hal hil hol hcfg hcfg'

theorem cycle_same {c d : Coupler}
    (hrc : ReachableFrom oc cfg c) (hrd : ReachableFrom oc' cfg' d) (h : Agree j j' c d)
    {pi po pi' po' img img' : List Word}
    (h1 : (c.next oc pi po).2 = .ok img) (h2 : (d.next oc' pi' po').2 = .ok img')
    (hi : Place.inBytes ⟨t, par, o, i⟩ pi = Place.inBytes ⟨t, par, o', i'⟩ pi')
    (ho : Place.outBytes ⟨t, par, o, i⟩ po = Place.outBytes ⟨t, par, o', i'⟩ po') :
    (c.next oc pi po).1.inputs[j]? = (d.next oc' pi' po').1.inputs[j']? ∧
    (t ≠ .UR20_1COM_232_485_422 →
      (c.next oc pi po).1.outputs[j]? = (d.next oc' pi' po').1.outputs[j']?) ∧
    Place.outBytes ⟨t, par, o, i⟩ img = Place.outBytes ⟨t, par, o', i'⟩ img' ∧
    Agree j j' (c.next oc pi po).1 (d.next oc' pi' po').1 := by
  obtain ⟨m, hm, hcr⟩ := configured_at hrc hcfg
  obtain ⟨m', hm', hcr'⟩ := configured_at hrd hcfg'
  rw [hcr] at hcr'
  cases hcr'
  have e1 : c.next oc pi po = ((c.next oc pi po).1, .ok img) := by rw [← h1]
  have e2 : d.next oc' pi' po' = ((d.next oc' pi' po').1, .ok img') := by rw [← h2]
  obtain ⟨inV, outV, st, r, vals, a1, a2, ⟨lt, a3, -⟩, a4, a5, a6, a7, a8, a9⟩ := next_module e1 hm
  obtain ⟨inV', outV', st', r', vals', b1, b2, ⟨lt', b3, -⟩, b4, b5, b6, b7, b8, b9⟩ :=
    next_module e2 hm'
  have hbase : o ≠ noOffset → outputBase ≤ o.toNat := fun hn =>
    output_base e1 hm (wordToOffset_some.2 ⟨hn, rfl⟩)
  have hbase' : o' ≠ noOffset → outputBase ≤ o'.toNat := fun hn =>
    output_base e2 hm' (wordToOffset_some.2 ⟨hn, rfl⟩)
  have q1 := input_same hcr hil a1 b1 hi
  have q2 := output_same hcr hol hbase hbase' a2 b2 ho
  subst q1
  subst q2
  obtain ⟨s1, s2, s3, s4, s5⟩ := step_same a3 b3 h.1 h.2
  refine ⟨by rw [a4, b4, s1], fun ht => ?_, ?_, fun ch => ?_, by rw [a7, b7, s5]⟩
  · rw [a5, b5, s3]
    exact (inv_of_reachable hrc).none hm.1 fun hser => ht ((isSerial_type hcr).1 hser)
  · by_cases hn : o = noOffset
    · rw [Place.outBytes, Place.outBytes, if_pos hn, if_pos (hol.1.1 hn)]
    · have hn' : o' ≠ noOffset := fun h => hn (hol.1.2 h)
      rw [Place.outBytes, Place.outBytes, if_neg hn, if_neg hn']
      obtain ⟨vs, dd, c1, c2, -, c0, c3⟩ := C41_own_bytes _ _ _ a9 j (kept_infos hrc hd) m _ o
        (infos_getElem? hm) (wordToOffset_some.2 ⟨hn, rfl⟩)
      obtain ⟨vs', dd', d1, d2, -, d0, d3⟩ := C41_own_bytes _ _ _ b9 j' (kept_infos hrd hd') m
        _ o' (infos_getElem? hm') (wordToOffset_some.2 ⟨hn', rfl⟩)
      rw [a8] at c1
      rw [b8] at d1
      cases c1
      cases d1
      rw [s2, d2] at c2
      cases c2
      rw [(create_bytes hcr).2] at c3 d3
      unfold region
      apply List.map_congr_left
      intro k hk
      have hk' := List.mem_range.1 hk
      have h8 : o.toNat % 16 = 8 → k = 0 := by
        intro h8
        rcases hal hn with h0 | h0
        · omega
        · simp only at hk'; omega
      have h8' : o'.toNat % 16 = 8 → k = 0 := by
        intro h8
        rcases hol.2 hn with h1 | h1
        · rcases hal hn with h0 | h0
          · omega
          · simp only at hk'; omega
        · simp only at hk'; omega
      rw [c3 k hk' h8, d3 k hk' h8']
  · rw [a6 _ rfl, b6 _ rfl, s4 ch]

end

/-! ### Calls -/

/-- A call that does not concern module `j` leaves its part of the state alone. -/
theorem other_call {oc : Bool} {j : Nat} {p : Place} {op : COp} (hv : op.view j p = none)
    (c : Coupler) : Agree j j (op.apply oc c) c := by
  cases op with
  | next pi po => cases hv
  | setOutput a v =>
    have hj : a.module ≠ j := fun h => by simp [COp.view, h] at hv
    rw [(apply_set _ _ _ _).1]
    refine ⟨fun ch => ?_, rfl⟩
    simp only
    rw [if_neg]
    rintro ⟨rfl, -⟩
    exact hj rfl
  | read n k =>
    have hj : n ≠ j := fun h => by simp [COp.view, h] at hv
    rw [(apply_read _ _ _ _).1]
    exact ⟨fun _ => rfl, if_neg fun h => hj h.symm⟩
  | write n b =>
    have hj : n ≠ j := fun h => by simp [COp.view, h] at hv
    rw [(apply_write _ _ _ _).1]
    exact ⟨fun _ => rfl, if_neg fun h => hj h.symm⟩

/-- A call on module `j`. -/
theorem own_call {oc oc' : Bool} {cfg cfg' : CouplerConfig} {c d : Coupler}
    (hrc : ReachableFrom oc cfg c) (hrd : ReachableFrom oc' cfg' d) {j j' : Nat} {t : ModuleType}
    {par : List Word} {o i o' i' : Word} (hcfg : ConfiguredAt cfg j t par o i)
    (hcfg' : ConfiguredAt cfg' j' t par o' i') {p p' : Place}
    {op op' : COp} {v : View} (hv : op.view j p = some v) (hv' : op'.view j' p' = some v)
    (hn : ∀ x y, v ≠ .cycle x y) (h : Agree j j' c d) :
    Agree j j' (op.apply oc c) (op'.apply oc' d) ∧ (call oc c op).2 = (call oc' d op').2 := by
  obtain ⟨m, hm, hcr⟩ := configured_at hrc hcfg
  obtain ⟨m', hm', hcr'⟩ := configured_at hrd hcfg'
  rw [hcr] at hcr'
  cases hcr'
  cases op with
  | next pi po => cases hv; exact absurd rfl (hn _ _)
  | setOutput a w =>
    obtain ⟨aj, ch⟩ := a
    simp only [COp.view] at hv
    split at hv <;> cases hv
    rename_i hj
    subst hj
    obtain rfl : op' = .setOutput ⟨j', ch⟩ w := by
      cases op' with
      | setOutput b u =>
        obtain ⟨bj, ch'⟩ := b
        simp only [COp.view] at hv'
        split at hv' <;> cases hv'
        rename_i hb
        rw [hb]
      | next pi po => cases hv'
      | read n k => simp only [COp.view] at hv'; split at hv' <;> cases hv'
      | write n b => simp only [COp.view] at hv'; split at hv' <;> cases hv'
    have hval : c.isValidAddr ⟨aj, ch⟩ = d.isValidAddr ⟨j', ch⟩ := by
      unfold isValidAddr
      simp only [hm.1, hm'.1]
    rw [(apply_set _ _ _ _).1, (apply_set _ _ _ _).1, (apply_set _ _ _ _).2, (apply_set _ _ _ _).2,
      hval]
    refine ⟨⟨fun k => ?_, h.2⟩, rfl⟩
    simp only [h.1 k, Address.mk.injEq, true_and]
  | read n k =>
    simp only [COp.view] at hv
    split at hv <;> cases hv
    rename_i hj
    subst hj
    obtain rfl : op' = .read j' k := by
      cases op' with
      | read n' k' =>
        simp only [COp.view] at hv'
        split at hv' <;> cases hv'
        rename_i hb
        rw [hb]
      | next pi po => cases hv'
      | setOutput a w => simp only [COp.view] at hv'; split at hv' <;> cases hv'
      | write n b => simp only [COp.view] at hv'; split at hv' <;> cases hv'
    rw [(apply_read _ _ _ _).1, (apply_read _ _ _ _).1, (apply_read _ _ _ _).2,
      (apply_read _ _ _ _).2, h.2]
    exact ⟨⟨h.1, by simp only [if_true]⟩, rfl⟩
  | write n b =>
    simp only [COp.view] at hv
    split at hv <;> cases hv
    rename_i hj
    subst hj
    obtain rfl : op' = .write j' b := by
      cases op' with
      | write n' k' =>
        simp only [COp.view] at hv'
        split at hv' <;> cases hv'
        rename_i hb
        rw [hb]
      | next pi po => cases hv'
      | setOutput a w => simp only [COp.view] at hv'; split at hv' <;> cases hv'
      | read n k => simp only [COp.view] at hv'; split at hv' <;> cases hv'
    rw [(apply_write _ _ _ _).1, (apply_write _ _ _ _).1, (apply_write _ _ _ _).2,
      (apply_write _ _ _ _).2, h.2]
    exact ⟨⟨h.1, by simp only [if_true]⟩, rfl⟩

/-! ### C101, C108 -/

theorem view_cycle {j : Nat} {p : Place} {op : COp} {x y : List (Option Byte)}
    (h : op.view j p = some (.cycle x y)) :
    ∃ pi po, op = .next pi po ∧ p.inBytes pi = x ∧ p.outBytes po = y := by
  cases op with
  | next pi po => cases h; exact ⟨pi, po, rfl, rfl, rfl⟩
  | setOutput a v => simp only [COp.view] at h; split at h <;> cases h
  | read n k => simp only [COp.view] at h; split at h <;> cases h
  | write n b => simp only [COp.view] at h; split at h <;> cases h

/-- What is seen of module `j` in a call. -/
private def seenIn (oc : Bool) (j : Nat) (p : Place) (c : Coupler) (op : COp) : List ModuleSeen :=
  match op with
  | .next pi po =>
    [.cycle (c.next oc pi po).1.inputs[j]?
      (if p.type = .UR20_1COM_232_485_422 then none else (c.next oc pi po).1.outputs[j]?)
      ((c.next oc pi po).2.map p.outBytes)]
  | _ => if (op.view j p).isSome then [.call (call oc c op).2] else []

private theorem moduleSeen_cons (oc : Bool) (j : Nat) (p : Place) (c : Coupler) (op : COp)
    (ops : List COp) : moduleSeen oc j p c (op :: ops) =
      seenIn oc j p c op ++ moduleSeen oc j p (op.apply oc c) ops := by
  cases op <;> rfl

private theorem seenIn_none {oc : Bool} {j : Nat} {p : Place} {op : COp} (hv : op.view j p = none)
    (c : Coupler) : seenIn oc j p c op = [] := by
  cases op <;> first | cases hv | simp [seenIn, hv]

private theorem seenIn_call {oc : Bool} {j : Nat} {p : Place} {op : COp} {v : View}
    (hv : op.view j p = some v) (hn : ∀ x y, v ≠ .cycle x y) (c : Coupler) :
    seenIn oc j p c op = [.call (call oc c op).2] := by
  cases op
  case next => cases hv; exact absurd rfl (hn _ _)
  all_goals simp [seenIn, hv]

theorem Agree.trans_left {j j' : Nat} {c d e : Coupler} (h : Agree j j' c d)
    (h' : Agree j j e c) : Agree j j' e d := ⟨fun a => (h'.1 a).trans (h.1 a), h'.2.trans h.2⟩

theorem Agree.trans_right {j j' : Nat} {c d e : Coupler} (h : Agree j j' c d)
    (h' : Agree j' j' e d) : Agree j j' c e :=
  ⟨fun a => (h.1 a).trans (h'.1 a).symm, h.2.trans h'.2.symm⟩

private theorem same_view {oc oc' : Bool} {cfg cfg' : CouplerConfig} {j j' : Nat}
    (hd : OutputsKept cfg j) (hd' : OutputsKept cfg' j') {t : ModuleType} {par : List Word} {o i o' i' : Word}
    (hal : o ≠ noOffset → o.toNat % 16 = 0 ∨ outputBytes t par = 1) (hil : InputLike t par i i')
    (hol : OutputLike t par o o') (hcfg : ConfiguredAt cfg j t par o i)
    (hcfg' : ConfiguredAt cfg' j' t par o' i') (xs ys : List COp) {c d : Coupler}
    (hrc : ReachableFrom oc cfg c) (hrd : ReachableFrom oc' cfg' d) (h : Agree j j' c d)
    (hx : CyclesSucceed oc c xs) (hy : CyclesSucceed oc' d ys)
    (hv : viewOf j ⟨t, par, o, i⟩ xs = viewOf j' ⟨t, par, o', i'⟩ ys) :
    moduleSeen oc j ⟨t, par, o, i⟩ c xs = moduleSeen oc' j' ⟨t, par, o', i'⟩ d ys := by
  induction xs generalizing c d ys with
  | nil =>
    clear hx
    induction ys generalizing d with
    | nil => rfl
    | cons y ys ih =>
      simp only [viewOf, List.filterMap_nil, List.filterMap_cons] at hv
      cases hvy : y.view j' ⟨t, par, o', i'⟩ with
      | some v => rw [hvy] at hv; cases hv
      | none =>
        rw [hvy] at hv
        rw [moduleSeen_cons, seenIn_none hvy, List.nil_append]
        exact ih (reachable_run hrd [y]) (h.trans_right (other_call hvy d)) hy.2 hv
  | cons x xs ihx =>
    cases hvx : x.view j ⟨t, par, o, i⟩ with
    | none =>
      rw [moduleSeen_cons, seenIn_none hvx, List.nil_append]
      refine ihx ys (reachable_run hrc [x]) hrd (h.trans_left (other_call hvx c)) hx.2 hy ?_
      rw [← hv]
      simp [viewOf, hvx]
    | some v =>
      induction ys generalizing d with
      | nil =>
        simp only [viewOf, List.filterMap_nil, List.filterMap_cons, hvx] at hv
        cases hv
      | cons y ys ihy =>
        cases hvy : y.view j' ⟨t, par, o', i'⟩ with
        | none =>
          rw [moduleSeen_cons oc' j' _ d, seenIn_none hvy, List.nil_append]
          refine ihy (reachable_run hrd [y]) (h.trans_right (other_call hvy d)) hy.2 ?_
          rw [hv]
          simp [viewOf, hvy]
        | some v' =>
          simp only [viewOf, List.filterMap_cons, hvx, hvy, List.cons.injEq] at hv
          obtain ⟨rfl, hv⟩ := hv
          have key : seenIn oc j ⟨t, par, o, i⟩ c x =
              seenIn oc' j' ⟨t, par, o', i'⟩ d y ∧ Agree j j' (x.apply oc c) (y.apply oc' d) := by
            by_cases hc : ∃ a b, v = .cycle a b
            · obtain ⟨a, b, rfl⟩ := hc
              obtain ⟨pi, po, rfl, h1, h2⟩ := view_cycle hvx
              obtain ⟨pi', po', rfl, h1', h2'⟩ := view_cycle hvy
              obtain ⟨img, hi⟩ := hx.1 pi po rfl
              obtain ⟨img', hi'⟩ := hy.1 pi' po' rfl
              obtain ⟨q1, q2, q3, q4⟩ := cycle_same hd hd' hal hil hol hcfg hcfg' hrc hrd h hi hi'
                (h1.trans h1'.symm) (h2.trans h2'.symm)
              refine ⟨?_, q4⟩
              simp only [seenIn, hi, hi', Res.map, q1, q3]
              split
              · rfl
              · rename_i ht
                rw [q2 ht]
            · have hn : ∀ a b, v ≠ .cycle a b := fun a b e => hc ⟨a, b, e⟩
              obtain ⟨q1, q2⟩ := own_call hrc hrd hcfg hcfg' hvx hvy hn h
              rw [seenIn_call hvx hn, seenIn_call hvy hn, q2]
              exact ⟨rfl, q1⟩
          rw [moduleSeen_cons, moduleSeen_cons, key.1]
          congr 1
          exact ihx ys (reachable_run hrc [x]) (reachable_run hrd [y]) key.2 hx.2 hy.2 hv

/-- **C101.** If two histories with successful cycles look the same to a module — the same calls
with its number, the same bytes of its own in both images of every cycle — then an application sees
the same of this module in both: results of calls, values in `inputs()`, values in `outputs()`
except for a serial module, and its bytes of the images to be written. Nothing that happens to
other modules makes a difference. The output data of the module starts at a register or has just one
byte; the other modules may start at any byte. -/
theorem C101_noninterference (oc : Bool) (cfg : CouplerConfig) (c : Coupler)
    (hnew : Coupler.new cfg = .ok c) (j : Nat) (hd : OutputsKept cfg j)
    (t : ModuleType) (par : List Word) (o i : Word)
    (hal : o ≠ noOffset → o.toNat % 16 = 0 ∨ outputBytes t par = 1)
    (hcfg : ConfiguredAt cfg j t par o i) (xs ys : List COp)
    (hx : CyclesSucceed oc c xs) (hy : CyclesSucceed oc c ys)
    (hv : viewOf j ⟨t, par, o, i⟩ xs = viewOf j ⟨t, par, o, i⟩ ys) :
    moduleSeen oc j ⟨t, par, o, i⟩ c xs = moduleSeen oc j ⟨t, par, o, i⟩ c ys :=
  same_view hd hd hal ⟨Iff.rfl, fun _ => .inl rfl⟩ ⟨Iff.rfl, fun _ => .inl rfl⟩ hcfg hcfg xs ys
    ⟨c, [], hnew, rfl⟩ ⟨c, [], hnew, rfl⟩ ⟨fun _ => rfl, rfl⟩ hx hy hv

/-- Two histories that look the same to the second module, which shares a register with the first
one, although the other modules are told different things … -/
def exOne : List COp :=
  [.setOutput ⟨1, 1⟩ (.bit true), .setOutput ⟨0, 0⟩ (.bit true),
    .next [0x0002#16, 0#16, 0#16, 0#16, 0#16] [0x0500#16, 0x0080#16, 0#16, 0#16, 0#16]]

def exOther : List COp :=
  [.write 3 [0x41#8], .setOutput ⟨1, 1⟩ (.bit true), .read 3 1,
    .next [0x0005#16, 0x0109#16, 0x0042#16, 0#16, 0#16] [0x050F#16, 0#16, 0#16, 0#16, 0#16]]

/-- … meet the hypotheses of `C101_noninterference` … -/
example : ConfiguredAt exCfg 1 .UR20_8DO_P (List.replicate 8 0) 0x8008#16 0xFFFF#16 ∧
    outputBytes .UR20_8DO_P (List.replicate 8 0) = 1 ∧ DisjointOutputs exCfg ∧
    CyclesSucceed true (initial exCfg exModules) exOne ∧
    CyclesSucceed true (initial exCfg exModules) exOther ∧
    viewOf 1 ⟨.UR20_8DO_P, List.replicate 8 0, 0x8008#16, 0xFFFF#16⟩ exOne =
      viewOf 1 ⟨.UR20_8DO_P, List.replicate 8 0, 0x8008#16, 0xFFFF#16⟩ exOther := by
  refine ⟨⟨rfl, rfl, rfl, rfl⟩, rfl, exCfg_disjoint, ?_, ?_, ?_⟩
  · refine ⟨?_, ?_, ?_, trivial⟩ <;> intro pi po h <;> cases h
    exact ⟨_, rfl⟩
  · refine ⟨?_, ?_, ?_, ?_, trivial⟩ <;> intro pi po h <;> cases h
    exact ⟨_, rfl⟩
  · have h1 : ∀ pi, Place.inBytes ⟨.UR20_8DO_P, List.replicate 8 0, 0x8008#16, 0xFFFF#16⟩ pi = [] :=
      fun pi => by simp [Place.inBytes, noOffset]
    have h2 : ∀ b c d e : Word, Place.outBytes
        ⟨.UR20_8DO_P, List.replicate 8 0, 0x8008#16, 0xFFFF#16⟩ [0x0500#16, b, c, d, e] =
        [some 5#8] := fun b c d e => by simp [Place.outBytes, noOffset, region, outByte, outputBase,
          outputBytes, byteAt]
    have h3 : ∀ b c d e : Word, Place.outBytes
        ⟨.UR20_8DO_P, List.replicate 8 0, 0x8008#16, 0xFFFF#16⟩ [0x050F#16, b, c, d, e] =
        [some 5#8] := fun b c d e => by simp [Place.outBytes, noOffset, region, outByte, outputBase,
          outputBytes, byteAt]
    simp [viewOf, exOne, exOther, COp.view, -List.reduceReplicate]
    exact ⟨(h1 _).trans (h1 _).symm, (h2 _ _ _ _).trans (h3 _ _ _ _).symm⟩

/-- … and see the same: the accepted call, the values of the module and its byte of the image. -/
example : moduleSeen true 1 ⟨.UR20_8DO_P, List.replicate 8 0, 0x8008#16, 0xFFFF#16⟩
    (initial exCfg exModules) exOther =
    [.call (.setOutput (.ok ())),
      .cycle (some (List.replicate 8 .none))
        (some [.bit true, .bit false, .bit true, .bit false, .bit false, .bit false, .bit false,
          .bit false])
        (.ok [some 0x07#8])] := by
  rfl

/-! ### C108 -/

theorem new_processor {cfg : CouplerConfig} {c : Coupler} (h : Coupler.new cfg = .ok c) {j : Nat}
    {m : Module} {off : ModuleOffset} (hm : ModuleAt c j m off) :
    c.processors j = m.processor? ∧ ∀ a, c.write a = none := by
  obtain ⟨-, -, ms, -, rfl⟩ := new_ok h
  have : ms[j]? = some m := hm.1
  exact ⟨by simp only [initial, this, Option.bind_some], fun _ => rfl⟩

theorem agree_new {cfg cfg' : CouplerConfig} {c d : Coupler} (h : Coupler.new cfg = .ok c)
    (h' : Coupler.new cfg' = .ok d) {j j' : Nat} {t : ModuleType} {par : List Word}
    {o i o' i' : Word} (hcfg : ConfiguredAt cfg j t par o i)
    (hcfg' : ConfiguredAt cfg' j' t par o' i') : Agree j j' c d := by
  obtain ⟨m, hm, hcr⟩ := configured_at (oc := true) ⟨c, [], h, rfl⟩ hcfg
  obtain ⟨m', hm', hcr'⟩ := configured_at (oc := true) ⟨d, [], h', rfl⟩ hcfg'
  rw [hcr] at hcr'
  cases hcr'
  obtain ⟨h1, h2⟩ := new_processor h hm
  obtain ⟨h3, h4⟩ := new_processor h' hm'
  exact ⟨fun ch => by rw [h2, h4], by rw [h1, h3]⟩

/-- **C108.** It makes no difference for a module in which coupler it is, at which position, with
which neighbours and at which registers of the images: modules of the same type with the same
parameters show the same in histories that look the same to them, as in C101, whatever the rest of
the two couplers is, and whether or not overflow checks are compiled in. -/
theorem C108_elsewhere (oc oc' : Bool) (cfg cfg' : CouplerConfig) (c d : Coupler)
    (hnew : Coupler.new cfg = .ok c) (hnew' : Coupler.new cfg' = .ok d)
    (j j' : Nat) (hd : OutputsKept cfg j) (hd' : OutputsKept cfg' j') (t : ModuleType)
    (par : List Word) (o i o' i' : Word)
    (hal : o ≠ noOffset → o.toNat % 16 = 0 ∨ outputBytes t par = 1) (hil : InputLike t par i i')
    (hol : OutputLike t par o o') (hcfg : ConfiguredAt cfg j t par o i)
    (hcfg' : ConfiguredAt cfg' j' t par o' i') (xs ys : List COp)
    (hx : CyclesSucceed oc c xs) (hy : CyclesSucceed oc' d ys)
    (hv : viewOf j ⟨t, par, o, i⟩ xs = viewOf j' ⟨t, par, o', i'⟩ ys) :
    moduleSeen oc j ⟨t, par, o, i⟩ c xs = moduleSeen oc' j' ⟨t, par, o', i'⟩ d ys :=
  same_view hd hd' hal hil hol hcfg hcfg' xs ys ⟨c, [], hnew, rfl⟩ ⟨d, [], hnew', rfl⟩
    (agree_new hnew hnew' hcfg hcfg') hx hy hv

end Ur20
