import Verif.Spec.Setup
import Verif.Props.Settings
import Verif.Props.Addressing
import Verif.Props.Coupler

/-!
# C103: setting up a coupler from the registers of a station
-/

namespace Ur20

open Spec Coupler

private theorem readRegisters_length (mem : Nat → Word) (a n : Nat) :
    (readRegisters mem a n).length = n := by simp [readRegisters]

private theorem readRegisters_get (mem : Nat → Word) (a : Nat) {n k : Nat} (h : k < n) :
    (readRegisters mem a n)[k]? = some (mem (a + k)) := by
  simp [readRegisters, h]

private theorem readRegisters_some {mem : Nat → Word} {a n k : Nat} {w : Word}
    (h : (readRegisters mem a n)[k]? = some w) : k < n ∧ w = mem (a + k) := by
  have hk : k < n := by
    have := (List.getElem?_eq_some_iff.1 h).1
    rwa [readRegisters_length] at this
  rw [readRegisters_get mem a hk] at h
  exact ⟨hk, (Option.some.inj h).symm⟩

private theorem listed {mem : Nat → Word} {n : Nat} (hn : 1 ≤ n) (ts : List ModuleType) :
    moduleListFromRegisters (readRegisters mem addrCurrentModuleList.toNat (2 * n)) = .ok ts ↔
      ts.length = n ∧ ∀ (k : Nat) t, ts[k]? = some t → typeAt mem k = .ok t := by
  have ha : addrCurrentModuleList.toNat = 0x2A00 := rfl
  rw [ha, (C03_module_list _).2.2.1 ts, readRegisters_length]
  constructor
  · rintro ⟨-, -, hl, h⟩
    have hl' : ts.length = n := by omega
    refine ⟨hl', fun k t ht => ?_⟩
    have hk : k < n := hl' ▸ (List.getElem?_eq_some_iff.1 ht).1
    exact h k _ _ t (readRegisters_get _ _ (by omega)) (readRegisters_get _ _ (by omega)) ht
  · rintro ⟨hl, h⟩
    refine ⟨fun e => ?_, by omega, by omega, fun i hi lo t h1 h2 ht => ?_⟩
    · have := readRegisters_length mem 0x2A00 (2 * n)
      rw [e] at this
      simp at this
      omega
    · obtain ⟨-, rfl⟩ := readRegisters_some h1
      obtain ⟨-, rfl⟩ := readRegisters_some h2
      exact h i t ht

private theorem unlisted {mem : Nat → Word} {n : Nat} {k : Nat} (hk : k < n)
    (h : ∀ t, typeAt mem k ≠ .ok t) :
    moduleListFromRegisters (readRegisters mem addrCurrentModuleList.toNat (2 * n)) =
      .err .unknownModule := by
  have ha : addrCurrentModuleList.toNat = 0x2A00 := rfl
  rw [ha, (C03_module_list _).2.1]
  refine ⟨fun e => ?_, by rw [readRegisters_length]; omega, k, _, _,
    readRegisters_get _ _ (by omega), readRegisters_get _ _ (by omega), h⟩
  have := readRegisters_length mem 0x2A00 (2 * n)
  rw [e] at this
  simp at this
  omega

/-- The configuration that the registers of a station with known module types yield. -/
private theorem configured (oc : Bool) {mem : Nat → Word} {n : Nat} (hn : 1 ≤ n) (hn' : n ≤ 64)
    {ts : List ModuleType} (hl : ts.length = n)
    (ht : ∀ (k : Nat) t, ts[k]? = some t → typeAt mem k = .ok t)
    (hc : ∀ t ∈ ts, ∃ c, paramRegisterCount t = .ok c) :
    ∃ cfg : CouplerConfig, setup oc mem n = Coupler.new cfg ∧ cfg.modules = ts ∧
      cfg.offsets = readRegisters mem 0x2B00 (2 * n) ∧ cfg.params.length = n ∧
      ∀ (k : Nat) t c, ts[k]? = some t → paramRegisterCount t = .ok c →
        cfg.params[k]? = some (readRegisters mem (0xC000 + 256 * k) c) := by
  obtain ⟨l, h1, h2, h3, -⟩ := C08_windows oc ts (by omega) hc
  refine ⟨⟨ts, readRegisters mem 0x2B00 (2 * n),
    l.map fun w => readRegisters mem w.1.toNat w.2⟩, ?_, rfl, rfl, by simp [h2, hl], ?_⟩
  · unfold setup
    simp only [Res.bind_eq, (listed hn ts).2 ⟨hl, ht⟩, Res.bind, h1]
    rfl
  · intro k t c hk hcnt
    have hlt : k < l.length := by rw [h2]; exact (List.getElem?_eq_some_iff.1 hk).1
    have hlk := List.getElem?_eq_getElem hlt
    obtain ⟨e1, e2, -⟩ := h3 k _ _ t (by rw [hlk]) hk
    rw [hcnt] at e2
    cases e2
    simp only [List.getElem?_map, hlk, Option.map_some, e1]

private theorem settings_supported {t : ModuleType} {m : Module} (h : SettingsOf t m) :
    ∃ ms, maxCodes t = some ms := by
  cases t <;> first | exact ⟨_, rfl⟩ | (cases m <;> simp [SettingsOf] at h)

private theorem create_settings {mem : Nat → Word} {k : Nat} {t : ModuleType} {ms : List Nat}
    (ht : maxCodes t = some ms) (m : Module) :
    Module.create t (readRegisters mem (0xC000 + 256 * k) ms.length) = .ok m ↔
      SettingsAt mem k t m := by
  rw [(C96_range t ms ht m).2 _ (readRegisters_length _ _ _)]
  constructor
  · rintro ⟨h1, h2⟩
    have := h2.1
    rw [readRegisters_length] at this
    exact ⟨h1, by rw [this]; exact h2⟩
  · rintro ⟨h1, h2⟩
    have := (C96_configures t ms ht m h1 _ h2).1
    rw [readRegisters_length] at this
    rw [this] at h2
    exact ⟨h1, h2⟩

private theorem count_of {t : ModuleType} {ms : List Nat} (ht : maxCodes t = some ms) :
    paramRegisterCount t = .ok ms.length := by
  obtain ⟨n, hn⟩ := (C09_supported t).1 ⟨ms, ht⟩
  rw [hn, (C09_register_count t ms ht n hn []).1]

/-- C103: setting up a station of 1 to 64 modules succeeds exactly if its registers describe the
modules, and then the coupler has these modules, with these settings, at these addresses, and
nothing to write. -/
theorem C103_setup (oc : Bool) (mem : Nat → Word) (n : Nat) (hn : 1 ≤ n) (hn' : n ≤ 64) :
    ((∃ c, setup oc mem n = .ok c) ↔ ∃ slots, slots.length = n ∧ Station mem slots) ∧
    ∀ slots, slots.length = n → Station mem slots →
      ∃ c, setup oc mem n = .ok c ∧
        c.modules = slots.map (·.settings) ∧
        c.offsets = slots.map (fun s => ⟨bitAddress s.input, bitAddress s.output⟩) ∧
        c.inputs = [] ∧ c.outputs = [] ∧ ∀ a, c.write a = none := by
  have hback : ∀ slots, slots.length = n → Station mem slots →
      ∃ c, setup oc mem n = .ok c ∧
        c.modules = slots.map (·.settings) ∧
        c.offsets = slots.map (fun s => ⟨bitAddress s.input, bitAddress s.output⟩) ∧
        c.inputs = [] ∧ c.outputs = [] ∧ ∀ a, c.write a = none := by
    intro slots hl hst
    have hsome : ∀ (k : Nat) t, (slots.map (·.type))[k]? = some t →
        ∃ s, slots[k]? = some s ∧ s.type = t := by
      intro k t h
      rw [List.getElem?_map, Option.map_eq_some_iff] at h
      exact h
    obtain ⟨cfg, h1, h2, h3, h4, h5⟩ := configured oc hn hn' (ts := slots.map (·.type)) (by simpa)
      (fun k t h => by
        obtain ⟨s, hs, rfl⟩ := hsome k t h
        exact (hst k s hs).1)
      (fun t h => by
        obtain ⟨k, hk⟩ := List.mem_iff_getElem?.1 h
        obtain ⟨s, hs, rfl⟩ := hsome k t hk
        obtain ⟨ms, hms⟩ := settings_supported (hst k s hs).2.2.2.1
        exact ⟨_, count_of hms⟩)
    have hparam : ∀ (k : Nat) s, slots[k]? = some s → cfg.modules[k]? = some s.type ∧
        ∃ ws, cfg.params[k]? = some ws ∧ Module.create s.type ws = .ok s.settings := by
      intro k s hs
      have hk : (slots.map (·.type))[k]? = some s.type := by simp [hs]
      obtain ⟨ms, hms⟩ := settings_supported (hst k s hs).2.2.2.1
      exact ⟨by rw [h2, hk], _, h5 k _ _ hk (count_of hms),
        (create_settings hms _).2 (hst k s hs).2.2.2⟩
    obtain ⟨c, hc⟩ := (C13_success cfg).1.2 ⟨by rw [h2, h4]; simpa, by
      rw [h2, h3, readRegisters_length]; simp [hl], fun i t ws ht hw => by
        rw [h2] at ht
        obtain ⟨s, hs, rfl⟩ := hsome i t ht
        obtain ⟨-, ws', hw', hcr⟩ := hparam i s hs
        rw [hw] at hw'
        cases hw'
        exact ⟨_, hcr⟩⟩
    obtain ⟨e1, e2, e3, e4, e5, e6⟩ := (C13_success cfg).2 c hc
    rw [h2, List.length_map] at e1 e2
    refine ⟨c, by rw [h1, hc], ?_, ?_, e4, e5, e6⟩
    · apply List.ext_getElem?
      intro k
      by_cases hk : k < slots.length
      · have hs := List.getElem?_eq_getElem hk
        obtain ⟨hm, ws, hw, hcr⟩ := hparam k _ hs
        obtain ⟨m, -, -, hm1, hm2, -⟩ := e3 k _ ws hm hw
        rw [hcr] at hm2
        cases hm2
        rw [hm1, List.getElem?_map, hs]
        rfl
      · rw [List.getElem?_eq_none (by omega), List.getElem?_eq_none (by simp; omega)]
    · apply List.ext_getElem?
      intro k
      by_cases hk : k < slots.length
      · have hs := List.getElem?_eq_getElem hk
        obtain ⟨hm, ws, hw, hcr⟩ := hparam k _ hs
        obtain ⟨-, o, i, -, -, ho, hi, he⟩ := e3 k _ ws hm hw
        rw [h3] at ho hi
        obtain ⟨-, rfl⟩ := readRegisters_some ho
        obtain ⟨-, rfl⟩ := readRegisters_some hi
        obtain ⟨-, g1, g2, -⟩ := hst k _ hs
        rw [he, List.getElem?_map, hs, ← Nat.add_assoc, g1, g2]
        rfl
      · rw [List.getElem?_eq_none (by omega), List.getElem?_eq_none (by simp; omega)]
  refine ⟨⟨fun ⟨c, hc⟩ => ?_, fun ⟨slots, hl, hst⟩ => ?_⟩, hback⟩
  · have hc' := hc
    unfold setup at hc'
    simp only [Res.bind_eq, Res.bind_eq_ok] at hc'
    obtain ⟨ts, hts, l, hwin, hnew⟩ := hc'
    obtain ⟨hl, ht⟩ := (listed hn ts).1 hts
    have hcnt : ∀ t ∈ ts, ∃ c, paramRegisterCount t = .ok c := by
      intro t hmem
      obtain ⟨k, hk⟩ := List.mem_iff_getElem?.1 hmem
      have hz : ts.zipIdx[k]? = some (t, k) := by simp [hk]
      obtain ⟨b, -, hb⟩ := mapRes_getElem? hwin hz
      unfold paramAddress at hb
      simp only [Res.bind_eq] at hb
      split at hb
      · cases hb
      · rw [Res.bind_eq_ok] at hb
        obtain ⟨c, h, -⟩ := hb
        exact ⟨c, h⟩
    obtain ⟨cfg, h1, h2, h3, h4, h5⟩ := configured oc hn hn' hl ht hcnt
    rw [h1] at hc
    have hcr := ((C13_success cfg).1.1 ⟨c, hc⟩).2.2
    have hex : ∀ k : Fin n, ∃ s : Slot, typeAt mem k = .ok s.type ∧
        mem (0x2B00 + 2 * k.val) = s.output ∧ mem (0x2B00 + 2 * k.val + 1) = s.input ∧
        SettingsAt mem k s.type s.settings := by
      intro k
      have hk := List.getElem?_eq_getElem (show k.val < ts.length by omega)
      obtain ⟨cnt, hcn⟩ := hcnt _ (List.getElem_mem (show k.val < ts.length by omega))
      have hw := h5 k _ cnt hk hcn
      obtain ⟨m, hm⟩ := hcr k _ _ (by rw [h2]; exact hk) hw
      cases hmax : maxCodes (ts[k.val]'(by omega)) with
      | none => rw [(C09_supported _).2 hmax] at hm; cases hm
      | some ms =>
        have hcn' := count_of hmax
        rw [hcn] at hcn'
        cases hcn'
        exact ⟨⟨_, m, _, _⟩, ht k _ hk, rfl, rfl, (create_settings hmax m).1 hm⟩
    choose f hf using hex
    refine ⟨List.ofFn f, by simp, fun k s hs => ?_⟩
    rw [List.getElem?_ofFn] at hs
    split at hs
    · rename_i hk
      cases hs
      exact hf ⟨k, hk⟩
    · cases hs
  · obtain ⟨c, hc, -⟩ := hback slots hl hst
    exact ⟨c, hc⟩

/-- The registers of a station with a digital input and a digital output module … -/
def exStation : Nat → Word := fun a =>
  if a = 0x2A00 then 0x0009#16 else if a = 0x2A01 then 0x1F84#16
  else if a = 0x2A02 then 0x0101#16 else if a = 0x2A03 then 0x2FA0#16
  else if a = 0x2B00 then 0xFFFF#16 else if a = 0x2B01 then 0x0010#16
  else if a = 0x2B02 then 0x8000#16 else if a = 0x2B03 then 0xFFFF#16
  else if a = 0xC001 then 5 else if a = 0xC002 then 3 else if a = 0xC003 then 1
  else if a = 0xC101 then 1 else 0

/-- … and the modules they describe. -/
def exSlots : List Slot :=
  [⟨.UR20_4DI_P, .di ⟨.UR20_4DI_P, [⟨.no⟩, ⟨.ms40⟩, ⟨.ms10⟩, ⟨.us300⟩]⟩, 0xFFFF#16, 0x0010#16⟩,
   ⟨.UR20_4DO_P, .dout ⟨.UR20_4DO_P, [⟨false⟩, ⟨true⟩, ⟨false⟩, ⟨false⟩]⟩, 0x8000#16, 0xFFFF#16⟩]

theorem exSlots_station : Station exStation exSlots := by
  intro k s hs
  match k, hs with
  | 0, hs =>
    cases hs
    exact ⟨by decide, rfl, rfl, (create_settings (ms := List.replicate 4 5) rfl _).1 (by decide)⟩
  | 1, hs =>
    cases hs
    exact ⟨by decide, rfl, rfl, (create_settings (ms := List.replicate 4 1) rfl _).1 (by decide)⟩

example : (setup true exStation 2).map (fun c => (c.modules, c.offsets)) =
    .ok (exSlots.map (·.settings), [⟨some 0x0010#16, none⟩, ⟨none, some 0x8000#16⟩]) := by
  decide +kernel

/-- C103: what goes wrong otherwise. An id that stands for no module type gives `UnknownModule`.
If the coupler supports all module types, parameters that describe no settings give
`ChannelParameter`. A module type that the coupler does not support never gives a coupler, and
panics if the parameters of the other modules describe settings. -/
theorem C103_rejected (oc : Bool) (mem : Nat → Word) (n : Nat) (hn : 1 ≤ n) (hn' : n ≤ 64) :
    ((∃ k < n, ∀ t, typeAt mem k ≠ .ok t) → setup oc mem n = .err .unknownModule) ∧
    ((∀ k < n, ∃ t ms, typeAt mem k = .ok t ∧ maxCodes t = some ms) →
      (¬ ∃ slots, slots.length = n ∧ Station mem slots) →
        setup oc mem n = .err .channelParameter) ∧
    ((∀ k < n, ∃ t, typeAt mem k = .ok t) →
      (∃ k < n, ∃ t, typeAt mem k = .ok t ∧ maxCodes t = none) →
        (∀ c, setup oc mem n ≠ .ok c) ∧
        ((∀ k < n, ∀ t ms, typeAt mem k = .ok t → maxCodes t = some ms →
          ∃ m, SettingsAt mem k t m) → setup oc mem n = .panic)) := by
  have htypes : (∀ k < n, ∃ t, typeAt mem k = .ok t) → ∃ ts : List ModuleType, ts.length = n ∧
      ∀ (k : Nat) t, ts[k]? = some t → typeAt mem k = .ok t := by
    intro h
    have h' : ∀ k : Fin n, ∃ t, typeAt mem k = .ok t := fun k => h k k.isLt
    choose f hf using h'
    refine ⟨List.ofFn f, by simp, fun k t ht => ?_⟩
    rw [List.getElem?_ofFn] at ht
    split at ht
    · rename_i hk
      cases ht
      exact hf ⟨k, hk⟩
    · cases ht
  refine ⟨fun ⟨k, hk, h⟩ => ?_, fun hsup hno => ?_, fun hty hun => ⟨fun c hc => ?_, fun hset => ?_⟩⟩
  · unfold setup
    simp only [Res.bind_eq, unlisted hk h, Res.bind]
  · obtain ⟨ts, hl, ht⟩ := htypes fun k hk => by
      obtain ⟨t, -, h, -⟩ := hsup k hk
      exact ⟨t, h⟩
    have hcodes : ∀ (k : Nat) t, ts[k]? = some t → ∃ ms, maxCodes t = some ms := by
      intro k t hk
      obtain ⟨t', ms, h1, h2⟩ := hsup k (hl ▸ (List.getElem?_eq_some_iff.1 hk).1)
      rw [ht k t hk] at h1
      cases h1
      exact ⟨ms, h2⟩
    obtain ⟨cfg, h1, h2, h3, h4, h5⟩ := configured oc hn hn' hl ht (fun t hmem => by
      obtain ⟨k, hk⟩ := List.mem_iff_getElem?.1 hmem
      obtain ⟨ms, hms⟩ := hcodes k t hk
      exact ⟨_, count_of hms⟩)
    have hz : ∀ p ∈ cfg.modules.zip cfg.params, ∃ ms, maxCodes p.1 = some ms ∧
        p.2.length = ms.length := by
      rintro ⟨t, ws⟩ hp
      obtain ⟨k, hk⟩ := List.mem_iff_getElem?.1 hp
      rw [List.getElem?_zip_eq_some, h2] at hk
      obtain ⟨ms, hms⟩ := hcodes k t hk.1
      have := h5 k t _ hk.1 (count_of hms)
      rw [hk.2] at this
      cases this
      exact ⟨ms, hms, readRegisters_length _ _ _⟩
    have hne : ∀ c, setup oc mem n ≠ .ok c := fun c hc =>
      hno ((C103_setup oc mem n hn hn').1.1 ⟨c, hc⟩)
    rw [h1] at hne ⊢
    rw [new_eq, if_neg (by rw [h2, h4, hl]; simp), if_neg (by
      rw [h2, h3, readRegisters_length]; omega)] at hne ⊢
    cases hr : mapRes (fun p : ModuleType × List Word => Module.create p.1 p.2)
        (cfg.modules.zip cfg.params) with
    | ok ms => rw [hr] at hne; exact absurd rfl (hne _)
    | err e =>
      obtain ⟨p, hp, he⟩ := mapRes_err_mem hr
      obtain ⟨ms, hms, hlen⟩ := hz p hp
      have := ((C10_accepted p.1 ms hms p.2).1 hlen).2 (by rintro ⟨m, hm⟩; rw [he] at hm; cases hm)
      rw [he] at this
      cases this
      rfl
    | panic =>
      obtain ⟨p, hp, he⟩ := mapRes_panic_mem hr
      obtain ⟨ms, hms, hlen⟩ := hz p hp
      have := ((C10_accepted p.1 ms hms p.2).1 hlen).2 (by rintro ⟨m, hm⟩; rw [he] at hm; cases hm)
      rw [he] at this
      cases this
  · obtain ⟨k, hk, t, h1, h2⟩ := hun
    obtain ⟨slots, hl, hst⟩ := (C103_setup oc mem n hn hn').1.1 ⟨c, hc⟩
    obtain ⟨g1, -, -, g2, -⟩ := hst k _ (List.getElem?_eq_getElem (show k < slots.length by omega))
    rw [h1] at g1
    cases g1
    obtain ⟨ms, hms⟩ := settings_supported g2
    rw [h2] at hms
    cases hms
  · obtain ⟨ts, hl, ht⟩ := htypes hty
    by_cases hcnt : ∀ t ∈ ts, ∃ c, paramRegisterCount t = .ok c
    · obtain ⟨cfg, h1, h2, h3, h4, h5⟩ := configured oc hn hn' hl ht hcnt
      have hok : ∀ (k : Nat) t ws, cfg.modules[k]? = some t → cfg.params[k]? = some ws →
          (∃ m, Module.create t ws = .ok m) ∨ maxCodes t = none := by
        intro k t ws hk hw
        cases hmax : maxCodes t with
        | none => exact .inr rfl
        | some ms =>
          rw [h2] at hk
          rw [h5 k t _ hk (count_of hmax)] at hw
          cases hw
          obtain ⟨m, hm⟩ := hset k (hl ▸ (List.getElem?_eq_some_iff.1 hk).1) t ms (ht k t hk) hmax
          exact .inl ⟨m, (create_settings hmax m).2 hm⟩
      rw [h1, new_eq, if_neg (by rw [h2, h4, hl]; simp), if_neg (by
        rw [h2, h3, readRegisters_length]; omega)]
      have hz : ∀ p ∈ cfg.modules.zip cfg.params, (∃ m, Module.create p.1 p.2 = .ok m) ∨
          maxCodes p.1 = none := by
        rintro ⟨t, ws⟩ hp
        obtain ⟨k, hk⟩ := List.mem_iff_getElem?.1 hp
        rw [List.getElem?_zip_eq_some] at hk
        exact hok k t ws hk.1 hk.2
      cases hr : mapRes (fun p : ModuleType × List Word => Module.create p.1 p.2)
          (cfg.modules.zip cfg.params) with
      | ok ms =>
        exfalso
        obtain ⟨k, hk, t, g1, g2⟩ := hun
        have hkt := List.getElem?_eq_getElem (show k < ts.length by omega)
        have := ht k _ hkt
        rw [g1] at this
        cases this
        have hw := List.getElem?_eq_getElem (show k < cfg.params.length by omega)
        obtain ⟨m, -, hm⟩ := mapRes_getElem? hr (i := k) (a := (ts[k]'(by omega), _)) (by
          rw [List.getElem?_zip_eq_some]; exact ⟨by rw [h2]; exact hkt, hw⟩)
        rw [(C09_supported _).2 g2] at hm
        cases hm
      | err e =>
        exfalso
        obtain ⟨p, hp, he⟩ := mapRes_err_mem hr
        rcases hz p hp with ⟨m, hm⟩ | hm
        · rw [hm] at he; cases he
        · rw [(C09_supported _).2 hm] at he; cases he
      | panic => rfl
    · unfold setup
      simp only [Res.bind_eq, (listed hn ts).2 ⟨hl, ht⟩, Res.bind]
      cases hw : paramAddressesAndRegisterCounts oc ts with
      | ok l =>
        exfalso
        apply hcnt
        intro t hmem
        obtain ⟨k, hk⟩ := List.mem_iff_getElem?.1 hmem
        have hz : ts.zipIdx[k]? = some (t, k) := by simp [hk]
        obtain ⟨b, -, hb⟩ := mapRes_getElem? hw hz
        unfold paramAddress at hb
        simp only [Res.bind_eq] at hb
        split at hb
        · cases hb
        · rw [Res.bind_eq_ok] at hb
          obtain ⟨c, h, -⟩ := hb
          exact ⟨c, h⟩
      | err e =>
        exfalso
        obtain ⟨p, -, he⟩ := mapRes_err_mem hw
        unfold paramAddress at he
        simp only [Res.bind_eq] at he
        split at he
        · cases he
        · cases hp : paramRegisterCount p.1 with
          | ok c => rw [hp] at he; cases he
          | err e => cases hq : p.1 <;> rw [hq] at hp <;> cases hp
          | panic => rw [hp] at he; cases he
      | panic => rfl

/-- A place without a module, an input delay without meaning, and a module type without support. -/
example :
    (setup true exStation 3).map (fun _ => ()) = .err .unknownModule ∧
    (setup true (fun a => if a = 0xC001 then 6 else exStation a) 2).map (fun _ => ()) =
      .err .channelParameter ∧
    (setup true (fun a => if a = 0x2A00 then 0x001B#16 else exStation a) 2).map (fun _ => ()) =
      .panic := by
  decide +kernel

/-- The hypotheses of the third part hold for a station whose first module has no support. -/
example : typeAt (fun a => if a = 0x2A00 then 0x001B#16 else exStation a) 0 = .ok .UR20_4DI_P_3W ∧
    maxCodes .UR20_4DI_P_3W = none ∧
    typeAt (fun a => if a = 0x2A00 then 0x001B#16 else exStation a) 1 = .ok .UR20_4DO_P ∧
    ∃ m, SettingsAt (fun a => if a = 0x2A00 then 0x001B#16 else exStation a) 1 .UR20_4DO_P m :=
  ⟨by decide, rfl, by decide, _, (create_settings (ms := List.replicate 4 1) rfl
    (.dout ⟨.UR20_4DO_P, [⟨false⟩, ⟨true⟩, ⟨false⟩, ⟨false⟩]⟩)).1 (by decide)⟩

end Ur20
