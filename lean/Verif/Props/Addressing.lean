import Verif.Lemmas.Address
import Verif.Spec.Catalogue

/-!
# C01–C04, C08: addresses, offsets, module ids, parameter windows
-/

namespace Ur20

/-- C01: splitting any address gives register `a / 16` and bit `a % 16`, and merging these gives
the address back. -/
theorem C01_split_merge (a : Word) :
    (toRegisterAddress a).1.toNat = a.toNat / 16 ∧
    (toRegisterAddress a).2 = a.toNat % 16 ∧
    toBitAddress (toRegisterAddress a).1 (toRegisterAddress a).2 = a := by
  refine ⟨reg_toNat a, bit_eq a, ?_⟩
  apply BitVec.eq_of_toNat_eq
  have := a.isLt
  rw [toBitAddress_toNat _ _ (by rw [reg_toNat]; omega) (by rw [bit_eq]; omega), reg_toNat, bit_eq]
  omega

/-- C01, other direction: merging a 12 bit register with a 4 bit bit number and splitting again
returns the pair. -/
theorem C01_merge_split (register : Word) (bit : Nat) (hr : register.toNat < 0x1000)
    (hb : bit < 16) :
    (toBitAddress register bit).toNat = 16 * register.toNat + bit ∧
    toRegisterAddress (toBitAddress register bit) = (register, bit) := by
  have h := toBitAddress_toNat register bit hr hb
  refine ⟨by rw [h]; omega, ?_⟩
  apply Prod.ext
  · apply BitVec.eq_of_toNat_eq
    simp only [reg_toNat, h]; omega
  · simp only [bit_eq, h]; omega

example : toBitAddress 0x0801#16 8 = 0x8018#16 ∧ (0x0801#16).toNat < 0x1000 := by decide

/-- C02: one entry per complete register pair, output offset first, `0xFFFF` meaning absent. -/
theorem C02_offsets (ws : List Word) :
    (offsetsOfProcessData ws).length = ws.length / 2 ∧
    ∀ i (h : 2 * i + 1 < ws.length), ∃ m, (offsetsOfProcessData ws)[i]? = some m ∧
      m.output = (if ws[2 * i].toNat = 65535 then none else some ws[2 * i]) ∧
      m.input = (if ws[2 * i + 1].toNat = 65535 then none else some ws[2 * i + 1]) := by
  refine ⟨offsetsOfProcessData_length ws, fun i h => ?_⟩
  refine ⟨_, offsetsOfProcessData_getElem? ws i _ _ (List.getElem?_eq_getElem (by omega))
    (List.getElem?_eq_getElem h), ?_, ?_⟩ <;>
  · simp only [wordToOffset]
    congr 1
    exact propext ⟨fun h => by rw [h]; rfl, fun h => BitVec.eq_of_toNat_eq h⟩

example : offsetsOfProcessData [0x8000#16, 0xFFFF#16, 0xFFFF#16, 0x0008#16, 7#16] =
    [⟨none, some 0x8000#16⟩, ⟨some 0x0008#16, none⟩] := by decide

/-- The id formed by two consecutive registers, most significant word first. -/
def C03_id (hi lo : Word) : BitVec 32 := BitVec.ofNat 32 (hi.toNat * 65536 + lo.toNat)

/-- C03: the outcome of `module_list_from_registers` for every register list. -/
theorem C03_module_list (ws : List Word) :
    (moduleListFromRegisters ws = .err .registerCount ↔ ws = [] ∨ ws.length % 2 = 1) ∧
    (moduleListFromRegisters ws = .err .unknownModule ↔
      ws ≠ [] ∧ ws.length % 2 = 0 ∧
      ∃ i hi lo, ws[2 * i]? = some hi ∧ ws[2 * i + 1]? = some lo ∧
        ∀ t, ModuleType.tryFromU32 (C03_id hi lo) ≠ .ok t) ∧
    (∀ ts, moduleListFromRegisters ws = .ok ts ↔
      ws ≠ [] ∧ ws.length % 2 = 0 ∧ ts.length = ws.length / 2 ∧
      ∀ i hi lo t, ws[2 * i]? = some hi → ws[2 * i + 1]? = some lo → ts[i]? = some t →
        ModuleType.tryFromU32 (C03_id hi lo) = .ok t) ∧
    (moduleListFromRegisters ws = .err .registerCount ∨
      moduleListFromRegisters ws = .err .unknownModule ∨
      ∃ ts, moduleListFromRegisters ws = .ok ts) := by
  have hsp := moduleListLoop_spec ws
  by_cases hbad : ws = [] ∨ ws.length % 2 = 1
  · have e : moduleListFromRegisters ws = .err .registerCount := by
      unfold moduleListFromRegisters
      rcases hbad with rfl | h
      · rfl
      · simp [h]
    rw [e]
    refine ⟨by simp [hbad], ?_, ?_, by simp⟩
    · simp only [Res.err.injEq, reduceCtorEq, false_iff]
      rintro ⟨h1, h2, -⟩
      rcases hbad with h | h
      · exact h1 h
      · omega
    · intro ts
      simp only [reduceCtorEq, false_iff]
      rintro ⟨h1, h2, -⟩
      rcases hbad with h | h
      · exact h1 h
      · omega
  · have hn : ws ≠ [] := fun h => hbad (.inl h)
    have he : ws.length % 2 = 0 := by
      have : ¬ ws.length % 2 = 1 := fun h => hbad (.inr h)
      omega
    have e : moduleListFromRegisters ws = moduleListLoop ws := by
      unfold moduleListFromRegisters
      simp [hn, he]
    rw [e]
    have hok := moduleListLoop_ok ws he
    refine ⟨?_, ?_, ?_, ?_⟩
    · constructor
      · intro h; have := hsp.2 _ h; simp at this
      · intro h; exact absurd h hbad
    · constructor
      · intro h
        refine ⟨hn, he, ?_⟩
        by_contra hno
        push Not at hno
        -- otherwise every pair is known and the list decodes
        have : ∀ i : Fin (ws.length / 2), ∃ t,
            ModuleType.tryFromU32 (C03_id (ws[2 * i.val]'(by omega)) (ws[2 * i.val + 1]'(by omega)))
              = .ok t := by
          intro i
          exact hno i.val _ _ (List.getElem?_eq_getElem (by omega))
            (List.getElem?_eq_getElem (by omega))
        choose f hf using this
        have hk := (hok (List.ofFn f)).2 ⟨by simp, by
          intro i hi lo t h1 h2 h3
          have hi' : i < ws.length / 2 := by
            have := (List.getElem?_eq_some_iff.1 h2).1
            omega
          have := hf ⟨i, hi'⟩
          rw [List.getElem?_eq_getElem (by omega)] at h1 h2
          simp only [Option.some.injEq] at h1 h2
          simp [hi'] at h3
          subst h1 h2 h3
          exact this⟩
        rw [h] at hk
        simp at hk
      · rintro ⟨-, -, i, hi, lo, h1, h2, h3⟩
        cases hres : moduleListLoop ws with
        | ok ts =>
          obtain ⟨hl, hall⟩ := (hok ts).1 hres
          have hi' : i < ts.length := by
            have := (List.getElem?_eq_some_iff.1 h2).1
            omega
          exact absurd (hall i hi lo _ h1 h2 (List.getElem?_eq_getElem hi')) (h3 _)
        | err e => rw [hsp.2 _ hres]
        | panic => exact absurd hres hsp.1
    · intro ts
      rw [hok ts]
      simp [hn, he, C03_id]
    · cases hres : moduleListLoop ws with
      | ok ts => simp
      | err e => simp [hsp.2 _ hres]
      | panic => exact absurd hres hsp.1

example : moduleListFromRegisters [0x0009#16, 0x1F84#16, 0x0101#16, 0x2FA0#16]
    = .ok [.UR20_4DI_P, .UR20_4DO_P] := by decide
example : moduleListFromRegisters [0x0009#16, 0x1F84#16, 0#16, 1#16] = .err .unknownModule := by
  decide
example : moduleListFromRegisters [0x0009#16] = .err .registerCount := by decide

/-- C04: two ids that decode to the same type are equal. -/
theorem C04_injective (a b : BitVec 32) (t : ModuleType)
    (ha : ModuleType.tryFromU32 a = .ok t) (hb : ModuleType.tryFromU32 b = .ok t) : a = b := by
  have h1 := idTable_find ha
  have h2 := idTable_find hb
  have key : ∀ p ∈ ModuleType.idTable, ∀ q ∈ ModuleType.idTable, p.2 = q.2 → p.1 = q.1 := by
    decide +kernel
  exact BitVec.eq_of_toNat_eq (key _ h1 _ h2 rfl)

/-- C04: every type except the two plain power feeds has an id; these two have none. -/
theorem C04_surjective (t : ModuleType) :
    (∃ id, ModuleType.tryFromU32 id = .ok t) ↔ t ≠ .UR20_PF_I ∧ t ≠ .UR20_PF_O := by
  constructor
  · rintro ⟨id, h⟩
    have key : ∀ p ∈ ModuleType.idTable, p.2 ≠ .UR20_PF_I ∧ p.2 ≠ .UR20_PF_O := by
      decide +kernel
    exact key _ (idTable_find h)
  · intro h
    have key : ∀ p ∈ ModuleType.idTable,
        ModuleType.tryFromU32 (BitVec.ofNat 32 p.1) = .ok p.2 := by decide +kernel
    have all : t ∈ ModuleType.idTable.map (·.2) := by
      cases t <;> first | (exfalso; simp at h; done) | decide +kernel
    rw [List.mem_map] at all
    obtain ⟨p, hp, rfl⟩ := all
    exact ⟨_, key p hp⟩

example : ModuleType.tryFromU32 0x0E413FED#32 = .ok .UR20_1COM_232_485_422 := by decide

/-- C04: the ids are those of the catalogue. -/
theorem C04_ids (id : BitVec 32) (t : ModuleType) :
    ModuleType.tryFromU32 id = .ok t ↔ Spec.moduleId t = some id.toNat := by
  have key : ∀ p ∈ ModuleType.idTable, Spec.moduleId p.2 = some p.1 := by decide +kernel
  constructor
  · intro h
    exact key _ (idTable_find h)
  · intro h
    have ht : t ≠ .UR20_PF_I ∧ t ≠ .UR20_PF_O := by
      constructor <;> rintro rfl <;> cases h
    obtain ⟨id', h'⟩ := (C04_surjective t).2 ht
    have := key _ (idTable_find h')
    simp only at this
    rw [this, Option.some.injEq] at h
    rw [← BitVec.eq_of_toNat_eq h]
    exact h'

/-- C04: every other id is unknown. -/
theorem C04_unknown (id : BitVec 32) (h : ∀ t, Spec.moduleId t ≠ some id.toNat) :
    ModuleType.tryFromU32 id = .err .unknownModule := by
  have : ∀ t, ModuleType.tryFromU32 id ≠ .ok t := fun t ht => h t ((C04_ids id t).1 ht)
  unfold ModuleType.tryFromU32 at this ⊢
  split
  · rename_i p hp
    exact absurd (by rw [hp]) (this p.2)
  · rfl

example : ∀ t, Spec.moduleId t ≠ some (0x00091F85#32).toNat := by
  intro t; cases t <;> decide

/-- C106: the number in the name of a module is its number of channels. Power feeds have no
channels, although some are named after their inputs, and the three-phase energy meter has eight. -/
theorem C106_channels (t : ModuleType) :
    t.channelCount = if t = .UR20_3EM_230V_AC then 8 else Spec.namedChannels t := by
  cases t <;> decide +kernel

/-- C106: the letters in the name of a module say its category, and a power feed is what is not
named after a number of channels. -/
theorem C106_category (t : ModuleType) :
    Spec.kindCategory (Spec.namedKind t) (Spec.namedVariant t) = some t.category ∧
    (t.category = .PF ↔ t.channelCount = 0) := by
  cases t <;> decide +kernel

example : Spec.namedChannels .UR20_16DO_P_PLC_INT = 16 ∧
    Spec.namedKind .UR20_4RO_CO_255 = "RO" ∧ Spec.namedVariant .UR20_4AI_TC_DIAG = "TC" ∧
    Spec.namedKind .UR20_2FCNT_100 = "FCNT" ∧ Spec.namedChannels .UR20_PF_O_2DI_SIL = 0 := by
  decide +kernel

/-- C08: for at most 64 modules with a known register count, module `i` gets the window that
starts at `0xC000 + 256 * i`; windows lie in the 16 bit register space and are pairwise disjoint
(each ends before the next one starts). -/
theorem C08_windows (oc : Bool) (ts : List ModuleType) (hlen : ts.length ≤ 64)
    (hsup : ∀ t ∈ ts, ∃ n, paramRegisterCount t = .ok n) :
    ∃ l, paramAddressesAndRegisterCounts oc ts = .ok l ∧ l.length = ts.length ∧
      (∀ i a n t, l[i]? = some (a, n) → ts[i]? = some t →
        a.toNat = 0xC000 + 256 * i ∧ paramRegisterCount t = .ok n ∧ a.toNat + n ≤ 65536) ∧
      (∀ (i j : Nat) (a : Word) (n : Nat) (b : Word) (k : Nat), i < j → l[i]? = some (a, n) → l[j]? = some (b, k) →
        a.toNat + n ≤ b.toNat) := by
  have step : ∀ p ∈ ts.zipIdx, ∃ q, paramAddress oc p = .ok q := by
    intro p hp
    obtain ⟨t, i⟩ := p
    obtain ⟨-, h2, h3⟩ := List.mem_zipIdx hp
    obtain ⟨n, hn⟩ := hsup t (by rw [h3]; exact List.getElem_mem _)
    have hoff : (BitVec.ofNat 16 (i * 256)).toNat = i * 256 := by
      rw [BitVec.toNat_ofNat, Nat.mod_eq_of_lt]; omega
    refine ⟨(addrModuleParameters + BitVec.ofNat 16 (i * 256), n), ?_⟩
    · unfold paramAddress
      simp only [hoff, addrModuleParameters, hn]
      rw [if_neg]
      · rfl
      · simp; intro _; omega
  obtain ⟨l, hl⟩ := mapRes_total step
  have hlen' := mapRes_length hl
  have hget : ∀ (i : Nat) a n t, l[i]? = some (a, n) → ts[i]? = some t →
      a.toNat = 0xC000 + 256 * i ∧ paramRegisterCount t = .ok n ∧ n ≤ 33 := by
    intro i a n t h1 h2
    have hz : ts.zipIdx[i]? = some (t, i) := by simp [h2]
    have hi : i < ts.length := (List.getElem?_eq_some_iff.1 h2).1
    obtain ⟨q, hq1, hq2⟩ := mapRes_getElem? hl hz
    rw [h1] at hq1
    simp only [Option.some.injEq] at hq1
    subst hq1
    have hoff : (BitVec.ofNat 16 (i * 256)).toNat = i * 256 := by
      rw [BitVec.toNat_ofNat, Nat.mod_eq_of_lt]; omega
    obtain ⟨m, hm⟩ := hsup t (List.mem_of_getElem? h2)
    unfold paramAddress at hq2
    simp only [hoff, addrModuleParameters, hm] at hq2
    rw [if_neg (by simp; intro _; omega)] at hq2
    simp only [Res.bind_eq, Res.bind_ok, Res.pure_eq, Res.ok.injEq, Prod.mk.injEq] at hq2
    obtain ⟨ha, rfl⟩ := hq2
    refine ⟨?_, hm, paramRegisterCount_le t _ hm⟩
    rw [← ha, BitVec.toNat_add, hoff]
    show (0xC000 + i * 256) % 65536 = _
    omega
  simp only [List.length_zipIdx] at hlen'
  refine ⟨l, hl, hlen', ?_, ?_⟩
  · intro i a n t h1 h2
    obtain ⟨g1, g2, g3⟩ := hget i a n t h1 h2
    have hi : i < ts.length := (List.getElem?_eq_some_iff.1 h2).1
    exact ⟨g1, g2, by omega⟩
  · intro i j a n b k hij h1 h2
    have hj : j < ts.length := by
      have := (List.getElem?_eq_some_iff.1 h2).1; omega
    obtain ⟨g1, -, g3⟩ := hget i a n _ h1 (List.getElem?_eq_getElem (by omega))
    obtain ⟨k1, -, -⟩ := hget j b k _ h2 (List.getElem?_eq_getElem hj)
    omega

example : paramAddressesAndRegisterCounts true [.UR20_4DI_P, .UR20_1COM_232_485_422]
    = .ok [(0xC000#16, 4), (0xC100#16, 10)] := by decide

/-- The register counts are known or the function panics. -/
theorem paramRegisterCount_cases (t : ModuleType) :
    (∃ n, paramRegisterCount t = .ok n) ∨ paramRegisterCount t = .panic := by
  cases t <;> simp [paramRegisterCount]

/-- C08 for all lists: the function panics exactly if the register count of one of the modules is
not known, or if there are more than 64 modules in a build with overflow checks. Otherwise it
returns an entry for every module, whose address is that of C08 up to multiples of the address
space. -/
theorem C08_outcome (oc : Bool) (ts : List ModuleType) :
    (paramAddressesAndRegisterCounts oc ts = .panic ↔
      (∃ t ∈ ts, ∀ n, paramRegisterCount t ≠ .ok n) ∨ (oc = true ∧ 64 < ts.length)) ∧
    (paramAddressesAndRegisterCounts oc ts ≠ .panic →
      ∃ l, paramAddressesAndRegisterCounts oc ts = .ok l ∧ l.length = ts.length ∧
        ∀ (i : Nat) t, ts[i]? = some t → ∃ a n, l[i]? = some (a, n) ∧
          a.toNat = (0xC000 + 256 * i) % 65536 ∧ paramRegisterCount t = .ok n) := by
  have entry : ∀ (t : ModuleType) (i : Nat),
      paramAddress oc (t, i) = .panic ∧ ((oc = true ∧ 64 ≤ i % 256) ∨
        ∀ n, paramRegisterCount t ≠ .ok n) ∨
      (∃ a n, paramAddress oc (t, i) = .ok (a, n) ∧ a.toNat = (0xC000 + 256 * i) % 65536 ∧
        paramRegisterCount t = .ok n) ∧ ¬ (oc = true ∧ 64 ≤ i % 256) := by
    intro t i
    have hoff : (BitVec.ofNat 16 (i * 256)).toNat = i * 256 % 65536 := by
      rw [BitVec.toNat_ofNat]
    unfold paramAddress
    simp only [hoff, addrModuleParameters, Res.bind_eq, Res.pure_eq]
    by_cases h : oc = true ∧ 64 ≤ i % 256
    · left
      refine ⟨?_, .inl h⟩
      rw [if_pos]
      simp only [h.1, Bool.true_and, decide_eq_true_eq]
      have : (0xC000#16).toNat = 49152 := rfl
      omega
    · rw [if_neg (by
        simp only [Bool.and_eq_true, decide_eq_true_eq, not_and]
        have : (0xC000#16).toNat = 49152 := rfl
        intro ho
        have : ¬ 64 ≤ i % 256 := fun hi => h ⟨ho, hi⟩
        omega)]
      rcases paramRegisterCount_cases t with ⟨n, hn⟩ | hn
      · right
        refine ⟨⟨_, n, by rw [hn]; rfl, ?_, hn⟩, h⟩
        rw [BitVec.toNat_add, hoff]
        have : (0xC000#16).toNat = 49152 := rfl
        omega
      · left
        exact ⟨by rw [hn]; rfl, .inr fun n => by rw [hn]; simp⟩
  have hmem : ∀ (i : Nat) t, ts[i]? = some t → (t, i) ∈ ts.zipIdx := fun i t h =>
    List.mem_of_getElem? (i := i) (by simp [h])
  have hok : ∀ l, paramAddressesAndRegisterCounts oc ts = .ok l → l.length = ts.length ∧
      ∀ (i : Nat) t, ts[i]? = some t → ∃ a n, l[i]? = some (a, n) ∧
        a.toNat = (0xC000 + 256 * i) % 65536 ∧ paramRegisterCount t = .ok n ∧
        ¬ (oc = true ∧ 64 ≤ i % 256) := by
    intro l hl
    refine ⟨by simpa using mapRes_length hl, fun i t ht => ?_⟩
    obtain ⟨q, hq1, hq2⟩ := mapRes_getElem? hl (i := i) (a := (t, i)) (by simp [ht])
    rcases entry t i with ⟨he, -⟩ | ⟨⟨a, n, he, ha, hn⟩, hb⟩
    · rw [he] at hq2; cases hq2
    · rw [he] at hq2
      cases hq2
      exact ⟨a, n, hq1, ha, hn, hb⟩
  have hpanic : paramAddressesAndRegisterCounts oc ts = .panic →
      (∃ t ∈ ts, ∀ n, paramRegisterCount t ≠ .ok n) ∨ (oc = true ∧ 64 < ts.length) := by
    intro h
    obtain ⟨⟨t, i⟩, hp, he⟩ := mapRes_panic_mem h
    obtain ⟨-, h2, h3⟩ := List.mem_zipIdx hp
    rcases entry t i with ⟨-, h | h⟩ | ⟨⟨a, n, h, -⟩, -⟩
    · exact .inr ⟨h.1, by omega⟩
    · exact .inl ⟨t, by rw [h3]; exact List.getElem_mem _, h⟩
    · rw [he] at h; cases h
  cases hres : paramAddressesAndRegisterCounts oc ts with
  | ok l =>
    obtain ⟨h1, h2⟩ := hok l hres
    refine ⟨⟨fun h => (by cases h), ?_⟩, fun _ => ⟨l, rfl, h1, fun i t ht => ?_⟩⟩
    · rintro (⟨t, ht, h⟩ | ⟨ho, h⟩)
      · obtain ⟨i, hi⟩ := List.getElem?_of_mem ht
        obtain ⟨a, n, -, -, hn, -⟩ := h2 i t hi
        exact absurd hn (h n)
      · obtain ⟨a, n, -, -, -, hb⟩ := h2 64 _ (List.getElem?_eq_getElem h)
        exact absurd ⟨ho, by decide⟩ hb
    · obtain ⟨a, n, h3, h4, h5, -⟩ := h2 i t ht
      exact ⟨a, n, h3, h4, h5⟩
  | err e =>
    obtain ⟨⟨t, i⟩, -, he⟩ := mapRes_err_mem hres
    rcases entry t i with ⟨h, -⟩ | ⟨⟨a, n, h, -⟩, -⟩ <;> rw [h] at he <;> cases he
  | panic =>
    exact ⟨⟨fun _ => hpanic hres, fun _ => rfl⟩, fun h => absurd rfl h⟩

/-- With 65 modules a debug build panics, and in a release build module 64 gets address 0. -/
example : paramAddressesAndRegisterCounts true (List.replicate 65 .UR20_4DI_P) = .panic ∧
    ((paramAddressesAndRegisterCounts false (List.replicate 65 .UR20_4DI_P)).map
      fun l => l[64]?) = .ok (some (0#16, 4)) := by decide

end Ur20
