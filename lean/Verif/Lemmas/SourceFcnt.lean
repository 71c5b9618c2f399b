import Verif.Lemmas.SourceAnalog
import Verif.Source.Ur20_2fcnt_100

/-!
The translated source of the frequency counter module is the model of it.
-/

namespace Ur20.Src.ur20_2fcnt_100

/-- The module as the model has it. -/
def Mod.conv (m : Mod) : Fcnt.Mod := ⟨m.chParams.map fun p => ⟨p.inputFilter⟩⟩

theorem from_eq (oc : Bool) (data : List Word) :
    (Mod.from_modbus_parameter_data oc data).map Mod.conv = Fcnt.fromModbusParameterData data := by
  simp only [Mod.from_modbus_parameter_data, parameters_from_raw_data, Res.bind_eq, Res.pure_eq,
    guard_bind, index_eq, collect_map_range, InputFilter_from_u16,
    Fcnt.fromModbusParameterData, Fcnt.parametersFromRawData, decide_eq_true_eq]
  split
  · rfl
  rw [capture_release, res_map_bind]
  refine mapRes_bind_conv _ Fcnt.Mod.mk fun i _ => ?_
  simp only [res_map_bind, Res.map_ok, codeParam]
  binds

theorem default_eq (oc : Bool) : (Mod.default oc).map Mod.conv = .ok Fcnt.Mod.default := rfl

theorem shl_eq (oc : Bool) (w : Word) :
    r_shl oc (r_from w : BitVec 32) 16 = .ok (w.setWidth 32 <<< 16) := by
  simp only [r_shl, Shift.shl]
  rw [if_neg (by omega)]
  rfl

theorem mul64 (oc : Bool) (x : BitVec 32) (k : Nat) (hk : k < 2 ^ 32) :
    r_mul oc (r_from x : BitVec 64) (BitVec.ofNat 64 k) =
      .ok (BitVec.ofNat 64 (x.toNat * k)) := by
  have hx : (x.setWidth 64).toNat = x.toNat := by
    rw [BitVec.toNat_setWidth]; exact Nat.mod_eq_of_lt (Nat.lt_trans x.isLt (by decide))
  have hk' : (BitVec.ofNat 64 k).toNat = k := by
    rw [BitVec.toNat_ofNat]; exact Nat.mod_eq_of_lt (Nat.lt_trans hk (by decide))
  have hp : x.toNat * k < 2 ^ 64 :=
    Nat.lt_of_lt_of_le (Nat.mul_lt_mul'' x.isLt hk) (by decide)
  have : ¬(oc = true ∧ ¬((0 : Int) ≤ (x.toNat : Int) * (k : Int) ∧
      (x.toNat : Int) * (k : Int) < 2 ^ 64)) := by
    rintro ⟨_, h⟩
    apply h
    constructor
    · positivity
    · exact_mod_cast hp
  simp only [r_mul, Arith.mul, checked, r_from, Cast.cast, hx, hk']
  rw [if_neg this]
  congr 1
  apply BitVec.eq_of_toNat_eq
  rw [BitVec.toNat_mul, hx, hk', BitVec.toNat_ofNat]

theorem from_nanos_mul (x : BitVec 32) (k : Nat) (hk : k < 2 ^ 32) :
    r_from_nanos (BitVec.ofNat 64 (x.toNat * k)) = x.toNat * k := by
  have hp : x.toNat * k < 2 ^ 64 :=
    Nat.lt_of_lt_of_le (Nat.mul_lt_mul'' x.isLt hk) (by decide)
  simp only [r_from_nanos, BitVec.toNat_ofNat]
  exact Nat.mod_eq_of_lt hp

theorem period_eq (x : BitVec 32) : (decide ((r_from x : BitVec 64) ≥ MAX_MEASUREMENT_PERIOD) = true) =
    (x.toNat ≥ Fcnt.maxMeasurementPeriod) := by
  have hx : (x.setWidth 64).toNat = x.toNat := by
    rw [BitVec.toNat_setWidth]; exact Nat.mod_eq_of_lt (Nat.lt_trans x.isLt (by decide))
  simp only [decide_eq_true_eq, ge_iff_le, BitVec.le_def, r_from, Cast.cast, hx]
  rfl

theorem slice2 (a b : Word) (l m : List Word) (i j : Nat) (hi : i = l.length) (hj : j = i + 2) :
    r_slice (l ++ a :: b :: m) i j = .ok [a, b] := by
  subst hi hj
  simp only [r_slice]
  rw [if_pos ⟨by omega, by simp⟩]
  rw [List.drop_take]
  simp

/-- One channel of the input data. -/
theorem input_step (oc : Bool) (d0 d1 c0 c1 act : Word) :
    ((if (decide ((r_from (d0.setWidth 32 <<< 16 ||| (r_from d1 : BitVec 32)) : BitVec 64) ≥
        MAX_MEASUREMENT_PERIOD)) = true then Res.ok none
      else (r_mul oc (r_from (d0.setWidth 32 <<< 16 ||| (r_from d1 : BitVec 32)) : BitVec 64) 125).bind
        fun t => Res.ok (some (r_from_nanos t))).bind fun t14 =>
      (util.test_bit_16 oc act 8).bind fun t18 =>
        Res.ok (ChannelValue.fcntIn
          { duration := t14, count := c0.setWidth 32 <<< 16 ||| (r_from c1 : BitVec 32),
            active := t18 })) =
    .ok (.fcntIn {
      duration := if (Fcnt.wide d0 d1).toNat ≥ Fcnt.maxMeasurementPeriod then none
        else some ((Fcnt.wide d0 d1).toNat * 125)
      count := Fcnt.wide c0 c1
      active := testBit16 act 8 }) := by
  have hd : (d0.setWidth 32 <<< 16 ||| (r_from d1 : BitVec 32)) = Fcnt.wide d0 d1 := rfl
  have hc : (c0.setWidth 32 <<< 16 ||| (r_from c1 : BitVec 32)) = Fcnt.wide c0 c1 := rfl
  rw [hd, hc]
  simp only [period_eq, test_bit_16_eq oc act (by decide : 8 < 64), Res.bind_ok]
  rw [show (125 : BitVec 64) = BitVec.ofNat 64 125 from rfl, mul64 oc _ 125 (by decide)]
  simp only [Res.bind_ok, from_nanos_mul _ 125 (by decide)]
  split <;> rfl

theorem input_eq (oc : Bool) (m : Mod) (data : List Word) :
    Mod.process_input_data oc m data = m.conv.processInputData data := by
  simp only [Mod.process_input_data, Fcnt.Mod.processInputData, Res.bind_eq, Res.pure_eq,
    guard_bind, bne_iff_ne, Mod.conv, List.length_map, map_map_iter, collect_map_range,
    mul_nat, add_nat, Res.bind_ok, index_eq, res_bind_self]
  split
  · rfl
  split
  · rfl
  rename_i hd _
  have hd : data.length = 10 := by simpa using hd
  refine mapRes_congr' fun i hi => ?_
  have hi : i < 2 := List.mem_range.1 hi
  match data, hd with
  | [d0, d1, c0, c1, e0, e1, f0, f1, a0, a1], _ =>
    have h : i = 0 ∨ i = 1 := by omega
    rcases h with rfl | rfl
    · rw [show r_slice [d0, d1, c0, c1, e0, e1, f0, f1, a0, a1] (0 * 4) (0 * 4 + 2) = .ok [d0, d1] from
          slice2 _ _ [] [c0, c1, e0, e1, f0, f1, a0, a1] _ _ rfl rfl,
        show r_slice [d0, d1, c0, c1, e0, e1, f0, f1, a0, a1] (0 * 4 + 2) (0 * 4 + 4) = .ok [c0, c1] from
          slice2 _ _ [d0, d1] [e0, e1, f0, f1, a0, a1] _ _ rfl rfl]
      simp only [Res.bind_ok, idx_cons_zero, idx_cons_succ, shl_eq, Res.bind_assoc, Nat.zero_add,
        Nat.zero_mul, Nat.add_zero, Fcnt.inputChannel, Res.bind_eq, Res.pure_eq]
      exact input_step oc d0 d1 c0 c1 a0
    · rw [show r_slice [d0, d1, c0, c1, e0, e1, f0, f1, a0, a1] (1 * 4) (1 * 4 + 2) = .ok [e0, e1] from
          slice2 _ _ [d0, d1, c0, c1] [f0, f1, a0, a1] _ _ rfl rfl,
        show r_slice [d0, d1, c0, c1, e0, e1, f0, f1, a0, a1] (1 * 4 + 2) (1 * 4 + 4) = .ok [f0, f1] from
          slice2 _ _ [d0, d1, c0, c1, e0, e1] [a0, a1] _ _ rfl rfl]
      simp only [Res.bind_ok, idx_cons_zero, idx_cons_succ, shl_eq, Res.bind_assoc,
        Nat.one_mul, Nat.reduceAdd, Fcnt.inputChannel, Res.bind_eq, Res.pure_eq]
      exact input_step oc e0 e1 f0 f1 a1

theorem output_step (oc : Bool) (d0 d1 c : Word) :
    ((util.test_bit_16 oc c 8).bind fun t7 =>
      ((if t7 = true then Res.ok (some Command.start)
        else (util.test_bit_16 oc c 9).bind fun t8 =>
          if t8 = true then Res.ok (some Command.stop) else Res.ok none).bind fun cmd =>
        (r_mul oc (r_from (d0.setWidth 32 <<< 16 ||| (r_from d1 : BitVec 32)) : BitVec 64) 1000).bind
          fun t13 => Res.ok (ChannelValue.fcntOut
            ({ duration := r_from_nanos t13, command := cmd } : FcntOut)))) =
    .ok (.fcntOut {
      duration := (Fcnt.wide d0 d1).toNat * 1000
      command := if testBit16 c 8 then some Command.start
        else if testBit16 c 9 then some Command.stop
        else none }) := by
  have hd : (d0.setWidth 32 <<< 16 ||| (r_from d1 : BitVec 32)) = Fcnt.wide d0 d1 := rfl
  rw [hd]
  simp only [test_bit_16_eq oc c (by decide : 8 < 64), test_bit_16_eq oc c (by decide : 9 < 64),
    Res.bind_ok]
  rw [show (1000 : BitVec 64) = BitVec.ofNat 64 1000 from rfl, mul64 oc _ 1000 (by decide)]
  simp only [Res.bind_ok, from_nanos_mul _ 1000 (by decide)]
  split
  · rfl
  · split <;> rfl

theorem output_eq (oc : Bool) (m : Mod) (data : List Word) :
    Mod.process_output_data oc m data = m.conv.processOutputData data := by
  simp only [Mod.process_output_data, Fcnt.Mod.processOutputData, Res.bind_eq, Res.pure_eq,
    guard_bind, bne_iff_ne, map_map_iter, collect_map_range,
    mul_nat, add_nat, Res.bind_ok, index_eq, res_bind_self]
  split
  · rfl
  rename_i hd
  have hd : data.length = 6 := by simpa using hd
  refine mapRes_congr' fun i hi => ?_
  have hi : i < 2 := List.mem_range.1 hi
  match data, hd with
  | [d0, d1, e0, e1, a0, a1], _ =>
    have h : i = 0 ∨ i = 1 := by omega
    rcases h with rfl | rfl
    · rw [show r_slice [d0, d1, e0, e1, a0, a1] (0 * 2) (0 * 2 + 2) = .ok [d0, d1] from
        slice2 _ _ [] [e0, e1, a0, a1] _ _ rfl rfl]
      simp only [Res.bind_ok, idx_cons_zero, idx_cons_succ, shl_eq, Res.bind_assoc, Nat.zero_add,
        Nat.zero_mul, Nat.add_zero, Fcnt.outputChannel, Res.bind_eq, Res.pure_eq]
      exact output_step oc d0 d1 a0
    · rw [show r_slice [d0, d1, e0, e1, a0, a1] (1 * 2) (1 * 2 + 2) = .ok [e0, e1] from
        slice2 _ _ [d0, d1] [a0, a1] _ _ rfl rfl]
      simp only [Res.bind_ok, idx_cons_zero, idx_cons_succ, shl_eq, Res.bind_assoc,
        Nat.one_mul, Nat.reduceAdd, Fcnt.outputChannel, Res.bind_eq, Res.pure_eq]
      exact output_step oc e0 e1 a1

theorem secs_eq (d : Nat) :
    (r_as (r_as_secs d) : BitVec 32) = BitVec.ofNat 32 (d / 1000000000) := by
  apply BitVec.eq_of_toNat_eq
  simp only [r_as, Cast.cast, r_as_secs, BitVec.toNat_setWidth, BitVec.toNat_ofNat]
  omega

theorem mul_micros {n : Nat} (h : n ≤ 8) (oc : Bool) :
    r_mul oc (BitVec.ofNat 32 n) MICROS_PER_SEC = .ok (BitVec.ofNat 32 n * 1000000#32) := by
  have hn : n % 2 ^ 32 = n := Nat.mod_eq_of_lt (by omega)
  simp only [r_mul, Arith.mul, checked, BitVec.toNat_ofNat, hn]
  have : (MICROS_PER_SEC).toNat = 1000000 := rfl
  rw [this, if_neg (by omega)]
  rfl

theorem add_micros {d : Nat} (h : d ≤ 8388607000) (oc : Bool) :
    r_add oc (BitVec.ofNat 32 (d / 1000000000) * 1000000#32) (r_subsec_micros d) =
      .ok (BitVec.ofNat 32 (d / 1000000000) * 1000000#32
          + BitVec.ofNat 32 (d % 1000000000 / 1000)) := by
  have h1 : (BitVec.ofNat 32 (d / 1000000000) * 1000000#32).toNat ≤ 8000000 := by
    have : d / 1000000000 ≤ 8 := by omega
    refine (BitVec.toNat_mul ..).trans_le ((Nat.mod_le _ _).trans ?_)
    rw [BitVec.toNat_ofNat]
    exact Nat.mul_le_mul ((Nat.mod_le _ _).trans this) (Nat.le_refl 1000000)
  have h2 : (r_subsec_micros d).toNat ≤ 1000000 := by
    refine (Nat.mod_le _ _).trans ?_
    omega
  simp only [r_add, Arith.add, checked]
  rw [if_neg (by omega)]
  rfl

theorem shr_micros (oc : Bool) (x : BitVec 32) : r_shr oc x 16 = .ok (x >>> 16) := by
  simp only [r_shr, Shift.shr]
  rw [if_neg (by omega)]

theorem values_loop (vs : List ChannelValue) : ∀ (i : Nat) (out : List Word)
    (f : List Word → Nat × ChannelValue → Res (List Word)),
    (∀ out i v, f out (i, v) = Fcnt.encodeChannel i v out) →
    r_loop ((vs.zipIdx i).map fun p => (p.2, p.1)) out f = Fcnt.encodeLoop i out vs := by
  induction vs with
  | nil => intros; rfl
  | cons v vs ih =>
    intro i out f hf
    simp only [List.zipIdx_cons, List.map_cons, loop_cons, Fcnt.encodeLoop, hf, Res.bind_eq]
    congr 1
    funext out
    exact ih (i + 1) out f hf

theorem values_eq (oc : Bool) (m : Mod) (vs : List ChannelValue) :
    Mod.process_output_values oc m vs = m.conv.processOutputValues vs := by
  simp only [Mod.process_output_values, Fcnt.Mod.processOutputValues, Res.bind_eq, Res.pure_eq,
    guard_bind, bne_iff_ne, channel_count_eq, Res.bind_ok, Mod.module_type, enumerate_iter,
    collect_iter, Mod.conv, List.length_map, res_bind_self]
  split
  · rfl
  split
  · rfl
  refine values_loop vs 0 _ _ fun out i v => ?_
  cases v <;> try rfl
  rename_i v
  simp only [Fcnt.encodeChannel, decide_eq_true_eq]
  by_cases h : v.duration > Fcnt.maxMeasurementDuration
  · rw [if_pos h]; exact if_pos h
  rw [if_neg h]
  refine (if_neg h).trans ?_
  have h : v.duration ≤ 8388607000 := Nat.not_lt.1 h
  simp only [secs_eq, mul_micros (n := v.duration / 1000000000) (by omega), Res.bind_ok,
    add_micros h, shr_micros, mul_nat, add_nat, Res.bind_eq,
    set_bit_16_eq oc _ (by decide : 8 < 64), set_bit_16_eq oc _ (by decide : 9 < 64)]
  refine bind_congr' rfl fun out => bind_congr' rfl fun out => ?_
  rcases v.command with _ | (_ | _)
  · rfl
  · rfl
  · rfl

theorem dyn_eq (oc : Bool) (m : Mod) : ToDyn.toDyn oc m = dynOf (.fcnt m.conv) := by
  simp only [ToDyn.toDyn, dynOf, Dyn.mk.injEq]
  refine ⟨rfl, rfl, rfl, ?_, ?_, ?_⟩
  · funext data; exact input_eq oc m data
  · funext data; exact output_eq oc m data
  · funext vs; exact values_eq oc m vs

theorem hertz_eq (oc : Bool) (v : FcntIn) (h : ∀ d, v.duration = some d → d / 1000000000 < 2 ^ 64) :
    ProcessInput.hertz oc v = .ok (Fcnt.hertz v) := by
  rcases hv : v.duration with _ | d
  · simp only [ProcessInput.hertz, Fcnt.hertz, hv, r_opt_map, Option.map_none]
  · have h1 : (BitVec.ofNat 64 (d / 1000000000)).toNat = d / 1000000000 := by
      rw [BitVec.toNat_ofNat]; exact Nat.mod_eq_of_lt (h d hv)
    have h2 : (BitVec.ofNat 32 (d % 1000000000)).toNat = d % 1000000000 := by
      rw [BitVec.toNat_ofNat]; omega
    have h3 : ((NANOS_PER_SEC.toNat : Nat) : Rat) = 1000000000 := by
      rw [show NANOS_PER_SEC.toNat = 1000000000 from rfl]; norm_cast
    simp only [ProcessInput.hertz, Fcnt.hertz, hv, r_opt_map, Option.map_some, Res.bind_eq,
      Res.bind_ok, div_f32, add_f32, r_as, Cast.cast, r_as_secs, r_subsec_nanos,
      h1, h2, h3]

end Ur20.Src.ur20_2fcnt_100
