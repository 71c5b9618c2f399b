import Verif.Spec.Restarts
import Verif.Props.Transfers

/-! # Output values and restarts: C112 -/

namespace Ur20

open Spec Com Coupler

/-- C112: wherever the application crashes and is started again, and whatever images are lost: the
device has on, for every output channel that is not serial, the value of the last `set_output` in the
rounds whose image arrived; and what it had on at the start if there was none. In particular the
first cycles of a restarted application do not change the outputs. -/
theorem C112_restarts (oc : Bool) (cfg : CouplerConfig) (c0 : Coupler)
    (h0 : Coupler.new cfg = .ok c0) (j : Nat) (hdis : OutputsKept cfg j)
    (t : ModuleType) (par : List Word) (o i : Word) (hcfg : ConfiguredAt cfg j t par o i)
    (ht : t ≠ .UR20_1COM_232_485_422) (hno : o ≠ noOffset)
    (hal : o.toNat % 16 = 0 ∨ outputBytes t par = 1) (ch : Nat) (hch : ch < outputChannels t)
    (evs : List REv) (hcalls : ∀ r, .round r ∈ evs → ∀ op ∈ r.calls, op.IsCall)
    (start : List Word) (c : Coupler) (device : List Word)
    (h : restarts oc cfg c0 start evs = some (c, device)) :
    (∀ v, lastSetInRounds ⟨j, ch⟩ (sentRounds evs) = some v →
      Settled t par device (outBit o) ch v) ∧
    (lastSetInRounds ⟨j, ch⟩ (sentRounds evs) = none →
      ∀ v, Settled t par start (outBit o) ch v → Settled t par device (outBit o) ch v) := by
  have hr0 : ReachableFrom oc cfg c0 := ⟨c0, [], h0, rfl⟩
  have hw0 := ((C13_success cfg).2 c0 h0).2.2.2.2.2 ⟨j, ch⟩
  suffices key : ∀ (c1 : Coupler) (start : List Word), ReachableFrom oc cfg c1 →
      c1.write ⟨j, ch⟩ = none → restarts oc cfg c1 start evs = some (c, device) →
      (∀ v, lastSetInRounds ⟨j, ch⟩ (sentRounds evs) = some v →
        Settled t par device (outBit o) ch v) ∧
      (lastSetInRounds ⟨j, ch⟩ (sentRounds evs) = none →
        ∀ v, Settled t par start (outBit o) ch v → Settled t par device (outBit o) ch v) from
    key c0 start hr0 hw0 h
  clear h start
  induction evs with
  | nil =>
    intro c1 start _ _ h
    cases h
    exact ⟨fun v hv => by simp [sentRounds, lastSetInRounds, lastSet] at hv, fun _ v hs => hs⟩
  | cons ev evs ih =>
    intro c1 start hr hw h
    have ih' := ih fun r hr => hcalls r (List.mem_cons_of_mem _ hr)
    cases ev with
    | crash lost =>
      simp only [restarts, h0] at h
      exact ih' c0 start hr0 hw0 h
    | round r =>
      simp only [restarts] at h
      split at h
      · rename_i c2 img hn
        obtain ⟨a1, a2, a3, a4⟩ := round_written hdis hcfg ht hno hal hch
          (hcalls r List.mem_cons_self) hr hw hn
        obtain ⟨i1, i2⟩ := ih' c2 _ a1 a2 h
        simp only [sentRounds]
        cases harr : r.arrives with
        | false =>
          rw [harr] at i2
          exact ⟨i1, i2⟩
        | true =>
          rw [harr] at i2
          have hset : lastSetInRounds ⟨j, ch⟩ (r :: sentRounds evs) =
              (lastSetInRounds ⟨j, ch⟩ (sentRounds evs)).or (lastSet ⟨j, ch⟩ r.calls) := by
            simp [lastSetInRounds, lastSet_append]
          rw [if_pos rfl, hset]
          cases hl : lastSetInRounds ⟨j, ch⟩ (sentRounds evs) with
          | some v => exact ⟨fun v' hv => i1 v' (hl.trans hv), fun hv => by cases hv⟩
          | none =>
            simp only [Option.none_or]
            exact ⟨fun v hv => i2 hl v (a3 v hv), fun hv v hs => i2 hl v (a4 hv v hs)⟩
      · cases h

/-- A relay is switched on, another one too but the image is lost, then the application crashes with a
value pending and runs on: the first relay stays on, the others stay off. -/
def exCrash : List REv :=
  [.round ⟨[.setOutput ⟨0, 1⟩ (.bit true)], [], true⟩,
   .round ⟨[.setOutput ⟨0, 2⟩ (.bit true)], [], false⟩,
   .crash [.setOutput ⟨0, 3⟩ (.bit true)], .round ⟨[], [], true⟩]

example : ∃ c, Coupler.new exRelay = .ok c ∧
    (restarts true exRelay c [0#16] exCrash).map (·.2) = some [2#16] ∧
    lastSetInRounds ⟨0, 1⟩ (sentRounds exCrash) = some (.bit true) ∧
    lastSetInRounds ⟨0, 2⟩ (sentRounds exCrash) = none := ⟨_, rfl, rfl, rfl, rfl⟩

end Ur20
