import Verif.Spec.Trace
import Verif.Lemmas.Basic
import Verif.Props.StdIo

/-! Lemmas that relate the two models of the coupler. -/

namespace Ur20.Imp

namespace HMap

variable {α β : Type} [DecidableEq α]

theorem get_remove (h : HMap α β) (k k' : α) :
    (h.remove k).get k' = if k' = k then none else h.get k' := by
  induction h with
  | nil => simp [remove, get]
  | cons e h ih =>
    obtain ⟨a, b⟩ := e
    simp only [remove] at ih
    by_cases ha : a = k
    · subst ha
      simp only [remove, List.filter_cons, ne_eq, not_true_eq_false, decide_false,
        Bool.false_eq_true, if_false, ih, get]
      by_cases hk : k' = a
      · simp [hk]
      · simp [hk, Ne.symm hk]
    · simp only [remove, List.filter_cons, ne_eq, ha, not_false_eq_true, decide_true, if_true, get,
        ih]
      by_cases hk : k' = k
      · subst hk
        simp [ha]
      · simp [hk]

theorem get_insert (h : HMap α β) (k k' : α) (v : β) :
    (h.insert k v).get k' = if k' = k then some v else h.get k' := by
  simp only [insert, get, get_remove]
  by_cases hk : k' = k
  · simp [hk]
  · simp [hk, Ne.symm hk]

/-- No key has two entries. -/
def Nodup (h : HMap α β) : Prop := (h.map Prod.fst).Nodup

omit [DecidableEq α] in
theorem nodup_nil : Nodup ([] : HMap α β) := List.nodup_nil

theorem Nodup.remove {h : HMap α β} (hn : h.Nodup) (k : α) : (h.remove k).Nodup :=
  List.Nodup.sublist (List.Sublist.map _ List.filter_sublist) hn

theorem Nodup.insert {h : HMap α β} (hn : h.Nodup) (k : α) (v : β) : (h.insert k v).Nodup := by
  refine List.nodup_cons.2 ⟨?_, hn.remove k⟩
  simp [HMap.remove]

theorem get_eq_some {h : HMap α β} (hn : h.Nodup) {k : α} {v : β} :
    h.get k = some v ↔ (k, v) ∈ h := by
  induction h with
  | nil => simp [get]
  | cons e h ih =>
    obtain ⟨a, b⟩ := e
    have hn' := List.nodup_cons.1 hn
    simp only [get]
    by_cases ha : a = k
    · subst ha
      simp only [if_true, Option.some.injEq, List.mem_cons, Prod.mk.injEq, true_and]
      constructor
      · intro hb
        exact .inl hb.symm
      · rintro (hb | hb)
        · exact hb.symm
        · exact absurd (List.mem_map_of_mem (f := Prod.fst) hb) hn'.1
    · simp [ha, Ne.symm ha, ih hn'.2]

/-- Lookup does not depend on the order of the entries. -/
theorem get_perm {h h' : HMap α β} (hp : h'.Perm h) (hn : h.Nodup) (k : α) :
    h'.get k = h.get k := by
  have hn' : h'.Nodup := (hp.map Prod.fst).nodup_iff.2 hn
  apply Option.ext
  intro v
  rw [get_eq_some hn, get_eq_some hn', hp.mem_iff]

end HMap

/-! ### Statements -/

namespace Stm

theorem bind_eq {α β : Type} (x : Stm α) (f : α → Stm β) (s : Frame) :
    (x >>= f) s = match x s with
      | (s, .ok a) => f a s
      | (s, .err e) => (s, .err e)
      | (s, .panic) => (s, .panic) := rfl

theorem bind_ok {α β : Type} {x : Stm α} {f : α → Stm β} {s s' : Frame} {a : α}
    (h : x s = (s', .ok a)) : (x >>= f) s = f a s' := by rw [bind_eq, h]

theorem bind_panic {α β : Type} {x : Stm α} {f : α → Stm β} {s : Frame}
    (h : (x s).2 = .panic) : ((x >>= f) s).2 = .panic := by
  rw [bind_eq]
  generalize x s = r at h
  obtain ⟨s', r⟩ := r
  simp only at h
  subst h
  rfl

theorem frame_bind {β : Type} (f : Frame → Stm β) (s : Frame) : (frame >>= f) s = f s s := rfl

theorem set_bind {β : Type} (g : Frame → Frame) (f : Unit → Stm β) (s : Frame) :
    (set g >>= f) s = f () (g s) := rfl

theorem eval_bind {α β : Type} (r : Res α) (f : α → Stm β) (s : Frame) :
    (eval r >>= f) s = match r with
      | .ok a => f a s
      | .err e => (s, .err e)
      | .panic => (s, .panic) := by
  cases r <;> rfl

theorem pure_eq {α : Type} (a : α) (s : Frame) : (pure a : Stm α) s = (s, .ok a) := rfl

theorem pure_bind {α β : Type} (a : α) (f : α → Stm β) : (pure a : Stm α) >>= f = f a := rfl

theorem assoc {α β γ : Type} (x : Stm α) (f : α → Stm β) (g : β → Stm γ) :
    (x >>= f) >>= g = x >>= fun a => f a >>= g := by
  funext s
  simp only [bind_eq]
  generalize x s = r
  obtain ⟨s', r⟩ := r
  cases r <;> rfl

end Stm

theorem idx_ok {α : Type} {l : List α} {i : Nat} {a : α} (h : l[i]? = some a) :
    idx l i = .ok a := by simp [idx, h]

theorem assign_ok {v : List (List ChannelValue)} {i j : Nat} {x : ChannelValue}
    {row : List ChannelValue} (h : v[i]? = some row) (hj : j < row.length) :
    assign v i j x = .ok (v.set i (row.set j x)) := by
  simp only [assign, idx_ok h]
  change (if j < row.length then _ else _) = _
  rw [if_pos hj]
  rfl

/-! ### The loops over vectors -/

/-- A row after the entry of its module, if any, is assigned to its first place. -/
def patchRow (x : Option ChannelValue) (row : List ChannelValue) : List ChannelValue :=
  match x with
  | some v => row.set 0 v
  | none => row

/-- The assignments of the entries of a map: they succeed, and the result depends on what is found
in the map only. -/
theorem assignAll_spec (es : List (Nat × ChannelValue)) :
    ∀ (v : List (List ChannelValue)), HMap.Nodup (es : HMap Nat ChannelValue) →
      (∀ k x, (k, x) ∈ es → ∃ row, v[k]? = some row ∧ row ≠ []) →
      ∃ v', assignAll v es = .ok v' ∧
        ∀ k, v'[k]? = (v[k]?).map (patchRow (HMap.get es k)) := by
  induction es with
  | nil =>
    intro v _ _
    refine ⟨v, rfl, fun k => ?_⟩
    simp only [HMap.get]
    cases v[k]? <;> rfl
  | cons e es ih =>
    intro v hn hv
    obtain ⟨n, x⟩ := e
    obtain ⟨row, hrow, hne⟩ := hv n x (List.mem_cons_self ..)
    have hn' := List.nodup_cons.1 hn
    have hlen : 0 < row.length := List.length_pos_iff.2 hne
    have hnl : n < v.length := by
      rw [List.getElem?_eq_some_iff] at hrow
      exact hrow.1
    obtain ⟨v', h1, h2⟩ := ih (v.set n (row.set 0 x)) hn'.2 (by
      intro k y hk
      have hkn : n ≠ k := by
        rintro rfl
        exact hn'.1 (List.mem_map.2 ⟨_, hk, rfl⟩)
      obtain ⟨row', hr, hne'⟩ := hv k y (List.mem_cons_of_mem _ hk)
      exact ⟨row', by rw [List.getElem?_set_ne hkn, hr], hne'⟩)
    refine ⟨v', ?_, fun k => ?_⟩
    · simp only [assignAll, assign_ok hrow hlen]
      exact h1
    · rw [h2 k]
      simp only [HMap.get]
      by_cases hk : n = k
      · subst hk
        have hnone : HMap.get es n = none := by
          cases hg : HMap.get es n with
          | none => rfl
          | some y =>
            exact absurd (List.mem_map_of_mem (f := Prod.fst) ((HMap.get_eq_some hn'.2).1 hg)) hn'.1
        simp [hnone, List.getElem?_set_self hnl, hrow, patchRow]
      · rw [List.getElem?_set_ne hk, if_neg hk]

/-! ### One module -/

/-- The part of the state that the loop changes is the same in both models. -/
structure Same (s : Frame) (st : Coupler.LoopState) : Prop where
  write : ∀ a, s.self.write.get a = st.write a
  processors : ∀ n, s.self.processors.get n = st.processors n
  lastTxCnt : s.self.lastTxCnt = st.lastTxCnt

/-- The loop does not change these parts of the state. -/
structure Kept (s s' : Frame) : Prop where
  inValues : s'.self.inValues = s.self.inValues
  outValues : s'.self.outValues = s.self.outValues
  modules : s'.self.modules = s.self.modules
  offsets : s'.self.offsets = s.self.offsets

theorem Kept.refl (s : Frame) : Kept s s := ⟨rfl, rfl, rfl, rfl⟩

theorem Kept.trans {s s' s'' : Frame} (h : Kept s s') (h' : Kept s' s'') : Kept s s'' :=
  ⟨h'.1.trans h.1, h'.2.trans h.2, h'.3.trans h.3, h'.4.trans h.4⟩

theorem takeWrite_eq (a : Address) (s : Frame) :
    takeWrite a s =
      ({ s with self := { s.self with write := s.self.write.remove a } },
        .ok (s.self.write.get a)) := rfl

theorem callProcessor_eq {α : Type} {n : Nat} {s : Frame} {p : Com.MessageProcessor}
    (f : Com.MessageProcessor → Com.MessageProcessor × α) (h : s.self.processors.get n = some p) :
    callProcessor n f s =
      ({ s with self := { s.self with processors := s.self.processors.insert n (f p).1 } },
        .ok (f p).2) := by
  simp only [callProcessor, Stm.frame_bind, h]
  rfl

theorem writeAll_eq {n : Nat} {s : Frame} {p : Com.MessageProcessor} (data : List Byte)
    (h : s.self.processors.get n = some p) :
    writeAll n data s =
      ({ s with self := { s.self with
          processors := s.self.processors.insert n (p.write data).1 } }, .ok ()) := by
  have h1 := callProcessor_eq (fun p => p.writeAll data) h
  simp only [writeAll]
  rw [Stm.bind_ok h1, C88_write_all]
  rfl

theorem assignNext_eq {i j : Nat} {x : ChannelValue} {s : Frame} {row : List ChannelValue}
    (h : s.nextOut[i]? = some row) (hj : j < row.length) :
    assignNext i j x s = ({ s with nextOut := s.nextOut.set i (row.set j x) }, .ok ()) := by
  simp only [assignNext, Stm.frame_bind, assign_ok h hj, Stm.eval_bind]
  rfl

/-- What the loop leaves behind for module `n`, compared with the result of the other model. -/
structure Done (n : Nat) (inV outV : List ChannelValue) (r : Coupler.ModuleResult) (s : Frame) :
    Prop where
  inEq : r.inV = patchRow (s.inBytes.get n) inV
  outEq : r.outV = patchRow (s.outBytes.get n) outV
  nextEq : s.nextOut[n]? = some r.nextV
  inNe : s.inBytes.get n ≠ none → inV ≠ []
  outNe : s.outBytes.get n ≠ none → outV ≠ []

/-- The statements for module `n` change the local variables at `n` only. -/
structure Local (n : Nat) (s s' : Frame) : Prop where
  next : ∀ k, k ≠ n → s'.nextOut[k]? = s.nextOut[k]?
  inBytes : ∀ k, k ≠ n → s'.inBytes.get k = s.inBytes.get k
  outBytes : ∀ k, k ≠ n → s'.outBytes.get k = s.outBytes.get k
  len : s'.nextOut.length = s.nextOut.length
  inNodup : s.inBytes.Nodup → s'.inBytes.Nodup
  outNodup : s.outBytes.Nodup → s'.outBytes.Nodup

/-- The end of the statements for a serial module. -/
def serialTail (n : Nat) (i : RsIn) (o : RsOut) : Stm Unit := do
  let rsOut ← callProcessor n fun p => p.next i o
  assignNext n 0 (.comRsOut rsOut)
  if i.dataAvailable && !i.data.isEmpty then
    Stm.set fun s => { s with inBytes := s.inBytes.insert n (.bytes i.data) }

theorem serialTail_eq {n : Nat} {s : Frame} {p : Com.MessageProcessor} {i : RsIn} {o : RsOut}
    {row : List ChannelValue} (hp : s.self.processors.get n = some p)
    (hn : s.nextOut[n]? = some row) (hr : 0 < row.length) :
    serialTail n i o s =
      ({ s with
          self := { s.self with processors := s.self.processors.insert n (p.next i o).1 }
          nextOut := s.nextOut.set n (row.set 0 (.comRsOut (p.next i o).2))
          inBytes := if i.dataAvailable && !i.data.isEmpty then s.inBytes.insert n (.bytes i.data)
            else s.inBytes }, .ok ()) := by
  unfold serialTail
  rw [Stm.bind_ok (callProcessor_eq (fun p => p.next i o) hp)]
  rw [Stm.bind_ok (assignNext_eq (row := row) (by exact hn) hr)]
  split <;> rfl

/-- The middle of the statements for a serial module. -/
def serialMid (n : Nat) (i : RsIn) (o : RsOut) : Stm Unit := do
  Stm.set fun s => { s with self := { s.self with lastTxCnt := o.txCnt } }
  match ← takeWrite ⟨n, 0⟩ with
  | some (.bytes data) => do
    writeAll n data
    serialTail n i o
  | _ => serialTail n i o

/-- The processor after it got the bytes of a write. -/
def afterWrite (p : Com.MessageProcessor) : Option ChannelValue → Com.MessageProcessor
  | some (.bytes data) => (p.write data).1
  | _ => p

theorem serialMid_eq {n : Nat} {s : Frame} {p : Com.MessageProcessor} {i : RsIn} {o : RsOut}
    {row : List ChannelValue} (hp : s.self.processors.get n = some p)
    (hn : s.nextOut[n]? = some row) (hr : 0 < row.length) :
    ∃ ps : HMap Nat Com.MessageProcessor,
      (∀ k, ps.get k =
        if k = n then some ((afterWrite p (s.self.write.get ⟨n, 0⟩)).next i o).1
        else s.self.processors.get k) ∧
      serialMid n i o s =
        ({ s with
            self := { s.self with
              write := s.self.write.remove ⟨n, 0⟩
              processors := ps
              lastTxCnt := o.txCnt }
            nextOut := s.nextOut.set n
              (row.set 0 (.comRsOut ((afterWrite p (s.self.write.get ⟨n, 0⟩)).next i o).2))
            inBytes := if i.dataAvailable && !i.data.isEmpty then s.inBytes.insert n (.bytes i.data)
              else s.inBytes }, .ok ()) := by
  unfold serialMid
  simp only [Stm.set_bind]
  rw [Stm.bind_ok (takeWrite_eq _ _)]
  by_cases hw : ∃ data, s.self.write.get ⟨n, 0⟩ = some (.bytes data)
  · obtain ⟨data, hw⟩ := hw
    simp only [hw, afterWrite]
    rw [Stm.bind_ok (writeAll_eq data (p := p) (by exact hp))]
    rw [serialTail_eq (p := (p.write data).1) (row := row)
      (by simp [HMap.get_insert]) (by exact hn) hr]
    refine ⟨_, fun k => ?_, rfl⟩
    simp only [HMap.get_insert]
    split <;> rfl
  · have h1 : afterWrite p (s.self.write.get ⟨n, 0⟩) = p := by
      unfold afterWrite
      split
      · rename_i data h
        exact absurd ⟨data, h⟩ hw
      · rfl
    rw [h1]
    have h2 := serialTail_eq (i := i) (o := o) (p := p) (row := row)
      (s := { s with self := { s.self with
        write := s.self.write.remove ⟨n, 0⟩, lastTxCnt := o.txCnt } }) (by exact hp)
      (by exact hn) hr
    refine ⟨s.self.processors.insert n (p.next i o).1, fun k => HMap.get_insert .., ?_⟩
    cases hg : s.self.write.get ⟨n, 0⟩ with
    | none =>
      simp only
      exact h2
    | some v =>
      cases v
      case bytes data => exact absurd ⟨data, hg⟩ hw
      all_goals
        simp only
        exact h2

theorem serialBody_eq (n : Nat) (i : RsIn) (o : RsOut) (s : Frame) :
    serialBody n i o s = serialMid n i o
      { s with
        inBytes := s.inBytes.insert n .none
        outBytes := if !o.data.isEmpty && o.txCnt != s.self.lastTxCnt then
            (s.outBytes.insert n .none).insert n (.bytes o.data)
          else s.outBytes.insert n .none } := by
  unfold serialBody
  simp only [Stm.set_bind, Stm.frame_bind]
  split
  · simp only [Stm.set_bind]
    rfl
  · rfl

theorem serialBody_spec {n : Nat} {s : Frame} {st : Coupler.LoopState} {p : Com.MessageProcessor}
    {i : RsIn} {o : RsOut} {inTl outTl : List ChannelValue} (hs : Same s st)
    (hp : st.processors n = some p) (hn : s.nextOut[n]? = some (.comRsOut o :: outTl)) :
    ∃ s', serialBody n i o s = (s', .ok ()) ∧
      Same s' (Coupler.serialStep n p st i inTl o outTl).1 ∧ Kept s s' ∧ Local n s s' ∧
      Done n (.comRsIn i :: inTl) (.comRsOut o :: outTl)
        (Coupler.serialStep n p st i inTl o outTl).2 s' := by
  have hp' : s.self.processors.get n = some p := by rw [hs.processors, hp]
  have hnl : n < s.nextOut.length := (List.getElem?_eq_some_iff.1 hn).1
  rw [serialBody_eq]
  obtain ⟨ps, h1, h2⟩ := serialMid_eq (n := n) (i := i) (o := o) (p := p)
    (row := .comRsOut o :: outTl)
    (s := { s with
        inBytes := s.inBytes.insert n .none
        outBytes := if !o.data.isEmpty && o.txCnt != s.self.lastTxCnt then
            (s.outBytes.insert n .none).insert n (.bytes o.data)
          else s.outBytes.insert n .none }) hp' hn (by simp)
  have haw : afterWrite p (s.self.write.get ⟨n, 0⟩) = (match st.write ⟨n, 0⟩ with
    | some (.bytes data) => (p.write data).1
    | _ => p) := by
    rw [hs.write]
    rfl
  simp only at h1
  rw [haw] at h1
  simp only [haw] at h2
  refine ⟨_, h2, ⟨fun a => ?_, fun k => ?_, rfl⟩, ⟨rfl, rfl, rfl, rfl⟩,
    ⟨fun k hk => ?_, fun k hk => ?_, fun k hk => ?_, ?_, fun h => ?_, fun h => ?_⟩,
    ⟨?_, ?_, ?_, ?_, ?_⟩⟩
  · simp only [HMap.get_remove, hs.write]
    rfl
  · simp only [h1, hs.processors]
    rfl
  · exact List.getElem?_set_ne (Ne.symm hk)
  · simp only
    split <;> simp [HMap.get_insert, hk]
  · simp only
    split <;> simp [HMap.get_insert, hk]
  · exact List.length_set
  · simp only
    split
    · exact (h.insert _ _).insert _ _
    · exact h.insert _ _
  · simp only
    split
    · exact (h.insert _ _).insert _ _
    · exact h.insert _ _
  · simp only [Coupler.serialStep]
    split <;> simp [HMap.get_insert, patchRow]
  · simp only [Coupler.serialStep, hs.lastTxCnt]
    split <;> simp [HMap.get_insert, patchRow]
  · simp only [Coupler.serialStep]
    rw [List.getElem?_set_self hnl]
    rfl
  · simp
  · simp

theorem channelLoop_spec (n : Nat) (vs : List ChannelValue) :
    ∀ (i : Nat) (pre : List ChannelValue) (s : Frame) (w : Address → Option ChannelValue),
      pre.length = i → (∀ a, s.self.write.get a = w a) → s.nextOut[n]? = some (pre ++ vs) →
      ∃ s', channelLoop n i vs s = (s', .ok ()) ∧
        (∀ a, s'.self.write.get a = (Coupler.applyWrites n i w vs).1 a) ∧
        s'.self.processors = s.self.processors ∧ s'.self.lastTxCnt = s.self.lastTxCnt ∧
        Kept s s' ∧ s'.inBytes = s.inBytes ∧ s'.outBytes = s.outBytes ∧
        s'.nextOut = s.nextOut.set n (pre ++ (Coupler.applyWrites n i w vs).2) := by
  induction vs with
  | nil =>
    intro i pre s w _ hw hn
    refine ⟨s, rfl, hw, rfl, rfl, .refl _, rfl, rfl, ?_⟩
    have := List.getElem?_eq_some_iff.1 hn
    simp only [Coupler.applyWrites]
    rw [← this.2, List.set_getElem_self]
  | cons v vs ih =>
    intro i pre s w hi hw hn
    have hnl : n < s.nextOut.length := (List.getElem?_eq_some_iff.1 hn).1
    have hrem : ∀ a, (s.self.write.remove ⟨n, i⟩).get a = Coupler.remove w ⟨n, i⟩ a := by
      intro a
      rw [HMap.get_remove, hw]
      rfl
    simp only [channelLoop]
    rw [Stm.bind_ok (takeWrite_eq _ _), hw]
    cases hv : w ⟨n, i⟩ with
    | none =>
      obtain ⟨s', h1, h2, h3, h4, h5, h6, h7, h8⟩ := ih (i + 1) (pre ++ [v])
        { s with self := { s.self with write := s.self.write.remove ⟨n, i⟩ } } _ (by simp [hi]) hrem
        (by simpa using hn)
      refine ⟨s', h1, ?_, h3, h4, ⟨h5.1, h5.2, h5.3, h5.4⟩, h6, h7, ?_⟩
      · simpa [Coupler.applyWrites] using h2
      · rw [h8]
        simp [Coupler.applyWrites, hv]
    | some x =>
      have hset : (pre ++ v :: vs).set i x = pre ++ x :: vs := by
        subst hi
        simp
      obtain ⟨s', h1, h2, h3, h4, h5, h6, h7, h8⟩ := ih (i + 1) (pre ++ [x])
        { s with
          self := { s.self with write := s.self.write.remove ⟨n, i⟩ }
          nextOut := s.nextOut.set n (pre ++ x :: vs) } _ (by simp [hi]) hrem
        (by simp [List.getElem?_set_self hnl])
      refine ⟨s', ?_, ?_, h3, h4, ⟨h5.1, h5.2, h5.3, h5.4⟩, h6, h7, ?_⟩
      · simp only
        rw [Stm.bind_ok (assignNext_eq (row := pre ++ v :: vs) (by exact hn)
          (by simp; omega)), hset]
        exact h1
      · simpa [Coupler.applyWrites] using h2
      · rw [h8]
        simp [Coupler.applyWrites, hv, List.set_set]

/-- One iteration of the loop in both models. -/
theorem body_spec {n : Nat} {s : Frame} {st : Coupler.LoopState} {inV outV : List ChannelValue}
    (hs : Same s st) (hn : s.nextOut[n]? = some outV) (hi : s.inBytes.get n = none)
    (ho : s.outBytes.get n = none) :
    match Coupler.moduleStep n st inV outV with
    | .ok (st', r) => ∃ s', body n inV outV s = (s', .ok ()) ∧ Same s' st' ∧ Kept s s' ∧
        Local n s s' ∧ Done n inV outV r s'
    | .err _ => False
    | .panic => (body n inV outV s).2 = .panic := by
  have hid : Done n inV outV ⟨inV, outV, outV⟩ s :=
    ⟨by simp [hi, patchRow], by simp [ho, patchRow], hn, by simp [hi], by simp [ho]⟩
  have hloc : Local n s s :=
    ⟨fun _ _ => rfl, fun _ _ => rfl, fun _ _ => rfl, rfl, id, id⟩
  unfold body Coupler.moduleStep
  simp only [Stm.frame_bind, hs.processors]
  cases hp : st.processors n with
  | none =>
    obtain ⟨s', h1, h2, h3, h4, h5, h6, h7, h8⟩ :=
      channelLoop_spec n outV 0 [] s st.write rfl hs.write hn
    have hnl : n < s.nextOut.length := (List.getElem?_eq_some_iff.1 hn).1
    refine ⟨s', h1, ⟨h2, by rw [h3]; exact hs.processors, by rw [h4]; exact hs.lastTxCnt⟩, h5,
      ⟨fun k hk => ?_, fun k _ => by rw [h6], fun k _ => by rw [h7], ?_, by rw [h6]; exact id,
        by rw [h7]; exact id⟩, ⟨?_, ?_, ?_, ?_, ?_⟩⟩
    · rw [h8, List.getElem?_set_ne (Ne.symm hk)]
    · rw [h8, List.length_set]
    · rw [h6, hi]
      rfl
    · rw [h7, ho]
      rfl
    · rw [h8, List.getElem?_set_self hnl]
      rfl
    · simp [h6, hi]
    · simp [h7, ho]
  | some p =>
    simp only
    cases inV with
    | nil => rfl
    | cons x inTl =>
      have hx : idx (x :: inTl) 0 = .ok x := rfl
      simp only [Stm.eval_bind, hx]
      cases x
      case comRsIn i =>
        cases outV with
        | nil => rfl
        | cons y outTl =>
          have hy : idx (y :: outTl) 0 = .ok y := rfl
          simp only [hy]
          cases y
          case comRsOut o => exact serialBody_spec hs hp hn
          all_goals exact ⟨s, rfl, hs, .refl _, hloc, hid⟩
      all_goals exact ⟨s, rfl, hs, .refl _, hloc, hid⟩

/-- The loop in both models, from module `n` on. -/
theorem moduleLoop_spec (l : List (List ChannelValue × List ChannelValue)) :
    ∀ (n : Nat) (s : Frame) (st : Coupler.LoopState), Same s st →
      (∀ j p, l[j]? = some p → s.nextOut[n + j]? = some p.2) →
      (∀ k, n ≤ k → s.inBytes.get k = none) → (∀ k, n ≤ k → s.outBytes.get k = none) →
      match Coupler.cycleLoop n st l with
      | .ok (st', rs) => ∃ s', moduleLoop n l s = (s', .ok ()) ∧ Same s' st' ∧ Kept s s' ∧
          (s.inBytes.Nodup → s'.inBytes.Nodup) ∧ (s.outBytes.Nodup → s'.outBytes.Nodup) ∧
          s'.nextOut.length = s.nextOut.length ∧ rs.length = l.length ∧
          (∀ k, k < n → s'.nextOut[k]? = s.nextOut[k]? ∧ s'.inBytes.get k = s.inBytes.get k ∧
            s'.outBytes.get k = s.outBytes.get k) ∧
          (∀ k, n + l.length ≤ k → s'.inBytes.get k = none ∧ s'.outBytes.get k = none) ∧
          ∀ j p r, l[j]? = some p → rs[j]? = some r → Done (n + j) p.1 p.2 r s'
      | .err _ => False
      | .panic => (moduleLoop n l s).2 = .panic := by
  induction l with
  | nil =>
    intro n s st hs _ hi ho
    exact ⟨s, rfl, hs, .refl _, id, id, rfl, rfl, fun _ _ => ⟨rfl, rfl, rfl⟩,
      fun k hk => ⟨hi k (by simpa using hk), ho k (by simpa using hk)⟩, by simp⟩
  | cons p l ih =>
    intro n s st hs hn hi ho
    obtain ⟨inV, outV⟩ := p
    have hb := body_spec (n := n) (inV := inV) (outV := outV) hs (hn 0 _ rfl) (hi n (Nat.le_refl _)) (ho n (Nat.le_refl _))
    simp only [Coupler.cycleLoop, moduleLoop]
    cases hm : Coupler.moduleStep n st inV outV with
    | err e =>
      rw [hm] at hb
      exact hb.elim
    | panic =>
      rw [hm] at hb
      exact Stm.bind_panic hb
    | ok q =>
      obtain ⟨st1, r⟩ := q
      rw [hm] at hb
      obtain ⟨s1, h1, h2, h3, h4, h5⟩ := hb
      have hl := ih (n + 1) s1 st1 h2 (by
        intro j q hj
        rw [h4.next _ (by omega)]
        have := hn (j + 1) q (by simpa using hj)
        rw [← this]
        congr 1
        omega) (by
        intro k hk
        rw [h4.inBytes k (by omega)]
        exact hi k (by omega)) (by
        intro k hk
        rw [h4.outBytes k (by omega)]
        exact ho k (by omega))
      rw [Stm.bind_ok h1]
      simp only [Res.bind_eq, Res.bind]
      cases hc : Coupler.cycleLoop (n + 1) st1 l with
      | err e =>
        rw [hc] at hl
        exact hl.elim
      | panic =>
        rw [hc] at hl
        exact hl
      | ok q =>
        obtain ⟨st2, rs⟩ := q
        rw [hc] at hl
        obtain ⟨s2, g1, g2, g3, g4, g5, g6, g7, g8, g9, g10⟩ := hl
        refine ⟨s2, g1, g2, h3.trans g3, fun h => g4 (h4.inNodup h), fun h => g5 (h4.outNodup h),
          g6.trans h4.len, by simp [g7], fun k hk => ?_, fun k hk => ?_, ?_⟩
        · obtain ⟨e1, e2, e3⟩ := g8 k (by omega)
          exact ⟨e1.trans (h4.next k (by omega)), e2.trans (h4.inBytes k (by omega)),
            e3.trans (h4.outBytes k (by omega))⟩
        · exact g9 k (by simp at hk; omega)
        · intro j p r' hj hr
          cases j with
          | zero =>
            simp only [List.getElem?_cons_zero, Option.some.injEq] at hj hr
            subst hj hr
            obtain ⟨e1, e2, e3⟩ := g8 n (by omega)
            exact ⟨by rw [Nat.add_zero, e2]; exact h5.1, by rw [Nat.add_zero, e3]; exact h5.2,
              by rw [Nat.add_zero, e1]; exact h5.3, by rw [Nat.add_zero, e2]; exact h5.4,
              by rw [Nat.add_zero, e3]; exact h5.5⟩
          | succ j =>
            simp only [List.getElem?_cons_succ] at hj hr
            have := g10 j p r' hj hr
            rwa [show n + 1 + j = n + (j + 1) by omega] at this

/-! ### A cycle -/

theorem mapRes_length {α β : Type} {f : α → Res β} :
    ∀ {l : List α} {l' : List β}, mapRes f l = .ok l' → l'.length = l.length := by
  intro l
  induction l with
  | nil =>
    intro l' h
    simp only [mapRes, Res.ok.injEq] at h
    simp [← h]
  | cons a l ih =>
    intro l' h
    simp only [mapRes] at h
    cases ha : f a with
    | err e => simp [ha, Res.bind] at h
    | panic => simp [ha, Res.bind] at h
    | ok b =>
      cases hl : mapRes f l with
      | err e => simp [ha, hl, Res.bind] at h
      | panic => simp [ha, hl, Res.bind] at h
      | ok bs =>
        simp only [ha, hl, Res.bind, Res.ok.injEq] at h
        simp [← h, ih hl]

theorem outputLoop_eq (values : List (List ChannelValue)) (l : List (Module × ModuleOffset)) :
    ∀ (i : Nat) (out : List Word), i + l.length = values.length →
      outputLoop values i out l = Ur20.outputLoop out (l.zip (values.drop i)) := by
  induction l with
  | nil =>
    intro i out _
    rfl
  | cons p l ih =>
    intro i out hi
    obtain ⟨m, off⟩ := p
    have hlt : i < values.length := by
      simp at hi
      omega
    rw [List.drop_eq_getElem_cons hlt, List.zip_cons_cons]
    have hidx : idx values i = .ok values[i] := idx_ok (List.getElem?_eq_getElem hlt)
    simp only [outputLoop, Ur20.outputLoop, hidx]
    have hrec := fun out => ih (i + 1) out (by simp at hi; omega)
    cases off.output with
    | none => exact hrec out
    | some o =>
      simp only [hrec]
      rfl

theorem processOutputValues_eq (ms : List (Module × ModuleOffset))
    (values : List (List ChannelValue)) :
    processOutputValues ms values = Ur20.processOutputValues ms values := by
  unfold processOutputValues Ur20.processOutputValues
  split
  · rfl
  · rename_i h
    rw [outputLoop_eq values ms 0 [] (by simpa using h)]
    rfl

/-- The two models of the coupler are in the same state. -/
structure SameC (c : Coupler) (d : Ur20.Coupler) : Prop where
  inValues : c.inValues = d.inValues
  outValues : c.outValues = d.outValues
  modules : c.modules = d.modules
  offsets : c.offsets = d.offsets
  write : ∀ a, c.write.get a = d.write a
  processors : ∀ n, c.processors.get n = d.processors n
  lastTxCnt : c.lastTxCnt = d.lastTxCnt

theorem get_zip {α β : Type} {l : List α} {l' : List β} {j : Nat} {p : α × β}
    (h : (l.zip l')[j]? = some p) : l[j]? = some p.1 ∧ l'[j]? = some p.2 := by
  rw [List.getElem?_zip_eq_some] at h
  exact h

/-- The assignments after the loop give what the other model computes. -/
theorem assign_result {v : List (List ChannelValue)} {h : HMap Nat ChannelValue}
    {ord : HMap Nat ChannelValue → List (Nat × ChannelValue)} (hp : (ord h).Perm h)
    (hn : h.Nodup) (rows : List (List ChannelValue)) (hl : rows.length = v.length)
    (hr : ∀ k row row', v[k]? = some row → rows[k]? = some row' →
      row' = patchRow (h.get k) row ∧ (h.get k ≠ none → row ≠ []))
    (hout : ∀ k, v.length ≤ k → h.get k = none) :
    assignAll v (ord h) = .ok rows := by
  have hn' : HMap.Nodup (ord h) := (hp.map Prod.fst).nodup_iff.2 hn
  obtain ⟨v', h1, h2⟩ := assignAll_spec (ord h) v hn' (by
    intro k x hk
    have hg : h.get k = some x := (HMap.get_eq_some hn).2 (hp.mem_iff.1 hk)
    by_cases hkl : k < v.length
    · exact ⟨v[k], List.getElem?_eq_getElem hkl,
        (hr k _ rows[k] (List.getElem?_eq_getElem hkl) (List.getElem?_eq_getElem _)).2
          (by simp [hg])⟩
    · rw [hout k (by omega)] at hg
      cases hg)
  rw [h1]
  congr 1
  apply List.ext_getElem?
  intro k
  rw [h2, HMap.get_perm hp hn]
  by_cases hkl : k < v.length
  · have h3 := List.getElem?_eq_getElem hkl
    have h4 := List.getElem?_eq_getElem (l := rows) (i := k) (by omega)
    rw [h3, h4, (hr k _ _ h3 h4).1]
    rfl
  · rw [List.getElem?_eq_none (by omega), List.getElem?_eq_none (by omega)]
    rfl

/-- A cycle has the same result in both models and, unless it panics, leaves them in the same
state. -/
theorem next_same (oc : Bool) (ord : Orders) {c : Coupler} {d : Ur20.Coupler} (h : SameC c d)
    (i o : List Word) :
    (next oc ord c i o).2 = (d.next oc i o).2 ∧
      ((d.next oc i o).2 ≠ .panic → SameC (next oc ord c i o).1 (d.next oc i o).1) := by
  unfold next Ur20.Coupler.next
  have hinf : c.modules.zip c.offsets = d.modules.zip d.offsets := by rw [h.modules, h.offsets]
  simp only [hinf]
  generalize d.modules.zip d.offsets = infos
  cases hi : processInputData oc infos i with
  | err e => exact ⟨rfl, fun _ => h⟩
  | panic => exact ⟨rfl, fun hne => absurd rfl hne⟩
  | ok inValues =>
    simp only
    cases ho : processOutputData oc infos o with
    | err e => exact ⟨rfl, fun _ => ⟨rfl, h.2, h.3, h.4, h.5, h.6, h.7⟩⟩
    | panic => exact ⟨rfl, fun hne => absurd rfl hne⟩
    | ok outValues =>
      simp only
      have hli : inValues.length = infos.length := mapRes_length hi
      have hlo : outValues.length = infos.length := mapRes_length ho
      have hz : (inValues.zip outValues).length = infos.length := by simp [hli, hlo]
      generalize hs0 : (Frame.mk { c with inValues := inValues, outValues := outValues } outValues
        [] []) = s0
      have hloop := moduleLoop_spec (inValues.zip outValues) 0 s0
        ⟨d.write, d.processors, d.lastTxCnt⟩ (by
          subst hs0
          exact ⟨h.write, h.processors, h.lastTxCnt⟩) (by
          subst hs0
          intro j p hj
          rw [Nat.zero_add]
          exact (get_zip hj).2) (by
          subst hs0
          intro k _
          rfl) (by
          subst hs0
          intro k _
          rfl)
      cases hc : Ur20.Coupler.cycleLoop 0 ⟨d.write, d.processors, d.lastTxCnt⟩
          (inValues.zip outValues) with
      | err e =>
        rw [hc] at hloop
        exact hloop.elim
      | panic =>
        rw [hc] at hloop
        exact ⟨Stm.bind_panic hloop, fun hne => absurd rfl hne⟩
      | ok q =>
        obtain ⟨st, rs⟩ := q
        rw [hc] at hloop
        obtain ⟨s', h1, h2, h3, h4, h5, h6, h7, _, h9, h10⟩ := hloop
        have hk1 : s'.self.inValues = inValues := by rw [h3.inValues, ← hs0]
        have hk2 : s'.self.outValues = outValues := by rw [h3.outValues, ← hs0]
        have hk3 : s'.self.modules = d.modules := by rw [h3.modules, ← hs0, ← h.modules]
        have hk4 : s'.self.offsets = d.offsets := by rw [h3.offsets, ← hs0, ← h.offsets]
        have hrl : rs.length = infos.length := h7.trans hz
        have hdone : ∀ k a b r, inValues[k]? = some a → outValues[k]? = some b →
            rs[k]? = some r → Done k a b r s' := by
          intro k a b r ha hb hr
          have := h10 k (a, b) r (by rw [List.getElem?_zip_eq_some]; exact ⟨ha, hb⟩) hr
          rwa [Nat.zero_add] at this
        have hin : assignAll s'.self.inValues (ord.inOrd s'.inBytes) =
            .ok (rs.map (·.inV)) := by
          rw [hk1]
          refine assign_result (ord.inPerm _) (h4 (by rw [← hs0]; exact HMap.nodup_nil)) _
            (by simp [hrl, hli]) ?_ ?_
          · intro k row row' hrow hrow'
            have hkl := (List.getElem?_eq_some_iff.1 hrow).1
            rw [List.getElem?_map, Option.map_eq_some_iff] at hrow'
            obtain ⟨r, hr, rfl⟩ := hrow'
            have hd := hdone k row _ r hrow (List.getElem?_eq_getElem (by omega)) hr
            exact ⟨hd.inEq, hd.inNe⟩
          · intro k hk
            exact (h9 k (by omega)).1
        have hout : assignAll s'.self.outValues (ord.outOrd s'.outBytes) =
            .ok (rs.map (·.outV)) := by
          rw [hk2]
          refine assign_result (ord.outPerm _) (h5 (by rw [← hs0]; exact HMap.nodup_nil)) _
            (by simp [hrl, hlo]) ?_ ?_
          · intro k row row' hrow hrow'
            have hkl := (List.getElem?_eq_some_iff.1 hrow).1
            rw [List.getElem?_map, Option.map_eq_some_iff] at hrow'
            obtain ⟨r, hr, rfl⟩ := hrow'
            have hd := hdone k _ row r (List.getElem?_eq_getElem (by omega)) hrow hr
            exact ⟨hd.outEq, hd.outNe⟩
          · intro k hk
            exact (h9 k (by omega)).2
        have hnext : s'.nextOut = rs.map (·.nextV) := by
          apply List.ext_getElem?
          intro k
          have hnl : s'.nextOut.length = infos.length := by rw [h6, ← hs0]; exact hlo
          by_cases hkl : k < infos.length
          · have h4 := List.getElem?_eq_getElem (l := rs) (i := k) (by omega)
            have hd := hdone k _ _ _ (List.getElem?_eq_getElem (by omega))
              (List.getElem?_eq_getElem (by omega)) h4
            rw [hd.nextEq, List.getElem?_map, h4]
            rfl
          · rw [List.getElem?_eq_none (by omega), List.getElem?_eq_none (by simp; omega)]
        have hcyc : cycle ord infos (inValues.zip outValues) s0 =
            ({ s' with self := { s'.self with
                inValues := rs.map (·.inV), outValues := rs.map (·.outV) } },
              Ur20.processOutputValues infos (rs.map (·.nextV))) := by
          unfold cycle
          rw [Stm.bind_ok h1]
          simp only [Stm.frame_bind, hin, hout, Stm.eval_bind, Stm.set_bind, hnext,
            processOutputValues_eq]
          rfl
        simp only [hcyc]
        exact ⟨trivial, fun _ => ⟨rfl, rfl, hk3, hk4, h2.write, h2.processors, h2.lastTxCnt⟩⟩

/-! ### Construction -/

theorem offsetsLoop_eq (data : List Word) (m : Nat) :
    ∀ (k : Nat) (acc : List ModuleOffset), (data.length - 2 * k) / 2 = m →
      offsetsLoop data acc (List.range' k m) =
        .ok (acc ++ Ur20.offsetsOfProcessData (data.drop (2 * k))) := by
  induction m with
  | zero =>
    intro k acc hm
    have : (data.drop (2 * k)).length < 2 := by
      rw [List.length_drop]
      omega
    match hd : data.drop (2 * k), this with
    | [], _ => simp [offsetsLoop, Ur20.offsetsOfProcessData]
    | [_], _ => simp [offsetsLoop, Ur20.offsetsOfProcessData]
  | succ m ih =>
    intro k acc hm
    have h1 : 2 * k < data.length := by omega
    have h2 : 2 * k + 1 < data.length := by omega
    rw [List.range'_succ, List.drop_eq_getElem_cons h1, List.drop_eq_getElem_cons h2]
    have e1 : idx data (k * 2) = .ok data[2 * k] := by
      rw [Nat.mul_comm]
      exact idx_ok (List.getElem?_eq_getElem h1)
    have e2 : idx data (k * 2 + 1) = .ok data[2 * k + 1] := by
      rw [Nat.mul_comm]
      exact idx_ok (List.getElem?_eq_getElem h2)
    simp only [offsetsLoop, e1, e2, Ur20.offsetsOfProcessData]
    have := ih (k + 1) (acc ++ [⟨wordToOffset data[2 * k + 1], wordToOffset data[2 * k]⟩]) (by omega)
    rw [show 2 * (k + 1) = 2 * k + 1 + 1 by omega, List.append_assoc] at this
    exact this

theorem offsetsOfProcessData_eq (data : List Word) :
    offsetsOfProcessData data = .ok (Ur20.offsetsOfProcessData data) := by
  unfold offsetsOfProcessData
  rw [List.range_eq_range', offsetsLoop_eq data _ 0 [] (by simp)]
  rfl

theorem moduleListLoop_eq (data : List Word) (m : Nat) :
    ∀ (k : Nat) (acc : List ModuleType), (data.length - 2 * k) / 2 = m →
      moduleListLoop data acc (List.range' k m) =
        (Ur20.moduleListLoop (data.drop (2 * k))).map (acc ++ ·) := by
  induction m with
  | zero =>
    intro k acc hm
    have : (data.drop (2 * k)).length < 2 := by
      rw [List.length_drop]
      omega
    match hd : data.drop (2 * k), this with
    | [], _ => simp [moduleListLoop, Ur20.moduleListLoop, Res.map]
    | [_], _ => simp [moduleListLoop, Ur20.moduleListLoop, Res.map]
  | succ m ih =>
    intro k acc hm
    have h1 : 2 * k < data.length := by omega
    have h2 : 2 * k + 1 < data.length := by omega
    rw [List.range'_succ, List.drop_eq_getElem_cons h1, List.drop_eq_getElem_cons h2]
    have e1 : idx data (k * 2) = .ok data[2 * k] := by
      rw [Nat.mul_comm]
      exact idx_ok (List.getElem?_eq_getElem h1)
    have e2 : idx data (k * 2 + 1) = .ok data[2 * k + 1] := by
      rw [Nat.mul_comm]
      exact idx_ok (List.getElem?_eq_getElem h2)
    simp only [moduleListLoop, e1, e2, Ur20.moduleListLoop, Res.bind_eq, Res.bind]
    cases ModuleType.tryFromU32
        ((data[2 * k].setWidth 32 <<< 16) + data[2 * k + 1].setWidth 32) with
    | err e => rfl
    | panic => rfl
    | ok t =>
      have := ih (k + 1) (acc ++ [t]) (by omega)
      rw [show 2 * (k + 1) = 2 * k + 1 + 1 by omega] at this
      simp only [this]
      cases Ur20.moduleListLoop (data.drop (2 * k + 1 + 1)) with
      | err e => rfl
      | panic => rfl
      | ok l => simp [Res.map, Res.pure_eq]

theorem moduleListFromRegisters_eq (data : List Word) :
    moduleListFromRegisters data = Ur20.moduleListFromRegisters data := by
  unfold moduleListFromRegisters Ur20.moduleListFromRegisters
  rw [List.range_eq_range', moduleListLoop_eq data _ 0 [] (by simp)]
  split
  · rfl
  · simp only [Nat.mul_zero, List.drop_zero]
    cases Ur20.moduleListLoop data <;> rfl

theorem newLoop_same (params : List (List Word)) (ts : List ModuleType) :
    ∀ (i : Nat) (ms : List Module) (ps : HMap Nat Com.MessageProcessor)
      (qs : Nat → Option Com.MessageProcessor), (∀ k, ps.get k = qs k) →
      match Ur20.Coupler.newLoop params i ms qs ts with
      | .ok (ms', qs') => ∃ ps', newLoop params i ms ps ts = .ok (ms', ps') ∧ ∀ k, ps'.get k = qs' k
      | .err e => newLoop params i ms ps ts = .err e
      | .panic => newLoop params i ms ps ts = .panic := by
  induction ts with
  | nil =>
    intro i ms ps qs h
    exact ⟨ps, rfl, h⟩
  | cons t ts ih =>
    intro i ms ps qs h
    simp only [Ur20.Coupler.newLoop, newLoop, Res.bind_eq]
    cases idx params i with
    | err e => rfl
    | panic => rfl
    | ok param =>
      simp only [Res.bind]
      cases Module.create t param with
      | err e => rfl
      | panic => rfl
      | ok m =>
        simp only
        refine ih (i + 1) (ms ++ [m]) _ _ fun k => ?_
        cases m.processor? with
        | none => exact h k
        | some p => simp only [HMap.get_insert, h]

/-- Construction has the same outcome in both models. -/
theorem new_same (cfg : CouplerConfig) :
    match Ur20.Coupler.new cfg with
    | .ok d => ∃ c, new cfg = .ok c ∧ SameC c d
    | .err e => new cfg = .err e
    | .panic => new cfg = .panic := by
  unfold new Ur20.Coupler.new
  simp only [Res.bind_eq]
  cases cfg.validate with
  | err e => rfl
  | panic => rfl
  | ok u =>
    simp only [Res.bind, offsetsOfProcessData_eq]
    have := newLoop_same cfg.params cfg.modules 0 [] [] (fun _ => none) (fun _ => rfl)
    cases hn : Ur20.Coupler.newLoop cfg.params 0 [] (fun _ => none) cfg.modules with
    | err e =>
      rw [hn] at this
      simp only [this]
    | panic =>
      rw [hn] at this
      simp only [this]
    | ok q =>
      obtain ⟨ms, qs⟩ := q
      rw [hn] at this
      obtain ⟨ps, h1, h2⟩ := this
      simp only [h1]
      exact ⟨_, rfl, rfl, rfl, rfl, rfl, fun _ => rfl, h2, rfl⟩

/-! ### Histories -/

theorem isValidAddr_same {c : Coupler} {d : Ur20.Coupler} (h : SameC c d) (a : Address) :
    isValidAddr c a = .ok (d.isValidAddr a) := by
  unfold isValidAddr Ur20.Coupler.isValidAddr
  rw [h.modules]
  by_cases hl : a.module < d.modules.length
  · have hg := List.getElem?_eq_getElem hl
    rw [if_pos hl, idx_ok hg, hg]
    rfl
  · rw [if_neg hl, List.getElem?_eq_none (by omega)]

open Spec in
theorem call_same (oc : Bool) {c : Coupler} {d : Ur20.Coupler} (h : SameC c d) (ord : Orders)
    (op : COp) :
    (Spec.Imp.call oc c ord op).2 = (Spec.call oc d op).2 ∧
      ((Spec.call oc d op).2.panicked = false →
        SameC (Spec.Imp.call oc c ord op).1 (Spec.call oc d op).1) := by
  cases op with
  | setOutput a v =>
    simp only [Spec.Imp.call, Spec.call, setOutput, Ur20.Coupler.setOutput, isValidAddr_same h]
    cases d.isValidAddr a with
    | false => exact ⟨rfl, fun _ => h⟩
    | true =>
      refine ⟨rfl, fun _ => ⟨h.1, h.2, h.3, h.4, fun b => ?_, h.6, h.7⟩⟩
      simp only [HMap.get_insert, h.write]
      rfl
  | next i o =>
    obtain ⟨h1, h2⟩ := next_same oc ord h i o
    refine ⟨by simp only [Spec.Imp.call, Spec.call, h1], fun hp => h2 ?_⟩
    intro hpanic
    simp [Spec.call, hpanic, Ret.panicked] at hp
  | read n len =>
    simp only [Spec.Imp.call, Spec.call, read, Ur20.Coupler.read, h.processors]
    cases hq : d.processors n with
    | none => exact ⟨rfl, fun _ => h⟩
    | some p =>
      simp only
      cases p.read len with
      | err e => exact ⟨rfl, fun _ => h⟩
      | panic => exact ⟨rfl, fun _ => h⟩
      | ok r =>
        refine ⟨rfl, fun _ => ⟨h.1, h.2, h.3, h.4, h.5, fun k => ?_, h.7⟩⟩
        exact (HMap.get_insert ..).trans (by rw [h.processors]; rfl)
  | write n buf =>
    simp only [Spec.Imp.call, Spec.call, writeBytes, Ur20.Coupler.writeBytes, h.processors]
    cases hq : d.processors n with
    | none => exact ⟨rfl, fun _ => h⟩
    | some p =>
      refine ⟨rfl, fun _ => ⟨h.1, h.2, h.3, h.4, h.5, fun k => ?_, h.7⟩⟩
      simp only [HMap.get_insert, h.processors]
      rfl

theorem trace_same (oc : Bool) (ord : Nat → Orders) (ops : List Spec.COp) :
    ∀ (k : Nat) {c : Coupler} {d : Ur20.Coupler}, SameC c d →
      Spec.Imp.trace oc ord k c ops = Spec.trace oc d ops := by
  induction ops with
  | nil =>
    intro k c d _
    rfl
  | cons op ops ih =>
    intro k c d h
    obtain ⟨h1, h2⟩ := call_same oc h (ord k) op
    simp only [Spec.Imp.trace, Spec.trace, h1]
    cases hp : (Spec.call oc d op).2.panicked with
    | true => rfl
    | false =>
      have h3 := h2 hp
      simp only [Bool.false_eq_true, if_false, ih (k + 1) h3, h3.inValues, h3.outValues]
      rfl

end Ur20.Imp
