import Verif.Props.HyperSearch
/-
One worker process of the multi process hypersearch does exactly what a single process
hypersearch over its strategies does, whatever the other workers do in between.
-/
namespace HP
open Spec

/-- the start of a hypersearch: the state before its loop -/
theorem singleHS_init {A : Arith} {i : Inst} (hv : i.Valid) :
    ∃ s0 : HSState, i.initSolution A = .ok (s0.inst, s0.retained) ∧
      s0.inst.calcObj A = .ok s0.best ∧ s0.tick = 0 ∧ s0.bestStrategy = defaultStrategy ∧
      (∃ sol0 ov0, solve A i.solveIn none = .ok (sol0, ov0) ∧ s0.best = i.worth A (ov0.map (·.2))) ∧
      (∀ clock start throttle, HSInv A clock start throttle i s0.best s0) ∧
      ∀ clock start throttle sts, i.singleHS A clock start throttle sts =
        hsLoop A clock start throttle sts s0 := by
  obtain ⟨sol, ov, r, h1, h2, h3, h4, h5, h6⟩ := init_spec (A := A) hv
  refine ⟨⟨i.upd sol ov i.height i.heights, i.worth A (ov.map (·.2)), (r, ov), defaultStrategy, 0, []⟩,
    h5, h6, rfl, rfl, ⟨sol, ov, h2, rfl⟩, ?_, ?_⟩
  · intro clock start throttle
    refine ⟨rfl, ?_, fun _ => ⟨rfl, rfl⟩, fun h => h, ?_, rfl, Or.inl ⟨rfl, rfl, ?_, sol, h2, h4⟩, le_refl _,
      by simp, ?_, by simp⟩
    · exact ⟨hv.conts, hv.items, hv.contsNe, hv.itemsNe, hv.strip, hv.height, hv.minPos⟩
    · intro _; unfold Inst.maxH; simp only [Inst.upd]; omega
    · refine ⟨PyDict.keys i.items, i.height.getD 0, sol, .refl _, ?_, fun _ => rfl, h1, h4⟩
      intro hst
      obtain ⟨k, hk, hp⟩ := hv.height hst
      rw [hk]; exact hp
    · intro hst _
      obtain ⟨k, hk, hp⟩ := hv.height hst
      refine Or.inr ⟨i.strategy, k, sol, by simp, hp, ?_, ?_, h4⟩
      · unfold Inst.maxH; rw [hk]; simp only [Option.getD_some]; omega
      · rw [← h2]; simp only [Inst.solveIn, hk, Option.getD_some]
  · intro clock start throttle sts
    unfold Inst.singleHS
    simp only [bind, Except.bind, h5, h6]

/-- the two outcomes of one pass -/
theorem hsStep_cases {A : Arith} {clock : Nat → Rat} {start : Rat} {throttle : Bool} {st : List PClass}
    {s s' : HSState} {b : Bool} {j : Inst} {t : LSState Inst (Solution × ObjVals)} {new : Rat}
    (hls : Inst.localSearch A (fun k => clock (s.tick + k)) start throttle { s.inst with strategy := st } =
      .ok (j, t))
    (hobj : j.calcObj A = .ok new)
    (h : hsStep A clock start throttle st s = .ok (s', b)) :
    b = outOfTime A (clock (s.tick + t.tick)) start j.maxTime ∧
    ((new > s.best ∧ ∃ r, j.getSolution = .ok r ∧
        s' = ⟨j, new, r, st, s.tick + t.tick + 1, s.tried ++ [(st, new)]⟩) ∨
     (¬ new > s.best ∧
        s' = { s with inst := j, tick := s.tick + t.tick + 1, tried := s.tried ++ [(st, new)] })) := by
  unfold hsStep at h
  simp only [bind, Except.bind, pure, Except.pure, hls, hobj] at h
  by_cases hc : new > s.best
  · simp only [checkSolution, hc, decide_true, if_true, globalCheck, optimumObjVal, Bool.false_eq_true, if_false] at h
    split at h
    · cases h
    · rename_i r hr
      injection h with h
      injection h with h1 h2
      exact ⟨h2.symm, Or.inl ⟨hc, r, hr, h1.symm⟩⟩
  · simp only [checkSolution, hc, decide_false, Bool.false_eq_true, if_false] at h
    injection h with h
    injection h with h1 h2
    exact ⟨h2.symm, Or.inr ⟨hc, h1.symm⟩⟩

/-- the local search and its value inside one pass -/
theorem hsStep_ok {A : Arith} {clock : Nat → Rat} {start : Rat} {throttle : Bool} {st : List PClass}
    {s : HSState} {r : HSState × Bool} (h : hsStep A clock start throttle st s = .ok r) :
    ∃ j t new, Inst.localSearch A (fun k => clock (s.tick + k)) start throttle
      { s.inst with strategy := st } = .ok (j, t) ∧ j.calcObj A = .ok new := by
  unfold hsStep at h
  simp only [bind, Except.bind, pure, Except.pure] at h
  split at h
  · cases h
  · rename_i q hq
    split at h
    · cases h
    · rename_i v hv
      exact ⟨q.1, q.2, v, hq, hv⟩

/-! ### the variables of a worker and of a single process search -/

/-- the worker's variables agree with those of a single process search; `v0` is the value of
the initial solution -/
structure Sim (v0 : Rat) (v : WVars) (s : HSState) : Prop where
  inst : v.inst = s.inst
  best : v.best = s.best
  ret : v.retained = s.retained
  tick : v.tick = s.tick
  strat : (v.strategy = none ∧ s.best = v0) ∨ (v.strategy = some s.bestStrategy ∧ v0 < s.best)

/-- the worker's entry of the shared array: 0 until it improves on the initial solution -/
def WVars.entry (v : WVars) : Rat :=
  match v.strategy with
  | none => 0
  | some _ => v.best

/-- the message of a worker and its entry of the shared array, given the outcome of a single
process search over its strategies -/
def MsgOk (A : Arith) (clock : Nat → Rat) (start : Rat) (throttle : Bool) (w : Inst)
    (chunk : List (List PClass)) (v0 : Rat) (m : Msg) (e : Rat) : Prop :=
  (m = failMsg ∧ e = -1) ∨
  ∃ s, w.singleHS A clock start throttle chunk = .ok s ∧ HSInv A clock start throttle w v0 s ∧
    m.value = s.best ∧ m.sol = s.retained.1 ∧ m.ov = s.retained.2 ∧
    ((m.strategy = none ∧ e = 0 ∧ s.best = v0) ∨
     (m.strategy = some s.bestStrategy ∧ e = s.best ∧ v0 < s.best))

/-- invariant of a worker: how its phase and its array entry relate to the single process search
over its strategies -/
def PhInv (M : MPParams) (p : Nat) (w : Inst) (chunk : List (List PClass)) (v0 : Rat) (e : Rat) :
    Phase → Prop
  | .start => e = 0
  | .loop v rest => ∃ s, Sim v0 v s ∧ HSInv M.ar (M.clock p) M.start M.throttle w v0 s ∧
      w.singleHS M.ar (M.clock p) M.start M.throttle chunk =
        hsLoop M.ar (M.clock p) M.start M.throttle rest s ∧ e = v.entry
  | .searched v new st rest => ∃ s t, Sim v0 { v with inst := s.inst, tick := s.tick } s ∧
      HSInv M.ar (M.clock p) M.start M.throttle w v0 s ∧
      Inst.localSearch M.ar (fun k => M.clock p (s.tick + k)) M.start M.throttle
        { s.inst with strategy := st } = .ok (v.inst, t) ∧
      v.tick = s.tick + t.tick ∧ v.inst.calcObj M.ar = .ok new ∧
      w.singleHS M.ar (M.clock p) M.start M.throttle chunk =
        hsLoop M.ar (M.clock p) M.start M.throttle (st :: rest) s ∧ e = v.entry
  | .read v new _ st rest => ∃ s t, Sim v0 { v with inst := s.inst, tick := s.tick } s ∧
      HSInv M.ar (M.clock p) M.start M.throttle w v0 s ∧
      Inst.localSearch M.ar (fun k => M.clock p (s.tick + k)) M.start M.throttle
        { s.inst with strategy := st } = .ok (v.inst, t) ∧
      v.tick = s.tick + t.tick ∧ v.inst.calcObj M.ar = .ok new ∧
      w.singleHS M.ar (M.clock p) M.start M.throttle chunk =
        hsLoop M.ar (M.clock p) M.start M.throttle (st :: rest) s ∧ e = v.entry
  | .check v _ rest => ∃ s, Sim v0 { v with tick := v.tick + 1 } s ∧
      HSInv M.ar (M.clock p) M.start M.throttle w v0 s ∧
      w.singleHS M.ar (M.clock p) M.start M.throttle chunk =
        (if outOfTime M.ar (M.clock p v.tick) M.start v.inst.maxTime then .ok s
         else hsLoop M.ar (M.clock p) M.start M.throttle rest s) ∧ e = v.entry
  | .put v => ∃ s, Sim v0 v s ∧ HSInv M.ar (M.clock p) M.start M.throttle w v0 s ∧
      w.singleHS M.ar (M.clock p) M.start M.throttle chunk = .ok s ∧ e = v.entry
  | .failing => True
  | .failPut => e = -1
  | .buffered m => MsgOk M.ar (M.clock p) M.start M.throttle w chunk v0 m e
  | .done m => MsgOk M.ar (M.clock p) M.start M.throttle w chunk v0 m e
  | .dead none => True
  | .dead (some _) => False

/-- has the worker left its `try` block through an exception? -/
def Phase.failed : Phase → Bool
  | .failing => true
  | .failPut => true
  | .buffered m => m == failMsg
  | .done m => m == failMsg
  | _ => false

theorem checkVar_maxTime {A clock start throttle w v0 s} (h : HSInv A clock start throttle w v0 s) :
    s.inst.maxTime = w.maxTime := by rw [h.frame]

/-- one step of worker `p` keeps its invariant; it changes only its own entry; it fails only if
told to at its start -/
theorem workerStep_inv {M : MPParams} {p : Nat} {w : Inst} (hv : w.Valid) {chunk : List (List PClass)}
    {v0 : Rat} (hv0 : ∀ v, workerInit M w = .ok v → v.best = v0)
    {arr : List Rat} (hp : p < arr.length) {ph : Phase} {e : Rat} (he : arr[p]? = some e)
    (h : PhInv M p w chunk v0 e ph) :
    ∃ e', (workerStep M p w chunk ph arr).2 = arr.set p e' ∧
      PhInv M p w chunk v0 e' (workerStep M p w chunk ph arr).1 ∧
      ((workerStep M p w chunk ph arr).1 = .failing → ph = .start ∧ M.force p = true ∨ ph = .failing) := by
  have hself : arr = arr.set p e := by
    obtain ⟨h1, h2⟩ := List.getElem?_eq_some_iff.1 he
    rw [← h2, List.set_getElem_self]
  have harr : arrayMax arr ≠ none := by
    cases arr with
    | nil => simp at hp
    | cons a l => simp [arrayMax]
  cases ph with
  | start =>
    unfold workerStep
    simp only
    by_cases hf : M.force p = true
    · rw [if_pos hf]
      exact ⟨e, hself, trivial, fun _ => Or.inl ⟨trivial, hf⟩⟩
    · rw [if_neg hf]
      obtain ⟨s0, a1, a2, a3, a4, a5, a6, a7⟩ := singleHS_init (A := M.ar) hv
      have hinit : workerInit M w = .ok ⟨s0.inst, s0.best, s0.retained, none, 0⟩ := by
        unfold workerInit
        simp only [bind, Except.bind, pure, Except.pure, a1, a2]
      have hb := hv0 _ hinit
      simp only at hb
      subst hb
      rw [hinit]
      refine ⟨e, hself, ⟨s0, ⟨rfl, rfl, rfl, a3.symm, Or.inl ⟨rfl, rfl⟩⟩, a6 _ _ _, a7 _ _ _ _, ?_⟩, by simp⟩
      exact h
  | loop v rest =>
    obtain ⟨s, hs, hi, hw, hent⟩ := h
    cases rest with
    | nil =>
      refine ⟨e, hself, ⟨s, hs, hi, ?_, hent⟩, by simp [workerStep]⟩
      rw [hw]; rfl
    | cons st rest =>
      obtain ⟨s1, b, x, hstep, _⟩ := hsStep_spec hv hi st
      obtain ⟨j, t, new, hls, hobj⟩ := hsStep_ok hstep
      have hsearch : workerSearch M p v st = .ok ({ v with inst := j, tick := v.tick + t.tick }, new) := by
        unfold workerSearch
        simp only [bind, Except.bind, pure, Except.pure]
        rw [hs.inst, hs.tick, hls]
        simp only [hobj]
      unfold workerStep
      simp only [hsearch]
      refine ⟨e, hself, ⟨s, t, ⟨rfl, hs.best, hs.ret, rfl, hs.strat⟩, hi, hls, by simp [hs.tick], hobj, hw, hent⟩, by simp⟩
  | searched v new st rest =>
    obtain ⟨s, t, hs, hi, hls, htick, hobj, hw, hent⟩ := h
    unfold workerStep
    simp only
    cases hm : arrayMax arr with
    | none => exact absurd hm harr
    | some opt => exact ⟨e, hself, ⟨s, t, hs, hi, hls, htick, hobj, hw, hent⟩, by simp⟩
  | read v new opt st rest =>
    obtain ⟨s, t, hs, hi, hls, htick, hobj, hw, hent⟩ := h
    obtain ⟨s1, b, x, hstep, hi1, _⟩ := hsStep_spec hv hi st
    obtain ⟨hb, hcase⟩ := hsStep_cases hls hobj hstep
    have hloop : hsLoop M.ar (M.clock p) M.start M.throttle (st :: rest) s =
        (if outOfTime M.ar (M.clock p v.tick) M.start v.inst.maxTime then .ok s1
         else hsLoop M.ar (M.clock p) M.start M.throttle rest s1) := by
      rw [htick, ← hb]
      rw [hsLoop]
      simp only [bind, Except.bind, hstep, pure, Except.pure]
    have hbest : v.best = s.best := hs.best
    unfold workerStep
    simp only
    rcases hcase with ⟨hgt, r, hr, hs1⟩ | ⟨hgt, hs1⟩
    · have hchk : checkSolution new v.best = true := by
        rw [hbest]; simpa [checkSolution] using hgt
      rw [if_pos hchk]
      simp only [hr, globalCheck, optimumObjVal, Bool.false_eq_true, if_false]
      refine ⟨new, rfl, ⟨s1, ?_, hi1, by rw [hw, hloop], ?_⟩, by simp⟩
      · rw [hs1]
        refine ⟨rfl, rfl, rfl, by simp [htick], Or.inr ⟨rfl, ?_⟩⟩
        exact lt_of_le_of_lt hi.ge hgt
      · rfl
    · have hchk : checkSolution new v.best = false := by
        rw [hbest]; simpa [checkSolution] using hgt
      rw [hchk]
      simp only [Bool.false_eq_true, if_false]
      refine ⟨e, hself, ⟨s1, ?_, hi1, by rw [hw, hloop], hent⟩, by simp⟩
      rw [hs1]
      exact ⟨rfl, hs.best, hs.ret, by simp [htick], hs.strat⟩
  | check v opt rest =>
    obtain ⟨s, hs, hi, hw, hent⟩ := h
    unfold workerStep
    simp only [globalCheck, optimumObjVal, Bool.or_false]
    by_cases hl : outOfTime M.ar (M.clock p v.tick) M.start v.inst.maxTime = true
    · rw [if_pos hl]
      rw [if_pos hl] at hw
      exact ⟨e, hself, ⟨s, hs, hi, hw, hent⟩, by simp⟩
    · rw [if_neg hl]
      rw [if_neg hl] at hw
      exact ⟨e, hself, ⟨s, hs, hi, hw, hent⟩, by simp⟩
  | put v =>
    obtain ⟨s, hs, hi, hw, hent⟩ := h
    refine ⟨e, hself, ?_, by simp [workerStep]⟩
    refine Or.inr ⟨s, hw, hi, hs.best, by rw [← hs.ret], by rw [← hs.ret], ?_⟩
    unfold WVars.entry at hent
    rcases hs.strat with ⟨h1, h2⟩ | ⟨h1, h2⟩
    · rw [h1] at hent
      exact Or.inl ⟨h1, hent, h2⟩
    · rw [h1] at hent
      exact Or.inr ⟨h1, by rw [hent]; exact hs.best, h2⟩
  | failing => exact ⟨-1, rfl, rfl, fun _ => Or.inr rfl⟩
  | failPut =>
    refine ⟨e, hself, Or.inl ⟨rfl, h⟩, by simp [workerStep]⟩
  | buffered m =>
    unfold workerStep
    simp only
    split
    · exact ⟨e, hself, h, by simp⟩
    · exact ⟨e, hself, h, by simp⟩
  | done m => exact ⟨e, hself, h, by simp [workerStep]⟩
  | dead m => exact ⟨e, hself, h, by simp [workerStep]⟩

end HP
