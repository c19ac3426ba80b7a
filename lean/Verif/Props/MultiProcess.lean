import Verif.Proofs.MultiProcess
import Mathlib.Data.Rat.Floor
import Mathlib.Tactic.Linarith
/-
Properties of the multi process hypersearch: C31 - C35, C57, and C58 (determinism).
-/
namespace HP
open Spec

/-! ### C31: chunks -/

theorem chunksOf_flatten {α : Type} {k : Nat} (hk : 0 < k) : ∀ (n : Nat) (xs : List α), xs.length ≤ n →
    (chunksOf k n xs).flatten = xs
  | 0, xs, h => by
    have : xs = [] := List.length_eq_zero_iff.1 (by omega)
    subst this; rfl
  | n + 1, xs, h => by
    unfold chunksOf
    split
    · rename_i he
      rw [List.isEmpty_iff.1 he]; rfl
    · rename_i he
      have hl : 0 < xs.length := by
        cases xs with
        | nil => simp at he
        | cons a l => simp
      simp only [List.flatten_cons]
      rw [chunksOf_flatten hk n (xs.drop k) (by rw [List.length_drop]; omega), List.take_append_drop]

theorem chunksOf_ne {α : Type} {k : Nat} (hk : 0 < k) : ∀ (n : Nat) (xs : List α),
    ∀ c ∈ chunksOf k n xs, c ≠ []
  | 0, _, c, h => by cases h
  | n + 1, xs, c, h => by
    unfold chunksOf at h
    split at h
    · cases h
    · rename_i he
      rcases List.mem_cons.1 h with rfl | h
      · intro ht
        have hl : 0 < xs.length := by
          cases xs with
          | nil => simp at he
          | cons a l => simp
        have := congrArg List.length ht
        rw [List.length_take, List.length_nil] at this
        omega
      · exact chunksOf_ne hk n _ c h

theorem chunksOf_count {α : Type} {k : Nat} (hk : 0 < k) : ∀ (n : Nat) (xs : List α),
    (chunksOf k n xs).length = 0 ∨ ((chunksOf k n xs).length - 1) * k < xs.length
  | 0, _ => Or.inl rfl
  | n + 1, xs => by
    unfold chunksOf
    split
    · exact Or.inl rfl
    · rename_i he
      have hl : 0 < xs.length := by
        cases xs with
        | nil => simp at he
        | cons a l => simp
      right
      simp only [List.length_cons, Nat.add_sub_cancel]
      rcases chunksOf_count hk n (xs.drop k) with h | h
      · rw [h]; simpa using hl
      · rw [List.length_drop] at h
        have : (chunksOf k n (List.drop k xs)).length * k =
            ((chunksOf k n (List.drop k xs)).length - 1) * k + k ∨
            (chunksOf k n (List.drop k xs)).length = 0 := by
          cases hc : (chunksOf k n (List.drop k xs)).length with
          | zero => exact Or.inr rfl
          | succ m => left; simp [Nat.succ_mul]
        rcases this with h2 | h2
        · omega
        · rw [h2]; simpa using hl

/-- C31: whatever `workers_num` is, if the strategies can be split at all the chunks are not
empty, there is at least one, and together they are the strategies in order. -/
theorem C31_partition (strategies : List (List PClass)) (workers : PyVal)
    (chunks : List (List (List PClass))) (h : strategyChunks strategies workers = .ok chunks) :
    chunks.flatten = strategies ∧ (∀ c ∈ chunks, c ≠ []) ∧ chunks ≠ [] := by
  unfold strategyChunks at h
  split at h
  · cases h
  · rename_i k hk
    split at h
    · cases h
    · rename_i hk0
      injection h with h
      subst h
      have hp : 0 < k := Nat.pos_of_ne_zero hk0
      have hf := chunksOf_flatten hp strategies.length strategies (le_refl _)
      refine ⟨hf, chunksOf_ne hp _ _, ?_⟩
      intro he
      rw [he] at hf
      have hs : strategies = [] := hf.symm
      subst hs
      apply hk0
      unfold perProcess at hk
      cases workers <;> simp at hk
      · split at hk
        · simpa using hk.symm
        · cases hk
      · exact hk.symm
      · exact hk.symm
      · exact hk.symm

/-- C31, number of chunks: a positive `workers_num` gives at most that many chunks, and the
strategies can be split unless there are none. -/
theorem C31_count (strategies : List (List PClass)) (k : Int) (hk : 0 < k) :
    (strategies ≠ [] → ∃ chunks, strategyChunks strategies (.int k) = .ok chunks) ∧
    ∀ chunks, strategyChunks strategies (.int k) = .ok chunks → (chunks.length : Int) ≤ k := by
  have hkq : (0 : Rat) < (k : Rat) := by exact_mod_cast hk
  constructor
  · intro hne
    unfold strategyChunks perProcess
    simp only
    rw [if_neg]
    · exact ⟨_, rfl⟩
    · have hl : 0 < strategies.length := List.length_pos_iff.2 hne
      have : 0 < ⌈(strategies.length : Rat) / (k : Rat)⌉ := by
        rw [Int.ceil_pos]
        exact div_pos (by exact_mod_cast hl) hkq
      omega
  · intro chunks h
    unfold strategyChunks perProcess at h
    simp only at h
    split at h
    · cases h
    · rename_i hk0
      injection h with h
      subst h
      generalize hm : ⌈(strategies.length : Rat) / (k : Rat)⌉.toNat = m at *
      have hmp : 0 < m := Nat.pos_of_ne_zero hk0
      have hge : (strategies.length : Rat) ≤ (m : Rat) * (k : Rat) := by
        have h1 := Int.le_ceil ((strategies.length : Rat) / (k : Rat))
        have h2 : (⌈(strategies.length : Rat) / (k : Rat)⌉ : Rat) = (m : Rat) := by
          rw [← hm]
          have : 0 ≤ ⌈(strategies.length : Rat) / (k : Rat)⌉ := by
            apply Int.ceil_nonneg
            exact div_nonneg (Nat.cast_nonneg _) (le_of_lt hkq)
          exact_mod_cast (Int.toNat_of_nonneg this).symm
        rw [h2, div_le_iff₀ hkq] at h1
        exact h1
      have hge' : (strategies.length : Int) ≤ (m : Int) * k := by exact_mod_cast hge
      rcases chunksOf_count hmp strategies.length strategies with h0 | h0
      · rw [h0]; simpa using le_of_lt hk
      · generalize (chunksOf m strategies.length strategies).length = c at *
        by_contra hcon
        push_neg at hcon
        have h3 : k ≤ ((c - 1 : Nat) : Int) := by omega
        have h4 : (m : Int) * k ≤ (((c - 1) * m : Nat) : Int) := by
          push_cast
          rw [mul_comm]
          exact mul_le_mul_of_nonneg_right h3 (by omega)
        omega

/-- C31, consequence: if the strategies are different, each is given to exactly one worker. -/
theorem C31_one_worker (strategies : List (List PClass)) (workers : PyVal)
    (chunks : List (List (List PClass))) (h : strategyChunks strategies workers = .ok chunks)
    (hnd : strategies.Nodup) (st : List PClass) (hst : st ∈ strategies) :
    ∃ (p : Nat), (∃ (c : List (List PClass)), chunks[p]? = some c ∧ st ∈ c) ∧
      ∀ (q : Nat), (∃ (c : List (List PClass)), chunks[q]? = some c ∧ st ∈ c) → q = p := by
  obtain ⟨h1, _, _⟩ := C31_partition strategies workers chunks h
  rw [← h1] at hst hnd
  obtain ⟨c, hc, hsc⟩ := List.mem_flatten.1 hst
  obtain ⟨p, hp, hpc⟩ := List.getElem_of_mem hc
  refine ⟨p, ⟨c, by rw [List.getElem?_eq_getElem hp, hpc], hsc⟩, ?_⟩
  rintro q ⟨c', hq, hsc'⟩
  by_contra hne
  obtain ⟨hq1, hq2⟩ := List.getElem?_eq_some_iff.1 hq
  have hpw := (List.nodup_flatten.1 hnd).2
  rw [List.pairwise_iff_getElem] at hpw
  rcases Nat.lt_or_gt_of_ne hne with hlt | hlt
  · exact hpw q p hq1 hp hlt (by rw [hq2]; exact hsc') (by rw [hpc]; exact hsc)
  · exact hpw p q hp hq1 hlt (by rw [hpc]; exact hsc) (by rw [hq2]; exact hsc')

/-- 720 strategies for 7 workers: 7 chunks, of 103 strategies except the last -/
example : (match strategyChunks (getStrategies id false true) (.int 7) with
    | .ok cs => cs.map List.length
    | .error _ => []) = [103, 103, 103, 103, 103, 103, 102] := by decide +kernel

/-! ### C32: the best surviving result -/

theorem multiHS_eq {E : Env} {M : MPParams} {strategies : List (List PClass)}
    {schedule : List (Nat × MPEvent)} {i w : Inst} {chunks : List (List (List PClass))}
    (hc : strategyChunks strategies i.workers = .ok chunks) (hw : workerInst E i = .ok w) :
    i.multiHS E M strategies schedule = mpFinish i (mpRun M w chunks schedule) := by
  unfold Inst.multiHS
  rw [hc]
  simp only
  rw [hw]

/-- `C32_best`, and the worker is the first of those with the greatest value; what it has put into its queue -/
theorem multi_winner (E : Env) (M : MPParams) (strategies : List (List PClass))
    (schedule : List (Nat × MPEvent)) (i w : Inst) (chunks : List (List (List PClass)))
    (hA : NonNeg M.ar) (hv : i.Valid) (hc : strategyChunks strategies i.workers = .ok chunks)
    (hw : workerInst E i = .ok w)
    (sol : Solution) (ov : ObjVals) (st : Option (List PClass))
    (hret : i.multiHS E M strategies schedule = .returned sol ov st) :
    ∃ (p : Nat) (chunk : List (List PClass)) (s : HSState), chunks[p]? = some chunk ∧
      ¬ Raised M w chunks schedule p ∧
      w.singleHS M.ar (M.clock p) M.start M.throttle chunk = .ok s ∧
      SamePacking sol s.finish.solution ∧ ov = s.finish.objVals ∧
      (∃ sol0 ov0, solve M.ar w.solveIn none = .ok (sol0, ov0) ∧
        ((st = none ∧ overall M.ar (ov.map (·.2)) = overall M.ar (ov0.map (·.2))) ∨
         (st = some s.bestStrategy ∧
            overall M.ar (ov0.map (·.2)) < overall M.ar (ov.map (·.2))))) ∧
      (∀ (q : Nat) (chunk' : List (List PClass)) (s' : HSState), chunks[q]? = some chunk' →
        ¬ Raised M w chunks schedule q → ¬ Killed schedule q →
        w.singleHS M.ar (M.clock q) M.start M.throttle chunk' = .ok s' →
        overall M.ar (s'.finish.objVals.map (·.2)) ≤ overall M.ar (ov.map (·.2)) ∧
        (q < p → overall M.ar (s'.finish.objVals.map (·.2)) < overall M.ar (ov.map (·.2)))) ∧
      ∃ m e, (mpRun M w chunks schedule).phases[p]? = some (.done m) ∧ (mpRun M w chunks schedule).arr[p]? = some e ∧
        (∀ e' ∈ (mpRun M w chunks schedule).arr, e' ≤ e) ∧ (∀ q, q < p → (mpRun M w chunks schedule).arr[q]? ≠ some e) ∧
        m.value = overall M.ar (ov.map (·.2)) ∧ m.strategy = st := by
  obtain ⟨w1, w2, w3, _⟩ := workerInst_spec hv hw
  obtain ⟨v0, h0, hinit, sol0, ov0, hs0, hv0⟩ := workerInit_spec (M := M) hA w1 (workerInst_num hw)
  have hrun := runInv w1 h0 hinit chunks schedule
  have hne : chunks ≠ [] := (C31_partition _ _ _ hc).2.2
  rw [multiHS_eq hc hw] at hret
  have hend : AllEnded M w chunks schedule := by
    rw [allEnded_iff]
    unfold mpFinish at hret
    split at hret
    · cases hret
    · rename_i h; simpa using h
  rcases mpFinish_spec w1 hv w2 w3 h0 hne hrun hend with ⟨h, _⟩ | h | ⟨_, _, _, _, _, _, h⟩
  · rw [h] at hret; cases hret
  · obtain ⟨p, chunk, m, e, s, sol', a1, a2, a3, a4, a5, a6, a7, a8, a9, a10, a11, a12, a13, a14⟩ := h
    rw [a6] at hret
    simp only [MPOutcome.returned.injEq] at hret
    obtain ⟨r1, r2, r3⟩ := hret
    have hval : overall M.ar (ov.map (·.2)) = s.best := by
      rw [← r2, a12, a9.overall w1 (workerInst_num hw)]
    refine ⟨p, chunk, s, a1, ?_, a8, ?_, ?_, ⟨sol0, ov0, hs0, ?_⟩, ?_,
      m, e, a2, a3, a4, a14, by rw [hval, a10], r3⟩
    · intro hR
      rcases (hrun.each _ _ _ _ a1 a2 a3).raised hR with h | ⟨_, h⟩
      · simp only [Phase.failed, beq_iff_eq] at h
        exact a5 h
      · cases h
    · rw [← r1]
      rw [a11] at a7
      exact a7
    · rw [← r2, a12]; rfl
    · rw [hval, ← hv0, ← r3]
      rcases a13 with ⟨b1, _, b3⟩ | ⟨b1, _, b3⟩
      · exact Or.inl ⟨b1, b3⟩
      · exact Or.inr ⟨b1, b3⟩
    · intro q chunk' s' hq hR hK hs'
      obtain ⟨hql, _⟩ := List.getElem?_eq_some_iff.1 hq
      obtain ⟨ph, hph⟩ : ∃ x, (mpRun M w chunks schedule).phases[q]? = some x :=
        ⟨_, List.getElem?_eq_getElem (by rw [hrun.phases]; exact hql)⟩
      obtain ⟨e', he'⟩ : ∃ x, (mpRun M w chunks schedule).arr[q]? = some x :=
        ⟨_, List.getElem?_eq_getElem (by rw [hrun.arr]; exact hql)⟩
      have hwq := hrun.each _ _ _ _ hq hph he'
      have hle := a4 e' (List.mem_of_getElem? he')
      rw [hval]
      cases ph with
      | done m' =>
        rcases (hwq.inv : MsgOk _ _ _ _ _ _ _ _ _) with ⟨h1, _⟩ | ⟨s'', g1, g2, g3, g4, g5, g6⟩
        · exact absurd (hwq.failed (by simp [Phase.failed, h1])) hR
        · rw [g1] at hs'
          injection hs' with hs'
          subst hs'
          have hv' : overall M.ar (s''.finish.objVals.map (·.2)) = s''.best :=
            g2.overall w1 (workerInst_num hw)
          rw [hv']
          have hfst : q < p → e' ≠ e := fun hqp he => a14 q hqp (by rw [he', he])
          rcases g6 with ⟨_, g7, g8⟩ | ⟨_, g7, g9⟩
          · rw [g8]
            refine ⟨a9.ge, fun hqp => ?_⟩
            rcases a13 with ⟨_, b2, _⟩ | ⟨_, b2, b3⟩
            · exact absurd (g7.trans b2.symm) (hfst hqp)
            · exact b3
          · rw [← g7]
            rcases a13 with ⟨_, b2, _⟩ | ⟨_, b2, _⟩
            · have h1 : e' ≤ 0 := by rw [← b2]; exact hle
              have h2 : 0 < e' := by rw [g7]; exact lt_of_le_of_lt h0 g9
              exact absurd h1 (not_le.2 h2)
            · rw [← b2]
              exact ⟨hle, fun hqp => lt_of_le_of_ne hle (hfst hqp)⟩
      | dead m' => exact absurd (hwq.dead m' rfl) hK
      | _ => exact absurd (hend q _ hph) (by simp [Phase.ended])
  · rw [h] at hret; cases hret

/-- `C32_best`, and the worker is the first of those with the greatest value -/
theorem multi_first (E : Env) (M : MPParams) (strategies : List (List PClass))
    (schedule : List (Nat × MPEvent)) (i w : Inst) (chunks : List (List (List PClass)))
    (hA : NonNeg M.ar) (hv : i.Valid) (hc : strategyChunks strategies i.workers = .ok chunks)
    (hw : workerInst E i = .ok w)
    (sol : Solution) (ov : ObjVals) (st : Option (List PClass))
    (hret : i.multiHS E M strategies schedule = .returned sol ov st) :
    ∃ (p : Nat) (chunk : List (List PClass)) (s : HSState), chunks[p]? = some chunk ∧
      ¬ Raised M w chunks schedule p ∧
      w.singleHS M.ar (M.clock p) M.start M.throttle chunk = .ok s ∧
      SamePacking sol s.finish.solution ∧ ov = s.finish.objVals ∧
      (∃ sol0 ov0, solve M.ar w.solveIn none = .ok (sol0, ov0) ∧
        ((st = none ∧ overall M.ar (ov.map (·.2)) = overall M.ar (ov0.map (·.2))) ∨
         (st = some s.bestStrategy ∧
            overall M.ar (ov0.map (·.2)) < overall M.ar (ov.map (·.2))))) ∧
      ∀ (q : Nat) (chunk' : List (List PClass)) (s' : HSState), chunks[q]? = some chunk' →
        ¬ Raised M w chunks schedule q → ¬ Killed schedule q →
        w.singleHS M.ar (M.clock q) M.start M.throttle chunk' = .ok s' →
        overall M.ar (s'.finish.objVals.map (·.2)) ≤ overall M.ar (ov.map (·.2)) ∧
        (q < p → overall M.ar (s'.finish.objVals.map (·.2)) < overall M.ar (ov.map (·.2))) := by
  obtain ⟨p, chunk, s, c1, c2, c3, c4, c5, c6, c7, _⟩ := multi_winner E M strategies schedule i w chunks hA hv hc hw sol ov st hret
  exact ⟨p, chunk, s, c1, c2, c3, c4, c5, c6, c7⟩

/-- C32: for every schedule - interleaving of the workers' steps, exceptions in workers at any
point, workers killed at any point - what a multi process search returns is the result of a
single process search over the strategies of a worker that did not raise, and its value is
maximal among all workers that neither raised nor were killed. -/
theorem C32_best (E : Env) (M : MPParams) (strategies : List (List PClass))
    (schedule : List (Nat × MPEvent)) (i w : Inst) (chunks : List (List (List PClass)))
    (hA : NonNeg M.ar) (hv : i.Valid) (hc : strategyChunks strategies i.workers = .ok chunks)
    (hw : workerInst E i = .ok w)
    (sol : Solution) (ov : ObjVals) (st : Option (List PClass))
    (hret : i.multiHS E M strategies schedule = .returned sol ov st) :
    ∃ (p : Nat) (chunk : List (List PClass)) (s : HSState), chunks[p]? = some chunk ∧
      ¬ Raised M w chunks schedule p ∧
      w.singleHS M.ar (M.clock p) M.start M.throttle chunk = .ok s ∧
      SamePacking sol s.finish.solution ∧ ov = s.finish.objVals ∧
      (∃ sol0 ov0, solve M.ar w.solveIn none = .ok (sol0, ov0) ∧
        ((st = none ∧ overall M.ar (ov.map (·.2)) = overall M.ar (ov0.map (·.2))) ∨
         (st = some s.bestStrategy ∧
            overall M.ar (ov0.map (·.2)) < overall M.ar (ov.map (·.2))))) ∧
      ∀ (q : Nat) (chunk' : List (List PClass)) (s' : HSState), chunks[q]? = some chunk' →
        ¬ Raised M w chunks schedule q → ¬ Killed schedule q →
        w.singleHS M.ar (M.clock q) M.start M.throttle chunk' = .ok s' →
        overall M.ar (s'.finish.objVals.map (·.2)) ≤ overall M.ar (ov.map (·.2)) := by
  obtain ⟨p, chunk, s, c1, c2, c3, c4, c5, c6, c7⟩ := multi_first E M strategies schedule i w chunks hA hv hc hw sol ov st hret
  exact ⟨p, chunk, s, c1, c2, c3, c4, c5, c6, fun q ch s' h1 h2 h3 h4 => (c7 q ch s' h1 h2 h3 h4).1⟩

/-- C32: and it does return, if no worker is killed and at least one does not raise. -/
theorem C32_returns (E : Env) (M : MPParams) (strategies : List (List PClass))
    (schedule : List (Nat × MPEvent)) (i w : Inst) (chunks : List (List (List PClass)))
    (hA : NonNeg M.ar) (hv : i.Valid) (hc : strategyChunks strategies i.workers = .ok chunks)
    (hw : workerInst E i = .ok w) (hend : AllEnded M w chunks schedule)
    (hkill : ∀ p, ¬ Killed schedule p)
    (hsome : ∃ p, p < chunks.length ∧ ¬ Raised M w chunks schedule p) :
    ∃ sol ov st, i.multiHS E M strategies schedule = .returned sol ov st := by
  obtain ⟨w1, w2, w3, _⟩ := workerInst_spec hv hw
  obtain ⟨v0, h0, hinit, _⟩ := workerInit_spec (M := M) hA w1 (workerInst_num hw)
  have hrun := runInv w1 h0 hinit chunks schedule
  have hne : chunks ≠ [] := (C31_partition _ _ _ hc).2.2
  rw [multiHS_eq hc hw]
  rcases mpFinish_spec w1 hv w2 w3 h0 hne hrun hend with ⟨_, h⟩ | h | ⟨p, e, h1, h2, _⟩
  · obtain ⟨p, hp, hR⟩ := hsome
    exfalso
    have hpa : p < (mpRun M w chunks schedule).arr.length := by rw [hrun.arr]; exact hp
    have hpp : p < (mpRun M w chunks schedule).phases.length := by rw [hrun.phases]; exact hp
    exact hR ((hrun.each p _ _ _ (List.getElem?_eq_getElem hp) (List.getElem?_eq_getElem hpp)
      (List.getElem?_eq_getElem hpa)).neg (h _ (List.getElem_mem hpa)))
  · obtain ⟨p, chunk, m, e, s, sol', a1, a2, a3, a4, a5, a6, _⟩ := h
    exact ⟨_, _, _, a6⟩
  · exfalso
    obtain ⟨hp, _⟩ := List.getElem?_eq_some_iff.1 h1
    rw [hrun.phases] at hp
    exact hkill p ((hrun.each p _ _ _ (List.getElem?_eq_getElem hp) h1 h2).dead none rfl)

/-! ### C33: MultiProcessError -/

/-- C33: when no worker is killed, a multi process search raises MultiProcessError if and only
if every worker raised. -/
theorem C33_iff (E : Env) (M : MPParams) (strategies : List (List PClass))
    (schedule : List (Nat × MPEvent)) (i w : Inst) (chunks : List (List (List PClass)))
    (hA : NonNeg M.ar) (hv : i.Valid) (hc : strategyChunks strategies i.workers = .ok chunks)
    (hw : workerInst E i = .ok w) (hend : AllEnded M w chunks schedule)
    (hkill : ∀ p, ¬ Killed schedule p) :
    (∃ msg, i.multiHS E M strategies schedule = .raised (.multiProcessError msg)) ↔
      ∀ p, p < chunks.length → Raised M w chunks schedule p := by
  constructor
  · rintro ⟨msg, h⟩ p hp
    by_contra hR
    obtain ⟨sol, ov, st, h'⟩ := C32_returns E M strategies schedule i w chunks hA hv hc hw hend hkill ⟨p, hp, hR⟩
    rw [h] at h'; cases h'
  · intro hall
    obtain ⟨w1, w2, w3, _⟩ := workerInst_spec hv hw
    obtain ⟨v0, h0, hinit, _⟩ := workerInit_spec (M := M) hA w1 (workerInst_num hw)
    have hrun := runInv w1 h0 hinit chunks schedule
    have hne : chunks ≠ [] := (C31_partition _ _ _ hc).2.2
    rw [multiHS_eq hc hw]
    rcases mpFinish_spec w1 hv w2 w3 h0 hne hrun hend with ⟨h, _⟩ | h | ⟨p, e, h1, h2, _⟩
    · exact ⟨_, h⟩
    · obtain ⟨p, chunk, m, e, s, sol', a1, a2, a3, a4, a5, a6, _⟩ := h
      exfalso
      obtain ⟨hp, _⟩ := List.getElem?_eq_some_iff.1 a1
      rcases (hrun.each _ _ _ _ a1 a2 a3).raised (hall p hp) with h | ⟨_, h⟩
      · simp only [Phase.failed, beq_iff_eq] at h
        exact a5 h
      · cases h
    · exfalso
      obtain ⟨hp, _⟩ := List.getElem?_eq_some_iff.1 h1
      rw [hrun.phases] at hp
      exact hkill p ((hrun.each p _ _ _ (List.getElem?_eq_getElem hp) h1 h2).dead none rfl)

/-- C33 with workers being killed: MultiProcessError still means that every worker raised, and it
is the only exception a search with a legal problem can end with. -/
theorem C33_only_if (E : Env) (M : MPParams) (strategies : List (List PClass))
    (schedule : List (Nat × MPEvent)) (i w : Inst) (chunks : List (List (List PClass)))
    (hA : NonNeg M.ar) (hv : i.Valid) (hc : strategyChunks strategies i.workers = .ok chunks)
    (hw : workerInst E i = .ok w) (e : PyErr)
    (h : i.multiHS E M strategies schedule = .raised e) :
    e = .multiProcessError "ALL_PROCESSES_FAILED" ∧
      ∀ p, p < chunks.length → Raised M w chunks schedule p := by
  obtain ⟨w1, w2, w3, _⟩ := workerInst_spec hv hw
  obtain ⟨v0, h0, hinit, _⟩ := workerInit_spec (M := M) hA w1 (workerInst_num hw)
  have hrun := runInv w1 h0 hinit chunks schedule
  have hne : chunks ≠ [] := (C31_partition _ _ _ hc).2.2
  rw [multiHS_eq hc hw] at h
  have hend : AllEnded M w chunks schedule := by
    rw [allEnded_iff]
    unfold mpFinish at h
    split at h
    · cases h
    · rename_i hx; simpa using hx
  rcases mpFinish_spec w1 hv w2 w3 h0 hne hrun hend with ⟨h', hall⟩ | h' | ⟨_, _, _, _, _, _, h'⟩
  · rw [h'] at h
    injection h with h
    refine ⟨h.symm, ?_⟩
    intro p hp
    have hpa : p < (mpRun M w chunks schedule).arr.length := by rw [hrun.arr]; exact hp
    have hpp : p < (mpRun M w chunks schedule).phases.length := by rw [hrun.phases]; exact hp
    exact (hrun.each p _ _ _ (List.getElem?_eq_getElem hp) (List.getElem?_eq_getElem hpp)
      (List.getElem?_eq_getElem hpa)).neg (hall _ (List.getElem_mem hpa))
  · obtain ⟨_, _, _, _, _, _, _, _, _, _, _, h', _⟩ := h'
    rw [h'] at h; cases h
  · rw [h'] at h; cases h

/-- C33: nobody raises if nobody is told to and no exception comes from outside: the code of the
workers itself never raises. -/
theorem C33_none_raised (M : MPParams) (w : Inst) (chunks : List (List (List PClass)))
    (schedule : List (Nat × MPEvent)) (hforce : ∀ p, M.force p = false)
    (hraise : ∀ p, (p, MPEvent.raise) ∉ schedule) (p : Nat) : ¬ Raised M w chunks schedule p := by
  rintro ⟨b, ev, a, ph, h1, _, ⟨h2, _⟩ | ⟨_, _, h2⟩⟩
  · subst h2
    exact hraise p (by rw [h1]; simp)
  · rw [hforce p] at h2; cases h2

/-! ### C35, C57: ending -/

/-- every worker that has made `4 n + 5` steps, where `n` is the number of its strategies, has
ended - provided messages fit into the pipe -/
theorem C57_ends (M : MPParams) (w : Inst) (chunks : List (List (List PClass)))
    (schedule : List (Nat × MPEvent)) (hfit : ∀ m, M.fits m = true)
    (hfair : ∀ (p : Nat) chunk, chunks[p]? = some chunk →
      4 * chunk.length + 5 ≤ schedule.count (p, .step)) :
    AllEnded M w chunks schedule := by
  obtain ⟨l1, h⟩ := rank_run hfit w chunks schedule
  intro p ph hp
  obtain ⟨hlt, _⟩ := List.getElem?_eq_some_iff.1 hp
  rw [l1] at hlt
  have hc := List.getElem?_eq_getElem hlt
  have h1 := h p _ ph hc hp
  have h2 := hfair p _ hc
  exact rank_zero (chunk := chunks[p]) (by omega)

/-- C57, what holds: if the workers' messages fit into the pipe and no worker is killed, the
search comes back as soon as each worker has made enough steps, whatever exceptions the
workers raise. -/
theorem C57_partial (E : Env) (M : MPParams) (strategies : List (List PClass))
    (schedule : List (Nat × MPEvent)) (i w : Inst) (chunks : List (List (List PClass)))
    (hA : NonNeg M.ar) (hv : i.Valid) (hc : strategyChunks strategies i.workers = .ok chunks)
    (hw : workerInst E i = .ok w) (hfit : ∀ m, M.fits m = true)
    (hfair : ∀ (p : Nat) chunk, chunks[p]? = some chunk →
      4 * chunk.length + 5 ≤ schedule.count (p, .step))
    (hkill : ∀ p, ¬ Killed schedule p) :
    i.multiHS E M strategies schedule ≠ .blocked := by
  have hend := C57_ends M w chunks schedule hfit hfair
  by_cases hall : ∀ p, p < chunks.length → Raised M w chunks schedule p
  · obtain ⟨msg, h⟩ := (C33_iff E M strategies schedule i w chunks hA hv hc hw hend hkill).2 hall
    rw [h]; simp
  · simp only [not_forall] at hall
    obtain ⟨p, hp, hR⟩ := hall
    obtain ⟨_, _, _, h⟩ := C32_returns E M strategies schedule i w chunks hA hv hc hw hend hkill ⟨p, hp, hR⟩
    rw [h]; simp

theorem mpStep_notDone {M : MPParams} {w : Inst} {chunks : List (List (List PClass))}
    (hfit : ∀ m, M.fits m = false) {s : MPState} (hs : ∀ ph ∈ s.phases, ph.ended = false)
    {ev : Nat × MPEvent} (hev : ev.2 ≠ .kill) : ∀ ph ∈ (mpStep M w chunks s ev).phases, ph.ended = false := by
  unfold mpStep
  split
  · rename_i ph0 chunk hph hch
    have h0 := hs ph0 (List.mem_of_getElem? hph)
    have key : ∀ ph1 : Phase, ph1.ended = false → ∀ ph ∈ s.phases.set ev.1 ph1, ph.ended = false := by
      intro ph1 h1 ph hph
      rcases List.mem_or_eq_of_mem_set hph with h | h
      · exact hs ph h
      · rw [h]; exact h1
    split
    · simp only
      apply key
      cases ph0 with
      | start =>
        unfold workerStep
        simp only
        split
        · rfl
        · split <;> rfl
      | loop v rest =>
        cases rest with
        | nil => rfl
        | cons st rest =>
          unfold workerStep
          simp only
          split <;> rfl
      | searched v new st rest =>
        unfold workerStep
        simp only
        split <;> rfl
      | read v new opt st rest =>
        unfold workerStep
        simp only
        split
        · split
          · rfl
          · split <;> rfl
        · rfl
      | check v opt rest =>
        unfold workerStep
        simp only
        split <;> rfl
      | put v => rfl
      | failing => rfl
      | failPut => rfl
      | buffered m => simp [workerStep, hfit, Phase.ended]
      | done m => cases h0
      | dead m => cases h0
    · simp only
      apply key
      cases ph0 <;> first | rfl | cases h0
    · rename_i hk; exact absurd hk hev
  · exact hs

/-- C57 is false of the code: `join()` is called before the queue is read, so a worker whose
message does not fit into the pipe never ends and the search never comes back - for every
problem, every number of workers and every schedule. -/
theorem C57_refuted (E : Env) (M : MPParams) (strategies : List (List PClass))
    (schedule : List (Nat × MPEvent)) (i w : Inst) (chunks : List (List (List PClass)))
    (hc : strategyChunks strategies i.workers = .ok chunks)
    (hw : workerInst E i = .ok w) (hfit : ∀ m, M.fits m = false)
    (hkill : ∀ p, ¬ Killed schedule p) :
    i.multiHS E M strategies schedule = .blocked := by
  rw [multiHS_eq hc hw]
  have hne : chunks ≠ [] := (C31_partition _ _ _ hc).2.2
  have hnd : ∀ (sch : List (Nat × MPEvent)), (∀ p, ¬ Killed sch p) →
      (∀ ph ∈ (mpRun M w chunks sch).phases, ph.ended = false) ∧
      (mpRun M w chunks sch).phases.length = chunks.length := by
    intro sch
    induction sch using List.reverseRecOn with
    | nil =>
      intro _
      refine ⟨?_, by simp [mpRun]⟩
      intro ph hph
      simp only [mpRun, List.foldl_nil, List.mem_map] at hph
      obtain ⟨_, _, rfl⟩ := hph
      rfl
    | append_singleton sch ev ih =>
      intro hk
      obtain ⟨i1, i2⟩ := ih (fun p h => hk p (h.mono ev))
      rw [mpRun_snoc]
      refine ⟨mpStep_notDone hfit i1 ?_, ?_⟩
      · intro he
        apply hk ev.1
        simp only [Killed, List.mem_append, List.mem_singleton]
        right
        rw [← he]
      · unfold mpStep
        split
        · split <;> simp [i2]
        · exact i2
  obtain ⟨h1, h2⟩ := hnd schedule hkill
  unfold mpFinish
  have : (mpRun M w chunks schedule).phases.all Phase.ended = false := by
    rw [List.all_eq_false]
    cases hp : (mpRun M w chunks schedule).phases with
    | nil =>
      rw [hp] at h2
      exact absurd (List.length_eq_zero_iff.1 h2.symm) hne
    | cons a l => exact ⟨a, by simp, by rw [h1 a (by rw [hp]; simp)]; simp⟩
  rw [this]
  simp

/-- C35, what holds: killing processes after all of them have ended (or any other event then) changes nothing,
so a search that would come back still does. -/
theorem C35_after_partial (E : Env) (M : MPParams) (strategies : List (List PClass))
    (schedule more : List (Nat × MPEvent)) (i w : Inst) (chunks : List (List (List PClass)))
    (hc : strategyChunks strategies i.workers = .ok chunks)
    (hw : workerInst E i = .ok w) (hend : AllEnded M w chunks schedule) :
    i.multiHS E M strategies (schedule ++ more) = i.multiHS E M strategies schedule := by
  have hsame : ∀ more : List (Nat × MPEvent),
      mpRun M w chunks (schedule ++ more) = mpRun M w chunks schedule := by
    intro more
    unfold mpRun
    rw [List.foldl_append]
    have hs : ∀ s : MPState, (∀ (p : Nat) (ph : Phase), s.phases[p]? = some ph → ph.ended = true) →
        ∀ e, mpStep M w chunks s e = s := by
      intro s h e
      unfold mpStep
      split
      · rename_i ph chunk hp _
        have he := h _ _ hp
        have hset : s.phases.set e.1 ph = s.phases := by
          obtain ⟨hl, hg⟩ := List.getElem?_eq_some_iff.1 hp
          rw [← hg]; exact List.set_getElem_self hl
        have hst : workerStep M e.1 w chunk ph s.arr = (ph, s.arr) := by
          cases ph <;> simp [Phase.ended] at he <;> rfl
        have hra : ph.raise = ph := by cases ph <;> simp [Phase.ended] at he <;> rfl
        have hki : ph.kill = ph := by cases ph <;> simp [Phase.ended] at he <;> rfl
        split
        · rw [hst]; simp only [hset]
        · rw [hra, hset]
        · rw [hki, hset]
      · rfl
    induction more with
    | nil => rfl
    | cons e more ih =>
      rw [List.foldl_cons]
      have := hs _ hend e
      unfold mpRun at this
      rw [this]; exact ih
  unfold Inst.multiHS
  rw [hc]
  simp only
  rw [hw]
  simp only
  rw [hsame]

/-- C35 is false of the code: if the workers are killed right after their start, the search never
comes back, for every problem and every number of workers. -/
theorem C35_refuted (E : Env) (M : MPParams) (strategies : List (List PClass)) (i w : Inst)
    (chunks : List (List (List PClass))) (hc : strategyChunks strategies i.workers = .ok chunks)
    (hw : workerInst E i = .ok w) (schedule : List (Nat × MPEvent))
    (hsch : schedule = (List.range chunks.length).map (fun p => (p, MPEvent.kill))) :
    AllEnded M w chunks schedule ∧ i.multiHS E M strategies schedule = .blocked := by
  have hne : chunks ≠ [] := (C31_partition _ _ _ hc).2.2
  have hrun : ∀ n, n ≤ chunks.length →
      (mpRun M w chunks ((List.range n).map (fun p => (p, MPEvent.kill)))).arr = chunks.map (fun _ => 0) ∧
      (mpRun M w chunks ((List.range n).map (fun p => (p, MPEvent.kill)))).phases =
        List.replicate n (.dead none) ++ List.replicate (chunks.length - n) .start := by
    intro n
    induction n with
    | zero =>
      intro _
      refine ⟨by simp [mpRun], ?_⟩
      simp [mpRun, List.map_const']
    | succ n ih =>
      intro hn
      obtain ⟨i1, i2⟩ := ih (by omega)
      rw [List.range_succ, List.map_append, List.map_singleton, mpRun_snoc]
      unfold mpStep
      have hget : (mpRun M w chunks ((List.range n).map (fun p => (p, MPEvent.kill)))).phases[n]? =
          some .start := by
        rw [i2, List.getElem?_append_right (by simp)]
        simp only [List.length_replicate, Nat.sub_self]
        rw [List.getElem?_replicate]
        rw [if_pos (by omega)]
      simp only
      rw [hget, List.getElem?_eq_getElem (by omega)]
      simp only [Phase.kill]
      refine ⟨i1, ?_⟩
      rw [i2, List.set_append_right _ _ (by simp)]
      simp only [List.length_replicate, Nat.sub_self]
      obtain ⟨k, hk⟩ : ∃ k, chunks.length - n = k + 1 := ⟨chunks.length - n - 1, by omega⟩
      rw [hk, List.replicate_succ, List.set_cons_zero]
      have hk' : chunks.length - (n + 1) = k := by omega
      rw [hk', show List.replicate (n + 1) (Phase.dead none) = List.replicate n (.dead none) ++ [.dead none] from
        List.replicate_succ']
      simp
  obtain ⟨r1, r2⟩ := hrun chunks.length (le_refl _)
  rw [← hsch] at r1 r2
  simp only [Nat.sub_self, List.replicate_zero, List.append_nil] at r2
  have hend : AllEnded M w chunks schedule := by
    intro p ph hp
    rw [r2] at hp
    have := List.mem_of_getElem? hp
    rw [List.mem_replicate] at this
    rw [this.2]; rfl
  refine ⟨hend, ?_⟩
  rw [multiHS_eq hc hw]
  rw [allEnded_iff] at hend
  unfold mpFinish
  rw [hend]
  simp only [Bool.not_true, Bool.false_eq_true, if_false]
  obtain ⟨c, cs, hcs⟩ := List.exists_cons_of_ne_nil hne
  have hmax : arrayMax (mpRun M w chunks schedule).arr = some 0 := by
    rw [r1, hcs]
    simp only [List.map_cons, arrayMax, Option.some.injEq]
    obtain ⟨h1, _, _⟩ := foldl_max_spec (cs.map (fun _ => (0 : Rat))) 0
    rcases h1 with h1 | h1
    · exact h1
    · obtain ⟨_, _, h⟩ := List.mem_map.1 h1
      exact h.symm
  rw [hmax]
  simp only
  rw [if_neg (by norm_num)]
  have hidx : firstIdx 0 (mpRun M w chunks schedule).arr = 0 := by
    rw [r1, hcs]
    simp [firstIdx]
  rw [hidx, r2, hcs]
  simp [Phase.message]

/-- C35, what holds: the search comes back if no killed worker has recorded a result in the
shared array and some worker that was neither killed nor raised improved on the initial
solution.  (Without killed workers see `C57_partial`.) -/
theorem C35_partial (E : Env) (M : MPParams) (strategies : List (List PClass))
    (schedule : List (Nat × MPEvent)) (i w : Inst) (chunks : List (List (List PClass)))
    (hA : NonNeg M.ar) (hv : i.Valid) (hc : strategyChunks strategies i.workers = .ok chunks)
    (hw : workerInst E i = .ok w) (hend : AllEnded M w chunks schedule)
    (hearly : ∀ p e, Killed schedule p → (mpRun M w chunks schedule).arr[p]? = some e → e = 0)
    (q : Nat) (chunk : List (List PClass)) (s : HSState) (hq : chunks[q]? = some chunk)
    (hqR : ¬ Raised M w chunks schedule q) (hqK : ¬ Killed schedule q)
    (hs : w.singleHS M.ar (M.clock q) M.start M.throttle chunk = .ok s)
    (sol0 : Solution) (ov0 : ObjVals) (h0 : solve M.ar w.solveIn none = .ok (sol0, ov0))
    (himp : overall M.ar (ov0.map (·.2)) < overall M.ar (s.finish.objVals.map (·.2))) :
    ∃ sol ov st, i.multiHS E M strategies schedule = .returned sol ov st := by
  obtain ⟨w1, w2, w3, _⟩ := workerInst_spec hv hw
  obtain ⟨v0, hv0, hinit, sol0', ov0', g1, g2⟩ := workerInit_spec (M := M) hA w1 (workerInst_num hw)
  rw [h0] at g1
  injection g1 with g1
  injection g1 with g1 g1'
  subst g1 g1'
  have hrun := runInv w1 hv0 hinit chunks schedule
  have hne : chunks ≠ [] := (C31_partition _ _ _ hc).2.2
  rw [multiHS_eq hc hw]
  -- the entry of worker q is positive
  obtain ⟨hql, _⟩ := List.getElem?_eq_some_iff.1 hq
  obtain ⟨ph, hph⟩ : ∃ x, (mpRun M w chunks schedule).phases[q]? = some x :=
    ⟨_, List.getElem?_eq_getElem (by rw [hrun.phases]; exact hql)⟩
  obtain ⟨e, he⟩ : ∃ x, (mpRun M w chunks schedule).arr[q]? = some x :=
    ⟨_, List.getElem?_eq_getElem (by rw [hrun.arr]; exact hql)⟩
  have hwq := hrun.each _ _ _ _ hq hph he
  have hpos : 0 < e := by
    cases ph with
    | done m =>
      rcases (hwq.inv : MsgOk _ _ _ _ _ _ _ _ _) with ⟨h1, _⟩ | ⟨s', k1, k2, k3, k4, k5, k6⟩
      · exact absurd (hwq.failed (by simp [Phase.failed, h1])) hqR
      · rw [k1] at hs
        injection hs with hs
        subst hs
        have hb : overall M.ar (s'.finish.objVals.map (·.2)) = s'.best := k2.overall w1 (workerInst_num hw)
        rw [hb, ← g2] at himp
        rcases k6 with ⟨_, _, k⟩ | ⟨_, k, _⟩
        · rw [k] at himp; exact absurd himp (lt_irrefl _)
        · rw [k]; exact lt_of_le_of_lt hv0 himp
    | dead m' => exact absurd (hwq.dead m' rfl) hqK
    | _ => exact absurd (hend q _ hph) (by simp [Phase.ended])
  rcases mpFinish_spec w1 hv w2 w3 hv0 hne hrun hend with ⟨_, h⟩ | h | ⟨p, e', h1, h2, h3, _⟩
  · have := h e (List.mem_of_getElem? he)
    rw [this] at hpos
    exact absurd hpos (by norm_num)
  · obtain ⟨p, chunk, m, e, s, sol', a1, a2, a3, a4, a5, a6, _⟩ := h
    exact ⟨_, _, _, a6⟩
  · exfalso
    obtain ⟨hp, _⟩ := List.getElem?_eq_some_iff.1 h1
    rw [hrun.phases] at hp
    have hk := (hrun.each p _ _ _ (List.getElem?_eq_getElem hp) h1 h2).dead none rfl
    have := hearly p e' hk h2
    have hle := h3 e (List.mem_of_getElem? he)
    rw [this] at hle
    exact absurd hpos (not_lt.2 hle)

theorem workerStep_length (M : MPParams) (p : Nat) (w : Inst) (chunk : List (List PClass)) (ph : Phase)
    (arr : List Rat) : (workerStep M p w chunk ph arr).2.length = arr.length := by
  unfold workerStep
  simp only
  repeat' split
  all_goals simp

theorem mpRun_lengths {M : MPParams} {w : Inst} {chunks : List (List (List PClass))}
    {sch : List (Nat × MPEvent)} :
    (mpRun M w chunks sch).phases.length = chunks.length ∧ (mpRun M w chunks sch).arr.length = chunks.length := by
  induction sch using List.reverseRecOn with
  | nil => simp [mpRun]
  | append_singleton l ev ih =>
    rw [mpRun_snoc]
    unfold mpStep
    split
    · split
      · simp only [List.length_set, workerStep_length]; exact ih
      · simp only [List.length_set]; exact ih
      · simp only [List.length_set]; exact ih
    · exact ih

theorem firstIdx_unique {m : Rat} {l : List Rat} {p : Nat} (hp : l[p]? = some m)
    (hf : ∀ q, q < p → l[q]? ≠ some m) : firstIdx m l = p := by
  have h1 := firstIdx_spec (List.mem_of_getElem? hp)
  rcases Nat.lt_trichotomy (firstIdx m l) p with h | h | h
  · exact absurd h1 (hf _ h)
  · exact h
  · exact absurd hp (firstIdx_first h)

/-- C35, exactly when the search hangs although all worker processes have ended: the first worker
whose entry of the shared array is the greatest one, and not the mark -1 of a failure, is one that
was killed before its message was in the pipe. -/
theorem C35_exact_partial (E : Env) (M : MPParams) (strategies : List (List PClass))
    (schedule : List (Nat × MPEvent)) (i w : Inst) (chunks : List (List (List PClass)))
    (hc : strategyChunks strategies i.workers = .ok chunks)
    (hw : workerInst E i = .ok w) (hend : AllEnded M w chunks schedule) :
    i.multiHS E M strategies schedule = .blocked ↔
      ∃ (p : Nat) (e : Rat), (mpRun M w chunks schedule).phases[p]? = some (Phase.dead none) ∧
        (mpRun M w chunks schedule).arr[p]? = some e ∧ e ≠ -1 ∧
        (∀ e' ∈ (mpRun M w chunks schedule).arr, e' ≤ e) ∧
        ∀ q, q < p → (mpRun M w chunks schedule).arr[q]? ≠ some e := by
  rw [multiHS_eq hc hw]
  have hend' := hend
  rw [allEnded_iff] at hend'
  unfold mpFinish
  rw [hend']
  simp only [Bool.not_true, Bool.false_eq_true, if_false]
  constructor
  · intro h
    cases hm : arrayMax (mpRun M w chunks schedule).arr with
    | none => rw [hm] at h; cases h
    | some m =>
      rw [hm] at h
      simp only at h
      obtain ⟨h1, h2⟩ := arrayMax_spec hm
      split at h
      · cases h
      · rename_i hne
        refine ⟨firstIdx m (mpRun M w chunks schedule).arr, m, ?_, firstIdx_spec h1, hne, h2,
          fun q hq => firstIdx_first hq⟩
        have hlt : firstIdx m (mpRun M w chunks schedule).arr < (mpRun M w chunks schedule).phases.length := by
          have hl := (List.getElem?_eq_some_iff.1 (firstIdx_spec h1)).1
          rw [mpRun_lengths.1]
          rw [mpRun_lengths.2] at hl
          exact hl
        have hg := List.getElem?_eq_getElem hlt
        rw [hg] at h ⊢
        have he := hend _ _ hg
        cases hph : (mpRun M w chunks schedule).phases[firstIdx m (mpRun M w chunks schedule).arr] with
        | dead mm =>
          cases mm with
          | none => rfl
          | some msg =>
            rw [hph] at h
            simp only [Option.bind_some, Phase.message] at h
            split at h <;> cases h
        | done msg =>
          rw [hph] at h
          simp only [Option.bind_some, Phase.message] at h
          split at h <;> cases h
        | _ => rw [hph] at he; cases he
  · rintro ⟨p, e, h1, h2, h3, h4, h5⟩
    have hmem := List.mem_of_getElem? h2
    cases hm : arrayMax (mpRun M w chunks schedule).arr with
    | none =>
      cases ha : (mpRun M w chunks schedule).arr with
      | nil => rw [ha] at hmem; cases hmem
      | cons a l => rw [ha] at hm; cases hm
    | some m =>
      obtain ⟨g1, g2⟩ := arrayMax_spec hm
      have : m = e := le_antisymm (h4 m g1) (g2 e hmem)
      subst this
      simp only
      rw [if_neg h3, firstIdx_unique h2 h5, h1]
      rfl

end HP
