import Verif.Model.SearchLog
import Verif.Props.HyperSearch
import Verif.Props.MultiProcess
import Verif.Props.Workers
/-
Property C129: what hypersearch() with one worker reports is right.
-/
namespace HP
open Spec

/-- what is reported of strategies, tried one after the other, with the values their searches end with: the strategy, and the
value if it is larger than all before -/
def Spec.told : Rat → List (List PClass × Rat) → List HyperLine
  | _, [] => []
  | b, q :: rest => .strategy q.1 :: ((if b < q.2 then [.newBest q.2] else []) ++ told (max b q.2) rest)

/-- the strategies that are shown -/
def Spec.shown (l : List HyperLine) : List (List PClass) := l.filterMap fun x => match x with | .strategy s => some s | _ => none

/-- the values that are shown -/
def Spec.bests (l : List HyperLine) : List Rat := l.filterMap fun x => match x with | .newBest v => some v | _ => none

/-- one pass: the record of the strategy, that of the value if it is larger, and that of the time -/
theorem hsStepLog_step {A : Arith} {clock : Nat → Rat} {start : Rat} {throttle : Bool} {st : List PClass} {s s' : HSState}
    {b : Bool} (h : hsStep A clock start throttle st s = .ok (s', b)) :
    ∃ v, s'.tried = s.tried ++ [(st, v)] ∧
      hsStepLog A clock start throttle st s =
        .ok (s', .strategy st :: ((if s.best < v then [.newBest v] else []) ++ (if b then [.surpassed] else [])), b) ∧
      s'.best = max s.best v ∧ s'.bestStrategy = if s.best < v then st else s.bestStrategy := by
  unfold hsStep at h
  unfold hsStepLog
  simp only [bind, Except.bind, pure, Except.pure] at h ⊢
  cases hr : ({ s.inst with strategy := st } : Inst).localSearch A (fun k => clock (s.tick + k)) start throttle with
  | error e => rw [hr] at h; cases h
  | ok r =>
    rw [hr] at h
    simp only at h ⊢
    cases hv : r.1.calcObj A with
    | error e => rw [hv] at h; cases h
    | ok v =>
      rw [hv] at h
      simp only [checkSolution, globalCheck, optimumObjVal] at h ⊢
      by_cases hc : s.best < v
      · simp only [gt_iff_lt, hc, decide_true, if_true] at h ⊢
        cases hg : r.1.getSolution with
        | error e => rw [hg] at h; cases h
        | ok sol =>
          rw [hg] at h
          simp only [Bool.false_eq_true, if_false] at h ⊢
          injection h with h
          injection h with h1 h2
          subst h1 h2
          refine ⟨v, rfl, ?_, ?_, by simp [hc]⟩
          · split <;> simp [*]
          · simp only; exact (max_eq_right (le_of_lt hc)).symm
      · simp only [gt_iff_lt, hc, decide_false, Bool.false_eq_true, if_false] at h ⊢
        injection h with h
        injection h with h1 h2
        subst h1 h2
        refine ⟨v, rfl, ?_, ?_, by simp [hc]⟩
        · split <;> simp [*]
        · simp only; exact (max_eq_left (not_lt.1 hc)).symm

/-- the strategy of the last strategy that was better than all before -/
def bestOf : List PClass → Rat → List (List PClass × Rat) → List PClass
  | d, _, [] => d
  | d, b, q :: rest => bestOf (if b < q.2 then q.1 else d) (max b q.2) rest

theorem hsLoopLog_spec {A : Arith} {clock : Nat → Rat} {start : Rat} {throttle : Bool} {i : Inst}
    (hv : i.Valid) {v0 : Rat} : ∀ (sts : List (List PClass)) {s : HSState},
    HSInv A clock start throttle i v0 s →
    ∃ s' used late, hsLoop A clock start throttle sts s = .ok s' ∧
      hsLoopLog A clock start throttle sts s = .ok (s', told s.best used ++ (if late then [.surpassed] else [])) ∧
      s'.tried = s.tried ++ used ∧ used.map (·.1) <+: sts ∧ (late = false → used.map (·.1) = sts) ∧
      s'.bestStrategy = bestOf s.bestStrategy s.best used ∧
      s'.best = used.foldl (fun x q => max x q.2) s.best ∧ s.tick + used.length ≤ s'.tick ∧
      (used ≠ [] → (late = true ↔ outOfTime A (clock (s'.tick - 1)) start i.maxTime = true)) ∧ (used = [] → late = false)
  | [], s, hs => ⟨s, [], false, rfl, rfl, by simp, List.prefix_refl _, fun _ => rfl, rfl, rfl, by simp, fun h => absurd rfl h,
      fun _ => rfl⟩
  | st :: rest, s, hs => by
    obtain ⟨s1, b, v, h1, h2, h3, h4, h5, h6⟩ := hsStep_spec hv hs st
    obtain ⟨v', g1, g2, g3, g4⟩ := hsStepLog_step h1
    rw [h3] at g1
    have hvv : v = v' := by simpa using g1
    subst hvv
    cases hb : b with
    | true =>
      subst hb
      refine ⟨s1, [(st, v)], true, ?_, ?_, h3, ⟨rest, rfl⟩, by simp, ?_, g3,
        by simp only [List.length_singleton]; omega, ?_, by simp⟩
      · unfold hsLoop
        simp only [bind, Except.bind, h1, if_true, pure, Except.pure]
      · unfold hsLoopLog
        simp only [bind, Except.bind, g2, if_true, pure, Except.pure, told, List.append_nil, List.cons_append]
      · rw [g4]; rfl
      · intro _
        simp only [true_iff]
        exact h6.symm
    | false =>
      subst hb
      obtain ⟨s2, used, late, k1, k2, k3, k4, k5, k6, k10, k7, k8, k9⟩ := hsLoopLog_spec hv rest h2
      refine ⟨s2, (st, v) :: used, late, ?_, ?_, ?_, ?_, ?_, ?_, ?_, ?_, ?_, by simp⟩
      · unfold hsLoop
        simp only [bind, Except.bind, h1, Bool.false_eq_true, if_false]
        exact k1
      · unfold hsLoopLog
        simp only [bind, Except.bind, g2, Bool.false_eq_true, if_false, k2, pure, Except.pure, told, List.append_nil,
          List.cons_append, g3, List.append_assoc]
      · rw [k3, h3]; simp
      · obtain ⟨t, ht⟩ := k4
        exact ⟨t, by rw [← ht]; rfl⟩
      · intro hl; simp [k5 hl]
      · rw [k6, g4, g3]; rfl
      · rw [k10, g3]; rfl
      · simp only [List.length_cons]; omega
      · intro _
        by_cases hu : used = []
        · rw [k9 hu]
          subst hu
          have hs2 : s2 = s1 := by
            have hr : rest = [] := by simpa using (k5 (k9 rfl)).symm
            subst hr
            simpa [hsLoop] using k1.symm
          subst hs2
          rw [← h6]
        · exact k8 hu

/-! ### what a reader of the records learns -/

theorem told_read : ∀ (b : Rat) (l : List (List PClass × Rat)), shown (told b l) = l.map (·.1) ∧
    (b :: bests (told b l)).Pairwise (· < ·) ∧ (∀ q ∈ l, ∃ w ∈ b :: bests (told b l), q.2 ≤ w) ∧
    (∀ w ∈ bests (told b l), w ∈ l.map (·.2)) ∧ (∀ x ∈ told b l, (∃ st, x = .strategy st) ∨ ∃ v, x = .newBest v)
  | b, [] => by simp [told, shown, bests]
  | b, q :: rest => by
    obtain ⟨h1, h2, h3, h4, h5⟩ := told_read (max b q.2) rest
    by_cases hc : b < q.2
    · rw [max_eq_right (le_of_lt hc)] at h1 h2 h3 h4 h5
      have e : bests (told b (q :: rest)) = q.2 :: bests (told q.2 rest) := by
        simp [told, bests, hc, max_eq_right (le_of_lt hc)]
      rw [e]
      refine ⟨?_, ?_, ?_, ?_, ?_⟩
      · unfold shown at *
        simp [told, hc, max_eq_right (le_of_lt hc), h1]
      · rw [List.pairwise_cons]
        refine ⟨?_, h2⟩
        intro w hw
        rcases List.mem_cons.1 hw with rfl | hw
        · exact hc
        · exact lt_trans hc ((List.pairwise_cons.1 h2).1 w hw)
      · intro p hp
        rcases List.mem_cons.1 hp with rfl | hp
        · exact ⟨p.2, by simp, le_refl _⟩
        · obtain ⟨w, hw, hle⟩ := h3 p hp
          exact ⟨w, List.mem_cons_of_mem _ hw, hle⟩
      · intro w hw
        rcases List.mem_cons.1 hw with rfl | hw
        · simp
        · exact List.mem_cons_of_mem _ (h4 w hw)
      · intro x hx
        simp only [told, hc, if_true, max_eq_right (le_of_lt hc), List.mem_cons, List.mem_append, List.not_mem_nil, or_false] at hx
        rcases hx with rfl | rfl | hx
        · exact .inl ⟨_, rfl⟩
        · exact .inr ⟨_, rfl⟩
        · exact h5 x hx
    · rw [max_eq_left (not_lt.1 hc)] at h1 h2 h3 h4 h5
      have e : bests (told b (q :: rest)) = bests (told b rest) := by
        simp [told, bests, hc, max_eq_left (not_lt.1 hc)]
      rw [e]
      refine ⟨?_, h2, ?_, ?_, ?_⟩
      · unfold shown at *
        simp [told, hc, max_eq_left (not_lt.1 hc), h1]
      · intro p hp
        rcases List.mem_cons.1 hp with rfl | hp
        · exact ⟨b, by simp, not_lt.1 hc⟩
        · exact h3 p hp
      · intro w hw
        exact List.mem_cons_of_mem _ (h4 w hw)
      · intro x hx
        simp only [told, hc, if_false, max_eq_left (not_lt.1 hc), List.mem_cons, List.nil_append] at hx
        rcases hx with rfl | hx
        · exact .inl ⟨_, rfl⟩
        · exact h5 x hx

/-- without a record of a new best the default is left; the last such record comes right after that of the best strategy -/
theorem told_best : ∀ (d : List PClass) (b : Rat) (l : List (List PClass × Rat)),
    (bests (told b l) = [] → bestOf d b l = d) ∧
    ∀ v, (bests (told b l)).getLast? = some v →
      ∃ pre post, told b l = pre ++ .strategy (bestOf d b l) :: .newBest v :: post ∧ bests post = []
  | d, b, [] => by simp [told, bests, bestOf]
  | d, b, q :: rest => by
    by_cases hc : b < q.2
    · obtain ⟨h1, h2⟩ := told_best q.1 q.2 rest
      have e : told b (q :: rest) = .strategy q.1 :: .newBest q.2 :: told q.2 rest := by
        simp [told, hc, max_eq_right (le_of_lt hc)]
      have eb : bests (told b (q :: rest)) = q.2 :: bests (told q.2 rest) := by rw [e]; simp [bests]
      have ed : bestOf d b (q :: rest) = bestOf q.1 q.2 rest := by simp [bestOf, hc, max_eq_right (le_of_lt hc)]
      rw [eb, ed, e]
      refine ⟨by simp, ?_⟩
      intro v hv
      rw [List.getLast?_cons] at hv
      cases hl : (bests (told q.2 rest)).getLast? with
      | none =>
        rw [hl] at hv
        have hn := List.getLast?_eq_none_iff.1 hl
        have hvv : v = q.2 := by simpa using hv.symm
        subst hvv
        exact ⟨[], told q.2 rest, by rw [h1 hn]; rfl, hn⟩
      | some w =>
        rw [hl] at hv
        have hvv : v = w := by simpa using hv.symm
        subst hvv
        obtain ⟨pre, post, e1, e2⟩ := h2 v hl
        exact ⟨.strategy q.1 :: .newBest q.2 :: pre, post, by rw [e1]; rfl, e2⟩
    · obtain ⟨h1, h2⟩ := told_best d b rest
      have e : told b (q :: rest) = .strategy q.1 :: told b rest := by
        simp [told, hc, max_eq_left (not_lt.1 hc)]
      have eb : bests (told b (q :: rest)) = bests (told b rest) := by rw [e]; simp [bests]
      have ed : bestOf d b (q :: rest) = bestOf d b rest := by simp [bestOf, hc, max_eq_left (not_lt.1 hc)]
      rw [eb, ed, e]
      refine ⟨h1, ?_⟩
      intro v hv
      obtain ⟨pre, post, e1, e2⟩ := h2 v hv
      exact ⟨.strategy q.1 :: pre, post, by rw [e1]; rfl, e2⟩

/-- `told` after a record of the best: the last value is the largest seen -/
theorem told_last (b : Rat) (l : List (List PClass × Rat)) : (b :: bests (told b l)).getLast? = some (l.foldl (fun x q => max x q.2) b) := by
  induction l generalizing b with
  | nil => simp [told, bests]
  | cons q rest ih =>
    have := ih (max b q.2)
    rw [List.foldl_cons, ← this]
    by_cases hc : b < q.2
    · have e : bests (told b (q :: rest)) = q.2 :: bests (told q.2 rest) := by
        simp [told, bests, hc, max_eq_right (le_of_lt hc)]
      rw [e, max_eq_right (le_of_lt hc), List.getLast?_cons_cons]
    · have e : bests (told b (q :: rest)) = bests (told b rest) := by
        simp [told, bests, hc, max_eq_left (not_lt.1 hc)]
      rw [e, max_eq_left (not_lt.1 hc)]

/-- a record of a new best comes right after that of its strategy -/
theorem told_pair : ∀ (b : Rat) (l : List (List PClass × Rat)) pre st v post,
    told b l = pre ++ .strategy st :: .newBest v :: post → (st, v) ∈ l
  | b, [], pre, st, v, post, h => by simp [told] at h
  | b, q :: rest, pre, st, v, post, h => by
    rw [told] at h
    have key : ∀ pre, told (max b q.2) rest = pre ++ .strategy st :: .newBest v :: post → (st, v) ∈ q :: rest :=
      fun pre h => List.mem_cons_of_mem _ (told_pair _ rest pre st v post h)
    by_cases hc : b < q.2
    · simp only [hc, if_true] at h
      match pre, h with
      | [], h =>
        simp only [List.nil_append, List.cons_append, List.cons.injEq, HyperLine.strategy.injEq, HyperLine.newBest.injEq] at h
        obtain ⟨rfl, rfl, _⟩ := h
        simp
      | [x], h => simp at h
      | x :: y :: pre, h =>
        simp only [List.nil_append, List.cons_append, List.cons.injEq] at h
        exact key pre h.2.2
    · simp only [hc, if_false, List.nil_append] at h
      match pre, h with
      | [], h =>
        simp only [List.nil_append, List.cons.injEq, HyperLine.strategy.injEq] at h
        cases rest with
        | nil => simp [told] at h
        | cons q' rest => simp [told] at h
      | x :: pre, h =>
        simp only [List.cons_append, List.cons.injEq] at h
        exact key pre h.2

/-- the records of the search: those of the strategies tried, and of the time -/
theorem singleLog_spec {A : Arith} {clock : Nat → Rat} {start : Rat} {throttle : Bool} {i : Inst}
    (hv : i.Valid) (sts : List (List PClass)) :
    ∃ s sol0 ov0 late, i.singleHS A clock start throttle sts = .ok s ∧
      solve A i.solveIn none = .ok (sol0, ov0) ∧
      i.singleLog A clock start throttle sts =
        .ok (s, .singleCore :: (told (i.worth A (ov0.map (·.2))) s.tried ++ (if late then [.surpassed] else []))) ∧
      s.tried.map (·.1) <+: sts ∧ (late = false → s.tried.map (·.1) = sts) ∧
      s.bestStrategy = bestOf defaultStrategy (i.worth A (ov0.map (·.2))) s.tried ∧
      s.best = s.tried.foldl (fun x q => max x q.2) (i.worth A (ov0.map (·.2))) ∧
      (late = true ↔ sts ≠ [] ∧ outOfTime A (clock (s.tick - 1)) start i.maxTime = true) ∧ (sts ≠ [] → 0 < s.tick) ∧
      HSInv A clock start throttle i (i.worth A (ov0.map (·.2))) s := by
  obtain ⟨sol, ov, r, h1, h2, h3, h4, h5, h6⟩ := init_spec (A := A) hv
  have hinv : HSInv A clock start throttle i (i.worth A (ov.map (·.2)))
      ⟨i.upd sol ov i.height i.heights, i.worth A (ov.map (·.2)), (r, ov), defaultStrategy, 0, []⟩ := by
    refine ⟨rfl, ?_, fun _ => ⟨rfl, rfl⟩, fun h => h, ?_, rfl, Or.inl ⟨rfl, rfl, ?_, sol, h2, h4⟩, le_refl _,
      by simp, ?_, by simp⟩
    · exact ⟨hv.conts, hv.items, hv.contsNe, hv.itemsNe, hv.strip, hv.height, hv.minPos⟩
    · intro _; unfold Inst.maxH; simp only [Inst.upd]; omega
    · refine ⟨PyDict.keys i.items, i.height.getD 0, sol, .refl _, ?_, fun _ => rfl, h1, h4⟩
      intro hst
      obtain ⟨k, hk, hp⟩ := hv.height hst
      rw [hk]; exact hp
    · intro hst _
      obtain ⟨k, hk, hp⟩ := hv.height hst
      refine Or.inr ⟨i.strategy, k, sol, by simp, hp, ?_, ?_, h4⟩
      · unfold Inst.maxH; rw [hk]; simp only [Option.getD_some]; omega
      · rw [← h2]; simp only [Inst.solveIn, hk, Option.getD_some]
  obtain ⟨s, used, late, k1, k2, k3, k4, k5, k6, k10, k7, k8, k9⟩ := hsLoopLog_spec hv sts hinv
  have e : s.tried = used := by simpa using k3
  subst e
  obtain ⟨s2, _, _, g1, _, g3, _, g5, _, _⟩ := singleHS_spec (A := A) (clock := clock) (start := start) (throttle := throttle) hv sts
  have hs : i.singleHS A clock start throttle sts = .ok s := by
    unfold Inst.singleHS
    simp only [bind, Except.bind, h5, h6]
    exact k1
  rw [hs] at g1
  injection g1 with g1
  subst g1
  have hinv' : HSInv A clock start throttle i (i.worth A (ov.map (·.2))) s := by
    obtain ⟨s3, sol3, ov3, w1, w2, w3, _⟩ := singleHS_spec (A := A) (clock := clock) (start := start) (throttle := throttle) hv sts
    rw [hs] at w1
    injection w1 with w1
    subst w1
    rw [h2] at w2
    injection w2 with w2
    injection w2 with _ w2
    rw [w2]; exact w3
  refine ⟨s, sol, ov, late, hs, h2, ?_, k4, k5, k6, k10, ?_, ?_, hinv'⟩
  · unfold Inst.singleLog
    simp only [bind, Except.bind, h5, h6, pure, Except.pure, k2]
  · by_cases hu : s.tried = []
    · rw [k9 hu]
      have : sts = [] := by
        by_contra hne
        exact g5 hne hu
      simp [this]
    · rw [k8 hu]
      have : sts ≠ [] := by
        rintro rfl
        obtain ⟨t, ht⟩ := k4
        simp at ht
        exact hu ht.1
      simp [this]
  · intro hne
    have := g5 hne
    have := List.length_pos_iff.2 this
    simp only at k7
    omega

/-- **C129**: what the records of a hypersearch with one worker say.  First that a single core is used.  The strategies shown
are those from the front of the list, all of them if it is not reported that the time was up; that is reported, as the last
record but one, exactly if the last reading of the clock in the loop shows it.  A value is shown right behind a strategy, and
is what the local search with that strategy ends with.  The values shown are larger and larger, all above the value of
`solve()`, and the last one (that of `solve()` if there is none) is the value of the result; `best_strategy` is the strategy
before the last one, DEFAULT_POTENTIAL_POINTS_STRATEGY if there is none.  It is never reported that the best possible value is
reached.  The last record is the time between the first and the last reading of the clock. -/
theorem C129_reports (A : Arith) (clock : Nat → Rat) (throttle : Bool) (sts : List (List PClass)) (i : Inst)
    (hv : i.Valid) (hn : i.containersNum = i.containers.length) :
    ∃ (s : HSState) (first : Solution × ObjVals) (lines : List HyperLine) (v0 v : Rat),
      i.singleHS A (fun k => clock (k + 1)) (clock 0) throttle sts = .ok s ∧
      lines = i.searchLog A clock throttle sts ∧ lines.head? = some .singleCore ∧
      solve A i.solveIn none = .ok first ∧ v0 = overall A (first.2.map (·.2)) ∧
      s.finish.calcObj A = .ok v ∧ v = overall A (s.finish.objVals.map (·.2)) ∧
      Spec.shown lines <+: sts ∧ (.surpassed ∉ lines → Spec.shown lines = sts) ∧
      (.surpassed ∈ lines ↔ sts ≠ [] ∧ A.sub (clock s.tick) (clock 0) > (i.maxTime : Rat)) ∧
      (.surpassed ∈ lines → ∃ pre, lines = pre ++ [.surpassed, .elapsed (A.sub (clock (s.tick + 1)) (clock 0))]) ∧
      (∀ pre st w post, lines = pre ++ .strategy st :: .newBest w :: post →
        LocalValue A (fun k => clock (k + 1)) (clock 0) throttle i st w) ∧
      (v0 :: Spec.bests lines).Pairwise (· < ·) ∧ (v0 :: Spec.bests lines).getLast? = some v ∧
      (Spec.bests lines = [] → s.finish.bestStrategy = some (some defaultStrategy)) ∧
      (Spec.bests lines ≠ [] → ∃ pre st post, lines = pre ++ .strategy st :: .newBest v :: post ∧ Spec.bests post = [] ∧
        s.finish.bestStrategy = some (some st)) ∧
      .maxValue ∉ lines ∧ lines.getLast? = some (.elapsed (A.sub (clock (s.tick + 1)) (clock 0))) := by
  obtain ⟨s, sol0, ov0, late, h1, h2, h3, h4, h5, h6, h7, h8, h9, hI⟩ :=
    singleLog_spec (A := A) (clock := fun k => clock (k + 1)) (start := clock 0) (throttle := throttle) hv sts
  have hov := hI.overall hv hn
  have hw0 : i.worth A (ov0.map (·.2)) = overall A (ov0.map (·.2)) :=
    Inst.worth_eq hn (solve_facts hv.solveIn (KnownSeq_none _) h2).keysO
  obtain ⟨v, _, _, _, c1, c2, _⟩ := C27_best A _ _ throttle i sts hv hn s h1
  have hvb : v = s.best := by rw [c2, ← hov]; rfl
  rw [hw0] at h3 h6 h7
  have elines : i.searchLog A clock throttle sts = .singleCore :: (told (overall A (ov0.map (·.2))) s.tried ++
      ((if late then [.surpassed] else []) ++ [.elapsed (A.sub (clock (s.tick + 1)) (clock 0))])) := by
    unfold Inst.searchLog
    rw [h3]
    simp
  obtain ⟨t1, t2, t3, t4, t5⟩ := told_read (overall A (ov0.map (·.2))) s.tried
  have hmem : HyperLine.surpassed ∈ i.searchLog A clock throttle sts ↔ late = true := by
    rw [elines]
    constructor
    · intro hm
      simp only [List.mem_cons, List.mem_append, reduceCtorEq, false_or] at hm
      rcases hm with hm | hm | hm
      · rcases t5 _ hm with ⟨_, h⟩ | ⟨_, h⟩ <;> cases h
      · cases late <;> simp at hm ⊢
      · simp at hm
    · rintro rfl; simp
  have hshown : Spec.shown (i.searchLog A clock throttle sts) = s.tried.map (·.1) := by
    rw [elines, ← t1]
    unfold Spec.shown
    cases late <;> simp
  have hbests : Spec.bests (i.searchLog A clock throttle sts) = Spec.bests (told (overall A (ov0.map (·.2))) s.tried) := by
    rw [elines]
    unfold Spec.bests
    cases late <;> simp
  have hlast := told_last (overall A (ov0.map (·.2))) s.tried
  rw [← h7, ← hvb] at hlast
  obtain ⟨b1, b2⟩ := told_best defaultStrategy (overall A (ov0.map (·.2))) s.tried
  rw [← h6] at b1 b2
  refine ⟨s, (sol0, ov0), _, _, v, h1, rfl, by rw [elines]; rfl, h2, rfl, c1, c2, ?_, ?_, ?_, ?_, ?_, ?_, ?_, ?_, ?_, ?_, ?_⟩
  · rw [hshown]; exact h4
  · intro hm
    rw [hmem] at hm
    rw [hshown]
    exact h5 (by simpa using hm)
  · rw [hmem, h8]
    constructor
    · rintro ⟨g1, g2⟩
      have := h9 g1
      refine ⟨g1, ?_⟩
      rw [show s.tick - 1 + 1 = s.tick by omega] at g2
      simpa [outOfTime] using g2
    · rintro ⟨g1, g2⟩
      have := h9 g1
      refine ⟨g1, ?_⟩
      rw [show s.tick - 1 + 1 = s.tick by omega]
      simpa [outOfTime] using g2
  · intro hm
    rw [hmem] at hm
    subst hm
    exact ⟨.singleCore :: told (overall A (ov0.map (·.2))) s.tried, by rw [elines]; simp⟩
  · intro pre st w post hp
    rw [elines] at hp
    apply hI.triedVal (st, w)
    match pre, hp with
    | [], hp => simp at hp
    | x :: pre, hp =>
      simp only [List.cons_append, List.cons.injEq] at hp
      rcases List.append_eq_append_iff.1 hp.2 with ⟨c, g1, g2⟩ | ⟨c, g1, g2⟩
      · exfalso
        have : HyperLine.strategy st ∈ c ++ (.strategy st :: .newBest w :: post) := by simp
        rw [← g2] at this
        cases late <;> simp at this
      · match c, g1, g2 with
        | [], _, g2 => exfalso; cases late <;> simp at g2
        | [y], g1, g2 =>
          exfalso
          simp only [List.cons_append, List.nil_append, List.cons.injEq] at g2
          cases late <;> simp at g2
        | y :: y' :: c, g1, g2 =>
          simp only [List.cons_append, List.cons.injEq] at g2
          obtain ⟨rfl, rfl, _⟩ := g2
          exact told_pair _ _ pre st w c g1
  · rw [hbests]; exact t2
  · rw [hbests]; exact hlast
  · intro hb
    rw [hbests] at hb
    show some (some s.bestStrategy) = _
    rw [b1 hb]
  · intro hb
    rw [hbests] at hb
    have hl : (Spec.bests (told (overall A (ov0.map (·.2))) s.tried)).getLast? = some v := by
      rw [List.getLast?_cons] at hlast
      cases hx : (Spec.bests (told (overall A (ov0.map (·.2))) s.tried)).getLast? with
      | none => exact absurd (List.getLast?_eq_none_iff.1 hx) hb
      | some x => rw [hx] at hlast; exact hlast
    obtain ⟨pre, post, e1, e2⟩ := b2 v hl
    refine ⟨.singleCore :: pre, s.bestStrategy, post ++ ((if late then [.surpassed] else []) ++
      [.elapsed (A.sub (clock (s.tick + 1)) (clock 0))]), ?_, ?_, rfl⟩
    · rw [elines, e1]; simp
    · unfold Spec.bests at *
      rw [List.filterMap_append, e2]
      cases late <;> simp
  · rw [elines]
    intro hm
    simp only [List.mem_cons, List.mem_append, reduceCtorEq, false_or] at hm
    rcases hm with hm | hm | hm
    · rcases t5 _ hm with ⟨_, h⟩ | ⟨_, h⟩ <;> cases h
    · cases late <;> simp at hm
    · simp at hm
  · rw [elines]
    simp [List.getLast?_cons]

/-! ### several workers -/

theorem mpWinLog_iff {i : Inst} {s : MPState} {sol : Solution} {ov : ObjVals} {st : Option (List PClass)}
    (h : mpFinish i s = .returned sol ov st) : ∃ m msg, arrayMax s.arr = some m ∧
      (s.phases[firstIdx m s.arr]?).bind Phase.message = some msg ∧
      mpWinLog i s = some ⟨firstIdx m s.arr, msg.value, msg.strategy⟩ := by
  unfold mpFinish at h
  unfold mpWinLog
  split at h
  · cases h
  · rename_i h1
    rw [if_neg h1]
    split at h
    · cases h
    · rename_i m hm
      split at h
      · cases h
      · rename_i h2
        split at h
        · cases h
        · rename_i msg hmsg
          refine ⟨m, msg, hm, hmsg, ?_⟩
          split at h
          · cases h
          · rename_i hd
            simp [hm, h2, hmsg, hd]

theorem mpWinLog_none {i : Inst} {s : MPState}
    (h : ∀ sol ov st, mpFinish i s ≠ .returned sol ov st) : mpWinLog i s = none := by
  unfold mpFinish at h
  unfold mpWinLog
  split
  · rfl
  · rename_i h1
    rw [if_neg h1] at h
    split
    · rfl
    · rename_i m hm
      rw [hm] at h
      simp only at h
      split
      · rfl
      · rename_i h2
        rw [if_neg h2] at h
        simp only
        split
        · rfl
        · rename_i msg hmsg
          rw [hmsg] at h
          simp only at h
          split
          · rfl
          · rename_i hd
            rw [hd] at h
            exact absurd rfl (h _ _ _)

/-- **C129**, several workers, for every schedule: the process that wins is reported exactly if the search returns.  The value
shown is that of the result, the strategy shown is `best_strategy`, and the process is the first one that ends with the
greatest value of those that neither raise nor are killed. -/
theorem C129_workers (E : Env) (M : MPParams) (strategies : List (List PClass))
    (schedule : List (Nat × MPEvent)) (i w : Inst) (chunks : List (List (List PClass)))
    (hA : NonNeg M.ar) (hv : i.Valid) (hc : strategyChunks strategies i.workers = .ok chunks)
    (hw : workerInst E i = .ok w) :
    ((i.winLog E M strategies schedule).isSome = true ↔ ∃ sol ov st, i.multiHS E M strategies schedule = .returned sol ov st) ∧
    ∀ sol ov st, i.multiHS E M strategies schedule = .returned sol ov st →
      ∃ (p : Nat) (chunk : List (List PClass)) (s : HSState),
        i.winLog E M strategies schedule = some ⟨p, overall M.ar (ov.map (·.2)), st⟩ ∧
        chunks[p]? = some chunk ∧ ¬ Raised M w chunks schedule p ∧
        w.singleHS M.ar (M.clock p) M.start M.throttle chunk = .ok s ∧
        SamePacking sol s.finish.solution ∧ ov = s.finish.objVals ∧
        ∀ (q : Nat) (chunk' : List (List PClass)) (s' : HSState), chunks[q]? = some chunk' →
          ¬ Raised M w chunks schedule q → ¬ Killed schedule q →
          w.singleHS M.ar (M.clock q) M.start M.throttle chunk' = .ok s' →
          overall M.ar (s'.finish.objVals.map (·.2)) ≤ overall M.ar (ov.map (·.2)) ∧
          (q < p → overall M.ar (s'.finish.objVals.map (·.2)) < overall M.ar (ov.map (·.2))) := by
  have elog : i.winLog E M strategies schedule = mpWinLog i (mpRun M w chunks schedule) := by
    unfold Inst.winLog; rw [hc]; simp only; rw [hw]
  refine ⟨?_, ?_⟩
  · rw [elog, multiHS_eq hc hw]
    constructor
    · intro h
      by_contra hno
      push Not at hno
      rw [mpWinLog_none hno] at h
      cases h
    · rintro ⟨sol, ov, st, h⟩
      obtain ⟨m, msg, _, _, h⟩ := mpWinLog_iff h
      rw [h]; rfl
  · intro sol ov st hret
    obtain ⟨p, chunk, s, c1, c2, c3, c4, c5, _, c7, m, e, d1, d2, d3, d4, d5, d6⟩ :=
      multi_winner E M strategies schedule i w chunks hA hv hc hw sol ov st hret
    refine ⟨p, chunk, s, ?_, c1, c2, c3, c4, c5, c7⟩
    rw [elog]
    rw [multiHS_eq hc hw] at hret
    obtain ⟨m', msg, g1, g2, g3⟩ := mpWinLog_iff hret
    obtain ⟨hmem, hle⟩ := arrayMax_spec g1
    have hem : e ∈ (mpRun M w chunks schedule).arr := List.mem_of_getElem? d2
    have hme : m' = e := le_antisymm (d3 m' hmem) (hle e hem)
    subst hme
    have hp : firstIdx m' (mpRun M w chunks schedule).arr = p := by
      rcases Nat.lt_trichotomy (firstIdx m' (mpRun M w chunks schedule).arr) p with h | h | h
      · exact absurd (firstIdx_spec hmem) (d4 _ h)
      · exact h
      · exact absurd d2 (firstIdx_first h)
    rw [hp, d1] at g2
    simp only [Option.bind_some, Phase.message, Option.some.injEq] at g2
    subst g2
    rw [g3, hp, d5, d6]

/-! ### examples -/

/-- one improvement, then one strategy without: the hypotheses of `C129_reports` hold of `lsBin` -/
example : lsBin.Valid ∧ lsBin.containersNum = lsBin.containers.length ∧
    lsBin.searchLog Arith.exact (fun n => (n : Rat)) true strategyPool =
      [.singleCore, .strategy [.A, .A_, .B_, .C, .B, .D, .A__, .B__, .F, .E], .newBest (17 / 10),
        .strategy [.A, .A_, .B_, .C, .B, .D, .A__, .B__, .F, .E], .elapsed 25] :=
  ⟨lsBin_valid, rfl, by decide +kernel⟩

/-- strip packing; the time is up while the second of 720 strategies is tried, which is better -/
example : c26Inst.Valid ∧ c26Inst.containersNum = c26Inst.containers.length ∧
    c26Inst.searchLog Arith.exact (fun k => if k < 16 then 0 else 61) true (getStrategies id true true) =
      [.singleCore, .strategy [.A, .B, .C, .D, .A_, .B_, .A__, .B__, .F, .E], .newBest 1,
        .strategy [.A, .B, .C, .D, .B_, .A_, .A__, .B__, .F, .E], .newBest (21 / 20), .surpassed, .elapsed 61] :=
  ⟨c26_valid, rfl, by decide +kernel⟩

/-- no improvement: no value is shown, and `best_strategy` is the default -/
example : c29Inst.searchLog Arith.exact (fun _ => 0) true strategyPool =
    [.singleCore, .strategy [.A, .A_, .B_, .C, .B, .D, .A__, .B__, .F, .E],
      .strategy [.A, .A_, .B_, .C, .B, .D, .A__, .B__, .F, .E], .elapsed 0] := by decide +kernel

/-- the hypotheses of `C129_workers` hold of `mpInst`: both workers end with the same value, and the first one wins; if it
raises, the second one does; if it is killed before it does anything, too -/
example : NonNeg mpParams.ar ∧ mpInst.Valid ∧ strategyChunks strategyPool mpInst.workers = .ok mpChunks ∧
    workerInst plainEnv mpInst = .ok mpWorker ∧
    mpInst.winLog plainEnv mpParams strategyPool mpTurns =
      some ⟨0, 17 / 10, some [.A, .A_, .B_, .C, .B, .D, .A__, .B__, .F, .E]⟩ ∧
    mpInst.winLog plainEnv mpParams strategyPool ((0, .step) :: (0, .raise) :: mpTurns) =
      some ⟨1, 17 / 10, some [.A, .A_, .B_, .C, .B, .D, .A__, .B__, .F, .E]⟩ ∧
    mpInst.winLog plainEnv mpParams strategyPool ((0, .kill) :: mpTurns) =
      some ⟨1, 17 / 10, some [.A, .A_, .B_, .C, .B, .D, .A__, .B__, .F, .E]⟩ :=
  ⟨nonNeg_exact, mpInst_valid, mpInst_chunks, mpInst_worker, by decide +kernel, by decide +kernel, by decide +kernel⟩

end HP
