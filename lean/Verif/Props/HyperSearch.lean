import Verif.Proofs.Genuine
import Verif.Proofs.Perms
import Verif.Model.Machine
/-
Properties of the single process hypersearch: C22 (hypersearch), C26 - C30.
-/
namespace HP
open Spec

/-! ### C27: the best packing seen -/

/-- C27 (totality): a single process search never raises. -/
theorem C27_total (A : Arith) (clock : Nat → Rat) (start : Rat) (throttle : Bool) (i : Inst)
    (sts : List (List PClass)) (hv : i.Valid) :
    ∃ s, i.singleHS A clock start throttle sts = .ok s := by
  obtain ⟨s, _, _, h, _⟩ := singleHS_spec (A := A) (clock := clock) (start := start)
    (throttle := throttle) hv sts
  exact ⟨s, h⟩

/-- C27, whatever number of containers is stored: the search tries strategies from the front of
the list (all of them, unless a reading of the clock was past the time limit).
`calculate_obj_value()` after it is at least what it is after the initial `solve()` and at least
what it is after the local search of every strategy tried, and is one of these. -/
theorem C27_any_count (A : Arith) (clock : Nat → Rat) (start : Rat) (throttle : Bool) (i : Inst)
    (sts : List (List PClass)) (hv : i.Valid) (s : HSState)
    (h : i.singleHS A clock start throttle sts = .ok s) :
    ∃ (v v0 : Rat) (sol0 : Solution) (ov0 : ObjVals) (tried : List (List PClass × Rat)),
      s.finish.calcObj A = .ok v ∧ v = i.worth A (s.finish.objVals.map (·.2)) ∧
      solve A i.solveIn none = .ok (sol0, ov0) ∧
      { i with solution := sol0, objVals := ov0 }.calcObj A = .ok v0 ∧ v0 ≤ v ∧
      tried.map (·.1) <+: sts ∧ (sts ≠ [] → tried ≠ []) ∧
      (tried.map (·.1) = sts ∨ ∃ n, A.sub (clock n) start > (i.maxTime : Rat)) ∧
      (∀ q ∈ tried, LocalValue A clock start throttle i q.1 q.2 ∧ q.2 ≤ v) ∧
      (v = v0 ∨ ∃ q ∈ tried, v = q.2) := by
  obtain ⟨s', sol0, ov0, g1, g2, g3, g4, g5, g6, g7⟩ := singleHS_spec (A := A) (clock := clock)
    (start := start) (throttle := throttle) hv sts
  rw [h] at g1
  injection g1 with g1
  subst g1
  obtain ⟨st, hgen⟩ := g3.gen
  have hf := hgen.facts hv
  refine ⟨s.best, i.worth A (ov0.map (·.2)), sol0, ov0, s.tried, ?_, ?_, g2, ?_, g3.ge, g4, g5, ?_, ?_, ?_⟩
  · rw [calcObj_eq (A := A) (i := s.finish)
      (by unfold HSState.finish; simp only; rw [hf.keysO, g3.frame]) g3.valid.contsNe]
    rw [g3.best]
    congr 1
    unfold HSState.finish Inst.worth
    simp only
    rw [g3.frame]
  · rw [g3.best]; rfl
  · exact calcObj_eq (i := { i with solution := sol0, objVals := ov0 })
      (solve_facts hv.solveIn (KnownSeq_none _) g2).keysO hv.contsNe
  · rcases g7 with h | h
    · exact Or.inl h
    · exact Or.inr ⟨_, by simpa [outOfTime] using h⟩
  · intro q hq
    exact ⟨g3.triedVal q hq, g3.geTried q hq⟩
  · rcases g3.src with ⟨h, _⟩ | ⟨_, h, _⟩
    · exact Or.inl h
    · exact Or.inr ⟨_, h, rfl⟩

/-- C27: the search tries strategies from the front of the list (all of them, unless a reading
of the clock was past the time limit).  The overall value after it is attained by the stored
objective values, is at least the value of the initial `solve()` and at least that of the local
search of every strategy tried, and is one of these. -/
theorem C27_best (A : Arith) (clock : Nat → Rat) (start : Rat) (throttle : Bool) (i : Inst)
    (sts : List (List PClass)) (hv : i.Valid) (hn : i.containersNum = i.containers.length) (s : HSState)
    (h : i.singleHS A clock start throttle sts = .ok s) :
    ∃ (v : Rat) (sol0 : Solution) (ov0 : ObjVals) (tried : List (List PClass × Rat)),
      s.finish.calcObj A = .ok v ∧ v = overall A (s.finish.objVals.map (·.2)) ∧
      solve A i.solveIn none = .ok (sol0, ov0) ∧ overall A (ov0.map (·.2)) ≤ v ∧
      tried.map (·.1) <+: sts ∧ (sts ≠ [] → tried ≠ []) ∧
      (tried.map (·.1) = sts ∨ ∃ n, A.sub (clock n) start > (i.maxTime : Rat)) ∧
      (∀ q ∈ tried, LocalValue A clock start throttle i q.1 q.2 ∧ q.2 ≤ v) ∧
      (v = overall A (ov0.map (·.2)) ∨ ∃ q ∈ tried, v = q.2) := by
  obtain ⟨v, v0, sol0, ov0, tried, a1, a2, a3, a4, a5⟩ := C27_any_count A clock start throttle i sts hv s h
  have hk0 := (solve_facts hv.solveIn (KnownSeq_none _) a3).keysO
  have e0 := calcObj_eq (A := A) (i := { i with solution := sol0, objVals := ov0 }) hk0 hv.contsNe
  rw [a4] at e0
  injection e0 with e0
  have e0' : v0 = overall A (ov0.map (·.2)) := by rw [e0]; exact Inst.worth_eq hn hk0
  subst e0'
  refine ⟨v, sol0, ov0, tried, a1, ?_, a3, a5⟩
  obtain ⟨s', _, _, g1, _, g3, _⟩ := singleHS_spec (A := A) (clock := clock)
    (start := start) (throttle := throttle) hv sts
  rw [h] at g1
  injection g1 with g1
  subst g1
  obtain ⟨st, hgen⟩ := g3.gen
  rw [a2]
  exact Inst.worth_eq hn (hgen.facts hv).keysO

/-- C27 for `hypersearch()` itself with one worker: it returns normally, and leaves the result of
the search. -/
theorem C27_returns (A : Arith) (a : HSArgs) (i : Inst) (hv : i.Valid) (hw : i.workers.isOne = true) :
    ∃ s, i.singleHS A (fun k => a.clock (k + 1)) (a.clock 0) a.throttle
        (getStrategies a.order i.strip a.exhaustive) = .ok s ∧
      i.search A a = (s.finish, .ok) := by
  obtain ⟨s, h⟩ := C27_total A (fun k => a.clock (k + 1)) (a.clock 0) a.throttle i
    (getStrategies a.order i.strip a.exhaustive) hv
  exact ⟨s, h, by unfold Inst.search; rw [if_pos hw, h]⟩

/-- What the search changes: solution, values, best strategy, current strategy, and when strip
packing the height and its history; the height stays between the minimum height and the height
before (or the minimum height, if that is larger). -/
theorem C27_frame (A : Arith) (clock : Nat → Rat) (start : Rat) (throttle : Bool) (i : Inst)
    (sts : List (List PClass)) (hv : i.Valid) (s : HSState)
    (h : i.singleHS A clock start throttle sts = .ok s) :
    s.finish = { i with
      strategy := s.finish.strategy, height := s.finish.height, heights := s.finish.heights,
      solution := s.finish.solution, objVals := s.finish.objVals,
      bestStrategy := s.finish.bestStrategy } ∧
    (i.strip = false → s.finish.height = i.height ∧ s.finish.heights = i.heights) ∧
    (i.strip = true → ∃ H, s.finish.height = some H ∧ 0 < H ∧
      H ≤ max (i.height.getD 0) (i.minHeight.getD 0) ∧
      (i.minHeight.getD 0 ≤ i.height.getD 0 → i.minHeight.getD 0 ≤ H)) := by
  obtain ⟨s', sol0, ov0, g1, g2, g3, _⟩ := singleHS_spec (A := A) (clock := clock)
    (start := start) (throttle := throttle) hv sts
  rw [h] at g1
  injection g1 with g1
  subst g1
  refine ⟨?_, g3.bin, ?_⟩
  · unfold HSState.finish
    simp only
    rw [g3.frame]
  · intro hst
    have hst' : s.inst.strip = true := by rw [g3.frame]; exact hst
    obtain ⟨H, h1, h2⟩ := g3.valid.height hst'
    refine ⟨H, h1, h2, ?_, ?_⟩
    · have := g3.maxH hst
      rw [h1] at this
      exact this
    · intro hm
      have := g3.minLe hm
      rw [h1] at this
      exact this

/-! ### C22, C17 for hypersearch -/

/-- The packing left by a single process search is what `solve(sequence)` gives for some
permutation of the items under some strategy. -/
theorem C22_hypersearch_genuine (A : Arith) (clock : Nat → Rat) (start : Rat) (throttle : Bool) (i : Inst)
    (sts : List (List PClass)) (hv : i.Valid) (s : HSState)
    (h : i.singleHS A clock start throttle sts = .ok s) :
    ∃ (st : List PClass) (seq : List String) (H : Nat) (sol : Solution),
      (st = i.strategy ∨ st ∈ sts) ∧ seq.Perm (i.items.map (·.1)) ∧
      (i.strip = true → 0 < H) ∧ (i.strip = false → H = i.height.getD 0) ∧
      solve A { i.solveIn with strategy := st, height := H } (some seq) = .ok (sol, s.finish.objVals) ∧
      SamePacking s.finish.solution sol := by
  obtain ⟨s', sol0, ov0, g1, g2, g3, g4, _⟩ := singleHS_spec (A := A) (clock := clock)
    (start := start) (throttle := throttle) hv sts
  rw [h] at g1
  injection g1 with g1
  subst g1
  rcases g3.src with ⟨_, _, hg, _⟩ | ⟨_, hm, hg⟩
  · obtain ⟨seq, H, sol, k⟩ := hg
    exact ⟨_, seq, H, sol, Or.inl rfl, k⟩
  · obtain ⟨seq, H, sol, k⟩ := hg
    exact ⟨_, seq, H, sol, Or.inr (g4.subset (List.mem_map_of_mem hm)), k⟩

theorem singleHS_genuine {A : Arith} {clock : Nat → Rat} {start : Rat} {throttle : Bool} {i : Inst}
    {sts : List (List PClass)} (hv : i.Valid) {s : HSState}
    (h : i.singleHS A clock start throttle sts = .ok s) :
    Genuine A i s.finish.solution s.finish.objVals := by
  obtain ⟨st, seq, H, sol, _, h⟩ := C22_hypersearch_genuine A clock start throttle i sts hv s h
  exact FromStrategy.genuine hv ⟨seq, H, sol, h⟩

/-- C22 for single process hypersearch, bin packing, exact arithmetic. -/
theorem C22_hypersearch_bin (clock : Nat → Rat) (start : Rat) (throttle : Bool) (i : Inst)
    (sts : List (List PClass)) (hv : i.Valid) (hbin : i.strip = false) (s : HSState)
    (h : i.singleHS Arith.exact clock start throttle sts = .ok s) :
    ∀ cid m, (cid, m) ∈ s.finish.solution → ∃ c v, (cid, c) ∈ i.containers ∧
      (cid, v) ∈ s.finish.objVals ∧
      v = (totalArea (m.map (·.2)) : Rat) / ((c.w * c.l : Nat) : Rat) :=
  (singleHS_genuine hv h).bin hbin

/-- C22 for single process hypersearch, strip packing, any arithmetic. -/
theorem C22_hypersearch_strip (A : Arith) (clock : Nat → Rat) (start : Rat) (throttle : Bool) (i : Inst)
    (sts : List (List PClass)) (hv : i.Valid) (hst : i.strip = true) (s : HSState)
    (h : i.singleHS A clock start throttle sts = .ok s) :
    ∀ cid m, (cid, m) ∈ s.finish.solution → m ≠ [] → ∃ c v, (cid, c) ∈ i.containers ∧
      (cid, v) ∈ s.finish.objVals ∧
      v = A.div (totalArea (m.map (·.2))) (c.w * max 1 (stackHeight (m.map (·.2)) - 1)) :=
  (singleHS_genuine hv h).stripVal hst

/-! ### C26: completeness of strip hypersearch -/

/-- C26, what holds: with `container_min_height` unset the packing left by a single process
search contains every item, unless it is the starting packing of one of the local searches (or
of the search itself): `solve()` of the items in their current order under one of the strategies
tried, at some height not above the one before the call. So the property holds whenever every
such starting packing is complete. -/
theorem C26_partial (A : Arith) (clock : Nat → Rat) (start : Rat) (throttle : Bool) (i : Inst)
    (sts : List (List PClass)) (hv : i.Valid) (hst : i.strip = true) (hmin : i.minHeight = none)
    (s : HSState) (h : i.singleHS A clock start throttle sts = .ok s) :
    (placedIds s.finish.solution).Perm (i.items.map (·.1)) ∨
    ∃ (st : List PClass) (H : Nat) (sol : Solution), (st = i.strategy ∨ st ∈ sts) ∧ 0 < H ∧
      H ≤ i.height.getD 0 ∧
      solve A { i.solveIn with strategy := st, height := H } none = .ok (sol, s.finish.objVals) ∧
      SamePacking s.finish.solution sol := by
  obtain ⟨s', sol0, ov0, g1, g2, g3, g4, _⟩ := singleHS_spec (A := A) (clock := clock)
    (start := start) (throttle := throttle) hv sts
  rw [h] at g1
  injection g1 with g1
  subst g1
  rcases g3.full hst hmin with h | ⟨st, H, sol, k1, k2, k3, k4⟩
  · exact Or.inl h
  · refine Or.inr ⟨st, H, sol, ?_, k2, ?_, k4⟩
    · rcases List.mem_cons.1 k1 with k1 | k1
      · exact Or.inl k1
      · exact Or.inr (g4.subset k1)
    · unfold Inst.maxH at k3
      rw [hmin] at k3
      simpa using k3

/-! ### C28: strategies -/

/-- C28: the exhaustive list of strategies, for every order in which Python iterates over the
set of points: 720 different strategies; each is a permutation of the ten classes and ends in
A__, B__, F, E; every ordering of the six other classes occurs. -/
theorem C28_strategies (order : List PClass → List PClass) (strip : Bool)
    (horder : ∀ l : List PClass, l.Nodup → (order l).Perm l) :
    (getStrategies order strip true).Nodup ∧
    (getStrategies order strip true).length = 720 ∧
    (∀ st ∈ getStrategies order strip true,
      st.Perm [.A, .B, .C, .D, .A_, .B_, .B__, .A__, .E, .F] ∧
      ∃ pre, st = pre ++ [.A__, .B__, .F, .E]) ∧
    (∀ pre : List PClass, pre.Perm [.A, .B, .C, .D, .A_, .B_] →
      pre ++ [.A__, .B__, .F, .E] ∈ getStrategies order strip true) := by
  have hpts : defaultStrategy.filter (fun c => !(if strip then strategiesSuffixStrip else
      strategiesSuffix).contains c) = defaultStrategy.filter (fun c => !strategiesSuffix.contains c) := by
    cases strip <;> decide
  have hnd : (defaultStrategy.filter (fun c => !strategiesSuffix.contains c)).Nodup := by decide
  have hsix : (defaultStrategy.filter (fun c => !strategiesSuffix.contains c)).Perm
      [.A, .B, .C, .D, .A_, .B_] := by decide
  unfold getStrategies
  simp only [if_true]
  rw [hpts]
  generalize hq : order (defaultStrategy.filter (fun c => !strategiesSuffix.contains c)) = q
  have hp : q.Perm [.A, .B, .C, .D, .A_, .B_] := by rw [← hq]; exact (horder _ hnd).trans hsix
  have hl : q.length = 6 := hp.length_eq
  have hqn : q.Nodup := hp.nodup_iff.2 (by decide)
  refine ⟨?_, ?_, ?_, ?_⟩
  · exact (nodup_permsOf q.length q rfl hqn).map (fun _ _ h => List.append_cancel_right h)
  · rw [List.length_map, length_permsOf q.length q rfl, hl]; rfl
  · intro st hst
    obtain ⟨pre, hpre, rfl⟩ := List.mem_map.1 hst
    have h1 := (mem_permsOf q.length q rfl pre).1 hpre
    refine ⟨?_, pre, rfl⟩
    refine ((h1.trans hp).append_right strategiesSuffix).trans ?_
    decide
  · intro pre hpre
    exact List.mem_map.2 ⟨pre, (mem_permsOf q.length q rfl pre).2 (hpre.trans hp.symm), rfl⟩

/-- C28's hypothesis holds of sorting backwards, for instance -/
example : ∀ l : List PClass, l.Nodup → (List.reverse l).Perm l := fun l _ => l.reverse_perm

/-! ### C29: strategy -/

/-- C29, what happens to `potential_points_strategy`: it is left at the last strategy tried. -/
theorem C29_left_at_last (A : Arith) (clock : Nat → Rat) (start : Rat) (throttle : Bool) (i : Inst)
    (sts : List (List PClass)) (hv : i.Valid) (hne : sts ≠ []) (s : HSState)
    (h : i.singleHS A clock start throttle sts = .ok s) :
    ∃ pre, pre ++ [s.finish.strategy] <+: sts := by
  obtain ⟨s', sol0, ov0, g1, g2, g3, g4, g5, g6, _⟩ := singleHS_spec (A := A) (clock := clock)
    (start := start) (throttle := throttle) hv sts
  rw [h] at g1
  injection g1 with g1
  subst g1
  rw [if_neg (g5 hne)] at g6
  obtain ⟨pre, hpre⟩ := List.getLast?_eq_some_iff.1 g6
  exact ⟨pre, by rw [hpre] at g4; exact g4⟩

/-- C29 is false of the code: after a search every instance whose strategy is not one of those
searched has another strategy than before. -/
theorem C29_refuted (A : Arith) (clock : Nat → Rat) (start : Rat) (throttle : Bool) (i : Inst)
    (sts : List (List PClass)) (hv : i.Valid) (hne : sts ≠ []) (hnot : i.strategy ∉ sts) (s : HSState)
    (h : i.singleHS A clock start throttle sts = .ok s) : s.finish.strategy ≠ i.strategy := by
  obtain ⟨pre, hp⟩ := C29_left_at_last A clock start throttle i sts hv hne s h
  intro he
  exact hnot (he ▸ hp.subset (by simp))

/-- C29, the reported strategy: if the search improved on the initial `solve()`, `best_strategy`
is one of the strategies tried and the returned packing is produced by it; otherwise
`best_strategy` is the default strategy and the returned packing is the one `solve()` gives with
the current strategy (so it is the right one if the current strategy is the default). -/
theorem C29_partial (A : Arith) (clock : Nat → Rat) (start : Rat) (throttle : Bool) (i : Inst)
    (sts : List (List PClass)) (hv : i.Valid) (hn : i.containersNum = i.containers.length) (s : HSState)
    (h : i.singleHS A clock start throttle sts = .ok s) :
    ∃ (best used : List PClass) (sol0 : Solution) (ov0 : ObjVals),
      s.finish.bestStrategy = some (some best) ∧
      FromStrategy A i used s.finish.solution s.finish.objVals ∧
      solve A i.solveIn none = .ok (sol0, ov0) ∧
      ((used = best ∧ used ∈ sts ∧
          overall A (ov0.map (·.2)) < overall A (s.finish.objVals.map (·.2))) ∨
       (used = i.strategy ∧ best = defaultStrategy ∧ s.finish.objVals = ov0 ∧
          SamePacking s.finish.solution sol0)) := by
  obtain ⟨s', sol0, ov0, g1, g2, g3, g4, _⟩ := singleHS_spec (A := A) (clock := clock)
    (start := start) (throttle := throttle) hv sts
  rw [h] at g1
  injection g1 with g1
  subst g1
  rcases g3.src with ⟨_, h2, h3, sol, h4, h5⟩ | ⟨h1, h2, h3⟩
  · rw [g2] at h4
    injection h4 with h4
    injection h4 with h4 h4'
    refine ⟨s.bestStrategy, i.strategy, sol0, ov0, rfl, h3, g2, Or.inr ⟨rfl, h2, h4'.symm, ?_⟩⟩
    rw [h4]; exact h5
  · refine ⟨s.bestStrategy, s.bestStrategy, sol0, ov0, rfl, h3, g2,
      Or.inl ⟨rfl, g4.subset (List.mem_map_of_mem h2), ?_⟩⟩
    show _ < overall A (s.retained.2.map (·.2))
    rw [← Inst.worth_eq hn (h3.facts hv).keysO, ← g3.best,
      ← Inst.worth_eq hn (solve_facts hv.solveIn (KnownSeq_none _) g2).keysO]
    exact h1

/-! ### C30: stopping early -/

/-- C30 is false of the code: whatever is found, as long as no clock reading is past the limit
every strategy is tried. -/
theorem C30_refuted (A : Arith) (clock : Nat → Rat) (start : Rat) (throttle : Bool) (i : Inst)
    (sts : List (List PClass)) (hv : i.Valid)
    (hclock : ∀ n, ¬ A.sub (clock n) start > (i.maxTime : Rat)) (s : HSState)
    (h : i.singleHS A clock start throttle sts = .ok s) : s.tried.map (·.1) = sts := by
  obtain ⟨s', sol0, ov0, g1, g2, g3, g4, g5, g6, g7⟩ := singleHS_spec (A := A) (clock := clock)
    (start := start) (throttle := throttle) hv sts
  rw [h] at g1
  injection g1 with g1
  subst g1
  rcases g7 with h | h
  · exact h
  · exact absurd (by simpa [outOfTime] using h) (hclock (s.tick - 1))

theorem hsStep_mono {A : Arith} {clock : Nat → Rat} {start : Rat} {throttle : Bool} {st : List PClass}
    {s : HSState} {r : HSState × Bool} (h : hsStep A clock start throttle st s = .ok r) :
    s.best ≤ r.1.best := by
  unfold hsStep at h
  simp only [bind, Except.bind, pure, Except.pure] at h
  split at h
  · cases h
  · split at h
    · cases h
    · rename_i v _
      split at h
      · rename_i hc
        have hlt : s.best < v := by simpa [checkSolution] using hc
        split at h
        · cases h
        · split at h <;> injection h with h <;> subst h <;> exact le_of_lt hlt
      · injection h with h; subst h; exact le_refl _

theorem hsLoop_mono {A : Arith} {clock : Nat → Rat} {start : Rat} {throttle : Bool} :
    ∀ {sts : List (List PClass)} {s s' : HSState},
    hsLoop A clock start throttle sts s = .ok s' → s.best ≤ s'.best
  | [], s, s', h => by injection h with h; subst h; exact le_refl _
  | st :: sts, s, s', h => by
    unfold hsLoop at h
    simp only [bind, Except.bind, pure, Except.pure] at h
    split at h
    · cases h
    · rename_i r hr
      split at h
      · injection h with h; subst h; exact hsStep_mono hr
      · exact le_trans (hsStep_mono hr) (hsLoop_mono h)

theorem hsLoop_more {A : Arith} {clock : Nat → Rat} {start : Rat} {throttle : Bool}
    {more : List (List PClass)} : ∀ {sts : List (List PClass)} {s a b : HSState},
    hsLoop A clock start throttle sts s = .ok a →
    hsLoop A clock start throttle (sts ++ more) s = .ok b → a.best ≤ b.best
  | [], s, a, b, h, h' => by injection h with h; subst h; exact hsLoop_mono h'
  | st :: sts, s, a, b, h, h' => by
    rw [List.cons_append] at h'
    unfold hsLoop at h h'
    simp only [bind, Except.bind, pure, Except.pure] at h h'
    split at h
    · cases h
    · rename_i r hr
      simp only [hr] at h'
      split at h
      · rename_i hb
        rw [if_pos hb] at h'
        injection h with h; injection h' with h'
        rw [← h, ← h']
      · rename_i hb
        rw [if_neg hb] at h'
        exact hsLoop_more h h'

/-- C30, what holds: the value found is kept although the search goes on - whatever a list of
strategies achieves, trying more strategies after it achieves at least as much. -/
theorem C30_partial (A : Arith) (clock : Nat → Rat) (start : Rat) (throttle : Bool) (i : Inst)
    (sts more : List (List PClass)) (hv : i.Valid) (s s' : HSState)
    (h : i.singleHS A clock start throttle sts = .ok s)
    (h' : i.singleHS A clock start throttle (sts ++ more) = .ok s') :
    ∃ v v', s.finish.calcObj A = .ok v ∧ s'.finish.calcObj A = .ok v' ∧ v ≤ v' := by
  obtain ⟨v, _, _, _, _, h1, h2, _⟩ := C27_any_count A clock start throttle i sts hv s h
  obtain ⟨v', _, _, _, _, h1', h2', _⟩ := C27_any_count A clock start throttle i (sts ++ more) hv s' h'
  refine ⟨v, v', h1, h1', ?_⟩
  obtain ⟨a, _, _, g1, _, g3, _⟩ := singleHS_spec (A := A) (clock := clock)
    (start := start) (throttle := throttle) hv sts
  obtain ⟨b, _, _, k1, _, k3, _⟩ := singleHS_spec (A := A) (clock := clock)
    (start := start) (throttle := throttle) hv (sts ++ more)
  rw [h] at g1; injection g1 with g1; subst g1
  rw [h'] at k1; injection k1 with k1; subst k1
  have e1 : v = s.best := by rw [h2, g3.best]; rfl
  have e2 : v' = s'.best := by rw [h2', k3.best]; rfl
  rw [e1, e2]
  unfold Inst.singleHS at h h'
  simp only [bind, Except.bind] at h h'
  split at h
  · cases h
  · rename_i r hr
    simp only [hr] at h'
    split at h
    · cases h
    · rename_i v hv
      simp only [hv] at h'
      exact hsLoop_more h h'

/-! ### Concrete searches -/

/-- what is compared in the examples -/
structure HSView where
  out : Outcome
  sol : Solution
  ov : ObjVals
  height : Option Nat
  strategy : List PClass
  best : Option (Option (List PClass))
  deriving DecidableEq

def hsView (x : Inst × Outcome) : HSView :=
  ⟨x.2, x.1.solution, x.1.objVals, x.1.height, x.1.strategy, x.1.bestStrategy⟩

/-- nothing installed, every path a directory -/
def plainEnv : Env := ⟨none, none, fun _ => true, fun _ => true⟩

/-- the default arguments of `hypersearch`, with the given clock -/
def plainArgs (exhaustive : Bool) (clock : Nat → Rat) : HSArgs where
  orientation := .str "wide"
  sortingBy := some (.str "area", true)
  throttle := true
  exhaustive := exhaustive
  order := id
  orderPerm := fun l _ => .refl l
  clock := clock
  env := plainEnv
  workerClock := fun _ _ => 0
  force := fun _ => false
  fits := fun _ => true
  schedule := []

/-- `HyperPack(items=items, strip_pack_width=2)` -/
def c26Items : PyVal := SKind.items.encodeAll
  [("a", ⟨9, 1⟩), ("b", ⟨8, 1⟩), ("c", ⟨2, 2⟩), ("d", ⟨3, 1⟩)]

def c26Inst : Inst where
  strip := true
  containers := [(stripId, ⟨2, stripInitHeight⟩)]
  items := [("a", ⟨9, 1⟩), ("b", ⟨8, 1⟩), ("c", ⟨2, 2⟩), ("d", ⟨3, 1⟩)]
  height := some 20
  minHeight := none
  heights := []
  settings := .dict []
  rotation := true
  maxTime := 60
  workers := .int 1
  plotlyInstalled := false
  plotlyOk := false
  kaleidoInstalled := false
  kaleidoOk := false
  strategy := defaultStrategy
  containersNum := 1
  solution := []
  objVals := []
  bestStrategy := none

theorem c26_built : mkInst plainEnv .none c26Items .none (.int 2) = .ok c26Inst := by rfl

theorem c26_valid : c26Inst.Valid where
  conts := by constructor <;> decide
  items := by constructor <;> decide
  contsNe := by decide
  itemsNe := by decide
  strip := by intro _; exact ⟨2, rfl⟩
  height := by intro _; exact ⟨20, rfl, by decide⟩
  minPos := by intro m h; cases h

theorem c26_run : hsView (c26Inst.hypersearch Arith.exact (plainArgs true (fun k => if k < 16 then 0 else 61))) =
    ⟨.ok, [(stripId, [("a", ⟨0, 0, 1, 9⟩), ("b", ⟨1, 0, 1, 8⟩), ("c", ⟨0, 9, 2, 2⟩)])],
      [(stripId, 21 / 20)], some 13, [.A, .B, .C, .D, .B_, .A_, .A__, .B__, .F, .E],
      some (some [.A, .B, .C, .D, .B_, .A_, .A__, .B__, .F, .E])⟩ := by decide +kernel

theorem c26_run_pool : hsView (c26Inst.hypersearch Arith.exact (plainArgs false (fun _ => 0))) =
    ⟨.ok, [(stripId, [("a", ⟨0, 0, 1, 9⟩), ("b", ⟨1, 0, 1, 8⟩), ("c", ⟨0, 9, 2, 2⟩)])],
      [(stripId, 21 / 20)], some 13, [.A, .A_, .B_, .C, .B, .D, .A__, .B__, .F, .E],
      some (some [.A, .A_, .B_, .C, .B, .D, .A__, .B__, .F, .E])⟩ := by decide +kernel

theorem hsView_eq {x : Inst × Outcome} {o s v h st b} (hx : hsView x = ⟨o, s, v, h, st, b⟩) :
    x.2 = o ∧ x.1.solution = s ∧ x.1.objVals = v ∧ x.1.height = h ∧ x.1.strategy = st ∧
      x.1.bestStrategy = b := by
  unfold hsView at hx
  simpa using hx

/-- C26 is false of the code, with everything at its default: `hypersearch()` on
`HyperPack(items=items, strip_pack_width=2)` returns a packing without item "d", although
already the first thing it computes, the packing of the items in the given order, contains
all four items.  (Here the clock passes the time limit while the second strategy is tried; with
`_exhaustive=False` no time limit is involved.) -/
theorem C26_refuted :
    mkInst plainEnv .none c26Items .none (.int 2) = .ok c26Inst ∧ c26Inst.minHeight = none ∧
    (∃ m ov, solve Arith.exact c26Inst.solveIn none = .ok ([(stripId, m)], ov) ∧
      m.map (·.1) = ["a", "b", "c", "d"]) ∧
    (∃ j m, c26Inst.hypersearch Arith.exact (plainArgs true (fun k => if k < 16 then 0 else 61)) = (j, .ok) ∧
      j.solution = [(stripId, m)] ∧ "d" ∉ m.map (·.1)) ∧
    (∃ j m, c26Inst.hypersearch Arith.exact (plainArgs false (fun _ => 0)) = (j, .ok) ∧
      j.solution = [(stripId, m)] ∧ "d" ∉ m.map (·.1)) := by
  refine ⟨c26_built, rfl, ?_, ?_, ?_⟩
  · exact ⟨[("a", ⟨0, 0, 1, 9⟩), ("b", ⟨0, 9, 1, 8⟩), ("c", ⟨0, 17, 2, 2⟩), ("d", ⟨1, 0, 1, 3⟩)],
      [(stripId, 2 / 3)], by decide +kernel, rfl⟩
  · obtain ⟨h1, h2, _⟩ := hsView_eq c26_run
    exact ⟨_, _, Prod.ext rfl h1, h2, by decide⟩
  · obtain ⟨h1, h2, _⟩ := hsView_eq c26_run_pool
    exact ⟨_, _, Prod.ext rfl h1, h2, by decide⟩

/-- two squares in a square, strategy (B,) -/
def c29Inst : Inst :=
  { mkDemo false [("c", ⟨4, 4⟩)] [("a", ⟨2, 2⟩), ("b", ⟨2, 2⟩)] none none with strategy := [.B] }

theorem c29_valid : c29Inst.Valid where
  conts := by constructor <;> decide
  items := by constructor <;> decide
  contsNe := by decide
  itemsNe := by decide
  strip := by intro h; cases h
  height := by intro h; cases h
  minPos := by intro m h; cases h

/-- C29, the other half is false too: here `best_strategy` is the default strategy, but for no
order of the items does the default strategy produce the returned packing; and the current
strategy has changed. -/
theorem C29_refuted_best :
    c29Inst.Valid ∧ ∃ j, c29Inst.hypersearch Arith.exact (plainArgs false (fun _ => 0)) = (j, .ok) ∧
      j.strategy ≠ c29Inst.strategy ∧ j.bestStrategy = some (some defaultStrategy) ∧
      j.solution = [("c", [("b", ⟨0, 0, 2, 2⟩), ("a", ⟨2, 0, 2, 2⟩)])] ∧
      solve Arith.exact { c29Inst.solveIn with strategy := defaultStrategy } (some ["a", "b"]) =
        .ok ([("c", [("a", ⟨0, 0, 2, 2⟩), ("b", ⟨0, 2, 2, 2⟩)])], [("c", 1 / 2)]) ∧
      solve Arith.exact { c29Inst.solveIn with strategy := defaultStrategy } (some ["b", "a"]) =
        .ok ([("c", [("b", ⟨0, 0, 2, 2⟩), ("a", ⟨0, 2, 2, 2⟩)])], [("c", 1 / 2)]) := by
  have hr : hsView (c29Inst.hypersearch Arith.exact (plainArgs false (fun _ => 0))) =
      ⟨.ok, [("c", [("b", ⟨0, 0, 2, 2⟩), ("a", ⟨2, 0, 2, 2⟩)])], [("c", 1 / 2)], none,
        [.A, .A_, .B_, .C, .B, .D, .A__, .B__, .F, .E], some (some defaultStrategy)⟩ := by decide +kernel
  obtain ⟨h1, h2, h3, h4, h5, h6⟩ := hsView_eq hr
  exact ⟨c29_valid, _, Prod.ext rfl h1, by rw [h5]; decide, h6, h2, by decide +kernel, by decide +kernel⟩

/-- the hypotheses of C27, C22, C28 - C30 hold of `lsBin` with the pool of strategies: the initial
value 139/90 is improved to 17/10, both strategies are tried, no reading is late -/
example : lsBin.Valid ∧ lsBin.workers.isOne = true ∧
    (∀ n : Nat, ¬ Arith.exact.sub ((fun _ => (0 : Rat)) n) 0 > (lsBin.maxTime : Rat)) ∧
    ∃ s, lsBin.singleHS Arith.exact (fun _ => 0) 0 true strategyPool = .ok s ∧
      s.finish.calcObj Arith.exact = .ok (17 / 10) ∧ s.tried.map (·.2) = [17 / 10, 17 / 10] := by
  refine ⟨lsBin_valid, rfl, ?_, ?_⟩
  · intro n
    have : ¬ (Arith.exact.sub 0 0 > ((60 : Int) : Rat)) := by decide +kernel
    exact this
  · have hr : (match lsBin.singleHS Arith.exact (fun _ => 0) 0 true strategyPool with
        | .ok s => some (s.best, s.tried.map (·.2))
        | .error _ => none) = some ((17 / 10 : Rat), [(17 / 10 : Rat), 17 / 10]) := by decide +kernel
    obtain ⟨s, h⟩ := C27_total Arith.exact (fun _ => 0) 0 true lsBin strategyPool lsBin_valid
    rw [h] at hr
    simp only [Option.some.injEq, Prod.mk.injEq] at hr
    refine ⟨s, h, ?_, hr.2⟩
    obtain ⟨s', _, _, g1, _, g3, _⟩ := singleHS_spec (A := Arith.exact) (clock := fun _ => 0)
      (start := 0) (throttle := true) lsBin_valid strategyPool
    rw [h] at g1
    injection g1 with g1
    subst g1
    obtain ⟨v, _, _, _, _, k1, k2, _⟩ := C27_any_count _ _ _ _ _ _ lsBin_valid s h
    rw [k1, k2, ← hr.1, g3.best]
    rfl

/-- a full container: the search still tries both strategies (C30) -/
example : ∃ s, (mkDemo false [("c", ⟨2, 2⟩)] [("a", ⟨2, 2⟩)] none none).singleHS Arith.exact
      (fun _ => 0) 0 true strategyPool = .ok s ∧ s.best = 1 ∧ s.tried.map (·.1) = strategyPool := by
  have hv : (mkDemo false [("c", ⟨2, 2⟩)] [("a", ⟨2, 2⟩)] none none).Valid :=
    ⟨by constructor <;> decide, by constructor <;> decide, by decide, by decide,
      fun h => (nomatch h), fun h => (nomatch h), fun m h => (nomatch h)⟩
  obtain ⟨s, h⟩ := C27_total Arith.exact (fun _ => 0) 0 true _ strategyPool hv
  have hr : (match (mkDemo false [("c", ⟨2, 2⟩)] [("a", ⟨2, 2⟩)] none none).singleHS Arith.exact
      (fun _ => 0) 0 true strategyPool with
        | .ok s => some s.best
        | .error _ => none) = some (1 : Rat) := by decide +kernel
  rw [h] at hr
  simp only [Option.some.injEq] at hr
  refine ⟨s, h, hr, C30_refuted _ _ _ _ _ _ hv ?_ s h⟩
  intro n
  have : ¬ (Arith.exact.sub 0 0 > ((60 : Int) : Rat)) := by decide +kernel
  exact this

/-- the hypotheses of C26_partial hold of `c26Inst` -/
example : c26Inst.Valid ∧ c26Inst.strip = true ∧ c26Inst.minHeight = none := ⟨c26_valid, rfl, rfl⟩

end HP
