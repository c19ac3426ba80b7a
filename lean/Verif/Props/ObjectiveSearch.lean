import Verif.Proofs.ObjectiveSearch
import Verif.Props.HyperSearch
/-
C120: searching with an objective of a subclass.
-/
namespace HP
open Spec

/-- the number of neighbours that are tried at a node, for `n` items: all, or with `throttle` at most 2500 -/
def Spec.triedNeighbours (throttle : Bool) (n : Nat) : Nat :=
  max 1 (if throttle = true ∧ 2500 < n * (n - 1) / 2 then 2500 else n * (n - 1) / 2)

theorem climb_fin {f : List String → Rat} {g : List String → Solution × ObjVals} {limit : Nat} {x0 : List String} {v0 : Rat}
    {r0 : Solution × ObjVals} {O : LSOps Inst (Solution × ObjVals)} {n : Nat} {x : List String} {v : ALS.Num}
    {r : Solution × ObjVals}
    (h : Climb (ALS.clsOf O).Better ((ALS.clsOf O).Top .inf) (fun x => .fin (f x)) g limit x0 (.fin v0) r0 n x v r) :
    ∃ w, v = .fin w ∧ Climb (fun a b : Rat => b < a) (fun _ => False) f g limit x0 v0 r0 n x w r := by
  have hb : ∀ a b : Rat, (ALS.clsOf O).Better (.fin a) (.fin b) ↔ b < a := by
    intro a b; simp [ALS.Cls.Better, ALS.clsOf, ALS.Num.lt]
  induction h with
  | start => exact ⟨v0, rfl, .start⟩
  | @move n x v r y _ _ hf ih =>
    obtain ⟨w, rfl, hc⟩ := ih
    refine ⟨f y, rfl, .move hc (.inr id) ?_⟩
    obtain ⟨pre, post, e1, e2, e3⟩ := hf
    exact ⟨pre, post, e1, fun u hu h => e2 u hu ((hb _ _).2 h), (hb _ _).1 e3⟩

theorem Climb.result {f : List String → Rat} {g : List String → Solution × ObjVals} {limit : Nat} {x0 : List String}
    {n : Nat} {x : List String} {v : Rat} {r : Solution × ObjVals}
    (h : Climb (fun a b : Rat => b < a) (fun _ => False) f g limit x0 (f x0) (g x0) n x v r) :
    v = f x ∧ r = g x ∧ f x0 ≤ v := by
  induction h with
  | start => exact ⟨rfl, rfl, le_refl _⟩
  | @move n x v r y _ _ hf ih =>
    obtain ⟨_, _, _, _, e3⟩ := hf
    exact ⟨rfl, rfl, le_trans ih.2.2 (le_of_lt e3)⟩

/-- **C120**: with any objective, when bin packing, `local_search` ends and is a climb over exchanges of two items, from the
order of the items: every move goes to the first neighbour of a greater value among those that are tried.  If no reading of the
clock was late, none of the neighbours tried at the end has a greater value.  Nothing but the solution and the values changes. -/
theorem C120_climb (A : Arith) (V : Objective) (clock : Nat → Rat) (start : Rat) (throttle : Bool) (i : Inst) (hv : i.Valid)
    (hb : i.strip = false) :
    ∃ j t n, i.localSearchO A V clock start throttle = .ok (j, t) ∧
      Climb (fun a b : Rat => b < a) (fun _ => False) (i.valueOf A V) (i.packingOf A V)
        (triedNeighbours throttle i.items.length) (i.items.map (·.1)) (i.valueOf A V (i.items.map (·.1)))
        (i.packingOf A V (i.items.map (·.1))) n t.node t.best (j.solution, j.objVals) ∧
      j = { i with solution := j.solution, objVals := j.objVals } ∧ t.node.Perm (i.items.map (·.1)) ∧
      j.calcObj A = .ok t.best ∧ n ≤ i.items.length.factorial ∧
      ((∀ k, A.sub (clock k) start < (i.maxTime : Rat)) →
        ∀ y ∈ (neighbours t.node).take (triedNeighbours throttle i.items.length), i.valueOf A V y ≤ t.best) := by
  have hB := binBehaves A V hv hb
  have hlen : (PyDict.keys i.items).length = i.items.length := by simp [PyDict.keys]
  obtain ⟨t', n, h1, h2, h3, h4, h5, h6, h7⟩ := ALS.C91_climb _ _ _ _ _ _ _ _ _ hB rfl
    (LSParams.late ⟨A, clock, start, i.maxTime⟩) throttle (lsFuel i) (by
      rw [hlen]
      unfold lsFuel
      rw [fact_eq]
      have := Nat.le_mul_of_pos_right i.items.length.factorial
        (show 0 < max (i.height.getD 0) (i.minHeight.getD 0) + 1 by omega)
      omega) _ rfl
  rw [ALS.run_clsOf] at h1
  cases hrun : lsRun (instOpsO A V) ⟨A, clock, start, i.maxTime⟩ (lsFuel i) (PyDict.keys i.items) throttle i with
  | error e => rw [hrun] at h1; cases h1
  | ok t =>
    rw [hrun] at h1
    simp only [Except.map] at h1
    injection h1 with h1
    have hkeep : i.During t.obj := by
      refine lsRun_keeps (P := i.During) ?_ ?_ ?_ hrun
      · rintro x s s' ⟨a, b, rfl⟩ h
        obtain ⟨c, d, rfl⟩ := solveO_keeps h
        exact ⟨c, d, rfl⟩
      · rintro s s' ⟨a, b, rfl⟩ h
        simp only [instOpsO, Inst.extraNode, hb, Bool.false_eq_true, if_false, pure, Except.pure] at h
        injection h with h
        exact ⟨a, b, by rw [hb]; exact h.symm⟩
      · intro s' r h
        obtain ⟨s1, s2, e1, _, _, e4, e5⟩ := hB.init
        have e1 : (instOpsO A V).init i = .ok (s1, _) := e1
        rw [h] at e1
        injection e1 with e1
        injection e1 with e1 _
        subst e1
        simp only [ALS.hook, ALS.clsOf] at e4
        injection e4 with e4
        rw [e4]; exact e5
    obtain ⟨a, b, hobj⟩ := hkeep
    obtain ⟨w, hw, hc⟩ := climb_fin h2
    have e1 : t'.best = .fin t.best := by rw [← h1]; rfl
    have e2 : t'.node = t.node := by rw [← h1]; rfl
    have e3 : t'.retained = t.retained := by rw [← h1]; rfl
    have ew : w = t.best := by rw [e1] at hw; injection hw with hw; exact hw.symm
    subst ew
    rw [e2, e3] at hc
    rw [e2] at h4
    have hlim : triedNeighbours throttle i.items.length = max 1 (if throttle = true ∧ (ALS.clsOf (instOpsO A V)).throttleMax <
        (PyDict.keys i.items).length * ((PyDict.keys i.items).length - 1) / 2 then (ALS.clsOf (instOpsO A V)).throttleMax
        else (PyDict.keys i.items).length * ((PyDict.keys i.items).length - 1) / 2) := by
      rw [hlen]; rfl
    obtain ⟨r1, r2, r3⟩ := Climb.result hc
    obtain ⟨sol, ov, r, p1, p2, p3, p4, p5, p6⟩ := packing_exists (A := A) (V := V) hv h4
    refine ⟨{ t.obj with solution := t.retained.1, objVals := t.retained.2 }, t, n, ?_, ?_, ?_, h4, ?_, by rw [← hlen]; exact h5, ?_⟩
    · simp only [Inst.localSearchO, hb, Bool.false_eq_true, if_false, bind, Except.bind, hrun, pure, Except.pure]
    · rw [hlim]; exact hc
    · rw [hobj]
    · rw [r2, p6, calcObj_eq (i := { t.obj with solution := r, objVals := ov })
        (by rw [hobj]; exact p2.keysO) (by rw [hobj]; exact hv.contsNe), r1, p5]
      rw [hobj]
      rfl
    · intro hlate y hy
      have := h7 (by
        intro k
        have := hlate k
        simp only [LSParams.late, decide_eq_false_iff_not, ge_iff_le, not_le]
        exact this)
      rcases this with ⟨_, h⟩ | h
      · rw [e1] at h
        simp [ALS.Cls.Top, ALS.clsOf, ALS.Num.le] at h
      · rw [e2, ← hlim] at h
        have := h y hy
        rw [e1] at this
        simp [ALS.Cls.Better, ALS.clsOf, ALS.Num.lt] at this
        exact this

/-- **C120**: the packing that is left was made by `solve` with this objective, for some order of the items, and its value is at
least that of the packing in the given order. -/
theorem C120_not_worse (A : Arith) (V : Objective) (clock : Nat → Rat) (start : Rat) (throttle : Bool) (i : Inst) (hv : i.Valid)
    (hb : i.strip = false) (j : Inst) (t : LSState Inst (Solution × ObjVals))
    (h : i.localSearchO A V clock start throttle = .ok (j, t)) (sol0 : Solution) (ov0 : ObjVals)
    (h0 : solveO A V i.solveIn none = .ok (sol0, ov0)) :
    ∃ v v0 seq sol, j.calcObj A = .ok v ∧ { i with solution := sol0, objVals := ov0 }.calcObj A = .ok v0 ∧ v0 ≤ v ∧
      seq.Perm (i.items.map (·.1)) ∧ solveO A V i.solveIn (some seq) = .ok (sol, j.objVals) ∧ SamePacking j.solution sol := by
  obtain ⟨j', t', n, e, h1, h2, h3, h4, _, _⟩ := C120_climb A V clock start throttle i hv hb
  rw [h] at e
  injection e with e
  injection e with e1 e2
  subst e1; subst e2
  obtain ⟨r1, r2, r3⟩ := Climb.result h1
  obtain ⟨sol, ov, r, p1, p2, p3, p4, p5, p6⟩ := packing_exists (A := A) (V := V) hv h3
  obtain ⟨sol', ov', r', q1, q2, q3, q4, q5, q6⟩ := packing_exists (A := A) (V := V) hv (.refl (PyDict.keys i.items))
  have q1' : solveO A V i.solveIn none = .ok (sol', ov') := by
    rw [solveO_none_eq (p := i.solveIn) hv.items.1]; exact q1
  rw [h0] at q1'
  injection q1' with q1'
  injection q1' with g1 g2
  subst g1; subst g2
  rw [p6] at r2
  injection r2 with r2 r2'
  refine ⟨t.best, _, t.node, sol, h4, calcObj_eq (i := { i with solution := sol0, objVals := ov0 }) q2.keysO hv.contsNe, ?_, h3,
    by rw [r2']; exact p1, by rw [r2]; exact p4⟩
  have : i.valueOf A V (PyDict.keys i.items) ≤ t.best := r3
  rw [q5] at this
  exact this

/-- **C120**, local optimum: if no reading of the clock was late, and `throttle` was off or there are at most 71 items, then
the packing that is left is that of an order of the items in which no exchange of two items leads to a greater value. -/
theorem C120_optimum (A : Arith) (V : Objective) (clock : Nat → Rat) (start : Rat) (throttle : Bool) (i : Inst) (hv : i.Valid)
    (hb : i.strip = false) (hth : throttle = false ∨ i.items.length ≤ 71) (j : Inst) (t : LSState Inst (Solution × ObjVals))
    (h : i.localSearchO A V clock start throttle = .ok (j, t)) (htime : ∀ k, A.sub (clock k) start < (i.maxTime : Rat)) :
    ∃ v seq sol, j.calcObj A = .ok v ∧ seq.Perm (i.items.map (·.1)) ∧
      solveO A V i.solveIn (some seq) = .ok (sol, j.objVals) ∧ SamePacking j.solution sol ∧
      ∀ a b, a < b → b < i.items.length → ∀ sol' ov' v', solveO A V i.solveIn (some (exchangeAt seq a b)) = .ok (sol', ov') →
        { i with solution := sol', objVals := ov' }.calcObj A = .ok v' → v' ≤ v := by
  obtain ⟨j', t', n, e, h1, h2, h3, h4, _, h6⟩ := C120_climb A V clock start throttle i hv hb
  rw [h] at e
  injection e with e
  injection e with e1 e2
  subst e1; subst e2
  obtain ⟨r1, r2, r3⟩ := Climb.result h1
  obtain ⟨sol, ov, r, p1, p2, p3, p4, p5, p6⟩ := packing_exists (A := A) (V := V) hv h3
  rw [p6] at r2
  injection r2 with r2 r2'
  refine ⟨t.best, t.node, sol, h4, h3, by rw [r2']; exact p1, by rw [r2]; exact p4, ?_⟩
  intro a b hab hbl sol' ov' v' hs hc
  have hlen : t.node.length = i.items.length := by rw [h3.length_eq]; simp
  have hm : exchangeAt t.node a b ∈ neighbours t.node := by
    rw [ALS.neighbours_eq]
    exact List.mem_map.2 ⟨(a, b), mem_indexSwaps.2 ⟨hab, by omega⟩, rfl⟩
  have hl : (neighbours t.node).length ≤ triedNeighbours throttle i.items.length := by
    rw [ALS.neighbours_eq, List.length_map, hlen]
    have h8 := length_indexSwaps i.items.length
    have h9 : ¬ (throttle = true ∧ 2500 < i.items.length * (i.items.length - 1) / 2) := by
      rintro ⟨ht, hlt⟩
      rcases hth with h | h
      · rw [h] at ht; cases ht
      · have : i.items.length * (i.items.length - 1) ≤ 71 * 70 := Nat.mul_le_mul h (by omega)
        omega
    unfold triedNeighbours
    rw [if_neg h9]
    omega
  have hle := h6 htime (exchangeAt t.node a b) (by rw [List.take_of_length_le hl]; exact hm)
  have hperm : (exchangeAt t.node a b).Perm (PyDict.keys i.items) := (ALS.exchangeAt_perm _ _ _).trans h3
  obtain ⟨sol2, ov2, r2, q1, q2, q3, q4, q5, q6⟩ := packing_exists (A := A) (V := V) hv hperm
  rw [hs] at q1
  injection q1 with q1
  injection q1 with g1 g2
  subst g1; subst g2
  rw [calcObj_eq (i := { i with solution := sol', objVals := ov' }) q2.keysO hv.contsNe] at hc
  injection hc with hc
  rw [q5] at hle
  rw [← hc]
  exact hle

/-! ### hypersearch -/

theorem localSearchO_forget (A : Arith) (V : Objective) (clock : Nat → Rat) (start : Rat) (throttle : Bool) (i : Inst)
    (s : Solution) (o : ObjVals) :
    Inst.localSearchO A V clock start throttle { i with solution := s, objVals := o } =
      i.localSearchO A V clock start throttle := by
  cases hs : i.strip <;>
    simp only [Inst.localSearchO, hs, Bool.false_eq_true, if_false, if_true, lsRun, instOpsO,
      Inst.initSolutionO, Inst.solveO, Inst.solveIn, lsFuel] <;> rfl

/-- what holds during the search, when bin packing; `v0` is the value of the initial packing -/
structure HSInvO (A : Arith) (V : Objective) (clock : Nat → Rat) (start : Rat) (throttle : Bool) (i : Inst) (v0 : Rat)
    (s : HSState) : Prop where
  frame : s.inst = { i with strategy := s.inst.strategy, solution := s.inst.solution, objVals := s.inst.objVals }
  facts : SolFacts i.containers i.items s.retained.1 s.retained.2
  best : s.best = i.worth A (s.retained.2.map (·.2))
  ge : v0 ≤ s.best
  tried : ∀ q ∈ s.tried, q.2 ≤ s.best ∧ ∃ k j t, Inst.localSearchO A V (fun n => clock (k + n)) start throttle
    { i with strategy := q.1 } = .ok (j, t) ∧ j.calcObj A = .ok q.2
  src : s.best = v0 ∨ ∃ q ∈ s.tried, s.best = q.2
  gen : ∃ st seq sol, (st = i.strategy ∨ st ∈ s.tried.map (·.1)) ∧ seq.Perm (i.items.map (·.1)) ∧
    solveO A V { i.solveIn with strategy := st } (some seq) = .ok (sol, s.retained.2) ∧ SamePacking s.retained.1 sol

theorem hsStepO_spec {A : Arith} {V : Objective} {clock : Nat → Rat} {start : Rat} {throttle : Bool} {i : Inst}
    (hv : i.Valid) (hb : i.strip = false) {v0 : Rat} {s : HSState} (hs : HSInvO A V clock start throttle i v0 s)
    (st : List PClass) :
    ∃ s' b v, hsStepO A V clock start throttle st s = .ok (s', b) ∧ HSInvO A V clock start throttle i v0 s' ∧
      s'.tried = s.tried ++ [(st, v)] ∧ (b = true → ∃ n, A.sub (clock n) start > (i.maxTime : Rat)) := by
  have hvs : Inst.Valid { i with strategy := st } :=
    ⟨hv.conts, hv.items, hv.contsNe, hv.itemsNe, hv.strip, hv.height, hv.minPos⟩
  obtain ⟨j, t, n, h1, h2, h3, h4, h5, _, _⟩ := C120_climb A V (fun k => clock (s.tick + k)) start throttle
    { i with strategy := st } hvs hb
  have hls : Inst.localSearchO A V (fun k => clock (s.tick + k)) start throttle { s.inst with strategy := st } = .ok (j, t) := by
    rw [hs.frame, ← h1]
    exact localSearchO_forget A V _ start throttle { i with strategy := st } _ _
  obtain ⟨sol, ov, r, p1, p2, p3, p4, p5, p6⟩ := packing_exists (A := A) (V := V) hvs h4
  obtain ⟨r1, r2, r3⟩ := Climb.result h2
  rw [p6] at r2
  injection r2 with r2 r2'
  have hjf : SolFacts i.containers i.items j.solution j.objVals := by
    rw [r2, r2']; exact p4.facts p2
  obtain ⟨r', g1, g2⟩ := deepcopy_same hv.conts.1 hv.items.1 hjf
  have hget : j.getSolution = .ok (r', j.objVals) := by
    have e : j.deepcopySolution j.solution = .ok r' := by
      unfold Inst.deepcopySolution
      rw [h3]; exact g1
    simp only [Inst.getSolution, bind, Except.bind, e, copyObjVals_eq, pure, Except.pure]
  have hbest : t.best = i.worth A (j.objVals.map (·.2)) := by
    rw [r2', r1, p5]; rfl
  have hmax : j.maxTime = i.maxTime := by rw [h3]
  have hlv : ∃ k j' t', Inst.localSearchO A V (fun n => clock (k + n)) start throttle { i with strategy := st } = .ok (j', t') ∧
      j'.calcObj A = .ok t.best := ⟨s.tick, j, t, h1, h5⟩
  simp only [hsStepO, hls, bind, Except.bind, h5, hget, globalCheck, optimumObjVal, Bool.false_eq_true, if_false, pure, Except.pure]
  have hlate : outOfTime A (clock (s.tick + t.tick)) start j.maxTime = true → ∃ n, A.sub (clock n) start > (i.maxTime : Rat) := by
    intro h
    rw [hmax] at h
    exact ⟨_, by simpa [outOfTime] using h⟩
  by_cases hc : checkSolution t.best s.best = true
  · rw [if_pos hc]
    refine ⟨_, _, t.best, rfl, ?_, rfl, hlate⟩
    have hgt : s.best < t.best := by simpa [checkSolution] using hc
    constructor
    · show j = { i with strategy := j.strategy, solution := j.solution, objVals := j.objVals }
      rw [h3]
    · exact g2.facts hjf
    · exact hbest
    · exact le_trans hs.ge (le_of_lt hgt)
    · intro q hq
      rcases List.mem_append.1 hq with h | h
      · exact ⟨le_trans (hs.tried q h).1 (le_of_lt hgt), (hs.tried q h).2⟩
      · rw [List.mem_singleton] at h; subst h; exact ⟨le_refl _, hlv⟩
    · exact .inr ⟨(st, t.best), by simp, rfl⟩
    · refine ⟨st, t.node, sol, .inr (by simp), h4, by rw [r2']; exact p1, ?_⟩
      refine g2.trans ?_
      rw [r2]; exact p4
  · rw [if_neg hc]
    refine ⟨_, _, t.best, rfl, ?_, rfl, hlate⟩
    have hle : t.best ≤ s.best := by simpa [checkSolution] using hc
    constructor
    · show j = { i with strategy := j.strategy, solution := j.solution, objVals := j.objVals }
      rw [h3]
    · exact hs.facts
    · exact hs.best
    · exact hs.ge
    · intro q hq
      rcases List.mem_append.1 hq with h | h
      · exact hs.tried q h
      · rw [List.mem_singleton] at h; subst h; exact ⟨hle, hlv⟩
    · rcases hs.src with h | ⟨q, hq, h⟩
      · exact .inl h
      · exact .inr ⟨q, by simp [hq], h⟩
    · obtain ⟨st', seq, sol', h1, h2⟩ := hs.gen
      refine ⟨st', seq, sol', ?_, h2⟩
      rcases h1 with h | h
      · exact .inl h
      · right
        rw [List.map_append]
        exact List.mem_append_left _ h

theorem hsLoopO_spec {A : Arith} {V : Objective} {clock : Nat → Rat} {start : Rat} {throttle : Bool} {i : Inst}
    (hv : i.Valid) (hb : i.strip = false) {v0 : Rat} : ∀ (sts : List (List PClass)) {s : HSState},
    HSInvO A V clock start throttle i v0 s →
    ∃ s' used, hsLoopO A V clock start throttle sts s = .ok s' ∧ HSInvO A V clock start throttle i v0 s' ∧
      s'.tried.map (·.1) = s.tried.map (·.1) ++ used ∧ used <+: sts ∧
      (used = sts ∨ ∃ n, A.sub (clock n) start > (i.maxTime : Rat))
  | [], s, hs => ⟨s, [], rfl, hs, by simp, List.prefix_refl _, .inl rfl⟩
  | st :: sts, s, hs => by
    obtain ⟨s1, b, v, h1, h2, h3, h4⟩ := hsStepO_spec hv hb hs st
    simp only [hsLoopO, bind, Except.bind, h1]
    cases b with
    | true => exact ⟨s1, [st], rfl, h2, by rw [h3]; simp, by simp, .inr (h4 rfl)⟩
    | false =>
      obtain ⟨s', used, g1, g2, g3, g4, g5⟩ := hsLoopO_spec hv hb sts h2
      refine ⟨s', st :: used, g1, g2, by rw [g3, h3]; simp, ?_, ?_⟩
      · exact List.cons_prefix_cons.2 ⟨rfl, g4⟩
      · rcases g5 with h | h
        · exact .inl (by rw [h])
        · exact .inr h

/-- **C120**: with any objective and one worker, when bin packing, the hypersearch ends; it tries strategies from the front of
the list (all, unless a reading of the clock was past the limit), and its result has a value that is at least that of the initial
packing and of the local search of every strategy tried, and equals one of them.  The result was made by `solve` with this
objective for one of the strategies and some order of the items. -/
theorem C120_hypersearch (A : Arith) (V : Objective) (clock : Nat → Rat) (start : Rat) (throttle : Bool) (i : Inst)
    (sts : List (List PClass)) (hv : i.Valid) (hb : i.strip = false) :
    ∃ s v v0 sol0 ov0, i.singleHSO A V clock start throttle sts = .ok s ∧ s.finish.calcObj A = .ok v ∧
      solveO A V i.solveIn none = .ok (sol0, ov0) ∧ { i with solution := sol0, objVals := ov0 }.calcObj A = .ok v0 ∧ v0 ≤ v ∧
      s.tried.map (·.1) <+: sts ∧ (s.tried.map (·.1) = sts ∨ ∃ n, A.sub (clock n) start > (i.maxTime : Rat)) ∧
      (∀ q ∈ s.tried, q.2 ≤ v ∧ ∃ k j t, Inst.localSearchO A V (fun n => clock (k + n)) start throttle
        { i with strategy := q.1 } = .ok (j, t) ∧ j.calcObj A = .ok q.2) ∧
      (v = v0 ∨ ∃ q ∈ s.tried, v = q.2) ∧
      ∃ st seq sol, (st = i.strategy ∨ st ∈ s.tried.map (·.1)) ∧ seq.Perm (i.items.map (·.1)) ∧
        solveO A V { i.solveIn with strategy := st } (some seq) = .ok (sol, s.finish.objVals) ∧
        SamePacking s.finish.solution sol := by
  obtain ⟨sol, ov, r, h1, h2, h3, h4, h5, h6⟩ := packing_exists (A := A) (V := V) hv (.refl (PyDict.keys i.items))
  have h1' : solveO A V i.solveIn none = .ok (sol, ov) := by
    rw [solveO_none_eq (p := i.solveIn) hv.items.1]; exact h1
  have hinit : i.initSolutionO A V = .ok ({ i with solution := sol, objVals := ov }, (r, ov)) := by
    simp only [Inst.initSolutionO, Inst.solveO, bind, Except.bind, h1', pure, Except.pure, Inst.getSolution]
    have : Inst.deepcopySolution { i with solution := sol, objVals := ov } sol = i.deepcopySolution sol := rfl
    rw [this, h3, copyObjVals_eq]
  have hobj : Inst.calcObj A { i with solution := sol, objVals := ov } = .ok (i.worth A (ov.map (·.2))) :=
    calcObj_eq (A := A) (i := { i with solution := sol, objVals := ov }) h2.keysO hv.contsNe
  have hinv : HSInvO A V clock start throttle i (i.worth A (ov.map (·.2)))
      ⟨{ i with solution := sol, objVals := ov }, i.worth A (ov.map (·.2)), (r, ov), defaultStrategy, 0, []⟩ :=
    ⟨rfl, h4.facts h2, rfl, le_refl _, by simp, .inl rfl, i.strategy, PyDict.keys i.items, sol, .inl rfl, .refl _, h1, h4⟩
  obtain ⟨s, used, g1, g2, g3, g4, g5⟩ := hsLoopO_spec hv hb sts hinv
  rw [List.map_nil, List.nil_append] at g3
  refine ⟨s, s.best, i.worth A (ov.map (·.2)), sol, ov, ?_, ?_, h1', hobj, g2.ge, by rw [g3]; exact g4, by rw [g3]; exact g5,
    g2.tried, g2.src, ?_⟩
  · simp only [Inst.singleHSO, bind, Except.bind, hinit, hobj]
    exact g1
  · rw [calcObj_eq (A := A) (i := s.finish) (by unfold HSState.finish; simp only; rw [g2.facts.keysO, g2.frame])
      (by unfold HSState.finish; simp only; rw [g2.frame]; exact hv.contsNe), g2.best]
    congr 1
    unfold HSState.finish Inst.worth
    simp only
    rw [g2.frame]
  · exact g2.gen

/-! ### objectives without effect -/

theorem localSearchO_same {A : Arith} {V : Objective} (P : Inst → Prop)
    (hP : ∀ s sol ov, P s → P { s with solution := sol, objVals := ov })
    (hPh : ∀ s hs, P s → P { s with heights := hs })
    (hPx : ∀ s s', P s → s.extraNode = .ok s' → P s')
    (hV : ∀ s, P s → ∀ seq, solveO A V s.solveIn seq = solve A s.solveIn seq)
    (clock : Nat → Rat) (start : Rat) (throttle : Bool) (i : Inst) (hi : P i) :
    i.localSearchO A V clock start throttle = i.localSearch A clock start throttle := by
  have hi' : P (if i.strip then { i with heights := [i.height.getD 0] } else i) := by
    split
    · exact hPh _ _ hi
    · exact hi
  have hinit : ∀ s, P s → s.initSolutionO A V = s.initSolution A := by
    intro s hs
    simp only [Inst.initSolutionO, Inst.initSolution, solveO_same (hV s hs)]
  unfold Inst.localSearchO Inst.localSearch
  simp only
  generalize (if i.strip then { i with heights := [i.height.getD 0] } else i) = i' at hi' ⊢
  have key : lsRun (instOpsO A V) ⟨A, clock, start, i'.maxTime⟩ (lsFuel i') (PyDict.keys i'.items) throttle i' =
      lsRun (instOps A) ⟨A, clock, start, i'.maxTime⟩ (lsFuel i') (PyDict.keys i'.items) throttle i' := by
    simp only [lsRun, bind, Except.bind]
    have e1 : (instOpsO A V).init i' = (instOps A).init i' := hinit i' hi'
    rw [e1]
    cases h1 : (instOps A).init i' with
    | error e => rfl
    | ok r =>
      simp only
      have e2 : (instOpsO A V).objVal r.1 = (instOps A).objVal r.1 := rfl
      rw [e2]
      cases h2 : (instOps A).objVal r.1 with
      | error e => rfl
      | ok b =>
        simp only
        have hr : P r.1 := by
          have h1 : i'.initSolution A = .ok r := h1
          simp only [Inst.initSolution, bind, Except.bind] at h1
          cases h3 : i'.solve A none with
          | error e => rw [h3] at h1; cases h1
          | ok k =>
            rw [h3] at h1; simp only at h1
            cases h4 : k.getSolution with
            | error e => rw [h4] at h1; cases h1
            | ok q =>
              rw [h4] at h1; simp only [pure, Except.pure] at h1
              injection h1 with h1
              subst h1
              obtain ⟨a, c, rfl⟩ := solve_keeps h3
              exact hP _ _ _ hi'
        have := lsLoop_congr (O := instOps A) (C := ⟨A, clock, start, i'.maxTime⟩) (P := P)
          (ev := fun seq s => s.solveO A V (some seq))
          (ini := fun s => s.initSolutionO A V)
          (by
            intro x s s' hs h
            obtain ⟨a, c, rfl⟩ := solve_keeps h
            exact hP _ _ _ hs) (fun s s' hs h => hPx s s' hs h)
          (by intro x s hs; exact solveO_same (hV s hs) _)
          (maxNeighbors throttle (PyDict.keys i'.items).length) (indexSwaps (PyDict.keys i'.items).length) (lsFuel i')
          ⟨r.1, PyDict.keys i'.items, b, r.2, 0, []⟩ hr
        exact this
  rw [key]

/-- **C120**: with the objective of the library itself the search is `local_search`. -/
theorem C120_default (A : Arith) (clock : Nat → Rat) (start : Rat) (throttle : Bool) (i : Inst) :
    i.localSearchO A (Objective.default A) clock start throttle = i.localSearch A clock start throttle :=
  localSearchO_same (fun _ => True) (fun _ _ _ h => h) (fun _ _ h => h) (fun _ _ _ _ => trivial)
    (fun _ _ seq => C117_default A _ seq) clock start throttle i trivial

/-- **C120**: in strip mode an objective has no effect on the search at all. -/
theorem C120_strip (A : Arith) (V : Objective) (clock : Nat → Rat) (start : Rat) (throttle : Bool) (i : Inst)
    (hst : i.strip = true) : i.localSearchO A V clock start throttle = i.localSearch A clock start throttle :=
  localSearchO_same (fun s => s.strip = true) (fun _ _ _ h => h) (fun _ _ h => h)
    (fun _ _ h e => by rw [extraNode_strip e]; exact h) (fun s h seq => C117_strip A V s.solveIn h seq) clock start throttle i hst

theorem localSearch_strip {A : Arith} {clock : Nat → Rat} {start : Rat} {throttle : Bool} {i j : Inst}
    {t : LSState Inst (Solution × ObjVals)} (h : i.localSearch A clock start throttle = .ok (j, t)) : j.strip = i.strip := by
  simp only [Inst.localSearch, bind, Except.bind] at h
  have hi : (if i.strip then { i with heights := [i.height.getD 0] } else i).strip = i.strip := by
    split <;> rfl
  generalize (if i.strip then { i with heights := [i.height.getD 0] } else i) = i' at h hi
  cases hr : lsRun (instOps A) ⟨A, clock, start, i'.maxTime⟩ (lsFuel i') (PyDict.keys i'.items) throttle i' with
  | error e => rw [hr] at h; cases h
  | ok u =>
    rw [hr] at h
    simp only [pure, Except.pure] at h
    injection h with h
    injection h with h1 h2
    rw [← h1, ← hi]
    refine lsRun_keeps (P := fun s => s.strip = i'.strip) ?_ ?_ ?_ hr
    · intro x s s' hs e
      obtain ⟨a, b, rfl⟩ := solve_keeps e
      exact hs
    · intro s s' hs e
      rw [extraNode_strip e]; exact hs
    · intro s' r e
      have e : i'.initSolution A = .ok (s', r) := e
      simp only [Inst.initSolution, bind, Except.bind] at e
      cases h3 : i'.solve A none with
      | error e' => rw [h3] at e; cases e
      | ok k =>
        rw [h3] at e; simp only at e
        cases h4 : k.getSolution with
        | error e' => rw [h4] at e; cases e
        | ok q =>
          rw [h4] at e; simp only [pure, Except.pure] at e
          injection e with e
          injection e with e _
          subst e
          obtain ⟨a, c, rfl⟩ := solve_keeps h3
          rfl

theorem hsLoopO_same {A : Arith} {V : Objective} {clock : Nat → Rat} {start : Rat} {throttle : Bool} {b : Option Bool}
    (hV : ∀ (ck : Nat → Rat) (i : Inst), (∀ x, b = some x → i.strip = x) →
      i.localSearchO A V ck start throttle = i.localSearch A ck start throttle) :
    ∀ (sts : List (List PClass)) (s : HSState), (∀ x, b = some x → s.inst.strip = x) →
      hsLoopO A V clock start throttle sts s = hsLoop A clock start throttle sts s
  | [], s, hs => rfl
  | st :: sts, s, hs => by
    have e : hsStepO A V clock start throttle st s = hsStep A clock start throttle st s := by
      simp only [hsStepO, hsStep, hV _ { s.inst with strategy := st } hs]
    simp only [hsLoopO, hsLoop, e, bind, Except.bind]
    cases h : hsStep A clock start throttle st s with
    | error e => rfl
    | ok r =>
      simp only
      cases hb : r.2 with
      | true => simp
      | false =>
        simp only [Bool.false_eq_true, if_false]
        refine hsLoopO_same hV sts r.1 ?_
        intro x hx
        simp only [hsStep, bind, Except.bind] at h
        cases hl : Inst.localSearch A (fun k => clock (s.tick + k)) start throttle { s.inst with strategy := st } with
        | error e => rw [hl] at h; cases h
        | ok u =>
          have hstrip : u.1.strip = x := by
            rw [localSearch_strip (j := u.1) (t := u.2) hl]; exact hs x hx
          rw [hl] at h; simp only at h
          cases hc : u.1.calcObj A with
          | error e => rw [hc] at h; cases h
          | ok v =>
            rw [hc] at h; simp only [globalCheck, optimumObjVal, Bool.false_eq_true, if_false, pure, Except.pure] at h
            split at h
            · cases hg : u.1.getSolution with
              | error e => rw [hg] at h; cases h
              | ok q =>
                rw [hg] at h; simp only at h
                injection h with h
                rw [← h]; exact hstrip
            · injection h with h
              rw [← h]; exact hstrip

/-- **C120**: with the objective of the library itself the hypersearch is the library's. -/
theorem C120_default_hypersearch (A : Arith) (clock : Nat → Rat) (start : Rat) (throttle : Bool) (sts : List (List PClass))
    (i : Inst) : i.singleHSO A (Objective.default A) clock start throttle sts = i.singleHS A clock start throttle sts := by
  have e : i.initSolutionO A (Objective.default A) = i.initSolution A := by
    simp only [Inst.initSolutionO, Inst.initSolution, solveO_same (fun s => C117_default A i.solveIn s)]
  simp only [Inst.singleHSO, Inst.singleHS, e]
  simp only [hsLoopO_same (b := none) (fun ck i _ => C120_default A ck start throttle i) sts _ (by simp)]

/-- **C120**: in strip mode an objective has no effect on the hypersearch. -/
theorem C120_strip_hypersearch (A : Arith) (V : Objective) (clock : Nat → Rat) (start : Rat) (throttle : Bool)
    (sts : List (List PClass)) (i : Inst) (hst : i.strip = true) :
    i.singleHSO A V clock start throttle sts = i.singleHS A clock start throttle sts := by
  have e : i.initSolutionO A V = i.initSolution A := by
    simp only [Inst.initSolutionO, Inst.initSolution, solveO_same (fun s => C117_strip A V i.solveIn hst s)]
  simp only [Inst.singleHSO, Inst.singleHS, e, bind, Except.bind]
  cases h : i.initSolution A with
  | error e => rfl
  | ok r =>
    simp only
    cases hc : r.1.calcObj A with
    | error e => rfl
    | ok v =>
      simp only
      refine hsLoopO_same (b := some true) (fun ck i h => C120_strip A V ck start throttle i (h true rfl)) sts _ ?_
      intro x hx
      injection hx with hx
      subst hx
      simp only [Inst.initSolution, bind, Except.bind] at h
      cases h3 : i.solve A none with
      | error e' => rw [h3] at h; cases h
      | ok k =>
        rw [h3] at h; simp only at h
        cases h4 : k.getSolution with
        | error e' => rw [h4] at h; cases h
        | ok q =>
          rw [h4] at h; simp only [pure, Except.pure] at h
          injection h with h
          subst h
          obtain ⟨a, c, rfl⟩ := solve_keeps h3
          exact hst

/-! ### the hypotheses are met -/

/-- an objective that prefers items far from the bottom -/
def heightObjective : Objective := fun _ _ _ _ _ Yo _ => mkRat (Yo : Nat) 100

def ownObjective : Inst := mkDemo false [("c0", ⟨3, 6⟩)] [("a", ⟨3, 1⟩), ("b", ⟨3, 3⟩), ("c", ⟨3, 2⟩)] none none

theorem ownObjective_valid : ownObjective.Valid where
  conts := ⟨by decide, by decide⟩
  items := ⟨by decide, by decide⟩
  contsNe := by decide
  itemsNe := by decide
  strip := by intro h; cases h
  height := by intro h; cases h
  minPos := by intro m h; cases h

/-- the library's objective is 1 for every order of these items and the search does not move; this one is greatest with the
longest item at the bottom, and the search moves twice -/
theorem ownObjective_run : lsView (ownObjective.localSearchO Arith.exact heightObjective (fun _ => 0) 0 true) = some
    ⟨[("c0", [("a", ⟨0, 5, 3, 1⟩), ("b", ⟨0, 0, 3, 3⟩), ("c", ⟨0, 3, 3, 2⟩)])], [("c0", 2 / 25)], none, [],
     [⟨7 / 100, 1, false, true, false⟩, ⟨2 / 25, 3, false, true, false⟩, ⟨2 / 25, 3, false, false, false⟩], 7⟩ := by decide +kernel

example : lsView (ownObjective.localSearch Arith.exact (fun _ => 0) 0 true) = some
    ⟨[("c0", [("a", ⟨0, 0, 3, 1⟩), ("b", ⟨0, 1, 3, 3⟩), ("c", ⟨0, 4, 3, 2⟩)])], [("c0", 1)], none, [],
     [⟨1, 3, false, false, false⟩], 3⟩ := by decide +kernel

/-- the hypotheses of C120 are met, and the value does improve -/
example : ownObjective.Valid ∧ ownObjective.strip = false ∧ ownObjective.items.length ≤ 71 ∧
    (∀ k, Arith.exact.sub ((fun _ : Nat => (0 : Rat)) k) 0 < (ownObjective.maxTime : Rat)) ∧
    (∃ j t, ownObjective.localSearchO Arith.exact heightObjective (fun _ => 0) 0 true = .ok (j, t) ∧ j.objVals = [("c0", 2 / 25)]) ∧
    (∃ sol, solveO Arith.exact heightObjective ownObjective.solveIn none = .ok (sol, [("c0", 1 / 20)])) := by
  refine ⟨ownObjective_valid, rfl, by decide, fun _ => by
    show Arith.exact.sub 0 0 < (ownObjective.maxTime : Rat)
    decide +kernel, ?_, ?_⟩
  · obtain ⟨j, t, h, _, h2, _⟩ := lsView_some ownObjective_run
    exact ⟨j, t, h, h2⟩
  · exact ⟨[("c0", [("a", ⟨0, 0, 3, 1⟩), ("b", ⟨0, 1, 3, 3⟩), ("c", ⟨0, 4, 3, 2⟩)])], by decide +kernel⟩

end HP
