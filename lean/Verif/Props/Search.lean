import Verif.Proofs.LSPath
/-
Property theorems C16 - C24, C56: `local_search()`.

`i.localSearch A clock start throttle` models `local_search(throttle=...)` on the instance
`i`: `clock k` is the k-th reading of `time()` during the search and `start` the start time,
`A` the floating point arithmetic.  It returns the instance afterwards and the final search
state `t`, of which only the log of nodes `t.log` (what `debug` reports) and the number
`t.tick` of evaluated neighbours are used here.
-/
namespace HP
open Spec

/-- the problem data of `i` with the strip container `h` high -/
def Inst.at (i : Inst) (h : Nat) : SolveIn := { i.solveIn with height := h }

/-- a clock reading `k` at or past the time limit -/
def Late (A : Arith) (clock : Nat → Rat) (start : Rat) (i : Inst) (k : Nat) : Prop :=
  A.sub (clock k) start ≥ (i.maxTime : Rat)

theorem searchBase_fields (i : Inst) : i.searchBase.items = i.items ∧
    i.searchBase.containers = i.containers ∧ i.searchBase.strip = i.strip ∧
    i.searchBase.height = i.height ∧ i.searchBase.minHeight = i.minHeight ∧
    i.searchBase.maxTime = i.maxTime ∧ i.searchBase.maxH = i.maxH ∧
    (i.strip = true → i.searchBase.heights = [i.height.getD 0]) ∧
    (i.strip = false → i.searchBase = i) := by
  unfold Inst.searchBase
  cases h : i.strip <;> simp [Inst.maxH, h]

/-- unpacking of a successful local search -/
theorem localSearch_ok {A : Arith} {clock : Nat → Rat} {start : Rat} {throttle : Bool} {i j : Inst}
    {t : LSState Inst (Solution × ObjVals)} (hv : i.Valid)
    (h : i.localSearch A clock start throttle = .ok (j, t)) :
    ∃ s0, (∃ sol ov r, solve A i.solveIn none = .ok (sol, ov) ∧ SamePacking r sol ∧
        s0 = ⟨i.searchBase.upd sol ov i.searchBase.height i.searchBase.heights,
          PyDict.keys i.items, i.worth A (ov.map (·.2)), (r, ov), 0, []⟩) ∧
      j = { t.obj with solution := t.retained.1, objVals := t.retained.2 } ∧
      LSPath A ⟨A, clock, start, i.maxTime⟩ (maxNeighbors throttle i.items.length)
        (indexSwaps i.items.length) i.searchBase s0 t ∧
      LSInv A i.searchBase s0 ∧ LSInv A i.searchBase t := by
  obtain ⟨s0, t', h1, h2, h3, h4, h5⟩ := localSearch_spec (A := A) (clock := clock) (start := start)
    (throttle := throttle) hv
  rw [h] at h2
  injection h2 with h2
  injection h2 with h2 h6
  subst h6
  exact ⟨s0, h1, h2, h3, h4, h5⟩

theorem searchBase_upd_at (i : Inst) (h : Nat) :
    i.searchBase.solveIn.withH h = i.at h := by
  rw [searchBase_solveIn]; rfl

theorem at_height (i : Inst) : i.at (i.height.getD 0) = i.solveIn := rfl

/-! ### C18: termination -/

/-- C18: `local_search()` terminates without an error for every clock, after at most
n!·(H+1)+2 nodes (H the larger of the two height settings, 0 when bin packing), each with at most n(n-1)/2
neighbours. (`outOfFuel` is an error of the model: `.ok` means that the loops ended.) -/
theorem C18_terminates (A : Arith) (clock : Nat → Rat) (start : Rat) (throttle : Bool) (i : Inst)
    (hv : i.Valid) :
    ∃ j t, i.localSearch A clock start throttle = .ok (j, t) := by
  obtain ⟨s0, t, _, h, _⟩ := localSearch_spec (A := A) (clock := clock) (start := start)
    (throttle := throttle) hv
  exact ⟨_, t, h⟩

theorem lsLoop_mono {σ ρ : Type} (O : LSOps σ ρ) (C : LSParams) (maxN : Nat)
    (swaps : List (Nat × Nat)) : ∀ (f : Nat) (s t : LSState σ ρ),
    lsLoop O C maxN swaps f s = .ok t → ∀ f', f ≤ f' → lsLoop O C maxN swaps f' s = .ok t
  | 0, s, t, h => by simp [lsLoop] at h
  | f + 1, s, t, h => by
    intro f' hf
    obtain ⟨g, rfl⟩ : ∃ g, f' = g + 1 := ⟨f' - 1, by omega⟩
    unfold lsLoop at h ⊢
    simp only [bind, Except.bind] at h ⊢
    cases hr : lsScan O C maxN swaps 0 s with
    | error e => rw [hr] at h; cases h
    | ok r =>
      rw [hr] at h
      simp only at h ⊢
      split
      · rename_i hc
        rw [if_pos hc] at h
        exact lsLoop_mono O C maxN swaps f _ t h g (by omega)
      · rename_i hc
        rw [if_neg hc] at h
        exact h

theorem lsLoop_nodes {σ ρ : Type} (O : LSOps σ ρ) (C : LSParams) (maxN : Nat)
    (swaps : List (Nat × Nat))
    (hlog : ∀ s r, lsScan O C maxN swaps 0 s = .ok r → r.1.log = s.log) :
    ∀ (f : Nat) (s t : LSState σ ρ),
    lsLoop O C maxN swaps f s = .ok t → t.log.length ≤ s.log.length + f
  | 0, s, t, h => by simp [lsLoop] at h
  | f + 1, s, t, h => by
    unfold lsLoop at h
    simp only [bind, Except.bind] at h
    cases hr : lsScan O C maxN swaps 0 s with
    | error e => rw [hr] at h; cases h
    | ok r =>
      rw [hr] at h
      simp only at h
      have hl := hlog s r hr
      split at h
      · have := lsLoop_nodes O C maxN swaps hlog f _ t h
        simp [hl] at this; omega
      · injection h with h; subst h
        simp [hl]

theorem lsScan_log {σ ρ : Type} (O : LSOps σ ρ) (C : LSParams) (maxN : Nat) :
    ∀ (swaps : List (Nat × Nat)) (k : Nat) (s : LSState σ ρ) r,
      lsScan O C maxN swaps k s = .ok r → r.1.log = s.log
  | [], k, s, r, h => by injection h with h; subst h; rfl
  | (a, b) :: swaps, k, s, r, h => by
    unfold lsScan at h
    simp only [bind, Except.bind, pure, Except.pure] at h
    cases h1 : swapSeq s.node a b with
    | error e => rw [h1] at h; cases h
    | ok cur =>
    rw [h1] at h; simp only at h
    cases h2 : O.evaluate cur s.obj with
    | error e => rw [h2] at h; cases h
    | ok obj =>
    rw [h2] at h; simp only at h
    cases h3 : O.objVal obj with
    | error e => rw [h3] at h; cases h
    | ok v =>
    rw [h3] at h; simp only at h
    cases h4 : O.compare obj v s.best with
    | error e => rw [h4] at h; cases h
    | ok acc =>
    rw [h4] at h; simp only at h
    cases acc with
    | false =>
      simp only [Bool.false_eq_true, if_false] at h
      split at h
      · injection h with h; subst h; rfl
      · have := lsScan_log O C maxN swaps _ _ r h
        exact this
    | true =>
      simp only [if_true] at h
      cases h5 : O.getSol obj with
      | error e => rw [h5] at h; cases h
      | ok r5 =>
      rw [h5] at h; simp only at h
      cases h6 : O.extra obj with
      | error e => rw [h6] at h; cases h
      | ok o6 =>
      rw [h6] at h; simp only at h
      simp at h
      subst h; rfl

/-- C18, with numbers: bound on the nodes and on the evaluated neighbours -/
theorem C18_work_bound (A : Arith) (clock : Nat → Rat) (start : Rat) (throttle : Bool) (i j : Inst)
    (t : LSState Inst (Solution × ObjVals)) (hv : i.Valid)
    (h : i.localSearch A clock start throttle = .ok (j, t)) :
    let n := i.items.length
    let nodes := n.factorial * (max (i.height.getD 0) (i.minHeight.getD 0) + 1) + 2
    t.log.length ≤ nodes ∧ t.tick ≤ nodes * (n * (n - 1) / 2) := by
  intro n nodes
  have hlen : t.log.length ≤ nodes := by
    have h' := h
    simp only [Inst.localSearch, bind, Except.bind, pure, Except.pure, lsRun] at h'
    split at h'
    · cases h'
    · rename_i r hr
      injection h' with h'
      injection h' with _ h'
      subst h'
      split at hr
      · cases hr
      · split at hr
        · cases hr
        · have := lsLoop_nodes _ _ _ _ (fun s r => lsScan_log _ _ _ _ _ s r) _ _ _ hr
          simp only [List.length_nil, Nat.zero_add] at this
          have e : lsFuel i.searchBase = nodes := by
            obtain ⟨a, _, _, b, c, _⟩ := searchBase_fields i
            unfold lsFuel; rw [a, b, c, fact_eq]
          rw [← e]; exact this
  refine ⟨hlen, ?_⟩
  obtain ⟨s0, ⟨sol, ov, r, _, _, hs0⟩, _, hp, _, _⟩ := localSearch_ok hv h
  obtain ⟨ext, w⟩ := hp.work
  have hl := w.log
  have ht := w.tick
  rw [hs0] at hl ht
  simp only [List.nil_append, Nat.zero_add] at hl ht
  have hsw : (indexSwaps n).length = n * (n - 1) / 2 := by
    have := length_indexSwaps n; omega
  have key : ∀ l : List NodeLog, (∀ e ∈ l, e.processed ≤ (indexSwaps n).length) →
      (l.map (·.processed)).sum ≤ l.length * (indexSwaps n).length := by
    intro l
    induction l with
    | nil => intro _; simp
    | cons e l ih =>
      intro he
      have h1 := he e (by simp)
      have h2 := ih (fun e h => he e (by simp [h]))
      simp only [List.map_cons, List.sum_cons, List.length_cons, Nat.add_mul, Nat.one_mul]
      omega
  have h3 := key ext (fun e he => (w.proc e he).1)
  rw [← hl] at h3 ht
  rw [ht, ← hsw]
  exact Nat.le_trans h3 (Nat.mul_le_mul_right _ hlen)

/-! ### C17: the result is a packing of a re-ordering -/

/-- C17: the result is the packing `solve(sequence)` gives for a permutation of the items, at
the container height in force when it was found (one of `_heights_history`). -/
theorem C17_genuine (A : Arith) (clock : Nat → Rat) (start : Rat) (throttle : Bool) (i j : Inst)
    (t : LSState Inst (Solution × ObjVals)) (hv : i.Valid)
    (h : i.localSearch A clock start throttle = .ok (j, t)) :
    ∃ (seq : List String) (height : Nat) (sol : Solution),
      seq.Perm (i.items.map (·.1)) ∧
      (i.strip = true → height ∈ j.heights ∧ 0 < height) ∧
      (i.strip = false → height = i.height.getD 0) ∧
      solve A (i.at height) (some seq) = .ok (sol, j.objVals) ∧
      SamePacking j.solution sol := by
  obtain ⟨s0, _, hj, _, _, hinv⟩ := localSearch_ok hv h
  obtain ⟨fi, fc, fs, fh, fm, _, fx, fhs, fb⟩ := searchBase_fields i
  obtain ⟨hh, hs, hN, sol, hi⟩ := hinv
  obtain ⟨o1, o2, hobj⟩ := hi.obj
  refine ⟨t.node, hN, sol, by have := hi.node; rw [fi] at this; exact this, ?_, ?_, ?_, ?_⟩
  · intro hst
    have h1 := hi.hist (by rw [fs]; exact hst) (by rw [fhs hst, fh])
    refine ⟨?_, (hi.nStrip (by rw [fs]; exact hst)).1⟩
    rw [hj, hobj]; exact h1.2.2.1
  · intro hst
    rw [hi.nBin (by rw [fs]; exact hst), fh]
  · have := hi.packs
    unfold Packs at this
    rw [searchBase_upd_at] at this
    rw [this, hj]
  · rw [hj]; exact hi.same

/-- local_search changes only the results, the container height and the height history -/
theorem C17_frame (A : Arith) (clock : Nat → Rat) (start : Rat) (throttle : Bool) (i j : Inst)
    (t : LSState Inst (Solution × ObjVals)) (hv : i.Valid)
    (h : i.localSearch A clock start throttle = .ok (j, t)) :
    j = { i with solution := j.solution, objVals := j.objVals, height := j.height,
                 heights := j.heights } ∧
    (i.strip = false → j.height = i.height ∧ j.heights = i.heights) := by
  obtain ⟨s0, _, hj, _, _, hinv⟩ := localSearch_ok hv h
  obtain ⟨fi, fc, fs, fh, fm, _, fx, fhs, fb⟩ := searchBase_fields i
  obtain ⟨hh, hs, hN, sol, hi⟩ := hinv
  obtain ⟨o1, o2, hobj⟩ := hi.obj
  constructor
  · rw [hj, hobj]
    unfold Inst.searchBase Inst.upd
    split <;> rfl
  · intro hst
    obtain ⟨a, b⟩ := hi.hBin (by rw [fs]; exact hst)
    rw [hj, hobj]
    rw [fb hst] at a b
    exact ⟨a, b⟩

/-- C17, carried over: the packing left by `local_search()` uses the current containers, puts
every item at most once, with its own size (turned only if allowed), inside its container
(below the height in force when it was found), and without overlap under the proviso of C02;
in any case two items share cells only strictly between the ends of a one unit high one. -/
theorem C17_carries_over (A : Arith) (clock : Nat → Rat) (start : Rat) (throttle : Bool) (i j : Inst)
    (t : LSState Inst (Solution × ObjVals)) (hv : i.Valid)
    (h : i.localSearch A clock start throttle = .ok (j, t)) :
    j.solution.map (·.1) = i.containers.map (·.1) ∧
    j.objVals.map (·.1) = i.containers.map (·.1) ∧
    (placedIds j.solution).Nodup ∧
    ∀ cid m, (cid, m) ∈ j.solution → ∃ c, (cid, c) ∈ i.containers ∧
      (∀ id r, (id, r) ∈ m → ∃ d, (id, d) ∈ i.items ∧ SizedAs i.rotation d r ∧
        r.x + r.w ≤ c.w ∧ (i.strip = false → r.y + r.l ≤ c.l) ∧
        (i.strip = true → ∃ H ∈ j.heights, r.y + r.l ≤ H)) ∧
      ((∀ q ∈ i.items, ¬ LowStrip i.rotation q.2) → (m.map (·.2)).Pairwise Disjoint) ∧
      (m.map (·.2)).Pairwise (fun r s => SharesOnlyMiddle r s ∨ SharesOnlyMiddle s r) := by
  obtain ⟨seq, H, sol, hp, h1, h2, h3, h4⟩ := C17_genuine A clock start throttle i j t hv h
  have hvH : ValidIn (i.at H) := ⟨hv.conts, hv.items, fun hs => (h1 hs).2⟩
  have hks : KnownSeq (i.at H) (some seq) := KnownSeq_perm hp
  have hf := solve_facts hvH hks h3
  have hf' := h4.facts hf
  refine ⟨hf'.keysS, hf'.keysO, ?_, ?_⟩
  · obtain ⟨_, _, hn, _⟩ := C04_once A _ hvH _ hks _ _ h3
    have hkn : (PyDict.keys sol).Nodup := by rw [hf.keysS]; exact hv.conts.1
    exact (h4.placedIds_perm hkn).nodup_iff.2 hn
  · intro cid m hm
    obtain ⟨m', g1, g2⟩ := h4.2 cid m hm
    obtain ⟨c, hc, hin⟩ := C03_inside A _ hvH _ hks _ _ h3 cid m' g1
    refine ⟨c, hc, ?_, ?_, ?_⟩
    · intro id r hr
      have hr' := g2.mem_iff.1 hr
      obtain ⟨d, hd, hsz⟩ := C05_sizes A _ hvH _ hks _ _ h3 cid m' g1 id r hr'
      obtain ⟨a, b⟩ := hin _ hr'
      refine ⟨d, hd, hsz, a, ?_, ?_⟩
      · intro hs
        simpa [lenOf, Inst.at, Inst.solveIn, hs] using b
      · intro hs
        exact ⟨H, (h1 hs).1, by simpa [lenOf, Inst.at, Inst.solveIn, hs] using b⟩
    · intro hlow
      have := C02_no_overlap A _ hvH _ hks hlow _ _ h3 cid m' g1
      exact ((g2.map _).pairwise_iff (fun {x y} hxy => fun a b hab => hxy a b hab.symm)).2 this
    · have := C01_shared_partial A _ hvH _ hks _ _ h3 cid m' g1
      exact ((g2.map _).pairwise_iff (fun {x y} hxy => hxy.symm)).2 (this.imp Or.inl)

/-! ### C16: never worse than solve -/

/-- C16 with whatever number of containers is stored: `calculate_obj_value()` after
`local_search()` is at least what it is after `solve()` on the items in their current order. -/
theorem C16_any_count (A : Arith) (clock : Nat → Rat) (start : Rat) (throttle : Bool) (i j : Inst)
    (t : LSState Inst (Solution × ObjVals)) (hv : i.Valid)
    (h : i.localSearch A clock start throttle = .ok (j, t))
    (sol : Solution) (ov : ObjVals) (hsolve : solve A i.solveIn none = .ok (sol, ov)) :
    i.worth A (ov.map (·.2)) ≤ i.worth A (j.objVals.map (·.2)) ∧
    { i with solution := sol, objVals := ov }.calcObj A = .ok (i.worth A (ov.map (·.2))) ∧
    j.calcObj A = .ok (i.worth A (j.objVals.map (·.2))) := by
  obtain ⟨s0, ⟨sol', ov', r, h1, h2, h3⟩, hj, hp, _, hinv⟩ := localSearch_ok hv h
  rw [hsolve] at h1
  injection h1 with h1
  injection h1 with e1 e2
  subst e1; subst e2
  have hb := hp.best_le
  rw [h3] at hb
  obtain ⟨hh, hs, hN, sol2, hi⟩ := hinv
  rw [hi.best] at hb
  rw [searchBase_worth] at hb
  refine ⟨?_, ?_, ?_⟩
  · rw [hj]; exact hb
  · exact calcObj_eq (i := { i with solution := sol, objVals := ov })
      (solve_facts hv.solveIn (KnownSeq_none _) hsolve).keysO hv.contsNe
  · obtain ⟨_, ho, _⟩ := C17_carries_over A clock start throttle i j t hv h
    obtain ⟨hfr, _⟩ := C17_frame A clock start throttle i j t hv h
    have hw : ∀ v, i.worth A v = j.worth A v := by intro v; rw [hfr]; rfl
    rw [hw]
    apply calcObj_eq
    · rw [hfr]; exact ho
    · rw [hfr]; exact hv.contsNe

/-- C16 (in both modes): the overall value after `local_search()` is at least that of
`solve()` on the items in their current order. -/
theorem C16_not_worse (A : Arith) (clock : Nat → Rat) (start : Rat) (throttle : Bool) (i j : Inst)
    (t : LSState Inst (Solution × ObjVals)) (hv : i.Valid) (hn : i.containersNum = i.containers.length)
    (h : i.localSearch A clock start throttle = .ok (j, t))
    (sol : Solution) (ov : ObjVals) (hsolve : solve A i.solveIn none = .ok (sol, ov)) :
    overall A (ov.map (·.2)) ≤ overall A (j.objVals.map (·.2)) ∧
    j.calcObj A = .ok (overall A (j.objVals.map (·.2))) := by
  obtain ⟨h1, _, h3⟩ := C16_any_count A clock start throttle i j t hv h sol ov hsolve
  obtain ⟨_, ho, _⟩ := C17_carries_over A clock start throttle i j t hv h
  rw [← Inst.worth_eq hn ho, ← Inst.worth_eq hn (solve_facts hv.solveIn (KnownSeq_none _) hsolve).keysO]
  exact ⟨h1, h3⟩

/-! ### C19: local optimum -/

theorem indexSwaps_length (n : Nat) : (indexSwaps n).length = n * (n - 1) / 2 := by
  have := length_indexSwaps n; omega

theorem maxNeighbors_small {throttle : Bool} {n : Nat} (h : throttle = false ∨ n ≤ 71) :
    maxNeighbors throttle n = n * (n - 1) / 2 := by
  unfold maxNeighbors maxNeighborsThrottle
  rcases h with h | h
  · simp [h]
  · have : n * (n - 1) ≤ 71 * 70 := Nat.mul_le_mul h (by omega)
    have : ¬ (n * (n - 1) / 2 > 2500) := by omega
    simp [this]

/-- C19: if no clock reading was late and the throttle could not act (off, or at most 71
items), the search ends in a local optimum: the result is the packing of a permutation
`seq`, and no exchange of two entries of `seq` has a strictly better overall value. -/
theorem C19_local_optimum (A : Arith) (clock : Nat → Rat) (start : Rat) (throttle : Bool) (i j : Inst)
    (t : LSState Inst (Solution × ObjVals)) (hv : i.Valid) (hn : i.containersNum = i.containers.length)
    (hbin : i.strip = false) (h : i.localSearch A clock start throttle = .ok (j, t))
    (hclock : ∀ k, k < t.tick → ¬ Late A clock start i k)
    (hthr : throttle = false ∨ i.items.length ≤ 71) :
    ∃ (seq : List String) (sol : Solution), seq.Perm (i.items.map (·.1)) ∧
      solve A i.solveIn (some seq) = .ok (sol, j.objVals) ∧ SamePacking j.solution sol ∧
      ∀ a b, a < b → b < i.items.length →
        ∀ sol' ov', solve A i.solveIn (some (exchange seq a b)) = .ok (sol', ov') →
          overall A (ov'.map (·.2)) ≤ overall A (j.objVals.map (·.2)) := by
  obtain ⟨s0, _, hj, hp, _, hinv⟩ := localSearch_ok hv h
  obtain ⟨fi, fc, fs, fh, fm, _, fx, fhs, fb⟩ := searchBase_fields i
  have hbase := fb hbin
  rw [hbase] at hp hinv
  obtain ⟨hh, hs, hN, sol, hi⟩ := hinv
  have hN' := hi.nBin hbin
  have hpk := hi.packs
  unfold Packs at hpk
  rw [hN'] at hpk
  refine ⟨t.node, sol, hi.node, by rw [hj]; exact hpk, by rw [hj]; exact hi.same, ?_⟩
  obtain ⟨lg, h', hs', _, hlate, hfin⟩ := hp.final
  have hot : lg.outOfTime = false := by
    cases hc : lg.outOfTime with
    | false => rfl
    | true =>
      obtain ⟨a, b⟩ := hlate hc
      exact absurd (by simpa [LSParams.late, Late] using b) (hclock (t.tick - 1) (by omega))
  obtain ⟨_, ⟨o1, o2, hobj⟩, hproc, hno⟩ := hfin hot
  have hall : (indexSwaps i.items.length).take lg.processed = indexSwaps i.items.length := by
    apply List.take_of_length_le
    rw [maxNeighbors_small hthr, ← indexSwaps_length] at hproc
    rcases hproc with h | h <;> omega
  rw [hall] at hno
  intro a b hab hb sol' ov' hsol'
  by_contra hgt
  rw [not_le] at hgt
  have hh' : h' = i.height := by
    obtain ⟨p1, p2, hobj2⟩ := hi.obj
    rw [hobj] at hobj2
    have : (i.upd o1 o2 h' hs').height = (i.upd p1 p2 hh hs).height := by rw [hobj2]
    simp only [Inst.upd] at this
    rw [this]; exact (hi.hBin hbin).1
  refine hno (a, b) (mem_indexSwaps.2 ⟨hab, hb⟩) sol' ov' ?_ ⟨?_, ?_⟩
  · unfold Packs; rw [hh']; exact hsol'
  · rw [hi.best, Inst.worth_eq hn (solve_facts hv.solveIn
        (KnownSeq_perm ((exchange_perm _ _ _).trans hi.node)) hsol').keysO,
      Inst.worth_eq hn (solve_facts hv.solveIn (KnownSeq_perm hi.node) hpk).keysO]
    rw [hj] at hgt; exact hgt
  · intro h; rw [hbin] at h; cases h

/-- C19 for strip packing: no exchange that packs every item (any exchange when a minimum
height is set) is strictly better, at the final container height. -/
theorem C19_strip (A : Arith) (clock : Nat → Rat) (start : Rat) (throttle : Bool) (i j : Inst)
    (t : LSState Inst (Solution × ObjVals)) (hv : i.Valid) (hn : i.containersNum = i.containers.length)
    (hst : i.strip = true) (h : i.localSearch A clock start throttle = .ok (j, t))
    (hclock : ∀ k, k < t.tick → ¬ Late A clock start i k)
    (hthr : throttle = false ∨ i.items.length ≤ 71) :
    ∃ (seq : List String) (sol : Solution) (H : Nat), seq.Perm (i.items.map (·.1)) ∧
      solve A (i.at H) (some seq) = .ok (sol, j.objVals) ∧ SamePacking j.solution sol ∧
      ∀ a b, a < b → b < i.items.length →
        ∀ m ov', solve A (i.at (j.height.getD 0)) (some (exchange seq a b)) = .ok ([(stripId, m)], ov') →
          (i.minHeight = none → m.length = i.items.length) →
          overall A (ov'.map (·.2)) ≤ overall A (j.objVals.map (·.2)) := by
  obtain ⟨s0, _, hj, hp, _, hinv⟩ := localSearch_ok hv h
  obtain ⟨fi, fc, fs, fh, fm, _, fx, fhs, fb⟩ := searchBase_fields i
  obtain ⟨hh, hs, hN, sol, hi⟩ := hinv
  have hpk := hi.packs
  unfold Packs at hpk
  rw [searchBase_upd_at] at hpk
  have hnode := hi.node
  rw [fi] at hnode
  refine ⟨t.node, sol, hN, hnode, by rw [hj]; exact hpk, by rw [hj]; exact hi.same, ?_⟩
  obtain ⟨lg, h', hs', _, hlate, hfin⟩ := hp.final
  have hot : lg.outOfTime = false := by
    cases hc : lg.outOfTime with
    | false => rfl
    | true =>
      obtain ⟨a, b⟩ := hlate hc
      exact absurd (by simpa [LSParams.late, Late] using b) (hclock (t.tick - 1) (by omega))
  obtain ⟨_, ⟨o1, o2, hobj⟩, hproc, hno⟩ := hfin hot
  have hall : (indexSwaps i.items.length).take lg.processed = indexSwaps i.items.length := by
    apply List.take_of_length_le
    rw [maxNeighbors_small hthr, ← indexSwaps_length] at hproc
    rcases hproc with h | h <;> omega
  rw [hall] at hno
  intro a b hab hb m ov' hsol' hcomp
  by_contra hgt
  rw [not_le] at hgt
  refine hno (a, b) (mem_indexSwaps.2 ⟨hab, hb⟩) [(stripId, m)] ov' ?_ ⟨?_, ?_⟩
  · unfold Packs
    rw [searchBase_upd_at]
    rw [hj, hobj] at hsol'
    exact hsol'
  · have hat : ∀ H, 0 < H → ValidIn (i.at H) := fun H h => ⟨hv.conts, hv.items, fun _ => h⟩
    obtain ⟨n, hn1, hn2, _⟩ := hi.hStrip (by rw [fs]; exact hst)
    have hh2 : h' = some n := by
      obtain ⟨p1, p2, hobj2⟩ := hi.obj
      rw [hobj] at hobj2
      have : (i.searchBase.upd o1 o2 h' hs').height = (i.searchBase.upd p1 p2 hh hs).height := by rw [hobj2]
      simpa only [Inst.upd, hn1] using this
    have hjh : j.height.getD 0 = n := by rw [hj, hobj]; simp [Inst.upd, hh2]
    rw [hjh] at hsol'
    rw [hi.best, searchBase_worth, searchBase_worth, Inst.worth_eq hn (solve_facts (hat n hn2)
        (KnownSeq_perm ((exchange_perm _ _ _).trans hnode)) hsol').keysO,
      Inst.worth_eq hn (solve_facts (hat _ (hi.nStrip (by rw [fs]; exact hst)).1) (KnownSeq_perm hnode) hpk).keysO]
    rw [hj] at hgt; exact hgt
  · intro _ hmn
    rw [fm] at hmn
    rw [fi]
    have : stripPart [(stripId, m)] = m := by simp [stripPart, PyDict.find?]
    rw [this]; exact hcomp hmn

/-! ### C20: neighbours per node -/

/-- C20: for every node at most n(n-1)/2 neighbours are evaluated, at most 2500 when the
throttle is on. -/
theorem C20_throttle (A : Arith) (clock : Nat → Rat) (start : Rat) (throttle : Bool) (i j : Inst)
    (t : LSState Inst (Solution × ObjVals)) (hv : i.Valid)
    (h : i.localSearch A clock start throttle = .ok (j, t)) :
    ∀ e ∈ t.log, e.processed ≤ i.items.length * (i.items.length - 1) / 2 ∧
      (throttle = true → e.processed ≤ 2500) := by
  obtain ⟨s0, ⟨sol, ov, r, _, _, hs0⟩, hj, hp, _, _⟩ := localSearch_ok hv h
  obtain ⟨ext, w⟩ := hp.work
  have hl := w.log
  rw [hs0] at hl
  simp only [List.nil_append] at hl
  intro e he
  rw [hl] at he
  obtain ⟨h1, h2⟩ := w.proc e he
  rw [indexSwaps_length] at h1
  refine ⟨h1, fun ht => ?_⟩
  have : maxNeighbors throttle i.items.length ≤ 2500 := by
    unfold maxNeighbors maxNeighborsThrottle
    simp only [ht, Bool.true_and, decide_eq_true_eq]
    split <;> omega
  omega

/-- C20: up to 71 items the throttle changes nothing. -/
theorem C20_small (A : Arith) (clock : Nat → Rat) (start : Rat) (i : Inst)
    (hn : i.items.length ≤ 71) :
    i.localSearch A clock start true = i.localSearch A clock start false := by
  have hkl : ∀ k : Inst, k.items = i.items → maxNeighbors true (PyDict.keys k.items).length =
      maxNeighbors false (PyDict.keys k.items).length := by
    intro k hk
    have : (PyDict.keys k.items).length = i.items.length := by rw [hk]; simp [PyDict.keys]
    rw [this, maxNeighbors_small (.inr hn), maxNeighbors_small (.inl rfl)]
  simp only [Inst.localSearch, lsRun, bind, Except.bind]
  rw [hkl _ (by split <;> rfl)]

/-- C20 is sharp: with 72 items and more the throttle does act. -/
theorem C20_sharp (n : Nat) (hn : 72 ≤ n) : maxNeighbors true n = 2500 ∧
    maxNeighbors false n > 2500 := by
  have : 72 * 71 ≤ n * (n - 1) := Nat.mul_le_mul hn (by omega)
  have h : n * (n - 1) / 2 > 2500 := by omega
  unfold maxNeighbors maxNeighborsThrottle
  simp [h]

/-! ### C21: time limit -/

/-- C21: once a reading is late no further neighbour is evaluated (the number `t.tick` of
evaluated neighbours is the number of readings), so every reading but the last was in time;
and the number of evaluations is the sum of the logged numbers. -/
theorem C21_time_limit (A : Arith) (clock : Nat → Rat) (start : Rat) (throttle : Bool) (i j : Inst)
    (t : LSState Inst (Solution × ObjVals)) (hv : i.Valid)
    (h : i.localSearch A clock start throttle = .ok (j, t)) :
    (∀ k, Late A clock start i k → t.tick ≤ k + 1) ∧
    t.tick = (t.log.map (·.processed)).sum := by
  obtain ⟨s0, ⟨sol, ov, r, _, _, hs0⟩, hj, hp, _, _⟩ := localSearch_ok hv h
  obtain ⟨ext, w⟩ := hp.work
  have hl := w.log
  have ht := w.tick
  rw [hs0] at hl ht
  simp only [List.nil_append, Nat.zero_add] at hl ht
  constructor
  · intro k hk
    by_contra hc
    have := w.early k (by rw [hs0]; simp) (by omega)
    simp only [LSParams.late, decide_eq_false_iff_not] at this
    exact this hk
  · rw [hl]; exact ht

/-! ### C22: solution and values belong together -/

/-- C22 for `local_search()` when bin packing (exact arithmetic): each reported value is the
covered area fraction of the container in the reported packing. -/
theorem C22_consistent_bin (clock : Nat → Rat) (start : Rat) (throttle : Bool) (i j : Inst)
    (t : LSState Inst (Solution × ObjVals)) (hv : i.Valid) (hbin : i.strip = false)
    (h : i.localSearch Arith.exact clock start throttle = .ok (j, t)) :
    ∀ cid m, (cid, m) ∈ j.solution → ∃ c v, (cid, c) ∈ i.containers ∧ (cid, v) ∈ j.objVals ∧
      v = (totalArea (m.map (·.2)) : Rat) / ((c.w * c.l : Nat) : Rat) := by
  obtain ⟨seq, H, sol, hp, h1, h2, h3, h4⟩ := C17_genuine _ clock start throttle i j t hv h
  have hvH : ValidIn (i.at H) := ⟨hv.conts, hv.items, fun hs => (h1 hs).2⟩
  have hks : KnownSeq (i.at H) (some seq) := KnownSeq_perm hp
  intro cid m hm
  obtain ⟨m', g1, g2⟩ := h4.2 cid m hm
  obtain ⟨c, v, a1, a2, a3, _⟩ := C07_utilization _ hvH hbin _ hks _ _ h3 cid m' g1
  refine ⟨c, v, a1, a2, ?_⟩
  rw [a3, totalArea_perm (g2.map _)]

/-- C22 for `local_search()` when strip packing (any arithmetic): the reported value belongs
to the reported packing (in the sense of C08_partial). -/
theorem C22_consistent_strip (A : Arith) (clock : Nat → Rat) (start : Rat) (throttle : Bool) (i j : Inst)
    (t : LSState Inst (Solution × ObjVals)) (hv : i.Valid) (hst : i.strip = true)
    (h : i.localSearch A clock start throttle = .ok (j, t)) :
    ∀ cid m, (cid, m) ∈ j.solution → m ≠ [] → ∃ c v, (cid, c) ∈ i.containers ∧
      (cid, v) ∈ j.objVals ∧
      v = A.div (totalArea (m.map (·.2))) (c.w * max 1 (stackHeight (m.map (·.2)) - 1)) := by
  obtain ⟨seq, H, sol, hp, h1, h2, h3, h4⟩ := C17_genuine _ clock start throttle i j t hv h
  have hvH : ValidIn (i.at H) := ⟨hv.conts, hv.items, fun hs => (h1 hs).2⟩
  have hks : KnownSeq (i.at H) (some seq) := KnownSeq_perm hp
  intro cid m hm hne
  obtain ⟨m', g1, g2⟩ := h4.2 cid m hm
  have hne' : m' ≠ [] := by rintro rfl; exact hne (List.perm_nil.1 g2)
  obtain ⟨c, v, a1, a2, a3⟩ := C08_partial _ _ hvH hst _ hks _ _ h3 cid m' g1 hne'
  refine ⟨c, v, a1, a2, ?_⟩
  rw [a3, totalArea_perm (g2.map _), stackHeight_perm (g2.map _)]

/-! ### C23: strip height -/

/-- C23: in strip packing, with `container_min_height` not above `container_height`, the
heights in `_heights_history` start with the height before the call, never increase, end with
`container_height` after the call and never fall below the minimum height.  (`C23_below`: no item
of the returned packing reaches above `container_height`.) -/
theorem C23_height_down (A : Arith) (clock : Nat → Rat) (start : Rat) (throttle : Bool) (i j : Inst)
    (t : LSState Inst (Solution × ObjVals)) (hv : i.Valid) (hst : i.strip = true)
    (hm : i.minHeight.getD 0 ≤ i.height.getD 0)
    (h : i.localSearch A clock start throttle = .ok (j, t)) :
    j.heights.head? = some (i.height.getD 0) ∧
    (∃ k, j.height = some k ∧ j.heights.getLast? = some k ∧ 0 < k ∧ k ≤ i.height.getD 0 ∧
      i.minHeight.getD 0 ≤ k) ∧
    j.heights.Pairwise (· ≥ ·) := by
  obtain ⟨s0, _, hj, hp, _, hinv⟩ := localSearch_ok hv h
  obtain ⟨fi, fc, fs, fh, fm, _, fx, fhs, fb⟩ := searchBase_fields i
  obtain ⟨hh, hs, hN, sol, hi⟩ := hinv
  obtain ⟨o1, o2, hobj⟩ := hi.obj
  have hst' : i.searchBase.strip = true := by rw [fs]; exact hst
  have h1 := hi.hist hst' (by rw [fhs hst, fh])
  rw [fh, fm] at h1
  obtain ⟨c1, c2, c3, c4⟩ := h1
  obtain ⟨c5, c6⟩ := c4 hm
  obtain ⟨k, hk, hk1, hk2⟩ := hi.hStrip hst'
  have eh : j.heights = hs := by rw [hj, hobj]; rfl
  have ek : j.height = hh := by rw [hj, hobj]; rfl
  rw [eh, ek]
  refine ⟨c1, ⟨k, hk, by rw [c2, hk]; rfl, hk1, ?_, ?_⟩, c5⟩
  · rw [fx] at hk2; unfold Inst.maxH at hk2; omega
  · rw [hk] at c6; exact c6

/-- C23: when the search improved on the initial packing, `container_height` afterwards is the
height of the returned packing (or the minimum height if that is larger); otherwise the
result is the packing of `solve()` and `container_height` is unchanged. -/
theorem C23_final_height (A : Arith) (clock : Nat → Rat) (start : Rat) (throttle : Bool) (i j : Inst)
    (t : LSState Inst (Solution × ObjVals)) (hv : i.Valid) (hst : i.strip = true)
    (h : i.localSearch A clock start throttle = .ok (j, t)) :
    (j.height = i.height ∧ j.heights = [i.height.getD 0] ∧
      ∃ sol, solve A i.solveIn none = .ok (sol, j.objVals) ∧ SamePacking j.solution sol) ∨
    (∃ m, j.solution = [(stripId, m)] ∧
      j.height = some (max (stackHeight (m.map (·.2))) (i.minHeight.getD 0)) ∧
      (i.minHeight = none → m.length = i.items.length)) := by
  obtain ⟨s0, _, hj, hp, _, hinv⟩ := localSearch_ok hv h
  obtain ⟨fi, fc, fs, fh, fm, _, fx, fhs, fb⟩ := searchBase_fields i
  obtain ⟨hh, hs, hN, sol, hi⟩ := hinv
  obtain ⟨o1, o2, hobj⟩ := hi.obj
  have hst' : i.searchBase.strip = true := by rw [fs]; exact hst
  have hpk := hi.packs
  have ek : j.height = hh := by rw [hj, hobj]; rfl
  have eh : j.heights = hs := by rw [hj, hobj]; rfl
  rcases hi.strip hst' with ⟨a1, a2, a3, a4⟩ | ⟨b1, b2, b3⟩
  · left
    refine ⟨by rw [ek, a1, fh], by rw [eh, a2, fhs hst], sol, ?_, by rw [hj]; exact hi.same⟩
    rw [solve_none_eq (p := i.solveIn) hv.items.1]
    unfold Packs at hpk
    rw [searchBase_upd_at, a3, a4, fi, fh] at hpk
    rw [hj]; exact hpk
  · right
    have hpos := (hi.nStrip hst').1
    have hf := hpk.facts (searchBase_valid hv) (fun _ => hpos) hi.node
    have hf' := hi.same.facts hf
    obtain ⟨W, hW⟩ := (searchBase_valid hv).strip hst'
    have hks : PyDict.keys t.retained.1 = [stripId] := by rw [hf'.keysS, hW]; rfl
    obtain ⟨m, hm⟩ : ∃ m, t.retained.1 = [(stripId, m)] := by
      unfold PyDict.keys at hks
      match hr : t.retained.1, hks with
      | [(a, m)], h => simp at h; exact ⟨m, by rw [h]⟩
    have hperm := hi.same.stripPart_perm (by rw [hf.keysS]; exact (searchBase_valid hv).conts.1)
    have hsp : stripPart t.retained.1 = m := by rw [hm]; simp [stripPart, PyDict.find?]
    rw [hsp] at hperm
    refine ⟨m, by rw [hj]; exact hm, ?_, ?_⟩
    · rw [ek, b1]
      unfold nextH
      rw [if_pos hst', fm, stackOf_eq, stackHeight_perm (hperm.symm.map _)]
    · intro hmn
      have := b2 (by rw [fm]; exact hmn)
      rw [fi] at this
      rw [hperm.length_eq]; exact this

/-! ### C24: completeness of strip packings -/

/-- C24, the part that is true: if `solve()` on the items in their current order packs every
item at the current height, or if the search moved at all (`container_height` changed), the
result of `local_search()` contains every item. Missing: nothing checks the initial packing,
which is kept when no better complete neighbour is found (`C24_refuted`). -/
theorem C24_partial (A : Arith) (clock : Nat → Rat) (start : Rat) (throttle : Bool) (i j : Inst)
    (t : LSState Inst (Solution × ObjVals)) (hv : i.Valid) (hst : i.strip = true)
    (hmin : i.minHeight = none)
    (h : i.localSearch A clock start throttle = .ok (j, t))
    (hinit : j.height ≠ i.height ∨
      ∃ m ov, solve A i.solveIn none = .ok ([(stripId, m)], ov) ∧ m.length = i.items.length) :
    ∃ m, j.solution = [(stripId, m)] ∧ (m.map (·.1)).Perm (i.items.map (·.1)) := by
  obtain ⟨hk, _, hnd, hsz⟩ := C17_carries_over A clock start throttle i j t hv h
  have fin : ∀ m, j.solution = [(stripId, m)] → m.length = i.items.length →
      ∃ m, j.solution = [(stripId, m)] ∧ (m.map (·.1)).Perm (i.items.map (·.1)) := by
    intro m hm hl
    refine ⟨m, hm, ?_⟩
    rw [hm] at hnd hsz
    obtain ⟨c, _, h1, _⟩ := hsz stripId m (by simp)
    have hn : (m.map (·.1)).Nodup := by simpa [placedIds] using hnd
    refine (List.subperm_of_subset hn ?_).perm_of_length_le (by simp [hl])
    intro id hid
    obtain ⟨q, hq, rfl⟩ := List.mem_map.1 hid
    obtain ⟨d, hd, _⟩ := h1 q.1 q.2 hq
    exact List.mem_map.2 ⟨_, hd, rfl⟩
  rcases C23_final_height A clock start throttle i j t hv hst h with ⟨a1, a2, sol, a3, a4⟩ | ⟨m, b1, _, b3⟩
  · rcases hinit with hne | ⟨m, ov, h1, h2⟩
    · exact absurd a1 hne
    · rw [h1] at a3
      injection a3 with a3
      injection a3 with a3 _
      subst a3
      obtain ⟨m', hm', hp⟩ : ∃ m', j.solution = [(stripId, m')] ∧ m'.Perm m := by
        have hkk := a4.1
        match hr : j.solution, hkk with
        | [(a, m')], h =>
          simp at h
          subst h
          obtain ⟨m2, g1, g2⟩ := a4.2 stripId m' (by rw [hr]; simp)
          simp at g1
          subst g1
          exact ⟨m', rfl, g2⟩
      exact fin m' hm' (by rw [hp.length_eq, h2])
  · exact fin m b1 (b3 hmin)

/-! ### C56: copies -/

/-- C56: copying a solution whose containers are the instance's and whose entries are items of
the instance gives the same packing (entries of a container in item order), and the
objective values unchanged. -/
theorem C56_copies (i : Inst) (hc : (i.containers.map (·.1)).Nodup) (hi : (i.items.map (·.1)).Nodup)
    (hk : i.solution.map (·.1) = i.containers.map (·.1))
    (hm : ∀ cid m, (cid, m) ∈ i.solution → (m.map (·.1)).Nodup ∧
      ∀ id ∈ m.map (·.1), id ∈ i.items.map (·.1)) :
    ∃ r, i.getSolution = .ok (r, i.objVals) ∧ SamePacking r i.solution ∧
      ∀ cid m, (cid, m) ∈ r → (m.map (·.1)).Sublist (i.items.map (·.1)) := by
  have hn : (PyDict.keys i.solution).Nodup := by unfold PyDict.keys; rw [hk]; exact hc
  obtain ⟨r, h1, h2, h3⟩ := copySolution_ok (items := i.items) (sol := i.solution)
    (PyDict.keys i.containers) (fun c hc => by unfold PyDict.keys at *; rw [hk]; exact hc)
  refine ⟨r, ?_, ⟨?_, ?_⟩, ?_⟩
  · simp only [Inst.getSolution, Inst.deepcopySolution, bind, Except.bind, pure, Except.pure]
    rw [h1, copyObjVals_eq]
  · unfold PyDict.keys at h2; rw [h2, hk]
  · intro cid m hmm
    obtain ⟨m0, e1, e2⟩ := h3 cid m hmm
    have hmem := PyDict.find?_mem e1
    refine ⟨m0, hmem, ?_⟩
    rw [e2]
    exact copyCont_perm hi (hm cid m0 hmem).1 (hm cid m0 hmem).2
  · intro cid m hmm
    obtain ⟨m0, _, rfl⟩ := h3 cid m hmm
    have key : ∀ l : List String, ((l.filterMap
        (fun id => (PyDict.find? m0 id).map (fun r => (id, r)))).map (·.1)).Sublist l := by
      intro l
      induction l with
      | nil => simp
      | cons a l ih =>
        rw [List.filterMap_cons]
        cases PyDict.find? m0 a with
        | none => exact ih.cons _
        | some r => simp only [Option.map_some, List.map_cons]; exact ih.cons_cons _
    exact key _

/-! ### Concrete searches -/

/-- an instance with default settings -/
def mkDemo (strip : Bool) (containers items : List (String × Dim)) (h minH : Option Nat) : Inst where
  strip := strip
  containers := containers
  items := items
  height := h
  minHeight := minH
  heights := []
  settings := .dict []
  rotation := false
  maxTime := 60
  workers := .int 1
  plotlyInstalled := false
  plotlyOk := false
  kaleidoInstalled := false
  kaleidoOk := false
  strategy := defaultStrategy
  containersNum := containers.length
  solution := []
  objVals := []
  bestStrategy := none

/-- what is compared in the examples -/
structure LSView where
  sol : Solution
  ov : ObjVals
  height : Option Nat
  heights : List Nat
  log : List NodeLog
  evals : Nat
  deriving DecidableEq

def lsView (x : Except PyErr (Inst × LSState Inst (Solution × ObjVals))) : Option LSView :=
  match x with
  | .ok (j, t) => some ⟨j.solution, j.objVals, j.height, j.heights, t.log, t.tick⟩
  | .error _ => none

theorem lsView_some {x : Except PyErr (Inst × LSState Inst (Solution × ObjVals))}
    {a b c d e f} (h : lsView x = some ⟨a, b, c, d, e, f⟩) :
    ∃ j t, x = .ok (j, t) ∧ j.solution = a ∧ j.objVals = b ∧ j.height = c ∧ j.heights = d ∧
      t.log = e ∧ t.tick = f := by
  unfold lsView at h
  match x, h with
  | .ok (j, t), h =>
    simp at h
    exact ⟨j, t, rfl, h.1, h.2.1, h.2.2.1, h.2.2.2.1, h.2.2.2.2.1, h.2.2.2.2.2⟩

/-- bin packing: two containers, four items -/
def lsBin : Inst := mkDemo false [("c0", ⟨3, 3⟩), ("c1", ⟨3, 3⟩)]
  [("i0", ⟨2, 2⟩), ("i1", ⟨3, 3⟩), ("i2", ⟨3, 3⟩), ("i3", ⟨1, 3⟩)] none none

theorem lsBin_valid : lsBin.Valid where
  conts := by constructor <;> decide
  items := by constructor <;> decide
  contsNe := by decide
  itemsNe := by decide
  strip := by intro h; cases h
  height := by intro h; cases h
  minPos := by intro m h; cases h

/-- strip packing: width 5, container_height set to 6 -/
def lsStrip : Inst := mkDemo true [(stripId, ⟨5, stripInitHeight⟩)]
  [("i0", ⟨3, 2⟩), ("i1", ⟨1, 2⟩), ("i2", ⟨2, 3⟩), ("i3", ⟨2, 2⟩)] (some 6) none

theorem lsStrip_valid : lsStrip.Valid where
  conts := by constructor <;> decide
  items := by constructor <;> decide
  contsNe := by decide
  itemsNe := by decide
  strip := by intro _; exact ⟨5, rfl⟩
  height := by intro _; exact ⟨6, rfl, by decide⟩
  minPos := by intro m h; cases h

/-- the search on `lsBin` moves twice and then scans all six exchanges -/
theorem lsBin_run : lsView (lsBin.localSearch Arith.exact (fun _ => 0) 0 true) = some
    ⟨[("c0", [("i1", ⟨0, 0, 3, 3⟩)]), ("c1", [("i2", ⟨0, 0, 3, 3⟩)])], [("c0", 1), ("c1", 1)],
     none, [],
     [⟨139 / 90, 1, false, true, false⟩, ⟨17 / 10, 4, false, true, false⟩,
      ⟨17 / 10, 6, false, false, false⟩], 11⟩ := by decide +kernel

theorem lsBin_init : solve Arith.exact lsBin.solveIn none = .ok
    ([("c0", [("i0", ⟨0, 0, 2, 2⟩), ("i3", ⟨2, 0, 1, 3⟩)]), ("c1", [("i1", ⟨0, 0, 3, 3⟩)])],
     [("c0", 7 / 9), ("c1", 1)]) := by decide +kernel

/-- the search on `lsStrip` lowers the strip from 6 to 5 to 4 -/
theorem lsStrip_run : lsView (lsStrip.localSearch Arith.exact (fun _ => 0) 0 true) = some
    ⟨[(stripId, [("i0", ⟨0, 0, 3, 2⟩), ("i1", ⟨0, 2, 1, 2⟩), ("i2", ⟨3, 0, 2, 3⟩),
      ("i3", ⟨1, 2, 2, 2⟩)])], [(stripId, 6 / 5)], some 4, [6, 5, 4],
     [⟨9 / 10, 2, false, true, false⟩, ⟨6 / 5, 2, false, true, false⟩,
      ⟨6 / 5, 6, false, false, false⟩], 10⟩ := by decide +kernel

/-- a clock that passes the limit at the third reading stops the search there -/
theorem lsBin_late : lsView (lsBin.localSearch Arith.exact (fun k => if k < 2 then 0 else 60) 0 true) =
    some
    ⟨[("c0", [("i1", ⟨0, 0, 3, 3⟩)]), ("c1", [("i0", ⟨0, 0, 2, 2⟩), ("i3", ⟨2, 0, 1, 3⟩)])],
     [("c0", 1), ("c1", 7 / 9)], none, [],
     [⟨139 / 90, 1, false, true, false⟩, ⟨139 / 90, 2, true, false, false⟩], 3⟩ := by decide +kernel

/-- the hypotheses of C16, C17, C18, C20, C22 hold of `lsBin`, and the value does improve -/
example : lsBin.Valid ∧ (∃ j t, lsBin.localSearch Arith.exact (fun _ => 0) 0 true = .ok (j, t)) ∧
    (∃ sol ov, solve Arith.exact lsBin.solveIn none = .ok (sol, ov) ∧
      overall Arith.exact (ov.map (·.2)) < 17 / 10) := by
  obtain ⟨j, t, h, _⟩ := lsView_some lsBin_run
  exact ⟨lsBin_valid, ⟨j, t, h⟩, _, _, lsBin_init, by decide +kernel⟩

/-- the hypotheses of C19 hold of `lsBin`: no reading is late, four items -/
example : ∃ j t, lsBin.localSearch Arith.exact (fun _ => 0) 0 true = .ok (j, t) ∧
    (∀ k, k < t.tick → ¬ Late Arith.exact (fun _ => 0) 0 lsBin k) ∧ lsBin.items.length ≤ 71 := by
  obtain ⟨j, t, h, _⟩ := lsView_some lsBin_run
  refine ⟨j, t, h, ?_, by decide⟩
  intro k _
  have : ¬ (Arith.exact.sub 0 0 ≥ ((60 : Int) : Rat)) := by decide +kernel
  exact this

/-- ... and of `lsStrip` -/
example : ∃ j t, lsStrip.localSearch Arith.exact (fun _ => 0) 0 true = .ok (j, t) ∧
    (∀ k, k < t.tick → ¬ Late Arith.exact (fun _ => 0) 0 lsStrip k) ∧ j.height = some 4 := by
  obtain ⟨j, t, h, _, _, h3, _⟩ := lsView_some lsStrip_run
  refine ⟨j, t, h, ?_, h3⟩
  intro k _
  have : ¬ (Arith.exact.sub 0 0 ≥ ((60 : Int) : Rat)) := by decide +kernel
  exact this

/-- C21's hypothesis at work: reading 2 is late and three neighbours were evaluated -/
example : ∃ j t, lsBin.localSearch Arith.exact (fun k => if k < 2 then 0 else 60) 0 true = .ok (j, t) ∧
    Late Arith.exact (fun k => if k < 2 then 0 else 60) 0 lsBin 2 ∧ t.tick = 3 := by
  obtain ⟨j, t, h, _, _, _, _, _, h6⟩ := lsView_some lsBin_late
  exact ⟨j, t, h, by unfold Late; decide +kernel, h6⟩

/-- the hypotheses of C23 and C24_partial hold of `lsStrip` -/
example : lsStrip.Valid ∧ lsStrip.strip = true ∧ lsStrip.minHeight = none ∧
    lsStrip.minHeight.getD 0 ≤ lsStrip.height.getD 0 ∧
    ∃ j t, lsStrip.localSearch Arith.exact (fun _ => 0) 0 true = .ok (j, t) ∧
      j.height ≠ lsStrip.height ∧ j.heights = [6, 5, 4] := by
  obtain ⟨j, t, h, _, _, h3, h4, _⟩ := lsView_some lsStrip_run
  exact ⟨lsStrip_valid, rfl, rfl, by decide, j, t, h, by rw [h3]; decide, h4⟩

/-- a strip of width 4 with container_height 5 -/
def c24Demo : Inst := mkDemo true [(stripId, ⟨4, stripInitHeight⟩)]
  [("i0", ⟨2, 2⟩), ("i1", ⟨2, 1⟩), ("i2", ⟨2, 3⟩), ("i3", ⟨1, 3⟩)] (some 5) none

theorem c24Demo_valid : c24Demo.Valid where
  conts := by constructor <;> decide
  items := by constructor <;> decide
  contsNe := by decide
  itemsNe := by decide
  strip := by intro _; exact ⟨4, rfl⟩
  height := by intro _; exact ⟨5, rfl, by decide⟩
  minPos := by intro m h; cases h

/-- C24 is false of the code: `local_search()` on `c24Demo` returns a packing without `i3`,
although exchanging the first and the third item packs all four items at that height. -/
theorem C24_refuted : c24Demo.Valid ∧ c24Demo.minHeight = none ∧
    (∃ j t m, c24Demo.localSearch Arith.exact (fun _ => 0) 0 true = .ok (j, t) ∧
      j.solution = [(stripId, m)] ∧ "i3" ∉ m.map (·.1)) ∧
    (∃ m ov, solve Arith.exact c24Demo.solveIn (some ["i2", "i1", "i0", "i3"]) =
        .ok ([(stripId, m)], ov) ∧ m.length = 4) := by
  have hr : lsView (c24Demo.localSearch Arith.exact (fun _ => 0) 0 true) = some
    ⟨[(stripId, [("i0", ⟨0, 0, 2, 2⟩), ("i1", ⟨0, 2, 2, 1⟩), ("i2", ⟨2, 0, 2, 3⟩)])],
       [(stripId, 3 / 2)], some 5, [5], [⟨3 / 2, 6, false, false, false⟩], 6⟩ := by decide +kernel
  obtain ⟨j, t, h, h1, _⟩ := lsView_some hr
  refine ⟨c24Demo_valid, rfl, ⟨j, t, _, h, h1, by decide⟩, ?_⟩
  refine ⟨[("i2", ⟨0, 0, 2, 3⟩), ("i1", ⟨0, 3, 2, 1⟩), ("i0", ⟨2, 0, 2, 2⟩), ("i3", ⟨2, 2, 1, 3⟩)],
    [(stripId, 15 / 16)], by decide +kernel, rfl⟩

/-- the hypotheses of C56 hold after solving `lsBin` -/
example : let i := { lsBin with solution := [("c0", [("i3", ⟨2, 0, 1, 3⟩), ("i0", ⟨0, 0, 2, 2⟩)]),
      ("c1", [("i1", ⟨0, 0, 3, 3⟩)])] }
    i.solution.map (·.1) = i.containers.map (·.1) ∧
    i.getSolution = .ok ([("c0", [("i0", ⟨0, 0, 2, 2⟩), ("i3", ⟨2, 0, 1, 3⟩)]),
      ("c1", [("i1", ⟨0, 0, 3, 3⟩)])], []) := by decide +kernel

end HP
