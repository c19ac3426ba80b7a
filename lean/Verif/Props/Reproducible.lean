import Verif.Props.Compare
/-
Property C122: does `hypersearch` give the same result in another run of Python?

`get_strategies` goes over a `set` of strings.  The order in which Python does that depends on the seed of its
string hashes, which differs from run to run: `HSArgs.order`.
-/
namespace HP
open Spec

/-- two calls of `hypersearch` with the same arguments -/
structure SameCall (h h' : HSArgs) : Prop where
  orientation : h'.orientation = h.orientation
  sortingBy : h'.sortingBy = h.sortingBy
  throttle : h'.throttle = h.throttle
  exhaustive : h'.exhaustive = h.exhaustive

/-- the strategies are the same, whatever the order -/
theorem strategies_mem (o o' : List PClass → List PClass) (strip ex : Bool)
    (ho : ∀ l : List PClass, l.Nodup → (o l).Perm l) (ho' : ∀ l : List PClass, l.Nodup → (o' l).Perm l)
    (st : List PClass) (h : st ∈ getStrategies o strip ex) : st ∈ getStrategies o' strip ex := by
  cases ex with
  | false => exact h
  | true =>
    obtain ⟨g1, pre, g2⟩ := (C28_strategies o strip ho).2.2.1 st h
    have hpre : pre.Perm [.A, .B, .C, .D, .A_, .B_] := by
      rw [g2] at g1
      have e : ([.A, .B, .C, .D, .A_, .B_, .B__, .A__, .E, .F] : List PClass).Perm
          ([.A, .B, .C, .D, .A_, .B_] ++ [.A__, .B__, .F, .E]) := by decide
      exact (List.perm_append_right_iff _).1 (g1.trans e)
    rw [g2]
    exact (C28_strategies o' strip ho').2.2.2 pre hpre

/-- what sorting and orienting leave alone -/
theorem prepared_facts {A : Arith} {i : Inst} (hr : Reach A i) (h : HSArgs) :
    let i0 := (step A (step A i (.sortItems h.sortingBy)).1 (.orientItems h.orientation)).1
    Reach A i0 ∧ i0.strip = i.strip ∧ i0.maxTime = i.maxTime ∧ i0.workers = i.workers := by
  have hr1 : Reach A (step A i (.sortItems h.sortingBy)).1 := .step _ hr
  have e1 : ∀ {a b : Inst}, b = a ∨ Edited a b → b.strip = a.strip ∧ b.maxTime = a.maxTime ∧ b.workers = a.workers := by
    intro a b hab
    rcases hab with rfl | ⟨cs, its, n, rfl, _⟩ <;> exact ⟨rfl, rfl, rfl⟩
  obtain ⟨a2, a3, a4⟩ := e1 (sortItems_edited hr.good.valid A h.sortingBy)
  obtain ⟨b2, b3, b4⟩ := e1 (orientItems_edited hr1.good.valid h.orientation)
  exact ⟨.step _ hr1, b2.trans a2, b3.trans a3, b4.trans a4⟩

/-- C122, what holds of the value: in bin packing, two calls of `hypersearch` with the same arguments on the same
problem, in two runs of Python (two orders of the set of point classes, two clocks), reach the same overall
objective value, if no reading of the clocks reaches the time limit and there is one worker.  Missing: the packing
and the strategy (`C122_refuted`), and searches that are stopped (`C122_late_refuted`). -/
theorem C122_value_partial (A : Arith) (i : Inst) (hr : Reach A i) (hb : i.strip = false) (h h' : HSArgs)
    (hsame : SameCall h h') (hw : OneWorker i.workers) (hs : (step A i (.sortItems h.sortingBy)).2 = .ok)
    (htime : ∀ n, A.sub (h.clock (n + 1)) (h.clock 0) < (i.maxTime : Rat))
    (htime' : ∀ n, A.sub (h'.clock (n + 1)) (h'.clock 0) < (i.maxTime : Rat)) :
    ∃ v, (step A i (.hypersearch h)).2 = .ok ∧ (step A i (.hypersearch h')).2 = .ok ∧
      (step A i (.hypersearch h)).1.calcObj A = .ok v ∧ (step A i (.hypersearch h')).1.calcObj A = .ok v := by
  obtain ⟨i0, h0⟩ : ∃ x, x = (step A (step A i (.sortItems h.sortingBy)).1 (.orientItems h.orientation)).1 := ⟨_, rfl⟩
  have h0' : i0 = (step A (step A i (.sortItems h'.sortingBy)).1 (.orientItems h'.orientation)).1 := by
    rw [h0, hsame.sortingBy, hsame.orientation]
  have hs' : (step A i (.sortItems h'.sortingBy)).2 = .ok := by rw [hsame.sortingBy]; exact hs
  obtain ⟨hr0, e1, e2, e3⟩ := prepared_facts hr h
  rw [← h0] at hr0 e1 e2 e3
  obtain ⟨_, k⟩ := step_hypersearch h hr hs
  obtain ⟨_, k'⟩ := step_hypersearch h' hr hs'
  rw [← h0] at k
  rw [← h0'] at k'
  have hone : i0.workers.isOne = true := by rw [e3]; exact (oneWorker_iff _).2 hw
  obtain ⟨s, g1, g2⟩ := C27_returns A h i0 hr0.good.valid hone
  obtain ⟨s', g1', g2'⟩ := C27_returns A h' i0 hr0.good.valid hone
  obtain ⟨sol0, ov0, _, _, hI, _⟩ := init_spec (A := A) hr0.good.valid
  have b := singleHS_best hr0.good.valid hr0.num (by intro n; rw [e2]; exact htime n) g1 hI
  have b' := singleHS_best hr0.good.valid hr0.num (by intro n; rw [e2]; exact htime' n) g1' hI
  have huniq : ∀ st u u', LocalValue A (fun k => h.clock (k + 1)) (h.clock 0) h.throttle i0 st u →
      LocalValue A (fun k => h'.clock (k + 1)) (h'.clock 0) h'.throttle i0 st u' → u = u' := by
    intro st u u' p p'
    rw [hsame.throttle] at p'
    exact localValue_unique (a := i0) (b := i0) ⟨rfl, rfl, rfl, rfl, rfl, rfl, fun _ => rfl, fun _ => rfl⟩
      (by rw [e1, hb]) (fun n => by rw [e2]; exact htime n) (fun n => by rw [e2]; exact htime' n) p p'
  have hm : ∀ st, st ∈ getStrategies h.order i0.strip h.exhaustive → st ∈ getStrategies h'.order i0.strip h'.exhaustive := by
    intro st hst; rw [hsame.exhaustive]; exact strategies_mem _ _ _ _ h.orderPerm h'.orderPerm st hst
  have hm' : ∀ st, st ∈ getStrategies h'.order i0.strip h'.exhaustive → st ∈ getStrategies h.order i0.strip h.exhaustive := by
    intro st hst; rw [hsame.exhaustive] at hst; exact strategies_mem _ _ _ _ h'.orderPerm h.orderPerm st hst
  have heq : overall A (s.finish.objVals.map (·.2)) = overall A (s'.finish.objVals.map (·.2)) := by
    apply le_antisymm
    · exact best_le huniq b.attained b'.init (fun st hst => b'.each st (hm st hst))
    · exact best_le (fun st u u' p q => (huniq st u' u q p).symm) b'.attained b.init (fun st hst => b.each st (hm' st hst))
  obtain ⟨v, _, _, _, c1, c2, _⟩ := C27_best A _ _ _ i0 _ hr0.good.valid hr0.num s g1
  obtain ⟨v', _, _, _, c1', c2', _⟩ := C27_best A _ _ _ i0 _ hr0.good.valid hr0.num s' g1'
  refine ⟨v, by rw [k, g2], by rw [k', g2'], by rw [k, g2]; exact c1, ?_⟩
  rw [k', g2']
  rw [c2, heq, ← c2']
  exact c1'

/-- C122, what holds of the value, several workers (each run with its own number of them): the same, if both calls
return, the settings are in force and no worker raises or is killed. -/
theorem C122_workers_partial (E E' : Env) (M M' : MPParams) (o o' : List PClass → List PClass)
    (ho : ∀ l : List PClass, l.Nodup → (o l).Perm l) (ho' : ∀ l : List PClass, l.Nodup → (o' l).Perm l) (exhaustive : Bool)
    (schedule schedule' : List (Nat × MPEvent)) (i i' w w' : Inst)
    (chunks chunks' : List (List (List PClass)))
    (hA : NonNeg M.ar) (hAA : M'.ar = M.ar) (hth : M'.throttle = M.throttle)
    (hv : i.Valid) (hv' : i'.Valid) (hbin : i.strip = false) (hbin' : i'.strip = false)
    (hitems : i'.items = i.items) (hconts : i'.containers = i.containers)
    (hrot : i'.rotation = i.rotation)
    (hset : i.validateHyper = (i, .ok ())) (hset' : i'.validateHyper = (i', .ok ()))
    (hc : strategyChunks (getStrategies o false exhaustive) i.workers = .ok chunks)
    (hc' : strategyChunks (getStrategies o' false exhaustive) i'.workers = .ok chunks')
    (hw : workerInst E i = .ok w) (hw' : workerInst E' i' = .ok w')
    (htime : ∀ p n, M.ar.sub (M.clock p n) M.start < (i.maxTime : Rat))
    (htime' : ∀ p n, M'.ar.sub (M'.clock p n) M'.start < (i'.maxTime : Rat))
    (hkill : ∀ p, ¬ Killed schedule p) (hkill' : ∀ p, ¬ Killed schedule' p)
    (hraise : ∀ p, ¬ Raised M w chunks schedule p)
    (hraise' : ∀ p, ¬ Raised M' w' chunks' schedule' p)
    (sol sol' : Solution) (ov ov' : ObjVals) (st st' : Option (List PClass))
    (hret : i.multiHS E M (getStrategies o false exhaustive) schedule = .returned sol ov st)
    (hret' : i'.multiHS E' M' (getStrategies o' false exhaustive) schedule' = .returned sol' ov' st') :
    overall M.ar (ov.map (·.2)) = overall M.ar (ov'.map (·.2)) := by
  obtain ⟨w1, w2, w3, w4, w5, w6, _⟩ := workerInst_spec hv hw
  obtain ⟨v1, v2, v3, v4, v5, v6, _⟩ := workerInst_spec hv' hw'
  obtain ⟨f1, f2⟩ := workerInst_inForce hset hw
  obtain ⟨f1', f2'⟩ := workerInst_inForce hset' hw'
  have hsw : w.strip = false := by rw [w4, hbin]
  have hsame : SameProblem w w' := by
    refine ⟨by rw [w4, v4, hbin, hbin'], by rw [w3, v3, hconts], ?_, by rw [w2, v2, hitems],
      by rw [f1, f1', hrot], by rw [w6, v6], ?_, ?_⟩
    · rw [workerInst_num hw, workerInst_num hw', w3, v3, hconts]
    · intro h; rw [hsw] at h; cases h
    · intro h; rw [hsw] at h; cases h
  have hsame' : SameProblem { w with strategy := w'.strategy } w' := by
    rw [← hsame.strat]; exact hsame
  obtain ⟨sol0, ov0, _, _, g1, _⟩ := init_spec (A := M.ar) w1
  have g1' : solve M'.ar w'.solveIn none = .ok (sol0, ov0) := by rw [hAA, ← hsame.solve]; exact g1
  have hA' : NonNeg M'.ar := by rw [hAA]; exact hA
  obtain ⟨m1, m2, m3⟩ := multi_best hA hv hc hw (by intro p n; rw [f2]; exact htime p n) hkill hraise hret g1
  obtain ⟨n1, n2, n3⟩ := multi_best hA' hv' hc' hw' (by intro p n; rw [f2']; exact htime' p n) hkill' hraise' hret' g1'
  rw [hAA] at n1 n2 n3
  rw [hth] at n2 n3
  have huniq : ∀ st u u', (∃ p, LocalValue M.ar (M.clock p) M.start M.throttle w st u) →
      (∃ p, LocalValue M.ar (M'.clock p) M'.start M.throttle w' st u') → u = u' := by
    rintro st u u' ⟨p, h1⟩ ⟨p', h2⟩
    exact localValue_unique hsame' hsw (by intro n; rw [f2]; exact htime p n)
      (by intro n; rw [f2', ← hAA]; exact htime' p' n) h1 h2
  apply le_antisymm
  · exact best_le huniq m3 n1 (fun st hst => n2 st (strategies_mem _ _ _ _ ho ho' st hst))
  · exact best_le (fun st u u' p q => (huniq st u' u q p).symm) n3 m1
      (fun st hst => m2 st (strategies_mem _ _ _ _ ho' ho st hst))

/-- C122, what holds with `_exhaustive=False`: one worker, no reading of the clocks reaches the time limit, bin or
strip packing: the two runs end with the same packing, values, best strategy and container height. -/
theorem C122_pool_partial (A : Arith) (i : Inst) (hr : Reach A i) (h h' : HSArgs)
    (hsame : SameCall h h') (hex : h.exhaustive = false) (hw : OneWorker i.workers)
    (hs : (step A i (.sortItems h.sortingBy)).2 = .ok)
    (htime : ∀ n, A.sub (h.clock (n + 1)) (h.clock 0) < (i.maxTime : Rat))
    (htime' : ∀ n, A.sub (h'.clock (n + 1)) (h'.clock 0) < (i.maxTime : Rat)) :
    ∃ j j', step A i (.hypersearch h) = (j, .ok) ∧ step A i (.hypersearch h') = (j', .ok) ∧
      j.solution = j'.solution ∧ j.objVals = j'.objVals ∧ j.bestStrategy = j'.bestStrategy ∧
      (i.strip = true → j.height = j'.height) := by
  obtain ⟨i0, h0⟩ : ∃ x, x = (step A (step A i (.sortItems h.sortingBy)).1 (.orientItems h.orientation)).1 := ⟨_, rfl⟩
  have h0' : i0 = (step A (step A i (.sortItems h'.sortingBy)).1 (.orientItems h'.orientation)).1 := by
    rw [h0, hsame.sortingBy, hsame.orientation]
  have hs' : (step A i (.sortItems h'.sortingBy)).2 = .ok := by rw [hsame.sortingBy]; exact hs
  obtain ⟨hr0, e1, e2, e3⟩ := prepared_facts hr h
  rw [← h0] at hr0 e1 e2 e3
  obtain ⟨_, k⟩ := step_hypersearch h hr hs
  obtain ⟨_, k'⟩ := step_hypersearch h' hr hs'
  rw [← h0] at k
  rw [← h0'] at k'
  have hone : i0.workers.isOne = true := by rw [e3]; exact (oneWorker_iff _).2 hw
  obtain ⟨s, g1, g2⟩ := C27_returns A h i0 hr0.good.valid hone
  obtain ⟨s', g1', g2'⟩ := C27_returns A h' i0 hr0.good.valid hone
  have hst : getStrategies h'.order i0.strip h'.exhaustive = getStrategies h.order i0.strip h.exhaustive := by
    rw [hsame.exhaustive, hex]; rfl
  rw [hst, hsame.throttle] at g1'
  obtain ⟨t, t', c1, c2, c3, c4, c5, c6⟩ := C58_hyper A (fun k => h.clock (k + 1)) (fun k => h'.clock (k + 1)) (h.clock 0)
    (h'.clock 0) h.throttle i0 i0 (getStrategies h.order i0.strip h.exhaustive) rfl rfl rfl rfl rfl rfl rfl rfl
    hr0.good.valid hr0.good.valid (by intro n; rw [e2]; exact htime n) (by intro n; rw [e2]; exact htime' n)
  rw [g1] at c1; injection c1 with c1; subst c1
  rw [g1'] at c2; injection c2 with c2; subst c2
  exact ⟨_, _, by rw [k, g2], by rw [k', g2'], c3, c4, c5, fun hst => c6 (by rw [e1]; exact hst)⟩

/-! ### the claim is false of the packing -/

/-- no packing of one container without slivers is worth more than 1 -/
theorem localValue_le_one {clock : Nat → Rat} {start : Rat} {throttle : Bool} {i : Inst} (hv : i.Valid)
    (hb : i.strip = false) (hone : i.containers.length = 1) (hn : i.containersNum = 1)
    (hlow : ∀ q ∈ i.items, ¬ LowStrip i.rotation q.2) {st : List PClass} {v : Rat}
    (h : LocalValue Arith.exact clock start throttle i st v) : v ≤ 1 := by
  obtain ⟨k, H, j, t, hH, _, hl, hval⟩ := h
  obtain rfl := hH hb
  have hv' : Inst.Valid { i with strategy := st, height := i.height } := ⟨hv.conts, hv.items, hv.contsNe,
    hv.itemsNe, hv.strip, hv.height, hv.minPos⟩
  obtain ⟨seq, H', sol, g1, _, _, g4, _⟩ := C17_genuine _ _ _ _ _ _ _ hv' hl
  obtain ⟨hfr, _⟩ := C17_frame _ _ _ _ _ _ _ hv' hl
  have hvH : ValidIn ({ i with strategy := st, height := i.height } : Inst).solveIn := hv'.solveIn
  have hvat : ValidIn (({ i with strategy := st, height := i.height } : Inst).at H') :=
    ⟨hv.conts, hv.items, fun h => by
      rw [show (({ i with strategy := st, height := i.height } : Inst).at H').strip = i.strip from rfl, hb] at h; cases h⟩
  have hks : KnownSeq (({ i with strategy := st, height := i.height } : Inst).at H') (some seq) := KnownSeq_perm g1
  have hC := C07_utilization _ hvat hb (some seq) hks sol j.objVals g4
  have hf := solve_facts hvat hks g4
  have hk : sol.map (·.1) = i.containers.map (·.1) := hf.keysS
  have hko : j.objVals.map (·.1) = i.containers.map (·.1) := hf.keysO
  match hcs : i.containers, hone with
  | [c], _ =>
    rw [hcs] at hk hko
    have hlen : sol.length = 1 := by simpa using congrArg List.length hk
    have hleno : j.objVals.length = 1 := by simpa using congrArg List.length hko
    match hsol : sol, hlen with
    | [(cid, m)], _ =>
      match hov : j.objVals, hleno with
      | [(oid, u)], _ =>
        obtain ⟨c', v', _, h2, _, _, h5⟩ := hC cid m (by simp)
        rw [hov] at h2
        simp only [List.mem_singleton, Prod.mk.injEq] at h2
        have hu : u ≤ 1 := by rw [← h2.2]; exact h5 hlow
        have hjn : j.containersNum = 1 := by rw [hfr]; exact hn
        have e : j.calcObj Arith.exact = .ok u := by
          have hw := Inst.worth_eq (A := Arith.exact) (i := i) (by rw [hn, hone]) (ov := j.objVals) hf.keysO
          have h0 := (C16_any_count _ _ _ _ _ _ _ hv' hl)
          obtain ⟨sol0, ov0, _, _, hI, _⟩ := init_spec (A := Arith.exact) hv'
          have h1 := (h0 sol0 ov0 hI).2.2
          rw [h1]
          congr 1
          refine Eq.trans (b := i.worth Arith.exact (j.objVals.map (·.2))) rfl ?_
          rw [hw, hov]
          simp [overall, Arith.exact]
        rw [e] at hval
        injection hval with hval
        rw [← hval]; exact hu

/-- the search keeps what it has if nothing better is to come -/
theorem hsLoop_keep {A : Arith} {clock : Nat → Rat} {start : Rat} {throttle : Bool} {i : Inst} (hv : i.Valid) {v0 : Rat} :
    ∀ {sts : List (List PClass)} {s s' : HSState}, HSInv A clock start throttle i v0 s →
    (∀ st v, LocalValue A clock start throttle i st v → v ≤ s.best) →
    hsLoop A clock start throttle sts s = .ok s' → s'.retained = s.retained ∧ s'.bestStrategy = s.bestStrategy
  | [], s, s', _, _, h => by injection h with h; subst h; exact ⟨rfl, rfl⟩
  | st :: sts, s, s', hs, hle, h => by
    obtain ⟨s1, b, v, k1, k2, k3, _⟩ := hsStep_spec hv hs st
    have hvle : v ≤ s.best := hle st v (k2.triedVal (st, v) (by rw [k3]; simp))
    have hkeep : s1.retained = s.retained ∧ s1.bestStrategy = s.bestStrategy ∧ s1.best = s.best := by
      have k1' := k1
      unfold hsStep at k1'
      simp only [bind, Except.bind, pure, Except.pure] at k1'
      split at k1'
      · cases k1'
      · split at k1'
        · cases k1'
        · rename_i u _
          split at k1'
          · rename_i hc
            have huv : u = v := by
              split at k1'
              · cases k1'
              · split at k1' <;>
                · injection k1' with k1'
                  injection k1' with k1' _
                  rw [← k1'] at k3
                  have := List.append_cancel_left k3
                  simpa using this
            exfalso
            rw [huv] at hc
            have : s.best < v := by simpa [checkSolution] using hc
            exact absurd hvle (not_le.2 this)
          · injection k1' with k1'
            injection k1' with k1' _
            subst k1'
            exact ⟨rfl, rfl, rfl⟩
    unfold hsLoop at h
    simp only [bind, Except.bind, pure, Except.pure, k1] at h
    split at h
    · injection h with h; subst h; exact ⟨hkeep.1, hkeep.2.1⟩
    · obtain ⟨e1, e2⟩ := hsLoop_keep hv k2 (by rw [hkeep.2.2]; exact hle) h
      exact ⟨e1.trans hkeep.1, e2.trans hkeep.2.1⟩

theorem hsLoop_append {A : Arith} {clock : Nat → Rat} {start : Rat} {throttle : Bool}
    {more : List (List PClass)} : ∀ {sts : List (List PClass)} {s a b : HSState},
    hsLoop A clock start throttle sts s = .ok a →
    hsLoop A clock start throttle (sts ++ more) s = .ok b → b = a ∨ hsLoop A clock start throttle more a = .ok b
  | [], s, a, b, h, h' => by injection h with h; subst h; exact Or.inr h'
  | st :: sts, s, a, b, h, h' => by
    rw [List.cons_append] at h'
    unfold hsLoop at h h'
    simp only [bind, Except.bind, pure, Except.pure] at h h'
    split at h
    · cases h
    · rename_i r hr
      simp only [hr] at h'
      split at h
      · rename_i hb
        rw [if_pos hb] at h'
        injection h with h; injection h' with h'
        left; rw [← h, ← h']
      · rename_i hb
        rw [if_neg hb] at h'
        exact hsLoop_append h h'

/-- if the first strategy fills the only container, its packing is the result -/
theorem first_full {clock : Nat → Rat} {start : Rat} {throttle : Bool} {i : Inst} (hv : i.Valid)
    (hb : i.strip = false) (hone : i.containers.length = 1) (hn : i.containersNum = 1)
    (hlow : ∀ q ∈ i.items, ¬ LowStrip i.rotation q.2) {st : List PClass} {rest : List (List PClass)} {a b : HSState}
    (ha : i.singleHS Arith.exact clock start throttle [st] = .ok a) (hbest : a.best = 1)
    (hs : i.singleHS Arith.exact clock start throttle (st :: rest) = .ok b) :
    b.retained = a.retained ∧ b.bestStrategy = a.bestStrategy := by
  obtain ⟨a', _, _, g1, _, g3, _⟩ := singleHS_spec (A := Arith.exact) (clock := clock) (start := start)
    (throttle := throttle) hv [st]
  rw [ha] at g1; injection g1 with g1; subst g1
  unfold Inst.singleHS at ha hs
  simp only [bind, Except.bind] at ha hs
  split at ha
  · cases ha
  · rename_i r hr
    simp only [hr] at hs
    split at ha
    · cases ha
    · rename_i v hv'
      simp only [hv'] at hs
      rcases hsLoop_append (sts := [st]) (more := rest) ha hs with h | h
      · rw [h]; exact ⟨rfl, rfl⟩
      · exact hsLoop_keep hv g3 (fun st u hu => by rw [hbest]; exact localValue_le_one hv hb hone hn hlow hu) h

/-- `HyperPack(containers={"c": 5 × 4}, items={"a": 4 × 2, "d": 3 × 2, "b": 3 × 2})` -/
def rerunProblem : Inst := { rawInst false [("c", ⟨5, 4⟩)] [("a", ⟨4, 2⟩), ("d", ⟨3, 2⟩), ("b", ⟨3, 2⟩)] none (.dict []) with
  rotation := true, maxTime := 60, workers := .int 1 }

theorem rerunProblem_reach (A : Arith) : Reach A rerunProblem :=
  .new (E := bareEnv) (i := rerunProblem)
    (containers := SKind.containers.encodeAll [("c", ⟨5, 4⟩)])
    (items := SKind.items.encodeAll [("a", ⟨4, 2⟩), ("d", ⟨3, 2⟩), ("b", ⟨3, 2⟩)]) (settings := .none)
    (stripWidth := .none) (by rfl)

/-- `hypersearch()` with the set of point classes iterated in the order of the default strategy, or backwards -/
def rerunArgs (backwards : Bool) (clock : Nat → Rat) : HSArgs :=
  { plainArgs true clock with
    order := if backwards then List.reverse else id
    orderPerm := fun l _ => by cases backwards <;> simp [List.reverse_perm] }

/-- what is compared -/
structure RerunView where
  best : Rat
  sol : Solution
  ov : ObjVals
  strategy : List PClass
  deriving DecidableEq

def rerunView (s : Except PyErr HSState) : Option RerunView :=
  match s with
  | .ok s => some ⟨s.best, s.retained.1, s.retained.2, s.bestStrategy⟩
  | .error _ => none

/-- the items are sorted already -/
theorem rerun_sorted : step Arith.exact rerunProblem (.sortItems (some (.str "area", true))) = (rerunProblem, .ok) := by
  have h1 : (step Arith.exact rerunProblem (.sortItems (some (.str "area", true)))).2 = .ok := by decide +kernel
  have h2 : (step Arith.exact rerunProblem (.sortItems (some (.str "area", true)))).1.items = rerunProblem.items := by
    decide +kernel
  refine Prod.ext ?_ h1
  have hx : (step Arith.exact rerunProblem (.sortItems (some (.str "area", true)))).1 =
      (rerunProblem.sortItems Arith.exact (some (.str "area", true))).1 := rfl
  rw [hx] at h2 ⊢
  rcases sortItems_cases (rerunProblem_reach Arith.exact) (some (.str "area", true)) with ⟨e, h⟩ | h | ⟨its, h⟩
  · rw [h]
  · rw [h]
  · rw [h] at h2 ⊢
    show ({ rerunProblem with items := its, solution := [], objVals := [] } : Inst) = rerunProblem
    rw [show its = rerunProblem.items from h2]
    rfl

/-- the strategies in either order, the first one in view -/
theorem rerun_strategies (backwards : Bool) (clock : Nat → Rat) : ∃ rest,
    getStrategies (rerunArgs backwards clock).order false true =
      (if backwards then [.B_, .A_, .D, .C, .B, .A, .A__, .B__, .F, .E]
        else [.A, .B, .C, .D, .A_, .B_, .A__, .B__, .F, .E]) :: rest := by
  cases backwards <;> exact ⟨_, rfl⟩

/-- the search of the sorted and oriented `rerunProblem` -/
theorem rerun_search (backwards : Bool) (clock : Nat → Rat) (htime : ∀ n, clock (n + 1) - clock 0 < 60) :
    (step Arith.exact rerunProblem (.hypersearch (rerunArgs backwards clock))).2 = .ok ∧
    (step Arith.exact rerunProblem (.hypersearch (rerunArgs backwards clock))).1.solution =
      (if backwards then [("c", [("a", ⟨3, 0, 2, 4⟩), ("d", ⟨0, 0, 3, 2⟩), ("b", ⟨0, 2, 3, 2⟩)])]
        else [("c", [("a", ⟨3, 0, 2, 4⟩), ("d", ⟨0, 2, 3, 2⟩), ("b", ⟨0, 0, 3, 2⟩)])]) ∧
    (step Arith.exact rerunProblem (.hypersearch (rerunArgs backwards clock))).1.bestStrategy =
      some (some (if backwards then [.B_, .A_, .D, .C, .B, .A, .A__, .B__, .F, .E]
        else [.A, .B, .C, .D, .A_, .B_, .A__, .B__, .F, .E])) := by
  have hr := rerunProblem_reach Arith.exact
  have hsort : step Arith.exact rerunProblem (.sortItems (rerunArgs backwards clock).sortingBy) = (rerunProblem, .ok) :=
    rerun_sorted
  obtain ⟨i0, h0⟩ : ∃ x, x = (step Arith.exact (step Arith.exact rerunProblem (.sortItems (rerunArgs backwards clock).sortingBy)).1
    (.orientItems (rerunArgs backwards clock).orientation)).1 := ⟨_, rfl⟩
  have hi0 : i0 = rerunProblem := by rw [h0, hsort]; rfl
  obtain ⟨_, k⟩ := step_hypersearch (rerunArgs backwards clock) hr (by rw [hsort])
  rw [← h0, hi0] at k
  obtain ⟨s, g1, g2⟩ := C27_returns Arith.exact (rerunArgs backwards clock) rerunProblem hr.good.valid rfl
  rw [k, g2]
  have e1 : (rerunArgs backwards clock).clock = clock := rfl
  have e2 : (rerunArgs backwards clock).throttle = true := rfl
  have e3 : (rerunArgs backwards clock).exhaustive = true := rfl
  have e4 : rerunProblem.strip = false := rfl
  rw [e1, e2, e3, e4] at g1
  obtain ⟨s', t, c1, c2, c3, c4, c5, _⟩ := C58_hyper Arith.exact (fun k => clock (k + 1)) (fun _ => 0) (clock 0) 0 true
    rerunProblem rerunProblem (getStrategies (rerunArgs backwards clock).order false true) rfl rfl rfl rfl rfl rfl rfl rfl
    hr.good.valid hr.good.valid htime (fun n => by show (0 : Rat) - 0 < ((60 : Int) : Rat); norm_num)
  rw [g1] at c1; injection c1 with c1; subst c1
  refine ⟨rfl, ?_⟩
  show s.finish.solution = _ ∧ s.finish.bestStrategy = _
  rw [c3, c5]
  obtain ⟨rest, hrest⟩ := rerun_strategies backwards clock
  rw [hrest] at c2
  obtain ⟨a, ha⟩ := C27_total Arith.exact (fun _ => 0) 0 true rerunProblem
    [if backwards then [.B_, .A_, .D, .C, .B, .A, .A__, .B__, .F, .E]
        else [.A, .B, .C, .D, .A_, .B_, .A__, .B__, .F, .E]] hr.good.valid
  have hlow : ∀ q ∈ rerunProblem.items, ¬ LowStrip rerunProblem.rotation q.2 := by
    intro q hq
    have : q = ("a", ⟨4, 2⟩) ∨ q = ("d", ⟨3, 2⟩) ∨ q = ("b", ⟨3, 2⟩) := by
      simpa [rerunProblem, rawInst] using hq
    rcases this with rfl | rfl | rfl <;> simp [LowStrip]
  have hview : rerunView (rerunProblem.singleHS Arith.exact (fun _ => 0) 0 true
      [if backwards then [.B_, .A_, .D, .C, .B, .A, .A__, .B__, .F, .E]
        else [.A, .B, .C, .D, .A_, .B_, .A__, .B__, .F, .E]]) =
      some ⟨1, (if backwards then [("c", [("a", ⟨3, 0, 2, 4⟩), ("d", ⟨0, 0, 3, 2⟩), ("b", ⟨0, 2, 3, 2⟩)])]
        else [("c", [("a", ⟨3, 0, 2, 4⟩), ("d", ⟨0, 2, 3, 2⟩), ("b", ⟨0, 0, 3, 2⟩)])]), [("c", 1)],
        if backwards then [.B_, .A_, .D, .C, .B, .A, .A__, .B__, .F, .E]
        else [.A, .B, .C, .D, .A_, .B_, .A__, .B__, .F, .E]⟩ := by
    cases backwards <;> decide +kernel
  rw [ha] at hview
  simp only [rerunView, Option.some.injEq, RerunView.mk.injEq] at hview
  obtain ⟨b1, b2, _, b3⟩ := hview
  obtain ⟨f1, f2⟩ := first_full hr.good.valid rfl rfl rfl hlow ha b1 c2
  refine ⟨?_, ?_⟩
  · show t.retained.1 = _
    rw [f1, b2]
  · show some (some t.bestStrategy) = _
    rw [f2, b3]

/-- C122 is false of the code: plain `hypersearch()` of `rerunProblem` in two runs of Python - one iterates over the
set of point classes in the order of the default strategy, the other backwards - gives two packings and two best
strategies, although neither run comes near its time limit. -/
theorem C122_refuted (clock clock' : Nat → Rat) (htime : ∀ n, clock (n + 1) - clock 0 < 60)
    (htime' : ∀ n, clock' (n + 1) - clock' 0 < 60) :
    Reach Arith.exact rerunProblem ∧ SameCall (rerunArgs false clock) (rerunArgs true clock') ∧
    (step Arith.exact rerunProblem (.hypersearch (rerunArgs false clock))).1.solution =
      [("c", [("a", ⟨3, 0, 2, 4⟩), ("d", ⟨0, 2, 3, 2⟩), ("b", ⟨0, 0, 3, 2⟩)])] ∧
    (step Arith.exact rerunProblem (.hypersearch (rerunArgs true clock'))).1.solution =
      [("c", [("a", ⟨3, 0, 2, 4⟩), ("d", ⟨0, 0, 3, 2⟩), ("b", ⟨0, 2, 3, 2⟩)])] ∧
    (step Arith.exact rerunProblem (.hypersearch (rerunArgs false clock))).1.bestStrategy ≠
      (step Arith.exact rerunProblem (.hypersearch (rerunArgs true clock'))).1.bestStrategy := by
  obtain ⟨_, a2, a3⟩ := rerun_search false clock htime
  obtain ⟨_, b2, b3⟩ := rerun_search true clock' htime'
  refine ⟨rerunProblem_reach _, ⟨rfl, rfl, rfl, rfl⟩, a2, b2, ?_⟩
  rw [a3, b3]
  decide

/-- such clocks exist -/
example : ∀ n : Nat, (fun _ => 0 : Nat → Rat) (n + 1) - (fun _ => 0 : Nat → Rat) 0 < 60 := fun _ => by norm_num

/-- `HyperPack(containers={"c": 4 × 5}, items={"a": 4 × 2, "b": 3 × 2, "d": 2 × 2})` -/
def lateProblem : Inst := { rawInst false [("c", ⟨4, 5⟩)] [("a", ⟨4, 2⟩), ("b", ⟨3, 2⟩), ("d", ⟨2, 2⟩)] none (.dict []) with
  rotation := true, maxTime := 60, workers := .int 1 }

theorem lateProblem_reach (A : Arith) : Reach A lateProblem :=
  .new (E := bareEnv) (i := lateProblem)
    (containers := SKind.containers.encodeAll [("c", ⟨4, 5⟩)])
    (items := SKind.items.encodeAll [("a", ⟨4, 2⟩), ("b", ⟨3, 2⟩), ("d", ⟨2, 2⟩)]) (settings := .none)
    (stripWidth := .none) (by rfl)

/-- a clock that passes the time limit (60) at once -/
def lateClock (n : Nat) : Rat := if n ≤ 1 then 0 else 61

/-- C122, searches that are stopped: even the value differs then.  Both runs read the same times; one tries the
strategy (A, B, C, D, A_, B_, ...) before the time is up and covers 7/10 of the container, the other
(B_, A_, D, C, B, A, ...) and covers 9/10. -/
theorem C122_late_refuted :
    Reach Arith.exact lateProblem ∧ SameCall (rerunArgs false lateClock) (rerunArgs true lateClock) ∧
    (step Arith.exact lateProblem (.hypersearch (rerunArgs false lateClock))).2 = .ok ∧
    (step Arith.exact lateProblem (.hypersearch (rerunArgs true lateClock))).2 = .ok ∧
    (step Arith.exact lateProblem (.hypersearch (rerunArgs false lateClock))).1.objVals = [("c", 7 / 10)] ∧
    (step Arith.exact lateProblem (.hypersearch (rerunArgs true lateClock))).1.objVals = [("c", 9 / 10)] := by
  refine ⟨lateProblem_reach _, ⟨rfl, rfl, rfl, rfl⟩, ?_, ?_, ?_, ?_⟩ <;> decide +kernel

/-- the hypotheses of C122_value_partial and C122_pool_partial hold of `rerunProblem` and the two calls -/
example : rerunProblem.strip = false ∧ OneWorker rerunProblem.workers ∧
    (step Arith.exact rerunProblem (.sortItems (rerunArgs false (fun _ => 0)).sortingBy)).2 = .ok ∧
    (rerunArgs false (fun _ => 0)).order [.A, .B] ≠ (rerunArgs true (fun _ => 0)).order [.A, .B] ∧
    ∀ n, Arith.exact.sub ((rerunArgs true (fun _ => 0)).clock (n + 1)) ((rerunArgs true (fun _ => 0)).clock 0) <
      (rerunProblem.maxTime : Rat) :=
  ⟨rfl, Or.inl rfl, rfl, by decide, fun _ => by show (0 : Rat) - 0 < ((60 : Int) : Rat); norm_num⟩

end HP
