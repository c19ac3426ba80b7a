import Verif.Props.Hill
import Verif.Props.HyperSearch
import Verif.Props.Api
import Verif.SpecHyper
/-
Property C107: the single process hypersearch, climb by climb.
-/
namespace HP
open Spec

/-- The rules of `hypersearch()`: every strategy is climbed (`Inst.hill`, C106) from the items in their order; a
result is better if its overall value is larger; the time limit is `max_time_in_seconds`. -/
def Inst.rounds (A : Arith) (clock : Nat → Rat) (start : Rat) (throttle : Bool) (i : Inst) :
    HyperRules (List PClass) String (Solution × ObjVals) where
  order := i.items.map (·.1)
  climb st n := Inst.hill A (fun k => clock (n + k)) start throttle { i with strategy := st }
  better r' r := overall A (r'.2.map (·.2)) > overall A (r.2.map (·.2))
  late n := A.sub (clock n) start > (i.maxTime : Rat)

/-- the variables of the search, as the specification sees them -/
structure HSRel (i : Inst) (s : HSState) (a : HyperNode (List PClass) (Solution × ObjVals)) : Prop where
  readings : a.readings = s.tick
  values : a.best.2 = s.retained.2
  packing : SamePacking s.retained.1 a.best.1
  last : s.inst.strategy = a.last.getD i.strategy
  winner : s.bestStrategy = a.winner.getD defaultStrategy
  height : s.inst.height.getD 0 = a.height
  heights : i.strip = true → s.inst.heights = a.heights

theorem hill_congr (A : Arith) (clock : Nat → Rat) (start : Rat) (throttle : Bool) (i j : Inst)
    (h1 : j.containers = i.containers) (h2 : j.items = i.items) (h3 : j.strategy = i.strategy)
    (h4 : j.rotation = i.rotation) (h5 : j.strip = i.strip) (h6 : j.minHeight = i.minHeight)
    (h7 : j.maxTime = i.maxTime) :
    j.hill A clock start throttle = i.hill A clock start throttle := by
  have hat : ∀ h, j.at h = i.at h := by
    intro h; unfold Inst.at Inst.solveIn; simp only [h1, h2, h3, h4, h5]
  have hl : Late A clock start j = Late A clock start i := by
    funext k; unfold Late; rw [h7]
  unfold Inst.hill
  simp only [hat, hl, h2, h5, h6]

/-- one pass of the loop is a round -/
theorem hsStep_round {A : Arith} {clock : Nat → Rat} {start : Rat} {throttle : Bool} {i : Inst} (hv : i.Valid)
    (hn : i.containersNum = i.containers.length) {v0 : Rat} {s : HSState} (hs : HSInv A clock start throttle i v0 s)
    {a : HyperNode (List PClass) (Solution × ObjVals)} (hrel : HSRel i s a) (st : List PClass) :
    ∃ s' b a', hsStep A clock start throttle st s = .ok (s', b) ∧ HSInv A clock start throttle i v0 s' ∧
      Round (i.rounds A clock start throttle) st a a' ∧ HSRel i s' a' ∧
      (b = true ↔ (i.rounds A clock start throttle).late (a'.readings - 1)) := by
  obtain ⟨s', b, v, k1, k2, k3, k4, k5, k6⟩ := hsStep_spec hv hs st
  have hvst : ({ s.inst with strategy := st } : Inst).Valid :=
    ⟨hs.valid.conts, hs.valid.items, hs.valid.contsNe, hs.valid.itemsNe, hs.valid.strip,
      hs.valid.height, hs.valid.minPos⟩
  obtain ⟨j, t, hls⟩ := C18_terminates A (fun k => clock (s.tick + k)) start throttle _ hvst
  obtain ⟨hvj, _⟩ := localSearch_valid hvst hls
  obtain ⟨hfr, hbn⟩ := C17_frame _ _ _ _ _ _ _ hvst hls
  have eitems : s.inst.items = i.items := by rw [hs.frame]
  have econts : s.inst.containers = i.containers := by rw [hs.frame]
  have estrip : s.inst.strip = i.strip := by rw [hs.frame]
  have erot : s.inst.rotation = i.rotation := by rw [hs.frame]
  have emin : s.inst.minHeight = i.minHeight := by rw [hs.frame]
  have emax : s.inst.maxTime = i.maxTime := by rw [hs.frame]
  have enum : s.inst.containersNum = i.containersNum := by rw [hs.frame]
  obtain ⟨first, z, c1, c2, c3, c4, c5⟩ := C106_climb A _ start throttle _ j t hvst
    (by show s.inst.containersNum = s.inst.containers.length; rw [enum, econts]; exact hn) hls
  have hhill : Inst.hill A (fun k => clock (s.tick + k)) start throttle { s.inst with strategy := st } =
      (i.rounds A clock start throttle).climb st a.readings := by
    unfold Inst.rounds
    simp only
    rw [hrel.readings]
    exact hill_congr _ _ _ _ _ _ econts eitems rfl erot estrip emin emax
  have hheight : ({ s.inst with strategy := st } : Inst).height.getD 0 = a.height := hrel.height
  have horder : ({ s.inst with strategy := st } : Inst).items.map (·.1) = (i.rounds A clock start throttle).order := by
    show s.inst.items.map (·.1) = i.items.map (·.1)
    rw [eitems]
  rw [hhill, horder, hheight] at c2
  have hpack : ((i.rounds A clock start throttle).climb st a.readings).pack a.height
      (i.rounds A clock start throttle).order first := by
    rw [← hhill, ← horder, ← hheight]
    unfold Inst.hill
    simp only
    rw [at_height, ← c1, solve_none_eq (p := ({ s.inst with strategy := st } : Inst).solveIn) hvst.items.1]
    rfl
  have hjv : j.objVals.map (·.1) = i.containers.map (·.1) := by
    obtain ⟨_, ho, _⟩ := C17_carries_over _ _ _ _ _ _ _ hvst hls
    rw [ho]; show s.inst.containers.map (·.1) = _; rw [econts]
  have hcalc : j.calcObj A = .ok (overall A (j.objVals.map (·.2))) := by
    have jc : j.containers = i.containers := by rw [hfr]; exact econts
    have jn : j.containersNum = i.containersNum := by rw [hfr]; exact enum
    have hk : PyDict.keys j.objVals = PyDict.keys j.containers := by
      unfold PyDict.keys; rw [jc]; exact hjv
    rw [calcObj_eq hk (by rw [jc]; exact hv.contsNe), Inst.worth_eq (by rw [jc, jn]; exact hn) hk]
  have hbest : s.best = overall A (a.best.2.map (·.2)) := by
    rw [hrel.values]; exact (hs.overall hv hn).symm
  have hzh : j.height.getD 0 = z.height := by
    cases hst : i.strip with
    | true =>
      rw [(c5 (by show s.inst.strip = true; rw [estrip]; exact hst)).1]; rfl
    | false =>
      rw [(hbn (by show s.inst.strip = false; rw [estrip]; exact hst)).1, hheight]
      have keep : ∀ {n m : Nat} {x y : HillNode String (Solution × ObjVals)},
          Hill ((i.rounds A clock start throttle).climb st a.readings) n x m y → y.height = x.height := by
        intro n m x y hxy
        induction hxy with
        | rest => rfl
        | last => simp [HillNode.moved, Inst.rounds, Inst.hill, hst]
        | move _ _ _ _ _ _ _ ih => rw [ih]; simp [HillNode.moved, Inst.rounds, Inst.hill, hst]
      exact (keep c2).symm
  have hzhs : i.strip = true → j.heights = z.heights := fun hst =>
    (c5 (by show s.inst.strip = true; rw [estrip]; exact hst)).2
  have hlate : b = true ↔ A.sub (clock (s'.tick - 1)) start > (i.maxTime : Rat) := by
    rw [k6]; simp [outOfTime]
  -- what the step computes
  have hstep := k1
  unfold hsStep at hstep
  simp only [bind, Except.bind, hls, hcalc, pure, Except.pure] at hstep
  by_cases hb : overall A (j.objVals.map (·.2)) > s.best
  · obtain ⟨sol, hsol⟩ : ∃ sol, j.getSolution = .ok (sol, j.objVals) ∧ SamePacking sol j.solution := by
      obtain ⟨seq, H, sol1, g1, g2, g3, g4, g5⟩ := C17_genuine _ _ _ _ _ _ _ hvst hls
      have hvH : ValidIn (({ s.inst with strategy := st } : Inst).at H) :=
        ⟨hvst.conts, hvst.items, fun h => (g2 h).2⟩
      have hf := g5.facts (solve_facts hvH (KnownSeq_perm (by exact g1)) g4)
      obtain ⟨r, hr1, hr2⟩ := deepcopy_same hvst.conts.1 hvst.items.1 hf
      refine ⟨r, ?_, hr2⟩
      simp only [Inst.getSolution, Inst.deepcopySolution, bind, Except.bind, pure, Except.pure]
      rw [hfr]
      simp only [copyObjVals_eq]
      rw [hr1]
    simp only [checkSolution, hb, decide_true, if_true, hsol.1, globalCheck, optimumObjVal, Bool.false_eq_true,
      if_false] at hstep
    injection hstep with hstep
    injection hstep with hstep _
    refine ⟨s', b, ⟨z.result, some st, some st, z.height, z.heights, a.readings + t.tick + 1⟩, k1, k2,
      ⟨first, t.tick, z, hpack, c2, rfl, rfl, rfl, rfl, Or.inl ⟨?_, rfl, rfl⟩⟩, ?_, ?_⟩
    · show overall A (z.result.2.map (·.2)) > overall A (a.best.2.map (·.2))
      rw [← hbest, ← c4]; exact hb
    · rw [← hstep]
      refine ⟨?_, ?_, ?_, ?_, rfl, hzh, hzhs⟩
      · simp [hrel.readings]
      · exact c4.symm
      · exact hsol.2.trans c3
      · show j.strategy = st; rw [hfr]
    · rw [hlate]
      show _ ↔ A.sub (clock (a.readings + t.tick + 1 - 1)) start > _
      rw [← hstep, hrel.readings]
  · simp only [checkSolution, hb, decide_false, Bool.false_eq_true, if_false] at hstep
    injection hstep with hstep
    injection hstep with hstep _
    refine ⟨s', b, ⟨a.best, a.winner, some st, z.height, z.heights, a.readings + t.tick + 1⟩, k1, k2,
      ⟨first, t.tick, z, hpack, c2, rfl, rfl, rfl, rfl, Or.inr ⟨?_, rfl, rfl⟩⟩, ?_, ?_⟩
    · show ¬ overall A (z.result.2.map (·.2)) > overall A (a.best.2.map (·.2))
      rw [← hbest, ← c4]; exact hb
    · rw [← hstep]
      refine ⟨?_, hrel.values, hrel.packing, ?_, hrel.winner, hzh, hzhs⟩
      · simp [hrel.readings]
      · show j.strategy = st; rw [hfr]
    · rw [hlate]
      show _ ↔ A.sub (clock (a.readings + t.tick + 1 - 1)) start > _
      rw [← hstep, hrel.readings]

theorem hsLoop_rounds {A : Arith} {clock : Nat → Rat} {start : Rat} {throttle : Bool} {i : Inst} (hv : i.Valid)
    (hn : i.containersNum = i.containers.length) {v0 : Rat} : ∀ (sts : List (List PClass)) {s s' : HSState},
    HSInv A clock start throttle i v0 s →
    ∀ {a : HyperNode (List PClass) (Solution × ObjVals)}, HSRel i s a →
    hsLoop A clock start throttle sts s = .ok s' →
    ∃ a', Hyper (i.rounds A clock start throttle) sts a a' ∧ HSRel i s' a'
  | [], s, s', _, a, hrel, h => by
    injection h with h; subst h
    exact ⟨a, .done, hrel⟩
  | st :: rest, s, s', hs, a, hrel, h => by
    obtain ⟨s1, b, a1, k1, k2, k3, k4, k5⟩ := hsStep_round hv hn hs hrel st
    unfold hsLoop at h
    simp only [bind, Except.bind, k1] at h
    cases hb : b with
    | true =>
      rw [hb] at h
      simp only [if_true] at h
      injection h with h; subst h
      exact ⟨a1, .stop k3 (k5.1 hb), k4⟩
    | false =>
      rw [hb] at h
      simp only [Bool.false_eq_true, if_false] at h
      obtain ⟨a2, g1, g2⟩ := hsLoop_rounds hv hn rest k2 k4 h
      refine ⟨a2, .next k3 ?_ g1, g2⟩
      intro hl
      rw [k5.2 hl] at hb; cases hb

/-- C107: the single process search is the search of `SpecHyper` with the rules `Inst.rounds`, over the strategies
`sts` in order, started from the packing of `solve()`. -/
theorem C107_rounds (A : Arith) (clock : Nat → Rat) (start : Rat) (throttle : Bool) (i : Inst)
    (sts : List (List PClass)) (hv : i.Valid) (hn : i.containersNum = i.containers.length) (s : HSState)
    (h : i.singleHS A clock start throttle sts = .ok s) :
    ∃ (first : Solution × ObjVals) (z : HyperNode (List PClass) (Solution × ObjVals)),
      solve A i.solveIn none = .ok first ∧
      Hyper (i.rounds A clock start throttle) sts ⟨first, none, none, i.height.getD 0, i.heights, 0⟩ z ∧
      SamePacking s.finish.solution z.best.1 ∧ s.finish.objVals = z.best.2 ∧
      s.finish.bestStrategy = some (some (z.winner.getD defaultStrategy)) ∧
      s.finish.strategy = z.last.getD i.strategy ∧
      s.finish.height.getD 0 = z.height ∧ (i.strip = true → s.finish.heights = z.heights) ∧
      s.tick = z.readings := by
  obtain ⟨sol, ov, r, h1, h2, h3, h4, h5, h6⟩ := init_spec (A := A) hv
  have hinv : HSInv A clock start throttle i (i.worth A (ov.map (·.2)))
      ⟨i.upd sol ov i.height i.heights, i.worth A (ov.map (·.2)), (r, ov), defaultStrategy, 0, []⟩ := by
    have h0 : i.singleHS A clock start throttle [] = .ok
        ⟨i.upd sol ov i.height i.heights, i.worth A (ov.map (·.2)), (r, ov), defaultStrategy, 0, []⟩ := by
      unfold Inst.singleHS
      simp only [bind, Except.bind, h5, h6]
      rfl
    obtain ⟨s0, sol0, ov0, g1, g2, g3, _⟩ := singleHS_spec (A := A) (clock := clock) (start := start)
      (throttle := throttle) hv []
    rw [h0] at g1
    injection g1 with g1
    subst g1
    rw [h2] at g2
    injection g2 with g2
    injection g2 with _ g2
    subst g2
    exact g3
  unfold Inst.singleHS at h
  simp only [bind, Except.bind, h5, h6] at h
  obtain ⟨z, g1, g2⟩ := hsLoop_rounds hv hn sts hinv
    (a := ⟨(sol, ov), none, none, i.height.getD 0, i.heights, 0⟩)
    ⟨rfl, rfl, h4, rfl, rfl, rfl, fun _ => rfl⟩ h
  refine ⟨(sol, ov), z, h2, g1, g2.packing, g2.values.symm, ?_, g2.last, g2.height, g2.heights, g2.readings.symm⟩
  show some (some s.bestStrategy) = _
  rw [g2.winner]

/-! ### the specification has one answer -/

theorem round_unique {σ α R : Type} {K : HyperRules σ α R}
    (hf : ∀ st n h x r r', (K.climb st n).pack h x r → (K.climb st n).pack h x r' → r = r')
    {st : σ} {a b b' : HyperNode σ R} (h1 : Round K st a b) (h2 : Round K st a b') : b = b' := by
  obtain ⟨r, m, z, p1, p2, p3, p4, p5, p6, p7⟩ := h1
  obtain ⟨r', m', z', q1, q2, q3, q4, q5, q6, q7⟩ := h2
  obtain rfl := hf _ _ _ _ _ _ p1 q1
  obtain ⟨rfl, rfl⟩ := C106_unique _ (hf st a.readings) p2 q2
  obtain ⟨b1, b2, b3, b4, b5, b6⟩ := b
  obtain ⟨c1, c2, c3, c4, c5, c6⟩ := b'
  simp only at p3 p4 p5 p6 p7 q3 q4 q5 q6 q7
  subst p3 p4 p5 p6 q3 q4 q5 q6
  rcases p7 with ⟨e0, e1, e2⟩ | ⟨e0, e1, e2⟩ <;> rcases q7 with ⟨f0, f1, f2⟩ | ⟨f0, f1, f2⟩
  · subst e1 e2 f1 f2; rfl
  · exact absurd e0 f0
  · exact absurd f0 e0
  · subst e1 e2 f1 f2; rfl

/-- C107: the search described by the specification has only one outcome (packing being a function). -/
theorem C107_unique {σ α R : Type} (K : HyperRules σ α R)
    (hf : ∀ st n h x r r', (K.climb st n).pack h x r → (K.climb st n).pack h x r' → r = r')
    {sts : List σ} {a z z' : HyperNode σ R} (h1 : Hyper K sts a z) (h2 : Hyper K sts a z') : z = z' := by
  induction h1 with
  | done => cases h2; rfl
  | stop hr hl =>
    cases h2 with
    | stop hr' hl' => exact round_unique hf hr hr'
    | next hr' hl' _ => obtain rfl := round_unique hf hr hr'; exact absurd hl hl'
  | next hr hl _ ih =>
    cases h2 with
    | stop hr' hl' => obtain rfl := round_unique hf hr hr'; exact absurd hl' hl
    | next hr' hl' h2' => obtain rfl := round_unique hf hr hr'; exact ih h2'

/-- C107 for `hypersearch()` of a problem with one worker: it returns, having done what the specification says with
the sorted and oriented items `i0` and the strategies of `get_strategies`, and whatever end `z` the search of the
specification has, that is what is left behind. -/
theorem C107_hypersearch (A : Arith) (i : Inst) (hr : Reach A i) (h : HSArgs) (hw : OneWorker i.workers)
    (hs : (step A i (.sortItems h.sortingBy)).2 = .ok) (i0 : Inst)
    (h0 : i0 = (step A (step A i (.sortItems h.sortingBy)).1 (.orientItems h.orientation)).1) :
    ∃ (j : Inst) (first : Solution × ObjVals), step A i (.hypersearch h) = (j, .ok) ∧
      solve A i0.solveIn none = .ok first ∧
      (∃ z, Hyper (i0.rounds A (fun k => h.clock (k + 1)) (h.clock 0) h.throttle)
        (getStrategies h.order i.strip h.exhaustive) ⟨first, none, none, i0.height.getD 0, i0.heights, 0⟩ z) ∧
      ∀ z, Hyper (i0.rounds A (fun k => h.clock (k + 1)) (h.clock 0) h.throttle)
        (getStrategies h.order i.strip h.exhaustive) ⟨first, none, none, i0.height.getD 0, i0.heights, 0⟩ z →
      SamePacking j.solution z.best.1 ∧ j.objVals = z.best.2 ∧
      j.bestStrategy = some (some (z.winner.getD defaultStrategy)) ∧
      j.strategy = z.last.getD i0.strategy ∧
      j.height.getD 0 = z.height ∧ (i.strip = true → j.heights = z.heights) := by
  have hr1 : Reach A (step A i (.sortItems h.sortingBy)).1 := .step _ hr
  have hr2 : Reach A i0 := by rw [h0]; exact .step _ hr1
  obtain ⟨_, h2⟩ := step_hypersearch h hr hs
  rw [← h0] at h2
  have hsort := sortItems_edited hr.good.valid A h.sortingBy
  have horient := orientItems_edited hr1.good.valid h.orientation
  have e1 : ∀ {a b : Inst}, b = a ∨ Edited a b → b.workers = a.workers ∧ b.strip = a.strip := by
    intro a b hab
    rcases hab with rfl | ⟨cs, its, n, rfl, _⟩
    · exact ⟨rfl, rfl⟩
    · exact ⟨rfl, rfl⟩
  obtain ⟨a1, a2⟩ := e1 hsort
  obtain ⟨b1, b2⟩ := e1 horient
  have hwork : i0.workers = i.workers := by rw [h0]; exact b1.trans a1
  have hstrip : i0.strip = i.strip := by rw [h0]; exact b2.trans a2
  obtain ⟨s, g1, g2⟩ := C27_returns A h i0 hr2.good.valid (by rw [hwork]; exact (oneWorker_iff _).2 hw)
  obtain ⟨first, z, c1, c2, c3⟩ := C107_rounds A _ _ _ i0 _ hr2.good.valid hr2.num s g1
  rw [hstrip] at c2
  refine ⟨s.finish, first, by rw [h2, g2], c1, ⟨z, c2⟩, ?_⟩
  intro z' hz'
  have hf : ∀ st n hh x r r', ((i0.rounds A (fun k => h.clock (k + 1)) (h.clock 0) h.throttle).climb st n).pack hh x r →
      ((i0.rounds A (fun k => h.clock (k + 1)) (h.clock 0) h.throttle).climb st n).pack hh x r' → r = r' := by
    intro st n hh x r r' p1 p2
    exact hill_pack_fun _ _ _ _ _ hh x r r' p1 p2
  obtain rfl := C107_unique _ hf c2 hz'
  rw [hstrip] at c3
  obtain ⟨d1, d2, d3, d4, d5, d6, d7⟩ := c3
  exact ⟨d1, d2, d3, d4, d5, d6⟩

/-- C106 for `local_search()` of a reachable problem: it returns, having done what the specification says, and
whatever end the climb of the specification has, that is what is left behind. -/
theorem C106_local_search (A : Arith) (i : Inst) (hr : Reach A i) (clock : Nat → Rat) (throttle : Bool) :
    ∃ (j : Inst) (first : Solution × ObjVals), step A i (.localSearch clock throttle) = (j, .ok) ∧
      solve A i.solveIn none = .ok first ∧
      (∃ m z, Hill (i.hill A (fun k => clock (k + 1)) (clock 0) throttle)
        0 ⟨i.items.map (·.1), first, i.height.getD 0, [i.height.getD 0]⟩ m z) ∧
      ∀ m z, Hill (i.hill A (fun k => clock (k + 1)) (clock 0) throttle)
        0 ⟨i.items.map (·.1), first, i.height.getD 0, [i.height.getD 0]⟩ m z →
      SamePacking j.solution z.result.1 ∧ j.objVals = z.result.2 ∧
      (i.strip = true → j.height = some z.height ∧ j.heights = z.heights) := by
  have hv := hr.good.valid
  obtain ⟨j, t, hls⟩ := C18_terminates A (fun k => clock (k + 1)) (clock 0) throttle i hv
  obtain ⟨first, z, c1, c2, _⟩ := C106_climb A _ _ throttle i j t hv hr.num hls
  refine ⟨j, first, ?_, c1, ⟨t.tick, z, c2⟩, ?_⟩
  · simp only [step, hls]
  · intro m z' hz'
    exact (C106_determined A _ _ throttle i j t hv hr.num hls first c1 m z' hz').2

/-! ### not vacuous -/

/-- the hypotheses of C107 hold of `lsStrip` with two strategies -/
example : lsStrip.Valid ∧ lsStrip.containersNum = lsStrip.containers.length ∧
    ∃ (first : Solution × ObjVals) (z : HyperNode (List PClass) (Solution × ObjVals)),
      Hyper (lsStrip.rounds Arith.exact (fun _ => 0) 0 true) strategyPool ⟨first, none, none, 6, lsStrip.heights, 0⟩ z ∧
      z.last ≠ none := by
  obtain ⟨s, hs⟩ := C27_total Arith.exact (fun _ => 0) 0 true lsStrip strategyPool lsStrip_valid
  obtain ⟨first, z, g1, g2, _⟩ := C107_rounds _ _ _ _ _ _ lsStrip_valid rfl s hs
  refine ⟨lsStrip_valid, rfl, first, z, g2, ?_⟩
  have key : ∀ {sts : List (List PClass)} {a b : HyperNode (List PClass) (Solution × ObjVals)},
      Hyper (lsStrip.rounds Arith.exact (fun _ => 0) 0 true) sts a b → (sts ≠ [] ∨ a.last ≠ none) → b.last ≠ none := by
    intro sts a b hab
    induction hab with
    | done => intro h; rcases h with h | h; exact absurd rfl h; exact h
    | stop hr _ => intro _; obtain ⟨_, _, _, _, _, _, _, _, hl, _⟩ := hr; rw [hl]; simp
    | next hr _ _ ih => intro _; apply ih; right; obtain ⟨_, _, _, _, _, _, _, _, hl, _⟩ := hr; rw [hl]; simp
  exact key g2 (Or.inl (by decide))

end HP
