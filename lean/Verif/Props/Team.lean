import Verif.Props.Rounds
import Verif.SpecSettings
import Verif.Props.Subclass
/-
Property C108: the multi process hypersearch, worker by worker.
-/
namespace HP
open Spec

/-- the winner is determined -/
theorem FirstBest.unique {n : Nat} {failed : Nat → Prop} {value : Nat → Rat} {p q : Nat}
    (hp : FirstBest n failed value p) (hq : FirstBest n failed value q) : p = q := by
  obtain ⟨a1, a2, a3⟩ := hp
  obtain ⟨b1, b2, b3⟩ := hq
  rcases Nat.lt_trichotomy p q with h | h | h
  · exact absurd ((b3 p a1 a2).2 h) (not_lt.2 (a3 q b1 b2).1)
  · exact h
  · exact absurd ((a3 q b1 b2).2 h) (not_lt.2 (b3 p a1 a2).1)

/-- a worker's best strategy, as it reports it: none if it did not improve on the packing of `solve()` -/
theorem winner_none {σ α R : Type} {K : HyperRules σ α R} {sts : List σ} {a z : HyperNode σ R}
    (h : Hyper K sts a z) (val : R → Rat) (hb : ∀ r r', K.better r' r ↔ val r' > val r) :
    val a.best ≤ val z.best ∧
      ((z.winner = a.winner ∧ z.best = a.best) ∨ (z.winner ≠ none ∧ val a.best < val z.best)) := by
  have hround : ∀ {st a b}, Round K st a b → val a.best ≤ val b.best ∧
      ((b.winner = a.winner ∧ b.best = a.best) ∨ (b.winner ≠ none ∧ val a.best < val b.best)) := by
    rintro st a b ⟨_, _, _, _, _, _, _, _, _, ⟨h1, h2, h3⟩ | ⟨h1, h2, h3⟩⟩
    · have := (hb _ _).1 h1
      rw [h2, h3]
      exact ⟨le_of_lt this, Or.inr ⟨by simp, this⟩⟩
    · rw [h2, h3]; exact ⟨le_refl _, Or.inl ⟨rfl, rfl⟩⟩
  induction h with
  | done => exact ⟨le_refl _, Or.inl ⟨rfl, rfl⟩⟩
  | stop hr _ => exact hround hr
  | next hr _ _ ih =>
    obtain ⟨h1, h2⟩ := hround hr
    obtain ⟨i1, i2⟩ := ih
    refine ⟨le_trans h1 i1, ?_⟩
    rcases i2 with ⟨i2, i3⟩ | ⟨i2, i3⟩
    · rw [i2, i3]; exact h2
    · exact Or.inr ⟨i2, lt_of_le_of_lt h1 i3⟩

theorem RotVal.of_setting {st : List (PyVal × PyVal)} {b : Bool} (h : RotationSetting st b) : RotVal st b := by
  unfold RotationSetting Absent at h
  unfold RotVal PyVal.getD
  rcases h with ⟨h | h, hb⟩ | h
  · left; rw [h]; exact ⟨rfl, hb⟩
  · left; rw [h]; exact ⟨rfl, hb⟩
  · right; rw [h]; exact ⟨rfl, rfl⟩

theorem TimeVal.of_setting {st : List (PyVal × PyVal)} {t : Int} (h : TimeSetting st t) : TimeVal st t := by
  unfold TimeSetting at h
  unfold TimeVal
  rcases h with ⟨h, ht⟩ | ⟨h, ht⟩ | ⟨h, ht⟩
  · rw [h, ht]; rfl
  · rw [h]; rfl
  · rw [h, ht]; rfl

/-- C108 below, with the function that makes the workers' problem -/
theorem team_worker (A : Arith) (hA : NonNeg A) (i : Inst) (hr : Reach A i) (h : HSArgs)
    (hw : ¬ OneWorker i.workers) (hs : (step A i (.sortItems h.sortingBy)).2 = .ok) (i0 : Inst)
    (h0 : i0 = (step A (step A i (.sortItems h.sortingBy)).1 (.orientItems h.orientation)).1)
    (hkill : ∀ p, ¬ Killed h.schedule p)
    (j : Inst) (hj : step A i (.hypersearch h) = (j, .ok)) :
    ∃ (chunks : List (List (List PClass))) (w : Inst) (first : Solution × ObjVals), workerInst h.env i0 = .ok w ∧
      strategyChunks (getStrategies h.order i.strip h.exhaustive) i.workers = .ok chunks ∧
      (w.items = i0.items ∧ w.containers = i.containers ∧ w.strip = i.strip ∧ w.minHeight = i.minHeight ∧
        w.strategy = defaultStrategy ∧
        (i.strip = true → ∃ W L, i.containers = [(stripId, ⟨W, L⟩)] ∧ w.height = some (10 * W)) ∧
        ∀ st b t, i.settings = .dict st → RotationSetting st b → TimeSetting st t →
          w.rotation = b ∧ w.maxTime = t) ∧
      solve A w.solveIn none = .ok first ∧
      (∃ z : Nat → HyperNode (List PClass) (Solution × ObjVals), ∀ (q : Nat) chunk, chunks[q]? = some chunk →
        Hyper (w.rounds A (h.workerClock q) (h.clock 0) h.throttle) chunk
          ⟨first, none, none, w.height.getD 0, w.heights, 0⟩ (z q)) ∧
      ∀ z : Nat → HyperNode (List PClass) (Solution × ObjVals),
        (∀ (q : Nat) chunk, chunks[q]? = some chunk →
          Hyper (w.rounds A (h.workerClock q) (h.clock 0) h.throttle) chunk
            ⟨first, none, none, w.height.getD 0, w.heights, 0⟩ (z q)) →
        ∃ p, FirstBest chunks.length (Raised (h.mp A) w chunks h.schedule)
            (fun q => overall A ((z q).best.2.map (·.2))) p ∧
          SamePacking j.solution (z p).best.1 ∧
          j = { i0 with solution := j.solution, objVals := (z p).best.2, bestStrategy := some (z p).winner } := by
  have hr1 : Reach A (step A i (.sortItems h.sortingBy)).1 := .step _ hr
  have hr2 : Reach A i0 := by rw [h0]; exact .step _ hr1
  obtain ⟨_, h2⟩ := step_hypersearch h hr hs
  rw [← h0, hj] at h2
  have hsort := sortItems_edited hr.good.valid A h.sortingBy
  have horient := orientItems_edited hr1.good.valid h.orientation
  have e1 : ∀ {a b : Inst}, b = a ∨ Edited a b → b.workers = a.workers ∧ b.strip = a.strip ∧
      b.minHeight = a.minHeight ∧ b.settings = a.settings := by
    intro a b hab
    rcases hab with rfl | ⟨cs, its, n, rfl, _⟩
    · exact ⟨rfl, rfl, rfl, rfl⟩
    · exact ⟨rfl, rfl, rfl, rfl⟩
  obtain ⟨a1, a2, a3, a4⟩ := e1 hsort
  obtain ⟨b1, b2, b3, b4⟩ := e1 horient
  have hwork : i0.workers = i.workers := by rw [h0]; exact b1.trans a1
  have hstrip : i0.strip = i.strip := by rw [h0]; exact b2.trans a2
  have hmin : i0.minHeight = i.minHeight := by rw [h0]; exact b3.trans a3
  have hset : i0.settings = i.settings := by rw [h0]; exact b4.trans a4
  have hconts : i0.containers = i.containers := by
    rw [h0]
    exact (orientItems_containers hr1 h.orientation).trans (sortItems_containers hr h.sortingBy)
  unfold Inst.search at h2
  rw [if_neg (by rw [hwork, oneWorker_iff]; exact hw)] at h2
  have hv := hr2.good.valid
  cases hm : i0.multiHS h.env (h.mp A) (getStrategies h.order i0.strip h.exhaustive) h.schedule with
  | raised e => rw [hm] at h2; simp only [Prod.mk.injEq] at h2; cases h2.2
  | blocked => rw [hm] at h2; simp only [Prod.mk.injEq] at h2; cases h2.2
  | returned sol ov st =>
    rw [hm] at h2
    simp only [Prod.mk.injEq, and_true] at h2
    obtain ⟨chunks, hc⟩ : ∃ chunks, strategyChunks (getStrategies h.order i0.strip h.exhaustive) i0.workers =
        .ok chunks := by
      unfold Inst.multiHS at hm
      cases hx : strategyChunks (getStrategies h.order i0.strip h.exhaustive) i0.workers with
      | ok c => exact ⟨c, rfl⟩
      | error e => rw [hx] at hm; cases hm
    obtain ⟨w, hwi⟩ : ∃ w, workerInst h.env i0 = .ok w := by
      unfold Inst.multiHS at hm
      rw [hc] at hm
      cases hx : workerInst h.env i0 with
      | ok c => exact ⟨c, rfl⟩
      | error e => rw [hx] at hm; cases hm
    obtain ⟨w1, w2, w3, w4, w5, w6, _, _, w9, _⟩ := workerInst_spec hv hwi
    have wn := workerInst_num hwi
    obtain ⟨p, chunk, s, c1, cR, c3, c4, c5, ⟨solA, ovA, c6, c6'⟩, c7⟩ :=
      multi_first h.env (h.mp A) _ h.schedule i0 w chunks hA hv hc hwi sol ov st hm
    replace c6 : solve A w.solveIn none = .ok (solA, ovA) := c6
    have hall : ∀ (q : Nat) (chunk : List (List PClass)), ∃ s,
        w.singleHS A (h.workerClock q) (h.clock 0) h.throttle chunk = .ok s :=
      fun q chunk => C27_total A _ _ _ w chunk w1
    have hf : ∀ (q : Nat) st n hh x r r', ((w.rounds A (h.workerClock q) (h.clock 0) h.throttle).climb st n).pack hh x r →
        ((w.rounds A (h.workerClock q) (h.clock 0) h.throttle).climb st n).pack hh x r' → r = r' := by
      intro q st n hh x r r' p1 p2
      exact hill_pack_fun _ _ _ _ _ hh x r r' p1 p2
    have hone : ∀ (q : Nat) (chunk : List (List PClass)) (s : HSState),
        w.singleHS A (h.workerClock q) (h.clock 0) h.throttle chunk = .ok s → ∀ z,
        Hyper (w.rounds A (h.workerClock q) (h.clock 0) h.throttle) chunk
          ⟨(solA, ovA), none, none, w.height.getD 0, w.heights, 0⟩ z →
        SamePacking s.finish.solution z.best.1 ∧ s.finish.objVals = z.best.2 ∧
          s.bestStrategy = z.winner.getD defaultStrategy := by
      intro q chunk s hs z hz
      obtain ⟨first, z', d1, d2, d3, d4, d5, _⟩ := C107_rounds A _ _ _ w chunk w1 wn s hs
      rw [c6] at d1
      injection d1 with d1
      subst d1
      obtain rfl := C107_unique _ (hf q) hz d2
      refine ⟨d3, d4, ?_⟩
      have : some (some s.bestStrategy) = some (some (z.winner.getD defaultStrategy)) := d5
      injection this with this
      injection this
    refine ⟨chunks, w, (solA, ovA), hwi, by rw [← hstrip, ← hwork]; exact hc,
      ⟨w2, w3.trans hconts, w4.trans hstrip, w5.trans hmin, w6, ?_, ?_⟩, c6, ?_, ?_⟩
    · rw [← hconts, ← hstrip]; exact w9
    · intro st' b t hst' hb ht
      obtain ⟨g1, g2⟩ := workerInst_settings hwi (st := st') (by rw [hset, hst']; rfl)
      exact ⟨g1.unique (RotVal.of_setting hb), g2.unique (TimeVal.of_setting ht)⟩
    · refine Classical.axiomOfChoice (r := fun q z => ∀ chunk, chunks[q]? = some chunk → Hyper _ chunk _ z) ?_
      intro q
      cases hq : chunks[q]? with
      | none => exact ⟨⟨(solA, ovA), none, none, 0, [], 0⟩, fun chunk hc => by cases hc⟩
      | some chunk =>
        obtain ⟨s, hs⟩ := hall q chunk
        obtain ⟨first, z', d1, d2, _⟩ := C107_rounds A _ _ _ w chunk w1 wn s hs
        rw [c6] at d1
        injection d1 with d1
        subst d1
        refine ⟨z', fun chunk' hc => ?_⟩
        injection hc with hc
        subst hc
        exact d2
    · intro z hz
      obtain ⟨k1, k2, k3⟩ := hone p chunk s c3 (z p) (hz p chunk c1)
      have hval : (z p).best.2 = ov := by rw [c5, ← k2]
      refine ⟨p, ⟨(List.getElem?_eq_some_iff.1 c1).1, cR, ?_⟩, ?_, ?_⟩
      · intro q hq hR
        obtain ⟨s', hs'⟩ := hall q chunks[q]
        obtain ⟨_, m2, _⟩ := hone q chunks[q] s' hs' (z q) (hz q _ (List.getElem?_eq_getElem hq))
        simp only [hval]
        rw [← m2]
        exact c7 q _ s' (List.getElem?_eq_getElem hq) hR (hkill q) hs'
      · rw [h2]; exact c4.trans k1
      · rw [h2, hval]
        have hst : st = (z p).winner := by
          have hzp := hz p chunk c1
          obtain ⟨q1, q2⟩ := winner_none hzp (fun r => overall A (r.2.map (·.2)))
            (fun r r' => by show overall A _ > overall A _ ↔ _; exact Iff.rfl)
          rcases c6' with ⟨r1, r2⟩ | ⟨r1, r2⟩
          · rcases q2 with ⟨q2, _⟩ | ⟨_, q3⟩
            · rw [r1, q2]
            · simp only [hval] at q3
              exact absurd r2 (ne_of_gt q3)
          · rcases q2 with ⟨_, q3⟩ | ⟨q2, _⟩
            · rw [q3] at hval
              simp only at hval
              rw [hval] at r2
              exact absurd r2 (lt_irrefl _)
            · rw [r1, k3]
              cases hz' : (z p).winner with
              | none => exact absurd hz' q2
              | some x => rfl
        rw [hst]

/-- C108: `hypersearch()` with several workers, none of them killed.  The strategies are cut into `chunks`; worker
`q` does the search of `SpecHyper` (C107) over chunk `q`, on its own clock, for a new problem `w` with the sorted and
oriented items of `i0`, the default strategy and (in strip mode) the default height; whatever ends `z` these searches
have, what is left behind is the result of the first worker with the greatest value among those that did not raise,
with that worker's winning strategy (none if it did not improve on `solve()`).  Everything else is as in `i0`. -/
theorem C108_team (A : Arith) (hA : NonNeg A) (i : Inst) (hr : Reach A i) (h : HSArgs)
    (hw : ¬ OneWorker i.workers) (hs : (step A i (.sortItems h.sortingBy)).2 = .ok) (i0 : Inst)
    (h0 : i0 = (step A (step A i (.sortItems h.sortingBy)).1 (.orientItems h.orientation)).1)
    (hkill : ∀ p, ¬ Killed h.schedule p)
    (j : Inst) (hj : step A i (.hypersearch h) = (j, .ok)) :
    ∃ (chunks : List (List (List PClass))) (w : Inst) (first : Solution × ObjVals),
      strategyChunks (getStrategies h.order i.strip h.exhaustive) i.workers = .ok chunks ∧
      (w.items = i0.items ∧ w.containers = i.containers ∧ w.strip = i.strip ∧ w.minHeight = i.minHeight ∧
        w.strategy = defaultStrategy ∧
        (i.strip = true → ∃ W L, i.containers = [(stripId, ⟨W, L⟩)] ∧ w.height = some (10 * W)) ∧
        ∀ st b t, i.settings = .dict st → RotationSetting st b → TimeSetting st t →
          w.rotation = b ∧ w.maxTime = t) ∧
      solve A w.solveIn none = .ok first ∧
      (∃ z : Nat → HyperNode (List PClass) (Solution × ObjVals), ∀ (q : Nat) chunk, chunks[q]? = some chunk →
        Hyper (w.rounds A (h.workerClock q) (h.clock 0) h.throttle) chunk
          ⟨first, none, none, w.height.getD 0, w.heights, 0⟩ (z q)) ∧
      ∀ z : Nat → HyperNode (List PClass) (Solution × ObjVals),
        (∀ (q : Nat) chunk, chunks[q]? = some chunk →
          Hyper (w.rounds A (h.workerClock q) (h.clock 0) h.throttle) chunk
            ⟨first, none, none, w.height.getD 0, w.heights, 0⟩ (z q)) →
        ∃ p, FirstBest chunks.length (Raised (h.mp A) w chunks h.schedule)
            (fun q => overall A ((z q).best.2.map (·.2))) p ∧
          SamePacking j.solution (z p).best.1 ∧
          j = { i0 with solution := j.solution, objVals := (z p).best.2, bestStrategy := some (z p).winner } := by
  obtain ⟨chunks, w, first, _, h1⟩ := team_worker A hA i hr h hw hs i0 h0 hkill j hj
  exact ⟨chunks, w, first, h1⟩

/-- C108 is not vacuous: two workers, nobody fails or the first one raises; the search returns -/
example : ∃ p, mkInst plainEnv turnedArgs.1 turnedArgs.2.1 turnedArgs.2.2 .none = .ok p ∧ NonNeg Arith.exact ∧
    Reach Arith.exact p ∧ ¬ OneWorker p.workers ∧
    (step Arith.exact p (.sortItems turnedSearch.sortingBy)).2 = .ok ∧
    (∀ f q, ¬ Killed ({ turnedSearch with force := f } : HSArgs).schedule q) ∧
    [fun _ => false, fun n => n == 0].map (fun f =>
      (step Arith.exact p (.hypersearch { turnedSearch with force := f })).2) = [.ok, .ok] := by
  obtain ⟨p, hp⟩ : ∃ p, mkInst plainEnv turnedArgs.1 turnedArgs.2.1 turnedArgs.2.2 .none = .ok p := ⟨_, rfl⟩
  have hr : Reach Arith.exact p := .new hp
  injection hp with hp
  subst hp
  refine ⟨_, rfl, nonNeg_exact, hr, ?_, rfl, ?_, by decide +kernel⟩
  · rintro (h | h | h) <;> cases h
  · intro f q
    exact mp_noKill (sch := mpTurns) (by decide) q

end HP
