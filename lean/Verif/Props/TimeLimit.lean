import Verif.Props.Rounds
import Verif.Props.Team
/-
Property C111: the time limit of the searches.
-/
namespace HP
open Spec

/-! ### on the specification -/

/-- a climb ends with the first late reading -/
theorem Spec.Hill.in_time {α R : Type} {K : HillRules α R} {n m : Nat} {a z : HillNode α R} (h : Hill K n a m z) :
    ∀ k, n ≤ k → K.late k → m ≤ k + 1 := by
  induction h with
  | @rest n a pre post h1 h2 h3 h4 =>
    intro k hk hl
    by_cases hlt : k - n + 1 < pre.length
    · have := h3 (k - n) hlt
      rw [Nat.add_sub_cancel' hk] at this
      exact absurd hl this
    · omega
  | @last n a pre post y r h1 h2 h3 h4 h5 h6 =>
    intro k hk hl
    by_cases hlt : k - n < pre.length
    · have := h3 (k - n) hlt
      rw [Nat.add_sub_cancel' hk] at this
      exact absurd hl this
    · omega
  | @move n m a z pre post y r h1 h2 h3 h4 h5 h6 h7 ih =>
    intro k hk hl
    by_cases hlt : k - n < pre.length
    · have := h3 (k - n) hlt
      rw [Nat.add_sub_cancel' hk] at this
      exact absurd hl this
    · by_cases heq : k = n + pre.length
      · subst heq; exact absurd hl h6
      · exact ih k (by omega) hl

theorem Spec.Hill.le {α R : Type} {K : HillRules α R} {n m : Nat} {a z : HillNode α R} (h : Hill K n a m z) : n ≤ m := by
  induction h with
  | rest => omega
  | last => omega
  | move _ _ _ _ _ _ _ ih => omega

/-- a climb depends only on the readings it takes -/
theorem Spec.Hill.readings_congr {α R : Type} {K : HillRules α R} {n m : Nat} {a z : HillNode α R} (h : Hill K n a m z)
    (late' : Nat → Prop) (hl : ∀ k, k < m → (late' k ↔ K.late k)) : Hill { K with late := late' } n a m z := by
  induction h with
  | @rest n a pre post h1 h2 h3 h4 =>
    refine .rest (pre := pre) (post := post) h1 h2 ?_ ?_
    · intro k hk hlate; exact h3 k hk ((hl _ (by omega)).1 hlate)
    · rcases h4 with h4 | ⟨h4, h5⟩
      · exact Or.inl h4
      · refine Or.inr ⟨h4, (hl _ ?_).2 h5⟩
        have : 0 < pre.length := List.length_pos_iff.2 h4
        omega
  | @last n a pre post y r h1 h2 h3 h4 h5 h6 =>
    exact .last (K := { K with late := late' }) (pre := pre) (post := post) h1 h2
      (fun k hk hlate => h3 k hk ((hl _ (by omega)).1 hlate)) h4 h5 ((hl _ (by omega)).2 h6)
  | @move n m a z pre post y r h1 h2 h3 h4 h5 h6 h7 ih =>
    have := h7.le
    exact .move (K := { K with late := late' }) (pre := pre) (post := post) h1 h2
      (fun k hk hlate => h3 k hk ((hl _ (by omega)).1 hlate)) h4 h5
      (fun hlate => h6 ((hl _ (by omega)).1 hlate)) (ih hl)

/-- a search over strategies ends after two late readings in succession at the latest -/
theorem Spec.Hyper.in_time {σ α R : Type} {K : HyperRules σ α R} {sts : List σ} {a z : HyperNode σ R}
    (h : Hyper K sts a z) (hc : ∀ st n k, K.late (n + k) → (K.climb st n).late k) :
    ∀ k, a.readings ≤ k → K.late k → K.late (k + 1) → z.readings ≤ k + 2 := by
  have one : ∀ {st : σ} {a b : HyperNode σ R}, Round K st a b → ∀ k, a.readings ≤ k → K.late k →
      b.readings ≤ k + 2 := by
    rintro st a b ⟨r, m, z, h1, h2, h3, _⟩ k hk hl
    have := h2.in_time (k - a.readings) (Nat.zero_le _) (hc st a.readings _ (by rwa [Nat.add_sub_cancel' hk]))
    omega
  induction h with
  | done => intro k hk _ _; omega
  | stop hr _ => intro k hk h1 _; exact one hr k hk h1
  | @next st rest a b c hr hn h ih =>
    intro k hk h1 h2
    have hb := one hr k hk h1
    have hpos : 0 < b.readings := by
      obtain ⟨_, m, _, _, _, h3, _⟩ := hr
      omega
    refine ih k ?_ h1 h2
    by_contra hlt
    have : b.readings - 1 = k ∨ b.readings - 1 = k + 1 := by omega
    rcases this with e | e
    · exact hn (e ▸ h1)
    · exact hn (e ▸ h2)

theorem Spec.Hyper.readings_le {σ α R : Type} {K : HyperRules σ α R} {sts : List σ} {a z : HyperNode σ R}
    (h : Hyper K sts a z) : a.readings ≤ z.readings := by
  induction h with
  | done => exact Nat.le_refl _
  | stop hr _ => obtain ⟨_, m, _, _, _, h3, _⟩ := hr; omega
  | next hr _ _ ih => obtain ⟨_, m, _, _, _, h3, _⟩ := hr; omega

/-- a search over strategies depends only on the readings it takes -/
theorem Spec.Hyper.readings_congr {σ α R : Type} {K K' : HyperRules σ α R} {sts : List σ} {a z : HyperNode σ R}
    (h : Hyper K sts a z) (ho : K'.order = K.order) (hb : K'.better = K.better)
    (hc : ∀ st n, K'.climb st n = { K.climb st n with late := (K'.climb st n).late })
    (hl : ∀ k, k < z.readings → (K'.late k ↔ K.late k))
    (hcl : ∀ st n k, n + k < z.readings → ((K'.climb st n).late k ↔ (K.climb st n).late k)) :
    Hyper K' sts a z := by
  have one : ∀ {st : σ} {a b : HyperNode σ R}, Round K st a b → b.readings ≤ z.readings → Round K' st a b := by
    rintro st a b ⟨r, m, y, h1, h2, h3, h4⟩ hle
    refine ⟨r, m, y, ?_, ?_, h3, ?_⟩
    · rw [hc, ho]; exact h1
    · rw [hc, ho]
      exact h2.readings_congr _ (fun k hk => hcl st a.readings k (by omega))
    · rw [hb]; exact h4
  have key : ∀ {sts : List σ} {a c : HyperNode σ R}, Hyper K sts a c → c.readings ≤ z.readings → Hyper K' sts a c := by
    intro sts a c h
    induction h with
    | done => intro _; exact .done
    | stop hr hlate =>
      intro hle
      refine .stop (one hr hle) ((hl _ ?_).2 hlate)
      obtain ⟨_, m, _, _, _, h3, _⟩ := hr
      omega
    | @next st rest a b c hr hlate h ih =>
      intro hle
      have h1 := h.readings_le
      refine .next (one hr (by omega)) (fun hx => hlate ((hl _ ?_).1 hx)) (ih hle)
      obtain ⟨_, m, _, _, _, h3, _⟩ := hr
      omega
  exact key h (Nat.le_refl _)

/-! ### on the code -/

/-- more than the time limit has elapsed at the reading -/
def Over (A : Arith) (clock : Nat → Rat) (start : Rat) (i : Inst) (k : Nat) : Prop :=
  A.sub (clock k) start > (i.maxTime : Rat)

theorem rounds_over (A : Arith) (clock : Nat → Rat) (start : Rat) (throttle : Bool) (i : Inst) (st : List PClass)
    (n k : Nat) (h : (i.rounds A clock start throttle).late (n + k)) :
    ((i.rounds A clock start throttle).climb st n).late k := by
  show A.sub (clock (n + k)) start ≥ (i.maxTime : Rat)
  have h' : A.sub (clock (n + k)) start > (i.maxTime : Rat) := h
  exact le_of_lt h'

/-- C111, one process: once two readings of the clock in succession (for a clock that does not go back: one reading) show that
the time limit has passed, the search takes no further readings; by the rules of `SpecHill` and `SpecHyper`, which
it follows (C107), it packs once for every reading that it takes. -/
theorem C111_readings (A : Arith) (clock : Nat → Rat) (start : Rat) (throttle : Bool) (i : Inst)
    (sts : List (List PClass)) (hv : i.Valid) (hn : i.containersNum = i.containers.length) (s : HSState)
    (h : i.singleHS A clock start throttle sts = .ok s) (k : Nat) (h1 : Over A clock start i k)
    (h2 : Over A clock start i (k + 1)) : s.tick ≤ k + 2 := by
  obtain ⟨first, z, _, hz, _, _, _, _, _, _, ht⟩ := C107_rounds A clock start throttle i sts hv hn s h
  rw [ht]
  exact hz.in_time (fun st n k => rounds_over A clock start throttle i st n k) k (Nat.zero_le _) h1 h2

/-- the arguments with another clock -/
def HSArgs.withClock (h : HSArgs) (clock : Nat → Rat) : HSArgs := { h with clock := clock }

/-- C111 for `hypersearch()` with one worker: if the readings number `k` and `k + 1` (the start of the search being
number 0) show that the time limit has passed, what happens later has no influence: a clock that differs from then
on leads to the same packing, values, best strategy, strategy and height. -/
theorem C111_hypersearch (A : Arith) (i : Inst) (hr : Reach A i) (h : HSArgs) (hw : OneWorker i.workers)
    (hs : (step A i (.sortItems h.sortingBy)).2 = .ok) (k : Nat) (hk : 1 ≤ k)
    (h1 : Over A h.clock (h.clock 0) i k) (h2 : Over A h.clock (h.clock 0) i (k + 1))
    (clock' : Nat → Rat) (same : ∀ n, n ≤ k + 1 → clock' n = h.clock n) :
    ∃ j j', step A i (.hypersearch h) = (j, .ok) ∧ step A i (.hypersearch (h.withClock clock')) = (j', .ok) ∧
      j'.objVals = j.objVals ∧ j'.bestStrategy = j.bestStrategy ∧ j'.strategy = j.strategy ∧
      j'.height.getD 0 = j.height.getD 0 ∧
      ∃ best, SamePacking j.solution best ∧ SamePacking j'.solution best := by
  generalize h0 : (step A (step A i (.sortItems h.sortingBy)).1 (.orientItems h.orientation)).1 = i0
  have hr1 : Reach A (step A i (.sortItems h.sortingBy)).1 := .step _ hr
  have hsort := sortItems_edited hr.good.valid A h.sortingBy
  have horient := orientItems_edited hr1.good.valid h.orientation
  have e1 : ∀ {a b : Inst}, b = a ∨ Edited a b → b.maxTime = a.maxTime := by
    intro a b hab
    rcases hab with rfl | ⟨cs, its, n, rfl, _⟩ <;> rfl
  have hmax : i0.maxTime = i.maxTime := by rw [← h0]; exact (e1 horient).trans (e1 hsort)
  obtain ⟨j, first, g1, g2, ⟨z, g3⟩, g4⟩ := C107_hypersearch A i hr h hw hs i0 h0.symm
  obtain ⟨j', first', g1', g2', _, g4'⟩ := C107_hypersearch A i hr (h.withClock clock') hw hs i0 h0.symm
  rw [g2] at g2'
  injection g2' with g2'
  subst g2'
  have hle : z.readings ≤ k - 1 + 2 := by
    refine g3.in_time (fun st n k => rounds_over A _ _ _ i0 st n k) (k - 1) (Nat.zero_le _) ?_ ?_
    · show A.sub (h.clock (k - 1 + 1)) (h.clock 0) > (i0.maxTime : Rat)
      rw [hmax, Nat.sub_add_cancel hk]; exact h1
    · show A.sub (h.clock (k - 1 + 1 + 1)) (h.clock 0) > (i0.maxTime : Rat)
      rw [hmax, Nat.sub_add_cancel hk]; exact h2
  have g3' : Hyper (i0.rounds A (fun k => clock' (k + 1)) (clock' 0) h.throttle)
      (getStrategies h.order i.strip h.exhaustive) ⟨first, none, none, i0.height.getD 0, i0.heights, 0⟩ z := by
    refine g3.readings_congr rfl rfl (fun st n => rfl) ?_ ?_
    · intro n hn
      show A.sub (clock' (n + 1)) (clock' 0) > _ ↔ A.sub (h.clock (n + 1)) (h.clock 0) > _
      rw [same (n + 1) (by omega), same 0 (by omega)]
    · intro st n m hn
      show A.sub (clock' (n + m + 1)) (clock' 0) ≥ _ ↔ A.sub (h.clock (n + m + 1)) (h.clock 0) ≥ _
      rw [same (n + m + 1) (by omega), same 0 (by omega)]
  obtain ⟨a1, a2, a3, a4, a5, _⟩ := g4 z g3
  obtain ⟨b1, b2, b3, b4, b5, _⟩ := g4' z g3'
  exact ⟨j, j', g1, g1', by rw [a2, b2], by rw [a3, b3], by rw [a4, b4], by rw [a5, b5], z.best.1, a1, b1⟩

/-- C111 for `local_search()`: if a reading (the start being number 0) is at or past the time limit, what happens later has no
influence. -/
theorem C111_local_search (A : Arith) (i : Inst) (hr : Reach A i) (clock : Nat → Rat) (throttle : Bool) (k : Nat)
    (hk : 1 ≤ k) (h1 : A.sub (clock k) (clock 0) ≥ (i.maxTime : Rat))
    (clock' : Nat → Rat) (same : ∀ n, n ≤ k → clock' n = clock n) :
    ∃ j j', step A i (.localSearch clock throttle) = (j, .ok) ∧ step A i (.localSearch clock' throttle) = (j', .ok) ∧
      j'.objVals = j.objVals ∧ (i.strip = true → j'.height = j.height ∧ j'.heights = j.heights) ∧
      ∃ best, SamePacking j.solution best ∧ SamePacking j'.solution best := by
  obtain ⟨j, first, g1, g2, ⟨m, z, g3⟩, g4⟩ := C106_local_search A i hr clock throttle
  obtain ⟨j', first', g1', g2', _, g4'⟩ := C106_local_search A i hr clock' throttle
  rw [g2] at g2'
  injection g2' with g2'
  subst g2'
  have hle : m ≤ k - 1 + 1 := by
    refine g3.in_time (k - 1) (Nat.zero_le _) ?_
    show A.sub (clock (k - 1 + 1)) (clock 0) ≥ (i.maxTime : Rat)
    rw [Nat.sub_add_cancel hk]; exact h1
  have g3' : Hill (i.hill A (fun k => clock' (k + 1)) (clock' 0) throttle)
      0 ⟨i.items.map (·.1), first, i.height.getD 0, [i.height.getD 0]⟩ m z := by
    refine g3.readings_congr (Late A (fun k => clock' (k + 1)) (clock' 0) i) ?_
    intro n hn
    show A.sub (clock' (n + 1)) (clock' 0) ≥ _ ↔ A.sub (clock (n + 1)) (clock 0) ≥ _
    rw [same (n + 1) (by omega), same 0 (by omega)]
  obtain ⟨a1, a2, a3⟩ := g4 m z g3
  obtain ⟨b1, b2, b3⟩ := g4' m z g3'
  refine ⟨j, j', g1, g1', by rw [a2, b2], ?_, z.result.1, a1, b1⟩
  intro hstrip
  rw [(a3 hstrip).1, (a3 hstrip).2, (b3 hstrip).1, (b3 hstrip).2]
  exact ⟨rfl, rfl⟩

theorem not_raised {M : MPParams} {w : Inst} {chunks : List (List (List PClass))} {schedule : List (Nat × MPEvent)}
    (h1 : ∀ p, (p, MPEvent.raise) ∉ schedule) (h2 : ∀ p, M.force p = false) (p : Nat) :
    ¬ Raised M w chunks schedule p := by
  rintro ⟨before, ev, after, ph, h, _, ⟨h3, _⟩ | ⟨_, _, h3⟩⟩
  · subst h3
    exact h1 p (by rw [h]; simp)
  · rw [h2 p] at h3; cases h3

/-- C111 for `hypersearch()` with several workers, none of which is killed or raises: if for every worker the readings
number `k` and `k + 1` of its clock show that the time limit `t` of the stored settings has passed since the start of
the search, what the workers' clocks show later has no influence on what is left behind. -/
theorem C111_workers (A : Arith) (hA : NonNeg A) (i : Inst) (hr : Reach A i) (h : HSArgs)
    (hw : ¬ OneWorker i.workers) (hs : (step A i (.sortItems h.sortingBy)).2 = .ok)
    (hkill : ∀ p, ¬ Killed h.schedule p) (hraise : ∀ p, (p, MPEvent.raise) ∉ h.schedule)
    (hforce : ∀ p, h.force p = false)
    (st : List (PyVal × PyVal)) (b : Bool) (t : Int) (hst : i.settings = .dict st) (hb : RotationSetting st b)
    (ht : TimeSetting st t) (workerClock' : Nat → Nat → Rat)
    (late : ∀ q, ∃ k, A.sub (h.workerClock q k) (h.clock 0) > (t : Rat) ∧
      A.sub (h.workerClock q (k + 1)) (h.clock 0) > (t : Rat) ∧
      ∀ n, n ≤ k + 1 → workerClock' q n = h.workerClock q n)
    (j j' : Inst) (hj : step A i (.hypersearch h) = (j, .ok))
    (hj' : step A i (.hypersearch { h with workerClock := workerClock' }) = (j', .ok)) :
    j'.objVals = j.objVals ∧ j'.bestStrategy = j.bestStrategy ∧
      (∃ best, SamePacking j.solution best ∧ SamePacking j'.solution best) ∧
      j' = { j with solution := j'.solution } := by
  obtain ⟨chunks, w, first, a1, a2, a3, a4, ⟨z, a5⟩, a6⟩ := team_worker A hA i hr h hw hs _ rfl hkill j hj
  obtain ⟨chunks', w', first', b1, b2, b3, b4, _, b6⟩ :=
    team_worker A hA i hr { h with workerClock := workerClock' } hw hs _ rfl hkill j' hj'
  have e1 : chunks' = chunks := by
    have := a2.symm.trans b2
    injection this with this
    exact this.symm
  have e2 : w' = w := by
    have := a1.symm.trans b1
    injection this with this
    exact this.symm
  subst e1 e2
  have e3 : first' = first := by
    have := a4.symm.trans b4
    injection this with this
    exact this.symm
  subst e3
  have hmax : w'.maxTime = t := (a3.2.2.2.2.2.2 st b t hst hb ht).2
  have hz : ∀ (q : Nat) chunk, chunks'[q]? = some chunk →
      Hyper (w'.rounds A (workerClock' q) (h.clock 0) h.throttle) chunk
        ⟨first', none, none, w'.height.getD 0, w'.heights, 0⟩ (z q) := by
    intro q chunk hq
    obtain ⟨k, k1, k2, k3⟩ := late q
    have g := a5 q chunk hq
    have hle : (z q).readings ≤ k + 2 := by
      refine g.in_time (fun st n k => rounds_over A _ _ _ w' st n k) k (Nat.zero_le _) ?_ ?_
      · show A.sub (h.workerClock q k) (h.clock 0) > (w'.maxTime : Rat)
        rw [hmax]; exact k1
      · show A.sub (h.workerClock q (k + 1)) (h.clock 0) > (w'.maxTime : Rat)
        rw [hmax]; exact k2
    refine g.readings_congr rfl rfl (fun st n => rfl) ?_ ?_
    · intro n hn
      show A.sub (workerClock' q n) (h.clock 0) > _ ↔ A.sub (h.workerClock q n) (h.clock 0) > _
      rw [k3 n (by omega)]
    · intro st n m hn
      show A.sub (workerClock' q (n + m)) (h.clock 0) ≥ _ ↔ A.sub (h.workerClock q (n + m)) (h.clock 0) ≥ _
      rw [k3 (n + m) (by omega)]
  obtain ⟨p, c1, c2, c3⟩ := a6 z a5
  obtain ⟨p', d1, d2, d3⟩ := b6 z hz
  have hp : p' = p := by
    refine FirstBest.unique (n := chunks'.length) (failed := fun _ => False)
      (value := fun q => overall A ((z q).best.2.map (·.2))) ?_ ?_
    · exact ⟨d1.1, id, fun q hq _ => d1.2.2 q hq (not_raised hraise hforce q)⟩
    · exact ⟨c1.1, id, fun q hq _ => c1.2.2 q hq (not_raised hraise hforce q)⟩
  subst hp
  have f1 : j'.objVals = j.objVals := by rw [c3, d3]
  have f2 : j'.bestStrategy = j.bestStrategy := by rw [c3, d3]
  refine ⟨f1, f2, ⟨_, c2, d2⟩, ?_⟩
  rw [d3, c3]

/-! ### not vacuous -/

/-- how many readings a search has taken and how many strategies it has tried -/
def effort (r : Except PyErr HSState) : Option (Nat × Nat) :=
  match r with
  | .ok s => some (s.tick, s.tried.length)
  | .error _ => none

/-- C111_readings is not vacuous, and the bound `k + 2` is reached (`k = 0` and, after three readings in time, `k = 3`).
A reading equal to the limit does not count, and neither does a late one that is followed by an earlier time. -/
theorem C111_sharp : lsStrip.maxTime = 60 ∧
    effort (lsStrip.singleHS Arith.exact (fun _ => 61) 0 true (strategyPool.take 2)) = some (2, 1) ∧
    effort (lsStrip.singleHS Arith.exact (fun k => if k < 3 then 0 else 61) 0 true (strategyPool.take 2)) = some (5, 1) ∧
    effort (lsStrip.singleHS Arith.exact (fun _ => 60) 0 true (strategyPool.take 2)) = some (4, 2) ∧
    effort (lsStrip.singleHS Arith.exact (fun k => if k = 0 then 61 else 0) 0 true (strategyPool.take 2)) = some (13, 2) ∧
    effort (lsStrip.singleHS Arith.exact (fun _ => 0) 0 true (strategyPool.take 2)) = some (18, 2) := by
  decide +kernel

/-- a problem with two workers and a limit of three seconds -/
def limitArgs : PyVal × PyVal × PyVal :=
  (turnedArgs.1, turnedArgs.2.1, .dict [(.str "workers_num", .int 2), (.str "max_time_in_seconds", .int 3)])

/-- the hypotheses of C111_hypersearch and C111_local_search: the time is up at readings 2 and 3 -/
example : ∃ p, mkInst plainEnv turnedArgs.1 turnedArgs.2.1 .none .none = .ok p ∧ Reach Arith.exact p ∧
    OneWorker p.workers ∧
    (step Arith.exact p (.sortItems (plainArgs false (fun k => 40 * k)).sortingBy)).2 = .ok ∧
    Over Arith.exact (fun k => 40 * k) 0 p 2 ∧ Over Arith.exact (fun k => 40 * k) 0 p 3 ∧
    ¬ Over Arith.exact (fun k => 40 * k) 0 p 1 := by
  obtain ⟨p, hp⟩ : ∃ p, mkInst plainEnv turnedArgs.1 turnedArgs.2.1 .none .none = .ok p := ⟨_, rfl⟩
  have hr : Reach Arith.exact p := .new hp
  injection hp with hp
  subst hp
  refine ⟨_, rfl, hr, Or.inl rfl, rfl, ?_, ?_, ?_⟩
  · show ((40 * 2 : Rat) - 0) > ((60 : Int) : Rat)
    norm_num
  · show ((40 * 3 : Rat) - 0) > ((60 : Int) : Rat)
    norm_num
  · show ¬ ((40 * 1 : Rat) - 0) > ((60 : Int) : Rat)
    norm_num

/-- the hypotheses of C111_workers, for two clocks that differ from reading 4 on -/
example : ∃ p st, mkInst plainEnv limitArgs.1 limitArgs.2.1 limitArgs.2.2 .none = .ok p ∧ Reach Arith.exact p ∧
    ¬ OneWorker p.workers ∧ (step Arith.exact p (.sortItems turnedSearch.sortingBy)).2 = .ok ∧
    (∀ q, ¬ Killed turnedSearch.schedule q) ∧ (∀ q, (q, MPEvent.raise) ∉ turnedSearch.schedule) ∧
    p.settings = .dict st ∧ RotationSetting st true ∧ TimeSetting st 3 ∧
    (∀ q, ∃ k, Arith.exact.sub ((fun _ k => 2 * k : Nat → Nat → Rat) q k) 0 > ((3 : Int) : Rat) ∧
      Arith.exact.sub ((fun _ k => 2 * k : Nat → Nat → Rat) q (k + 1)) 0 > ((3 : Int) : Rat) ∧
      ∀ n, n ≤ k + 1 → (fun _ k => if k < 4 then 2 * k else 0 : Nat → Nat → Rat) q n = 2 * n) ∧
    (step Arith.exact p (.hypersearch { turnedSearch with workerClock := fun _ k => 2 * k })).2 = .ok ∧
    (step Arith.exact p (.hypersearch { turnedSearch with workerClock := fun _ k => if k < 4 then 2 * k else 0 })).2 =
      .ok := by
  obtain ⟨p, hp⟩ : ∃ p, mkInst plainEnv limitArgs.1 limitArgs.2.1 limitArgs.2.2 .none = .ok p := ⟨_, rfl⟩
  have hr : Reach Arith.exact p := .new hp
  injection hp with hp
  subst hp
  refine ⟨_, _, rfl, hr, ?_, rfl, fun q => mp_noKill (sch := mpTurns) (by decide) q, ?_, rfl, Or.inl ⟨Or.inl rfl, rfl⟩,
    Or.inr (Or.inl ⟨rfl, by decide⟩), ?_, by decide +kernel, by decide +kernel⟩
  · rintro (h | h | h) <;> cases h
  · intro q hq
    have : ∀ e ∈ mpTurns, e.2 = .step := by decide
    cases this _ hq
  · intro q
    refine ⟨2, ?_, ?_, ?_⟩
    · show ((2 * 2 : Rat) - 0) > ((3 : Int) : Rat)
      norm_num
    · show ((2 * (2 + 1 : Nat) : Rat) - 0) > ((3 : Int) : Rat)
      norm_num
    · intro n hn
      show (if n < 4 then (2 * n : Rat) else 0) = 2 * n
      rw [if_pos (by omega)]

end HP
