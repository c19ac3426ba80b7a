import Verif.Props.Api
import Verif.Props.Workers
import Verif.Props.CompareDemo
/-
C92: is `hypersearch` at least as good as `local_search`?
-/
namespace HP
open Spec

/-- a local search within its time limit has one of the values `LocalValue` -/
theorem step_localValue {A : Arith} {i : Inst} (hr : Reach A i) (st : List PClass) (clock : Nat → Rat) (throttle : Bool) :
    ∃ u, (step A { i with strategy := st } (.localSearch clock throttle)).1.calcObj A = .ok u ∧
      (i.strip = false → LocalValue A (fun k => clock (k + 1)) (clock 0) throttle i st u) := by
  have hv : Inst.Valid { i with strategy := st } := ⟨hr.good.valid.conts, hr.good.valid.items, hr.good.valid.contsNe,
    hr.good.valid.itemsNe, hr.good.valid.strip, hr.good.valid.height, hr.good.valid.minPos⟩
  obtain ⟨j, t, hj⟩ := C18_terminates A (fun k => clock (k + 1)) (clock 0) throttle { i with strategy := st } hv
  obtain ⟨sol, ov, _, _, hs, _⟩ := init_spec (A := A) hv
  have hval := (C16_not_worse A _ _ throttle _ j t hv hr.num hj sol ov hs).2
  refine ⟨_, by rw [show step A { i with strategy := st } (.localSearch clock throttle) = (j, .ok) from by
    simp only [step, hj]]; exact hval, ?_⟩
  intro hb
  refine ⟨0, i.height, j, t, fun _ => rfl, ?_, ?_, hval⟩
  · intro h; rw [hb] at h; cases h
  · simp only [Nat.zero_add]
    exact hj

/-- C92, what holds, one worker: in bin packing, if no reading of the clock reaches the time limit, exhaustive
`hypersearch` is at least as good as `local_search` on the sorted and oriented items under any of the 720
strategies it tries: permutations of the ten classes that end in A__, B__, F, E.  Missing: other strategies
(`C92_refuted`), in particular the default one. -/
theorem C92_partial (A : Arith) (i : Inst) (hr : Reach A i) (hb : i.strip = false) (h : HSArgs)
    (hw : OneWorker i.workers) (hex : h.exhaustive = true) (hs : (step A i (.sortItems h.sortingBy)).2 = .ok)
    (i0 : Inst) (h0 : i0 = (step A (step A i (.sortItems h.sortingBy)).1 (.orientItems h.orientation)).1)
    (htime : ∀ n, A.sub (h.clock (n + 1)) (h.clock 0) < (i.maxTime : Rat))
    (pre : List PClass) (hpre : pre.Perm [.A, .B, .C, .D, .A_, .B_])
    (clock : Nat → Rat) (hclock : ∀ n, A.sub (clock (n + 1)) (clock 0) < (i.maxTime : Rat)) :
    ∃ u v, (step A { i0 with strategy := pre ++ [.A__, .B__, .F, .E] } (.localSearch clock h.throttle)).1.calcObj A = .ok u ∧
      (step A i (.hypersearch h)).1.calcObj A = .ok v ∧ u ≤ v := by
  have hr1 : Reach A (step A i (.sortItems h.sortingBy)).1 := .step _ hr
  have hr2 : Reach A i0 := by rw [h0]; exact .step _ hr1
  have e1 : ∀ {a b : Inst}, b = a ∨ Edited a b → b.strip = a.strip ∧ b.maxTime = a.maxTime := by
    intro a b hab
    rcases hab with rfl | ⟨cs, its, n, rfl, _⟩ <;> exact ⟨rfl, rfl⟩
  obtain ⟨a2, a3⟩ := e1 (sortItems_edited hr.good.valid A h.sortingBy)
  obtain ⟨b2, b3⟩ := e1 (orientItems_edited hr1.good.valid h.orientation)
  have hstrip : i0.strip = false := by rw [h0, ← hb]; exact b2.trans a2
  have hmax : i0.maxTime = i.maxTime := by rw [h0]; exact b3.trans a3
  obtain ⟨j, v, sol0, ov0, tried, c1, c2, c3, c4, c5, c6, c7, c8, c9⟩ := C70_single A i hr h hw hs i0 h0
  obtain ⟨q, hq, hqe⟩ := c9 (fun n => not_lt.2 (htime n).le) hex pre hpre
  obtain ⟨hq1, hq2⟩ := c6 q hq
  obtain ⟨u, u1, u2⟩ := step_localValue hr2 (pre ++ [.A__, .B__, .F, .E]) clock h.throttle
  have u2 := u2 hstrip
  rw [hqe] at hq1
  have : q.2 = u := localValue_unique (a := i0) (b := i0) ⟨rfl, rfl, rfl, rfl, rfl, rfl, fun _ => rfl, fun _ => rfl⟩
    hstrip (fun n => by rw [hmax]; exact htime n) (fun n => by rw [hmax]; exact hclock n) hq1 u2
  exact ⟨u, v, u1, by rw [c1]; exact c2, by rw [← this]; exact hq2⟩

/-- C92, what holds, several workers: if no worker is killed or raises, and `hypersearch` returns, the same holds
(the settings being in force). -/
theorem C92_workers_partial (A : Arith) (hA : NonNeg A) (i : Inst) (hr : Reach A i) (hb : i.strip = false) (h : HSArgs)
    (hw : ¬ OneWorker i.workers) (hex : h.exhaustive = true) (hs : (step A i (.sortItems h.sortingBy)).2 = .ok)
    (i0 : Inst) (h0 : i0 = (step A (step A i (.sortItems h.sortingBy)).1 (.orientItems h.orientation)).1)
    (hset : i0.validateHyper = (i0, .ok ())) (w : Inst) (hwi : workerInst h.env i0 = .ok w)
    (chunks : List (List (List PClass))) (hc : strategyChunks (getStrategies h.order false true) i.workers = .ok chunks)
    (hkill : ∀ p, ¬ Killed h.schedule p) (hraise : ∀ p, ¬ Raised (h.mp A) w chunks h.schedule p)
    (htime : ∀ p n, A.sub (h.workerClock p n) (h.clock 0) < (i.maxTime : Rat))
    (hj : (step A i (.hypersearch h)).2 = .ok)
    (pre : List PClass) (hpre : pre.Perm [.A, .B, .C, .D, .A_, .B_])
    (clock : Nat → Rat) (hclock : ∀ n, A.sub (clock (n + 1)) (clock 0) < (i.maxTime : Rat)) :
    ∃ u v, (step A { i0 with strategy := pre ++ [.A__, .B__, .F, .E] } (.localSearch clock h.throttle)).1.calcObj A = .ok u ∧
      (step A i (.hypersearch h)).1.calcObj A = .ok v ∧ u ≤ v := by
  have hr1 : Reach A (step A i (.sortItems h.sortingBy)).1 := .step _ hr
  have hr2 : Reach A i0 := by rw [h0]; exact .step _ hr1
  have e1 : ∀ {a b : Inst}, b = a ∨ Edited a b → b.strip = a.strip ∧ b.maxTime = a.maxTime ∧ b.workers = a.workers := by
    intro a b hab
    rcases hab with rfl | ⟨cs, its, n, rfl, _⟩ <;> exact ⟨rfl, rfl, rfl⟩
  obtain ⟨a2, a3, a4⟩ := e1 (sortItems_edited hr.good.valid A h.sortingBy)
  obtain ⟨b2, b3, b4⟩ := e1 (orientItems_edited hr1.good.valid h.orientation)
  have hstrip : i0.strip = false := by rw [h0, ← hb]; exact b2.trans a2
  have hmax : i0.maxTime = i.maxTime := by rw [h0]; exact b3.trans a3
  have hwork : i0.workers = i.workers := by rw [h0]; exact b4.trans a4
  have hv := hr2.good.valid
  obtain ⟨_, h2⟩ := step_hypersearch h hr hs
  rw [← h0] at h2
  rw [h2] at hj ⊢
  unfold Inst.search at hj ⊢
  rw [if_neg (by rw [hwork, oneWorker_iff]; exact hw), hstrip, hex] at hj ⊢
  rw [← hwork] at hc
  obtain ⟨w1, w2, w3, w4, w5, w6, _⟩ := workerInst_spec hv hwi
  obtain ⟨f1, f2⟩ := workerInst_inForce hset hwi
  cases hm : i0.multiHS h.env (h.mp A) (getStrategies h.order false true) h.schedule with
  | raised e => rw [hm] at hj; cases hj
  | blocked => rw [hm] at hj; cases hj
  | returned sol ov st =>
    rw [hm] at hj
    simp only at hj ⊢
    obtain ⟨p, chunk, s, c1, c2, c3, c4, c5, _, c7⟩ :=
      C32_best h.env (h.mp A) _ h.schedule i0 w chunks hA hv hc hwi sol ov st hm
    have hmem := (C28_strategies h.order false h.orderPerm).2.2.2 pre hpre
    rw [← (C31_partition _ _ _ hc).1] at hmem
    obtain ⟨chunk', hch, hst⟩ := List.mem_flatten.1 hmem
    obtain ⟨q, hq⟩ := List.mem_iff_getElem?.1 hch
    have hn : w.containersNum = w.containers.length := by rw [workerInst_num hwi, w3]
    obtain ⟨s', hs'⟩ := C27_total A (h.workerClock q) (h.clock 0) h.throttle w chunk' w1
    obtain ⟨sol0, ov0, _, _, g1, _⟩ := init_spec (A := A) w1
    have b := singleHS_best w1 hn (fun n => by rw [f2, hmax]; exact htime q n) hs' g1
    obtain ⟨u', hu', hle⟩ := b.each _ hst
    have hle2 := c7 q chunk' s' hq (hraise q) (hkill q) hs'
    obtain ⟨u, u1, u2⟩ := step_localValue hr2 (pre ++ [.A__, .B__, .F, .E]) clock h.throttle
    have hsame : SameProblem { i0 with strategy := w.strategy } w := by
      refine ⟨w4.symm, w3.symm, ?_, w2.symm, f1.symm, rfl, ?_, ?_⟩
      · show i0.containersNum = _; rw [hr2.num, workerInst_num hwi, w3]
      · intro h; rw [show Inst.strip { i0 with strategy := w.strategy } = i0.strip from rfl, hstrip] at h; cases h
      · intro h; rw [show Inst.strip { i0 with strategy := w.strategy } = i0.strip from rfl, hstrip] at h; cases h
    have he : u = u' := localValue_unique hsame hstrip (fun n => by rw [hmax]; exact hclock n)
      (fun n => by rw [f2, hmax]; exact htime q n) (u2 hstrip) hu'
    refine ⟨u, overall A (ov.map (·.2)), by rw [hstrip] at u1; exact u1, ?_, ?_⟩
    · obtain ⟨v, _, _, _, d1, d2, _⟩ := C27_best A _ _ _ w chunk w1 hn s c3
      have hfr := (C27_frame A _ _ _ w chunk w1 s c3).1
      have hnum : s.finish.containersNum = i0.containersNum := by
        rw [hfr]; show w.containersNum = _; rw [hn, w3, hr2.num]
      rw [d2, ← c5] at d1
      rw [← d1]
      unfold Inst.calcObj
      rw [hnum, ← c5]
    · rw [he]
      exact le_trans hle hle2

/-! ### the claim is false for other strategies -/

theorem narrow_values : ∀ st ∈ getStrategies id false true, narrowValue st = some (3 / 4) := by
  intro st hst
  obtain ⟨n, hn, he⟩ := List.mem_iff_getElem.1 hst
  have hlen : (getStrategies id false true).length = 720 := (C28_strategies id false (fun l _ => .refl l)).2.1
  have hall : ∀ k, k < 18 → narrowChunk k = true := by
    intro k hk
    match k, hk with
    | 0, _ => exact narrow_0
    | 1, _ => exact narrow_1
    | 2, _ => exact narrow_2
    | 3, _ => exact narrow_3
    | 4, _ => exact narrow_4
    | 5, _ => exact narrow_5
    | 6, _ => exact narrow_6
    | 7, _ => exact narrow_7
    | 8, _ => exact narrow_8
    | 9, _ => exact narrow_9
    | 10, _ => exact narrow_10
    | 11, _ => exact narrow_11
    | 12, _ => exact narrow_12
    | 13, _ => exact narrow_13
    | 14, _ => exact narrow_14
    | 15, _ => exact narrow_15
    | 16, _ => exact narrow_16
    | 17, _ => exact narrow_17
    | n + 18, h => exact absurd h (by omega)
  have hk := hall (n / 40) (by omega)
  unfold narrowChunk at hk
  rw [List.all_eq_true] at hk
  have hm : st ∈ ((getStrategies id false true).drop (40 * (n / 40))).take 40 := by
    rw [List.mem_iff_getElem]
    have hr := Nat.mod_lt n (show 0 < 40 by omega)
    have hd := Nat.div_add_mod n 40
    refine ⟨n % 40, ?_, ?_⟩
    · simp only [List.length_take, List.length_drop]; omega
    · rw [List.getElem_take, List.getElem_drop]
      simp only [hd]
      exact he
  simpa using hk st hm

/-- C92 is false of the code for strategies that the search does not try: here `local_search()` fills the
container, and `hypersearch(None, None)`, although exhaustive and within its time limit, fills three
quarters of it, for every order in which Python may iterate over the set of point classes. -/
theorem C92_refuted (h : HSArgs) (ho : h.orientation = .none) (hs : h.sortingBy = none) (hex : h.exhaustive = true)
    (hthr : h.throttle = true) (htime : ∀ n, h.clock (n + 1) - h.clock 0 < 60)
    (clock : Nat → Rat) (hclock : ∀ n, clock (n + 1) - clock 0 < 60) :
    Reach Arith.exact narrowProblem ∧
    (step Arith.exact narrowProblem (.localSearch clock true)).1.calcObj Arith.exact = .ok 1 ∧
    (step Arith.exact narrowProblem (.hypersearch h)).1.calcObj Arith.exact = .ok (3 / 4) := by
  have hr := narrowProblem_reach Arith.exact
  have key : ∀ st v (c : Nat → Rat) (s : Rat), (∀ n, c n - s < 60) → narrowValue st = some v → ∀ u,
      LocalValue Arith.exact c s true narrowProblem st u → u = v := by
    intro st v c s hc hv u hu
    have hl : LocalValue Arith.exact (fun _ => 0) 0 true narrowProblem st v := by
      unfold narrowValue at hv
      cases hj : Inst.localSearch Arith.exact (fun _ => 0) 0 true { narrowProblem with strategy := st } with
      | error e => rw [hj] at hv; cases hv
      | ok r =>
        rw [hj] at hv
        refine ⟨0, none, r.1, r.2, fun _ => rfl, ?_, ?_, ?_⟩
        · intro h; cases h
        · exact hj
        · simp only at hv
          cases hq : r.1.calcObj Arith.exact with
          | error e => rw [hq] at hv; cases hv
          | ok q => rw [hq] at hv; simp only [Except.toOption, Option.some.injEq] at hv; rw [hv]
    exact localValue_unique (a := narrowProblem) (b := narrowProblem)
      ⟨rfl, rfl, rfl, rfl, rfl, rfl, fun _ => rfl, fun _ => rfl⟩ rfl (fun n => hc n)
      (fun n => by show (0 : Rat) - 0 < ((60 : Int) : Rat); norm_num) hu hl
  refine ⟨hr, ?_, ?_⟩
  · obtain ⟨u, h1, h2⟩ := step_localValue hr [.B] clock true
    have e : u = 1 := key [.B] 1 _ _ hclock (by decide +kernel) u (h2 rfl)
    rw [e] at h1
    exact h1
  · have hsort : step Arith.exact narrowProblem (.sortItems h.sortingBy) = (narrowProblem, .ok) := by rw [hs]; rfl
    obtain ⟨j, v, sol0, ov0, tried, c1, c2, c3, c4, c5, c6, c7, c8, c9⟩ :=
      C70_single Arith.exact narrowProblem hr h (Or.inl rfl) (by rw [hsort]) narrowProblem (by rw [hsort, ho]; rfl)
    rw [c1]
    show j.calcObj Arith.exact = _
    rw [c2]
    have hall : ∀ q ∈ tried, q.2 = 3 / 4 := by
      intro q hq
      have hm : q.1 ∈ getStrategies h.order narrowProblem.strip h.exhaustive :=
        c8.subset (List.mem_map.2 ⟨q, hq, rfl⟩)
      rw [hex] at hm
      obtain ⟨g1, pre, g2⟩ := (C28_strategies h.order _ h.orderPerm).2.2.1 _ hm
      have hpre : pre.Perm [.A, .B, .C, .D, .A_, .B_] := by
        rw [g2] at g1
        have e : ([.A, .B, .C, .D, .A_, .B_, .B__, .A__, .E, .F] : List PClass).Perm
            ([.A, .B, .C, .D, .A_, .B_] ++ [.A__, .B__, .F, .E]) := by decide
        exact (List.perm_append_right_iff _).1 (g1.trans e)
      have hm' := (C28_strategies id false (fun l _ => .refl l)).2.2.2 pre hpre
      rw [← g2] at hm'
      have := (c6 q hq).1
      rw [hthr] at this
      exact key _ _ _ _ htime (narrow_values _ hm') _ this
    have hv0 : solve Arith.exact narrowProblem.solveIn none = .ok ([("c", [("a", ⟨0, 0, 3, 1⟩)])], [("c", 1 / 4)]) := by
      decide +kernel
    rw [hv0] at c4
    injection c4 with c4
    injection c4 with c41 c42
    obtain ⟨q, hq, _⟩ := c9 (fun n => not_lt.2 (htime n).le) hex _ (.refl _)
    rcases c7 with h7 | ⟨q', hq', h7⟩
    · have h1 := (c6 q hq).2
      rw [hall q hq, h7, ← c42] at h1
      exact absurd h1 (by decide +kernel)
    · rw [h7, hall q' hq']

/-- such a call exists -/
example : ∃ h : HSArgs, h.orientation = .none ∧ h.sortingBy = none ∧ h.exhaustive = true ∧ h.throttle = true ∧
    ∀ n, h.clock (n + 1) - h.clock 0 < 60 :=
  ⟨{ plainArgs true (fun _ => 0) with orientation := .none, sortingBy := none }, rfl, rfl, rfl, rfl,
    fun _ => by show (0 : Rat) - 0 < 60; norm_num⟩

end HP
