import Verif.Props.Workers
import Verif.Props.Items
import Verif.Props.Structures
/-
C70: `hypersearch()` as a call on a problem object.
-/
namespace HP
open Spec

theorem orientItems_ok {A : Arith} {i : Inst} (h : Reach A i) (o : PyVal) : (i.orientItems o).2 = .ok () := by
  unfold Inst.orientItems
  split
  · rfl
  · split
    · rfl
    · split
      · rw [orientItems_eq h]
      · split
        · rw [orientItems_eq h]
        · rfl

theorem step_hypersearch {A : Arith} {i : Inst} (h : HSArgs) (hr : Reach A i)
    (hs : (step A i (.sortItems h.sortingBy)).2 = .ok) :
    (step A (step A i (.sortItems h.sortingBy)).1 (.orientItems h.orientation)).2 = .ok ∧
    step A i (.hypersearch h) =
      (step A (step A i (.sortItems h.sortingBy)).1 (.orientItems h.orientation)).1.search A h := by
  have hr1 : Reach A (step A i (.sortItems h.sortingBy)).1 := .step _ hr
  have ho := orientItems_ok hr1 h.orientation
  have hs' : (i.sortItems A h.sortingBy).2 = .ok () := by
    have : Outcome.of (i.sortItems A h.sortingBy).2 = .ok := hs
    cases hx : (i.sortItems A h.sortingBy).2 with
    | ok u => rfl
    | error e => rw [hx] at this; cases this
  constructor
  · show Outcome.of ((step A i (.sortItems h.sortingBy)).1.orientItems h.orientation).2 = .ok
    rw [ho]; rfl
  · show i.hypersearch A h = _
    unfold Inst.hypersearch
    have e1 : i.sortItems A h.sortingBy = ((step A i (.sortItems h.sortingBy)).1, .ok ()) := Prod.ext rfl hs'
    rw [e1]
    have e2 : (step A i (.sortItems h.sortingBy)).1.orientItems h.orientation =
      ((step A (step A i (.sortItems h.sortingBy)).1 (.orientItems h.orientation)).1, .ok ()) := Prod.ext rfl ho
    simp only []
    rw [e2]

theorem sortItems_cases {A : Arith} {i : Inst} (h : Reach A i) (s : Option (PyVal × Bool)) :
    (∃ e, i.sortItems A s = (i, .error e)) ∨ i.sortItems A s = (i, .ok ()) ∨
    ∃ its, i.sortItems A s = ({ i with items := its, solution := [], objVals := [] }, .ok ()) := by
  cases s with
  | none => exact Or.inr (Or.inl rfl)
  | some p =>
    obtain ⟨v, r⟩ := p
    cases hk : sortKey? A v with
    | none =>
      left
      exact ⟨.notImplementedError, by unfold Inst.sortItems; simp only []; rw [hk]⟩
    | some key =>
      obtain ⟨name, rfl, h2⟩ := (sortKey_iff A v key).1 hk
      obtain ⟨its, h3, _⟩ := C50_sorted A i h name key h2 r
      right; right
      refine ⟨its, ?_⟩
      have h4 : outcomeOf (i.sortItems A (some (.str name, r))) =
        ({ i with items := its, solution := [], objVals := [] }, .ok) := h3
      rcases hx : i.sortItems A (some (.str name, r)) with ⟨j, e⟩
      rw [hx] at h4
      simp only [outcomeOf, Prod.mk.injEq] at h4
      obtain ⟨h5, h6⟩ := h4
      cases e with
      | ok u => rw [h5]
      | error e => cases h6

theorem sortItems_containers {A : Arith} {i : Inst} (h : Reach A i) (s : Option (PyVal × Bool)) :
    (i.sortItems A s).1.containers = i.containers := by
  rcases sortItems_cases h s with ⟨e, he⟩ | he | ⟨its, he⟩ <;> rw [he]

theorem sortItems_error {A : Arith} {i : Inst} (h : Reach A i) {s : Option (PyVal × Bool)} {e : PyErr}
    (hx : (i.sortItems A s).2 = .error e) : (i.sortItems A s).1 = i := by
  rcases sortItems_cases h s with ⟨e', he⟩ | he | ⟨its, he⟩
  · rw [he]
  · rw [he]
  · rw [he] at hx; cases hx

theorem orientItems_containers {A : Arith} {i : Inst} (h : Reach A i) (o : PyVal) :
    (i.orientItems o).1.containers = i.containers := by
  unfold Inst.orientItems
  split
  · rfl
  · split
    · rfl
    · split
      · rw [orientItems_eq h]; dsimp only; split <;> rfl
      · split
        · rw [orientItems_eq h]; dsimp only; split <;> rfl
        · rfl

theorem search_frame {A : Arith} {i : Inst} (h : HSArgs) (hv : i.Valid) :
    (i.search A h).1.items = i.items ∧ (i.search A h).1.containers = i.containers ∧
    (i.search A h).1.settings = i.settings ∧ (i.search A h).1.rotation = i.rotation ∧
    (i.search A h).1.minHeight = i.minHeight ∧
    (i.strip = false → (i.search A h).1.height = i.height) := by
  unfold Inst.search
  simp only []
  split
  · split
    · rename_i s hs
      obtain ⟨f1, f2, _⟩ := C27_frame A _ _ _ i _ hv s hs
      refine ⟨?_, ?_, ?_, ?_, ?_, fun hb => (f2 hb).1⟩ <;> rw [f1]
    · exact ⟨rfl, rfl, rfl, rfl, rfl, fun _ => rfl⟩
  · split <;> exact ⟨rfl, rfl, rfl, rfl, rfl, fun _ => rfl⟩

/-- C70: `hypersearch(orientation, sorting_by)` begins with `sort_items(sorting_by)` and
`orient_items(orientation)`.  If the former raises, it raises the same and nothing has changed; otherwise
the items are afterwards those that the two calls give, and containers, settings, minimum height (and in
bin packing the height) are as before, whether the search returns, raises or never comes back. -/
theorem C70_prepare (A : Arith) (i : Inst) (hr : Reach A i) (h : HSArgs) :
    ((step A i (.sortItems h.sortingBy)).2 ≠ .ok →
      step A i (.hypersearch h) = step A i (.sortItems h.sortingBy) ∧
      (step A i (.hypersearch h)).1 = i) ∧
    ((step A i (.sortItems h.sortingBy)).2 = .ok →
      (step A (step A i (.sortItems h.sortingBy)).1 (.orientItems h.orientation)).2 = .ok ∧
      (step A i (.hypersearch h)).1.items =
        (step A (step A i (.sortItems h.sortingBy)).1 (.orientItems h.orientation)).1.items) ∧
    (step A i (.hypersearch h)).1.containers = i.containers ∧
    (step A i (.hypersearch h)).1.settings = i.settings ∧
    (step A i (.hypersearch h)).1.rotation = i.rotation ∧
    (step A i (.hypersearch h)).1.minHeight = i.minHeight ∧
    (i.strip = false → (step A i (.hypersearch h)).1.height = i.height) := by
  have hsort := sortItems_edited hr.good.valid A h.sortingBy
  have hr1 : Reach A (step A i (.sortItems h.sortingBy)).1 := .step _ hr
  have hr2 : Reach A (step A (step A i (.sortItems h.sortingBy)).1 (.orientItems h.orientation)).1 := .step _ hr1
  have horient := orientItems_edited hr1.good.valid h.orientation
  by_cases hs : (step A i (.sortItems h.sortingBy)).2 = .ok
  · obtain ⟨h1, h2⟩ := step_hypersearch h hr hs
    obtain ⟨f1, f2, f3, f4, f5, f6⟩ := search_frame (A := A) h hr2.good.valid
    rw [h2]
    have e1 : ∀ {a b : Inst}, b = a ∨ Edited a b → b.settings = a.settings ∧ b.rotation = a.rotation ∧
        b.minHeight = a.minHeight ∧ b.height = a.height ∧ b.strip = a.strip := by
      intro a b hab
      rcases hab with rfl | ⟨cs, its, n, rfl, _⟩
      · exact ⟨rfl, rfl, rfl, rfl, rfl⟩
      · exact ⟨rfl, rfl, rfl, rfl, rfl⟩
    obtain ⟨a1, a2, a3, a4, a5⟩ := e1 hsort
    obtain ⟨b1, b2, b3, b4, b5⟩ := e1 horient
    have hc1 : (i.sortItems A h.sortingBy).1.containers = i.containers := sortItems_containers hr h.sortingBy
    have hc2 : ((step A i (.sortItems h.sortingBy)).1.orientItems h.orientation).1.containers =
      (step A i (.sortItems h.sortingBy)).1.containers := orientItems_containers hr1 h.orientation
    refine ⟨fun hn => absurd hs hn, fun _ => ⟨h1, f1⟩, ?_, ?_, ?_, ?_, ?_⟩
    · rw [f2]; exact hc2.trans hc1
    · rw [f3]; exact b1.trans a1
    · rw [f4]; exact b2.trans a2
    · rw [f5]; exact b3.trans a3
    · intro hb
      rw [f6 (by exact (b5.trans a5).trans hb)]
      exact b4.trans a4
  · have hstep : ∃ e, (i.sortItems A h.sortingBy).2 = .error e ∧ (i.sortItems A h.sortingBy).1 = i := by
      cases hx : (i.sortItems A h.sortingBy).2 with
      | ok u => exact absurd (show Outcome.of (i.sortItems A h.sortingBy).2 = .ok by rw [hx]; rfl) hs
      | error e => exact ⟨e, rfl, sortItems_error hr hx⟩
    obtain ⟨e, he1, he2⟩ := hstep
    have heq : step A i (.hypersearch h) = (i, .raised e) := by
      show i.hypersearch A h = _
      unfold Inst.hypersearch
      rw [show i.sortItems A h.sortingBy = (i, .error e) from Prod.ext he2 he1]
    have heq' : step A i (.sortItems h.sortingBy) = (i, .raised e) := by
      show outcomeOf (i.sortItems A h.sortingBy) = _
      rw [show i.sortItems A h.sortingBy = (i, .error e) from Prod.ext he2 he1]
      rfl
    rw [heq, heq']
    exact ⟨fun _ => ⟨rfl, rfl⟩, fun hn => absurd hn (by simp), rfl, rfl, rfl, rfl, fun _ => rfl⟩

/-- the setting `workers_num` is 1: as an int, as a float, or as `True` (which equals 1) -/
def OneWorker (v : PyVal) : Prop := v = .int 1 ∨ v = .float 1 ∨ v = .bool true

theorem oneWorker_iff (v : PyVal) : v.isOne = true ↔ OneWorker v := by
  unfold OneWorker
  cases v <;> simp [PyVal.isOne]

/-- C70, one worker: `hypersearch` returns.  Its value is that of the packing left behind, at least that
of `solve()` and of the local search (with the given `throttle`) of every strategy tried, all on the
sorted and oriented items, and it is one of these; strategies are tried from the front of the list, and
with `_exhaustive` all orderings of the six leading point classes are, unless a reading of the clock was
past the time limit. -/
theorem C70_single (A : Arith) (i : Inst) (hr : Reach A i) (h : HSArgs) (hw : OneWorker i.workers)
    (hs : (step A i (.sortItems h.sortingBy)).2 = .ok) (i0 : Inst)
    (h0 : i0 = (step A (step A i (.sortItems h.sortingBy)).1 (.orientItems h.orientation)).1) :
    ∃ (j : Inst) (v : Rat) (sol0 : Solution) (ov0 : ObjVals) (tried : List (List PClass × Rat)),
      step A i (.hypersearch h) = (j, .ok) ∧ j.calcObj A = .ok v ∧ j.items = i0.items ∧
      solve A i0.solveIn none = .ok (sol0, ov0) ∧ overall A (ov0.map (·.2)) ≤ v ∧
      (∀ q ∈ tried, LocalValue A (fun k => h.clock (k + 1)) (h.clock 0) h.throttle i0 q.1 q.2 ∧ q.2 ≤ v) ∧
      (v = overall A (ov0.map (·.2)) ∨ ∃ q ∈ tried, v = q.2) ∧
      tried.map (·.1) <+: getStrategies h.order i.strip h.exhaustive ∧
      ((∀ n, ¬ A.sub (h.clock (n + 1)) (h.clock 0) > (i.maxTime : Rat)) → h.exhaustive = true →
        ∀ pre : List PClass, pre.Perm [.A, .B, .C, .D, .A_, .B_] →
          ∃ q ∈ tried, q.1 = pre ++ [.A__, .B__, .F, .E]) := by
  have hr1 : Reach A (step A i (.sortItems h.sortingBy)).1 := .step _ hr
  have hr2 : Reach A i0 := by rw [h0]; exact .step _ hr1
  obtain ⟨_, h2⟩ := step_hypersearch h hr hs
  rw [← h0] at h2
  have hsort := sortItems_edited hr.good.valid A h.sortingBy
  have horient := orientItems_edited hr1.good.valid h.orientation
  have e1 : ∀ {a b : Inst}, b = a ∨ Edited a b → b.workers = a.workers ∧ b.strip = a.strip ∧
      b.maxTime = a.maxTime := by
    intro a b hab
    rcases hab with rfl | ⟨cs, its, n, rfl, _⟩
    · exact ⟨rfl, rfl, rfl⟩
    · exact ⟨rfl, rfl, rfl⟩
  obtain ⟨a1, a2, a3⟩ := e1 hsort
  obtain ⟨b1, b2, b3⟩ := e1 horient
  have hwork : i0.workers = i.workers := by rw [h0]; exact b1.trans a1
  have hstrip : i0.strip = i.strip := by rw [h0]; exact b2.trans a2
  have htime : i0.maxTime = i.maxTime := by rw [h0]; exact b3.trans a3
  obtain ⟨s, g1, g2⟩ := C27_returns A h i0 hr2.good.valid (by rw [hwork]; exact (oneWorker_iff _).2 hw)
  obtain ⟨v, sol0, ov0, tried, c1, c2, c3, c4, c5, c6, c7, c8, c9⟩ :=
    C27_best A _ _ _ i0 _ hr2.good.valid hr2.num s g1
  have hf := (C27_frame A _ _ _ i0 _ hr2.good.valid s g1).1
  refine ⟨s.finish, v, sol0, ov0, tried, by rw [h2, g2], c1, by rw [hf], c3, c4, c8, c9,
    by rw [← hstrip]; exact c5, ?_⟩
  intro hclock hex pre hpre
  rcases c7 with h7 | ⟨n, hn⟩
  · have hmem := (C28_strategies h.order i0.strip h.orderPerm).2.2.2 pre hpre
    rw [hex] at h7
    rw [← h7] at hmem
    obtain ⟨q, hq, he⟩ := List.mem_map.1 hmem
    exact ⟨q, hq, he⟩
  · rw [htime] at hn
    exact absurd hn (hclock n)

/-- C70, several workers: if `hypersearch` returns, what it leaves behind is what a single process
search (with the given `throttle`) over the strategies of one of the workers finds for a new problem with
the sorted and oriented items, and its value is maximal among all workers that neither raised nor were
killed; the strategies are divided among at most `workers_num` workers (C31). -/
theorem C70_multi (A : Arith) (hA : NonNeg A) (i : Inst) (hr : Reach A i) (h : HSArgs)
    (hw : ¬ OneWorker i.workers) (hs : (step A i (.sortItems h.sortingBy)).2 = .ok) (i0 : Inst)
    (h0 : i0 = (step A (step A i (.sortItems h.sortingBy)).1 (.orientItems h.orientation)).1)
    (j : Inst) (hj : step A i (.hypersearch h) = (j, .ok)) :
    ∃ (chunks : List (List (List PClass))) (w : Inst) (p : Nat) (chunk : List (List PClass)) (s : HSState),
      strategyChunks (getStrategies h.order i.strip h.exhaustive) i.workers = .ok chunks ∧
      chunks.flatten = getStrategies h.order i.strip h.exhaustive ∧
      w.items = i0.items ∧ w.containers = i.containers ∧ w.strip = i.strip ∧ w.minHeight = i.minHeight ∧
      w.strategy = defaultStrategy ∧ chunks[p]? = some chunk ∧
      w.singleHS A (h.workerClock p) (h.clock 0) h.throttle chunk = .ok s ∧
      SamePacking j.solution s.finish.solution ∧ j.objVals = s.finish.objVals ∧ j.items = i0.items ∧
      ∀ (q : Nat) (chunk' : List (List PClass)) (s' : HSState), chunks[q]? = some chunk' →
        ¬ Raised (h.mp A) w chunks h.schedule q → ¬ Killed h.schedule q →
        w.singleHS A (h.workerClock q) (h.clock 0) h.throttle chunk' = .ok s' →
        overall A (s'.finish.objVals.map (·.2)) ≤ overall A (j.objVals.map (·.2)) := by
  have hr1 : Reach A (step A i (.sortItems h.sortingBy)).1 := .step _ hr
  have hr2 : Reach A i0 := by rw [h0]; exact .step _ hr1
  obtain ⟨_, h2⟩ := step_hypersearch h hr hs
  rw [← h0, hj] at h2
  have hsort := sortItems_edited hr.good.valid A h.sortingBy
  have horient := orientItems_edited hr1.good.valid h.orientation
  have e1 : ∀ {a b : Inst}, b = a ∨ Edited a b → b.workers = a.workers ∧ b.strip = a.strip ∧
      b.minHeight = a.minHeight := by
    intro a b hab
    rcases hab with rfl | ⟨cs, its, n, rfl, _⟩
    · exact ⟨rfl, rfl, rfl⟩
    · exact ⟨rfl, rfl, rfl⟩
  obtain ⟨a1, a2, a3⟩ := e1 hsort
  obtain ⟨b1, b2, b3⟩ := e1 horient
  have hwork : i0.workers = i.workers := by rw [h0]; exact b1.trans a1
  have hstrip : i0.strip = i.strip := by rw [h0]; exact b2.trans a2
  have hmin : i0.minHeight = i.minHeight := by rw [h0]; exact b3.trans a3
  have hconts : i0.containers = i.containers := by
    rw [h0]
    exact (orientItems_containers hr1 h.orientation).trans (sortItems_containers hr h.sortingBy)
  unfold Inst.search at h2
  rw [if_neg (by rw [hwork, oneWorker_iff]; exact hw)] at h2
  have hv := hr2.good.valid
  cases hm : i0.multiHS h.env (h.mp A) (getStrategies h.order i0.strip h.exhaustive) h.schedule with
  | raised e => rw [hm] at h2; simp only [Prod.mk.injEq] at h2; cases h2.2
  | blocked => rw [hm] at h2; simp only [Prod.mk.injEq] at h2; cases h2.2
  | returned sol ov st =>
    rw [hm] at h2
    simp only [Prod.mk.injEq, and_true] at h2
    obtain ⟨chunks, hc⟩ : ∃ chunks, strategyChunks (getStrategies h.order i0.strip h.exhaustive) i0.workers =
        .ok chunks := by
      unfold Inst.multiHS at hm
      cases hx : strategyChunks (getStrategies h.order i0.strip h.exhaustive) i0.workers with
      | ok c => exact ⟨c, rfl⟩
      | error e => rw [hx] at hm; cases hm
    obtain ⟨w, hwi⟩ : ∃ w, workerInst h.env i0 = .ok w := by
      unfold Inst.multiHS at hm
      rw [hc] at hm
      cases hx : workerInst h.env i0 with
      | ok c => exact ⟨c, rfl⟩
      | error e => rw [hx] at hm; cases hm
    obtain ⟨w1, w2, w3, w4, w5, w6, _⟩ := workerInst_spec hv hwi
    obtain ⟨p, chunk, s, c1, c2, c3, c4, c5, _, c7⟩ :=
      C32_best h.env (h.mp A) _ h.schedule i0 w chunks hA hv hc hwi sol ov st hm
    refine ⟨chunks, w, p, chunk, s, by rw [← hstrip, ← hwork]; exact hc,
      by rw [← hstrip]; exact (C31_partition _ _ _ hc).1, w2, w3.trans hconts, w4.trans hstrip,
      w5.trans hmin, w6, c1, c3, ?_, ?_, ?_, ?_⟩
    · rw [h2]; exact c4
    · rw [h2]; exact c5
    · rw [h2]
    · rw [h2]; exact c7

/-- C70 on the solved problem: sorted by area (largest first) and laid wide, then searched; one worker -/
example : Reach Arith.exact problemSolved ∧ OneWorker problemSolved.workers ∧
    (step Arith.exact problemSolved (.sortItems (plainArgs false (fun _ => 0)).sortingBy)).2 = .ok ∧
    (step Arith.exact (step Arith.exact problemSolved (.sortItems (some (.str "area", true)))).1
      (.orientItems (.str "wide"))).1.items = [("a", ⟨3, 2⟩), ("c", ⟨2, 2⟩), ("b", ⟨4, 1⟩)] :=
  ⟨problemSolved_reach, Or.inl rfl, rfl, by decide +kernel⟩

end HP
