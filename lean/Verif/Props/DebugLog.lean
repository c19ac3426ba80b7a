import Verif.Model.DebugLog
import Verif.Props.Hill
import Verif.Props.WideItems
import Verif.Props.Units
/-
Property C128: what local_search(debug=True) reports is right.
-/
namespace HP
open Spec

/-- the records of the reports: the first one has the number `num`; only the last one says why the search ends -/
def Spec.printed : Nat → List (Report Rat) → List DebugLine
  | _, [] => []
  | num, [r] => [if r.found then .newNode else .noNewNode, .nodeNum num, .bestValue r.value, .processed r.tried,
      if r.late then .outOfTime else .localOptimum]
  | num, r :: r' :: rs => [if r.found then .newNode else .noNewNode, .nodeNum num, .bestValue r.value, .processed r.tried] ++
      printed (num + 1) (r' :: rs)

section Reports
variable {α R : Type} {K : HillRules α R} {val : R → Rat} {n m : Nat} {a z : HillNode α R} {l : List (Report Rat)}

theorem Spec.HillReports.ne (h : HillReports K val n a m z l) : l ≠ [] := by
  cases h <;> simp

/-- the shape of the reports: all but the last are of nodes with a better neighbour, in time; the last one is of a node
without, or late -/
theorem Spec.HillReports.shape (h : HillReports K val n a m z l) : ∃ init r, l = init ++ [r] ∧
    (∀ e ∈ init, e.found = true ∧ e.late = false) ∧ (r.found = false ∨ r.late = true) := by
  induction h with
  | rest => exact ⟨[], _, rfl, by simp, .inl rfl⟩
  | last => exact ⟨[], _, rfl, by simp, .inr rfl⟩
  | move _ _ _ _ _ _ _ ih =>
    obtain ⟨init, r, rfl, h1, h2⟩ := ih
    exact ⟨_ :: init, r, rfl, by simpa using h1, h2⟩

theorem Spec.HillReports.tried (h : HillReports K val n a m z l) : m = n + (l.map (·.tried)).sum ∧
    ∀ e ∈ l, e.tried ≤ K.limit ∧ (e.found = true → 0 < e.tried) := by
  induction h with
  | rest q1 =>
    refine ⟨by simp, ?_⟩
    intro e he
    simp at he; subst he
    have := congrArg List.length q1
    simp only [List.length_take, List.length_append] at this
    exact ⟨by simp only; omega, by simp⟩
  | last q1 =>
    refine ⟨by simp; omega, ?_⟩
    intro e he
    simp at he; subst he
    have := congrArg List.length q1
    simp only [List.length_take, List.length_append, List.length_cons] at this
    exact ⟨by simp only; omega, by simp⟩
  | move q1 _ _ _ _ _ _ ih =>
    obtain ⟨h1, h2⟩ := ih
    refine ⟨by simp; omega, ?_⟩
    intro e he
    rcases List.mem_cons.1 he with rfl | he
    · have := congrArg List.length q1
      simp only [List.length_take, List.length_append, List.length_cons] at this
      exact ⟨by simp only; omega, by simp⟩
    · exact h2 e he

/-- the last value reported is that of the end -/
theorem Spec.HillReports.value (h : HillReports K val n a m z l) : (l.map (·.value)).getLast? = some (val z.result) := by
  induction h with
  | rest => rfl
  | last => rfl
  | move _ _ _ _ _ _ hrest ih =>
    rw [List.map_cons, List.getLast?_cons, ih]
    rfl

/-- values are better and better -/
theorem Spec.HillReports.values (hb : ∀ r r', K.better r' r → val r < val r') (h : HillReports K val n a m z l) :
    (∀ e ∈ l, val a.result ≤ e.value ∧ (e.found = true → val a.result < e.value)) ∧
    l.Pairwise (fun e e' => e.value ≤ e'.value ∧ (e'.found = true → e.value < e'.value)) := by
  induction h with
  | rest => simp
  | last _ _ _ _ q => simpa using ⟨le_of_lt (hb _ _ q), hb _ _ q⟩
  | move _ _ _ _ q _ _ ih =>
    obtain ⟨h1, h2⟩ := ih
    have := hb _ _ q
    refine ⟨?_, List.pairwise_cons.2 ⟨fun e he => h1 e he, h2⟩⟩
    intro e he
    rcases List.mem_cons.1 he with rfl | he
    · exact ⟨le_of_lt this, fun _ => this⟩
    · exact ⟨le_trans (le_of_lt this) (h1 e he).1, fun _ => lt_of_lt_of_le this (h1 e he).1⟩

/-- the last report is late exactly if the last reading of the clock is; no other reading is -/
theorem Spec.HillReports.late (h : HillReports K val n a m z l) :
    (∀ k, n ≤ k → k + 1 < m → ¬ K.late k) ∧
    ∀ r, l.getLast? = some r → (r.late = true ↔ n < m ∧ K.late (m - 1)) := by
  induction h with
  | @rest n a pre post late q1 q2 q3 q4 q5 =>
    refine ⟨?_, ?_⟩
    · intro k k1 k2
      have := q3 (k - n) (by omega)
      rwa [Nat.add_sub_cancel' k1] at this
    · intro r hr
      simp at hr; subst hr
      simp only
      rw [q4, ← List.length_pos_iff]
      constructor
      · rintro ⟨h1, h2⟩; exact ⟨by omega, h2⟩
      · rintro ⟨h1, h2⟩; exact ⟨by omega, h2⟩
  | @last n a pre post y r q1 q2 q3 q4 q5 q6 =>
    refine ⟨?_, ?_⟩
    · intro k k1 k2
      have := q3 (k - n) (by omega)
      rwa [Nat.add_sub_cancel' k1] at this
    · intro r hr
      simp at hr; subst hr
      simp only [true_iff]
      exact ⟨by omega, by simpa using q6⟩
  | @move n m a z pre post y r reports q1 q2 q3 q4 q5 q6 hrest ih =>
    obtain ⟨h1, h2⟩ := ih
    refine ⟨?_, ?_⟩
    · intro k k1 k2
      by_cases hk : k < n + pre.length
      · have := q3 (k - n) (by omega)
        rwa [Nat.add_sub_cancel' k1] at this
      · by_cases he : k = n + pre.length
        · rw [he]; exact q6
        · exact h1 k (by omega) k2
    · intro r' hr
      have hm := hrest.tried.1
      have hr' : reports.getLast? = some r' := by
        rw [List.getLast?_cons] at hr
        cases hl : reports.getLast? with
        | none => exact absurd (List.getLast?_eq_none_iff.1 hl) hrest.ne
        | some x => rw [hl] at hr; exact hr
      rw [h2 r' hr']
      constructor
      · rintro ⟨g1, g2⟩; exact ⟨by omega, g2⟩
      · rintro ⟨g1, g2⟩
        by_cases he : m = n + pre.length + 1
        · subst he
          exact absurd g2 (by simpa using q6)
        · exact ⟨by omega, g2⟩

/-- if the last report is not late, none of the neighbours that are to be tried is better than the end -/
theorem Spec.HillReports.optimum (h : HillReports K val n a m z l) (r : Report Rat) (hr : l.getLast? = some r)
    (hl : r.late = false) : Refused K z ((neighbours z.seq).take K.limit) := by
  induction h with
  | rest q1 q2 q3 q4 q5 =>
    simp at hr; subst hr
    simp only at hl
    subst hl
    rcases q5 with rfl | h
    · rw [q1, List.append_nil]; exact q2
    · cases h
  | last => simp at hr; subst hr; cases hl
  | move q1 q2 q3 q4 q5 q6 hrest ih =>
    apply ih
    rw [List.getLast?_cons] at hr
    rename_i reports
    cases hx : reports.getLast? with
    | none => exact absurd (List.getLast?_eq_none_iff.1 hx) hrest.ne
    | some x => rw [hx] at hr; exact hr

end Reports

/-- the records of a log of this shape -/
theorem debugNodes_printed : ∀ (num : Nat) (log : List NodeLog), (∀ e ∈ log, e.globalOpt = false) →
    ∀ init r, log.map NodeLog.report = init ++ [r] → (∀ e ∈ init, e.found = true ∧ e.late = false) →
    (r.found = false ∨ r.late = true) → debugNodes num log = printed num (log.map NodeLog.report)
  | _, [], _, init, r, h, _, _ => by simp at h
  | num, [e], hg, init, r, h, _, hr => by
    have h0 : init = [] ∧ e.report = r := by
      cases init with
      | nil => simpa using h
      | cons a b => simp at h
    obtain ⟨_, rfl⟩ := h0
    simp only [NodeLog.report] at hr
    simp only [debugNodes, debugNode, List.map_cons, List.map_nil, printed, NodeLog.report, List.append_nil]
    cases ho : e.outOfTime with
    | true => simp
    | false =>
      rw [ho] at hr
      have : e.found = false := by simpa using hr
      simp [this]
  | num, e :: e' :: es, hg, init, r, h, hi, hr => by
    cases init with
    | nil => simp at h
    | cons a init =>
      simp only [List.map_cons, List.cons_append, List.cons.injEq] at h
      obtain ⟨rfl, h⟩ := h
      have ih := debugNodes_printed (num + 1) (e' :: es) (fun x hx => hg x (List.mem_cons_of_mem _ hx)) init r
        (by simpa using h) (fun x hx => hi x (List.mem_cons_of_mem _ hx)) hr
      obtain ⟨h1, h2⟩ := hi _ (List.mem_cons_self ..)
      simp only [NodeLog.report] at h1 h2
      have hge := hg e (List.mem_cons_self ..)
      rw [debugNodes, ih]
      simp [debugNode, printed, NodeLog.report, h1, h2, hge]

/-- **C128**: without `debug` nothing is logged.  With it, what is logged are the reports on the climb of C106, one for every
node, numbered from 1, and the end of that climb is the result: whether a better neighbour was found, the value of the best
packing so far, and the number of neighbours tried; behind the last report, and only there, why the search ends. -/
theorem C128_reports (A : Arith) (clock : Nat → Rat) (start : Rat) (throttle : Bool) (i j : Inst)
    (t : LSState Inst (Solution × ObjVals)) (hv : i.Valid) (hn : i.containersNum = i.containers.length)
    (h : i.localSearch A clock start throttle = .ok (j, t)) :
    i.debugLog A clock start throttle false = [] ∧
    ∃ (first : Solution × ObjVals) (z : HillNode String (Solution × ObjVals)) (reports : List (Report Rat)),
      i.debugLog A clock start throttle true = printed 1 reports ∧
      solve A i.solveIn none = .ok first ∧
      HillReports (i.hill A clock start throttle) (fun r : Solution × ObjVals => overall A (r.2.map (·.2)))
        0 ⟨i.items.map (·.1), first, i.height.getD 0, [i.height.getD 0]⟩ t.tick z reports ∧
      SamePacking j.solution z.result.1 ∧ j.objVals = z.result.2 ∧
      (i.strip = true → j.height = some z.height ∧ j.heights = z.heights) := by
  obtain ⟨first, z, h1, h2, h3, h4⟩ := climb_reports A clock start throttle i j t hv hn h
  refine ⟨rfl, first, z, t.log.map NodeLog.report, ?_, h1, h2, h4⟩
  obtain ⟨init, r, e1, e2, e3⟩ := h2.shape
  unfold Inst.debugLog
  rw [if_pos rfl, h]
  exact debugNodes_printed 1 t.log h3 init r e1 e2 e3

/-! ### what a reader of the records learns -/

/-- the node numbers that are shown -/
def Spec.numbers (l : List DebugLine) : List Nat := l.filterMap fun x => match x with | .nodeNum n => some n | _ => none

/-- the values that are shown -/
def Spec.values (l : List DebugLine) : List Rat := l.filterMap fun x => match x with | .bestValue v => some v | _ => none

/-- the numbers of neighbours that are shown -/
def Spec.counts (l : List DebugLine) : List Nat := l.filterMap fun x => match x with | .processed n => some n | _ => none

/-- the reasons for the end that are shown -/
def Spec.endings (l : List DebugLine) : List DebugLine :=
  l.filter fun x => x = .outOfTime ∨ x = .localOptimum ∨ x = .globalOptimum

theorem printed_read : ∀ (num : Nat) (l : List (Report Rat)), Spec.numbers (printed num l) = List.range' num l.length ∧
    Spec.values (printed num l) = l.map (·.value) ∧ Spec.counts (printed num l) = l.map (·.tried) ∧
    ∀ init r, l = init ++ [r] → Spec.endings (printed num l) = [if r.late then .outOfTime else .localOptimum] ∧
      (printed num l).getLast? = some (if r.late then .outOfTime else .localOptimum)
  | _, [] => by refine ⟨rfl, rfl, rfl, ?_⟩; intro init r h; simp at h
  | num, [r] => by
    refine ⟨?_, ?_, ?_, ?_⟩
    · cases hf : r.found <;> cases hl : r.late <;> simp [printed, Spec.numbers, hf, hl]
    · cases hf : r.found <;> cases hl : r.late <;> simp [printed, Spec.values, hf, hl]
    · cases hf : r.found <;> cases hl : r.late <;> simp [printed, Spec.counts, hf, hl]
    · intro init r' h
      have : r = r' := by
        cases init with
        | nil => simpa using h
        | cons a b => simp at h
      subst this
      cases hf : r.found <;> cases hl : r.late <;> simp [printed, Spec.endings, hf, hl]
  | num, r :: r' :: rs => by
    obtain ⟨h1, h2, h3, h4⟩ := printed_read (num + 1) (r' :: rs)
    have e : printed num (r :: r' :: rs) = [if r.found then .newNode else .noNewNode, .nodeNum num, .bestValue r.value,
      .processed r.tried] ++ printed (num + 1) (r' :: rs) := rfl
    rw [e]
    refine ⟨?_, ?_, ?_, ?_⟩
    · unfold Spec.numbers at *
      rw [List.filterMap_append, h1]
      cases hf : r.found <;> simp [List.range'_succ]
    · unfold Spec.values at *
      rw [List.filterMap_append, h2]
      cases hf : r.found <;> simp
    · unfold Spec.counts at *
      rw [List.filterMap_append, h3]
      cases hf : r.found <;> simp
    · intro init x hx
      cases init with
      | nil => simp at hx
      | cons a init =>
        simp only [List.cons_append, List.cons.injEq] at hx
        obtain ⟨g1, g2⟩ := h4 init x hx.2
        unfold Spec.endings at *
        rw [List.filter_append, g1, List.getLast?_append, g2]
        cases hf : r.found <;> simp

/-- **C128**: what the records of a search say.  The nodes are numbered 1, 2, 3, ...; the value shown for a node is larger
than the one before (the value of `solve()` before the first), except that the last one may be the same; the last one is the
value of the result; the numbers of neighbours add up to the number of packings tried, none above the limit; one reason for
the end is given, in the last record, and it is that the time is up exactly if the last reading of the clock shows that. -/
theorem C128_read (A : Arith) (clock : Nat → Rat) (start : Rat) (throttle : Bool) (i j : Inst)
    (t : LSState Inst (Solution × ObjVals)) (hv : i.Valid) (hn : i.containersNum = i.containers.length)
    (h : i.localSearch A clock start throttle = .ok (j, t)) :
    ∃ (first : Solution × ObjVals) (lines : List DebugLine) (v : Rat) (vs : List Rat) (why : DebugLine),
      solve A i.solveIn none = .ok first ∧ lines = i.debugLog A clock start throttle true ∧
      Spec.numbers lines = List.range' 1 (vs.length + 1) ∧
      Spec.values lines = vs ++ [v] ∧ (overall A (first.2.map (·.2)) :: vs).Pairwise (· < ·) ∧
      (∀ u ∈ overall A (first.2.map (·.2)) :: vs, u ≤ v) ∧ v = overall A (j.objVals.map (·.2)) ∧
      (Spec.counts lines).sum = t.tick ∧
      (∀ k ∈ Spec.counts lines, k ≤ if throttle then 2500 else i.items.length * (i.items.length - 1) / 2) ∧
      Spec.endings lines = [why] ∧ lines.getLast? = some why ∧
      ((why = .outOfTime ∧ 0 < t.tick ∧ Late A clock start i (t.tick - 1)) ∨
       (why = .localOptimum ∧ ∀ k, k < t.tick → ¬ Late A clock start i k)) := by
  obtain ⟨_, first, z, reports, h1, h2, h3, h4, h5, _⟩ := C128_reports A clock start throttle i j t hv hn h
  obtain ⟨init, r, rfl, s1, s2⟩ := h3.shape
  obtain ⟨p1, p2, p3, p4⟩ := printed_read 1 (init ++ [r])
  obtain ⟨p5, p6⟩ := p4 init r rfl
  obtain ⟨t1, t2⟩ := h3.tried
  obtain ⟨v1, v2⟩ := h3.values (fun a b (hb : (i.hill A clock start throttle).better b a) => hb.1)
  obtain ⟨l1, l2⟩ := h3.late
  have hval := h3.value
  rw [List.pairwise_append] at v2
  rw [← h1] at p1 p2 p3 p5 p6
  refine ⟨first, _, r.value, init.map (·.value), _, h2, rfl, ?_, ?_, ?_, ?_, ?_, ?_, ?_, p5, p6, ?_⟩
  · rw [p1]; simp
  · rw [p2]; simp
  · rw [List.pairwise_cons, List.pairwise_map]
    refine ⟨?_, ?_⟩
    · intro u hu
      obtain ⟨e, he, rfl⟩ := List.mem_map.1 hu
      exact (v1 e (List.mem_append_left _ he)).2 (s1 e he).1
    · exact v2.1.imp_of_mem (fun {a b} _ hb hab => hab.2 (s1 b hb).1)
  · intro u hu
    rcases List.mem_cons.1 hu with rfl | hu
    · exact (v1 r (by simp)).1
    · obtain ⟨e, he, rfl⟩ := List.mem_map.1 hu
      exact (v2.2.2 e he r (by simp)).1
  · rw [h5]
    simpa using hval
  · rw [p3]; omega
  · intro k hk
    rw [p3] at hk
    obtain ⟨e, he, rfl⟩ := List.mem_map.1 hk
    exact (t2 e he).1
  · have l3 := l2 r (by simp)
    cases hl : r.late with
    | true =>
      left
      exact ⟨rfl, l3.1 hl⟩
    | false =>
      right
      refine ⟨rfl, ?_⟩
      intro k hk hlk
      by_cases hk' : k + 1 < t.tick
      · exact l1 k (by omega) hk' hlk
      · have : k = t.tick - 1 := by omega
        subst this
        rw [hl] at l3
        exact absurd (l3.2 ⟨by omega, hlk⟩) (by simp)

/-- **C128**, the ending "local optima", bin packing: if it is logged and the throttle could not act, then the result is one:
it is the packing of a permutation of the items, of which no exchange of two items has a better value. -/
theorem C128_optimum_partial (A : Arith) (clock : Nat → Rat) (start : Rat) (throttle : Bool) (i j : Inst)
    (t : LSState Inst (Solution × ObjVals)) (hv : i.Valid) (hn : i.containersNum = i.containers.length)
    (hbin : i.strip = false) (h : i.localSearch A clock start throttle = .ok (j, t))
    (hlog : .localOptimum ∈ i.debugLog A clock start throttle true)
    (hthr : throttle = false ∨ i.items.length ≤ 71) :
    ∃ (seq : List String) (sol : Solution), seq.Perm (i.items.map (·.1)) ∧
      solve A i.solveIn (some seq) = .ok (sol, j.objVals) ∧ SamePacking j.solution sol ∧
      ∀ a b, a < b → b < i.items.length →
        ∀ sol' ov', solve A i.solveIn (some (exchange seq a b)) = .ok (sol', ov') →
          overall A (ov'.map (·.2)) ≤ overall A (j.objVals.map (·.2)) := by
  obtain ⟨first, lines, v, vs, why, _, rfl, _, _, _, _, _, _, _, e1, e2, e3⟩ := C128_read A clock start throttle i j t hv hn h
  have hm : DebugLine.localOptimum ∈ Spec.endings (i.debugLog A clock start throttle true) := by
    unfold Spec.endings
    rw [List.mem_filter]
    exact ⟨hlog, by simp⟩
  rw [e1] at hm
  have hw : why = .localOptimum := (List.mem_singleton.1 hm).symm
  subst hw
  rcases e3 with ⟨e3, _⟩ | ⟨_, e3⟩
  · cases e3
  · exact C19_local_optimum A clock start throttle i j t hv hn hbin h e3 hthr

/-- **C128**, the ending "local optima", strip packing: no exchange that packs all items (any exchange if a minimum height is
set) is better, at the final height. -/
theorem C128_optimum_strip_partial (A : Arith) (clock : Nat → Rat) (start : Rat) (throttle : Bool) (i j : Inst)
    (t : LSState Inst (Solution × ObjVals)) (hv : i.Valid) (hn : i.containersNum = i.containers.length)
    (hst : i.strip = true) (h : i.localSearch A clock start throttle = .ok (j, t))
    (hlog : .localOptimum ∈ i.debugLog A clock start throttle true)
    (hthr : throttle = false ∨ i.items.length ≤ 71) :
    ∃ (seq : List String) (sol : Solution) (H : Nat), seq.Perm (i.items.map (·.1)) ∧
      solve A (i.at H) (some seq) = .ok (sol, j.objVals) ∧ SamePacking j.solution sol ∧
      ∀ a b, a < b → b < i.items.length →
        ∀ m ov', solve A (i.at (j.height.getD 0)) (some (exchange seq a b)) = .ok ([(stripId, m)], ov') →
          (i.minHeight = none → m.length = i.items.length) →
          overall A (ov'.map (·.2)) ≤ overall A (j.objVals.map (·.2)) := by
  obtain ⟨first, lines, v, vs, why, _, rfl, _, _, _, _, _, _, _, e1, e2, e3⟩ := C128_read A clock start throttle i j t hv hn h
  have hm : DebugLine.localOptimum ∈ Spec.endings (i.debugLog A clock start throttle true) := by
    unfold Spec.endings
    rw [List.mem_filter]
    exact ⟨hlog, by simp⟩
  rw [e1] at hm
  have hw : why = .localOptimum := (List.mem_singleton.1 hm).symm
  subst hw
  rcases e3 with ⟨e3, _⟩ | ⟨_, e3⟩
  · cases e3
  · exact C19_strip A clock start throttle i j t hv hn hst h e3 hthr

/-! ### the ending "local optima" can be wrong -/

/-- 70 ids -/
def manyNames : List String := (List.range 70).map fun n => String.ofList (List.replicate (n + 1) 'b')

/-- 70 items that are too long for the container, and three that are not -/
def manyItems : PyDict String Dim :=
  manyNames.map (fun s => (s, ⟨1, 8⟩)) ++ [("x", ⟨1, 2⟩), ("y", ⟨1, 3⟩), ("z", ⟨1, 3⟩)]

/-- the problem: one container of width 1 and length 7 -/
def manyArgs : PyVal × PyVal :=
  (.dict [(.str "c", .dict [(.str "W", .int 1), (.str "L", .int 7)])], .dict (manyItems.map (fun q => (.str q.1, SKind.items.encode q.2))))

/-- the ids of the three short items -/
def isShort (s : String) : Bool := s == "x" || s == "y" || s == "z"

theorem filter_set {α : Type} (p : α → Bool) : ∀ (xs : List α) (k : Nat) (v : α), (∀ u ∈ xs, p u = false) → k < xs.length →
    (xs.set k v).filter p = if p v then [v] else []
  | [], k, v, _, h => by simp at h
  | x :: xs, 0, v, h, _ => by
    have h1 : xs.filter p = [] := List.filter_eq_nil_iff.2 (fun u hu => by simp [h u (List.mem_cons_of_mem _ hu)])
    simp only [List.set_cons_zero, List.filter_cons, h1]
  | x :: xs, k + 1, v, h, hk => by
    have h1 := filter_set p xs k v (fun u hu => h u (List.mem_cons_of_mem _ hu)) (by simpa using hk)
    simp only [List.set_cons_succ, List.filter_cons, h x (List.mem_cons_self ..), h1]
    simp

theorem filter_none_set {α : Type} (p : α → Bool) {xs : List α} {k : Nat} {v : α} (h : ∀ u ∈ xs, p u = false) (hv : p v = false) :
    (xs.set k v).filter p = [] ∧ ∀ u ∈ xs.set k v, p u = false := by
  have : ∀ u ∈ xs.set k v, p u = false := by
    intro u hu
    rcases List.mem_or_eq_of_mem_set hu with hu | rfl
    · exact h u hu
    · exact hv
  exact ⟨List.filter_eq_nil_iff.2 (fun u hu => by simp [this u hu]), this⟩

/-- an exchange with a position in front leaves the short ones in one of three orders -/
theorem exchange_short {B : List String} {x y z : String} (p : String → Bool) (hB : ∀ u ∈ B, p u = false)
    (hx : p x = true) (hy : p y = true) (hz : p z = true) {a b : Nat} (hab : a < b) (ha : a < B.length)
    (hb : b < B.length + 3) :
    (exchange (B ++ [x, y, z]) a b).filter p = [x, y, z] ∨ (exchange (B ++ [x, y, z]) a b).filter p = [y, x, z] ∨
    (exchange (B ++ [x, y, z]) a b).filter p = [z, x, y] := by
  have e1 : (B ++ [x, y, z])[a]? = some B[a] := by rw [List.getElem?_append_left ha, List.getElem?_eq_getElem ha]
  have h1 : p B[a] = false := hB _ (List.getElem_mem ha)
  have key : ∀ v, (B ++ [x, y, z])[b]? = some v → exchange (B ++ [x, y, z]) a b = (B.set a v ++ [x, y, z]).set b B[a] := by
    intro v hv
    unfold exchange
    rw [e1, hv]
    simp only
    rw [List.set_append_left _ _ ha]
  by_cases hb' : b < B.length
  · have e2 : (B ++ [x, y, z])[b]? = some B[b] := by rw [List.getElem?_append_left hb', List.getElem?_eq_getElem hb']
    have h2 : p B[b] = false := hB _ (List.getElem_mem hb')
    left
    rw [key _ e2, List.set_append_left _ _ (by simpa using hb'), List.filter_append]
    obtain ⟨_, g⟩ := filter_none_set p (k := a) hB h2
    rw [(filter_none_set p (k := b) g h1).1]
    simp [hx, hy, hz]
  · obtain ⟨d, rfl⟩ : ∃ d, b = B.length + d := ⟨b - B.length, by omega⟩
    have hd : d < 3 := by omega
    have hset : ∀ v, (B.set a v ++ [x, y, z]).set (B.length + d) B[a] = B.set a v ++ [x, y, z].set d B[a] := by
      intro v
      rw [List.set_append_right _ _ (by simp)]
      simp
    have hget : (B ++ [x, y, z])[B.length + d]? = [x, y, z][d]? := by
      rw [List.getElem?_append_right (by omega)]
      simp
    rcases (by omega : d = 0 ∨ d = 1 ∨ d = 2) with rfl | rfl | rfl
    · left
      rw [key x (by rw [hget]; rfl), hset, List.filter_append, filter_set p _ _ _ hB ha]
      simp [hx, hy, hz, h1]
    · right; left
      rw [key y (by rw [hget]; rfl), hset, List.filter_append, filter_set p _ _ _ hB ha]
      simp [hx, hy, hz, h1]
    · right; right
      rw [key z (by rw [hget]; rfl), hset, List.filter_append, filter_set p _ _ _ hB ha]
      simp [hx, hy, hz, h1]

/-- first fit into one bin, of the items that are not too long for it -/
theorem firstFit_short (q : String × Dim → Bool) (b : Bin) : ∀ (items : List (String × Dim)),
    (∀ x ∈ items, q x = false → b.cap < x.2.l) → firstFit [b] items = firstFit [b] (items.filter q) := by
  intro items
  induction items generalizing b with
  | nil => intro _; rfl
  | cons x items ih =>
    intro h
    have hstep : ∃ b', putFirst x [b] = [b'] ∧ b'.cap = b.cap := by
      unfold putFirst
      split
      · exact ⟨_, rfl, rfl⟩
      · exact ⟨b, rfl, rfl⟩
    obtain ⟨b', e, ec⟩ := hstep
    rw [List.filter_cons]
    unfold firstFit at *
    rw [List.foldl_cons, e]
    cases hq : q x with
    | true =>
      simp only [if_true, List.foldl_cons, e]
      exact ih b' (fun u hu => by rw [ec]; exact h u (List.mem_cons_of_mem _ hu))
    | false =>
      have : ¬ b.Takes x.2 := by
        intro ht
        have := h x (List.mem_cons_self ..) hq
        have := ht.2
        omega
      have e' : b' = b := by
        have : putFirst x [b] = [b] := by unfold putFirst; rw [if_neg this]; rfl
        rw [this] at e
        exact (List.head_eq_of_cons_eq e).symm
      rw [e']
      simp only [Bool.false_eq_true, if_false]
      exact ih b (fun u hu => h u (List.mem_cons_of_mem _ hu))

theorem find_filter (p : String → Bool) (items : List (String × Dim)) : ∀ s : List String,
    (s.filterMap (fun id => List.find? (fun q => q.1 == id) items)).filter (fun q => p q.1) =
    (s.filter p).filterMap (fun id => List.find? (fun q => q.1 == id) items)
  | [] => rfl
  | id :: s => by
    rw [List.filterMap_cons, List.filter_cons]
    cases hf : List.find? (fun q => q.1 == id) items with
    | none =>
      simp only
      rw [find_filter p items s]
      split
      · rw [List.filterMap_cons, hf]
      · rfl
    | some q =>
      have : q.1 = id := by simpa using List.find?_some hf
      simp only [List.filter_cons, this]
      rw [find_filter p items s]
      split
      · rw [List.filterMap_cons, hf]
      · rfl

/-- the packing of the items in the orders that are left -/
def shortSol (ids : List String) : Solution :=
  (firstFit [⟨"c", 1, 7, []⟩] (ids.filterMap (fun id => List.find? (fun q => q.1 == id) manyItems))).map
    (fun b => (b.id, pileFrom 0 b.items))

theorem many_facts : ∀ q ∈ manyItems, 0 < q.2.w ∧ 0 < q.2.l ∧ 1 < 2 * q.2.w ∧ 1 < q.2.l ∧ (isShort q.1 = false → 7 < q.2.l) := by
  decide +kernel

theorem many_valid : ValidSizes manyItems := by
  refine ⟨?_, fun q hq => ⟨(many_facts q hq).1, (many_facts q hq).2.1⟩⟩
  have : manyItems.map (·.1) = manyNames ++ ["x", "y", "z"] := by
    simp [manyItems, List.map_map, Function.comp_def]
  rw [this]
  decide +kernel

theorem many_names : ∀ u ∈ manyNames, isShort u = false := by decide +kernel

theorem many_keys : manyItems.map (fun q : String × Dim => q.1) = manyNames ++ ["x", "y", "z"] := by
  simp [manyItems, List.map_map, Function.comp_def]

/-- the problem -/
def manyIn (H : Nat) : SolveIn := ⟨[("c", ⟨1, 7⟩)], manyItems, defaultStrategy, true, false, H⟩

theorem many_in (H : Nat) : ValidIn (manyIn H) := ⟨⟨show ["c"].Nodup by decide, show ∀ q ∈ [(("c" : String), (⟨1, 7⟩ : Dim))], 0 < q.2.w ∧ 0 < q.2.l by decide⟩, many_valid, nofun⟩

/-- what `solve` does with these items: only the order of the short ones matters -/
theorem many_solve (H : Nat) (s : List String) (hp : s.Perm (manyNames ++ ["x", "y", "z"])) {sol : Solution} {ov : ObjVals}
    (h : solve Arith.exact (manyIn H) (some s) = .ok (sol, ov)) : sol = shortSol (s.filter isShort) ∧
      ov = ([("c", (⟨1, 7⟩ : Dim))].zip sol).map (fun x => (x.1.1, fractions Arith.exact x.1.2.w x.1.2.l x.2.2)) := by
  have hv := many_in H
  have hs : KnownSeq (manyIn H) (some s) := by
    apply KnownSeq_perm
    show s.Perm (manyItems.map (fun q : String × Dim => q.1))
    rw [many_keys]; exact hp
  have h2 := C07_rounded Arith.exact (manyIn H) hv rfl (some s) hs sol ov h
  refine ⟨?_, h2⟩
  have h1 := C115_first_fit Arith.exact (manyIn H) hv (some s) hs (.inr rfl)
    (show PClass.A ∈ defaultStrategy ∧ PClass.A__ ∈ defaultStrategy by decide) (by
    intro c hc q hq
    have hc : c = ("c", ⟨1, 7⟩) := by simpa [manyIn] using hc
    subst hc
    exact ⟨(many_facts q hq).2.2.1, fun _ => .inr (many_facts q hq).2.2.2.1⟩) sol ov h
  have hnd : s.Nodup := by
    rw [hp.nodup_iff, ← many_keys]; exact many_valid.1
  rw [h1]
  unfold shortSol
  congr 1
  show firstFit [⟨"c", 1, 7, []⟩] (reorder manyItems s) = _
  rw [firstFit_short (fun q => isShort q.1)]
  · congr 1
    unfold reorder
    rw [firstOcc_nodup hnd, find_filter]
  · intro x hx hq
    show 7 < x.2.l
    unfold reorder at hx
    obtain ⟨id, _, hid⟩ := List.mem_filterMap.1 hx
    exact (many_facts x (List.mem_of_find?_eq_some hid)).2.2.2.2 hq

/-- the values of the four orders -/
theorem many_values :
    let val := fun ids : List String => overall Arith.exact ((([("c", (⟨1, 7⟩ : Dim))].zip (shortSol ids)).map
      (fun x => (x.1.1, fractions Arith.exact x.1.2.w x.1.2.l x.2.2))).map (·.2))
    val ["x", "y", "z"] = 5 / 7 ∧ val ["y", "x", "z"] = 5 / 7 ∧ val ["z", "x", "y"] = 5 / 7 ∧ val ["z", "y", "x"] = 6 / 7 := by
  decide +kernel

theorem many_new : ∃ i, mkInst plainEnv manyArgs.1 manyArgs.2 .none .none = .ok i ∧ i.items = manyItems ∧
    i.containers = [("c", ⟨1, 7⟩)] ∧ i.strategy = defaultStrategy ∧ i.rotation = true ∧ i.strip = false ∧
    i.containersNum = 1 := by
  have h : (match mkInst plainEnv manyArgs.1 manyArgs.2 .none .none with
      | .ok i => decide (i.items = manyItems ∧ i.containers = [("c", ⟨1, 7⟩)] ∧ i.strategy = defaultStrategy ∧
          i.rotation = true ∧ i.strip = false ∧ i.containersNum = 1)
      | .error _ => false) = true := by decide +kernel
  cases hm : mkInst plainEnv manyArgs.1 manyArgs.2 .none .none with
  | error e => rw [hm] at h; cases h
  | ok i => rw [hm] at h; exact ⟨i, rfl, by simpa using h⟩

theorem many_limit : ∀ p ∈ (indexSwaps 73).take 2500, p.1 < 70 := by decide +kernel

theorem many_exchange : (exchange (manyNames ++ ["x", "y", "z"]) 70 72).filter isShort = ["z", "y", "x"] := by
  decide +kernel

/-- **C128**, the ending "local optima" is false of the code if the throttle acts: a container and 73 items, of which 70 fit
nowhere.  `local_search(debug=True)`, with enough time, logs that it has found a local optimum; what it returns is the packing
of the items in their order (5/7 full); if items 70 and 72 are exchanged, solve fills 6/7. -/
theorem C128_refuted : ∃ i, mkInst plainEnv manyArgs.1 manyArgs.2 .none .none = .ok i ∧
    ∀ (clock : Nat → Rat) (start : Rat), (∀ k, ¬ Late Arith.exact clock start i k) →
      ∃ j t, i.localSearch Arith.exact clock start true = .ok (j, t) ∧
        .localOptimum ∈ i.debugLog Arith.exact clock start true true ∧
        ∃ sol sol' ov', solve Arith.exact i.solveIn (some (i.items.map (·.1))) = .ok (sol, j.objVals) ∧
          SamePacking j.solution sol ∧
          solve Arith.exact i.solveIn (some (exchange (i.items.map (·.1)) 70 72)) = .ok (sol', ov') ∧
          overall Arith.exact (j.objVals.map (·.2)) = 5 / 7 ∧ overall Arith.exact (ov'.map (·.2)) = 6 / 7 := by
  obtain ⟨i, hi, h1, h2, h3, h4, h5, h6⟩ := many_new
  have hv : i.Valid := (Reach.new (A := Arith.exact) hi).good.valid
  have hn : i.containersNum = i.containers.length := by rw [h6, h2]; rfl
  refine ⟨i, hi, fun clock start hlate => ?_⟩
  obtain ⟨j, t, h⟩ := C18_terminates Arith.exact clock start true i hv
  have hin : ∀ H, i.at H = manyIn H := by
    intro H
    unfold Inst.at Inst.solveIn manyIn
    rw [h1, h2, h3, h4, h5]
  have hin0 : i.solveIn = manyIn (i.height.getD 0) := hin (i.height.getD 0)
  have hkeys : i.items.map (·.1) = manyNames ++ ["x", "y", "z"] := by rw [h1]; exact many_keys
  have hlen : i.items.length = 73 := by
    have := congrArg List.length hkeys
    simpa [manyNames] using this
  obtain ⟨_, first, z, reports, d1, d2, d3, d4, d5, _⟩ := C128_reports Arith.exact clock start true i j t hv hn h
  have hfirst : solve Arith.exact (manyIn (i.height.getD 0)) (some (manyNames ++ ["x", "y", "z"])) = .ok (first.1, first.2) := by
    have := solve_none_eq (A := Arith.exact) (p := i.solveIn) hv.items.1
    rw [d2] at this
    rw [← hin0, ← hkeys]
    exact this.symm
  have hval : ∀ (s : List String), s.Perm (manyNames ++ ["x", "y", "z"]) → ∀ H sol ov,
      solve Arith.exact (manyIn H) (some s) = .ok (sol, ov) →
      (s.filter isShort = ["x", "y", "z"] ∨ s.filter isShort = ["y", "x", "z"] ∨ s.filter isShort = ["z", "x", "y"] →
        overall Arith.exact (ov.map (·.2)) = 5 / 7) ∧
      (s.filter isShort = ["z", "y", "x"] → overall Arith.exact (ov.map (·.2)) = 6 / 7) := by
    intro s hs H sol ov hsol
    obtain ⟨e1, e2⟩ := many_solve H s hs hsol
    obtain ⟨w1, w2, w3, w4⟩ := many_values
    rw [e2, e1]
    refine ⟨?_, ?_⟩
    · rintro (e | e | e) <;> rw [e]
      · exact w1
      · exact w2
      · exact w3
    · intro e
      rw [e]; exact w4
  have hfilter : (manyNames ++ ["x", "y", "z"]).filter isShort = ["x", "y", "z"] := by decide +kernel
  have hv0 : overall Arith.exact (first.2.map (·.2)) = 5 / 7 := (hval _ (List.Perm.refl _) _ _ _ hfirst).1 (.inl hfilter)
  have hsame : ∀ y ∈ (neighbours (i.items.map (·.1))).take 2500, ∀ H r, solve Arith.exact (i.at H) (some y) = .ok r →
      ¬ (i.hill Arith.exact clock start true).better r first := by
    intro y hy H r hr hb
    have ht := tried_eq (xs := i.items.map (·.1)) (n := 73) (by rw [List.length_map]; exact hlen) true
    rw [if_pos rfl] at ht
    rw [ht] at hy
    obtain ⟨p, hp, rfl⟩ := List.mem_map.1 hy
    have h70 := many_limit p hp
    obtain ⟨hab, hb3⟩ := mem_indexSwaps.1 (List.mem_of_mem_take hp)
    rw [hin] at hr
    rw [hkeys] at hr
    have hnl : manyNames.length = 70 := by simp [manyNames]
    have := (hval _ (exchange_perm _ _ _) H r.1 r.2 hr).1
      (exchange_short isShort many_names (by decide) (by decide) (by decide) hab (by omega) (by omega))
    have hb1 := hb.1
    rw [this, hv0] at hb1
    exact lt_irrefl _ hb1
  obtain ⟨r', hr'⟩ := (C06_total Arith.exact (manyIn (i.height.getD 0)) (many_in _)
    (some (exchange (manyNames ++ ["x", "y", "z"]) 70 72))).1 (KnownSeq_perm (by
      show (exchange _ 70 72).Perm (manyItems.map (fun q : String × Dim => q.1))
      rw [many_keys]; exact exchange_perm _ _ _))
  obtain ⟨ov', hr'⟩ := hr'
  have hbest := (hval _ (exchange_perm _ _ _) _ _ _ hr').2 many_exchange
  rw [d1]
  generalize t.tick = m at d3
  cases d3 with
  | @rest _ _ pre post late q1 q2 q3 q4 q5 =>
    have hl : late = false := by
      cases late with
      | false => rfl
      | true => exact absurd (q4.1 rfl).2 (hlate _)
    subst hl
    refine ⟨j, t, h, by simp [printed], first.1, r', ov', ?_, d4, ?_, ?_, hbest⟩
    · rw [hkeys, hin0, hfirst, d5]
    · rw [hkeys, hin0, hr']
    · rw [d5]; exact hv0
  | last q1 q2 q3 q4 q5 q6 => exact absurd q6 (hlate _)
  | @move _ _ _ _ pre post y r _ q1 q2 q3 q4 q5 q6 q7 =>
    exact absurd q5 (hsame y (by
      have : y ∈ (neighbours (i.items.map (·.1))).take (i.hill Arith.exact clock start true).limit := by rw [q1]; simp
      exact this) _ r q4)

/-! ### not vacuous -/

/-- two improvements, then a local optimum: the hypotheses of `C128_read` and `C128_optimum_partial` hold of `lsBin` -/
example : lsBin.Valid ∧ lsBin.containersNum = lsBin.containers.length ∧ lsBin.items.length ≤ 71 ∧
    (∃ j t, lsBin.localSearch Arith.exact (fun _ => 0) 0 true = .ok (j, t)) ∧
    lsBin.debugLog Arith.exact (fun _ => 0) 0 true true =
      [.newNode, .nodeNum 1, .bestValue (139 / 90), .processed 1,
       .newNode, .nodeNum 2, .bestValue (17 / 10), .processed 4,
       .noNewNode, .nodeNum 3, .bestValue (17 / 10), .processed 6, .localOptimum] := by
  obtain ⟨j, t, h, _, _, _, _, h5, _⟩ := lsView_some lsBin_run
  refine ⟨lsBin_valid, rfl, by decide, ⟨j, t, h⟩, ?_⟩
  unfold Inst.debugLog
  rw [if_pos rfl, h]
  simp only
  rw [h5]
  rfl

/-- the time is up -/
example : ∃ l, lsBin.debugLog Arith.exact (fun k => if k < 2 then 0 else 60) 0 true true = l ++ [.outOfTime] := by
  obtain ⟨j, t, h⟩ := C18_terminates Arith.exact (fun k => if k < 2 then 0 else 60) 0 true lsBin lsBin_valid
  obtain ⟨first, lines, v, vs, why, _, rfl, _, _, _, _, _, e1, _, _, e2, e3⟩ :=
    C128_read _ _ _ _ _ _ _ lsBin_valid rfl h
  obtain ⟨a, b, g, _, _, _, _, _, gt⟩ := lsView_some lsBin_late
  rw [h] at g
  injection g with g
  injection g with g1 g2
  subst g2
  rcases e3 with ⟨rfl, _⟩ | ⟨_, e3⟩
  · exact List.getLast?_eq_some_iff.1 e2
  · exact absurd (show Late Arith.exact (fun k => if k < 2 then 0 else 60) 0 lsBin 2 by
      unfold Late; decide +kernel) (e3 2 (by rw [gt]; decide))

end HP
