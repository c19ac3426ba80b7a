import Verif.Proofs.Work
/-
C101: the work of `solve` is bounded by the number of items and containers, whatever the sizes.
-/
namespace HP
open Spec

/-- The item search at one point (mixins.py 411-427, `findFit`) with the number of calls of
`_check_fitting` that it makes. -/
def findFitT (rot : Bool) (W L Xo Yo : Nat) (g : Grid) (items : PyDict String Dim) :
    List String → Except PyErr (Option (String × Dim × Bool)) × Nat
  | [] => (.ok none, 0)
  | id :: ids =>
    match PyDict.getE items id with
    | .error e => (.error e, 0)
    | .ok d =>
      match checkFitting W L Xo Yo d.w d.l g with
      | .error e => (.error e, 1)
      | .ok true => (.ok (some (id, d, false)), 1)
      | .ok false =>
        if rot then
          match checkFitting W L Xo Yo d.l d.w g with
          | .error e => (.error e, 2)
          | .ok true => (.ok (some (id, d, true)), 2)
          | .ok false =>
            ((findFitT rot W L Xo Yo g items ids).1, (findFitT rot W L Xo Yo g items ids).2 + 2)
        else ((findFitT rot W L Xo Yo g items ids).1, (findFitT rot W L Xo Yo g items ids).2 + 1)

/-- the counting search is the search of the model -/
theorem findFitT_fst (rot : Bool) (W L Xo Yo : Nat) (g : Grid) (items : PyDict String Dim) :
    ∀ ids, (findFitT rot W L Xo Yo g items ids).1 = findFit rot W L Xo Yo g items ids
  | [] => rfl
  | id :: ids => by
    have ih := findFitT_fst rot W L Xo Yo g items ids
    unfold findFitT findFit
    simp only [bind, Except.bind]
    cases h1 : PyDict.getE items id with
    | error e => rfl
    | ok d =>
      simp only
      cases h2 : checkFitting W L Xo Yo d.w d.l g with
      | error e => rfl
      | ok b =>
        cases b with
        | true => rfl
        | false =>
          simp only [Bool.false_eq_true, if_false]
          cases rot with
          | false => exact ih
          | true =>
            simp only [if_true]
            cases h3 : checkFitting W L Xo Yo d.l d.w g with
            | error e => rfl
            | ok b =>
              cases b with
              | true => rfl
              | false => exact ih

/-- placements that can be tried for one item: as it is and turned -/
def orientations (rotation : Bool) : Nat := if rotation then 2 else 1

theorem findFitT_snd (rot : Bool) (W L Xo Yo : Nat) (g : Grid) (items : PyDict String Dim) :
    ∀ ids, (findFitT rot W L Xo Yo g items ids).2 ≤ orientations rot * ids.length
  | [] => by simp [findFitT]
  | id :: ids => by
    have ih := findFitT_snd rot W L Xo Yo g items ids
    have ho : orientations rot = 1 ∨ orientations rot = 2 := by unfold orientations; split <;> simp
    unfold findFitT
    rw [List.length_cons, Nat.mul_add, Nat.mul_one]
    split
    · simp
    · split
      · simp only; omega
      · simp only; omega
      · split
        · rename_i hr
          have : orientations rot = 2 := by unfold orientations; simp [hr]
          split <;> simp only <;> omega
        · simp only; omega

/-- The number of calls of `_check_fitting` in the loop of the construction (mixins.py 400-524); it
follows `constructLoop` line by line. -/
def fitTests (P : CParams) : Nat → CState → Nat
  | 0, _ => 0
  | fuel + 1, s =>
    match s.cur with
    | none => 0
    | some pt =>
      if s.ids = [] ∨ s.obj ≥ 1 then 0
      else (findFitT P.rot P.W P.L pt.x pt.y s.grid s.items s.ids).2 +
        (match constructStep P s pt with
        | .ok s' => fitTests P fuel s'
        | .error _ => 0)

/-- the placements tested while container `c` is filled from the items `pool` -/
def testsMade (A : Arith) (p : SolveIn) (c : Dim) (pool : List (String × Dim)) : Nat :=
  fitTests (p.params A c) (constructFuel pool) (constructInit (p.params A c) pool)

theorem StepRel_ids {P : CParams} {s s' : CState} {pt : Pt} (h : StepRel P s pt s') :
    s'.ids.length ≤ s.ids.length := by
  obtain ⟨s1, ha, rfl⟩ := h
  rcases ha with ⟨rfl, _⟩ | ⟨id, d, ro, g, gen, pre, post, _, _, _, _, _, _, _, rfl⟩
  · exact Nat.le_refl _
  · exact List.length_erase_le

theorem fitTests_le (P : CParams) : ∀ (fuel : Nat) (s : CState), I0 P s →
    fitTests P fuel s ≤ orientations P.rot * s.ids.length * (usedPoints P fuel s).length
  | 0, s, _ => by simp [fitTests]
  | fuel + 1, s, hI => by
    unfold fitTests usedPoints
    cases hcur : s.cur with
    | none => simp
    | some pt =>
      simp only
      by_cases hd : s.ids = [] ∨ s.obj ≥ 1
      · rw [if_pos hd, if_pos hd]; simp
      · rw [if_neg hd, if_neg hd]
        obtain ⟨s1, e1, r1, i1, _⟩ := constructStep_tot hI hcur
        rw [e1]
        have h1 := findFitT_snd P.rot P.W P.L pt.x pt.y s.grid s.items s.ids
        have h2 := fitTests_le P fuel s1 i1
        have h3 : orientations P.rot * s1.ids.length * (usedPoints P fuel s1).length ≤
            orientations P.rot * s.ids.length * (usedPoints P fuel s1).length :=
          Nat.mul_le_mul_right _ (Nat.mul_le_mul_left _ (StepRel_ids r1))
        simp only [List.length_cons, Nat.mul_add, Nat.mul_one]
        omega

/-- every round puts at most one item -/
theorem Run_placed {P : CParams} {s0 s : CState} {n : Nat} (hp : s0.placed = [])
    (h : Run P s0 n s) : s.placed.length ≤ n := by
  induction h with
  | refl => simp [hp]
  | step _ _ _ hS _ ih =>
    obtain ⟨s1, ha, rfl⟩ := hS
    rcases ha with ⟨rfl, _⟩ | ⟨id, d, ro, g, gen, pre, post, _, _, _, _, _, _, _, rfl⟩
    · exact Nat.le_succ_of_le ih
    · simp; exact ih

/-- the counts for one container -/
theorem container_count {A : Arith} {p : SolveIn} (hv : ValidIn p) {seq : Option (List String)}
    (hs : KnownSeq p seq) {sol : Solution} {ov : ObjVals} (h : solve A p seq = .ok (sol, ov))
    {before after : Solution} {cid : String} {m : PyDict String Rect}
    (hsplit : sol = before ++ (cid, m) :: after) {c : Dim} (hc : (cid, c) ∈ p.containers)
    {pool : List (String × Dim)}
    (hpool : pool = (solvedFor p.items seq).filter (fun q => q.1 ∉ placedIds before)) :
    m.length ≤ (pointsUsed A p c pool).length ∧
    2 * (pointsUsed A p c pool).length ≤ m.length * m.length + 7 * m.length + 2 ∧
    ((m.map (·.2)).Pairwise Spec.Disjoint → (pointsUsed A p c pool).length ≤ 6 * m.length + 1) ∧
    testsMade A p c pool ≤ orientations p.rotation * pool.length * (pointsUsed A p c pool).length := by
  have hval := validSizes_filter (solvedFor_valid hv hs h) (fun q => q.1 ∉ placedIds before)
  rw [← hpool] at hval
  obtain ⟨hW, hL⟩ := lenOf_pos (A := A) hv hc
  have htest := fitTests_le (p.params A c) (constructFuel pool) _ (I0_init hval hW hL)
  have hids : (constructInit (p.params A c) pool).ids.length = pool.length := by
    simp [constructInit, PyDict.keys]
  rw [hids] at htest
  rcases pool_of_split hv hs h hsplit hc hpool with ⟨h1, h2⟩ | ⟨_, r, hr, hm, _⟩
  · have : (pointsUsed A p c pool).length = 0 := by
      rw [h1]; simp [pointsUsed, usedPoints, constructFuel, constructInit, PyDict.keys]
    rw [this, h2]
    refine ⟨by simp, by simp, fun _ => by simp, ?_⟩
    have h3 : (usedPoints (p.params A c) (constructFuel pool)
      (constructInit (p.params A c) pool)).length = 0 := this
    rw [h3] at htest
    exact htest
  · obtain ⟨n', s', hloop, _, hI', _, _⟩ := construct_run (P := p.params A c) hval hW hL
    have hcon' := hr
    unfold construct constructFinish at hcon'
    simp only [bind, Except.bind] at hcon'
    rw [hloop] at hcon'
    have hs' : r.solution = s'.placed.map (fun p => (p.id, p.rect)) := by
      simp only at hcon'
      split at hcon'
      · cases hcon'
      · injection hcon' with hcon'
        rw [← hcon']
    have hrun := usedPoints_run _ _ _ _ (I0_init hval hW hL) hloop
    have hlen : m.length = s'.placed.length := by rw [hm, hs']; simp
    have c0 : pointCount 0 (constructInit (p.params A c) pool) = 1 := by
      simp [pointCount, constructInit, Pools.size]
    have c1 := Run_count (GInv_init _ _) rfl hrun
    rw [c0, ← hlen] at c1
    have c2 : ∀ n, n ≤ pointCount n s' := by intro n; unfold pointCount; omega
    have c3 := c2 (usedPoints (p.params A c) (constructFuel pool)
      (constructInit (p.params A c) pool)).length
    refine ⟨?_, ?_, ?_, htest⟩
    · rw [hlen]; exact Run_placed rfl hrun
    · show 2 * (usedPoints (p.params A c) (constructFuel pool)
        (constructInit (p.params A c) pool)).length ≤ _
      omega
    · intro hd
      have hd' : s'.rects.Pairwise Spec.Disjoint := by
        have : m.map (·.2) = s'.rects := by rw [hm, hs']; simp [CState.rects, Function.comp_def]
        rwa [this] at hd
      obtain ⟨cs, ds, hsp, hcount⟩ := Run_count_disjoint (GInv_init _ _)
        (Marks_init _ _) rfl hrun hd'
      have hb := hsp.bound
      have hl2 : s'.rects.length = s'.placed.length := by simp [CState.rects]
      rw [c0] at hcount
      show (usedPoints (p.params A c) (constructFuel pool)
        (constructInit (p.params A c) pool)).length ≤ _
      omega

/-- C101: while a container is filled, at most `(n² + 7n)/2 + 1` points are visited, where `n` is the
number of items that it gets; the sizes of items and container do not matter.  (At least `n`: a
point takes at most one item.) -/
theorem C101_points (A : Arith) (p : SolveIn) (hv : ValidIn p) (seq : Option (List String))
    (hs : KnownSeq p seq) (sol : Solution) (ov : ObjVals) (h : solve A p seq = .ok (sol, ov))
    (before : Solution) (cid : String) (m : PyDict String Rect) (after : Solution)
    (hsplit : sol = before ++ (cid, m) :: after) (c : Dim) (hc : (cid, c) ∈ p.containers) :
    m.length ≤ (pointsUsed A p c ((solvedFor p.items seq).filter (fun q => q.1 ∉ placedIds before))).length ∧
    2 * (pointsUsed A p c ((solvedFor p.items seq).filter (fun q => q.1 ∉ placedIds before))).length ≤
      m.length * m.length + 7 * m.length + 2 :=
  let k := container_count (A := A) hv hs h hsplit hc rfl
  ⟨k.1, k.2.1⟩

/-- C101: at most `6n + 1` points if no two items in the container overlap, -/
theorem C101_points_linear (A : Arith) (p : SolveIn) (hv : ValidIn p) (seq : Option (List String))
    (hs : KnownSeq p seq) (sol : Solution) (ov : ObjVals) (h : solve A p seq = .ok (sol, ov))
    (before : Solution) (cid : String) (m : PyDict String Rect) (after : Solution)
    (hsplit : sol = before ++ (cid, m) :: after) (c : Dim) (hc : (cid, c) ∈ p.containers)
    (hd : (m.map (·.2)).Pairwise Spec.Disjoint) :
    (pointsUsed A p c ((solvedFor p.items seq).filter (fun q => q.1 ∉ placedIds before))).length ≤
      6 * m.length + 1 :=
  (container_count (A := A) hv hs h hsplit hc rfl).2.2.1 hd

/-- C101: at each point every item left is tested at most once in each allowed orientation. -/
theorem C101_tests (A : Arith) (p : SolveIn) (hv : ValidIn p) (seq : Option (List String))
    (hs : KnownSeq p seq) (sol : Solution) (ov : ObjVals) (h : solve A p seq = .ok (sol, ov))
    (before : Solution) (cid : String) (m : PyDict String Rect) (after : Solution)
    (hsplit : sol = before ++ (cid, m) :: after) (c : Dim) (hc : (cid, c) ∈ p.containers) :
    testsMade A p c ((solvedFor p.items seq).filter (fun q => q.1 ∉ placedIds before)) ≤
      (if p.rotation then 2 else 1) *
        ((solvedFor p.items seq).filter (fun q => q.1 ∉ placedIds before)).length *
        (pointsUsed A p c ((solvedFor p.items seq).filter (fun q => q.1 ∉ placedIds before))).length :=
  (container_count (A := A) hv hs h hsplit hc rfl).2.2.2

/-- a sum over the containers of a solution, in order; `f before cid` is the part of the container
`cid` when the containers before it have the contents `before` -/
def overContainers (f : Solution → String → Nat) : Solution → Solution → Nat
  | _, [] => 0
  | before, (cid, m) :: after => f before cid + overContainers f (before ++ [(cid, m)]) after

/-- all points visited in the solution of the problem -/
def allPoints (A : Arith) (p : SolveIn) (seq : Option (List String)) (sol : Solution) : Nat :=
  overContainers (fun before cid =>
    (pointsUsed A p ((PyDict.find? p.containers cid).getD ⟨0, 0⟩)
      ((solvedFor p.items seq).filter (fun q => q.1 ∉ placedIds before))).length) [] sol

/-- all placements tested in the solution of the problem -/
def allTests (A : Arith) (p : SolveIn) (seq : Option (List String)) (sol : Solution) : Nat :=
  overContainers (fun before cid =>
    testsMade A p ((PyDict.find? p.containers cid).getD ⟨0, 0⟩)
      ((solvedFor p.items seq).filter (fun q => q.1 ∉ placedIds before))) [] sol

theorem overContainers_le {f : Solution → String → Nat} {b : Nat → Nat} {sol : Solution}
    (h : ∀ before cid m after, sol = before ++ (cid, m) :: after → f before cid ≤ b m.length) :
    ∀ (rest before : Solution), sol = before ++ rest →
      overContainers f before rest ≤ (rest.map (fun q => b q.2.length)).sum
  | [], _, _ => by simp [overContainers]
  | (cid, m) :: rest, before, e => by
    have h1 := h before cid m rest e
    have h2 := overContainers_le h rest (before ++ [(cid, m)]) (by simp [e])
    simp only [overContainers, List.map_cons, List.sum_cons]
    omega

theorem placedIds_length (sol : Solution) :
    (placedIds sol).length = (sol.map (fun q => q.2.length)).sum := by
  unfold placedIds
  induction sol with
  | nil => rfl
  | cons q sol ih => simp [List.flatMap_cons, ih]

theorem sum_linear (sol : Solution) : (sol.map (fun q => 6 * q.2.length + 1)).sum =
    6 * (sol.map (fun q => q.2.length)).sum + sol.length := by
  induction sol with
  | nil => rfl
  | cons q sol ih => simp only [List.map_cons, List.sum_cons, List.length_cons, ih]; omega

theorem sum_scale_parts (k : Nat) (b : Nat → Nat) (sol : Solution) :
    (sol.map (fun q => k * b q.2.length)).sum = k * (sol.map (fun q => b q.2.length)).sum := by
  induction sol with
  | nil => rfl
  | cons q sol ih => simp only [List.map_cons, List.sum_cons, ih, Nat.mul_add]

theorem sol_container {A : Arith} {p : SolveIn} (hv : ValidIn p) {seq : Option (List String)}
    (hs : KnownSeq p seq) {sol : Solution} {ov : ObjVals} (h : solve A p seq = .ok (sol, ov))
    {cid : String} {m : PyDict String Rect} (hm : (cid, m) ∈ sol) :
    (cid, (PyDict.find? p.containers cid).getD ⟨0, 0⟩) ∈ p.containers := by
  obtain ⟨c, hc, _⟩ := C03_inside A p hv seq hs sol ov h cid m hm
  rw [PyDict.find?_of_mem hv.conts.1 hc]
  exact hc

/-- C101, the whole of `solve`: with `n` items placed without overlaps in `k` containers, at most
`6n + k` points are visited and each sees every item at most once in each allowed orientation.
There are at most as many items placed as given. -/
theorem C101_total (A : Arith) (p : SolveIn) (hv : ValidIn p) (seq : Option (List String))
    (hs : KnownSeq p seq) (sol : Solution) (ov : ObjVals) (h : solve A p seq = .ok (sol, ov))
    (hd : ∀ cid m, (cid, m) ∈ sol → (m.map (·.2)).Pairwise Spec.Disjoint) :
    (placedIds sol).length ≤ (solvedFor p.items seq).length ∧
    allPoints A p seq sol ≤ 6 * (placedIds sol).length + p.containers.length ∧
    allTests A p seq sol ≤ (if p.rotation then 2 else 1) * (solvedFor p.items seq).length *
      (6 * (placedIds sol).length + p.containers.length) := by
  obtain ⟨k1, _, k3, k4⟩ := C04_once A p hv seq hs sol ov h
  have hlen : sol.length = p.containers.length := by
    have := congrArg List.length k1; simpa using this
  have part : ∀ before cid m after, sol = before ++ (cid, m) :: after →
      (pointsUsed A p ((PyDict.find? p.containers cid).getD ⟨0, 0⟩)
        ((solvedFor p.items seq).filter (fun q => q.1 ∉ placedIds before))).length ≤ 6 * m.length + 1 ∧
      testsMade A p ((PyDict.find? p.containers cid).getD ⟨0, 0⟩)
        ((solvedFor p.items seq).filter (fun q => q.1 ∉ placedIds before)) ≤
        (if p.rotation then 2 else 1) * (solvedFor p.items seq).length * (6 * m.length + 1) := by
    intro before cid m after hsplit
    have hm : (cid, m) ∈ sol := by rw [hsplit]; simp
    have hc := sol_container hv hs h hm
    have h1 := C101_points_linear A p hv seq hs sol ov h before cid m after hsplit _ hc (hd cid m hm)
    have h2 := C101_tests A p hv seq hs sol ov h before cid m after hsplit _ hc
    refine ⟨h1, Nat.le_trans h2 ?_⟩
    exact Nat.mul_le_mul (Nat.mul_le_mul_left _ (List.length_filter_le _ _)) h1
  refine ⟨?_, ?_, ?_⟩
  · have : (placedIds sol).length ≤ ((solvedFor p.items seq).map (·.1)).length :=
      (List.subperm_of_subset k3 (fun id hid => (k4 id hid).1)).length_le
    simpa using this
  · have := overContainers_le (f := fun before cid =>
      (pointsUsed A p ((PyDict.find? p.containers cid).getD ⟨0, 0⟩)
        ((solvedFor p.items seq).filter (fun q => q.1 ∉ placedIds before))).length)
      (b := fun n => 6 * n + 1) (sol := sol) (fun b c m a e => (part b c m a e).1) sol [] rfl
    rw [sum_linear, ← placedIds_length, hlen] at this
    exact this
  · have := overContainers_le (f := fun before cid =>
      testsMade A p ((PyDict.find? p.containers cid).getD ⟨0, 0⟩)
        ((solvedFor p.items seq).filter (fun q => q.1 ∉ placedIds before)))
      (b := fun n => (if p.rotation then 2 else 1) * (solvedFor p.items seq).length * (6 * n + 1))
      (sol := sol) (fun b c m a e => (part b c m a e).2) sol [] rfl
    rw [sum_scale_parts _ (fun n => 6 * n + 1), sum_linear, ← placedIds_length, hlen] at this
    exact this

/-- A solved problem with two containers meets the hypotheses: five of seven items are placed, 12
points are visited (at most 32) and 54 placements tested (at most 448). -/
example : ValidIn demo ∧ KnownSeq demo none ∧ ∃ sol ov, solve Arith.exact demo none = .ok (sol, ov) ∧
    (∀ cid m, (cid, m) ∈ sol → (m.map (·.2)).Pairwise Spec.Disjoint) ∧
    (placedIds sol).length = 5 ∧ allPoints Arith.exact demo none sol = 12 ∧
    allTests Arith.exact demo none sol = 54 := by
  refine ⟨demo_valid, (by intro s h; cases h), _, _, demo_solve, ?_, by decide +kernel,
    by decide +kernel, by decide +kernel⟩
  exact C02_no_overlap Arith.exact demo demo_valid none (by intro s h; cases h) 
    (by unfold LowStrip; decide) _ _ demo_solve

end HP
