import Verif.Proofs.Objective
import Verif.Props.Packing
/-
C117: subclasses with an objective of their own (`calculate_objective_value`).
-/
namespace HP
open Spec

/-- the same problem with a single container and other items -/
def SolveIn.only (p : SolveIn) (cid : String) (c : Dim) (items : PyDict String Dim) : SolveIn :=
  ⟨[(cid, c)], items, p.strategy, p.rotation, p.strip, p.height⟩

/-- **C117**: with the objective of the library itself this is `solve`. -/
theorem C117_default (A : Arith) (p : SolveIn) (seq : Option (List String)) :
    solveO A (Objective.default A) p seq = solve A p seq := by
  have hstep : ∀ (P : CParams) (s : CState) (pt : Pt), P.ar = A →
      constructStepO (Objective.default A) P s pt = constructStep P s pt := by
    intro P s pt h; subst h; rfl
  have hloop : ∀ (P : CParams), P.ar = A → ∀ (fuel : Nat) (s : CState),
      constructLoopO (Objective.default A) P fuel s = constructLoop P fuel s := by
    intro P hP fuel
    induction fuel with
    | zero => intro s; rfl
    | succ fuel ih =>
      intro s
      unfold constructLoopO constructLoop
      cases s.cur with
      | none => rfl
      | some pt => simp only [bind, Except.bind, hstep P _ pt hP, ih]
  have hcon : ∀ (P : CParams), P.ar = A → ∀ items, constructO (Objective.default A) P items = construct P items := by
    intro P hP items
    unfold constructO construct
    rw [hloop P hP]
  have hsl : ∀ cs items, solveLoopO A (Objective.default A) p cs items = solveLoop A p cs items := by
    intro cs
    induction cs with
    | nil => intro items; rfl
    | cons c cs ih =>
      intro items
      obtain ⟨cid, c⟩ := c
      unfold solveLoopO solveLoop
      simp only [ih, hcon (p.params A c) rfl]
  unfold solveO solve
  simp only [hsl]
  cases seq <;> rfl

/-- **C117**: in strip mode an objective has no effect at all. -/
theorem C117_strip (A : Arith) (V : Objective) (p : SolveIn) (hst : p.strip = true) (seq : Option (List String)) :
    solveO A V p seq = solve A p seq := by
  have hstep : ∀ (P : CParams) (s : CState) (pt : Pt), P.strip = true → constructStepO V P s pt = constructStep P s pt := by
    intro P s pt h
    obtain ⟨ar, rot, strip, W, L, st⟩ := P
    simp only at h
    subst h
    rfl
  have hloop : ∀ (P : CParams), P.strip = true → ∀ (fuel : Nat) (s : CState),
      constructLoopO V P fuel s = constructLoop P fuel s := by
    intro P hP fuel
    induction fuel with
    | zero => intro s; rfl
    | succ fuel ih =>
      intro s
      unfold constructLoopO constructLoop
      cases s.cur with
      | none => rfl
      | some pt => simp only [bind, Except.bind, hstep P _ pt hP, ih]
  have hcon : ∀ (P : CParams), P.strip = true → ∀ items, constructO V P items = construct P items := by
    intro P hP items
    unfold constructO construct
    rw [hloop P hP]
  have hsl : ∀ cs items, solveLoopO A V p cs items = solveLoop A p cs items := by
    intro cs
    induction cs with
    | nil => intro items; rfl
    | cons c cs ih =>
      intro items
      obtain ⟨cid, c⟩ := c
      unfold solveLoopO solveLoop
      simp only [ih, hcon (p.params A c) hst]
  unfold solveO solve
  simp only [hsl]
  cases seq <;> rfl

/-- **C117**: whatever the objective, solving never fails (given known ids). -/
theorem C117_total (A : Arith) (V : Objective) (p : SolveIn) (hv : ValidIn p) (seq : Option (List String))
    (hs : KnownSeq p seq) : ∃ sol ov, solveO A V p seq = .ok (sol, ov) ∧
      sol.map (·.1) = p.containers.map (·.1) ∧ ov.map (·.1) = p.containers.map (·.1) := by
  obtain ⟨sol, ov, h1, _, h3⟩ := solveO_chain (A := A) (V := V) hv hs
  exact ⟨sol, ov, h1, h3.keys⟩

theorem validSizes_pool {items : PyDict String Dim} (h : ValidSizes items) (f : String × Dim → Bool) :
    ValidSizes (items.filter f) := validSizes_sublist List.filter_sublist h

/-- one container alone, with a value that stays 0 -/
theorem solve_single (A : Arith) (p : SolveIn) (cid : String) (c : Dim) (pool : PyDict String Dim) :
    (pool = [] → solve A.idle (p.only cid c pool) none = .ok ([(cid, [])], [(cid, 0)])) ∧
    (∀ full, pool ≠ [] → construct (p.params A c).idle pool = .ok full →
      solve A.idle (p.only cid c pool) none = .ok ([(cid, full.solution)], [(cid, full.obj)])) := by
  constructor
  · intro h; subst h; rfl
  · intro full hne h
    have e : SolveIn.params A.idle (p.only cid c pool) c = (p.params A c).idle := rfl
    show solveLoop A.idle (p.only cid c pool) [(cid, c)] pool = _
    simp only [solveLoop, bind, Except.bind, if_neg hne, e, h]
    rfl

/-- **C117**: the objective only decides when a container is closed.  What a container holds is the beginning of the packing
of this container, alone, with the items that earlier containers left, in which nothing is closed early; and all of it if the
value of the container stays below 1. -/
theorem C117_prefix (A : Arith) (V : Objective) (p : SolveIn) (hv : ValidIn p) (seq : Option (List String))
    (hs : KnownSeq p seq) (sol : Solution) (ov : ObjVals) (h : solveO A V p seq = .ok (sol, ov))
    (before : Solution) (cid : String) (m : PyDict String Rect) (after : Solution)
    (hsplit : sol = before ++ (cid, m) :: after) (c : Dim) (hc : (cid, c) ∈ p.containers) :
    ∃ rest ov', solve A.idle (p.only cid c
        ((solvedFor p.items seq).filter (fun q => q.1 ∉ placedIds before))) none = .ok ([(cid, m ++ rest)], ov') ∧
      ∀ v, (cid, v) ∈ ov → p.strip = true ∨ v < 1 → rest = [] := by
  obtain ⟨hval, hch⟩ := solveO_ok hv hs h
  obtain ⟨c', v, pool, h1, h2, h3, h4⟩ := hch.split hval.1 before cid m after hsplit
  have hcc : c' = c := by
    have e1 := PyDict.find?_of_mem hv.conts.1 h1
    rw [PyDict.find?_of_mem hv.conts.1 hc] at e1
    injection e1 with e1; exact e1.symm
  subst hcc
  rw [← h3]
  rcases h4 with ⟨hp, rfl, rfl⟩ | ⟨hp, r, full, ext, e1, e2, e3, rfl, rfl⟩
  · exact ⟨[], _, (solve_single A p cid c' pool).1 hp, fun _ _ _ => rfl⟩
  · refine ⟨ext, [(cid, full.obj)], ?_, ?_⟩
    · rw [(solve_single A p cid c' pool).2 full hp e2, e3.whole]
    · intro v hv' hst
      have hn : (ov.map (·.1)).Nodup := by rw [hch.keys.2]; exact hv.conts.1
      have : v = r.obj := by
        have e1 := PyDict.find?_of_mem hn hv'
        rw [PyDict.find?_of_mem hn h2] at e1
        injection e1 with e1; exact e1.symm
      subst this
      refine e3.stop ?_
      rcases hst with h | h
      · exact .inl h
      · exact .inr (fun h' => absurd h (not_lt.2 h'))

/-- **C117**: every packing found with any objective is as good a packing as those of `solve`: all items inside, sized as
declared, each supported, each placed at most once, no overlaps (with the exception of C01). -/
theorem C117_packing (A : Arith) (V : Objective) (p : SolveIn) (hv : ValidIn p) (seq : Option (List String))
    (hs : KnownSeq p seq) (sol : Solution) (ov : ObjVals) (h : solveO A V p seq = .ok (sol, ov)) :
    (placedIds sol).Nodup ∧ (∀ id ∈ placedIds sol, id ∈ (solvedFor p.items seq).map (·.1)) ∧
    ∀ cid m, (cid, m) ∈ sol → ∃ c, (cid, c) ∈ p.containers ∧
      (∀ q ∈ m, Inside c.w (lenOf p c) q.2 ∧ ∃ d, (q.1, d) ∈ p.items ∧ SizedAs p.rotation d q.2) ∧
      (∀ earlier id r later, m = earlier ++ (id, r) :: later → Supported (earlier.map (·.2)) r) ∧
      (m.map (·.2)).Pairwise SharesOnlyMiddle ∧
      ((∀ q ∈ p.items, ¬ LowStrip p.rotation q.2) → (m.map (·.2)).Pairwise Spec.Disjoint) := by
  obtain ⟨hval, hch⟩ := solveO_ok hv hs h
  obtain ⟨rem, hperm⟩ := hch.perm
  refine ⟨(List.nodup_append.1 (hperm.nodup_iff.2 hval.1)).1, fun id hid => hperm.mem_iff.1 (List.mem_append_left _ hid), ?_⟩
  intro cid m hm
  obtain ⟨before, after, hsplit⟩ := List.append_of_mem hm
  obtain ⟨c, hc⟩ : ∃ c, (cid, c) ∈ p.containers := by
    have : cid ∈ p.containers.map (·.1) := by rw [← hch.keys.1]; exact List.mem_map_of_mem (f := (·.1)) hm
    obtain ⟨⟨a, c⟩, hac, rfl⟩ := List.mem_map.1 this
    exact ⟨c, hac⟩
  obtain ⟨rest, ov', hsol, _⟩ := C117_prefix A V p hv seq hs sol ov h before cid m after hsplit c hc
  generalize hpool : (solvedFor p.items seq).filter (fun q => q.1 ∉ placedIds before) = pool at hsol
  have hpv : ValidSizes pool := by rw [← hpool]; exact validSizes_pool hval _
  have hsub : ∀ q ∈ pool, q ∈ p.items := by
    intro q hq
    rw [← hpool, List.mem_filter] at hq
    exact solvedFor_mem _ hq.1
  have hv' : ValidIn (p.only cid c pool) :=
    ⟨⟨by simp [SolveIn.only], by intro q hq; simp only [SolveIn.only, List.mem_singleton] at hq; subst hq; exact hv.conts.2 _ hc⟩, hpv, hv.height⟩
  have hs' : KnownSeq (p.only cid c pool) none := by intro s h; cases h
  refine ⟨c, hc, ?_, ?_, ?_, ?_⟩
  · intro q hq
    obtain ⟨c', hc', hin⟩ := C03_inside A.idle _ hv' none hs' _ _ hsol cid (m ++ rest) (by simp)
    simp only [SolveIn.only, List.mem_singleton, Prod.mk.injEq, true_and] at hc'
    subst hc'
    refine ⟨hin q (List.mem_append_left _ hq), ?_⟩
    obtain ⟨d, hd, hsz⟩ := C05_sizes A.idle _ hv' none hs' _ _ hsol cid (m ++ rest) (by simp) q.1 q.2 (List.mem_append_left _ hq)
    exact ⟨d, hsub _ hd, hsz⟩
  · intro earlier id r later hml
    exact C09_supported A.idle _ hv' none hs' _ _ hsol cid (m ++ rest) (by simp) earlier id r (later ++ rest) (by rw [hml]; simp)
  · have := C01_shared_partial A.idle _ hv' none hs' _ _ hsol cid (m ++ rest) (by simp)
    rw [List.map_append] at this
    exact (List.pairwise_append.1 this).1
  · intro hlow
    have := C02_no_overlap A.idle _ hv' none hs' (fun q hq => hlow q (hsub q hq)) _ _ hsol cid (m ++ rest) (by simp)
    rw [List.map_append] at this
    exact (List.pairwise_append.1 this).1

/-- **C117**: the value of a container is the sum of the values of its items, in the order in which they were placed; the
objective is given the size and position of the item as placed, the size of the container and its cells, of which those of the
items placed so far (with this one) are not 0; and the container is closed as soon as the value reaches 1: before the last item
it was less. -/
theorem C117_value (A : Arith) (V : Objective) (p : SolveIn) (hv : ValidIn p) (seq : Option (List String))
    (hs : KnownSeq p seq) (hb : p.strip = false) (sol : Solution) (ov : ObjVals) (h : solveO A V p seq = .ok (sol, ov))
    (cid : String) (m : PyDict String Rect) (hm : (cid, m) ∈ sol) (c : Dim) (hc : (cid, c) ∈ p.containers) :
    ∃ l : List ((String × Rect) × Grid), m = l.map (·.1) ∧ (cid, valueOf V A c.w c.l l) ∈ ov ∧
      (∀ l1 l2, l = l1 ++ l2 → l2 ≠ [] → valueOf V A c.w c.l l1 < 1) ∧
      (∀ l1 q l2, l = l1 ++ q :: l2 → ∀ y x, cell q.2 y x ≠ 0 ↔ ∃ p ∈ l1.map (·.1) ++ [q.1], Covers p.2 x y) := by
  obtain ⟨hval, hch⟩ := solveO_ok hv hs h
  obtain ⟨before, after, hsplit⟩ := List.append_of_mem hm
  obtain ⟨c', u, pool, h1, h2, h3, h4⟩ := hch.split hval.1 before cid m after hsplit
  have hcc : c' = c := by
    have e1 := PyDict.find?_of_mem hv.conts.1 h1
    rw [PyDict.find?_of_mem hv.conts.1 hc] at e1
    injection e1 with e1; exact e1.symm
  subst hcc
  rcases h4 with ⟨hp, rfl, rfl⟩ | ⟨hp, r, full, ext, e1, e2, e3, rfl, rfl⟩
  · refine ⟨[], rfl, h2, ?_, ?_⟩
    · intro l1 l2 hl hne
      exact absurd (List.append_eq_nil_iff.1 hl.symm).2 hne
    · intro l1 q l2 hl
      simp at hl
  · have hL : (p.params A c').L = c'.l := by rw [params_L]; unfold lenOf; rw [hb]; rfl
    obtain ⟨l, b1, b2, b3, b4⟩ := e3.value hb
    rw [hL] at b2 b3
    refine ⟨l, b1, ?_, b3, b4⟩
    have : r.obj = valueOf V A c'.w c'.l l := b2
    rw [← this]; exact h2

/-! ### the hypotheses are met -/

/-- an objective that counts items: a container is closed after two of them -/
def twoItems : Objective := fun _ _ _ _ _ _ _ => 1 / 2

/-- two containers and five small items -/
def twoDemo : SolveIn :=
  ⟨[("a", ⟨10, 10⟩), ("b", ⟨10, 10⟩)],
   [("p", ⟨2, 2⟩), ("q", ⟨2, 3⟩), ("r", ⟨4, 2⟩), ("s", ⟨2, 2⟩), ("t", ⟨2, 2⟩)], defaultStrategy, false, false, 0⟩

theorem twoDemo_valid : ValidIn twoDemo := ⟨⟨by decide, by decide⟩, ⟨by decide, by decide⟩, nofun⟩

example : (solveO Arith.exact twoItems twoDemo none).toOption = some
    ([("a", [("p", ⟨0, 0, 2, 2⟩), ("q", ⟨0, 2, 2, 3⟩)]), ("b", [("r", ⟨0, 0, 4, 2⟩), ("s", ⟨0, 2, 2, 2⟩)])],
     [("a", 1), ("b", 1)]) := by decide +kernel

end HP
