import Verif.Proofs.Solve
import Mathlib.Algebra.Order.Field.Basic
import Mathlib.Algebra.Order.Field.Rat
/-
Property theorems C01 - C12, C15: what `solve()` returns.

`solve A p seq` is the model of `HyperPack.solve(sequence=seq)` on an instance whose data
are `p`; `A` is the floating point arithmetic (any rounding).  `ValidIn p` says that the
instance passed validation: distinct ids, positive sizes, positive strip height.
`lenOf p c` is the length of container `c` or `container_height` in strip packing.
A solution is a list of `(container id, list of (item id, [Xo, Yo, w, l]))` in dict order.
-/
namespace HP
open Spec

/-! ### A concrete instance used to show that the hypotheses can be met -/

/-- two containers, seven items, default strategy, rotation on -/
def demo : SolveIn where
  containers := [("c0", ⟨6, 5⟩), ("c1", ⟨4, 4⟩)]
  items := [("a", ⟨3, 2⟩), ("b", ⟨2, 4⟩), ("c", ⟨2, 2⟩), ("d", ⟨5, 2⟩), ("e", ⟨3, 3⟩),
            ("f", ⟨9, 9⟩), ("g", ⟨2, 1⟩)]
  strategy := defaultStrategy
  rotation := true
  strip := false
  height := 0

theorem demo_valid : ValidIn demo where
  conts := by constructor <;> decide
  items := by constructor <;> decide
  height := by decide

/-- the same items on a strip of width 6 and height 20 -/
def demoStrip : SolveIn := { demo with containers := [("c0", ⟨6, 1⟩)], strip := true, height := 20 }

theorem demoStrip_valid : ValidIn demoStrip where
  conts := by constructor <;> decide
  items := by constructor <;> decide
  height := by decide

/-- what the model computes on `demo`: both containers are used, `d` and `f` are left over -/
theorem demo_solve : solve Arith.exact demo none = .ok
    ([("c0", [("a", ⟨0, 0, 3, 2⟩), ("b", ⟨0, 2, 4, 2⟩), ("g", ⟨0, 4, 2, 1⟩), ("c", ⟨3, 0, 2, 2⟩)]),
      ("c1", [("e", ⟨0, 0, 3, 3⟩)])], [("c0", 2 / 3), ("c1", 9 / 16)]) := by decide +kernel

theorem demo_solve_seq : solve Arith.exact demo (some ["d", "a", "b", "a"]) = .ok
    ([("c0", [("d", ⟨0, 0, 5, 2⟩), ("a", ⟨0, 2, 3, 2⟩)]), ("c1", [("b", ⟨0, 0, 2, 4⟩)])],
     [("c0", 8 / 15), ("c1", 1 / 2)]) := by decide +kernel

theorem demoStrip_solve : solve Arith.exact demoStrip none = .ok
    ([("c0", [("a", ⟨0, 0, 3, 2⟩), ("b", ⟨0, 2, 2, 4⟩), ("c", ⟨0, 6, 2, 2⟩), ("d", ⟨0, 8, 5, 2⟩),
      ("e", ⟨0, 10, 3, 3⟩), ("g", ⟨0, 13, 2, 1⟩)])], [("c0", 1 / 2)]) := by decide +kernel

/-! ### C01, C02: overlap -/

/-- a problem without rotation, solved with the default strategy -/
def overlapDemo : SolveIn where
  containers := [("c0", ⟨8, 5⟩)]
  items := [("i0", ⟨3, 3⟩), ("i1", ⟨1, 2⟩), ("i2", ⟨2, 5⟩), ("i3", ⟨5, 1⟩)]
  strategy := defaultStrategy
  rotation := false
  strip := false
  height := 0

theorem overlapDemo_valid : ValidIn overlapDemo where
  conts := by constructor <;> decide
  items := by constructor <;> decide
  height := by decide

/-- C01 is false of the code: with the default strategy `i3` is laid through `i2`
(both cover the unit cell (3, 3)). -/
theorem C01_refuted : ValidIn overlapDemo ∧
    ∃ sol ov m r2 r3, solve Arith.exact overlapDemo none = .ok (sol, ov) ∧ ("c0", m) ∈ sol ∧
      ("i2", r2) ∈ m ∧ ("i3", r3) ∈ m ∧ Covers r2 3 3 ∧ Covers r3 3 3 := by
  refine ⟨overlapDemo_valid, ?_⟩
  have h : solve Arith.exact overlapDemo none = .ok
      ([("c0", [("i0", ⟨0, 0, 3, 3⟩), ("i1", ⟨0, 3, 1, 2⟩), ("i2", ⟨3, 0, 2, 5⟩),
        ("i3", ⟨1, 3, 5, 1⟩)])], [("c0", 13 / 20)]) := by decide +kernel
  exact ⟨_, _, [("i0", ⟨0, 0, 3, 3⟩), ("i1", ⟨0, 3, 1, 2⟩), ("i2", ⟨3, 0, 2, 5⟩),
        ("i3", ⟨1, 3, 5, 1⟩)], ⟨3, 0, 2, 5⟩, ⟨1, 3, 5, 1⟩, h, by simp, by simp, by simp, by
    simp [Covers], by simp [Covers]⟩

/-- C02: no two items overlap, provided no item can be laid as a strip one unit high and
three or more units wide. For every arithmetic, strategy, sequence and container set. -/
theorem C02_no_overlap (A : Arith) (p : SolveIn) (hv : ValidIn p) (seq : Option (List String))
    (hs : KnownSeq p seq) (hlow : ∀ q ∈ p.items, ¬ LowStrip p.rotation q.2)
    (sol : Solution) (ov : ObjVals) (h : solve A p seq = .ok (sol, ov)) :
    ∀ cid m, (cid, m) ∈ sol → (m.map (·.2)).Pairwise Disjoint := by
  intro cid m hm
  obtain ⟨_, rem, hch⟩ := solve_ok hv hs h
  obtain ⟨c, v, pool, h1, h2, h3, h4, h5⟩ := hch.mem cid m hm
  rcases h5 with ⟨_, rfl, _⟩ | ⟨_, r, hr, hf, rfl, _, _⟩
  · simp
  · exact hf.disj (fun q hq => hlow q (solvedFor_mem q (h3.subset hq)))

/-- C01, the part that is true: as C02 (missing: problems with items that can be laid as
strips one unit high and at least three wide, for which C01 is false, `C01_refuted`). -/
theorem C01_partial (A : Arith) (p : SolveIn) (hv : ValidIn p) (seq : Option (List String))
    (hs : KnownSeq p seq) (hlow : ∀ q ∈ p.items, ¬ LowStrip p.rotation q.2)
    (sol : Solution) (ov : ObjVals) (h : solve A p seq = .ok (sol, ov)) :
    ∀ cid m, (cid, m) ∈ sol → (m.map (·.2)).Pairwise Disjoint :=
  C02_no_overlap A p hv seq hs hlow sol ov h

/-- C01, for every problem: in the order in which the items were put, an item that shares a
unit cell with an earlier one is laid one unit high, and each shared cell lies strictly
between its two ends.  So two items that are at least two units high never overlap, whatever
the other items are (missing: the low strips, `C01_refuted`). -/
theorem C01_shared_partial (A : Arith) (p : SolveIn) (hv : ValidIn p) (seq : Option (List String))
    (hs : KnownSeq p seq) (sol : Solution) (ov : ObjVals) (h : solve A p seq = .ok (sol, ov)) :
    ∀ cid m, (cid, m) ∈ sol → (m.map (·.2)).Pairwise SharesOnlyMiddle := by
  intro cid m hm
  obtain ⟨_, rem, hch⟩ := solve_ok hv hs h
  obtain ⟨c, v, pool, h1, h2, h3, h4, h5⟩ := hch.mem cid m hm
  rcases h5 with ⟨_, rfl, _⟩ | ⟨_, r, hr, hf, rfl, _, _⟩
  · simp
  · exact hf.over

/-- the problem of `C01_refuted` meets the hypotheses, and its two overlapping items are as
`C01_shared_partial` says -/
example : ValidIn overlapDemo ∧ (∃ r, solve Arith.exact overlapDemo none = .ok r) ∧
    ¬ Spec.Disjoint ⟨3, 0, 2, 5⟩ ⟨1, 3, 5, 1⟩ ∧ SharesOnlyMiddle ⟨3, 0, 2, 5⟩ ⟨1, 3, 5, 1⟩ := by
  refine ⟨overlapDemo_valid, ⟨_, (show solve Arith.exact overlapDemo none = .ok
      ([("c0", [("i0", ⟨0, 0, 3, 3⟩), ("i1", ⟨0, 3, 1, 2⟩), ("i2", ⟨3, 0, 2, 5⟩),
        ("i3", ⟨1, 3, 5, 1⟩)])], [("c0", 13 / 20)]) by decide +kernel)⟩, ?_, ?_⟩
  · intro h; exact h 3 3 (by simp [Covers])
  · intro x y h1 h2; simp only [Covers] at h1 h2; refine ⟨rfl, ?_, ?_⟩ <;> simp only <;> omega

example : ValidIn demo ∧ (∀ q ∈ demo.items, ¬ LowStrip demo.rotation q.2) ∧
    KnownSeq demo (some ["d", "a", "b", "a"]) ∧
    ∃ r, solve Arith.exact demo (some ["d", "a", "b", "a"]) = .ok r := by
  refine ⟨demo_valid, ?_, ?_, _, demo_solve_seq⟩
  · unfold LowStrip; decide
  · intro s hs; injection hs with hs; subst hs; decide

/-! ### C03: inside the container -/

/-- C03 -/
theorem C03_inside (A : Arith) (p : SolveIn) (hv : ValidIn p) (seq : Option (List String))
    (hs : KnownSeq p seq) (sol : Solution) (ov : ObjVals) (h : solve A p seq = .ok (sol, ov)) :
    ∀ cid m, (cid, m) ∈ sol → ∃ c, (cid, c) ∈ p.containers ∧
      ∀ q ∈ m, Inside c.w (lenOf p c) q.2 := by
  intro cid m hm
  obtain ⟨_, rem, hch⟩ := solve_ok hv hs h
  obtain ⟨c, v, pool, h1, h2, h3, h4, h5⟩ := hch.mem cid m hm
  refine ⟨c, h1, ?_⟩
  rcases h5 with ⟨_, rfl, _⟩ | ⟨_, r, hr, hf, rfl, _, _⟩
  · simp
  · exact hf.inside

/-! ### C04: each item at most once -/

/-- C04: the containers of the solution are exactly the containers, no id is placed twice
(in one container or in two), and only items that were to be packed are placed. -/
theorem C04_once (A : Arith) (p : SolveIn) (hv : ValidIn p) (seq : Option (List String))
    (hs : KnownSeq p seq) (sol : Solution) (ov : ObjVals) (h : solve A p seq = .ok (sol, ov)) :
    sol.map (·.1) = p.containers.map (·.1) ∧ ov.map (·.1) = p.containers.map (·.1) ∧
    (placedIds sol).Nodup ∧
    ∀ id ∈ placedIds sol, id ∈ (solvedFor p.items seq).map (·.1) ∧
      (∀ s, seq = some s → id ∈ s) := by
  obtain ⟨hval, rem, hch⟩ := solve_ok hv hs h
  have hk := hch.keys
  have hp := hch.perm
  have hmem : ∀ id ∈ placedIds sol, id ∈ (solvedFor p.items seq).map (·.1) := by
    intro id hid
    exact hp.mem_iff.1 (List.mem_append_left _ hid)
  refine ⟨hk.1, hk.2, ?_, ?_⟩
  · have : (placedIds sol ++ PyDict.keys rem).Nodup := hp.nodup_iff.2 hval.1
    exact (List.nodup_append.1 this).1
  · intro id hid
    refine ⟨hmem id hid, ?_⟩
    intro s hseq
    subst hseq
    have h1 := hmem id hid
    have h2 : id ∈ firstOcc s := by
      have := reorder_keys s (hs s rfl)
      unfold PyDict.keys at this
      rw [← this]; exact h1
    exact (mem_firstOcc s id).1 h2

/-! ### C05: sizes -/

/-- C05 -/
theorem C05_sizes (A : Arith) (p : SolveIn) (hv : ValidIn p) (seq : Option (List String))
    (hs : KnownSeq p seq) (sol : Solution) (ov : ObjVals) (h : solve A p seq = .ok (sol, ov)) :
    ∀ cid m, (cid, m) ∈ sol → ∀ id r, (id, r) ∈ m →
      ∃ d, (id, d) ∈ p.items ∧ SizedAs p.rotation d r := by
  intro cid m hm id r hr
  obtain ⟨_, rem, hch⟩ := solve_ok hv hs h
  obtain ⟨c, v, pool, h1, h2, h3, h4, h5⟩ := hch.mem cid m hm
  rcases h5 with ⟨_, rfl, _⟩ | ⟨_, res, hres, hf, rfl, _, _⟩
  · simp at hr
  · obtain ⟨d, hd, hsz⟩ := hf.sized _ hr
    exact ⟨d, solvedFor_mem _ (h3.subset hd), hsz⟩

example : ∃ sol ov m, solve Arith.exact demo none = .ok (sol, ov) ∧ ("c0", m) ∈ sol ∧
    ("b", (⟨0, 2, 4, 2⟩ : Rect)) ∈ m ∧ ("b", (⟨2, 4⟩ : Dim)) ∈ demo.items :=
  ⟨_, _, [("a", ⟨0, 0, 3, 2⟩), ("b", ⟨0, 2, 4, 2⟩), ("g", ⟨0, 4, 2, 1⟩), ("c", ⟨3, 0, 2, 2⟩)],
    demo_solve, by simp, by simp, by simp [demo]⟩

/-! ### C06: solve always finishes -/

/-- C06: with known ids `solve` returns a result (no exception, and the loop bounds of the
model, `Σ (w + l + 5) + 2` rounds per container, are never exhausted); with an unknown id it
raises KeyError. -/
theorem C06_total (A : Arith) (p : SolveIn) (hv : ValidIn p) (seq : Option (List String)) :
    (KnownSeq p seq → ∃ sol ov, solve A p seq = .ok (sol, ov)) ∧
    (¬ KnownSeq p seq → solve A p seq = .error .keyError) := by
  constructor
  · intro hs
    obtain ⟨sol, ov, _, h, _⟩ := solve_chain (A := A) hv hs
    exact ⟨sol, ov, h⟩
  · intro hs
    cases seq with
    | none => exact absurd (fun s h => by simp at h) hs
    | some s =>
      have : ∃ id ∈ s, id ∉ PyDict.keys p.items := by
        by_contra hcon
        apply hs
        intro s' hs' id hid
        injection hs' with hs'; subst hs'
        by_contra hn
        exact hcon ⟨id, hid, hn⟩
      unfold solve
      simp only [bind, Except.bind]
      rw [deepcopySeq_unknown s [] this]

theorem constructLoop_mono (P : CParams) : ∀ f s r, constructLoop P f s = .ok r →
    ∀ f', f ≤ f' → constructLoop P f' s = .ok r
  | 0, _, _, h => by simp [constructLoop] at h
  | f + 1, s, r, h => by
    intro f' hf
    obtain ⟨g, rfl⟩ : ∃ g, f' = g + 1 := ⟨f' - 1, by omega⟩
    unfold constructLoop at h ⊢
    split at h
    · exact h
    · rename_i pt hc
      split at h
      · rename_i hd; rw [if_pos hd]; exact h
      · rename_i hd
        rw [if_neg hd]
        simp only [bind, Except.bind] at h ⊢
        split at h
        · simp at h
        · rename_i s1 hs1
          exact constructLoop_mono P f s1 r h g (by omega)

/-- C06, the bound on the work: the `while True` loop started on any valid pool stops after
at most `Σ (w + l + 5) + 1` rounds, whatever larger number of rounds is allowed. -/
theorem C06_rounds (P : CParams) (items : PyDict String Dim) (hg : ValidSizes items)
    (hW : 0 < P.W) (hL : 0 < P.L) :
    ∃ s, ∀ fuel, (items.map (fun q => q.2.w + q.2.l + 5)).sum + 2 ≤ fuel →
      constructLoop P fuel (constructInit P items) = .ok s := by
  obtain ⟨n, s, h, _⟩ := construct_run (P := P) hg hW hL
  exact ⟨s, fun fuel hf => constructLoop_mono P _ _ _ h fuel hf⟩

/-! ### C07, C08: reported utilization -/

/-- C07: in bin packing the value reported for a container is the covered area over the
container's area. -/
theorem C07_utilization (p : SolveIn) (hv : ValidIn p) (hb : p.strip = false)
    (seq : Option (List String)) (hs : KnownSeq p seq) (sol : Solution) (ov : ObjVals)
    (h : solve Arith.exact p seq = .ok (sol, ov)) :
    ∀ cid m, (cid, m) ∈ sol → ∃ c v, (cid, c) ∈ p.containers ∧ (cid, v) ∈ ov ∧
      v = (totalArea (m.map (·.2)) : Rat) / ((c.w * c.l : Nat) : Rat) ∧ 0 ≤ v ∧
      ((∀ q ∈ p.items, ¬ LowStrip p.rotation q.2) → v ≤ 1) := by
  intro cid m hm
  obtain ⟨_, rem, hch⟩ := solve_ok hv hs h
  obtain ⟨c, v, pool, h1, h2, h3, h4, h5⟩ := hch.mem cid m hm
  have hc := hv.conts.2 _ h1
  have hcpos : 0 < ((c.w * c.l : Nat) : Rat) := by
    have := Nat.mul_pos hc.1 hc.2
    exact Rat.natCast_pos.2 this
  have heq : v = (totalArea (m.map (·.2)) : Rat) / ((c.w * c.l : Nat) : Rat) := by
    rcases h5 with ⟨_, rfl, rfl⟩ | ⟨_, r, hr, hf, rfl, rfl, _⟩
    · simp [totalArea]
    · have := hf.objBin hb rfl
      rw [params_W, params_L] at this
      simp only [lenOf, hb, Bool.false_eq_true, if_false] at this
      exact this
  refine ⟨c, v, h1, h2, heq, ?_, ?_⟩
  · rw [heq]
    exact div_nonneg Rat.natCast_nonneg (le_of_lt hcpos)
  · intro hlow
    have hdis := C02_no_overlap Arith.exact p hv seq hs hlow sol ov h cid m hm
    have hle : totalArea (m.map (·.2)) ≤ c.w * c.l := by
      apply totalArea_le hdis
      intro r hr
      obtain ⟨q, hq, rfl⟩ := List.mem_map.1 hr
      rcases h5 with ⟨_, rfl, rfl⟩ | ⟨_, r, hr, hf, rfl, rfl, _⟩
      · simp at hq
      · have := hf.inside q hq
        rw [params_W, params_L] at this
        simpa [lenOf, hb] using this
    rw [heq, div_le_one hcpos]
    exact Rat.natCast_le_natCast.2 hle

/-- C07, the bound fails with 1-high strips: utilization 11/10 with the default strategy. -/
def overfullDemo : SolveIn where
  containers := [("c0", ⟨5, 4⟩)]
  items := [("i0", ⟨2, 2⟩), ("i1", ⟨2, 4⟩), ("i2", ⟨1, 2⟩), ("i3", ⟨1, 3⟩), ("i4", ⟨1, 1⟩),
            ("i5", ⟨4, 1⟩)]
  strategy := defaultStrategy
  rotation := false
  strip := false
  height := 0

/-- the hypothesis of the bound in C07 is needed: a container can be reported 110% full -/
theorem C07_bound_refuted : ValidIn overfullDemo ∧
    ∃ sol, solve Arith.exact overfullDemo none = .ok (sol, [("c0", 11 / 10)]) := by
  refine ⟨⟨by constructor <;> decide, by constructor <;> decide, by decide⟩, ?_⟩
  refine ⟨[("c0", [("i0", ⟨0, 0, 2, 2⟩), ("i2", ⟨0, 2, 1, 2⟩), ("i1", ⟨2, 0, 2, 4⟩),
    ("i4", ⟨1, 2, 1, 1⟩), ("i5", ⟨1, 3, 4, 1⟩), ("i3", ⟨4, 0, 1, 3⟩)])], by decide +kernel⟩

example : ∃ sol, solve Arith.exact demo none = .ok (sol, [("c0", 2 / 3), ("c1", 9 / 16)]) :=
  ⟨_, demo_solve⟩

/-- a strip of width 2 with one 2 × 2 item -/
def stripDemo : SolveIn where
  containers := [("strip", ⟨2, 1⟩)]
  items := [("i0", ⟨2, 2⟩)]
  strategy := defaultStrategy
  rotation := true
  strip := true
  height := 20

/-- C08 is false of the code: a single 2 × 2 item on a strip of width 2 (a perfect packing
of height 2) is reported with utilization 2. -/
theorem C08_refuted : ValidIn stripDemo ∧
    solve Arith.exact stripDemo none = .ok ([("strip", [("i0", ⟨0, 0, 2, 2⟩)])], [("strip", 2)]) := by
  refine ⟨⟨by constructor <;> decide, by constructor <;> decide, by decide⟩, by decide +kernel⟩

/-- C08, what the code reports: the placed area over strip width times (stack height - 1),
the latter not below 1. Missing: the divisor is one row short of the stack height. -/
theorem C08_partial (A : Arith) (p : SolveIn) (hv : ValidIn p) (hb : p.strip = true)
    (seq : Option (List String)) (hs : KnownSeq p seq) (sol : Solution) (ov : ObjVals)
    (h : solve A p seq = .ok (sol, ov)) :
    ∀ cid m, (cid, m) ∈ sol → m ≠ [] → ∃ c v, (cid, c) ∈ p.containers ∧ (cid, v) ∈ ov ∧
      v = A.div (totalArea (m.map (·.2))) (c.w * max 1 (stackHeight (m.map (·.2)) - 1)) := by
  intro cid m hm hne
  obtain ⟨_, rem, hch⟩ := solve_ok hv hs h
  obtain ⟨c, v, pool, h1, h2, h3, h4, h5⟩ := hch.mem cid m hm
  rcases h5 with ⟨_, rfl, rfl⟩ | ⟨_, r, hr, hf, rfl, rfl, _⟩
  · exact absurd rfl hne
  · exact ⟨c, _, h1, h2, hf.objStrip hb⟩

example : ∃ m v, solve Arith.exact demoStrip none = .ok ([("c0", m)], [("c0", v)]) ∧
    m.length = 6 ∧ stackHeight (m.map (·.2)) = 14 ∧ v = 39 / (6 * 13) :=
  ⟨_, _, demoStrip_solve, rfl, rfl, by decide +kernel⟩

/-! ### C09: no floating items -/

/-- C09: every placed item's origin is on the bottom or left wall or rests on an item placed
earlier in the same container. -/
theorem C09_supported (A : Arith) (p : SolveIn) (hv : ValidIn p) (seq : Option (List String))
    (hs : KnownSeq p seq) (sol : Solution) (ov : ObjVals) (h : solve A p seq = .ok (sol, ov)) :
    ∀ cid m, (cid, m) ∈ sol → ∀ earlier id r later, m = earlier ++ (id, r) :: later →
      Supported (earlier.map (·.2)) r := by
  intro cid m hm earlier id r later heq
  obtain ⟨_, rem, hch⟩ := solve_ok hv hs h
  obtain ⟨c, v, pool, h1, h2, h3, h4, h5⟩ := hch.mem cid m hm
  rcases h5 with ⟨_, rfl, rfl⟩ | ⟨_, res, hr, hf, rfl, rfl, _⟩
  · simp at heq
  · exact hf.supp earlier (id, r) later heq

/-! ### C10: the first item -/

/-- C10: the first entry of a container's solution is the first item, among those left by the
containers before it, that fits the empty container; it is put at (0, 0), unrotated if it
fits that way. In particular the container stays empty exactly when none of them fits. -/
theorem C10_first_item (A : Arith) (p : SolveIn) (hv : ValidIn p) (seq : Option (List String))
    (hs : KnownSeq p seq) (sol : Solution) (ov : ObjVals) (h : solve A p seq = .ok (sol, ov))
    (before : Solution) (cid : String) (m : PyDict String Rect) (after : Solution)
    (hsplit : sol = before ++ (cid, m) :: after) (c : Dim) (hc : (cid, c) ∈ p.containers) :
    m.head? =
      (((solvedFor p.items seq).filter (fun q => q.1 ∉ placedIds before)).find?
        (fun q => FitsEmpty c.w (lenOf p c) p.rotation q.2)).map
          (fun q => (q.1, atOrigin c.w (lenOf p c) q.2)) := by
  obtain ⟨hval, rem, hch⟩ := solve_ok hv hs h
  obtain ⟨c', v, pool, h1, h2, h3, ⟨prev, h4, s1, s2, h6, h7⟩, h5⟩ := hch.mem cid m (by simp [hsplit])
  have hcc : c' = c := by
    have e1 := PyDict.find?_of_mem hv.conts.1 h1
    have e2 := PyDict.find?_of_mem hv.conts.1 hc
    rw [e1] at e2; injection e2
  subst hcc
  -- the split is unique because container ids are different
  have hb : before = s1 := by
    have hn : (sol.map (·.1)).Nodup := by
      have := hch.keys.1; unfold PyDict.keys at this; rw [this]; exact hv.conts.1
    have key : ∀ (a b a' b' : Solution), (a.map (·.1) ++ cid :: b.map (·.1)).Nodup →
        a ++ (cid, m) :: b = a' ++ (cid, m) :: b' → a = a' := by
      intro a
      induction a with
      | nil =>
        intro b a' b' hn heq
        cases a' with
        | nil => rfl
        | cons x a' =>
          exfalso
          simp only [List.nil_append, List.cons_append, List.cons.injEq] at heq
          obtain ⟨_, heq⟩ := heq
          simp only [List.map_nil, List.nil_append, List.nodup_cons] at hn
          exact hn.1 (by rw [heq]; simp)
      | cons y a ih =>
        intro b a' b' hn heq
        cases a' with
        | nil =>
          exfalso
          simp only [List.nil_append, List.cons_append, List.cons.injEq] at heq
          obtain ⟨rfl, heq⟩ := heq
          simp at hn
        | cons x a' =>
          simp at heq
          obtain ⟨rfl, heq⟩ := heq
          simp only [List.map_cons, List.cons_append, List.nodup_cons] at hn
          rw [ih b a' b' hn.2 heq]
    apply key before after s1 s2
    · rw [hsplit] at hn; simpa using hn
    · rw [← hsplit, h6]
  subst hb
  have hpool : pool = (solvedFor p.items seq).filter (fun q => q.1 ∉ placedIds before) := by
    apply sublist_eq_filter (·.1) h3 hval.1
    intro q hq
    rw [decide_eq_true_eq]
    have hn : (prev ++ PyDict.keys pool).Nodup := h4.nodup_iff.2 hval.1
    have hmem : q.1 ∈ prev ++ PyDict.keys pool := h4.mem_iff.2 (List.mem_map.2 ⟨q, hq, rfl⟩)
    rw [← h7]
    rw [List.nodup_append] at hn
    constructor
    · intro hnp
      rcases List.mem_append.1 hmem with h | h
      · exact absurd h hnp
      · exact h
    · intro hin hp
      exact hn.2.2 _ hp _ hin rfl
  rw [← hpool]
  rcases h5 with ⟨rfl, rfl, _⟩ | ⟨_, r, hr, hf, rfl, _, _⟩
  · simp
  · by_cases hex : ∃ q ∈ pool, FitsEmpty c'.w (lenOf p c') p.rotation q.2
    · obtain ⟨pre, id, d, post, rect, e1, e2, e3, e4⟩ := hf.first hex
      rw [e3]
      have hfits : FitsEmpty c'.w (lenOf p c') p.rotation d := by
        obtain ⟨hin, hsz⟩ : Inside c'.w (lenOf p c') rect ∧ SizedAs p.rotation d rect := by
          have hm' : (id, rect) ∈ r.solution := List.mem_of_mem_head? e3
          refine ⟨hf.inside _ hm', ?_⟩
          obtain ⟨d', hd', hsz⟩ := hf.sized _ hm'
          have hdm : (id, d) ∈ pool := by rw [e1]; simp
          have hpn : (PyDict.keys pool).Nodup := (validSizes_sublist h3 hval).1
          have a1 := PyDict.find?_of_mem hpn hd'
          have a2 := PyDict.find?_of_mem hpn hdm
          rw [a1] at a2; injection a2 with a2; subst a2
          exact hsz
        unfold Inside at hin
        rcases hsz with ⟨s1, s2⟩ | ⟨s0, s1, s2⟩
        · left; omega
        · right; exact ⟨s0, by omega, by omega⟩
      have hfind : List.find? (fun q => decide (FitsEmpty c'.w (lenOf p c') p.rotation q.2)) pool = some (id, d) := by
        rw [List.find?_eq_some_iff_append]
        refine ⟨by simpa using hfits, pre, post, e1, ?_⟩
        intro q hq
        have := e2 q hq
        simp only [Bool.not_eq_eq_eq_not, Bool.not_true, decide_eq_false_iff_not]
        exact this
      rw [hfind, e4]
      rfl
    · have hfind : List.find? (fun q => decide (FitsEmpty c'.w (lenOf p c') p.rotation q.2)) pool = none := by
        rw [List.find?_eq_none]
        intro q hq
        simp only [decide_eq_true_eq]
        intro hq2
        exact hex ⟨q, hq, hq2⟩
      rw [hfind]
      cases hsol : r.solution with
      | nil => rfl
      | cons q rest =>
        exfalso
        have hm' : q ∈ r.solution := by rw [hsol]; simp
        obtain ⟨d, hd, hsz⟩ := hf.sized q hm'
        have hin : Inside c'.w (lenOf p c') q.2 := hf.inside q hm'
        apply hex
        refine ⟨_, hd, ?_⟩
        unfold Inside at hin
        rcases hsz with ⟨s1, s2⟩ | ⟨s0, s1, s2⟩
        · left; simp only; omega
        · right; exact ⟨s0, by simp only; omega, by simp only; omega⟩

/-! ### C11: strategy -/

/-- C11: in every round of the construction, after the new points were appended to the end of
the queue of their class, the next point is the head (oldest entry) of the queue of the first
class of the strategy that has a pending point; there is no next point exactly when all
classes of the strategy are empty; all other queues keep their points in order. -/
theorem C11_next_point (P : CParams) (s s' : CState) (pt : Pt)
    (h : constructStep P s pt = .ok s') :
    ∃ gen : List (PClass × Pt),
      (∀ c, ∃ q, q = s.pools.get c ++ (gen.filter (·.1 = c)).map (·.2) ∧
        ((s'.pools.get c = q ∧ (s'.cur = none → c ∈ P.strategy → q = [])) ∨
          ∃ head pre post, P.strategy = pre ++ c :: post ∧ s'.cur = some head ∧
            q = head :: s'.pools.get c ∧
            ∀ c' ∈ pre, s.pools.get c' ++ (gen.filter (·.1 = c')).map (·.2) = [])) ∧
      (∀ head, s'.cur = some head → ∃ c ∈ P.strategy,
        s.pools.get c ++ (gen.filter (·.1 = c)).map (·.2) = head :: s'.pools.get c) := by
  unfold constructStep at h
  simp only [bind, Except.bind] at h
  split at h
  · simp at h
  rename_i s1 hs1
  have hgen : ∃ gen, s1.pools = s.pools.pushAll gen := by
    unfold handlePoint at hs1
    simp only [bind, Except.bind] at hs1
    split at hs1
    · simp at hs1
    split at hs1
    · injection hs1 with hs1; subst hs1; exact ⟨[], rfl⟩
    · split at hs1
      · simp at hs1
      split at hs1
      · simp at hs1
      split at hs1
      · simp at hs1
      split at hs1
      · simp at hs1
      rename_i gen _
      injection hs1 with hs1; subst hs1
      exact ⟨gen, rfl⟩
  obtain ⟨gen, hgen⟩ := hgen
  injection h with h; subst h
  refine ⟨gen, ?_, ?_⟩
  · intro c
    refine ⟨_, rfl, ?_⟩
    rw [← Pools.get_pushAll, ← hgen]
    rcases getCurrentPoint_spec P.strategy s1.pools with ⟨h1, h2⟩ | ⟨pre, c', post, q, rest, h1, h2, h3, h4⟩
    · rw [h1]; exact Or.inl ⟨rfl, fun _ hc => h2 c hc⟩
    · rw [h4]
      by_cases hc : c = c'
      · subst hc
        right
        refine ⟨q, pre, post, h1, rfl, ?_, ?_⟩
        · simp only; rw [Pools.get_set_self]; exact h3
        · intro c2 hc2; rw [← Pools.get_pushAll, ← hgen]; exact h2 c2 hc2
      · left
        refine ⟨by simp only; rw [Pools.get_set_ne _ _ hc], by simp⟩
  · intro head hhead
    rcases getCurrentPoint_spec P.strategy s1.pools with ⟨h1, h2⟩ | ⟨pre, c', post, q, rest, h1, h2, h3, h4⟩
    · rw [h1] at hhead; simp at hhead
    · rw [h4] at hhead ⊢
      injection hhead with hhead; subst hhead
      refine ⟨c', by rw [h1]; simp, ?_⟩
      rw [← Pools.get_pushAll, ← hgen, h3]
      simp only; rw [Pools.get_set_self]

/-- C11, observable consequences: an empty strategy places at most one item per container; a
strategy of A and A'' points only builds a stack at the left wall; a strategy of B and B''
points only builds a row on the bottom. -/
theorem C11_strategy_effects (A : Arith) (p : SolveIn) (hv : ValidIn p)
    (seq : Option (List String)) (hs : KnownSeq p seq) (sol : Solution) (ov : ObjVals)
    (h : solve A p seq = .ok (sol, ov)) :
    ∀ cid m, (cid, m) ∈ sol →
      (p.strategy = [] → m.length ≤ 1) ∧
      ((∀ c ∈ p.strategy, c = .A ∨ c = .A__) → ∀ q ∈ m, q.2.x = 0) ∧
      ((∀ c ∈ p.strategy, c = .B ∨ c = .B__) → ∀ q ∈ m, q.2.y = 0) := by
  intro cid m hm
  obtain ⟨_, rem, hch⟩ := solve_ok hv hs h
  obtain ⟨c, v, pool, h1, h2, h3, h4, h5⟩ := hch.mem cid m hm
  rcases h5 with ⟨_, rfl, rfl⟩ | ⟨_, res, hr, hf, rfl, rfl, _⟩
  · simp
  · exact ⟨hf.noStrat, hf.onlyA, hf.onlyB⟩

example : solve Arith.exact { demo with strategy := [.A__, .A] } none = .ok
    ([("c0", [("a", ⟨0, 0, 3, 2⟩), ("b", ⟨0, 2, 4, 2⟩), ("g", ⟨0, 4, 2, 1⟩)]),
      ("c1", [("c", ⟨0, 0, 2, 2⟩)])], [("c0", 8 / 15), ("c1", 1 / 4)]) := by decide +kernel

/-! ### C12: greedy completeness -/

/-- C12: an item that was to be packed and is in no container cannot be added to any
container (in strip packing, or when the container is not reported as full): not at the
bottom left corner; not on top of the left end of a placed item if the strategy has the
classes A and A''; not to the right of the bottom of a placed item if it has B and B''. -/
theorem C12_greedy (A : Arith) (p : SolveIn) (hv : ValidIn p) (seq : Option (List String))
    (hs : KnownSeq p seq) (sol : Solution) (ov : ObjVals) (h : solve A p seq = .ok (sol, ov))
    (id : String) (d : Dim) (hit : (id, d) ∈ solvedFor p.items seq) (hleft : id ∉ placedIds sol)
    (cid : String) (m : PyDict String Rect) (hm : (cid, m) ∈ sol) (c : Dim)
    (hc : (cid, c) ∈ p.containers) (v : Rat) (hvv : (cid, v) ∈ ov)
    (hfull : p.strip = true ∨ v < 1) :
    ¬ CanAdd c.w (lenOf p c) p.rotation (m.map (·.2)) d 0 0 ∧
    (.A ∈ p.strategy → .A__ ∈ p.strategy → ∀ q ∈ m,
      ¬ CanAdd c.w (lenOf p c) p.rotation (m.map (·.2)) d q.2.x (q.2.y + q.2.l)) ∧
    (.B ∈ p.strategy → .B__ ∈ p.strategy → ∀ q ∈ m,
      ¬ CanAdd c.w (lenOf p c) p.rotation (m.map (·.2)) d (q.2.x + q.2.w) q.2.y) := by
  obtain ⟨hval, rem, hch⟩ := solve_ok hv hs h
  obtain ⟨c', v', pool, h1, h2, h3, h4, h5⟩ := hch.mem cid m hm
  have hcc : c' = c := by
    have e1 := PyDict.find?_of_mem hv.conts.1 h1
    have e2 := PyDict.find?_of_mem hv.conts.1 hc
    rw [e1] at e2; injection e2
  subst hcc
  have hvv' : v' = v := by
    have hn : (PyDict.keys ov).Nodup := by rw [hch.keys.2]; exact hv.conts.1
    have e1 := PyDict.find?_of_mem hn h2
    have e2 := PyDict.find?_of_mem hn hvv
    rw [e1] at e2; injection e2
  subst hvv'
  -- the item is among those left over at the very end
  have hrem : (id, d) ∈ rem := by
    have hk : id ∈ PyDict.keys rem := by
      have : id ∈ placedIds sol ++ PyDict.keys rem :=
        hch.perm.mem_iff.2 (List.mem_map.2 ⟨_, hit, rfl⟩)
      rcases List.mem_append.1 this with h | h
      · exact absurd h hleft
      · exact h
    obtain ⟨q, hq, hq1⟩ := List.mem_map.1 hk
    obtain ⟨qi, qd⟩ := q
    simp only at hq1; subst hq1
    have e1 := PyDict.find?_of_mem hval.1 (hch.sub.subset hq)
    have e2 := PyDict.find?_of_mem hval.1 hit
    rw [e1] at e2; injection e2 with e2; subst e2
    exact hq
  rcases h5 with ⟨rfl, rfl, rfl⟩ | ⟨_, r, hr, hf, rfl, rfl, hsub⟩
  · -- an empty pool: then nothing is left over
    exfalso
    obtain ⟨prev, hp, s1, s2, e1, e2⟩ := h4
    have : id ∈ prev := by
      have := hp.mem_iff.2 (List.mem_map.2 ⟨_, hit, rfl⟩ : id ∈ PyDict.keys (solvedFor p.items seq))
      simpa [PyDict.keys] using this
    apply hleft
    rw [e1]
    rw [e2] at this
    unfold placedIds at this ⊢
    simp only [List.flatMap_append, List.mem_append]
    exact Or.inl this
  · have := hf.greedy (by
      rcases hfull with h | h
      · exact Or.inl h
      · exact Or.inr (Rat.not_le.2 h)) (id, d) (hsub.subset hrem)
    obtain ⟨g1, g2, g3⟩ := this
    refine ⟨g1, ?_, ?_⟩
    · intro a b q hq
      exact g2 a b q.2 (List.mem_map.2 ⟨q, hq, rfl⟩)
    · intro a b q hq
      exact g3 a b q.2 (List.mem_map.2 ⟨q, hq, rfl⟩)

example : ∃ sol ov, solve Arith.exact demo none = .ok (sol, ov) ∧
    ("d", (⟨5, 2⟩ : Dim)) ∈ solvedFor demo.items none ∧ "d" ∉ placedIds sol ∧
    ("c0", (2 / 3 : Rat)) ∈ ov ∧ (2 / 3 : Rat) < 1 ∧ PClass.A ∈ demo.strategy ∧
    PClass.A__ ∈ demo.strategy ∧ PClass.B ∈ demo.strategy ∧ PClass.B__ ∈ demo.strategy :=
  ⟨_, _, demo_solve, by simp [solvedFor, demo], by decide, by simp, by decide +kernel,
    by decide, by decide, by decide, by decide⟩

/-! ### C15: sequences -/

/-- C15: `solve(sequence=s)` is `solve()` on an instance that has exactly the items of `s`, in
order of first occurrence. -/
theorem C15_sequence (A : Arith) (p : SolveIn) (s : List String) :
    solve A p (some s) =
      if ∀ id ∈ s, id ∈ p.items.map (·.1) then solve A { p with items := reorder p.items s } none
      else .error .keyError := by
  by_cases h : ∀ id ∈ s, id ∈ p.items.map (·.1)
  · rw [if_pos h]
    unfold solve
    simp only [bind, Except.bind]
    rw [deepcopySeq_reorder h]
    have : ∀ cs items, solveLoop A p cs items =
        solveLoop A { p with items := reorder p.items s } cs items := by
      intro cs
      induction cs with
      | nil => intro items; rfl
      | cons c cs ih =>
        intro items
        unfold solveLoop
        split
        · simp only [ih]
        · simp only [ih]; rfl
    exact this _ _
  · rw [if_neg h]
    unfold solve
    simp only [bind, Except.bind]
    rw [deepcopySeq_unknown]
    by_contra hcon
    apply h
    intro id hid
    by_contra hn
    exact hcon ⟨id, hid, hn⟩

/-- C15: repeating ids in the sequence has no effect -/
theorem C15_repetitions (A : Arith) (p : SolveIn) (s : List String) :
    solve A p (some s) = solve A p (some (firstOcc s)) := by
  have hff : firstOcc (firstOcc s) = firstOcc s := by
    have : ∀ l : List String, l.Nodup → firstOcc l = l := by
      intro l hl
      induction l with
      | nil => rfl
      | cons a l ih =>
        rw [List.nodup_cons] at hl
        simp only [firstOcc]
        rw [ih hl.2, List.filter_eq_self.2]
        intro b hb
        simp only [ne_eq, decide_not, Bool.not_eq_eq_eq_not, Bool.not_true, decide_eq_false_iff_not]
        rintro rfl
        exact hl.1 hb
    exact this _ (nodup_firstOcc s)
  rw [C15_sequence, C15_sequence]
  have h1 : (∀ id ∈ firstOcc s, id ∈ p.items.map (·.1)) ↔ (∀ id ∈ s, id ∈ p.items.map (·.1)) := by
    constructor
    · intro h id hid; exact h id ((mem_firstOcc s id).2 hid)
    · intro h id hid; exact h id ((mem_firstOcc s id).1 hid)
  have h2 : reorder p.items (firstOcc s) = reorder p.items s := by
    unfold reorder; rw [hff]
  simp only [h1, h2]

example : reorder demo.items ["g", "a", "g", "c"] = [("g", ⟨2, 1⟩), ("a", ⟨3, 2⟩), ("c", ⟨2, 2⟩)] := by
  decide

end HP
