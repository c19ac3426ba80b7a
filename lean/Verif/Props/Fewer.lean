import Verif.Props.Divisible
/-
C133: fewer items never need more containers, if their lengths divide each other and come longest first; false otherwise.
-/
namespace HP
open Spec

/-- what `solve` made of a problem is a competing packing for any part of its items -/
theorem part_competes {A : Arith} {p : SolveIn} (hv : ValidIn p) {seq : Option (List String)} (hs : KnownSeq p seq)
    (hb : p.strip = false) (hlow : ∀ q ∈ p.items, ¬ LowStrip p.rotation q.2) {W L : Nat} (hc : ∀ c ∈ p.containers, c.2 = ⟨W, L⟩)
    {sol : Solution} {ov : ObjVals} (h : solve A p seq = .ok (sol, ov)) {items' : List (String × Dim)}
    (hsub : ∀ q ∈ items', q ∈ p.items ∧ q.1 ∈ placedIds sol) :
    ∃ other : List (List (String × Rect)), other.length = (sol.filter (fun c => !c.2.isEmpty)).length ∧
      (∀ m ∈ other, (m.map (·.2)).Pairwise Spec.Disjoint ∧
        ∀ q ∈ m, Inside W L q.2 ∧ ∃ d, (q.1, d) ∈ items' ∧ SizedAs p.rotation d q.2) ∧
      (∀ id ∈ items'.map (·.1), ∃ m ∈ other, id ∈ m.map (·.1)) := by
  refine ⟨(sol.filter (fun c => !c.2.isEmpty)).map (fun c => c.2.filter (fun q => decide (q.1 ∈ items'.map (·.1)))),
    by rw [List.length_map], ?_, ?_⟩
  · intro m hm
    obtain ⟨⟨cid, c⟩, hcm, rfl⟩ := List.mem_map.1 hm
    have hcs := (List.mem_filter.1 hcm).1
    have hdis := C02_no_overlap A p hv seq hs hlow sol ov h cid c hcs
    refine ⟨hdis.sublist (List.filter_sublist.map _), ?_⟩
    intro q hq
    rw [List.mem_filter] at hq
    have hq2 := of_decide_eq_true hq.2
    obtain ⟨⟨id, d⟩, hd, he⟩ := List.mem_map.1 hq2
    simp only at he
    subst he
    obtain ⟨d', hd', hsz⟩ := C05_sizes A p hv seq hs sol ov h cid c hcs q.1 q.2 hq.1
    have : d = d' := by
      have e1 := PyDict.find?_of_mem hv.items.1 (hsub _ hd).1
      have e2 := PyDict.find?_of_mem hv.items.1 hd'
      rw [e1] at e2
      exact Option.some.inj e2
    subst this
    refine ⟨?_, d, hd, hsz⟩
    obtain ⟨k, hk, hin⟩ := C03_inside A p hv seq hs sol ov h cid c hcs
    have := hin q hq.1
    unfold lenOf at this
    rw [hb, if_neg (by simp)] at this
    have e := hc _ hk
    simp only at e
    rw [e] at this
    exact this
  · intro id hid
    obtain ⟨q, hq, rfl⟩ := List.mem_map.1 hid
    have := (hsub q hq).2
    unfold placedIds at this
    obtain ⟨x, hx, hi⟩ := List.mem_flatMap.1 this
    obtain ⟨r, hr, he⟩ := List.mem_map.1 hi
    refine ⟨_, List.mem_map_of_mem (List.mem_filter.2 ⟨hx, ?_⟩), List.mem_map.2 ⟨r, List.mem_filter.2 ⟨hr, ?_⟩, he⟩⟩
    · have : x.2 ≠ [] := List.ne_nil_of_mem hr
      simpa using this
    · rw [he]; exact decide_eq_true hid

/-- **C133**, items of one width: leave out some of the items of a problem.  If the remaining items, of which all had been placed,
have one width and lengths that divide each other, and come longest first, then `solve` needs no more containers than before. -/
theorem C133_columns_partial (A : Arith) (p p' : SolveIn) (hv : ValidIn p) (hv' : ValidIn p') (seq seq' : Option (List String))
    (hs : KnownSeq p seq) (hs' : KnownSeq p' seq') (hb : p.strip = false) (hb' : p'.strip = false) (har : A = Arith.exact)
    (hlow : ∀ q ∈ p.items, ¬ LowStrip p.rotation q.2) (W L : Nat) (hc : ∀ c ∈ p.containers, c.2 = ⟨W, L⟩)
    (hc' : ∀ c ∈ p'.containers, c.2 = ⟨W, L⟩) (hrot : p'.rotation = p.rotation)
    (sol sol' : Solution) (ov ov' : ObjVals) (h : solve A p seq = .ok (sol, ov)) (h' : solve A p' seq' = .ok (sol', ov'))
    (hsub : ∀ q ∈ p'.items, q ∈ p.items ∧ q.1 ∈ placedIds sol) (w : Nat) (hw : 0 < w)
    (hone : OneWidth w p'.rotation p'.containers p'.items) (hst : ColumnOrder p'.strategy)
    (hsort : (solvedFor p'.items seq').Pairwise (fun a b => b.2.l ≤ a.2.l))
    (hdiv : ∀ q ∈ p'.items, ∀ q' ∈ p'.items, q.2.l ≤ q'.2.l → q.2.l ∣ q'.2.l) :
    (sol'.filter (fun c => !c.2.isEmpty)).length ≤ (sol.filter (fun c => !c.2.isEmpty)).length := by
  obtain ⟨other, h1, h2, h3⟩ := part_competes hv hs hb hlow hc h hsub
  rw [← h1]
  refine C132_columns A p' hv' seq' hs' hb' har w hw hone hst W L hc' hsort hdiv sol' ov' h' other (by rw [hrot]; exact h2) ?_
  intro id hid
  unfold placedIds at hid
  obtain ⟨x, hx, hi⟩ := List.mem_flatMap.1 hid
  obtain ⟨q, hq, rfl⟩ := List.mem_map.1 hi
  obtain ⟨d, hd, _⟩ := C05_sizes A p' hv' seq' hs' sol' ov' h' x.1 x.2 hx q.1 q.2 hq
  exact h3 _ (List.mem_map_of_mem (f := (·.1)) hd)

/-- **C133**, wide items: the same if no two of the remaining items fit side by side. -/
theorem C133_wide_partial (A : Arith) (p p' : SolveIn) (hv : ValidIn p) (hv' : ValidIn p') (seq seq' : Option (List String))
    (hs : KnownSeq p seq) (hs' : KnownSeq p' seq') (hb : p.strip = false) (hb' : p'.strip = false) (har : A = Arith.exact)
    (hlow : ∀ q ∈ p.items, ¬ LowStrip p.rotation q.2) (W L : Nat) (hc : ∀ c ∈ p.containers, c.2 = ⟨W, L⟩)
    (hc' : ∀ c ∈ p'.containers, c.2 = ⟨W, L⟩) (hrot : p'.rotation = p.rotation)
    (sol sol' : Solution) (ov ov' : ObjVals) (h : solve A p seq = .ok (sol, ov)) (h' : solve A p' seq' = .ok (sol', ov'))
    (hsub : ∀ q ∈ p'.items, q ∈ p.items ∧ q.1 ∈ placedIds sol)
    (hwide : Wide p'.rotation p'.containers p'.items) (hfit : ∀ q ∈ p'.items, q.2.w ≤ W) (hst : .A ∈ p'.strategy ∧ .A__ ∈ p'.strategy)
    (hsort : (solvedFor p'.items seq').Pairwise (fun a b => b.2.l ≤ a.2.l))
    (hdiv : ∀ q ∈ p'.items, ∀ q' ∈ p'.items, q.2.l ≤ q'.2.l → q.2.l ∣ q'.2.l) :
    (sol'.filter (fun c => !c.2.isEmpty)).length ≤ (sol.filter (fun c => !c.2.isEmpty)).length := by
  obtain ⟨other, h1, h2, h3⟩ := part_competes hv hs hb hlow hc h hsub
  rw [← h1]
  refine C132_wide A p' hv' seq' hs' hb' har hst hwide W L hc' hfit hsort hdiv sol' ov' h' other (by rw [hrot]; exact h2) ?_
  intro id hid
  unfold placedIds at hid
  obtain ⟨x, hx, hi⟩ := List.mem_flatMap.1 hid
  obtain ⟨q, hq, rfl⟩ := List.mem_map.1 hi
  obtain ⟨d, hd, _⟩ := C05_sizes A p' hv' seq' hs' sol' ov' h' x.1 x.2 hx q.1 q.2 hq
  exact h3 _ (List.mem_map_of_mem (f := (·.1)) hd)

/-- **C133**, items of one length: the same if the remaining items have one length of at least two and widths that divide each
other, and come widest first. -/
theorem C133_rows_partial (A : Arith) (p p' : SolveIn) (hv : ValidIn p) (hv' : ValidIn p') (seq seq' : Option (List String))
    (hs : KnownSeq p seq) (hs' : KnownSeq p' seq') (hb : p.strip = false) (hb' : p'.strip = false) (har : A = Arith.exact)
    (hlow : ∀ q ∈ p.items, ¬ LowStrip p.rotation q.2) (W L : Nat) (hc : ∀ c ∈ p.containers, c.2 = ⟨W, L⟩)
    (hc' : ∀ c ∈ p'.containers, c.2 = ⟨W, L⟩) (hrot : p'.rotation = p.rotation)
    (sol sol' : Solution) (ov ov' : ObjVals) (h : solve A p seq = .ok (sol, ov)) (h' : solve A p' seq' = .ok (sol', ov'))
    (hsub : ∀ q ∈ p'.items, q ∈ p.items ∧ q.1 ∈ placedIds sol) (t : Nat) (ht : 2 ≤ t)
    (hone : OneLength t p'.rotation p'.containers p'.items (fun c => c.l)) (hst : RowOrder p'.strategy)
    (hsort : (solvedFor p'.items seq').Pairwise (fun a b => b.2.w ≤ a.2.w))
    (hdiv : ∀ q ∈ p'.items, ∀ q' ∈ p'.items, q.2.w ≤ q'.2.w → q.2.w ∣ q'.2.w) :
    (sol'.filter (fun c => !c.2.isEmpty)).length ≤ (sol.filter (fun c => !c.2.isEmpty)).length := by
  obtain ⟨other, h1, h2, h3⟩ := part_competes hv hs hb hlow hc h hsub
  rw [← h1]
  refine C132_rows A p' hv' seq' hs' hb' har t ht hone hst W L hc' hsort hdiv sol' ov' h' other (by rw [hrot]; exact h2) ?_
  intro id hid
  unfold placedIds at hid
  obtain ⟨x, hx, hi⟩ := List.mem_flatMap.1 hid
  obtain ⟨q, hq, rfl⟩ := List.mem_map.1 hi
  obtain ⟨d, hd, _⟩ := C05_sizes A p' hv' seq' hs' sol' ov' h' x.1 x.2 hx q.1 q.2 hq
  exact h3 _ (List.mem_map_of_mem (f := (·.1)) hd)

/-- **C133**, long items: the same, along the floor, if no two of the remaining items fit on top of each other. -/
theorem C133_long_partial (A : Arith) (p p' : SolveIn) (hv : ValidIn p) (hv' : ValidIn p') (seq seq' : Option (List String))
    (hs : KnownSeq p seq) (hs' : KnownSeq p' seq') (hb : p.strip = false) (hb' : p'.strip = false) (har : A = Arith.exact)
    (hlow : ∀ q ∈ p.items, ¬ LowStrip p.rotation q.2) (W L : Nat) (hc : ∀ c ∈ p.containers, c.2 = ⟨W, L⟩)
    (hc' : ∀ c ∈ p'.containers, c.2 = ⟨W, L⟩) (hrot : p'.rotation = p.rotation)
    (sol sol' : Solution) (ov ov' : ObjVals) (h : solve A p seq = .ok (sol, ov)) (h' : solve A p' seq' = .ok (sol', ov'))
    (hsub : ∀ q ∈ p'.items, q ∈ p.items ∧ q.1 ∈ placedIds sol)
    (htall : Tall p'.rotation (fun c => c.l) p'.containers p'.items) (hfit : ∀ q ∈ p'.items, q.2.l ≤ L) (hst : .B ∈ p'.strategy ∧ .B__ ∈ p'.strategy)
    (hsort : (solvedFor p'.items seq').Pairwise (fun a b => b.2.w ≤ a.2.w))
    (hdiv : ∀ q ∈ p'.items, ∀ q' ∈ p'.items, q.2.w ≤ q'.2.w → q.2.w ∣ q'.2.w) :
    (sol'.filter (fun c => !c.2.isEmpty)).length ≤ (sol.filter (fun c => !c.2.isEmpty)).length := by
  obtain ⟨other, h1, h2, h3⟩ := part_competes hv hs hb hlow hc h hsub
  rw [← h1]
  refine C132_long A p' hv' seq' hs' hb' har hst htall W L hc' hfit hsort hdiv sol' ov' h' other (by rw [hrot]; exact h2) ?_
  intro id hid
  unfold placedIds at hid
  obtain ⟨x, hx, hi⟩ := List.mem_flatMap.1 hid
  obtain ⟨q, hq, rfl⟩ := List.mem_map.1 hi
  obtain ⟨d, hd, _⟩ := C05_sizes A p' hv' seq' hs' sol' ov' h' x.1 x.2 hx q.1 q.2 hq
  exact h3 _ (List.mem_map_of_mem (f := (·.1)) hd)

/-- **C133**, items of one width, in binary64 arithmetic, for problems of ordinary size -/
theorem C133_double_partial (p p' : SolveIn) (hv : ValidIn p) (hv' : ValidIn p') (seq seq' : Option (List String))
    (hs : KnownSeq p seq) (hs' : KnownSeq p' seq') (hb : p.strip = false) (hb' : p'.strip = false)
    (hsmall : ∀ c ∈ p'.containers, 10 * ((p'.items.length + 1) * (c.2.w * c.2.l)) < 2 ^ 53)
    (hlow : ∀ q ∈ p.items, ¬ LowStrip p.rotation q.2) (W L : Nat) (hc : ∀ c ∈ p.containers, c.2 = ⟨W, L⟩)
    (hc' : ∀ c ∈ p'.containers, c.2 = ⟨W, L⟩) (hrot : p'.rotation = p.rotation)
    (sol sol' : Solution) (ov ov' : ObjVals) (h : solve Arith.double p seq = .ok (sol, ov)) (h' : solve Arith.double p' seq' = .ok (sol', ov'))
    (hsub : ∀ q ∈ p'.items, q ∈ p.items ∧ q.1 ∈ placedIds sol) (w : Nat) (hw : 0 < w)
    (hone : OneWidth w p'.rotation p'.containers p'.items) (hst : ColumnOrder p'.strategy)
    (hsort : (solvedFor p'.items seq').Pairwise (fun a b => b.2.l ≤ a.2.l))
    (hdiv : ∀ q ∈ p'.items, ∀ q' ∈ p'.items, q.2.l ≤ q'.2.l → q.2.l ∣ q'.2.l) :
    (sol'.filter (fun c => !c.2.isEmpty)).length ≤ (sol.filter (fun c => !c.2.isEmpty)).length := by
  obtain ⟨other, h1, h2, h3⟩ := part_competes hv hs hb hlow hc h hsub
  rw [← h1]
  refine C132_double p' hv' seq' hs' (fun q hq => by rw [hrot]; exact hlow q (hsub q hq).1) hsmall hb' w hw hone hst W L hc' hsort hdiv sol' ov' h' other (by rw [hrot]; exact h2) ?_
  intro id hid
  unfold placedIds at hid
  obtain ⟨x, hx, hi⟩ := List.mem_flatMap.1 hid
  obtain ⟨q, hq, rfl⟩ := List.mem_map.1 hi
  obtain ⟨d, hd, _⟩ := C05_sizes Arith.double p' hv' seq' hs' sol' ov' h' x.1 x.2 hx q.1 q.2 hq
  exact h3 _ (List.mem_map_of_mem (f := (·.1)) hd)

/-- **C133**, items of one length, in binary64 arithmetic, for problems of ordinary size -/
theorem C133_rows_double_partial (p p' : SolveIn) (hv : ValidIn p) (hv' : ValidIn p') (seq seq' : Option (List String))
    (hs : KnownSeq p seq) (hs' : KnownSeq p' seq') (hb : p.strip = false) (hb' : p'.strip = false)
    (hsmall : ∀ c ∈ p'.containers, 10 * ((p'.items.length + 1) * (c.2.w * c.2.l)) < 2 ^ 53)
    (hlow : ∀ q ∈ p.items, ¬ LowStrip p.rotation q.2) (W L : Nat) (hc : ∀ c ∈ p.containers, c.2 = ⟨W, L⟩)
    (hc' : ∀ c ∈ p'.containers, c.2 = ⟨W, L⟩) (hrot : p'.rotation = p.rotation)
    (sol sol' : Solution) (ov ov' : ObjVals) (h : solve Arith.double p seq = .ok (sol, ov)) (h' : solve Arith.double p' seq' = .ok (sol', ov'))
    (hsub : ∀ q ∈ p'.items, q ∈ p.items ∧ q.1 ∈ placedIds sol) (t : Nat) (ht : 2 ≤ t)
    (hone : OneLength t p'.rotation p'.containers p'.items (fun c => c.l)) (hst : RowOrder p'.strategy)
    (hsort : (solvedFor p'.items seq').Pairwise (fun a b => b.2.w ≤ a.2.w))
    (hdiv : ∀ q ∈ p'.items, ∀ q' ∈ p'.items, q.2.w ≤ q'.2.w → q.2.w ∣ q'.2.w) :
    (sol'.filter (fun c => !c.2.isEmpty)).length ≤ (sol.filter (fun c => !c.2.isEmpty)).length := by
  obtain ⟨other, h1, h2, h3⟩ := part_competes hv hs hb hlow hc h hsub
  rw [← h1]
  refine C132_rows_double p' hv' seq' hs' (fun q hq => by rw [hrot]; exact hlow q (hsub q hq).1) hsmall hb' t ht hone hst W L hc' hsort hdiv sol' ov' h' other (by rw [hrot]; exact h2) ?_
  intro id hid
  unfold placedIds at hid
  obtain ⟨x, hx, hi⟩ := List.mem_flatMap.1 hid
  obtain ⟨q, hq, rfl⟩ := List.mem_map.1 hi
  obtain ⟨d, hd, _⟩ := C05_sizes Arith.double p' hv' seq' hs' sol' ov' h' x.1 x.2 hx q.1 q.2 hq
  exact h3 _ (List.mem_map_of_mem (f := (·.1)) hd)

/-- **C133**, wide items, in binary64 arithmetic, for problems of ordinary size -/
theorem C133_wide_double_partial (p p' : SolveIn) (hv : ValidIn p) (hv' : ValidIn p') (seq seq' : Option (List String))
    (hs : KnownSeq p seq) (hs' : KnownSeq p' seq') (hb : p.strip = false) (hb' : p'.strip = false)
    (hsmall : ∀ c ∈ p'.containers, 10 * ((p'.items.length + 1) * (c.2.w * c.2.l)) < 2 ^ 53)
    (hlow : ∀ q ∈ p.items, ¬ LowStrip p.rotation q.2) (W L : Nat) (hc : ∀ c ∈ p.containers, c.2 = ⟨W, L⟩)
    (hc' : ∀ c ∈ p'.containers, c.2 = ⟨W, L⟩) (hrot : p'.rotation = p.rotation)
    (sol sol' : Solution) (ov ov' : ObjVals) (h : solve Arith.double p seq = .ok (sol, ov)) (h' : solve Arith.double p' seq' = .ok (sol', ov'))
    (hsub : ∀ q ∈ p'.items, q ∈ p.items ∧ q.1 ∈ placedIds sol)
    (hwide : Wide p'.rotation p'.containers p'.items) (hfit : ∀ q ∈ p'.items, q.2.w ≤ W) (hst : .A ∈ p'.strategy ∧ .A__ ∈ p'.strategy)
    (hsort : (solvedFor p'.items seq').Pairwise (fun a b => b.2.l ≤ a.2.l))
    (hdiv : ∀ q ∈ p'.items, ∀ q' ∈ p'.items, q.2.l ≤ q'.2.l → q.2.l ∣ q'.2.l) :
    (sol'.filter (fun c => !c.2.isEmpty)).length ≤ (sol.filter (fun c => !c.2.isEmpty)).length := by
  obtain ⟨other, h1, h2, h3⟩ := part_competes hv hs hb hlow hc h hsub
  rw [← h1]
  refine C132_wide_double p' hv' seq' hs' (fun q hq => by rw [hrot]; exact hlow q (hsub q hq).1) hsmall hb' hst hwide W L hc' hfit hsort hdiv sol' ov' h' other (by rw [hrot]; exact h2) ?_
  intro id hid
  unfold placedIds at hid
  obtain ⟨x, hx, hi⟩ := List.mem_flatMap.1 hid
  obtain ⟨q, hq, rfl⟩ := List.mem_map.1 hi
  obtain ⟨d, hd, _⟩ := C05_sizes Arith.double p' hv' seq' hs' sol' ov' h' x.1 x.2 hx q.1 q.2 hq
  exact h3 _ (List.mem_map_of_mem (f := (·.1)) hd)

/-- **C133**, long items, in binary64 arithmetic, for problems of ordinary size -/
theorem C133_long_double_partial (p p' : SolveIn) (hv : ValidIn p) (hv' : ValidIn p') (seq seq' : Option (List String))
    (hs : KnownSeq p seq) (hs' : KnownSeq p' seq') (hb : p.strip = false) (hb' : p'.strip = false)
    (hsmall : ∀ c ∈ p'.containers, 10 * ((p'.items.length + 1) * (c.2.w * c.2.l)) < 2 ^ 53)
    (hlow : ∀ q ∈ p.items, ¬ LowStrip p.rotation q.2) (W L : Nat) (hc : ∀ c ∈ p.containers, c.2 = ⟨W, L⟩)
    (hc' : ∀ c ∈ p'.containers, c.2 = ⟨W, L⟩) (hrot : p'.rotation = p.rotation)
    (sol sol' : Solution) (ov ov' : ObjVals) (h : solve Arith.double p seq = .ok (sol, ov)) (h' : solve Arith.double p' seq' = .ok (sol', ov'))
    (hsub : ∀ q ∈ p'.items, q ∈ p.items ∧ q.1 ∈ placedIds sol)
    (htall : Tall p'.rotation (fun c => c.l) p'.containers p'.items) (hfit : ∀ q ∈ p'.items, q.2.l ≤ L) (hst : .B ∈ p'.strategy ∧ .B__ ∈ p'.strategy)
    (hsort : (solvedFor p'.items seq').Pairwise (fun a b => b.2.w ≤ a.2.w))
    (hdiv : ∀ q ∈ p'.items, ∀ q' ∈ p'.items, q.2.w ≤ q'.2.w → q.2.w ∣ q'.2.w) :
    (sol'.filter (fun c => !c.2.isEmpty)).length ≤ (sol.filter (fun c => !c.2.isEmpty)).length := by
  obtain ⟨other, h1, h2, h3⟩ := part_competes hv hs hb hlow hc h hsub
  rw [← h1]
  refine C132_long_double p' hv' seq' hs' (fun q hq => by rw [hrot]; exact hlow q (hsub q hq).1) hsmall hb' hst htall W L hc' hfit hsort hdiv sol' ov' h' other (by rw [hrot]; exact h2) ?_
  intro id hid
  unfold placedIds at hid
  obtain ⟨x, hx, hi⟩ := List.mem_flatMap.1 hid
  obtain ⟨q, hq, rfl⟩ := List.mem_map.1 hi
  obtain ⟨d, hd, _⟩ := C05_sizes Arith.double p' hv' seq' hs' sol' ov' h' x.1 x.2 hx q.1 q.2 hq
  exact h3 _ (List.mem_map_of_mem (f := (·.1)) hd)

/-- the items of the example below -/
def anomalyItems : List (String × Dim) :=
  [("a", ⟨2, 1⟩), ("b", ⟨2, 3⟩), ("c", ⟨2, 5⟩), ("d", ⟨2, 1⟩), ("e", ⟨2, 5⟩), ("f", ⟨2, 3⟩), ("g", ⟨2, 3⟩), ("h", ⟨2, 3⟩)]

def anomalyContainers : List (String × Dim) := [("c1", ⟨3, 8⟩), ("c2", ⟨3, 8⟩), ("c3", ⟨3, 8⟩), ("c4", ⟨3, 8⟩)]

/-- the items of the first example are packed in three containers -/
def anomalyAll : Solution :=
  [("c1", [("a", ⟨0, 0, 2, 1⟩), ("b", ⟨0, 1, 2, 3⟩), ("d", ⟨0, 4, 2, 1⟩), ("f", ⟨0, 5, 2, 3⟩)]),
   ("c2", [("c", ⟨0, 0, 2, 5⟩), ("g", ⟨0, 5, 2, 3⟩)]), ("c3", [("e", ⟨0, 0, 2, 5⟩), ("h", ⟨0, 5, 2, 3⟩)]), ("c4", [])]

/-- without the first item they need four -/
def anomalyTail : Solution :=
  [("c1", [("b", ⟨0, 0, 2, 3⟩), ("c", ⟨0, 3, 2, 5⟩)]), ("c2", [("d", ⟨0, 0, 2, 1⟩), ("e", ⟨0, 1, 2, 5⟩)]),
   ("c3", [("f", ⟨0, 0, 2, 3⟩), ("g", ⟨0, 3, 2, 3⟩)]), ("c4", [("h", ⟨0, 0, 2, 3⟩)])]

/-- C133 is false of the code: three containers are enough for eight items; if the first, smallest item is left out, the other
seven need four. -/
theorem C133_refuted :
    (∃ ov, solve Arith.exact ⟨anomalyContainers, anomalyItems, defaultStrategy, false, false, 0⟩ none = .ok (anomalyAll, ov)) ∧
    (∀ q ∈ anomalyItems, q.1 ∈ placedIds anomalyAll) ∧ (anomalyAll.filter (fun c => !c.2.isEmpty)).length = 3 ∧
    (∃ ov, solve Arith.exact ⟨anomalyContainers, anomalyItems.tail, defaultStrategy, false, false, 0⟩ none = .ok (anomalyTail, ov)) ∧
    (∀ q ∈ anomalyItems.tail, q.1 ∈ placedIds anomalyTail) ∧ (anomalyTail.filter (fun c => !c.2.isEmpty)).length = 4 := by
  have key : ∀ (r : Except PyErr (Solution × ObjVals)) s, r.toOption.map (·.1) = some s → ∃ ov, r = .ok (s, ov) := by
    intro r s h
    cases r with
    | error e => cases h
    | ok x => exact ⟨x.2, by cases h; rfl⟩
  exact ⟨key _ _ (by decide +kernel), by decide, by decide, key _ _ (by decide +kernel), by decide, by decide⟩

/-! ### the hypotheses of the positive claims are met -/

/-- the problem of `divisibleDemo` without one item of length 8 and one of length 2 -/
def fewerDemo : SolveIn := { divisibleDemo with
  items := [("p", ⟨1, 8⟩), ("r", ⟨1, 4⟩), ("s", ⟨1, 4⟩), ("t", ⟨1, 2⟩), ("u", ⟨1, 2⟩), ("w", ⟨1, 1⟩)] }

theorem fewerDemo_run : (solve Arith.exact fewerDemo none).toOption.map (fun r => (r.1.filter (fun c => !c.2.isEmpty)).length) = some 1 := by
  decide +kernel

example : ValidIn divisibleDemo ∧ ValidIn fewerDemo ∧ (∀ q ∈ divisibleDemo.items, ¬ LowStrip divisibleDemo.rotation q.2) ∧
    (∀ c ∈ fewerDemo.containers, c.2 = ⟨2, 11⟩) ∧ (∀ q ∈ fewerDemo.items, q ∈ divisibleDemo.items) ∧
    OneWidth 1 fewerDemo.rotation fewerDemo.containers fewerDemo.items ∧ ColumnOrder fewerDemo.strategy ∧
    (solvedFor fewerDemo.items none).Pairwise (fun a b => b.2.l ≤ a.2.l) ∧
    (∀ q ∈ fewerDemo.items, ∀ q' ∈ fewerDemo.items, q.2.l ≤ q'.2.l → q.2.l ∣ q'.2.l) := by
  refine ⟨⟨⟨by decide, by decide⟩, ⟨by decide, by decide⟩, nofun⟩, ⟨⟨by decide, by decide⟩, ⟨by decide, by decide⟩, nofun⟩, ?_,
    by decide, by decide, ?_, ⟨[], [], _, rfl, by decide, by decide⟩, by decide, by decide⟩
  · unfold LowStrip; decide
  · intro q hq
    refine ⟨?_, by intro h; cases h⟩
    revert q
    decide

/-- wide items, with and without one of length 8; long items and rows follow -/
def wideAll : SolveIn :=
  ⟨[("a", ⟨5, 14⟩), ("b", ⟨5, 14⟩)], [("p", ⟨4, 8⟩), ("q", ⟨3, 8⟩), ("r", ⟨5, 4⟩), ("s", ⟨3, 4⟩), ("t", ⟨4, 2⟩)], defaultStrategy, false, false, 0⟩

def fewerWide : SolveIn := { wideAll with items := [("p", ⟨4, 8⟩), ("r", ⟨5, 4⟩), ("s", ⟨3, 4⟩), ("t", ⟨4, 2⟩)] }

def divisibleLong : SolveIn :=
  ⟨[("a", ⟨10, 5⟩), ("b", ⟨10, 5⟩)], [("p", ⟨6, 4⟩), ("q", ⟨6, 3⟩), ("r", ⟨3, 5⟩), ("s", ⟨3, 3⟩), ("t", ⟨1, 4⟩)], defaultStrategy, false, false, 0⟩

def fewerLong : SolveIn := { divisibleLong with items := [("p", ⟨6, 4⟩), ("r", ⟨3, 5⟩), ("s", ⟨3, 3⟩), ("t", ⟨1, 4⟩)] }

def divisibleRows : SolveIn :=
  ⟨[("a", ⟨11, 4⟩), ("b", ⟨11, 4⟩)], [("p", ⟨8, 2⟩), ("q", ⟨8, 2⟩), ("r", ⟨4, 2⟩), ("s", ⟨4, 2⟩), ("t", ⟨2, 2⟩)],
   [.B, .A, .C, .A_, .B_, .B__, .A__, .F, .E, .D], false, false, 0⟩

def fewerRows : SolveIn := { divisibleRows with items := [("p", ⟨8, 2⟩), ("r", ⟨4, 2⟩), ("s", ⟨4, 2⟩), ("t", ⟨2, 2⟩)] }

theorem fewerMore_runs :
    (solve Arith.exact wideAll none).toOption.map (fun r => ((placedIds r.1).length, (r.1.filter (fun c => !c.2.isEmpty)).length)) = some (5, 2) ∧
    (solve Arith.exact fewerWide none).toOption.map (fun r => (r.1.filter (fun c => !c.2.isEmpty)).length) = some 2 ∧
    (solve Arith.exact divisibleLong none).toOption.map (fun r => ((placedIds r.1).length, (r.1.filter (fun c => !c.2.isEmpty)).length)) = some (5, 2) ∧
    (solve Arith.exact fewerLong none).toOption.map (fun r => (r.1.filter (fun c => !c.2.isEmpty)).length) = some 2 ∧
    (solve Arith.exact divisibleRows none).toOption.map (fun r => ((placedIds r.1).length, (r.1.filter (fun c => !c.2.isEmpty)).length)) = some (5, 2) ∧
    (solve Arith.exact fewerRows none).toOption.map (fun r => (r.1.filter (fun c => !c.2.isEmpty)).length) = some 1 := by
  decide +kernel

example : ValidIn wideAll ∧ ValidIn fewerWide ∧ (∀ q ∈ wideAll.items, ¬ LowStrip wideAll.rotation q.2) ∧
    (∀ q ∈ fewerWide.items, q ∈ wideAll.items) ∧ Wide fewerWide.rotation fewerWide.containers fewerWide.items ∧
    (∀ q ∈ fewerWide.items, q.2.w ≤ 5) ∧ (solvedFor fewerWide.items none).Pairwise (fun a b => b.2.l ≤ a.2.l) ∧
    (∀ q ∈ fewerWide.items, ∀ q' ∈ fewerWide.items, q.2.l ≤ q'.2.l → q.2.l ∣ q'.2.l) ∧
    (∀ c ∈ fewerWide.containers, 10 * ((fewerWide.items.length + 1) * (c.2.w * c.2.l)) < 2 ^ 53) := by
  refine ⟨⟨⟨by decide, by decide⟩, ⟨by decide, by decide⟩, nofun⟩, ⟨⟨by decide, by decide⟩, ⟨by decide, by decide⟩, nofun⟩, ?_,
    by decide, ?_, by decide, by decide, by decide, by decide⟩
  · unfold LowStrip; decide
  · intro c hc q hq
    refine ⟨?_, by intro h; cases h⟩
    revert q
    revert c
    decide

example : ValidIn divisibleLong ∧ ValidIn fewerLong ∧ (∀ q ∈ divisibleLong.items, ¬ LowStrip divisibleLong.rotation q.2) ∧
    (∀ q ∈ fewerLong.items, q ∈ divisibleLong.items) ∧ Tall fewerLong.rotation (fun c => c.l) fewerLong.containers fewerLong.items ∧
    (∀ q ∈ fewerLong.items, q.2.l ≤ 5) ∧ (solvedFor fewerLong.items none).Pairwise (fun a b => b.2.w ≤ a.2.w) ∧
    (∀ q ∈ fewerLong.items, ∀ q' ∈ fewerLong.items, q.2.w ≤ q'.2.w → q.2.w ∣ q'.2.w) := by
  refine ⟨⟨⟨by decide, by decide⟩, ⟨by decide, by decide⟩, nofun⟩, ⟨⟨by decide, by decide⟩, ⟨by decide, by decide⟩, nofun⟩, ?_,
    by decide, ?_, by decide, by decide, by decide⟩
  · unfold LowStrip; decide
  · intro c hc q hq
    refine ⟨?_, by intro h; cases h⟩
    revert q
    revert c
    decide

example : ValidIn divisibleRows ∧ ValidIn fewerRows ∧ (∀ q ∈ divisibleRows.items, ¬ LowStrip divisibleRows.rotation q.2) ∧
    (∀ q ∈ fewerRows.items, q ∈ divisibleRows.items) ∧ OneLength 2 fewerRows.rotation fewerRows.containers fewerRows.items (fun c => c.l) ∧
    RowOrder fewerRows.strategy ∧ (solvedFor fewerRows.items none).Pairwise (fun a b => b.2.w ≤ a.2.w) ∧
    (∀ q ∈ fewerRows.items, ∀ q' ∈ fewerRows.items, q.2.w ≤ q'.2.w → q.2.w ∣ q'.2.w) := by
  refine ⟨⟨⟨by decide, by decide⟩, ⟨by decide, by decide⟩, nofun⟩, ⟨⟨by decide, by decide⟩, ⟨by decide, by decide⟩, nofun⟩, ?_,
    by decide, ?_, ⟨[], [], _, rfl, by decide, by decide⟩, by decide, by decide⟩
  · unfold LowStrip; decide
  · intro q hq
    refine ⟨?_, by intro h; cases h⟩
    revert q
    decide

end HP
