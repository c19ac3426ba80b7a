import Verif.Props.Decreasing
/-
C131: wide items, longest first (long items, widest first): `solve` uses at most 3/2 of the optimal number of containers.
-/
namespace HP
open Spec

/-- a list of zeros and ones with no two ones has a sum of at most one -/
theorem ones_sum {α : Type} (P : α → Prop) [DecidablePred P] : ∀ l : List α, l.Pairwise (fun a b => ¬ (P a ∧ P b)) →
    (l.map (fun a => if P a then 1 else 0)).sum ≤ 1
  | [], _ => by simp
  | a :: l, h => by
    rw [List.pairwise_cons] at h
    have ih := ones_sum P l h.2
    rw [List.map_cons, List.sum_cons]
    by_cases ha : P a
    · have : (l.map (fun a => if P a then 1 else 0)).sum = 0 := by
        rw [List.sum_eq_zero_iff_forall_eq_nat]
        intro x hx
        obtain ⟨b, hb, rfl⟩ := List.mem_map.1 hx
        rw [if_neg fun hb' => h.1 b hb ⟨ha, hb'⟩]
      rw [if_pos ha]; omega
    · rw [if_neg ha]; omega

theorem filter_used {bins : List Bin} {place : List (String × Dim) → List (String × Rect)}
    (hplace : ∀ l, (place l).map (·.1) = l.map (·.1)) :
    ((bins.map (fun b => (b.id, place b.items))).filter (fun c => !c.2.isEmpty)).length =
      (bins.filter (fun b => !b.items.isEmpty)).length := by
  rw [List.filter_map, List.length_map]
  congr 1
  refine List.filter_congr fun b _ => ?_
  have h1 : (place b.items).length = b.items.length := by
    have := congrArg List.length (hplace b.items)
    simpa using this
  simp only [Function.comp]
  congr 1
  rw [Bool.eq_iff_iff, List.isEmpty_iff_length_eq_zero, List.isEmpty_iff_length_eq_zero, h1]

/-- **C131**, wide items: with containers of one size `W × L` and the items longest first, twice the number of containers `solve`
uses is at most three times the number of containers of this size that any packing of (at least) the placed items uses. -/
theorem C131_wide (A : Arith) (p : SolveIn) (hv : ValidIn p) (seq : Option (List String)) (hs : KnownSeq p seq)
    (hb : p.strip = false) (har : A = Arith.exact) (hst : .A ∈ p.strategy ∧ .A__ ∈ p.strategy)
    (hwide : Wide p.rotation p.containers p.items) (W L : Nat) (hc : ∀ c ∈ p.containers, c.2 = ⟨W, L⟩)
    (hfit : ∀ q ∈ p.items, q.2.w ≤ W) (hsort : (solvedFor p.items seq).Pairwise (fun a b => b.2.l ≤ a.2.l))
    (sol : Solution) (ov : ObjVals) (h : solve A p seq = .ok (sol, ov))
    (other : List (List (String × Rect)))
    (hother : ∀ m ∈ other, (m.map (·.2)).Pairwise Spec.Disjoint ∧
      ∀ q ∈ m, Inside W L q.2 ∧ ∃ d, (q.1, d) ∈ p.items ∧ SizedAs p.rotation d q.2)
    (hall : ∀ id ∈ placedIds sol, ∃ m ∈ other, id ∈ m.map (·.1)) :
    2 * (sol.filter (fun c => !c.2.isEmpty)).length ≤ 3 * other.length := by
  by_cases hne : p.containers = []
  · have hck := (C04_once A p hv seq hs sol ov h).1
    rw [hne] at hck
    have : sol = [] := by simpa using hck
    rw [this]; simp
  obtain ⟨c0, hc0⟩ := List.exists_mem_of_ne_nil _ hne
  have hsol := C115_first_fit A p hv seq hs (.inr har) hst hwide sol ov h
  simp only [hb, Bool.false_eq_true, if_false] at hsol
  have hb1 : ∀ b ∈ binsOf p.containers (fun c => c.l), b.items = [] ∧ b.width = W ∧ b.cap = L := by
    intro b hb
    obtain ⟨c, hcm, rfl⟩ := List.mem_map.1 hb
    have := hc c hcm
    refine ⟨rfl, ?_, ?_⟩ <;> simp only [this]
  have hi1 : ∀ q ∈ solvedFor p.items seq, q.2.w ≤ W := fun q hq => hfit q (solvedFor_mem _ hq)
  have heach := firstFit_each hb1 hi1
  have hlarge := firstFit_largest _ _ hb1 hi1 hsort
  have hfrom := firstFit_from _ (solvedFor p.items seq) (fun b hb => (hb1 b hb).1)
  generalize firstFit (binsOf p.containers (fun c => c.l)) (solvedFor p.items seq) = bins at *
  have hcols : (bins.map (fun b => (b.id, [b]))).flatMap (·.2) = bins := by
    rw [List.flatMap_map]; simp
  have key := decreasing_bins hv hs h (n := 1) (C := L) (size := Dim.l) (cols := bins.map (fun b => (b.id, [b])))
    (place := fun bs => pileFrom 0 (bs.flatMap (·.items))) (fun bs => pileFrom_ids _ _)
    (by rw [hsol, List.map_map]; simp [Function.comp_def]) (by rw [hcols]; exact heach) (by rw [hcols]; exact hlarge)
    (by
      rw [hcols]
      intro b hb q hq
      have hm := solvedFor_mem _ (hfrom b hb q hq)
      exact ⟨(hv.items.2 _ hm).2, q.2, hm, rfl⟩) other (by
      intro m hm
      obtain ⟨ho1, ho2⟩ := hother m hm
      have hw0 := hwide _ hc0
      rw [hc _ hc0] at hw0
      have hsz : ∀ q ∈ m, (q.2.x + q.2.w ≤ W ∧ q.2.y + q.2.l ≤ L ∧ W < 2 * q.2.w) ∧ ∃ d, (q.1, d) ∈ p.items ∧ d.l = q.2.l := by
        intro q hq
        obtain ⟨⟨h1, h2⟩, d, hd, hsz⟩ := ho2 q hq
        obtain ⟨h3, h4⟩ := hw0 _ hd
        simp only at h3 h4
        rcases hsz with ⟨e1, e2⟩ | ⟨hr, e1, e2⟩
        · exact ⟨⟨h1, h2, by omega⟩, d, hd, e2.symm⟩
        · rcases h4 hr with h5 | h5
          · exact ⟨⟨h1, h2, by omega⟩, d, hd, by omega⟩
          · omega
      refine ⟨Rect.l, fun q hq => (hsz q hq).2, ?_, ?_⟩
      · have := C115_lower p.rotation W L p.items c0.1 (by
          intro c' hc' q hq
          rw [List.mem_singleton] at hc'
          subst hc'
          exact hw0 q hq) m ho1 ho2
        rw [Nat.one_mul]
        exact this
      · refine ones_sum (fun q : String × Rect => L < 2 * q.2.l) m ?_
        rw [List.pairwise_map] at ho1
        refine List.Pairwise.imp_of_mem ?_ ho1
        intro a b ha hb hab ⟨g1, g2⟩
        obtain ⟨⟨a1, a2, a3⟩, _⟩ := hsz a ha
        obtain ⟨⟨b1, b2, b3⟩, _⟩ := hsz b hb
        exact hab ((W - 1) / 2) ((L - 1) / 2) ⟨⟨by omega, by omega, by omega, by omega⟩, ⟨by omega, by omega, by omega, by omega⟩⟩) hall
  rw [hcols, Nat.mul_one] at key
  rw [hsol, filter_used (place := pileFrom 0) (fun l => pileFrom_ids l 0)]
  exact key

/-- **C131**, long items: the same along the floor, with the items widest first. -/
theorem C131_long (A : Arith) (p : SolveIn) (hv : ValidIn p) (seq : Option (List String)) (hs : KnownSeq p seq)
    (hb : p.strip = false) (har : A = Arith.exact) (hst : .B ∈ p.strategy ∧ .B__ ∈ p.strategy)
    (htall : Tall p.rotation (fun c => c.l) p.containers p.items) (W L : Nat) (hc : ∀ c ∈ p.containers, c.2 = ⟨W, L⟩)
    (hfit : ∀ q ∈ p.items, q.2.l ≤ L) (hsort : (solvedFor p.items seq).Pairwise (fun a b => b.2.w ≤ a.2.w))
    (sol : Solution) (ov : ObjVals) (h : solve A p seq = .ok (sol, ov))
    (other : List (List (String × Rect)))
    (hother : ∀ m ∈ other, (m.map (·.2)).Pairwise Spec.Disjoint ∧
      ∀ q ∈ m, Inside W L q.2 ∧ ∃ d, (q.1, d) ∈ p.items ∧ SizedAs p.rotation d q.2)
    (hall : ∀ id ∈ placedIds sol, ∃ m ∈ other, id ∈ m.map (·.1)) :
    2 * (sol.filter (fun c => !c.2.isEmpty)).length ≤ 3 * other.length := by
  by_cases hne : p.containers = []
  · have hck := (C04_once A p hv seq hs sol ov h).1
    rw [hne] at hck
    have : sol = [] := by simpa using hck
    rw [this]; simp
  obtain ⟨c0, hc0⟩ := List.exists_mem_of_ne_nil _ hne
  have hlo : lenOf p = (fun c => c.l) := by funext c; unfold lenOf; rw [hb]; rfl
  have hsol := C116_first_fit A p hv seq hs (.inr har) hst (by rw [hlo]; exact htall) sol ov h
  simp only [hb, Bool.false_eq_true, if_false] at hsol
  have hb1 : ∀ b ∈ rowsOf p.containers (fun c => c.l), b.items = [] ∧ b.width = L ∧ b.cap = W := by
    intro b hb
    obtain ⟨c, hcm, rfl⟩ := List.mem_map.1 hb
    have := hc c hcm
    refine ⟨rfl, ?_, ?_⟩ <;> simp only [this]
  have hi1 : ∀ q ∈ turnedItems (solvedFor p.items seq), q.2.w ≤ L := by
    intro q hq
    obtain ⟨q', hq', rfl⟩ := List.mem_map.1 hq
    exact hfit q' (solvedFor_mem _ hq')
  have heach := firstFit_each hb1 hi1
  have hlarge := firstFit_largest _ _ hb1 hi1 (by
    unfold turnedItems
    rw [List.pairwise_map]
    exact hsort)
  have hfrom := firstFit_from _ (turnedItems (solvedFor p.items seq)) (fun b hb => (hb1 b hb).1)
  generalize firstFit (rowsOf p.containers (fun c => c.l)) (turnedItems (solvedFor p.items seq)) = bins at *
  have hcols : (bins.map (fun b => (b.id, [b]))).flatMap (·.2) = bins := by
    rw [List.flatMap_map]; simp
  have key := decreasing_bins hv hs h (n := 1) (C := W) (size := Dim.w) (cols := bins.map (fun b => (b.id, [b])))
    (place := fun bs => rowFrom 0 (bs.flatMap (·.items))) (fun bs => rowFrom_ids _ _)
    (by rw [hsol, List.map_map]; simp [Function.comp_def]) (by rw [hcols]; exact heach) (by rw [hcols]; exact hlarge)
    (by
      rw [hcols]
      intro b hb q hq
      obtain ⟨q', hq', rfl⟩ := List.mem_map.1 (hfrom b hb q hq)
      have hm := solvedFor_mem _ hq'
      exact ⟨(hv.items.2 _ hm).1, q'.2, hm, rfl⟩) other (by
      intro m hm
      obtain ⟨ho1, ho2⟩ := hother m hm
      have hw0 := htall _ hc0
      rw [hc _ hc0] at hw0
      have hsz : ∀ q ∈ m, (q.2.x + q.2.w ≤ W ∧ q.2.y + q.2.l ≤ L ∧ L < 2 * q.2.l) ∧ ∃ d, (q.1, d) ∈ p.items ∧ d.w = q.2.w := by
        intro q hq
        obtain ⟨⟨h1, h2⟩, d, hd, hsz⟩ := ho2 q hq
        obtain ⟨h3, h4⟩ := hw0 _ hd
        simp only at h3 h4
        rcases hsz with ⟨e1, e2⟩ | ⟨hr, e1, e2⟩
        · exact ⟨⟨h1, h2, by omega⟩, d, hd, e1.symm⟩
        · rcases h4 hr with h5 | h5
          · exact ⟨⟨h1, h2, by omega⟩, d, hd, by omega⟩
          · omega
      refine ⟨Rect.w, fun q hq => (hsz q hq).2, ?_, ?_⟩
      · have := C116_lower p.rotation W L p.items c0.1 (by
          intro c' hc' q hq
          rw [List.mem_singleton] at hc'
          subst hc'
          exact hw0 q hq) m ho1 ho2
        rw [Nat.one_mul]
        exact this
      · refine ones_sum (fun q : String × Rect => W < 2 * q.2.w) m ?_
        rw [List.pairwise_map] at ho1
        refine List.Pairwise.imp_of_mem ?_ ho1
        intro a b ha hb hab ⟨g1, g2⟩
        obtain ⟨⟨a1, a2, a3⟩, _⟩ := hsz a ha
        obtain ⟨⟨b1, b2, b3⟩, _⟩ := hsz b hb
        exact hab ((W - 1) / 2) ((L - 1) / 2) ⟨⟨by omega, by omega, by omega, by omega⟩, ⟨by omega, by omega, by omega, by omega⟩⟩) hall
  rw [hcols, Nat.mul_one] at key
  rw [hsol, filter_used (place := rowFrom 0) (fun l => rowFrom_ids l 0)]
  exact key

/-- **C131**, wide items, in binary64 arithmetic, for problems of ordinary size -/
theorem C131_double (p : SolveIn) (hv : ValidIn p) (seq : Option (List String)) (hs : KnownSeq p seq)
    (hlow : ∀ q ∈ p.items, ¬ LowStrip p.rotation q.2)
    (hsmall : ∀ c ∈ p.containers, 10 * ((p.items.length + 1) * (c.2.w * c.2.l)) < 2 ^ 53)
    (hb : p.strip = false) (hst : .A ∈ p.strategy ∧ .A__ ∈ p.strategy)
    (hwide : Wide p.rotation p.containers p.items) (W L : Nat) (hc : ∀ c ∈ p.containers, c.2 = ⟨W, L⟩)
    (hfit : ∀ q ∈ p.items, q.2.w ≤ W) (hsort : (solvedFor p.items seq).Pairwise (fun a b => b.2.l ≤ a.2.l))
    (sol : Solution) (ov : ObjVals) (h : solve Arith.double p seq = .ok (sol, ov))
    (other : List (List (String × Rect)))
    (hother : ∀ m ∈ other, (m.map (·.2)).Pairwise Spec.Disjoint ∧
      ∀ q ∈ m, Inside W L q.2 ∧ ∃ d, (q.1, d) ∈ p.items ∧ SizedAs p.rotation d q.2)
    (hall : ∀ id ∈ placedIds sol, ∃ m ∈ other, id ∈ m.map (·.1)) :
    2 * (sol.filter (fun c => !c.2.isEmpty)).length ≤ 3 * other.length := by
  obtain ⟨ov', h'⟩ := (C83_bin p hv hb hlow hsmall seq hs sol).1 ⟨ov, h⟩
  exact C131_wide Arith.exact p hv seq hs hb rfl hst hwide W L hc hfit hsort sol ov' h' other hother hall

/-- **C131**, long items, in binary64 arithmetic, for problems of ordinary size -/
theorem C131_long_double (p : SolveIn) (hv : ValidIn p) (seq : Option (List String)) (hs : KnownSeq p seq)
    (hlow : ∀ q ∈ p.items, ¬ LowStrip p.rotation q.2)
    (hsmall : ∀ c ∈ p.containers, 10 * ((p.items.length + 1) * (c.2.w * c.2.l)) < 2 ^ 53)
    (hb : p.strip = false) (hst : .B ∈ p.strategy ∧ .B__ ∈ p.strategy)
    (htall : Tall p.rotation (fun c => c.l) p.containers p.items) (W L : Nat) (hc : ∀ c ∈ p.containers, c.2 = ⟨W, L⟩)
    (hfit : ∀ q ∈ p.items, q.2.l ≤ L) (hsort : (solvedFor p.items seq).Pairwise (fun a b => b.2.w ≤ a.2.w))
    (sol : Solution) (ov : ObjVals) (h : solve Arith.double p seq = .ok (sol, ov))
    (other : List (List (String × Rect)))
    (hother : ∀ m ∈ other, (m.map (·.2)).Pairwise Spec.Disjoint ∧
      ∀ q ∈ m, Inside W L q.2 ∧ ∃ d, (q.1, d) ∈ p.items ∧ SizedAs p.rotation d q.2)
    (hall : ∀ id ∈ placedIds sol, ∃ m ∈ other, id ∈ m.map (·.1)) :
    2 * (sol.filter (fun c => !c.2.isEmpty)).length ≤ 3 * other.length := by
  obtain ⟨ov', h'⟩ := (C83_bin p hv hb hlow hsmall seq hs sol).1 ⟨ov, h⟩
  exact C131_long Arith.exact p hv seq hs hb rfl hst htall W L hc hfit hsort sol ov' h' other hother hall

/-! ### the hypotheses are met, and the bound is reached -/

/-- five items into containers of length 12: the optimum is 2, longest first needs 3 -/
def wideMiss : SolveIn :=
  ⟨[("a", ⟨5, 12⟩), ("b", ⟨5, 12⟩), ("c", ⟨5, 12⟩), ("d", ⟨5, 12⟩)],
    [("p", ⟨4, 6⟩), ("q", ⟨3, 5⟩), ("r", ⟨5, 4⟩), ("s", ⟨3, 4⟩), ("t", ⟨4, 3⟩), ("u", ⟨3, 2⟩)], defaultStrategy, false, false, 0⟩

def wideOther : List (List (String × Rect)) :=
  [[("p", ⟨0, 0, 4, 6⟩), ("r", ⟨0, 6, 5, 4⟩), ("u", ⟨0, 10, 3, 2⟩)], [("q", ⟨0, 0, 3, 5⟩), ("s", ⟨0, 5, 3, 4⟩), ("t", ⟨0, 9, 4, 3⟩)]]

theorem wideMiss_run : (solve Arith.exact wideMiss none).toOption.map (·.1) = some
    [("a", [("p", ⟨0, 0, 4, 6⟩), ("q", ⟨0, 6, 3, 5⟩)]), ("b", [("r", ⟨0, 0, 5, 4⟩), ("s", ⟨0, 4, 3, 4⟩), ("t", ⟨0, 8, 4, 3⟩)]),
     ("c", [("u", ⟨0, 0, 3, 2⟩)]), ("d", [])] := by decide +kernel

example : ValidIn wideMiss ∧ Wide wideMiss.rotation wideMiss.containers wideMiss.items ∧
    (.A ∈ wideMiss.strategy ∧ .A__ ∈ wideMiss.strategy) ∧ (∀ c ∈ wideMiss.containers, c.2 = ⟨5, 12⟩) ∧
    (∀ q ∈ wideMiss.items, q.2.w ≤ 5) ∧ (solvedFor wideMiss.items none).Pairwise (fun a b => b.2.l ≤ a.2.l) ∧
    (∀ m ∈ wideOther, (m.map (·.2)).Pairwise Spec.Disjoint ∧
      ∀ q ∈ m, Inside 5 12 q.2 ∧ ∃ d, (q.1, d) ∈ wideMiss.items ∧ SizedAs wideMiss.rotation d q.2) ∧
    (∀ id ∈ ["p", "q", "r", "s", "t", "u"], ∃ m ∈ wideOther, id ∈ m.map (·.1)) := by
  refine ⟨⟨⟨by decide, by decide⟩, ⟨by decide, by decide⟩, nofun⟩, ?_, by decide, by decide, by decide, by decide, ?_, by decide⟩
  · intro c hc q hq
    refine ⟨?_, by intro h; cases h⟩
    revert q
    revert c
    decide
  · intro m hm
    rw [wideOther, List.mem_cons, List.mem_singleton] at hm
    rcases hm with rfl | rfl
    all_goals
      refine ⟨?_, ?_⟩
      · simp only [List.map_cons, List.map_nil, List.pairwise_cons, List.mem_cons, List.not_mem_nil, or_false]
        refine ⟨?_, ?_, fun _ h => h.elim, .nil⟩
        · rintro r (rfl | rfl) x y ⟨⟨_, _, _, _⟩, ⟨_, _, _, _⟩⟩ <;> simp only at * <;> omega
        · rintro r rfl x y ⟨⟨_, _, _, _⟩, ⟨_, _, _, _⟩⟩
          simp only at *; omega
      · intro q hq
        simp only [List.mem_cons, List.not_mem_nil, or_false] at hq
        rcases hq with rfl | rfl | rfl
        · exact ⟨⟨by decide, by decide⟩, ⟨_, _⟩, by decide, .inl ⟨rfl, rfl⟩⟩
        · exact ⟨⟨by decide, by decide⟩, ⟨_, _⟩, by decide, .inl ⟨rfl, rfl⟩⟩
        · exact ⟨⟨by decide, by decide⟩, ⟨_, _⟩, by decide, .inl ⟨rfl, rfl⟩⟩

/-- long items -/
def longMiss : SolveIn :=
  ⟨[("a", ⟨12, 5⟩), ("b", ⟨12, 5⟩), ("c", ⟨12, 5⟩)],
    [("p", ⟨6, 4⟩), ("q", ⟨5, 3⟩), ("r", ⟨4, 5⟩), ("s", ⟨4, 3⟩), ("t", ⟨3, 4⟩), ("u", ⟨2, 3⟩)], defaultStrategy, false, false, 0⟩

theorem longMiss_run : (solve Arith.exact longMiss none).toOption.map (·.1) = some
    [("a", [("p", ⟨0, 0, 6, 4⟩), ("q", ⟨6, 0, 5, 3⟩)]), ("b", [("r", ⟨0, 0, 4, 5⟩), ("s", ⟨4, 0, 4, 3⟩), ("t", ⟨8, 0, 3, 4⟩)]),
     ("c", [("u", ⟨0, 0, 2, 3⟩)])] := by decide +kernel

example : ValidIn longMiss ∧ Tall longMiss.rotation (fun c => c.l) longMiss.containers longMiss.items ∧
    (.B ∈ longMiss.strategy ∧ .B__ ∈ longMiss.strategy) ∧ (∀ c ∈ longMiss.containers, c.2 = ⟨12, 5⟩) ∧
    (∀ q ∈ longMiss.items, q.2.l ≤ 5) ∧ (solvedFor longMiss.items none).Pairwise (fun a b => b.2.w ≤ a.2.w) := by
  refine ⟨⟨⟨by decide, by decide⟩, ⟨by decide, by decide⟩, nofun⟩, ?_, by decide, by decide, by decide, by decide⟩
  intro c hc q hq
  refine ⟨?_, by intro h; cases h⟩
  revert q
  revert c
  decide

end HP
