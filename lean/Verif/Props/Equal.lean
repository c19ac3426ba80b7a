import Verif.Proofs.Equal
import Verif.Props.Rounding
import Mathlib.Algebra.BigOperators.Group.List.Basic
/-
Property C88: items of one size are packed optimally.
-/
namespace HP
open Spec

/-- how many of `n` equal things go into each of a row of places with the given capacities, filled in
order -/
def fillInOrder : List Nat → Nat → List Nat
  | [], _ => []
  | c :: cs, n => min n c :: fillInOrder cs (n - c)

theorem fillInOrder_zero : ∀ cs : List Nat, fillInOrder cs 0 = cs.map (fun _ => 0)
  | [] => rfl
  | c :: cs => by simp [fillInOrder, fillInOrder_zero cs]

theorem fillInOrder_sum : ∀ (cs : List Nat) (n : Nat), (fillInOrder cs n).sum = min n cs.sum
  | [], n => by simp [fillInOrder]
  | c :: cs, n => by
    simp only [fillInOrder, List.sum_cons, fillInOrder_sum cs]
    omega

/-- how many items of size `w × l` fit a container, all in the same orientation -/
def capacity (p : SolveIn) (w l : Nat) (c : Dim) : Nat := (c.w / w) * (lenOf p c / l)

theorem Chain.equal {A : Arith} {p : SolveIn} {cs items : PyDict String Dim} {sol : Solution} {ov : ObjVals}
    {rem : PyDict String Dim} (hh : p.strip = true → 0 < p.height) (hc : ∀ q ∈ cs, 0 < q.2.w ∧ 0 < q.2.l)
    (hg : ValidSizes items) {w l : Nat} (hw : 0 < w) (hl : 0 < l) (hsz : ∀ q ∈ items, q.2 = ⟨w, l⟩)
    (hrot : p.rotation = false ∨ w = l) (har : p.strip = true ∨ A = Arith.exact)
    (hst : .A ∈ p.strategy ∧ .A__ ∈ p.strategy ∧ .B ∈ p.strategy ∧ .B__ ∈ p.strategy)
    (h : Chain A p cs items sol ov rem) :
    sol.map (fun q => q.2.length) = fillInOrder (cs.map (fun c => capacity p w l c.2)) items.length ∧
    ∀ cid m, (cid, m) ∈ sol → (m.map (·.2)).Pairwise Spec.Disjoint ∧
      ∀ q ∈ m, q.2.w = w ∧ q.2.l = l ∧ w ∣ q.2.x ∧ l ∣ q.2.y := by
  induction h with
  | nil => exact ⟨rfl, by intro cid m hm; simp at hm⟩
  | @skip cid' c cs sol ov rem hch ih =>
    obtain ⟨h1, h2⟩ := ih (fun q hq => hc q (by simp [hq])) hg hsz
    refine ⟨?_, ?_⟩
    · simp only [List.map_cons, List.length_nil, fillInOrder, Nat.zero_min, Nat.zero_sub]
      rw [h1]; simp
    · intro cid m hm
      rcases List.mem_cons.1 hm with hm | hm
      · injection hm with _ h2; subst h2; simp
      · exact h2 cid m hm
  | @cons cid' c cs items r sol ov rem hne hr hf hch ih =>
    have hc0 := hc (cid', c) (by simp)
    have hL : 0 < (p.params A c).L := by
      rw [params_L]; unfold lenOf
      split
      · rename_i hst; exact hh hst
      · exact hc0.2
    obtain ⟨e1, e2, e3, e4⟩ := construct_equal (P := p.params A c) hg hc0.1 hL hw hl hsz hrot har hst hr hf
    have hgr : ValidSizes r.items := ⟨hg.1.sublist (hf.sub.map _), fun q hq => hg.2 q (hf.sub.subset hq)⟩
    obtain ⟨h1, h2⟩ := ih (fun q hq => hc q (by simp [hq])) hgr (fun q hq => hsz q (hf.sub.subset hq))
    refine ⟨?_, ?_⟩
    · simp only [List.map_cons, fillInOrder]
      rw [h1, e2]
      congr 1
    · intro cid m hm
      rcases List.mem_cons.1 hm with hm | hm
      · injection hm with _ h3; subst h3; exact ⟨e4, e3⟩
      · exact h2 cid m hm

/-- **C88**: if all items have the same size `w × l` and may not be turned (or are squares), `solve` fills
the containers one after the other: each gets `(W / w) * (L / l)` items (rounded down) as long as there are
enough.  The strategy must have the classes A, A'', B and B''; all default strategies have them.
No items overlap, and they stand on multiples of their size. -/
theorem C88_counts (A : Arith) (p : SolveIn) (hv : ValidIn p) (har : p.strip = true ∨ A = Arith.exact)
    (w l : Nat) (hw : 0 < w) (hl : 0 < l) (hsz : ∀ q ∈ p.items, q.2 = ⟨w, l⟩)
    (hrot : p.rotation = false ∨ w = l)
    (hst : .A ∈ p.strategy ∧ .A__ ∈ p.strategy ∧ .B ∈ p.strategy ∧ .B__ ∈ p.strategy)
    (seq : Option (List String)) (hs : KnownSeq p seq) (sol : Solution) (ov : ObjVals)
    (h : solve A p seq = .ok (sol, ov)) :
    sol.map (fun q => q.2.length) =
      fillInOrder (p.containers.map (fun c => (c.2.w / w) * ((if p.strip then p.height else c.2.l) / l)))
        (solvedFor p.items seq).length ∧
    ∀ cid m, (cid, m) ∈ sol → (m.map (·.2)).Pairwise Spec.Disjoint ∧
      ∀ q ∈ m, q.2.w = w ∧ q.2.l = l ∧ w ∣ q.2.x ∧ l ∣ q.2.y := by
  obtain ⟨hvs, rem, hch⟩ := solve_ok hv hs h
  exact hch.equal hv.height hv.conts.2 hvs hw hl (fun q hq => hsz q (solvedFor_mem q hq)) hrot har hst

/-- **C88**, optimality: no way of putting items of this size into the containers (inside, without overlap,
not turned), using at most as many as there are, stores more than `solve` does. -/
theorem C88_optimal (A : Arith) (p : SolveIn) (hv : ValidIn p) (har : p.strip = true ∨ A = Arith.exact)
    (w l : Nat) (hw : 0 < w) (hl : 0 < l) (hsz : ∀ q ∈ p.items, q.2 = ⟨w, l⟩)
    (hrot : p.rotation = false ∨ w = l)
    (hst : .A ∈ p.strategy ∧ .A__ ∈ p.strategy ∧ .B ∈ p.strategy ∧ .B__ ∈ p.strategy)
    (seq : Option (List String)) (hs : KnownSeq p seq) (sol : Solution) (ov : ObjVals)
    (h : solve A p seq = .ok (sol, ov)) (other : List (List Rect))
    (hother : List.Forall₂ (fun (c : String × Dim) (rs : List Rect) =>
      (∀ r ∈ rs, r.w = w ∧ r.l = l ∧ Inside c.2.w (if p.strip then p.height else c.2.l) r) ∧
      rs.Pairwise Spec.Disjoint) p.containers other)
    (hn : (other.map List.length).sum ≤ (solvedFor p.items seq).length) :
    (other.map List.length).sum ≤ (placedIds sol).length := by
  obtain ⟨h1, _⟩ := C88_counts A p hv har w l hw hl hsz hrot hst seq hs sol ov h
  have h2 : (placedIds sol).length = (sol.map (fun q => q.2.length)).sum := by
    simp [placedIds, List.length_flatMap]
  have h3 : (other.map List.length).sum ≤
      (p.containers.map (fun c => (c.2.w / w) * ((if p.strip then p.height else c.2.l) / l))).sum := by
    clear h h1 hv hn
    revert hother
    generalize p.containers = cs
    intro hother
    induction hother with
    | nil => simp
    | cons hc _ ih =>
      simp only [List.map_cons, List.sum_cons]
      have := equal_cap hw hl (fun r hr => ⟨(hc.1 r hr).1, (hc.1 r hr).2.1⟩) (fun r hr => (hc.1 r hr).2.2) hc.2
      omega
  rw [h2, h1, fillInOrder_sum]
  omega

/-- **C88** in binary64 arithmetic, for problems of ordinary size -/
theorem C88_double (p : SolveIn) (hv : ValidIn p) (hb : p.strip = false)
    (w l : Nat) (hw : 0 < w) (hl : 0 < l) (hsz : ∀ q ∈ p.items, q.2 = ⟨w, l⟩)
    (hrot : p.rotation = false ∨ w = l) (hlow : ¬ (l = 1 ∧ 3 ≤ w))
    (hsmall : ∀ c ∈ p.containers, 10 * ((p.items.length + 1) * (c.2.w * c.2.l)) < 2 ^ 53)
    (hst : .A ∈ p.strategy ∧ .A__ ∈ p.strategy ∧ .B ∈ p.strategy ∧ .B__ ∈ p.strategy)
    (seq : Option (List String)) (hs : KnownSeq p seq) (sol : Solution) (ov : ObjVals)
    (h : solve Arith.double p seq = .ok (sol, ov)) :
    sol.map (fun q => q.2.length) =
      fillInOrder (p.containers.map (fun c => (c.2.w / w) * (c.2.l / l))) (solvedFor p.items seq).length := by
  have hlow' : ∀ q ∈ p.items, ¬ LowStrip p.rotation q.2 := by
    intro q hq hc
    rw [hsz q hq] at hc
    unfold LowStrip at hc
    simp only at hc
    rcases hrot with hr | hr
    · rw [hr] at hc; simp at hc; omega
    · omega
  obtain ⟨ov', h'⟩ := (C83_bin p hv hb hlow' hsmall seq hs sol).1 ⟨ov, h⟩
  have := (C88_counts Arith.exact p hv (Or.inr rfl) w l hw hl hsz hrot hst seq hs sol ov' h').1
  simpa [hb] using this

/-- 9 items of 3 × 2 for a container of 7 × 5 and one of 4 × 9: four go into each -/
def equalDemo : SolveIn where
  containers := [("a", ⟨7, 5⟩), ("b", ⟨4, 9⟩)]
  items := (List.range 9).map (fun i => ("i" ++ toString i, ⟨3, 2⟩))
  strategy := defaultStrategy
  rotation := false
  strip := false
  height := 0

theorem equalDemo_valid : ValidIn equalDemo :=
  ⟨⟨by decide, by decide⟩, ⟨by decide +kernel, by decide⟩, by decide⟩

example : (∀ q ∈ equalDemo.items, q.2 = ⟨3, 2⟩) ∧ equalDemo.rotation = false ∧
    (.A ∈ equalDemo.strategy ∧ .A__ ∈ equalDemo.strategy ∧ .B ∈ equalDemo.strategy ∧ .B__ ∈ equalDemo.strategy) ∧
    ((solve Arith.exact equalDemo none).toOption.map (fun r => r.1.map (fun q => q.2.length))) = some [4, 4] ∧
    fillInOrder [(7 / 3) * (5 / 2), (4 / 3) * (9 / 2)] 9 = [4, 4] := by
  refine ⟨by decide, rfl, by decide, by decide +kernel, by decide⟩

/-- another way of storing eight of them meets the hypotheses of `C88_optimal` -/
example : List.Forall₂ (fun (c : String × Dim) (rs : List Rect) =>
      (∀ r ∈ rs, r.w = 3 ∧ r.l = 2 ∧ Inside c.2.w (if equalDemo.strip then equalDemo.height else c.2.l) r) ∧
      rs.Pairwise Spec.Disjoint) equalDemo.containers
    [[⟨0, 0, 3, 2⟩, ⟨4, 1, 3, 2⟩, ⟨1, 3, 3, 2⟩, ⟨4, 3, 3, 2⟩], [⟨1, 0, 3, 2⟩, ⟨0, 3, 3, 2⟩, ⟨1, 5, 3, 2⟩, ⟨0, 7, 3, 2⟩]] := by
  have hdis : ∀ a b : Rect, (a.x + a.w ≤ b.x ∨ b.x + b.w ≤ a.x ∨ a.y + a.l ≤ b.y ∨ b.y + b.l ≤ a.y) →
      Spec.Disjoint a b := by
    intro a b h x y ⟨h1, h2⟩
    unfold Covers at h1 h2
    omega
  refine .cons ⟨by simp [Inside, equalDemo], ?_⟩ (.cons ⟨by simp [Inside, equalDemo], ?_⟩ .nil)
  · simp only [List.pairwise_cons, List.mem_cons, forall_eq_or_imp, List.not_mem_nil]
    refine ⟨⟨?_, ?_, ?_, by simp⟩, ⟨?_, ?_, by simp⟩, ⟨?_, by simp⟩, by simp, List.Pairwise.nil⟩ <;>
      exact hdis _ _ (by simp)
  · simp only [List.pairwise_cons, List.mem_cons, forall_eq_or_imp, List.not_mem_nil]
    refine ⟨⟨?_, ?_, ?_, by simp⟩, ⟨?_, ?_, by simp⟩, ⟨?_, by simp⟩, by simp, List.Pairwise.nil⟩ <;>
      exact hdis _ _ (by simp)

/-- without the classes A and B the statement would be false: with a strategy of C and D points only,
two of three unit squares stay outside an empty 2 × 2 container -/
example : (solve Arith.exact ⟨[("a", ⟨2, 2⟩)], [("x", ⟨1, 1⟩), ("y", ⟨1, 1⟩), ("z", ⟨1, 1⟩)], [.C, .D], false, false, 0⟩
    none).toOption.map (fun r => r.1.map (fun q => q.2.length)) = some [1] := by decide +kernel

/-- for items that may be turned the optimum is not reached in general: two items of 2 × 3 fit a 3 × 4
container when both are turned, but the first is tried upright first, and stays so -/
theorem C88_turned_refuted :
    (∃ sol ov, solve Arith.exact ⟨[("a", ⟨3, 4⟩)], [("x", ⟨2, 3⟩), ("y", ⟨2, 3⟩)], defaultStrategy, true, false, 0⟩
      none = .ok (sol, ov) ∧ (placedIds sol).length = 1) ∧
    (∀ r ∈ [(⟨0, 0, 3, 2⟩ : Rect), ⟨0, 2, 3, 2⟩], SizedAs true ⟨2, 3⟩ r ∧ Inside 3 4 r) ∧
    [(⟨0, 0, 3, 2⟩ : Rect), ⟨0, 2, 3, 2⟩].Pairwise Spec.Disjoint := by
  refine ⟨⟨[("a", [("x", ⟨0, 0, 2, 3⟩)])], [("a", 1 / 2)], by decide +kernel, rfl⟩, ?_, ?_⟩
  · simp [SizedAs, Inside]
  · simp only [List.pairwise_cons, List.mem_cons, forall_eq_or_imp, List.not_mem_nil]
    refine ⟨⟨?_, by simp⟩, by simp, List.Pairwise.nil⟩
    intro x y ⟨h1, h2⟩
    simp only [Covers] at h1 h2
    omega

end HP
