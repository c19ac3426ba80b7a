import Verif.Props.Heuristic
import Verif.Proofs.Edges
import Verif.Props.Api
import Mathlib.Algebra.BigOperators.Ring.List
/-
Property C87: positions are edges of items placed before.
-/
namespace HP
open Spec

/-- **C87**: every item stands, in x direction, at the left wall or at the right edge of an item
placed before it in the same container, and, in y direction, at the bottom or at the top edge of an
item placed before it. -/
theorem C87_edges (A : Arith) (p : SolveIn) (hv : ValidIn p) (seq : Option (List String))
    (hs : KnownSeq p seq) (sol : Solution) (ov : ObjVals) (h : solve A p seq = .ok (sol, ov))
    (cid : String) (m : PyDict String Rect) (hm : (cid, m) ∈ sol) :
    ∀ pre id r post, m = pre ++ (id, r) :: post →
      (r.x = 0 ∨ ∃ q ∈ pre, r.x = q.2.x + q.2.w) ∧ (r.y = 0 ∨ ∃ q ∈ pre, r.y = q.2.y + q.2.l) := by
  obtain ⟨hvs, rem, hch⟩ := solve_ok hv hs h
  obtain ⟨c, v, pool, h1, h2, h3, h4, h5⟩ := hch.mem cid m hm
  intro pre id r post hmm
  rcases h5 with ⟨_, rfl, _⟩ | ⟨_, res, hres, hf, rfl, _, _⟩
  · simp at hmm
  · have hc := hv.conts.2 _ h1
    have hL : 0 < (p.params A c).L := by
      rw [params_L]; unfold lenOf
      split
      · rename_i hst; exact hv.height hst
      · exact hc.2
    refine construct_edges ⟨?_, fun q hq => hvs.2 q (h3.subset hq)⟩ hc.1 hL hres pre (id, r) post hmm
    exact hvs.1.sublist (h3.map _)

/-- **C87**, sums: the x coordinate is the sum of the widths of some items placed before, each taken once,
and the y coordinate the sum of the lengths of some of them (the widths and lengths as placed). -/
theorem C87_sums (A : Arith) (p : SolveIn) (hv : ValidIn p) (seq : Option (List String))
    (hs : KnownSeq p seq) (sol : Solution) (ov : ObjVals) (h : solve A p seq = .ok (sol, ov))
    (cid : String) (m : PyDict String Rect) (hm : (cid, m) ∈ sol) :
    ∀ pre id r post, m = pre ++ (id, r) :: post →
      (∃ some_ : List (String × Rect), some_.Sublist pre ∧ r.x = (some_.map (fun q => q.2.w)).sum) ∧
      (∃ some_ : List (String × Rect), some_.Sublist pre ∧ r.y = (some_.map (fun q => q.2.l)).sum) := by
  have hedge := C87_edges A p hv seq hs sol ov h cid m hm
  intro pre
  induction hn : pre.length using Nat.strong_induction_on generalizing pre with
  | _ n ih =>
    subst hn
    intro id r post hmm
    obtain ⟨e1, e2⟩ := hedge pre id r post hmm
    have key : ∀ q ∈ pre, ∃ l1 l2, pre = l1 ++ q :: l2 ∧ l1.length < pre.length ∧
        m = l1 ++ (q.1, q.2) :: (l2 ++ (id, r) :: post) := by
      intro q hq
      obtain ⟨l1, l2, e⟩ := List.append_of_mem hq
      exact ⟨l1, l2, e, by rw [e]; simp, by rw [hmm, e]; simp⟩
    constructor
    · rcases e1 with e | ⟨q, hq, e⟩
      · exact ⟨[], List.nil_sublist _, by simpa using e⟩
      · obtain ⟨l1, l2, e3, hlt, e4⟩ := key q hq
        obtain ⟨⟨some_, hsub, e5⟩, _⟩ := ih l1.length hlt l1 rfl q.1 q.2 _ e4
        refine ⟨some_ ++ [q], ?_, by simp [e, e5]⟩
        rw [e3]
        exact hsub.append (by simp)
    · rcases e2 with e | ⟨q, hq, e⟩
      · exact ⟨[], List.nil_sublist _, by simpa using e⟩
      · obtain ⟨l1, l2, e3, hlt, e4⟩ := key q hq
        obtain ⟨_, ⟨some_, hsub, e5⟩⟩ := ih l1.length hlt l1 rfl q.1 q.2 _ e4
        refine ⟨some_ ++ [q], ?_, by simp [e, e5]⟩
        rw [e3]
        exact hsub.append (by simp)

/-- **C87**, consequences: no packing is higher than the lengths of its items together (or wider than their
widths), and if all sizes of the items are multiples of `k`, so are all positions. -/
theorem C87_bounds (A : Arith) (p : SolveIn) (hv : ValidIn p) (seq : Option (List String))
    (hs : KnownSeq p seq) (sol : Solution) (ov : ObjVals) (h : solve A p seq = .ok (sol, ov))
    (cid : String) (m : PyDict String Rect) (hm : (cid, m) ∈ sol) :
    stackHeight (m.map (·.2)) ≤ (m.map (fun q => q.2.l)).sum ∧
    (∀ q ∈ m, q.2.x + q.2.w ≤ (m.map (fun q => q.2.w)).sum) ∧
    (∀ k, (∀ q ∈ p.items, k ∣ q.2.w ∧ k ∣ q.2.l) → ∀ q ∈ m, k ∣ q.2.x ∧ k ∣ q.2.y) := by
  have hsum := C87_sums A p hv seq hs sol ov h cid m hm
  have hsub : ∀ {f : String × Rect → Nat} {a pre : List (String × Rect)}, a.Sublist pre →
      (a.map f).sum ≤ (pre.map f).sum := by
    intro f a pre hs
    induction hs with
    | slnil => simp
    | cons x _ ih => simp only [List.map_cons, List.sum_cons]; omega
    | cons_cons x _ ih => simp only [List.map_cons, List.sum_cons]; omega
  refine ⟨?_, ?_, ?_⟩
  · rw [stackHeight_le]
    intro r hr
    obtain ⟨q, hq, rfl⟩ := List.mem_map.1 hr
    obtain ⟨pre, post, e⟩ := List.append_of_mem hq
    obtain ⟨_, a, ha, e2⟩ := hsum pre q.1 q.2 post e
    have := hsub (f := fun q => q.2.l) ha
    rw [e]
    simp only [List.map_append, List.map_cons, List.sum_append, List.sum_cons]
    omega
  · intro q hq
    obtain ⟨pre, post, e⟩ := List.append_of_mem hq
    obtain ⟨⟨a, ha, e2⟩, _⟩ := hsum pre q.1 q.2 post e
    have := hsub (f := fun q => q.2.w) ha
    rw [e]
    simp only [List.map_append, List.map_cons, List.sum_append, List.sum_cons]
    omega
  · intro k hk q hq
    have hsz : ∀ z ∈ m, k ∣ z.2.w ∧ k ∣ z.2.l := by
      intro z hz
      obtain ⟨d, hd', hz'⟩ := C05_sizes A p hv seq hs sol ov h cid m hm z.1 z.2 hz
      have := hk _ hd'
      rcases hz' with ⟨e1, e2⟩ | ⟨_, e1, e2⟩ <;> rw [e1, e2]
      · exact this
      · exact this.symm
    obtain ⟨pre, post, e⟩ := List.append_of_mem hq
    obtain ⟨⟨a, ha, e1⟩, ⟨b, hb, e2⟩⟩ := hsum pre q.1 q.2 post e
    rw [e1, e2]
    have hin : ∀ z ∈ pre, z ∈ m := by rw [e]; intro z hz; simp [hz]
    constructor
    · apply List.dvd_sum
      intro x hx
      obtain ⟨z, hz, rfl⟩ := List.mem_map.1 hx
      exact (hsz z (hin z (ha.subset hz))).1
    · apply List.dvd_sum
      intro x hx
      obtain ⟨z, hz, rfl⟩ := List.mem_map.1 hx
      exact (hsz z (hin z (hb.subset hz))).2

/-- **C87** after any sequence of operations (also after a search, where the order of placement is not
kept): every stored item stands at the left wall or at the right edge of another stored item of its
container, at the bottom or the top edge of another; if all sizes are multiples of `k` so are all
positions. -/
theorem C87_reachable (A : Arith) (i : Inst) (hr : Reach A i) (cid : String) (m : PyDict String Rect)
    (hm : (cid, m) ∈ i.solution) :
    (∀ id r, (id, r) ∈ m →
      (r.x = 0 ∨ ∃ id' q, (id', q) ∈ m ∧ id' ≠ id ∧ r.x = q.x + q.w) ∧
      (r.y = 0 ∨ ∃ id' q, (id', q) ∈ m ∧ id' ≠ id ∧ r.y = q.y + q.l)) ∧
    stackHeight (m.map (·.2)) ≤ (m.map (fun q => q.2.l)).sum ∧
    (∀ k, (∀ q ∈ i.items, k ∣ q.2.w ∧ k ∣ q.2.l) → ∀ q ∈ m, k ∣ q.2.x ∧ k ∣ q.2.y) := by
  have hnd : (m.map (·.1)).Nodup := by
    rcases hr.good.sol with ⟨h1, _⟩ | hg
    · rw [h1] at hm; simp at hm
    · have := hg.nodup
      obtain ⟨s1, s2, e⟩ := List.append_of_mem hm
      rw [e] at this
      simp only [placedIds, List.flatMap_append, List.flatMap_cons] at this
      exact (this.sublist (List.sublist_append_right _ _)).sublist (List.sublist_append_left _ _)
  rcases hr.good.sol with ⟨h1, _⟩ | ⟨p, seq, s, e1, e2, e3, hv, hs, h, hsame⟩
  · rw [h1] at hm; simp at hm
  obtain ⟨m', hm', hperm⟩ := hsame.2 cid m hm
  have hedge := C87_edges A p hv seq hs s _ h cid m' hm'
  obtain ⟨hb1, _, hb3⟩ := C87_bounds A p hv seq hs s _ h cid m' hm'
  have hnd' : (m'.map (·.1)).Nodup := (hperm.map _).nodup_iff.1 hnd
  refine ⟨?_, ?_, ?_⟩
  · intro id r hrm
    obtain ⟨pre, post, e⟩ := List.append_of_mem (hperm.mem_iff.1 hrm)
    have hne : ∀ q ∈ pre, q.1 ≠ id := by
      intro q hq he
      rw [e, List.map_append, List.nodup_append] at hnd'
      exact hnd'.2.2 q.1 (List.mem_map_of_mem hq) id (by simp) he
    have hin : ∀ q ∈ pre, q ∈ m := by
      intro q hq
      exact hperm.mem_iff.2 (by rw [e]; simp [hq])
    obtain ⟨h1, h2⟩ := hedge pre id r post e
    exact ⟨h1.imp (fun z => z) (fun ⟨q, hq, eq⟩ => ⟨q.1, q.2, hin q hq, hne q hq, eq⟩),
      h2.imp (fun z => z) (fun ⟨q, hq, eq⟩ => ⟨q.1, q.2, hin q hq, hne q hq, eq⟩)⟩
  · rw [← (hperm.map (fun q => q.2.l)).sum_eq] at hb1
    rw [stackHeight_le] at hb1 ⊢
    intro r hrm
    exact hb1 r ((hperm.map _).mem_iff.1 hrm)
  · intro k hk q hq
    exact hb3 k (by rw [e2]; exact hk) q (hperm.mem_iff.1 hq)

/-- a reachable instance with a result of two items in one container, from `Props.Structures` -/
example : Reach Arith.exact problemSolved ∧ problemSolved.solution ≠ [] := by
  refine ⟨?_, by decide⟩
  exact problemSolved_reach

/-- a problem with nine items: the top edge of "a" and of "b" give the rows of "g", "h", "c" and "d" -/
example : ValidIn exPts ∧ solve .exact exPts none = .ok (
      [("c", [("a", ⟨0, 0, 4, 2⟩), ("b", ⟨4, 0, 2, 3⟩), ("c", ⟨0, 3, 3, 2⟩), ("g", ⟨3, 2, 1, 2⟩),
      ("d", ⟨4, 3, 2, 2⟩), ("e", ⟨6, 0, 2, 2⟩), ("h", ⟨0, 2, 2, 1⟩), ("i", ⟨6, 2, 2, 2⟩)]), ("e", [])],
      [("c", 3/4), ("e", 0)]) := ⟨exPts_valid.1, by decide +kernel⟩

/-- the statement also covers results with overlapping items: "i3" crosses "i2", and stands at the right
edge of "i1" and the top edge of "i0" -/
example : ValidIn overlapDemo ∧ solve Arith.exact overlapDemo none = .ok
      ([("c0", [("i0", ⟨0, 0, 3, 3⟩), ("i1", ⟨0, 3, 1, 2⟩), ("i2", ⟨3, 0, 2, 5⟩),
        ("i3", ⟨1, 3, 5, 1⟩)])], [("c0", 13 / 20)]) := ⟨overlapDemo_valid, by decide +kernel⟩

/-- sizes that are multiples of 3, as in the third part of `C87_bounds` -/
example : ∃ p : SolveIn, ValidIn p ∧ (∀ q ∈ p.items, 3 ∣ q.2.w ∧ 3 ∣ q.2.l) ∧
    solve Arith.exact p none =
      .ok ([("c", [("a", ⟨0, 0, 3, 6⟩), ("b", ⟨3, 0, 6, 3⟩), ("c", ⟨3, 3, 3, 3⟩)])], [("c", 9 / 16)]) :=
  ⟨⟨[("c", ⟨10, 8⟩)], [("a", ⟨3, 6⟩), ("b", ⟨6, 3⟩), ("c", ⟨3, 3⟩)], defaultStrategy, false, false, 0⟩,
    ⟨⟨by decide, by decide⟩, ⟨by decide, by decide⟩, by decide⟩, by decide, by decide +kernel⟩

end HP
