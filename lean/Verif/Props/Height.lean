import Verif.Proofs.Pile
import Verif.Props.Room
/-
Property theorems C67: the influence of `container_height` on a strip packing.
-/
namespace HP
open Spec

/-- the pool of a call of `solve` -/
theorem solve_pool {A : Arith} {p : SolveIn} {seq : Option (List String)} (hs : KnownSeq p seq) :
    solve A p seq = solveLoop A p p.containers (solvedFor p.items seq) := by
  cases seq with
  | none => rfl
  | some s =>
    unfold solve
    simp only [bind, Except.bind]
    rw [deepcopySeq_reorder (hs s rfl)]
    rfl

/-- C67, the part that is true: if the packing of the strip at height `H` is not higher than `H'`
(`H' ≤ H`), then `solve()` at height `H'` gives the same result, provided the strategy has neither
B' nor F points, or the 20% test that separates B' from F decides in the same way for both heights. -/
theorem C67_partial (A : Arith) (p : SolveIn) (hv : ValidIn p) (seq : Option (List String))
    (hs : KnownSeq p seq) (hst : p.strip = true) (cid : String) (c : Dim) (hc : p.containers = [(cid, c)])
    (m : PyDict String Rect) (ov : ObjVals) (h : solve A p seq = .ok ([(cid, m)], ov))
    (H' : Nat) (hpos : 0 < H') (hle : H' ≤ p.height) (hstack : stackHeight (m.map (·.2)) ≤ H')
    (hr : (PClass.B_ ∉ p.strategy ∧ PClass.F ∉ p.strategy) ∨
      ∀ n, n < stackHeight (m.map (·.2)) → A.ratioLe n H' = A.ratioLe n p.height) :
    solve A { p with height := H' } seq = .ok ([(cid, m)], ov) := by
  obtain ⟨hvi, -⟩ := solve_ok hv hs h
  have hcp := (hv.conts.2 (cid, c) (by rw [hc]; simp)).1
  rw [solve_pool hs] at h
  rw [solve_pool (p := { p with height := H' }) hs]
  simp only [hc] at h ⊢
  generalize solvedFor p.items seq = items at h hvi ⊢
  unfold solveLoop at h ⊢
  by_cases he : items = []
  · rw [if_pos he] at h ⊢
    exact h
  · rw [if_neg he] at h ⊢
    simp only [bind, Except.bind, pure, Except.pure] at h ⊢
    cases hcon : construct (p.params A c) items with
    | error e => rw [hcon] at h; cases h
    | ok r =>
      rw [hcon] at h
      simp only [solveLoop] at h
      injection h with h
      injection h with h1 h2
      have hm : r.solution = m := by
        injection h1 with h1 _
        injection h1
      subst hm
      have hP : ∀ cs, ({ p with containers := cs, height := H' } : SolveIn).params A c = { p.params A c with L := H' } := by
        intro cs; unfold SolveIn.params; simp [hst]
      have hPL : (p.params A c).L = p.height := by unfold SolveIn.params; simp [hst]
      have := construct_height (P := p.params A c) (L' := H') hvi hcp hpos
        (by rw [hPL]; exact hle) hst hcon hstack (by rw [hPL]; exact hr)
      rw [hP, this]
      simp only [solveLoop]
      rw [h1, h2]

/-- C67 with exact arithmetic: any two heights that are at least five times the stack of the higher
strip give the same result. -/
theorem C67_exact_partial (p : SolveIn) (hv : ValidIn p) (seq : Option (List String))
    (hs : KnownSeq p seq) (hst : p.strip = true) (cid : String) (c : Dim) (hc : p.containers = [(cid, c)])
    (m : PyDict String Rect) (ov : ObjVals) (h : solve Arith.exact p seq = .ok ([(cid, m)], ov))
    (H' : Nat) (hpos : 0 < H') (hle : H' ≤ p.height) (hstack : 5 * stackHeight (m.map (·.2)) ≤ H') :
    solve Arith.exact { p with height := H' } seq = .ok ([(cid, m)], ov) := by
  refine C67_partial Arith.exact p hv seq hs hst cid c hc m ov h H' hpos hle (by omega) (Or.inr ?_)
  intro n hn
  unfold Arith.exact
  simp only
  rw [decide_eq_true (by omega), decide_eq_true (by omega)]

/-- the result of `solve` for a strip -/
theorem solve_strip_shape {A : Arith} {p : SolveIn} (hv : ValidIn p) {seq : Option (List String)}
    (hs : KnownSeq p seq) (hst : p.strip = true) {cid : String} {c : Dim} (hc : p.containers = [(cid, c)]) :
    ∃ m v, solve A p seq = .ok ([(cid, m)], [(cid, v)]) ∧
      stackHeight (m.map (·.2)) ≤ ((solvedFor p.items seq).map (fun q => upright p.rotation q.2)).sum := by
  obtain ⟨sol, ov, h⟩ := (C06_total A p hv seq).1 hs
  obtain ⟨hvi, -⟩ := solve_ok hv hs h
  have hcp := (hv.conts.2 (cid, c) (by rw [hc]; simp)).1
  have hH := hv.height hst
  rw [solve_pool hs] at h ⊢
  simp only [hc] at h ⊢
  generalize solvedFor p.items seq = items at h hvi ⊢
  unfold solveLoop at h ⊢
  by_cases he : items = []
  · rw [if_pos he]
    subst he
    exact ⟨[], 0, rfl, by simp [stackHeight]⟩
  · rw [if_neg he] at h ⊢
    simp only [bind, Except.bind, pure, Except.pure] at h ⊢
    cases hcon : construct (p.params A c) items with
    | error e => rw [hcon] at h; cases h
    | ok r =>
      have hPL : (p.params A c).L = p.height := by unfold SolveIn.params; simp [hst]
      have := stack_le_pile (P := p.params A c) hvi hcp (by rw [hPL]; exact hH) hcon
      exact ⟨r.solution, r.obj, by simp only [solveLoop], this⟩

/-- C67 without looking at a result: with exact arithmetic all heights from five times the pile of
all items upwards give the same result. -/
theorem C67_high_partial (p : SolveIn) (hv : ValidIn p) (seq : Option (List String))
    (hs : KnownSeq p seq) (hst : p.strip = true) (cid : String) (c : Dim) (hc : p.containers = [(cid, c)])
    (H₁ H₂ : Nat) (h₁ : 0 < H₁) (h₂ : 0 < H₂)
    (hp₁ : 5 * ((solvedFor p.items seq).map (fun q => upright p.rotation q.2)).sum ≤ H₁)
    (hp₂ : 5 * ((solvedFor p.items seq).map (fun q => upright p.rotation q.2)).sum ≤ H₂) :
    solve Arith.exact { p with height := H₁ } seq = solve Arith.exact { p with height := H₂ } seq := by
  have key : ∀ H H' : Nat, 0 < H' → H' ≤ H →
      5 * ((solvedFor p.items seq).map (fun q => upright p.rotation q.2)).sum ≤ H' →
      solve Arith.exact { p with height := H } seq = solve Arith.exact { p with height := H' } seq := by
    intro H H' hpos hle hp
    have hvH : ValidIn { p with height := H } := ⟨hv.conts, hv.items, fun _ => by show 0 < H; omega⟩
    obtain ⟨m, v, e, hm⟩ := solve_strip_shape (A := Arith.exact) (p := { p with height := H }) hvH hs hst hc
    have hm' : stackHeight (m.map (·.2)) ≤ ((solvedFor p.items seq).map (fun q => upright p.rotation q.2)).sum := hm
    rw [e]
    exact (C67_exact_partial { p with height := H } hvH seq hs hst cid c hc m _ e H' hpos hle (by omega)).symm
  rcases Nat.le_total H₁ H₂ with h | h
  · exact (key H₂ H₁ h₁ h hp₁).symm
  · exact key H₁ H₂ h₂ h hp₂

/-- a strip of width 8 with the default strategy -/
def c67Demo (h : Nat) : SolveIn where
  containers := [(stripId, ⟨8, stripInitHeight⟩)]
  items := [("i0", ⟨4, 2⟩), ("i1", ⟨5, 5⟩), ("i2", ⟨3, 4⟩)]
  strategy := defaultStrategy
  rotation := false
  strip := true
  height := h

theorem c67Demo_valid (h : Nat) (hp : 0 < h) : ValidIn (c67Demo h) where
  conts := by constructor <;> simp [c67Demo, stripInitHeight]
  items := by constructor <;> simp [c67Demo]
  height := fun _ => hp

/-- C67 is false of the code, with the default strategy: the packing at `container_height` 10 is
7 high, but the packing at `container_height` 9 is another one. -/
theorem C67_refuted : ValidIn (c67Demo 10) ∧ ValidIn (c67Demo 9) ∧
    solve Arith.exact (c67Demo 10) none = .ok
      ([(stripId, [("i0", ⟨0, 0, 4, 2⟩), ("i1", ⟨0, 2, 5, 5⟩), ("i2", ⟨5, 0, 3, 4⟩)])], [(stripId, 15 / 16)]) ∧
    solve Arith.exact (c67Demo 9) none = .ok
      ([(stripId, [("i0", ⟨0, 0, 4, 2⟩), ("i1", ⟨0, 2, 5, 5⟩), ("i2", ⟨5, 2, 3, 4⟩)])], [(stripId, 15 / 16)]) ∧
    stackHeight [(⟨0, 0, 4, 2⟩ : Rect), ⟨0, 2, 5, 5⟩, ⟨5, 0, 3, 4⟩] = 7 :=
  ⟨c67Demo_valid 10 (by decide), c67Demo_valid 9 (by decide), by decide +kernel, by decide +kernel, by decide⟩

/-- the hypotheses of C67_partial and C67_exact_partial: from 60 to 55 -/
example : ValidIn (c67Demo 60) ∧ solve Arith.exact (c67Demo 60) none = .ok
      ([(stripId, [("i0", ⟨0, 0, 4, 2⟩), ("i1", ⟨0, 2, 5, 5⟩), ("i2", ⟨0, 7, 3, 4⟩)])], [(stripId, 9 / 16)]) ∧
    5 * stackHeight [(⟨0, 0, 4, 2⟩ : Rect), ⟨0, 2, 5, 5⟩, ⟨0, 7, 3, 4⟩] ≤ 55 :=
  ⟨c67Demo_valid 60 (by decide), by decide +kernel, by decide⟩

/-- ... and without B' and F points: from 10 to the height of the stack -/
example : solve Arith.exact { c67Demo 10 with strategy := [.A, .B, .C, .D, .A_, .B__] } none = .ok
      ([(stripId, [("i0", ⟨0, 0, 4, 2⟩), ("i1", ⟨0, 2, 5, 5⟩), ("i2", ⟨5, 2, 3, 4⟩)])], [(stripId, 15 / 16)]) ∧
    stackHeight [(⟨0, 0, 4, 2⟩ : Rect), ⟨0, 2, 5, 5⟩, ⟨5, 2, 3, 4⟩] ≤ 7 := by
  constructor <;> decide +kernel

/-! ### C68 -/

/-- C68: with a strategy that starts with the class A, such as the default one, and a strip at
least as high as all lengths together, `solve()` piles the items up at the left wall in the order
of the pool, unrotated, whatever their widths are. -/
theorem C68_pile (A : Arith) (p : SolveIn) (hv : ValidIn p) (seq : Option (List String))
    (hs : KnownSeq p seq) (hst : p.strip = true) (cid : String) (c : Dim) (hc : p.containers = [(cid, c)])
    (hS : p.strategy.head? = some .A)
    (hroom : ((solvedFor p.items seq).map (fun q => q.2.l)).sum ≤ p.height)
    (hwide : ∀ q ∈ solvedFor p.items seq, q.2.w ≤ c.w) :
    ∃ v, solve A p seq = .ok ([(cid, pileFrom 0 (solvedFor p.items seq))], [(cid, v)]) := by
  obtain ⟨sol, ov, h⟩ := (C06_total A p hv seq).1 hs
  obtain ⟨hvi, -⟩ := solve_ok hv hs h
  have hcp := (hv.conts.2 (cid, c) (by rw [hc]; simp)).1
  have hH := hv.height hst
  obtain ⟨S, hS⟩ : ∃ S, p.strategy = .A :: S := by
    cases hp : p.strategy with
    | nil => rw [hp] at hS; cases hS
    | cons a S => rw [hp] at hS; injection hS with hS; subst hS; exact ⟨S, rfl⟩
  rw [solve_pool hs] at h ⊢
  simp only [hc] at h ⊢
  generalize solvedFor p.items seq = items at h hvi hroom hwide ⊢
  unfold solveLoop at h ⊢
  by_cases he : items = []
  · rw [if_pos he]
    subst he
    exact ⟨0, rfl⟩
  · rw [if_neg he] at h ⊢
    simp only [bind, Except.bind, pure, Except.pure] at h ⊢
    cases hcon : construct (p.params A c) items with
    | error e => rw [hcon] at h; cases h
    | ok r =>
      have hPL : (p.params A c).L = p.height := by unfold SolveIn.params; simp [hst]
      obtain ⟨e1, e2⟩ := construct_pile (P := p.params A c) hvi hcp (by rw [hPL]; exact hH) hst hS
        (by rw [hPL]; exact hroom) hwide hcon
      refine ⟨r.obj, ?_⟩
      simp only [e1, e2, solveLoop]

/-- so the strip is then as high as all lengths together -/
theorem C68_stack (items : List (String × Dim)) :
    stackHeight ((pileFrom 0 items).map (·.2)) = (items.map (fun q => q.2.l)).sum := by
  have : ∀ (items : List (String × Dim)) (y : Nat), items ≠ [] →
      stackHeight ((pileFrom y items).map (·.2)) = y + (items.map (fun q => q.2.l)).sum := by
    intro items
    induction items with
    | nil => intro y h; exact absurd rfl h
    | cons q items ih =>
      intro y _
      obtain ⟨id, d⟩ := q
      have e : (pileFrom y ((id, d) :: items)).map (·.2) = [⟨0, y, d.w, d.l⟩] ++ (pileFrom (y + d.l) items).map (·.2) := rfl
      rw [e, stackHeight_append, stackHeight_single]
      simp only [List.map_cons, List.sum_cons]
      by_cases hi : items = []
      · subst hi; simp [pileFrom, stackHeight]
      · rw [ih _ hi]; omega
  by_cases hi : items = []
  · subst hi; rfl
  · rw [this items 0 hi]; omega

/-- C68 for an object: on every strip packing problem the first packing, with the default strategy,
is a single column as soon as the strip is high enough for it. -/
theorem C68_api (A : Arith) (i j : Inst) (hv : i.Valid) (hst : i.strip = true) (hS : i.strategy = defaultStrategy)
    (W h : Nat) (hW : i.containers.map (fun c => c.2.w) = [W]) (hh : i.height = some h)
    (hwide : ∀ q ∈ i.items, q.2.w ≤ W) (hroom : (i.items.map (fun q => q.2.l)).sum ≤ h)
    (hj : i.solve A none = .ok j) : j.solution = [(stripId, pileFrom 0 i.items)] := by
  obtain ⟨W', hc⟩ := hv.strip hst
  rw [hc] at hW
  simp at hW
  subst hW
  obtain ⟨v, hv'⟩ := C68_pile A i.solveIn hv.solveIn none (by intro s h; cases h) hst stripId _ hc
    (by show i.strategy.head? = _; rw [hS]; rfl)
    (by show _ ≤ i.height.getD 0; rw [hh]; exact hroom) hwide
  unfold Inst.solve at hj
  simp only [hv', bind, Except.bind] at hj
  cases hj
  rfl

/-- the hypotheses of C68 hold of `c67Demo 60`, `lsRoom` with its own strategy -/
example : lsRoom.Valid ∧ lsRoom.strip = true ∧ lsRoom.strategy = defaultStrategy ∧
    lsRoom.containers.map (fun c => c.2.w) = [5] ∧ lsRoom.height = some 11 ∧
    (∀ q ∈ lsRoom.items, q.2.w ≤ 5) ∧ (lsRoom.items.map (fun q => q.2.l)).sum ≤ 11 :=
  ⟨lsRoom_valid, rfl, rfl, rfl, rfl, by decide, by decide⟩

end HP
