import Verif.Proofs.Names
import Verif.Proofs.Dict
import Verif.Model.State
import Mathlib.Tactic.NormNum
import Mathlib.Tactic.FieldSimp
import Mathlib.Tactic.Positivity
/-
Items of size 1 x 1 in a container of width 1: all are placed, one above the other.
-/
namespace HP

/-- the grid with the lowest `k` rows taken -/
def colGrid (k m : Nat) : Grid := List.replicate k [3] ++ List.replicate m [0]

theorem colGrid_get (k m y : Nat) (h : y < k + m) :
    pyGet (colGrid k m) (y : Int) = .ok (if y < k then [3] else [0]) := by
  have hlen : (colGrid k m).length = k + m := by simp [colGrid]
  have h1 : pyIdx (colGrid k m).length (y : Int) = some y := by
    unfold pyIdx
    rw [if_pos (by omega), if_pos (by rw [hlen]; omega)]
    simp
  unfold pyGet
  rw [h1]
  have : (colGrid k m)[y]? = some (if y < k then [3] else [0]) := by
    unfold colGrid
    rw [List.getElem?_append]
    simp only [List.length_replicate]
    by_cases hk : y < k
    · rw [if_pos hk, if_pos hk, List.getElem?_replicate, if_pos hk]
    · rw [if_neg hk, if_neg hk, List.getElem?_replicate, if_pos (by omega)]
  simp only [this]

theorem colGrid_rd (k m y : Nat) (h : y < k + m) :
    rd (colGrid k m) (y : Int) 0 = .ok (if y < k then 3 else 0) := by
  unfold rd
  rw [colGrid_get k m y h]
  simp only
  by_cases hk : y < k <;> simp only [hk, if_true, if_false] <;> rfl

theorem colGrid_setCell (k m : Nat) : setCell (colGrid k (m + 1)) (k : Int) 0 3 = .ok (colGrid (k + 1) m) := by
  unfold setCell
  rw [colGrid_get k (m + 1) k (by omega)]
  simp only [lt_irrefl, if_false]
  have h0 : pySet [0] 0 3 = .ok [3] := rfl
  rw [h0]
  simp only
  unfold pySet
  have h1 : pyIdx (colGrid k (m + 1)).length (k : Int) = some k := by
    unfold pyIdx
    rw [if_pos (by omega), if_pos (by simp [colGrid])]
    simp
  rw [h1]
  simp only [colGrid]
  rw [List.set_append_right _ _ (by simp)]
  simp only [List.length_replicate, Nat.sub_self, List.replicate_succ, List.set_cons_zero]
  rw [← List.replicate_succ, List.replicate_succ', List.append_assoc]
  rfl

theorem colGrid_setCell' (k m : Nat) : setCell (colGrid (k + 1) m) (k : Int) 0 3 = .ok (colGrid (k + 1) m) := by
  unfold setCell
  rw [colGrid_get (k + 1) m k (by omega)]
  simp only [Nat.lt_succ_self, if_true]
  have h0 : pySet [3] 0 3 = .ok [3] := rfl
  rw [h0]
  simp only
  unfold pySet
  have h1 : pyIdx (colGrid (k + 1) m).length (k : Int) = some k := by
    unfold pyIdx
    rw [if_pos (by omega), if_pos (by simp [colGrid]; omega)]
    simp
  rw [h1]
  simp only [colGrid]
  rw [List.set_append_left _ _ (by simp)]
  congr 2
  apply List.ext_getElem
  · simp
  · intro n h1 h2
    rw [List.getElem_set]
    simp

theorem fillItem_unit (k m : Nat) : fillItem (colGrid k (m + 1)) 0 k 1 1 = .ok (colGrid (k + 1) m) := by
  unfold fillItem
  have e1 : ((0 : Nat) : Int) + ((1 : Nat) : Int) - 1 = ((0 : Nat) : Int) := by omega
  have e2 : ((k : Nat) : Int) + ((1 : Nat) : Int) - 1 = (k : Int) := by omega
  have c0 : setCell (colGrid k (m + 1)) (k : Int) ((0 : Nat) : Int) 3 = _ := colGrid_setCell k m
  have c1 : setCell (colGrid (k + 1) m) (k : Int) ((0 : Nat) : Int) 3 = _ := colGrid_setCell' k m
  rw [e1, e2]
  show (do
    let g ← setCell (colGrid k (m + 1)) (k : Int) ((0 : Nat) : Int) 3
    let g ← setCell g (k : Int) ((0 : Nat) : Int) 3
    let g ← setCell g (k : Int) ((0 : Nat) : Int) 3
    setCell g (k : Int) ((0 : Nat) : Int) 3) = _
  simp only [bind, Except.bind, c0, c1]

theorem checkFitting_unit (k m : Nat) : checkFitting 1 (k + (m + 1)) 0 k 1 1 (colGrid k (m + 1)) = .ok true := by
  unfold checkFitting
  have e1 : ((0 : Nat) : Int) + ((1 : Nat) : Int) - 1 = 0 := by omega
  have e2 : ((k : Nat) : Int) + ((1 : Nat) : Int) - 1 = (k : Int) := by omega
  have r := colGrid_rd k (m + 1) k (by omega)
  simp only [lt_irrefl, if_false] at r
  have d1 : decide (0 + 1 > 1) = false := by decide
  have d2 : decide (k + 1 > k + (m + 1)) = false := by simp
  rw [e1, e2, d1, d2, Nat.cast_zero, r]
  rfl

theorem colGrid_rd' (k m y : Nat) (h : y < k + m) :
    rd (colGrid k m) (y : Int) (((0 : Nat) : Int) - 1) = .ok (if y < k then 3 else 0) := by
  unfold rd
  rw [colGrid_get k m y h]
  simp only
  by_cases hk : y < k <;> simp only [hk, if_true, if_false] <;> rfl

theorem genA_unit (A : Arith) (k m : Nat) :
    genA A (colGrid (k + 1) m) 1 (k + 1 + m) 0 k 1 = .ok (if 0 < m then [(.A, ⟨0, k + 1⟩)] else []) := by
  unfold genA condA
  by_cases hm : 0 < m
  · have d1 : decide (k + 1 < k + 1 + m) = true := by simp [hm]
    have d2 : decide (k + 1 ≥ k + 1 + m) = false := by simp; omega
    have r : rd (colGrid (k + 1) m) ((k + 1 : Nat) : Int) ((0 : Nat) : Int) = .ok 0 := by
      have := colGrid_rd (k + 1) m (k + 1) (by omega)
      simpa using this
    have r' : rd (colGrid (k + 1) m) ((k + 1 : Nat) : Int) (((0 : Nat) : Int) - 1) = .ok 0 := by
      have := colGrid_rd' (k + 1) m (k + 1) (by omega)
      simpa using this
    simp only [d1, d2, r, r', if_pos hm]
    rfl
  · have hm0 : m = 0 := by omega
    subst hm0
    have d1 : decide (k + 1 < k + 1 + 0) = false := by simp
    have d2 : decide (k + 1 ≥ k + 1 + 0) = true := by simp
    simp only [d1, d2]
    rfl

theorem genB_unit (A : Arith) (g : Grid) (L k : Nat) : genB A g 1 L 0 k 1 = .ok [] := by
  unfold genB condB
  rfl

/-- the points opened by the item in row `k`: the one above it, if there is a row -/
theorem generatePoints_unit (A : Arith) (k m : Nat) :
    generatePoints A (colGrid (k + 1) m) 1 (k + 1 + m) 0 k 1 1 = .ok (if 0 < m then [(.A, ⟨0, k + 1⟩)] else []) := by
  unfold generatePoints
  have hC : genC (colGrid (k + 1) m) (k + 1 + m) 0 k 1 1 = .ok [] := by
    unfold genC
    by_cases h : k + 1 < k + 1 + m
    · simp only [if_pos h]; rfl
    · simp only [if_neg h]
  have hD : genD (colGrid (k + 1) m) 1 0 k 1 1 = .ok [] := rfl
  rw [genA_unit, genB_unit, hC, hD]
  simp only [bind, Except.bind, pure, Except.pure, List.append_nil]

/-- bin packing in a container of width 1, exact arithmetic, A points first -/
def colParams (L : Nat) (rot : Bool) (strat : List PClass) : CParams :=
  { ar := Arith.exact, rot := rot, strip := false, W := 1, L := L, strategy := .A :: strat }

theorem handlePoint_unit (rot : Bool) (strat : List PClass) (k m : Nat) (id : String) (rest : PyDict String Dim)
    (pl : List Placed) (obj : Rat) (cur : Option Pt) :
    handlePoint (colParams (k + (m + 1)) rot strat)
      ⟨colGrid k (m + 1), (id, ⟨1, 1⟩) :: rest, id :: PyDict.keys rest, pl, obj, {}, cur⟩ ⟨0, k⟩ =
    .ok ⟨colGrid (k + 1) m, rest, PyDict.keys rest, pl ++ [⟨id, ⟨1, 1⟩, 0, k, false⟩],
      obj + 1 / ((k + (m + 1) : Nat) : Rat), { A := if 0 < m then [⟨0, k + 1⟩] else [] }, cur⟩ := by
  have hfind : PyDict.find? ((id, (⟨1, 1⟩ : Dim)) :: rest) id = some ⟨1, 1⟩ := by simp [PyDict.find?]
  have hfit : findFit rot 1 (k + (m + 1)) 0 k (colGrid k (m + 1)) ((id, ⟨1, 1⟩) :: rest) (id :: PyDict.keys rest) =
      .ok (some (id, ⟨1, 1⟩, false)) := by
    unfold findFit
    simp only [PyDict.getE_of_find? hfind, bind, Except.bind, checkFitting_unit, if_true, pure, Except.pure]
  have hg := generatePoints_unit Arith.exact k m
  rw [show k + 1 + m = k + (m + 1) by omega] at hg
  have hrem : pyRemove (id :: PyDict.keys rest) id = .ok (PyDict.keys rest) := by
    unfold pyRemove; simp
  have hdel : PyDict.delE ((id, (⟨1, 1⟩ : Dim)) :: rest) id = .ok rest := by
    rw [PyDict.delE_of_find? hfind]; simp [PyDict.erase]
  unfold handlePoint
  simp only [colParams, hfit, bind, Except.bind, Bool.false_eq_true, if_false, fillItem_unit, hrem, hdel, hg, pure, Except.pure]
  congr 2
  · simp [Arith.exact]
  · by_cases hm : 0 < m
    · simp only [if_pos hm]; rfl
    · simp only [if_neg hm]; rfl

theorem constructLoop_unit (rot : Bool) (strat : List PClass) : ∀ (rest : PyDict String Dim) (k m fuel : Nat)
    (pl : List Placed) (cur : Option Pt),
    (∀ p ∈ rest, p.2 = ⟨1, 1⟩) → rest.length ≤ m → rest.length + 1 ≤ fuel → (rest ≠ [] → cur = some ⟨0, k⟩) →
    ∃ s, constructLoop (colParams (k + m) rot strat) fuel
      ⟨colGrid k m, rest, PyDict.keys rest, pl, (k : Rat) / ((k + m : Nat) : Rat), {}, cur⟩ = .ok s ∧
      s.placed.length = pl.length + rest.length
  | [], k, m, fuel, pl, cur, _, _, hf, _ => by
    obtain ⟨f, rfl⟩ : ∃ f, fuel = f + 1 := ⟨fuel - 1, by simp at hf; omega⟩
    unfold constructLoop
    cases cur with
    | none => exact ⟨_, rfl, by simp⟩
    | some pt =>
      simp only [PyDict.keys, List.map_nil, true_or, if_true]
      exact ⟨_, rfl, by simp⟩
  | (id, d) :: rest, k, m, fuel, pl, cur, hu, hm, hf, hc => by
    have hd : d = ⟨1, 1⟩ := hu (id, d) (by simp)
    subst hd
    have hcur := hc (by simp)
    subst hcur
    obtain ⟨f, rfl⟩ : ∃ f, fuel = f + 1 := ⟨fuel - 1, by simp at hf; omega⟩
    obtain ⟨m, rfl⟩ : ∃ n, m = n + 1 := ⟨m - 1, by simp at hm; omega⟩
    simp only [List.length_cons] at hm hf
    have hobj : ¬ ((k : Rat) / ((k + (m + 1) : Nat) : Rat) ≥ 1) := by
      rw [ge_iff_le, not_le, div_lt_one (by positivity)]
      exact_mod_cast (by omega : k < k + (m + 1))
    unfold constructLoop
    simp only [PyDict.keys, List.map_cons, reduceCtorEq, false_or, hobj, if_false]
    have hh := handlePoint_unit rot strat k m id rest pl ((k : Rat) / ((k + (m + 1) : Nat) : Rat)) (some ⟨0, k⟩)
    unfold PyDict.keys at hh
    unfold constructStep
    simp only [bind, Except.bind, hh, pure, Except.pure]
    have hsum : (k : Rat) / ((k + (m + 1) : Nat) : Rat) + 1 / ((k + (m + 1) : Nat) : Rat) =
        ((k + 1 : Nat) : Rat) / ((k + 1 + m : Nat) : Rat) := by
      rw [← add_div]
      congr 1
      · push_cast; rfl
      · congr 1; omega
    rw [hsum]
    have hL : k + (m + 1) = k + 1 + m := by omega
    by_cases h0 : 0 < m
    · have hn : getCurrentPoint { A := if 0 < m then [⟨0, k + 1⟩] else [] } (colParams (k + (m + 1)) rot strat).strategy =
          (some ⟨0, k + 1⟩, {}) := by
        rw [if_pos h0]; rfl
      rw [hn, hL]
      obtain ⟨s, h1, h2⟩ := constructLoop_unit rot strat rest (k + 1) m f (pl ++ [⟨id, ⟨1, 1⟩, 0, k, false⟩])
        (some ⟨0, k + 1⟩) (fun p hp => hu p (by simp [hp])) (by omega) (by omega) (fun _ => rfl)
      exact ⟨s, h1, by rw [h2]; simp; omega⟩
    · have hr : rest = [] := List.length_eq_zero_iff.1 (by omega)
      subst hr
      rw [if_neg h0, hL]
      generalize getCurrentPoint { A := [] } (colParams (k + 1 + m) rot strat).strategy = q
      obtain ⟨f, rfl⟩ : ∃ n, f = n + 1 := ⟨f - 1, by simp at hf; omega⟩
      unfold constructLoop
      obtain ⟨q1, q2⟩ := q
      cases q1 with
      | none => exact ⟨_, rfl, by simp⟩
      | some pt =>
        simp only [List.map_nil, true_or, if_true]
        exact ⟨_, rfl, by simp⟩

/-- `solve()` places all of them -/
theorem column_solve (p : SolveIn) (cid : String) (n : Nat) (strat : List PClass)
    (hs : p.strip = false) (hc : p.containers = [(cid, ⟨1, n⟩)]) (hst : p.strategy = .A :: strat)
    (hu : ∀ q ∈ p.items, q.2 = ⟨1, 1⟩) (hn : p.items.length = n) (h0 : 0 < n) :
    ∃ m ov, solve Arith.exact p none = .ok ([(cid, m)], ov) ∧ m.length = n := by
  have hP : p.params Arith.exact ⟨1, n⟩ = colParams n p.rotation strat := by
    unfold SolveIn.params colParams
    rw [hs, hst]
    rfl
  have hne : p.items ≠ [] := by intro h; rw [h] at hn; simp at hn; omega
  have hfuel : p.items.length + 1 ≤ constructFuel p.items := by
    unfold constructFuel
    have : ∀ l : PyDict String Dim, l.length ≤ (l.map (fun q => q.2.w + q.2.l + 5)).sum := by
      intro l
      induction l with
      | nil => simp
      | cons a t ih => simp only [List.length_cons, List.map_cons, List.sum_cons]; omega
    have := this p.items
    omega
  obtain ⟨s, h1, h2⟩ := constructLoop_unit p.rotation strat p.items 0 n (constructFuel p.items) [] (some ⟨0, 0⟩)
    hu (by omega) hfuel (fun _ => rfl)
  have hinit : constructInit (colParams n p.rotation strat) p.items =
      ⟨colGrid 0 n, p.items, PyDict.keys p.items, [], ((0 : Nat) : Rat) / ((0 + n : Nat) : Rat), {}, some ⟨0, 0⟩⟩ := by
    unfold constructInit colGrid colParams
    simp
  rw [← hinit, Nat.zero_add] at h1
  have hcon : construct (p.params Arith.exact ⟨1, n⟩) p.items =
      .ok ⟨s.items, s.obj, s.placed.map (fun p => (p.id, p.rect))⟩ := by
    rw [hP]
    unfold construct
    rw [h1]
    rfl
  refine ⟨s.placed.map (fun p => (p.id, p.rect)), [(cid, s.obj)], ?_, ?_⟩
  · unfold solve
    simp only [bind, Except.bind]
    rw [hc]
    unfold solveLoop
    rw [if_neg hne, hcon]
    rfl
  · simp only [List.length_map, h2, List.length_nil, Nat.zero_add]
    exact hn

end HP
