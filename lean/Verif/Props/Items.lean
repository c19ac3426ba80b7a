import Verif.Props.Structures
import Verif.SpecItems
import Mathlib.Data.String.Basic
/-
Properties C50 (`sort_items`) and C51 (`orient_items`).
-/
namespace HP
open Spec

theorem ltNats_iff : ∀ (a b : List Char), ltNats (a.map Char.toNat) (b.map Char.toNat) = true ↔ a < b
  | [], [] => by simp [ltNats]
  | [], _ :: _ => by simp [ltNats]
  | _ :: _, [] => by simp [ltNats]
  | x :: xs, y :: ys => by
    simp only [List.map_cons, ltNats, List.cons_lt_cons_iff]
    have hx : (x < y) ↔ x.toNat < y.toNat := Iff.rfl
    have he : x = y ↔ x.toNat = y.toNat := ⟨fun h => h ▸ rfl, fun h => Char.toNat_inj.1 h⟩
    rw [hx, he]
    by_cases h1 : x.toNat < y.toNat
    · simp [h1]
    · by_cases h2 : y.toNat < x.toNat
      · simp only [if_neg h1, if_pos h2, h1, false_or]; simp; omega
      · have : x.toNat = y.toNat := by omega
        rw [if_neg h1, if_neg h2, ltNats_iff xs ys]
        simp [this]

theorem strLt_iff (a b : String) : strLt a b = true ↔ a < b := ltNats_iff _ _

/-- the order of `[key, id]` lists -/
def KeyBefore (x y : Rat × String) : Prop := x.1 < y.1 ∨ (x.1 = y.1 ∧ x.2 < y.2)

theorem keyLt_iff (x y : Rat × String) : keyLt x y = true ↔ KeyBefore x y := by
  unfold keyLt KeyBefore
  by_cases h : x.1 = y.1
  · rw [if_pos h, strLt_iff]; simp [h]
  · rw [if_neg h]; simp [h]

theorem KeyBefore.trans {x y z : Rat × String} (h1 : KeyBefore x y) (h2 : KeyBefore y z) : KeyBefore x z := by
  rcases h1 with h1 | ⟨a1, b1⟩
  · rcases h2 with h2 | ⟨a2, b2⟩
    · exact Or.inl (lt_trans h1 h2)
    · exact Or.inl (a2 ▸ h1)
  · rcases h2 with h2 | ⟨a2, b2⟩
    · exact Or.inl (a1 ▸ h2)
    · exact Or.inr ⟨a1.trans a2, lt_trans b1 b2⟩

theorem KeyBefore.total {x y : Rat × String} (h : x.2 ≠ y.2) : KeyBefore x y ∨ KeyBefore y x := by
  rcases lt_trichotomy x.1 y.1 with h1 | h1 | h1
  · exact Or.inl (Or.inl h1)
  · rcases lt_trichotomy x.2 y.2 with h2 | h2 | h2
    · exact Or.inl (Or.inr ⟨h1, h2⟩)
    · exact absurd h2 h
    · exact Or.inr (Or.inr ⟨h1.symm, h2⟩)
  · exact Or.inr (Or.inl h1)

theorem KeyBefore.irrefl (x : Rat × String) : ¬ KeyBefore x x := by
  rintro (h | ⟨_, h⟩)
  · exact lt_irrefl _ h
  · exact lt_irrefl _ h

theorem insertKey_perm (a : Rat × String) : ∀ l, (insertKey a l).Perm (a :: l)
  | [] => .refl _
  | b :: l => by
    unfold insertKey
    split
    · exact ((insertKey_perm a l).cons b).trans (.swap _ _ _)
    · exact .refl _

theorem sortAsc_perm : ∀ xs, (sortAsc xs).Perm xs
  | [] => .refl _
  | a :: l => (insertKey_perm a _).trans ((sortAsc_perm l).cons a)

theorem insertKey_sorted (a : Rat × String) : ∀ l, l.Pairwise KeyBefore → (∀ b ∈ l, a.2 ≠ b.2) →
    (insertKey a l).Pairwise KeyBefore
  | [], _, _ => by simp [insertKey]
  | b :: l, h, hn => by
    obtain ⟨h1, h2⟩ := List.pairwise_cons.1 h
    unfold insertKey
    split
    · rename_i hlt
      refine List.pairwise_cons.2 ⟨?_, insertKey_sorted a l h2 (fun c hc => hn c (by simp [hc]))⟩
      intro c hc
      rcases List.mem_cons.1 ((insertKey_perm a l).mem_iff.1 hc) with rfl | hc
      · exact (keyLt_iff _ _).1 hlt
      · exact h1 c hc
    · rename_i hlt
      have hab : KeyBefore a b := by
        rcases KeyBefore.total (hn b (by simp)) with h | h
        · exact h
        · exact absurd ((keyLt_iff _ _).2 h) hlt
      refine List.pairwise_cons.2 ⟨?_, h⟩
      intro c hc
      rcases List.mem_cons.1 hc with rfl | hc
      · exact hab
      · exact hab.trans (h1 c hc)

theorem sortAsc_sorted : ∀ xs : List (Rat × String), (xs.map (·.2)).Nodup → (sortAsc xs).Pairwise KeyBefore
  | [], _ => by simp [sortAsc]
  | a :: l, h => by
    rw [List.map_cons, List.nodup_cons] at h
    refine insertKey_sorted a _ (sortAsc_sorted l h.2) ?_
    intro b hb he
    exact h.1 (he ▸ List.mem_map_of_mem ((sortAsc_perm l).mem_iff.1 hb))

theorem pySort_perm (xs : List (Rat × String)) (r : Bool) : (pySort xs r).Perm xs := by
  unfold pySort
  split
  · exact (List.reverse_perm _).trans ((sortAsc_perm _).trans (List.reverse_perm _))
  · exact sortAsc_perm _

theorem pySort_sorted (xs : List (Rat × String)) (r : Bool) (h : (xs.map (·.2)).Nodup) :
    (pySort xs r).Pairwise (fun x y => if r then KeyBefore y x else KeyBefore x y) := by
  unfold pySort
  cases r
  · simpa using sortAsc_sorted xs h
  · simp only [if_true]
    rw [List.pairwise_reverse]
    exact sortAsc_sorted _ (by rw [List.map_reverse, List.nodup_reverse]; exact h)

theorem pickItems_pairs {items : PyDict String Dim} (hn : (PyDict.keys items).Nodup) (f : Dim → Rat) :
    ∀ (l : List (String × Dim)), (∀ p ∈ l, p ∈ items) → pickItems items ((l.map (fun p => (f p.2, p.1))).map (·.2)) = l
  | [], _ => rfl
  | p :: l, h => by
    have hp := PyDict.find?_of_mem hn (h p (by simp))
    have := pickItems_pairs hn f l (fun q hq => h q (by simp [hq]))
    unfold pickItems at this ⊢
    simp only [List.map_cons, List.filterMap_cons, hp, Option.map_some, this]

/-- a list that is a permutation of `xs.map g` is the image of a permutation of `xs` -/
theorem perm_map_inv {α β : Type} (g : α → β) {xs : List α} {ys : List β} (h : ys.Perm (xs.map g)) :
    ∃ zs : List α, zs.Perm xs ∧ ys = zs.map g := by
  have : Relation.Comp (fun a b => a = List.map g b) (fun a b : List α => a.Perm b) ys xs := by
    rw [List.eq_map_comp_perm]; exact h
  obtain ⟨zs, h1, h2⟩ := this
  exact ⟨zs, h2, h1⟩

theorem sortKey_iff (A : Arith) (by_ : PyVal) (f : Dim → Rat) :
    sortKey? A by_ = some f ↔ ∃ name, by_ = .str name ∧ criterion A.quot name = some f := by
  have h1 : (fun d : Dim => ((d.w * d.l : Nat) : Rat)) = fun d => (d.w : Rat) * d.l := by
    funext d; push_cast; rfl
  have h2 : (fun d : Dim => ((d.w * 2 + d.l * 2 : Nat) : Rat)) = fun d => 2 * ((d.w : Rat) + d.l) := by
    funext d; push_cast; ring
  unfold sortKey? criterion
  rw [h1, h2]
  constructor
  · intro h
    by_cases a : by_.eqStr "area" = true
    · rw [if_pos a] at h; exact ⟨_, eqStr_iff.1 a, by rw [if_pos rfl]; exact h⟩
    · rw [if_neg a] at h
      by_cases b : by_.eqStr "perimeter" = true
      · rw [if_pos b] at h; exact ⟨_, eqStr_iff.1 b, by rw [if_neg (by decide), if_pos rfl]; exact h⟩
      · rw [if_neg b] at h
        by_cases c : by_.eqStr "longest_side_ratio" = true
        · rw [if_pos c] at h
          exact ⟨_, eqStr_iff.1 c, by rw [if_neg (by decide), if_neg (by decide), if_pos rfl]; exact h⟩
        · rw [if_neg c] at h; cases h
  · rintro ⟨name, rfl, h⟩
    simp only [eqStr_iff, PyVal.str.injEq]
    exact h

theorem assign_items_valid {i : Inst} {d : PyDict String Dim} (hd : ValidSizes d) (hne : d ≠ []) :
    i.assign .items (SKind.items.encodeAll d) = ({ i with items := d, solution := [], objVals := [] }, .ok ()) := by
  have hs : IsSizes "w" "l" (SKind.items.encodeAll d) d := by
    refine ⟨_, rfl, by simpa using hne, ?_⟩
    rw [List.forall₂_map_left_iff]
    refine List.forall₂_same.2 ?_
    intro p hp
    have := hd.2 p hp
    exact ⟨rfl, _, _, Or.inl rfl, ⟨this.1, Or.inl rfl⟩, ⟨this.2, Or.inl rfl⟩⟩
  have hb := (buildStructure_iff .items (SKind.items.encodeAll d) _).2 ⟨d, hs, rfl⟩
  rw [foldl_insert_nodup d [] (by simpa using hd.1), List.nil_append] at hb
  have ht := (buildStructure_valid hb).2.2
  unfold Inst.assign
  simp only [reduceCtorEq, decide_false, Bool.false_and, Bool.false_eq_true, if_false, hb, ht, if_true]
  rfl

/-! ### C50 -/

theorem sorted_of_valid (A : Arith) (i : Inst) (hv : i.Valid) (name : String) (key : Dim → Rat)
    (hk : criterion A.quot name = some key) (reverse : Bool) :
    ∃ sorted : List (String × Dim),
      step A i (.sortItems (some (.str name, reverse))) =
        ({ i with items := sorted, solution := [], objVals := [] }, .ok) ∧
      sorted.Perm i.items ∧
      sorted.Pairwise (fun p q => if reverse then Before key q p else Before key p q) := by
  have hkey : sortKey? A (.str name) = some key := (sortKey_iff A _ _).2 ⟨name, rfl, hk⟩
  obtain ⟨zs, h1, h2⟩ := perm_map_inv (fun p : String × Dim => (key p.2, p.1))
    (pySort_perm (i.items.map (fun p => (key p.2, p.1))) reverse)
  refine ⟨zs, ?_, h1, ?_⟩
  · have hz : ValidSizes zs :=
      ⟨(h1.map _).nodup_iff.2 hv.items.1, fun p hp => hv.items.2 p (h1.mem_iff.1 hp)⟩
    have hzne : zs ≠ [] := by intro he; subst he; exact hv.itemsNe h1.symm.eq_nil
    show outcomeOf (i.sortItems A (some (.str name, reverse))) = _
    unfold Inst.sortItems
    simp only [hkey]
    rw [h2, pickItems_pairs hv.items.1 key zs (fun p hp => h1.mem_iff.1 hp), assign_items_valid hz hzne]
    rfl
  · have hs := pySort_sorted (i.items.map (fun p => (key p.2, p.1))) reverse
      (by rw [List.map_map]; exact hv.items.1)
    rw [h2, List.pairwise_map] at hs
    exact hs

/-- C50: sorting the items by one of the three criteria succeeds.  Afterwards the items are the
same ones, ids and sizes, arranged by the criterion (items with the same number by their ids),
or the other way round with `reverse`; the solution is discarded and nothing else is changed. -/
theorem C50_sorted (A : Arith) (i : Inst) (h : Reach A i) (name : String) (key : Dim → Rat)
    (hk : criterion A.quot name = some key) (reverse : Bool) :
    ∃ sorted : List (String × Dim),
      step A i (.sortItems (some (.str name, reverse))) =
        ({ i with items := sorted, solution := [], objVals := [] }, .ok) ∧
      sorted.Perm i.items ∧
      sorted.Pairwise (fun p q => if reverse then Before key q p else Before key p q) :=
  sorted_of_valid A i h.good.valid name key hk reverse

theorem before_unique {key : Dim → Rat} {l m : List (String × Dim)} (hp : l.Perm m)
    (hl : l.Pairwise (Before key)) (hm : m.Pairwise (Before key)) : l = m := by
  refine List.Perm.eq_of_pairwise (le := Before key) ?_ hl hm hp
  intro a b _ _ hab hba
  rcases hab with h | ⟨h1, h2⟩ <;> rcases hba with g | ⟨g1, g2⟩
  · exact absurd (lt_trans h g) (lt_irrefl _)
  · exact absurd (g1 ▸ h) (lt_irrefl _)
  · exact absurd (h1 ▸ g) (lt_irrefl _)
  · exact absurd (lt_trans h2 g2) (lt_irrefl _)

/-- C50: sorting with `reverse` gives exactly the reversed order; sorting depends on the set of
items only, not on their order, so sorting again has no effect on the items. -/
theorem C50_reverse (A : Arith) (i j : Inst) (hi : Reach A i) (hj : Reach A j) (hp : j.items.Perm i.items)
    (name : String) (key : Dim → Rat) (hk : criterion A.quot name = some key) (reverse : Bool) :
    (step A i (.sortItems (some (.str name, true)))).1.items =
      (step A i (.sortItems (some (.str name, false)))).1.items.reverse ∧
    (step A j (.sortItems (some (.str name, reverse)))).1.items =
      (step A i (.sortItems (some (.str name, reverse)))).1.items := by
  have key1 : ∀ (a b : Inst), Reach A a → Reach A b → b.items.Perm a.items →
      (step A b (.sortItems (some (.str name, true)))).1.items =
        (step A a (.sortItems (some (.str name, false)))).1.items.reverse := by
    intro a b ha hb hab
    obtain ⟨s, e1, p1, o1⟩ := C50_sorted A a ha name key hk false
    obtain ⟨t, e2, p2, o2⟩ := C50_sorted A b hb name key hk true
    rw [e1, e2]
    show t = s.reverse
    have : t.reverse = s := before_unique ((List.reverse_perm _).trans (p2.trans (hab.trans p1.symm)))
      (by rw [List.pairwise_reverse]; simpa using o2) (by simpa using o1)
    rw [← this, List.reverse_reverse]
  refine ⟨key1 i i hi hi (.refl _), ?_⟩
  cases reverse
  · have a := key1 i i hi hi (.refl _)
    have b := key1 j i hj hi hp.symm
    rw [a] at b
    exact (List.reverse_injective b).symm
  · rw [key1 i j hi hj hp, key1 i i hi hi (.refl _)]

/-- C50: anything but the three criteria raises NotImplementedError and changes nothing; with
`sorting_by=None` nothing happens. -/
theorem C50_unknown (A : Arith) (i : Inst) (by_ : PyVal) (reverse : Bool)
    (hb : ∀ name key, by_ = .str name → criterion A.quot name ≠ some key) :
    step A i (.sortItems (some (by_, reverse))) = (i, .raised .notImplementedError) ∧
    step A i (.sortItems none) = (i, .ok) := by
  refine ⟨?_, rfl⟩
  have : sortKey? A by_ = none := by
    cases h : sortKey? A by_ with
    | none => rfl
    | some f =>
      obtain ⟨name, h1, h2⟩ := (sortKey_iff A by_ f).1 h
      exact absurd h2 (hb name f h1)
  show outcomeOf (i.sortItems A (some (by_, reverse))) = _
  unfold Inst.sortItems
  simp only [this]
  rfl

/-- C50 on a concrete problem: items a 2 x 3, b 4 x 1, c 2 x 2 of areas 6, 4, 4 -/
example :
    (step Arith.exact problemSolved (.sortItems (some (.str "area", false)))).1.items =
      [("b", ⟨4, 1⟩), ("c", ⟨2, 2⟩), ("a", ⟨2, 3⟩)] ∧
    (step Arith.exact problemSolved (.sortItems (some (.str "area", true)))).1.items =
      [("a", ⟨2, 3⟩), ("c", ⟨2, 2⟩), ("b", ⟨4, 1⟩)] ∧
    (step Arith.exact problemSolved (.sortItems (some (.str "perimeter", false)))).1.items =
      [("c", ⟨2, 2⟩), ("a", ⟨2, 3⟩), ("b", ⟨4, 1⟩)] ∧
    (step Arith.exact problemSolved (.sortItems (some (.str "longest_side_ratio", true)))).1.items =
      [("b", ⟨4, 1⟩), ("a", ⟨2, 3⟩), ("c", ⟨2, 2⟩)] ∧
    (step Arith.exact problemSolved (.sortItems (some (.str "weight", true)))).2 =
      .raised .notImplementedError := by
  refine ⟨?_, ?_, ?_, ?_, ?_⟩ <;> decide +kernel

/-! ### C51 -/

theorem find?_mid {done rest : PyDict String Dim} {s : String} {x : Dim} (h : s ∉ PyDict.keys done) :
    PyDict.find? (done ++ (s, x) :: rest) s = some x := by
  induction done with
  | nil => simp [PyDict.find?]
  | cons p done ih =>
    obtain ⟨k, a⟩ := p
    simp only [PyDict.keys, List.map_cons, List.mem_cons, not_or] at h
    show (if k = s then some a else PyDict.find? (done ++ (s, x) :: rest) s) = _
    rw [if_neg (Ne.symm h.1)]
    exact ih h.2

theorem insert_mid {done rest : PyDict String Dim} {s : String} {x : Dim} (y : Dim) (h : s ∉ PyDict.keys done) :
    PyDict.insert (done ++ (s, x) :: rest) s y = done ++ (s, y) :: rest := by
  induction done with
  | nil => simp [PyDict.insert]
  | cons p done ih =>
    obtain ⟨k, a⟩ := p
    simp only [PyDict.keys, List.map_cons, List.mem_cons, not_or] at h
    show (if k = s then (k, y) :: (done ++ (s, x) :: rest) else (k, a) :: PyDict.insert (done ++ (s, x) :: rest) s y) = _
    rw [if_neg (Ne.symm h.1), ih h.2]
    rfl

theorem posInt?_nat {n : Nat} (h : 0 < n) : (PyVal.int (n : Int)).posInt? = some n :=
  posInt?_iff.2 ⟨h, Or.inl rfl⟩

theorem setDim_mid {i : Inst} {done rest : PyDict String Dim} {s : String} {x : Dim}
    (hi : i.items = done ++ (s, x) :: rest) (h : s ∉ PyDict.keys done) {n : Nat} (hn : 0 < n) :
    i.setDim .items (.str s) (.str "w") (.int n) =
      ({ i with items := done ++ (s, { x with w := n }) :: rest, solution := [], objVals := [] }, .ok ()) ∧
    i.setDim .items (.str s) (.str "l") (.int n) =
      ({ i with items := done ++ (s, { x with l := n }) :: rest, solution := [], objVals := [] }, .ok ()) := by
  have hl : lookupKey (i.data .items) (.str s) = .ok (s, x) := by
    show lookupKey i.items (.str s) = _
    simp only [lookupKey, PyVal.asStr?, hi, find?_mid h]
  have hlk : (decide (SKind.items = SKind.containers) && i.strip) = false := rfl
  have w1 : (PyVal.str "w").eqStr SKind.items.width = true := rfl
  have w2 : (PyVal.str "l").eqStr SKind.items.width = false := by decide
  have w3 : (PyVal.str "l").eqStr SKind.items.length = true := rfl
  have hh : ∀ t, (PyVal.str t).hashable = true := fun _ => rfl
  constructor
  · unfold Inst.setDim
    simp only [hl, hlk, Bool.false_eq_true, if_false, hh, Bool.not_true, w1, if_true, posInt?_nat hn]
    have : (PyDict.insert (i.data .items) s { x with w := n }) = done ++ (s, { x with w := n }) :: rest := by
      show PyDict.insert i.items s _ = _
      rw [hi]; exact insert_mid _ h
    rw [this]; rfl
  · unfold Inst.setDim
    simp only [hl, hlk, Bool.false_eq_true, if_false, hh, Bool.not_true, w2, w3, if_true, posInt?_nat hn]
    have : (PyDict.insert (i.data .items) s { x with l := n }) = done ++ (s, { x with l := n }) :: rest := by
      show PyDict.insert i.items s _ = _
      rw [hi]; exact insert_mid _ h
    rw [this]; rfl

/-- turn the items for which `t` holds -/
def turnIf (t : Nat → Nat → Bool) (p : String × Dim) : String × Dim :=
  (p.1, if t p.2.w p.2.l then turned p.2 else p.2)

theorem orientLoop_eq (t : Nat → Nat → Bool) : ∀ (rest done : PyDict String Dim) (i : Inst),
    i.items = done ++ rest → (PyDict.keys (done ++ rest)).Nodup → (∀ p ∈ rest, 0 < p.2.w ∧ 0 < p.2.l) →
    Inst.orientLoop t (PyDict.keys rest) i =
      (if ∃ p ∈ rest, t p.2.w p.2.l = true then
        { i with items := done ++ rest.map (turnIf t), solution := [], objVals := [] }
       else i, .ok ())
  | [], done, i, hi, _, _ => by simp [PyDict.keys, Inst.orientLoop]
  | (s, d) :: rest, done, i, hi, hn, hp => by
    have hs : s ∉ PyDict.keys done := by
      intro hm
      simp only [PyDict.keys, List.map_append, List.map_cons, List.nodup_append] at hn
      exact hn.2.2 s hm s (by simp) rfl
    have hd := hp (s, d) (by simp)
    have hn' : ∀ x : Dim, (PyDict.keys ((done ++ [(s, x)]) ++ rest)).Nodup := by
      intro x
      have : PyDict.keys ((done ++ [(s, x)]) ++ rest) = PyDict.keys (done ++ (s, d) :: rest) := by
        simp [PyDict.keys]
      rw [this]; exact hn
    have hp' : ∀ p ∈ rest, 0 < p.2.w ∧ 0 < p.2.l := fun p h => hp p (by simp [h])
    have hf : PyDict.find? i.items s = some d := by rw [hi]; exact find?_mid hs
    show Inst.orientLoop t (s :: PyDict.keys rest) i = _
    unfold Inst.orientLoop
    simp only [hf]
    by_cases ht : t d.w d.l = true
    · rw [if_pos ht, (setDim_mid hi hs hd.2).1]
      simp only
      rw [(setDim_mid (i := { i with items := done ++ (s, { d with w := d.l }) :: rest, solution := [], objVals := [] })
        rfl hs hd.1).2]
      simp only
      rw [orientLoop_eq t rest (done ++ [(s, turned d)]) _ (by simp [turned]) (hn' _) hp']
      have hex : ∃ p ∈ (s, d) :: rest, t p.2.w p.2.l = true := ⟨(s, d), by simp, ht⟩
      rw [if_pos hex]
      have hm : (turnIf t (s, d)) = (s, turned d) := by simp [turnIf, ht]
      split
      · simp [hm]
      · rename_i hno
        have : rest.map (turnIf t) = rest := by
          refine (List.map_congr_left ?_).trans (List.map_id _)
          intro p hp
          have : t p.2.w p.2.l = false := by
            cases hb : t p.2.w p.2.l
            · rfl
            · exact absurd ⟨p, hp, hb⟩ hno
          simp [turnIf, this]
        rw [List.map_cons, hm, this]
        rfl
    · rw [if_neg ht]
      rw [orientLoop_eq t rest (done ++ [(s, d)]) i (by rw [hi]; simp) (hn' _) hp']
      have hm : (turnIf t (s, d)) = (s, d) := by simp [turnIf, ht]
      have hex : (∃ p ∈ (s, d) :: rest, t p.2.w p.2.l = true) ↔ ∃ p ∈ rest, t p.2.w p.2.l = true := by
        simp [ht]
      simp only [hex]
      split
      · simp [hm]
      · rfl

theorem orientItems_eq {A : Arith} {i : Inst} (h : Reach A i) (t : Nat → Nat → Bool) :
    Inst.orientLoop t (PyDict.keys i.items) i =
      (if ∃ p ∈ i.items, t p.2.w p.2.l = true then
        { i with items := i.items.map (turnIf t), solution := [], objVals := [] } else i, .ok ()) := by
  have hv := h.good.valid
  have := orientLoop_eq t i.items [] i rfl hv.items.1 hv.items.2
  simpa using this

/-- C51: with rotation enabled, `orient_items("wide")` puts the longer side of every item as its
width, `orient_items("long")` as its length: same ids, same order, same two sides, nothing else
changed, and the solution is discarded if an item was turned and kept otherwise. -/
theorem C51_oriented (A : Arith) (i : Inst) (h : Reach A i) (hr : i.rotation = true) (o : String)
    (put : Dim → Dim) (ho : (o = "wide" ∧ put = widened) ∨ (o = "long" ∧ put = lengthened)) :
    ((∃ p ∈ i.items, put p.2 ≠ p.2) → step A i (.orientItems (.str o)) =
      ({ i with items := i.items.map (fun p => (p.1, put p.2)), solution := [], objVals := [] }, .ok)) ∧
    ((∀ p ∈ i.items, put p.2 = p.2) → step A i (.orientItems (.str o)) = (i, .ok)) := by
  have hgen : ∀ (t : Nat → Nat → Bool), (∀ d : Dim, put d = if t d.w d.l then turned d else d) →
      (∀ d : Dim, t d.w d.l = true → d.w ≠ d.l) →
      step A i (.orientItems (.str o)) = outcomeOf (Inst.orientLoop t (PyDict.keys i.items) i) →
      ((∃ p ∈ i.items, put p.2 ≠ p.2) → step A i (.orientItems (.str o)) =
        ({ i with items := i.items.map (fun p => (p.1, put p.2)), solution := [], objVals := [] }, .ok)) ∧
      ((∀ p ∈ i.items, put p.2 = p.2) → step A i (.orientItems (.str o)) = (i, .ok)) := by
    intro t hp hne hst
    have hiff : ∀ d : Dim, put d ≠ d ↔ t d.w d.l = true := by
      intro d
      rw [hp d]
      constructor
      · intro hn
        by_contra hf
        rw [if_neg hf] at hn
        exact hn rfl
      · intro ht
        rw [if_pos ht]
        intro he
        have := hne d ht
        apply this
        have := congrArg Dim.l he
        simpa [turned] using this
    have hm : i.items.map (turnIf t) = i.items.map (fun p => (p.1, put p.2)) :=
      List.map_congr_left (fun p _ => by rw [hp]; rfl)
    rw [hst, orientItems_eq h t, hm]
    constructor
    · rintro ⟨p, h1, h2⟩
      rw [if_pos ⟨p, h1, (hiff _).1 h2⟩]; rfl
    · intro hall
      rw [if_neg]
      · rfl
      · rintro ⟨p, h1, h2⟩
        exact (hiff _).2 h2 (hall p h1)
  have hn : ∀ s : String, (PyVal.str s).isNone = false := fun _ => rfl
  rcases ho with ⟨rfl, rfl⟩ | ⟨rfl, rfl⟩
  · refine hgen (fun w l => decide (l > w)) ?_ ?_ ?_
    · intro d; simp [widened]
    · intro d hd; simp at hd; omega
    · show outcomeOf (i.orientItems _) = _
      unfold Inst.orientItems
      rw [if_neg (by simp [hn]), if_neg (by simp [hr]), if_pos (eqStr_iff.2 rfl)]
  · refine hgen (fun w l => decide (l < w)) ?_ ?_ ?_
    · intro d; simp [lengthened]
    · intro d hd; simp at hd; omega
    · show outcomeOf (i.orientItems _) = _
      unfold Inst.orientItems
      rw [if_neg (by simp [hn]), if_neg (by simp [hr]),
        if_neg (fun h => by have := eqStr_iff.1 h; injection this with this; revert this; decide),
        if_pos (eqStr_iff.2 rfl)]

/-- C51: afterwards every item is as wide as long or wider ("long": as long or longer), and a
second call changes nothing. -/
theorem C51_shape (A : Arith) (i : Inst) (h : Reach A i) (hr : i.rotation = true) :
    (∀ p ∈ (step A i (.orientItems (.str "wide"))).1.items, p.2.l ≤ p.2.w) ∧
    (∀ p ∈ (step A i (.orientItems (.str "long"))).1.items, p.2.w ≤ p.2.l) ∧
    (∀ o, o = "wide" ∨ o = "long" →
      step A (step A i (.orientItems (.str o))).1 (.orientItems (.str o)) =
        ((step A i (.orientItems (.str o))).1, .ok)) := by
  have key : ∀ (o : String) (put : Dim → Dim), (o = "wide" ∧ put = widened) ∨ (o = "long" ∧ put = lengthened) →
      (∀ d, put (put d) = put d) →
      (∀ p ∈ (step A i (.orientItems (.str o))).1.items, put p.2 = p.2) ∧
      (step A i (.orientItems (.str o))).1.rotation = true := by
    intro o put ho hi
    obtain ⟨h1, h2⟩ := C51_oriented A i h hr o put ho
    by_cases hex : ∃ p ∈ i.items, put p.2 ≠ p.2
    · rw [h1 hex]
      refine ⟨?_, hr⟩
      intro p hp
      obtain ⟨q, _, rfl⟩ := List.mem_map.1 hp
      exact hi _
    · rw [h2 (fun p hp => by by_contra hc; exact hex ⟨p, hp, hc⟩)]
      exact ⟨fun p hp => by by_contra hc; exact hex ⟨p, hp, hc⟩, hr⟩
  have iw : ∀ d, widened (widened d) = widened d := by
    intro d; simp only [widened, turned]; split <;> simp <;> omega
  have il : ∀ d, lengthened (lengthened d) = lengthened d := by
    intro d; simp only [lengthened, turned]; split <;> simp <;> omega
  have kw := key "wide" widened (Or.inl ⟨rfl, rfl⟩) iw
  have kl := key "long" lengthened (Or.inr ⟨rfl, rfl⟩) il
  refine ⟨?_, ?_, ?_⟩
  · intro p hp
    have := kw.1 p hp
    by_contra hc
    have hlt : p.2.w < p.2.l := by omega
    rw [widened, if_pos hlt] at this
    have := congrArg Dim.w this
    simp [turned] at this; omega
  · intro p hp
    have := kl.1 p hp
    by_contra hc
    have hlt : p.2.l < p.2.w := by omega
    rw [lengthened, if_pos hlt] at this
    have := congrArg Dim.w this
    simp [turned] at this; omega
  · rintro o (rfl | rfl)
    · exact (C51_oriented A _ (.step _ h) kw.2 "wide" widened (Or.inl ⟨rfl, rfl⟩)).2 kw.1
    · exact (C51_oriented A _ (.step _ h) kl.2 "long" lengthened (Or.inr ⟨rfl, rfl⟩)).2 kl.1

/-- C51: nothing happens when rotation is disabled, or the orientation is None or not one of
the two. -/
theorem C51_skipped (A : Arith) (i : Inst) (o : PyVal)
    (h : i.rotation = false ∨ (o ≠ .str "wide" ∧ o ≠ .str "long")) :
    step A i (.orientItems o) = (i, .ok) := by
  show outcomeOf (i.orientItems o) = _
  unfold Inst.orientItems
  split
  · rfl
  · split
    · rfl
    · rename_i hr
      have hr' : i.rotation = true := by simpa using hr
      rcases h with h | ⟨h1, h2⟩
      · rw [hr'] at h; cases h
      · rw [if_neg (fun e => h1 (eqStr_iff.1 e)), if_neg (fun e => h2 (eqStr_iff.1 e))]
        rfl

/-- C51 on a concrete problem: a 2 x 3, b 4 x 1, c 2 x 2 -/
example :
    (step Arith.exact problemSolved (.orientItems (.str "wide"))).1.items =
      [("a", ⟨3, 2⟩), ("b", ⟨4, 1⟩), ("c", ⟨2, 2⟩)] ∧
    (step Arith.exact problemSolved (.orientItems (.str "long"))).1.items =
      [("a", ⟨2, 3⟩), ("b", ⟨1, 4⟩), ("c", ⟨2, 2⟩)] ∧
    (step Arith.exact problemSolved (.orientItems (.str "wide"))).1.solution = [] ∧
    (step Arith.exact problemSolved (.orientItems (.str "diagonal"))).1.solution ≠ [] := by
  refine ⟨?_, ?_, ?_, ?_⟩ <;> decide +kernel

end HP
