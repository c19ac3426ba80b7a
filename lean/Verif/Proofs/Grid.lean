import Verif.Model.Construct
/-
Lemmas about the container grid: reads, fitting test, marking of an item.
-/
namespace HP

@[simp] theorem andP_true (b) : andP (.ok true) b = b := rfl
@[simp] theorem andP_false (b) : andP (.ok false) b = .ok false := rfl
@[simp] theorem orP_true (b) : orP (.ok true) b = .ok true := rfl
@[simp] theorem orP_false (b) : orP (.ok false) b = b := rfl
@[simp] theorem andP_ok (a b : Bool) : andP (.ok a) (.ok b) = .ok (a && b) := by cases a <;> rfl
@[simp] theorem orP_ok (a b : Bool) : orP (.ok a) (.ok b) = .ok (a || b) := by cases a <;> rfl
@[simp] theorem testP_ok {α} (a : α) (p) : testP (.ok a) p = .ok (p a) := rfl

/-- The grid has `L` rows of `W` cells. -/
def WF (g : Grid) (W L : Nat) : Prop := g.length = L ∧ ∀ r ∈ g, r.length = W

/-- Value of cell `(x, y)`; 0 outside the grid. -/
def cell (g : Grid) (y x : Nat) : Nat := ((g[y]?).bind (·[x]?)).getD 0

theorem pyIdx_nat (n k : Nat) (h : k < n) : pyIdx n k = some k := by
  unfold pyIdx; simp [h]

theorem pyGet_nat {α : Type} (xs : List α) (k : Nat) (h : k < xs.length) :
    pyGet xs (k : Int) = .ok xs[k] := by
  unfold pyGet; rw [pyIdx_nat _ _ h]; simp [h]

theorem pyGet_tot {α : Type} (xs : List α) (i : Int) (h1 : -(xs.length : Int) ≤ i)
    (h2 : i < xs.length) : ∃ v ∈ xs, pyGet xs i = .ok v := by
  unfold pyGet pyIdx
  by_cases h : 0 ≤ i
  · have hk : i.toNat < xs.length := by omega
    simp [h, h2, hk]
  · have hk : ((xs.length : Int) + i).toNat < xs.length := by omega
    simp [h, h1, hk]

theorem pySet_nat {α : Type} (xs : List α) (k : Nat) (v : α) (h : k < xs.length) :
    pySet xs (k : Int) v = .ok (xs.set k v) := by
  unfold pySet; rw [pyIdx_nat _ _ h]

theorem WF.row {g : Grid} {W L : Nat} (h : WF g W L) {y : Nat} (hy : y < L) :
    ∃ hy' : y < g.length, g[y].length = W :=
  ⟨h.1 ▸ hy, h.2 _ (List.getElem_mem _)⟩

theorem rd_eq {g : Grid} {W L : Nat} (h : WF g W L) {y x : Nat} (hy : y < L) (hx : x < W) :
    rd g y x = .ok (cell g y x) := by
  obtain ⟨hy', hr⟩ := h.row hy
  unfold rd
  rw [pyGet_nat g y hy']
  simp only
  rw [pyGet_nat _ x (by omega)]
  simp [cell, hy', hr, hx]

theorem rd_eq' {g : Grid} {W L : Nat} (h : WF g W L) {y x : Int} (hy0 : 0 ≤ y) (hy : y < L)
    (hx0 : 0 ≤ x) (hx : x < W) : rd g y x = .ok (cell g y.toNat x.toNat) := by
  have := rd_eq h (y := y.toNat) (x := x.toNat) (by omega) (by omega)
  rw [Int.toNat_of_nonneg hy0, Int.toNat_of_nonneg hx0] at this
  exact this

theorem rd_tot {g : Grid} {W L : Nat} (h : WF g W L) {y x : Int} (hy0 : -(L : Int) ≤ y)
    (hy : y < L) (hx0 : -(W : Int) ≤ x) (hx : x < W) : ∃ v, rd g y x = .ok v := by
  obtain ⟨row, hm, hrow⟩ := pyGet_tot g y (by rw [h.1]; exact hy0) (by rw [h.1]; exact hy)
  have hl := h.2 _ hm
  obtain ⟨v, _, hv⟩ := pyGet_tot row x (by omega) (by omega)
  exact ⟨v, by unfold rd; rw [hrow]; exact hv⟩

theorem cell_oob_x {g : Grid} {W L : Nat} (h : WF g W L) {y x : Nat} (hx : W ≤ x) :
    cell g y x = 0 := by
  unfold cell
  rcases hy : g[y]? with _ | r
  · rfl
  · have hl := h.2 r (List.mem_of_getElem? hy)
    have : r[x]? = none := List.getElem?_eq_none (by omega)
    simp [this]

theorem cell_oob_y {g : Grid} {W L : Nat} (h : WF g W L) {y x : Nat} (hy : L ≤ y) :
    cell g y x = 0 := by
  unfold cell
  rw [List.getElem?_eq_none (by rw [h.1]; omega)]; rfl

theorem WF_empty (W L : Nat) : WF (List.replicate L (List.replicate W 0)) W L := by
  refine ⟨by simp, ?_⟩
  intro r hr
  rw [List.eq_of_mem_replicate hr]; simp

theorem cell_empty (W L y x : Nat) : cell (List.replicate L (List.replicate W 0)) y x = 0 := by
  unfold cell
  simp only [List.getElem?_replicate]
  by_cases hy : y < L <;> simp [hy]
  simp only [List.getElem?_replicate]
  split <;> rfl

/-! ### The fitting test -/

theorem rowTaken_eq {g : Grid} {W L : Nat} (h : WF g W L) {y Xo w : Nat} (hy : y < L) :
    ∃ b, rowTaken g y Xo w = .ok b ∧
      (b = false ↔ ∀ x, Xo ≤ x → x < Xo + w → cell g y x = 0) := by
  obtain ⟨hy', hr⟩ := h.row hy
  refine ⟨_, by unfold rowTaken; rw [pyGet_nat g y hy'], ?_⟩
  have hc : ∀ x, cell g y x = (g[y][x]?).getD 0 := by
    intro x; simp [cell, hy']
  constructor
  · intro hb x h1 h2
    rw [List.any_eq_false] at hb
    rw [hc]
    rcases hx : g[y][x]? with _ | v
    · rfl
    · have : v ∈ (g[y].drop Xo).take w := by
        rw [List.mem_iff_getElem?]
        refine ⟨x - Xo, ?_⟩
        rw [List.getElem?_take, if_pos (by omega), List.getElem?_drop]
        rw [show Xo + (x - Xo) = x by omega]; exact hx
      have := hb _ this
      simpa using this
  · intro hx
    rw [List.any_eq_false]
    intro v hv
    rw [List.mem_iff_getElem?] at hv
    obtain ⟨i, hi⟩ := hv
    rw [List.getElem?_take] at hi
    split at hi
    · rename_i hiw
      rw [List.getElem?_drop] at hi
      have := hx (Xo + i) (by omega) (by omega)
      rw [hc, hi] at this
      simpa using this
    · simp at hi

theorem rowsFree_eq {g : Grid} {W L : Nat} (h : WF g W L) (Xo w : Nat) (ys : List Nat)
    (hys : ∀ y ∈ ys, y < L) :
    ∃ b, rowsFree g Xo w ys = .ok b ∧
      (b = true ↔ ∀ y ∈ ys, ∀ x, Xo ≤ x → x < Xo + w → cell g y x = 0) := by
  induction ys with
  | nil => exact ⟨true, rfl, by simp⟩
  | cons y ys ih =>
    obtain ⟨b, hb, hiff⟩ := rowTaken_eq h (Xo := Xo) (w := w) (hys y (by simp))
    obtain ⟨b', hb', hiff'⟩ := ih (fun z hz => hys z (by simp [hz]))
    unfold rowsFree
    rw [hb]
    cases b with
    | true =>
      refine ⟨false, rfl, ?_⟩
      simp only [Bool.false_eq_true, false_iff]
      intro hall
      have := hiff.2 (hall y (by simp))
      simp at this
    | false =>
      refine ⟨b', hb', ?_⟩
      rw [hiff']
      constructor
      · intro h1 z hz
        rcases List.mem_cons.1 hz with rfl | hz
        · exact hiff.1 rfl
        · exact h1 z hz
      · intro h1 z hz
        exact h1 z (by simp [hz])

/-- What `_check_fitting` really tests: the rectangle is inside the container, all its rows
except the last are free, and the first and last cell of its first and last row are free. -/
def CheckSpec (g : Grid) (W L Xo Yo w l : Nat) : Prop :=
  Xo + w ≤ W ∧ Yo + l ≤ L ∧
  cell g Yo Xo = 0 ∧ cell g Yo (Xo + w - 1) = 0 ∧
  cell g (Yo + l - 1) Xo = 0 ∧ cell g (Yo + l - 1) (Xo + w - 1) = 0 ∧
  (∀ y x, Yo ≤ y → y < Yo + l - 1 → Xo ≤ x → x < Xo + w → cell g y x = 0)

theorem checkFitting_eq {g : Grid} {W L : Nat} (h : WF g W L) {Xo Yo w l : Nat} (hw : 0 < w)
    (hl : 0 < l) :
    ∃ b, checkFitting W L Xo Yo w l g = .ok b ∧ (b = true ↔ CheckSpec g W L Xo Yo w l) := by
  unfold checkFitting
  by_cases h1 : Xo + w > W
  · refine ⟨false, by simp [h1], ?_⟩
    simp only [Bool.false_eq_true, false_iff]; rintro ⟨h2, _⟩; omega
  by_cases h2 : Yo + l > L
  · refine ⟨false, by simp [h1, h2], ?_⟩
    simp only [Bool.false_eq_true, false_iff]; rintro ⟨_, h3, _⟩; omega
  have e1 : ((Xo : Int) + w - 1) = ((Xo + w - 1 : Nat) : Int) := by omega
  have e2 : ((Yo : Int) + l - 1) = ((Yo + l - 1 : Nat) : Int) := by omega
  rw [e1, e2, rd_eq h (by omega) (by omega), rd_eq h (by omega) (by omega),
    rd_eq h (by omega) (by omega), rd_eq h (by omega) (by omega)]
  obtain ⟨b, hb, hiff⟩ := rowsFree_eq h Xo w (List.range' Yo (l - 1)) (by
    intro y hy; rw [List.mem_range'_1] at hy; omega)
  simp only [testP_ok, orP_ok, h1, h2, decide_false, Bool.false_or]
  rw [hb]
  by_cases hc : (cell g Yo Xo != 0 || (cell g Yo (Xo + w - 1) != 0 ||
      (cell g (Yo + l - 1) Xo != 0 || cell g (Yo + l - 1) (Xo + w - 1) != 0))) = true
  · refine ⟨false, by rw [hc], ?_⟩
    simp only [Bool.false_eq_true, false_iff]
    rintro ⟨_, _, c1, c2, c3, c4, _⟩
    simp [c1, c2, c3, c4] at hc
  · have hc' := hc
    rw [Bool.not_eq_true] at hc
    rw [hc]
    refine ⟨b, rfl, ?_⟩
    rw [hiff]
    simp only [Bool.or_eq_false_iff, bne_eq_false_iff_eq] at hc
    obtain ⟨c1, c2, c3, c4⟩ := hc
    constructor
    · intro hh
      refine ⟨by omega, by omega, c1, c2, c3, c4, ?_⟩
      intro y x hy1 hy2 hx1 hx2
      exact hh y (by rw [List.mem_range'_1]; omega) x hx1 hx2
    · rintro ⟨_, _, _, _, _, _, hh⟩ y hy x hx1 hx2
      rw [List.mem_range'_1] at hy
      exact hh y x (by omega) (by omega) hx1 hx2

/-! ### Writes -/

theorem setCell_eq {g : Grid} {W L : Nat} (h : WF g W L) {y x : Nat} (v : Nat) (hy : y < L)
    (hx : x < W) :
    ∃ g', setCell g y x v = .ok g' ∧ WF g' W L ∧
      ∀ j i, cell g' j i = if j = y ∧ i = x then v else cell g j i := by
  obtain ⟨hy', hr⟩ := h.row hy
  have hyl : y < g.length := hy'
  refine ⟨g.set y (g[y].set x v), ?_, ?_, ?_⟩
  · unfold setCell
    rw [pyGet_nat g y hy']
    simp only
    rw [pySet_nat _ x v (by omega)]
    simp only
    rw [pySet_nat _ y _ hy']
  · refine ⟨by simp [h.1], ?_⟩
    intro r hr'
    rcases List.mem_or_eq_of_mem_set hr' with hm | rfl
    · exact h.2 _ hm
    · simp [hr]
  · intro j i
    unfold cell
    rw [List.getElem?_set]
    by_cases hj : y = j
    · subst hj
      simp only [if_true, if_pos hyl, Option.bind_some, List.getElem?_set, true_and]
      by_cases hi : x = i
      · subst hi; simp [hr, hx]
      · rw [if_neg hi, if_neg (by omega)]
        simp [hyl]
    · rw [if_neg hj, if_neg (by omega)]

theorem setRowSlice_eq {g : Grid} {W L : Nat} (h : WF g W L) {y a b : Nat} (v n : Nat)
    (hy : y < L) (hb : b ≤ W) (hn : a + n = b) :
    ∃ g', setRowSlice g y a b v n = .ok g' ∧ WF g' W L ∧
      ∀ j i, cell g' j i = if j = y ∧ a ≤ i ∧ i < b then v else cell g j i := by
  obtain ⟨hy', hr⟩ := h.row hy
  have hlen : (sliceAssign g[y] a b (List.replicate n v)).length = W := by
    unfold sliceAssign; simp [hr]; omega
  refine ⟨g.set y (sliceAssign g[y] a b (List.replicate n v)), ?_, ?_, ?_⟩
  · unfold setRowSlice
    rw [pyGet_nat g y hy']
    simp only
    rw [pySet_nat _ y _ hy']
  · refine ⟨by simp [h.1], ?_⟩
    intro r hr'
    rcases List.mem_or_eq_of_mem_set hr' with hm | rfl
    · exact h.2 _ hm
    · exact hlen
  · intro j i
    unfold cell
    rw [List.getElem?_set]
    by_cases hj : y = j
    · subst hj
      rw [if_pos rfl, if_pos hy']
      simp only [Option.bind_some, true_and, hy', List.getElem?_eq_getElem]
      unfold sliceAssign
      rw [List.append_assoc, List.getElem?_append, List.length_take, hr,
        Nat.min_eq_left (by omega : a ≤ W)]
      by_cases hi : i < a
      · rw [if_pos hi, if_neg (by omega), List.getElem?_take, if_pos hi]
      · rw [if_neg hi, List.getElem?_append, List.length_replicate]
        by_cases hi2 : i < b
        · rw [if_pos (by omega), if_pos (by omega), List.getElem?_replicate, if_pos (by omega)]
          rfl
        · rw [if_neg (by omega), if_neg (by omega), List.getElem?_drop]
          congr 2; omega
    · rw [if_neg hj, if_neg (by omega)]

theorem fillInner_eq {W L : Nat} (Xo w : Nat) (hX : Xo + w ≤ W) (hw : 2 < w)
    (n y0 : Nat) (hy : y0 + n ≤ L) {g : Grid} (h : WF g W L) :
    ∃ g', fillInner Xo w (List.range' y0 n) g = .ok g' ∧ WF g' W L ∧
      ∀ j i, cell g' j i =
        if (y0 ≤ j ∧ j < y0 + n) ∧ Xo + 1 ≤ i ∧ i < Xo + w - 1 then 1 else cell g j i := by
  induction n generalizing y0 g with
  | zero => exact ⟨g, rfl, h, by intro j i; rw [if_neg (by omega)]⟩
  | succ n ih =>
    rw [List.range'_succ]
    obtain ⟨g1, e1, wf1, c1⟩ := setRowSlice_eq h (y := y0) (a := Xo + 1) (b := Xo + w - 1) 1 (w - 2)
      (by omega) (by omega) (by omega)
    obtain ⟨g2, e2, wf2, c2⟩ := ih (y0 + 1) (by omega) wf1
    refine ⟨g2, ?_, wf2, ?_⟩
    · unfold fillInner; rw [e1]; exact e2
    · intro j i
      rw [c2, c1]
      split
      · rw [if_pos (by omega)]
      · split
        · rw [if_pos (by omega)]
        · rw [if_neg (by omega)]

theorem fillSides_eq {W L : Nat} (Xo w : Nat) (hX : Xo + w ≤ W) (hw : 0 < w)
    (n y0 : Nat) (hy : y0 + n ≤ L) {g : Grid} (h : WF g W L) :
    ∃ g', fillSides Xo w (List.range' y0 n) g = .ok g' ∧ WF g' W L ∧
      ∀ j i, cell g' j i =
        if (y0 ≤ j ∧ j < y0 + n) ∧ (i = Xo ∨ i = Xo + w - 1) then 2 else cell g j i := by
  induction n generalizing y0 g with
  | zero => exact ⟨g, rfl, h, by intro j i; rw [if_neg (by omega)]⟩
  | succ n ih =>
    rw [List.range'_succ]
    obtain ⟨g1, e1, wf1, c1⟩ := setCell_eq h (y := y0) (x := Xo) 2 (by omega) (by omega)
    have e : ((Xo : Int) + w - 1) = ((Xo + w - 1 : Nat) : Int) := by omega
    obtain ⟨g1', e1', wf1', c1'⟩ : ∃ g', (if w > 1 then setCell g1 y0 ((Xo : Int) + w - 1) 2
        else .ok g1) = .ok g' ∧ WF g' W L ∧ ∀ j i, cell g' j i =
          if j = y0 ∧ (i = Xo ∨ i = Xo + w - 1) then 2 else cell g j i := by
      by_cases hw1 : w > 1
      · obtain ⟨g3, e3, wf3, c3⟩ := setCell_eq wf1 (y := y0) (x := Xo + w - 1) 2 (by omega) (by omega)
        refine ⟨g3, by rw [if_pos hw1, e, e3], wf3, ?_⟩
        intro j i
        rw [c3, c1]
        split
        · rw [if_pos (by omega)]
        · split
          · rw [if_pos (by omega)]
          · rw [if_neg (by omega)]
      · refine ⟨g1, by rw [if_neg hw1], wf1, ?_⟩
        intro j i
        rw [c1]
        split
        · rw [if_pos (by omega)]
        · rw [if_neg (by omega)]
    obtain ⟨g2, e2, wf2, c2⟩ := ih (y0 + 1) (by omega) wf1'
    refine ⟨g2, ?_, wf2, ?_⟩
    · unfold fillSides; rw [e1]; simp only; rw [e1']; exact e2
    · intro j i
      rw [c2, c1']
      split
      · rw [if_pos (by omega)]
      · split
        · rw [if_pos (by omega)]
        · rw [if_neg (by omega)]

/-- Mark written into cell `(i, j)` of an item at `(Xo, Yo)` of size `w × l`: 3 at the four
corners, 2 on the sides, 1 inside. -/
def markOf (Xo Yo w l j i : Nat) : Nat :=
  if (i = Xo ∨ i = Xo + w - 1) ∧ (j = Yo ∨ j = Yo + l - 1) then 3
  else if i = Xo ∨ i = Xo + w - 1 ∨ j = Yo ∨ j = Yo + l - 1 then 2
  else 1

theorem markOf_ne_zero (Xo Yo w l j i : Nat) : markOf Xo Yo w l j i ≠ 0 := by
  unfold markOf; split
  · simp
  · split <;> simp

/-- the marking step writes exactly the cells of the rectangle -/
theorem fillItem_eq {g : Grid} {W L : Nat} (h : WF g W L) {Xo Yo w l : Nat} (hw : 0 < w)
    (hl : 0 < l) (hX : Xo + w ≤ W) (hY : Yo + l ≤ L) :
    ∃ g', fillItem g Xo Yo w l = .ok g' ∧ WF g' W L ∧
      ∀ j i, cell g' j i =
        if (Xo ≤ i ∧ i < Xo + w) ∧ (Yo ≤ j ∧ j < Yo + l) then markOf Xo Yo w l j i
        else cell g j i := by
  -- step 1
  obtain ⟨g1, e1, wf1, c1⟩ : ∃ g', (if w > 2 ∧ l > 2 then
      fillInner Xo w (List.range' (Yo + 1) (l - 2)) g else .ok g) = .ok g' ∧ WF g' W L ∧
      ∀ j i, cell g' j i = if (w > 2 ∧ l > 2) ∧ (Yo + 1 ≤ j ∧ j < Yo + l - 1) ∧
        Xo + 1 ≤ i ∧ i < Xo + w - 1 then 1 else cell g j i := by
    by_cases hc : w > 2 ∧ l > 2
    · obtain ⟨g', e', wf', c'⟩ := fillInner_eq Xo w hX hc.1 (l - 2) (Yo + 1) (by omega) h
      refine ⟨g', by rw [if_pos hc, e'], wf', ?_⟩
      intro j i; rw [c']
      split
      · rw [if_pos (by omega)]
      · rw [if_neg (by omega)]
    · exact ⟨g, by rw [if_neg hc], h, by intro j i; rw [if_neg (by omega)]⟩
  -- step 2
  obtain ⟨g2, e2, wf2, c2⟩ : ∃ g', (if w > 2 then
      setRowSlice g1 Yo (Xo + 1) (Xo + w - 1) 2 (w - 2) else .ok g1) = .ok g' ∧ WF g' W L ∧
      ∀ j i, cell g' j i = if w > 2 ∧ j = Yo ∧ Xo + 1 ≤ i ∧ i < Xo + w - 1 then 2
        else cell g1 j i := by
    by_cases hc : w > 2
    · obtain ⟨g', e', wf', c'⟩ := setRowSlice_eq wf1 (y := Yo) (a := Xo + 1) (b := Xo + w - 1) 2
        (w - 2) (by omega) (by omega) (by omega)
      refine ⟨g', by rw [if_pos hc, e'], wf', ?_⟩
      intro j i; rw [c']
      split
      · rw [if_pos (by omega)]
      · rw [if_neg (by omega)]
    · exact ⟨g1, by rw [if_neg hc], wf1, by intro j i; rw [if_neg (by omega)]⟩
  -- step 3
  obtain ⟨g3, e3, wf3, c3⟩ : ∃ g', (if w > 2 ∧ l > 1 then
      setRowSlice g2 (Yo + l - 1) (Xo + 1) (Xo + w - 1) 2 (w - 2) else .ok g2) = .ok g' ∧
      WF g' W L ∧ ∀ j i, cell g' j i =
        if (w > 2 ∧ l > 1) ∧ j = Yo + l - 1 ∧ Xo + 1 ≤ i ∧ i < Xo + w - 1 then 2
        else cell g2 j i := by
    by_cases hc : w > 2 ∧ l > 1
    · obtain ⟨g', e', wf', c'⟩ := setRowSlice_eq wf2 (y := Yo + l - 1) (a := Xo + 1)
        (b := Xo + w - 1) 2 (w - 2) (by omega) (by omega) (by omega)
      refine ⟨g', by rw [if_pos hc, e'], wf', ?_⟩
      intro j i; rw [c']
      split
      · rw [if_pos (by omega)]
      · rw [if_neg (by omega)]
    · exact ⟨g2, by rw [if_neg hc], wf2, by intro j i; rw [if_neg (by omega)]⟩
  -- step 4
  obtain ⟨g4, e4, wf4, c4⟩ : ∃ g', (if l > 2 then
      fillSides Xo w (List.range' (Yo + 1) (l - 2)) g3 else .ok g3) = .ok g' ∧ WF g' W L ∧
      ∀ j i, cell g' j i = if l > 2 ∧ (Yo + 1 ≤ j ∧ j < Yo + l - 1) ∧
        (i = Xo ∨ i = Xo + w - 1) then 2 else cell g3 j i := by
    by_cases hc : l > 2
    · obtain ⟨g', e', wf', c'⟩ := fillSides_eq Xo w hX hw (l - 2) (Yo + 1) (by omega) wf3
      refine ⟨g', by rw [if_pos hc, e'], wf', ?_⟩
      intro j i; rw [c']
      split
      · rw [if_pos (by omega)]
      · rw [if_neg (by omega)]
    · exact ⟨g3, by rw [if_neg hc], wf3, by intro j i; rw [if_neg (by omega)]⟩
  have ex : ((Xo : Int) + w - 1) = ((Xo + w - 1 : Nat) : Int) := by omega
  have ey : ((Yo : Int) + l - 1) = ((Yo + l - 1 : Nat) : Int) := by omega
  obtain ⟨g5, e5, wf5, c5⟩ := setCell_eq wf4 (y := Yo) (x := Xo) 3 (by omega) (by omega)
  obtain ⟨g6, e6, wf6, c6⟩ := setCell_eq wf5 (y := Yo) (x := Xo + w - 1) 3 (by omega) (by omega)
  obtain ⟨g7, e7, wf7, c7⟩ := setCell_eq wf6 (y := Yo + l - 1) (x := Xo) 3 (by omega) (by omega)
  obtain ⟨g8, e8, wf8, c8⟩ := setCell_eq wf7 (y := Yo + l - 1) (x := Xo + w - 1) 3 (by omega)
    (by omega)
  refine ⟨g8, ?_, wf8, ?_⟩
  · unfold fillItem
    simp only [bind, Except.bind]
    rw [e1]; simp only
    rw [e2]; simp only
    rw [e3]; simp only
    rw [e4]; simp only
    rw [e5]; simp only
    rw [ex, ey, e6]; simp only
    rw [e7]; simp only
    rw [e8]
  · intro j i
    have d1 : cell g4 j i = if ((Xo ≤ i ∧ i < Xo + w) ∧ (Yo ≤ j ∧ j < Yo + l)) ∧
        ¬ ((i = Xo ∨ i = Xo + w - 1) ∧ (j = Yo ∨ j = Yo + l - 1)) then markOf Xo Yo w l j i
        else cell g j i := by
      rw [c4, c3, c2, c1]
      clear c1 c2 c3 c4 c5 c6 c7 c8 e1 e2 e3 e4 e5 e6 e7 e8
      by_cases hr : ((Xo ≤ i ∧ i < Xo + w) ∧ (Yo ≤ j ∧ j < Yo + l)) ∧
        ¬ ((i = Xo ∨ i = Xo + w - 1) ∧ (j = Yo ∨ j = Yo + l - 1))
      · rw [if_pos hr]
        obtain ⟨⟨⟨ha, hb⟩, hc, hd⟩, he⟩ := hr
        unfold markOf
        rw [if_neg he]
        by_cases hi : i = Xo ∨ i = Xo + w - 1
        · have hj : ¬ (j = Yo ∨ j = Yo + l - 1) := fun hj => he ⟨hi, hj⟩
          rw [if_pos (by omega), if_pos (by omega)]
        · rw [if_neg (by omega)]
          by_cases hj : j = Yo + l - 1 ∧ l > 1
          · rw [if_pos (by omega), if_pos (by omega)]
          · rw [if_neg (by omega)]
            by_cases hj2 : j = Yo
            · rw [if_pos (by omega), if_pos (by omega)]
            · rw [if_neg (by omega), if_pos (by omega), if_neg (by omega)]
      · rw [if_neg hr, if_neg (by omega), if_neg (by omega), if_neg (by omega),
          if_neg (by omega)]
    rw [c8, c7, c6, c5, d1]
    clear c1 c2 c3 c4 c5 c6 c7 c8 e1 e2 e3 e4 e5 e6 e7 e8 d1
    by_cases hc : ((i = Xo ∨ i = Xo + w - 1) ∧ (j = Yo ∨ j = Yo + l - 1))
    · have hm : markOf Xo Yo w l j i = 3 := by unfold markOf; rw [if_pos hc]
      rw [hm, if_pos (show (Xo ≤ i ∧ i < Xo + w) ∧ (Yo ≤ j ∧ j < Yo + l) by omega)]
      by_cases h1 : j = Yo + l - 1 ∧ i = Xo + w - 1
      · rw [if_pos h1]
      · rw [if_neg h1]
        by_cases h2 : j = Yo + l - 1 ∧ i = Xo
        · rw [if_pos h2]
        · rw [if_neg h2]
          by_cases h3 : j = Yo ∧ i = Xo + w - 1
          · rw [if_pos h3]
          · rw [if_neg h3, if_pos (by omega)]
    · rw [if_neg (by omega), if_neg (by omega), if_neg (by omega), if_neg (by omega)]
      by_cases hr : (Xo ≤ i ∧ i < Xo + w) ∧ (Yo ≤ j ∧ j < Yo + l)
      · rw [if_pos ⟨hr, hc⟩, if_pos hr]
      · rw [if_neg (fun h => hr h.1), if_neg hr]

end HP
