import Mathlib.Order.Interval.Finset.Nat
import Mathlib.Data.Finset.Prod
import Verif.Proofs.Geometry
/-
Areas, utilization values, stack height.
-/
namespace HP
open Spec

/-- the unit cells of a rectangle -/
def rectCells (r : Rect) : Finset (Nat × Nat) :=
  Finset.Ico r.x (r.x + r.w) ×ˢ Finset.Ico r.y (r.y + r.l)

theorem mem_rectCells (r : Rect) (c : Nat × Nat) : c ∈ rectCells r ↔ Covers r c.1 c.2 := by
  unfold rectCells Covers
  simp only [Finset.mem_product, Finset.mem_Ico]
  omega

theorem card_rectCells (r : Rect) : (rectCells r).card = area r := by
  unfold rectCells area
  simp

/-- the cells of a layout -/
def layoutCells : List Rect → Finset (Nat × Nat)
  | [] => ∅
  | r :: rs => rectCells r ∪ layoutCells rs

theorem mem_layoutCells (rs : List Rect) (c : Nat × Nat) :
    c ∈ layoutCells rs ↔ ∃ r ∈ rs, Covers r c.1 c.2 := by
  induction rs with
  | nil => simp [layoutCells]
  | cons r rs ih => simp [layoutCells, ih, mem_rectCells]

theorem card_layoutCells {rs : List Rect} (h : rs.Pairwise Disjoint) :
    (layoutCells rs).card = totalArea rs := by
  induction rs with
  | nil => simp [layoutCells, totalArea]
  | cons r rs ih =>
    rw [List.pairwise_cons] at h
    unfold layoutCells
    rw [Finset.card_union_of_disjoint, card_rectCells, ih h.2]
    · simp [totalArea]
    · rw [Finset.disjoint_left]
      intro c hc hc'
      rw [mem_rectCells] at hc
      rw [mem_layoutCells] at hc'
      obtain ⟨s, hs, hcs⟩ := hc'
      exact h.1 s hs c.1 c.2 ⟨hc, hcs⟩

/-- disjoint rectangles inside a `W × L` container have total area at most `W * L` -/
theorem totalArea_le {W L : Nat} {rs : List Rect} (h : rs.Pairwise Disjoint)
    (hin : ∀ r ∈ rs, Inside W L r) : totalArea rs ≤ W * L := by
  rw [← card_layoutCells h]
  have hsub : layoutCells rs ⊆ rectCells ⟨0, 0, W, L⟩ := by
    intro c hc
    rw [mem_layoutCells] at hc
    obtain ⟨r, hr, hcr⟩ := hc
    rw [mem_rectCells]
    have h1 := hin r hr
    unfold Inside at h1; unfold Covers at hcr ⊢
    simp only; omega
  have := Finset.card_le_card hsub
  rw [card_rectCells] at this
  exact this

theorem foldl_div (b : Nat) (f : Placed → Nat) (ps : List Placed) (o : Rat) :
    ps.foldl (fun o p => o + (f p : Rat) / (b : Rat)) o = o + ((ps.map f).sum : Nat) / (b : Rat) := by
  induction ps generalizing o with
  | nil => simp [Rat.div_def, Rat.add_zero]
  | cons p ps ih =>
    simp only [List.foldl_cons, ih, List.map_cons, List.sum_cons, Rat.natCast_add]
    rw [Rat.add_assoc, Rat.div_def, Rat.div_def, Rat.div_def, ← Rat.add_mul]

theorem objFold_exact (P : CParams) (hP : P.ar = Arith.exact) (placed : List Placed) :
    objFold P placed = (totalArea (placed.map Placed.rect) : Rat) / (P.W * P.L : Nat) := by
  unfold objFold
  rw [hP]
  have := foldl_div (P.W * P.L) (fun p => p.rect.w * p.rect.l) placed 0
  simp only [Arith.exact] at this ⊢
  rw [this, Rat.zero_add]
  congr 2
  simp [totalArea, area, Function.comp_def]

/-! ### Stack height -/

theorem stackHeight_le {rs : List Rect} {h : Nat} : stackHeight rs ≤ h ↔ ∀ r ∈ rs, r.y + r.l ≤ h := by
  induction rs with
  | nil => simp [stackHeight]
  | cons r rs ih =>
    unfold stackHeight at ih ⊢
    simp only [List.foldr_cons, List.mem_cons, forall_eq_or_imp]
    rw [← ih]; omega

theorem stackHeight_attained {rs : List Rect} (h : rs ≠ []) :
    ∃ r ∈ rs, r.y + r.l = stackHeight rs := by
  induction rs with
  | nil => exact absurd rfl h
  | cons r rs ih =>
    unfold stackHeight at ih ⊢
    simp only [List.foldr_cons]
    by_cases hrs : rs = []
    · subst hrs; exact ⟨r, by simp, by simp⟩
    · obtain ⟨q, hq, he⟩ := ih hrs
      by_cases hc : r.y + r.l ≤ List.foldr (fun r h => max (r.y + r.l) h) 0 rs
      · exact ⟨q, by simp [hq], by omega⟩
      · exact ⟨r, by simp, by omega⟩

theorem rowAny_iff (g : Grid) (y : Nat) :
    ((g[y]?).getD []).any (· != 0) = true ↔ ∃ x, cell g y x ≠ 0 := by
  unfold cell
  cases hr : g[y]? with
  | none => simp
  | some r =>
    simp only [Option.getD_some, List.any_eq_true, bne_iff_ne, ne_eq, Option.bind_some]
    constructor
    · rintro ⟨v, hv, hne⟩
      obtain ⟨i, hi⟩ := List.mem_iff_getElem?.1 hv
      exact ⟨i, by rw [hi]; exact hne⟩
    · rintro ⟨x, hx⟩
      cases hx2 : r[x]? with
      | none => rw [hx2] at hx; simp at hx
      | some v => rw [hx2] at hx; exact ⟨v, List.mem_of_getElem? hx2, hx⟩

/-- the row index found by the scan from the top: largest occupied row in `1..n`, or 1 -/
theorem topRow_spec (g : Grid) : ∀ n,
    (∀ y, topRow g n < y → y ≤ n → ∀ x, cell g y x = 0) ∧
    (topRow g n ≤ max 1 n) ∧ (1 < topRow g n → ∃ x, cell g (topRow g n) x ≠ 0)
  | 0 => by simp [topRow]; omega
  | n + 1 => by
    unfold topRow
    split
    · rename_i hc
      refine ⟨by omega, by omega, fun _ => (rowAny_iff g _).1 hc⟩
    · rename_i hc
      obtain ⟨h1, h2, h3⟩ := topRow_spec g n
      refine ⟨?_, by omega, h3⟩
      intro y hy1 hy2 x
      by_cases hy : y = n + 1
      · subst hy
        by_cases hz : cell g (n + 1) x = 0
        · exact hz
        · exact absurd ((rowAny_iff g _).2 ⟨x, hz⟩) hc
      · exact h1 y hy1 (by omega) x

/-- the height the code divides by is one less than the real stack height (but at least 1) -/
theorem topRow_eq {P : CParams} {items0 : PyDict String Dim} {s : CState}
    (hG : GInv P items0 s) (hpos : ∀ p ∈ s.placed, 0 < p.rect.w ∧ 0 < p.rect.l) (hL : 0 < P.L) :
    topRow s.grid (P.L - 1) = max 1 (stackHeight (s.placed.map Placed.rect) - 1) := by
  obtain ⟨h1, h2, h3⟩ := topRow_spec s.grid (P.L - 1)
  have hle : stackHeight (s.placed.map Placed.rect) ≤ topRow s.grid (P.L - 1) + 1 := by
    rw [stackHeight_le]
    intro r hr
    obtain ⟨p, hp, rfl⟩ := List.mem_map.1 hr
    have hpp := hpos p hp
    have hin := hG.inb p hp
    by_contra hcon
    have : cell s.grid (p.rect.y + p.rect.l - 1) p.rect.x ≠ 0 :=
      (hG.cov _ _).2 ⟨p, hp, by unfold Covers; omega⟩
    exact this (h1 _ (by omega) (by unfold Inside at hin; omega) _)
  have hpos1 := topRow_pos s.grid (P.L - 1)
  by_cases ht : 1 < topRow s.grid (P.L - 1)
  · obtain ⟨x, hx⟩ := h3 ht
    obtain ⟨p, hp, hc⟩ := (hG.cov _ _).1 hx
    have : p.rect.y + p.rect.l ≤ stackHeight (s.placed.map Placed.rect) :=
      stackHeight_le.1 (Nat.le_refl _) _ (List.mem_map.2 ⟨p, hp, rfl⟩)
    unfold Covers at hc
    omega
  · omega

end HP
