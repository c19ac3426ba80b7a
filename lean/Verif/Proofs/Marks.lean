import Verif.Proofs.Grid
import Verif.Proofs.Points
import Verif.SpecPoints
/-
The marks in the grid determine the layout as long as the rectangles do not overlap: the points
that `_generate_points` computes from the marks are those of the specification `Spawns`.
-/
namespace HP
open Spec

/-- the grid shows exactly the rectangles `rs`, which do not overlap -/
structure Marks (g : Grid) (W L : Nat) (rs : List Rect) : Prop where
  wf : WF g W L
  inb : ∀ r ∈ rs, Inside W L r
  cov : ∀ y x, cell g y x ≠ 0 ↔ Covered rs x y
  mark : ∀ r ∈ rs, ∀ x y, Covers r x y → cell g y x = markOf r.x r.y r.w r.l y x
  disj : ∀ r ∈ rs, ∀ s ∈ rs, ∀ x y, Covers r x y → Covers s x y → r = s

theorem Marks.free {g : Grid} {W L : Nat} {rs : List Rect} (h : Marks g W L rs) {y x : Nat} :
    cell g y x = 0 ↔ ¬ Covered rs x y := by
  rw [← h.cov y x]; exact Decidable.not_not.symm

theorem Marks.in23 {g : Grid} {W L : Nat} {rs : List Rect} (h : Marks g W L rs) {r : Rect}
    (hr : r ∈ rs) {x y : Nat} (hc : Covers r x y)
    (hb : x = r.x ∨ x + 1 = r.x + r.w ∨ y = r.y ∨ y + 1 = r.y + r.l) :
    HP.in23 (cell g y x) = true := by
  rw [h.mark r hr x y hc]
  unfold Covers at hc
  unfold markOf HP.in23
  split
  · rfl
  · rw [if_pos (by omega)]; rfl

theorem Marks.three {g : Grid} {W L : Nat} {rs : List Rect} (h : Marks g W L rs) {r : Rect}
    (hr : r ∈ rs) {x y : Nat} (hc : Covers r x y)
    (hb : x = r.x ∨ x + 1 = r.x + r.w) (hb2 : y = r.y ∨ y + 1 = r.y + r.l) :
    cell g y x = 3 := by
  rw [h.mark r hr x y hc]
  unfold Covers at hc
  unfold markOf
  rw [if_pos (by omega)]

/-- an occupied cell whose right neighbour belongs to no or another rectangle -/
theorem Marks.rightEnd {g : Grid} {W L : Nat} {rs : List Rect} (h : Marks g W L rs) {x y : Nat}
    (h1 : cell g y x ≠ 0) (h2 : ∀ q ∈ rs, Covers q x y → ¬ Covers q (x + 1) y) :
    ∃ q ∈ rs, Covers q x y ∧ x + 1 = q.x + q.w := by
  obtain ⟨q, hq, hc⟩ := (h.cov y x).1 h1
  refine ⟨q, hq, hc, ?_⟩
  have := h2 q hq hc
  unfold Covers at hc this
  omega

/-- an occupied cell whose upper neighbour belongs to no or another rectangle -/
theorem Marks.topEnd {g : Grid} {W L : Nat} {rs : List Rect} (h : Marks g W L rs) {x y : Nat}
    (h1 : cell g y x ≠ 0) (h2 : ∀ q ∈ rs, Covers q x y → ¬ Covers q x (y + 1)) :
    ∃ q ∈ rs, Covers q x y ∧ y + 1 = q.y + q.l := by
  obtain ⟨q, hq, hc⟩ := (h.cov y x).1 h1
  refine ⟨q, hq, hc, ?_⟩
  have := h2 q hq hc
  unfold Covers at hc this
  omega

theorem Marks.notCov {g : Grid} {W L : Nat} {rs : List Rect} (h : Marks g W L rs) {x y : Nat}
    (h1 : cell g y x = 0) {q : Rect} (hq : q ∈ rs) : ¬ Covers q x y :=
  fun hc => (h.free.1 h1) ⟨q, hq, hc⟩

theorem Marks.rd_pred_y {g : Grid} {W L : Nat} (h : WF g W L) {y x : Nat} (hy0 : 0 < y)
    (hy : y ≤ L) (hx : x < W) : rd g ((y : Int) - 1) x = .ok (cell g (y - 1) x) := by
  rw [show ((y : Int) - 1) = ((y - 1 : Nat) : Int) by omega]
  exact rd_eq h (by omega) hx

theorem Marks.rd_pred_x {g : Grid} {W L : Nat} (h : WF g W L) {y x : Nat} (hx0 : 0 < x)
    (hx : x ≤ W) (hy : y < L) : rd g y ((x : Int) - 1) = .ok (cell g y (x - 1)) := by
  rw [show ((x : Int) - 1) = ((x - 1 : Nat) : Int) by omega]
  exact rd_eq h hy (by omega)

theorem Marks.rd_pred_xy {g : Grid} {W L : Nat} (h : WF g W L) {y x : Nat} (hx0 : 0 < x)
    (hx : x ≤ W) (hy0 : 0 < y) (hy : y ≤ L) :
    rd g ((y : Int) - 1) ((x : Int) - 1) = .ok (cell g (y - 1) (x - 1)) := by
  rw [show ((x : Int) - 1) = ((x - 1 : Nat) : Int) by omega]
  exact rd_pred_y h hy0 hy (by omega)

/-! ### A, A', A'', E -/

theorem condA_eq {g : Grid} {W L : Nat} {rs : List Rect} (h : Marks g W L rs) {r : Rect}
    (hr : r ∈ rs) (hw : 0 < r.w) (hl : 0 < r.l) :
    condA g L r.x (r.y + r.l) = .ok (decide (r.y + r.l < L ∧ cell g (r.y + r.l) r.x = 0 ∧
      (r.x = 0 ∨ cell g (r.y + r.l) (r.x - 1) ≠ 0))) := by
  have hin := h.inb r hr
  unfold Inside at hin
  unfold condA
  by_cases h1 : r.y + r.l < L
  rotate_left
  · simp [h1]
  rw [rd_eq h.wf h1 (by omega : r.x < W)]
  by_cases h2 : cell g (r.y + r.l) r.x = 0
  rotate_left
  · have h2' : (cell g (r.y + r.l) r.x == 0) = false := by simpa using h2
    simp [h1, h2, h2']
  by_cases h3 : r.x = 0
  · have h2' := h2
    rw [h3] at h2'
    simp [h1, h3, h2']
  rw [Marks.rd_pred_xy h.wf (by omega) (by omega) (by omega) (by omega),
    Marks.rd_pred_x h.wf (by omega) (by omega) h1]
  by_cases h4 : cell g (r.y + r.l) (r.x - 1) = 0
  · simp [h1, h2, h3, h4, HP.in23]
  obtain ⟨q, hq, hcq, hqe⟩ := h.rightEnd h4 (by
    intro q hq _
    rw [show r.x - 1 + 1 = r.x by omega]
    exact h.notCov h2 hq)
  have h5 := h.in23 hq hcq (by omega)
  by_cases h6 : cell g (r.y + r.l - 1) (r.x - 1) = 0
  · have h7 : cell g (r.y + r.l) (r.x - 1) = 3 := by
      refine h.three hq hcq (by omega) ?_
      have := h.notCov h6 hq
      unfold Covers at this hcq
      omega
    simp [h1, h2, h3, h6, h7, HP.in23, in03]
  · obtain ⟨q2, hq2, hcq2, hqe2⟩ := h.rightEnd h6 (by
      intro q2 hq2 hc2 hc3
      have : q2 = r := h.disj q2 hq2 r hr _ _ hc3 (by unfold Covers; omega)
      subst this
      unfold Covers at hc2
      omega)
    have h7 := h.in23 hq2 hcq2 (by omega)
    simp [h1, h2, h3, h4, h5, h7]

/-- where the scan to the left of A'/E comes to rest, on the grid; `n` is the number of columns -/
def RestA (g : Grid) (Ay n xp : Nat) : Prop :=
  xp ≤ n ∧ (∀ x, xp ≤ x → x < n → cell g Ay x = 0) ∧
  (if xp = 0 then 0 < n ∧ cell g (Ay - 1) 0 = 0 else cell g Ay (xp - 1) ≠ 0)

theorem scanA_eq {g : Grid} {W L : Nat} {rs : List Rect} (h : Marks g W L rs) {Ay : Nat}
    (hA : Ay < L) (hA0 : 0 < Ay) :
    ∀ n, n < W → cell g Ay n = 0 → ∃ o, scanA g Ay n = .ok o ∧
      ∀ xp, o = some xp ↔ RestA g Ay n xp
  | 0, _, _ => ⟨none, rfl, by
      intro xp
      unfold RestA
      constructor
      · intro h; simp at h
      · rintro ⟨h1, _, h3⟩
        rw [if_pos (by omega)] at h3
        omega⟩
  | x + 1, hn, hfree => by
    unfold scanA
    rw [rd_eq h.wf hA (by omega : x < W), Marks.rd_pred_y h.wf hA0 (by omega) (by omega : x < W)]
    simp only
    by_cases hup : cell g Ay x = 0
    · obtain ⟨o, ho, hio⟩ := scanA_eq h hA hA0 x (by omega) hup
      -- the rest of the way
      have hstep : ¬ (x = 0 ∧ cell g (Ay - 1) 0 = 0) →
          ∀ xp, RestA g Ay x xp ↔ RestA g Ay (x + 1) xp := by
        intro hno xp
        unfold RestA
        constructor
        · rintro ⟨a, b, c⟩
          refine ⟨by omega, ?_, ?_⟩
          · intro i hi1 hi2
            by_cases he : i = x
            · subst he; exact hup
            · exact b i hi1 (by omega)
          · split at c
            · rename_i h0; rw [if_pos h0]; exact ⟨by omega, c.2⟩
            · rename_i h0; rw [if_neg h0]; exact c
        · rintro ⟨a, b, c⟩
          have hxp : xp ≤ x := by
            by_cases he : xp = x + 1
            · subst he
              rw [if_neg (by omega)] at c
              exact absurd hup c
            · omega
          refine ⟨hxp, fun i hi1 hi2 => b i hi1 (by omega), ?_⟩
          split at c
          · rename_i h0
            rw [if_pos h0]
            refine ⟨?_, c.2⟩
            by_cases hx : x = 0
            · exact absurd ⟨hx, c.2⟩ hno
            · omega
          · rename_i h0; rw [if_neg h0]; exact c
      by_cases hdn : cell g (Ay - 1) x = 0
      · by_cases hx : x = 0
        · subst hx
          refine ⟨some 0, by simp [hup, hdn], ?_⟩
          intro xp
          unfold RestA
          constructor
          · intro he; injection he with he; subst he
            exact ⟨by omega, fun i _ hi => by rw [show i = 0 by omega]; exact hup,
              by rw [if_pos rfl]; exact ⟨by omega, hdn⟩⟩
          · rintro ⟨a, b, c⟩
            by_cases he : xp = 0
            · rw [he]
            · rw [if_neg he] at c
              exact absurd (by rw [show xp - 1 = 0 by omega]; exact hup) c
        · refine ⟨o, ?_, fun xp => (hio xp).trans (hstep (by omega) xp)⟩
          rw [← ho]; simp [hup, hdn, hx]
      · refine ⟨o, ?_, fun xp => (hio xp).trans (hstep (by rintro ⟨rfl, h0⟩; exact hdn h0) xp)⟩
        rw [← ho]; simp [hup, hdn, HP.in23]
    · obtain ⟨q, hq, hcq, hqe⟩ := h.rightEnd hup (fun q hq _ => h.notCov hfree hq)
      have h5 := h.in23 hq hcq (by omega)
      have hrest : ∀ xp, some (x + 1) = some xp ↔ RestA g Ay (x + 1) xp := by
        intro xp
        unfold RestA
        constructor
        · intro he; injection he with he; subst he
          exact ⟨by omega, fun i _ _ => by omega, by rw [if_neg (by omega)]; exact hup⟩
        · rintro ⟨a, b, c⟩
          by_cases he : xp = x + 1
          · rw [he]
          · exact absurd (b x (by omega) (by omega)) hup
      refine ⟨some (x + 1), ?_, hrest⟩
      by_cases hdn : cell g (Ay - 1) x = 0
      · simp [hup, hdn, h5]
      · have h7 : HP.in23 (cell g (Ay - 1) x) = true := by
          obtain ⟨q2, hq2, hcq2⟩ := (h.cov _ _).1 hdn
          refine h.in23 hq2 hcq2 ?_
          -- if it reached further to the right or up, it would be `q`
          by_cases hup2 : Ay - 1 + 1 = q2.y + q2.l
          · omega
          · have : q2 = q := h.disj q2 hq2 q hq x Ay (by unfold Covers at hcq2 ⊢; omega) hcq
            subst this
            omega
        simp [hup, hdn, h5, h7]

/-- the grid form of `SlidesLeft` -/
theorem slidesLeft_iff {g : Grid} {W L : Nat} {rs : List Rect} (h : Marks g W L rs) (r : Rect)
    (xp : Nat) : SlidesLeft L rs r ⟨xp, r.y + r.l⟩ ↔
      r.y + r.l < L ∧ xp < r.x ∧ (∀ x, xp ≤ x → x < r.x → cell g (r.y + r.l) x = 0) ∧
      cell g (r.y + r.l - 1) (r.x - 1) = 0 ∧
      (if xp = 0 then cell g (r.y + r.l - 1) 0 = 0 else cell g (r.y + r.l) (xp - 1) ≠ 0) := by
  unfold SlidesLeft
  simp only [h.free, h.cov, true_and]

theorem genA_eq (A : Arith) {g : Grid} {W L : Nat} {rs : List Rect} (h : Marks g W L rs) {r : Rect}
    (hr : r ∈ rs) (hw : 0 < r.w) (hl : 0 < r.l) :
    ∃ o : Option Nat, (∀ xp, o = some xp ↔ SlidesLeft L rs r ⟨xp, r.y + r.l⟩) ∧
      genA A g W L r.x r.y r.l = .ok (
        (if r.y + r.l < L ∧ cell g (r.y + r.l) r.x = 0 ∧
            (r.x = 0 ∨ cell g (r.y + r.l) (r.x - 1) ≠ 0) then [(.A, ⟨r.x, r.y + r.l⟩)] else []) ++
        pointAE A W r.x (r.y + r.l) o ++
        (if r.y + r.l < L ∧ cell g (r.y + r.l) r.x = 0 ∧
            ¬ (r.x = 0 ∨ cell g (r.y + r.l) (r.x - 1) ≠ 0) then [(.A__, ⟨r.x, r.y + r.l⟩)]
          else [])) := by
  have hin := h.inb r hr
  unfold Inside at hin
  unfold genA
  simp only [bind, Except.bind]
  rw [condA_eq h hr hw hl]
  simp only [slidesLeft_iff h]
  by_cases h1 : r.y + r.l < L
  rotate_left
  · have : ∀ xp, (none : Option Nat) = some xp ↔ False := by simp
    refine ⟨none, ?_, ?_⟩
    · intro xp; simp [h1]
    · simp [h1, pointAE, pure, Except.pure, Nat.le_of_not_lt h1]
  rw [rd_eq h.wf h1 (by omega : r.x < W)]
  by_cases h3 : r.x = 0
  · -- at the left wall: no scan, the wrapped read does not matter
    refine ⟨none, by intro xp; simp [h3], ?_⟩
    obtain ⟨v, hv⟩ := rd_tot h.wf (y := ((r.y + r.l : Nat) : Int)) (x := (r.x : Int) - 1)
      (by omega) (by omega) (by omega) (by omega)
    by_cases h2 : cell g (r.y + r.l) r.x = 0
    · simp only [h2, testP_ok, hv]
      simp [h1, h3, pointAE, pure, Except.pure, Nat.not_le.2 h1]
    · simp only [testP_ok]
      simp [h1, h2, h3, pointAE, pure, Except.pure, Nat.not_le.2 h1]
      have h2' : ¬ cell g (r.y + r.l) 0 = 0 := by rw [h3] at h2; exact h2
      simp [h2']
  -- the scan, when both cells to the left are free
  have hscan : cell g (r.y + r.l - 1) (r.x - 1) = 0 → cell g (r.y + r.l) (r.x - 1) = 0 →
      ∃ o, scanA g (r.y + r.l) r.x = .ok o ∧ ∀ xp, o = some xp ↔
        r.y + r.l < L ∧ xp < r.x ∧ (∀ x, xp ≤ x → x < r.x → cell g (r.y + r.l) x = 0) ∧
        cell g (r.y + r.l - 1) (r.x - 1) = 0 ∧
        (if xp = 0 then cell g (r.y + r.l - 1) 0 = 0 else cell g (r.y + r.l) (xp - 1) ≠ 0) := by
    intro hd hu
    obtain ⟨X, hX⟩ : ∃ X, r.x = X + 1 := ⟨r.x - 1, by omega⟩
    rw [hX]
    simp only [Nat.add_sub_cancel]
    have hd' : cell g (r.y + r.l - 1) X = 0 := by rw [hX] at hd; simpa using hd
    have hu' : cell g (r.y + r.l) X = 0 := by rw [hX] at hu; simpa using hu
    obtain ⟨o, ho, hio⟩ := scanA_eq h h1 (by omega) X (by omega) hu'
    unfold scanA
    rw [rd_eq h.wf h1 (by omega : X < W), Marks.rd_pred_y h.wf (by omega) (by omega) (by omega : X < W)]
    simp only [hd', hu']
    by_cases hX0 : X = 0
    · subst hX0
      refine ⟨some 0, by simp, ?_⟩
      intro xp
      constructor
      · intro he; injection he with he; subst he
        exact ⟨h1, by omega, fun x _ hx => by rw [show x = 0 by omega]; exact hu', trivial,
          by rw [if_pos rfl]; exact hd'⟩
      · rintro ⟨_, hlt, _⟩
        rw [show xp = 0 by omega]
    · refine ⟨o, by rw [← ho]; simp [hX0], ?_⟩
      intro xp
      rw [hio xp]
      unfold RestA
      constructor
      · rintro ⟨a, b, c⟩
        refine ⟨h1, by omega, ?_, trivial, ?_⟩
        · intro x hx1 hx2
          by_cases he : x = X
          · subst he; exact hu'
          · exact b x hx1 (by omega)
        · split at c
          · rename_i h0; rw [if_pos h0]; exact c.2
          · rename_i h0; rw [if_neg h0]; exact c
      · rintro ⟨_, a, b, _, c⟩
        refine ⟨by omega, fun x hx1 hx2 => b x hx1 (by omega), ?_⟩
        split at c
        · rename_i h0; rw [if_pos h0]; exact ⟨by omega, c⟩
        · rename_i h0; rw [if_neg h0]; exact c
  rw [Marks.rd_pred_xy h.wf (by omega) (by omega) (by omega) (by omega),
    Marks.rd_pred_x h.wf (by omega) (by omega) h1]
  have hnone : ¬ (cell g (r.y + r.l - 1) (r.x - 1) = 0 ∧ cell g (r.y + r.l) (r.x - 1) = 0) →
      ∀ xp, (none : Option Nat) = some xp ↔
        r.y + r.l < L ∧ xp < r.x ∧ (∀ x, xp ≤ x → x < r.x → cell g (r.y + r.l) x = 0) ∧
        cell g (r.y + r.l - 1) (r.x - 1) = 0 ∧
        (if xp = 0 then cell g (r.y + r.l - 1) 0 = 0 else cell g (r.y + r.l) (xp - 1) ≠ 0) := by
    intro hno xp
    constructor
    · intro he; simp at he
    · rintro ⟨_, a, b, c, _⟩
      exact absurd ⟨c, b (r.x - 1) (by omega) (by omega)⟩ hno
  have hx0 : 0 < r.x := by omega
  by_cases h4 : cell g (r.y + r.l) (r.x - 1) = 0
  · have hnot : ¬ (r.x = 0 ∨ cell g (r.y + r.l) (r.x - 1) ≠ 0) := by simp [h3, h4]
    by_cases h6 : cell g (r.y + r.l - 1) (r.x - 1) = 0
    · obtain ⟨o, ho, hio⟩ := hscan h6 h4
      refine ⟨o, hio, ?_⟩
      by_cases h2 : cell g (r.y + r.l) r.x = 0
      · simp only [h2, h4, h6, testP_ok]
        simp [h1, h3, hx0, pure, Except.pure, Nat.not_le.2 h1, HP.in23, ho]
      · simp only [h4, h6, testP_ok]
        simp [h1, h2, h3, hx0, pure, Except.pure, Nat.not_le.2 h1, ho]
    · refine ⟨none, hnone (by simp [h6]), ?_⟩
      by_cases h2 : cell g (r.y + r.l) r.x = 0
      · simp only [h2, h4, testP_ok]
        simp [h1, h3, h6, pure, Except.pure, Nat.not_le.2 h1, HP.in23, pointAE]
      · simp only [h4, testP_ok]
        simp [h1, h2, h3, h6, pure, Except.pure, Nat.not_le.2 h1, pointAE]
  · refine ⟨none, hnone (by simp [h4]), ?_⟩
    by_cases h2 : cell g (r.y + r.l) r.x = 0
    · simp only [h2, testP_ok]
      simp [h1, h3, h4, pure, Except.pure, Nat.not_le.2 h1, pointAE]
    · simp only [testP_ok]
      simp [h1, h2, h3, h4, pure, Except.pure, Nat.not_le.2 h1, pointAE]

/-! ### B, B', B'', F -/

theorem condB_eq {g : Grid} {W L : Nat} {rs : List Rect} (h : Marks g W L rs) {r : Rect}
    (hr : r ∈ rs) (hw : 0 < r.w) (hl : 0 < r.l) :
    condB g W r.y (r.x + r.w) = .ok (decide (r.x + r.w < W ∧ cell g r.y (r.x + r.w) = 0 ∧
      (r.y = 0 ∨ cell g (r.y - 1) (r.x + r.w) ≠ 0))) := by
  have hin := h.inb r hr
  unfold Inside at hin
  unfold condB
  by_cases h1 : r.x + r.w < W
  rotate_left
  · simp [h1]
  rw [rd_eq h.wf (by omega : r.y < L) h1]
  by_cases h2 : cell g r.y (r.x + r.w) = 0
  rotate_left
  · have h2' : (cell g r.y (r.x + r.w) == 0) = false := by simpa using h2
    simp [h1, h2, h2']
  by_cases h3 : r.y = 0
  · have h2' := h2
    rw [h3] at h2'
    simp [h1, h3, h2']
  rw [Marks.rd_pred_xy h.wf (by omega) (by omega) (by omega) (by omega),
    Marks.rd_pred_y h.wf (by omega) (by omega) h1]
  by_cases h4 : cell g (r.y - 1) (r.x + r.w) = 0
  · simp [h1, h2, h3, h4, HP.in23]
  obtain ⟨q, hq, hcq, hqe⟩ := h.topEnd h4 (by
    intro q hq _
    rw [show r.y - 1 + 1 = r.y by omega]
    exact h.notCov h2 hq)
  have h5 := h.in23 hq hcq (by omega)
  by_cases h6 : cell g (r.y - 1) (r.x + r.w - 1) = 0
  · have h7 : cell g (r.y - 1) (r.x + r.w) = 3 := by
      refine h.three hq hcq ?_ (by omega)
      have := h.notCov h6 hq
      unfold Covers at this hcq
      omega
    simp [h1, h2, h3, h6, h7, HP.in23, in03]
  · obtain ⟨q2, hq2, hcq2, hqe2⟩ := h.topEnd h6 (by
      intro q2 hq2 hc2 hc3
      have : q2 = r := h.disj q2 hq2 r hr _ _ hc3 (by unfold Covers; omega)
      subst this
      unfold Covers at hc2
      omega)
    have h7 := h.in23 hq2 hcq2 (by omega)
    simp [h1, h2, h3, h4, h5, h7]

/-- where the scan downwards of B'/F comes to rest, on the grid; `n` is the number of rows -/
def RestB (g : Grid) (Bx n yp : Nat) : Prop :=
  yp ≤ n ∧ (∀ y, yp ≤ y → y < n → cell g y Bx = 0 ∧ cell g y (Bx - 1) = 0) ∧
  (if yp = 0 then 0 < n else cell g (yp - 1) Bx ≠ 0)

theorem scanB_eq {g : Grid} {W L : Nat} {rs : List Rect} (h : Marks g W L rs) {Bx : Nat}
    (hB : Bx < W) (hB0 : 0 < Bx) :
    ∀ n, n < L → cell g n Bx = 0 → cell g n (Bx - 1) = 0 → ∃ o, scanB g Bx n = .ok o ∧
      ∀ yp, o = some yp ↔ RestB g Bx n yp
  | 0, _, _, _ => ⟨none, rfl, by
      intro yp
      unfold RestB
      constructor
      · intro h; simp at h
      · rintro ⟨h1, _, h3⟩
        rw [if_pos (by omega)] at h3
        omega⟩
  | y + 1, hn, hf1, hf2 => by
    unfold scanB
    rw [rd_eq h.wf (by omega : y < L) hB, Marks.rd_pred_x h.wf hB0 (by omega) (by omega : y < L)]
    simp only
    have hlf : cell g y (Bx - 1) ≠ 0 → HP.in23 (cell g y (Bx - 1)) = true := by
      intro hne
      obtain ⟨q, hq, hcq, hqe⟩ := h.topEnd hne (fun q hq _ => h.notCov hf2 hq)
      exact h.in23 hq hcq (by omega)
    by_cases hrt : cell g y Bx = 0
    · by_cases hl0 : cell g y (Bx - 1) = 0
      · by_cases hy : y = 0
        · subst hy
          refine ⟨some 0, by simp [hrt, hl0], ?_⟩
          intro yp
          unfold RestB
          constructor
          · intro he; injection he with he; subst he
            exact ⟨by omega, fun i _ hi => by rw [show i = 0 by omega]; exact ⟨hrt, hl0⟩,
              by rw [if_pos rfl]; omega⟩
          · rintro ⟨a, b, c⟩
            by_cases he : yp = 0
            · rw [he]
            · rw [if_neg he] at c
              exact absurd (by rw [show yp - 1 = 0 by omega]; exact hrt) c
        · obtain ⟨o, ho, hio⟩ := scanB_eq h hB hB0 y (by omega) hrt hl0
          refine ⟨o, by rw [← ho]; simp [hrt, hl0, hy], ?_⟩
          intro yp
          rw [hio yp]
          unfold RestB
          constructor
          · rintro ⟨a, b, c⟩
            refine ⟨by omega, ?_, ?_⟩
            · intro i hi1 hi2
              by_cases he : i = y
              · subst he; exact ⟨hrt, hl0⟩
              · exact b i hi1 (by omega)
            · split at c
              · rename_i h0; rw [if_pos h0]; omega
              · rename_i h0; rw [if_neg h0]; exact c
          · rintro ⟨a, b, c⟩
            have hyp : yp ≤ y := by
              by_cases he : yp = y + 1
              · subst he
                rw [if_neg (by omega)] at c
                exact absurd hrt c
              · omega
            refine ⟨hyp, fun i hi1 hi2 => b i hi1 (by omega), ?_⟩
            split at c
            · rename_i h0; rw [if_pos h0]; omega
            · rename_i h0; rw [if_neg h0]; exact c
      · have h5 := hlf hl0
        have i0 : HP.in23 0 = false := rfl
        refine ⟨none, by simp [hrt, hl0, h5, i0], ?_⟩
        intro yp
        unfold RestB
        constructor
        · intro h; simp at h
        · rintro ⟨a, b, c⟩
          exfalso
          by_cases he : yp = y + 1
          · subst he
            rw [if_neg (by omega)] at c
            exact c hrt
          · exact hl0 (b y (by omega) (by omega)).2
    · obtain ⟨q, hq, hcq, hqe⟩ := h.topEnd hrt (fun q hq _ => h.notCov hf1 hq)
      have h5 := h.in23 hq hcq (by omega)
      refine ⟨some (y + 1), ?_, ?_⟩
      · by_cases hl0 : cell g y (Bx - 1) = 0
        · simp [hrt, hl0, h5]
        · simp [hrt, hl0, h5, hlf hl0]
      · intro yp
        unfold RestB
        constructor
        · intro he; injection he with he; subst he
          exact ⟨by omega, fun i _ _ => by omega, by rw [if_neg (by omega)]; exact hrt⟩
        · rintro ⟨a, b, c⟩
          by_cases he : yp = y + 1
          · rw [he]
          · exact absurd (b y (by omega) (by omega)).1 hrt

/-- the grid form of `SlidesDown` -/
theorem slidesDown_iff {g : Grid} {W L : Nat} {rs : List Rect} (h : Marks g W L rs) (r : Rect)
    (yp : Nat) : SlidesDown W rs r ⟨r.x + r.w, yp⟩ ↔
      r.x + r.w < W ∧ yp < r.y ∧ (∀ y, yp ≤ y → y < r.y → cell g y (r.x + r.w) = 0 ∧
        cell g y (r.x + r.w - 1) = 0) ∧
      (yp = 0 ∨ cell g (yp - 1) (r.x + r.w) ≠ 0) := by
  unfold SlidesDown
  simp only [h.free, h.cov, true_and]

theorem genB_eq (A : Arith) {g : Grid} {W L : Nat} {rs : List Rect} (h : Marks g W L rs) {r : Rect}
    (hr : r ∈ rs) (hw : 0 < r.w) (hl : 0 < r.l) :
    ∃ o : Option Nat, (∀ yp, o = some yp ↔ SlidesDown W rs r ⟨r.x + r.w, yp⟩) ∧
      genB A g W L r.x r.y r.w = .ok (
        (if r.x + r.w < W ∧ cell g r.y (r.x + r.w) = 0 ∧
            (r.y = 0 ∨ cell g (r.y - 1) (r.x + r.w) ≠ 0) then [(.B, ⟨r.x + r.w, r.y⟩)] else []) ++
        pointBF A L r.y (r.x + r.w) o ++
        (if r.x + r.w < W ∧ cell g r.y (r.x + r.w) = 0 ∧
            ¬ (r.y = 0 ∨ cell g (r.y - 1) (r.x + r.w) ≠ 0) then [(.B__, ⟨r.x + r.w, r.y⟩)]
          else [])) := by
  have hin := h.inb r hr
  unfold Inside at hin
  unfold genB
  simp only [bind, Except.bind]
  rw [condB_eq h hr hw hl]
  simp only [slidesDown_iff h]
  by_cases h1 : r.x + r.w < W
  rotate_left
  · refine ⟨none, ?_, ?_⟩
    · intro xp; simp [h1]
    · simp [h1, pointBF, pure, Except.pure, Nat.le_of_not_lt h1]
  rw [rd_eq h.wf (by omega : r.y < L) h1]
  by_cases h3 : r.y = 0
  · refine ⟨none, by intro xp; simp [h3], ?_⟩
    obtain ⟨v, hv⟩ := rd_tot h.wf (x := ((r.x + r.w : Nat) : Int)) (y := (r.y : Int) - 1)
      (by omega) (by omega) (by omega) (by omega)
    by_cases h2 : cell g r.y (r.x + r.w) = 0
    · simp only [h2, testP_ok, hv]
      simp [h1, h3, pointBF, pure, Except.pure, Nat.not_le.2 h1]
    · simp only [testP_ok]
      simp [h1, h2, h3, pointBF, pure, Except.pure, Nat.not_le.2 h1]
      have h2' : ¬ cell g 0 (r.x + r.w) = 0 := by rw [h3] at h2; exact h2
      simp [h2']
  -- the scan, when both cells below are free
  have hscan : cell g (r.y - 1) (r.x + r.w - 1) = 0 → cell g (r.y - 1) (r.x + r.w) = 0 →
      ∃ o, scanB g (r.x + r.w) r.y = .ok o ∧ ∀ yp, o = some yp ↔
        r.x + r.w < W ∧ yp < r.y ∧ (∀ y, yp ≤ y → y < r.y → cell g y (r.x + r.w) = 0 ∧
          cell g y (r.x + r.w - 1) = 0) ∧
        (yp = 0 ∨ cell g (yp - 1) (r.x + r.w) ≠ 0) := by
    intro hd hu
    obtain ⟨Y, hY⟩ : ∃ Y, r.y = Y + 1 := ⟨r.y - 1, by omega⟩
    rw [hY]
    have hd' : cell g Y (r.x + r.w - 1) = 0 := by rw [hY] at hd; simpa using hd
    have hu' : cell g Y (r.x + r.w) = 0 := by rw [hY] at hu; simpa using hu
    obtain ⟨o, ho, hio⟩ := scanB_eq h h1 (by omega) Y (by omega) hu' hd'
    unfold scanB
    rw [rd_eq h.wf (by omega : Y < L) h1, Marks.rd_pred_x h.wf (by omega) (by omega) (by omega : Y < L)]
    simp only [hd', hu']
    by_cases hY0 : Y = 0
    · subst hY0
      refine ⟨some 0, by simp, ?_⟩
      intro yp
      constructor
      · intro he; injection he with he; subst he
        exact ⟨h1, by omega, fun x _ hx => by rw [show x = 0 by omega]; exact ⟨hu', hd'⟩,
          Or.inl rfl⟩
      · rintro ⟨_, hlt, _⟩
        rw [show yp = 0 by omega]
    · refine ⟨o, by rw [← ho]; simp [hY0], ?_⟩
      intro yp
      rw [hio yp]
      unfold RestB
      constructor
      · rintro ⟨a, b, c⟩
        refine ⟨h1, by omega, ?_, ?_⟩
        · intro x hx1 hx2
          by_cases he : x = Y
          · subst he; exact ⟨hu', hd'⟩
          · exact b x hx1 (by omega)
        · split at c
          · rename_i h0; exact Or.inl h0
          · exact Or.inr c
      · rintro ⟨_, a, b, c⟩
        refine ⟨by omega, fun x hx1 hx2 => b x hx1 (by omega), ?_⟩
        split
        · omega
        · rename_i h0; rcases c with c | c
          · exact absurd c h0
          · exact c
  rw [Marks.rd_pred_xy h.wf (by omega) (by omega) (by omega) (by omega),
    Marks.rd_pred_y h.wf (by omega) (by omega) h1]
  have hnone : ¬ (cell g (r.y - 1) (r.x + r.w - 1) = 0 ∧ cell g (r.y - 1) (r.x + r.w) = 0) →
      ∀ yp, (none : Option Nat) = some yp ↔
        r.x + r.w < W ∧ yp < r.y ∧ (∀ y, yp ≤ y → y < r.y → cell g y (r.x + r.w) = 0 ∧
          cell g y (r.x + r.w - 1) = 0) ∧
        (yp = 0 ∨ cell g (yp - 1) (r.x + r.w) ≠ 0) := by
    intro hno yp
    constructor
    · intro he; simp at he
    · rintro ⟨_, a, b, _⟩
      have := b (r.y - 1) (by omega) (by omega)
      exact absurd ⟨this.2, this.1⟩ hno
  have hx0 : 0 < r.y := by omega
  by_cases h4 : cell g (r.y - 1) (r.x + r.w) = 0
  · by_cases h6 : cell g (r.y - 1) (r.x + r.w - 1) = 0
    · obtain ⟨o, ho, hio⟩ := hscan h6 h4
      refine ⟨o, hio, ?_⟩
      by_cases h2 : cell g r.y (r.x + r.w) = 0
      · simp only [h2, h4, h6, testP_ok]
        simp [h1, h3, hx0, pure, Except.pure, Nat.not_le.2 h1, HP.in23, ho]
      · simp only [h4, h6, testP_ok]
        simp [h1, h2, h3, hx0, pure, Except.pure, Nat.not_le.2 h1, ho]
    · refine ⟨none, hnone (by simp [h6]), ?_⟩
      by_cases h2 : cell g r.y (r.x + r.w) = 0
      · simp only [h2, h4, testP_ok]
        simp [h1, h3, h6, pure, Except.pure, Nat.not_le.2 h1, HP.in23, pointBF]
      · simp only [h4, testP_ok]
        simp [h1, h2, h3, h6, pure, Except.pure, Nat.not_le.2 h1, pointBF]
  · refine ⟨none, hnone (by simp [h4]), ?_⟩
    by_cases h2 : cell g r.y (r.x + r.w) = 0
    · simp only [h2, testP_ok]
      simp [h1, h3, h4, pure, Except.pure, Nat.not_le.2 h1, pointBF]
    · simp only [testP_ok]
      simp [h1, h2, h3, h4, pure, Except.pure, Nat.not_le.2 h1, pointBF]

/-! ### C and D -/

theorem scanC_eq {g : Grid} {W L : Nat} {rs : List Rect} (h : Marks g W L rs) {r : Rect}
    (hr : r ∈ rs) (hl : 0 < r.l) (hA : r.y + r.l < L) :
    ∀ xs : List Nat, (∀ x ∈ xs, r.x ≤ x ∧ x + 1 < r.x + r.w) →
      scanC g (r.y + r.l) xs = .ok ((xs.filter (fun x => cell g (r.y + r.l) x != 0 &&
        cell g (r.y + r.l) (x + 1) == 0)).map (fun x => (.C, ⟨x + 1, r.y + r.l⟩)))
  | [], _ => rfl
  | x :: xs, hx => by
    have hin := h.inb r hr
    unfold Inside at hin
    have hx1 := hx x (by simp)
    unfold scanC
    simp only [bind, Except.bind]
    rw [scanC_eq h hr hl hA xs (fun z hz => hx z (by simp [hz])), rd_eq h.wf hA (by omega : x < W),
      show ((x : Int) + 1) = ((x + 1 : Nat) : Int) by omega, rd_eq h.wf hA (by omega : x + 1 < W)]
    by_cases h1 : cell g (r.y + r.l) (x + 1) = 0
    · by_cases h2 : cell g (r.y + r.l) x = 0
      · simp [h1, h2, pure, Except.pure]
      · obtain ⟨q, hq, hcq, hqe⟩ := h.rightEnd h2 (fun q hq _ => h.notCov h1 hq)
        have h3 : cell g (r.y + r.l) x = 3 := by
          refine h.three hq hcq (by omega) ?_
          by_cases hqy : r.y + r.l = q.y
          · exact Or.inl hqy
          · exfalso
            have : q = r := h.disj q hq r hr x (r.y + r.l - 1)
              (by unfold Covers at hcq ⊢; omega) (by unfold Covers; omega)
            subst this
            unfold Covers at hcq
            omega
        simp [h1, h3, pure, Except.pure]
    · have : (cell g (r.y + r.l) (x + 1) == 0) = false := by simpa using h1
      simp [this, pure, Except.pure]

theorem scanD_eq {g : Grid} {W L : Nat} {rs : List Rect} (h : Marks g W L rs) {r : Rect}
    (hr : r ∈ rs) (hw : 0 < r.w) (hB : r.x + r.w < W) :
    ∀ ys : List Nat, (∀ y ∈ ys, r.y ≤ y ∧ y + 1 < r.y + r.l) →
      scanD g (r.x + r.w) ys = .ok ((ys.filter (fun y => cell g y (r.x + r.w) != 0 &&
        cell g (y + 1) (r.x + r.w) == 0)).map (fun y => (.D, ⟨r.x + r.w, y + 1⟩)))
  | [], _ => rfl
  | y :: ys, hy => by
    have hin := h.inb r hr
    unfold Inside at hin
    have hy1 := hy y (by simp)
    unfold scanD
    simp only [bind, Except.bind]
    rw [scanD_eq h hr hw hB ys (fun z hz => hy z (by simp [hz])), rd_eq h.wf (by omega : y < L) hB,
      show ((y : Int) + 1) = ((y + 1 : Nat) : Int) by omega, rd_eq h.wf (by omega : y + 1 < L) hB]
    by_cases h1 : cell g (y + 1) (r.x + r.w) = 0
    · by_cases h2 : cell g y (r.x + r.w) = 0
      · simp [h1, h2, pure, Except.pure]
      · obtain ⟨q, hq, hcq, hqe⟩ := h.topEnd h2 (fun q hq _ => h.notCov h1 hq)
        have h3 : cell g y (r.x + r.w) = 3 := by
          refine h.three hq hcq ?_ (by omega)
          by_cases hqx : r.x + r.w = q.x
          · exact Or.inl hqx
          · exfalso
            have : q = r := h.disj q hq r hr (r.x + r.w - 1) y
              (by unfold Covers at hcq ⊢; omega) (by unfold Covers; omega)
            subst this
            unfold Covers at hcq
            omega
        simp [h1, h3, pure, Except.pure]
    · have : (cell g (y + 1) (r.x + r.w) == 0) = false := by simpa using h1
      simp [this, pure, Except.pure]

/-! ### all points -/

/-- the points of one class -/
def sel (c : PClass) (gen : GenPts) : List Pt := (gen.filter (·.1 = c)).map (·.2)

theorem sel_append (c : PClass) (a b : GenPts) : sel c (a ++ b) = sel c a ++ sel c b := by
  simp [sel]

theorem sel_ite (c c' : PClass) (P : Prop) [Decidable P] (p : Pt) :
    sel c (if P then [(c', p)] else []) = if c' = c ∧ P then [p] else [] := by
  by_cases hP : P <;> by_cases hc : c' = c <;> simp [sel, hP, hc]

theorem sel_map (c c' : PClass) (f : Nat → Pt) (l : List Nat) :
    sel c (l.map (fun x => (c', f x))) = if c' = c then l.map f else [] := by
  by_cases hc : c' = c <;> simp [sel, hc, List.filter_map, Function.comp_def]
  rw [List.filter_eq_self.2 (by simp)]

theorem lists_ite {good : Pt → Prop} {P : Prop} [Decidable P] {p : Pt}
    (h : ∀ q, good q ↔ q = p ∧ P) : Lists good (if P then [p] else []) := by
  by_cases hP : P
  · rw [if_pos hP]
    exact ⟨fun q => by rw [h]; simp [hP], by simp⟩
  · rw [if_neg hP]
    exact ⟨fun q => by rw [h]; simp [hP], by simp⟩

/-- an optional point, kept if the test succeeds -/
def optPt (o : Option Nat) (t : Nat → Bool) (f : Nat → Pt) : List Pt :=
  match o with
  | none => []
  | some x => if t x then [f x] else []

theorem lists_opt {good : Pt → Prop} {f : Nat → Pt} (o : Option Nat) (t : Nat → Bool)
    (h : ∀ q, good q ↔ ∃ x, o = some x ∧ t x = true ∧ q = f x) :
    Lists good (optPt o t f) := by
  unfold optPt
  match o, h with
  | none, h => exact ⟨fun q => by rw [h]; simp, by simp⟩
  | some x, h =>
    simp only
    by_cases ht : t x = true
    · rw [if_pos ht]
      refine ⟨fun q => ?_, by simp⟩
      rw [h]
      constructor
      · intro hq; exact ⟨x, rfl, ht, by simpa using hq⟩
      · rintro ⟨y, hy, _, rfl⟩; injection hy with hy; subst hy; simp
    · rw [if_neg ht]
      refine ⟨fun q => ?_, by simp⟩
      rw [h]
      constructor
      · intro hq; simp at hq
      · rintro ⟨y, hy, hty, rfl⟩; injection hy with hy; subst hy; exact absurd hty ht

theorem sel_pointAE (A : Arith) (W X Ay : Nat) (o : Option Nat) (c : PClass) :
    sel c (pointAE A W X Ay o) = match c with
      | .A_ => optPt o (fun x => A.ratioLe (X - x) W) (fun x => ⟨x, Ay⟩)
      | .E => optPt o (fun x => !A.ratioLe (X - x) W) (fun x => ⟨x, Ay⟩)
      | _ => [] := by
  unfold pointAE
  match o with
  | none => cases c <;> rfl
  | some x =>
    by_cases ht : A.ratioLe (X - x) W = true
    · cases c <;> simp [sel, ht, optPt]
    · cases c <;> simp [sel, ht, optPt]

theorem sel_pointBF (A : Arith) (L Y Bx : Nat) (o : Option Nat) (c : PClass) :
    sel c (pointBF A L Y Bx o) = match c with
      | .B_ => optPt o (fun y => A.ratioLe (Y - y) L) (fun y => ⟨Bx, y⟩)
      | .F => optPt o (fun y => !A.ratioLe (Y - y) L) (fun y => ⟨Bx, y⟩)
      | _ => [] := by
  unfold pointBF
  match o with
  | none => cases c <;> rfl
  | some x =>
    by_cases ht : A.ratioLe (Y - x) L = true
    · cases c <;> simp [sel, ht, optPt]
    · cases c <;> simp [sel, ht, optPt]

theorem pt_eta (p : Pt) {x y : Nat} (hx : p.x = x) (hy : p.y = y) : p = ⟨x, y⟩ := by
  cases p; simp_all

theorem genC_eq {g : Grid} {W L : Nat} {rs : List Rect} (h : Marks g W L rs) {r : Rect}
    (hr : r ∈ rs) (hl : 0 < r.l) :
    ∃ xs : List Nat, genC g L r.x r.y r.w r.l = .ok (xs.map (fun x => (.C, ⟨x + 1, r.y + r.l⟩))) ∧
      xs.Pairwise (· < ·) ∧ ∀ x, x ∈ xs ↔ r.y + r.l < L ∧ r.x ≤ x ∧ x + 1 < r.x + r.w ∧
        cell g (r.y + r.l) x ≠ 0 ∧ cell g (r.y + r.l) (x + 1) = 0 := by
  unfold genC
  simp only
  by_cases h1 : r.y + r.l < L
  · rw [if_pos h1]
    refine ⟨_, scanC_eq h hr hl h1 _ (by intro x hx; rw [List.mem_range'_1] at hx; omega), ?_, ?_⟩
    · exact (List.pairwise_lt_range' (step := 1)).filter _
    · intro x
      simp only [List.mem_filter, List.mem_range'_1, Bool.and_eq_true, bne_iff_ne, beq_iff_eq]
      omega
  · rw [if_neg h1]
    exact ⟨[], rfl, by simp, by intro x; simp [h1]⟩

theorem genD_eq {g : Grid} {W L : Nat} {rs : List Rect} (h : Marks g W L rs) {r : Rect}
    (hr : r ∈ rs) (hw : 0 < r.w) :
    ∃ ys : List Nat, genD g W r.x r.y r.w r.l = .ok (ys.map (fun y => (.D, ⟨r.x + r.w, y + 1⟩))) ∧
      ys.Pairwise (· < ·) ∧ ∀ y, y ∈ ys ↔ r.x + r.w < W ∧ r.y ≤ y ∧ y + 1 < r.y + r.l ∧
        cell g y (r.x + r.w) ≠ 0 ∧ cell g (y + 1) (r.x + r.w) = 0 := by
  unfold genD
  simp only
  by_cases h1 : r.x + r.w < W
  · rw [if_pos h1]
    refine ⟨_, scanD_eq h hr hw h1 _ (by intro x hx; rw [List.mem_range'_1] at hx; omega), ?_, ?_⟩
    · exact (List.pairwise_lt_range' (step := 1)).filter _
    · intro x
      simp only [List.mem_filter, List.mem_range'_1, Bool.and_eq_true, bne_iff_ne, beq_iff_eq]
      omega
  · rw [if_neg h1]
    exact ⟨[], rfl, by simp, by intro x; simp [h1]⟩

theorem generatePoints_lists (A : Arith) {g : Grid} {W L : Nat} {rs : List Rect}
    (h : Marks g W L rs) {r : Rect} (hr : r ∈ rs) (hw : 0 < r.w) (hl : 0 < r.l) :
    ∃ gen, generatePoints A g W L r.x r.y r.w r.l = .ok gen ∧
      ∀ c, Lists (Spawns A.ratioLe W L rs r c) (sel c gen) := by
  obtain ⟨oa, hoa, ea⟩ := genA_eq A h hr hw hl
  obtain ⟨ob, hob, eb⟩ := genB_eq A h hr hw hl
  obtain ⟨xs, ec, hxs, hmx⟩ := genC_eq h hr hl
  obtain ⟨ys, ed, hys, hmy⟩ := genD_eq h hr hw
  refine ⟨_, by unfold generatePoints; simp only [bind, Except.bind]; rw [ea, eb, ec, ed]; rfl, ?_⟩
  intro c
  simp only [sel_append, sel_ite, sel_map, sel_pointAE, sel_pointBF]
  cases c <;> simp only [reduceCtorEq, false_and, if_false, true_and, if_true, List.append_nil,
    List.nil_append]
  case A =>
    refine lists_ite ?_
    intro q
    simp only [Spawns, AboveFree, h.free, ← h.cov, and_assoc]
  case A__ =>
    refine lists_ite ?_
    intro q
    simp only [Spawns, AboveFree, h.free, ← h.cov, and_assoc]
  case B =>
    refine lists_ite ?_
    intro q
    simp only [Spawns, RightFree, h.free, ← h.cov, and_assoc]
  case B__ =>
    refine lists_ite ?_
    intro q
    simp only [Spawns, RightFree, h.free, ← h.cov, and_assoc]
  case A_ =>
    refine lists_opt (f := fun x => ⟨x, r.y + r.l⟩) oa (fun x => A.ratioLe (r.x - x) W) ?_
    intro q
    simp only [Spawns]
    constructor
    · rintro ⟨h1, h2⟩
      have hq := pt_eta q rfl h1.1
      exact ⟨q.x, (hoa _).2 (hq ▸ h1), h2, hq⟩
    · rintro ⟨x, h1, h2, rfl⟩
      exact ⟨(hoa x).1 h1, h2⟩
  case E =>
    refine lists_opt (f := fun x => ⟨x, r.y + r.l⟩) oa (fun x => !A.ratioLe (r.x - x) W) ?_
    intro q
    simp only [Spawns]
    constructor
    · rintro ⟨h1, h2⟩
      have hq := pt_eta q rfl h1.1
      exact ⟨q.x, (hoa _).2 (hq ▸ h1), by simp [h2], hq⟩
    · rintro ⟨x, h1, h2, rfl⟩
      exact ⟨(hoa x).1 h1, by simpa using h2⟩
  case B_ =>
    refine lists_opt (f := fun y => ⟨r.x + r.w, y⟩) ob (fun y => A.ratioLe (r.y - y) L) ?_
    intro q
    simp only [Spawns]
    constructor
    · rintro ⟨h1, h2⟩
      have hq := pt_eta q h1.1 rfl
      exact ⟨q.y, (hob _).2 (hq ▸ h1), h2, hq⟩
    · rintro ⟨x, h1, h2, rfl⟩
      exact ⟨(hob x).1 h1, h2⟩
  case F =>
    refine lists_opt (f := fun y => ⟨r.x + r.w, y⟩) ob (fun y => !A.ratioLe (r.y - y) L) ?_
    intro q
    simp only [Spawns]
    constructor
    · rintro ⟨h1, h2⟩
      have hq := pt_eta q h1.1 rfl
      exact ⟨q.y, (hob _).2 (hq ▸ h1), by simp [h2], hq⟩
    · rintro ⟨x, h1, h2, rfl⟩
      exact ⟨(hob x).1 h1, by simpa using h2⟩
  case C =>
    refine ⟨?_, ?_⟩
    · intro q
      simp only [List.mem_map, hmx, Spawns, h.free, ← h.cov]
      constructor
      · rintro ⟨x, ⟨a, b, c, d, e⟩, rfl⟩
        exact ⟨rfl, a, by simp only; omega, c, e, d⟩
      · rintro ⟨a, b, c, d, e, f⟩
        refine ⟨q.x - 1, ⟨by omega, by omega, by omega, ?_, ?_⟩, ?_⟩
        · rw [← a]; exact f
        · rw [← a, show q.x - 1 + 1 = q.x by omega]; exact e
        · rw [show q.x - 1 + 1 = q.x by omega, ← a]
    · rw [List.pairwise_map]
      exact hxs.imp (by intro a b hab; simp only; omega)
  case D =>
    refine ⟨?_, ?_⟩
    · intro q
      simp only [List.mem_map, hmy, Spawns, h.free, ← h.cov]
      constructor
      · rintro ⟨x, ⟨a, b, c, d, e⟩, rfl⟩
        exact ⟨rfl, a, by simp only; omega, c, e, d⟩
      · rintro ⟨a, b, c, d, e, f⟩
        refine ⟨q.y - 1, ⟨by omega, by omega, by omega, ?_, ?_⟩, ?_⟩
        · rw [← a]; exact f
        · rw [← a, show q.y - 1 + 1 = q.y by omega]; exact e
        · rw [show q.y - 1 + 1 = q.y by omega, ← a]
    · rw [List.pairwise_map]
      exact hys.imp (by intro a b hab; simp only; omega)

end HP
