import Verif.Proofs.Heuristic
/-
Lengths in another unit: the heuristic commutes with multiplying all lengths by `k`.
-/
namespace HP
open Spec

/-- all lengths times `k` -/
def scaleRect (k : Nat) (r : Rect) : Rect := ⟨k * r.x, k * r.y, k * r.w, k * r.l⟩
/-- see `scaleRect` -/
def scaleDim (k : Nat) (d : Dim) : Dim := ⟨k * d.w, k * d.l⟩
/-- see `scaleRect` -/
def scalePt (k : Nat) (p : Pt) : Pt := ⟨k * p.x, k * p.y⟩
/-- see `scaleRect` -/
def scaleDims (k : Nat) (m : List (String × Dim)) : List (String × Dim) :=
  m.map (fun q => (q.1, scaleDim k q.2))
/-- see `scaleRect` -/
def scaleRects (k : Nat) (m : List (String × Rect)) : List (String × Rect) :=
  m.map (fun q => (q.1, scaleRect k q.2))
/-- see `scaleRect` -/
def scaleSol (k : Nat) (s : List (String × List (String × Rect))) :
    List (String × List (String × Rect)) :=
  s.map (fun c => (c.1, scaleRects k c.2))

namespace Scale

theorem rect_x (k : Nat) (r : Rect) : (scaleRect k r).x = k * r.x := rfl
theorem rect_y (k : Nat) (r : Rect) : (scaleRect k r).y = k * r.y := rfl
theorem rect_w (k : Nat) (r : Rect) : (scaleRect k r).w = k * r.w := rfl
theorem rect_l (k : Nat) (r : Rect) : (scaleRect k r).l = k * r.l := rfl
theorem pt_x (k : Nat) (p : Pt) : (scalePt k p).x = k * p.x := rfl
theorem pt_y (k : Nat) (p : Pt) : (scalePt k p).y = k * p.y := rfl

theorem covers_div {k : Nat} (hk : 0 < k) (r : Rect) (x y : Nat) :
    Covers (scaleRect k r) x y ↔ Covers r (x / k) (y / k) := by
  unfold Covers scaleRect
  simp only [← Nat.mul_add, Nat.le_div_iff_mul_le hk, Nat.div_lt_iff_lt_mul hk]
  simp only [Nat.mul_comm]

theorem covered_div {k : Nat} (hk : 0 < k) (rs : List Rect) (x y : Nat) :
    Covered (rs.map (scaleRect k)) x y ↔ Covered rs (x / k) (y / k) := by
  unfold Covered
  constructor
  · rintro ⟨r, hr, hc⟩
    obtain ⟨q, hq, rfl⟩ := List.mem_map.1 hr
    exact ⟨q, hq, (covers_div hk q x y).1 hc⟩
  · rintro ⟨q, hq, hc⟩
    exact ⟨_, List.mem_map.2 ⟨q, hq, rfl⟩, (covers_div hk q x y).2 hc⟩

theorem disjoint_iff {k : Nat} (hk : 0 < k) (r s : Rect) :
    Spec.Disjoint (scaleRect k r) (scaleRect k s) ↔ Spec.Disjoint r s := by
  constructor
  · intro h x y ⟨h1, h2⟩
    refine h (k * x) (k * y) ⟨?_, ?_⟩
    · rw [covers_div hk]; simpa [hk] using h1
    · rw [covers_div hk]; simpa [hk] using h2
  · intro h x y ⟨h1, h2⟩
    exact h (x / k) (y / k) ⟨(covers_div hk _ _ _).1 h1, (covers_div hk _ _ _).1 h2⟩

theorem inside_iff {k : Nat} (hk : 0 < k) (W L : Nat) (r : Rect) :
    Inside (k * W) (k * L) (scaleRect k r) ↔ Inside W L r := by
  unfold Inside scaleRect
  simp only [← Nat.mul_add, Nat.mul_le_mul_left_iff hk]

theorem freeFor_iff {k : Nat} (hk : 0 < k) (W L : Nat) (rs : List Rect) (r : Rect) :
    FreeFor (k * W) (k * L) (rs.map (scaleRect k)) (scaleRect k r) ↔ FreeFor W L rs r := by
  unfold FreeFor
  rw [inside_iff hk]
  simp only [List.forall_mem_map, disjoint_iff hk]

theorem canAdd_iff {k : Nat} (hk : 0 < k) (W L : Nat) (rot : Bool) (rs : List Rect) (d : Dim)
    (x y : Nat) :
    CanAdd (k * W) (k * L) rot (rs.map (scaleRect k)) (scaleDim k d) (k * x) (k * y) ↔
      CanAdd W L rot rs d x y := by
  unfold CanAdd
  rw [← freeFor_iff hk W L rs ⟨x, y, d.w, d.l⟩, ← freeFor_iff hk W L rs ⟨x, y, d.l, d.w⟩]
  rfl

theorem pred_div {k a : Nat} (hk : 0 < k) (ha : 0 < a) : (k * a - 1) / k = a - 1 := by
  obtain ⟨b, rfl⟩ : ∃ b, a = b + 1 := ⟨a - 1, by omega⟩
  rw [Nat.mul_add, Nat.mul_one, show k * b + k - 1 = k * b + (k - 1) by omega,
    Nat.mul_add_div hk, Nat.div_eq_of_lt (by omega)]
  omega

/-- a number whose quotient differs from that of its predecessor is a multiple -/
theorem multiple {k a : Nat} (hk : 0 < k) (h : a / k ≠ (a - 1) / k) : ∃ b, a = k * b := by
  refine ⟨a / k, ?_⟩
  have h1 := Nat.div_add_mod a k
  by_cases hm : a % k = 0
  · omega
  · exfalso
    apply h
    have hlt := Nat.mod_lt a hk
    generalize hq : a / k = q at *
    have h2 : a - 1 = k * q + (a % k - 1) := by omega
    rw [h2, Nat.mul_add_div hk, Nat.div_eq_of_lt (show a % k - 1 < k by omega)]
    omega

theorem mul_eq_zero' {k a : Nat} (hk : 0 < k) : k * a = 0 ↔ a = 0 := by
  constructor
  · intro h; rcases Nat.mul_eq_zero.1 h with h | h
    · omega
    · exact h
  · intro h; rw [h]; rfl

theorem mul_lt' {k a b : Nat} (hk : 0 < k) : k * a < k * b ↔ a < b := Nat.mul_lt_mul_left hk

theorem slidesLeft_mul {k : Nat} (hk : 0 < k) (L : Nat) (rs : List Rect) (r : Rect) (p : Pt)
    (hl : 0 < r.l) :
    SlidesLeft (k * L) (rs.map (scaleRect k)) (scaleRect k r) (scalePt k p) ↔
      SlidesLeft L rs r p := by
  unfold SlidesLeft
  simp only [rect_x, rect_y, rect_w, rect_l, pt_x, pt_y, covered_div hk, ← Nat.mul_add, mul_lt' hk, Nat.mul_div_cancel_left _ hk,
    mul_eq_zero' hk, Nat.mul_right_inj (Nat.pos_iff_ne_zero.1 hk), Nat.zero_div]
  constructor
  · rintro ⟨a, b, c, d, e, f⟩
    have hy : (k * p.y - 1) / k = p.y - 1 := pred_div hk (by omega)
    rw [hy] at e f
    rw [pred_div hk (by omega)] at e
    refine ⟨a, b, c, ?_, e, ?_⟩
    · intro x h1 h2
      have := d (k * x) (Nat.mul_le_mul_left k h1) ((mul_lt' hk).2 h2)
      rwa [Nat.mul_div_cancel_left _ hk] at this
    · split
      · rename_i h0; rw [if_pos h0] at f; exact f
      · rename_i h0; rw [if_neg h0, pred_div hk (by omega)] at f; exact f
  · rintro ⟨a, b, c, d, e, f⟩
    have hy : (k * p.y - 1) / k = p.y - 1 := pred_div hk (by omega)
    rw [hy, pred_div hk (by omega)]
    refine ⟨a, b, c, ?_, e, ?_⟩
    · intro x h1 h2
      refine d (x / k) ?_ ?_
      · rw [Nat.le_div_iff_mul_le hk, Nat.mul_comm]; exact h1
      · rw [Nat.div_lt_iff_lt_mul hk, Nat.mul_comm]; exact h2
    · split
      · rename_i h0; rw [if_pos h0] at f; exact f
      · rename_i h0; rw [if_neg h0] at f; rw [pred_div hk (by omega)]; exact f

theorem slidesLeft_ex {k : Nat} (hk : 0 < k) (L : Nat) (rs : List Rect) (r : Rect) (q : Pt)
    (h : SlidesLeft (k * L) (rs.map (scaleRect k)) (scaleRect k r) q) : ∃ p, q = scalePt k p := by
  obtain ⟨a, b, c, d, e, f⟩ := h
  have hx : ∃ x, q.x = k * x := by
    by_cases h0 : q.x = 0
    · exact ⟨0, by rw [h0]; rfl⟩
    · rw [if_neg h0] at f
      have g := d q.x (Nat.le_refl _) c
      apply multiple hk
      intro he
      rw [covered_div hk] at f g
      rw [he] at g
      exact g f
  obtain ⟨x, hx⟩ := hx
  refine ⟨⟨x, r.y + r.l⟩, pt_eta q hx ?_⟩
  rw [a]; unfold scaleRect; simp only [← Nat.mul_add]

theorem slidesDown_mul {k : Nat} (hk : 0 < k) (W : Nat) (rs : List Rect) (r : Rect) (p : Pt)
    (hw : 0 < r.w) :
    SlidesDown (k * W) (rs.map (scaleRect k)) (scaleRect k r) (scalePt k p) ↔
      SlidesDown W rs r p := by
  unfold SlidesDown
  simp only [rect_x, rect_y, rect_w, rect_l, pt_x, pt_y, covered_div hk, ← Nat.mul_add, mul_lt' hk, Nat.mul_div_cancel_left _ hk,
    mul_eq_zero' hk, Nat.mul_right_inj (Nat.pos_iff_ne_zero.1 hk)]
  constructor
  · rintro ⟨a, b, c, d, f⟩
    have hx : (k * p.x - 1) / k = p.x - 1 := pred_div hk (by omega)
    rw [hx] at d
    refine ⟨a, b, c, ?_, ?_⟩
    · intro y h1 h2
      have := d (k * y) (Nat.mul_le_mul_left k h1) ((mul_lt' hk).2 h2)
      rwa [Nat.mul_div_cancel_left _ hk] at this
    · by_cases h0 : p.y = 0
      · exact Or.inl h0
      · rcases f with f | f
        · exact Or.inl f
        · rw [pred_div hk (by omega)] at f; exact Or.inr f
  · rintro ⟨a, b, c, d, f⟩
    have hx : (k * p.x - 1) / k = p.x - 1 := pred_div hk (by omega)
    rw [hx]
    refine ⟨a, b, c, ?_, ?_⟩
    · intro y h1 h2
      refine d (y / k) ?_ ?_
      · rw [Nat.le_div_iff_mul_le hk, Nat.mul_comm]; exact h1
      · rw [Nat.div_lt_iff_lt_mul hk, Nat.mul_comm]; exact h2
    · by_cases h0 : p.y = 0
      · exact Or.inl h0
      · rcases f with f | f
        · exact Or.inl f
        · rw [pred_div hk (by omega)]; exact Or.inr f

theorem slidesDown_ex {k : Nat} (hk : 0 < k) (W : Nat) (rs : List Rect) (r : Rect) (q : Pt)
    (h : SlidesDown (k * W) (rs.map (scaleRect k)) (scaleRect k r) q) : ∃ p, q = scalePt k p := by
  obtain ⟨a, b, c, d, f⟩ := h
  have hy : ∃ y, q.y = k * y := by
    rcases f with f | f
    · exact ⟨0, by rw [f]; rfl⟩
    · have g := (d q.y (Nat.le_refl _) c).1
      apply multiple hk
      intro he
      rw [covered_div hk] at f g
      rw [he] at g
      exact g f
  obtain ⟨y, hy⟩ := hy
  refine ⟨⟨r.x + r.w, y⟩, pt_eta q ?_ hy⟩
  rw [a]; unfold scaleRect; simp only [← Nat.mul_add]

theorem aboveFree_iff {k : Nat} (hk : 0 < k) (L : Nat) (rs : List Rect) (r : Rect) :
    AboveFree (k * L) (rs.map (scaleRect k)) (scaleRect k r) ↔ AboveFree L rs r := by
  unfold AboveFree
  simp only [rect_x, rect_y, rect_w, rect_l, pt_x, pt_y, covered_div hk, ← Nat.mul_add, mul_lt' hk, Nat.mul_div_cancel_left _ hk]

theorem rightFree_iff {k : Nat} (hk : 0 < k) (W : Nat) (rs : List Rect) (r : Rect) :
    RightFree (k * W) (rs.map (scaleRect k)) (scaleRect k r) ↔ RightFree W rs r := by
  unfold RightFree
  simp only [rect_x, rect_y, rect_w, rect_l, pt_x, pt_y, covered_div hk, ← Nat.mul_add, mul_lt' hk, Nat.mul_div_cancel_left _ hk]

theorem scalePt_inj {k : Nat} (hk : 0 < k) {p q : Pt} (h : scalePt k p = scalePt k q) : p = q := by
  unfold scalePt at h
  injection h with h1 h2
  exact pt_eta p (Nat.eq_of_mul_eq_mul_left hk h1) (Nat.eq_of_mul_eq_mul_left hk h2)

theorem spawns_mul {k : Nat} (hk : 0 < k) (near : Nat → Nat → Bool)
    (hn : ∀ a b, near (k * a) (k * b) = near a b) (W L : Nat) (rs : List Rect) (r : Rect)
    (hw : 0 < r.w) (hl : 0 < r.l) (c : PClass) (p : Pt) :
    Spawns near (k * W) (k * L) (rs.map (scaleRect k)) (scaleRect k r) c (scalePt k p) ↔
      Spawns near W L rs r c p := by
  have hA : scalePt k p = ⟨k * r.x, k * r.y + k * r.l⟩ ↔ p = ⟨r.x, r.y + r.l⟩ := by
    rw [show (⟨k * r.x, k * r.y + k * r.l⟩ : Pt) = scalePt k ⟨r.x, r.y + r.l⟩ by
      simp [scalePt, Nat.mul_add]]
    exact ⟨scalePt_inj hk, fun h => by rw [h]⟩
  have hB : scalePt k p = ⟨k * r.x + k * r.w, k * r.y⟩ ↔ p = ⟨r.x + r.w, r.y⟩ := by
    rw [show (⟨k * r.x + k * r.w, k * r.y⟩ : Pt) = scalePt k ⟨r.x + r.w, r.y⟩ by
      simp [scalePt, Nat.mul_add]]
    exact ⟨scalePt_inj hk, fun h => by rw [h]⟩
  have hA2 : (k * r.x = 0 ∨ Covered (rs.map (scaleRect k)) (k * r.x - 1) (k * r.y + k * r.l)) ↔
      (r.x = 0 ∨ Covered rs (r.x - 1) (r.y + r.l)) := by
    rw [mul_eq_zero' hk, covered_div hk, ← Nat.mul_add, Nat.mul_div_cancel_left _ hk]
    by_cases h0 : r.x = 0
    · simp [h0]
    · rw [pred_div hk (by omega)]
  have hB2 : (k * r.y = 0 ∨ Covered (rs.map (scaleRect k)) (k * r.x + k * r.w) (k * r.y - 1)) ↔
      (r.y = 0 ∨ Covered rs (r.x + r.w) (r.y - 1)) := by
    rw [mul_eq_zero' hk, covered_div hk, ← Nat.mul_add, Nat.mul_div_cancel_left _ hk]
    by_cases h0 : r.y = 0
    · simp [h0]
    · rw [pred_div hk (by omega)]
  have e1 : ∀ a b : Nat, k * a - k * b = k * (a - b) := fun a b => (Nat.mul_sub k a b).symm
  cases c with
  | A => simp only [Spawns, aboveFree_iff hk]; exact and_congr hA (and_congr Iff.rfl hA2)
  | A__ => simp only [Spawns, aboveFree_iff hk]; exact and_congr hA (and_congr Iff.rfl (not_congr hA2))
  | B => simp only [Spawns, rightFree_iff hk]; exact and_congr hB (and_congr Iff.rfl hB2)
  | B__ => simp only [Spawns, rightFree_iff hk]; exact and_congr hB (and_congr Iff.rfl (not_congr hB2))
  | A_ =>
    simp only [Spawns, slidesLeft_mul hk _ _ _ _ hl]
    show _ ∧ near (k * r.x - k * p.x) (k * W) = true ↔ _
    rw [e1, hn]
  | E =>
    simp only [Spawns, slidesLeft_mul hk _ _ _ _ hl]
    show _ ∧ near (k * r.x - k * p.x) (k * W) = false ↔ _
    rw [e1, hn]
  | B_ =>
    simp only [Spawns, slidesDown_mul hk _ _ _ _ hw]
    show _ ∧ near (k * r.y - k * p.y) (k * L) = true ↔ _
    rw [e1, hn]
  | F =>
    simp only [Spawns, slidesDown_mul hk _ _ _ _ hw]
    show _ ∧ near (k * r.y - k * p.y) (k * L) = false ↔ _
    rw [e1, hn]
  | C =>
    simp only [Spawns, rect_x, rect_y, rect_w, rect_l, pt_x, pt_y, covered_div hk, ← Nat.mul_add, mul_lt' hk,
      Nat.mul_div_cancel_left _ hk, Nat.mul_right_inj (Nat.pos_iff_ne_zero.1 hk)]
    constructor
    · rintro ⟨a, b, c, d, e, f⟩
      rw [pred_div hk (by omega)] at f
      exact ⟨a, b, c, d, e, f⟩
    · rintro ⟨a, b, c, d, e, f⟩
      rw [pred_div hk (by omega)]
      exact ⟨a, b, c, d, e, f⟩
  | D =>
    simp only [Spawns, rect_x, rect_y, rect_w, rect_l, pt_x, pt_y, covered_div hk, ← Nat.mul_add, mul_lt' hk,
      Nat.mul_div_cancel_left _ hk, Nat.mul_right_inj (Nat.pos_iff_ne_zero.1 hk)]
    constructor
    · rintro ⟨a, b, c, d, e, f⟩
      rw [pred_div hk (by omega)] at f
      exact ⟨a, b, c, d, e, f⟩
    · rintro ⟨a, b, c, d, e, f⟩
      rw [pred_div hk (by omega)]
      exact ⟨a, b, c, d, e, f⟩

/-- the scaled layout spawns scaled points only -/
theorem spawns_ex {k : Nat} (hk : 0 < k) (near : Nat → Nat → Bool) (W L : Nat) (rs : List Rect)
    (r : Rect) (c : PClass) (q : Pt)
    (h : Spawns near (k * W) (k * L) (rs.map (scaleRect k)) (scaleRect k r) c q) :
    ∃ p, q = scalePt k p := by
  have hA : (⟨k * r.x, k * r.y + k * r.l⟩ : Pt) = scalePt k ⟨r.x, r.y + r.l⟩ := by
    simp [scalePt, Nat.mul_add]
  have hB : (⟨k * r.x + k * r.w, k * r.y⟩ : Pt) = scalePt k ⟨r.x + r.w, r.y⟩ := by
    simp [scalePt, Nat.mul_add]
  cases c with
  | A => exact ⟨_, h.1.trans hA⟩
  | A__ => exact ⟨_, h.1.trans hA⟩
  | B => exact ⟨_, h.1.trans hB⟩
  | B__ => exact ⟨_, h.1.trans hB⟩
  | A_ => exact slidesLeft_ex hk L rs r q h.1
  | E => exact slidesLeft_ex hk L rs r q h.1
  | B_ => exact slidesDown_ex hk W rs r q h.1
  | F => exact slidesDown_ex hk W rs r q h.1
  | C =>
    obtain ⟨a, b, _, _, e, f⟩ := h
    obtain ⟨x, hx⟩ := multiple hk (a := q.x) (by
      intro he
      rw [covered_div hk] at e f
      rw [he] at e
      exact e f)
    refine ⟨⟨x, r.y + r.l⟩, pt_eta q hx ?_⟩
    rw [a]; unfold scaleRect; simp only [← Nat.mul_add]
  | D =>
    obtain ⟨a, b, _, _, e, f⟩ := h
    obtain ⟨y, hy⟩ := multiple hk (a := q.y) (by
      intro he
      rw [covered_div hk] at e f
      rw [he] at e
      exact e f)
    refine ⟨⟨r.x + r.w, y⟩, pt_eta q ?_ hy⟩
    rw [a]; unfold scaleRect; simp only [← Nat.mul_add]

/-- the setting in the other unit -/
def setting (k : Nat) (S : Setting) : Setting := { S with W := k * S.W, L := k * S.L }

/-- the state in the other unit -/
def filling (k : Nat) (f : Filling) : Filling :=
  ⟨scaleRects k f.layout, scaleDims k f.items, fun c => (f.pending c).map (scalePt k)⟩

theorem filling_rects (k : Nat) (f : Filling) :
    (filling k f).rects = f.rects.map (scaleRect k) := by
  simp [filling, Filling.rects, scaleRects, Function.comp_def]

/-- the roundings do not depend on the unit -/
structure Inv (k : Nat) (A : Arith) : Prop where
  ratio : ∀ a b, A.ratioLe (k * a) (k * b) = A.ratioLe a b
  div : ∀ a b, A.div (k * k * a) (k * k * b) = A.div a b

theorem full_iff' {k : Nat} {S : Setting} (hA : Inv k S.ar) (rs : List Rect) :
    (setting k S).full (rs.map (scaleRect k)) ↔ S.full rs := by
  unfold Setting.full setting
  simp only [List.foldl_map]
  have : ∀ r : Rect, S.ar.div ((scaleRect k r).w * (scaleRect k r).l) (k * S.W * (k * S.L)) =
      S.ar.div (r.w * r.l) (S.W * S.L) := by
    intro r
    rw [← hA.div (r.w * r.l) (S.W * S.L)]
    congr 1
    · unfold scaleRect; simp only; ac_rfl
    · ac_rfl
  simp only [this]

theorem lists_scale {k : Nat} (hk : 0 < k) {good good' : Pt → Prop} {l : List Pt}
    (h1 : ∀ p, good' (scalePt k p) ↔ good p) (h2 : ∀ q, good' q → ∃ p, q = scalePt k p)
    (h : Lists good l) : Lists good' (l.map (scalePt k)) := by
  obtain ⟨hm, hp⟩ := h
  constructor
  · intro q
    rw [List.mem_map]
    constructor
    · rintro ⟨p, hpl, rfl⟩
      exact (h1 p).2 ((hm p).1 hpl)
    · intro hq
      obtain ⟨p, rfl⟩ := h2 q hq
      exact ⟨p, (hm p).2 ((h1 p).1 hq), rfl⟩
  · rw [List.pairwise_map]
    refine hp.imp ?_
    intro a b hab
    unfold scalePt
    simp only [← Nat.mul_add]
    exact (mul_lt' hk).2 hab

theorem handles_scale {k : Nat} (hk : 0 < k) {S : Setting} (hA : Inv k S.ar) {f f1 : Filling}
    {pt : Pt} (hpos : ∀ q ∈ f.items, 0 < q.2.w ∧ 0 < q.2.l) (h : Handles S f pt f1) :
    Handles (setting k S) (filling k f) (scalePt k pt) (filling k f1) := by
  have hno : ∀ l : List (String × Dim),
      (∀ q ∈ l, ¬ CanAdd S.W S.L S.rotation f.rects q.2 pt.x pt.y) →
      ∀ q ∈ scaleDims k l, ¬ CanAdd (setting k S).W (setting k S).L (setting k S).rotation
        (filling k f).rects q.2 (scalePt k pt).x (scalePt k pt).y := by
    intro l hl q hq
    obtain ⟨q', hq', rfl⟩ := List.mem_map.1 hq
    rw [filling_rects]
    exact fun hc => hl q' hq' ((canAdd_iff hk _ _ _ _ _ _ _).1 hc)
  rcases h with ⟨rfl, hn⟩ | ⟨id, r, ⟨pre, d, post, e1, e2, e3, e4, e5⟩, hla, hpe⟩
  · exact Or.inl ⟨rfl, hno _ hn⟩
  · have hdp := hpos (id, d) (by rw [e1]; simp)
    have hrp : 0 < r.w ∧ 0 < r.l := by
      rcases e5 with rfl | ⟨_, rfl, _⟩
      · exact hdp
      · exact ⟨hdp.2, hdp.1⟩
    refine Or.inr ⟨id, scaleRect k r, ⟨scaleDims k pre, scaleDim k d, scaleDims k post, ?_, ?_, ?_, ?_, ?_⟩,
      ?_, ?_⟩
    · show scaleDims k f.items = _
      rw [e1]; simp [scaleDims]
    · show scaleDims k f1.items = _
      rw [e2]; simp [scaleDims]
    · exact hno _ e3
    · rw [filling_rects]; exact (freeFor_iff hk _ _ _ _).2 e4
    · rcases e5 with rfl | ⟨h1, rfl, h2⟩
      · exact Or.inl rfl
      · refine Or.inr ⟨h1, rfl, ?_⟩
        rw [filling_rects]
        exact fun hc => h2 ((freeFor_iff hk _ _ _ ⟨pt.x, pt.y, d.w, d.l⟩).1 hc)
    · show scaleRects k f1.layout = scaleRects k f.layout ++ _
      rw [hla]; simp [scaleRects]
    · intro c
      obtain ⟨new, h1, h2⟩ := hpe c
      refine ⟨new.map (scalePt k), ?_, ?_⟩
      · show (f1.pending c).map (scalePt k) = (f.pending c).map (scalePt k) ++ _
        rw [h1]; simp
      · rw [filling_rects]
        exact lists_scale hk
          (fun p => spawns_mul hk S.ar.ratioLe hA.ratio _ _ _ _ hrp.1 hrp.2 c p)
          (fun q hq => spawns_ex hk S.ar.ratioLe S.W S.L _ _ c q hq) h2

theorem takes_scale (k : Nat) {strategy : List PClass} {p p1 : PClass → List Pt} {n : Option Pt}
    (h : Takes strategy p n p1) :
    Takes strategy (fun c => (p c).map (scalePt k)) (n.map (scalePt k))
      (fun c => (p1 c).map (scalePt k)) := by
  rcases h with ⟨rfl, hno, rfl⟩ | ⟨pre, c, post, q, e1, e2, rfl, e3, e4⟩
  · exact Or.inl ⟨rfl, fun c hc => by simp [hno c hc], rfl⟩
  · exact Or.inr ⟨pre, c, post, scalePt k q, e1, fun c hc => by simp [e2 c hc], rfl, by simp [e3],
      fun c' hc' => by simp [e4 c' hc']⟩

theorem fills_scale {k : Nat} (hk : 0 < k) {S : Setting} (hA : Inv k S.ar) {cur : Option Pt}
    {f final : Filling} (h : Fills S cur f final)
    (hpos : ∀ q ∈ f.items, 0 < q.2.w ∧ 0 < q.2.l) :
    Fills (setting k S) (cur.map (scalePt k)) (filling k f) (filling k final) := by
  induction h with
  | stop hs =>
    refine .stop ?_
    rw [filling_rects, full_iff' hA]
    rcases hs with rfl | hs | hs
    · exact Or.inl rfl
    · exact Or.inr (Or.inl (by simp [filling, hs, scaleDims]))
    · exact Or.inr (Or.inr hs)
  | @round pt f f1 f2 next final h1 h2 h3 h4 h5 h6 _ ih =>
    have hsub : ∀ q ∈ f1.items, q ∈ f.items := by
      rcases h3 with ⟨rfl, _⟩ | ⟨id, r, ⟨pre, d, post, e1, e2, _⟩, _⟩
      · exact fun _ h => h
      · intro q hq
        rw [e2] at hq
        rw [e1]
        simp only [List.mem_append, List.mem_cons] at hq ⊢
        tauto
    refine .round (f2 := filling k f2) ?_ ?_ (handles_scale hk hA hpos h3) (takes_scale k h4) ?_ ?_
      (ih (fun q hq => hpos q (hsub q (h6 ▸ hq))))
    · simpa [filling, scaleDims] using h1
    · rw [filling_rects, full_iff' hA]; exact h2
    · simp [filling, h5]
    · simp [filling, h6]

theorem fillsContainer_scale {k : Nat} (hk : 0 < k) {S : Setting} (hA : Inv k S.ar)
    {items left : List (String × Dim)} {m : List (String × Rect)}
    (hpos : ∀ q ∈ items, 0 < q.2.w ∧ 0 < q.2.l) (h : FillsContainer S items m left) :
    FillsContainer (setting k S) (scaleDims k items) (scaleRects k m) (scaleDims k left) := by
  obtain ⟨f, hf, rfl, rfl⟩ := h
  exact ⟨filling k f, fills_scale hk hA hf hpos, rfl, rfl⟩

theorem fills_items {S : Setting} {cur : Option Pt} {f final : Filling} (h : Fills S cur f final) :
    ∀ q ∈ final.items, q ∈ f.items := by
  induction h with
  | stop _ => exact fun _ h => h
  | @round pt f f1 f2 next final h1 h2 h3 h4 h5 h6 _ ih =>
    intro q hq
    have := ih q hq
    rw [h6] at this
    rcases h3 with ⟨rfl, _⟩ | ⟨id, r, ⟨pre, d, post, e1, e2, _⟩, _⟩
    · exact this
    · rw [e2] at this
      rw [e1]
      simp only [List.mem_append, List.mem_cons] at this ⊢
      tauto

theorem packs_scale {k : Nat} (hk : 0 < k) {S S' : Dim → Setting} (hA : ∀ c, Inv k (S c).ar)
    (hS : ∀ c, S' (scaleDim k c) = setting k (S c)) {cs items : List (String × Dim)}
    {sol : List (String × List (String × Rect))} (hpos : ∀ q ∈ items, 0 < q.2.w ∧ 0 < q.2.l)
    (h : Packs S cs items sol) :
    Packs S' (scaleDims k cs) (scaleDims k items) (scaleSol k sol) := by
  induction h with
  | nil => exact .nil
  | @cons cid c cs items m left sol hf _ ih =>
    have hleft : ∀ q ∈ left, 0 < q.2.w ∧ 0 < q.2.l := by
      obtain ⟨f, h1, _, rfl⟩ := hf
      exact fun q hq => hpos q (fills_items h1 q hq)
    refine .cons (c := scaleDim k c) (m := scaleRects k m) ?_ (ih hleft)
    rw [hS]
    exact fillsContainer_scale hk (hA c) hpos hf

end Scale

end HP
