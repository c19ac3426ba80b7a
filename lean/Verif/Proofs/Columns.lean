import Verif.Proofs.OneDim
import Verif.Proofs.Heuristic
import Mathlib.Algebra.Order.Field.Basic
import Mathlib.Algebra.Field.Rat
import Mathlib.Algebra.Order.Ring.Rat
/-
Items of one width: the heuristic fills columns, first fit.
-/
namespace HP
open Spec

/-! ### first fit -/

theorem firstFit_closed : ∀ (l bs : List Bin) (items : List (String × Dim)), (∀ b ∈ l, ∀ q ∈ items, ¬ b.Takes q.2) →
    firstFit (l ++ bs) items = l ++ firstFit bs items
  | [], bs, items, _ => rfl
  | b :: l, bs, items, h => by
    have key : ∀ items : List (String × Dim), (∀ q ∈ items, ¬ b.Takes q.2) → greedy b items = [] ∧ passed b items = items := by
      intro items
      induction items with
      | nil => intro _; exact ⟨rfl, rfl⟩
      | cons q qs ih =>
        intro hq
        obtain ⟨h1, h2⟩ := ih (fun q hq' => hq q (by simp [hq']))
        unfold greedy passed
        rw [if_neg (hq q (by simp)), if_neg (hq q (by simp)), h1, h2]
        exact ⟨rfl, rfl⟩
    obtain ⟨h1, h2⟩ := key items (fun q hq => h b (by simp) q hq)
    rw [List.cons_append, firstFit_cons, h1, h2, List.append_nil,
      firstFit_closed l bs items (fun b hb q hq => h b (by simp [hb]) q hq)]
    rfl

theorem firstFit_put (b : Bin) (bs : List Bin) (q : String × Dim) (pre post : List (String × Dim))
    (hpre : ∀ q' ∈ pre, ¬ b.Takes q'.2) (hq : b.Takes q.2) :
    firstFit (b :: bs) (pre ++ q :: post) = firstFit ({ b with items := b.items ++ [q] } :: bs) (pre ++ post) := by
  have key : ∀ pre : List (String × Dim), (∀ q' ∈ pre, ¬ b.Takes q'.2) →
      greedy b (pre ++ q :: post) = q :: greedy { b with items := b.items ++ [q] } (pre ++ post) ∧
      passed b (pre ++ q :: post) = passed { b with items := b.items ++ [q] } (pre ++ post) := by
    intro pre
    induction pre with
    | nil =>
      intro _
      simp only [List.nil_append, greedy, passed, if_pos hq]
      exact ⟨trivial, trivial⟩
    | cons x pre ih =>
      intro hx
      obtain ⟨h1, h2⟩ := ih (fun q hq' => hx q (by simp [hq']))
      have hx0 := hx x (by simp)
      have hx1 : ¬ Bin.Takes { b with items := b.items ++ [q] } x.2 := by
        intro h
        refine hx0 ⟨h.1, ?_⟩
        have := h.2
        simp only [Bin.load, List.map_append, List.sum_append] at this ⊢
        omega
      simp only [List.cons_append, greedy, passed, if_neg hx0, if_neg hx1, h1, h2]
      exact ⟨trivial, trivial⟩
  obtain ⟨h1, h2⟩ := key pre hpre
  rw [firstFit_cons, firstFit_cons, h1, h2]
  simp

/-! ### piles next to each other -/

/-- all items in the bins have the width `w` and are not flat -/
def Even (w : Nat) (cols : List Bin) : Prop := ∀ b ∈ cols, ∀ q ∈ b.items, q.2.w = w ∧ 0 < q.2.l

theorem pileAt_append (x : Nat) : ∀ (a b : List (String × Dim)) (y : Nat),
    pileAt x y (a ++ b) = pileAt x y a ++ pileAt x (y + (a.map (fun q => q.2.l)).sum) b
  | [], b, y => by simp [pileAt]
  | (id, d) :: a, b, y => by
    simp only [List.cons_append, pileAt, pileAt_append x a b, List.map_cons, List.sum_cons]
    rw [Nat.add_assoc]

theorem pileAt_covered (X w : Nat) : ∀ (l : List (String × Dim)) (y0 x y : Nat), (∀ q ∈ l, q.2.w = w) →
    (Covered ((pileAt X y0 l).map (·.2)) x y ↔ X ≤ x ∧ x < X + w ∧ y0 ≤ y ∧ y < y0 + (l.map (fun q => q.2.l)).sum)
  | [], y0, x, y, _ => by
    simp only [pileAt, List.map_nil, Covered, List.not_mem_nil, false_and, exists_false, List.sum_nil, false_iff]
    omega
  | (id, d) :: l, y0, x, y, h => by
    have ih := pileAt_covered X w l (y0 + d.l) x y (fun q hq => h q (by simp [hq]))
    have hd : d.w = w := h (id, d) (by simp)
    have e : Covered ((pileAt X y0 ((id, d) :: l)).map (·.2)) x y ↔
        Covers ⟨X, y0, d.w, d.l⟩ x y ∨ Covered ((pileAt X (y0 + d.l) l).map (·.2)) x y := by
      simp only [pileAt, List.map_cons, Covered, List.mem_cons, exists_eq_or_imp]
    rw [e, ih, hd]
    simp only [Covers, List.map_cons, List.sum_cons]
    omega

theorem covered_both (a b : List Rect) (x y : Nat) : Covered (a ++ b) x y ↔ Covered a x y ∨ Covered b x y := by
  unfold Covered
  constructor
  · rintro ⟨r, hr, h⟩
    rcases List.mem_append.1 hr with h' | h'
    · exact .inl ⟨r, h', h⟩
    · exact .inr ⟨r, h', h⟩
  · rintro (⟨r, hr, h⟩ | ⟨r, hr, h⟩)
    · exact ⟨r, List.mem_append_left _ hr, h⟩
    · exact ⟨r, List.mem_append_right _ hr, h⟩

theorem standing_append (w : Nat) : ∀ (a b : List Bin) (x : Nat),
    standing w x (a ++ b) = standing w x a ++ standing w (x + a.length * w) b
  | [], b, x => by simp [standing]
  | c :: a, b, x => by
    simp only [List.cons_append, standing, standing_append w a b, List.length_cons, Nat.add_mul, Nat.one_mul, List.append_assoc]
    rw [show x + w + a.length * w = x + (a.length * w + w) by omega]

theorem standing_empty (w : Nat) : ∀ (l : List Bin) (x : Nat), (∀ b ∈ l, b.items = []) → standing w x l = []
  | [], x, _ => rfl
  | b :: l, x, h => by
    simp only [standing, h b (by simp), pileAt, List.nil_append]
    exact standing_empty w l _ (fun b hb => h b (by simp [hb]))

/-- the covered cells -/
theorem standing_covered (w : Nat) : ∀ (cols : List Bin) (x0 x y : Nat), Even w cols →
    (Covered ((standing w x0 cols).map (·.2)) x y ↔
      ∃ l1 b l2, cols = l1 ++ b :: l2 ∧ x0 + l1.length * w ≤ x ∧ x < x0 + l1.length * w + w ∧ y < b.load)
  | [], x0, x, y, _ => by
    simp [standing, Covered]
  | c :: cols, x0, x, y, h => by
    have ih := standing_covered w cols (x0 + w) x y (fun b hb => h b (by simp [hb]))
    simp only [standing, List.map_append]
    rw [covered_both, ih, pileAt_covered x0 w c.items 0 x y (fun q hq => (h c (by simp) q hq).1)]
    constructor
    · rintro (h1 | ⟨l1, b, l2, rfl, h1, h2, h3⟩)
      · exact ⟨[], c, cols, rfl, by simpa using h1.1, by simpa using h1.2.1, by simpa [Bin.load] using h1.2.2.2⟩
      · refine ⟨c :: l1, b, l2, rfl, ?_, ?_, h3⟩ <;> simp only [List.length_cons, Nat.add_mul, Nat.one_mul] <;> omega
    · rintro ⟨l1, b, l2, he, h1, h2, h3⟩
      cases l1 with
      | nil =>
        rw [List.nil_append] at he
        injection he with e1 e2
        subst e1
        left
        simp only [List.length_nil, Nat.zero_mul, Nat.add_zero] at h1 h2
        exact ⟨h1, h2, Nat.zero_le _, by simpa [Bin.load] using h3⟩
      | cons c' l1 =>
        injection he with e1 e2
        subst e1
        right
        simp only [List.length_cons, Nat.add_mul, Nat.one_mul] at h1 h2
        exact ⟨l1, b, l2, e2, by omega, by omega, h3⟩

theorem mul_between {w j k t : Nat} (h1 : j * w ≤ t) (h2 : t < j * w + w) (h3 : k * w ≤ t) (h4 : t < k * w + w) : j = k := by
  rcases Nat.lt_trichotomy j k with h | h | h
  · have := Nat.mul_le_mul_right w (Nat.succ_le_of_lt h)
    rw [Nat.succ_mul] at this
    omega
  · exact h
  · have := Nat.mul_le_mul_right w (Nat.succ_le_of_lt h)
    rw [Nat.succ_mul] at this
    omega

/-- in the column of a bin the cells below the top of its pile are covered, and no others -/
theorem column_covered {w : Nat} {l1 l2 : List Bin} {b : Bin} (h : Even w (l1 ++ b :: l2)) {x y : Nat}
    (h1 : l1.length * w ≤ x) (h2 : x < l1.length * w + w) :
    Covered ((standing w 0 (l1 ++ b :: l2)).map (·.2)) x y ↔ y < b.load := by
  rw [standing_covered w _ 0 x y h]
  constructor
  · rintro ⟨l1', b', l2', he, h3, h4, h5⟩
    have : l1.length = l1'.length := mul_between h1 h2 (by omega) (by omega)
    obtain ⟨e1, e2⟩ := List.append_inj he this
    injection e2 with e2 _
    rw [e2]; exact h5
  · intro hy
    exact ⟨l1, b, l2, rfl, by omega, by omega, hy⟩

/-- beyond the columns nothing is covered -/
theorem beyond_covered {w : Nat} {cols : List Bin} (h : Even w cols) {x y : Nat} (hx : cols.length * w ≤ x) :
    ¬ Covered ((standing w 0 cols).map (·.2)) x y := by
  rw [standing_covered w _ 0 x y h]
  rintro ⟨l1, b, l2, rfl, h3, h4, h5⟩
  rw [List.length_append, List.length_cons] at hx
  have : (l1.length + 1) * w ≤ (l1.length + (l2.length + 1)) * w := Nat.mul_le_mul_right _ (by omega)
  rw [Nat.add_mul, Nat.one_mul] at this
  omega

theorem standing_area (w : Nat) : ∀ (cols : List Bin) (x : Nat), Even w cols →
    totalArea ((standing w x cols).map (·.2)) = w * (cols.map Bin.load).sum
  | [], x, _ => by simp [standing, totalArea]
  | b :: cols, x, h => by
    have ih := standing_area w cols (x + w) (fun b hb => h b (by simp [hb]))
    have hp : ∀ (l : List (String × Dim)) (y : Nat), (∀ q ∈ l, q.2.w = w) →
        totalArea ((pileAt x y l).map (·.2)) = w * (l.map (fun q => q.2.l)).sum := by
      intro l
      induction l with
      | nil => intro y _; simp [pileAt, totalArea]
      | cons q l ihl =>
        intro y hq
        have := ihl (y + q.2.l) (fun q hq' => hq q (by simp [hq']))
        have hw := hq q (by simp)
        simp only [totalArea, pileAt, List.map_cons, List.sum_cons, area, Nat.mul_add] at this ⊢
        rw [this, hw]
    have h1 := hp b.items 0 (fun q hq => (h b (by simp) q hq).1)
    simp only [totalArea, standing, List.map_append, List.sum_append, List.map_cons, List.sum_cons, Nat.mul_add] at ih h1 ⊢
    rw [ih, h1]; rfl

/-! ### the heuristic -/

/-- A comes before B and B before B'' -/
def Spec.ColumnOrder (strategy : List PClass) : Prop :=
  ∃ s1 s2 s3, strategy = s1 ++ .A :: (s2 ++ .B :: s3) ∧ .B ∉ s1 ++ s2 ∧ .B__ ∉ s1 ++ s2

theorem order_split {st : List PClass} (h : ColumnOrder st) {pre post : List PClass} {c : PClass} (he : st = pre ++ c :: post) :
    (c = .B → .A ∈ pre) ∧ (c = .B__ → .A ∈ pre ∧ .B ∈ pre) := by
  obtain ⟨s1, s2, s3, h1, h2, h3⟩ := h
  rw [h1] at he
  simp only [List.mem_append, not_or] at h2 h3
  have key : ∀ c : PClass, c ≠ .A → c ∉ s1 → c ∉ s2 → ∀ pre post, s1 ++ .A :: (s2 ++ .B :: s3) = pre ++ c :: post →
      .A ∈ pre ∧ (c ≠ .B → .B ∈ pre) := by
    intro c hcA hc1 hc2 pre post he
    rcases List.append_eq_append_iff.1 he with ⟨a, rfl, ha⟩ | ⟨a, rfl, ha⟩
    · cases a with
      | nil => rw [List.nil_append] at ha; injection ha with e _; exact absurd e.symm hcA
      | cons x a =>
        injection ha with e1 e2
        subst e1
        refine ⟨by simp, fun hcB => ?_⟩
        rcases List.append_eq_append_iff.1 e2 with ⟨a', rfl, ha'⟩ | ⟨a', rfl, ha'⟩
        · cases a' with
          | nil => rw [List.nil_append] at ha'; injection ha' with e _; exact absurd e.symm hcB
          | cons x a' => injection ha' with e1 _; subst e1; simp
        · cases a' with
          | nil => rw [List.nil_append] at ha'; injection ha' with e _; exact absurd e hcB
          | cons x a' => injection ha' with e1 _; subst e1; exact absurd (by simp) hc2
    · cases a with
      | nil => rw [List.nil_append] at ha; injection ha with e _; exact absurd e hcA
      | cons x a => injection ha with e1 _; subst e1; exact absurd (by simp) hc1
  constructor
  · rintro rfl
    exact (key .B (by decide) h2.1 h2.2 _ _ he).1
  · rintro rfl
    have := key .B__ (by decide) h3.1 h3.2 _ _ he
    exact ⟨this.1, this.2 (by decide)⟩

section
variable {S : Setting} {w : Nat} {id0 : String}

/-- the items that are left fit nowhere in the column of the bin -/
def Shut (L : Nat) (R : List (String × Dim)) (b : Bin) : Prop := ∀ q ∈ R, L < b.load + q.2.l

/-- what holds all the time: the layout consists of the columns -/
structure CBase (S : Setting) (w : Nat) (id0 : String) (items0 : List (String × Dim)) (f : Filling) (cols : List Bin) : Prop where
  len : cols.length = S.W / w
  shape : ∀ b ∈ cols, b.id = id0 ∧ b.width = w ∧ b.cap = S.L
  even : Even w cols
  low : ∀ b ∈ cols, b.load ≤ S.L
  layout : f.layout = standing w 0 cols
  sub : f.items.Sublist items0
  perm : (cols.flatMap (·.items) ++ f.items).Perm items0
  ff : ∀ bs, firstFit (List.replicate (S.W / w) ⟨id0, w, S.L, []⟩ ++ bs) items0 = firstFit (cols ++ bs) f.items

/-- the point is in one of the first `k` columns -/
def InFirst (w k : Nat) (p : Pt) : Prop := ∃ j, j < k ∧ p.x = j * w

/-- pending points besides those of the classes A, B and B'' -/
def OthersIn (w k : Nat) (f : Filling) : Prop :=
  ∀ c, c ≠ .A → c ≠ .B → c ≠ .B__ → ∀ p ∈ f.pending c, InFirst w k p

/-- the point at the foot of column `k` -/
def foot (W w k : Nat) : List Pt := if k * w < W then [⟨k * w, 0⟩] else []

/-- after a point was handled: the column goes on, or the next one is to be begun, or nothing more can be placed -/
inductive Pool (S : Setting) (w : Nat) (f : Filling) (cols : List Bin) : Prop where
  | goes (l1 b l2) : cols = l1 ++ b :: l2 → (∀ b ∈ l2, b.items = []) → b.items ≠ [] → (∀ b ∈ l1, Shut S.L f.items b) →
      f.pending .A = [⟨l1.length * w, b.load⟩] → f.pending .B = foot S.W w (l1.length + 1) → OthersIn w l1.length f →
      Pool S w f cols
  | next (l1 b2 l2) : cols = l1 ++ b2 :: l2 → (∀ b ∈ b2 :: l2, b.items = []) → (∀ b ∈ l1, Shut S.L f.items b) →
      f.pending .A = [] → f.pending .B = [⟨l1.length * w, 0⟩] → OthersIn w l1.length f → Pool S w f cols
  | done : (∀ b ∈ cols, Shut S.L f.items b) → Pool S w f cols

/-- before a point is handled -/
inductive Ready (S : Setting) (w : Nat) (f : Filling) (cols : List Bin) : Option Pt → Prop where
  | top (l1 b l2) : cols = l1 ++ b :: l2 → (∀ b ∈ l2, b.items = []) → (∀ b ∈ l1, Shut S.L f.items b) →
      f.pending .A = [] → f.pending .B = (if b.items = [] then [] else foot S.W w (l1.length + 1)) → OthersIn w l1.length f →
      Ready S w f cols (some ⟨l1.length * w, b.load⟩)
  | dead (pt l1 l2) : cols = l1 ++ l2 → (∀ b ∈ l1, Shut S.L f.items b) → InFirst w l1.length pt → Pool S w f cols →
      Ready S w f cols (some pt)
  | done (cur) : (∀ b ∈ cols, Shut S.L f.items b) → Ready S w f cols cur

/-- items of width `w` that cannot be turned to advantage -/
def OneW (S : Setting) (w : Nat) (R : List (String × Dim)) : Prop :=
  ∀ q ∈ R, q.2.w = w ∧ 0 < q.2.l ∧ (S.rotation = true → q.2.w = q.2.l ∨ S.W < q.2.l)

theorem canAdd_straight {R : List (String × Dim)} (h : OneW S w R) {q : String × Dim} (hq : q ∈ R) {rs : List Rect} {x y : Nat} :
    CanAdd S.W S.L S.rotation rs q.2 x y ↔ FreeFor S.W S.L rs ⟨x, y, w, q.2.l⟩ := by
  obtain ⟨h1, h2, h3⟩ := h q hq
  unfold CanAdd
  rw [h1]
  constructor
  · rintro (hf | ⟨hr, hf⟩)
    · exact hf
    · rcases h3 hr with he | hl
      · rw [h1] at he; rw [← he] at hf ⊢; exact hf
      · have := hf.1.1
        simp only at this
        omega
  · intro hf; exact .inl hf

variable {items0 : List (String × Dim)} {f : Filling} {cols : List Bin}

theorem shut_no (hw : 0 < w) (hB : CBase S w id0 items0 f cols) (hO : OneW S w f.items) {l1 l2 : List Bin} {b : Bin}
    (he : cols = l1 ++ b :: l2) (hs : Shut S.L f.items b) {x y : Nat} (h1 : l1.length * w ≤ x) (h2 : x < l1.length * w + w)
    {q : String × Dim} (hq : q ∈ f.items) : ¬ CanAdd S.W S.L S.rotation f.rects q.2 x y := by
  rw [canAdd_straight hO hq]
  intro ⟨⟨_, hin⟩, hdis⟩
  have hl := (hO q hq).2.1
  have hsq := hs q hq
  have hnc : ¬ Covered f.rects x y := by
    rintro ⟨r, hr, hc⟩
    exact hdis r hr x y ⟨⟨Nat.le_refl _, by simp only; omega, Nat.le_refl _, by simp only; omega⟩, hc⟩
  unfold Filling.rects at hnc
  rw [hB.layout, he, column_covered (he ▸ hB.even) h1 h2] at hnc
  simp only at hin
  omega

theorem done_no (hw : 0 < w) (hB : CBase S w id0 items0 f cols) (hO : OneW S w f.items)
    (hd : ∀ b ∈ cols, Shut S.L f.items b) {x y : Nat} {q : String × Dim} (hq : q ∈ f.items) :
    ¬ CanAdd S.W S.L S.rotation f.rects q.2 x y := by
  intro hc
  have hc' := hc
  rw [canAdd_straight hO hq] at hc'
  have hin := hc'.1.1
  simp only at hin
  have hlt : x / w < cols.length := by
    rw [hB.len]
    have := Nat.div_le_div_right (c := w) hin
    rw [Nat.add_div_right _ hw] at this
    omega
  have hdm := Nat.div_add_mod x w
  have hml := Nat.mod_lt x hw
  rw [Nat.mul_comm] at hdm
  have hsplit : cols = cols.take (x / w) ++ cols[x / w] :: cols.drop (x / w + 1) := by
    rw [List.getElem_cons_drop, List.take_append_drop]
  have hlen : (cols.take (x / w)).length = x / w := by rw [List.length_take]; omega
  refine shut_no hw hB hO hsplit (hd _ (List.getElem_mem _)) ?_ ?_ hq hc <;> rw [hlen] <;> omega

/-- in a column with room an item can be put on the top of the pile -/
theorem room_yes (hw : 0 < w) (hB : CBase S w id0 items0 f cols) (hO : OneW S w f.items) {l1 l2 : List Bin} {b : Bin}
    (he : cols = l1 ++ b :: l2) {q : String × Dim} (hq : q ∈ f.items) (hr : b.load + q.2.l ≤ S.L) :
    CanAdd S.W S.L S.rotation f.rects q.2 (l1.length * w) b.load := by
  rw [canAdd_straight hO hq]
  refine ⟨⟨?_, hr⟩, ?_⟩
  · have h1 := hB.len
    rw [he, List.length_append, List.length_cons] at h1
    have h2 := Nat.mul_div_le S.W w
    rw [← h1, Nat.mul_comm] at h2
    have : (l1.length + 1) * w ≤ (l1.length + (l2.length + 1)) * w := Nat.mul_le_mul_right _ (by omega)
    rw [Nat.add_mul, Nat.one_mul] at this
    simp only
    omega
  · intro r hr x y ⟨⟨a1, a2, a3, a4⟩, hc⟩
    have hcov : Covered f.rects x y := ⟨r, hr, hc⟩
    unfold Filling.rects at hcov
    simp only at a1 a2 a3 a4
    rw [hB.layout, he, column_covered (he ▸ hB.even) a1 a2] at hcov
    omega

/-- taking the next point -/
theorem pool_takes (hst : ColumnOrder S.strategy) {f f2 : Filling} (hP : Pool S w f cols) {next : Option Pt}
    (ht : Takes S.strategy f.pending next f2.pending) (hi : f2.items = f.items) : Ready S w f2 cols next := by
  have hAB : .A ∈ S.strategy ∧ .B ∈ S.strategy := by
    obtain ⟨s1, s2, s3, h1, _⟩ := hst
    rw [h1]; simp
  cases hP with
  | done h => exact .done _ (by rw [hi]; exact h)
  | goes l1 b l2 he h2 hne hs hA hBp hoth =>
    rcases ht with ⟨_, h, _⟩ | ⟨pre, c, post, p, hsp, hpre, rfl, hc, hrest⟩
    · exact absurd (h _ hAB.1) (by rw [hA]; simp)
    · obtain ⟨o1, o2⟩ := order_split hst hsp
      have hcB : c ≠ .B := fun e => absurd (hpre _ (o1 e)) (by rw [hA]; simp)
      have hcB2 : c ≠ .B__ := fun e => absurd (hpre _ (o2 e).1) (by rw [hA]; simp)
      by_cases hcA : c = .A
      · subst hcA
        rw [hA] at hc
        injection hc with e1 e2
        subst e1
        refine .top l1 b l2 he h2 (by rw [hi]; exact hs) e2.symm ?_ ?_
        · rw [if_neg hne, hrest _ (by decide), hBp]
        · intro c' a1 a2 a3 p hp
          rw [hrest c' a1] at hp
          exact hoth c' a1 a2 a3 p hp
      · have hjunk : OthersIn w l1.length f2 := by
          intro c' a1 a2 a3 p' hp'
          by_cases hcc : c' = c
          · subst hcc
            exact hoth c' a1 a2 a3 p' (by rw [hc]; simp [hp'])
          · rw [hrest c' hcc] at hp'
            exact hoth c' a1 a2 a3 p' hp'
        refine .dead p l1 (b :: l2) he (by rw [hi]; exact hs) (hoth c hcA hcB hcB2 p (by rw [hc]; simp)) ?_
        refine .goes l1 b l2 he h2 hne (by rw [hi]; exact hs) ?_ ?_ hjunk
        · rw [hrest _ (fun e => hcA e.symm), hA]
        · rw [hrest _ (fun e => hcB e.symm), hBp]
  | next l1 b2 l2 he h2 hs hA hBp hoth =>
    rcases ht with ⟨_, h, _⟩ | ⟨pre, c, post, p, hsp, hpre, rfl, hc, hrest⟩
    · exact absurd (h _ hAB.2) (by rw [hBp]; simp)
    · obtain ⟨o1, o2⟩ := order_split hst hsp
      have hcA : c ≠ .A := fun e => by subst e; rw [hA] at hc; simp at hc
      have hcB2 : c ≠ .B__ := fun e => absurd (hpre _ (o2 e).2) (by rw [hBp]; simp)
      by_cases hcB : c = .B
      · subst hcB
        rw [hBp] at hc
        injection hc with e1 e2
        subst e1
        have hb2 : b2.items = [] := h2 b2 (by simp)
        have hl0 : b2.load = 0 := by simp [Bin.load, hb2]
        have key : Ready S w f2 cols (some ⟨l1.length * w, b2.load⟩) := by
          refine .top l1 b2 l2 he (fun b hb => h2 b (by simp [hb])) (by rw [hi]; exact hs) ?_ ?_ ?_
          · rw [hrest _ (by decide), hA]
          · rw [if_pos hb2]; exact e2.symm
          · intro c' a1 a2 a3 p hp
            rw [hrest c' a2] at hp
            exact hoth c' a1 a2 a3 p hp
        rw [hl0] at key
        exact key
      · have hjunk : OthersIn w l1.length f2 := by
          intro c' a1 a2 a3 p' hp'
          by_cases hcc : c' = c
          · subst hcc
            exact hoth c' a1 a2 a3 p' (by rw [hc]; simp [hp'])
          · rw [hrest c' hcc] at hp'
            exact hoth c' a1 a2 a3 p' hp'
        refine .dead p l1 (b2 :: l2) he (by rw [hi]; exact hs) (hoth c hcA hcB hcB2 p (by rw [hc]; simp)) ?_
        refine .next l1 b2 l2 he h2 (by rw [hi]; exact hs) ?_ ?_ hjunk
        · rw [hrest _ (fun e => hcA e.symm), hA]
        · rw [hrest _ (fun e => hcB e.symm), hBp]

/-- when the pile of a column cannot grow, the next column is begun, or nothing more fits -/
theorem pool_closed (hw : 0 < w) (hB : CBase S w id0 items0 f cols) {l1 l2 : List Bin} {b : Bin} (he : cols = l1 ++ b :: l2)
    (h2 : ∀ b ∈ l2, b.items = []) (hs : ∀ b ∈ l1, Shut S.L f.items b) (hb : Shut S.L f.items b)
    (hA : f.pending .A = []) (hBp : b.items ≠ [] → f.pending .B = foot S.W w (l1.length + 1))
    (hoth : OthersIn w (l1.length + 1) f) : Pool S w f cols := by
  have hs' : ∀ b' ∈ l1 ++ [b], Shut S.L f.items b' := by
    intro b' hb'
    rcases List.mem_append.1 hb' with h | h
    · exact hs b' h
    · rw [List.mem_singleton] at h; subst h; exact hb
  cases l2 with
  | nil => exact .done (by rw [he]; exact hs')
  | cons b2 l2 =>
    by_cases hbe : b.items = []
    · -- nothing fits an empty column
      refine .done ?_
      intro b' hb'
      rw [he] at hb'
      rcases List.mem_append.1 hb' with h | h
      · exact hs b' h
      · have hb0 : b'.items = [] := by
          rcases List.mem_cons.1 h with h | h
          · subst h; exact hbe
          · exact h2 b' h
        intro q hq
        have := hb q hq
        simp only [Bin.load, hbe] at this
        simp only [Bin.load, hb0]
        exact this
    · refine .next (l1 ++ [b]) b2 l2 (by rw [he]; simp) h2 hs' hA ?_ ?_
      · rw [hBp hbe]
        have hlt : (l1.length + 1) * w < S.W := by
          have h1 := hB.len
          rw [he, List.length_append, List.length_cons, List.length_cons] at h1
          have h2 := Nat.mul_div_le S.W w
          rw [← h1, Nat.mul_comm] at h2
          have : (l1.length + 1 + 1) * w ≤ (l1.length + (l2.length + 1 + 1)) * w := Nat.mul_le_mul_right _ (by omega)
          rw [Nat.add_mul _ 1, Nat.one_mul] at this
          omega
        simp only [foot, if_pos hlt, List.length_append, List.length_singleton]
      · simpa using hoth

theorem lists_nil {good : Pt → Prop} {l : List Pt} (h : Lists good l) (hn : ∀ p, ¬ good p) : l = [] := by
  cases l with
  | nil => rfl
  | cons p l => exact absurd ((h.1 p).1 (by simp)) (hn p)

theorem lists_one {good : Pt → Prop} {l : List Pt} {p0 : Pt} (h : Lists good l) (h1 : good p0) (h2 : ∀ p, good p → p = p0) :
    l = [p0] := by
  refine lists_unique h ⟨fun p => ?_, by simp⟩
  rw [List.mem_singleton]
  exact ⟨fun e => e ▸ h1, h2 p⟩

/-- putting an item on the top of the pile of the column that is being filled -/
theorem put_top (hw : 0 < w) (hB : CBase S w id0 items0 f cols) (hO : OneW S w f.items)
    {l1 l2 : List Bin} {b : Bin} (he : cols = l1 ++ b :: l2) (h2 : ∀ b ∈ l2, b.items = []) (hs : ∀ b ∈ l1, Shut S.L f.items b)
    (hA : f.pending .A = []) (hBp : f.pending .B = (if b.items = [] then [] else foot S.W w (l1.length + 1)))
    (hoth : OthersIn w l1.length f) {f1 : Filling} {id : String} {r : Rect}
    (hf : FirstFit S f ⟨l1.length * w, b.load⟩ id r f1.items) (hl : f1.layout = f.layout ++ [(id, r)])
    (hp : ∀ c, ∃ new, f1.pending c = f.pending c ++ new ∧ Lists (Spawns S.ar.ratioLe S.W S.L f1.rects r c) new) :
    ∃ cols', CBase S w id0 items0 f1 cols' ∧ Pool S w f1 cols' := by
  obtain ⟨pre, d, post, hit, hrest, hpre, hfree, hr⟩ := hf
  have hdm : (id, d) ∈ f.items := by rw [hit]; simp
  obtain ⟨hdw, hdl, hdr⟩ := hO _ hdm
  simp only at hdw hdl hdr
  -- the rectangle
  have hr : r = ⟨l1.length * w, b.load, w, d.l⟩ := by
    rcases hr with hr | ⟨hrot, hr, hno⟩
    · rw [hr, hdw]
    · rcases hdr hrot with h | h
      · exfalso; apply hno
        rw [hr, ← h] at hfree
        rw [← h]; exact hfree
      · have := hfree.1.1
        rw [hr] at this
        simp only at this
        omega
  subst hr
  have hbm : b ∈ cols := by rw [he]; simp
  obtain ⟨hbi, hbw, hbc⟩ := hB.shape b hbm
  have hin := hfree.1.2
  simp only at hin
  -- the bin with the item
  generalize hb' : ({ b with items := b.items ++ [(id, d)] } : Bin) = b'
  have hb'i : b'.items = b.items ++ [(id, d)] := by rw [← hb']
  have hload : b'.load = b.load + d.l := by
    simp [Bin.load, hb'i]
  have heven : Even w (l1 ++ b' :: l2) := by
    intro c hc q hq
    rcases List.mem_append.1 hc with h | h
    · exact hB.even c (by rw [he]; simp [h]) q hq
    · rcases List.mem_cons.1 h with h | h
      · subst h
        rw [hb'i] at hq
        rcases List.mem_append.1 hq with h | h
        · exact hB.even b hbm q h
        · rw [List.mem_singleton] at h; subst h; exact ⟨hdw, hdl⟩
      · exact hB.even c (by rw [he]; simp [h]) q hq
  have htail : ∀ x, standing w x l2 = [] := fun x => standing_empty w l2 x h2
  have hlay : f1.layout = standing w 0 (l1 ++ b' :: l2) := by
    rw [hl, hB.layout, he]
    simp only [standing_append, standing, htail, List.append_nil, hb'i, pileAt_append, pileAt, Nat.zero_add, List.append_assoc]
    rw [hdw]
    rfl
  have hB1 : CBase S w id0 items0 f1 (l1 ++ b' :: l2) := by
    refine ⟨?_, ?_, heven, ?_, hlay, ?_, ?_, ?_⟩
    · rw [← hB.len, he]; simp
    · intro c hc
      rcases List.mem_append.1 hc with h | h
      · exact hB.shape c (by rw [he]; simp [h])
      · rcases List.mem_cons.1 h with h | h
        · subst h; rw [← hb']; exact ⟨hbi, hbw, hbc⟩
        · exact hB.shape c (by rw [he]; simp [h])
    · intro c hc
      rcases List.mem_append.1 hc with h | h
      · exact hB.low c (by rw [he]; simp [h])
      · rcases List.mem_cons.1 h with h | h
        · subst h; rw [hload]; exact hin
        · exact hB.low c (by rw [he]; simp [h])
    · refine List.Sublist.trans ?_ hB.sub
      rw [hrest, hit]
      exact (List.Sublist.refl pre).append (List.sublist_cons_self _ _)
    · refine List.Perm.trans ?_ hB.perm
      have h0 : l2.flatMap (·.items) = [] := by
        rw [List.flatMap_eq_nil_iff]; exact h2
      rw [he, hrest, hit]
      simp only [List.flatMap_append, List.flatMap_cons, h0, List.append_nil, hb'i, List.append_assoc]
      refine List.Perm.append_left _ (List.Perm.append_left _ ?_)
      exact (List.perm_middle (a := (id, d)) (l₁ := pre) (l₂ := post)).symm
    · intro bs
      rw [hB.ff bs, he, hit, hrest, List.append_assoc, List.append_assoc, List.cons_append, List.cons_append]
      have hcl : ∀ R : List (String × Dim), (∀ q ∈ R, q ∈ f.items) → ∀ c ∈ l1, ∀ q ∈ R, ¬ c.Takes q.2 := by
        intro R hR c hc q hq ht
        have h1 := hs c hc q (hR q hq)
        have h2 := ht.2
        rw [(hB.shape c (by rw [he]; simp [hc])).2.2] at h2
        omega
      rw [firstFit_closed l1 _ _ (hcl _ (by rw [hit]; exact fun q hq => hq)),
        firstFit_closed l1 _ _ (hcl _ (by
          intro q hq
          rw [hit]
          rcases List.mem_append.1 hq with h | h
          · simp [h]
          · simp [h])), ← hb']
      congr 1
      refine firstFit_put b _ (id, d) pre post ?_ ?_
      · intro q hq ht
        have hqm : q ∈ f.items := by rw [hit]; simp [hq]
        have h2 := ht.2
        rw [hbc] at h2
        exact hpre q hq (room_yes hw hB hO he hqm h2)
      · exact ⟨by rw [hbw, hdw], by rw [hbc]; exact hin⟩
  refine ⟨_, hB1, ?_⟩
  have hsub : ∀ q ∈ f1.items, q ∈ f.items := by
    intro q hq
    rw [hrest] at hq
    rw [hit]
    rcases List.mem_append.1 hq with h | h
    · simp [h]
    · simp [h]
  have hs1 : ∀ c ∈ l1, Shut S.L f1.items c := fun c hc q hq => hs c hc q (hsub q hq)
  have hb'ne : b'.items ≠ [] := by rw [hb'i]; simp
  -- covered cells
  have hrects : f1.rects = (standing w 0 (l1 ++ b' :: l2)).map (·.2) := by unfold Filling.rects; rw [hlay]
  have own : ∀ {x y}, l1.length * w ≤ x → x < l1.length * w + w → (Covered f1.rects x y ↔ y < b.load + d.l) := by
    intro x y h1 h2
    rw [hrects, column_covered heven h1 h2, hload]
  have right : ∀ {x y}, l1.length * w + w ≤ x → ¬ Covered f1.rects x y := by
    intro x y hx
    have e : f1.rects = (standing w 0 (l1 ++ [b'])).map (·.2) := by
      rw [hrects]
      simp only [standing_append, standing, htail, List.append_nil]
    rw [e]
    refine beyond_covered (fun c hc => heven c (by
      rcases List.mem_append.1 hc with h | h
      · simp [h]
      · rw [List.mem_singleton] at h; simp [h])) ?_
    simp only [List.length_append, List.length_singleton, Nat.add_mul, Nat.one_mul]
    exact hx
  -- points of class B
  have hBnew : f1.pending .B = foot S.W w (l1.length + 1) := by
    obtain ⟨new, e1, hnew⟩ := hp .B
    rw [e1, hBp]
    by_cases hbe : b.items = []
    · rw [if_pos hbe, List.nil_append]
      have hl0 : b.load = 0 := by simp [Bin.load, hbe]
      unfold foot
      split
      · rename_i hlt
        refine lists_one hnew ⟨?_, ⟨?_, ?_⟩, .inl hl0⟩ ?_
        · simp only [hl0, Nat.add_mul, Nat.one_mul]
        · simp only; rw [Nat.add_mul, Nat.one_mul] at hlt; exact hlt
        · exact right (Nat.le_refl _)
        · rintro p ⟨rfl, _⟩
          simp only [hl0, Nat.add_mul, Nat.one_mul]
      · rename_i hge
        refine lists_nil hnew ?_
        rintro p ⟨_, ⟨h1, _⟩, _⟩
        simp only at h1
        rw [Nat.add_mul, Nat.one_mul] at hge
        exact hge h1
    · rw [if_neg hbe]
      have hl0 : 0 < b.load := by
        cases hbl : b.items with
        | nil => exact absurd hbl hbe
        | cons q l =>
          have := (hB.even b hbm q (by rw [hbl]; simp)).2
          simp only [Bin.load, hbl, List.map_cons, List.sum_cons]
          omega
      have : new = [] := by
        refine lists_nil hnew ?_
        rintro p ⟨_, _, h | h⟩
        · simp only at h; omega
        · exact right (Nat.le_refl _) h
      rw [this, List.append_nil]
  -- points of other classes
  have hslide : ∀ p, SlidesLeft S.L f1.rects ⟨l1.length * w, b.load, w, d.l⟩ p → InFirst w l1.length p := by
    rintro p ⟨_, _, h3, h4, _, h6⟩
    simp only at h3 h4
    by_cases h0 : p.x = 0
    · refine ⟨0, ?_, by rw [h0]; simp⟩
      rcases Nat.eq_zero_or_pos l1.length with e | e
      · rw [e] at h3; simp at h3
      · exact e
    · rw [if_neg h0, hrects, standing_covered w _ 0 _ _ heven] at h6
      obtain ⟨a1, c, a2, ha, h7, h8, h9⟩ := h6
      rw [Nat.zero_add] at h7 h8
      have hpx : ¬ p.x < a1.length * w + w := by
        intro hlt
        refine h4 p.x (Nat.le_refl _) h3 ?_
        rw [hrects, standing_covered w _ 0 _ _ heven]
        exact ⟨a1, c, a2, ha, by omega, by omega, h9⟩
      refine ⟨a1.length + 1, ?_, by rw [Nat.add_mul, Nat.one_mul]; omega⟩
      have h10 : (a1.length + 1) * w < l1.length * w := by rw [Nat.add_mul, Nat.one_mul]; omega
      exact Nat.lt_of_mul_lt_mul_right h10
  have hothnew : ∀ c, c ≠ .A → c ≠ .A__ → c ≠ .B → c ≠ .B__ → ∀ p, 
      Spawns S.ar.ratioLe S.W S.L f1.rects ⟨l1.length * w, b.load, w, d.l⟩ c p → InFirst w l1.length p := by
    have hdown : ∀ p, ¬ SlidesDown S.W f1.rects ⟨l1.length * w, b.load, w, d.l⟩ p := by
      rintro p ⟨h1, _, h3, h4, _⟩
      simp only at h1 h3 h4
      refine (h4 p.y (Nat.le_refl _) h3).2 ?_
      rw [own (by omega) (by omega)]
      omega
    intro c c1 c2 c3 c4 p hsp
    cases c with
    | A => exact absurd rfl c1
    | A__ => exact absurd rfl c2
    | B => exact absurd rfl c3
    | B__ => exact absurd rfl c4
    | A_ => exact hslide p hsp.1
    | E => exact hslide p hsp.1
    | B_ => exact absurd hsp.1 (hdown p)
    | F => exact absurd hsp.1 (hdown p)
    | C =>
      obtain ⟨h1, _, h3, h4, _, h6⟩ := hsp
      simp only at h1 h3 h4
      rw [own (by omega) (by omega)] at h6
      omega
    | D =>
      obtain ⟨h1, _, h3, h4, _, h6⟩ := hsp
      simp only at h1
      exact absurd h6 (right (by omega))
  obtain ⟨newA, eA, hnewA⟩ := hp .A
  obtain ⟨newA2, eA2, hnewA2⟩ := hp .A__
  rw [hA, List.nil_append] at eA
  have hothers : ∀ k, (∀ p ∈ newA2, InFirst w k p) → l1.length ≤ k → OthersIn w k f1 := by
    intro k hk hle c c1 c2 c3 p hpm
    have up : InFirst w l1.length p → InFirst w k p := fun ⟨j, h1, h2⟩ => ⟨j, by omega, h2⟩
    by_cases hc : c = .A__
    · subst hc
      rw [eA2] at hpm
      rcases List.mem_append.1 hpm with h | h
      · exact up (hoth _ c1 c2 c3 p h)
      · exact hk p h
    · obtain ⟨new, e1, hnew⟩ := hp c
      rw [e1] at hpm
      rcases List.mem_append.1 hpm with h | h
      · exact up (hoth _ c1 c2 c3 p h)
      · exact up (hothnew c c1 hc c2 c3 p ((hnew.1 p).1 h))
  have hnotop : ¬ Covered f1.rects (l1.length * w) (b.load + d.l) := by
    rw [own (Nat.le_refl _) (by omega)]
    omega
  by_cases hcond : b.load + d.l < S.L ∧ (l1.length * w = 0 ∨ Covered f1.rects (l1.length * w - 1) (b.load + d.l))
  · refine .goes l1 b' l2 rfl h2 hb'ne hs1 ?_ hBnew (hothers _ ?_ (Nat.le_refl _))
    · rw [eA, hload]
      refine lists_one hnewA ⟨rfl, ⟨hcond.1, hnotop⟩, hcond.2⟩ ?_
      rintro p ⟨rfl, _⟩
      rfl
    · intro p hpm
      obtain ⟨_, _, hno⟩ := (hnewA2.1 p).1 hpm
      exact absurd hcond.2 hno
  · have hAe : f1.pending .A = [] := by
      rw [eA]
      refine lists_nil hnewA ?_
      rintro p ⟨_, ⟨h1, _⟩, h3⟩
      exact hcond ⟨h1, h3⟩
    refine pool_closed hw hB1 rfl h2 hs1 ?_ hAe (fun _ => hBnew) (hothers _ ?_ (Nat.le_succ _))
    · intro q hq
      have hql := (hO q (hsub q hq)).2.1
      rw [hload]
      by_cases h1 : b.load + d.l < S.L
      · have h3 : ¬ (l1.length * w = 0 ∨ Covered f1.rects (l1.length * w - 1) (b.load + d.l)) := fun h => hcond ⟨h1, h⟩
        rw [not_or] at h3
        rcases List.eq_nil_or_concat l1 with hnil | ⟨l0, c, hcat⟩
        · rw [hnil] at h3; exact absurd (by simp) h3.1
        · rw [List.concat_eq_append] at hcat
          have hlen : l1.length = l0.length + 1 := by rw [hcat]; simp
          have h4 := h3.2
          have hpos : w ≤ l1.length * w := by rw [hlen, Nat.add_mul, Nat.one_mul]; omega
          have hcov : (Covered f1.rects (l1.length * w - 1) (b.load + d.l) ↔ b.load + d.l < c.load) := by
            rw [hrects]
            have heq : l1 ++ b' :: l2 = l0 ++ c :: (b' :: l2) := by rw [hcat]; simp
            rw [heq]
            refine column_covered (heq ▸ heven) ?_ ?_ <;> rw [hlen, Nat.add_mul, Nat.one_mul] <;> omega
          rw [hcov] at h4
          have := hs1 c (by rw [hcat]; simp) q hq
          omega
      · omega
    · intro p hpm
      obtain ⟨rfl, _⟩ := (hnewA2.1 p).1 hpm
      exact ⟨l1.length, by omega, rfl⟩

/-- handling a point -/
theorem handles_step (hw : 0 < w) (hO0 : OneW S w items0) (hB : CBase S w id0 items0 f cols) {pt : Pt}
    (hR : Ready S w f cols (some pt)) {f1 : Filling} (hh : Handles S f pt f1) :
    ∃ cols', CBase S w id0 items0 f1 cols' ∧ Pool S w f1 cols' := by
  have hO : OneW S w f.items := fun q hq => hO0 q (hB.sub.subset hq)
  -- an item is placed at a point only if it can be added there
  have hplaced : ∀ {pt : Pt} {id r rest}, FirstFit S f pt id r rest →
      ∃ q ∈ f.items, CanAdd S.W S.L S.rotation f.rects q.2 pt.x pt.y := by
    rintro pt id r rest ⟨pre, d, post, hit, _, _, hfree, hr⟩
    refine ⟨(id, d), by rw [hit]; simp, ?_⟩
    rcases hr with rfl | ⟨hrot, rfl, _⟩
    · exact .inl hfree
    · exact .inr ⟨hrot, hfree⟩
  have hdead : (∀ q ∈ f.items, ¬ CanAdd S.W S.L S.rotation f.rects q.2 pt.x pt.y) → f1 = f := by
    intro hno
    rcases hh with ⟨rfl, _⟩ | ⟨id, r, hf, _⟩
    · rfl
    · obtain ⟨q, hq, hc⟩ := hplaced hf
      exact absurd hc (hno q hq)
  generalize hcur : some pt = cur at hR
  cases hR with
  | done _ h =>
    rw [hdead (fun q hq => done_no hw hB hO h hq)]
    exact ⟨cols, hB, .done h⟩
  | dead p l1 l2 he hs hin hP =>
    injection hcur with hcur
    subst hcur
    have : f1 = f := by
      refine hdead fun q hq => ?_
      obtain ⟨j, hj, hx⟩ := hin
      have hsplit : l1 = l1.take j ++ l1[j] :: l1.drop (j + 1) := by
        rw [List.getElem_cons_drop, List.take_append_drop]
      have hlen : (l1.take j).length = j := by rw [List.length_take]; omega
      refine shut_no hw hB hO (l1 := l1.take j) (b := l1[j]) (l2 := l1.drop (j + 1) ++ l2) ?_ (hs _ (List.getElem_mem _))
        ?_ ?_ hq
      · rw [he, ← List.cons_append, ← List.append_assoc, List.getElem_cons_drop, List.take_append_drop]
      · rw [hlen, hx]
      · rw [hlen, hx]; omega
    rw [this]
    exact ⟨cols, hB, hP⟩
  | top l1 b l2 he h2 hs hA hBp hoth =>
    injection hcur with hcur
    subst hcur
    rcases hh with ⟨rfl, hno⟩ | ⟨id, r, hf, hl, hp⟩
    · refine ⟨cols, hB, pool_closed hw hB he h2 hs ?_ hA ?_ ?_⟩
      · intro q hq
        by_contra hle
        exact hno q hq (room_yes hw hB hO he hq (by omega))
      · intro hne; rw [hBp, if_neg hne]
      · intro c c1 c2 c3 p hpm
        obtain ⟨j, h1, h2⟩ := hoth c c1 c2 c3 p hpm
        exact ⟨j, by omega, h2⟩
    · exact put_top hw hB hO he h2 hs hA hBp hoth hf hl hp

/-- the container is reported as full only if no column has room -/
theorem full_shut (hw : 0 < w) (har : S.strip = true ∨ S.ar = Arith.exact) (hW : 0 < S.W) (hL : 0 < S.L)
    (hO0 : OneW S w items0) (hB : CBase S w id0 items0 f cols) (hf : S.full f.rects) : ∀ b ∈ cols, Shut S.L f.items b := by
  obtain ⟨hst, hge⟩ := hf
  have hex := har.resolve_left (by rw [hst]; decide)
  have hfold : ∀ (rs : List Rect) (v : Rat),
      rs.foldl (fun v r => S.ar.add v (S.ar.div (r.w * r.l) (S.W * S.L))) v =
        v + ((totalArea rs : Nat) : Rat) / ((S.W * S.L : Nat) : Rat) := by
    intro rs
    rw [hex]
    induction rs with
    | nil => intro v; simp [totalArea]
    | cons r rs ih =>
      intro v
      rw [List.foldl_cons, ih]
      simp only [Arith.exact, totalArea, List.map_cons, List.sum_cons, area]
      rw [Nat.cast_add, add_div, add_assoc]
  rw [hfold, zero_add] at hge
  have hpos : (0 : Rat) < ((S.W * S.L : Nat) : Rat) := by exact_mod_cast Nat.mul_pos hW hL
  rw [le_div_iff₀ hpos, one_mul] at hge
  have harea : S.W * S.L ≤ totalArea f.rects := by exact_mod_cast hge
  unfold Filling.rects at harea
  rw [hB.layout, standing_area w cols 0 hB.even] at harea
  intro b hb q hq
  have hql := (hO0 q (hB.sub.subset hq)).2.1
  by_contra hle
  have hlt : b.load < S.L := by omega
  have hsum : ∀ l : List Bin, (∀ c ∈ l, c.load ≤ S.L) → (l.map Bin.load).sum ≤ l.length * S.L := by
    intro l
    induction l with
    | nil => intro _; simp
    | cons c l ih =>
      intro h
      have h1 := ih (fun c hc => h c (by simp [hc]))
      have h2 := h c (by simp)
      simp only [List.map_cons, List.sum_cons, List.length_cons, Nat.add_mul, Nat.one_mul]
      omega
  obtain ⟨l1, l2, he⟩ := List.append_of_mem hb
  have h1 := hsum l1 (fun c hc => hB.low c (by rw [he]; simp [hc]))
  have h2 := hsum l2 (fun c hc => hB.low c (by rw [he]; simp [hc]))
  have h3 : (cols.map Bin.load).sum < cols.length * S.L := by
    rw [he]
    simp only [List.map_append, List.map_cons, List.sum_append, List.sum_cons, List.length_append, List.length_cons,
      Nat.add_mul, Nat.one_mul]
    omega
  have h4 := Nat.mul_lt_mul_of_pos_left h3 hw
  have h5 := Nat.mul_div_le S.W w
  have h6 : w * (cols.length * S.L) ≤ S.W * S.L := by
    rw [hB.len, ← Nat.mul_assoc]
    exact Nat.mul_le_mul_right _ h5
  omega

/-- filling from a state to the end -/
theorem fills_columns (hw : 0 < w) (har : S.strip = true ∨ S.ar = Arith.exact) (hW : 0 < S.W) (hL : 0 < S.L)
    (hst : ColumnOrder S.strategy) (hO0 : OneW S w items0) {cur : Option Pt} {f final : Filling} (h : Fills S cur f final) :
    ∀ {cols : List Bin}, CBase S w id0 items0 f cols → Ready S w f cols cur →
      ∃ cols', CBase S w id0 items0 final cols' ∧ ∀ b ∈ cols', Shut S.L final.items b := by
  induction h with
  | @stop cur f hstop =>
    intro cols hB hR
    rcases hstop with hn | hn | hn
    · subst hn
      cases hR with
      | done _ h => exact ⟨cols, hB, h⟩
    · refine ⟨cols, hB, ?_⟩
      intro b _ q hq
      rw [hn] at hq
      simp at hq
    · exact ⟨cols, hB, full_shut hw har hW hL hO0 hB hn⟩
  | @round pt f f1 f2 next final hne hnf hh ht hl hi hfl ih =>
    intro cols hB hR
    obtain ⟨cols1, hB1, hP1⟩ := handles_step hw hO0 hB hR hh
    refine ih (cols := cols1) ?_ (pool_takes hst hP1 ht hi)
    exact ⟨hB1.len, hB1.shape, hB1.even, hB1.low, by rw [hl]; exact hB1.layout, by rw [hi]; exact hB1.sub,
      by rw [hi]; exact hB1.perm,       by rw [hi]; exact hB1.ff⟩

/-- filling one container -/
theorem container_columns (hw : 0 < w) (har : S.strip = true ∨ S.ar = Arith.exact) (hW : 0 < S.W) (hL : 0 < S.L)
    (hst : ColumnOrder S.strategy) (hO0 : OneW S w items0) {m : List (String × Rect)} {left : List (String × Dim)}
    (h : FillsContainer S items0 m left) (id0 : String) :
    ∃ cols : List Bin, cols.length = S.W / w ∧ m = standing w 0 cols ∧ left.Sublist items0 ∧
      (∀ bs, firstFit (List.replicate (S.W / w) ⟨id0, w, S.L, []⟩ ++ bs) items0 = cols ++ firstFit bs left) ∧
      (cols.flatMap (·.items) ++ left).Perm items0 ∧ ∀ b ∈ cols, Shut S.L left b := by
  obtain ⟨final, hf, rfl, rfl⟩ := h
  have hB0 : CBase S w id0 items0 ⟨[], items0, fun _ => []⟩ (List.replicate (S.W / w) ⟨id0, w, S.L, []⟩) := by
    refine ⟨by simp, ?_, ?_, ?_, ?_, List.Sublist.refl _, ?_, fun bs => rfl⟩
    · intro b hb; rw [(List.mem_replicate.1 hb).2]; exact ⟨rfl, rfl, rfl⟩
    · intro b hb q hq; rw [(List.mem_replicate.1 hb).2] at hq; simp at hq
    · intro b hb; rw [(List.mem_replicate.1 hb).2]; simp [Bin.load]
    · refine (standing_empty w _ 0 ?_).symm
      intro b hb; rw [(List.mem_replicate.1 hb).2]
    · have : (List.replicate (S.W / w) (⟨id0, w, S.L, []⟩ : Bin)).flatMap (·.items) = [] := by
        rw [List.flatMap_eq_nil_iff]; intro b hb; rw [(List.mem_replicate.1 hb).2]
      rw [this]; exact List.Perm.refl _
  have hR0 : Ready S w ⟨[], items0, fun _ => []⟩ (List.replicate (S.W / w) ⟨id0, w, S.L, []⟩) (some ⟨0, 0⟩) := by
    cases hn : S.W / w with
    | zero => exact .done _ (by simp)
    | succ n =>
      have key : Ready S w ⟨[], items0, fun _ => []⟩ (List.replicate (n + 1) ⟨id0, w, S.L, []⟩)
          (some ⟨([] : List Bin).length * w, Bin.load ⟨id0, w, S.L, []⟩⟩) := by
        refine .top [] ⟨id0, w, S.L, []⟩ (List.replicate n ⟨id0, w, S.L, []⟩) rfl ?_ (by simp) rfl (by simp) ?_
        · intro b hb; rw [(List.mem_replicate.1 hb).2]
        · intro c _ _ _ p hp; simp at hp
      simpa [Bin.load] using key
  obtain ⟨cols, hB, hs⟩ := fills_columns hw har hW hL hst hO0 hf hB0 hR0
  refine ⟨cols, hB.len, hB.layout, hB.sub, ?_, hB.perm, hs⟩
  intro bs
  rw [hB.ff bs]
  refine firstFit_closed cols bs _ ?_
  intro b hb q hq ht
  have h1 := hs b hb q hq
  have h2 := ht.2
  rw [(hB.shape b hb).2.2] at h2
  omega

end
end HP
