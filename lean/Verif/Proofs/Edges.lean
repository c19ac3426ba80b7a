import Verif.Proofs.Geometry
/-
Pending points lie on edges of placed items (or the walls), whether or not items overlap.
-/
namespace HP
open Spec

/-- a cell marked 1 lies strictly inside an item: its neighbours up, right and diagonally are occupied -/
structure Inner (g : Grid) : Prop where
  le3 : ∀ y x, cell g y x ≤ 3
  up : ∀ y x, cell g y x = 1 → cell g (y + 1) x ≠ 0
  right : ∀ y x, cell g y x = 1 → cell g y (x + 1) ≠ 0
  diag : ∀ y x, cell g y x = 1 → cell g (y + 1) (x + 1) ≠ 0

theorem in23_of {v : Nat} (h3 : v ≤ 3) (h0 : v ≠ 0) (h1 : v ≠ 1) : in23 v = true := by
  unfold in23
  have : v = 2 ∨ v = 3 := by omega
  rcases this with rfl | rfl <;> rfl

theorem Inner_empty (W L : Nat) : Inner (List.replicate L (List.replicate W 0)) where
  le3 := by intro y x; rw [cell_empty]; omega
  up := by intro y x h; rw [cell_empty] at h; omega
  right := by intro y x h; rw [cell_empty] at h; omega
  diag := by intro y x h; rw [cell_empty] at h; omega

theorem markOf_one {X Y w l j i : Nat} (hi : X ≤ i ∧ i < X + w) (hj : Y ≤ j ∧ j < Y + l)
    (h : markOf X Y w l j i = 1) : i + 1 < X + w ∧ j + 1 < Y + l := by
  unfold markOf at h
  split at h
  · omega
  · split at h
    · omega
    · omega

theorem markOf_le (X Y w l j i : Nat) : markOf X Y w l j i ≤ 3 := by
  unfold markOf
  split
  · omega
  · split <;> omega

theorem Inner_fill {g g' : Grid} {X Y w l : Nat} (h : Inner g)
    (hc : ∀ j i, cell g' j i =
        if (X ≤ i ∧ i < X + w) ∧ (Y ≤ j ∧ j < Y + l) then markOf X Y w l j i else cell g j i) :
    Inner g' := by
  have hne : ∀ j i, (((X ≤ i ∧ i < X + w) ∧ (Y ≤ j ∧ j < Y + l)) ∨ cell g j i ≠ 0) → cell g' j i ≠ 0 := by
    intro j i hh
    rw [hc]
    split
    · exact markOf_ne_zero _ _ _ _ _ _
    · rename_i hno
      exact hh.resolve_left hno
  have key : ∀ j i, cell g' j i = 1 →
      cell g' (j + 1) i ≠ 0 ∧ cell g' j (i + 1) ≠ 0 ∧ cell g' (j + 1) (i + 1) ≠ 0 := by
    intro j i h1
    rw [hc] at h1
    split at h1
    · rename_i hin
      have := markOf_one hin.1 hin.2 h1
      exact ⟨hne _ _ (Or.inl (by omega)), hne _ _ (Or.inl (by omega)), hne _ _ (Or.inl (by omega))⟩
    · exact ⟨hne _ _ (Or.inr (h.up _ _ h1)), hne _ _ (Or.inr (h.right _ _ h1)),
        hne _ _ (Or.inr (h.diag _ _ h1))⟩
  refine ⟨?_, fun j i h1 => (key j i h1).1, fun j i h1 => (key j i h1).2.1, fun j i h1 => (key j i h1).2.2⟩
  intro j i
  rw [hc]
  split
  · exact markOf_le _ _ _ _ _ _
  · exact h.le3 _ _

/-- the scan to the left stops in a free cell, at the wall or right of an occupied cell -/
theorem scanA_edge {g : Grid} {W L : Nat} (h : WF g W L) (hi : Inner g) {Ay : Nat} (hA : Ay < L)
    (hA0 : 0 < Ay) : ∀ n, n ≤ W → (cell g Ay n = 0 ∨ (0 < n ∧ cell g Ay (n - 1) = 0)) →
      ∀ xp, scanA g Ay n = .ok (some xp) →
        cell g Ay xp = 0 ∧ (xp = 0 ∨ (0 < xp ∧ cell g Ay (xp - 1) ≠ 0))
  | 0, _, _, xp, he => by simp [scanA] at he
  | x + 1, hn, hf, xp, he => by
    have ih := scanA_edge h hi hA hA0 x (by omega)
    have e : ((Ay : Int) - 1) = ((Ay - 1 : Nat) : Int) := by omega
    unfold scanA at he
    rw [e, rd_eq h hA (by omega), rd_eq h (by omega) (by omega)] at he
    simp only at he
    by_cases h0 : cell g Ay x = 0
    · split at he
      · rename_i hc
        injection he with he; injection he with he; subst he
        simp at hc
        exact ⟨h0, Or.inl hc.2⟩
      · split at he
        · exact ih (Or.inl h0) xp he
        · simp [h0, in23] at he
          exact ih (Or.inl h0) xp he
    · have hx1 : cell g Ay (x + 1) = 0 := by
        rcases hf with hf | ⟨_, hf⟩
        · exact hf
        · exact absurd hf h0
      have hup : in23 (cell g Ay x) = true :=
        in23_of (hi.le3 _ _) h0 (fun h1 => hi.right _ _ h1 hx1)
      have hdn1 : cell g (Ay - 1) x ≠ 1 := by
        intro h1
        have := hi.diag _ _ h1
        rw [show Ay - 1 + 1 = Ay by omega] at this
        exact this hx1
      have hz : (cell g Ay x == 0) = false := by simpa using h0
      have hdn : in23 (cell g (Ay - 1) x) = true ∨ cell g (Ay - 1) x = 0 := by
        by_cases hd0 : cell g (Ay - 1) x = 0
        · exact Or.inr hd0
        · exact Or.inl (in23_of (hi.le3 _ _) hd0 hdn1)
      simp only [hz, Bool.false_and, Bool.false_eq_true, if_false, hup, Bool.true_and] at he
      have : xp = x + 1 := by
        rcases hdn with hdn | hdn
        · rw [if_pos hdn] at he
          injection he with he; injection he with he; exact he.symm
        · simp [hdn, in23] at he
          exact he.symm
      subst this
      exact ⟨hx1, Or.inr ⟨by omega, h0⟩⟩

/-- the scan downwards stops in a free cell, at the bottom or above an occupied cell -/
theorem scanB_edge {g : Grid} {W L : Nat} (h : WF g W L) (hi : Inner g) {Bx : Nat} (hB : Bx < W)
    (hB0 : 0 < Bx) : ∀ n, n ≤ L → (cell g n Bx = 0 ∨ (0 < n ∧ cell g (n - 1) Bx = 0)) →
      ∀ yp, scanB g Bx n = .ok (some yp) →
        cell g yp Bx = 0 ∧ (yp = 0 ∨ (0 < yp ∧ cell g (yp - 1) Bx ≠ 0))
  | 0, _, _, yp, he => by simp [scanB] at he
  | y + 1, hn, hf, yp, he => by
    have ih := scanB_edge h hi hB hB0 y (by omega)
    have e : ((Bx : Int) - 1) = ((Bx - 1 : Nat) : Int) := by omega
    unfold scanB at he
    rw [e, rd_eq h (by omega) hB, rd_eq h (by omega) (by omega)] at he
    simp only at he
    by_cases h0 : cell g y Bx = 0
    · split at he
      · rename_i hc
        injection he with he; injection he with he; subst he
        simp at hc
        exact ⟨h0, Or.inl hc.2⟩
      · split at he
        · exact ih (Or.inl h0) yp he
        · simp [h0, in23] at he
          split at he
          · simp at he
          · exact ih (Or.inl h0) yp he
    · have hx1 : cell g (y + 1) Bx = 0 := by
        rcases hf with hf | ⟨_, hf⟩
        · exact hf
        · exact absurd hf h0
      have hup : in23 (cell g y Bx) = true :=
        in23_of (hi.le3 _ _) h0 (fun h1 => hi.up _ _ h1 hx1)
      have hdn1 : cell g y (Bx - 1) ≠ 1 := by
        intro h1
        have := hi.diag _ _ h1
        rw [show Bx - 1 + 1 = Bx by omega] at this
        exact this hx1
      have hz : (cell g y Bx == 0) = false := by simpa using h0
      have hdn : in23 (cell g y (Bx - 1)) = true ∨ cell g y (Bx - 1) = 0 := by
        by_cases hd0 : cell g y (Bx - 1) = 0
        · exact Or.inr hd0
        · exact Or.inl (in23_of (hi.le3 _ _) hd0 hdn1)
      simp only [hz, Bool.false_and, Bool.false_eq_true, if_false, hup, Bool.true_and] at he
      have : yp = y + 1 := by
        rcases hdn with hdn | hdn
        · rw [if_pos hdn] at he
          injection he with he; injection he with he; exact he.symm
        · simp [hdn, in23] at he
          exact he.symm
      subst this
      exact ⟨hx1, Or.inr ⟨by omega, h0⟩⟩

/-- coordinates of a point opened by the item at `(X, Y)` of size `w × l` -/
def EdgeOf (g : Grid) (X Y w l : Nat) (p : Pt) : Prop :=
  (p.x = 0 ∨ p.x = X ∨ p.x = X + w ∨ (0 < p.x ∧ cell g p.y (p.x - 1) ≠ 0 ∧ cell g p.y p.x = 0)) ∧
  (p.y = 0 ∨ p.y = Y ∨ p.y = Y + l ∨ (0 < p.y ∧ cell g (p.y - 1) p.x ≠ 0 ∧ cell g p.y p.x = 0))

theorem testP_true {a : Except PyErr Nat} {p : Nat → Bool} (h : testP a p = .ok true) :
    ∃ v, a = .ok v ∧ p v = true := by
  unfold testP at h
  cases a with
  | error e => simp at h
  | ok v => exact ⟨v, rfl, by simpa using h⟩

theorem genA_edge (A : Arith) {g : Grid} {W L : Nat} (h : WF g W L) (hi : Inner g) {X Y w l : Nat}
    (hl : 0 < l) (hX : X < W) {pts : GenPts} (he : genA A g W L X Y l = .ok pts) :
    ∀ q ∈ pts, EdgeOf g X Y w l q.2 := by
  unfold genA at he
  simp only [bind, Except.bind] at he
  split at he
  · simp at he
  rename_i aG ha
  split at he
  · simp at he
  rename_i nA hn
  split at he
  · simp at he
  rename_i pr hp
  split at he
  · simp at he
  rename_i sc hs
  split at he
  · simp at he
  rename_i xp hx
  simp only [pure, Except.pure] at he
  injection he with he
  subst he
  intro q hq
  simp only [List.mem_append] at hq
  have hA : EdgeOf g X Y w l ⟨X, Y + l⟩ := ⟨Or.inr (Or.inl rfl), Or.inr (Or.inr (Or.inl rfl))⟩
  rcases hq with (hq | hq) | hq
  · split at hq
    · simp at hq; subst hq; exact hA
    · simp at hq
  · cases xp with
    | none => simp [pointAE] at hq
    | some x =>
      have hx' : sc = true ∧ scanA g (Y + l) X = .ok (some x) := by
        cases sc with
        | true => exact ⟨rfl, by simpa using hx⟩
        | false => simp at hx
      obtain ⟨rfl, hscan⟩ := hx'
      have h1 := andP_eq_true hs
      have h2 := andP_eq_true h1.2
      have h3 := andP_eq_true (andP_eq_true (andP_eq_true h2.2).2).2
      have hAL : Y + l < L := by simpa using h1.1
      have hX0 : 0 < X := by simpa using h2.1
      obtain ⟨v, hv, hv0⟩ := testP_true h3.2
      have e : ((X : Int) - 1) = ((X - 1 : Nat) : Int) := by omega
      rw [e, rd_eq h hAL (by omega)] at hv
      injection hv with hv
      have hv' : cell g (Y + l) (X - 1) = 0 := by rw [hv]; simpa using hv0
      have := scanA_edge h hi hAL (by omega) X (by omega) (Or.inr ⟨hX0, hv'⟩) x hscan
      have hq2 : q.2 = ⟨x, Y + l⟩ := by
        simp only [pointAE] at hq
        split at hq <;> (simp at hq; subst hq; rfl)
      rw [hq2]
      refine ⟨?_, Or.inr (Or.inr (Or.inl rfl))⟩
      rcases this.2 with h0 | ⟨h0, h0'⟩
      · exact Or.inl h0
      · exact Or.inr (Or.inr (Or.inr ⟨h0, h0', this.1⟩))
  · split at hq
    · simp at hq; subst hq; exact hA
    · simp at hq

theorem genB_edge (A : Arith) {g : Grid} {W L : Nat} (h : WF g W L) (hi : Inner g) {X Y w l : Nat}
    (hw : 0 < w) (hY : Y < L) {pts : GenPts} (he : genB A g W L X Y w = .ok pts) :
    ∀ q ∈ pts, EdgeOf g X Y w l q.2 := by
  unfold genB at he
  simp only [bind, Except.bind] at he
  split at he
  · simp at he
  rename_i aG ha
  split at he
  · simp at he
  rename_i nA hn
  split at he
  · simp at he
  rename_i pr hp
  split at he
  · simp at he
  rename_i sc hs
  split at he
  · simp at he
  rename_i xp hx
  simp only [pure, Except.pure] at he
  injection he with he
  subst he
  intro q hq
  simp only [List.mem_append] at hq
  have hA : EdgeOf g X Y w l ⟨X + w, Y⟩ := ⟨Or.inr (Or.inr (Or.inl rfl)), Or.inr (Or.inl rfl)⟩
  rcases hq with (hq | hq) | hq
  · split at hq
    · simp at hq; subst hq; exact hA
    · simp at hq
  · cases xp with
    | none => simp [pointBF] at hq
    | some y =>
      have hx' : sc = true ∧ scanB g (X + w) Y = .ok (some y) := by
        cases sc with
        | true => exact ⟨rfl, by simpa using hx⟩
        | false => simp at hx
      obtain ⟨rfl, hscan⟩ := hx'
      have h1 := andP_eq_true hs
      have h2 := andP_eq_true h1.2
      have h3 := andP_eq_true (andP_eq_true (andP_eq_true h2.2).2).2
      have hBW : X + w < W := by simpa using h1.1
      have hY0 : 0 < Y := by simpa using h2.1
      obtain ⟨v, hv, hv0⟩ := testP_true h3.2
      have e : ((Y : Int) - 1) = ((Y - 1 : Nat) : Int) := by omega
      rw [e, rd_eq h (by omega) hBW] at hv
      injection hv with hv
      have hv' : cell g (Y - 1) (X + w) = 0 := by rw [hv]; simpa using hv0
      have := scanB_edge h hi hBW (by omega) Y (by omega) (Or.inr ⟨hY0, hv'⟩) y hscan
      have hq2 : q.2 = ⟨X + w, y⟩ := by
        simp only [pointBF] at hq
        split at hq <;> (simp at hq; subst hq; rfl)
      rw [hq2]
      refine ⟨Or.inr (Or.inr (Or.inl rfl)), ?_⟩
      rcases this.2 with h0 | ⟨h0, h0'⟩
      · exact Or.inl h0
      · exact Or.inr (Or.inr (Or.inr ⟨h0, h0', this.1⟩))
  · split at hq
    · simp at hq; subst hq; exact hA
    · simp at hq

theorem scanC_edge {g : Grid} {W L : Nat} (h : WF g W L) {X Y w l : Nat} (hA : Y + l < L) :
    ∀ (xs : List Nat), (∀ x ∈ xs, x + 1 < W) → ∀ pts, scanC g (Y + l) xs = .ok pts →
      ∀ q ∈ pts, EdgeOf g X Y w l q.2
  | [], _, pts, he, q, hq => by
    simp [scanC] at he; subst he; simp at hq
  | x :: xs, hx, pts, he, q, hq => by
    unfold scanC at he
    simp only [bind, Except.bind] at he
    split at he
    · simp at he
    rename_i hit hhit
    split at he
    · simp at he
    rename_i rest hrest
    simp only [pure, Except.pure] at he
    injection he with he
    subst he
    rcases List.mem_append.1 hq with hq1 | hq
    · clear hq
      split at hq1
      · rename_i hc
        subst hc
        have hq1 := List.mem_singleton.1 hq1
        subst hq1
        obtain ⟨h1, h2⟩ := andP_eq_true hhit
        obtain ⟨v1, hv1, hp1⟩ := testP_true h1
        obtain ⟨v2, hv2, hp2⟩ := testP_true h2
        have := hx x (by simp)
        rw [rd_eq h hA (by omega)] at hv1
        rw [show ((x : Int) + 1) = ((x + 1 : Nat) : Int) by omega, rd_eq h hA (by omega)] at hv2
        injection hv1 with hv1; injection hv2 with hv2
        refine ⟨Or.inr (Or.inr (Or.inr ⟨by simp, ?_, ?_⟩)), Or.inr (Or.inr (Or.inl rfl))⟩
        · simp only [Nat.add_sub_cancel]
          rw [hv1]; intro h0; subst h0; simp at hp1
        · simp only; rw [hv2]; simpa using hp2
      · simp at hq1
    · exact scanC_edge h hA xs (fun z hz => hx z (by simp [hz])) rest hrest q hq

theorem scanD_edge {g : Grid} {W L : Nat} (h : WF g W L) {X Y w l : Nat} (hB : X + w < W) :
    ∀ (ys : List Nat), (∀ y ∈ ys, y + 1 < L) → ∀ pts, scanD g (X + w) ys = .ok pts →
      ∀ q ∈ pts, EdgeOf g X Y w l q.2
  | [], _, pts, he, q, hq => by
    simp [scanD] at he; subst he; simp at hq
  | y :: ys, hy, pts, he, q, hq => by
    unfold scanD at he
    simp only [bind, Except.bind] at he
    split at he
    · simp at he
    rename_i hit hhit
    split at he
    · simp at he
    rename_i rest hrest
    simp only [pure, Except.pure] at he
    injection he with he
    subst he
    rcases List.mem_append.1 hq with hq1 | hq
    · clear hq
      split at hq1
      · rename_i hc
        subst hc
        have hq1 := List.mem_singleton.1 hq1
        subst hq1
        obtain ⟨h1, h2⟩ := andP_eq_true hhit
        obtain ⟨v1, hv1, hp1⟩ := testP_true h1
        obtain ⟨v2, hv2, hp2⟩ := testP_true h2
        have := hy y (by simp)
        rw [rd_eq h (by omega) hB] at hv1
        rw [show ((y : Int) + 1) = ((y + 1 : Nat) : Int) by omega, rd_eq h (by omega) hB] at hv2
        injection hv1 with hv1; injection hv2 with hv2
        refine ⟨Or.inr (Or.inr (Or.inl rfl)), Or.inr (Or.inr (Or.inr ⟨by simp, ?_, ?_⟩))⟩
        · simp only [Nat.add_sub_cancel]
          rw [hv1]; intro h0; subst h0; simp at hp1
        · simp only; rw [hv2]; simpa using hp2
      · simp at hq1
    · exact scanD_edge h hB ys (fun z hz => hy z (by simp [hz])) rest hrest q hq

theorem generatePoints_edge (A : Arith) {g : Grid} {W L : Nat} (h : WF g W L) (hi : Inner g)
    {X Y w l : Nat} (hw : 0 < w) (hl : 0 < l) (hX : X + w ≤ W) (hY : Y + l ≤ L) {gen : GenPts}
    (he : generatePoints A g W L X Y w l = .ok gen) : ∀ q ∈ gen, EdgeOf g X Y w l q.2 := by
  unfold generatePoints at he
  simp only [bind, Except.bind] at he
  split at he
  · simp at he
  rename_i a ha
  split at he
  · simp at he
  rename_i b hb
  split at he
  · simp at he
  rename_i c hc
  split at he
  · simp at he
  rename_i d hd
  simp only [pure, Except.pure] at he
  injection he with he
  subst he
  intro q hq
  simp only [List.mem_append] at hq
  rcases hq with ((hq | hq) | hq) | hq
  · exact genA_edge A h hi hl (by omega) ha q hq
  · exact genB_edge A h hi hw (by omega) hb q hq
  · unfold genC at hc
    simp only at hc
    split at hc
    · rename_i hL
      exact scanC_edge h hL _ (by intro x hx; rw [List.mem_range'_1] at hx; omega) c hc q hq
    · injection hc with hc; subst hc; simp at hq
  · unfold genD at hd
    simp only at hd
    split at hd
    · rename_i hL
      exact scanD_edge h hL _ (by intro x hx; rw [List.mem_range'_1] at hx; omega) d hd q hq
    · injection hd with hd; subst hd; simp at hq

/-- coordinates are walls or far edges of the given items -/
def OnEdges (placed : List Placed) (x y : Nat) : Prop :=
  (x = 0 ∨ ∃ p ∈ placed, x = p.rect.x + p.rect.w) ∧ (y = 0 ∨ ∃ p ∈ placed, y = p.rect.y + p.rect.l)

theorem OnEdges.mono {a b : List Placed} {x y : Nat} (hs : ∀ p ∈ a, p ∈ b) (h : OnEdges a x y) :
    OnEdges b x y :=
  ⟨h.1.imp id (fun ⟨p, hp, e⟩ => ⟨p, hs p hp, e⟩), h.2.imp id (fun ⟨p, hp, e⟩ => ⟨p, hs p hp, e⟩)⟩

structure EInv (s : CState) : Prop where
  inner : Inner s.grid
  pools : ∀ c, ∀ pt ∈ s.pools.get c, OnEdges s.placed pt.x pt.y
  cur : ∀ pt, s.cur = some pt → OnEdges s.placed pt.x pt.y
  placed : ∀ pre p post, s.placed = pre ++ p :: post → OnEdges pre p.x p.y

theorem EInv_init (P : CParams) (items : PyDict String Dim) : EInv (constructInit P items) where
  inner := Inner_empty _ _
  pools := by intro c pt hp; cases c <;> simp [constructInit, Pools.get] at hp
  cur := by
    intro pt hp
    injection hp with hp; subst hp
    exact ⟨Or.inl rfl, Or.inl rfl⟩
  placed := by intro pre p post h; simp [constructInit] at h

theorem StepRel_EInv {P : CParams} {items0 : PyDict String Dim} {s s' : CState} {pt : Pt}
    (hI : I0 P s) (hc : s.cur = some pt) (hG : GInv P items0 s) (hE : EInv s)
    (h : StepRel P s pt s') : EInv s' := by
  obtain ⟨s1, h1, rfl⟩ := h
  have key : Inner s1.grid ∧ (∀ c, ∀ pt ∈ s1.pools.get c, OnEdges s1.placed pt.x pt.y) ∧
      (∀ pre p post, s1.placed = pre ++ p :: post → OnEdges pre p.x p.y) := by
    rcases h1 with ⟨rfl, _⟩ | ⟨id, d, ro, g, gen, pre, post, hd, hids, hpre, hchk, hro, hg, hgen, rfl⟩
    · exact ⟨hE.inner, hE.pools, hE.placed⟩
    have hdp := hI.pos _ (PyDict.find?_mem hd)
    have hw : 0 < effW d ro := by unfold effW; split; exact hdp.2; exact hdp.1
    have hl : 0 < effL d ro := by unfold effL; split; exact hdp.1; exact hdp.2
    obtain ⟨g', hg', hgwf, hgc⟩ := fillItem_eq hI.wf hw hl hchk.1 hchk.2.1
    rw [hg] at hg'; injection hg' with hg'; subst hg'
    have hin := Inner_fill hE.inner hgc
    have hcur := hE.cur pt hc
    -- occupied cells of the new grid belong to a placed item
    have hcov : ∀ y x, cell g y x ≠ 0 ↔
        ∃ p ∈ s.placed ++ [⟨id, d, pt.x, pt.y, ro⟩], Covers p.rect x y := by
      have := (afterPt_GInv hI (hI.supCur pt hc) hG (Or.inr ⟨id, d, ro, g, gen, pre, post, hd, hids,
        hpre, hchk, hro, hg, hgen, rfl⟩)).cov
      exact this
    refine ⟨hin, ?_, ?_⟩
    · intro c q hq
      rcases mem_pushAll hq with hq | hq
      · exact (hE.pools c q hq).mono (fun p hp => List.mem_append_left _ hp)
      · obtain ⟨ex, ey⟩ := generatePoints_edge P.ar hgwf hin hw hl hchk.1 hchk.2.1 hgen _ hq
        simp only at ex ey ⊢
        have hnew : (⟨id, d, pt.x, pt.y, ro⟩ : Placed) ∈ s.placed ++ [⟨id, d, pt.x, pt.y, ro⟩] := by simp
        have hmono := hcur.mono (b := s.placed ++ [⟨id, d, pt.x, pt.y, ro⟩])
          (fun p hp => List.mem_append_left _ hp)
        constructor
        · rcases ex with e | e | e | ⟨e0, e1, e2⟩
          · exact Or.inl e
          · rw [e]; exact hmono.1
          · exact Or.inr ⟨_, hnew, e⟩
          · obtain ⟨p, hp, hcp⟩ := (hcov _ _).1 e1
            refine Or.inr ⟨p, hp, ?_⟩
            refine Decidable.byContradiction fun hne => ?_
            exact (hcov _ _).2 ⟨p, hp, by unfold Covers at hcp ⊢; omega⟩ e2
        · rcases ey with e | e | e | ⟨e0, e1, e2⟩
          · exact Or.inl e
          · rw [e]; exact hmono.2
          · exact Or.inr ⟨_, hnew, e⟩
          · obtain ⟨p, hp, hcp⟩ := (hcov _ _).1 e1
            refine Or.inr ⟨p, hp, ?_⟩
            refine Decidable.byContradiction fun hne => ?_
            exact (hcov _ _).2 ⟨p, hp, by unfold Covers at hcp ⊢; omega⟩ e2
    · intro pre' p post' heq
      rcases List.append_eq_append_iff.1 heq with ⟨as, k1, k2⟩ | ⟨bs, k1, k2⟩
      · cases as with
        | nil =>
          simp at k2 k1
          obtain ⟨k2, _⟩ := k2
          subst k2
          rw [k1]; exact hcur
        | cons a as => simp at k2
      · cases bs with
        | nil =>
          simp at k2 k1
          obtain ⟨k2, _⟩ := k2
          subst k2
          rw [← k1]; exact hcur
        | cons b bs =>
          simp at k2
          obtain ⟨rfl, k2⟩ := k2
          exact hE.placed pre' p bs k1
  obtain ⟨k1, k2, k3⟩ := key
  rcases getCurrentPoint_spec P.strategy s1.pools with ⟨e, _⟩ | ⟨pre, c, post, q, rest, e1, e2, e3, e4⟩
  · refine ⟨k1, ?_, ?_, k3⟩
    · rw [e]; exact k2
    · rw [e]; intro q hq; simp at hq
  · refine ⟨k1, ?_, ?_, k3⟩
    · rw [e4]
      intro c' q' hq'
      by_cases hcc : c' = c
      · subst hcc
        simp only at hq'
        rw [Pools.get_set_self] at hq'
        exact k2 c' q' (by rw [e3]; exact List.mem_cons_of_mem _ hq')
      · simp only at hq'
        rw [Pools.get_set_ne _ _ hcc] at hq'
        exact k2 c' q' hq'
    · rw [e4]
      intro q' hq'
      injection hq' with hq'; subst hq'
      exact k2 c q (by rw [e3]; simp)

theorem Run_EInv {P : CParams} {items0 : PyDict String Dim} {s0 s : CState} {n : Nat}
    (h0 : EInv s0) (hG0 : GInv P items0 s0) (h : Run P s0 n s) : EInv s := by
  induction h with
  | refl => exact h0
  | step hr hI hA hS _ ih => exact StepRel_EInv hI hA.1 (Run_GInv hG0 hr) ih hS

/-- in the result of one construction every item stands on walls or far edges of items before it -/
theorem construct_edges {P : CParams} {items : PyDict String Dim} (hg : GoodItems items)
    (hW : 0 < P.W) (hL : 0 < P.L) {r : CResult} (h : construct P items = .ok r) :
    ∀ pre q post, r.solution = pre ++ q :: post →
      (q.2.x = 0 ∨ ∃ z ∈ pre, q.2.x = z.2.x + z.2.w) ∧ (q.2.y = 0 ∨ ∃ z ∈ pre, q.2.y = z.2.y + z.2.l) := by
  obtain ⟨n, s, hrun, hI, hD, hn, hc⟩ := construct_total (P := P) hg hW hL
  rw [h] at hc
  injection hc with hc
  subst hc
  have hE := Run_EInv (EInv_init P items) (GInv_init P items) hrun
  intro pre q post he
  simp only at he
  obtain ⟨l1, l2', e1, k1, k2⟩ := List.map_eq_append_iff.1 he
  obtain ⟨p, l2, e2, k3, k4⟩ := List.map_eq_cons_iff.1 k2
  obtain ⟨hx, hy⟩ := hE.placed l1 p l2 (by rw [e1, e2])
  subst k3
  constructor
  · refine hx.imp id ?_
    rintro ⟨z, hz, e⟩
    exact ⟨(z.id, z.rect), by rw [← k1]; exact List.mem_map.2 ⟨z, hz, rfl⟩, e⟩
  · refine hy.imp id ?_
    rintro ⟨z, hz, e⟩
    exact ⟨(z.id, z.rect), by rw [← k1]; exact List.mem_map.2 ⟨z, hz, rfl⟩, e⟩

end HP
