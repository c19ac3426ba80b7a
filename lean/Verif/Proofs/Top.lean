import Verif.Proofs.Solve
/-
The point above the stack: after every placement that raises the stack a point at the left wall
on the new height is opened, so an item that fits above the stack is never left over; and the
stack is never higher than the lengths of its items together.
-/
namespace HP
open Spec

/-! ### heights of the generated points -/

theorem genA_y {A : Arith} {g : Grid} {W L Xo Yo l : Nat} {pts : GenPts}
    (h : genA A g W L Xo Yo l = .ok pts) : ∀ q ∈ pts, q.2.y = Yo + l := by
  unfold genA at h
  simp only [bind, Except.bind] at h
  split at h; · cases h
  split at h; · cases h
  split at h; · cases h
  split at h; · cases h
  split at h; · cases h
  injection h with h
  subst h
  intro q hq
  simp only [List.mem_append] at hq
  rcases hq with (hq | hq) | hq
  · split at hq
    · simp at hq; subst hq; rfl
    · simp at hq
  · unfold pointAE at hq
    split at hq
    · simp at hq
    · split at hq <;> (simp at hq; subst hq; rfl)
  · split at hq
    · simp at hq; subst hq; rfl
    · simp at hq

theorem scanB_le {g : Grid} {Bx : Nat} : ∀ {n yp}, scanB g Bx n = .ok (some yp) → yp ≤ n
  | 0, _, h => by simp [scanB] at h
  | y + 1, yp, h => by
    unfold scanB at h
    split at h
    · split at h
      · injection h with h; injection h with h; omega
      · split at h
        · have := scanB_le h; omega
        · split at h
          · injection h with h; injection h with h; omega
          · split at h
            · injection h with h; injection h with h; omega
            · split at h
              · injection h with h; cases h
              · have := scanB_le h; omega
    · cases h
    · cases h

theorem genB_y {A : Arith} {g : Grid} {W L Xo Yo w : Nat} {pts : GenPts}
    (h : genB A g W L Xo Yo w = .ok pts) : ∀ q ∈ pts, q.2.y ≤ Yo := by
  unfold genB at h
  simp only [bind, Except.bind] at h
  split at h; · cases h
  split at h; · cases h
  split at h; · cases h
  split at h; · cases h
  split at h; · cases h
  rename_i v hy
  injection h with h
  subst h
  intro q hq
  simp only [List.mem_append] at hq
  rcases hq with (hq | hq) | hq
  · split at hq
    · simp at hq; subst hq; exact Nat.le_refl _
    · simp at hq
  · unfold pointBF at hq
    split at hq
    · simp at hq
    · rename_i yp
      have hle : yp ≤ Yo := by
        split at hy
        · exact scanB_le hy
        · cases hy
      split at hq <;> (simp at hq; subst hq; exact hle)
  · split at hq
    · simp at hq; subst hq; exact Nat.le_refl _
    · simp at hq

theorem scanC_y {g : Grid} {Ay : Nat} : ∀ {xs : List Nat} {pts : GenPts}, scanC g Ay xs = .ok pts →
    ∀ q ∈ pts, q.2.y = Ay
  | [], pts, h => by unfold scanC at h; injection h with h; subst h; simp
  | x :: xs, pts, h => by
    unfold scanC at h
    simp only [bind, Except.bind] at h
    split at h; · cases h
    split at h; · cases h
    rename_i rest hr
    injection h with h
    subst h
    intro q hq
    rcases List.mem_append.1 hq with hq | hq
    · split at hq
      · simp at hq; subst hq; rfl
      · simp at hq
    · exact scanC_y hr q hq

theorem scanD_y {g : Grid} {Bx : Nat} : ∀ {ys : List Nat} {pts : GenPts}, scanD g Bx ys = .ok pts →
    ∀ q ∈ pts, ∃ y ∈ ys, q.2.y = y + 1
  | [], pts, h => by unfold scanD at h; injection h with h; subst h; simp
  | y :: ys, pts, h => by
    unfold scanD at h
    simp only [bind, Except.bind] at h
    split at h; · cases h
    split at h; · cases h
    rename_i rest hr
    injection h with h
    subst h
    intro q hq
    rcases List.mem_append.1 hq with hq | hq
    · split at hq
      · simp at hq; subst hq; exact ⟨y, by simp, rfl⟩
      · simp at hq
    · obtain ⟨y', h1, h2⟩ := scanD_y hr q hq
      exact ⟨y', by simp [h1], h2⟩

/-- no generated point is above the item -/
theorem generatePoints_y {A : Arith} {g : Grid} {W L Xo Yo w l : Nat} {pts : GenPts}
    (h : generatePoints A g W L Xo Yo w l = .ok pts) : ∀ q ∈ pts, q.2.y ≤ Yo + l := by
  unfold generatePoints at h
  simp only [bind, Except.bind] at h
  split at h; · cases h
  rename_i a ha
  split at h; · cases h
  rename_i b hb
  split at h; · cases h
  rename_i c hc
  split at h; · cases h
  rename_i d hd
  injection h with h
  subst h
  intro q hq
  simp only [List.mem_append] at hq
  rcases hq with ((hq | hq) | hq) | hq
  · have := genA_y ha q hq; omega
  · have := genB_y hb q hq; omega
  · unfold genC at hc
    simp only at hc
    split at hc
    · have := scanC_y hc q hq; omega
    · injection hc with hc; subst hc; simp at hq
  · unfold genD at hd
    simp only at hd
    split at hd
    · obtain ⟨y, hy, e⟩ := scanD_y hd q hq
      rw [List.mem_range'_1] at hy
      omega
    · injection hd with hd; subst hd; simp at hq

/-! ### the point above the stack -/

theorem scanA_wall {g : Grid} {W L : Nat} (h : WF g W L) {Ay : Nat} (hA : Ay < L) (hA0 : 0 < Ay) :
    ∀ n, n + 1 ≤ W → (∀ x, x < n + 1 → cell g Ay x = 0 ∧ cell g (Ay - 1) x = 0) →
      scanA g Ay (n + 1) = .ok (some 0)
  | n, hn, hz => by
    have e : ((Ay : Int) - 1) = ((Ay - 1 : Nat) : Int) := by omega
    unfold scanA
    rw [e, rd_eq h hA (by omega), rd_eq h (by omega) (by omega), (hz n (by omega)).1,
      (hz n (by omega)).2]
    cases n with
    | zero => rfl
    | succ n =>
      simp only
      rw [if_neg (by simp), if_pos (by simp)]
      exact scanA_wall h hA hA0 n (by omega) (fun x hx => hz x (by omega))

/-- a placement whose top is above everything to its left opens a point at the left wall -/
theorem genA_top (A : Arith) {g : Grid} {W L : Nat} (h : WF g W L) {Xo Yo l : Nat} (hl : 0 < l)
    (hX : Xo < W) (hL : Yo + l < L) (hup : ∀ x, x ≤ Xo → cell g (Yo + l) x = 0)
    (hdn : ∀ x, x < Xo → cell g (Yo + l - 1) x = 0) {pts : GenPts}
    (hg : genA A g W L Xo Yo l = .ok pts) :
    ∃ c ∈ [PClass.A, .A_, .E], (c, (⟨0, Yo + l⟩ : Pt)) ∈ pts := by
  have hc0 : rd g ((Yo + l : Nat) : Int) (Xo : Int) = .ok 0 := by
    rw [rd_eq h hL hX, hup Xo (by omega)]
  have e : (((Yo + l : Nat) : Int) - 1) = ((Yo + l - 1 : Nat) : Int) := by omega
  cases Xo with
  | zero =>
    have hcond : condA g L 0 (Yo + l) = .ok true := by
      unfold condA
      rw [show ((0 : Nat) : Int) = 0 from rfl] at hc0 ⊢
      rw [hc0]
      simp [hL]
    unfold genA at hg
    simp only [bind, Except.bind] at hg
    rw [hcond] at hg
    simp only at hg
    split at hg; · cases hg
    split at hg; · cases hg
    split at hg; · cases hg
    split at hg; · cases hg
    injection hg with hg
    subst hg
    exact ⟨.A, by simp, by simp⟩
  | succ X =>
    have e2 : (((X + 1 : Nat) : Int) - 1) = (X : Int) := by omega
    have r1 : rd g (((Yo + l : Nat) : Int) - 1) (((X + 1 : Nat) : Int) - 1) = .ok 0 := by
      rw [e, e2, rd_eq h (by omega) (by omega), hdn X (by omega)]
    have r2 : rd g ((Yo + l : Nat) : Int) (((X + 1 : Nat) : Int) - 1) = .ok 0 := by
      rw [e2, rd_eq h hL (by omega), hup X (by omega)]
    have hcond : condA g L (X + 1) (Yo + l) = .ok false := by
      unfold condA
      rw [hc0, r1, r2]
      simp [in23, in03]
    have hscan : scanA g (Yo + l) (X + 1) = .ok (some 0) :=
      scanA_wall h hL (by omega) X (by omega) (fun x hx => ⟨hup x (by omega), hdn x (by omega)⟩)
    have hge : decide (Yo + l ≥ L) = false := by simp; omega
    have hlt : decide (Yo + l < L) = true := by simp [hL]
    unfold genA at hg
    simp only [bind, Except.bind] at hg
    rw [hcond] at hg
    simp only at hg
    rw [hc0, r1, r2, hscan, hge, hlt] at hg
    simp [in23, pure, Except.pure] at hg
    subst hg
    unfold pointAE
    by_cases hr : A.ratioLe (X + 1 - 0) W = true
    · exact ⟨.A_, by simp, by simp only [hr, if_true]; simp⟩
    · exact ⟨.E, by simp, by simp only [hr]; simp⟩

/-- invariant: the point at the left wall on top of the stack is pending or dead; no pending
point is above the stack; the stack is at most as high as the lengths of its items -/
structure TInv (P : CParams) (s : CState) : Prop where
  top : s.placed ≠ [] → stackHeight (s.placed.map Placed.rect) < P.L →
    Pend P [.A, .A_, .E] s ⟨0, stackHeight (s.placed.map Placed.rect)⟩
  pool : ∀ c, ∀ q ∈ s.pools.get c, q.y ≤ stackHeight (s.placed.map Placed.rect)
  cur : ∀ q, s.cur = some q → q.y ≤ stackHeight (s.placed.map Placed.rect)
  sum : stackHeight (s.placed.map Placed.rect) ≤ (s.placed.map (fun p => p.rect.l)).sum

theorem TInv_init (P : CParams) (items : PyDict String Dim) : TInv P (constructInit P items) where
  top := by simp [constructInit]
  pool := by intro c q hq; cases c <;> simp [constructInit, Pools.get] at hq
  cur := by
    intro q hq
    simp [constructInit] at hq; subst hq; simp
  sum := by simp [constructInit, stackHeight]

theorem stackHeight_append (a b : List Rect) :
    stackHeight (a ++ b) = max (stackHeight a) (stackHeight b) := by
  apply Nat.le_antisymm
  · rw [stackHeight_le]
    intro r hr
    rcases List.mem_append.1 hr with hr | hr
    · exact Nat.le_trans (stackHeight_le.1 (Nat.le_refl _) r hr) (Nat.le_max_left _ _)
    · exact Nat.le_trans (stackHeight_le.1 (Nat.le_refl _) r hr) (Nat.le_max_right _ _)
  · apply Nat.max_le.2
    constructor
    · rw [stackHeight_le]
      intro r hr
      exact stackHeight_le.1 (Nat.le_refl _) r (List.mem_append_left _ hr)
    · rw [stackHeight_le]
      intro r hr
      exact stackHeight_le.1 (Nat.le_refl _) r (List.mem_append_right _ hr)

theorem stackHeight_single (r : Rect) : stackHeight [r] = r.y + r.l := by
  simp [stackHeight]

/-- effect of handling a point, before the next point is taken -/
theorem afterPt_TInv {P : CParams} {items0 : PyDict String Dim} {s s1 : CState} {pt : Pt}
    (hI : I0 P s) (hG : GInv P items0 s) (hc : s.cur = some pt) (hT : TInv P s)
    (ha : afterPt P s pt s1) :
    (s1.placed ≠ [] → stackHeight (s1.placed.map Placed.rect) < P.L →
      (∃ c ∈ [PClass.A, .A_, .E],
        (⟨0, stackHeight (s1.placed.map Placed.rect)⟩ : Pt) ∈ s1.pools.get c) ∨
      Dead P s1 ⟨0, stackHeight (s1.placed.map Placed.rect)⟩) ∧
    (∀ c, ∀ q ∈ s1.pools.get c, q.y ≤ stackHeight (s1.placed.map Placed.rect)) ∧
    stackHeight (s1.placed.map Placed.rect) ≤ (s1.placed.map (fun p => p.rect.l)).sum := by
  have hstep := fun q => Pend_step (q := q) (cs := [.A, .A_, .E]) hI hc ha
  rcases ha with ⟨rfl, hn⟩ | ⟨id, d, ro, g, gen, pre, post, hd, hids, hpre, hchk, hro, hg, hgen, rfl⟩
  · exact ⟨fun h1 h2 => hstep _ (hT.top h1 h2), hT.pool, hT.sum⟩
  have hdp := hI.pos _ (PyDict.find?_mem hd)
  have hw : 0 < effW d ro := by unfold effW; split; exact hdp.2; exact hdp.1
  have hl : 0 < effL d ro := by unfold effL; split; exact hdp.1; exact hdp.2
  obtain ⟨g', hg', hgwf, hgc⟩ := fillItem_eq hI.wf hw hl hchk.1 hchk.2.1
  rw [hg] at hg'; injection hg' with hg'; subst hg'
  have hrect : (⟨id, d, pt.x, pt.y, ro⟩ : Placed).rect = ⟨pt.x, pt.y, effW d ro, effL d ro⟩ := rect_mk ..
  have hst : stackHeight ((s.placed ++ [(⟨id, d, pt.x, pt.y, ro⟩ : Placed)]).map Placed.rect) =
      max (stackHeight (s.placed.map Placed.rect)) (pt.y + effL d ro) := by
    rw [List.map_append, stackHeight_append, List.map_cons, List.map_nil, stackHeight_single, hrect]
  have hcur := hT.cur pt hc
  refine ⟨?_, ?_, ?_⟩
  · intro _ hL
    simp only at hL ⊢
    simp only [hst] at hL hstep ⊢
    by_cases hle : pt.y + effL d ro ≤ stackHeight (s.placed.map Placed.rect)
    · rw [Nat.max_eq_left hle] at hL ⊢
      by_cases hne : s.placed = []
      · rw [hne] at hle
        simp [stackHeight] at hle
        omega
      · exact hstep _ (hT.top hne hL)
    · rw [Nat.max_eq_right (by omega)] at hL ⊢
      have hz : ∀ y x, stackHeight (s.placed.map Placed.rect) ≤ y → cell s.grid y x = 0 := by
        intro y x hy
        by_cases h0 : cell s.grid y x = 0
        · exact h0
        · obtain ⟨p, hp, hcv⟩ := (hG.cov y x).1 h0
          have := stackHeight_le.1 (Nat.le_refl (stackHeight (s.placed.map Placed.rect))) p.rect
            (List.mem_map.2 ⟨p, hp, rfl⟩)
          unfold Covers at hcv
          omega
      left
      unfold generatePoints at hgen
      simp only [bind, Except.bind] at hgen
      split at hgen; · cases hgen
      rename_i a hga
      split at hgen; · cases hgen
      split at hgen; · cases hgen
      split at hgen; · cases hgen
      injection hgen with hgen
      obtain ⟨c, hcm, hcp⟩ := genA_top P.ar hgwf hl (Xo := pt.x) (Yo := pt.y) (by have := hchk.1; omega) hL
        (by
          intro x hx
          rw [hgc, if_neg (by omega)]
          exact hz _ _ (by omega))
        (by
          intro x hx
          rw [hgc, if_neg (by omega)]
          exact hz _ _ (by omega)) hga
      refine ⟨c, hcm, mem_pushAll_of (Or.inr ?_)⟩
      rw [← hgen]
      simp only [List.mem_append]
      exact Or.inl (Or.inl (Or.inl hcp))
  · intro c q hq
    simp only at hq ⊢
    rw [hst]
    rcases mem_pushAll hq with hq | hq
    · exact Nat.le_trans (hT.pool c q hq) (Nat.le_max_left _ _)
    · exact Nat.le_trans (generatePoints_y hgen _ hq) (Nat.le_max_right _ _)
  · simp only
    rw [hst]
    have := hT.sum
    simp only [List.map_append, List.sum_append, List.map_cons, List.map_nil, List.sum_cons,
      List.sum_nil, hrect]
    omega

theorem StepRel_TInv {P : CParams} {items0 : PyDict String Dim} {s s' : CState} {pt : Pt}
    (hI : I0 P s) (hG : GInv P items0 s) (hc : s.cur = some pt) (hT : TInv P s)
    (h : StepRel P s pt s') : TInv P s' := by
  obtain ⟨s1, ha, rfl⟩ := h
  obtain ⟨h1, h2, h3⟩ := afterPt_TInv hI hG hc hT ha
  refine ⟨fun hne hL => Pend_next (h1 hne hL), ?_, ?_, h3⟩
  · intro c q hq
    simp only at hq ⊢
    rcases getCurrentPoint_spec P.strategy s1.pools with ⟨e1, _⟩ | ⟨pre, c', post, q', rest, e1, e2, e3, e4⟩
    · rw [e1] at hq; exact h2 c q hq
    · rw [e4] at hq
      by_cases hcc : c = c'
      · subst hcc
        simp only at hq
        rw [Pools.get_set_self] at hq
        exact h2 c q (by rw [e3]; exact List.mem_cons_of_mem _ hq)
      · simp only at hq
        rw [Pools.get_set_ne _ _ hcc] at hq
        exact h2 c q hq
  · intro q hq
    simp only at hq ⊢
    rcases getCurrentPoint_spec P.strategy s1.pools with ⟨e1, _⟩ | ⟨pre, c', post, q', rest, e1, e2, e3, e4⟩
    · rw [e1] at hq; simp at hq
    · rw [e4] at hq
      injection hq with hq; subst hq
      exact h2 c' q' (by rw [e3]; simp)

theorem Run_TInv {P : CParams} {items : PyDict String Dim} {s : CState} {n : Nat}
    (h : Run P (constructInit P items) n s) : TInv P s := by
  induction h with
  | refl => exact TInv_init P items
  | step hr hI hA hS _ ih => exact StepRel_TInv hI (Run_GInv (GInv_init P items) hr) hA.1 ih hS

/-- one call of `_construct_solution`: what is left over does not fit above the stack, and the
stack is at most as high as the lengths of its items together -/
theorem construct_top {P : CParams} {items : PyDict String Dim} (hg : ValidSizes items)
    (hW : 0 < P.W) (hL : 0 < P.L) {r : CResult} (hr : construct P items = .ok r) :
    stackHeight (rectsOf r.solution) ≤ ((rectsOf r.solution).map (·.l)).sum ∧
    ((P.strip = true ∨ ¬ r.obj ≥ 1) → .A ∈ P.strategy → .A_ ∈ P.strategy → .E ∈ P.strategy →
      ∀ it ∈ r.items,
        ¬ FitsEmpty P.W (P.L - stackHeight (rectsOf r.solution)) P.rot it.2) := by
  obtain ⟨n, s, hrun, hI, hD, hn, hc⟩ := construct_total (P := P) hg hW hL
  rw [hc] at hr; injection hr with hr; subst hr
  have hG := Run_GInv (GInv_init P items) hrun
  have hQ := Run_QInv (QInv_init P items) hrun
  have hT := Run_TInv hrun
  have hrects : rectsOf (s.placed.map (fun p => (p.id, p.rect))) = s.placed.map Placed.rect := by
    simp [rectsOf, Function.comp_def]
  simp only [hrects]
  refine ⟨by simpa [Function.comp_def] using hT.sum, ?_⟩
  intro ho hA hA_ hE it hit hfit
  have hobj : ¬ s.obj ≥ 1 := by
    rw [hG.obj]
    cases hs : P.strip with
    | true => simp; decide
    | false =>
      rw [hs] at ho
      simp only [Bool.false_eq_true, false_or, if_false] at ho
      rw [hG.obj, hs] at ho
      exact ho
  have hne : s.ids ≠ [] := by
    rw [hI.ids]
    intro h0
    have : it.1 ∈ PyDict.keys s.items := List.mem_map.2 ⟨it, hit, rfl⟩
    rw [h0] at this; simp at this
  have hcur : s.cur = none := by
    rcases hD with h | h | h
    · exact h
    · exact absurd h hne
    · exact absurd h hobj
  have hpp := hI.pos it hit
  -- the point above the stack has been used without success
  have hdead : stackHeight (s.placed.map Placed.rect) < P.L →
      Dead P s ⟨0, stackHeight (s.placed.map Placed.rect)⟩ := by
    intro hlt
    by_cases h0 : s.placed = []
    · rw [h0]
      rcases hQ.org with ⟨c, hc, _⟩ | h | h
      · simp at hc
      · rw [hcur] at h; simp at h
      · exact h
    · rcases hT.top h0 hlt with ⟨c, hc, hq⟩ | h | h
      · have : s.pools.get c = [] := by
          apply hQ.fin hcur
          simp at hc
          rcases hc with rfl | rfl | rfl
          · exact hA
          · exact hA_
          · exact hE
        rw [this] at hq; simp at hq
      · rw [hcur] at h; simp at h
      · exact h
  have hz : ∀ y x, stackHeight (s.placed.map Placed.rect) ≤ y → cell s.grid y x = 0 := by
    intro y x hy
    by_cases h0 : cell s.grid y x = 0
    · exact h0
    · obtain ⟨p, hp, hcv⟩ := (hG.cov y x).1 h0
      have := stackHeight_le.1 (Nat.le_refl (stackHeight (s.placed.map Placed.rect))) p.rect
        (List.mem_map.2 ⟨p, hp, rfl⟩)
      unfold Covers at hcv
      omega
  have hchk : ∀ w l, 0 < l → w ≤ P.W → l ≤ P.L - stackHeight (s.placed.map Placed.rect) →
      CheckSpec s.grid P.W P.L 0 (stackHeight (s.placed.map Placed.rect)) w l := by
    intro w l hl h1 h2
    refine ⟨by omega, by omega, hz _ _ (by omega), hz _ _ (by omega), hz _ _ (by omega),
      hz _ _ (by omega), fun y x _ _ h5 _ => hz _ _ ?_⟩
    omega
  rcases hfit with ⟨h1, h2⟩ | ⟨hrot, h1, h2⟩
  · exact hdead (by omega) it hit (Or.inl (hchk _ _ hpp.2 h1 h2))
  · exact hdead (by omega) it hit (Or.inr ⟨hrot, hchk _ _ hpp.1 h1 h2⟩)

end HP
