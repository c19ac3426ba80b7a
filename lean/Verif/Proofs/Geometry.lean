import Verif.Proofs.Loop
import Verif.Spec
/-
Geometric invariant of the construction loop.
-/
namespace HP
open Spec

theorem Placed.rect_x (p : Placed) : p.rect.x = p.x := rfl
theorem Placed.rect_y (p : Placed) : p.rect.y = p.y := rfl
theorem rect_mk (id : String) (d : Dim) (x y : Nat) (ro : Bool) :
    (Placed.mk id d x y ro).rect = ⟨x, y, effW d ro, effL d ro⟩ := rfl

theorem Inside.covers {W L : Nat} {r : Rect} (h : Inside W L r) {x y : Nat} (hc : Covers r x y) :
    x < W ∧ y < L := by
  unfold Inside at h; unfold Covers at hc; omega

/-- the value accumulated in bin packing mode -/
def objFold (P : CParams) (placed : List Placed) : Rat :=
  placed.foldl (fun o p => P.ar.add o (P.ar.div (p.rect.w * p.rect.l) (P.W * P.L))) 0

structure GInv (P : CParams) (items0 : PyDict String Dim) (s : CState) : Prop where
  perm : (s.placed.map (fun p => (p.id, p.dim)) ++ s.items).Perm items0
  sub : s.items.Sublist items0
  rot : ∀ p ∈ s.placed, p.rotated = true → P.rot = true
  inb : ∀ p ∈ s.placed, Inside P.W P.L p.rect
  cov : ∀ y x, cell s.grid y x ≠ 0 ↔ ∃ p ∈ s.placed, Covers p.rect x y
  sup : ∀ pre p post, s.placed = pre ++ p :: post → Supported (pre.map Placed.rect) p.rect
  obj : s.obj = if P.strip then 0 else objFold P s.placed
  disj : (∀ p ∈ items0, ¬ LowStrip P.rot p.2) →
    s.placed.Pairwise (fun p q => Disjoint p.rect q.rect)
  over : s.placed.Pairwise (fun p q => SharesOnlyMiddle p.rect q.rect)

/-- The untested interior of the last row is free: heart of the no-overlap argument. -/
theorem free_of_check {W L : Nat} {g : Grid} {placed : List Placed}
    (hcov : ∀ y x, cell g y x ≠ 0 ↔ ∃ p ∈ placed, Covers p.rect x y)
    (hsup : ∀ pre p post, placed = pre ++ p :: post → Supported (pre.map Placed.rect) p.rect)
    {X Y w l : Nat} (hw : 0 < w) (hl : 0 < l) (hlow : l = 1 → w ≤ 2)
    (hc : CheckSpec g W L X Y w l) :
    ∀ y x, X ≤ x → x < X + w → Y ≤ y → y < Y + l → cell g y x = 0 := by
  obtain ⟨hX, hY, c1, c2, c3, c4, hrows⟩ := hc
  by_cases hl1 : l = 1
  · have := hlow hl1
    subst hl1
    intro y x h1 h2 h3 h4
    have hy : y = Y := by omega
    subst hy
    by_cases hx : x = X
    · subst hx; exact c1
    · have : x = X + w - 1 := by omega
      subst this; exact c2
  · intro y x h1 h2 h3 h4
    by_cases hy : y < Y + l - 1
    · exact hrows y x h3 hy h1 h2
    · have hy : y = Y + l - 1 := by omega
      subst hy
      -- strong induction on the column
      induction x using Nat.strongRecOn with
      | ind x ih =>
        by_cases hx : x = X
        · subst hx; exact c3
        · by_cases hnz : cell g (Y + l - 1) x = 0
          · exact hnz
          · exfalso
            obtain ⟨q, hq, hcq⟩ := (hcov _ _).1 hnz
            have hbelow : cell g (Y + l - 1 - 1) x = 0 :=
              hrows _ _ (by omega) (by omega) h1 h2
            -- the covering item starts in this very row
            have hqy : q.rect.y = Y + l - 1 := by
              by_cases h : q.rect.y = Y + l - 1
              · exact h
              · exfalso
                have : cell g (Y + l - 1 - 1) x ≠ 0 := (hcov _ _).2 ⟨q, hq, by
                  unfold Covers at hcq ⊢; omega⟩
                exact this hbelow
            -- and in this very column
            have hqx : q.rect.x = x := by
              by_cases h : q.rect.x = x
              · exact h
              · exfalso
                have h5 : cell g (Y + l - 1) (x - 1) ≠ 0 := (hcov _ _).2 ⟨q, hq, by
                  unfold Covers at hcq ⊢; omega⟩
                exact h5 (ih (x - 1) (by omega) (by omega) (by omega))
            obtain ⟨pre, post, hsplit⟩ := List.append_of_mem hq
            rcases hsup pre q post hsplit with h | h | ⟨r, hr, h⟩
            · omega
            · omega
            · obtain ⟨p', hp', rfl⟩ := List.mem_map.1 hr
              have hp'm : p' ∈ placed := by rw [hsplit]; simp [hp']
              rw [hqx, hqy] at h
              rcases h with h | h
              · exact (hcov _ _).2 ⟨p', hp'm, h⟩ hbelow
              · exact (hcov _ _).2 ⟨p', hp'm, h⟩
                  (ih (x - 1) (by omega) (by omega) (by omega))

/-- what is left when the item is one unit high: both ends are free -/
theorem middle_of_check {W L : Nat} {g : Grid} {placed : List Placed}
    (hcov : ∀ y x, cell g y x ≠ 0 ↔ ∃ p ∈ placed, Covers p.rect x y)
    (hsup : ∀ pre p post, placed = pre ++ p :: post → Supported (pre.map Placed.rect) p.rect)
    {X Y w l : Nat} (hw : 0 < w) (hl : 0 < l) (hc : CheckSpec g W L X Y w l) :
    ∀ y x, X ≤ x → x < X + w → Y ≤ y → y < Y + l → cell g y x ≠ 0 →
      l = 1 ∧ X < x ∧ x + 1 < X + w := by
  intro y x h1 h2 h3 h4 hne
  by_cases hl1 : l = 1
  · subst hl1
    obtain ⟨hX, hY, c1, c2, c3, c4, hrows⟩ := hc
    have hy : y = Y := by omega
    subst hy
    refine ⟨rfl, ?_, ?_⟩
    · have : x ≠ X := by rintro rfl; exact hne c1
      omega
    · have : x ≠ X + w - 1 := by rintro rfl; exact hne c2
      omega
  · exact absurd (free_of_check hcov hsup hw hl (fun h => absurd h hl1) hc y x h1 h2 h3 h4) hne

theorem GInv_init (P : CParams) (items : PyDict String Dim) : GInv P items (constructInit P items) where
  perm := by simp [constructInit]
  sub := List.Sublist.refl _
  rot := by simp [constructInit]
  inb := by simp [constructInit]
  cov := by
    intro y x
    simp only [constructInit]
    rw [cell_empty]; simp
  sup := by intro pre p post h; simp [constructInit] at h
  obj := by simp [constructInit, objFold]
  disj := by intro _; simp [constructInit]
  over := by simp [constructInit]

theorem afterPt_GInv {P : CParams} {items0 : PyDict String Dim} {s s1 : CState} {pt : Pt}
    (hI : I0 P s) (hsp : SupPt s.grid P.W P.L pt) (hG : GInv P items0 s)
    (h : afterPt P s pt s1) : GInv P items0 s1 := by
  rcases h with ⟨rfl, _⟩ | ⟨id, d, ro, g, gen, pre, post, hd, hids, hpre, hchk, hro, hg, hgen, rfl⟩
  · exact hG
  have hdp := hI.pos _ (PyDict.find?_mem hd)
  have hw : 0 < effW d ro := by unfold effW; split; exact hdp.2; exact hdp.1
  have hl : 0 < effL d ro := by unfold effL; split; exact hdp.1; exact hdp.2
  obtain ⟨g', hg', hgwf, hgc⟩ := fillItem_eq hI.wf hw hl hchk.1 hchk.2.1
  rw [hg] at hg'; injection hg' with hg'; subst hg'
  have hitem0 : (id, d) ∈ items0 := hG.sub.subset (PyDict.find?_mem hd)
  refine ⟨?_, ?_, ?_, ?_, ?_, ?_, ?_, ?_, ?_⟩
  · simp only [List.map_append, List.map_cons, List.map_nil, List.append_assoc,
      List.cons_append, List.nil_append]
    exact ((PyDict.perm_erase hd).symm.append_left _).trans hG.perm
  · exact (PyDict.erase_sublist _ _).trans hG.sub
  · intro p hp hr
    rcases List.mem_append.1 hp with hp | hp
    · exact hG.rot p hp hr
    · simp at hp; subst hp; exact (hro hr).1
  · intro p hp
    rcases List.mem_append.1 hp with hp | hp
    · exact hG.inb p hp
    · simp at hp; subst hp; exact ⟨hchk.1, hchk.2.1⟩
  · intro y x
    simp only
    rw [hgc]
    constructor
    · intro hne
      split at hne
      · rename_i hin
        exact ⟨_, List.mem_append_right _ (List.mem_singleton.2 rfl), by
          rw [rect_mk]; unfold Covers; simp only; omega⟩
      · obtain ⟨p, hp, hc⟩ := (hG.cov y x).1 hne
        exact ⟨p, List.mem_append_left _ hp, hc⟩
    · rintro ⟨p, hp, hc⟩
      rcases List.mem_append.1 hp with hp | hp
      · split
        · exact markOf_ne_zero _ _ _ _ _ _
        · exact (hG.cov y x).2 ⟨p, hp, hc⟩
      · simp at hp; subst hp
        rw [rect_mk] at hc; unfold Covers at hc; simp only at hc
        rw [if_pos (by omega)]
        exact markOf_ne_zero _ _ _ _ _ _
  · intro pre' p post' heq
    rcases List.append_eq_append_iff.1 heq with ⟨as, h1, h2⟩ | ⟨bs, h1, h2⟩
    · -- s.placed is a prefix of pre'
      cases as with
      | nil =>
        simp at h2 h1
        obtain ⟨h2, _⟩ := h2
        subst h2
        rw [h1]
        rcases hsp with ⟨_, _, h | h | h | h⟩
        · exact Or.inl h
        · exact Or.inr (Or.inl h)
        · obtain ⟨q, hq, hc⟩ := (hG.cov _ _).1 h
          exact Or.inr (Or.inr ⟨q.rect, List.mem_map.2 ⟨q, hq, rfl⟩, Or.inl hc⟩)
        · obtain ⟨q, hq, hc⟩ := (hG.cov _ _).1 h
          exact Or.inr (Or.inr ⟨q.rect, List.mem_map.2 ⟨q, hq, rfl⟩, Or.inr hc⟩)
      | cons a as => simp at h2
    · cases bs with
      | nil =>
        simp at h2 h1
        obtain ⟨h2, _⟩ := h2
        subst h2
        rw [← h1]
        rcases hsp with ⟨_, _, h | h | h | h⟩
        · exact Or.inl h
        · exact Or.inr (Or.inl h)
        · obtain ⟨q, hq, hc⟩ := (hG.cov _ _).1 h
          exact Or.inr (Or.inr ⟨q.rect, List.mem_map.2 ⟨q, hq, rfl⟩, Or.inl hc⟩)
        · obtain ⟨q, hq, hc⟩ := (hG.cov _ _).1 h
          exact Or.inr (Or.inr ⟨q.rect, List.mem_map.2 ⟨q, hq, rfl⟩, Or.inr hc⟩)
      | cons b bs =>
        simp at h2
        obtain ⟨rfl, h2⟩ := h2
        exact hG.sup pre' p bs h1
  · simp only
    rw [hG.obj]
    cases P.strip with
    | true => simp
    | false => simp [objFold, rect_mk]
  · intro hns
    have hlow : effL d ro = 1 → effW d ro ≤ 2 := by
      intro h1
      have : ¬ LowStrip P.rot d := hns _ hitem0
      unfold LowStrip at this
      unfold effL at h1; unfold effW
      cases ro with
      | false => simp at h1 ⊢; omega
      | true =>
        have h2 := (hro rfl).1
        simp at h1 ⊢
        by_cases h3 : d.l ≤ 2
        · exact h3
        · exact absurd (Or.inr ⟨h2, h1, by omega⟩) this
    have hfree := free_of_check hG.cov hG.sup hw hl hlow hchk
    simp only
    rw [List.pairwise_append]
    refine ⟨hG.disj hns, by simp, ?_⟩
    intro p hp q hq x y hxy
    simp at hq; subst hq
    have h1 : cell s.grid y x ≠ 0 := (hG.cov y x).2 ⟨p, hp, hxy.1⟩
    have h2 := hxy.2
    rw [rect_mk] at h2
    unfold Covers at h2; simp only at h2
    exact h1 (hfree y x (by omega) (by omega) (by omega) (by omega))
  · simp only
    rw [List.pairwise_append]
    refine ⟨hG.over, by simp, ?_⟩
    intro p hp q hq x y hc1 hc2
    simp at hq; subst hq
    have h1 : cell s.grid y x ≠ 0 := (hG.cov y x).2 ⟨p, hp, hc1⟩
    rw [rect_mk] at hc2 ⊢
    unfold Covers at hc2; simp only at hc2 ⊢
    exact middle_of_check hG.cov hG.sup hw hl hchk y x (by omega) (by omega) (by omega)
      (by omega) h1

theorem StepRel_GInv {P : CParams} {items0 : PyDict String Dim} {s s' : CState} {pt : Pt}
    (hI : I0 P s) (hc : s.cur = some pt) (hG : GInv P items0 s) (h : StepRel P s pt s') :
    GInv P items0 s' := by
  obtain ⟨s1, h1, rfl⟩ := h
  have h2 := afterPt_GInv hI (hI.supCur pt hc) hG h1
  exact ⟨h2.perm, h2.sub, h2.rot, h2.inb, h2.cov, h2.sup, h2.obj, h2.disj, h2.over⟩

theorem Run_GInv {P : CParams} {items0 : PyDict String Dim} {s0 s : CState} {n : Nat}
    (h0 : GInv P items0 s0) (h : Run P s0 n s) : GInv P items0 s := by
  induction h with
  | refl => exact h0
  | step _ hI hA hS _ ih => exact StepRel_GInv hI hA.1 ih hS

end HP
