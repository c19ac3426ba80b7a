import Verif.Proofs.Geometry
/-
Greedy completeness, the first item of a container, strategies with few classes.
-/
namespace HP
open Spec

theorem CheckSpec.anti {g g' : Grid} {W L X Y w l : Nat}
    (hm : ∀ y x, cell g y x ≠ 0 → cell g' y x ≠ 0) (h : CheckSpec g' W L X Y w l) :
    CheckSpec g W L X Y w l := by
  have hz : ∀ y x, cell g' y x = 0 → cell g y x = 0 := by
    intro y x h0
    by_cases h1 : cell g y x = 0
    · exact h1
    · exact absurd h0 (hm y x h1)
  obtain ⟨h1, h2, h3, h4, h5, h6, h7⟩ := h
  exact ⟨h1, h2, hz _ _ h3, hz _ _ h4, hz _ _ h5, hz _ _ h6,
    fun y x a b c d => hz _ _ (h7 y x a b c d)⟩

theorem FitsChk.anti {P : CParams} {g g' : Grid} {pt : Pt} {d : Dim}
    (hm : ∀ y x, cell g y x ≠ 0 → cell g' y x ≠ 0) (h : FitsChk P g' pt d) : FitsChk P g pt d := by
  rcases h with h | ⟨hr, h⟩
  · exact Or.inl (h.anti hm)
  · exact Or.inr ⟨hr, h.anti hm⟩

/-- no remaining item passes the fitting test at `pt` -/
def Dead (P : CParams) (s : CState) (pt : Pt) : Prop := ∀ p ∈ s.items, ¬ FitsChk P s.grid pt p.2

theorem Dead_of_occupied {P : CParams} {s : CState} {pt : Pt} (h : cell s.grid pt.y pt.x ≠ 0) :
    Dead P s pt := by
  intro p _ hf
  rcases hf with hf | ⟨_, hf⟩
  · exact h hf.2.2.1
  · exact h hf.2.2.1

/-- effect of handling one point on grid, pool and points -/
theorem afterPt_facts {P : CParams} {s s1 : CState} {pt : Pt} (hI : I0 P s)
    (h : afterPt P s pt s1) :
    (∀ y x, cell s.grid y x ≠ 0 → cell s1.grid y x ≠ 0) ∧
    (∀ p ∈ s1.items, p ∈ s.items) ∧
    (∀ c, ∀ q ∈ s.pools.get c, q ∈ s1.pools.get c) ∧
    Dead P s1 pt := by
  rcases h with ⟨rfl, hn⟩ | ⟨id, d, ro, g, gen, pre, post, hd, hids, hpre, hchk, hro, hg, hgen, rfl⟩
  · exact ⟨fun _ _ h => h, fun _ h => h, fun _ _ h => h, hn⟩
  have hdp := hI.pos _ (PyDict.find?_mem hd)
  have hw : 0 < effW d ro := by unfold effW; split; exact hdp.2; exact hdp.1
  have hl : 0 < effL d ro := by unfold effL; split; exact hdp.1; exact hdp.2
  obtain ⟨g', hg', hgwf, hgc⟩ := fillItem_eq hI.wf hw hl hchk.1 hchk.2.1
  rw [hg] at hg'; injection hg' with hg'; subst hg'
  refine ⟨?_, ?_, ?_, ?_⟩
  · intro y x hc
    simp only
    rw [hgc]; split
    · exact markOf_ne_zero _ _ _ _ _ _
    · exact hc
  · exact PyDict.erase_subset _ _
  · intro c q hq; exact mem_pushAll_of (Or.inl hq)
  · apply Dead_of_occupied
    simp only
    rw [hgc, if_pos (by omega)]
    exact markOf_ne_zero _ _ _ _ _ _

theorem Dead.mono {P : CParams} {s s1 : CState} {q : Pt}
    (h1 : ∀ y x, cell s.grid y x ≠ 0 → cell s1.grid y x ≠ 0)
    (h2 : ∀ p ∈ s1.items, p ∈ s.items) (h : Dead P s q) : Dead P s1 q :=
  fun p hp hf => h p (h2 p hp) (hf.anti h1)

/-- a point that is pending in one of the classes `cs`, current, or dead -/
def Pend (P : CParams) (cs : List PClass) (s : CState) (q : Pt) : Prop :=
  (∃ c ∈ cs, q ∈ s.pools.get c) ∨ s.cur = some q ∨ Dead P s q

theorem Pend_next {P : CParams} {cs : List PClass} {s1 : CState} {q : Pt}
    (h : (∃ c ∈ cs, q ∈ s1.pools.get c) ∨ Dead P s1 q) :
    Pend P cs { s1 with cur := (getCurrentPoint s1.pools P.strategy).1,
                        pools := (getCurrentPoint s1.pools P.strategy).2 } q := by
  rcases h with ⟨c, hc, hq⟩ | h
  · rcases getCurrentPoint_spec P.strategy s1.pools with ⟨h1, _⟩ | ⟨pre, c', post, pt, rest, h1, h2, h3, h4⟩
    · rw [h1]; exact Or.inl ⟨c, hc, hq⟩
    · rw [h4]
      by_cases hcc : c = c'
      · subst hcc
        rw [h3] at hq
        rcases List.mem_cons.1 hq with rfl | hq
        · exact Or.inr (Or.inl rfl)
        · exact Or.inl ⟨c, hc, by simp only; rw [Pools.get_set_self]; exact hq⟩
      · exact Or.inl ⟨c, hc, by simp only; rw [Pools.get_set_ne _ _ hcc]; exact hq⟩
  · exact Or.inr (Or.inr h)

/-- greedy invariant -/
structure QInv (P : CParams) (s : CState) : Prop where
  org : Pend P [] s ⟨0, 0⟩
  tl : ∀ p ∈ s.placed, p.rect.y + p.rect.l < P.L →
    Pend P [.A, .A__] s ⟨p.rect.x, p.rect.y + p.rect.l⟩
  br : ∀ p ∈ s.placed, p.rect.x + p.rect.w < P.W →
    Pend P [.B, .B__] s ⟨p.rect.x + p.rect.w, p.rect.y⟩
  fin : s.cur = none → ∀ c ∈ P.strategy, s.pools.get c = []

theorem QInv_init (P : CParams) (items : PyDict String Dim) : QInv P (constructInit P items) where
  org := Or.inr (Or.inl rfl)
  tl := by simp [constructInit]
  br := by simp [constructInit]
  fin := by simp [constructInit]

theorem Pend_step {P : CParams} {cs : List PClass} {s s1 : CState} {pt q : Pt} (hI : I0 P s)
    (hc : s.cur = some pt) (ha : afterPt P s pt s1) (h : Pend P cs s q) :
    (∃ c ∈ cs, q ∈ s1.pools.get c) ∨ Dead P s1 q := by
  obtain ⟨f1, f2, f3, f4⟩ := afterPt_facts hI ha
  rcases h with ⟨c, hcm, hq⟩ | h | h
  · exact Or.inl ⟨c, hcm, f3 c q hq⟩
  · rw [hc] at h; injection h with h; subst h; exact Or.inr f4
  · exact Or.inr (h.mono f1 f2)

theorem StepRel_QInv {P : CParams} {s s' : CState} {pt : Pt} (hI : I0 P s) (hc : s.cur = some pt)
    (hQ : QInv P s) (h : StepRel P s pt s') : QInv P s' := by
  obtain ⟨s1, ha, rfl⟩ := h
  have hnew : ∀ p ∈ s1.placed, p ∈ s.placed ∨
      ((p.rect.y + p.rect.l < P.L → (∃ c ∈ [PClass.A, .A__],
          (⟨p.rect.x, p.rect.y + p.rect.l⟩ : Pt) ∈ s1.pools.get c) ∨
          Dead P s1 ⟨p.rect.x, p.rect.y + p.rect.l⟩) ∧
       (p.rect.x + p.rect.w < P.W → (∃ c ∈ [PClass.B, .B__],
          (⟨p.rect.x + p.rect.w, p.rect.y⟩ : Pt) ∈ s1.pools.get c) ∨
          Dead P s1 ⟨p.rect.x + p.rect.w, p.rect.y⟩)) := by
    rcases ha with ⟨rfl, hn⟩ | ⟨id, d, ro, g, gen, pre, post, hd, hids, hpre, hchk, hro, hg, hgen, rfl⟩
    · exact fun p hp => Or.inl hp
    intro p hp
    rcases List.mem_append.1 hp with hp | hp
    · exact Or.inl hp
    right
    simp at hp; subst hp
    have hdp := hI.pos _ (PyDict.find?_mem hd)
    have hw : 0 < effW d ro := by unfold effW; split; exact hdp.2; exact hdp.1
    have hl : 0 < effL d ro := by unfold effL; split; exact hdp.1; exact hdp.2
    obtain ⟨g', hg', hgwf, hgc⟩ := fillItem_eq hI.wf hw hl hchk.1 hchk.2.1
    rw [hg] at hg'; injection hg' with hg'; subst hg'
    have hfil : Filled g pt.x pt.y (effW d ro) (effL d ro) := by
      intro j i h1 h2 h3 h4
      rw [hgc, if_pos ⟨⟨h1, h2⟩, h3, h4⟩]
      exact markOf_ne_zero _ _ _ _ _ _
    obtain ⟨gen', hgen', _, _, hA, hB, _⟩ :=
      generatePoints_spec P.ar hgwf hw hl hchk.1 hchk.2.1 hfil
    rw [hgen] at hgen'; injection hgen' with hgen'; subst hgen'
    rw [rect_mk]
    constructor
    · intro hL
      simp only at hL ⊢
      by_cases hz : cell g (pt.y + effL d ro) pt.x = 0
      · left
        rcases hA hL hz with hm | hm
        · exact ⟨.A, by simp, mem_pushAll_of (Or.inr hm)⟩
        · exact ⟨.A__, by simp, mem_pushAll_of (Or.inr hm)⟩
      · right; exact Dead_of_occupied hz
    · intro hW
      simp only at hW ⊢
      by_cases hz : cell g pt.y (pt.x + effW d ro) = 0
      · left
        rcases hB hW hz with hm | hm
        · exact ⟨.B, by simp, mem_pushAll_of (Or.inr hm)⟩
        · exact ⟨.B__, by simp, mem_pushAll_of (Or.inr hm)⟩
      · right; exact Dead_of_occupied hz
  refine ⟨Pend_next (Pend_step hI hc ha hQ.org), ?_, ?_, ?_⟩
  · intro p hp hL
    apply Pend_next
    rcases hnew p hp with hp | hp
    · exact Pend_step hI hc ha (hQ.tl p hp hL)
    · exact hp.1 hL
  · intro p hp hW
    apply Pend_next
    rcases hnew p hp with hp | hp
    · exact Pend_step hI hc ha (hQ.br p hp hW)
    · exact hp.2 hW
  · intro hnone
    simp only at hnone ⊢
    rcases getCurrentPoint_spec P.strategy s1.pools with ⟨h1, h2⟩ | ⟨pre, c', post, q, rest, h1, h2, h3, h4⟩
    · rw [h1]; exact h2
    · rw [h4] at hnone; simp at hnone

theorem Run_QInv {P : CParams} {s0 s : CState} {n : Nat} (h0 : QInv P s0) (h : Run P s0 n s) :
    QInv P s := by
  induction h with
  | refl => exact h0
  | step _ hI hA hS _ ih => exact StepRel_QInv hI hA.1 ih hS

/-- a rectangle that is free in the layout passes the fitting test -/
theorem check_of_free {g : Grid} {placed : List Placed} {W L X Y w l : Nat}
    (hcov : ∀ y x, cell g y x ≠ 0 ↔ ∃ p ∈ placed, Covers p.rect x y)
    (hw : 0 < w) (hl : 0 < l) (h : FreeFor W L (placed.map Placed.rect) ⟨X, Y, w, l⟩) :
    CheckSpec g W L X Y w l := by
  obtain ⟨⟨h1, h2⟩, h3⟩ := h
  have hz : ∀ y x, X ≤ x → x < X + w → Y ≤ y → y < Y + l → cell g y x = 0 := by
    intro y x a b c d
    by_cases hne : cell g y x = 0
    · exact hne
    · obtain ⟨p, hp, hc⟩ := (hcov y x).1 hne
      exact absurd ⟨⟨a, b, c, d⟩, hc⟩ (h3 p.rect (List.mem_map.2 ⟨p, hp, rfl⟩) x y)
  simp only at h1 h2
  exact ⟨h1, h2, hz _ _ (by omega) (by omega) (by omega) (by omega),
    hz _ _ (by omega) (by omega) (by omega) (by omega),
    hz _ _ (by omega) (by omega) (by omega) (by omega),
    hz _ _ (by omega) (by omega) (by omega) (by omega),
    fun y x a b c d => hz _ _ (by omega) (by omega) (by omega) (by omega)⟩

theorem not_canAdd_of_dead {P : CParams} {items0 : PyDict String Dim} {s : CState} {q : Pt}
    (hG : GInv P items0 s) (hpos : PosDims s.items) (h : Dead P s q) :
    ∀ p ∈ s.items, ¬ CanAdd P.W P.L P.rot (s.placed.map Placed.rect) p.2 q.x q.y := by
  intro p hp hc
  have hpp := hpos p hp
  apply h p hp
  rcases hc with hc | ⟨hr, hc⟩
  · exact Or.inl (check_of_free hG.cov hpp.1 hpp.2 hc)
  · exact Or.inr ⟨hr, check_of_free hG.cov hpp.2 hpp.1 hc⟩

/-- a point outside the container can take nothing -/
theorem not_canAdd_outside {W L : Nat} {rot : Bool} {layout : List Rect} {d : Dim} {x y : Nat}
    (hw : 0 < d.w) (hl : 0 < d.l) (h : W ≤ x ∨ L ≤ y) : ¬ CanAdd W L rot layout d x y := by
  rintro (⟨⟨h1, h2⟩, _⟩ | ⟨_, ⟨h1, h2⟩, _⟩) <;> simp only at h1 h2 <;> omega

/-- what the end of a run with left-over items tells about the layout -/
theorem leftover_dead {P : CParams} {items0 : PyDict String Dim} {s : CState}
    (hI : I0 P s) (hG : GInv P items0 s) (hQ : QInv P s) (hD : Done s) (hobj : ¬ s.obj ≥ 1) :
    ∀ it ∈ s.items,
      ¬ CanAdd P.W P.L P.rot (s.placed.map Placed.rect) it.2 0 0 ∧
      (.A ∈ P.strategy → .A__ ∈ P.strategy → ∀ p ∈ s.placed,
        ¬ CanAdd P.W P.L P.rot (s.placed.map Placed.rect) it.2 p.rect.x (p.rect.y + p.rect.l)) ∧
      (.B ∈ P.strategy → .B__ ∈ P.strategy → ∀ p ∈ s.placed,
        ¬ CanAdd P.W P.L P.rot (s.placed.map Placed.rect) it.2 (p.rect.x + p.rect.w) p.rect.y) := by
  intro it hit
  have hne : s.ids ≠ [] := by
    rw [hI.ids]
    intro h0
    have : it.1 ∈ PyDict.keys s.items := List.mem_map.2 ⟨it, hit, rfl⟩
    rw [h0] at this; simp at this
  have hcur : s.cur = none := by
    rcases hD with h | h | h
    · exact h
    · exact absurd h hne
    · exact absurd h hobj
  have hfin := hQ.fin hcur
  have hpp := hI.pos it hit
  refine ⟨?_, ?_, ?_⟩
  · have : Dead P s ⟨0, 0⟩ := by
      rcases hQ.org with ⟨c, hc, _⟩ | h | h
      · simp at hc
      · rw [hcur] at h; simp at h
      · exact h
    exact not_canAdd_of_dead hG hI.pos this it hit
  · intro hA hA2 p hp
    by_cases hL : p.rect.y + p.rect.l < P.L
    · have : Dead P s ⟨p.rect.x, p.rect.y + p.rect.l⟩ := by
        rcases hQ.tl p hp hL with ⟨c, hc, hq⟩ | h | h
        · have : s.pools.get c = [] := by
            apply hfin
            simp at hc
            rcases hc with rfl | rfl
            · exact hA
            · exact hA2
          rw [this] at hq; simp at hq
        · rw [hcur] at h; simp at h
        · exact h
      exact not_canAdd_of_dead hG hI.pos this it hit
    · exact not_canAdd_outside hpp.1 hpp.2 (Or.inr (by omega))
  · intro hB hB2 p hp
    by_cases hW : p.rect.x + p.rect.w < P.W
    · have : Dead P s ⟨p.rect.x + p.rect.w, p.rect.y⟩ := by
        rcases hQ.br p hp hW with ⟨c, hc, hq⟩ | h | h
        · have : s.pools.get c = [] := by
            apply hfin
            simp at hc
            rcases hc with rfl | rfl
            · exact hB
            · exact hB2
          rw [this] at hq; simp at hq
        · rw [hcur] at h; simp at h
        · exact h
      exact not_canAdd_of_dead hG hI.pos this it hit
    · exact not_canAdd_outside hpp.1 hpp.2 (Or.inl (by omega))

/-! ### The first item -/

theorem FitsChk_empty (P : CParams) {items : PyDict String Dim} (d : Dim) :
    FitsChk P (constructInit P items).grid ⟨0, 0⟩ d ↔ FitsEmpty P.W P.L P.rot d := by
  have : ∀ w l, CheckSpec (constructInit P items).grid P.W P.L 0 0 w l ↔ w ≤ P.W ∧ l ≤ P.L := by
    intro w l
    unfold CheckSpec constructInit
    simp only [cell_empty, Nat.zero_add, implies_true, and_true]
  unfold FitsChk FitsEmpty
  simp only [this]

/-- the first placement of a container -/
def FirstIs (P : CParams) (items0 : PyDict String Dim) (placed : List Placed) : Prop :=
  ∃ pre id d post ro, items0 = pre ++ (id, d) :: post ∧
    (∀ p ∈ pre, ¬ FitsEmpty P.W P.L P.rot p.2) ∧
    placed.head? = some ⟨id, d, 0, 0, ro⟩ ∧
    (ro = false → d.w ≤ P.W ∧ d.l ≤ P.L) ∧
    (ro = true → P.rot = true ∧ ¬ (d.w ≤ P.W ∧ d.l ≤ P.L) ∧ d.l ≤ P.W ∧ d.w ≤ P.L)

theorem StepRel_placed {P : CParams} {s s' : CState} {pt : Pt} (h : StepRel P s pt s') :
    s'.placed = s.placed ∨ ∃ p, s'.placed = s.placed ++ [p] := by
  obtain ⟨s1, ha, rfl⟩ := h
  rcases ha with ⟨rfl, _⟩ | ⟨id, d, ro, g, gen, pre, post, _, _, _, _, _, _, _, rfl⟩
  · exact Or.inl rfl
  · exact Or.inr ⟨_, rfl⟩

theorem Run_first {P : CParams} {items : PyDict String Dim} {n : Nat} {s : CState}
    (hg : GoodItems items) (h : Run P (constructInit P items) n s) :
    n = 0 ∧ s = constructInit P items ∨ 0 < n ∧
      ((∃ p ∈ items, FitsEmpty P.W P.L P.rot p.2) → FirstIs P items s.placed) := by
  induction h with
  | refl => exact Or.inl ⟨rfl, rfl⟩
  | @step n s pt s' hr hI hA hS hI' ih =>
    right
    refine ⟨by omega, ?_⟩
    intro hex
    rcases ih with ⟨_, rfl⟩ | ⟨_, ih⟩
    · have hpt : pt = ⟨0, 0⟩ := by
        have := hA.1; simp [constructInit] at this; exact this.symm
      subst hpt
      obtain ⟨s1, ha, rfl⟩ := hS
      rcases ha with ⟨rfl, hn⟩ | ⟨id, d, ro, g, gen, pre, post, hd, hids, hpre, hchk, hro, _, _, rfl⟩
      · obtain ⟨p, hp, hf⟩ := hex
        exact absurd ((FitsChk_empty P p.2).2 hf) (hn p hp)
      · have hm := PyDict.find?_mem hd
        -- split items at the chosen entry
        have hids' : PyDict.keys items = pre ++ id :: post := hids
        obtain ⟨pi, rest, e1, e2, e3⟩ := List.map_eq_append_iff.1 hids'
        obtain ⟨q, pj, e4, e5, e6⟩ := List.map_eq_cons_iff.1 e3
        have hq : q = (id, d) := by
          obtain ⟨qi, qd⟩ := q
          simp only at e5; subst e5
          have hmem : (qi, qd) ∈ items := by rw [e1, e4]; simp
          have := PyDict.find?_of_mem hg.1 hmem
          have hd' : PyDict.find? items qi = some d := hd
          rw [hd'] at this; injection this with this; rw [this]
        subst hq
        have hspec : ∀ w l, CheckSpec (constructInit P items).grid P.W P.L 0 0 w l ↔
            w ≤ P.W ∧ l ≤ P.L := by
          intro w l
          unfold CheckSpec constructInit
          simp only [cell_empty, Nat.zero_add, implies_true, and_true]
        refine ⟨pi, id, d, pj, ro, by rw [e1, e4], ?_, by simp [constructInit], ?_, ?_⟩
        · intro p hp hf
          obtain ⟨pid, pd⟩ := p
          have hmem : (pid, pd) ∈ items := by rw [e1]; exact List.mem_append_left _ hp
          exact hpre pid (by rw [← e2]; exact List.mem_map.2 ⟨_, hp, rfl⟩) pd
            (PyDict.find?_of_mem hg.1 hmem) ((FitsChk_empty P pd).2 hf)
        · intro h; subst h
          exact (hspec _ _).1 hchk
        · intro h; subst h
          have h1 := hro rfl
          refine ⟨h1.1, fun hh => h1.2 ((hspec _ _).2 hh), (hspec _ _).1 hchk⟩
    · obtain ⟨pre, id, d, post, ro, h1, h2, h3, h4⟩ := ih hex
      refine ⟨pre, id, d, post, ro, h1, h2, ?_, h4⟩
      rcases StepRel_placed hS with h | ⟨p, h⟩
      · rw [h]; exact h3
      · rw [h, List.head?_append, h3]; rfl

/-! ### Strategies restricted to A points or to B points -/

theorem Run_onlyA {P : CParams} {items : PyDict String Dim} {n : Nat} {s : CState}
    (hs : ∀ c ∈ P.strategy, c = .A ∨ c = .A__)
    (h : Run P (constructInit P items) n s) :
    (∀ p ∈ s.placed, p.x = 0) ∧ (∀ q, s.cur = some q → q.x = 0) ∧
    (∀ q ∈ s.pools.get .A, q.x = 0) ∧ (∀ q ∈ s.pools.get .A__, q.x = 0) := by
  induction h with
  | refl => simp [constructInit, Pools.get]
  | @step n s pt s' hr hI hA hS hI' ih =>
    obtain ⟨i1, i2, i3, i4⟩ := ih
    have hx := i2 pt hA.1
    obtain ⟨s1, ha, rfl⟩ := hS
    have key : (∀ p ∈ s1.placed, p.x = 0) ∧
        (∀ q ∈ s1.pools.get .A, q.x = 0) ∧ (∀ q ∈ s1.pools.get .A__, q.x = 0) := by
      rcases ha with ⟨rfl, hn⟩ | ⟨id, d, ro, g, gen, pre, post, hd, hids, hpre, hchk, hro, hg, hgen, rfl⟩
      · exact ⟨i1, i3, i4⟩
      have hdp := hI.pos _ (PyDict.find?_mem hd)
      have hw : 0 < effW d ro := by unfold effW; split; exact hdp.2; exact hdp.1
      have hl : 0 < effL d ro := by unfold effL; split; exact hdp.1; exact hdp.2
      obtain ⟨g', hg', hgwf, hgc⟩ := fillItem_eq hI.wf hw hl hchk.1 hchk.2.1
      rw [hg] at hg'; injection hg' with hg'; subst hg'
      have hfil : Filled g pt.x pt.y (effW d ro) (effL d ro) := by
        intro j i h1 h2 h3 h4
        rw [hgc, if_pos ⟨⟨h1, h2⟩, h3, h4⟩]
        exact markOf_ne_zero _ _ _ _ _ _
      obtain ⟨gen', hgen', _, _, _, _, hk⟩ :=
        generatePoints_spec P.ar hgwf hw hl hchk.1 hchk.2.1 hfil
      rw [hgen] at hgen'; injection hgen' with hgen'; subst hgen'
      refine ⟨?_, ?_, ?_⟩
      · intro p hp
        rcases List.mem_append.1 hp with hp | hp
        · exact i1 p hp
        · simp at hp; subst hp; exact hx
      · intro q hq
        rcases mem_pushAll hq with h | h
        · exact i3 q h
        · have : q = _ := (hk _ h).1 (Or.inl rfl)
          rw [this]; exact hx
      · intro q hq
        rcases mem_pushAll hq with h | h
        · exact i4 q h
        · have : q = _ := (hk _ h).1 (Or.inr rfl)
          rw [this]; exact hx
    obtain ⟨k1, k2, k3⟩ := key
    refine ⟨k1, ?_, ?_, ?_⟩ <;>
      rcases getCurrentPoint_spec P.strategy s1.pools with ⟨h1, h2⟩ | ⟨pre, c, post, q, rest, h1, h2, h3, h4⟩
    · rw [h1]; simp
    · rw [h4]
      intro q' hq'
      injection hq' with hq'; subst hq'
      rcases hs c (by rw [h1]; simp) with rfl | rfl
      · exact k2 q (by rw [h3]; simp)
      · exact k3 q (by rw [h3]; simp)
    · rw [h1]; exact k2
    · rw [h4]
      intro q' hq'
      by_cases hc : PClass.A = c
      · subst hc; simp only at hq'; rw [Pools.get_set_self] at hq'
        exact k2 q' (by rw [h3]; exact List.mem_cons_of_mem _ hq')
      · simp only at hq'; rw [Pools.get_set_ne _ _ hc] at hq'; exact k2 q' hq'
    · rw [h1]; exact k3
    · rw [h4]
      intro q' hq'
      by_cases hc : PClass.A__ = c
      · subst hc; simp only at hq'; rw [Pools.get_set_self] at hq'
        exact k3 q' (by rw [h3]; exact List.mem_cons_of_mem _ hq')
      · simp only at hq'; rw [Pools.get_set_ne _ _ hc] at hq'; exact k3 q' hq'

theorem Run_onlyB {P : CParams} {items : PyDict String Dim} {n : Nat} {s : CState}
    (hs : ∀ c ∈ P.strategy, c = .B ∨ c = .B__)
    (h : Run P (constructInit P items) n s) :
    (∀ p ∈ s.placed, p.y = 0) ∧ (∀ q, s.cur = some q → q.y = 0) ∧
    (∀ q ∈ s.pools.get .B, q.y = 0) ∧ (∀ q ∈ s.pools.get .B__, q.y = 0) := by
  induction h with
  | refl => simp [constructInit, Pools.get]
  | @step n s pt s' hr hI hA hS hI' ih =>
    obtain ⟨i1, i2, i3, i4⟩ := ih
    have hx := i2 pt hA.1
    obtain ⟨s1, ha, rfl⟩ := hS
    have key : (∀ p ∈ s1.placed, p.y = 0) ∧
        (∀ q ∈ s1.pools.get .B, q.y = 0) ∧ (∀ q ∈ s1.pools.get .B__, q.y = 0) := by
      rcases ha with ⟨rfl, hn⟩ | ⟨id, d, ro, g, gen, pre, post, hd, hids, hpre, hchk, hro, hg, hgen, rfl⟩
      · exact ⟨i1, i3, i4⟩
      have hdp := hI.pos _ (PyDict.find?_mem hd)
      have hw : 0 < effW d ro := by unfold effW; split; exact hdp.2; exact hdp.1
      have hl : 0 < effL d ro := by unfold effL; split; exact hdp.1; exact hdp.2
      obtain ⟨g', hg', hgwf, hgc⟩ := fillItem_eq hI.wf hw hl hchk.1 hchk.2.1
      rw [hg] at hg'; injection hg' with hg'; subst hg'
      have hfil : Filled g pt.x pt.y (effW d ro) (effL d ro) := by
        intro j i h1 h2 h3 h4
        rw [hgc, if_pos ⟨⟨h1, h2⟩, h3, h4⟩]
        exact markOf_ne_zero _ _ _ _ _ _
      obtain ⟨gen', hgen', _, _, _, _, hk⟩ :=
        generatePoints_spec P.ar hgwf hw hl hchk.1 hchk.2.1 hfil
      rw [hgen] at hgen'; injection hgen' with hgen'; subst hgen'
      refine ⟨?_, ?_, ?_⟩
      · intro p hp
        rcases List.mem_append.1 hp with hp | hp
        · exact i1 p hp
        · simp at hp; subst hp; exact hx
      · intro q hq
        rcases mem_pushAll hq with h | h
        · exact i3 q h
        · have : q = _ := (hk _ h).2 (Or.inl rfl)
          rw [this]; exact hx
      · intro q hq
        rcases mem_pushAll hq with h | h
        · exact i4 q h
        · have : q = _ := (hk _ h).2 (Or.inr rfl)
          rw [this]; exact hx
    obtain ⟨k1, k2, k3⟩ := key
    refine ⟨k1, ?_, ?_, ?_⟩ <;>
      rcases getCurrentPoint_spec P.strategy s1.pools with ⟨h1, h2⟩ | ⟨pre, c, post, q, rest, h1, h2, h3, h4⟩
    · rw [h1]; simp
    · rw [h4]
      intro q' hq'
      injection hq' with hq'; subst hq'
      rcases hs c (by rw [h1]; simp) with rfl | rfl
      · exact k2 q (by rw [h3]; simp)
      · exact k3 q (by rw [h3]; simp)
    · rw [h1]; exact k2
    · rw [h4]
      intro q' hq'
      by_cases hc : PClass.B = c
      · subst hc; simp only at hq'; rw [Pools.get_set_self] at hq'
        exact k2 q' (by rw [h3]; exact List.mem_cons_of_mem _ hq')
      · simp only at hq'; rw [Pools.get_set_ne _ _ hc] at hq'; exact k2 q' hq'
    · rw [h1]; exact k3
    · rw [h4]
      intro q' hq'
      by_cases hc : PClass.B__ = c
      · subst hc; simp only at hq'; rw [Pools.get_set_self] at hq'
        exact k3 q' (by rw [h3]; exact List.mem_cons_of_mem _ hq')
      · simp only at hq'; rw [Pools.get_set_ne _ _ hc] at hq'; exact k3 q' hq'

/-- with an empty strategy only the initial point is used -/
theorem Run_noStrategy {P : CParams} {items : PyDict String Dim} {n : Nat} {s : CState}
    (hs : P.strategy = []) (h : Run P (constructInit P items) n s) :
    s.placed.length ≤ 1 ∧ (s.cur ≠ none → s.placed = []) := by
  induction h with
  | refl => simp [constructInit]
  | @step n s pt s' hr hI hA hS hI' ih =>
    have h0 := ih.2 (by rw [hA.1]; simp)
    have h1 := StepRel_placed hS
    obtain ⟨s1, ha, rfl⟩ := hS
    constructor
    · rcases h1 with h | ⟨p, h⟩ <;> rw [h, h0] <;> simp
    · rw [hs]; simp [getCurrentPoint]

end HP
