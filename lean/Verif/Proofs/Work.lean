import Verif.Props.Visited
import Verif.Proofs.Heuristic
/-
How many points a construction visits: counting arguments for C101.
-/
namespace HP
open Spec

/-- counting along a relation that is functional from the right -/
theorem length_le_of_rel {α β : Type} {R : α → β → Prop} {l : List α} {rs : List β}
    (hn : l.Nodup) (hex : ∀ x ∈ l, ∃ q ∈ rs, R x q)
    (hinj : ∀ x ∈ l, ∀ y ∈ l, ∀ q, R x q → R y q → x = y) : l.length ≤ rs.length := by
  classical
  induction l generalizing rs with
  | nil => simp
  | cons a l ih =>
    obtain ⟨q, hq, hR⟩ := hex a (by simp)
    have hn' := List.nodup_cons.1 hn
    have : l.length ≤ (rs.erase q).length := by
      refine ih hn'.2 ?_ (fun x hx y hy => hinj x (by simp [hx]) y (by simp [hy]))
      intro x hx
      obtain ⟨q', hq', hR'⟩ := hex x (by simp [hx])
      refine ⟨q', ?_, hR'⟩
      have hne : q' ≠ q := by
        rintro rfl
        have := hinj a (by simp) x (by simp [hx]) _ hR hR'
        subst this
        exact hn'.1 hx
      exact (List.mem_erase_of_ne hne).2 hq'
    rw [List.length_erase_of_mem hq] at this
    have := List.length_pos_of_mem hq
    simp only [List.length_cons]
    omega

theorem scanC_hits {g : Grid} {W L : Nat} (h : WF g W L) {Ay : Nat} (hA : Ay < L) :
    ∀ (xs : List Nat) (pts : GenPts), (∀ x ∈ xs, x + 1 < W) → scanC g Ay xs = .ok pts →
      ∃ hs : List Nat, hs.Sublist xs ∧ pts = hs.map (fun x => (.C, ⟨x + 1, Ay⟩)) ∧
        ∀ x ∈ hs, cell g Ay x ≠ 0 ∧ cell g Ay (x + 1) = 0
  | [], pts, _, e => by
    injection e with e; subst e
    exact ⟨[], List.Sublist.refl _, rfl, by simp⟩
  | x :: xs, pts, hx, e => by
    have hx1 := hx x (by simp)
    unfold scanC at e
    simp only [bind, Except.bind] at e
    rw [rd_eq h hA (by omega : x < W), show ((x : Int) + 1) = ((x + 1 : Nat) : Int) by omega,
      rd_eq h hA hx1] at e
    cases hr : scanC g Ay xs with
    | error er => rw [hr] at e; split at e <;> cases e
    | ok rest =>
      obtain ⟨hs, h1, h2, h3⟩ := scanC_hits h hA xs rest (fun z hz => hx z (by simp [hz])) hr
      rw [hr] at e
      by_cases c1 : cell g Ay x = 3
      · by_cases c2 : cell g Ay (x + 1) = 0
        · simp [testP, andP, c1, c2, pure, Except.pure, bind, Except.bind] at e
          refine ⟨x :: hs, h1.cons_cons x, by rw [← e, h2]; rfl, ?_⟩
          intro z hz
          rcases List.mem_cons.1 hz with rfl | hz
          · exact ⟨by rw [c1]; simp, c2⟩
          · exact h3 z hz
        · simp [testP, andP, c1, c2, pure, Except.pure, bind, Except.bind] at e
          exact ⟨hs, h1.cons x, by rw [← e, h2], h3⟩
      · have c1' : (cell g Ay x == 3) = false := by simpa using c1
        simp [testP, andP, c1', pure, Except.pure, bind, Except.bind] at e
        exact ⟨hs, h1.cons x, by rw [← e, h2], h3⟩

theorem scanD_hits {g : Grid} {W L : Nat} (h : WF g W L) {Bx : Nat} (hB : Bx < W) :
    ∀ (ys : List Nat) (pts : GenPts), (∀ y ∈ ys, y + 1 < L) → scanD g Bx ys = .ok pts →
      ∃ hs : List Nat, hs.Sublist ys ∧ pts = hs.map (fun y => (.D, ⟨Bx, y + 1⟩)) ∧
        ∀ y ∈ hs, cell g y Bx ≠ 0 ∧ cell g (y + 1) Bx = 0
  | [], pts, _, e => by
    injection e with e; subst e
    exact ⟨[], List.Sublist.refl _, rfl, by simp⟩
  | y :: ys, pts, hy, e => by
    have hy1 := hy y (by simp)
    unfold scanD at e
    simp only [bind, Except.bind] at e
    rw [rd_eq h (by omega : y < L) hB, show ((y : Int) + 1) = ((y + 1 : Nat) : Int) by omega,
      rd_eq h hy1 hB] at e
    cases hr : scanD g Bx ys with
    | error er => rw [hr] at e; split at e <;> cases e
    | ok rest =>
      obtain ⟨hs, h1, h2, h3⟩ := scanD_hits h hB ys rest (fun z hz => hy z (by simp [hz])) hr
      rw [hr] at e
      by_cases c1 : cell g y Bx = 3
      · by_cases c2 : cell g (y + 1) Bx = 0
        · simp [testP, andP, c1, c2, pure, Except.pure, bind, Except.bind] at e
          refine ⟨y :: hs, h1.cons_cons y, by rw [← e, h2]; rfl, ?_⟩
          intro z hz
          rcases List.mem_cons.1 hz with rfl | hz
          · exact ⟨by rw [c1]; simp, c2⟩
          · exact h3 z hz
        · simp [testP, andP, c1, c2, pure, Except.pure, bind, Except.bind] at e
          exact ⟨hs, h1.cons y, by rw [← e, h2], h3⟩
      · have c1' : (cell g y Bx == 3) = false := by simpa using c1
        simp [testP, andP, c1', pure, Except.pure, bind, Except.bind] at e
        exact ⟨hs, h1.cons y, by rw [← e, h2], h3⟩

/-- what the C points of a placed rectangle are, without any assumption on overlaps -/
theorem genC_hits {g : Grid} {W L : Nat} (h : WF g W L) {X Y w l : Nat} (hX : X + w ≤ W)
    {pts : GenPts} (e : genC g L X Y w l = .ok pts) :
    ∃ hs : List Nat, hs.Nodup ∧ pts = hs.map (fun x => (.C, ⟨x + 1, Y + l⟩)) ∧
      ∀ x ∈ hs, Y + l < L ∧ X ≤ x ∧ x + 1 < X + w ∧ cell g (Y + l) x ≠ 0 ∧
        cell g (Y + l) (x + 1) = 0 := by
  unfold genC at e
  simp only at e
  by_cases h1 : Y + l < L
  · rw [if_pos h1] at e
    obtain ⟨hs, s1, s2, s3⟩ := scanC_hits h h1 _ _ (by
      intro x hx; rw [List.mem_range'_1] at hx; omega) e
    refine ⟨hs, s1.nodup (List.nodup_range'), s2, ?_⟩
    intro x hx
    have := s1.subset hx
    rw [List.mem_range'_1] at this
    have h3 := s3 x hx
    exact ⟨h1, by omega, by omega, h3.1, h3.2⟩
  · rw [if_neg h1] at e
    injection e with e; subst e
    exact ⟨[], List.nodup_nil, rfl, by simp⟩

theorem genD_hits {g : Grid} {W L : Nat} (h : WF g W L) {X Y w l : Nat} (hY : Y + l ≤ L)
    {pts : GenPts} (e : genD g W X Y w l = .ok pts) :
    ∃ hs : List Nat, hs.Nodup ∧ pts = hs.map (fun y => (.D, ⟨X + w, y + 1⟩)) ∧
      ∀ y ∈ hs, X + w < W ∧ Y ≤ y ∧ y + 1 < Y + l ∧ cell g y (X + w) ≠ 0 ∧
        cell g (y + 1) (X + w) = 0 := by
  unfold genD at e
  simp only at e
  by_cases h1 : X + w < W
  · rw [if_pos h1] at e
    obtain ⟨hs, s1, s2, s3⟩ := scanD_hits h h1 _ _ (by
      intro x hx; rw [List.mem_range'_1] at hx; omega) e
    refine ⟨hs, s1.nodup (List.nodup_range'), s2, ?_⟩
    intro x hx
    have := s1.subset hx
    rw [List.mem_range'_1] at this
    have h3 := s3 x hx
    exact ⟨h1, by omega, by omega, h3.1, h3.2⟩
  · rw [if_neg h1] at e
    injection e with e; subst e
    exact ⟨[], List.nodup_nil, rfl, by simp⟩

/-- the parts of `_generate_points` -/
theorem generatePoints_parts (A : Arith) {g : Grid} {W L : Nat} (h : WF g W L)
    {X Y w l : Nat} (hw : 0 < w) (hl : 0 < l) (hX : X + w ≤ W) (hY : Y + l ≤ L)
    (hf : Filled g X Y w l) {gen : GenPts} (e : generatePoints A g W L X Y w l = .ok gen) :
    ∃ (ab c d : GenPts), gen = ab ++ c ++ d ∧ ab.length ≤ 4 ∧
      genC g L X Y w l = .ok c ∧ genD g W X Y w l = .ok d := by
  obtain ⟨a, ha, la, _, _, _⟩ := genA_spec A h hw hl hX hY hf
  obtain ⟨b, hb, lb, _, _, _⟩ := genB_spec A h hw hl hX hY hf
  unfold generatePoints at e
  simp only [bind, Except.bind] at e
  rw [ha] at e; simp only at e
  rw [hb] at e; simp only at e
  cases hc : genC g L X Y w l with
  | error er => rw [hc] at e; cases e
  | ok c =>
    rw [hc] at e; simp only at e
    cases hd : genD g W X Y w l with
    | error er => rw [hd] at e; cases e
    | ok d =>
      rw [hd] at e
      simp only [pure, Except.pure] at e
      injection e with e
      exact ⟨a ++ b, c, d, e.symm, by simp only [List.length_append]; omega, rfl, rfl⟩

/-- C and D points of one placement: each comes from another rectangle placed before -/
theorem cd_le {g g0 : Grid} {W L : Nat} (h : WF g W L) {rs : List Rect}
    (hcov0 : ∀ y x, cell g0 y x ≠ 0 ↔ Covered rs x y) {X Y w l : Nat} (hX : X + w ≤ W)
    (hY : Y + l ≤ L)
    (hgc : ∀ j i, cell g j i = if (X ≤ i ∧ i < X + w) ∧ (Y ≤ j ∧ j < Y + l) then markOf X Y w l j i
      else cell g0 j i)
    {c d : GenPts} (hc : genC g L X Y w l = .ok c) (hd : genD g W X Y w l = .ok d) :
    c.length + d.length ≤ rs.length := by
  obtain ⟨xs, n1, e1, p1⟩ := genC_hits h hX hc
  obtain ⟨ys, n2, e2, p2⟩ := genD_hits h hY hd
  have old : ∀ y x, ¬ (X ≤ x ∧ x < X + w ∧ Y ≤ y ∧ y < Y + l) → cell g y x = cell g0 y x := by
    intro y x hn
    rw [hgc, if_neg (by omega)]
  have key : (xs.map Sum.inl ++ ys.map Sum.inr : List (Nat ⊕ Nat)).length ≤ rs.length := by
    refine length_le_of_rel (R := fun z q => match z with
      | .inl x => q.x + q.w = x + 1 ∧ x + 1 < X + w
      | .inr y => q.y + q.l = y + 1 ∧ X + w < q.x + q.w) ?_ ?_ ?_
    · refine List.Nodup.append (n1.map Sum.inl_injective) (n2.map Sum.inr_injective) ?_
      intro z hz hz'
      simp only [List.mem_map] at hz hz'
      obtain ⟨a, _, rfl⟩ := hz
      obtain ⟨b, _, hb⟩ := hz'
      cases hb
    · intro z hz
      rcases List.mem_append.1 hz with hz | hz
      · simp only [List.mem_map] at hz
        obtain ⟨x, hx, rfl⟩ := hz
        obtain ⟨a1, a2, a3, a4, a5⟩ := p1 x hx
        rw [old _ _ (by omega)] at a4 a5
        obtain ⟨q, hq, hcq⟩ := (hcov0 _ _).1 a4
        have hn : ¬ Covers q (x + 1) (Y + l) := fun hh => (hcov0 _ _).2 ⟨q, hq, hh⟩ a5
        unfold Covers at hcq hn
        exact ⟨q, hq, by simp only; omega⟩
      · simp only [List.mem_map] at hz
        obtain ⟨y, hy, rfl⟩ := hz
        obtain ⟨a1, a2, a3, a4, a5⟩ := p2 y hy
        rw [old _ _ (by omega)] at a4 a5
        obtain ⟨q, hq, hcq⟩ := (hcov0 _ _).1 a4
        have hn : ¬ Covers q (X + w) (y + 1) := fun hh => (hcov0 _ _).2 ⟨q, hq, hh⟩ a5
        unfold Covers at hcq hn
        exact ⟨q, hq, by simp only; omega⟩
    · intro a _ b _ q h1 h2
      cases a <;> cases b <;> simp only at h1 h2
      · congr 1; omega
      · omega
      · omega
      · congr 1; omega
  simpa [e1, e2] using key

/-- taking the next point -/
theorem take_size (strategy : List PClass) (p : Pools) :
    (getCurrentPoint p strategy).2.size +
      (if (getCurrentPoint p strategy).1.isSome then 1 else 0) = p.size := by
  rcases getCurrentPoint_spec strategy p with ⟨h1, _⟩ | ⟨pre, c, post, q, rest, _, _, h3, h4⟩
  · rw [h1]; simp
  · rw [h4]
    have := Pools.size_set p c rest
    rw [h3] at this
    simp at this ⊢
    omega

/-- points handled, pending and current after `n` rounds -/
def pointCount (n : Nat) (s : CState) : Nat :=
  n + s.pools.size + (if s.cur.isSome then 1 else 0)

theorem Run_count {P : CParams} {items0 : PyDict String Dim} {s0 s : CState} {n : Nat}
    (h0 : GInv P items0 s0) (hp : s0.placed = []) (h : Run P s0 n s) :
    2 * pointCount n s ≤ 2 * pointCount 0 s0 + s.placed.length * s.placed.length +
      7 * s.placed.length := by
  induction h with
  | refl => omega
  | @step n s pt s' hrun hI hA hS _ ih =>
    have hG := Run_GInv h0 hrun
    obtain ⟨s1, ha, rfl⟩ := hS
    have ht := take_size P.strategy s1.pools
    unfold pointCount at ih ⊢
    simp only at ht ⊢
    rw [hA.1] at ih
    simp only [Option.isSome_some, if_true] at ih
    rcases ha with ⟨rfl, _⟩ | ⟨id, d, ro, g, gen, pre, post, hd, _, _, hchk, _, hg, hgen, rfl⟩
    · omega
    · have hdp := hI.pos _ (PyDict.find?_mem hd)
      have hw : 0 < effW d ro := by unfold effW; split; exact hdp.2; exact hdp.1
      have hl : 0 < effL d ro := by unfold effL; split; exact hdp.1; exact hdp.2
      obtain ⟨g', hg', hgwf, hgc⟩ := fillItem_eq hI.wf hw hl hchk.1 hchk.2.1
      rw [hg] at hg'; injection hg' with hg'; subst hg'
      have hfil : Filled g pt.x pt.y (effW d ro) (effL d ro) := by
        intro j i h1 h2 h3 h4
        rw [hgc, if_pos ⟨⟨h1, h2⟩, h3, h4⟩]
        exact markOf_ne_zero _ _ _ _ _ _
      obtain ⟨ab, c, d', e, l1, hc, hd'⟩ :=
        generatePoints_parts P.ar hgwf hw hl hchk.1 hchk.2.1 hfil hgen
      have l2 := cd_le (rs := s.rects) hgwf (g0 := s.grid) (by
        intro y x
        rw [hG.cov]
        unfold Covered CState.rects
        simp) hchk.1 hchk.2.1 hgc hc hd'
      have l3 : s.rects.length = s.placed.length := by unfold CState.rects; simp
      subst e
      simp only at ht
      rw [Pools.size_pushAll] at ht
      simp only [List.length_append, List.length_cons, List.length_nil] at ht ⊢
      have sq : (s.placed.length + (0 + 1)) * (s.placed.length + (0 + 1)) =
          s.placed.length * s.placed.length + 2 * s.placed.length + 1 := by
        simp only [Nat.zero_add, Nat.add_mul, Nat.mul_add]; omega
      rw [sq]
      omega

/-- the record of the run has one entry per round -/
theorem usedPoints_run (P : CParams) : ∀ (fuel : Nat) (s s' : CState), I0 P s →
    constructLoop P fuel s = .ok s' → Run P s (usedPoints P fuel s).length s'
  | 0, s, s', _, h => by simp [constructLoop] at h
  | fuel + 1, s, s', hI, h => by
    unfold constructLoop at h
    unfold usedPoints
    cases hcur : s.cur with
    | none =>
      rw [hcur] at h; simp only at h
      injection h with h; subst h
      exact .refl
    | some pt =>
      rw [hcur] at h; simp only at h ⊢
      by_cases hd : s.ids = [] ∨ s.obj ≥ 1
      · rw [if_pos hd] at h ⊢
        injection h with h; subst h
        exact .refl
      · rw [if_neg hd] at h ⊢
        obtain ⟨s1, e1, r1, i1, _⟩ := constructStep_tot hI hcur
        rw [e1] at h ⊢
        simp only [bind, Except.bind] at h
        exact Run.cons hI ⟨hcur, fun h => hd (Or.inl h), fun h => hd (Or.inr h)⟩ r1 i1
          (usedPoints_run P fuel s1 s' i1 h)

/-! ### without overlaps: a linear bound -/

/-- ghost data of a run: the C and the D points spawned so far are all different, a C point is the
bottom right corner and a D point the top left corner of some rectangle, and the cell diagonally
before a spawned point is covered -/
structure SpawnedPts (rs : List Rect) (cs ds : List Pt) : Prop where
  nodC : cs.Nodup
  nodD : ds.Nodup
  cornerC : ∀ p ∈ cs, ∃ q ∈ rs, p = ⟨q.x + q.w, q.y⟩
  cornerD : ∀ p ∈ ds, ∃ q ∈ rs, p = ⟨q.x, q.y + q.l⟩
  covC : ∀ p ∈ cs, Covered rs (p.x - 1) (p.y - 1)
  covD : ∀ p ∈ ds, Covered rs (p.x - 1) (p.y - 1)

theorem SpawnedPts.bound {rs : List Rect} {cs ds : List Pt} (h : SpawnedPts rs cs ds) :
    cs.length + ds.length ≤ 2 * rs.length := by
  have h1 := length_le_of_rel (R := fun (p : Pt) (q : Rect) => p = ⟨q.x + q.w, q.y⟩) h.nodC h.cornerC
    (by intro x _ y _ q h1 h2; rw [h1, h2])
  have h2 := length_le_of_rel (R := fun (p : Pt) (q : Rect) => p = ⟨q.x, q.y + q.l⟩) h.nodD h.cornerD
    (by intro x _ y _ q h1 h2; rw [h1, h2])
  omega

theorem covered_append {rs : List Rect} {x y : Nat} (h : Covered rs x y) (r : Rect) :
    Covered (rs ++ [r]) x y := by
  obtain ⟨q, hq, hc⟩ := h
  exact ⟨q, by simp [hq], hc⟩

theorem SpawnedPts.add {rs : List Rect} {cs ds : List Pt} (h : SpawnedPts rs cs ds) {r : Rect}
    {g : Grid} {W L : Nat} (hM : Marks g W L (rs ++ [r])) (hr : r ∉ rs)
    (hw : 0 < r.w) (hl : 0 < r.l) {c d : GenPts} (hc : genC g L r.x r.y r.w r.l = .ok c)
    (hd : genD g W r.x r.y r.w r.l = .ok d) :
    SpawnedPts (rs ++ [r]) (cs ++ c.map (·.2)) (ds ++ d.map (·.2)) := by
  have hrm : r ∈ rs ++ [r] := by simp
  obtain ⟨xs, e1, o1, m1⟩ := genC_eq hM hrm hl
  obtain ⟨ys, e2, o2, m2⟩ := genD_eq hM hrm hw
  rw [hc] at e1; injection e1 with e1
  rw [hd] at e2; injection e2 with e2
  have ec : c.map (·.2) = xs.map (fun x => (⟨x + 1, r.y + r.l⟩ : Pt)) := by
    rw [e1, List.map_map]; rfl
  have ed : d.map (·.2) = ys.map (fun y => (⟨r.x + r.w, y + 1⟩ : Pt)) := by
    rw [e2, List.map_map]; rfl
  rw [ec, ed]
  have fresh : ∀ x y, Covers r x y → ¬ Covered rs x y := by
    rintro x y h1 ⟨q, hq, h2⟩
    have := hM.disj r hrm q (by simp [hq]) x y h1 h2
    subst this
    exact hr hq
  have covx : ∀ x ∈ xs, Covers r x (r.y + r.l - 1) := by
    intro x hx
    have := (m1 x).1 hx
    unfold Covers; omega
  have covy : ∀ y ∈ ys, Covers r (r.x + r.w - 1) y := by
    intro y hy
    have := (m2 y).1 hy
    unfold Covers; omega
  refine ⟨?_, ?_, ?_, ?_, ?_, ?_⟩
  · refine List.Nodup.append h.nodC ?_ ?_
    · refine (List.Nodup.map ?_ (o1.imp (fun h => Nat.ne_of_lt h)))
      intro a b hab; simp at hab; exact hab
    · intro p hp hp'
      simp only [List.mem_map] at hp'
      obtain ⟨x, hx, rfl⟩ := hp'
      exact fresh _ _ (covx x hx) (by simpa using h.covC _ hp)
  · refine List.Nodup.append h.nodD ?_ ?_
    · refine (List.Nodup.map ?_ (o2.imp (fun h => Nat.ne_of_lt h)))
      intro a b hab; simp at hab; exact hab
    · intro p hp hp'
      simp only [List.mem_map] at hp'
      obtain ⟨x, hx, rfl⟩ := hp'
      exact fresh _ _ (covy x hx) (by simpa using h.covD _ hp)
  · intro p hp
    rcases List.mem_append.1 hp with hp | hp
    · obtain ⟨q, hq, e⟩ := h.cornerC p hp
      exact ⟨q, by simp [hq], e⟩
    · simp only [List.mem_map] at hp
      obtain ⟨x, hx, rfl⟩ := hp
      obtain ⟨a1, a2, a3, a4, a5⟩ := (m1 x).1 hx
      obtain ⟨q, hq, hcq, hqe⟩ := hM.rightEnd a4 (fun q hq _ => hM.notCov a5 hq)
      refine ⟨q, hq, ?_⟩
      have hqy : r.y + r.l = q.y := by
        by_contra hne
        have : q = r := hM.disj q hq r hrm x (r.y + r.l - 1)
          (by unfold Covers at hcq ⊢; omega) (by unfold Covers; omega)
        subst this
        unfold Covers at hcq
        omega
      rw [hqe, hqy]
  · intro p hp
    rcases List.mem_append.1 hp with hp | hp
    · obtain ⟨q, hq, e⟩ := h.cornerD p hp
      exact ⟨q, by simp [hq], e⟩
    · simp only [List.mem_map] at hp
      obtain ⟨y, hy, rfl⟩ := hp
      obtain ⟨a1, a2, a3, a4, a5⟩ := (m2 y).1 hy
      obtain ⟨q, hq, hcq, hqe⟩ := hM.topEnd a4 (fun q hq _ => hM.notCov a5 hq)
      refine ⟨q, hq, ?_⟩
      have hqx : r.x + r.w = q.x := by
        by_contra hne
        have : q = r := hM.disj q hq r hrm (r.x + r.w - 1) y
          (by unfold Covers at hcq ⊢; omega) (by unfold Covers; omega)
        subst this
        unfold Covers at hcq
        omega
      rw [hqe, hqx]
  · intro p hp
    rcases List.mem_append.1 hp with hp | hp
    · exact covered_append (h.covC p hp) r
    · simp only [List.mem_map] at hp
      obtain ⟨x, hx, rfl⟩ := hp
      exact ⟨r, hrm, by simpa using covx x hx⟩
  · intro p hp
    rcases List.mem_append.1 hp with hp | hp
    · exact covered_append (h.covD p hp) r
    · simp only [List.mem_map] at hp
      obtain ⟨x, hx, rfl⟩ := hp
      exact ⟨r, hrm, by simpa using covy x hx⟩

theorem Run_count_disjoint {P : CParams} {items0 : PyDict String Dim} {s0 s : CState} {n : Nat}
    (h0 : GInv P items0 s0) (hM0 : Marks s0.grid P.W P.L s0.rects) (hp : s0.placed = [])
    (h : Run P s0 n s) (hd : s.rects.Pairwise Spec.Disjoint) :
    ∃ cs ds, SpawnedPts s.rects cs ds ∧
      pointCount n s ≤ pointCount 0 s0 + 4 * s.placed.length + cs.length + ds.length := by
  induction h with
  | refl =>
    refine ⟨[], [], ?_, by simp⟩
    exact ⟨List.nodup_nil, List.nodup_nil, by simp, by simp, by simp, by simp⟩
  | @step n s pt s' hrun hI hA hS _ ih =>
    obtain ⟨s1, ha, rfl⟩ := hS
    have hd1 : s1.rects.Pairwise Spec.Disjoint := hd
    have hpre : s.rects.Pairwise Spec.Disjoint := by
      rcases ha with ⟨rfl, _⟩ | ⟨id, d, ro, g, gen, pre, post, _, _, _, _, _, _, _, rfl⟩
      · exact hd1
      · unfold CState.rects at hd1 ⊢
        simp only [List.map_append] at hd1
        exact (List.pairwise_append.1 hd1).1
    have hM := (Run_fills h0 hM0 hrun hpre).1
    obtain ⟨_, hM1⟩ := afterPt_handles hI hM hd1 ha
    obtain ⟨cs, ds, hsp, ih⟩ := ih hpre
    have ht := take_size P.strategy s1.pools
    unfold pointCount at ih ⊢
    simp only at ht ⊢
    rw [hA.1] at ih
    simp only [Option.isSome_some, if_true] at ih
    rcases ha with ⟨rfl, _⟩ | ⟨id, d, ro, g, gen, pre, post, hdd, _, _, hchk, _, hg, hgen, rfl⟩
    · exact ⟨cs, ds, hsp, by omega⟩
    · have hdp := hI.pos _ (PyDict.find?_mem hdd)
      have hw : 0 < effW d ro := by unfold effW; split; exact hdp.2; exact hdp.1
      have hl : 0 < effL d ro := by unfold effL; split; exact hdp.1; exact hdp.2
      obtain ⟨g', hg', hgwf, hgc⟩ := fillItem_eq hI.wf hw hl hchk.1 hchk.2.1
      rw [hg] at hg'; injection hg' with hg'; subst hg'
      have hfil : Filled g pt.x pt.y (effW d ro) (effL d ro) := by
        intro j i h1 h2 h3 h4
        rw [hgc, if_pos ⟨⟨h1, h2⟩, h3, h4⟩]
        exact markOf_ne_zero _ _ _ _ _ _
      obtain ⟨ab, c, d', e, l1, hc, hd'⟩ :=
        generatePoints_parts P.ar hgwf hw hl hchk.1 hchk.2.1 hfil hgen
      subst e
      have hr : (Placed.rect ⟨id, d, pt.x, pt.y, ro⟩) = ⟨pt.x, pt.y, effW d ro, effL d ro⟩ := by
        unfold Placed.rect effW effL; cases ro <;> rfl
      have hrs : CState.rects { s with
          grid := g, ids := s.ids.erase id, items := PyDict.erase s.items id,
          obj := if P.strip then s.obj
            else P.ar.add s.obj (P.ar.div (effW d ro * effL d ro) (P.W * P.L)),
          placed := s.placed ++ [⟨id, d, pt.x, pt.y, ro⟩],
          pools := s.pools.pushAll (ab ++ c ++ d') } =
          s.rects ++ [⟨pt.x, pt.y, effW d ro, effL d ro⟩] := by
        unfold CState.rects; simp only [List.map_append, List.map_cons, List.map_nil, hr]
      rw [hrs] at hM1 hd1
      have hnin : (⟨pt.x, pt.y, effW d ro, effL d ro⟩ : Rect) ∉ s.rects := by
        intro hin
        have := (List.pairwise_append.1 hd1).2.2 _ hin _ (List.mem_singleton_self _)
        unfold Spec.Disjoint at this
        exact this pt.x pt.y ⟨by unfold Covers; simp only; omega, by unfold Covers; simp only; omega⟩
      have hadd := hsp.add hM1 hnin hw hl hc hd'
      refine ⟨_, _, by
        have : CState.rects { s with
          grid := g, ids := s.ids.erase id, items := PyDict.erase s.items id,
          obj := if P.strip then s.obj
            else P.ar.add s.obj (P.ar.div (effW d ro * effL d ro) (P.W * P.L)),
          placed := s.placed ++ [⟨id, d, pt.x, pt.y, ro⟩],
          cur := (getCurrentPoint (s.pools.pushAll (ab ++ c ++ d')) P.strategy).1,
          pools := (getCurrentPoint (s.pools.pushAll (ab ++ c ++ d')) P.strategy).2 } =
          s.rects ++ [⟨pt.x, pt.y, effW d ro, effL d ro⟩] := hrs
        rw [this]; exact hadd, ?_⟩
      simp only at ht
      rw [Pools.size_pushAll] at ht
      simp only [List.length_append, List.length_cons, List.length_nil, List.length_map] at ht ⊢
      omega

end HP
