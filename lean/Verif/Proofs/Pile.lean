import Verif.Proofs.Height
/-
A strategy that starts with the class A piles all items up in one column when the container is
high enough.
-/
namespace HP
open Spec

theorem genA_wallPt (A : Arith) {g : Grid} {W L : Nat} (h : WF g W L) {Yo l : Nat} (hW : 0 < W) (hl : Yo + l < L)
    (hc : cell g (Yo + l) 0 = 0) : genA A g W L 0 Yo l = .ok [(.A, ⟨0, Yo + l⟩)] := by
  have hcond : condA g L 0 (Yo + l) = .ok true := by
    unfold condA
    rw [decide_eq_true hl, show ((0 : Nat) : Int) = ((0 : Nat) : Int) from rfl, rd_eq h hl hW, hc]
    rfl
  unfold genA
  simp only [hcond, bind, Except.bind, pure, Except.pure]
  have h1 : (decide (Yo + l ≥ L)) = false := decide_eq_false (by omega)
  have h2 : orP (.ok (decide (Yo + l ≥ L))) (testP (rd g ((Yo + l : Nat) : Int) ((0 : Nat) : Int)) (· != 0)) = .ok false := by
    rw [h1, rd_eq h hl hW, hc]; rfl
  rw [h2]
  simp only [Bool.false_eq_true, if_false]
  obtain ⟨b, hb⟩ : ∃ b, orP (.ok (decide (Yo + l ≥ L))) (testP (rd g ((Yo + l : Nat) : Int) (((0 : Nat) : Int) - 1)) in23) = .ok b := by
    apply orP_tot ⟨_, rfl⟩
    intro _
    exact testP_rd_tot h in23 (by omega) (by omega) (by omega) (by omega)
  rw [hb]
  simp only
  have h3 : ∀ (a : Bool) (x : Except PyErr Bool), andP (.ok a) (andP (.ok (decide (0 > 0))) x) = .ok false := by
    intro a x; cases a <;> rfl
  rw [h3]
  rfl

theorem genB_noA {A : Arith} {g : Grid} {W L Xo Yo w : Nat} {pts : GenPts}
    (h : genB A g W L Xo Yo w = .ok pts) : ∀ q ∈ pts, q.1 ≠ .A := by
  rw [genB_core] at h
  cases hc : genBcore g W Xo Yo w with
  | error e => rw [hc] at h; cases h
  | ok t =>
    rw [hc] at h
    have ht : (∀ q ∈ t.1, q.1 ≠ PClass.A) ∧ (∀ q ∈ t.2.2, q.1 ≠ PClass.A) := by
      unfold genBcore at hc
      simp only [bind, Except.bind, pure, Except.pure] at hc
      split at hc; · cases hc
      split at hc; · cases hc
      split at hc; · cases hc
      split at hc; · cases hc
      split at hc; · cases hc
      cases hc
      constructor
      · intro q hq
        simp only at hq
        split at hq <;> simp at hq
        rw [hq]; simp
      · intro q hq
        simp only at hq
        split at hq <;> simp at hq
        rw [hq]; simp
    cases h
    intro q hq
    rcases List.mem_append.1 hq with hq | hq
    · rcases List.mem_append.1 hq with hq | hq
      · exact ht.1 q hq
      · unfold pointBF at hq
        split at hq
        · cases hq
        · split at hq <;> simp at hq <;> rw [hq] <;> simp
    · exact ht.2 q hq

theorem scanC_noA {g : Grid} {Ay : Nat} : ∀ {xs : List Nat} {pts : GenPts}, scanC g Ay xs = .ok pts →
    ∀ q ∈ pts, q.1 ≠ .A
  | [], pts, h => by unfold scanC at h; injection h with h; subst h; simp
  | x :: xs, pts, h => by
    unfold scanC at h
    simp only [bind, Except.bind, pure, Except.pure] at h
    split at h; · cases h
    split at h; · cases h
    rename_i rest hrest
    cases h
    intro q hq
    rcases List.mem_append.1 hq with hq | hq
    · split at hq <;> simp at hq
      rw [hq]; simp
    · exact scanC_noA hrest q hq

theorem scanD_noA {g : Grid} {Bx : Nat} : ∀ {ys : List Nat} {pts : GenPts}, scanD g Bx ys = .ok pts →
    ∀ q ∈ pts, q.1 ≠ .A
  | [], pts, h => by unfold scanD at h; injection h with h; subst h; simp
  | x :: xs, pts, h => by
    unfold scanD at h
    simp only [bind, Except.bind, pure, Except.pure] at h
    split at h; · cases h
    split at h; · cases h
    rename_i rest hrest
    cases h
    intro q hq
    rcases List.mem_append.1 hq with hq | hq
    · split at hq <;> simp at hq
      rw [hq]; simp
    · exact scanD_noA hrest q hq

theorem filter_noA {pts : GenPts} (h : ∀ q ∈ pts, q.1 ≠ .A) : pts.filter (fun q => decide (q.1 = .A)) = [] := by
  rw [List.filter_eq_nil_iff]
  intro q hq
  simpa using h q hq

/-- an item put at the left wall opens exactly one A point: above it -/
theorem generatePoints_wallA (A : Arith) {g : Grid} {W L : Nat} (h : WF g W L) {Yo w l : Nat} (hW : 0 < W)
    (hl : Yo + l < L) (hc : cell g (Yo + l) 0 = 0) {pts : GenPts}
    (hg : generatePoints A g W L 0 Yo w l = .ok pts) :
    (pts.filter (fun q => decide (q.1 = .A))).map (·.2) = [⟨0, Yo + l⟩] := by
  unfold generatePoints at hg
  rw [genA_wallPt A h hW hl hc] at hg
  simp only [bind, Except.bind, pure, Except.pure] at hg
  split at hg; · cases hg
  rename_i b hb
  split at hg; · cases hg
  rename_i c hcc
  split at hg; · cases hg
  rename_i d hd
  cases hg
  have e1 := filter_noA (genB_noA hb)
  have e2 : c.filter (fun q => decide (q.1 = .A)) = [] := by
    unfold genC at hcc
    simp only at hcc
    rw [if_pos hl] at hcc
    exact filter_noA (scanC_noA hcc)
  have e3 : d.filter (fun q => decide (q.1 = .A)) = [] := by
    unfold genD at hd
    simp only at hd
    split at hd
    · exact filter_noA (scanD_noA hd)
    · cases hd; rfl
  simp only [List.filter_append, e1, e2, e3]
  rfl

theorem constructLoop_pile {P : CParams} (hst : P.strip = true) {S : List PClass} (hS : P.strategy = .A :: S) :
    ∀ (n : Nat) (t r : CState) (y : Nat), I0 P t → constructLoop P n t = .ok r → t.obj = 0 →
      t.cur = some ⟨0, y⟩ → t.pools.get .A = [] →
      (∀ j i, y ≤ j → cell t.grid j i = 0) → y + (t.items.map (fun q => q.2.l)).sum ≤ P.L →
      (∀ q ∈ t.items, q.2.w ≤ P.W) →
      r.items = [] ∧ r.placed.map (fun p => (p.id, p.rect)) =
        t.placed.map (fun p => (p.id, p.rect)) ++ pileFrom y t.items
  | 0, _, _, _, _, h, _, _, _, _, _, _ => by cases h
  | n + 1, t, r, y, hI, h, hobj, hcur, hA, hfree, hsum, hwide => by
    have hN : ¬ (t.obj ≥ 1) := by rw [hobj]; decide
    unfold constructLoop at h
    rw [hcur] at h
    simp only at h
    cases hit : t.items with
    | nil =>
      have : t.ids = [] := by rw [hI.ids, hit]; rfl
      rw [if_pos (Or.inl this)] at h
      cases h
      exact ⟨hit, by simp [pileFrom]⟩
    | cons q rest =>
      obtain ⟨id, d⟩ := q
      have hids : t.ids = id :: PyDict.keys rest := by rw [hI.ids, hit]; rfl
      rw [if_neg (by rw [hids]; simp [hN])] at h
      obtain ⟨t1, e1, hstep, i1, m1⟩ := constructStep_tot hI hcur
      simp only [e1, bind, Except.bind] at h
      obtain ⟨s1, hafter, ht1⟩ := hstep
      have hd : 0 < d.w ∧ 0 < d.l := hI.pos (id, d) (by rw [hit]; simp)
      have hdw : d.w ≤ P.W := hwide (id, d) (by rw [hit]; simp)
      have hdl : y + (d.l + (rest.map (fun q => q.2.l)).sum) ≤ P.L := by rw [hit] at hsum; simpa using hsum
      have hck : CheckSpec t.grid P.W P.L 0 y d.w d.l := by
        refine ⟨by omega, by omega, hfree _ _ (by omega), hfree _ _ (by omega), hfree _ _ (by omega),
          hfree _ _ (by omega), fun j i hj _ _ _ => hfree _ _ hj⟩
      have hfd : PyDict.find? t.items id = some d := by
        apply PyDict.find?_of_mem hI.nodup
        rw [hit]; simp
      rcases hafter with ⟨_, hno⟩ | ⟨id', d', ro, g, gen, pre, post, hf, hsp, hpre, hchk, hro, hfill, hgen, hs1⟩
      · exact absurd (Or.inl hck) (hno (id, d) (by rw [hit]; simp))
      · have hpn : pre = [] := by
          cases pre with
          | nil => rfl
          | cons a pre =>
            rw [hids] at hsp
            simp only [List.cons_append, List.cons.injEq] at hsp
            exact absurd (Or.inl hck) (hpre id (by rw [hsp.1]; simp) d hfd)
        subst hpn
        rw [hids] at hsp
        simp only [List.nil_append, List.cons.injEq] at hsp
        obtain ⟨rfl, -⟩ := hsp
        rw [hfd] at hf
        injection hf with hf
        subst hf
        have hrof : ro = false := by
          cases ro with
          | false => rfl
          | true => exact absurd hck (hro rfl).2
        subst hrof
        simp only [effW, effL, Bool.false_eq_true, if_false] at hfill hgen hs1
        obtain ⟨g', eg, wg, cg⟩ := fillItem_eq hI.wf hd.1 hd.2 (show 0 + d.w ≤ P.W by omega) (show y + d.l ≤ P.L by omega)
        rw [hfill] at eg
        injection eg with eg
        subst eg
        have hfree' : ∀ j i, y + d.l ≤ j → cell g j i = 0 := by
          intro j i hj
          rw [cg, if_neg (by omega)]
          exact hfree j i (by omega)
        have hitems1 : s1.items = rest := by
          rw [hs1]
          simp only
          rw [hit]
          simp [PyDict.erase]
        have hpl1 : s1.placed.map (fun p => (p.id, p.rect)) =
            t.placed.map (fun p => (p.id, p.rect)) ++ [(id, ⟨0, y, d.w, d.l⟩)] := by
          rw [hs1]
          simp [Placed.rect]
        have hkey : ∀ s2 : CState, s2.items = [] → s2.placed = s1.placed → rest = [] →
            s2.items = [] ∧ s2.placed.map (fun p => (p.id, p.rect)) =
              t.placed.map (fun p => (p.id, p.rect)) ++ pileFrom y ((id, d) :: rest) := by
          intro s2 h1 h2 h3
          subst h3
          exact ⟨h1, by rw [h2, hpl1]; rfl⟩
        by_cases hrest : rest = []
        · subst hrest
          have hids1 : t1.ids = [] := by
            rw [i1.ids, ht1]
            simp only [hitems1]
            rfl
          have hr : r = t1 := by
            cases n with
            | zero => cases h
            | succ n =>
              unfold constructLoop at h
              cases hc : t1.cur with
              | none => rw [hc] at h; injection h with h; exact h.symm
              | some pt =>
                rw [hc] at h
                simp only at h
                rw [if_pos (Or.inl hids1)] at h
                injection h with h; exact h.symm
          subst hr
          exact hkey _ (by rw [ht1]; exact hitems1) (by rw [ht1]) rfl
        · have hlt : y + d.l < P.L := by
            cases rest with
            | nil => exact absurd rfl hrest
            | cons q2 rest2 =>
              have := hI.pos q2 (by rw [hit]; simp)
              simp only [List.map_cons, List.sum_cons] at hdl
              omega
          have hpA : s1.pools.get .A = [⟨0, y + d.l⟩] := by
            rw [hs1]
            simp only
            rw [Pools.get_pushAll, hA, generatePoints_wallA P.ar wg (by omega) hlt (hfree' _ _ (Nat.le_refl _)) hgen]
            rfl
          have hgc : getCurrentPoint s1.pools P.strategy = (some ⟨0, y + d.l⟩, s1.pools.set .A []) := by
            rw [hS]
            unfold getCurrentPoint
            rw [hpA]
          rw [hgc] at ht1
          simp only at ht1
          obtain ⟨k1, k2⟩ := constructLoop_pile hst hS n t1 r (y + d.l) i1 h (by rw [ht1, hs1]; simp [hst, hobj])
            (by rw [ht1]) (by rw [ht1]; simp only; rw [Pools.get_set_self]) (by rw [ht1, hs1]; exact hfree')
            (by rw [ht1]; simp only; rw [hitems1]; omega)
            (by rw [ht1]; simp only; rw [hitems1]; intro q hq; exact hwide q (by rw [hit]; simp [hq]))
          refine ⟨k1, ?_⟩
          rw [k2]
          have e1 : t1.placed = s1.placed := by rw [ht1]
          have e2 : t1.items = rest := by rw [ht1]; exact hitems1
          rw [e1, e2, hpl1, List.append_assoc]
          rfl

/-- `_construct_solution` on a strip high enough for all items, with a strategy starting with A -/
theorem construct_pile {P : CParams} {items : PyDict String Dim} (hg : ValidSizes items) (hW : 0 < P.W)
    (hL : 0 < P.L) (hst : P.strip = true) {S : List PClass} (hS : P.strategy = .A :: S)
    (hroom : (items.map (fun q => q.2.l)).sum ≤ P.L) (hwide : ∀ q ∈ items, q.2.w ≤ P.W)
    {r : CResult} (h : construct P items = .ok r) : r.solution = pileFrom 0 items ∧ r.items = [] := by
  obtain ⟨k, s, hloop, -, hI, -, -⟩ := construct_run (P := P) hg hW hL
  have := constructLoop_pile hst hS _ _ s 0 (I0_init hg hW hL) hloop rfl rfl rfl
    (by intro j i _; simp only [constructInit]; rw [cell_empty]) (by simpa [constructInit] using hroom)
    (by simpa [constructInit] using hwide)
  unfold construct constructFinish at h
  simp only [hloop, bind, Except.bind, pure, Except.pure] at h
  split at h
  · cases h
  · cases h
    exact ⟨by simpa [constructInit] using this.2, this.1⟩

end HP
