import Verif.Proofs.Marks
import Verif.Proofs.Geometry
import Verif.Proofs.Solve
/-
The construction loop is the heuristic of `Verif.SpecPoints`, as long as no rectangles overlap, and
that specification determines its result.
-/
namespace HP
open Spec

/-- the rectangles placed so far -/
def CState.rects (s : CState) : List Rect := s.placed.map Placed.rect

/-- the state of the specification -/
def CState.filling (s : CState) : Filling :=
  ⟨s.placed.map (fun p => (p.id, p.rect)), s.items, s.pools.get⟩

theorem CState.filling_rects (s : CState) : s.filling.rects = s.rects := by
  simp [CState.filling, Filling.rects, CState.rects, Function.comp_def]

/-- the setting of the specification -/
def CParams.setting (P : CParams) : Setting := ⟨P.ar, P.rot, P.strip, P.W, P.L, P.strategy⟩

theorem Marks_init (W L : Nat) : Marks (List.replicate L (List.replicate W 0)) W L [] where
  wf := WF_empty W L
  inb := by simp
  cov := by intro y x; rw [cell_empty]; simp [Covered]
  mark := by simp
  disj := by simp

theorem Marks_add {g g' : Grid} {W L : Nat} {rs : List Rect} (h : Marks g W L rs) {r : Rect}
    (hw : 0 < r.w) (hl : 0 < r.l) (hin : Inside W L r) (hd : ∀ q ∈ rs, Spec.Disjoint q r)
    (hg : fillItem g r.x r.y r.w r.l = .ok g') : Marks g' W L (rs ++ [r]) := by
  obtain ⟨g2, e2, wf2, c2⟩ := fillItem_eq h.wf hw hl hin.1 hin.2
  rw [hg] at e2; injection e2 with e2; subst e2
  refine ⟨wf2, ?_, ?_, ?_, ?_⟩
  · intro q hq
    rcases List.mem_append.1 hq with hq | hq
    · exact h.inb q hq
    · simp at hq; subst hq; exact hin
  · intro y x
    rw [c2]
    constructor
    · intro hne
      split at hne
      · exact ⟨r, by simp, by unfold Covers; omega⟩
      · obtain ⟨q, hq, hc⟩ := (h.cov y x).1 hne
        exact ⟨q, by simp [hq], hc⟩
    · rintro ⟨q, hq, hc⟩
      split
      · exact markOf_ne_zero _ _ _ _ _ _
      · rename_i hno
        rcases List.mem_append.1 hq with hq | hq
        · exact (h.cov y x).2 ⟨q, hq, hc⟩
        · simp at hq; subst hq; unfold Covers at hc; omega
  · intro q hq x y hc
    rw [c2]
    rcases List.mem_append.1 hq with hq | hq
    · rw [if_neg]
      · exact h.mark q hq x y hc
      · intro hno
        exact hd q hq x y ⟨hc, by unfold Covers; omega⟩
    · simp at hq; subst hq
      rw [if_pos (by unfold Covers at hc; omega)]
  · intro q hq s hs x y hcq hcs
    rcases List.mem_append.1 hq with hq | hq <;> rcases List.mem_append.1 hs with hs | hs
    · exact h.disj q hq s hs x y hcq hcs
    · have e := List.mem_singleton.1 hs
      exact absurd ⟨hcq, e ▸ hcs⟩ (hd q hq x y)
    · have e := List.mem_singleton.1 hq
      exact absurd ⟨hcs, e ▸ hcq⟩ (hd s hs x y)
    · simp at hq hs; rw [hq, hs]

theorem marks_check {g : Grid} {W L : Nat} {rs : List Rect} (h : Marks g W L rs) {x y w l : Nat}
    (hw : 0 < w) (hl : 0 < l) (hf : FreeFor W L rs ⟨x, y, w, l⟩) : CheckSpec g W L x y w l := by
  obtain ⟨hin, hd⟩ := hf
  have hz : ∀ j i, Covers ⟨x, y, w, l⟩ i j → cell g j i = 0 := by
    intro j i hc
    rw [h.free]
    rintro ⟨q, hq, hcq⟩
    exact hd q hq i j ⟨hc, hcq⟩
  unfold Covers at hz; simp only at hz
  refine ⟨hin.1, hin.2, hz _ _ (by omega), hz _ _ (by omega), hz _ _ (by omega), hz _ _ (by omega), ?_⟩
  intro j i h1 h2 h3 h4
  exact hz _ _ (by omega)

theorem fits_of_canAdd {P : CParams} {g : Grid} {rs : List Rect} (h : Marks g P.W P.L rs) {d : Dim}
    (hd : 0 < d.w ∧ 0 < d.l) {pt : Pt} (hc : CanAdd P.W P.L P.rot rs d pt.x pt.y) :
    FitsChk P g pt d := by
  rcases hc with hc | ⟨hr, hc⟩
  · exact Or.inl (marks_check h hd.1 hd.2 hc)
  · exact Or.inr ⟨hr, marks_check h hd.2 hd.1 hc⟩

theorem erase_mid {pre post : List (String × Dim)} {id : String} {d : Dim}
    (hn : id ∉ pre.map (·.1)) : PyDict.erase (pre ++ (id, d) :: post) id = pre ++ post := by
  induction pre with
  | nil => simp [PyDict.erase]
  | cons q pre ih =>
    simp only [List.map_cons, List.mem_cons, not_or] at hn
    obtain ⟨k, e⟩ := q
    simp only [List.cons_append, PyDict.erase]
    rw [if_neg (fun he => hn.1 he.symm), ih hn.2]

/-- one handled point of the loop is one of the specification -/
theorem afterPt_handles {P : CParams} {s s1 : CState} {pt : Pt} (hI : I0 P s)
    (hM : Marks s.grid P.W P.L s.rects) (hd : s1.rects.Pairwise Spec.Disjoint)
    (h : afterPt P s pt s1) :
    Handles P.setting s.filling pt s1.filling ∧ Marks s1.grid P.W P.L s1.rects := by
  rcases h with ⟨rfl, hno⟩ |
    ⟨id, d, ro, g, gen, pre, post, hfd, hids, hpre, hchk, hro, hg, hgen, rfl⟩
  · refine ⟨Or.inl ⟨rfl, ?_⟩, hM⟩
    intro q hq hc
    rw [CState.filling_rects] at hc
    exact hno q hq (fits_of_canAdd hM (hI.pos q hq) hc)
  have hdp := hI.pos _ (PyDict.find?_mem hfd)
  have hw : 0 < effW d ro := by unfold effW; split; exact hdp.2; exact hdp.1
  have hl : 0 < effL d ro := by unfold effL; split; exact hdp.1; exact hdp.2
  have hrects : s.rects ++ [⟨pt.x, pt.y, effW d ro, effL d ro⟩] =
      (s.placed ++ [Placed.mk id d pt.x pt.y ro]).map Placed.rect := by
    simp [CState.rects, rect_mk]
  have hd' : ∀ q ∈ s.rects, Spec.Disjoint q ⟨pt.x, pt.y, effW d ro, effL d ro⟩ := by
    have h1 : (s.rects ++ [Rect.mk pt.x pt.y (effW d ro) (effL d ro)]).Pairwise Spec.Disjoint := by
      rw [hrects]; exact hd
    rw [List.pairwise_append] at h1
    intro q hq
    exact h1.2.2 q hq _ (by simp)
  have hM1 := Marks_add hM (r := ⟨pt.x, pt.y, effW d ro, effL d ro⟩) hw hl ⟨hchk.1, hchk.2.1⟩ hd' hg
  refine ⟨Or.inr ⟨id, ⟨pt.x, pt.y, effW d ro, effL d ro⟩, ?_, ?_, ?_⟩, ?_⟩
  · -- the item
    have hkeys : s.items.map (·.1) = pre ++ id :: post := by
      rw [← hids, hI.ids]; rfl
    obtain ⟨l1, l2', e1, k1, k2⟩ := List.map_eq_append_iff.1 hkeys
    obtain ⟨e, l2, e2, k3, k4⟩ := List.map_eq_cons_iff.1 k2
    have hn : (pre ++ id :: post).Nodup := by rw [← hkeys]; exact hI.nodup
    have hnid : id ∉ pre := by
      rw [List.nodup_append] at hn
      intro hc
      exact hn.2.2 id hc id (by simp) rfl
    obtain ⟨k, e'⟩ := e
    simp only at k3; subst k3
    have hfd2 : PyDict.find? s.items k = some e' :=
      PyDict.find?_of_mem hI.nodup (by rw [e1, e2]; simp)
    rw [hfd] at hfd2; injection hfd2 with hfd2; subst hfd2
    refine ⟨l1, d, l2, ?_, ?_, ?_, ?_, ?_⟩
    · show s.items = _
      rw [e1, e2]
    · show PyDict.erase s.items k = _
      rw [e1, e2]
      exact erase_mid (by rw [k1]; exact hnid)
    · intro q hq hc
      rw [CState.filling_rects] at hc
      have hqm : q ∈ s.items := by rw [e1]; simp [hq]
      exact hpre q.1 (by rw [← k1]; exact List.mem_map.2 ⟨q, hq, rfl⟩) q.2
        (PyDict.find?_of_mem hI.nodup hqm) (fits_of_canAdd hM (hI.pos q hqm) hc)
    · rw [CState.filling_rects]
      refine ⟨⟨hchk.1, hchk.2.1⟩, ?_⟩
      intro q hq x y hc
      exact hd' q hq x y ⟨hc.2, hc.1⟩
    · cases ro with
      | false => exact Or.inl rfl
      | true =>
        obtain ⟨h1, h2⟩ := hro rfl
        refine Or.inr ⟨h1, rfl, ?_⟩
        rw [CState.filling_rects]
        exact fun hc => h2 (marks_check hM hdp.1 hdp.2 hc)
  · show List.map (fun p : Placed => (p.id, p.rect)) (s.placed ++ [⟨id, d, pt.x, pt.y, ro⟩]) = _
    rw [List.map_append]
    rfl
  · intro c
    refine ⟨sel c gen, ?_, ?_⟩
    · show (s.pools.pushAll gen).get c = _
      rw [Pools.get_pushAll]; rfl
    · rw [CState.filling_rects]
      obtain ⟨gen', e', hl'⟩ := generatePoints_lists P.ar hM1
        (r := ⟨pt.x, pt.y, effW d ro, effL d ro⟩) (by simp) hw hl
      simp only at e'
      rw [hgen] at e'; injection e' with e'; subst e'
      have := hl' c
      rw [hrects] at this
      exact this
  · rw [hrects] at hM1
    exact hM1

theorem getCurrentPoint_takes (strategy : List PClass) (p : Pools) :
    Takes strategy p.get (getCurrentPoint p strategy).1 (getCurrentPoint p strategy).2.get := by
  rcases getCurrentPoint_spec strategy p with ⟨h1, h2⟩ | ⟨pre, c, post, pt, rest, h1, h2, h3, h4⟩
  · exact Or.inl ⟨by rw [h1], h2, by rw [h1]⟩
  · refine Or.inr ⟨pre, c, post, pt, h1, h2, by rw [h4], ?_, ?_⟩
    · rw [h4]; simp only; rw [Pools.get_set_self, h3]
    · intro c' hc'; rw [h4]; exact Pools.get_set_ne _ _ hc'

theorem full_iff {P : CParams} {items0 : PyDict String Dim} {s : CState} (hG : GInv P items0 s) :
    P.setting.full s.rects ↔ s.obj ≥ 1 := by
  rw [hG.obj]
  unfold Setting.full CParams.setting objFold CState.rects
  cases P.strip with
  | true => simp; decide
  | false => simp [List.foldl_map]

/-- Final segment of a run, from any state of it on. -/
theorem Run_fills {P : CParams} {items0 : PyDict String Dim} {s0 s : CState} {n : Nat}
    (h0 : GInv P items0 s0) (hM0 : Marks s0.grid P.W P.L s0.rects) (h : Run P s0 n s)
    (hd : s.rects.Pairwise Spec.Disjoint) :
    Marks s.grid P.W P.L s.rects ∧ ∀ final, Fills P.setting s.cur s.filling final →
      Fills P.setting s0.cur s0.filling final := by
  induction h with
  | refl => exact ⟨hM0, fun _ h => h⟩
  | @step n s pt s' hrun hI hA hS _ ih =>
    have hG := Run_GInv h0 hrun
    obtain ⟨s1, ha, rfl⟩ := hS
    have hpre : s.rects.Pairwise Spec.Disjoint := by
      have hd1 : s1.rects.Pairwise Spec.Disjoint := hd
      rcases ha with ⟨rfl, _⟩ | ⟨id, d, ro, g, gen, pre, post, _, _, _, _, _, _, _, rfl⟩
      · exact hd1
      · unfold CState.rects at hd1 ⊢
        simp only [List.map_append] at hd1
        exact (List.pairwise_append.1 hd1).1
    obtain ⟨hM, hF⟩ := ih hpre
    obtain ⟨hH, hM1⟩ := afterPt_handles hI hM (show s1.rects.Pairwise Spec.Disjoint from hd) ha
    refine ⟨hM1, ?_⟩
    intro final hfin
    apply hF
    rw [hA.1]
    refine Fills.round (f1 := s1.filling) (f2 := CState.filling { s1 with cur := (getCurrentPoint s1.pools P.strategy).1, pools := (getCurrentPoint s1.pools P.strategy).2 }) ?_ ?_ hH
      (getCurrentPoint_takes P.strategy s1.pools) rfl rfl hfin
    · intro he
      exact hA.2.1 (by rw [hI.ids]; simp [CState.filling] at he; rw [he]; rfl)
    · rw [CState.filling_rects, full_iff hG]; exact hA.2.2

theorem construct_fills {P : CParams} {items : PyDict String Dim} (hg : ValidSizes items)
    (hW : 0 < P.W) (hL : 0 < P.L) {r : CResult} (hr : construct P items = .ok r)
    (hd : (r.solution.map (·.2)).Pairwise Spec.Disjoint) :
    FillsContainer P.setting items r.solution r.items := by
  obtain ⟨n, s, hrun, hI, hD, hn, hc⟩ := construct_total (P := P) hg hW hL
  rw [hr] at hc; injection hc with hc; subst hc
  have hG := Run_GInv (GInv_init P items) hrun
  have hrects : (s.placed.map (fun p => (p.id, p.rect))).map (·.2) = s.rects := by
    simp [CState.rects, Function.comp_def]
  simp only at hd
  rw [hrects] at hd
  obtain ⟨_, hF⟩ := Run_fills (GInv_init P items) (Marks_init _ _) hrun hd
  refine ⟨s.filling, ?_, rfl, rfl⟩
  have hst : Fills P.setting s.cur s.filling s.filling := by
    refine Fills.stop ?_
    rw [CState.filling_rects, full_iff hG]
    rcases hD with h | h | h
    · exact Or.inl h
    · right; left
      rw [hI.ids] at h
      simpa [PyDict.keys, CState.filling] using h
    · exact Or.inr (Or.inr h)
  have := hF _ hst
  have e : (constructInit P items).filling = ⟨[], items, fun _ => []⟩ := by
    unfold CState.filling constructInit
    simp only [List.map_nil, Filling.mk.injEq, true_and]
    funext c; cases c <;> rfl
  rw [e] at this
  exact this

/-! ### the specification has one result -/

theorem lists_unique {good : Pt → Prop} {l1 l2 : List Pt} (h1 : Lists good l1) (h2 : Lists good l2) :
    l1 = l2 := by
  obtain ⟨m1, p1⟩ := h1
  obtain ⟨m2, p2⟩ := h2
  have : ∀ (l1 l2 : List Pt), (∀ p, p ∈ l1 ↔ p ∈ l2) →
      l1.Pairwise (fun p q => p.x + p.y < q.x + q.y) →
      l2.Pairwise (fun p q => p.x + p.y < q.x + q.y) → l1 = l2 := by
    intro l1
    induction l1 with
    | nil =>
      intro l2 hm _ _
      cases l2 with
      | nil => rfl
      | cons b l2 => exact absurd ((hm b).2 (by simp)) (by simp)
    | cons a l1 ih =>
      intro l2 hm hp1 hp2
      cases l2 with
      | nil => exact absurd ((hm a).1 (by simp)) (by simp)
      | cons b l2 =>
        rw [List.pairwise_cons] at hp1 hp2
        have hab : a = b := by
          rcases List.mem_cons.1 ((hm a).1 (by simp)) with h | h
          · exact h
          · rcases List.mem_cons.1 ((hm b).2 (by simp)) with h' | h'
            · exact h'.symm
            · have := hp1.1 b h'; have := hp2.1 a h; omega
        subst hab
        rw [ih l2 ?_ hp1.2 hp2.2]
        intro p
        have := hm p
        simp only [List.mem_cons] at this
        constructor
        · intro hp
          rcases this.1 (Or.inr hp) with h | h
          · subst h; exact absurd (hp1.1 p hp) (by omega)
          · exact h
        · intro hp
          rcases this.2 (Or.inr hp) with h | h
          · subst h; exact absurd (hp2.1 p hp) (by omega)
          · exact h
  exact this l1 l2 (fun p => (m1 p).trans (m2 p).symm) p1 p2

theorem split_unique {α : Type} {good : α → Prop} {pre pre' post post' : List α} {a a' : α}
    (h : pre ++ a :: post = pre' ++ a' :: post') (hp : ∀ b ∈ pre, ¬ good b)
    (hp' : ∀ b ∈ pre', ¬ good b) (ha : good a) (ha' : good a') :
    pre = pre' ∧ a = a' ∧ post = post' := by
  induction pre generalizing pre' with
  | nil =>
    cases pre' with
    | nil => simp at h; exact ⟨rfl, h.1, h.2⟩
    | cons b pre' =>
      simp at h
      exact absurd (h.1 ▸ ha) (hp' b (by simp))
  | cons b pre ih =>
    cases pre' with
    | nil =>
      simp at h
      exact absurd (h.1 ▸ ha') (hp b (by simp))
    | cons b' pre' =>
      simp at h
      obtain ⟨rfl, h⟩ := h
      obtain ⟨e1, e2, e3⟩ := ih h (fun c hc => hp c (by simp [hc])) (fun c hc => hp' c (by simp [hc]))
      exact ⟨by rw [e1], e2, e3⟩

theorem firstFit_canAdd {S : Setting} {f : Filling} {pt : Pt} {id : String} {r : Rect}
    {rest : List (String × Dim)} {d : Dim} (hf : FreeFor S.W S.L f.rects r)
    (hr : r = ⟨pt.x, pt.y, d.w, d.l⟩ ∨ (S.rotation = true ∧ r = ⟨pt.x, pt.y, d.l, d.w⟩ ∧
      ¬ FreeFor S.W S.L f.rects ⟨pt.x, pt.y, d.w, d.l⟩)) :
    CanAdd S.W S.L S.rotation f.rects d pt.x pt.y := by
  rcases hr with rfl | ⟨h, rfl, _⟩
  · exact Or.inl hf
  · exact Or.inr ⟨h, hf⟩

theorem firstFit_unique {S : Setting} {f : Filling} {pt : Pt} {id id' : String} {r r' : Rect}
    {rest rest' : List (String × Dim)} (h : FirstFit S f pt id r rest)
    (h' : FirstFit S f pt id' r' rest') : id = id' ∧ r = r' ∧ rest = rest' := by
  obtain ⟨pre, d, post, e1, e2, e3, e4, e5⟩ := h
  obtain ⟨pre', d', post', e1', e2', e3', e4', e5'⟩ := h'
  obtain ⟨h1, h2, h3⟩ := split_unique (good := fun q : String × Dim =>
      CanAdd S.W S.L S.rotation f.rects q.2 pt.x pt.y) (e1.symm.trans e1') e3 e3'
    (firstFit_canAdd (id := id) (rest := rest) e4 e5)
    (firstFit_canAdd (id := id) (rest := rest) e4' e5')
  injection h2 with h2 h4
  subst h1; subst h2; subst h3; subst h4
  refine ⟨rfl, ?_, by rw [e2, e2']⟩
  rcases e5 with rfl | ⟨_, rfl, hn⟩ <;> rcases e5' with rfl | ⟨_, rfl, hn'⟩
  · rfl
  · exact absurd e4 hn'
  · exact absurd e4' hn
  · rfl

theorem handles_unique {S : Setting} {f f1 f1' : Filling} {pt : Pt} (h : Handles S f pt f1)
    (h' : Handles S f pt f1') : f1 = f1' := by
  have hne : ∀ {id r rest}, FirstFit S f pt id r rest →
      ¬ ∀ q ∈ f.items, ¬ CanAdd S.W S.L S.rotation f.rects q.2 pt.x pt.y := by
    rintro id r rest ⟨pre, d, post, e1, e2, e3, e4, e5⟩ hno
    exact hno (id, d) (by rw [e1]; simp) (firstFit_canAdd (id := id) (rest := rest) e4 e5)
  rcases h with ⟨rfl, hno⟩ | ⟨id, r, hf, hl, hp⟩ <;>
    rcases h' with ⟨rfl, hno'⟩ | ⟨id', r', hf', hl', hp'⟩
  · rfl
  · exact absurd hno (hne hf')
  · exact absurd hno' (hne hf)
  · obtain ⟨e1, e2, e3⟩ := firstFit_unique hf hf'
    subst e1; subst e2
    obtain ⟨la, it, pe⟩ := f1
    obtain ⟨la', it', pe'⟩ := f1'
    simp only at hl hl' e3 hp hp'
    subst hl; subst hl'; subst e3
    congr
    funext c
    obtain ⟨new, h1, h2⟩ := hp c
    obtain ⟨new', h1', h2'⟩ := hp' c
    rw [h1, h1', lists_unique h2 h2']

theorem takes_unique {strategy : List PClass} {p p1 p1' : PClass → List Pt} {n n' : Option Pt}
    (h : Takes strategy p n p1) (h' : Takes strategy p n' p1') : n = n' ∧ p1 = p1' := by
  rcases h with ⟨rfl, hno, rfl⟩ | ⟨pre, c, post, q, e1, e2, rfl, e3, e4⟩ <;>
    rcases h' with ⟨rfl, hno', rfl⟩ | ⟨pre', c', post', q', e1', e2', rfl, e3', e4'⟩
  · exact ⟨rfl, rfl⟩
  · have := hno c' (by rw [e1']; simp)
    rw [e3'] at this; simp at this
  · have := hno' c (by rw [e1]; simp)
    rw [e3] at this; simp at this
  · obtain ⟨_, h2, _⟩ := split_unique (good := fun c => p c ≠ []) (e1.symm.trans e1')
      (fun b hb => by simp [e2 b hb]) (fun b hb => by simp [e2' b hb]) (by simp [e3]) (by simp [e3'])
    subst h2
    rw [e3] at e3'
    injection e3' with a b
    refine ⟨by rw [a], ?_⟩
    funext c'
    by_cases hc : c' = c
    · rw [hc, b]
    · rw [e4 c' hc, e4' c' hc]

theorem fills_unique {S : Setting} {cur : Option Pt} {f a b : Filling} (h : Fills S cur f a)
    (h' : Fills S cur f b) : a = b := by
  induction h generalizing b with
  | stop hs =>
    cases h' with
    | stop _ => rfl
    | round h1 h2 => simp [h1, h2] at hs
  | round h1 h2 h3 h4 h5 h6 _ ih =>
    cases h' with
    | stop hs => simp [h1, h2] at hs
    | round _ _ h3' h4' h5' h6' h7' =>
      have e := handles_unique h3 h3'
      subst e
      obtain ⟨e1, e2⟩ := takes_unique h4 h4'
      subst e1
      have e3 : ∀ (f g : Filling), f.layout = g.layout → f.items = g.items → f.pending = g.pending →
          f = g := by
        rintro ⟨_, _, _⟩ ⟨_, _, _⟩ h1 h2 h3; simp at h1 h2 h3; simp [h1, h2, h3]
      have e4 := e3 _ _ (h5.trans h5'.symm) (h6.trans h6'.symm) e2
      subst e4
      exact ih h7'

theorem packs_unique {S : Dim → Setting} {cs items : List (String × Dim)}
    {a b : List (String × List (String × Rect))} (h : Packs S cs items a) (h' : Packs S cs items b) :
    a = b := by
  induction h generalizing b with
  | nil => cases h'; rfl
  | cons hf _ ih =>
    cases h' with
    | cons hf' hp' =>
      obtain ⟨f, h1, h2, h3⟩ := hf
      obtain ⟨f', h1', h2', h3'⟩ := hf'
      have e := fills_unique h1 h1'
      subst e; subst h2; subst h2'; subst h3; subst h3'
      rw [ih hp']

/-! ### all containers -/

theorem Chain.packs {A : Arith} {p : SolveIn} {cs items : PyDict String Dim} {sol : Solution}
    {ov : ObjVals} {rem : PyDict String Dim} (hh : p.strip = true → 0 < p.height)
    (hcs : ∀ c ∈ cs, 0 < c.2.w ∧ 0 < c.2.l) (hi : ValidSizes items)
    (h : Chain A p cs items sol ov rem)
    (hd : ∀ cid m, (cid, m) ∈ sol → (m.map (·.2)).Pairwise Spec.Disjoint) :
    Packs (fun c => (p.params A c).setting) cs items sol := by
  induction h with
  | nil => exact .nil
  | skip _ ih =>
    refine .cons (left := []) ?_ (ih (fun c hc => hcs c (by simp [hc])) hi
      (fun cid m hm => hd cid m (by simp [hm])))
    exact ⟨_, .stop (Or.inr (Or.inl rfl)), rfl, rfl⟩
  | @cons cid c cs items r sol ov rem hne hr hf _ ih =>
    have hc := hcs (cid, c) (by simp)
    refine .cons (construct_fills hi hc.1 ?_ hr (hd cid r.solution (by simp)))
      (ih (fun c hc => hcs c (by simp [hc])) (validSizes_sublist hf.sub hi)
        (fun cid m hm => hd cid m (by simp [hm])))
    rw [params_L]; unfold lenOf
    split
    · rename_i h; exact hh h
    · exact hc.2

end HP
