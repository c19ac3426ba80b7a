import Verif.Proofs.Heuristic
/-
Two runs of the heuristic of `Verif.SpecPoints` under settings that correspond to each other.
-/
namespace HP
open Spec

/-- `r` is where the heuristic puts an item of size `d` at the point `pt` -/
def FitAt (S : Setting) (rs : List Rect) (d : Dim) (pt : Pt) (r : Rect) : Prop :=
  FreeFor S.W S.L rs r ∧
    (r = ⟨pt.x, pt.y, d.w, d.l⟩ ∨
      (S.rotation = true ∧ r = ⟨pt.x, pt.y, d.l, d.w⟩ ∧ ¬ FreeFor S.W S.L rs ⟨pt.x, pt.y, d.w, d.l⟩))

/-- a correspondence between two settings: points, rectangles, sizes and classes are renamed so that
every step under the first setting is a step under the second -/
structure Corr (S S' : Setting) (good : Dim → Prop) where
  TP : Pt → Pt
  TR : Rect → Rect
  TD : Dim → Dim
  σ : PClass → PClass
  tsum : ∀ p q : Pt, p.x + p.y < q.x + q.y → (TP p).x + (TP p).y < (TP q).x + (TP q).y
  strat : S'.strategy = S.strategy.map σ
  inj : ∀ c c', σ c = σ c' → c = c'
  no : ∀ (rs : List Rect) (d : Dim) (pt : Pt), good d → ¬ CanAdd S.W S.L S.rotation rs d pt.x pt.y →
    ¬ CanAdd S'.W S'.L S'.rotation (rs.map TR) (TD d) (TP pt).x (TP pt).y
  fit : ∀ (rs : List Rect) (d : Dim) (pt : Pt) (r : Rect), good d → FitAt S rs d pt r →
    FitAt S' (rs.map TR) (TD d) (TP pt) (TR r)
  full : ∀ rs : List Rect, S'.full (rs.map TR) ↔ S.full rs
  spawn : ∀ (rs : List Rect) (r : Rect) (c : PClass), c ∈ S.strategy → ∀ p,
    Spawns S'.ar.ratioLe S'.W S'.L (rs.map TR) (TR r) (σ c) p ↔
      ∃ q, Spawns S.ar.ratioLe S.W S.L rs r c q ∧ p = TP q

variable {S S' : Setting} {good : Dim → Prop}

/-- rename the sizes of items -/
def mapDims (f : Dim → Dim) (m : List (String × Dim)) : List (String × Dim) := m.map (fun q => (q.1, f q.2))

/-- rename the rectangles of a layout -/
def mapRects (f : Rect → Rect) (m : List (String × Rect)) : List (String × Rect) := m.map (fun q => (q.1, f q.2))

theorem mapRects_rects (f : Rect → Rect) (m : List (String × Rect)) :
    (mapRects f m).map (·.2) = (m.map (·.2)).map f := by simp [mapRects, Function.comp_def]

/-- corresponding fillings -/
structure CorrF (M : Corr S S' good) (f f' : Filling) : Prop where
  layout : f'.layout = mapRects M.TR f.layout
  items : f'.items = mapDims M.TD f.items
  pending : ∀ c ∈ S.strategy, f'.pending (M.σ c) = (f.pending c).map M.TP
  good : ∀ q ∈ f.items, good q.2

theorem CorrF.rects {M : Corr S S' good} {f f' : Filling} (h : CorrF M f f') : f'.rects = f.rects.map M.TR := by
  unfold Filling.rects; rw [h.layout, mapRects_rects]

theorem firstFit_iff {S : Setting} {f : Filling} {pt : Pt} {id : String} {r : Rect}
    {rest : List (String × Dim)} : FirstFit S f pt id r rest ↔
    ∃ pre d post, f.items = pre ++ (id, d) :: post ∧ rest = pre ++ post ∧
    (∀ q ∈ pre, ¬ CanAdd S.W S.L S.rotation f.rects q.2 pt.x pt.y) ∧ FitAt S f.rects d pt r := by
  unfold FirstFit FitAt
  exact Iff.rfl

theorem CorrF.handles {M : Corr S S' good} {f f' f1 f1' : Filling} {pt : Pt} (h : CorrF M f f')
    (h1 : Handles S f pt f1) (h1' : Handles S' f' (M.TP pt) f1') : CorrF M f1 f1' := by
  have hff : ∀ {id r rest}, FirstFit S f pt id r rest →
      FirstFit S' f' (M.TP pt) id (M.TR r) (mapDims M.TD rest) := by
    intro id r rest hf
    rw [firstFit_iff] at hf ⊢
    obtain ⟨pre, d, post, e1, e2, e3, e4⟩ := hf
    refine ⟨mapDims M.TD pre, M.TD d, mapDims M.TD post, ?_, ?_, ?_, ?_⟩
    · rw [h.items, e1]; simp [mapDims]
    · rw [e2]; simp [mapDims]
    · intro q hq
      obtain ⟨q', hq', rfl⟩ := List.mem_map.1 hq
      rw [h.rects]
      exact M.no _ _ _ (h.good q' (by rw [e1]; simp [hq'])) (e3 q' hq')
    · rw [h.rects]
      exact M.fit _ _ _ _ (h.good (id, d) (by rw [e1]; simp)) e4
  have hno : (∀ q ∈ f.items, ¬ CanAdd S.W S.L S.rotation f.rects q.2 pt.x pt.y) →
      ∀ q ∈ f'.items, ¬ CanAdd S'.W S'.L S'.rotation f'.rects q.2 (M.TP pt).x (M.TP pt).y := by
    intro hn q hq
    rw [h.items] at hq
    obtain ⟨q', hq', rfl⟩ := List.mem_map.1 hq
    rw [h.rects]
    exact M.no _ _ _ (h.good q' hq') (hn q' hq')
  have hne : ∀ {S : Setting} {f : Filling} {pt : Pt} {id r rest}, FirstFit S f pt id r rest →
      ¬ ∀ q ∈ f.items, ¬ CanAdd S.W S.L S.rotation f.rects q.2 pt.x pt.y := by
    rintro S f pt id r rest ⟨pre, d, post, e1, e2, e3, e4, e5⟩ hno
    exact hno (id, d) (by rw [e1]; simp) (firstFit_canAdd (id := id) (rest := rest) e4 e5)
  rcases h1 with ⟨rfl, hn⟩ | ⟨id, r, hf, hl, hp⟩ <;>
    rcases h1' with ⟨rfl, hn'⟩ | ⟨id', r', hf', hl', hp'⟩
  · exact h
  · exact absurd (hno hn) (hne hf')
  · exact absurd hn' (hne (hff hf))
  · obtain ⟨e1, e2, e3⟩ := firstFit_unique (hff hf) hf'
    subst e1; subst e2
    have hlay : f1'.layout = mapRects M.TR f1.layout := by
      rw [hl', hl, h.layout]; simp [mapRects]
    have hrects : f1'.rects = f1.rects.map M.TR := by
      unfold Filling.rects; rw [hlay, mapRects_rects]
    refine ⟨hlay, e3.symm, ?_, ?_⟩
    · intro c hc
      obtain ⟨new, n1, n2⟩ := hp c
      obtain ⟨new', n1', n2'⟩ := hp' (M.σ c)
      rw [n1, n1', h.pending c hc, List.map_append]
      congr 1
      refine lists_unique n2' ⟨?_, ?_⟩
      · intro p
        rw [hrects, M.spawn _ _ c hc p, List.mem_map]
        constructor
        · rintro ⟨q, hq, rfl⟩
          exact ⟨q, (n2.1 q).1 hq, rfl⟩
        · rintro ⟨q, hq, rfl⟩
          exact ⟨q, (n2.1 q).2 hq, rfl⟩
      · rw [List.pairwise_map]
        exact n2.2.imp (fun {a b} hab => M.tsum a b hab)
    · intro q hq
      obtain ⟨pre, d, post, a1, a2, _⟩ := hf
      rw [a2] at hq
      refine h.good q ?_
      rw [a1]
      rcases List.mem_append.1 hq with hq | hq <;> simp [hq]

theorem CorrF.takes {M : Corr S S' good} {f f' : Filling} {n n' : Option Pt} {p p' : PClass → List Pt}
    (h : CorrF M f f') (h1 : Takes S.strategy f.pending n p) (h1' : Takes S'.strategy f'.pending n' p') :
    n' = n.map M.TP ∧ ∀ c ∈ S.strategy, p' (M.σ c) = (p c).map M.TP := by
  rcases h1 with ⟨rfl, hno, rfl⟩ | ⟨pre, c, post, q, e1, e2, rfl, e3, e4⟩ <;>
    rcases h1' with ⟨rfl, hno', rfl⟩ | ⟨pre', c', post', q', e1', e2', rfl, e3', e4'⟩
  · exact ⟨rfl, h.pending⟩
  · have hc : c' ∈ S'.strategy := by rw [e1']; simp
    rw [M.strat] at hc
    obtain ⟨c0, hc0, rfl⟩ := List.mem_map.1 hc
    have := h.pending c0 hc0
    rw [hno c0 hc0, e3'] at this
    simp at this
  · have hc : c ∈ S.strategy := by rw [e1]; simp
    have := h.pending c hc
    rw [e3, hno' (M.σ c) (by rw [M.strat]; exact List.mem_map_of_mem hc)] at this
    simp at this
  · have hc : c ∈ S.strategy := by rw [e1]; simp
    have es : pre.map M.σ ++ M.σ c :: post.map M.σ = pre' ++ c' :: post' := by
      rw [← e1', M.strat, e1]; simp
    have hpc := h.pending c hc
    rw [e3] at hpc
    obtain ⟨_, h2, _⟩ := split_unique (good := fun c => f'.pending c ≠ []) es
      (by
        intro b hb
        obtain ⟨b0, hb0, rfl⟩ := List.mem_map.1 hb
        rw [h.pending b0 (by rw [e1]; simp [hb0]), e2 b0 hb0]; simp)
      (fun b hb => by simp [e2' b hb]) (by simp [hpc]) (by simp [e3'])
    subst h2
    rw [e3'] at hpc
    simp only [List.map_cons] at hpc
    injection hpc with a b
    refine ⟨by rw [a]; rfl, ?_⟩
    intro c1 hc1
    by_cases hcc : c1 = c
    · rw [hcc, b]
    · rw [e4 c1 hcc, e4' (M.σ c1) (fun e => hcc (M.inj _ _ e)), h.pending c1 hc1]

theorem CorrF.fills {M : Corr S S' good} {cur : Option Pt} {f g : Filling} (h1 : Fills S cur f g) :
    ∀ {f' g' : Filling}, CorrF M f f' → Fills S' (cur.map M.TP) f' g' → CorrF M g g' := by
  have hit : ∀ {f f' : Filling}, CorrF M f f' → (f'.items = [] ↔ f.items = []) := by
    intro f f' h; rw [h.items]; simp [mapDims]
  have hfl : ∀ {f f' : Filling}, CorrF M f f' → (S'.full f'.rects ↔ S.full f.rects) := by
    intro f f' h; rw [h.rects]; exact M.full _
  induction h1 with
  | @stop cur f hs =>
    intro f' g' h h1'
    generalize hcur : cur.map M.TP = cur' at h1'
    cases h1' with
    | stop _ => exact h
    | round a b =>
      rcases hs with hs | hs | hs
      · simp [hs] at hcur
      · exact absurd ((hit h).2 hs) a
      · exact absurd ((hfl h).2 hs) b
  | @round pt f f1 f2 next final a1 a2 a3 a4 a5 a6 _ ih =>
    intro f' g' h h1'
    have : ∃ pt', (some pt).map M.TP = some pt' ∧ pt' = M.TP pt := ⟨_, rfl, rfl⟩
    obtain ⟨pt', hpt, ept⟩ := this
    rw [hpt] at h1'
    cases h1' with
    | stop hs =>
      rcases hs with hs | hs | hs
      · simp at hs
      · exact absurd ((hit h).1 hs) a1
      · exact absurd ((hfl h).1 hs) a2
    | round b1 b2 b3 b4 b5 b6 b7 =>
      subst ept
      have hh := h.handles a3 b3
      obtain ⟨e1, e2⟩ := hh.takes a4 b4
      subst e1
      refine ih ⟨?_, ?_, e2, ?_⟩ b7
      · rw [b5, a5, hh.layout]
      · rw [b6, a6, hh.items]
      · rw [a6]; exact hh.good

theorem Corr.fillsContainer (M : Corr S S' good) (h0 : M.TP ⟨0, 0⟩ = ⟨0, 0⟩)
    {items left left' : List (String × Dim)} {m m' : List (String × Rect)}
    (hg : ∀ q ∈ items, good q.2) (h : FillsContainer S items m left)
    (h' : FillsContainer S' (mapDims M.TD items) m' left') :
    m' = mapRects M.TR m ∧ left' = mapDims M.TD left ∧ ∀ q ∈ left, good q.2 := by
  obtain ⟨f, h1, rfl, rfl⟩ := h
  obtain ⟨f', h1', rfl, rfl⟩ := h'
  have hs : CorrF M ⟨[], items, fun _ => []⟩ ⟨[], mapDims M.TD items, fun _ => []⟩ :=
    ⟨rfl, rfl, by intro c _; rfl, hg⟩
  have := CorrF.fills (M := M) h1 hs (by rw [Option.map_some, h0]; exact h1')
  exact ⟨this.layout, this.items, this.good⟩

theorem packs_corr {S S' : Dim → Setting} {good : Dim → Prop} {TR : Rect → Rect} {TD : Dim → Dim} {TC : Dim → Dim}
    (M : ∀ c, ∃ M : Corr (S c) (S' (TC c)) good, M.TP ⟨0, 0⟩ = ⟨0, 0⟩ ∧ M.TR = TR ∧ M.TD = TD)
    {cs items : List (String × Dim)} {a : List (String × List (String × Rect))}
    (h : Packs S cs items a) : ∀ {b}, (∀ q ∈ items, good q.2) →
    Packs S' (mapDims TC cs) (mapDims TD items) b → b = a.map (fun q => (q.1, mapRects TR q.2)) := by
  induction h with
  | nil => intro b _ h'; cases h'; rfl
  | @cons cid c cs items m left sol hf hp ih =>
    intro b hg h'
    simp only [mapDims, List.map_cons] at h'
    cases h' with
    | cons hf' hp' =>
      obtain ⟨N, m0, e4, e5⟩ := M c
      obtain ⟨e1, e2, e3⟩ := N.fillsContainer m0 hg hf (by rw [e5]; exact hf')
      rw [e4] at e1
      rw [e5] at e2
      subst e1; subst e2
      rw [ih e3 hp', List.map_cons]

theorem mapDims_find (f : Dim → Dim) (m : List (String × Dim)) (id : String) :
    (mapDims f m).find? (fun q => q.1 == id) =
      (m.find? (fun q => q.1 == id)).map (fun q => (q.1, f q.2)) := by
  unfold mapDims
  rw [List.find?_map]
  rfl

theorem mapDims_solvedFor (f : Dim → Dim) (m : List (String × Dim)) (seq : Option (List String)) :
    solvedFor (mapDims f m) seq = mapDims f (solvedFor m seq) := by
  cases seq with
  | none => rfl
  | some s =>
    simp only [solvedFor, reorder]
    induction firstOcc s with
    | nil => rfl
    | cons a l ih =>
      rw [List.filterMap_cons, List.filterMap_cons, mapDims_find]
      cases hf : m.find? (fun q => q.1 == a) with
      | none => simp only [Option.map_none]; exact ih
      | some q =>
        simp only [Option.map_some]
        rw [ih]
        rfl

theorem mapDims_keys (f : Dim → Dim) (m : List (String × Dim)) :
    (mapDims f m).map (·.1) = m.map (·.1) := by simp [mapDims, Function.comp_def]

/-! ### transposition -/

/-- reflect at the diagonal -/
def flipDim (d : Dim) : Dim := ⟨d.l, d.w⟩
def flipPt (p : Pt) : Pt := ⟨p.y, p.x⟩
def flipRect (r : Rect) : Rect := ⟨r.y, r.x, r.l, r.w⟩
/-- the class of the reflected points -/
def flipClass : PClass → PClass
  | .A => .B | .B => .A | .C => .D | .D => .C
  | .A_ => .B_ | .B_ => .A_ | .A__ => .B__ | .B__ => .A__ | .E => .F | .F => .E

theorem flipClass_inj : ∀ c c', flipClass c = flipClass c' → c = c' := by
  intro c c'; cases c <;> cases c' <;> simp [flipClass]

theorem covers_flip (r : Rect) (x y : Nat) : Covers (flipRect r) x y ↔ Covers r y x := by
  simp only [Covers, flipRect]; omega

theorem covered_flip (rs : List Rect) (x y : Nat) : Covered (rs.map flipRect) x y ↔ Covered rs y x := by
  unfold Covered
  constructor
  · rintro ⟨r, hr, hc⟩
    obtain ⟨r', hr', rfl⟩ := List.mem_map.1 hr
    exact ⟨r', hr', (covers_flip _ _ _).1 hc⟩
  · rintro ⟨r, hr, hc⟩
    exact ⟨_, List.mem_map_of_mem hr, (covers_flip _ _ _).2 hc⟩

theorem disjoint_flip (r s : Rect) : Spec.Disjoint (flipRect r) (flipRect s) ↔ Spec.Disjoint r s := by
  unfold Spec.Disjoint
  simp only [covers_flip]
  exact ⟨fun h x y => h y x, fun h x y => h y x⟩

theorem freeFor_flip (W L : Nat) (rs : List Rect) (r : Rect) :
    FreeFor L W (rs.map flipRect) (flipRect r) ↔ FreeFor W L rs r := by
  unfold FreeFor
  simp only [List.mem_map, forall_exists_index, and_imp, forall_apply_eq_imp_iff₂, disjoint_flip]
  simp only [Inside, flipRect]
  exact ⟨fun h => ⟨⟨h.1.2, h.1.1⟩, h.2⟩, fun h => ⟨⟨h.1.2, h.1.1⟩, h.2⟩⟩

theorem canAdd_flip (W L : Nat) (rot : Bool) (rs : List Rect) (d : Dim) (x y : Nat) :
    CanAdd L W rot (rs.map flipRect) (flipDim d) y x ↔ CanAdd W L rot rs d x y := by
  unfold CanAdd
  have e1 : (⟨y, x, (flipDim d).w, (flipDim d).l⟩ : Rect) = flipRect ⟨x, y, d.w, d.l⟩ := rfl
  have e2 : (⟨y, x, (flipDim d).l, (flipDim d).w⟩ : Rect) = flipRect ⟨x, y, d.l, d.w⟩ := rfl
  rw [e1, e2, freeFor_flip, freeFor_flip]

/-- the classes whose points do not slide -/
def Fixed (c : PClass) : Prop := c = .A ∨ c = .B ∨ c = .C ∨ c = .D ∨ c = .A__ ∨ c = .B__

theorem spawns_flip (near : Nat → Nat → Bool) (W L : Nat) (rs : List Rect) (r : Rect) (c : PClass) (hc : Fixed c)
    (p : Pt) : Spawns near L W (rs.map flipRect) (flipRect r) (flipClass c) p ↔
      Spawns near W L rs r c (flipPt p) := by
  obtain ⟨px, py⟩ := p
  rcases hc with rfl | rfl | rfl | rfl | rfl | rfl <;>
    simp only [flipClass, Spawns, AboveFree, RightFree, covered_flip, flipRect, flipPt, Pt.mk.injEq]
  · exact and_congr (by omega) Iff.rfl
  · exact and_congr (by omega) Iff.rfl
  · exact and_congr (by omega) Iff.rfl
  · exact and_congr (by omega) Iff.rfl

/-- reflection is a correspondence if the strategy has fixed points only -/
def flipCorr (S : Setting) (hb : S.strip = false) (hc : ∀ c ∈ S.strategy, Fixed c) :
    Corr S ⟨S.ar, S.rotation, S.strip, S.L, S.W, S.strategy.map flipClass⟩ (fun _ => True) where
  TP := flipPt
  TR := flipRect
  TD := flipDim
  σ := flipClass
  tsum := by intro p q; simp only [flipPt]; omega
  strat := rfl
  inj := flipClass_inj
  no := by
    intro rs d pt _ h
    simp only [flipPt]
    rw [canAdd_flip]; exact h
  fit := by
    intro rs d pt r _ h
    unfold FitAt at h ⊢
    simp only
    rw [freeFor_flip]
    refine ⟨h.1, ?_⟩
    rcases h.2 with rfl | ⟨h1, rfl, h3⟩
    · left; rfl
    · right
      refine ⟨h1, rfl, ?_⟩
      have e1 : (⟨(flipPt pt).x, (flipPt pt).y, (flipDim d).w, (flipDim d).l⟩ : Rect) =
        flipRect ⟨pt.x, pt.y, d.w, d.l⟩ := rfl
      rw [e1, freeFor_flip]; exact h3
  full := by
    intro rs
    unfold Setting.full
    simp only [hb, true_and, List.foldl_map, flipRect]
    have : ∀ r : Rect, r.l * r.w = r.w * r.l := fun r => Nat.mul_comm _ _
    simp only [this, Nat.mul_comm S.L S.W]
  spawn := by
    intro rs r c hcs p
    simp only
    rw [spawns_flip _ _ _ _ _ _ (hc c hcs)]
    constructor
    · intro h; exact ⟨flipPt p, h, rfl⟩
    · rintro ⟨q, hq, rfl⟩; exact hq

end HP
