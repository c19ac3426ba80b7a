import Verif.Proofs.Heuristic
import Verif.Props.Packing
/-
C76, C77: `solve` is the point generation heuristic of `Verif.SpecPoints`.
-/
namespace HP
open Spec

/-- the setting for a container of size `c` -/
def settingOf (A : Arith) (p : SolveIn) (c : Dim) : Setting :=
  ⟨A, p.rotation, p.strip, c.w, if p.strip then p.height else c.l, p.strategy⟩

/-- **C76**: a solution without overlaps is the result of the heuristic, and the heuristic has no
other result. -/
theorem C76_heuristic (A : Arith) (p : SolveIn) (hv : ValidIn p) (seq : Option (List String))
    (hs : KnownSeq p seq) (sol : Solution) (ov : ObjVals) (h : solve A p seq = .ok (sol, ov))
    (hd : ∀ cid m, (cid, m) ∈ sol → (m.map (·.2)).Pairwise Spec.Disjoint) :
    ∀ sol', Packs (settingOf A p) p.containers (solvedFor p.items seq) sol' ↔ sol' = sol := by
  obtain ⟨hi, rem, hch⟩ := solve_ok hv hs h
  have hp : Packs (settingOf A p) p.containers (solvedFor p.items seq) sol :=
    hch.packs hv.height hv.conts.2 hi hd
  intro sol'
  exact ⟨fun h' => packs_unique h' hp, fun e => e ▸ hp⟩

/-- **C76**: without items that can be laid as low strips there are no overlaps, so `solve` always
returns the result of the heuristic. -/
theorem C76_no_low_strips (A : Arith) (p : SolveIn) (hv : ValidIn p) (seq : Option (List String))
    (hs : KnownSeq p seq) (hlow : ∀ q ∈ p.items, ¬ LowStrip p.rotation q.2) :
    ∃ sol ov, solve A p seq = .ok (sol, ov) ∧
      ∀ sol', Packs (settingOf A p) p.containers (solvedFor p.items seq) sol' ↔ sol' = sol := by
  obtain ⟨sol, ov, rem, h, _⟩ := solve_chain (A := A) hv hs
  exact ⟨sol, ov, h, C76_heuristic A p hv seq hs sol ov h
    (C02_no_overlap A p hv seq hs hlow sol ov h)⟩

/-! ### the points -/

/-- the grid after the rectangles were drawn one after the other, mixins.py 394, 444-482 -/
def drawn (W L : Nat) (rs : List Rect) : Except PyErr Grid :=
  rs.foldlM (fun g r => fillItem g r.x r.y r.w r.l) (List.replicate L (List.replicate W 0))

theorem drawn_marks (W L : Nat) : ∀ (rs : List Rect) (g : Grid) (done : List Rect),
    Marks g W L done → (∀ r ∈ rs, Inside W L r ∧ 0 < r.w ∧ 0 < r.l) →
    (done ++ rs).Pairwise Spec.Disjoint →
    ∃ g', rs.foldlM (fun g r => fillItem g r.x r.y r.w r.l) g = Except.ok g' ∧
      Marks g' W L (done ++ rs)
  | [], g, done, h, _, _ => ⟨g, rfl, by simpa using h⟩
  | r :: rs, g, done, h, hr, hd => by
    have h1 := hr r (by simp)
    obtain ⟨g1, e1, _, _⟩ := fillItem_eq h.wf h1.2.1 h1.2.2 h1.1.1 h1.1.2
    have hM := Marks_add h h1.2.1 h1.2.2 h1.1 (by
      intro q hq
      rw [List.pairwise_append] at hd
      exact hd.2.2 q hq r (by simp)) e1
    obtain ⟨g2, e2, hM2⟩ := drawn_marks W L rs g1 (done ++ [r]) hM
      (fun q hq => hr q (by simp [hq])) (by simpa using hd)
    refine ⟨g2, ?_, by simpa using hM2⟩
    rw [List.foldlM_cons, e1]
    exact e2

/-- **C77**: the points generated by the rectangle `r`, placed after the rectangles `rs`, are
those of the specification: of each class exactly these, in order of their positions. -/
theorem C77_points (A : Arith) (W L : Nat) (rs : List Rect) (r : Rect)
    (hin : ∀ q ∈ rs ++ [r], Inside W L q ∧ 0 < q.w ∧ 0 < q.l)
    (hd : (rs ++ [r]).Pairwise Spec.Disjoint) :
    ∃ g gen, drawn W L (rs ++ [r]) = .ok g ∧
      generatePoints A g W L r.x r.y r.w r.l = .ok gen ∧
      ∀ c, Lists (Spawns A.ratioLe W L (rs ++ [r]) r c)
        ((gen.filter (fun q => q.1 = c)).map (·.2)) := by
  obtain ⟨g, e, hM⟩ := drawn_marks W L (rs ++ [r]) _ [] (Marks_init W L) hin (by simpa using hd)
  have hr := hin r (by simp)
  obtain ⟨gen, e2, hl⟩ := generatePoints_lists A hM (r := r) (by simp) hr.2.1 hr.2.2
  exact ⟨g, gen, e, e2, hl⟩

/-- a point is pending only if a placed rectangle has spawned it -/
def Spawned (S : Setting) (f : Filling) (c : PClass) (p : Pt) : Prop :=
  ∃ l1 id q l2, f.layout = l1 ++ (id, q) :: l2 ∧
    Spawns S.ar.ratioLe S.W S.L (l1.map (·.2) ++ [q]) q c p

theorem fills_origins {S : Setting} {cur : Option Pt} {f final : Filling} (h : Fills S cur f final)
    (hp : ∀ c p, p ∈ f.pending c → Spawned S f c p)
    (hc : ∀ p, cur = some p → (p = ⟨0, 0⟩ ∧ f.layout = []) ∨ ∃ c ∈ S.strategy, Spawned S f c p)
    (hl : ∀ pre id r post, f.layout = pre ++ (id, r) :: post → (pre = [] ∧ r.x = 0 ∧ r.y = 0) ∨
      ∃ c ∈ S.strategy, ∃ l1 id' q l2, pre = l1 ++ (id', q) :: l2 ∧
        Spawns S.ar.ratioLe S.W S.L (l1.map (·.2) ++ [q]) q c ⟨r.x, r.y⟩) :
    ∀ pre id r post, final.layout = pre ++ (id, r) :: post → (pre = [] ∧ r.x = 0 ∧ r.y = 0) ∨
      ∃ c ∈ S.strategy, ∃ l1 id' q l2, pre = l1 ++ (id', q) :: l2 ∧
        Spawns S.ar.ratioLe S.W S.L (l1.map (·.2) ++ [q]) q c ⟨r.x, r.y⟩ := by
  induction h with
  | stop _ => exact hl
  | @round pt f f1 f2 next final h1 h2 h3 h4 h5 h6 _ ih =>
    -- the state after the point was handled
    have key : (∀ c p, p ∈ f1.pending c → Spawned S f1 c p) ∧
        ∀ pre id r post, f1.layout = pre ++ (id, r) :: post → (pre = [] ∧ r.x = 0 ∧ r.y = 0) ∨
          ∃ c ∈ S.strategy, ∃ l1 id' q l2, pre = l1 ++ (id', q) :: l2 ∧
            Spawns S.ar.ratioLe S.W S.L (l1.map (·.2) ++ [q]) q c ⟨r.x, r.y⟩ := by
      rcases h3 with ⟨rfl, _⟩ | ⟨id, r, hf, hla, hpe⟩
      · exact ⟨hp, hl⟩
      · have hxy : r.x = pt.x ∧ r.y = pt.y := by
          obtain ⟨_, d, _, _, _, _, _, hr⟩ := hf
          rcases hr with rfl | ⟨_, rfl, _⟩ <;> exact ⟨rfl, rfl⟩
        constructor
        · intro c p hpm
          obtain ⟨new, e, hn⟩ := hpe c
          rw [e] at hpm
          rcases List.mem_append.1 hpm with hpm | hpm
          · obtain ⟨l1, id', q, l2, e1, e2⟩ := hp c p hpm
            exact ⟨l1, id', q, l2 ++ [(id, r)], by rw [hla, e1]; simp, e2⟩
          · refine ⟨f.layout, id, r, [], hla, ?_⟩
            have := (hn.1 p).1 hpm
            unfold Filling.rects at this
            rw [hla, List.map_append] at this
            exact this
        · intro pre id2 r2 post he
          rw [hla] at he
          rcases List.append_eq_append_iff.1 he with ⟨as, e1, e2⟩ | ⟨bs, e1, e2⟩
          · cases as with
            | nil =>
              simp at e1 e2
              obtain ⟨⟨_, rfl⟩, _⟩ := e2
              rw [e1, hxy.1, hxy.2]
              rcases hc pt rfl with ⟨rfl, h0⟩ | ⟨c, hcs, l1, id', q, l2, e3, e4⟩
              · exact Or.inl ⟨h0, rfl, rfl⟩
              · exact Or.inr ⟨c, hcs, l1, id', q, l2, e3, e4⟩
            | cons a as => simp at e2
          · cases bs with
            | nil =>
              simp at e1 e2
              obtain ⟨⟨_, rfl⟩, _⟩ := e2
              rw [← e1, hxy.1, hxy.2]
              rcases hc pt rfl with ⟨rfl, h0⟩ | ⟨c, hcs, l1, id', q, l2, e3, e4⟩
              · exact Or.inl ⟨h0, rfl, rfl⟩
              · exact Or.inr ⟨c, hcs, l1, id', q, l2, e3, e4⟩
            | cons b bs =>
              simp at e2
              obtain ⟨rfl, e2⟩ := e2
              exact hl pre id2 r2 bs e1
    have hsp : ∀ c p, Spawned S f1 c p → Spawned S f2 c p := by
      rintro c p ⟨l1, id, q, l2, e1, e2⟩
      exact ⟨l1, id, q, l2, h5.trans e1, e2⟩
    refine ih ?_ ?_ ?_
    · intro c p hpm
      apply hsp
      rcases h4 with ⟨_, _, e⟩ | ⟨pre, c0, post, q, _, _, _, e3, e4⟩
      · rw [e] at hpm; exact key.1 c p hpm
      · by_cases hcc : c = c0
        · subst hcc; exact key.1 c p (by rw [e3]; simp [hpm])
        · rw [e4 c hcc] at hpm; exact key.1 c p hpm
    · intro p hpn
      right
      rcases h4 with ⟨e, _, _⟩ | ⟨pre, c0, post, q, e0, _, e2, e3, e4⟩
      · rw [e] at hpn; simp at hpn
      · rw [e2] at hpn; injection hpn with hpn; subst hpn
        exact ⟨c0, by rw [e0]; simp, hsp _ _ (key.1 c0 q (by rw [e3]; simp))⟩
    · intro pre id r post he
      rw [h5] at he
      exact key.2 pre id r post he

/-- **C77**: in a solution without overlaps the first item of every container lies in its corner,
and every other item lies at a point spawned by an item that was placed before it, of a class that
the strategy contains. -/
theorem C77_origins (A : Arith) (p : SolveIn) (hv : ValidIn p) (seq : Option (List String))
    (hs : KnownSeq p seq) (sol : Solution) (ov : ObjVals) (h : solve A p seq = .ok (sol, ov))
    (hd : ∀ cid m, (cid, m) ∈ sol → (m.map (·.2)).Pairwise Spec.Disjoint) :
    ∀ cid m, (cid, m) ∈ sol → ∃ c, (cid, c) ∈ p.containers ∧
      ∀ pre id r post, m = pre ++ (id, r) :: post →
        (pre = [] ∧ r.x = 0 ∧ r.y = 0) ∨
        ∃ cl ∈ p.strategy, ∃ l1 id' q l2, pre = l1 ++ (id', q) :: l2 ∧
          Spawns A.ratioLe c.w (if p.strip then p.height else c.l) (l1.map (·.2) ++ [q]) q cl
            ⟨r.x, r.y⟩ := by
  have hp := (C76_heuristic A p hv seq hs sol ov h hd sol).2 rfl
  intro cid m hm
  clear h hd
  generalize p.containers = cs at hp ⊢
  generalize solvedFor p.items seq = its at hp
  induction hp with
  | nil => simp at hm
  | @cons cid' c cs items m' left sol hf _ ih =>
    rcases List.mem_cons.1 hm with hm | hm
    · injection hm with e1 e2
      subst e1; subst e2
      refine ⟨c, by simp, ?_⟩
      obtain ⟨f, hF, e3, _⟩ := hf
      have := fills_origins hF (by simp) (by
        intro p hp; injection hp with hp; exact Or.inl ⟨hp.symm, rfl⟩) (by simp)
      rw [e3] at this
      exact this
    · obtain ⟨c', h1, h2⟩ := ih hm
      exact ⟨c', by simp [h1], h2⟩

/-! ### examples -/

/-- seven items of different sizes -/
def exPts : SolveIn where
  containers := [("c", ⟨8, 6⟩), ("e", ⟨3, 4⟩)]
  items := [("a", ⟨4, 2⟩), ("b", ⟨2, 3⟩), ("c", ⟨3, 2⟩), ("d", ⟨2, 2⟩), ("e", ⟨2, 2⟩), ("f", ⟨5, 4⟩),
    ("g", ⟨1, 2⟩), ("h", ⟨2, 1⟩), ("i", ⟨2, 2⟩)]
  strategy := [.A_, .E, .B_, .F, .D, .C, .B, .A, .B__, .A__]
  rotation := false
  strip := false
  height := 0

theorem exPts_valid : ValidIn exPts ∧ (∀ q ∈ exPts.items, ¬ LowStrip exPts.rotation q.2) := by
  refine ⟨⟨⟨by decide, by decide⟩, ⟨by decide, by decide⟩, by decide⟩, ?_⟩
  unfold LowStrip
  decide

/-- the result of the heuristic; "c" was put at a point to the left of and above "b" -/
example : ∀ sol', Packs (settingOf .exact exPts) exPts.containers exPts.items sol' ↔
    sol' = [("c", [("a", ⟨0, 0, 4, 2⟩), ("b", ⟨4, 0, 2, 3⟩), ("c", ⟨0, 3, 3, 2⟩), ("g", ⟨3, 2, 1, 2⟩),
      ("d", ⟨4, 3, 2, 2⟩), ("e", ⟨6, 0, 2, 2⟩), ("h", ⟨0, 2, 2, 1⟩), ("i", ⟨6, 2, 2, 2⟩)]), ("e", [])] := by
  obtain ⟨sol, ov, h, hu⟩ := C76_no_low_strips .exact exPts exPts_valid.1 none (by intro s h; simp at h)
    exPts_valid.2
  have e : solve .exact exPts none = .ok (
      [("c", [("a", ⟨0, 0, 4, 2⟩), ("b", ⟨4, 0, 2, 3⟩), ("c", ⟨0, 3, 3, 2⟩), ("g", ⟨3, 2, 1, 2⟩),
      ("d", ⟨4, 3, 2, 2⟩), ("e", ⟨6, 0, 2, 2⟩), ("h", ⟨0, 2, 2, 1⟩), ("i", ⟨6, 2, 2, 2⟩)]), ("e", [])],
      [("c", 3/4), ("e", 0)]) := by decide +kernel
  rw [e] at h
  injection h with h
  injection h with h1 h2
  rw [h1]
  exact hu

/-- the point where "c" was put -/
example : Spawns Arith.exact.ratioLe 8 6 [⟨0, 0, 4, 2⟩, ⟨4, 0, 2, 3⟩] ⟨4, 0, 2, 3⟩ .E ⟨0, 3⟩ := by
  refine ⟨⟨rfl, by decide, by decide, ?_, ?_, ?_⟩, by decide⟩
  · rintro x _ h2 ⟨r, hr, hc⟩
    simp at hr
    unfold Covers at hc
    rcases hr with rfl | rfl <;> simp at hc
  · rintro ⟨r, hr, hc⟩
    simp at hr
    unfold Covers at hc
    rcases hr with rfl | rfl <;> simp at hc
  · rw [if_pos rfl]
    rintro ⟨r, hr, hc⟩
    simp at hr
    unfold Covers at hc
    rcases hr with rfl | rfl <;> simp at hc

/-- five rectangles that meet the hypotheses of `C77_points` -/
example : (∀ q ∈ [Rect.mk 0 0 4 2, ⟨4, 0, 2, 3⟩, ⟨0, 3, 3, 2⟩] ++ [Rect.mk 3 2 1 2],
      Inside 8 6 q ∧ 0 < q.w ∧ 0 < q.l) ∧
    ([Rect.mk 0 0 4 2, ⟨4, 0, 2, 3⟩, ⟨0, 3, 3, 2⟩] ++ [Rect.mk 3 2 1 2]).Pairwise Spec.Disjoint := by
  constructor
  · unfold Inside; decide
  · have h : ∀ a b : Rect, a.x + a.w ≤ b.x ∨ b.x + b.w ≤ a.x ∨ a.y + a.l ≤ b.y ∨ b.y + b.l ≤ a.y →
        Spec.Disjoint a b := by
      intro a b h x y ⟨h1, h2⟩
      unfold Covers at h1 h2
      omega
    have h2 : ([Rect.mk 0 0 4 2, ⟨4, 0, 2, 3⟩, ⟨0, 3, 3, 2⟩] ++ [Rect.mk 3 2 1 2]).Pairwise
        (fun a b => a.x + a.w ≤ b.x ∨ b.x + b.w ≤ a.x ∨ a.y + a.l ≤ b.y ∨ b.y + b.l ≤ a.y) := by decide
    exact h2.imp (h _ _)

end HP
