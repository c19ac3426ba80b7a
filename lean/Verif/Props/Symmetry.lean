import Verif.Proofs.Symmetry
import Verif.Proofs.Unturned
import Verif.Props.Units
/-
C89: reflecting a problem at the diagonal.  C90: allowing rotation without using it.
-/
namespace HP
open Spec

/-! ### C89 -/

/-- the problem reflected at the diagonal: widths and lengths of all containers and items are exchanged, and
so are the point classes of the strategy that mirror each other -/
def flipIn (p : SolveIn) : SolveIn :=
  { p with containers := p.containers.map (fun c => (c.1, ⟨c.2.l, c.2.w⟩)),
           items := p.items.map (fun q => (q.1, ⟨q.2.l, q.2.w⟩)),
           strategy := p.strategy.map flipClass }

/-- the solution reflected at the diagonal -/
def flipSol (sol : Solution) : Solution :=
  sol.map (fun c => (c.1, c.2.map (fun q => (q.1, ⟨q.2.y, q.2.x, q.2.l, q.2.w⟩))))

theorem flip_valid {m : List (String × Dim)} (h : ValidSizes m) : ValidSizes (mapDims flipDim m) := by
  refine ⟨by rw [mapDims_keys]; exact h.1, ?_⟩
  intro q hq
  obtain ⟨q', hq', rfl⟩ := List.mem_map.1 hq
  have := h.2 q' hq'
  exact ⟨this.2, this.1⟩

/-- **C89**, for strategies without sliding points (A', B', E, F): in bin packing the solution of the
reflected problem is the reflected solution, with the same utilizations, in any arithmetic.  Items of
1 × 3 or longer (in either direction) are excluded, as they may overlap others.
Missing: strategies with A', B', E or F, for which this is false, see `C89_refuted`. -/
theorem C89_partial (A : Arith) (p : SolveIn) (hv : ValidIn p) (hb : p.strip = false)
    (hlow : ∀ q ∈ p.items, ¬ (q.2.l = 1 ∧ 3 ≤ q.2.w) ∧ ¬ (q.2.w = 1 ∧ 3 ≤ q.2.l))
    (hst : ∀ c ∈ p.strategy, c = .A ∨ c = .B ∨ c = .C ∨ c = .D ∨ c = .A__ ∨ c = .B__)
    (seq : Option (List String)) (hs : KnownSeq p seq) (sol : Solution) (ov : ObjVals)
    (h : solve A p seq = .ok (sol, ov)) : solve A (flipIn p) seq = .ok (flipSol sol, ov) := by
  have hv' : ValidIn (flipIn p) :=
    ⟨flip_valid hv.conts, flip_valid hv.items, hv.height⟩
  have hs' : KnownSeq (flipIn p) seq := by
    intro s he id hid
    have := hs s he id hid
    unfold PyDict.keys at this ⊢
    show id ∈ (mapDims flipDim p.items).map (·.1)
    rw [mapDims_keys]; exact this
  have hl1 : ∀ q ∈ p.items, ¬ LowStrip p.rotation q.2 := by
    intro q hq hc
    rcases hc with hc | hc
    · exact (hlow q hq).1 hc
    · exact (hlow q hq).2 hc.2
  have hl2 : ∀ q ∈ (flipIn p).items, ¬ LowStrip (flipIn p).rotation q.2 := by
    intro q hq hc
    obtain ⟨q', hq', rfl⟩ := List.mem_map.1 hq
    rcases hc with hc | hc
    · exact (hlow q' hq').2 hc
    · exact (hlow q' hq').1 hc.2
  obtain ⟨sol1, ov1, e1, u1⟩ := C76_no_low_strips A p hv seq hs hl1
  rw [h] at e1
  injection e1 with e1; injection e1 with e1 e1'
  subst e1; subst e1'
  obtain ⟨sol2, ov2, e2, u2⟩ := C76_no_low_strips A (flipIn p) hv' seq hs' hl2
  have p1 := (u1 sol).2 rfl
  have p2 := (u2 sol2).2 rfl
  have hsol : sol2 = flipSol sol := by
    refine packs_corr (S := settingOf A p) (S' := settingOf A (flipIn p)) (good := fun _ => True) (TR := flipRect)
      (TD := flipDim) (TC := flipDim) ?_ p1 (fun _ _ => trivial) ?_
    · intro c
      have e : settingOf A (flipIn p) (flipDim c) = ⟨A, p.rotation, p.strip, c.l, c.w, p.strategy.map flipClass⟩ := by
        unfold settingOf
        rw [show (flipIn p).strip = false from hb, hb]
        rfl
      have e' : settingOf A p c = ⟨A, p.rotation, p.strip, c.w, c.l, p.strategy⟩ := by
        unfold settingOf; rw [hb]; rfl
      rw [e, e']
      exact ⟨flipCorr ⟨A, p.rotation, p.strip, c.w, c.l, p.strategy⟩ hb hst, rfl, rfl, rfl⟩
    · rw [← mapDims_solvedFor]
      exact p2
  rw [e2, hsol]
  congr 2
  rw [C07_rounded A p hv hb seq hs sol ov h, C07_rounded A (flipIn p) hv' hb seq hs' sol2 ov2 e2, hsol]
  show ((mapDims flipDim p.containers).zip (flipSol sol)).map _ = _
  unfold mapDims flipSol
  rw [List.zip_map, List.map_map]
  apply List.map_congr_left
  intro x _
  simp only [Function.comp_apply, Prod.map_fst, Prod.map_snd, flipDim]
  congr 1
  unfold fractions
  rw [List.foldl_map]
  simp only [Nat.mul_comm x.1.2.l x.1.2.w]
  congr 1
  funext v q
  simp only [Nat.mul_comm q.2.l q.2.w]

/-- the classes without sliding points -/
def fixedDemo : SolveIn where
  containers := [("c", ⟨8, 5⟩), ("d", ⟨4, 3⟩)]
  items := [("a", ⟨4, 2⟩), ("b", ⟨2, 3⟩), ("c", ⟨3, 2⟩), ("d", ⟨2, 2⟩), ("e", ⟨4, 3⟩), ("f", ⟨1, 2⟩)]
  strategy := [.A, .B, .C, .D, .A__, .B__]
  rotation := true
  strip := false
  height := 0

example : ValidIn fixedDemo ∧ fixedDemo.strip = false ∧
    (∀ q ∈ fixedDemo.items, ¬ (q.2.l = 1 ∧ 3 ≤ q.2.w) ∧ ¬ (q.2.w = 1 ∧ 3 ≤ q.2.l)) ∧
    (∀ c ∈ fixedDemo.strategy, c = .A ∨ c = .B ∨ c = .C ∨ c = .D ∨ c = .A__ ∨ c = .B__) ∧
    solve .exact fixedDemo none = .ok (
      [("c", [("a", ⟨0, 0, 4, 2⟩), ("b", ⟨0, 2, 2, 3⟩), ("c", ⟨4, 0, 3, 2⟩), ("d", ⟨2, 2, 2, 2⟩),
        ("f", ⟨2, 4, 2, 1⟩), ("e", ⟨4, 2, 4, 3⟩)]), ("d", [])], [("c", 19 / 20), ("d", 0)]) ∧
    solve .exact (flipIn fixedDemo) none = .ok (
      [("c", [("a", ⟨0, 0, 2, 4⟩), ("b", ⟨2, 0, 3, 2⟩), ("c", ⟨0, 4, 2, 3⟩), ("d", ⟨2, 2, 2, 2⟩),
        ("f", ⟨4, 2, 1, 2⟩), ("e", ⟨2, 4, 3, 4⟩)]), ("d", [])], [("c", 19 / 20), ("d", 0)]) := by
  refine ⟨⟨⟨by decide, by decide⟩, ⟨by decide, by decide⟩, by decide⟩, rfl, by decide, by decide,
    by decide +kernel, by decide +kernel⟩

/-- a problem for which reflection changes more than the directions -/
def slideDemo : SolveIn where
  containers := [("c", ⟨8, 7⟩)]
  items := [("0", ⟨4, 3⟩), ("1", ⟨3, 2⟩), ("2", ⟨2, 2⟩), ("3", ⟨5, 3⟩), ("4", ⟨3, 2⟩)]
  strategy := [.B__, .C, .E, .B_, .D, .A__, .A, .B, .A_, .F]
  rotation := true
  strip := false
  height := 0

/-- **C89** fails for strategies with sliding points: the way of a point that slides to the left is checked
less thoroughly than that of a point that falls down -/
theorem C89_refuted : ValidIn slideDemo ∧ slideDemo.strip = false ∧
    (∀ q ∈ slideDemo.items, ¬ (q.2.l = 1 ∧ 3 ≤ q.2.w) ∧ ¬ (q.2.w = 1 ∧ 3 ≤ q.2.l)) ∧
    ∃ sol sol' ov ov', solve .exact slideDemo none = .ok (sol, ov) ∧
      solve .exact (flipIn slideDemo) none = .ok (sol', ov') ∧ sol' ≠ flipSol sol := by
  refine ⟨⟨⟨by decide, by decide⟩, ⟨by decide, by decide⟩, by decide⟩, rfl, by decide, ?_⟩
  have h : ((solve .exact slideDemo none).toOption.bind (fun r =>
      (solve .exact (flipIn slideDemo) none).toOption.map (fun r' => decide (r'.1 = flipSol r.1)))) = some false := by
    decide +kernel
  cases h1 : solve .exact slideDemo none with
  | error e => rw [h1] at h; simp [Except.toOption] at h
  | ok r =>
    cases h2 : solve .exact (flipIn slideDemo) none with
    | error e => rw [h1, h2] at h; simp [Except.toOption] at h
    | ok r' =>
      rw [h1, h2] at h
      simp [Except.toOption] at h
      exact ⟨r.1, r'.1, r.2, r'.2, rfl, rfl, h⟩

/-! ### C90 -/

/-- **C90**: allowing rotation makes a difference to `solve` exactly if some item gets turned. -/
theorem C90_unturned (A : Arith) (p : SolveIn) (hv : ValidIn p) (seq : Option (List String)) (hs : KnownSeq p seq)
    (sol : Solution) (ov : ObjVals) (h : solve A { p with rotation := true } seq = .ok (sol, ov)) :
    solve A { p with rotation := false } seq = .ok (sol, ov) ↔
      ∀ cid m, (cid, m) ∈ sol → ∀ id r, (id, r) ∈ m → ∀ d, (id, d) ∈ p.items → r.w = d.w ∧ r.l = d.l := by
  constructor
  · intro h' cid m hm id r hr d hd
    have hv' : ValidIn { p with rotation := false } := ⟨hv.conts, hv.items, hv.height⟩
    obtain ⟨d', hd', hsz⟩ := C05_sizes A _ hv' seq hs sol ov h' cid m hm id r hr
    have e1 := PyDict.find?_of_mem hv.items.1 hd'
    have e2 := PyDict.find?_of_mem hv.items.1 hd
    rw [e1] at e2
    injection e2 with e2
    subst e2
    rcases hsz with hsz | ⟨hsz, _⟩
    · exact hsz
    · exact absurd hsz (by simp)
  · intro hn
    unfold solve at h ⊢
    simp only [bind, Except.bind] at h ⊢
    cases seq with
    | none =>
      exact solveLoop_unturned A { p with rotation := true } rfl _ _ _ _ h
        (fun cid m hm q hq d hd => hn cid m hm q.1 q.2 hq d hd)
    | some s =>
      simp only at h ⊢
      cases hd : deepcopySeq p.items s [] with
      | error e => rw [hd] at h; cases h
      | ok items =>
        rw [hd] at h
        simp only at h ⊢
        have hsub : ∀ q ∈ items, q ∈ p.items := by
          have := deepcopySeq_reorder (hs s rfl)
          rw [this] at hd
          injection hd with hd
          intro q hq
          rw [← hd] at hq
          exact solvedFor_mem (p := p) (seq := some s) q hq
        exact solveLoop_unturned A { p with rotation := true } rfl _ _ _ _ h
          (fun cid m hm q hq d hd => hn cid m hm q.1 q.2 hq d (hsub _ hd))

/-- **C90** for squares: the rotation setting has no effect -/
theorem C90_squares (A : Arith) (p : SolveIn) (hv : ValidIn p) (hsq : ∀ q ∈ p.items, q.2.w = q.2.l)
    (seq : Option (List String)) (hs : KnownSeq p seq) (b : Bool) :
    solve A { p with rotation := b } seq = solve A p seq := by
  have key : solve A { p with rotation := false } seq = solve A { p with rotation := true } seq := by
    have hv' : ValidIn { p with rotation := true } := ⟨hv.conts, hv.items, hv.height⟩
    obtain ⟨sol, ov, rem, h, _⟩ := solve_chain (A := A) hv' (seq := seq) hs
    rw [h]
    refine (C90_unturned A p hv seq hs sol ov h).2 ?_
    intro cid m hm id r hr d hd
    obtain ⟨d', hd', hsz⟩ := C05_sizes A _ hv' seq hs sol ov h cid m hm id r hr
    have e1 := PyDict.find?_of_mem hv.items.1 hd'
    have e2 := PyDict.find?_of_mem hv.items.1 hd
    rw [e1] at e2
    injection e2 with e2
    subst e2
    have := hsq _ hd
    simp only at this
    rcases hsz with hsz | ⟨_, h1, h2⟩
    · exact hsz
    · omega
  obtain ⟨cs, is, st, ro, sp, he⟩ := p
  cases b <;> cases ro
  · rfl
  · exact key
  · exact key.symm
  · rfl

/-- rotation allowed and not used: nothing is turned -/
example : ∃ sol ov, solve .exact ⟨[("c", ⟨5, 4⟩)], [("b", ⟨2, 4⟩), ("a", ⟨3, 2⟩), ("d", ⟨3, 2⟩)], defaultStrategy, true, false, 0⟩ none =
      .ok (sol, ov) ∧
    solve .exact ⟨[("c", ⟨5, 4⟩)], [("b", ⟨2, 4⟩), ("a", ⟨3, 2⟩), ("d", ⟨3, 2⟩)], defaultStrategy, false, false, 0⟩ none =
      .ok (sol, ov) ∧ (placedIds sol).length = 3 :=
  ⟨[("c", [("b", ⟨0, 0, 2, 4⟩), ("a", ⟨2, 0, 3, 2⟩), ("d", ⟨2, 2, 3, 2⟩)])], [("c", 1)],
    by decide +kernel, by decide +kernel, rfl⟩

/-- and used: the results differ -/
example : ∃ sol ov, solve .exact ⟨[("c", ⟨5, 2⟩)], [("a", ⟨3, 2⟩), ("b", ⟨2, 2⟩), ("d", ⟨2, 3⟩)], defaultStrategy, true, false, 0⟩
      (some ["d", "b"]) = .ok (sol, ov) ∧
    solve .exact ⟨[("c", ⟨5, 2⟩)], [("a", ⟨3, 2⟩), ("b", ⟨2, 2⟩), ("d", ⟨2, 3⟩)], defaultStrategy, false, false, 0⟩
      (some ["d", "b"]) ≠ .ok (sol, ov) :=
  ⟨[("c", [("d", ⟨0, 0, 3, 2⟩), ("b", ⟨3, 0, 2, 2⟩)])], [("c", 1)], by decide +kernel, by
    intro h
    have : (solve .exact ⟨[("c", ⟨5, 2⟩)], [("a", ⟨3, 2⟩), ("b", ⟨2, 2⟩), ("d", ⟨2, 3⟩)], defaultStrategy, false, false, 0⟩
      (some ["d", "b"])).toOption.map (fun r => (placedIds r.1).length) = some 1 := by decide +kernel
    rw [h] at this
    exact absurd this (by decide)⟩

end HP
