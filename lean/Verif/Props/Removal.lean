import Verif.Props.FirstFit
import Verif.Proofs.Prefix
/-
C103: removing items leaves everything that was placed before them as it is.
-/
namespace HP
open Spec

/-- the problem with the containers before one of them has the same solution up to there -/
theorem solve_truncated_before {A : Arith} {p : SolveIn} (hv : ValidIn p) {seq : Option (List String)}
    (hs : KnownSeq p seq) {sol : Solution} {ov : ObjVals} (h : solve A p seq = .ok (sol, ov))
    {before rest : Solution} (hsplit : sol = before ++ rest) :
    ∃ cs extra ov1 ov2, p.containers = cs ++ extra ∧ ValidIn { p with containers := cs } ∧
      solve A { p with containers := cs } seq = .ok (before, ov1) ∧ ov = ov1 ++ ov2 ∧
      before.map (·.1) = cs.map (·.1) ∧ rest.map (·.1) = extra.map (·.1) := by
  have hcut : p.containers = p.containers.take before.length ++ p.containers.drop before.length :=
    (List.take_append_drop _ _).symm
  have hvs : ValidSizes (p.containers.take before.length) :=
    ⟨hv.conts.1.sublist ((List.take_sublist _ _).map _),
      fun q hq => hv.conts.2 q (List.mem_of_mem_take hq)⟩
  have hv' : ValidIn { p with containers := p.containers.take before.length } := ⟨hvs, hv.items, hv.height⟩
  have hs' : KnownSeq { p with containers := p.containers.take before.length } seq := hs
  obtain ⟨sol1, ov1, h1⟩ := (C06_total A _ hv' seq).1 hs'
  obtain ⟨sol2, ov2, h2, k2, _⟩ := C61_prefix A _ hv' seq sol1 ov1 h1 (p.containers.drop before.length) (by
      show ValidSizes (p.containers.take before.length ++ p.containers.drop before.length)
      rw [← hcut]; exact hv.conts)
  have h2' : solve A p seq = .ok (sol1 ++ sol2, ov1 ++ ov2) := by
    have : ({ p with containers := p.containers.take before.length ++
      p.containers.drop before.length } : SolveIn) = p := by rw [← hcut]
    rw [← this]; exact h2
  rw [h] at h2'
  injection h2' with h2'
  injection h2' with e1 e2
  obtain ⟨kk, _⟩ := C04_once A p hv seq hs sol ov h
  obtain ⟨kk1, _⟩ := C04_once A _ hv' seq hs' sol1 ov1 h1
  have hl : sol.length = p.containers.length := by
    have := congrArg List.length kk; simpa using this
  have hl1 : sol1.length = before.length := by
    have := congrArg List.length kk1
    rw [hsplit] at hl
    simp at this hl
    omega
  have hsol1 : sol1 = before ∧ sol2 = rest := by
    have := hsplit.symm.trans e1
    have := List.append_inj this hl1.symm
    exact ⟨this.1.symm, this.2.symm⟩
  rw [hsol1.1] at h1 kk1
  refine ⟨_, _, ov1, ov2, hcut, hv', h1, e2, ?_, ?_⟩
  · exact kk1.symm ▸ rfl
  · rw [← hsol1.2]; exact k2

/-- C103: take some items out of the problem (and out of the sequence).  Everything that was placed
before the first of them stays where it was: the containers before are the same, with the same
values, and in the container at hand the entries before it are the first entries again. -/
theorem C103_before (A : Arith) (p : SolveIn) (hz : p.strip = true → DivZero A) (hv : ValidIn p)
    (seq : Option (List String)) (sol : Solution) (ov : ObjVals) (h : solve A p seq = .ok (sol, ov))
    (before : Solution) (cid : String) (m1 m2 : PyDict String Rect) (after : Solution)
    (hsplit : sol = before ++ (cid, m1 ++ m2) :: after)
    (drop : List String) (hd : ∀ id ∈ drop, id ∉ placedIds before ∧ id ∉ m1.map (·.1)) :
    ∃ m2' after' ov', solve A { p with items := p.items.filter (fun q => q.1 ∉ drop) }
        (seq.map (fun s => s.filter (· ∉ drop))) = .ok (before ++ (cid, m1 ++ m2') :: after', ov') ∧
      ov'.take before.length = ov.take before.length := by
  have hk := known_of_ok hv h
  obtain ⟨cs, extra, ov1, ov2, hcut, hvt, ht, hov, hkb, hkr⟩ := solve_truncated_before hv hk h hsplit
  -- the containers before: the removed items are left over there
  have hleft := C62_leftover A { p with containers := cs } hz hvt seq before ov1 ht drop (fun id hid => (hd id hid).1)
  have hvf : ValidSizes (p.items.filter (fun q => q.1 ∉ drop)) := validSizes_filter hv.items _
  have hvt' : ValidIn { p with containers := cs, items := p.items.filter (fun q => q.1 ∉ drop) } :=
    ⟨hvt.conts, hvf, hv.height⟩
  have hv' : ValidIn { p with items := p.items.filter (fun q => q.1 ∉ drop) } := ⟨hv.conts, hvf, hv.height⟩
  have hex := C61_prefix A { p with containers := cs, items := p.items.filter (fun q => q.1 ∉ drop) } hvt' _ before ov1 hleft extra
    (by show ValidSizes (cs ++ extra); rw [← hcut]; exact hv.conts)
  obtain ⟨sol', ov', h2, k1, k2⟩ := hex
  have h2' : solve A { p with items := p.items.filter (fun q => q.1 ∉ drop) } (seq.map (fun s => s.filter (· ∉ drop))) =
      .ok (before ++ sol', ov1 ++ ov') := by
    have : ({ p with containers := cs ++ extra, items := p.items.filter (fun q => q.1 ∉ drop) } : SolveIn) =
        { p with items := p.items.filter (fun q => q.1 ∉ drop) } := by rw [← hcut]
    rw [← this]; exact h2
  have hk' := known_of_ok hv' h2'
  -- the container at hand
  have hkeys : sol'.map (·.1) = cid :: after.map (·.1) := by rw [k1, ← hkr]; rfl
  obtain ⟨q, after', rfl, hq1, _⟩ := List.map_eq_cons_iff.1 hkeys
  obtain ⟨cid', m'⟩ := q
  simp only at hq1; subst hq1
  have hcin : cid' ∈ p.containers.map (·.1) := by
    rw [hcut, List.map_append, ← hkr]
    exact List.mem_append_right _ (by simp)
  obtain ⟨⟨ci, c⟩, hc, hci⟩ := List.mem_map.1 hcin
  simp only at hci; subst hci
  have hlen1 : ov1.length = before.length := by
    obtain ⟨_, kk, _⟩ := C04_once A _ hvt seq hk before ov1 ht
    have a := congrArg List.length kk
    have b := congrArg List.length hkb
    simp at a b; omega
  have hvals : (ov1 ++ ov').take before.length = ov.take before.length := by
    rw [hov, ← hlen1, List.take_left, List.take_left]
  suffices hm : ∃ m2', m' = m1 ++ m2' by
    obtain ⟨m2', rfl⟩ := hm
    exact ⟨m2', after', _, h2', hvals⟩
  have hval := solvedFor_valid hv hk h
  have hpool := pool_of_split hv hk h hsplit hc rfl
  have hpool' := pool_of_split hv' hk' h2' rfl hc rfl
  simp only [solvedFor_filter] at hpool'
  rcases hpool with ⟨_, he⟩ | ⟨hne, r, hr, hm, _⟩
  · have : m1 = [] := (List.append_eq_nil_iff.1 he).1
    exact ⟨m', by simp [this]⟩
  · have hWL := lenOf_pos (A := A) hv hc
    have hg := validSizes_filter hval (fun q => q.1 ∉ placedIds before)
    obtain ⟨r0, hr0, hf0⟩ := construct_facts (P := p.params A c) hg hWL.1 hWL.2
    rw [hr] at hr0; injection hr0 with hr0; subst hr0
    have hkm : ∀ x ∈ PyDict.keys m1, x ∈ PyDict.keys
        (((solvedFor p.items seq).filter (fun q => q.1 ∉ drop)).filter (fun q => q.1 ∉ placedIds before)) := by
      intro x hx
      have h1 : x ∈ PyDict.keys r.solution := by
        rw [← hm]; simp only [PyDict.keys, List.map_append]; exact List.mem_append_left _ hx
      have h2 := hf0.perm.mem_iff.1 (List.mem_append_left _ h1)
      obtain ⟨q, hq, rfl⟩ := List.mem_map.1 h2
      rw [List.mem_filter] at hq
      refine List.mem_map.2 ⟨q, List.mem_filter.2 ⟨List.mem_filter.2 ⟨hq.1, ?_⟩, hq.2⟩, rfl⟩
      simp only [decide_eq_true_eq]
      intro hdm
      exact (hd _ hdm).2 hx
    rcases hpool' with ⟨he, hm'⟩ | ⟨_, r', hr', hm', _⟩
    · have : m1 = [] := by
        rw [he] at hkm
        cases m1 with
        | nil => rfl
        | cons a m1 => exact absurd (hkm a.1 (by simp [PyDict.keys])) (by simp [PyDict.keys])
      exact ⟨m', by simp [this]⟩
    · obtain ⟨s2', hs2⟩ := construct_prefix (P := p.params A c) hg
        (validSizes_filter (validSizes_filter hval _) _) hWL.1 hWL.2 hr hr'
        (List.filter_sublist.filter _) hm.symm hkm
      exact ⟨s2', by rw [hm', hs2]⟩

/-- the same for the operations of an object: `solve()`, then `del problem.items["id"]` for one item,
then `solve()` again -/
theorem C103_api (A : Arith) (hz : DivZero A) (i : Inst) (hr : Reach A i) (id : String)
    (hdel : (step A i (.delKey .items (.str id))).2 = .ok)
    (before : Solution) (cid : String) (m1 m2 : PyDict String Rect) (after : Solution)
    (hsplit : (step A i (.solve none)).1.solution = before ++ (cid, m1 ++ m2) :: after)
    (hd : id ∉ placedIds before ∧ id ∉ m1.map (·.1)) :
    ∃ m2' after', (step A (step A i (.delKey .items (.str id))).1 (.solve none)).1.solution =
        before ++ (cid, m1 ++ m2') :: after' ∧
      (step A (step A i (.delKey .items (.str id))).1 (.solve none)).1.objVals.take before.length =
        (step A i (.solve none)).1.objVals.take before.length := by
  have hv := hr.good.valid
  obtain ⟨sol, ov, hs⟩ := (C06_total A i.solveIn hv.solveIn none).1 (by intro s h; cases h)
  have hk : (step A i (.solve none)).1 = { i with solution := sol, objVals := ov } := by
    have : i.solve A none = .ok { i with solution := sol, objVals := ov } := by unfold Inst.solve; rw [hs]; rfl
    show (match i.solve A none with
      | .ok j => (j, Outcome.ok)
      | .error e => (i, .raised e)).1 = _
    rw [this]
  rw [hk] at hsplit ⊢
  simp only at hsplit ⊢
  have hdata := (C59_delKey A i hr .items (.str id)).2 id rfl hdel
  have hspec := delKey_spec hv .items (.str id)
  have he : Edited i (step A i (.delKey .items (.str id))).1 := EditOrSame.ok hspec hdel
  obtain ⟨cs, its, n, he1, e2, e3, e4, e5, e6⟩ := he
  have hcs : cs = i.containers := by
    have : (i.delKey .items (.str id)).1.containers = i.containers := by
      unfold Inst.delKey
      split
      · rfl
      · split
        · rfl
        · rfl
    have h2 : (step A i (.delKey .items (.str id))).1.containers = i.containers := this
    rw [he1] at h2
    exact h2
  have hits : its = i.items.filter (fun q => q.1 ∉ [id]) := by
    have h2 := hdata
    rw [he1] at h2
    have h3 : its = i.items.filter (fun p => p.1 ≠ id) := h2
    rw [h3]
    apply List.filter_congr
    intro q _
    simp
  obtain ⟨m2', after', ov', hs2, hov⟩ := C103_before A i.solveIn (fun _ => hz) hv.solveIn none sol ov hs before cid m1 m2
    after hsplit [id] (by simpa using hd)
  refine ⟨m2', after', ?_⟩
  have : (step A i (.delKey .items (.str id))).1.solve A none =
      .ok { (step A i (.delKey .items (.str id))).1 with
        solution := before ++ (cid, m1 ++ m2') :: after', objVals := ov' } := by
    unfold Inst.solve
    have : (step A i (.delKey .items (.str id))).1.solveIn =
        { i.solveIn with items := i.solveIn.items.filter (fun q => q.1 ∉ [id]) } := by
      rw [he1, hcs, hits]; rfl
    rw [this]
    simp only [Option.map_none] at hs2
    rw [hs2]; rfl
  have hj : (step A (step A i (.delKey .items (.str id))).1 (.solve none)).1 =
      { (step A i (.delKey .items (.str id))).1 with
        solution := before ++ (cid, m1 ++ m2') :: after', objVals := ov' } := by
    show (match (step A i (.delKey .items (.str id))).1.solve A none with
      | .ok j => (j, Outcome.ok)
      | .error e => ((step A i (.delKey .items (.str id))).1, .raised e)).1 = _
    rw [this]
  rw [hj]
  exact ⟨rfl, hov⟩

/-! ### What is placed after a removed item is not protected -/

/-- four items for one container of 5 × 5, the default strategy, no rotation -/
def lossDemo : SolveIn :=
  { containers := [("c", ⟨5, 5⟩)]
    items := [("i0", ⟨2, 2⟩), ("i1", ⟨4, 4⟩), ("i2", ⟨2, 3⟩), ("i3", ⟨3, 3⟩)]
    strategy := defaultStrategy, rotation := false, strip := false, height := 0 }

/-- Taking the small first item away makes the container emptier: instead of three items
(19 of 25 fields) it then holds one (16 of 25), and the two other items that had been packed are
packed no more. -/
theorem C103_removal_can_lose :
    solve Arith.exact lossDemo none =
      .ok ([("c", [("i0", ⟨0, 0, 2, 2⟩), ("i2", ⟨0, 2, 2, 3⟩), ("i3", ⟨2, 0, 3, 3⟩)])], [("c", 19/25)]) ∧
    solve Arith.exact { lossDemo with items := lossDemo.items.filter (fun q => q.1 ∉ ["i0"]) } none =
      .ok ([("c", [("i1", ⟨0, 0, 4, 4⟩)])], [("c", 16/25)]) := by
  constructor <;> decide +kernel

/-- the hypotheses of `C103_before` are met by the demo with the item `b` removed: `a` stays -/
example : ValidIn demo ∧ (∃ ov, solve Arith.exact demo none = .ok
      ([] ++ ("c0", [("a", ⟨0, 0, 3, 2⟩)] ++ [("b", ⟨0, 2, 4, 2⟩), ("g", ⟨0, 4, 2, 1⟩), ("c", ⟨3, 0, 2, 2⟩)]) ::
        [("c1", [("e", ⟨0, 0, 3, 3⟩)])], ov)) ∧
    (∀ id ∈ ["b"], id ∉ placedIds [] ∧ id ∉ ([("a", (⟨0, 0, 3, 2⟩ : Rect))] : PyDict String Rect).map (·.1)) :=
  ⟨demo_valid, ⟨_, demo_solve⟩, by decide⟩

end HP
