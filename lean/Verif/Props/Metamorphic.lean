import Verif.Proofs.Order
import Verif.Proofs.Rename
import Verif.Props.Packing
import Verif.Props.Structures
/-
Property theorems C61 - C64: how the result of `solve()` changes when the problem changes.

`solve A p seq` and `ValidIn p` as in Props/Packing.lean. `DivZero A` is the one law of the
floating point arithmetic that is needed in strip packing: `0 / n == 0`.
-/
namespace HP
open Spec

/-- `0 / n` is `0` (true of Python's division of ints) -/
def DivZero (A : Arith) : Prop := ∀ n, 0 < n → A.div 0 n = 0

theorem known_of_ok {A : Arith} {p : SolveIn} (hv : ValidIn p) {seq : Option (List String)} {r}
    (h : solve A p seq = .ok r) : KnownSeq p seq := by
  by_contra hn
  rw [(C06_total A p hv seq).2 hn] at h
  cases h

/-! ### C61 -/

theorem solveLoop_append (A : Arith) (p : SolveIn) (hh : p.strip = true → 0 < p.height) (extra : PyDict String Dim)
    (he : ∀ c ∈ extra, 0 < c.2.w ∧ 0 < c.2.l) : ∀ (cs items : PyDict String Dim) (sol : Solution) (ov : ObjVals),
    (∀ c ∈ cs, 0 < c.2.w ∧ 0 < c.2.l) → ValidSizes items → solveLoop A p cs items = .ok (sol, ov) →
    ∃ sol' ov', solveLoop A p (cs ++ extra) items = .ok (sol ++ sol', ov ++ ov') ∧
      PyDict.keys sol' = PyDict.keys extra ∧ PyDict.keys ov' = PyDict.keys extra
  | [], items, sol, ov, _, hv, h => by
    cases h
    obtain ⟨sol', ov', rem, h1, h2⟩ := solveLoop_chain A p hh extra items he hv
    exact ⟨sol', ov', h1, h2.keys.1, h2.keys.2⟩
  | (cid, c) :: cs, items, sol, ov, hcs, hv, h => by
    rw [List.cons_append]
    unfold solveLoop at h ⊢
    simp only [bind, Except.bind, pure, Except.pure] at h ⊢
    split at h
    · rename_i h0
      rw [if_pos h0]
      split at h
      · cases h
      · rename_i r hr
        injection h with h
        injection h with e1 e2
        subst e1; subst e2
        obtain ⟨sol', ov', k1, k2⟩ := solveLoop_append A p hh extra he cs items _ _
          (fun c hc => hcs c (by simp [hc])) hv hr
        rw [k1]
        exact ⟨sol', ov', rfl, k2⟩
    · rename_i h0
      rw [if_neg h0]
      have hc := hcs (cid, c) (by simp)
      obtain ⟨r, hr, hf⟩ := construct_facts (P := p.params A c) hv hc.1 (by
        rw [params_L]; unfold lenOf; split
        · rename_i h; exact hh h
        · exact hc.2)
      rw [hr] at h ⊢
      simp only at h ⊢
      split at h
      · cases h
      · rename_i r2 hr2
        injection h with h
        injection h with e1 e2
        subst e1; subst e2
        obtain ⟨sol', ov', k1, k2⟩ := solveLoop_append A p hh extra he cs r.items _ _
          (fun c hc => hcs c (by simp [hc])) (validSizes_sublist hf.sub hv) hr2
        rw [k1]
        exact ⟨sol', ov', rfl, k2⟩

/-- C61: containers added behind the existing ones do not change what is put into the existing
ones, nor their values: the old solution is a prefix of the new one, and the new containers
follow in their order. -/
theorem C61_prefix (A : Arith) (p : SolveIn) (hv : ValidIn p) (seq : Option (List String))
    (sol : Solution) (ov : ObjVals) (h : solve A p seq = .ok (sol, ov))
    (extra : List (String × Dim)) (he : ValidSizes (p.containers ++ extra)) :
    ∃ sol' ov', solve A { p with containers := p.containers ++ extra } seq = .ok (sol ++ sol', ov ++ ov') ∧
      sol'.map (·.1) = extra.map (·.1) ∧ ov'.map (·.1) = extra.map (·.1) := by
  have hk := known_of_ok hv h
  obtain ⟨hvs, rem, hch⟩ := solve_ok hv hk h
  have hs : ∀ p' : SolveIn, p'.items = p.items → solve A p' seq = solveLoop A p' p'.containers (solvedFor p.items seq) := by
    intro p' hp'
    cases seq with
    | none => unfold solve solvedFor; rw [← hp']; rfl
    | some s =>
      unfold solve
      simp only [bind, Except.bind]
      rw [hp', deepcopySeq_reorder (hk s rfl)]
      rfl
  rw [hs p rfl] at h
  rw [hs { p with containers := p.containers ++ extra } rfl]
  have hl : ∀ cs d, solveLoop A { p with containers := p.containers ++ extra } cs d = solveLoop A p cs d := by
    intro cs
    induction cs with
    | nil => intro d; rfl
    | cons q cs ih =>
      intro d
      obtain ⟨cid, c⟩ := q
      unfold solveLoop
      simp only [ih]
      rfl
  rw [hl]
  exact solveLoop_append A p hv.height extra (fun c hc => he.2 c (List.mem_append_right _ hc)) _ _ _ _ hv.conts.2 hvs h

/-- the same for the operations of an object: `problem.containers["id"] = v` with a new id -/
theorem C61_api (A : Arith) (i : Inst) (hr : Reach A i) (seq : Option (List String)) (id : String) (v : PyVal)
    (hnew : id ∉ i.containers.map (·.1)) (hset : (step A i (.setKey .containers (.str id) v)).2 = .ok)
    (hsol : (step A i (.solve seq)).2 = .ok) :
    let j := (step A (step A i (.setKey .containers (.str id) v)).1 (.solve seq)).1
    let k := (step A i (.solve seq)).1
    ∃ m val, j.solution = k.solution ++ [(id, m)] ∧ j.objVals = k.objVals ++ [(id, val)] := by
  have hv := hr.good.valid
  intro j k
  obtain ⟨hlock, s, d, hs, hsize⟩ := (C59_setKey A i .containers (.str id) v).1.1 hset
  injection hs with hs; subst hs
  have hstrip : i.strip = false := by
    cases h : i.strip with
    | false => rfl
    | true => exact absurd ⟨rfl, h⟩ hlock
  have hmk := (mkDims_iff .containers v d).2 hsize
  have hi' : (step A i (.setKey .containers (.str id) v)).1 =
      { i with containers := i.containers ++ [(id, d)], containersNum := (i.containers ++ [(id, d)]).length, solution := [], objVals := [] } := by
    show (i.setKey .containers (.str id) v).1 = _
    unfold Inst.setKey
    have hl : ¬ ((decide (SKind.containers = .containers) && i.strip) = true) := by rw [hstrip]; decide
    rw [if_neg hl]
    simp only [PyVal.asStr?, hmk]
    have hins : PyDict.insert i.containers id d = i.containers ++ [(id, d)] := insert_append_new d hnew
    simp only [Inst.data, Inst.setData, hins]
    rfl
  obtain ⟨i2, h2, hk2⟩ : ∃ r, HP.solve A i.solveIn seq = .ok r ∧ k = { i with solution := r.1, objVals := r.2 } := by
    have : step A i (.solve seq) = match i.solve A seq with
      | .ok j => (j, .ok)
      | .error e => (i, .raised e) := rfl
    rw [this] at hsol
    have hk : k = (match i.solve A seq with
      | .ok j => (j, Outcome.ok)
      | .error e => (i, .raised e)).1 := rfl
    cases hsv : HP.solve A i.solveIn seq with
    | error e =>
      have : i.solve A seq = .error e := by unfold Inst.solve; rw [hsv]; rfl
      rw [this] at hsol; cases hsol
    | ok r =>
      have : i.solve A seq = .ok { i with solution := r.1, objVals := r.2 } := by unfold Inst.solve; rw [hsv]; rfl
      rw [this] at hk
      exact ⟨r, rfl, hk⟩
  have hex : ValidSizes (i.containers ++ [(id, d)]) := by
    have := validSizes_insert hv.conts id (mkDims_pos hmk)
    have hins : PyDict.insert i.containers id d = i.containers ++ [(id, d)] := insert_append_new d hnew
    rw [hins] at this; exact this
  obtain ⟨sol', ov', e1, e2, e3⟩ := C61_prefix A i.solveIn hv.solveIn seq i2.1 i2.2 h2 [(id, d)] hex
  have hj : j = { (step A i (.setKey .containers (.str id) v)).1 with solution := i2.1 ++ sol', objVals := i2.2 ++ ov' } := by
    have : j = (match (step A i (.setKey .containers (.str id) v)).1.solve A seq with
      | .ok j => (j, Outcome.ok)
      | .error e => ((step A i (.setKey .containers (.str id) v)).1, .raised e)).1 := rfl
    rw [this, hi']
    have : Inst.solve A { i with containers := i.containers ++ [(id, d)], containersNum := (i.containers ++ [(id, d)]).length, solution := [], objVals := [] } seq
        = .ok { i with containers := i.containers ++ [(id, d)], containersNum := (i.containers ++ [(id, d)]).length, solution := i2.1 ++ sol', objVals := i2.2 ++ ov' } := by
      unfold Inst.solve
      have : ({ i with containers := i.containers ++ [(id, d)], containersNum := (i.containers ++ [(id, d)]).length, solution := [], objVals := [] } : Inst).solveIn
        = { i.solveIn with containers := i.solveIn.containers ++ [(id, d)] } := rfl
      rw [this, e1]; rfl
    rw [this]
  obtain ⟨q1, rfl⟩ : ∃ q, sol' = [q] := by
    have := congrArg List.length e2
    simp only [List.length_map, List.length_cons, List.length_nil] at this
    exact List.length_eq_one_iff.1 this
  obtain ⟨q2, rfl⟩ : ∃ q, ov' = [q] := by
    have := congrArg List.length e3
    simp only [List.length_map, List.length_cons, List.length_nil] at this
    exact List.length_eq_one_iff.1 this
  simp only [List.map_cons, List.map_nil, List.cons.injEq, and_true] at e2 e3
  refine ⟨q1.2, q2.2, ?_, ?_⟩
  · rw [hj, hk2, ← e2]
  · rw [hj, hk2, ← e3]

/-! ### C62 -/

theorem firstOcc_filter (keep : String → Bool) : ∀ s : List String, firstOcc (s.filter keep) = (firstOcc s).filter keep
  | [] => rfl
  | a :: s => by
    have ih := firstOcc_filter keep s
    by_cases h : keep a = true
    · rw [List.filter_cons_of_pos h]
      simp only [firstOcc]
      rw [List.filter_cons_of_pos h, ih, List.filter_filter, List.filter_filter]
      congr 1
      apply List.filter_congr
      intro x _
      rw [Bool.and_comm]
    · rw [List.filter_cons_of_neg h]
      simp only [firstOcc]
      rw [List.filter_cons_of_neg h, ih, List.filter_filter]
      apply List.filter_congr
      intro x _
      by_cases hx : x = a
      · subst hx; simp [h]
      · simp [hx]

theorem solvedFor_filter (items : PyDict String Dim) (drop : List String) (seq : Option (List String)) :
    solvedFor (items.filter (fun q => q.1 ∉ drop)) (seq.map (fun s => s.filter (· ∉ drop))) =
      (solvedFor items seq).filter (fun q => q.1 ∉ drop) := by
  cases seq with
  | none => rfl
  | some s =>
    simp only [solvedFor, Option.map_some, reorder]
    rw [firstOcc_filter]
    induction firstOcc s with
    | nil => rfl
    | cons a l ih =>
      have hfind : ∀ a, a ∉ drop → List.find? (fun q => q.1 == a) (items.filter (fun q => q.1 ∉ drop)) =
          List.find? (fun q => q.1 == a) items := by
        intro a ha
        rw [List.find?_filter]
        congr 1
        funext q
        by_cases hq : q.1 = a
        · simp [hq, ha]
        · simp [hq]
      by_cases ha : a ∈ drop
      · rw [List.filter_cons_of_neg (by simpa using ha), ih, List.filterMap_cons]
        cases hq : List.find? (fun q => q.1 == a) items with
        | none => rfl
        | some q =>
          have : q.1 = a := by simpa using List.find?_some hq
          simp only
          rw [List.filter_cons_of_neg (by simp [this, ha])]
      · rw [List.filter_cons_of_pos (by simpa using ha), List.filterMap_cons, List.filterMap_cons, hfind a ha, ih]
        cases hq : List.find? (fun q => q.1 == a) items with
        | none => rfl
        | some q =>
          have : q.1 = a := by simpa using List.find?_some hq
          simp only
          rw [List.filter_cons_of_pos (by simp [this, ha])]

/-- C62: items that `solve()` leaves over have no influence: without some of them (in the items and
in the sequence) the result is exactly the same. -/
theorem C62_leftover (A : Arith) (p : SolveIn) (hz : p.strip = true → DivZero A) (hv : ValidIn p)
    (seq : Option (List String)) (sol : Solution) (ov : ObjVals) (h : solve A p seq = .ok (sol, ov))
    (drop : List String) (hd : ∀ id ∈ drop, id ∉ placedIds sol) :
    solve A { p with items := p.items.filter (fun q => q.1 ∉ drop) } (seq.map (fun s => s.filter (· ∉ drop))) =
      .ok (sol, ov) := by
  have hk := known_of_ok hv h
  have hsl : (p.items.filter (fun q => q.1 ∉ drop)).Sublist p.items := List.filter_sublist
  obtain ⟨hvs, rem, hch⟩ := solve_ok hv hk h
  have hv2 : ValidIn { p with items := p.items.filter (fun q => q.1 ∉ drop) } :=
    ⟨hv.conts, validSizes_sublist hsl hv.items, hv.height⟩
  refine solve_sim hz hv (items' := p.items.filter (fun q => q.1 ∉ drop)) hv2 rfl hk ?_ h ?_ ?_ ?_
  · intro s hs id hid
    cases seq with
    | none => cases hs
    | some s0 =>
      simp only [Option.map_some, Option.some.injEq] at hs
      subst hs
      rw [List.mem_filter] at hid
      have := hk s0 rfl id hid.1
      obtain ⟨q, hq, rfl⟩ := List.mem_map.1 this
      exact List.mem_map.2 ⟨q, List.mem_filter.2 ⟨hq, hid.2⟩, rfl⟩
  · intro q hq
    rw [solvedFor_filter] at hq
    exact (List.mem_filter.1 hq).1
  · intro x hx
    rw [solvedFor_filter]
    have h1 : x ∈ PyDict.keys (solvedFor p.items seq) := hch.perm.mem_iff.1 (List.mem_append_left _ hx)
    obtain ⟨q, hq, rfl⟩ := List.mem_map.1 h1
    refine List.mem_map.2 ⟨q, List.mem_filter.2 ⟨hq, ?_⟩, rfl⟩
    simp only [decide_eq_true_eq]
    intro hdm
    exact hd _ hdm hx
  · intro pre x post ho y hy
    right
    refine hy.trans ?_
    rw [solvedFor_filter]
    exact List.filter_sublist.map _

/-- the same for the operations of an object: `del problem.items["id"]` for an item that the last
`solve()` left over, then `solve()` again -/
theorem C62_api (A : Arith) (hz : DivZero A) (i : Inst) (hr : Reach A i) (id : String)
    (hleft : id ∉ placedIds (step A i (.solve none)).1.solution) (hdel : (step A i (.delKey .items (.str id))).2 = .ok) :
    let j := (step A (step A i (.delKey .items (.str id))).1 (.solve none)).1
    j.solution = (step A i (.solve none)).1.solution ∧ j.objVals = (step A i (.solve none)).1.objVals := by
  have hv := hr.good.valid
  intro j
  obtain ⟨sol, ov, hs⟩ := (C06_total A i.solveIn hv.solveIn none).1 (by intro s h; cases h)
  have hk : (step A i (.solve none)).1 = { i with solution := sol, objVals := ov } := by
    have : i.solve A none = .ok { i with solution := sol, objVals := ov } := by unfold Inst.solve; rw [hs]; rfl
    show (match i.solve A none with
      | .ok j => (j, Outcome.ok)
      | .error e => (i, .raised e)).1 = _
    rw [this]
  rw [hk] at hleft ⊢
  simp only at hleft
  have hdata := (C59_delKey A i hr .items (.str id)).2 id rfl hdel
  have hspec := delKey_spec hv .items (.str id)
  have he : Edited i (step A i (.delKey .items (.str id))).1 := EditOrSame.ok hspec hdel
  obtain ⟨cs, its, n, he1, e2, e3, e4, e5, e6⟩ := he
  have hcs : cs = i.containers := by
    have : (i.delKey .items (.str id)).1.containers = i.containers := by
      unfold Inst.delKey
      split
      · rfl
      · split
        · rfl
        · rfl
    have h2 : (step A i (.delKey .items (.str id))).1.containers = i.containers := this
    rw [he1] at h2
    exact h2
  have hits : its = i.items.filter (fun q => q.1 ∉ [id]) := by
    have h2 := hdata
    rw [he1] at h2
    have h3 : its = i.items.filter (fun p => p.1 ≠ id) := h2
    rw [h3]
    apply List.filter_congr
    intro q _
    simp
  have hs2 := C62_leftover A i.solveIn (fun _ => hz) hv.solveIn none sol ov hs [id] (by simpa using hleft)
  have hj : j = { (step A i (.delKey .items (.str id))).1 with solution := sol, objVals := ov } := by
    have : (step A i (.delKey .items (.str id))).1.solve A none =
        .ok { (step A i (.delKey .items (.str id))).1 with solution := sol, objVals := ov } := by
      unfold Inst.solve
      have : (step A i (.delKey .items (.str id))).1.solveIn =
          { i.solveIn with items := i.solveIn.items.filter (fun q => q.1 ∉ [id]) } := by
        rw [he1, hcs, hits]; rfl
      rw [this]
      simp only [Option.map_none] at hs2
      rw [hs2]; rfl
    show (match (step A i (.delKey .items (.str id))).1.solve A none with
      | .ok j => (j, Outcome.ok)
      | .error e => ((step A i (.delKey .items (.str id))).1, .raised e)).1 = _
    rw [this]
  rw [hj]
  exact ⟨rfl, rfl⟩

/-! ### C63 -/

/-- C63: ids are only names. Renaming the items by any injective `f` and the containers by any
`g` renames the result, for every input: errors stay the same errors, placements stay where
they are. -/
theorem C63_names (A : Arith) (p : SolveIn) (seq : Option (List String)) (f g : String → String)
    (hf : Function.Injective f) :
    solve A { p with containers := p.containers.map (fun c => (g c.1, c.2)),
                     items := p.items.map (fun q => (f q.1, q.2)) } (seq.map (List.map f)) =
      match solve A p seq with
      | .error e => .error e
      | .ok (sol, ov) => .ok (sol.map (fun c => (g c.1, c.2.map (fun q => (f q.1, q.2)))), ov.map (fun c => (g c.1, c.2))) := by
  have := solve_ren hf g A p _ rfl seq
  simp only [renKeys] at this
  rw [this]
  cases solve A p seq with
  | error e => rfl
  | ok r => rfl

/-! ### C64 -/

/-- C64: the order of the entries of a result is a sequence that reproduces it: `solve` with the
placed items in the order in which they were placed (container after container, nothing else)
gives exactly the same solution and values. -/
theorem C64_replay (A : Arith) (p : SolveIn) (hz : p.strip = true → DivZero A) (hv : ValidIn p)
    (seq : Option (List String)) (sol : Solution) (ov : ObjVals) (h : solve A p seq = .ok (sol, ov)) :
    solve A p (some (placedIds sol)) = .ok (sol, ov) := by
  have hk := known_of_ok hv h
  obtain ⟨hvs, rem, hch⟩ := solve_ok hv hk h
  have hnd : (placedIds sol).Nodup := (List.nodup_append.1 (hch.perm.nodup_iff.2 hvs.1)).1
  have hmem : ∀ x ∈ placedIds sol, x ∈ PyDict.keys (solvedFor p.items seq) :=
    fun x hx => hch.perm.mem_iff.1 (List.mem_append_left _ hx)
  have hk' : KnownSeq p (some (placedIds sol)) := by
    intro s hs id hid
    injection hs with hs; subst hs
    obtain ⟨q, hq, rfl⟩ := List.mem_map.1 (hmem id hid)
    exact List.mem_map.2 ⟨q, solvedFor_mem q hq, rfl⟩
  have hfo : ∀ l : List String, l.Nodup → firstOcc l = l := by
    intro l
    induction l with
    | nil => intro _; rfl
    | cons a l ih =>
      intro hn
      rw [List.nodup_cons] at hn
      simp only [firstOcc, ih hn.2, List.cons.injEq, true_and]
      rw [List.filter_eq_self]
      intro x hx
      simp only [decide_eq_true_eq]
      rintro rfl
      exact hn.1 hx
  have hkeys : PyDict.keys (solvedFor p.items (some (placedIds sol))) = placedIds sol := by
    simp only [solvedFor]
    rw [reorder_keys _ (hk' _ rfl), hfo _ hnd]
  refine solve_sim hz hv (items' := p.items) hv rfl hk hk' h ?_ ?_ ?_
  · intro q hq
    have h1 : q ∈ p.items := solvedFor_mem q hq
    have h2 : q.1 ∈ placedIds sol := by rw [← hkeys]; exact List.mem_map.2 ⟨q, hq, rfl⟩
    obtain ⟨q', hq', he⟩ := List.mem_map.1 (hmem _ h2)
    have h3 : q' ∈ p.items := solvedFor_mem q' hq'
    have e1 := PyDict.find?_of_mem hv.items.1 (k := q.1) (a := q.2) h1
    have e2 := PyDict.find?_of_mem hv.items.1 (k := q'.1) (a := q'.2) h3
    rw [he, e1] at e2
    injection e2 with e2
    have : q' = q := Prod.ext he e2.symm
    rw [← this]; exact hq'
  · rw [hkeys]; exact fun x hx => hx
  · intro pre x post ho y hy
    left
    rw [hkeys] at hy
    rw [ho] at hy hnd
    -- y before x in `pre ++ x :: post`
    rw [List.nodup_append] at hnd
    by_contra hyp
    have hxp : x ∉ pre := fun hx => hnd.2.2 _ hx _ (by simp) rfl
    have hxpost : x ∉ post := (List.nodup_cons.1 hnd.2.1).1
    have := hy
    rw [List.sublist_append_iff] at this
    obtain ⟨l1, l2, e, s1, s2⟩ := this
    cases l1 with
    | nil =>
      simp only [List.nil_append] at e
      rw [← e] at s2
      cases s2 with
      | cons _ s2 => exact hxpost (s2.subset (by simp))
      | cons_cons _ s2 => exact hxpost (s2.subset (by simp))
    | cons a l1 =>
      simp only [List.cons_append, List.cons.injEq] at e
      rw [← e.1] at s1
      exact hyp (s1.subset (by simp))

/-! ### The hypotheses can be met -/

theorem divZero_exact : DivZero Arith.exact := by
  intro n _
  show ((0 : Nat) : Rat) / (n : Rat) = 0
  simp

/-- a third container for the left-over item `d` and the large item `f` -/
example : ∃ sol' ov', solve Arith.exact { demo with containers := demo.containers ++ [("c2", ⟨9, 11⟩)] } none =
    .ok ([("c0", [("a", ⟨0, 0, 3, 2⟩), ("b", ⟨0, 2, 4, 2⟩), ("g", ⟨0, 4, 2, 1⟩), ("c", ⟨3, 0, 2, 2⟩)]),
      ("c1", [("e", ⟨0, 0, 3, 3⟩)])] ++ sol', [("c0", 2 / 3), ("c1", 9 / 16)] ++ ov') ∧
      sol'.map (·.1) = ["c2"] ∧ ov'.map (·.1) = ["c2"] :=
  C61_prefix Arith.exact demo demo_valid none _ _ demo_solve [("c2", ⟨9, 11⟩)] (by constructor <;> decide)

/-- what is put into it -/
example : solve Arith.exact { demo with containers := demo.containers ++ [("c2", ⟨9, 11⟩)] } none =
    .ok ([("c0", [("a", ⟨0, 0, 3, 2⟩), ("b", ⟨0, 2, 4, 2⟩), ("g", ⟨0, 4, 2, 1⟩), ("c", ⟨3, 0, 2, 2⟩)]),
      ("c1", [("e", ⟨0, 0, 3, 3⟩)]), ("c2", [("d", ⟨0, 0, 5, 2⟩), ("f", ⟨0, 2, 9, 9⟩)])],
      [("c0", 2 / 3), ("c1", 9 / 16), ("c2", 91 / 99)]) := by decide +kernel

/-- `d` and `f` are left over: without them the result is the same -/
example : solve Arith.exact { demo with items := demo.items.filter (fun q => q.1 ∉ ["d", "f"]) } none =
    .ok ([("c0", [("a", ⟨0, 0, 3, 2⟩), ("b", ⟨0, 2, 4, 2⟩), ("g", ⟨0, 4, 2, 1⟩), ("c", ⟨3, 0, 2, 2⟩)]),
      ("c1", [("e", ⟨0, 0, 3, 3⟩)])], [("c0", 2 / 3), ("c1", 9 / 16)]) :=
  C62_leftover Arith.exact demo (fun h => by cases h) demo_valid none _ _ demo_solve ["d", "f"] (by decide)

/-- strip packing: `f` does not fit the strip -/
example : solve Arith.exact { demoStrip with items := demoStrip.items.filter (fun q => q.1 ∉ ["f"]) } none =
    .ok ([("c0", [("a", ⟨0, 0, 3, 2⟩), ("b", ⟨0, 2, 2, 4⟩), ("c", ⟨0, 6, 2, 2⟩), ("d", ⟨0, 8, 5, 2⟩),
      ("e", ⟨0, 10, 3, 3⟩), ("g", ⟨0, 13, 2, 1⟩)])], [("c0", 1 / 2)]) :=
  C62_leftover Arith.exact demoStrip (fun _ => divZero_exact) demoStrip_valid none _ _ demoStrip_solve ["f"] (by decide)

/-- renamed items and containers -/
example : solve Arith.exact
    { demo with containers := [("c0'", ⟨6, 5⟩), ("c1'", ⟨4, 4⟩)],
                items := [("ax", ⟨3, 2⟩), ("bx", ⟨2, 4⟩), ("cx", ⟨2, 2⟩), ("dx", ⟨5, 2⟩), ("ex", ⟨3, 3⟩),
                  ("fx", ⟨9, 9⟩), ("gx", ⟨2, 1⟩)] } (some ["dx", "ax", "bx", "ax"]) =
    .ok ([("c0'", [("dx", ⟨0, 0, 5, 2⟩), ("ax", ⟨0, 2, 3, 2⟩)]), ("c1'", [("bx", ⟨0, 0, 2, 4⟩)])],
     [("c0'", 8 / 15), ("c1'", 1 / 2)]) := by
  have h := C63_names Arith.exact demo (some ["d", "a", "b", "a"]) (fun s => s ++ "x") (fun s => s ++ "'")
    (fun a b h => by
      have := congrArg String.toList h
      simp only [String.toList_append] at this
      exact String.toList_inj.1 (List.append_cancel_right this))
  rw [demo_solve_seq] at h
  exact h

/-- the placement order differs from the order of the items (`g` before `c`) and reproduces the result -/
example : solve Arith.exact demo (some ["a", "b", "g", "c", "e"]) = .ok
    ([("c0", [("a", ⟨0, 0, 3, 2⟩), ("b", ⟨0, 2, 4, 2⟩), ("g", ⟨0, 4, 2, 1⟩), ("c", ⟨3, 0, 2, 2⟩)]),
      ("c1", [("e", ⟨0, 0, 3, 3⟩)])], [("c0", 2 / 3), ("c1", 9 / 16)]) :=
  C64_replay Arith.exact demo (fun h => by cases h) demo_valid none _ _ demo_solve

end HP
