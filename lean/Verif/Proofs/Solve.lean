import Verif.SpecSearch
import Verif.Proofs.Greedy
import Verif.Proofs.Value
/-
`_construct_solution` and `_solve` in terms of the specification vocabulary.
-/
namespace HP
open Spec

theorem GoodItems_iff (items : PyDict String Dim) : GoodItems items ↔ ValidSizes items := Iff.rfl

/-- the rectangles of a container's solution -/
def rectsOf (m : PyDict String Rect) : List Rect := m.map (·.2)

/-- everything proved about one call of `_construct_solution` -/
structure CFacts (P : CParams) (items : PyDict String Dim) (r : CResult) : Prop where
  perm : (PyDict.keys r.solution ++ PyDict.keys r.items).Perm (PyDict.keys items)
  sub : r.items.Sublist items
  sized : ∀ q ∈ r.solution, ∃ d, (q.1, d) ∈ items ∧ SizedAs P.rot d q.2
  inside : ∀ q ∈ r.solution, Inside P.W P.L q.2
  supp : ∀ pre q post, r.solution = pre ++ q :: post → Supported (rectsOf pre) q.2
  disj : (∀ p ∈ items, ¬ LowStrip P.rot p.2) → (rectsOf r.solution).Pairwise Disjoint
  over : (rectsOf r.solution).Pairwise SharesOnlyMiddle
  objBin : P.strip = false → P.ar = Arith.exact →
    r.obj = (totalArea (rectsOf r.solution) : Rat) / (P.W * P.L : Nat)
  objStrip : P.strip = true → r.obj = P.ar.div (totalArea (rectsOf r.solution))
      (P.W * max 1 (stackHeight (rectsOf r.solution) - 1))
  greedy : (P.strip = true ∨ ¬ r.obj ≥ 1) → ∀ it ∈ r.items,
      ¬ CanAdd P.W P.L P.rot (rectsOf r.solution) it.2 0 0 ∧
      (.A ∈ P.strategy → .A__ ∈ P.strategy → ∀ q ∈ rectsOf r.solution,
        ¬ CanAdd P.W P.L P.rot (rectsOf r.solution) it.2 q.x (q.y + q.l)) ∧
      (.B ∈ P.strategy → .B__ ∈ P.strategy → ∀ q ∈ rectsOf r.solution,
        ¬ CanAdd P.W P.L P.rot (rectsOf r.solution) it.2 (q.x + q.w) q.y)
  first : (∃ p ∈ items, FitsEmpty P.W P.L P.rot p.2) →
    ∃ pre id d post rect, items = pre ++ (id, d) :: post ∧
      (∀ p ∈ pre, ¬ FitsEmpty P.W P.L P.rot p.2) ∧
      r.solution.head? = some (id, rect) ∧
      rect = (if d.w ≤ P.W ∧ d.l ≤ P.L then ⟨0, 0, d.w, d.l⟩ else ⟨0, 0, d.l, d.w⟩)
  onlyA : (∀ c ∈ P.strategy, c = .A ∨ c = .A__) → ∀ q ∈ r.solution, q.2.x = 0
  onlyB : (∀ c ∈ P.strategy, c = .B ∨ c = .B__) → ∀ q ∈ r.solution, q.2.y = 0
  noStrat : P.strategy = [] → r.solution.length ≤ 1
  nonneg : NonNeg P.ar → 0 ≤ r.obj

theorem construct_facts {P : CParams} {items : PyDict String Dim} (hg : ValidSizes items)
    (hW : 0 < P.W) (hL : 0 < P.L) : ∃ r, construct P items = .ok r ∧ CFacts P items r := by
  obtain ⟨n, s, hrun, hI, hD, hn, hc⟩ := construct_total (P := P) hg hW hL
  refine ⟨_, hc, ?_⟩
  have hG := Run_GInv (GInv_init P items) hrun
  have hQ := Run_QInv (QInv_init P items) hrun
  have hrects : rectsOf (s.placed.map (fun p => (p.id, p.rect))) = s.placed.map Placed.rect := by
    simp [rectsOf, Function.comp_def]
  have hkeys : PyDict.keys (s.placed.map (fun p => (p.id, p.rect))) = s.placed.map (·.id) := by
    simp [PyDict.keys, Function.comp_def]
  have hdimpos : ∀ p ∈ s.placed, (p.id, p.dim) ∈ items := by
    intro p hp
    exact hG.perm.mem_iff.1 (List.mem_append_left _ (List.mem_map.2 ⟨p, hp, rfl⟩))
  have hrpos : ∀ p ∈ s.placed, 0 < p.rect.w ∧ 0 < p.rect.l := by
    intro p hp
    have := hg.2 _ (hdimpos p hp)
    unfold Placed.rect
    simp only
    split
    · exact ⟨this.2, this.1⟩
    · exact this
  have harea : (s.placed.map (fun p => p.dim.w * p.dim.l)).sum =
      totalArea (s.placed.map Placed.rect) := by
    unfold totalArea
    rw [List.map_map]
    congr 1
    apply List.map_congr_left
    intro p _
    simp only [Function.comp_apply, area, Placed.rect]
    split
    · rw [Nat.mul_comm]
    · rfl
  have htop := topRow_eq hG hrpos hL
  refine ⟨?_, hG.sub, ?_, ?_, ?_, ?_, ?_, ?_, ?_, ?_, ?_, ?_, ?_, ?_, ?_⟩
  · simp only
    rw [hkeys]
    have := hG.perm.map (·.1)
    simpa [PyDict.keys, Function.comp_def] using this
  · intro q hq
    obtain ⟨p, hp, rfl⟩ := List.mem_map.1 hq
    refine ⟨p.dim, hdimpos p hp, ?_⟩
    unfold SizedAs Placed.rect
    simp only
    cases hr : p.rotated with
    | false => left; simp
    | true => right; exact ⟨hG.rot p hp hr, by simp⟩
  · intro q hq
    obtain ⟨p, hp, rfl⟩ := List.mem_map.1 hq
    exact hG.inb p hp
  · intro pre q post heq
    obtain ⟨l1, l2, e1, e2, e3⟩ := List.map_eq_append_iff.1 heq
    obtain ⟨p, l3, e4, e5, e6⟩ := List.map_eq_cons_iff.1 e3
    have := hG.sup l1 p l3 (by rw [e1, e4])
    rw [← e2, ← e5]
    simpa [rectsOf, Function.comp_def] using this
  · intro hns
    simp only
    rw [hrects, List.pairwise_map]
    exact hG.disj hns
  · simp only
    rw [hrects, List.pairwise_map]
    exact hG.over
  · intro hs hP
    simp only [hs, Bool.false_eq_true, if_false]
    rw [hrects, hG.obj, hs]
    exact objFold_exact P hP s.placed
  · intro hs
    simp only [hs, if_true]
    rw [hrects, htop, harea]
  · intro ho it hit
    simp only at ho hit ⊢
    rw [hrects]
    have hobj : ¬ s.obj ≥ 1 := by
      rw [hG.obj]
      cases hs : P.strip with
      | true => simp; decide
      | false =>
        rw [hs] at ho
        simp only [Bool.false_eq_true, false_or, if_false] at ho
        rw [hG.obj, hs] at ho
        exact ho
    obtain ⟨h1, h2, h3⟩ := leftover_dead hI hG hQ hD hobj it hit
    refine ⟨h1, ?_, ?_⟩
    · intro a b q hq
      obtain ⟨p, hp, rfl⟩ := List.mem_map.1 hq
      exact h2 a b p hp
    · intro a b q hq
      obtain ⟨p, hp, rfl⟩ := List.mem_map.1 hq
      exact h3 a b p hp
  · intro hex
    rcases Run_first hg hrun with ⟨h0, rfl⟩ | ⟨_, h⟩
    · exfalso
      obtain ⟨p, hp, _⟩ := hex
      rcases hD with h | h | h
      · simp [constructInit] at h
      · have : p.1 ∈ PyDict.keys items := List.mem_map.2 ⟨p, hp, rfl⟩
        have h' : PyDict.keys items = [] := h
        rw [h'] at this; simp at this
      · have h' : (0 : Rat) ≥ 1 := h
        exact absurd h' (by decide)
    · obtain ⟨pre, id, d, post, ro, e1, e2, e3, e4, e5⟩ := h hex
      refine ⟨pre, id, d, post, _, e1, e2, ?_, rfl⟩
      simp only [List.head?_map, e3, Option.map_some]
      congr 2
      rw [rect_mk]
      cases ro with
      | false => rw [if_pos (e4 rfl)]; rfl
      | true => rw [if_neg (e5 rfl).2.1]; rfl
  · intro hs q hq
    obtain ⟨p, hp, rfl⟩ := List.mem_map.1 hq
    exact (Run_onlyA hs hrun).1 p hp
  · intro hs q hq
    obtain ⟨p, hp, rfl⟩ := List.mem_map.1 hq
    exact (Run_onlyB hs hrun).1 p hp
  · intro hs
    simpa using (Run_noStrategy hs hrun).1
  · intro hA
    simp only
    cases hs : P.strip with
    | true => simp only [if_true]; exact hA.div _ _
    | false =>
      simp only [Bool.false_eq_true, if_false]
      rw [hG.obj, hs]
      simp only [Bool.false_eq_true, if_false, objFold]
      have key : ∀ (l : List Placed) (o : Rat), 0 ≤ o →
          0 ≤ l.foldl (fun o p => P.ar.add o (P.ar.div (p.rect.w * p.rect.l) (P.W * P.L))) o := by
        intro l
        induction l with
        | nil => intro o ho; exact ho
        | cons a l ih => intro o ho; exact ih _ (hA.add _ _ ho (hA.div _ _))
      exact key _ _ (Rat.le_refl)

/-! ### All containers -/

/-- what `_solve` needs of the instance -/
structure ValidIn (p : SolveIn) : Prop where
  conts : ValidSizes p.containers
  items : ValidSizes p.items
  height : p.strip = true → 0 < p.height

/-- length of the packing area of container `c`: its own length, or the instance's
`container_height` in strip packing (mixins.py 318-322) -/
def lenOf (p : SolveIn) (c : Dim) : Nat := if p.strip then p.height else c.l

theorem params_W (A : Arith) (p : SolveIn) (c : Dim) : (p.params A c).W = c.w := rfl
theorem params_L (A : Arith) (p : SolveIn) (c : Dim) : (p.params A c).L = lenOf p c := rfl

/-- result of the loop over the containers, container by container -/
inductive Chain (A : Arith) (p : SolveIn) :
    PyDict String Dim → PyDict String Dim → Solution → ObjVals → PyDict String Dim → Prop where
  | nil (items) : Chain A p [] items [] [] items
  | skip {cid c cs sol ov rem} : Chain A p cs [] sol ov rem →
      Chain A p ((cid, c) :: cs) [] ((cid, []) :: sol) ((cid, 0) :: ov) rem
  | cons {cid c cs items r sol ov rem} : items ≠ [] → construct (p.params A c) items = .ok r →
      CFacts (p.params A c) items r → Chain A p cs r.items sol ov rem →
      Chain A p ((cid, c) :: cs) items ((cid, r.solution) :: sol) ((cid, r.obj) :: ov) rem

theorem validSizes_sublist {a b : PyDict String Dim} (h : a.Sublist b) (hb : ValidSizes b) :
    ValidSizes a :=
  ⟨hb.1.sublist (h.map _), fun p hp => hb.2 p (h.subset hp)⟩

theorem solveLoop_chain (A : Arith) (p : SolveIn) (hh : p.strip = true → 0 < p.height) :
    ∀ (cs items : PyDict String Dim), (∀ c ∈ cs, 0 < c.2.w ∧ 0 < c.2.l) → ValidSizes items →
      ∃ sol ov rem, solveLoop A p cs items = .ok (sol, ov) ∧ Chain A p cs items sol ov rem
  | [], items, _, _ => ⟨[], [], items, rfl, .nil items⟩
  | (cid, c) :: cs, items, hcs, hi => by
    unfold solveLoop
    by_cases h0 : items = []
    · subst h0
      obtain ⟨sol, ov, rem, h1, h2⟩ := solveLoop_chain A p hh cs [] (fun c hc => hcs c (by simp [hc])) hi
      exact ⟨_, _, rem, by rw [if_pos rfl]; simp only [bind, Except.bind]; rw [h1]; rfl, .skip h2⟩
    · rw [if_neg h0]
      have hc := hcs (cid, c) (by simp)
      obtain ⟨r, hr, hf⟩ := construct_facts (P := p.params A c) hi hc.1 (by
        rw [params_L]; unfold lenOf; split
        · rename_i h; exact hh h
        · exact hc.2)
      obtain ⟨sol, ov, rem, h1, h2⟩ := solveLoop_chain A p hh cs r.items
        (fun c hc => hcs c (by simp [hc])) (validSizes_sublist hf.sub hi)
      exact ⟨_, _, rem, by simp only [bind, Except.bind]; rw [hr]; simp only; rw [h1]; rfl,
        .cons h0 hr hf h2⟩

/-- keys of the two results -/
theorem Chain.keys {A p cs items sol ov rem} (h : Chain A p cs items sol ov rem) :
    PyDict.keys sol = PyDict.keys cs ∧ PyDict.keys ov = PyDict.keys cs := by
  induction h with
  | nil => exact ⟨rfl, rfl⟩
  | skip _ ih => simp [PyDict.keys] at ih ⊢; exact ih
  | cons _ _ _ _ ih => simp [PyDict.keys] at ih ⊢; exact ih


theorem Chain.perm {A p cs items sol ov rem} (h : Chain A p cs items sol ov rem) :
    (placedIds sol ++ PyDict.keys rem).Perm (PyDict.keys items) := by
  induction h with
  | nil => simp [placedIds]
  | skip _ ih => simpa [placedIds, PyDict.keys] using ih
  | cons _ _ hf _ ih =>
    simp only [placedIds, List.flatMap_cons] at ih ⊢
    rw [List.append_assoc]
    exact (ih.append_left _).trans hf.perm

theorem Chain.sub {A p cs items sol ov rem} (h : Chain A p cs items sol ov rem) :
    rem.Sublist items := by
  induction h with
  | nil => exact List.Sublist.refl _
  | skip _ ih => exact ih
  | cons _ _ hf _ ih => exact ih.trans hf.sub

/-- what is known about the solution of one container -/
theorem Chain.mem {A p cs items sol ov rem} (h : Chain A p cs items sol ov rem) :
    ∀ cid m, (cid, m) ∈ sol → ∃ c v pool, (cid, c) ∈ cs ∧ (cid, v) ∈ ov ∧ pool.Sublist items ∧
      (∃ prev, (prev ++ PyDict.keys pool).Perm (PyDict.keys items) ∧
        ∃ sol1 sol2, sol = sol1 ++ (cid, m) :: sol2 ∧ prev = placedIds sol1) ∧
      ((pool = [] ∧ m = [] ∧ v = 0) ∨
       (pool ≠ [] ∧ ∃ r, construct (p.params A c) pool = .ok r ∧ CFacts (p.params A c) pool r ∧
         m = r.solution ∧ v = r.obj ∧ rem.Sublist r.items)) := by
  induction h with
  | nil => intro cid m h; simp at h
  | @skip cid' c cs sol ov rem hc ih =>
    intro cid m hm
    rcases List.mem_cons.1 hm with hm | hm
    · injection hm with h1 h2; subst h1; subst h2
      exact ⟨c, 0, [], by simp, by simp, List.Sublist.refl _,
        ⟨[], by simp, [], sol, rfl, rfl⟩, Or.inl ⟨rfl, rfl, rfl⟩⟩
    · obtain ⟨c', v, pool, h1, h2, h3, ⟨prev, h4, s1, s2, h5, h6⟩, h7⟩ := ih cid m hm
      exact ⟨c', v, pool, by simp [h1], by simp [h2], h3,
        ⟨prev, h4, (cid', []) :: s1, s2, by rw [h5]; rfl, by
          rw [h6]; simp [placedIds, PyDict.keys]⟩, h7⟩
  | @cons cid' c cs items r sol ov rem hne hr hf hc ih =>
    intro cid m hm
    rcases List.mem_cons.1 hm with hm | hm
    · injection hm with h1 h2; subst h1; subst h2
      exact ⟨c, r.obj, items, by simp, by simp, List.Sublist.refl _,
        ⟨[], by simp, [], sol, rfl, rfl⟩,
        Or.inr ⟨hne, r, hr, hf, rfl, rfl, hc.sub⟩⟩
    · obtain ⟨c', v, pool, h1, h2, h3, ⟨prev, h4, s1, s2, h5, h6⟩, h7⟩ := ih cid m hm
      refine ⟨c', v, pool, by simp [h1], by simp [h2], h3.trans hf.sub,
        ⟨PyDict.keys r.solution ++ prev, ?_, (cid', r.solution) :: s1, s2, by rw [h5]; rfl, by
          rw [h6]; simp [placedIds, PyDict.keys]⟩, h7⟩
      rw [List.append_assoc]
      exact (h4.append_left _).trans hf.perm

/-! ### Sequences -/

theorem deepcopySeq_ok {items : PyDict String Dim} :
    ∀ (seq : List String) (acc : PyDict String Dim), (∀ id ∈ seq, id ∈ PyDict.keys items) →
      ∃ r, deepcopySeq items seq acc = .ok r ∧
        ((PyDict.keys acc).Nodup → (PyDict.keys r).Nodup) ∧
        (∀ q ∈ r, q ∈ acc ∨ q ∈ items) ∧
        (∀ id, id ∈ PyDict.keys r ↔ id ∈ PyDict.keys acc ∨ id ∈ seq)
  | [], acc, _ => ⟨acc, rfl, id, fun _ h => Or.inl h, by simp⟩
  | id :: ids, acc, h => by
    obtain ⟨d, hd⟩ := PyDict.find?_isSome_of_mem_keys (h id (by simp))
    obtain ⟨r, h1, h2, h3, h4⟩ := deepcopySeq_ok ids (PyDict.insert acc id d)
      (fun i hi => h i (by simp [hi]))
    refine ⟨r, ?_, ?_, ?_, ?_⟩
    · unfold deepcopySeq
      simp only [bind, Except.bind]
      rw [PyDict.getE_of_find? hd]; exact h1
    · intro hn; exact h2 (PyDict.nodup_insert hn _ _)
    · intro q hq
      rcases h3 q hq with h | h
      · rcases PyDict.mem_insert h with rfl | h
        · exact Or.inr (PyDict.find?_mem hd)
        · exact Or.inl h
      · exact Or.inr h
    · intro i
      rw [h4, PyDict.keys_insert]
      split
      · rename_i hm
        constructor
        · rintro (h | h)
          · exact Or.inl h
          · exact Or.inr (List.mem_cons_of_mem _ h)
        · rintro (h | h)
          · exact Or.inl h
          · rcases List.mem_cons.1 h with rfl | h
            · exact Or.inl hm
            · exact Or.inr h
      · simp only [List.mem_append, List.mem_cons, List.not_mem_nil, or_false]
        grind

theorem mem_firstOcc (s : List String) (id : String) : id ∈ firstOcc s ↔ id ∈ s := by
  induction s with
  | nil => simp [firstOcc]
  | cons a l ih =>
    simp only [firstOcc, List.mem_cons, List.mem_filter, ih, ne_eq, decide_not,
      Bool.not_eq_eq_eq_not, Bool.not_true, decide_eq_false_iff_not]
    by_cases h : id = a <;> simp [h]

theorem nodup_firstOcc (s : List String) : (firstOcc s).Nodup := by
  induction s with
  | nil => simp [firstOcc]
  | cons a l ih =>
    simp only [firstOcc, List.nodup_cons]
    exact ⟨by simp, ih.filter _⟩

theorem find?_eq_find (items : PyDict String Dim) (id : String) :
    List.find? (fun q => q.1 == id) items = (PyDict.find? items id).map (fun d => (id, d)) := by
  induction items with
  | nil => rfl
  | cons q items ih =>
    obtain ⟨k, d⟩ := q
    unfold PyDict.find?
    by_cases h : k = id
    · subst h; simp
    · rw [if_neg h, ← ih, List.find?_cons_of_neg]; simpa using h

theorem filter_filter_firstOcc (l keep : List String) (a : String) :
    ((firstOcc l).filter (· ≠ a)).filter (fun i => i ∉ keep) =
    (firstOcc l).filter (fun i => i ∉ keep ++ [a]) := by
  rw [List.filter_filter]
  congr 1
  funext i
  simp [Bool.and_comm]

theorem deepcopySeq_eq {items : PyDict String Dim} :
    ∀ (seq : List String) (acc : PyDict String Dim), (∀ id ∈ seq, id ∈ PyDict.keys items) →
      (∀ q ∈ acc, PyDict.find? items q.1 = some q.2) → (PyDict.keys acc).Nodup →
      deepcopySeq items seq acc = .ok (acc ++
        ((firstOcc seq).filter (fun i => i ∉ PyDict.keys acc)).filterMap
          (fun id => List.find? (fun q => q.1 == id) items))
  | [], acc, _, _, _ => by simp [deepcopySeq, firstOcc]
  | a :: l, acc, h, hacc, hn => by
    obtain ⟨d, hd⟩ := PyDict.find?_isSome_of_mem_keys (h a (by simp))
    unfold deepcopySeq
    simp only [bind, Except.bind]
    rw [PyDict.getE_of_find? hd]; simp only
    rw [deepcopySeq_eq l _ (fun i hi => h i (by simp [hi])) (by
      intro q hq
      rcases PyDict.mem_insert hq with rfl | hq
      · exact hd
      · exact hacc q hq) (PyDict.nodup_insert hn _ _)]
    congr 1
    by_cases ha : a ∈ PyDict.keys acc
    · have hins : PyDict.insert acc a d = acc := by
        apply PyDict.eq_of_find? (PyDict.keys_insert_mem _ _ _ ha)
          (PyDict.nodup_insert hn _ _)
        intro k
        by_cases hk : k = a
        · subst hk
          rw [PyDict.find?_insert_self]
          obtain ⟨d', hd'⟩ := PyDict.find?_isSome_of_mem_keys ha
          have := hacc _ (PyDict.find?_mem hd')
          rw [hd'] ; simp only at this; rw [hd] at this; exact this
        · rw [PyDict.find?_insert_ne _ _ hk]
      rw [hins]
      congr 2
      simp only [firstOcc]
      rw [List.filter_cons_of_neg (by simpa using ha), List.filter_filter]
      apply List.filter_congr
      intro i _
      by_cases hi : i = a
      · subst hi; simp [ha]
      · simp [hi]
    · rw [PyDict.insert_not_mem _ _ _ ha, List.append_assoc]
      congr 1
      simp only [firstOcc]
      rw [List.filter_cons_of_pos (by simpa using ha), List.filterMap_cons]
      rw [find?_eq_find, hd]
      simp only [Option.map_some, List.singleton_append, List.cons.injEq, true_and]
      rw [filter_filter_firstOcc _ _ _]
      have hk : PyDict.keys (acc ++ [(a, d)]) = PyDict.keys acc ++ [a] := by simp [PyDict.keys]
      rw [hk]

/-- a sequence selects the items in order of first occurrence -/
theorem deepcopySeq_reorder {items : PyDict String Dim} {s : List String}
    (h : ∀ id ∈ s, id ∈ PyDict.keys items) :
    deepcopySeq items s [] = .ok (reorder items s) := by
  rw [deepcopySeq_eq s [] h (by simp) (by simp [PyDict.keys])]
  simp [reorder, PyDict.keys]

theorem deepcopySeq_unknown {items : PyDict String Dim} : ∀ (s : List String) (acc),
    (∃ id ∈ s, id ∉ PyDict.keys items) → deepcopySeq items s acc = .error .keyError
  | [], _, h => by simp at h
  | a :: l, acc, h => by
    unfold deepcopySeq
    simp only [bind, Except.bind]
    by_cases ha : a ∈ PyDict.keys items
    · obtain ⟨d, hd⟩ := PyDict.find?_isSome_of_mem_keys ha
      rw [PyDict.getE_of_find? hd]; simp only
      apply deepcopySeq_unknown
      obtain ⟨id, hid, hn⟩ := h
      rcases List.mem_cons.1 hid with rfl | hid
      · exact absurd ha hn
      · exact ⟨id, hid, hn⟩
    · unfold PyDict.getE
      rw [PyDict.find?_none ha]

/-- the ids of the sequence are known -/
def KnownSeq (p : SolveIn) (seq : Option (List String)) : Prop :=
  ∀ s, seq = some s → ∀ id ∈ s, id ∈ PyDict.keys p.items

theorem solvedFor_mem {p : SolveIn} {seq : Option (List String)} :
    ∀ q ∈ solvedFor p.items seq, q ∈ p.items := by
  intro q hq
  cases seq with
  | none => exact hq
  | some s =>
    simp only [solvedFor, reorder, List.mem_filterMap] at hq
    obtain ⟨_, _, hf⟩ := hq
    exact List.mem_of_find?_eq_some hf

theorem reorder_keys {items : PyDict String Dim} (s : List String)
    (h : ∀ id ∈ s, id ∈ PyDict.keys items) : PyDict.keys (reorder items s) = firstOcc s := by
  have : ∀ l : List String, (∀ id ∈ l, id ∈ PyDict.keys items) →
      (l.filterMap (fun id => List.find? (fun q => q.1 == id) items)).map (·.1) = l := by
    intro l
    induction l with
    | nil => simp
    | cons a l ih =>
      intro hl
      obtain ⟨d, hd⟩ := PyDict.find?_isSome_of_mem_keys (hl a (by simp))
      rw [List.filterMap_cons, find?_eq_find, hd]
      simp only [Option.map_some, List.map_cons, List.cons.injEq, true_and]
      exact ih (fun i hi => hl i (by simp [hi]))
  exact this _ (fun id hid => h id ((mem_firstOcc s id).1 hid))

/-- `solve` with known ids: the pool is `solvedFor`, and the loop over the containers runs -/
theorem solve_chain {A : Arith} {p : SolveIn} (hv : ValidIn p) {seq : Option (List String)}
    (hs : KnownSeq p seq) :
    ∃ sol ov rem, solve A p seq = .ok (sol, ov) ∧ ValidSizes (solvedFor p.items seq) ∧
      Chain A p p.containers (solvedFor p.items seq) sol ov rem := by
  cases seq with
  | none =>
    obtain ⟨sol, ov, rem, h1, h2⟩ := solveLoop_chain A p hv.height p.containers p.items hv.conts.2 hv.items
    exact ⟨sol, ov, rem, h1, hv.items, h2⟩
  | some s =>
    have hk := hs s rfl
    have hpool : ValidSizes (reorder p.items s) := by
      refine ⟨?_, fun q hq => hv.items.2 q (solvedFor_mem (seq := some s) q hq)⟩
      have := reorder_keys s hk
      unfold PyDict.keys at this
      rw [this]; exact nodup_firstOcc s
    obtain ⟨sol, ov, rem, h1, h2⟩ := solveLoop_chain A p hv.height p.containers _ hv.conts.2 hpool
    refine ⟨sol, ov, rem, ?_, hpool, h2⟩
    unfold solve
    simp only [bind, Except.bind]
    rw [deepcopySeq_reorder hk]; exact h1

theorem solve_ok {A : Arith} {p : SolveIn} (hv : ValidIn p) {seq : Option (List String)}
    (hs : KnownSeq p seq) {sol : Solution} {ov : ObjVals} (h : solve A p seq = .ok (sol, ov)) :
    ValidSizes (solvedFor p.items seq) ∧
      ∃ rem, Chain A p p.containers (solvedFor p.items seq) sol ov rem := by
  obtain ⟨sol', ov', rem, h1, h2, h3⟩ := solve_chain (A := A) hv hs
  rw [h] at h1
  injection h1 with h1
  injection h1 with e1 e2
  subst e1; subst e2
  exact ⟨h2, rem, h3⟩

/-- a sublist of a duplicate-free list is the filter of its members -/
theorem sublist_eq_filter {α β : Type} [DecidableEq β] (f : α → β) {l L : List α} (h : l.Sublist L)
    (hn : (L.map f).Nodup) (p : α → Bool) (hp : ∀ a ∈ L, p a = true ↔ f a ∈ l.map f) :
    l = L.filter p := by
  induction h with
  | slnil => rfl
  | @cons l L a h ih =>
    simp only [List.map_cons, List.nodup_cons] at hn
    have hna : ¬ (p a = true) := by
      rw [hp a (by simp)]
      intro hc
      exact hn.1 ((h.map f).subset hc)
    rw [List.filter_cons_of_neg hna]
    exact ih hn.2 (fun b hb => hp b (by simp [hb]))
  | @cons_cons l L a h ih =>
    simp only [List.map_cons, List.nodup_cons] at hn
    rw [List.filter_cons_of_pos ((hp a (by simp)).2 (by simp))]
    congr 1
    apply ih hn.2
    intro b hb
    rw [hp b (by simp [hb])]
    simp only [List.map_cons, List.mem_cons]
    constructor
    · rintro (h1 | h1)
      · exact absurd (by rw [← h1]; exact List.mem_map.2 ⟨b, hb, rfl⟩) hn.1
      · exact h1
    · exact Or.inr

end HP
