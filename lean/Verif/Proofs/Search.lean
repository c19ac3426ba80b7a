import Verif.Props.Packing
import Verif.SpecSearch
import Verif.Model.LocalSearch
import Mathlib.Data.List.Permutation
import Mathlib.Tactic.Ring
import Mathlib.Data.Nat.Factorial.Basic
/-
Lemmas about copies of solutions, objective values, and the local search.
-/
namespace HP
open Spec

/-! ### valid instances -/

/-- data invariant of an instance; reachability is treated in Proofs/Instance -/
structure Inst.Valid (i : Inst) : Prop where
  conts : ValidSizes i.containers
  items : ValidSizes i.items
  contsNe : i.containers ≠ []
  itemsNe : i.items ≠ []
  strip : i.strip = true → ∃ W, i.containers = [(stripId, ⟨W, stripInitHeight⟩)]
  height : i.strip = true → ∃ h, i.height = some h ∧ 0 < h
  minPos : ∀ m, i.minHeight = some m → 0 < m

theorem Inst.Valid.solveIn {i : Inst} (h : i.Valid) : ValidIn i.solveIn where
  conts := h.conts
  items := h.items
  height := by
    intro hs
    obtain ⟨k, hk, hp⟩ := h.height hs
    simp [Inst.solveIn, hk, hp]

/-! ### sequences -/

theorem firstOcc_nodup {l : List String} (hl : l.Nodup) : firstOcc l = l := by
  induction l with
  | nil => rfl
  | cons a l ih =>
    rw [List.nodup_cons] at hl
    simp only [firstOcc]
    rw [ih hl.2, List.filter_eq_self.2]
    intro b hb
    simp only [ne_eq, decide_not, Bool.not_eq_eq_eq_not, Bool.not_true, decide_eq_false_iff_not]
    rintro rfl
    exact hl.1 hb

theorem reorder_self {items : PyDict String Dim} (hn : (PyDict.keys items).Nodup) :
    reorder items (PyDict.keys items) = items := by
  unfold reorder
  rw [firstOcc_nodup hn]
  have : ∀ l : PyDict String Dim, (∀ q ∈ l, q ∈ items) →
      (PyDict.keys l).filterMap (fun id => List.find? (fun q => q.1 == id) items) = l := by
    intro l
    induction l with
    | nil => intro _; rfl
    | cons q l ih =>
      intro hl
      obtain ⟨k, d⟩ := q
      have h1 := PyDict.find?_of_mem hn (hl (k, d) (by simp))
      simp only [PyDict.keys, List.map_cons, List.filterMap_cons]
      rw [find?_eq_find, h1]
      simp only [Option.map_some, List.cons.injEq, true_and]
      exact ih (fun q hq => hl q (by simp [hq]))
  exact this items (fun q hq => hq)

/-- solving without a sequence is solving with the items' own order -/
theorem solve_none_eq {A : Arith} {p : SolveIn} (hn : (PyDict.keys p.items).Nodup) :
    solve A p none = solve A p (some (PyDict.keys p.items)) := by
  rw [C15_sequence, reorder_self hn, if_pos]
  intro id h; exact h

theorem KnownSeq_perm {p : SolveIn} {seq : List String} (h : seq.Perm (PyDict.keys p.items)) :
    KnownSeq p (some seq) := by
  intro s hs id hid
  injection hs with hs; subst hs
  exact h.mem_iff.1 hid

theorem KnownSeq_none (p : SolveIn) : KnownSeq p none := by
  intro s hs; simp at hs

/-! ### copies -/

theorem copyCont_perm {items : PyDict String Dim} {m : PyDict String Rect}
    (hi : (PyDict.keys items).Nodup) (hm : (PyDict.keys m).Nodup)
    (hsub : ∀ id ∈ PyDict.keys m, id ∈ PyDict.keys items) : (copyCont items m).Perm m := by
  have hn2 : m.Nodup := List.Nodup.of_map _ hm
  have key : ∀ l : List String, l.Nodup →
      (l.filterMap (fun id => (PyDict.find? m id).map (fun r => (id, r)))).Nodup ∧
      ∀ q : String × Rect, q ∈ l.filterMap (fun id => (PyDict.find? m id).map (fun r => (id, r))) ↔
        (q.1 ∈ l ∧ PyDict.find? m q.1 = some q.2) := by
    intro l
    induction l with
    | nil => intro _; simp
    | cons a l ih =>
      intro hl
      rw [List.nodup_cons] at hl
      obtain ⟨h1, h2⟩ := ih hl.2
      rw [List.filterMap_cons]
      cases hf : PyDict.find? m a with
      | none =>
        simp only [Option.map_none]
        refine ⟨h1, fun q => ?_⟩
        rw [h2 q, List.mem_cons]
        constructor
        · rintro ⟨a1, a2⟩; exact ⟨Or.inr a1, a2⟩
        · rintro ⟨rfl | a1, a2⟩
          · rw [hf] at a2; simp at a2
          · exact ⟨a1, a2⟩
      | some r =>
        simp only [Option.map_some]
        refine ⟨?_, fun q => ?_⟩
        · rw [List.nodup_cons]
          refine ⟨?_, h1⟩
          rw [h2]
          rintro ⟨a1, _⟩
          exact hl.1 a1
        · rw [List.mem_cons, h2 q, List.mem_cons]
          constructor
          · rintro (rfl | ⟨a1, a2⟩)
            · exact ⟨Or.inl rfl, hf⟩
            · exact ⟨Or.inr a1, a2⟩
          · rintro ⟨h | a1, a2⟩
            · left
              obtain ⟨q1, q2⟩ := q
              simp only at h a2
              subst h
              rw [hf] at a2; injection a2 with a2; subst a2; rfl
            · exact Or.inr ⟨a1, a2⟩
  obtain ⟨k1, k2⟩ := key _ hi
  unfold copyCont
  rw [List.perm_ext_iff_of_nodup k1 hn2]
  intro q
  rw [k2 q]
  obtain ⟨q1, q2⟩ := q
  constructor
  · rintro ⟨_, h⟩; exact PyDict.find?_mem h
  · intro h
    exact ⟨hsub _ (List.mem_map.2 ⟨_, h, rfl⟩), PyDict.find?_of_mem hm h⟩

theorem copySolution_ok {items : PyDict String Dim} {sol : Solution} :
    ∀ cids : List String, (∀ c ∈ cids, c ∈ PyDict.keys sol) →
      ∃ r, copySolution items sol cids = .ok r ∧ PyDict.keys r = cids ∧
        ∀ cid m, (cid, m) ∈ r → ∃ m0, PyDict.find? sol cid = some m0 ∧ m = copyCont items m0
  | [], _ => ⟨[], rfl, rfl, by simp⟩
  | c :: cs, h => by
    obtain ⟨r, h1, h2, h3⟩ := copySolution_ok (items := items) cs (fun c hc => h c (by simp [hc]))
    obtain ⟨m0, hm0⟩ := PyDict.find?_isSome_of_mem_keys (h c (by simp))
    refine ⟨(c, copyCont items m0) :: r, ?_, ?_, ?_⟩
    · unfold copySolution
      simp only [bind, Except.bind, pure, Except.pure]
      rw [PyDict.getE_of_find? hm0]; simp only; rw [h1]
    · simp [PyDict.keys] at h2 ⊢; exact h2
    · intro cid m hm
      rcases List.mem_cons.1 hm with hm | hm
      · injection hm with e1 e2; subst e1; subst e2
        exact ⟨m0, hm0, rfl⟩
      · exact h3 cid m hm

theorem copyObjVals_eq (ov : ObjVals) : copyObjVals ov = ov := by
  unfold copyObjVals
  simp

/-- facts about every result of `solve` that the searches need -/
structure SolFacts (conts items : PyDict String Dim) (sol : Solution) (ov : ObjVals) : Prop where
  keysS : PyDict.keys sol = PyDict.keys conts
  keysO : PyDict.keys ov = PyDict.keys conts
  nodup : ∀ cid m, (cid, m) ∈ sol → (PyDict.keys m).Nodup
  sub : ∀ cid m, (cid, m) ∈ sol → ∀ id ∈ PyDict.keys m, id ∈ PyDict.keys items

theorem solve_facts {A : Arith} {p : SolveIn} (hv : ValidIn p) {seq : Option (List String)}
    (hs : KnownSeq p seq) {sol : Solution} {ov : ObjVals} (h : solve A p seq = .ok (sol, ov)) :
    SolFacts p.containers p.items sol ov := by
  obtain ⟨h1, h2, h3, h4⟩ := C04_once A p hv seq hs sol ov h
  refine ⟨h1, h2, ?_, ?_⟩
  · intro cid m hm
    unfold placedIds at h3
    rw [List.nodup_flatMap] at h3
    exact h3.1 (cid, m) hm
  · intro cid m hm id hid
    have := (h4 id (by
      unfold placedIds
      rw [List.mem_flatMap]
      exact ⟨(cid, m), hm, hid⟩)).1
    obtain ⟨q, hq, rfl⟩ := List.mem_map.1 this
    exact List.mem_map.2 ⟨q, solvedFor_mem q hq, rfl⟩

/-- a copy of a solve result is the same packing -/
theorem deepcopy_same {conts items : PyDict String Dim} {sol : Solution} {ov : ObjVals}
    (hc : (PyDict.keys conts).Nodup) (hi : (PyDict.keys items).Nodup)
    (hf : SolFacts conts items sol ov) :
    ∃ r, copySolution items sol (PyDict.keys conts) = .ok r ∧ SamePacking r sol := by
  obtain ⟨r, h1, h2, h3⟩ := copySolution_ok (items := items) (sol := sol) (PyDict.keys conts)
    (fun c hc => by rw [hf.keysS]; exact hc)
  refine ⟨r, h1, ?_, ?_⟩
  · have := hf.keysS; unfold PyDict.keys at h2 this; rw [h2, this]
  · intro cid m hm
    obtain ⟨m0, e1, e2⟩ := h3 cid m hm
    have hmem := PyDict.find?_mem e1
    refine ⟨m0, hmem, ?_⟩
    rw [e2]
    exact copyCont_perm hi (hf.nodup cid m0 hmem) (hf.sub cid m0 hmem)

theorem Spec.SamePacking.refl (s : Solution) : SamePacking s s := ⟨rfl, fun _ m h => ⟨m, h, .refl _⟩⟩

/-- the copies are facts about the same packing -/
theorem Spec.SamePacking.facts {conts items : PyDict String Dim} {s t : Solution} {ov : ObjVals}
    (h : SamePacking s t) (hf : SolFacts conts items t ov) : SolFacts conts items s ov := by
  refine ⟨?_, hf.keysO, ?_, ?_⟩
  · have := hf.keysS; unfold PyDict.keys at this ⊢; rw [h.1, this]
  · intro cid m hm
    obtain ⟨m', h1, h2⟩ := h.2 cid m hm
    have := hf.nodup cid m' h1
    unfold PyDict.keys at this ⊢
    exact (h2.map _).nodup_iff.2 this
  · intro cid m hm id hid
    obtain ⟨m', h1, h2⟩ := h.2 cid m hm
    exact hf.sub cid m' h1 id ((h2.map (·.1)).mem_iff.1 hid)

/-! ### objective -/

/-- what `calculate_obj_value` makes of the containers' values: it asks for the stored number of
containers -/
def Inst.worth (A : Arith) (i : Inst) (vals : List Rat) : Rat :=
  if i.containersNum = 1 then A.sum vals
  else A.add (A.sum vals.dropLast) (A.mul07 (vals.getLast?.getD 0))

/-- with the right number of containers it is the overall value -/
theorem Inst.worth_eq {A : Arith} {i : Inst} (hn : i.containersNum = i.containers.length) {ov : ObjVals}
    (hk : PyDict.keys ov = PyDict.keys i.containers) :
    i.worth A (ov.map (·.2)) = overall A (ov.map (·.2)) := by
  have hl : ov.length = i.containers.length := by
    have := congrArg List.length hk
    simpa [PyDict.keys] using this
  unfold Inst.worth overall
  simp only [List.length_map, hl, hn]

theorem calcObj_eq {A : Arith} {i : Inst}
    (hk : PyDict.keys i.objVals = PyDict.keys i.containers) (hne : i.containers ≠ []) :
    i.calcObj A = .ok (i.worth A (i.objVals.map (·.2))) := by
  have hl : i.objVals.length = i.containers.length := by
    have := congrArg List.length hk
    simpa [PyDict.keys] using this
  have hne' : i.objVals ≠ [] := by
    intro h; rw [h] at hl; simp at hl; exact hne (List.length_eq_zero_iff.1 hl.symm)
  unfold Inst.calcObj Inst.worth
  simp only
  split
  · rfl
  · cases hg : (i.objVals.map (·.2)).getLast? with
    | none => rw [List.getLast?_eq_none_iff] at hg; simp at hg; exact absurd hg hne'
    | some u => rfl

/-! ### exchanging two entries -/

theorem swapSeq_eq {xs : List String} {i j : Nat} (hi : i < xs.length) (hj : j < xs.length) :
    swapSeq xs i j = .ok (exchange xs i j) := by
  unfold swapSeq exchange
  simp only [bind, Except.bind]
  unfold pyGet pySet
  rw [pyIdx_nat _ _ hi, pyIdx_nat _ _ hj]
  simp only [List.getElem?_eq_getElem hi, List.getElem?_eq_getElem hj, List.length_set]
  rw [pyIdx_nat _ _ hj]

theorem exchange_perm (xs : List String) (i j : Nat) : (exchange xs i j).Perm xs := by
  unfold exchange
  split
  · rename_i a b ha hb
    obtain ⟨hi, ha⟩ := List.getElem?_eq_some_iff.1 ha
    obtain ⟨hj, hb⟩ := List.getElem?_eq_some_iff.1 hb
    subst ha; subst hb
    exact List.set_set_perm hi hj
  · exact .refl _

theorem mem_indexSwaps {n i j : Nat} : (i, j) ∈ indexSwaps n ↔ i < j ∧ j < n := by
  unfold indexSwaps
  simp only [List.mem_flatMap, List.mem_range, List.mem_map, List.mem_range'_1, Prod.mk.injEq]
  constructor
  · rintro ⟨a, h1, b, h2, rfl, rfl⟩; omega
  · rintro ⟨h1, h2⟩
    exact ⟨i, by omega, j, by omega, rfl, rfl⟩

theorem length_indexSwaps (n : Nat) : 2 * (indexSwaps n).length = n * (n - 1) := by
  unfold indexSwaps
  rw [List.length_flatMap]
  simp only [List.length_map, List.length_range']
  have key : ∀ m, m ≤ n → 2 * ((List.range m).map (fun i => n - 1 - i)).sum =
      m * (n - 1) + m * (n - m) := by
    intro m
    induction m with
    | zero => intro _; simp
    | succ m ih =>
      intro hm
      rw [List.range_succ, List.map_append, List.sum_append, Nat.mul_add, ih (by omega)]
      simp only [List.map_cons, List.map_nil, List.sum_cons, List.sum_nil, Nat.add_zero]
      obtain ⟨k, rfl⟩ : ∃ k, n = m + 1 + k := ⟨n - (m + 1), by omega⟩
      have e1 : m + 1 + k - 1 = m + k := by omega
      have e2 : m + 1 + k - m = k + 1 := by omega
      have e3 : m + 1 + k - (m + 1) = k := by omega
      have e4 : m + k - m = k := by omega
      rw [e1, e2, e3, e4]
      ring
  have := key n (Nat.le_refl n)
  simpa using this

/-! ### invariance under re-ordering -/

theorem totalArea_perm {a b : List Rect} (h : a.Perm b) : totalArea a = totalArea b := by
  unfold totalArea; exact (h.map _).sum_eq

theorem stackHeight_perm {a b : List Rect} (h : a.Perm b) : stackHeight a = stackHeight b := by
  unfold stackHeight
  induction h with
  | nil => rfl
  | cons x _ ih => simp [ih]
  | swap x y l => simp only [List.foldr_cons]; omega
  | trans _ _ h1 h2 => rw [h1, h2]

theorem Spec.SamePacking.placedIds_perm : ∀ {s t : Solution}, SamePacking s t →
    (PyDict.keys t).Nodup → (placedIds s).Perm (placedIds t)
  | [], [], _, _ => .refl _
  | [], b :: t, h, _ => by have := h.1; simp at this
  | a :: s, [], h, _ => by have := h.1; simp at this
  | (k1, m1) :: s, (k2, m2) :: t, h, hn => by
    have h1 := h.1
    simp only [List.map_cons, List.cons.injEq] at h1
    obtain ⟨rfl, h1⟩ := h1
    simp only [PyDict.keys, List.map_cons, List.nodup_cons] at hn
    have hs : (s.map (·.1)).Nodup := by rw [h1]; exact hn.2
    have hrest : SamePacking s t := by
      refine ⟨h1, ?_⟩
      intro cid m hm
      obtain ⟨m', g1, g2⟩ := h.2 cid m (by simp [hm])
      rcases List.mem_cons.1 g1 with g | g
      · injection g with e1 e2
        subst e1
        have : cid ∈ t.map (·.1) := by rw [← h1]; exact List.mem_map.2 ⟨_, hm, rfl⟩
        exact absurd this hn.1
      · exact ⟨m', g, g2⟩
    obtain ⟨m', g1, g2⟩ := h.2 k1 m1 (by simp)
    have hm' : m' = m2 := by
      rcases List.mem_cons.1 g1 with g | g
      · injection g with e1 e2
      · exact absurd (List.mem_map.2 ⟨_, g, rfl⟩) hn.1
    subst hm'
    have ih := SamePacking.placedIds_perm hrest hn.2
    unfold placedIds at ih ⊢
    simp only [List.flatMap_cons]
    exact (g2.map _).append ih

end HP
