import Verif.Proofs.RenameSearch
import Verif.Props.Units
/-
Searches in another unit of length: the correspondence of Proofs/Hom.lean for scaled problems.
-/
namespace HP
open Spec

/-- the same bin packing problem with all lengths multiplied by `k` -/
def scaleInst (k : Nat) (i : Inst) : Inst :=
  { i with containers := scaleDims k i.containers, items := scaleDims k i.items,
           solution := scaleSol k i.solution }

/-- a bin packing problem without items that are one unit wide or high and three units or more long -/
def Scalable (i : Inst) : Prop :=
  i.strip = false ∧ ValidSizes i.containers ∧ ValidSizes i.items ∧
    ∀ q ∈ i.items, ¬ LowStrip true q.2

/-- the quotients of two lengths and of two areas depend on their ratio only -/
structure UnitFree (A : Arith) (k : Nat) : Prop where
  ratio : ∀ a b, A.ratioLe (k * a) (k * b) = A.ratioLe a b
  div : ∀ a b, A.div (k * k * a) (k * k * b) = A.div a b
  quot : ∀ a b, A.quot (k * a) (k * b) = A.quot a b

theorem solveLoop_bin (A : Arith) (p : SolveIn) (h : Nat) (hb : p.strip = false) :
    ∀ cs items : PyDict String Dim, solveLoop A { p with height := h } cs items = solveLoop A p cs items
  | [], items => rfl
  | (cid, c) :: cs, items => by
    have hp : SolveIn.params A { p with height := h } c = p.params A c := by
      unfold SolveIn.params
      simp [hb]
    unfold solveLoop
    simp only [hp, solveLoop_bin A p h hb cs]

theorem solve_height (A : Arith) (p : SolveIn) (h : Nat) (hb : p.strip = false) (seq : Option (List String)) :
    solve A { p with height := h } seq = solve A p seq := by
  have hl := solveLoop_bin A p h hb
  unfold solve
  simp only [bind, Except.bind]
  split
  · rfl
  · exact hl _ _

theorem getE_scaleSol (k : Nat) (sol : Solution) (cid : String) :
    PyDict.getE (scaleSol k sol) cid = (PyDict.getE sol cid).map (scaleRects k) := by
  unfold PyDict.getE
  have : PyDict.find? (scaleSol k sol) cid = (PyDict.find? sol cid).map (scaleRects k) := by
    induction sol with
    | nil => rfl
    | cons c sol ih =>
      obtain ⟨n, m⟩ := c
      unfold scaleSol at ih ⊢
      simp only [List.map_cons, PyDict.find?]
      split
      · rfl
      · exact ih
  rw [this]
  cases PyDict.find? sol cid <;> rfl

theorem copyCont_scale (k : Nat) (items : PyDict String Dim) (m : PyDict String Rect) :
    copyCont (scaleDims k items) (scaleRects k m) = scaleRects k (copyCont items m) := by
  unfold copyCont
  have : PyDict.keys (scaleDims k items) = PyDict.keys items := scaleDims_keys k items
  rw [this]
  have e : ∀ a, PyDict.find? (scaleRects k m) a = (PyDict.find? m a).map (scaleRect k) := by
    intro a
    induction m with
    | nil => rfl
    | cons c m ih =>
      obtain ⟨n, r⟩ := c
      unfold scaleRects at ih ⊢
      simp only [List.map_cons, PyDict.find?]
      split
      · rfl
      · exact ih
  conv_rhs => unfold scaleRects
  rw [List.map_filterMap]
  congr 1
  funext a
  simp only [e, Option.map_map]
  rfl

theorem copySolution_scale (k : Nat) (items : PyDict String Dim) (sol : Solution) : ∀ cids : List String,
    copySolution (scaleDims k items) (scaleSol k sol) cids =
      (copySolution items sol cids).map (scaleSol k)
  | [] => rfl
  | cid :: cids => by
    simp only [copySolution, getE_scaleSol, bind, Except.bind, pure, Except.pure]
    cases PyDict.getE sol cid with
    | error e => rfl
    | ok m =>
      simp only [Except.map]
      rw [copySolution_scale k items sol cids]
      cases copySolution items sol cids with
      | error e => rfl
      | ok rest => simp only [Except.map, copyCont_scale]; rfl

theorem Scalable.validIn {i : Inst} (h : Scalable i) : ValidIn i.solveIn :=
  ⟨h.2.1, h.2.2.1, fun hs => by rw [show i.solveIn.strip = i.strip from rfl, h.1] at hs; cases hs⟩

theorem knownSeq_scale {k : Nat} {p : SolveIn} {seq : Option (List String)} :
    KnownSeq (scaleIn k p) seq ↔ KnownSeq p seq := by
  have : PyDict.keys (scaleIn k p).items = PyDict.keys p.items := scaleDims_keys k p.items
  unfold KnownSeq
  rw [this]

/-- changing the unit of length commutes with every operation of a search -/
theorem scaleHom (A : Arith) {k : Nat} (hk : 0 < k) (hA : UnitFree A k) :
    InstHom A (scaleInst k) (scaleSol k) id id Scalable where
  solve i seq hP := by
    have hid : seq.map (List.map id) = seq := by cases seq <;> simp
    rw [hid]
    unfold Inst.solve
    simp only [bind, Except.bind, pure, Except.pure]
    have hb : i.solveIn.strip = false := hP.1
    have e : HP.solve A (scaleInst k i).solveIn seq = HP.solve A (scaleIn k i.solveIn) seq :=
      (solve_height A (scaleInst k i).solveIn (k * i.solveIn.height) hb seq).symm
    rw [e]
    have hv := hP.validIn
    by_cases hs : KnownSeq i.solveIn seq
    · obtain ⟨sol, ov, h⟩ := (C06_total A i.solveIn hv seq).1 hs
      have hlow : ∀ q ∈ i.solveIn.items, ¬ LowStrip i.solveIn.rotation q.2 := by
        intro q hq h
        refine hP.2.2.2 q hq ?_
        rcases h with h | ⟨_, h⟩
        · exact Or.inl h
        · exact Or.inr ⟨rfl, h⟩
      obtain ⟨ov', h1, h2⟩ := C78_units A k hk hA.ratio hA.div i.solveIn hv seq hs sol ov h
        (C02_no_overlap A _ hv seq hs hlow sol ov h)
      rw [h1, h, h2 hb]
      rfl
    · rw [(C06_total A i.solveIn hv seq).2 hs,
        (C06_total A (scaleIn k i.solveIn) (scaleIn_valid hk hv) seq).2 (fun h => hs (knownSeq_scale.1 h))]
      rfl
  calcObj i _ := rfl
  deepcopy i sol _ := by
    unfold Inst.deepcopySolution
    rw [show PyDict.keys (scaleInst k i).containers = PyDict.keys i.containers from scaleDims_keys _ _]
    exact copySolution_scale k i.items sol _
  copyVals ov := rfl
  compare i a b hP := by
    unfold Inst.compareNode
    simp only [show (scaleInst k i).strip = false from hP.1, hP.1, Bool.not_false, if_true]
  extra i hP := by
    unfold Inst.extraNode
    simp only [show (scaleInst k i).strip = false from hP.1, hP.1]
    rfl
  keys i _ := by
    rw [List.map_id]
    exact scaleDims_keys k i.items
  fuel i _ := by simp [lsFuel, scaleInst, scaleDims]
  solution _ := rfl
  objVals _ := rfl
  strip _ := rfl
  maxTime _ := rfl
  workers _ := rfl
  height _ _ _ := rfl
  set_strategy _ _ := rfl
  set_heights _ _ _ _ := rfl
  set_result _ _ _ := rfl
  frame i j h1 h2 h3 h := by
    unfold Scalable
    rw [h1, h2, h3]
    exact h

theorem workerInst_scale (E : Env) {k : Nat} (hk : 0 < k) {i : Inst} (hv : i.Valid) (hb : i.strip = false) :
    workerInst E (scaleInst k i) = (workerInst E i).map (scaleInst k) := by
  rw [workerInst_pack hv (i' := scaleInst k i) rfl rfl rfl]
  · cases hw : workerInst E i with
    | error e => rfl
    | ok w =>
      obtain ⟨h1, h2⟩ := workerInst_fresh hw
      obtain ⟨_, h3, h4, _⟩ := workerInst_spec hv hw
      simp only [Except.map, Inst.pack, scaleInst]
      have e1 : scaleSol k w.solution = w.solution := by rw [h1]; rfl
      rw [h3, h4, e1]
  · intro h
    rw [hb] at h; cases h
  · simp [scaleInst, scaleDims]
  · exact scaleDims_valid hk hv.conts
  · exact scaleDims_valid hk hv.items
  · intro h
    exact hv.itemsNe (List.map_eq_nil_iff.1 h)

theorem scaleInst_valid {k : Nat} (hk : 0 < k) {i : Inst} (hv : i.Valid) (hb : i.strip = false) :
    (scaleInst k i).Valid where
  conts := scaleDims_valid hk hv.conts
  items := scaleDims_valid hk hv.items
  contsNe h := hv.contsNe (List.map_eq_nil_iff.1 h)
  itemsNe h := hv.itemsNe (List.map_eq_nil_iff.1 h)
  strip h := by rw [show (scaleInst k i).strip = i.strip from rfl, hb] at h; cases h
  height h := by rw [show (scaleInst k i).strip = i.strip from rfl, hb] at h; cases h
  minPos := hv.minPos

theorem sortKey_scale (A : Arith) {k : Nat} (hk : 0 < k) (hA : UnitFree A k) {by_ : PyVal} {key : Dim → Rat}
    (h : sortKey? A by_ = some key) : ∃ c : Rat, 0 < c ∧ ∀ d, key (scaleDim k d) = c * key d := by
  have hk' : (0 : Rat) < k := by exact_mod_cast hk
  unfold sortKey? at h
  split at h
  · injection h with h; subst h
    refine ⟨(k : Rat) * k, by positivity, ?_⟩
    intro d
    simp only [scaleDim]
    push_cast
    ring
  · split at h
    · injection h with h; subst h
      refine ⟨k, hk', ?_⟩
      intro d
      simp only [scaleDim]
      push_cast
      ring
    · split at h
      · injection h with h; subst h
        refine ⟨1, one_pos, ?_⟩
        intro d
        simp only [scaleDim, one_mul]
        rw [Nat.mul_max_mul_left, Nat.mul_min_mul_left, hA.quot]
      · cases h

theorem keyLt_scale {c : Rat} (hc : 0 < c) (a b : Rat × String) :
    keyLt (c * a.1, a.2) (c * b.1, b.2) = keyLt a b := by
  unfold keyLt
  simp only [mul_right_inj' hc.ne', mul_lt_mul_iff_right₀ hc]

theorem find?_scaleDims (k : Nat) (a : String) : ∀ m : PyDict String Dim,
    PyDict.find? (scaleDims k m) a = (PyDict.find? m a).map (scaleDim k)
  | [] => rfl
  | (n, d) :: m => by
    have ih := find?_scaleDims k a m
    unfold scaleDims at ih ⊢
    simp only [List.map_cons, PyDict.find?]
    split
    · rfl
    · exact ih

theorem pickItems_scale (k : Nat) (items : PyDict String Dim) (ids : List String) :
    pickItems (scaleDims k items) ids = scaleDims k (pickItems items ids) := by
  unfold pickItems
  conv_rhs => unfold scaleDims
  rw [List.map_filterMap]
  congr 1
  funext a
  simp only [find?_scaleDims, Option.map_map]
  rfl

theorem sortItems_scale (A : Arith) {k : Nat} (hk : 0 < k) (hA : UnitFree A k) {i : Inst} (hv : i.Valid)
    (hb : i.strip = false) (s : Option (PyVal × Bool)) :
    (scaleInst k i).sortItems A s = (scaleInst k (i.sortItems A s).1, (i.sortItems A s).2) := by
  cases s with
  | none => rfl
  | some s =>
    obtain ⟨by_, r⟩ := s
    cases hkey : sortKey? A by_ with
    | none => simp only [Inst.sortItems, hkey]
    | some key =>
      rw [sortItems_valid A hv hkey, sortItems_valid A (scaleInst_valid hk hv hb) hkey]
      obtain ⟨c, hc, hs⟩ := sortKey_scale A hk hA hkey
      have e : (scaleInst k i).items.map (fun p => (key p.2, p.1)) =
          (i.items.map (fun p => (key p.2, p.1))).map (fun q : Rat × String => (c * q.1, q.2)) := by
        simp [scaleInst, scaleDims, Function.comp_def, hs]
      rw [e, pySort_map (fun a b => keyLt_scale hc a b)]
      have e2 : ∀ l : List (Rat × String), (l.map (fun q : Rat × String => (c * q.1, q.2))).map (·.2) =
          l.map (·.2) := by
        intro l; simp [Function.comp_def]
      rw [e2, show (scaleInst k i).items = scaleDims k i.items from rfl, pickItems_scale]
      rfl

theorem orientLoop_scale {t : Nat → Nat → Bool} {k : Nat} (hk : 0 < k) (ht : ∀ w l, t (k * w) (k * l) = t w l)
    {i : Inst} (hv : i.Valid) (hb : i.strip = false) :
    Inst.orientLoop t (PyDict.keys (scaleInst k i).items) (scaleInst k i) =
      (scaleInst k (Inst.orientLoop t (PyDict.keys i.items) i).1,
        (Inst.orientLoop t (PyDict.keys i.items) i).2) := by
  rw [orientLoop_valid t hv, orientLoop_valid t (scaleInst_valid hk hv hb)]
  have he : (∃ p ∈ (scaleInst k i).items, t p.2.w p.2.l = true) ↔ ∃ p ∈ i.items, t p.2.w p.2.l = true := by
    constructor
    · rintro ⟨p, hp, h⟩
      obtain ⟨q, hq, rfl⟩ := List.mem_map.1 hp
      exact ⟨q, hq, by rw [← ht]; exact h⟩
    · rintro ⟨q, hq, h⟩
      exact ⟨_, List.mem_map.2 ⟨q, hq, rfl⟩, by rw [← ht] at h; exact h⟩
  simp only [he]
  split
  · have : (scaleInst k i).items.map (turnIf t) = scaleDims k (i.items.map (turnIf t)) := by
      show (scaleDims k i.items).map _ = _
      unfold scaleDims
      simp only [List.map_map]
      apply List.map_congr_left
      intro q _
      simp only [Function.comp_apply, turnIf]
      have : t (scaleDim k q.2).w (scaleDim k q.2).l = t q.2.w q.2.l := ht _ _
      rw [this]
      split <;> rfl
    rw [this]
    rfl
  · rfl

theorem orientItems_scale {k : Nat} (hk : 0 < k) {i : Inst} (hv : i.Valid) (hb : i.strip = false) (o : PyVal) :
    (scaleInst k i).orientItems o = (scaleInst k (i.orientItems o).1, (i.orientItems o).2) := by
  unfold Inst.orientItems
  show (if o.isNone = true then _ else if (!i.rotation) = true then _ else _) = _
  split
  · rfl
  · split
    · rfl
    · split
      · exact orientLoop_scale hk (by intro w l; simp [Nat.mul_lt_mul_left hk]) hv hb
      · split
        · exact orientLoop_scale hk (by intro w l; simp [Nat.mul_lt_mul_left hk]) hv hb
        · rfl

theorem Scalable.sort {A : Arith} {i : Inst} (h : Scalable i) (hv : i.Valid) (s : Option (PyVal × Bool)) :
    Scalable (i.sortItems A s).1 := by
  cases s with
  | none => exact h
  | some s =>
    obtain ⟨by_, r⟩ := s
    cases hkey : sortKey? A by_ with
    | none => simp only [Inst.sortItems, hkey]; exact h
    | some key =>
      rw [sortItems_valid A hv hkey]
      have hp := pickSorted_perm hv.items.1 key r
      exact ⟨h.1, h.2.1, ⟨(hp.map _).nodup_iff.2 hv.items.1, fun q hq => hv.items.2 q (hp.mem_iff.1 hq)⟩,
        fun q hq => h.2.2.2 q (hp.mem_iff.1 hq)⟩

theorem Scalable.orientLoop {i : Inst} (h : Scalable i) (hv : i.Valid) (t : Nat → Nat → Bool) :
    Scalable (Inst.orientLoop t (PyDict.keys i.items) i).1 := by
  rw [orientLoop_valid t hv]
  simp only
  split
  · refine ⟨h.1, h.2.1, ⟨?_, ?_⟩, ?_⟩
    · show ((i.items.map (turnIf t)).map (·.1)).Nodup
      rw [List.map_map]
      exact hv.items.1
    · intro q hq
      obtain ⟨q, hq', rfl⟩ := List.mem_map.1 hq
      have := hv.items.2 q hq'
      unfold turnIf turned
      simp only
      split
      · exact ⟨this.2, this.1⟩
      · exact this
    · intro q hq
      obtain ⟨q, hq', rfl⟩ := List.mem_map.1 hq
      have := h.2.2.2 q hq'
      unfold turnIf turned
      unfold LowStrip at this ⊢
      simp only [true_and] at this ⊢
      split
      · tauto
      · exact this
  · exact h

theorem Scalable.orient {i : Inst} (h : Scalable i) (hv : i.Valid) (o : PyVal) :
    Scalable (i.orientItems o).1 := by
  unfold Inst.orientItems
  split
  · exact h
  · split
    · exact h
    · split
      · exact h.orientLoop hv _
      · split
        · exact h.orientLoop hv _
        · exact h

end HP
