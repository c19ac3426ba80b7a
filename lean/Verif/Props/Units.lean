import Verif.Proofs.Scale
import Verif.Props.Heuristic
/-
C78: the unit of length does not matter.
C07 for any rounding of the floating point operations.
-/
namespace HP
open Spec

/-- the reported utilization as the code computes it: the fractions of the container's area are
added up in the order of placement -/
def fractions (A : Arith) (W L : Nat) (m : List (String × Rect)) : Rat :=
  m.foldl (fun v q => A.add v (A.div (q.2.w * q.2.l) (W * L))) 0

theorem construct_obj_bin {P : CParams} {items : PyDict String Dim} (hg : ValidSizes items)
    (hW : 0 < P.W) (hL : 0 < P.L) (hb : P.strip = false) {r : CResult}
    (hr : construct P items = .ok r) : r.obj = fractions P.ar P.W P.L r.solution := by
  obtain ⟨n, s, hrun, hI, hD, hn, hc⟩ := construct_total (P := P) hg hW hL
  rw [hr] at hc; injection hc with hc; subst hc
  have hG := Run_GInv (GInv_init P items) hrun
  simp only [hb, Bool.false_eq_true, if_false]
  rw [hG.obj, if_neg (by simp [hb])]
  unfold objFold fractions
  rw [List.foldl_map]

theorem Chain.ov_bin {A : Arith} {p : SolveIn} {cs items : PyDict String Dim} {sol : Solution}
    {ov : ObjVals} {rem : PyDict String Dim} (hb : p.strip = false)
    (hcs : ∀ c ∈ cs, 0 < c.2.w ∧ 0 < c.2.l) (hi : ValidSizes items)
    (h : Chain A p cs items sol ov rem) :
    ov = (cs.zip sol).map (fun x => (x.1.1, fractions A x.1.2.w x.1.2.l x.2.2)) := by
  induction h with
  | nil => rfl
  | skip _ ih =>
    rw [List.zip_cons_cons, List.map_cons, ← ih (fun c hc => hcs c (by simp [hc])) hi]
    rfl
  | @cons cid c cs items r sol ov rem hne hr hf _ ih =>
    have hc := hcs (cid, c) (by simp)
    rw [List.zip_cons_cons, List.map_cons, ← ih (fun c hc => hcs c (by simp [hc]))
      (validSizes_sublist hf.sub hi)]
    congr 2
    have hL : (p.params A c).L = c.l := by unfold SolveIn.params; simp [hb]
    have := construct_obj_bin hi hc.1 (by rw [hL]; exact hc.2) hb hr
    rw [hL] at this
    exact this

/-- **C07** for any rounding: the reported values are the sums of the area fractions, added up in
the order of placement, container by container. -/
theorem C07_rounded (A : Arith) (p : SolveIn) (hv : ValidIn p) (hb : p.strip = false)
    (seq : Option (List String)) (hs : KnownSeq p seq) (sol : Solution) (ov : ObjVals)
    (h : solve A p seq = .ok (sol, ov)) :
    ov = (p.containers.zip sol).map (fun x => (x.1.1, fractions A x.1.2.w x.1.2.l x.2.2)) := by
  obtain ⟨hi, rem, hch⟩ := solve_ok hv hs h
  exact hch.ov_bin hb hv.conts.2 hi

/-- the problem with all lengths multiplied by `k` -/
def scaleIn (k : Nat) (p : SolveIn) : SolveIn :=
  { p with containers := scaleDims k p.containers, items := scaleDims k p.items,
           height := k * p.height }

theorem scaleDims_keys (k : Nat) (m : List (String × Dim)) :
    (scaleDims k m).map (·.1) = m.map (·.1) := by simp [scaleDims, Function.comp_def]

theorem scaleDims_valid {k : Nat} (hk : 0 < k) {m : List (String × Dim)} (h : ValidSizes m) :
    ValidSizes (scaleDims k m) := by
  refine ⟨by rw [scaleDims_keys]; exact h.1, ?_⟩
  intro q hq
  obtain ⟨q', hq', rfl⟩ := List.mem_map.1 hq
  have := h.2 q' hq'
  exact ⟨Nat.mul_pos hk this.1, Nat.mul_pos hk this.2⟩

theorem scaleDims_find (k : Nat) (m : List (String × Dim)) (id : String) :
    (scaleDims k m).find? (fun q => q.1 == id) =
      (m.find? (fun q => q.1 == id)).map (fun q => (q.1, scaleDim k q.2)) := by
  unfold scaleDims
  rw [List.find?_map]
  rfl

theorem scaleDims_solvedFor (k : Nat) (m : List (String × Dim)) (seq : Option (List String)) :
    solvedFor (scaleDims k m) seq = scaleDims k (solvedFor m seq) := by
  cases seq with
  | none => rfl
  | some s =>
    simp only [solvedFor, reorder]
    induction firstOcc s with
    | nil => rfl
    | cons a l ih =>
      rw [List.filterMap_cons, List.filterMap_cons, scaleDims_find]
      cases hf : m.find? (fun q => q.1 == a) with
      | none => simp only [Option.map_none]; exact ih
      | some q =>
        simp only [Option.map_some]
        rw [ih]
        rfl

theorem scaleIn_valid {k : Nat} (hk : 0 < k) {p : SolveIn} (h : ValidIn p) : ValidIn (scaleIn k p) where
  conts := scaleDims_valid hk h.conts
  items := scaleDims_valid hk h.items
  height := fun hs => Nat.mul_pos hk (h.height hs)

theorem scaleIn_one (p : SolveIn) : scaleIn 1 p = p := by
  have : ∀ m : List (String × Dim), scaleDims 1 m = m := by
    intro m; simp [scaleDims, scaleDim]
  cases p
  simp [scaleIn, this]

theorem scaleSol_one (s : Solution) : scaleSol 1 s = s := by
  simp [scaleSol, scaleRects, scaleRect]

theorem fractions_scale {k : Nat} {A : Arith} (hdiv : ∀ a b, A.div (k * k * a) (k * k * b) = A.div a b)
    (W L : Nat) (m : List (String × Rect)) :
    fractions A (k * W) (k * L) (scaleRects k m) = fractions A W L m := by
  unfold fractions scaleRects
  rw [List.foldl_map]
  have : ∀ q : String × Rect, A.div ((scaleRect k q.2).w * (scaleRect k q.2).l) (k * W * (k * L)) =
      A.div (q.2.w * q.2.l) (W * L) := by
    intro q
    rw [← hdiv (q.2.w * q.2.l) (W * L)]
    congr 1
    · unfold scaleRect; simp only; ac_rfl
    · ac_rfl
  simp only [this]

/-- **C78**: multiplying all sizes (and the strip height) by a factor multiplies all positions of
the solution by that factor, and the reported utilizations of bin packing stay the same.  The two
hypotheses on the arithmetic say that the quotients of two ints depend on their ratio only. -/
theorem C78_units (A : Arith) (k : Nat) (hk : 0 < k)
    (hratio : ∀ a b, A.ratioLe (k * a) (k * b) = A.ratioLe a b)
    (hdiv : ∀ a b, A.div (k * k * a) (k * k * b) = A.div a b)
    (p : SolveIn) (hv : ValidIn p) (seq : Option (List String)) (hs : KnownSeq p seq)
    (sol : Solution) (ov : ObjVals) (h : solve A p seq = .ok (sol, ov))
    (hd : ∀ cid m, (cid, m) ∈ sol → (m.map (·.2)).Pairwise Spec.Disjoint) :
    ∃ ov', solve A (scaleIn k p) seq = .ok (scaleSol k sol, ov') ∧ (p.strip = false → ov' = ov) := by
  by_cases hk1 : k = 1
  · subst hk1
    rw [scaleIn_one, scaleSol_one]
    exact ⟨ov, h, fun _ => rfl⟩
  have hv' := scaleIn_valid hk hv
  have hs' : KnownSeq (scaleIn k p) seq := by
    intro s he id hid
    have := hs s he id hid
    unfold PyDict.keys at this ⊢
    show id ∈ (scaleDims k p.items).map (·.1)
    rw [scaleDims_keys]; exact this
  obtain ⟨sol', ov', e, hu⟩ := C76_no_low_strips A (scaleIn k p) hv' seq hs' (by
    intro q hq
    obtain ⟨q', hq', rfl⟩ := List.mem_map.1 hq
    have := hv.items.2 q' hq'
    unfold LowStrip scaleDim
    rintro (⟨h1, _⟩ | ⟨_, h1, _⟩) <;> exact hk1 (Nat.eq_one_of_mul_eq_one_right h1))
  obtain ⟨hi, rem, hch⟩ := solve_ok hv hs h
  have hp := (C76_heuristic A p hv seq hs sol ov h hd sol).2 rfl
  have hps := Scale.packs_scale hk (S' := settingOf A (scaleIn k p)) (fun c => (⟨hratio, hdiv⟩ : Scale.Inv k A)) (by
    intro c
    unfold settingOf Scale.setting scaleIn scaleDim
    cases p.strip <;> simp) hi.2 hp
  have hps' : Packs (settingOf A (scaleIn k p)) (scaleIn k p).containers
      (solvedFor (scaleIn k p).items seq) (scaleSol k sol) := by
    rw [show (scaleIn k p).items = scaleDims k p.items from rfl, scaleDims_solvedFor]
    exact hps
  have hsol := (hu _).1 hps'
  refine ⟨ov', by rw [hsol]; exact e, ?_⟩
  intro hb
  rw [C07_rounded A p hv hb seq hs sol ov h, C07_rounded A (scaleIn k p) hv' hb seq hs' sol' ov' e,
    ← hsol]
  show ((scaleDims k p.containers).zip (scaleSol k sol)).map _ = _
  unfold scaleDims scaleSol
  rw [List.zip_map, List.map_map]
  apply List.map_congr_left
  intro x _
  simp only [Function.comp_apply, Prod.map_fst, Prod.map_snd]
  rw [show (scaleDim k x.1.2).w = k * x.1.2.w from rfl, show (scaleDim k x.1.2).l = k * x.1.2.l from rfl,
    fractions_scale hdiv]

/-- exact arithmetic meets the hypotheses of `C78_units` -/
theorem C78_exact (k : Nat) (hk : 0 < k) :
    (∀ a b, Arith.exact.ratioLe (k * a) (k * b) = Arith.exact.ratioLe a b) ∧
    (∀ a b, Arith.exact.div (k * k * a) (k * k * b) = Arith.exact.div a b) := by
  constructor
  · intro a b
    simp only [Arith.exact, decide_eq_decide]
    rw [show 5 * (k * a) = k * (5 * a) by ac_rfl]
    exact Nat.mul_le_mul_left_iff hk
  · intro a b
    simp only [Arith.exact]
    have : ((k * k : Nat) : Rat) ≠ 0 := by
      have := Nat.mul_pos hk hk
      exact_mod_cast (by omega : k * k ≠ 0)
    push_cast at this ⊢
    exact mul_div_mul_left _ _ this

/-- a problem in centimetres and in millimetres -/
example : ∃ ov, solve .exact (scaleIn 10 exPts) none = .ok (
    [("c", [("a", ⟨0, 0, 40, 20⟩), ("b", ⟨40, 0, 20, 30⟩), ("c", ⟨0, 30, 30, 20⟩), ("g", ⟨30, 20, 10, 20⟩),
      ("d", ⟨40, 30, 20, 20⟩), ("e", ⟨60, 0, 20, 20⟩), ("h", ⟨0, 20, 20, 10⟩), ("i", ⟨60, 20, 20, 20⟩)]),
     ("e", [])], ov) := by
  obtain ⟨sol, ov, h, _⟩ := C76_no_low_strips .exact exPts exPts_valid.1 none (by intro s h; simp at h)
    exPts_valid.2
  obtain ⟨ov', h1, _⟩ := C78_units .exact 10 (by decide) (C78_exact 10 (by decide)).1
    (C78_exact 10 (by decide)).2 exPts exPts_valid.1 none (by intro s h; simp at h) sol ov h
    (C02_no_overlap _ _ exPts_valid.1 _ (by intro s h; simp at h) exPts_valid.2 _ _ h)
  have e : solve .exact exPts none = .ok (
      [("c", [("a", ⟨0, 0, 4, 2⟩), ("b", ⟨4, 0, 2, 3⟩), ("c", ⟨0, 3, 3, 2⟩), ("g", ⟨3, 2, 1, 2⟩),
      ("d", ⟨4, 3, 2, 2⟩), ("e", ⟨6, 0, 2, 2⟩), ("h", ⟨0, 2, 2, 1⟩), ("i", ⟨6, 2, 2, 2⟩)]), ("e", [])],
      [("c", 3/4), ("e", 0)]) := by decide +kernel
  rw [e] at h
  injection h with h
  injection h with h2 h3
  refine ⟨ov', ?_⟩
  rw [h1, ← h2]
  rfl

end HP
