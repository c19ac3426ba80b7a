import Verif.Proofs.Hill
/-
Property C106: `local_search()` is hill climbing, step by step.
-/
namespace HP
open Spec

/-- the search is a climb, and its log are the reports on it -/
theorem climb_reports (A : Arith) (clock : Nat → Rat) (start : Rat) (throttle : Bool) (i j : Inst)
    (t : LSState Inst (Solution × ObjVals)) (hv : i.Valid) (hn : i.containersNum = i.containers.length)
    (h : i.localSearch A clock start throttle = .ok (j, t)) :
    ∃ (first : Solution × ObjVals) (z : HillNode String (Solution × ObjVals)),
      solve A i.solveIn none = .ok first ∧
      HillReports (i.hill A clock start throttle) (fun r : Solution × ObjVals => overall A (r.2.map (·.2)))
        0 ⟨i.items.map (·.1), first, i.height.getD 0, [i.height.getD 0]⟩ t.tick z (t.log.map NodeLog.report) ∧
      (∀ e ∈ t.log, e.globalOpt = false) ∧
      SamePacking j.solution z.result.1 ∧ j.objVals = z.result.2 ∧
      (i.strip = true → j.height = some z.height ∧ j.heights = z.heights) := by
  obtain ⟨s0, ⟨sol, ov, r, h1, h2, h3⟩, hj, hp, hi0, _⟩ := localSearch_ok hv h
  obtain ⟨fi, fc, fs, fh, fm, ft, fx, fhs, fb⟩ := searchBase_fields i
  have hvb := searchBase_valid hv
  have hinv : LSInvAt A i.searchBase s0 i.searchBase.height i.searchBase.heights (i.searchBase.height.getD 0) sol := by
    obtain ⟨sol', ov', r', g1, g2, g3, g4, g5, g6⟩ := init_spec (A := A) hvb
    rw [searchBase_solveIn, h1] at g2
    injection g2 with g2
    injection g2 with g2 g2'
    subst g2; subst g2'
    subst h3
    constructor
    · exact ⟨sol, ov, rfl⟩
    · intro hst
      obtain ⟨k, hk, hp⟩ := hvb.height hst
      exact ⟨k, hk, hp, by unfold Inst.maxH; rw [hk]; simp only [Option.getD_some]; omega⟩
    · intro _; exact ⟨rfl, rfl⟩
    · intro hst
      obtain ⟨k, hk, hp⟩ := hvb.height hst
      unfold Inst.maxH; rw [hk]; simp only [Option.getD_some]; omega
    · intro _; rfl
    · rw [fi]
    · rw [fi] at g1; exact g1
    · exact h2
    · exact (searchBase_worth A i _).symm
    · intro _; left; exact ⟨rfl, rfl, rfl, by rw [fi]⟩
    · intro hst hh
      rw [hh]
      refine ⟨rfl, rfl, by simp, fun hm => ⟨by simp, hm⟩⟩
  rw [← ft, ← fi] at hp
  obtain ⟨h', hs', hN', sol', shs', q1, q2, ext, x1, x2, q3⟩ := path_reports hvb
    (by rw [fc, ← hn]; unfold Inst.searchBase; split <;> rfl) hp hinv [i.height.getD 0]
    (by intro hst; rw [fs] at hst; rw [fhs hst])
  rw [hill_base] at q3
  refine ⟨(sol, ov), ⟨t.node, (sol', t.retained.2), h'.getD 0, shs'⟩, h1, ?_, ?_, ?_, ?_, ?_⟩
  · rw [h3, fh] at q3
    rw [x1, h3]
    exact q3
  · rw [x1, h3]
    exact x2
  · rw [hj]; exact q1.same
  · rw [hj]
  · intro hst
    obtain ⟨a, b, hob⟩ := q1.obj
    obtain ⟨k, hk, _⟩ := q1.hStrip (by rw [fs]; exact hst)
    have e := q2 (by rw [fs]; exact hst)
    refine ⟨?_, ?_⟩
    · rw [hj, hob]; simp [Inst.upd, hk]
    · rw [hj, hob]; simp [Inst.upd, e]

/-- C106: the result of `local_search()` is where the hill climbing search of `SpecHill` ends, with the rules
`Inst.hill`, started from the items in their order with the packing of `solve()`; `t.tick` is the number of packings
evaluated.  In strip packing `container_height` and `_heights_history` are those of the climb. -/
theorem C106_climb (A : Arith) (clock : Nat → Rat) (start : Rat) (throttle : Bool) (i j : Inst)
    (t : LSState Inst (Solution × ObjVals)) (hv : i.Valid) (hn : i.containersNum = i.containers.length)
    (h : i.localSearch A clock start throttle = .ok (j, t)) :
    ∃ (first : Solution × ObjVals) (z : HillNode String (Solution × ObjVals)),
      solve A i.solveIn none = .ok first ∧
      Hill (i.hill A clock start throttle)
        0 ⟨i.items.map (·.1), first, i.height.getD 0, [i.height.getD 0]⟩ t.tick z ∧
      SamePacking j.solution z.result.1 ∧ j.objVals = z.result.2 ∧
      (i.strip = true → j.height = some z.height ∧ j.heights = z.heights) := by
  obtain ⟨first, z, h1, h2, _, h3⟩ := climb_reports A clock start throttle i j t hv hn h
  exact ⟨first, z, h1, h2.hill, h3⟩

/-! ### the specification has one answer -/

theorem hill_split {α R : Type} {K : HillRules α R} {a : HillNode α R}
    (hf : ∀ h x r r', K.pack h x r → K.pack h x r' → r = r')
    {pre pre' post post' : List (List α)} {y y' : List α} {r r' : R}
    (e : pre ++ y :: post = pre' ++ y' :: post')
    (hr : Refused K a pre) (hr' : Refused K a pre')
    (hp : K.pack a.height y r) (hb : K.better r a.result)
    (hp' : K.pack a.height y' r') (hb' : K.better r' a.result) :
    pre = pre' ∧ y = y' ∧ r = r' := by
  induction pre generalizing pre' with
  | nil =>
    cases pre' with
    | nil =>
      simp at e
      obtain ⟨rfl, _⟩ := e
      exact ⟨rfl, rfl, hf _ _ _ _ hp hp'⟩
    | cons b pre' =>
      simp at e
      obtain ⟨rfl, _⟩ := e
      exact absurd hb (hr' y (by simp) r hp)
  | cons b pre ih =>
    cases pre' with
    | nil =>
      simp at e
      obtain ⟨rfl, _⟩ := e
      exact absurd hb' (hr b (by simp) r' hp')
    | cons c pre' =>
      simp at e
      obtain ⟨rfl, e⟩ := e
      obtain ⟨rfl, rfl, rfl⟩ := ih e (fun y hy => hr y (by simp [hy])) (fun y hy => hr' y (by simp [hy]))
      exact ⟨rfl, rfl, rfl⟩

/-- a refused beginning with a late clock after it, or the whole list, contains no better neighbour in time -/
theorem hill_rest_found {α R : Type} {K : HillRules α R} {a : HillNode α R} {n : Nat}
    {pre pre' post post' : List (List α)} {y : List α} {r : R}
    (e : pre ++ post = pre' ++ y :: post') (hr : Refused K a pre)
    (hpost : post = [] ∨ (pre ≠ [] ∧ K.late (n + pre.length - 1)))
    (ht : ∀ k, k < pre'.length → ¬ K.late (n + k))
    (hp : K.pack a.height y r) (hb : K.better r a.result) : False := by
  by_cases hl : pre.length ≤ pre'.length
  · rcases hpost with h | ⟨h, hlate⟩
    · subst h
      have := congrArg List.length e
      simp at this
      omega
    · have : 0 < pre.length := List.length_pos_iff.2 h
      exact ht (pre.length - 1) (by omega) (by rwa [show n + (pre.length - 1) = n + pre.length - 1 by omega])
  · have hy : y ∈ pre := by
      have h1 : (pre ++ post)[pre'.length]? = some y := by rw [e]; simp
      rw [List.getElem?_append_left (by omega)] at h1
      exact List.mem_of_getElem? h1
    exact hr y hy r hp hb

/-- two ways to rest have the same length -/
theorem hill_rest_len {α R : Type} {K : HillRules α R} {n : Nat} {pre pre' post post' : List (List α)}
    (e : pre ++ post = pre' ++ post')
    (hpost : post = [] ∨ (pre ≠ [] ∧ K.late (n + pre.length - 1)))
    (ht : ∀ k, k + 1 < pre'.length → ¬ K.late (n + k)) : pre'.length ≤ pre.length := by
  by_contra hlt
  rcases hpost with h | ⟨h, hlate⟩
  · subst h
    have := congrArg List.length e
    simp at this
    omega
  · have : 0 < pre.length := List.length_pos_iff.2 h
    exact ht (pre.length - 1) (by omega) (by rwa [show n + (pre.length - 1) = n + pre.length - 1 by omega])

/-- C106: the search described by the specification has only one outcome (packing being a function of the height and
the sequence), so that `C106_climb` determines the result. -/
theorem C106_unique {α R : Type} (K : HillRules α R) (hf : ∀ h x r r', K.pack h x r → K.pack h x r' → r = r')
    {n m m' : Nat} {a z z' : HillNode α R} (h1 : Hill K n a m z) (h2 : Hill K n a m' z') : m = m' ∧ z = z' := by
  induction h1 with
  | rest e hr ht hp =>
    cases h2 with
    | rest e' hr' ht' hp' =>
      have ee := e.symm.trans e'
      have l1 := hill_rest_len ee hp ht'
      have l2 := hill_rest_len ee.symm hp' ht
      exact ⟨by omega, rfl⟩
    | last e' hr' ht' hpk hb hl => exact (hill_rest_found (e.symm.trans e') hr hp ht' hpk hb).elim
    | move e' hr' ht' hpk hb hl _ => exact (hill_rest_found (e.symm.trans e') hr hp ht' hpk hb).elim
  | last e hr ht hpk hb hl =>
    cases h2 with
    | rest e' hr' ht' hp' => exact (hill_rest_found (e'.symm.trans e) hr' hp' ht hpk hb).elim
    | last e' hr' ht' hpk' hb' hl' =>
      obtain ⟨rfl, rfl, rfl⟩ := hill_split hf (e.symm.trans e') hr hr' hpk hb hpk' hb'
      exact ⟨rfl, rfl⟩
    | move e' hr' ht' hpk' hb' hl' _ =>
      obtain ⟨rfl, rfl, rfl⟩ := hill_split hf (e.symm.trans e') hr hr' hpk hb hpk' hb'
      exact absurd hl hl'
  | move e hr ht hpk hb hl hrest ih =>
    cases h2 with
    | rest e' hr' ht' hp' => exact (hill_rest_found (e'.symm.trans e) hr' hp' ht hpk hb).elim
    | last e' hr' ht' hpk' hb' hl' =>
      obtain ⟨rfl, rfl, rfl⟩ := hill_split hf (e.symm.trans e') hr hr' hpk hb hpk' hb'
      exact absurd hl' hl
    | move e' hr' ht' hpk' hb' hl' h2' =>
      obtain ⟨rfl, rfl, rfl⟩ := hill_split hf (e.symm.trans e') hr hr' hpk hb hpk' hb'
      exact ih h2'

/-- the packing of a sequence at a height is unique -/
theorem hill_pack_fun (A : Arith) (clock : Nat → Rat) (start : Rat) (throttle : Bool) (i : Inst) :
    ∀ h x r r', (i.hill A clock start throttle).pack h x r → (i.hill A clock start throttle).pack h x r' → r = r' := by
  intro h x r r' h1 h2
  unfold Inst.hill at h1 h2
  simp only at h1 h2
  rw [h1] at h2
  injection h2

/-- C106: whatever end `z`, after `m` evaluations, the climb from the packing of `solve()` has, `local_search()` ends
there: the reported packing and values, the number of evaluations and the heights are those of `z`. -/
theorem C106_determined (A : Arith) (clock : Nat → Rat) (start : Rat) (throttle : Bool) (i j : Inst)
    (t : LSState Inst (Solution × ObjVals)) (hv : i.Valid) (hn : i.containersNum = i.containers.length)
    (h : i.localSearch A clock start throttle = .ok (j, t))
    (first : Solution × ObjVals) (hfirst : solve A i.solveIn none = .ok first)
    (m : Nat) (z : HillNode String (Solution × ObjVals))
    (hz : Hill (i.hill A clock start throttle)
        0 ⟨i.items.map (·.1), first, i.height.getD 0, [i.height.getD 0]⟩ m z) :
    t.tick = m ∧ SamePacking j.solution z.result.1 ∧ j.objVals = z.result.2 ∧
      (i.strip = true → j.height = some z.height ∧ j.heights = z.heights) := by
  obtain ⟨first', z', h1, h2, h3⟩ := C106_climb A clock start throttle i j t hv hn h
  rw [hfirst] at h1
  injection h1 with h1
  subst h1
  obtain ⟨rfl, rfl⟩ := C106_unique _ (hill_pack_fun A clock start throttle i) h2 hz
  exact ⟨rfl, h3⟩

/-! ### C23: the heights of the climb -/

/-- C23: whatever the minimum height, `container_height` stays positive and does not exceed the larger of its value
before the call and the minimum height, and afterwards no item reaches above it. -/
theorem C23_below (A : Arith) (clock : Nat → Rat) (start : Rat) (throttle : Bool) (i j : Inst)
    (t : LSState Inst (Solution × ObjVals)) (hv : i.Valid) (hst : i.strip = true)
    (h : i.localSearch A clock start throttle = .ok (j, t)) :
    ∃ k, j.height = some k ∧ 0 < k ∧ k ≤ max (i.height.getD 0) (i.minHeight.getD 0) ∧
      ∀ cid m, (cid, m) ∈ j.solution → ∀ id r, (id, r) ∈ m → r.y + r.l ≤ k := by
  obtain ⟨s0, _, hj, hp, _, hinv⟩ := localSearch_ok hv h
  obtain ⟨fi, fc, fs, fh, fm, _, fx, fhs, fb⟩ := searchBase_fields i
  obtain ⟨hh, hs, hN, sol, hi⟩ := hinv
  obtain ⟨o1, o2, hobj⟩ := hi.obj
  have hst' : i.searchBase.strip = true := by rw [fs]; exact hst
  obtain ⟨k, hk, k1, k2⟩ := hi.hStrip hst'
  have ek : j.height = some k := by rw [hj, hobj]; exact hk
  rw [fx] at k2
  refine ⟨k, ek, k1, k2, ?_⟩
  rcases C23_final_height A clock start throttle i j t hv hst h with ⟨a1, _, sol0, a3, a4⟩ | ⟨m0, b1, b2, _⟩
  · intro cid m hm id r hr
    obtain ⟨m', c1, c2⟩ := a4.2 cid m hm
    obtain ⟨c, hc, hin⟩ := C03_inside A _ hv.solveIn none (KnownSeq_none _) sol0 _ a3 cid m' c1
    have := (hin (id, r) (c2.mem_iff.1 hr)).2
    rw [a1] at ek
    simpa [lenOf, Inst.solveIn, hst, ek] using this
  · intro cid m hm id r hr
    rw [b1] at hm
    simp only [List.mem_cons, Prod.mk.injEq, List.not_mem_nil, or_false] at hm
    obtain ⟨_, rfl⟩ := hm
    rw [ek] at b2
    injection b2 with b2
    have := (stackHeight_le.1 (Nat.le_refl (stackHeight (m.map (·.2))))) r (List.mem_map.2 ⟨_, hr, rfl⟩)
    omega

/-! ### not vacuous -/

/-- the hypotheses of C106 hold of `lsStrip`, where the climb moves twice -/
example : lsStrip.Valid ∧ lsStrip.containersNum = lsStrip.containers.length ∧
    ∃ (first : Solution × ObjVals) (m : Nat) (z : HillNode String (Solution × ObjVals)),
      solve Arith.exact lsStrip.solveIn none = .ok first ∧
      Hill (lsStrip.hill Arith.exact (fun _ => 0) 0 true) 0 ⟨["i0", "i1", "i2", "i3"], first, 6, [6]⟩ m z ∧
      z.heights = [6, 5, 4] := by
  obtain ⟨j, t, h, _, _, h3, h4, _⟩ := lsView_some lsStrip_run
  obtain ⟨first, z, g1, g2, _, _, g5⟩ := C106_climb _ _ _ _ _ _ _ lsStrip_valid rfl h
  refine ⟨lsStrip_valid, rfl, first, t.tick, z, g1, g2, ?_⟩
  rw [← (g5 rfl).2]; exact h4

end HP
