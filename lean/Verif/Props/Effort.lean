import Verif.Proofs.Effort
import Verif.Proofs.LSPath
import Verif.Props.HyperSearch
/-
Property C123: the work of `local_search()` is paid for by the progress it makes.
-/
namespace HP
open Spec

/-- the number of neighbours of a node that `local_search()` looks at, for `n` items -/
def Spec.tried (throttle : Bool) (n : Nat) : Nat :=
  if throttle then min 2500 (n * (n - 1) / 2) else n * (n - 1) / 2

theorem tried_min (A : Arith) (clock : Nat → Rat) (start : Rat) (throttle : Bool) (i : Inst) :
    Spec.tried throttle i.items.length =
      min (i.hill A clock start throttle).limit (i.items.length * (i.items.length - 1) / 2) := by
  unfold Spec.tried Inst.hill
  cases throttle <;> simp

theorem keys_length (i : Inst) {seq : List String} (h : seq.Perm (i.items.map (·.1))) :
    seq.length = i.items.length := by rw [h.length_eq, List.length_map]

theorem at_valid {i : Inst} (hv : i.Valid) {h : Nat} (hh : i.strip = true → 0 < h) : ValidIn (i.at h) :=
  ⟨hv.conts, hv.items, hh⟩

theorem first_packs {A : Arith} {i : Inst} (hv : i.Valid) {r : Solution × ObjVals}
    (h : solve A i.solveIn none = .ok r) : solve A (i.at (i.height.getD 0)) (some (i.items.map (·.1))) = .ok r := by
  rw [solve_none_eq (p := i.solveIn) hv.items.1] at h
  exact h

/-- every unit of value gained pays for one scan, if all values are whole multiples of `1 / M` -/
theorem gain_whole (clock : Nat → Rat) (start : Rat) (throttle : Bool) (i j : Inst)
    (t : LSState Inst (Solution × ObjVals)) (hv : i.Valid) (hn : i.containersNum = i.containers.length)
    (hbin : i.strip = false) (h : i.localSearch Arith.exact clock start throttle = .ok (j, t))
    (M : Nat) (hM : 0 < M)
    (hpk : ∀ (H : Nat) (x : List String) (r : Solution × ObjVals), x.Perm (i.items.map (·.1)) →
      solve Arith.exact (i.at H) (some x) = .ok r → ∃ Y : Nat, (M : Rat) * overall Arith.exact (r.2.map (·.2)) = Y) :
    ∃ first : Solution × ObjVals, solve Arith.exact i.solveIn none = .ok first ∧
      overall Arith.exact (first.2.map (·.2)) ≤ overall Arith.exact (j.objVals.map (·.2)) ∧
      (t.tick : Rat) ≤ ((M : Rat) *
        (overall Arith.exact (j.objVals.map (·.2)) - overall Arith.exact (first.2.map (·.2))) + 1) *
        (Spec.tried throttle i.items.length : Rat) := by
  obtain ⟨first, z, g1, g2, _, g4, _⟩ := C106_climb _ clock start throttle i j t hv hn h
  refine ⟨first, g1, ?_⟩
  let val : HillNode String (Solution × ObjVals) → Rat := fun a => overall Arith.exact (a.result.2.map (·.2))
  let P : HillNode String (Solution × ObjVals) → Prop := fun a => a.seq.Perm (i.items.map (·.1)) ∧
    ∃ Y : Nat, (M : Rat) * val a = Y
  let G : HillNode String (Solution × ObjVals) → Nat := fun a => ⌊(M : Rat) * val a⌋₊
  have hGv : ∀ a, P a → ((G a : Nat) : Rat) = (M : Rat) * val a := by
    intro a ⟨_, Y, hY⟩
    show ((⌊(M : Rat) * val a⌋₊ : Nat) : Rat) = _
    rw [hY, Nat.floor_natCast]
  have h10 : (0 : Rat) < (M : Rat) := by
    exact_mod_cast hM
  have hmain := hill_effort (P := P) (G := G) (tried_min Arith.exact clock start throttle i)
    (fun a ha => keys_length i ha.1)
    (by
      intro a y r ha hy hp hb
      have hy' : y.Perm (i.items.map (·.1)) := hy.trans ha.1
      have hP : P (a.moved (i.hill Arith.exact clock start throttle) y r) := ⟨hy', hpk _ y r hy' hp⟩
      refine ⟨hP, ?_⟩
      have hlt : val a < val (a.moved (i.hill Arith.exact clock start throttle) y r) := hb.1
      have e1 := hGv a ha
      have e2 := hGv _ hP
      have : ((G a : Nat) : Rat) < ((G (a.moved (i.hill Arith.exact clock start throttle) y r) : Nat) : Rat) := by
        rw [e1, e2]; exact mul_lt_mul_of_pos_left hlt h10
      have : G a < G (a.moved (i.hill Arith.exact clock start throttle) y r) := by exact_mod_cast this
      omega)
    g2 ⟨List.Perm.refl _, hpk _ _ first (List.Perm.refl _) (first_packs hv g1)⟩
  obtain ⟨m1, m2, m3⟩ := hmain
  have e1 := hGv _ m1
  have e0 := hGv ⟨i.items.map (·.1), first, i.height.getD 0, [i.height.getD 0]⟩
    ⟨List.Perm.refl _, hpk _ _ first (List.Perm.refl _) (first_packs hv g1)⟩
  generalize hg0 : G ⟨i.items.map (·.1), first, i.height.getD 0, [i.height.getD 0]⟩ = n0 at *
  generalize hg1 : G z = n1 at *
  have v0 : val ⟨i.items.map (·.1), first, i.height.getD 0, [i.height.getD 0]⟩ =
    overall Arith.exact (first.2.map (·.2)) := rfl
  have v1 : val z = overall Arith.exact (j.objVals.map (·.2)) := by rw [g4]
  rw [v0] at e0
  rw [v1] at e1
  have hq : (n0 : Rat) ≤ n1 := by exact_mod_cast m2
  constructor
  · rw [e0, e1] at hq
    exact le_of_mul_le_mul_left hq h10
  · rw [mul_sub, ← e0, ← e1]
    have : ((t.tick + n0 * Spec.tried throttle i.items.length : Nat) : Rat) ≤
        ((0 + (n1 + 1) * Spec.tried throttle i.items.length : Nat) : Rat) := by exact_mod_cast m3
    push_cast at this
    linarith

/-- C123: every unit of the value that `local_search()` gains, measured in steps of `1 / (10 D)`, pays for one more
scan of the neighbours, and only the last scan is not paid for.  `D` is any common multiple of the areas of the
containers. -/
theorem C123_gain (clock : Nat → Rat) (start : Rat) (throttle : Bool) (i j : Inst)
    (t : LSState Inst (Solution × ObjVals)) (hv : i.Valid) (hn : i.containersNum = i.containers.length)
    (hbin : i.strip = false) (h : i.localSearch Arith.exact clock start throttle = .ok (j, t))
    (D : Nat) (hD0 : 0 < D) (hD : ∀ c ∈ i.containers, c.2.w * c.2.l ∣ D) :
    ∃ first : Solution × ObjVals, solve Arith.exact i.solveIn none = .ok first ∧
      overall Arith.exact (first.2.map (·.2)) ≤ overall Arith.exact (j.objVals.map (·.2)) ∧
      (t.tick : Rat) ≤ (((10 * D : Nat) : Rat) *
        (overall Arith.exact (j.objVals.map (·.2)) - overall Arith.exact (first.2.map (·.2))) + 1) *
        (Spec.tried throttle i.items.length : Rat) := by
  refine gain_whole clock start throttle i j t hv hn hbin h (10 * D) (by omega) ?_
  intro H x r hx hr
  have hvH : ValidIn (i.at H) := at_valid hv (by rw [hbin]; simp)
  have hks : KnownSeq (i.at H) (some x) := KnownSeq_perm hx
  have hf := solve_facts hvH hks hr
  refine overall_whole ?_ (vals_whole hvH hbin hks hr hD)
  intro hnil
  have h1 : PyDict.keys r.2 = PyDict.keys i.containers := hf.keysO
  have h2 := congrArg List.length h1
  have h3 := congrArg List.length hnil
  simp [PyDict.keys] at h2 h3
  have := hv.contsNe
  rw [h3] at h2
  exact this (by simpa using h2.symm)

/-- C123 for a single container: every square unit of the container that `local_search()` covers in addition to what the
packing of `solve()` covers pays for one more scan of the neighbours, and only the last scan is not paid for. -/
theorem C123_one (clock : Nat → Rat) (start : Rat) (throttle : Bool) (i j : Inst)
    (t : LSState Inst (Solution × ObjVals)) (hv : i.Valid) (hn : i.containersNum = i.containers.length)
    (hbin : i.strip = false) (cid : String) (c : Dim) (hc : i.containers = [(cid, c)])
    (h : i.localSearch Arith.exact clock start throttle = .ok (j, t)) :
    ∃ (m0 m1 : List (String × Rect)) (ov : ObjVals),
      solve Arith.exact i.solveIn none = .ok ([(cid, m0)], ov) ∧ j.solution = [(cid, m1)] ∧
      totalArea (m0.map (·.2)) ≤ totalArea (m1.map (·.2)) ∧
      t.tick ≤ (totalArea (m1.map (·.2)) - totalArea (m0.map (·.2)) + 1) * Spec.tried throttle i.items.length := by
  have hpos : 0 < c.w * c.l := by
    have := hv.conts.2 (cid, c) (by rw [hc]; simp)
    exact Nat.mul_pos this.1 this.2
  have hqpos : (0 : Rat) < ((c.w * c.l : Nat) : Rat) := by exact_mod_cast hpos
  have key : ∀ (p : SolveIn) (seq : Option (List String)) (r : Solution × ObjVals), ValidIn p → p.strip = false →
      p.containers = [(cid, c)] → KnownSeq p seq → solve Arith.exact p seq = .ok r →
      ∃ m v, r = ([(cid, m)], [(cid, v)]) ∧ ((c.w * c.l : Nat) : Rat) * overall Arith.exact [v] = totalArea (m.map (·.2)) := by
    intro p seq r hvp hbp hcp hks hr
    obtain ⟨sol, ov⟩ := r
    have hf := solve_facts hvp hks hr
    have k1 := hf.keysS
    have k2 := hf.keysO
    rw [hcp] at k1 k2
    match sol, ov, k1, k2, hr with
    | [(a, m)], [(b, v)], k1, k2, hr =>
      simp [PyDict.keys] at k1 k2
      subst k1; subst k2
      refine ⟨m, v, rfl, ?_⟩
      obtain ⟨c', v', b1, b2, b3, _⟩ := C07_utilization p hvp hbp seq hks _ _ hr _ m (List.mem_singleton.2 rfl)
      rw [hcp] at b1
      simp only [List.mem_singleton, Prod.mk.injEq, true_and] at b1 b2
      have e : overall Arith.exact [v] = v := by
        unfold overall; rw [if_pos (by rfl), exact_sum]; simp
      rw [e, ← b2, b3, b1]
      exact mul_div_cancel₀ _ (ne_of_gt hqpos)
  obtain ⟨first, g1, g2, g3⟩ := gain_whole clock start throttle i j t hv hn hbin h (c.w * c.l) hpos (by
    intro H x r hx hr
    obtain ⟨m, v, rfl, e⟩ := key (i.at H) (some x) r (at_valid hv (by rw [hbin]; simp)) hbin hc (KnownSeq_perm hx) hr
    exact ⟨_, e⟩)
  obtain ⟨m0, v0, rfl, e0⟩ := key i.solveIn none first hv.solveIn hbin hc (by intro s hs; cases hs) g1
  obtain ⟨seq, H, sol, hp, _, _, hs3, hs4⟩ := C17_genuine _ clock start throttle i j t hv h
  obtain ⟨m1, v1, e1, e2⟩ := key (i.at H) (some seq) _ (at_valid hv (by rw [hbin]; simp)) hbin hc (KnownSeq_perm hp) hs3
  simp only [Prod.mk.injEq] at e1
  obtain ⟨rfl, e1⟩ := e1
  have hk := hs4.1
  obtain ⟨m1', hj⟩ : ∃ m, j.solution = [(cid, m)] := by
    match hjs : j.solution, hk with
    | [(a, m)], hk => simp at hk; subst hk; exact ⟨m, rfl⟩
  obtain ⟨m1'', f1, f2⟩ := hs4.2 cid m1' (by rw [hj]; simp)
  simp only [List.mem_singleton, Prod.mk.injEq, true_and] at f1
  subst f1
  have ea : totalArea (m1'.map (·.2)) = totalArea (m1''.map (·.2)) := totalArea_perm (f2.map _)
  rw [e1] at g2 g3
  simp only [List.map_cons, List.map_nil] at g2 g3
  rw [mul_sub, e2, e0] at g3
  have hle := mul_le_mul_of_nonneg_left g2 hqpos.le
  rw [e2, e0] at hle
  have hle' : totalArea (m0.map (·.2)) ≤ totalArea (m1''.map (·.2)) := by exact_mod_cast hle
  refine ⟨m0, m1', _, g1, hj, by rw [ea]; exact hle', ?_⟩
  rw [ea]
  have : (t.tick : Rat) ≤ (((totalArea (m1''.map (·.2)) - totalArea (m0.map (·.2)) + 1) *
      Spec.tried throttle i.items.length : Nat) : Rat) := by
    push_cast [Nat.cast_sub hle']
    exact g3
  exact_mod_cast this

/-! ### strip packing -/

/-- a packing of all items covers the area of all items -/
theorem complete_area {A : Arith} {i : Inst} (hv : i.Valid) {h : Nat} (hh : i.strip = true → 0 < h) (hst : i.strip = true)
    {seq : List String} (hp : seq.Perm (i.items.map (·.1))) {r : Solution × ObjVals}
    (hpk : solve A (i.at h) (some seq) = .ok r) (hall : ∀ id ∈ i.items.map (·.1), id ∈ placedIds r.1) :
    totalArea ((stripPart r.1).map (·.2)) = (i.items.map (fun q => q.2.w * q.2.l)).sum ∧
      (stripPart r.1).length = i.items.length := by
  obtain ⟨sol, ov⟩ := r
  have hvH : ValidIn (i.at h) := at_valid hv hh
  have hks : KnownSeq (i.at h) (some seq) := KnownSeq_perm hp
  have hf : SolFacts i.containers i.items sol ov := solve_facts hvH hks hpk
  obtain ⟨_, hmem⟩ := find_strip hv hst hf
  have h1 := strip_single hv hst hf
  have hpi : placedIds sol = (stripPart sol).map (·.1) := by
    conv => lhs; rw [h1]
    simp [placedIds]
  simp only at hall hmem ⊢
  rw [hpi] at hall
  have hperm : ((stripPart sol).map (·.1)).Perm (i.items.map (·.1)) :=
    (List.perm_ext_iff_of_nodup (hf.nodup _ _ hmem) hv.items.1).2
      (fun id => ⟨fun hx => hf.sub _ _ hmem id hx, fun hx => hall id hx⟩)
  refine ⟨?_, by simpa using hperm.length_eq⟩
  let f : String → Nat := fun id => match PyDict.find? i.items id with
    | some d => d.w * d.l
    | none => 0
  have e1 : ((stripPart sol).map (·.2)).map area = ((stripPart sol).map (·.1)).map f := by
    rw [List.map_map, List.map_map]
    apply List.map_congr_left
    intro q hq
    obtain ⟨d, hd, hsz⟩ := C05_sizes A _ hvH _ hks sol ov hpk _ _ hmem q.1 q.2 hq
    have : f q.1 = d.w * d.l := by
      show (match PyDict.find? i.items q.1 with | some d => d.w * d.l | none => 0) = _
      rw [PyDict.find?_of_mem hv.items.1 hd]
    simp only [Function.comp_apply, this, area]
    rcases hsz with ⟨a, b⟩ | ⟨_, a, b⟩
    · rw [a, b]
    · rw [a, b, Nat.mul_comm]
  have e2 : i.items.map (fun q => q.2.w * q.2.l) = (i.items.map (·.1)).map f := by
    rw [List.map_map]
    apply List.map_congr_left
    intro q hq
    show _ = (match PyDict.find? i.items q.1 with | some d => d.w * d.l | none => 0)
    rw [PyDict.find?_of_mem hv.items.1 (show (q.1, q.2) ∈ i.items from hq)]
  unfold totalArea
  rw [e1, e2]
  exact (hperm.map f).sum_eq

/-- the value of a complete packing of the strip is a function of its height -/
theorem complete_value {A : Arith} {i : Inst} (hv : i.Valid) {h : Nat} (hh : i.strip = true → 0 < h) (hst : i.strip = true)
    {W : Nat} (hW : i.containers = [(stripId, ⟨W, stripInitHeight⟩)])
    {seq : List String} (hp : seq.Perm (i.items.map (·.1))) {r : Solution × ObjVals}
    (hpk : solve A (i.at h) (some seq) = .ok r) (hall : ∀ id ∈ i.items.map (·.1), id ∈ placedIds r.1) :
    overall A (r.2.map (·.2)) = overall A [A.div (i.items.map (fun q => q.2.w * q.2.l)).sum
      (W * max 1 (stackOf (stripPart r.1) - 1))] := by
  obtain ⟨e1, e2⟩ := complete_area hv hh hst hp hpk hall
  obtain ⟨sol, ov⟩ := r
  have hvH : ValidIn (i.at h) := at_valid hv hh
  have hks : KnownSeq (i.at h) (some seq) := KnownSeq_perm hp
  have hf : SolFacts i.containers i.items sol ov := solve_facts hvH hks hpk
  obtain ⟨_, hmem⟩ := find_strip hv hst hf
  have hne : stripPart sol ≠ [] := by
    intro hnil
    have := hv.itemsNe
    simp only [hnil, List.length_nil] at e2
    exact this (List.length_eq_zero_iff.1 e2.symm)
  obtain ⟨c, v, a1, a2, a3⟩ := C08_partial A _ hvH hst _ hks sol ov hpk _ _ hmem hne
  have hc : c.w = W := by
    have a1' : (stripId, c) ∈ i.containers := a1
    rw [hW] at a1'
    simp only [List.mem_singleton, Prod.mk.injEq, true_and] at a1'
    rw [a1']
  have hk := hf.keysO
  rw [hW] at hk
  have hov : ov = [(stripId, v)] := by
    match ov, hk, a2 with
    | [(a, b)], hk, a2 =>
      simp only [List.mem_singleton, Prod.mk.injEq] at a2
      rw [← a2.1, ← a2.2]
  simp only at e1 ⊢
  rw [hov]
  simp only [List.map_cons, List.map_nil]
  rw [a3, hc, e1, ← stackOf_eq]

/-- C123 in strip packing without a minimum height, whatever the arithmetic: after its first move the search lowers
`container_height` with every move, so that it looks at the neighbours of at most as many orders as the number of units
by which the height has shrunk, and of two more. -/
theorem C123_strip (A : Arith) (clock : Nat → Rat) (start : Rat) (throttle : Bool) (i j : Inst)
    (t : LSState Inst (Solution × ObjVals)) (hv : i.Valid) (hn : i.containersNum = i.containers.length)
    (hst : i.strip = true) (hm : i.minHeight = none) (h : i.localSearch A clock start throttle = .ok (j, t)) :
    ∃ H k : Nat, i.height = some H ∧ j.height = some k ∧ 0 < k ∧ k ≤ H ∧
      t.tick ≤ (H - k + 2) * Spec.tried throttle i.items.length ∧
      (j.heights.length = 1 → t.tick ≤ Spec.tried throttle i.items.length) := by
  obtain ⟨first, z, g1, g2, _, g4, g5⟩ := C106_climb _ clock start throttle i j t hv hn h
  obtain ⟨g6, g7⟩ := g5 hst
  obtain ⟨H, hH, hH0⟩ := hv.height hst
  obtain ⟨W, hW⟩ := hv.strip hst
  rw [hH] at g2
  simp only [Option.getD_some] at g2
  have hkey : PyDict.keys i.items = i.items.map (·.1) := rfl
  let K := i.hill A clock start throttle
  let Full : HillNode String (Solution × ObjVals) → Prop := fun a =>
    (∀ id ∈ i.items.map (·.1), id ∈ placedIds a.result.1) ∧ a.height = stackOf (stripPart a.result.1)
  let P : HillNode String (Solution × ObjVals) → Prop := fun a => a.seq.Perm (i.items.map (·.1)) ∧
    0 < a.height ∧ a.height ≤ H ∧ 0 < a.heights.length ∧
    (∃ H' : Nat, 0 < H' ∧ solve A (i.at H') (some a.seq) = .ok a.result) ∧
    (a.heights.length = 1 → a.height = H) ∧ (a.heights.length ≠ 1 → Full a)
  let G : HillNode String (Solution × ObjVals) → Nat := fun a =>
    if a.heights.length = 1 then 0 else H + 1 - a.height
  have hmain := hill_effort (K := K) (P := P) (G := G) (tried_min A clock start throttle i)
    (fun a ha => keys_length i ha.1)
    (by
      intro a y r ⟨p1, p2, p3, p4, ⟨H', p5, p6⟩, p7, p8⟩ hy hp hb
      have hy' : y.Perm (i.items.map (·.1)) := hy.trans p1
      have hall : ∀ id ∈ i.items.map (·.1), id ∈ placedIds r.1 := hb.2 hst hm
      have hp' : solve A (i.at a.height) (some y) = .ok r := hp
      obtain ⟨c1, c2⟩ := complete_area hv (fun _ => p2) hst hy' hp' hall
      have hf : SolFacts i.containers i.items r.1 r.2 :=
        solve_facts (at_valid hv (fun _ => p2)) (KnownSeq_perm hy') hp'
      have hs1 := strip_single hv hst hf
      have hpk : Packs A i a.height y r.1 r.2 := hp'
      have hle := stack_le hv hst p2 hy' hpk
      have hpos := stack_pos hv hst p2 hy' hpk c2
      have hlow : K.lower a.height r = stackOf (stripPart r.1) := by
        show (if i.strip then max (stackHeight (r.1.flatMap (fun c => c.2.map (·.2)))) (i.minHeight.getD 0) else _) = _
        rw [if_pos hst, hm, Option.getD_none, Nat.max_zero, stackOf_eq]
        conv => lhs; rw [hs1]
        simp
      have hP : P (a.moved K y r) := by
        refine ⟨hy', ?_, ?_, ?_, ⟨a.height, p2, hp'⟩, ?_, ?_⟩
        · show 0 < K.lower a.height r; rw [hlow]; exact hpos
        · show K.lower a.height r ≤ H; rw [hlow]; omega
        · simp [HillNode.moved]
        · intro hl; simp [HillNode.moved] at hl; rw [hl] at p4; simp at p4
        · intro _; exact ⟨hall, hlow⟩
      refine ⟨hP, ?_⟩
      have hG' : G (a.moved K y r) = H + 1 - stackOf (stripPart r.1) := by
        show (if (a.heights ++ [K.lower a.height r]).length = 1 then 0 else H + 1 - K.lower a.height r) = _
        rw [if_neg (by rw [List.length_append, List.length_singleton]; omega), hlow]
      rw [hG']
      show (if a.heights.length = 1 then 0 else H + 1 - a.height) + 1 ≤ _
      split
      · omega
      · rename_i hl
        obtain ⟨q1, q2⟩ := p8 hl
        have v1 := complete_value hv (fun _ => p2) hst hW hy' hp' hall
        have v2 := complete_value hv (fun _ => p5) hst hW p1 p6 q1
        have hlt : overall A (a.result.2.map (·.2)) < overall A (r.2.map (·.2)) := hb.1
        rw [v1, v2, ← q2] at hlt
        have : stackOf (stripPart r.1) ≠ a.height := by
          intro e; rw [e] at hlt; exact lt_irrefl _ hlt
        omega)
    g2 ⟨List.Perm.refl _, hH0, le_refl _, by simp, ⟨H, hH0, by
      have := first_packs hv g1
      rw [hH] at this; exact this⟩, fun _ => rfl, fun hl => absurd rfl hl⟩
  obtain ⟨m1, m2, m3⟩ := hmain
  obtain ⟨_, z2, z3, _, _, z6, _⟩ := m1
  refine ⟨H, z.height, hH, g6, z2, z3, ?_, ?_⟩
  · have e0 : G ⟨i.items.map (·.1), first, H, [H]⟩ = 0 := rfl
    rw [e0, Nat.zero_mul, Nat.zero_add, Nat.add_zero] at m3
    refine le_trans m3 (Nat.mul_le_mul_right _ ?_)
    show (if z.heights.length = 1 then 0 else H + 1 - z.height) + 1 ≤ _
    split <;> omega
  · intro hl
    rw [g7] at hl
    have e0 : G ⟨i.items.map (·.1), first, H, [H]⟩ = 0 := rfl
    have e1 : G z = 0 := by
      show (if z.heights.length = 1 then 0 else H + 1 - z.height) = 0
      rw [if_pos hl]
    rw [e0, e1] at m3
    omega

/-- C123: in strip packing without a minimum height `local_search()` evaluates at most `container_height + 1` times as
many packings as an order has neighbours. -/
theorem C123_strip_closed (A : Arith) (clock : Nat → Rat) (start : Rat) (throttle : Bool) (i j : Inst)
    (t : LSState Inst (Solution × ObjVals)) (hv : i.Valid) (hn : i.containersNum = i.containers.length)
    (hst : i.strip = true) (hm : i.minHeight = none) (h : i.localSearch A clock start throttle = .ok (j, t)) :
    t.tick ≤ (i.height.getD 0 + 1) * Spec.tried throttle i.items.length := by
  obtain ⟨H, k, h1, _, h3, h4, h5, _⟩ := C123_strip A clock start throttle i j t hv hn hst hm h
  rw [h1, Option.getD_some]
  exact le_trans h5 (Nat.mul_le_mul_right _ (by omega))

/-! ### not vacuous -/

/-- the hypotheses of `C123_strip` hold of `lsStrip`: the strip shrinks from 6 to 4, four items have six neighbours, and
ten packings are evaluated; the bound is 24, where `C18_work_bound` gives 1020 -/
example : lsStrip.Valid ∧ lsStrip.strip = true ∧ lsStrip.minHeight = none ∧
    ∃ j t, lsStrip.localSearch Arith.exact (fun _ => 0) 0 true = .ok (j, t) ∧ j.height = some 4 ∧ t.tick = 10 ∧
      t.tick ≤ (6 - 4 + 2) * Spec.tried true lsStrip.items.length ∧ (6 - 4 + 2) * Spec.tried true lsStrip.items.length = 24 := by
  obtain ⟨j, t, h, _, _, h3, _, _, h6⟩ := lsView_some lsStrip_run
  obtain ⟨H, k, e1, e2, _, _, e5, _⟩ := C123_strip _ _ _ _ _ _ _ lsStrip_valid rfl rfl rfl h
  have : H = 6 := by injection e1.symm
  subst this
  have : k = 4 := by rw [h3] at e2; injection e2.symm
  subst this
  exact ⟨lsStrip_valid, rfl, rfl, j, t, h, h3, h6, e5, by decide⟩

/-- the hypotheses of `C123_gain` hold of `lsBin`, with the common multiple 9 -/
example : lsBin.Valid ∧ lsBin.containersNum = lsBin.containers.length ∧ lsBin.strip = false ∧
    (∀ c ∈ lsBin.containers, c.2.w * c.2.l ∣ 9) ∧
    ∃ j t, lsBin.localSearch Arith.exact (fun _ => 0) 0 true = .ok (j, t) ∧ t.tick = 11 := by
  obtain ⟨j, t, h, _, _, _, _, _, h6⟩ := lsView_some lsBin_run
  exact ⟨lsBin_valid, rfl, rfl, by decide, j, t, h, h6⟩

/-- one container: three items of which only two fit -/
def effortProblem : Inst := mkDemo false [("c0", ⟨3, 3⟩)] [("i0", ⟨1, 1⟩), ("i1", ⟨2, 2⟩), ("i2", ⟨3, 3⟩)] none none

theorem effortProblem_valid : effortProblem.Valid where
  conts := by constructor <;> decide
  items := by constructor <;> decide
  contsNe := by decide
  itemsNe := by decide
  strip := by intro h; cases h
  height := by intro h; cases h
  minPos := by intro m h; cases h

theorem effortProblem_run : lsView (effortProblem.localSearch Arith.exact (fun _ => 0) 0 false) = some
    ⟨[("c0", [("i2", ⟨0, 0, 3, 3⟩)])], [("c0", 1)], none, [],
     [⟨1, 2, false, true, false⟩, ⟨1, 3, false, false, false⟩], 5⟩ := by decide +kernel

/-- the hypotheses of `C123_one` hold of it: the search gains four squares and evaluates five packings -/
example : effortProblem.Valid ∧ effortProblem.strip = false ∧ effortProblem.containers = [("c0", ⟨3, 3⟩)] ∧
    ∃ j t, effortProblem.localSearch Arith.exact (fun _ => 0) 0 false = .ok (j, t) ∧ t.tick = 5 := by
  obtain ⟨j, t, h, _, _, _, _, _, h6⟩ := lsView_some effortProblem_run
  exact ⟨effortProblem_valid, rfl, rfl, j, t, h, h6⟩

/-! ### hypersearch -/

theorem hsStep_effort {A : Arith} {clock : Nat → Rat} {start : Rat} {throttle : Bool} {st : List PClass}
    {s : HSState} {r : HSState × Bool} (hv : s.inst.Valid) (hn : s.inst.containersNum = s.inst.containers.length)
    (hst : s.inst.strip = true) (hm : s.inst.minHeight = none)
    (h : hsStep A clock start throttle st s = .ok r) :
    r.1.inst.Valid ∧ r.1.inst.containersNum = r.1.inst.containers.length ∧ r.1.inst.strip = true ∧
      r.1.inst.minHeight = none ∧ r.1.inst.items.length = s.inst.items.length ∧
      r.1.inst.height.getD 0 ≤ s.inst.height.getD 0 ∧
      r.1.tick + r.1.inst.height.getD 0 * Spec.tried throttle s.inst.items.length ≤
        s.tick + s.inst.height.getD 0 * Spec.tried throttle s.inst.items.length +
          (2 * Spec.tried throttle s.inst.items.length + 1) := by
  have hvst : ({ s.inst with strategy := st } : Inst).Valid :=
    ⟨hv.conts, hv.items, hv.contsNe, hv.itemsNe, hv.strip, hv.height, hv.minPos⟩
  unfold hsStep at h
  simp only [bind, Except.bind, pure, Except.pure] at h
  split at h
  · cases h
  rename_i q hq
  obtain ⟨j, t⟩ := q
  obtain ⟨hvj, _, _⟩ := localSearch_valid hvst hq
  obtain ⟨hfr, _⟩ := C17_frame _ _ _ _ _ _ _ hvst hq
  obtain ⟨H, k, e1, e2, e3, e4, e5, _⟩ := C123_strip _ _ _ _ _ _ _ hvst hn hst hm hq
  have e1' : s.inst.height = some H := e1
  have e5' : t.tick ≤ (H - k + 2) * Spec.tried throttle s.inst.items.length := e5
  have hj : j.Valid ∧ j.containersNum = j.containers.length ∧ j.strip = true ∧ j.minHeight = none ∧
      j.items.length = s.inst.items.length ∧ j.height.getD 0 ≤ s.inst.height.getD 0 ∧
      s.tick + t.tick + 1 + j.height.getD 0 * Spec.tried throttle s.inst.items.length ≤
        s.tick + s.inst.height.getD 0 * Spec.tried throttle s.inst.items.length +
          (2 * Spec.tried throttle s.inst.items.length + 1) := by
    refine ⟨hvj, by rw [hfr]; exact hn, by rw [hfr]; exact hst, by rw [hfr]; exact hm, by rw [hfr], ?_, ?_⟩
    · rw [e1', e2]; exact e4
    · rw [e1', e2]
      simp only [Option.getD_some]
      generalize Spec.tried throttle s.inst.items.length = L at *
      obtain ⟨d, rfl⟩ := Nat.exists_eq_add_of_le e4
      rw [Nat.add_sub_cancel_left] at e5'
      have : (k + d) * L = k * L + d * L := Nat.add_mul _ _ _
      have h2 : (d + 2) * L = d * L + 2 * L := Nat.add_mul _ _ _
      omega
  split at h
  · cases h
  split at h
  · split at h
    · cases h
    split at h
    · injection h with h
      subst h
      obtain ⟨a1, a2, a3, a4, a5, a6, a7⟩ := hj
      exact ⟨a1, a2, a3, a4, a5, a6, by simp only; omega⟩
    · injection h with h
      subst h
      exact hj
  · injection h with h
    subst h
    exact hj

theorem hsLoop_effort {A : Arith} {clock : Nat → Rat} {start : Rat} {throttle : Bool} :
    ∀ {sts : List (List PClass)} {s s' : HSState}, s.inst.Valid →
    s.inst.containersNum = s.inst.containers.length → s.inst.strip = true → s.inst.minHeight = none →
    hsLoop A clock start throttle sts s = .ok s' →
    s'.inst.height.getD 0 ≤ s.inst.height.getD 0 ∧
    s'.tick + s'.inst.height.getD 0 * Spec.tried throttle s.inst.items.length ≤
      s.tick + s.inst.height.getD 0 * Spec.tried throttle s.inst.items.length +
        sts.length * (2 * Spec.tried throttle s.inst.items.length + 1)
  | [], s, s', _, _, _, _, h => by
    injection h with h; subst h
    exact ⟨le_refl _, by simp⟩
  | st :: sts, s, s', hv, hn, hst, hm, h => by
    unfold hsLoop at h
    simp only [bind, Except.bind, pure, Except.pure] at h
    split at h
    · cases h
    · rename_i r hr
      obtain ⟨a1, a2, a3, a4, a5, a6, a7⟩ := hsStep_effort hv hn hst hm hr
      have e : (st :: sts).length * (2 * Spec.tried throttle s.inst.items.length + 1) =
          sts.length * (2 * Spec.tried throttle s.inst.items.length + 1) +
            (2 * Spec.tried throttle s.inst.items.length + 1) := by rw [List.length_cons, Nat.succ_mul]
      split at h
      · injection h with h; subst h
        exact ⟨a6, by rw [e]; omega⟩
      · obtain ⟨b1, b2⟩ := hsLoop_effort a1 a2 a3 a4 h
        rw [a5] at b2
        exact ⟨le_trans b1 a6, by rw [e]; omega⟩

/-- C123 for the search of one process over several strategies, in strip packing without a minimum height.  The strip
never grows, so the units by which it shrinks pay for all strategies together: with `L` neighbours of an order, the
clock is read, and packings are evaluated, at most `(H - k) L` times, and `2 L + 1` times for every strategy. -/
theorem C123_hypersearch (A : Arith) (clock : Nat → Rat) (start : Rat) (throttle : Bool) (i : Inst)
    (sts : List (List PClass)) (hv : i.Valid) (hn : i.containersNum = i.containers.length)
    (hst : i.strip = true) (hm : i.minHeight = none) (s : HSState)
    (h : i.singleHS A clock start throttle sts = .ok s) :
    ∃ H k : Nat, i.height = some H ∧ s.inst.height = some k ∧ 0 < k ∧ k ≤ H ∧
      s.tick ≤ (H - k) * Spec.tried throttle i.items.length +
        sts.length * (2 * Spec.tried throttle i.items.length + 1) := by
  obtain ⟨H, hH, _⟩ := hv.height hst
  obtain ⟨s', _, _, q1, _, q2, _⟩ := singleHS_spec (A := A) (clock := clock) (start := start) (throttle := throttle) hv sts
  rw [h] at q1; injection q1 with q1; subst q1
  obtain ⟨k, hk, hk0⟩ := q2.valid.height (by rw [q2.frame]; exact hst)
  obtain ⟨sol, ov, r, h1, h2, h3, h4, h5, h6⟩ := init_spec (A := A) hv
  unfold Inst.singleHS at h
  simp only [bind, Except.bind] at h
  split at h
  · cases h
  rename_i r' hr'
  rw [h5] at hr'
  injection hr' with hr'
  subst hr'
  split at h
  · cases h
  obtain ⟨b1, b2⟩ := hsLoop_effort (by exact ⟨hv.conts, hv.items, hv.contsNe, hv.itemsNe, hv.strip, hv.height, hv.minPos⟩)
    (by exact hn) (by exact hst) (by exact hm) h
  have b1' : s.inst.height.getD 0 ≤ i.height.getD 0 := b1
  have b2' : s.tick + s.inst.height.getD 0 * Spec.tried throttle i.items.length ≤
      0 + i.height.getD 0 * Spec.tried throttle i.items.length +
        sts.length * (2 * Spec.tried throttle i.items.length + 1) := b2
  rw [hH, hk] at b1' b2'
  simp only [Option.getD_some] at b1' b2'
  refine ⟨H, k, hH, hk, hk0, b1', ?_⟩
  rw [Nat.sub_mul]
  omega

/-- `hypersearch()` of `lsStrip`, first two strategies of the pool: 18 readings of the clock, where the bound for a
strip that shrinks from 6 to 4 is 38 (`C111_sharp` shows the 18) -/
example : ∃ s, lsStrip.singleHS Arith.exact (fun _ => 0) 0 true (strategyPool.take 2) = .ok s ∧
    s.tick ≤ (6 - 4) * Spec.tried true lsStrip.items.length + 2 * (2 * Spec.tried true lsStrip.items.length + 1) := by
  obtain ⟨s, _, _, q1, _, q2, _⟩ := singleHS_spec (A := Arith.exact) (clock := fun _ => 0) (start := 0) (throttle := true)
    lsStrip_valid (strategyPool.take 2)
  have hh : (match lsStrip.singleHS Arith.exact (fun _ => 0) 0 true (strategyPool.take 2) with
    | .ok s => s.inst.height | .error _ => none) = some 4 := by decide +kernel
  rw [q1] at hh
  obtain ⟨H, k, e1, e2, _, _, e5⟩ := C123_hypersearch _ _ _ _ _ _ lsStrip_valid rfl rfl rfl s q1
  have : H = 6 := by injection e1.symm
  subst this
  have : k = 4 := by simp only at hh; rw [hh] at e2; injection e2.symm
  subst this
  exact ⟨s, q1, e5⟩

end HP
