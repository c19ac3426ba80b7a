import Verif.Proofs.Search
/-
The local search, node by node.
-/
namespace HP
open Spec

/-! ### one evaluation of the neighbourhood loop, for any object -/

theorem lsScan_cons {σ ρ : Type} {O : LSOps σ ρ} {C : LSParams} {maxN i j k : Nat}
    {swaps : List (Nat × Nat)} {s : LSState σ ρ} {cur : List String} {obj obj' : σ} {v : Rat}
    {r : ρ} {acc : Bool}
    (h1 : swapSeq s.node i j = .ok cur) (h2 : O.evaluate cur s.obj = .ok obj)
    (h3 : O.objVal obj = .ok v) (h4 : O.compare obj v s.best = .ok acc)
    (h5 : acc = true → O.getSol obj = .ok r ∧ O.extra obj = .ok obj') :
    lsScan O C maxN ((i, j) :: swaps) k s =
      if acc then .ok (⟨obj', cur, v, r, s.tick + 1, s.log⟩,
        ⟨v, k + 1, C.late s.tick, true, false⟩)
      else if C.late s.tick || decide (k + 1 ≥ maxN) then
        .ok (⟨obj, s.node, s.best, s.retained, s.tick + 1, s.log⟩,
          ⟨s.best, k + 1, C.late s.tick, false, false⟩)
      else lsScan O C maxN swaps (k + 1) ⟨obj, s.node, s.best, s.retained, s.tick + 1, s.log⟩ := by
  rw [lsScan]
  simp only [bind, Except.bind, pure, Except.pure, h1, h2, h3, h4]
  cases acc with
  | true =>
    obtain ⟨h6, h7⟩ := h5 rfl
    simp [h6, h7, globalCheck, optimumObjVal]
  | false =>
    simp [globalCheck, optimumObjVal]

/-! ### the instance's operations -/

/-- the same problem with another container height -/
def SolveIn.withH (p : SolveIn) (h : Nat) : SolveIn := { p with height := h }

/-- the attributes a local search changes -/
def Inst.upd (i : Inst) (sol : Solution) (ov : ObjVals) (h : Option Nat) (hs : List Nat) : Inst :=
  { i with solution := sol, objVals := ov, height := h, heights := hs }

/-- `seq` is packed to `sol`, `ov` when the container height is `h` -/
def Packs (A : Arith) (i : Inst) (h : Nat) (seq : List String) (sol : Solution) (ov : ObjVals) :
    Prop := solve A (i.solveIn.withH h) (some seq) = .ok (sol, ov)

/-- the entries of the strip container -/
def stripPart (sol : Solution) : PyDict String Rect := (PyDict.find? sol stripId).getD []

/-- a candidate with value `v` and packing `sol` is accepted -/
def Acc (i : Inst) (sol : Solution) (v best : Rat) : Prop :=
  v > best ∧ (i.strip = true → i.minHeight = none → (stripPart sol).length = i.items.length)

instance (i : Inst) (sol : Solution) (v best : Rat) : Decidable (Acc i sol v best) := by
  unfold Acc; infer_instance

/-- container height after accepting `sol` -/
def nextH (i : Inst) (sol : Solution) (h : Option Nat) : Option Nat :=
  if i.strip then some (max (stackOf (stripPart sol)) (i.minHeight.getD 0)) else h

theorem withH_valid {i : Inst} (hv : i.Valid) {h : Nat} (hh : i.strip = true → 0 < h) :
    ValidIn (i.solveIn.withH h) := ⟨hv.conts, hv.items, hh⟩

theorem packs_exists {A : Arith} {i : Inst} (hv : i.Valid) {h : Nat} (hh : i.strip = true → 0 < h)
    {seq : List String} (hp : seq.Perm (PyDict.keys i.items)) :
    ∃ sol ov, Packs A i h seq sol ov :=
  (C06_total A _ (withH_valid hv hh) (some seq)).1 (KnownSeq_perm hp)

theorem Packs.facts {A : Arith} {i : Inst} (hv : i.Valid) {h : Nat} (hh : i.strip = true → 0 < h)
    {seq : List String} (hp : seq.Perm (PyDict.keys i.items)) {sol : Solution} {ov : ObjVals}
    (hpk : Packs A i h seq sol ov) : SolFacts i.containers i.items sol ov :=
  solve_facts (withH_valid hv hh) (KnownSeq_perm hp) hpk

theorem Packs.unique {A : Arith} {i : Inst} {h : Nat} {seq : List String} {s1 s2 : Solution}
    {o1 o2 : ObjVals} (h1 : Packs A i h seq s1 o1) (h2 : Packs A i h seq s2 o2) :
    s1 = s2 ∧ o1 = o2 := by
  unfold Packs at h1 h2
  rw [h1] at h2; injection h2 with h2; injection h2 with a b
  exact ⟨a, b⟩

theorem stackOf_eq (m : PyDict String Rect) : stackOf m = stackHeight (m.map (·.2)) := by
  unfold stackOf stackHeight
  induction m with
  | nil => rfl
  | cons a m ih => simp [ih]

theorem solution_ne_nil {conts items : PyDict String Dim} {sol : Solution} {ov : ObjVals}
    (hf : SolFacts conts items sol ov) (hne : conts ≠ []) : sol ≠ [] := by
  intro h
  have := hf.keysS
  rw [h] at this
  simp [PyDict.keys] at this
  exact hne this

theorem find_strip {i : Inst} (hv : i.Valid) (hs : i.strip = true) {sol : Solution} {ov : ObjVals}
    (hf : SolFacts i.containers i.items sol ov) :
    PyDict.find? sol stripId = some (stripPart sol) ∧ (stripId, stripPart sol) ∈ sol := by
  obtain ⟨W, hW⟩ := hv.strip hs
  have : stripId ∈ PyDict.keys sol := by rw [hf.keysS, hW]; simp [PyDict.keys]
  obtain ⟨m, hm⟩ := PyDict.find?_isSome_of_mem_keys this
  have he : stripPart sol = m := by unfold stripPart; rw [hm]; rfl
  rw [he]
  exact ⟨hm, PyDict.find?_mem hm⟩

/-- one evaluation on the instance -/
theorem inst_eval {A : Arith} {i : Inst} (hv : i.Valid) {sol0 : Solution} {ov0 : ObjVals}
    {h : Option Nat} {hs : List Nat} (hh : i.strip = true → 0 < h.getD 0) {seq : List String}
    (hp : seq.Perm (PyDict.keys i.items)) (best : Rat) :
    ∃ sol ov r, Packs A i (h.getD 0) seq sol ov ∧
      SolFacts i.containers i.items sol ov ∧
      (instOps A).evaluate seq (i.upd sol0 ov0 h hs) = .ok (i.upd sol ov h hs) ∧
      (instOps A).objVal (i.upd sol ov h hs) = .ok (i.worth A (ov.map (·.2))) ∧
      (instOps A).compare (i.upd sol ov h hs) (i.worth A (ov.map (·.2))) best =
        .ok (decide (Acc i sol (i.worth A (ov.map (·.2))) best)) ∧
      (instOps A).getSol (i.upd sol ov h hs) = .ok (r, ov) ∧ SamePacking r sol ∧
      (instOps A).extra (i.upd sol ov h hs) = .ok (i.upd sol ov (nextH i sol h)
        (if i.strip then hs ++ [(nextH i sol h).getD 0] else hs)) := by
  obtain ⟨sol, ov, hpk⟩ := packs_exists (A := A) hv hh hp
  have hf := hpk.facts hv hh hp
  obtain ⟨r, hr1, hr2⟩ := deepcopy_same hv.conts.1 hv.items.1 hf
  refine ⟨sol, ov, r, hpk, hf, ?_, ?_, ?_, ?_, hr2, ?_⟩
  · unfold Packs at hpk
    simp only [instOps, Inst.solve, bind, Except.bind]
    have : (i.upd sol0 ov0 h hs).solveIn = i.solveIn.withH (h.getD 0) := rfl
    rw [this, hpk]; rfl
  · exact calcObj_eq (i := i.upd sol ov h hs) hf.keysO hv.contsNe
  · simp only [instOps, Inst.compareNode, Inst.upd]
    cases hst : i.strip with
    | false => simp [Acc, hst]
    | true =>
      obtain ⟨e1, _⟩ := find_strip hv hst hf
      cases hm : i.minHeight with
      | some m => simp [Acc, hm]
      | none =>
        simp only [Bool.not_true, Bool.false_eq_true, if_false, bind, Except.bind, pure, Except.pure]
        rw [PyDict.getE_of_find? e1]
        simp only [Acc, hst, hm, forall_const]
        congr 1
        rw [← Bool.decide_and]
        exact decide_eq_decide.2 and_comm
  · simp only [instOps, Inst.getSolution, Inst.deepcopySolution, Inst.upd, bind, Except.bind, pure,
      Except.pure]
    rw [hr1, copyObjVals_eq]
  · simp only [instOps, Inst.extraNode, Inst.upd]
    cases hst : i.strip with
    | false => simp [nextH, hst, pure, Except.pure]
    | true =>
      obtain ⟨e1, _⟩ := find_strip hv hst hf
      have hne := solution_ne_nil hf hv.contsNe
      simp only [if_true, Inst.setHeight, bind, Except.bind, pure, Except.pure, hne, if_false]
      rw [PyDict.getE_of_find? e1]
      simp only [nextH, hst, if_true]
      cases hm : i.minHeight <;> simp [hm]

/-- what the neighbourhood loop does, from the swaps `swaps` on -/
structure ScanRes (A : Arith) (C : LSParams) (maxN : Nat) (i : Inst) (swaps : List (Nat × Nat))
    (k : Nat) (h : Option Nat) (hs : List Nat)
    (s s' : LSState Inst (Solution × ObjVals)) (lg : NodeLog) : Prop where
  log : s'.log = s.log
  glob : lg.globalOpt = false
  best : lg.best = s'.best
  proc1 : k ≤ lg.processed
  proc2 : lg.processed ≤ k + swaps.length
  proc3 : lg.processed ≤ max maxN (k + 1)
  tick : s'.tick = s.tick + (lg.processed - k)
  early : ∀ t, s.tick ≤ t → t + 1 < s'.tick → C.late t = false
  late : lg.outOfTime = true → s.tick < s'.tick ∧ C.late (s'.tick - 1) = true
  inTime : lg.outOfTime = false → ∀ t, s.tick ≤ t → t < s'.tick → C.late t = false
  stay : lg.found = false → s'.node = s.node ∧ s'.best = s.best ∧ s'.retained = s.retained ∧
    (∃ sol ov, s'.obj = i.upd sol ov h hs) ∧
    (∀ p ∈ swaps.take (lg.processed - k), ∀ sol ov,
      Packs A i (h.getD 0) (exchange s.node p.1 p.2) sol ov →
        ¬ Acc i sol (i.worth A (ov.map (·.2))) s.best) ∧
    (lg.outOfTime = true ∨ lg.processed ≥ maxN ∨ lg.processed = k + swaps.length)
  move : lg.found = true → ∃ p ∈ swaps, ∃ sol ov, s'.node = exchange s.node p.1 p.2 ∧
    Packs A i (h.getD 0) s'.node sol ov ∧ Acc i sol (i.worth A (ov.map (·.2))) s.best ∧
    s'.best = i.worth A (ov.map (·.2)) ∧ s'.retained.2 = ov ∧ SamePacking s'.retained.1 sol ∧
    s'.obj = i.upd sol ov (nextH i sol h)
        (if i.strip then hs ++ [(nextH i sol h).getD 0] else hs)
  first : lg.found = true → ∃ pre p post, swaps = pre ++ p :: post ∧
    s'.node = exchange s.node p.1 p.2 ∧ lg.processed = k + pre.length + 1 ∧
    ∀ q ∈ pre, ∀ sol ov, Packs A i (h.getD 0) (exchange s.node q.1 q.2) sol ov →
        ¬ Acc i sol (i.worth A (ov.map (·.2))) s.best

theorem scan_spec {A : Arith} {C : LSParams} {maxN : Nat} {i : Inst} (hv : i.Valid)
    {h : Option Nat} {hs : List Nat} (hh : i.strip = true → 0 < h.getD 0) :
    ∀ (swaps : List (Nat × Nat)) (k : Nat) (s : LSState Inst (Solution × ObjVals)),
      (∃ sol0 ov0, s.obj = i.upd sol0 ov0 h hs) →
      s.node.Perm (PyDict.keys i.items) →
      (∀ p ∈ swaps, p.1 < s.node.length ∧ p.2 < s.node.length) →
      ∃ s' lg, lsScan (instOps A) C maxN swaps k s = .ok (s', lg) ∧
        ScanRes A C maxN i swaps k h hs s s' lg
  | [], k, s, hobj, hp, hsw => by
    refine ⟨s, ⟨s.best, k, false, false, false⟩, rfl, ?_⟩
    exact { log := rfl, glob := rfl, best := rfl, proc1 := Nat.le_refl _, proc2 := by simp,
            proc3 := by simp only; omega, tick := by simp, early := by intro t h1 h2; omega,
            late := by simp, inTime := by intro _ t h1 h2; omega,
            stay := fun _ => ⟨rfl, rfl, rfl, hobj, by simp, Or.inr (Or.inr (by simp))⟩,
            move := by simp, first := by simp }
  | (a, b) :: swaps, k, s, ⟨sol0, ov0, hobj⟩, hp, hsw => by
    obtain ⟨ha, hb⟩ := hsw (a, b) (by simp)
    have hcur := swapSeq_eq ha hb
    have hperm : (exchange s.node a b).Perm (PyDict.keys i.items) :=
      (exchange_perm _ _ _).trans hp
    obtain ⟨sol, ov, r, e1, ef, e2, e3, e4, e5, e6, e7⟩ :=
      inst_eval (A := A) (sol0 := sol0) (ov0 := ov0) (hs := hs) hv hh hperm s.best
    rw [← hobj] at e2
    rw [lsScan_cons (swaps := swaps) (k := k) (C := C) (maxN := maxN) hcur e2 e3 e4
      (fun _ => ⟨e5, e7⟩)]
    by_cases hacc : Acc i sol (i.worth A (ov.map (·.2))) s.best
    · simp only [hacc, decide_true, if_true]
      refine ⟨_, _, rfl, ?_⟩
      exact { log := rfl, glob := rfl, best := rfl, proc1 := by simp only; omega, proc2 := by simp,
              proc3 := by simp only; omega, tick := by simp,
              early := by intro t h1 h2; simp only at h2; omega,
              late := by intro h; exact ⟨by simp, by simpa using h⟩,
              inTime := by
                intro h t h1 h2
                simp only at h2
                have : t = s.tick := by omega
                rw [this]; exact h
              stay := by simp,
              move := fun _ => ⟨(a, b), by simp, sol, ov, rfl, e1, hacc, rfl, rfl, e6, rfl⟩
              first := fun _ => ⟨[], (a, b), swaps, rfl, rfl, rfl, by simp⟩ }
    · simp only [hacc, decide_false, Bool.false_eq_true, if_false]
      by_cases hstop : (C.late s.tick || decide (k + 1 ≥ maxN)) = true
      · rw [if_pos hstop]
        refine ⟨_, _, rfl, ?_⟩
        exact { log := rfl, glob := rfl, best := rfl, proc1 := by simp only; omega,
                proc2 := by simp,
                proc3 := by simp only; omega, tick := by simp,
                early := by intro t h1 h2; simp only at h2; omega,
                late := by intro h; exact ⟨by simp, by simpa using h⟩,
                inTime := by
                  intro h t h1 h2
                  simp only at h2
                  have : t = s.tick := by omega
                  rw [this]; exact h
                stay := by
                  intro _
                  refine ⟨rfl, rfl, rfl, ⟨sol, ov, rfl⟩, ?_, ?_⟩
                  · intro p hp'
                    have hone : k + 1 - k = 0 + 1 := by omega
                    simp only [hone, List.take_succ_cons, List.take_zero, List.mem_cons,
                      List.not_mem_nil, or_false] at hp'
                    subst hp'
                    intro sol' ov' hp'
                    obtain ⟨rfl, rfl⟩ := e1.unique hp'
                    exact hacc
                  · simp only [ge_iff_le, Bool.or_eq_true, decide_eq_true_eq] at hstop
                    rcases hstop with h | h
                    · exact Or.inl h
                    · exact Or.inr (Or.inl h)
                move := by simp
                first := by simp }
      · rw [if_neg hstop]
        simp only [ge_iff_le, Bool.or_eq_true, decide_eq_true_eq, not_or, Bool.not_eq_true] at hstop
        obtain ⟨s', lg, g1, g2⟩ := scan_spec hv hh swaps (k + 1)
          ⟨i.upd sol ov h hs, s.node, s.best, s.retained, s.tick + 1, s.log⟩ ⟨sol, ov, rfl⟩ hp
          (fun p hp => hsw p (by simp [hp]))
        refine ⟨s', lg, g1, ?_⟩
        have p1 := g2.proc1
        have p2 := g2.proc2
        have p3 := g2.proc3
        have tk := g2.tick
        simp only at tk
        constructor
        · exact g2.log
        · exact g2.glob
        · exact g2.best
        · omega
        · simp only [List.length_cons]; omega
        · omega
        · omega
        · intro t h1 h2
          by_cases ht : t = s.tick
          · rw [ht]; exact hstop.1
          · exact g2.early t (by simp only; omega) h2
        · intro hl
          obtain ⟨q1, q2⟩ := g2.late hl
          simp only at q1
          exact ⟨by omega, q2⟩
        · intro hl t h1 h2
          by_cases ht : t = s.tick
          · rw [ht]; exact hstop.1
          · exact g2.inTime hl t (by simp only; omega) h2
        · intro hf
          obtain ⟨q1, q2, q3, q4, q5, q6⟩ := g2.stay hf
          refine ⟨q1, q2, q3, q4, ?_, ?_⟩
          · intro p hp'
            obtain ⟨n, hn⟩ : ∃ n, lg.processed - k = n + 1 := ⟨lg.processed - k - 1, by omega⟩
            rw [hn, List.take_succ_cons] at hp'
            rcases List.mem_cons.1 hp' with rfl | hp'
            · intro sol' ov' hpk'
              obtain ⟨rfl, rfl⟩ := e1.unique hpk'
              exact hacc
            · have : lg.processed - (k + 1) = n := by omega
              exact q5 p (by rw [this]; exact hp')
          · simp only [List.length_cons]
            rcases q6 with h | h | h
            · exact Or.inl h
            · exact Or.inr (Or.inl h)
            · right; right; omega
        · intro hf
          obtain ⟨p, hp', rest⟩ := g2.move hf
          exact ⟨p, by simp [hp'], rest⟩
        · intro hf
          obtain ⟨pre, p, post, q1, q2, q3, q4⟩ := g2.first hf
          refine ⟨(a, b) :: pre, p, post, by rw [q1]; rfl, q2, by simp only [List.length_cons]; omega, ?_⟩
          intro q hq
          rcases List.mem_cons.1 hq with rfl | hq
          · intro sol' ov' hpk'
            obtain ⟨rfl, rfl⟩ := e1.unique hpk'
            exact hacc
          · exact q4 q hq

end HP
