import Verif.Proofs.Workers
/-
Searches depend only on the problem: items, containers, strategy, rotation setting and, when
strip packing, the container heights.
-/
namespace HP
open Spec

/-- the two instances pose the same problem (the rest of their attributes may differ) -/
structure SameProblem (a b : Inst) : Prop where
  strip : a.strip = b.strip
  conts : a.containers = b.containers
  num : a.containersNum = b.containersNum
  items : a.items = b.items
  rot : a.rotation = b.rotation
  strat : a.strategy = b.strategy
  height : a.strip = true → a.height = b.height
  minH : a.strip = true → a.minHeight = b.minHeight

/-- same problem, and the same result stored -/
structure SameAll (a b : Inst) : Prop extends SameProblem a b where
  sol : a.solution = b.solution
  ov : a.objVals = b.objVals

/-- in bin packing the height is not read -/
theorem solveLoop_height (A : Arith) {p q : SolveIn} (h1 : p.strip = q.strip)
    (h2 : p.rotation = q.rotation) (h3 : p.strategy = q.strategy)
    (h4 : p.strip = true → p.height = q.height) :
    ∀ (cs items : PyDict String Dim), solveLoop A p cs items = solveLoop A q cs items
  | [], _ => rfl
  | (cid, c) :: cs, items => by
    have hp : p.params A c = q.params A c := by
      unfold SolveIn.params
      rw [h1, h2, h3]
      cases hs : q.strip with
      | false => rfl
      | true => rw [h4 (by rw [h1]; exact hs)]
    unfold solveLoop
    split
    · rw [solveLoop_height A h1 h2 h3 h4 cs items]
    · rw [hp]
      simp only [bind, Except.bind]
      split
      · rfl
      · rw [solveLoop_height A h1 h2 h3 h4 cs _]

theorem SameProblem.solve {a b : Inst} (h : SameProblem a b) (A : Arith) (seq : Option (List String)) :
    HP.solve A a.solveIn seq = HP.solve A b.solveIn seq := by
  unfold HP.solve
  have hl := solveLoop_height A (p := a.solveIn) (q := b.solveIn) h.strip h.rot h.strat
    (fun hs => by simp only [Inst.solveIn]; rw [h.height hs])
  have hi : a.solveIn.items = b.solveIn.items := h.items
  have hc : a.solveIn.containers = b.solveIn.containers := h.conts
  rw [hi, hc]
  simp only [bind, Except.bind]
  split
  · rfl
  · exact hl _ _

/-- both raise the same, or both return related values -/
def ERel {α β : Type} (R : α → β → Prop) : Except PyErr α → Except PyErr β → Prop
  | .ok a, .ok b => R a b
  | .error e, .error e' => e = e'
  | _, _ => False

theorem same_solve {a b : Inst} (h : SameProblem a b) (A : Arith) (seq : Option (List String)) :
    ERel SameAll (a.solve A seq) (b.solve A seq) := by
  unfold Inst.solve
  rw [h.solve A seq]
  cases HP.solve A b.solveIn seq with
  | error e => exact rfl
  | ok r => exact ⟨⟨h.strip, h.conts, h.num, h.items, h.rot, h.strat, h.height, h.minH⟩, rfl, rfl⟩

theorem same_calcObj {a b : Inst} (h : SameAll a b) (A : Arith) : a.calcObj A = b.calcObj A := by
  unfold Inst.calcObj
  rw [h.ov, h.num]

theorem same_getSolution {a b : Inst} (h : SameAll a b) : a.getSolution = b.getSolution := by
  unfold Inst.getSolution Inst.deepcopySolution
  rw [h.items, h.conts, h.sol, h.ov]

theorem same_compare {a b : Inst} (h : SameAll a b) (x y : Rat) : a.compareNode x y = b.compareNode x y := by
  unfold Inst.compareNode
  rw [h.strip]
  cases hs : b.strip with
  | false => rfl
  | true => rw [h.minH (by rw [h.strip]; exact hs), h.sol, h.items]

theorem same_extra {a b : Inst} (h : SameAll a b) : ERel SameAll a.extraNode b.extraNode := by
  unfold Inst.extraNode
  rw [h.strip]
  cases hs : b.strip with
  | false => exact h
  | true =>
    have hst : a.strip = true := by rw [h.strip]; exact hs
    simp only [if_true, bind, Except.bind, pure, Except.pure]
    unfold Inst.setHeight
    rw [h.sol, h.conts, h.minH hst]
    simp only [bind, Except.bind, pure, Except.pure]
    by_cases h0 : b.solution = []
    · simp only [h0, if_true]
      cases PyDict.getE b.containers stripId with
      | error e => exact rfl
      | ok c => exact ⟨⟨h.strip, rfl, h.num, h.items, h.rot, h.strat, fun _ => rfl, fun _ => rfl⟩, rfl, h.ov⟩
    · simp only [h0, if_false]
      cases PyDict.getE b.solution stripId with
      | error e => exact rfl
      | ok m =>
        cases b.minHeight with
        | none => exact ⟨⟨h.strip, rfl, h.num, h.items, h.rot, h.strat, fun _ => rfl, fun _ => rfl⟩, rfl, h.ov⟩
        | some n => exact ⟨⟨h.strip, rfl, h.num, h.items, h.rot, h.strat, fun _ => rfl, fun _ => rfl⟩, rfl, h.ov⟩

/-- two states of local searches over the same problem -/
structure SameState (s t : LSState Inst (Solution × ObjVals)) : Prop where
  obj : SameAll s.obj t.obj
  node : s.node = t.node
  best : s.best = t.best
  ret : s.retained = t.retained
  log : s.log = t.log

theorem lsScan_same {A : Arith} {C D : LSParams} (hC : ∀ n, C.late n = false) (hD : ∀ n, D.late n = false)
    (maxN : Nat) : ∀ (swaps : List (Nat × Nat)) (k : Nat) {s t : LSState Inst (Solution × ObjVals)},
    SameState s t →
    ERel (fun x y => SameState x.1 y.1 ∧ x.2 = y.2) (lsScan (instOps A) C maxN swaps k s)
      (lsScan (instOps A) D maxN swaps k t)
  | [], k, s, t, h => by
    refine ⟨h, ?_⟩
    simp only [h.best]
  | (i, j) :: swaps, k, s, t, h => by
    unfold lsScan
    simp only [bind, Except.bind, pure, Except.pure, hC, hD, Bool.false_or]
    rw [h.node]
    cases swapSeq t.node i j with
    | error e => exact rfl
    | ok cur =>
      simp only
      have he := same_solve h.obj.toSameProblem A (some cur)
      simp only [instOps]
      cases ha : s.obj.solve A (some cur) with
      | error e =>
        rw [ha] at he
        cases hb : t.obj.solve A (some cur) with
        | error e' => rw [hb] at he; exact he
        | ok o' => rw [hb] at he; exact absurd he id
      | ok o =>
        rw [ha] at he
        cases hb : t.obj.solve A (some cur) with
        | error e' => rw [hb] at he; exact absurd he id
        | ok o' =>
          rw [hb] at he
          have he' : SameAll o o' := he
          simp only
          rw [same_calcObj he' A]
          cases o'.calcObj A with
          | error e => exact rfl
          | ok v =>
            simp only
            rw [same_compare he' v s.best, h.best]
            cases o'.compareNode v t.best with
            | error e => exact rfl
            | ok acc =>
              simp only
              cases acc with
              | false =>
                simp only [Bool.false_eq_true, if_false, Bool.false_or, Bool.false_and]
                split
                · exact ⟨⟨he', rfl, rfl, h.ret, h.log⟩, rfl⟩
                · exact lsScan_same hC hD maxN swaps (k + 1) ⟨he', rfl, rfl, h.ret, h.log⟩
              | true =>
                simp only [if_true, Bool.true_or]
                rw [same_getSolution he']
                cases o'.getSolution with
                | error e => exact rfl
                | ok r =>
                  simp only
                  have hx := same_extra he'
                  cases hxa : o.extraNode with
                  | error e =>
                    rw [hxa] at hx
                    cases hxb : o'.extraNode with
                    | error e' => rw [hxb] at hx; exact hx
                    | ok _ => rw [hxb] at hx; exact absurd hx id
                  | ok p =>
                    rw [hxa] at hx
                    cases hxb : o'.extraNode with
                    | error e' => rw [hxb] at hx; exact absurd hx id
                    | ok p' =>
                      rw [hxb] at hx
                      exact ⟨⟨hx, rfl, rfl, rfl, h.log⟩, rfl⟩

theorem lsLoop_same {A : Arith} {C D : LSParams} (hC : ∀ n, C.late n = false) (hD : ∀ n, D.late n = false)
    (maxN : Nat) (swaps : List (Nat × Nat)) : ∀ (n m : Nat) {s t s' t' : LSState Inst (Solution × ObjVals)},
    SameState s t → lsLoop (instOps A) C maxN swaps n s = .ok s' →
    lsLoop (instOps A) D maxN swaps m t = .ok t' → SameState s' t'
  | 0, _, _, _, _, _, _, h, _ => by cases h
  | _ + 1, 0, _, _, _, _, _, _, h => by cases h
  | n + 1, m + 1, s, t, s', t', hst, h1, h2 => by
    have hsc := lsScan_same (A := A) hC hD maxN swaps 0 hst
    unfold lsLoop at h1 h2
    simp only [bind, Except.bind, pure, Except.pure] at h1 h2
    cases ha : lsScan (instOps A) C maxN swaps 0 s with
    | error e => rw [ha] at h1; cases h1
    | ok x =>
      cases hb : lsScan (instOps A) D maxN swaps 0 t with
      | error e => rw [hb] at h2; cases h2
      | ok y =>
        rw [ha] at h1 hsc
        rw [hb] at h2 hsc
        obtain ⟨g1, g2⟩ : SameState x.1 y.1 ∧ x.2 = y.2 := hsc
        have hnext : SameState { x.1 with log := x.1.log ++ [x.2] } { y.1 with log := y.1.log ++ [y.2] } :=
          ⟨g1.obj, g1.node, g1.best, g1.ret, by simp only [g1.log, g2]⟩
        simp only at h1 h2
        rw [g2] at h1
        split at h1
        · rename_i hc
          rw [if_pos hc] at h2
          rw [g2] at hnext
          exact lsLoop_same hC hD maxN swaps n m hnext h1 h2
        · rename_i hc
          rw [if_neg hc] at h2
          injection h1 with h1
          injection h2 with h2
          rw [g2] at hnext
          rw [← h1, ← h2]
          exact hnext

/-- no reading of the clock is at or past the limit -/
def InTime (A : Arith) (clock : Nat → Rat) (start : Rat) (maxTime : Int) : Prop :=
  ∀ n, A.sub (clock n) start < (maxTime : Rat)

/-- a local search within the time limit depends on the problem only -/
theorem localSearch_same {A : Arith} {c1 c2 : Nat → Rat} {st1 st2 : Rat} {throttle : Bool} {a b : Inst}
    (h : SameProblem a b) (h1 : InTime A c1 st1 a.maxTime) (h2 : InTime A c2 st2 b.maxTime)
    {j1 j2 : Inst} {t1 t2 : LSState Inst (Solution × ObjVals)}
    (g1 : a.localSearch A c1 st1 throttle = .ok (j1, t1))
    (g2 : b.localSearch A c2 st2 throttle = .ok (j2, t2)) : SameAll j1 j2 ∧ t1.log = t2.log := by
  unfold Inst.localSearch at g1 g2
  simp only [bind, Except.bind, pure, Except.pure] at g1 g2
  have hb : SameProblem (if a.strip = true then { a with heights := [a.height.getD 0] } else a)
      (if b.strip = true then { b with heights := [b.height.getD 0] } else b) := by
    rw [h.strip]
    split
    · rename_i hs
      have hs' : a.strip = true := by rw [h.strip]; exact hs
      exact ⟨rfl, h.conts, h.num, h.items, h.rot, h.strat, fun _ => h.height hs', fun _ => h.minH hs'⟩
    · exact h
  have hm1 : (if a.strip = true then { a with heights := [a.height.getD 0] } else a).maxTime = a.maxTime := by
    split <;> rfl
  have hm2 : (if b.strip = true then { b with heights := [b.height.getD 0] } else b).maxTime = b.maxTime := by
    split <;> rfl
  rw [← hm1] at h1
  rw [← hm2] at h2
  generalize (if a.strip = true then { a with heights := [a.height.getD 0] } else a) = a' at *
  generalize (if b.strip = true then { b with heights := [b.height.getD 0] } else b) = b' at *
  split at g1
  · cases g1
  · rename_i s1 hs1
    split at g2
    · cases g2
    · rename_i s2 hs2
      injection g1 with g1
      injection g2 with g2
      simp only [Prod.mk.injEq] at g1 g2
      unfold lsRun at hs1 hs2
      simp only [bind, Except.bind] at hs1 hs2
      have hC : ∀ n, LSParams.late ⟨A, c1, st1, a'.maxTime⟩ n = false := by
        intro n
        simp only [LSParams.late, decide_eq_false_iff_not, ge_iff_le, not_le]
        exact h1 n
      have hD : ∀ n, LSParams.late ⟨A, c2, st2, b'.maxTime⟩ n = false := by
        intro n
        simp only [LSParams.late, decide_eq_false_iff_not, ge_iff_le, not_le]
        exact h2 n
      have hinit : ERel (fun x y => SameAll x.1 y.1 ∧ x.2 = y.2) ((instOps A).init a') ((instOps A).init b') := by
        simp only [instOps, Inst.initSolution, bind, Except.bind, pure, Except.pure]
        have hs := same_solve hb A none
        cases hx : a'.solve A none with
        | error e =>
          cases hy : b'.solve A none with
          | error e' => rw [hx, hy] at hs; exact hs
          | ok _ => rw [hx, hy] at hs; exact absurd hs id
        | ok x =>
          cases hy : b'.solve A none with
          | error e' => rw [hx, hy] at hs; exact absurd hs id
          | ok y =>
            rw [hx, hy] at hs
            have hs' : SameAll x y := hs
            simp only
            rw [same_getSolution hs']
            cases y.getSolution with
            | error e => exact rfl
            | ok r => exact ⟨hs', rfl⟩
      cases hx : (instOps A).init a' with
      | error e => rw [hx] at hs1; cases hs1
      | ok x =>
        cases hy : (instOps A).init b' with
        | error e => rw [hy] at hs2; cases hs2
        | ok y =>
          rw [hx] at hs1 hinit
          rw [hy] at hs2 hinit
          obtain ⟨e1, e2⟩ : SameAll x.1 y.1 ∧ x.2 = y.2 := hinit
          simp only at hs1 hs2
          have hov : (instOps A).objVal x.1 = (instOps A).objVal y.1 := same_calcObj e1 A
          rw [hov] at hs1
          cases hv : (instOps A).objVal y.1 with
          | error e => rw [hv] at hs1; cases hs1
          | ok v =>
            rw [hv] at hs1 hs2
            simp only at hs1 hs2
            rw [hb.items] at hs1
            have hfin := lsLoop_same hC hD _ _ _ _ (s := ⟨x.1, PyDict.keys b'.items, v, x.2, 0, []⟩)
              (t := ⟨y.1, PyDict.keys b'.items, v, y.2, 0, []⟩) ⟨e1, rfl, rfl, e2, rfl⟩ hs1 hs2
            obtain ⟨g1a, g1b⟩ := g1
            obtain ⟨g2a, g2b⟩ := g2
            rw [← g1a, ← g2a, ← g1b, ← g2b]
            refine ⟨⟨⟨hfin.obj.strip, hfin.obj.conts, hfin.obj.num, hfin.obj.items, hfin.obj.rot,
              hfin.obj.strat, hfin.obj.height, hfin.obj.minH⟩, ?_, ?_⟩, hfin.log⟩
            · simp only [hfin.ret]
            · simp only [hfin.ret]

end HP
