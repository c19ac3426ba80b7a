import Verif.Model.ObjectiveSearch
import Verif.Props.AbstractSearch
import Verif.Props.Objective
/-
Searches with an objective of their own (C120).
-/
namespace HP.ALS
open Spec

variable {σ ρ : Type}

/-- the operations as a subclass of `AbstractLocalSearch` with "MAX", 2500 and 2 -/
def clsOf (O : LSOps σ ρ) : Cls σ ρ String where
  optimization := "MAX"
  throttleMax := 2500
  optNum := 2
  init i := O.init i
  objVal i := (O.objVal i).map .fin
  getSol i := O.getSol i
  evaluate seq i := O.evaluate seq i
  optimum := none
  compare := some (fun i new best =>
    match new, best with
    | .fin a, .fin b => O.compare i a b
    | a, b => .ok (b.lt a))
  initOps := none
  extraOps := some (fun i => O.extra i)

/-- the states of the two models -/
def embO (s : LSState σ ρ) : State σ ρ String :=
  ⟨s.obj, s.node, .fin s.best, s.retained, s.tick,
    s.log.map (fun e => (.fin e.best, e.processed, e.outOfTime, e.found, e.globalOpt))⟩

theorem scan_clsOf (O : LSOps σ ρ) (P : LSParams) (maxN : Nat) :
    ∀ (swaps : List (Nat × Nat)) (k : Nat) (s : LSState σ ρ),
      scan (clsOf O) P.late .inf maxN (swaps.map (fun p => [p.1, p.2])) k (embO s) =
        (lsScan (O) P maxN swaps k s).map (fun r =>
          (embO r.1, (.fin r.2.best, r.2.processed, r.2.outOfTime, r.2.found, r.2.globalOpt)))
  | [], k, s => rfl
  | (i, j) :: swaps, k, s => by
    have ih := scan_clsOf O P maxN swaps (k + 1)
    have hsw : ALS.swapSeq (embO s).node i j = HP.swapSeq s.node i j := rfl
    have hob : (embO s).obj = s.obj := rfl
    simp only [List.map_cons, scan, lsScan, bind, Except.bind]
    rw [hsw, hob]
    cases h1 : HP.swapSeq s.node i j with
    | error e => rfl
    | ok cur =>
      simp only
      have e2 : (clsOf O).evaluate cur s.obj = (O).evaluate cur s.obj := rfl
      rw [e2]
      cases h2 : (O).evaluate cur s.obj with
      | error e => rfl
      | ok o =>
        simp only
        have e3 : (clsOf O).objVal o = ((O).objVal o).map .fin := rfl
        rw [e3]
        cases h3 : (O).objVal o with
        | error e => rfl
        | ok v =>
          simp only [Except.map]
          have hcmp : (clsOf O).compareNode o (.fin v) (embO s).best = (O).compare o v s.best := rfl
          rw [hcmp]
          cases h4 : (O).compare o v s.best with
          | error e => rfl
          | ok b =>
            simp only
            cases b with
            | false =>
              simp only [Bool.false_eq_true, if_false, pure, Except.pure, Bool.false_and, Bool.or_false]
              have ht : (embO s).tick = s.tick := rfl
              rw [ht]
              by_cases hs : (P.late s.tick || decide (k + 1 ≥ maxN)) = true
              · rw [if_pos hs, if_pos hs]; rfl
              · rw [if_neg hs, if_neg hs]
                exact ih { s with obj := o, tick := s.tick + 1 }
            | true =>
              simp only [if_true]
              have e5 : (clsOf O).getSol o = (O).getSol o := rfl
              have e6 : hook (clsOf O).extraOps o = (O).extra o := rfl
              rw [e5, e6]
              cases h5 : (O).getSol o with
              | error e => rfl
              | ok r =>
                simp only
                cases h6 : (O).extra o with
                | error e => rfl
                | ok o2 =>
                  simp only [pure, Except.pure, Bool.or_true, Bool.true_or, if_true]
                  rfl

/-- a search given by its operations is the search of the class with these operations -/
theorem run_clsOf (O : LSOps σ ρ) (P : LSParams) (fuel : Nat) (seq : List String) (throttle : Bool) (i : σ) :
    run (clsOf O) P.late fuel seq throttle i = (lsRun (O) P fuel seq throttle i).map embO := by
  have hloop : ∀ (maxN fuel : Nat) (s : LSState σ ρ),
      loop (clsOf O) P.late .inf maxN (combinations 2 (List.range seq.length)) fuel (embO s) =
        (lsLoop (O) P maxN (indexSwaps seq.length) fuel s).map embO := by
    intro maxN fuel
    induction fuel with
    | zero => intro s; rfl
    | succ fuel ih =>
      intro s
      unfold loop lsLoop
      rw [combinations_pairs] at ih ⊢
      rw [scan_clsOf]
      simp only [bind, Except.bind]
      cases h : lsScan (O) P maxN (indexSwaps seq.length) 0 s with
      | error e => rfl
      | ok r =>
        simp only [Except.map]
        have e : ({ embO r.1 with log := (embO r.1).log ++ [(.fin r.2.best, r.2.processed, r.2.outOfTime, r.2.found,
            r.2.globalOpt)] } : State σ ρ String) = embO { r.1 with log := r.1.log ++ [r.2] } := by
          simp [embO]
        rw [e]
        by_cases hc : (r.2.found && !r.2.outOfTime && !r.2.globalOpt) = true
        · rw [if_pos hc, if_pos hc, ih]
          rfl
        · rw [if_neg hc, if_neg hc]
          rfl
  unfold run lsRun
  simp only [bind, Except.bind]
  have e1 : (clsOf O).init i = (O).init i := rfl
  rw [e1]
  cases h1 : (O).init i with
  | error e => rfl
  | ok r =>
    simp only
    have e2 : (clsOf O).objVal r.1 = ((O).objVal r.1).map .fin := rfl
    rw [e2]
    cases h2 : (O).objVal r.1 with
    | error e => rfl
    | ok b =>
      simp only [Except.map]
      have := hloop (HP.maxNeighbors throttle seq.length) fuel ⟨r.1, seq, b, r.2, 0, []⟩
      exact this

end HP.ALS

namespace HP
open Spec

/-! ### what a search keeps -/

section
variable {σ ρ : Type} {O : LSOps σ ρ} {C : LSParams} {P : σ → Prop}
  (he : ∀ x s s', P s → O.evaluate x s = .ok s' → P s') (hx : ∀ s s', P s → O.extra s = .ok s' → P s')
include he hx

theorem lsScan_keeps (maxN : Nat) : ∀ (swaps : List (Nat × Nat)) (k : Nat) (s s' : LSState σ ρ) (e : NodeLog),
    P s.obj → lsScan O C maxN swaps k s = .ok (s', e) → P s'.obj
  | [], k, s, s', e, hp, h => by
    simp only [lsScan] at h
    injection h with h
    injection h with h1 h2
    subst h1; exact hp
  | (i, j) :: swaps, k, s, s', e, hp, h => by
    simp only [lsScan, bind, Except.bind] at h
    cases h1 : swapSeq s.node i j with
    | error e => rw [h1] at h; cases h
    | ok cur =>
      rw [h1] at h; simp only at h
      cases h2 : O.evaluate cur s.obj with
      | error e => rw [h2] at h; cases h
      | ok o =>
        rw [h2] at h; simp only at h
        have ho := he _ _ _ hp h2
        cases h3 : O.objVal o with
        | error e => rw [h3] at h; cases h
        | ok v =>
          rw [h3] at h; simp only at h
          cases h4 : O.compare o v s.best with
          | error e => rw [h4] at h; cases h
          | ok b =>
            rw [h4] at h; simp only at h
            cases b with
            | false =>
              simp only [Bool.false_eq_true, if_false, pure, Except.pure] at h
              split at h
              · injection h with h; injection h with e1 e2
                subst e1; exact ho
              · exact lsScan_keeps maxN swaps (k + 1) _ _ _ (by exact ho) h
            | true =>
              simp only [if_true] at h
              cases h5 : O.getSol o with
              | error e => rw [h5] at h; cases h
              | ok r =>
                rw [h5] at h; simp only at h
                cases h6 : O.extra o with
                | error e => rw [h6] at h; cases h
                | ok o2 =>
                  rw [h6] at h
                  simp only [pure, Except.pure, Bool.true_or, Bool.or_true, if_true] at h
                  injection h with h; injection h with e1 e2
                  subst e1; exact hx _ _ ho h6

theorem lsLoop_keeps (maxN : Nat) (swaps : List (Nat × Nat)) : ∀ (fuel : Nat) (s s' : LSState σ ρ),
    P s.obj → lsLoop O C maxN swaps fuel s = .ok s' → P s'.obj
  | 0, s, s', hp, h => by cases h
  | fuel + 1, s, s', hp, h => by
    simp only [lsLoop, bind, Except.bind] at h
    cases h1 : lsScan O C maxN swaps 0 s with
    | error e => rw [h1] at h; cases h
    | ok r =>
      rw [h1] at h; simp only at h
      have hr := lsScan_keeps he hx maxN swaps 0 s r.1 r.2 hp h1
      split at h
      · exact lsLoop_keeps maxN swaps fuel _ _ (by exact hr) h
      · simp only [pure, Except.pure] at h
        injection h with h; subst h; exact hr

theorem lsRun_keeps {fuel : Nat} {seq : List String} {throttle : Bool} {s : σ} {t : LSState σ ρ}
    (hi : ∀ s' r, O.init s = .ok (s', r) → P s') (h : lsRun O C fuel seq throttle s = .ok t) : P t.obj := by
  simp only [lsRun, bind, Except.bind] at h
  cases h1 : O.init s with
  | error e => rw [h1] at h; cases h
  | ok r =>
    rw [h1] at h; simp only at h
    cases h2 : O.objVal r.1 with
    | error e => rw [h2] at h; cases h
    | ok v =>
      rw [h2] at h; simp only at h
      exact lsLoop_keeps he hx _ _ _ _ _ (by exact hi r.1 r.2 h1) h

end

/-! ### the subclass, when bin packing -/

/-- the value that the subclass gives to packing the items in this order -/
def Inst.valueOf (A : Arith) (V : Objective) (i : Inst) (seq : List String) : Rat :=
  match HP.solveO A V i.solveIn (some seq) with
  | .ok (_, ov) => i.worth A (ov.map (·.2))
  | .error _ => 0

/-- the packing in this order, as `get_solution` returns it -/
def Inst.packingOf (A : Arith) (V : Objective) (i : Inst) (seq : List String) : Solution × ObjVals :=
  match HP.solveO A V i.solveIn (some seq) with
  | .ok (sol, ov) => (((i.deepcopySolution sol).toOption).getD [], ov)
  | .error _ => ([], [])

theorem solveO_facts {A : Arith} {V : Objective} {p : SolveIn} (hv : ValidIn p) {seq : Option (List String)}
    (hs : KnownSeq p seq) {sol : Solution} {ov : ObjVals} (h : solveO A V p seq = .ok (sol, ov)) :
    SolFacts p.containers p.items sol ov := by
  obtain ⟨h3, h4, _⟩ := C117_packing A V p hv seq hs sol ov h
  obtain ⟨sol', ov', e, h1, h2⟩ := C117_total A V p hv seq hs
  rw [h] at e
  injection e with e
  injection e with e1 e2
  subst e1; subst e2
  refine ⟨h1, h2, ?_, ?_⟩
  · intro cid m hm
    unfold placedIds at h3
    rw [List.nodup_flatMap] at h3
    exact h3.1 (cid, m) hm
  · intro cid m hm id hid
    have := h4 id (by
      unfold placedIds
      rw [List.mem_flatMap]
      exact ⟨(cid, m), hm, hid⟩)
    obtain ⟨q, hq, rfl⟩ := List.mem_map.1 this
    exact List.mem_map.2 ⟨q, solvedFor_mem q hq, rfl⟩

theorem solveO_none_eq {A : Arith} {V : Objective} {p : SolveIn} (hn : (PyDict.keys p.items).Nodup) :
    solveO A V p none = solveO A V p (some (PyDict.keys p.items)) := by
  have h1 : KnownSeq p (some (PyDict.keys p.items)) := KnownSeq_perm (.refl _)
  unfold solveO
  simp only [bind, Except.bind]
  rw [deepcopySeq_reorder (h1 _ rfl), reorder_self hn]

theorem packing_exists {A : Arith} {V : Objective} {i : Inst} (hv : i.Valid) {seq : List String}
    (hp : seq.Perm (PyDict.keys i.items)) :
    ∃ sol ov r, solveO A V i.solveIn (some seq) = .ok (sol, ov) ∧ SolFacts i.containers i.items sol ov ∧
      i.deepcopySolution sol = .ok r ∧ SamePacking r sol ∧ i.valueOf A V seq = i.worth A (ov.map (·.2)) ∧
      i.packingOf A V seq = (r, ov) := by
  obtain ⟨sol, ov, h, _⟩ := C117_total A V i.solveIn hv.solveIn (some seq) (KnownSeq_perm hp)
  have hf := solveO_facts hv.solveIn (KnownSeq_perm hp) h
  obtain ⟨r, hr1, hr2⟩ := deepcopy_same hv.conts.1 hv.items.1 hf
  have hr1 : i.deepcopySolution sol = .ok r := hr1
  refine ⟨sol, ov, r, h, hf, hr1, hr2, ?_, ?_⟩
  · unfold Inst.valueOf; rw [h]
  · unfold Inst.packingOf; rw [h]; simp only; rw [hr1]; rfl

/-- the state of the object during the search -/
def Inst.During (i s : Inst) : Prop := ∃ sol ov, s = { i with solution := sol, objVals := ov }

theorem binBehaves (A : Arith) (V : Objective) {i : Inst} (hv : i.Valid) (hb : i.strip = false) :
    ALS.Behaves (ALS.clsOf (instOpsO A V)) (i.During) (PyDict.keys i.items) i
      (fun x => .fin (i.valueOf A V x)) (i.packingOf A V) (.fin (i.valueOf A V (PyDict.keys i.items)))
      (i.packingOf A V (PyDict.keys i.items)) .inf where
  init := by
    obtain ⟨sol, ov, r, h1, h2, h3, h4, h5, h6⟩ := packing_exists (A := A) (V := V) hv (.refl (PyDict.keys i.items))
    refine ⟨{ i with solution := sol, objVals := ov }, { i with solution := sol, objVals := ov }, ?_, ?_, ?_, rfl, sol, ov, rfl⟩
    · rw [h6]
      have h1 : HP.solveO A V i.solveIn none = .ok (sol, ov) := by
        rw [solveO_none_eq (p := i.solveIn) hv.items.1]; exact h1
      show i.initSolutionO A V = _
      simp only [Inst.initSolutionO, Inst.solveO, bind, Except.bind, h1, pure, Except.pure, Inst.getSolution]
      have : Inst.deepcopySolution { i with solution := sol, objVals := ov } sol = i.deepcopySolution sol := rfl
      rw [this, h3, copyObjVals_eq]
    · rw [h5]
      show (Inst.calcObj A { i with solution := sol, objVals := ov }).map _ = _
      rw [calcObj_eq (i := { i with solution := sol, objVals := ov }) h2.keysO hv.contsNe]
      rfl
    · rfl
  eval := by
    rintro s x ⟨sol0, ov0, rfl⟩ hx
    obtain ⟨sol, ov, r, h1, h2, h3, h4, h5, h6⟩ := packing_exists (A := A) (V := V) hv hx
    refine ⟨{ i with solution := sol, objVals := ov }, ?_, ?_, ?_, ⟨sol, ov, rfl⟩, ?_, { i with solution := sol, objVals := ov }, ?_,
      sol, ov, rfl⟩
    · show Inst.solveO A V { i with solution := sol0, objVals := ov0 } (some x) = _
      have e : Inst.solveIn { i with solution := sol0, objVals := ov0 } = i.solveIn := rfl
      simp only [Inst.solveO, bind, Except.bind, e, h1, pure, Except.pure]
    · show (Inst.calcObj A { i with solution := sol, objVals := ov }).map _ = _
      rw [calcObj_eq (i := { i with solution := sol, objVals := ov }) h2.keysO hv.contsNe, h5]
      rfl
    · show Inst.getSolution { i with solution := sol, objVals := ov } = _
      simp only [Inst.getSolution, bind, Except.bind, pure, Except.pure]
      have : Inst.deepcopySolution { i with solution := sol, objVals := ov } sol = i.deepcopySolution sol := rfl
      rw [this, h3, copyObjVals_eq, h6]
    · intro v
      cases v with
      | fin b =>
        refine ⟨decide (i.valueOf A V x > b), ?_, ?_⟩
        · show Inst.compareNode { i with solution := sol, objVals := ov } (i.valueOf A V x) b = _
          simp [Inst.compareNode, hb]
        · simp [ALS.Cls.Better, ALS.clsOf, ALS.Num.lt]
      | inf => exact ⟨false, rfl, by simp [ALS.Cls.Better, ALS.clsOf, ALS.Num.lt]⟩
      | ninf => exact ⟨true, rfl, by simp [ALS.Cls.Better, ALS.clsOf, ALS.Num.lt]⟩
      | nan => exact ⟨false, rfl, by simp [ALS.Cls.Better, ALS.clsOf, ALS.Num.lt]⟩
    · show Inst.extraNode { i with solution := sol, objVals := ov } = _
      simp only [Inst.extraNode, hb, Bool.false_eq_true, if_false, pure, Except.pure]

end HP

namespace HP
open Spec

/-! ### objectives that change nothing -/

section
variable {σ ρ : Type} {O : LSOps σ ρ} {C : LSParams} {P : σ → Prop} {ev : List String → σ → Except PyErr σ}
  {ini : σ → Except PyErr (σ × ρ)}
  (he : ∀ x s s', P s → O.evaluate x s = .ok s' → P s') (hx : ∀ s s', P s → O.extra s = .ok s' → P s')
  (hev : ∀ x s, P s → ev x s = O.evaluate x s)
include he hx hev

theorem lsScan_congr (maxN : Nat) : ∀ (swaps : List (Nat × Nat)) (k : Nat) (s : LSState σ ρ), P s.obj →
    lsScan { O with evaluate := ev, init := ini } C maxN swaps k s = lsScan O C maxN swaps k s
  | [], k, s, hp => rfl
  | (i, j) :: swaps, k, s, hp => by
    simp only [lsScan, bind, Except.bind, hev _ _ hp]
    cases h1 : swapSeq s.node i j with
    | error e => rfl
    | ok cur =>
      simp only
      cases h2 : O.evaluate cur s.obj with
      | error e => rfl
      | ok o =>
        simp only
        have ho := he _ _ _ hp h2
        cases h3 : O.objVal o with
        | error e => rfl
        | ok v =>
          simp only
          cases h4 : O.compare o v s.best with
          | error e => rfl
          | ok b =>
            simp only
            cases b with
            | false =>
              simp only [Bool.false_eq_true, if_false, pure, Except.pure]
              split
              · rfl
              · exact lsScan_congr maxN swaps (k + 1) _ (by exact ho)
            | true =>
              simp only [if_true]
              cases h5 : O.getSol o with
              | error e => rfl
              | ok r =>
                simp only
                cases h6 : O.extra o with
                | error e => rfl
                | ok o2 => simp only [pure, Except.pure, Bool.true_or, Bool.or_true, if_true]

theorem lsLoop_congr (maxN : Nat) (swaps : List (Nat × Nat)) : ∀ (fuel : Nat) (s : LSState σ ρ), P s.obj →
    lsLoop { O with evaluate := ev, init := ini } C maxN swaps fuel s = lsLoop O C maxN swaps fuel s
  | 0, s, hp => rfl
  | fuel + 1, s, hp => by
    simp only [lsLoop, bind, Except.bind, lsScan_congr he hx hev maxN swaps 0 s hp]
    cases h1 : lsScan O C maxN swaps 0 s with
    | error e => rfl
    | ok r =>
      simp only
      have hr := lsScan_keeps he hx maxN swaps 0 s r.1 r.2 hp h1
      split
      · exact lsLoop_congr maxN swaps fuel _ (by exact hr)
      · rfl

end

theorem solveO_keeps {A : Arith} {V : Objective} {i j : Inst} {seq : Option (List String)} (h : i.solveO A V seq = .ok j) :
    ∃ sol ov, j = { i with solution := sol, objVals := ov } := by
  simp only [Inst.solveO, bind, Except.bind] at h
  cases h1 : HP.solveO A V i.solveIn seq with
  | error e => rw [h1] at h; cases h
  | ok r =>
    rw [h1] at h
    simp only [pure, Except.pure] at h
    injection h with h
    exact ⟨_, _, h.symm⟩

theorem solveO_same {A : Arith} {V : Objective} {i : Inst}
    (hV : ∀ seq, HP.solveO A V i.solveIn seq = HP.solve A i.solveIn seq) (seq : Option (List String)) :
    i.solveO A V seq = i.solve A seq := by
  simp only [Inst.solveO, Inst.solve, hV]

theorem solve_keeps {A : Arith} {i j : Inst} {seq : Option (List String)} (h : i.solve A seq = .ok j) :
    ∃ sol ov, j = { i with solution := sol, objVals := ov } := by
  rw [← solveO_same (V := Objective.default A) (fun s => C117_default A _ s)] at h
  exact solveO_keeps h

theorem extraNode_strip {i j : Inst} (h : i.extraNode = .ok j) : j.strip = i.strip := by
  simp only [Inst.extraNode] at h
  split at h
  · simp only [bind, Except.bind] at h
    split at h
    · cases h
    · rename_i v hv
      simp only [pure, Except.pure] at h
      injection h with h
      subst h
      simp only [Inst.setHeight] at hv
      revert hv
      simp only [bind, Except.bind, pure, Except.pure]
      intro hv
      repeat' split at hv
      all_goals first
        | (injection hv with hv; subst hv; rfl)
        | cases hv
  · simp only [pure, Except.pure] at h
    injection h with h
    rw [h]

end HP
