import Verif.Model.Machine
/-
Two problems that correspond to each other: if every operation of a local search commutes with
the correspondence, then so does the local search.  Used for renaming ids and for changing the
unit of length.
-/
namespace HP

theorem map_ok {α β : Type} {f : α → β} {x : Except PyErr α} {b : β} (h : x.map f = .ok b) :
    ∃ a, x = .ok a ∧ f a = b := by
  cases x with
  | error e => cases h
  | ok a => exact ⟨a, rfl, by injection h⟩

/-- the operations of two local searches correspond: objects by `φ` (as long as they meet `P`),
retained solutions by `ψ`, sequences (those that meet `S`) by `f` -/
structure LSHom {σ ρ σ' ρ' : Type} (O : LSOps σ ρ) (O' : LSOps σ' ρ') (φ : σ → σ') (ψ : ρ → ρ')
    (f : String → String) (P : σ → Prop) (S : List String → Prop) : Prop where
  init : ∀ s, P s → O'.init (φ s) = (O.init s).map (fun r => (φ r.1, ψ r.2))
  init_P : ∀ s r, P s → O.init s = .ok r → P r.1
  evaluate : ∀ q s, S q → P s → O'.evaluate (q.map f) (φ s) = (O.evaluate q s).map φ
  evaluate_P : ∀ q s s', S q → P s → O.evaluate q s = .ok s' → P s'
  objVal : ∀ s, P s → O'.objVal (φ s) = O.objVal s
  compare : ∀ s a b, P s → O'.compare (φ s) a b = O.compare s a b
  getSol : ∀ s, P s → O'.getSol (φ s) = (O.getSol s).map ψ
  extra : ∀ s, P s → O'.extra (φ s) = (O.extra s).map φ
  extra_P : ∀ s s', P s → O.extra s = .ok s' → P s'
  swap : ∀ q q' i j, S q → swapSeq q i j = .ok q' → S q'

/-- the corresponding state of a local search -/
def LSState.hom {σ ρ σ' ρ' : Type} (φ : σ → σ') (ψ : ρ → ρ') (f : String → String)
    (s : LSState σ ρ) : LSState σ' ρ' :=
  ⟨φ s.obj, s.node.map f, s.best, ψ s.retained, s.tick, s.log⟩

theorem pyGet_map {α β : Type} (f : α → β) (xs : List α) (i : Int) :
    pyGet (xs.map f) i = (pyGet xs i).map f := by
  unfold pyGet
  rw [List.length_map]
  cases pyIdx xs.length i with
  | none => rfl
  | some k =>
    simp only [List.getElem?_map]
    cases xs[k]? <;> rfl

theorem pySet_map {α β : Type} (f : α → β) (xs : List α) (i : Int) (v : α) :
    pySet (xs.map f) i (f v) = (pySet xs i v).map (List.map f) := by
  unfold pySet
  rw [List.length_map]
  cases pyIdx xs.length i with
  | none => rfl
  | some k => simp only [Except.map, List.map_set]

theorem swapSeq_map (f : String → String) (xs : List String) (i j : Nat) :
    swapSeq (xs.map f) i j = (swapSeq xs i j).map (List.map f) := by
  unfold swapSeq
  simp only [bind, Except.bind, pyGet_map]
  cases pyGet xs i with
  | error e => rfl
  | ok a =>
    simp only [Except.map]
    cases pyGet xs j with
    | error e => rfl
    | ok b =>
      simp only [pySet_map]
      cases pySet xs i b with
      | error e => rfl
      | ok ys => simp only [Except.map]; exact pySet_map f ys j a

section
variable {σ ρ σ' ρ' : Type} {O : LSOps σ ρ} {O' : LSOps σ' ρ'} {φ : σ → σ'} {ψ : ρ → ρ'}
  {f : String → String} {P : σ → Prop} {S : List String → Prop}

theorem lsScan_hom (H : LSHom O O' φ ψ f P S) (C : LSParams) (maxN : Nat) :
    ∀ (swaps : List (Nat × Nat)) (k : Nat) (s : LSState σ ρ), P s.obj → S s.node →
    lsScan O' C maxN swaps k (s.hom φ ψ f) =
      (lsScan O C maxN swaps k s).map (fun r => (r.1.hom φ ψ f, r.2)) ∧
    ∀ r, lsScan O C maxN swaps k s = .ok r → P r.1.obj ∧ S r.1.node
  | [], k, s, hP, hS => ⟨rfl, by intro r h; injection h with h; subst h; exact ⟨hP, hS⟩⟩
  | (i, j) :: swaps, k, s, hP, hS => by
    unfold lsScan
    simp only [bind, Except.bind, pure, Except.pure]
    rw [show (s.hom φ ψ f).node = s.node.map f from rfl, swapSeq_map]
    cases hcur : swapSeq s.node i j with
    | error e => exact ⟨rfl, by intro r h; cases h⟩
    | ok cur =>
      simp only [Except.map]
      have hScur := H.swap _ _ _ _ hS hcur
      rw [show (s.hom φ ψ f).obj = φ s.obj from rfl, H.evaluate cur s.obj hScur hP]
      cases hev : O.evaluate cur s.obj with
      | error e => exact ⟨rfl, by intro r h; cases h⟩
      | ok obj =>
        simp only [Except.map]
        have hPo := H.evaluate_P _ _ _ hScur hP hev
        rw [H.objVal obj hPo]
        cases O.objVal obj with
        | error e => exact ⟨rfl, by intro r h; cases h⟩
        | ok v =>
          simp only
          rw [show (s.hom φ ψ f).best = s.best from rfl, H.compare obj v s.best hPo]
          cases O.compare obj v s.best with
          | error e => exact ⟨rfl, by intro r h; cases h⟩
          | ok accept =>
            simp only
            cases accept with
            | true =>
              simp only [if_true]
              rw [H.getSol obj hPo]
              cases O.getSol obj with
              | error e => exact ⟨rfl, by intro r h; cases h⟩
              | ok r =>
                simp only [Except.map]
                rw [H.extra obj hPo]
                cases hex : O.extra obj with
                | error e => exact ⟨rfl, by intro r h; cases h⟩
                | ok obj' =>
                  have hPe := H.extra_P _ _ hPo hex
                  simp only [Except.map, Bool.or_true, Bool.true_or, if_true]
                  exact ⟨rfl, by intro r h; injection h with h; subst h; exact ⟨hPe, hScur⟩⟩
            | false =>
              simp only [Bool.false_eq_true, if_false, Bool.or_false, Bool.false_and]
              show (if (C.late s.tick || decide (k + 1 ≥ maxN)) = true then _ else _) = _ ∧ _
              split
              · exact ⟨rfl, by intro r h; injection h with h; subst h; exact ⟨hPo, hS⟩⟩
              · exact lsScan_hom H C maxN swaps (k + 1) { s with obj := obj, tick := s.tick + 1 } hPo hS

theorem lsLoop_hom (H : LSHom O O' φ ψ f P S) (C : LSParams) (maxN : Nat) (swaps : List (Nat × Nat)) :
    ∀ (fuel : Nat) (s : LSState σ ρ), P s.obj → S s.node →
    lsLoop O' C maxN swaps fuel (s.hom φ ψ f) =
      (lsLoop O C maxN swaps fuel s).map (LSState.hom φ ψ f) ∧
    ∀ r, lsLoop O C maxN swaps fuel s = .ok r → P r.obj
  | 0, s, _, _ => ⟨rfl, by intro r h; cases h⟩
  | fuel + 1, s, hP, hS => by
    obtain ⟨h1, h2⟩ := lsScan_hom H C maxN swaps 0 s hP hS
    unfold lsLoop
    simp only [bind, Except.bind, pure, Except.pure]
    rw [h1]
    cases hr : lsScan O C maxN swaps 0 s with
    | error e => exact ⟨rfl, by intro r h; cases h⟩
    | ok r =>
      obtain ⟨hP', hS'⟩ := h2 r hr
      simp only [Except.map]
      split
      · exact lsLoop_hom H C maxN swaps fuel { r.1 with log := r.1.log ++ [r.2] } hP' hS'
      · exact ⟨rfl, by intro q h; injection h with h; subst h; exact hP'⟩

theorem lsRun_hom (H : LSHom O O' φ ψ f P S) (C : LSParams) (fuel : Nat) (seq : List String)
    (throttle : Bool) (obj : σ) (hP : P obj) (hS : S seq) :
    lsRun O' C fuel (seq.map f) throttle (φ obj) =
      (lsRun O C fuel seq throttle obj).map (LSState.hom φ ψ f) ∧
    ∀ r, lsRun O C fuel seq throttle obj = .ok r → P r.obj := by
  unfold lsRun
  simp only [bind, Except.bind, List.length_map]
  rw [H.init obj hP]
  cases hi : O.init obj with
  | error e => exact ⟨rfl, by intro r h; cases h⟩
  | ok r =>
    simp only [Except.map]
    have hP' := H.init_P _ _ hP hi
    rw [H.objVal r.1 hP']
    cases O.objVal r.1 with
    | error e => exact ⟨rfl, by intro r h; cases h⟩
    | ok best => exact lsLoop_hom H C _ _ fuel ⟨r.1, seq, best, r.2, 0, []⟩ hP' hS
end

/-! ### whole instances -/

/-- instances correspond by `φ` (as long as they meet `P`), solutions by `ψs`, tables of values by
`ψo`, sequences by `f` -/
structure InstHom (A : Arith) (φ : Inst → Inst) (ψs : Solution → Solution) (ψo : ObjVals → ObjVals)
    (f : String → String) (P : Inst → Prop) : Prop where
  solve : ∀ i seq, P i → (φ i).solve A (seq.map (List.map f)) = (i.solve A seq).map φ
  calcObj : ∀ i, P i → (φ i).calcObj A = i.calcObj A
  deepcopy : ∀ i sol, P i → (φ i).deepcopySolution (ψs sol) = (i.deepcopySolution sol).map ψs
  copyVals : ∀ ov, copyObjVals (ψo ov) = ψo (copyObjVals ov)
  compare : ∀ i a b, P i → (φ i).compareNode a b = i.compareNode a b
  extra : ∀ i, P i → (φ i).extraNode = i.extraNode.map φ
  keys : ∀ i, P i → PyDict.keys (φ i).items = (PyDict.keys i.items).map f
  fuel : ∀ i, P i → lsFuel (φ i) = lsFuel i
  solution : ∀ i, (φ i).solution = ψs i.solution
  objVals : ∀ i, (φ i).objVals = ψo i.objVals
  strip : ∀ i, (φ i).strip = i.strip
  maxTime : ∀ i, (φ i).maxTime = i.maxTime
  workers : ∀ i, (φ i).workers = i.workers
  height : ∀ i, i.strip = true → P i → (φ i).height = i.height
  set_strategy : ∀ i st, φ { i with strategy := st } = { φ i with strategy := st }
  set_heights : ∀ i hs, i.strip = true → P i → φ { i with heights := hs } = { φ i with heights := hs }
  set_result : ∀ i s o, φ { i with solution := s, objVals := o } =
    { φ i with solution := ψs s, objVals := ψo o }
  frame : ∀ i j : Inst, j.strip = i.strip → j.containers = i.containers → j.items = i.items → P i → P j

theorem solve_frame {A : Arith} {i j : Inst} {seq : Option (List String)} (h : i.solve A seq = .ok j) :
    j.strip = i.strip ∧ j.containers = i.containers ∧ j.items = i.items := by
  unfold Inst.solve at h
  simp only [bind, Except.bind, pure, Except.pure] at h
  cases hs : HP.solve A i.solveIn seq with
  | error e => rw [hs] at h; cases h
  | ok r => rw [hs] at h; injection h with h; subst h; exact ⟨rfl, rfl, rfl⟩

theorem extraNode_frame {i j : Inst} (h : i.extraNode = .ok j) :
    j.strip = i.strip ∧ j.containers = i.containers ∧ j.items = i.items := by
  unfold Inst.extraNode Inst.setHeight at h
  simp only [bind, Except.bind, pure, Except.pure] at h
  split at h
  · split at h
    · cases h
    · rename_i hk
      split at hk
      · split at hk
        · cases hk
        · injection hk with hk; subst hk; injection h with h; subst h; exact ⟨rfl, rfl, rfl⟩
      · split at hk
        · cases hk
        · split at hk <;> (injection hk with hk; subst hk; injection h with h; subst h; exact ⟨rfl, rfl, rfl⟩)
  · injection h with h; subst h; exact ⟨rfl, rfl, rfl⟩

section
variable {A : Arith} {φ : Inst → Inst} {ψs : Solution → Solution} {ψo : ObjVals → ObjVals}
  {f : String → String} {P : Inst → Prop}

theorem InstHom.getSolution (H : InstHom A φ ψs ψo f P) {i : Inst} (hP : P i) :
    (φ i).getSolution = i.getSolution.map (Prod.map ψs ψo) := by
  unfold Inst.getSolution
  simp only [bind, Except.bind, pure, Except.pure]
  rw [H.solution, H.deepcopy i _ hP, H.objVals, H.copyVals]
  cases i.deepcopySolution i.solution <;> rfl

theorem InstHom.initSolution (H : InstHom A φ ψs ψo f P) {i : Inst} (hP : P i) :
    (φ i).initSolution A = (i.initSolution A).map (fun r => (φ r.1, Prod.map ψs ψo r.2)) ∧
    ∀ r, i.initSolution A = .ok r → P r.1 := by
  unfold Inst.initSolution
  simp only [bind, Except.bind, pure, Except.pure]
  have := H.solve i none hP
  simp only [Option.map_none] at this
  rw [this]
  cases hs : i.solve A none with
  | error e => exact ⟨rfl, by intro r h; cases h⟩
  | ok j =>
    obtain ⟨h1, h2, h3⟩ := solve_frame hs
    have hPj := H.frame i j h1 h2 h3 hP
    simp only [Except.map]
    rw [H.getSolution hPj]
    cases j.getSolution with
    | error e => exact ⟨rfl, by intro r h; cases h⟩
    | ok r => exact ⟨rfl, by intro q h; injection h with h; subst h; exact hPj⟩

theorem InstHom.lsHom (H : InstHom A φ ψs ψo f P) :
    LSHom (instOps A) (instOps A) φ (Prod.map ψs ψo) f P (fun _ => True) where
  init i hP := (H.initSolution hP).1
  init_P i r hP h := (H.initSolution hP).2 r h
  evaluate q i _ hP := H.solve i (some q) hP
  evaluate_P q i j _ hP h := by
    obtain ⟨h1, h2, h3⟩ := solve_frame h
    exact H.frame i j h1 h2 h3 hP
  objVal i hP := H.calcObj i hP
  compare i a b hP := H.compare i a b hP
  getSol i hP := H.getSolution hP
  extra i hP := H.extra i hP
  extra_P i j hP h := by
    obtain ⟨h1, h2, h3⟩ := extraNode_frame h
    exact H.frame i j h1 h2 h3 hP
  swap _ _ _ _ _ _ := trivial

/-- the instance at the start of a local search -/
def Inst.prep (i : Inst) : Inst := if i.strip then { i with heights := [i.height.getD 0] } else i

theorem localSearch_prep (clock : Nat → Rat) (start : Rat) (throttle : Bool) (i : Inst) :
    i.localSearch A clock start throttle =
      (lsRun (instOps A) ⟨A, clock, start, i.prep.maxTime⟩ (lsFuel i.prep) (PyDict.keys i.prep.items) throttle i.prep).map
        (fun s => ({ s.obj with solution := s.retained.1, objVals := s.retained.2 }, s)) := by
  unfold Inst.localSearch Inst.prep
  simp only [bind, Except.bind, pure, Except.pure]
  split <;> simp_all [Except.map]

theorem InstHom.prep (H : InstHom A φ ψs ψo f P) {i : Inst} (hP : P i) : (φ i).prep = φ i.prep := by
  unfold Inst.prep
  by_cases hs : i.strip = true
  · rw [if_pos hs, if_pos (by rw [H.strip]; exact hs)]
    have e : (φ i).height.getD 0 = i.height.getD 0 := by rw [H.height i hs hP]
    rw [e]
    exact (H.set_heights i _ hs hP).symm
  · rw [if_neg hs, if_neg (by rw [H.strip]; exact hs)]

theorem InstHom.prep_P (H : InstHom A φ ψs ψo f P) {i : Inst} (hP : P i) : P i.prep := by
  unfold Inst.prep
  split
  · exact H.frame i _ rfl rfl rfl hP
  · exact hP

/-- the local searches of corresponding problems correspond -/
theorem InstHom.localSearch (H : InstHom A φ ψs ψo f P) (clock : Nat → Rat) (start : Rat)
    (throttle : Bool) {i : Inst} (hP : P i) :
    (φ i).localSearch A clock start throttle = (i.localSearch A clock start throttle).map
      (fun r => (φ r.1, r.2.hom φ (Prod.map ψs ψo) f)) ∧
    ∀ r, i.localSearch A clock start throttle = .ok r → P r.1 := by
  have hPj := H.prep_P hP
  rw [localSearch_prep, localSearch_prep, H.prep hP, H.maxTime, H.fuel _ hPj, H.keys _ hPj]
  generalize i.prep = j at hPj ⊢
  obtain ⟨h1, h2⟩ := lsRun_hom H.lsHom ⟨A, clock, start, j.maxTime⟩ (lsFuel j) (PyDict.keys j.items)
    throttle j hPj trivial
  rw [h1]
  cases hr : lsRun (instOps A) ⟨A, clock, start, j.maxTime⟩ (lsFuel j) (PyDict.keys j.items) throttle j with
  | error e => exact ⟨rfl, by intro r h; cases h⟩
  | ok s =>
    have hPs := h2 s hr
    refine ⟨?_, ?_⟩
    · exact congrArg (fun x => Except.ok (x, s.hom φ (Prod.map ψs ψo) f)) (H.set_result s.obj _ _).symm
    · intro r h
      injection h with h; subst h
      exact H.frame s.obj _ rfl rfl rfl hPs

/-- the corresponding state of a hypersearch -/
def HSState.hom (φ : Inst → Inst) (ψ : Solution × ObjVals → Solution × ObjVals) (s : HSState) : HSState :=
  ⟨φ s.inst, s.best, ψ s.retained, s.bestStrategy, s.tick, s.tried⟩

theorem InstHom.hsStep (H : InstHom A φ ψs ψo f P) (clock : Nat → Rat) (start : Rat) (throttle : Bool)
    (st : List PClass) (s : HSState) (hP : P s.inst) :
    HP.hsStep A clock start throttle st (s.hom φ (Prod.map ψs ψo)) =
      (HP.hsStep A clock start throttle st s).map (fun r => (r.1.hom φ (Prod.map ψs ψo), r.2)) ∧
    ∀ r, HP.hsStep A clock start throttle st s = .ok r → P r.1.inst := by
  unfold HP.hsStep
  simp only [bind, Except.bind, pure, Except.pure]
  have hPi : P { s.inst with strategy := st } := H.frame s.inst _ rfl rfl rfl hP
  obtain ⟨h1, h2⟩ := H.localSearch (fun k => clock (s.tick + k)) start throttle hPi
  rw [H.set_strategy] at h1
  rw [show (s.hom φ (Prod.map ψs ψo)).inst = φ s.inst from rfl,
    show (s.hom φ (Prod.map ψs ψo)).tick = s.tick from rfl, h1]
  cases hr : ({ s.inst with strategy := st } : Inst).localSearch A (fun k => clock (s.tick + k)) start throttle with
  | error e => exact ⟨rfl, by intro r h; cases h⟩
  | ok r =>
    have hPr := h2 r hr
    simp only [Except.map]
    rw [H.calcObj r.1 hPr]
    cases r.1.calcObj A with
    | error e => exact ⟨rfl, by intro r h; cases h⟩
    | ok v =>
      simp only
      rw [H.maxTime, show (s.hom φ (Prod.map ψs ψo)).best = s.best from rfl]
      split
      · rw [H.getSolution hPr]
        cases r.1.getSolution with
        | error e => exact ⟨rfl, by intro r h; cases h⟩
        | ok sol =>
          simp only [Except.map]
          split
          · exact ⟨rfl, by intro r h; injection h with h; subst h; exact hPr⟩
          · exact ⟨rfl, by intro r h; injection h with h; subst h; exact hPr⟩
      · exact ⟨rfl, by intro r h; injection h with h; subst h; exact hPr⟩

theorem InstHom.hsLoop (H : InstHom A φ ψs ψo f P) (clock : Nat → Rat) (start : Rat) (throttle : Bool) :
    ∀ (sts : List (List PClass)) (s : HSState), P s.inst →
    HP.hsLoop A clock start throttle sts (s.hom φ (Prod.map ψs ψo)) =
      (HP.hsLoop A clock start throttle sts s).map (HSState.hom φ (Prod.map ψs ψo))
  | [], _, _ => rfl
  | st :: sts, s, hP => by
    obtain ⟨h1, h2⟩ := H.hsStep clock start throttle st s hP
    unfold HP.hsLoop
    simp only [bind, Except.bind, pure, Except.pure]
    rw [h1]
    cases hr : HP.hsStep A clock start throttle st s with
    | error e => rfl
    | ok r =>
      simp only [Except.map]
      split
      · rfl
      · exact H.hsLoop clock start throttle sts r.1 (h2 r hr)

theorem InstHom.singleHS (H : InstHom A φ ψs ψo f P) (clock : Nat → Rat) (start : Rat) (throttle : Bool)
    (sts : List (List PClass)) {i : Inst} (hP : P i) :
    (φ i).singleHS A clock start throttle sts =
      (i.singleHS A clock start throttle sts).map (HSState.hom φ (Prod.map ψs ψo)) := by
  unfold Inst.singleHS
  simp only [bind, Except.bind]
  obtain ⟨h1, h2⟩ := H.initSolution hP
  rw [h1]
  cases hr : i.initSolution A with
  | error e => rfl
  | ok r =>
    simp only [Except.map]
    have hPr := h2 r hr
    rw [H.calcObj r.1 hPr]
    cases r.1.calcObj A with
    | error e => rfl
    | ok best => exact H.hsLoop clock start throttle sts ⟨r.1, best, r.2, defaultStrategy, 0, []⟩ hPr

theorem InstHom.finish (H : InstHom A φ ψs ψo f P)
    (hb : ∀ i b, φ { i with bestStrategy := b } = { φ i with bestStrategy := b }) (s : HSState) :
    (s.hom φ (Prod.map ψs ψo)).finish = φ s.finish := by
  unfold HSState.finish
  have := hb { s.inst with solution := s.retained.1, objVals := s.retained.2 } (some (some s.bestStrategy))
  rw [H.set_result] at this
  rw [this]
  rfl

/-! ### worker processes -/

/-- the corresponding message -/
def Msg.hom (ψs : Solution → Solution) (ψo : ObjVals → ObjVals) (m : Msg) : Msg :=
  ⟨m.value, ψs m.sol, ψo m.ov, m.strategy⟩

/-- the corresponding variables of a worker -/
def WVars.hom (φ : Inst → Inst) (ψs : Solution → Solution) (ψo : ObjVals → ObjVals) (v : WVars) : WVars :=
  ⟨φ v.inst, v.best, Prod.map ψs ψo v.retained, v.strategy, v.tick⟩

/-- the corresponding phase of a worker -/
def Phase.hom (φ : Inst → Inst) (ψs : Solution → Solution) (ψo : ObjVals → ObjVals) : Phase → Phase
  | .start => .start
  | .loop v rest => .loop (v.hom φ ψs ψo) rest
  | .searched v new st rest => .searched (v.hom φ ψs ψo) new st rest
  | .read v new opt st rest => .read (v.hom φ ψs ψo) new opt st rest
  | .check v opt rest => .check (v.hom φ ψs ψo) opt rest
  | .put v => .put (v.hom φ ψs ψo)
  | .failing => .failing
  | .failPut => .failPut
  | .buffered m => .buffered (m.hom ψs ψo)
  | .done m => .done (m.hom ψs ψo)
  | .dead m => .dead (m.map (Msg.hom ψs ψo))

/-- all instances in a phase meet `P` -/
def Phase.Ok (P : Inst → Prop) : Phase → Prop
  | .loop v _ => P v.inst
  | .searched v _ _ _ => P v.inst
  | .read v _ _ _ _ => P v.inst
  | .check v _ _ => P v.inst
  | .put v => P v.inst
  | _ => True

theorem InstHom.workerStep (H : InstHom A φ ψs ψo f P) (h0 : ψs [] = []) (h0' : ψo [] = [])
    {M M' : MPParams} (hM : M.ar = A) (hM' : M' = { M with fits := M'.fits })
    (hfits : ∀ m, M'.fits (m.hom ψs ψo) = M.fits m) (p : Nat) (w : Inst) (hw : P w)
    (chunk : List (List PClass)) (ph : Phase) (hph : ph.Ok P) (arr : List Rat) :
    HP.workerStep M' p (φ w) chunk (ph.hom φ ψs ψo) arr =
      (((HP.workerStep M p w chunk ph arr).1).hom φ ψs ψo, (HP.workerStep M p w chunk ph arr).2) ∧
    (HP.workerStep M p w chunk ph arr).1.Ok P := by
  subst hM
  have e1 : M'.ar = M.ar := by rw [hM']
  have e2 : M'.start = M.start := by rw [hM']
  have e3 : M'.throttle = M.throttle := by rw [hM']
  have e4 : M'.clock = M.clock := by rw [hM']
  have e5 : M'.force = M.force := by rw [hM']
  cases ph with
  | start =>
    unfold HP.workerStep
    simp only [Phase.hom, e5]
    split
    · exact ⟨rfl, trivial⟩
    · unfold workerInit
      simp only [bind, Except.bind, pure, Except.pure, e1]
      obtain ⟨h1, h2⟩ := H.initSolution hw
      rw [h1]
      cases hr : w.initSolution M.ar with
      | error e => exact ⟨rfl, trivial⟩
      | ok r =>
        simp only [Except.map]
        have hPr := h2 r hr
        rw [H.calcObj r.1 hPr]
        cases r.1.calcObj M.ar with
        | error e => exact ⟨rfl, trivial⟩
        | ok b => exact ⟨rfl, hPr⟩
  | loop v rest =>
    cases rest with
    | nil => exact ⟨rfl, hph⟩
    | cons st rest =>
      unfold HP.workerStep
      simp only [Phase.hom]
      unfold workerSearch
      simp only [bind, Except.bind, pure, Except.pure, e1, e2, e3, e4]
      have hPi : P { v.inst with strategy := st } := H.frame v.inst _ rfl rfl rfl hph
      obtain ⟨h1, h2⟩ := H.localSearch (fun k => M.clock p (v.tick + k)) M.start M.throttle hPi
      rw [H.set_strategy] at h1
      rw [show (v.hom φ ψs ψo).inst = φ v.inst from rfl, show (v.hom φ ψs ψo).tick = v.tick from rfl, h1]
      cases hr : ({ v.inst with strategy := st } : Inst).localSearch M.ar (fun k => M.clock p (v.tick + k)) M.start M.throttle with
      | error e => exact ⟨rfl, trivial⟩
      | ok r =>
        have hPr := h2 r hr
        simp only [Except.map]
        rw [H.calcObj r.1 hPr]
        cases r.1.calcObj M.ar with
        | error e => exact ⟨rfl, trivial⟩
        | ok b => exact ⟨rfl, hPr⟩
  | searched v new st rest =>
    unfold HP.workerStep
    simp only [Phase.hom]
    cases arrayMax arr with
    | none => exact ⟨rfl, trivial⟩
    | some opt => exact ⟨rfl, hph⟩
  | read v new opt st rest =>
    unfold HP.workerStep
    simp only [Phase.hom]
    rw [show (v.hom φ ψs ψo).best = v.best from rfl, show (v.hom φ ψs ψo).inst = φ v.inst from rfl,
      H.getSolution hph]
    split
    · cases v.inst.getSolution with
      | error e => exact ⟨rfl, trivial⟩
      | ok r =>
        simp only [Except.map]
        split
        · exact ⟨rfl, hph⟩
        · exact ⟨rfl, hph⟩
    · exact ⟨rfl, hph⟩
  | check v opt rest =>
    unfold HP.workerStep
    simp only [Phase.hom, e1, e2, e4]
    rw [show (v.hom φ ψs ψo).inst = φ v.inst from rfl, show (v.hom φ ψs ψo).tick = v.tick from rfl,
      H.maxTime]
    split
    · exact ⟨rfl, hph⟩
    · exact ⟨rfl, hph⟩
  | put v => exact ⟨rfl, trivial⟩
  | failing => exact ⟨rfl, trivial⟩
  | failPut =>
    refine ⟨?_, trivial⟩
    unfold HP.workerStep
    simp only [Phase.hom, Msg.hom, failMsg, h0, h0']
  | buffered m =>
    unfold HP.workerStep
    simp only [Phase.hom, hfits]
    split
    · exact ⟨rfl, trivial⟩
    · exact ⟨rfl, trivial⟩
  | done m => exact ⟨rfl, trivial⟩
  | dead m => exact ⟨rfl, trivial⟩

theorem Phase.raise_hom (ph : Phase) : (ph.hom φ ψs ψo).raise = ph.raise.hom φ ψs ψo := by
  cases ph <;> rfl

theorem Phase.kill_hom (ph : Phase) : (ph.hom φ ψs ψo).kill = ph.kill.hom φ ψs ψo := by
  cases ph <;> rfl

theorem Phase.raise_Ok {ph : Phase} (h : ph.Ok P) : ph.raise.Ok P := by
  cases ph <;> first | exact trivial | exact h

theorem Phase.kill_Ok (ph : Phase) : ph.kill.Ok P := by
  cases ph <;> exact trivial

/-- the corresponding state of the processes -/
def MPState.hom (φ : Inst → Inst) (ψs : Solution → Solution) (ψo : ObjVals → ObjVals) (s : MPState) : MPState :=
  ⟨s.phases.map (Phase.hom φ ψs ψo), s.arr⟩

theorem InstHom.mpStep (H : InstHom A φ ψs ψo f P) (h0 : ψs [] = []) (h0' : ψo [] = [])
    {M M' : MPParams} (hM : M.ar = A) (hM' : M' = { M with fits := M'.fits })
    (hfits : ∀ m, M'.fits (m.hom ψs ψo) = M.fits m) (w : Inst) (hw : P w)
    (chunks : List (List (List PClass))) (s : MPState) (hs : ∀ ph ∈ s.phases, ph.Ok P) (e : Nat × MPEvent) :
    HP.mpStep M' (φ w) chunks (s.hom φ ψs ψo) e = (HP.mpStep M w chunks s e).hom φ ψs ψo ∧
    ∀ ph ∈ (HP.mpStep M w chunks s e).phases, ph.Ok P := by
  unfold HP.mpStep
  simp only [MPState.hom, List.getElem?_map]
  cases hph : s.phases[e.1]? with
  | none => exact ⟨rfl, hs⟩
  | some ph =>
    have hok := hs ph (List.mem_of_getElem? hph)
    cases chunks[e.1]? with
    | none => exact ⟨rfl, hs⟩
    | some chunk =>
      simp only [Option.map_some]
      have key : ∀ q : Phase, q.Ok P → ∀ x ∈ s.phases.set e.1 q, x.Ok P := by
        intro q hq x hx
        rcases List.mem_or_eq_of_mem_set hx with h | rfl
        · exact hs x h
        · exact hq
      cases e.2 with
      | step =>
        obtain ⟨h1, h2⟩ := H.workerStep h0 h0' hM hM' hfits e.1 w hw chunk ph hok s.arr
        simp only [h1, List.map_set]
        exact ⟨trivial, key _ h2⟩
      | raise =>
        simp only [List.map_set, Phase.raise_hom]
        exact ⟨trivial, key _ (Phase.raise_Ok hok)⟩
      | kill =>
        simp only [List.map_set, Phase.kill_hom]
        exact ⟨trivial, key _ (Phase.kill_Ok ph)⟩

theorem InstHom.mpFold (H : InstHom A φ ψs ψo f P) (h0 : ψs [] = []) (h0' : ψo [] = [])
    {M M' : MPParams} (hM : M.ar = A) (hM' : M' = { M with fits := M'.fits })
    (hfits : ∀ m, M'.fits (m.hom ψs ψo) = M.fits m) (w : Inst) (hw : P w)
    (chunks : List (List (List PClass))) : ∀ (sch : List (Nat × MPEvent)) (s : MPState),
    (∀ ph ∈ s.phases, ph.Ok P) →
    sch.foldl (HP.mpStep M' (φ w) chunks) (s.hom φ ψs ψo) =
      (sch.foldl (HP.mpStep M w chunks) s).hom φ ψs ψo
  | [], _, _ => rfl
  | e :: sch, s, hs => by
    obtain ⟨h1, h2⟩ := H.mpStep h0 h0' hM hM' hfits w hw chunks s hs e
    rw [List.foldl_cons, List.foldl_cons, h1]
    exact H.mpFold h0 h0' hM hM' hfits w hw chunks sch _ h2

/-- the corresponding outcome of a multi process hypersearch -/
def MPOutcome.hom (ψs : Solution → Solution) (ψo : ObjVals → ObjVals) : MPOutcome → MPOutcome
  | .returned sol ov st => .returned (ψs sol) (ψo ov) st
  | .raised e => .raised e
  | .blocked => .blocked

theorem Phase.ended_hom (ph : Phase) : (ph.hom φ ψs ψo).ended = ph.ended := by
  cases ph <;> rfl

theorem Phase.message_hom (ph : Phase) : (ph.hom φ ψs ψo).message = ph.message.map (Msg.hom ψs ψo) := by
  cases ph <;> rfl

theorem InstHom.mpFinish (H : InstHom A φ ψs ψo f P) {i : Inst} (hP : P i) (s : MPState) :
    HP.mpFinish (φ i) (s.hom φ ψs ψo) = (HP.mpFinish i s).hom ψs ψo := by
  unfold HP.mpFinish
  have hall : (s.hom φ ψs ψo).phases.all Phase.ended = s.phases.all Phase.ended := by
    show (s.phases.map _).all _ = _
    rw [List.all_map]
    congr 1
    funext ph
    exact Phase.ended_hom ph
  rw [hall, show (s.hom φ ψs ψo).arr = s.arr from rfl]
  split
  · rfl
  · cases arrayMax s.arr with
    | none => rfl
    | some m =>
      simp only
      split
      · rfl
      · have hmsg : ((s.hom φ ψs ψo).phases[firstIdx m s.arr]?).bind Phase.message =
            ((s.phases[firstIdx m s.arr]?).bind Phase.message).map (Msg.hom ψs ψo) := by
          show ((s.phases.map _)[firstIdx m s.arr]?).bind _ = _
          rw [List.getElem?_map]
          cases s.phases[firstIdx m s.arr]? with
          | none => rfl
          | some ph => exact Phase.message_hom ph
        rw [hmsg]
        cases (s.phases[firstIdx m s.arr]?).bind Phase.message with
        | none => rfl
        | some msg =>
          simp only [Option.map_some]
          rw [show (msg.hom ψs ψo).sol = ψs msg.sol from rfl, H.deepcopy i _ hP]
          cases i.deepcopySolution msg.sol with
          | error e => rfl
          | ok sol =>
            simp only [Except.map, MPOutcome.hom, MPOutcome.returned.injEq, true_and]
            exact ⟨H.copyVals msg.ov, rfl⟩

/-- the hypersearches of corresponding problems correspond: single process and multi process -/
theorem InstHom.search (H : InstHom A φ ψs ψo f P)
    (hb : ∀ i b, φ { i with bestStrategy := b } = { φ i with bestStrategy := b }) (h0 : ψs [] = []) (h0' : ψo [] = [])
    (h : HSArgs) (fits' : Msg → Bool) (hfits : ∀ m, fits' (m.hom ψs ψo) = h.fits m) {i : Inst} (hP : P i)
    (hw : workerInst h.env (φ i) = (workerInst h.env i).map φ)
    (hwP : ∀ w, workerInst h.env i = .ok w → P w) :
    (φ i).search A { h with fits := fits' } = (φ (i.search A h).1, (i.search A h).2) := by
  unfold Inst.search
  simp only
  have e1 : (φ i).workers.isOne = i.workers.isOne := by rw [H.workers]
  have e2 : getStrategies h.order (φ i).strip h.exhaustive = getStrategies h.order i.strip h.exhaustive := by
    rw [H.strip]
  rw [e1, e2]
  split
  · rw [H.singleHS _ _ _ _ hP]
    cases i.singleHS A (fun k => h.clock (k + 1)) (h.clock 0) h.throttle (getStrategies h.order i.strip h.exhaustive) with
    | error e => rfl
    | ok s =>
      simp only [Except.map]
      rw [H.finish hb]
  · have hm : (φ i).multiHS h.env (HSArgs.mp A { h with fits := fits' }) (getStrategies h.order i.strip h.exhaustive) h.schedule =
        (i.multiHS h.env (h.mp A) (getStrategies h.order i.strip h.exhaustive) h.schedule).hom ψs ψo := by
      unfold Inst.multiHS
      rw [H.workers]
      cases strategyChunks (getStrategies h.order i.strip h.exhaustive) i.workers with
      | error e => rfl
      | ok chunks =>
        simp only
        rw [hw]
        cases hwi : workerInst h.env i with
        | error e => rfl
        | ok w =>
          simp only [Except.map]
          have := H.mpFold h0 h0' (M := h.mp A) (M' := HSArgs.mp A { h with fits := fits' }) rfl rfl hfits w
            (hwP w hwi) chunks h.schedule ⟨chunks.map (fun _ => .start), chunks.map (fun _ => 0)⟩ (by
              intro ph hph
              obtain ⟨_, _, rfl⟩ := List.mem_map.1 hph
              exact trivial)
          unfold mpRun
          rw [← H.mpFinish hP, ← this]
          simp only [MPState.hom, List.map_map]
          rfl
    rw [hm]
    cases i.multiHS h.env (h.mp A) (getStrategies h.order i.strip h.exhaustive) h.schedule with
    | returned sol ov st =>
      simp only [MPOutcome.hom]
      have := hb { i with solution := sol, objVals := ov } (some st)
      rw [H.set_result] at this
      exact congrArg (·, Outcome.ok) this.symm
    | raised e => rfl
    | blocked => rfl
end

end HP
