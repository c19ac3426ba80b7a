import Verif.Proofs.Hom
import Verif.Proofs.Rename
import Verif.Props.Items
/-
Searches with other ids: the correspondence of Proofs/Hom.lean for renamed problems.
-/
namespace HP
open Spec

/-! ### the constructor and the settings with other containers and items -/

/-- the instance with other containers and items -/
def Inst.pack (cs its : PyDict String Dim) (i : Inst) : Inst := { i with containers := cs, items := its }

variable {cs its : PyDict String Dim}

theorem validateBase_pack (i : Inst) : (i.pack cs its).validateBase =
    (i.validateBase.1.pack cs its, i.validateBase.2) := by
  unfold Inst.validateBase
  show (match i.settings.asDict? with | none => _ | some st => _) = _
  cases i.settings.asDict? with
  | none => rfl
  | some st =>
    simp only
    split
    · rfl
    · split
      · rfl
      · cases (PyVal.getD st "rotation").asBool? <;> rfl

theorem validateWorkers_pack (st : List (PyVal × PyVal)) (i : Inst) : (i.pack cs its).validateWorkers st =
    ((i.validateWorkers st).1.pack cs its, (i.validateWorkers st).2) := by
  unfold Inst.validateWorkers
  simp only
  split
  · rfl
  · split <;> rfl

theorem validateHyper_pack (i : Inst) : (i.pack cs its).validateHyper =
    (i.validateHyper.1.pack cs its, i.validateHyper.2) := by
  unfold Inst.validateHyper
  rw [validateBase_pack]
  rcases i.validateBase with ⟨j, e | u⟩
  · rfl
  · simp only
    show (match j.settings.asDict? with | none => _ | some st => _) = _
    cases j.settings.asDict? with
    | none => rfl
    | some st =>
      simp only
      split
      · rfl
      · cases ((PyVal.get? st "max_time_in_seconds").getD (.int maxTimeDefault)).asInt? with
        | none => rfl
        | some t =>
          simp only
          split
          · rfl
          · exact validateWorkers_pack st { j with maxTime := t }

theorem checkExport_pack (E : Env) (st fig : List (PyVal × PyVal)) (i : Inst) :
    (i.pack cs its).checkExport E st fig =
    ((i.checkExport E st fig).1.pack cs its, (i.checkExport E st fig).2) := by
  unfold Inst.checkExport
  cases PyVal.get? fig "export" with
  | none => rfl
  | some v =>
    simp only
    cases v.asDict? with
    | none => rfl
    | some ex =>
      simp only
      cases checkExport1 E ex with
      | error e => rfl
      | ok html =>
        simp only
        split
        · rfl
        · cases (PyVal.getD ex "file_name").asStr? with
          | none => rfl
          | some n =>
            simp only
            split <;> rfl

theorem validateFigure_pack (E : Env) (i : Inst) : (i.pack cs its).validateFigure E =
    ((i.validateFigure E).1.pack cs its, (i.validateFigure E).2) := by
  unfold Inst.validateFigure
  simp only
  rw [show (i.pack cs its).checkVersions E = (i.checkVersions E).pack cs its from rfl]
  generalize i.checkVersions E = j
  show (match j.settings.asDict? with | none => _ | some st => _) = _
  cases j.settings.asDict? with
  | none => rfl
  | some st =>
    simp only
    cases (PyVal.get? st "figure").getD (.dict []) with
    | dict fig =>
      simp only
      show (if fig.isEmpty = true then _ else if (!j.plotlyInstalled) = true then _ else if (!j.plotlyOk) = true then _ else _) = _
      split
      · rfl
      · split
        · rfl
        · split
          · rfl
          · rw [checkExport_pack]
            rcases j.checkExport E st fig with ⟨k, e | u⟩ <;> rfl
    | _ => rfl

theorem validateSettings_pack (E : Env) (i : Inst) : (i.pack cs its).validateSettings E =
    ((i.validateSettings E).1.pack cs its, (i.validateSettings E).2) := by
  unfold Inst.validateSettings
  rw [validateHyper_pack]
  rcases i.validateHyper with ⟨j, e | u⟩
  · rfl
  · exact validateFigure_pack E j

/-- a constructor call with other containers and items, equally many containers -/
theorem mkInst_pack {E : Env} {c c' v v' st sw sw' : PyVal} {strip : Bool} {cs0 its0 : PyDict String Dim}
    {h : Option Nat} (h1 : initContainers c sw = .ok (strip, cs0, h))
    (h2 : initContainers c' sw' = .ok (strip, cs, h)) (hl : cs.length = cs0.length)
    (h3 : (buildStructure .items v).2 = .ok its0) (h4 : (buildStructure .items v').2 = .ok its) :
    mkInst E c' v' st sw' = (mkInst E c v st sw).map (Inst.pack cs its) := by
  unfold mkInst
  simp only [h1, h2, h3, h4]
  have : rawInst strip cs its h st = (rawInst strip cs0 its0 h st).pack cs its := by
    unfold rawInst Inst.pack
    simp only [hl]
  rw [this, validateSettings_pack]
  rcases (rawInst strip cs0 its0 h st).validateSettings E with ⟨j, e | u⟩ <;> rfl

/-- a new object has no solution -/
theorem mkInst_fresh {E : Env} {c v st sw : PyVal} {i : Inst} (h : mkInst E c v st sw = .ok i) :
    i.solution = [] ∧ i.objVals = [] := by
  unfold mkInst at h
  split at h
  · cases h
  · rename_i strip cs height hc
    split at h
    · cases h
    · rename_i its hi
      have := validateSettings_frame (rawInst strip cs its height st) E
      split at h
      · cases h
      · rename_i j hj
        rw [hj] at this
        injection h with h
        subst h
        have h2 : j = _ := this.1
        rw [h2]
        exact ⟨rfl, rfl⟩

/-- the containers and items of a new object -/
theorem mkInst_bin {E : Env} {c v st sw : PyVal} {strip : Bool} {h : Option Nat} {i : Inst}
    (h1 : initContainers c sw = .ok (strip, cs, h)) (h3 : (buildStructure .items v).2 = .ok its)
    (hm : mkInst E c v st sw = .ok i) : i.containers = cs ∧ i.items = its := by
  unfold mkInst at hm
  simp only [h1, h3] at hm
  have := validateSettings_frame (rawInst strip cs its h st) E
  revert hm this
  rcases (rawInst strip cs its h st).validateSettings E with ⟨j, e | u⟩
  · intro hm _; cases hm
  · intro hm this
    injection hm with hm
    subst hm
    have h2 : j = _ := this.1
    rw [h2]
    exact ⟨rfl, rfl⟩

/-- the worker of a problem with other containers and items -/
theorem workerInst_pack {E : Env} {i i' : Inst} (hv : i.Valid) (hset : i'.settings = i.settings)
    (hmin : i'.minHeight = i.minHeight) (hstrip : i'.strip = i.strip)
    (hc : i.strip = true → i'.containers = i.containers) (hl : i'.containers.length = i.containers.length)
    (hcv : ValidSizes i'.containers) (hiv : ValidSizes i'.items) (hne : i'.items ≠ []) :
    workerInst E i' = (workerInst E i).map (Inst.pack i'.containers i'.items) := by
  unfold workerInst
  simp only [bind, Except.bind, pure, Except.pure]
  rw [hset]
  cases workerSettings i.settings with
  | error e => rfl
  | ok st =>
    simp only
    have hi := buildStructure_encodeAll .items hv.items hv.itemsNe
    have hi' := buildStructure_encodeAll .items hiv hne
    have key : ∃ c c' h strip', workerContainers i = .ok c ∧ workerContainers i' = .ok c' ∧
        initContainers c.1 c.2 = .ok (strip', i.containers, h) ∧
        initContainers c'.1 c'.2 = .ok (strip', i'.containers, h) := by
      by_cases hs : i.strip = true
      · obtain ⟨W, hW⟩ := hv.strip hs
        have hWp := (hv.conts.2 (stripId, ⟨W, stripInitHeight⟩) (by rw [hW]; simp)).1
        have hp : (PyVal.int (W : Int)).posInt? = some W := posInt?_nat hWp
        refine ⟨(.none, .int W), (.none, .int W), some (maxRatio * W), true, ?_, ?_, ?_, ?_⟩
        · unfold workerContainers
          rw [if_pos hs, hW]
          simp [PyDict.find?]
        · unfold workerContainers
          rw [if_pos (by rw [hstrip]; exact hs), hc hs, hW]
          simp [PyDict.find?]
        · unfold initContainers
          simp only [PyVal.isNone, Bool.false_eq_true, if_false, hp, if_true]
          rw [hW]
        · unfold initContainers
          simp only [PyVal.isNone, Bool.false_eq_true, if_false, hp, if_true]
          rw [hc hs, hW]
      · have hs' : ¬ i'.strip = true := by rw [hstrip]; exact hs
        have hcne : i'.containers ≠ [] := by
          intro h
          rw [h] at hl
          exact hv.contsNe (List.eq_nil_of_length_eq_zero hl.symm)
        refine ⟨_, _, none, false, by unfold workerContainers; rw [if_neg hs], by unfold workerContainers; rw [if_neg hs'], ?_, ?_⟩
        · unfold initContainers
          simp only [PyVal.isNone, if_true, buildStructure_encodeAll .containers hv.conts hv.contsNe]
        · unfold initContainers
          simp only [PyVal.isNone, if_true, buildStructure_encodeAll .containers hcv hcne]
    obtain ⟨c, c', h, strip', k1, k2, k3, k4⟩ := key
    rw [k1, k2]
    simp only
    rw [mkInst_pack k3 k4 hl hi hi', hmin]
    cases mkInst E c.1 (SKind.items.encodeAll i.items) st c.2 with
    | error e => rfl
    | ok w => rfl

theorem workerInst_fresh {E : Env} {i w : Inst} (h : workerInst E i = .ok w) :
    w.solution = [] ∧ w.objVals = [] := by
  unfold workerInst at h
  simp only [bind, Except.bind, pure, Except.pure] at h
  split at h
  · cases h
  · split at h
    · cases h
    · split at h
      · cases h
      · rename_i w0 hw0
        injection h with h
        subst h
        obtain ⟨e1, e2⟩ := mkInst_fresh hw0
        exact ⟨e1, e2⟩

/-! ### sorting -/

theorem insertKey_map {F : Rat × String → Rat × String} (hF : ∀ a b, keyLt (F a) (F b) = keyLt a b)
    (a : Rat × String) : ∀ l, insertKey (F a) (l.map F) = (insertKey a l).map F
  | [] => rfl
  | b :: l => by
    simp only [List.map_cons, insertKey, hF]
    split
    · rw [List.map_cons, insertKey_map hF a l]
    · rfl

theorem sortAsc_map {F : Rat × String → Rat × String} (hF : ∀ a b, keyLt (F a) (F b) = keyLt a b) :
    ∀ l, sortAsc (l.map F) = (sortAsc l).map F
  | [] => rfl
  | a :: l => by
    show insertKey (F a) (sortAsc (l.map F)) = (insertKey a (sortAsc l)).map F
    rw [sortAsc_map hF l, insertKey_map hF]

theorem pySort_map {F : Rat × String → Rat × String} (hF : ∀ a b, keyLt (F a) (F b) = keyLt a b)
    (l : List (Rat × String)) (r : Bool) : pySort (l.map F) r = (pySort l r).map F := by
  unfold pySort
  split
  · rw [← List.map_reverse, sortAsc_map hF, List.map_reverse]
  · exact sortAsc_map hF l

/-- the items that `sort_items` arranges: a permutation of the items -/
theorem pickSorted_perm {items : PyDict String Dim} (hn : (PyDict.keys items).Nodup) (key : Dim → Rat) (r : Bool) :
    (pickItems items ((pySort (items.map (fun p => (key p.2, p.1))) r).map (·.2))).Perm items := by
  obtain ⟨zs, h1, h2⟩ := perm_map_inv (fun p : String × Dim => (key p.2, p.1))
    (pySort_perm (items.map (fun p => (key p.2, p.1))) r)
  rw [h2, pickItems_pairs hn key zs (fun p hp => h1.mem_iff.1 hp)]
  exact h1

theorem sortItems_valid (A : Arith) {i : Inst} (hv : i.Valid) {by_ : PyVal} {r : Bool} {key : Dim → Rat}
    (hk : sortKey? A by_ = some key) : i.sortItems A (some (by_, r)) =
      ({ i with items := pickItems i.items ((pySort (i.items.map (fun p => (key p.2, p.1))) r).map (·.2)),
                solution := [], objVals := [] }, .ok ()) := by
  have hp := pickSorted_perm hv.items.1 key r
  unfold Inst.sortItems
  simp only [hk]
  refine assign_items_valid ⟨(hp.map _).nodup_iff.2 hv.items.1, fun p h => hv.items.2 p (hp.mem_iff.1 h)⟩ ?_
  intro h
  rw [h] at hp
  exact hv.itemsNe hp.symm.eq_nil

/-! ### orienting -/

theorem orientLoop_valid (t : Nat → Nat → Bool) {i : Inst} (hv : i.Valid) :
    Inst.orientLoop t (PyDict.keys i.items) i =
      (if ∃ p ∈ i.items, t p.2.w p.2.l = true then
        { i with items := i.items.map (turnIf t), solution := [], objVals := [] } else i, .ok ()) := by
  have := orientLoop_eq t i.items [] i rfl hv.items.1 hv.items.2
  simpa using this

/-! ### renamed instances -/

/-- the solution with other ids: `f` for the items, `g` for the containers -/
def renSol (f g : String → String) (sol : Solution) : Solution := renKeys g (sol.map (fun c => (c.1, renKeys f c.2)))

/-- the same problem with other ids: `f` for the items, `g` for the containers -/
def renInst (f g : String → String) (i : Inst) : Inst :=
  { i with containers := renKeys g i.containers, items := renKeys f i.items,
           solution := renSol f g i.solution, objVals := renKeys g i.objVals }

variable {f g : String → String}

theorem renSol_nil : renSol f g [] = [] := rfl

theorem getE_renSol (hg : Function.Injective g) (sol : Solution) (cid : String) :
    PyDict.getE (renSol f g sol) (g cid) = (PyDict.getE sol cid).map (renKeys f) := by
  unfold renSol
  rw [getE_ren hg]
  unfold PyDict.getE
  have : PyDict.find? (sol.map (fun c => (c.1, renKeys f c.2))) cid = (PyDict.find? sol cid).map (renKeys f) := by
    induction sol with
    | nil => rfl
    | cons c sol ih =>
      obtain ⟨k, m⟩ := c
      simp only [List.map_cons, PyDict.find?]
      split
      · rfl
      · exact ih
  rw [this]
  cases PyDict.find? sol cid <;> rfl

theorem copyCont_ren (hf : Function.Injective f) (items : PyDict String Dim) (m : PyDict String Rect) :
    copyCont (renKeys f items) (renKeys f m) = renKeys f (copyCont items m) := by
  unfold copyCont
  have : PyDict.keys (renKeys f items) = (PyDict.keys items).map f := by
    simp [PyDict.keys, renKeys, Function.comp_def]
  rw [this, List.filterMap_map]
  unfold renKeys
  rw [List.map_filterMap]
  congr 1
  funext a
  have := find?_ren hf a m
  unfold renKeys at this
  simp only [Function.comp_apply, this, Option.map_map]
  rfl

theorem copySolution_ren (hf : Function.Injective f) (hg : Function.Injective g)
    (items : PyDict String Dim) (sol : Solution) : ∀ cids : List String,
    copySolution (renKeys f items) (renSol f g sol) (cids.map g) =
      (copySolution items sol cids).map (renSol f g)
  | [] => rfl
  | cid :: cids => by
    simp only [List.map_cons, copySolution, getE_renSol hg, bind, Except.bind, pure, Except.pure]
    cases PyDict.getE sol cid with
    | error e => rfl
    | ok m =>
      simp only [Except.map]
      rw [copySolution_ren hf hg items sol cids]
      cases copySolution items sol cids with
      | error e => rfl
      | ok rest => simp only [Except.map, copyCont_ren hf]; rfl

theorem keys_ren {α : Type} (d : PyDict String α) : PyDict.keys (renKeys f d) = (PyDict.keys d).map f := by
  simp [PyDict.keys, renKeys, Function.comp_def]

theorem stackOf_ren (m : PyDict String Rect) : stackOf (renKeys f m) = stackOf m := by
  unfold stackOf renKeys
  rw [List.foldr_map]

/-- renaming the ids commutes with every operation of a search -/
theorem renHom (A : Arith) (hf : Function.Injective f) (hg : Function.Injective g) :
    InstHom A (renInst f g) (renSol f g) (renKeys g) f (fun i => i.strip = true → g stripId = stripId) where
  solve i seq _ := by
    unfold Inst.solve
    simp only [bind, Except.bind, pure, Except.pure]
    rw [solve_ren hf g A i.solveIn (renInst f g i).solveIn rfl seq]
    cases HP.solve A i.solveIn seq with
    | error e => rfl
    | ok r => simp [Except.map, renInst, renResult, renSol, renKeys]
  calcObj i _ := by
    unfold Inst.calcObj
    have : (renInst f g i).objVals.map (·.2) = i.objVals.map (·.2) := by
      simp [renInst, renKeys, Function.comp_def]
    simp only [this]
    rfl
  deepcopy i sol _ := by
    unfold Inst.deepcopySolution
    rw [show PyDict.keys (renInst f g i).containers = (PyDict.keys i.containers).map g from keys_ren _]
    exact copySolution_ren hf hg i.items sol _
  copyVals ov := by simp [copyObjVals, renKeys]
  compare i a b hP := by
    unfold Inst.compareNode
    simp only
    show (if (!i.strip) = true then _ else _) = _
    cases hs : i.strip with
    | false => rfl
    | true =>
      simp only [Bool.not_true, Bool.false_eq_true, if_false]
      show (match i.minHeight with | some _ => _ | none => _) = _
      cases i.minHeight with
      | some m => rfl
      | none =>
        simp only [bind, Except.bind, pure, Except.pure]
        have := getE_renSol (f := f) hg i.solution stripId
        rw [hP hs] at this
        rw [show (renInst f g i).solution = renSol f g i.solution from rfl, this]
        cases PyDict.getE i.solution stripId with
        | error e => rfl
        | ok m => simp [Except.map, renInst, renKeys]
  extra i hP := by
    unfold Inst.extraNode
    show (if i.strip = true then _ else _) = _
    cases hs : i.strip with
    | false => rfl
    | true =>
      simp only [if_true]
      have hid := hP hs
      have key : (renInst f g i).setHeight = i.setHeight.map (renInst f g) := by
        unfold Inst.setHeight
        have hn : (renInst f g i).solution = [] ↔ i.solution = [] := by simp [renInst, renSol, renKeys]
        by_cases h0 : i.solution = []
        · rw [if_pos (hn.2 h0), if_pos h0]
          have := getE_ren hg i.containers stripId
          rw [hid] at this
          simp only [bind, Except.bind, pure, Except.pure]
          rw [show (renInst f g i).containers = renKeys g i.containers from rfl, this]
          cases PyDict.getE i.containers stripId <;> rfl
        · rw [if_neg (fun h => h0 (hn.1 h)), if_neg h0]
          have := getE_renSol (f := f) hg i.solution stripId
          rw [hid] at this
          simp only [bind, Except.bind, pure, Except.pure]
          rw [show (renInst f g i).solution = renSol f g i.solution from rfl, this]
          cases PyDict.getE i.solution stripId with
          | error e => rfl
          | ok m =>
            simp only [Except.map]
            rw [stackOf_ren]
            rw [show (renInst f g i).minHeight = i.minHeight from rfl]
            cases i.minHeight <;> rfl
      simp only [bind, Except.bind, pure, Except.pure]
      rw [key]
      cases i.setHeight <;> rfl
  keys i _ := keys_ren _
  fuel i _ := by simp [lsFuel, renInst, renKeys]
  solution _ := rfl
  objVals _ := rfl
  strip _ := rfl
  maxTime _ := rfl
  workers _ := rfl
  height _ _ _ := rfl
  set_strategy _ _ := rfl
  set_heights _ _ _ _ := rfl
  set_result _ _ _ := rfl
  frame i j h1 _ _ h hs := h (h1 ▸ hs)

theorem validSizes_ren (hf : Function.Injective f) {d : PyDict String Dim} (h : ValidSizes d) :
    ValidSizes (renKeys f d) := by
  refine ⟨?_, ?_⟩
  · show (PyDict.keys (renKeys f d)).Nodup
    rw [keys_ren]
    exact h.1.map hf
  · intro q hq
    obtain ⟨q', hq', rfl⟩ := List.mem_map.1 hq
    exact h.2 q' hq'

/-- renaming commutes with building the worker processes' object -/
theorem workerInst_ren (E : Env) (hf : Function.Injective f) (hg : Function.Injective g) {i : Inst} (hv : i.Valid)
    (hs : i.strip = true → g stripId = stripId) :
    workerInst E (renInst f g i) = (workerInst E i).map (renInst f g) := by
  rw [workerInst_pack hv (i' := renInst f g i) rfl rfl rfl]
  · cases hw : workerInst E i with
    | error e => rfl
    | ok w =>
      obtain ⟨h1, h2⟩ := workerInst_fresh hw
      obtain ⟨_, h3, h4, _⟩ := workerInst_spec hv hw
      simp only [Except.map, Inst.pack, renInst]
      have e1 : renSol f g w.solution = w.solution := by rw [h1]; rfl
      have e2 : renKeys g w.objVals = w.objVals := by rw [h2]; rfl
      rw [h3, h4, e1, e2]
  · intro h
    obtain ⟨W, hW⟩ := hv.strip h
    show renKeys g i.containers = _
    rw [hW]
    simp [renKeys, hs h]
  · simp [renInst, renKeys]
  · exact validSizes_ren hg hv.conts
  · exact validSizes_ren hf hv.items
  · intro h
    exact hv.itemsNe (List.map_eq_nil_iff.1 h)

/-! ### sorting and orienting renamed items -/

theorem keyLt_ren (hf : Function.Injective f) (hm : ∀ a b, strLt (f a) (f b) = strLt a b) (a b : Rat × String) :
    keyLt (a.1, f a.2) (b.1, f b.2) = keyLt a b := by
  unfold keyLt
  simp only [hm]

theorem pickItems_ren (hf : Function.Injective f) (items : PyDict String Dim) (ids : List String) :
    pickItems (renKeys f items) (ids.map f) = renKeys f (pickItems items ids) := by
  unfold pickItems
  rw [List.filterMap_map]
  unfold renKeys
  rw [List.map_filterMap]
  congr 1
  funext a
  have := find?_ren hf a items
  unfold renKeys at this
  simp only [Function.comp_apply, this, Option.map_map]
  rfl

theorem renInst_valid (hf : Function.Injective f) (hg : Function.Injective g) {i : Inst} (hv : i.Valid)
    (hs : i.strip = true → g stripId = stripId) : (renInst f g i).Valid where
  conts := validSizes_ren hg hv.conts
  items := validSizes_ren hf hv.items
  contsNe h := hv.contsNe (List.map_eq_nil_iff.1 h)
  itemsNe h := hv.itemsNe (List.map_eq_nil_iff.1 h)
  strip h := by
    obtain ⟨W, hW⟩ := hv.strip h
    refine ⟨W, ?_⟩
    show renKeys g i.containers = _
    rw [hW]
    simp [renKeys, hs h]
  height := hv.height
  minPos := hv.minPos

/-- sorting renamed items, if the new ids are in the same alphabetic order -/
theorem sortItems_ren (A : Arith) (hf : Function.Injective f) (hg : Function.Injective g) {i : Inst}
    (hv : i.Valid) (hs : i.strip = true → g stripId = stripId) (s : Option (PyVal × Bool))
    (hm : s = none ∨ ∀ a b, strLt (f a) (f b) = strLt a b) :
    (renInst f g i).sortItems A s = (renInst f g (i.sortItems A s).1, (i.sortItems A s).2) := by
  cases s with
  | none => rfl
  | some s =>
    obtain ⟨by_, r⟩ := s
    have hm : ∀ a b, strLt (f a) (f b) = strLt a b := by
      rcases hm with h | h
      · cases h
      · exact h
    cases hk : sortKey? A by_ with
    | none => simp only [Inst.sortItems, hk]
    | some key =>
      rw [sortItems_valid A hv hk, sortItems_valid A (renInst_valid hf hg hv hs) hk]
      have e : (renInst f g i).items.map (fun p => (key p.2, p.1)) =
          (i.items.map (fun p => (key p.2, p.1))).map (fun q : Rat × String => (q.1, f q.2)) := by
        simp [renInst, renKeys, Function.comp_def]
      rw [e, pySort_map (fun a b => keyLt_ren hf hm a b)]
      have e2 : ∀ l : List (Rat × String), (l.map (fun q : Rat × String => (q.1, f q.2))).map (·.2) =
          (l.map (·.2)).map f := by
        intro l; simp [Function.comp_def]
      rw [e2, show (renInst f g i).items = renKeys f i.items from rfl, pickItems_ren hf]
      rfl

theorem orientLoop_ren (t : Nat → Nat → Bool) (hf : Function.Injective f) (hg : Function.Injective g)
    {i : Inst} (hv : i.Valid) (hs : i.strip = true → g stripId = stripId) :
    Inst.orientLoop t (PyDict.keys (renInst f g i).items) (renInst f g i) =
      (renInst f g (Inst.orientLoop t (PyDict.keys i.items) i).1,
        (Inst.orientLoop t (PyDict.keys i.items) i).2) := by
  rw [orientLoop_valid t hv, orientLoop_valid t (renInst_valid hf hg hv hs)]
  have he : (∃ p ∈ (renInst f g i).items, t p.2.w p.2.l = true) ↔ ∃ p ∈ i.items, t p.2.w p.2.l = true := by
    constructor
    · rintro ⟨p, hp, h⟩
      obtain ⟨q, hq, rfl⟩ := List.mem_map.1 hp
      exact ⟨q, hq, h⟩
    · rintro ⟨q, hq, h⟩
      exact ⟨_, List.mem_map.2 ⟨q, hq, rfl⟩, h⟩
  simp only [he]
  split
  · simp [renInst, renKeys, renSol, turnIf, Function.comp_def]
  · rfl

theorem orientItems_ren (hf : Function.Injective f) (hg : Function.Injective g)
    {i : Inst} (hv : i.Valid) (hs : i.strip = true → g stripId = stripId) (o : PyVal) :
    (renInst f g i).orientItems o = (renInst f g (i.orientItems o).1, (i.orientItems o).2) := by
  unfold Inst.orientItems
  show (if o.isNone = true then _ else if (!i.rotation) = true then _ else _) = _
  split
  · rfl
  · split
    · rfl
    · split
      · exact orientLoop_ren _ hf hg hv hs
      · split
        · exact orientLoop_ren _ hf hg hv hs
        · rfl

end HP
