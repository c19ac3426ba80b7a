import Verif.Proofs.Hom
import Verif.Proofs.Machine
/-
Objects that differ only in results of earlier calls: no call but `log_solution` and `create_figure` reads them.
-/
namespace HP

/-- other results of earlier calls: solution, values, best strategy, heights of the last search -/
def Inst.past (s : Solution) (o : ObjVals) (b : Option (Option (List PClass))) (hs : List Nat) (i : Inst) : Inst :=
  { i with solution := s, objVals := o, bestStrategy := b, heights := hs }

/-- `i'` and `k'` come from `i` and `k`: they differ in results only, and each result is the same in both or that of
before in both -/
structure Kin (i k i' k' : Inst) : Prop where
  same : ∃ s o b hs, k' = i'.past s o b hs
  res : (k'.solution = i'.solution ∧ k'.objVals = i'.objVals) ∨
    (i'.solution = i.solution ∧ i'.objVals = i.objVals ∧ k'.solution = k.solution ∧ k'.objVals = k.objVals)
  best : k'.bestStrategy = i'.bestStrategy ∨ (i'.bestStrategy = i.bestStrategy ∧ k'.bestStrategy = k.bestStrategy)
  heights : k'.heights = i'.heights ∨ (i'.heights = i.heights ∧ k'.heights = k.heights)

theorem Kin.refl {i k : Inst} (h : ∃ s o b hs, k = i.past s o b hs) : Kin i k i k :=
  ⟨h, .inr ⟨rfl, rfl, rfl, rfl⟩, .inr ⟨rfl, rfl⟩, .inr ⟨rfl, rfl⟩⟩

theorem Kin.trans {i k i1 k1 i2 k2 : Inst} (h1 : Kin i k i1 k1) (h2 : Kin i1 k1 i2 k2) : Kin i k i2 k2 := by
  refine ⟨h2.same, ?_, ?_, ?_⟩
  · rcases h2.res with h | ⟨a, b, c, d⟩
    · exact .inl h
    · rw [a, b, c, d]; exact h1.res
  · rcases h2.best with h | ⟨a, b⟩
    · exact .inl h
    · rw [a, b]; exact h1.best
  · rcases h2.heights with h | ⟨a, b⟩
    · exact .inl h
    · rw [a, b]; exact h1.heights

/-- the calls have the same outcome and leave objects behind that differ only in results -/
def KinOut {α : Type} (i k : Inst) (r r' : Inst × α) : Prop := Kin i k r.1 r'.1 ∧ r'.2 = r.2

macro "kin" : tactic => `(tactic| first
  | exact ⟨⟨⟨_, _, _, _, rfl⟩, .inr ⟨rfl, rfl, rfl, rfl⟩, .inr ⟨rfl, rfl⟩, .inr ⟨rfl, rfl⟩⟩, rfl⟩
  | exact ⟨⟨⟨_, _, _, _, rfl⟩, .inl ⟨rfl, rfl⟩, .inr ⟨rfl, rfl⟩, .inr ⟨rfl, rfl⟩⟩, rfl⟩
  | exact ⟨⟨⟨_, _, _, _, rfl⟩, .inl ⟨rfl, rfl⟩, .inl rfl, .inr ⟨rfl, rfl⟩⟩, rfl⟩)

section
variable (s : Solution) (o : ObjVals) (b : Option (Option (List PClass))) (hs : List Nat) (i : Inst)

theorem past_data (k : SKind) : (i.past s o b hs).data k = i.data k := by cases k <;> rfl

theorem past_assign (k : SKind) (v : PyVal) :
    KinOut i (i.past s o b hs) (i.assign k v) ((i.past s o b hs).assign k v) := by
  obtain ⟨st⟩ := i
  unfold Inst.assign
  rcases h : buildStructure k v with ⟨b, r⟩
  cases st <;> cases k <;> cases b <;> cases r <;> kin

theorem past_setKey (k : SKind) (id v : PyVal) :
    KinOut i (i.past s o b hs) (i.setKey k id v) ((i.past s o b hs).setKey k id v) := by
  obtain ⟨st⟩ := i
  unfold Inst.setKey
  cases id.asStr? <;> cases mkDims k v <;> cases st <;> cases k <;> kin

theorem past_delKey (k : SKind) (key : PyVal) :
    KinOut i (i.past s o b hs) (i.delKey k key) ((i.past s o b hs).delKey k key) := by
  unfold Inst.delKey
  simp only [past_data]
  split
  · kin
  · cases lookupKey (i.data k) key with
    | error e => kin
    | ok p => cases k <;> kin

theorem past_setDim (k : SKind) (id key v : PyVal) :
    KinOut i (i.past s o b hs) (i.setDim k id key v) ((i.past s o b hs).setDim k id key v) := by
  unfold Inst.setDim
  simp only [past_data]
  cases h : lookupKey (i.data k) id with
  | error e => kin
  | ok p =>
    obtain ⟨a, d⟩ := p
    obtain ⟨st⟩ := i
    simp only []
    cases key.hashable <;> cases key.eqStr k.width <;> cases key.eqStr k.length <;> cases v.posInt? <;>
      cases st <;> cases k <;> kin

theorem past_delDim (k : SKind) (id : PyVal) :
    KinOut i (i.past s o b hs) (i.delDim k id) ((i.past s o b hs).delDim k id) := by
  unfold Inst.delDim
  simp only [past_data]
  cases lookupKey (i.data k) id <;> kin

theorem past_popKey (k : SKind) (key : PyVal) (d : Bool) :
    KinOut i (i.past s o b hs) (i.popKey k key d) ((i.past s o b hs).popKey k key d) := by
  unfold Inst.popKey
  simp only [past_data]
  split
  · kin
  · kin
  · exact past_delKey s o b hs i k key

theorem past_popItem (k : SKind) :
    KinOut i (i.past s o b hs) (i.popItem k) ((i.past s o b hs).popItem k) := by
  unfold Inst.popItem
  simp only [past_data]
  split
  · kin
  · exact past_delKey s o b hs i k _

end

/-- lifts a lemma about `past` to objects of which only the kinship is known -/
theorem Kin.lift {α : Type} {i k i' k' : Inst} {f : Inst → Inst × α} (h : Kin i k i' k')
    (hf : ∀ s o b hs (j : Inst), KinOut j (j.past s o b hs) (f j) (f (j.past s o b hs))) : KinOut i k (f i') (f k') := by
  obtain ⟨s, o, b, hs, e⟩ := h.same
  have := hf s o b hs i'
  rw [← e] at this
  exact ⟨h.trans this.1, this.2⟩

theorem kin_clearLoop {i k : Inst} (kk : SKind) (n : Nat) : ∀ {i' k' : Inst}, Kin i k i' k' →
    KinOut i k (Inst.clearLoop kk n i') (Inst.clearLoop kk n k') := by
  induction n with
  | zero => exact fun h => ⟨h, rfl⟩
  | succ n ih =>
    intro i' k' h
    unfold Inst.clearLoop
    obtain ⟨h1, h2⟩ := h.lift (f := Inst.popItem kk) fun s o b hs j => past_popItem s o b hs j kk
    rcases e1 : i'.popItem kk with ⟨j, r⟩
    rcases e2 : k'.popItem kk with ⟨j', r'⟩
    rw [e1, e2] at h1 h2
    simp only at h1 h2
    subst h2
    cases r' with
    | ok u => exact ih h1
    | error e => cases e <;> exact ⟨h1, rfl⟩

theorem kin_clear {i k i' k' : Inst} (kk : SKind) (h : Kin i k i' k') : KinOut i k (i'.clear kk) (k'.clear kk) := by
  unfold Inst.clear
  obtain ⟨s, o, b, hs, e⟩ := h.same
  have : k'.data kk = i'.data kk := by rw [e, past_data]
  rw [this]
  exact kin_clearLoop kk _ h

theorem kin_update {i k : Inst} (kk : SKind) (es : List (PyVal × PyVal)) : ∀ {i' k' : Inst}, Kin i k i' k' →
    KinOut i k (Inst.update kk es i') (Inst.update kk es k') := by
  induction es with
  | nil => exact fun h => ⟨h, rfl⟩
  | cons p es ih =>
    intro i' k' h
    obtain ⟨id, v⟩ := p
    unfold Inst.update
    obtain ⟨h1, h2⟩ := h.lift (f := Inst.setKey kk id v) fun s o b hs j => past_setKey s o b hs j kk id v
    rcases e1 : i'.setKey kk id v with ⟨j, r⟩
    rcases e2 : k'.setKey kk id v with ⟨j', r'⟩
    rw [e1, e2] at h1 h2
    simp only at h1 h2
    subst h2
    cases r' with
    | ok u => exact ih h1
    | error e => exact ⟨h1, rfl⟩

theorem kin_updateDim {i k : Inst} (kk : SKind) (id : PyVal) (es : List (PyVal × PyVal)) : ∀ {i' k' : Inst},
    Kin i k i' k' → KinOut i k (Inst.updateDim kk id es i') (Inst.updateDim kk id es k') := by
  induction es with
  | nil =>
    intro i' k' h
    unfold Inst.updateDim
    obtain ⟨s, o, b, hs, e⟩ := h.same
    have : k'.data kk = i'.data kk := by rw [e, past_data]
    rw [this]
    split <;> exact ⟨h, rfl⟩
  | cons p es ih =>
    intro i' k' h
    obtain ⟨key, v⟩ := p
    unfold Inst.updateDim
    obtain ⟨h1, h2⟩ := h.lift (f := Inst.setDim kk id key v) fun s o b hs j => past_setDim s o b hs j kk id key v
    rcases e1 : i'.setDim kk id key v with ⟨j, r⟩
    rcases e2 : k'.setDim kk id key v with ⟨j', r'⟩
    rw [e1, e2] at h1 h2
    simp only at h1 h2
    subst h2
    cases r' with
    | ok u => exact ih h1
    | error e => exact ⟨h1, rfl⟩

section
variable (s : Solution) (o : ObjVals) (b : Option (Option (List PClass))) (hs : List Nat) (i : Inst)

theorem past_setDefault (k : SKind) (key v : PyVal) :
    KinOut i (i.past s o b hs) (i.setDefault k key v) ((i.past s o b hs).setDefault k key v) := by
  unfold Inst.setDefault
  simp only [past_data]
  split
  · kin
  · exact past_setKey s o b hs i k key v
  · kin

theorem past_assignHeight (v : PyVal) :
    KinOut i (i.past s o b hs) (i.assignHeight v) ((i.past s o b hs).assignHeight v) := by
  obtain ⟨st, cs, its, h, mh⟩ := i
  unfold Inst.assignHeight Inst.past
  cases v.atLeastOne? with
  | none => kin
  | some n =>
    cases mh with
    | none => kin
    | some m => simp only []; split <;> kin

theorem past_assignMinHeight (v : PyVal) :
    KinOut i (i.past s o b hs) (i.assignMinHeight v) ((i.past s o b hs).assignMinHeight v) := by
  obtain ⟨st, cs, its, h, mh⟩ := i
  unfold Inst.assignMinHeight Inst.past
  cases v.atLeastOne? with
  | none => kin
  | some n =>
    cases h with
    | none => kin
    | some m => simp only []; split <;> kin

theorem past_resetHeight : KinOut i (i.past s o b hs) i.resetHeight (i.past s o b hs).resetHeight := by
  unfold Inst.resetHeight Inst.past
  simp only []
  split
  · cases PyDict.find? i.containers stripId <;> kin
  · kin

theorem past_assignStrategy (v : PyVal) :
    KinOut i (i.past s o b hs) (i.assignStrategy v) ((i.past s o b hs).assignStrategy v) := by
  unfold Inst.assignStrategy
  cases v.asTuple? with
  | none => kin
  | some l => simp only []; cases checkStrategy l [] <;> kin

/-! ### settings -/

theorem past_validateBase : (i.past s o b hs).validateBase = (i.validateBase.1.past s o b hs, i.validateBase.2) := by
  unfold Inst.validateBase
  have hset : (i.past s o b hs).settings = i.settings := rfl
  rw [hset]
  cases h : i.settings.asDict? with
  | none => rfl
  | some st =>
    simp only []
    split
    · rfl
    · split
      · rfl
      · split <;> rfl

theorem past_validateHyper : (i.past s o b hs).validateHyper = (i.validateHyper.1.past s o b hs, i.validateHyper.2) := by
  unfold Inst.validateHyper
  rw [past_validateBase]
  rcases i.validateBase with ⟨j, r⟩
  cases r with
  | error e => rfl
  | ok u =>
    simp only []
    have hset : (j.past s o b hs).settings = j.settings := rfl
    rw [hset]
    cases h : j.settings.asDict? with
    | none => rfl
    | some st =>
      simp only []
      split
      · rfl
      · split
        · rfl
        · split
          · rfl
          · unfold Inst.validateWorkers
            simp only []
            split
            · rfl
            · split <;> rfl

theorem past_checkExport (E : Env) (st fig : List (PyVal × PyVal)) :
    (i.past s o b hs).checkExport E st fig = ((i.checkExport E st fig).1.past s o b hs, (i.checkExport E st fig).2) := by
  unfold Inst.checkExport
  cases PyVal.get? fig "export" with
  | none => rfl
  | some v =>
    simp only []
    cases v.asDict? with
    | none => rfl
    | some ex =>
      simp only []
      cases checkExport1 E ex with
      | error e => rfl
      | ok html =>
        simp only []
        split
        · rfl
        · split
          · rfl
          · split <;> rfl

theorem past_validateFigure (E : Env) :
    (i.past s o b hs).validateFigure E = ((i.validateFigure E).1.past s o b hs, (i.validateFigure E).2) := by
  unfold Inst.validateFigure
  have hc : (i.past s o b hs).checkVersions E = (i.checkVersions E).past s o b hs := rfl
  simp only [hc]
  generalize i.checkVersions E = j
  have hset : (j.past s o b hs).settings = j.settings := rfl
  rw [hset]
  cases h : j.settings.asDict? with
  | none => rfl
  | some st =>
    simp only []
    split
    · rename_i fig _
      have hp : (j.past s o b hs).plotlyInstalled = j.plotlyInstalled := rfl
      have hq : (j.past s o b hs).plotlyOk = j.plotlyOk := rfl
      rw [hp, hq, past_checkExport]
      split
      · rfl
      · split
        · rfl
        · split
          · rfl
          · rcases j.checkExport E st fig with ⟨a, r⟩
            cases r <;> rfl
    · rfl

theorem past_validate (E : Env) :
    (i.past s o b hs).validateSettings E = ((i.validateSettings E).1.past s o b hs, (i.validateSettings E).2) := by
  unfold Inst.validateSettings
  rw [past_validateHyper]
  rcases i.validateHyper with ⟨j, r⟩
  cases r with
  | error e => rfl
  | ok u => exact past_validateFigure s o b hs j E

end

/-- validation leaves the results alone -/
theorem validate_results (E : Env) (i : Inst) :
    let j := (i.validateSettings E).1
    j.solution = i.solution ∧ j.objVals = i.objVals ∧ j.bestStrategy = i.bestStrategy ∧ j.heights = i.heights := by
  have h : (i.validateSettings E).1 = ((i.past i.solution i.objVals i.bestStrategy i.heights).validateSettings E).1 := rfl
  rw [past_validate] at h
  intro j
  exact ⟨(congrArg Inst.solution h :), (congrArg Inst.objVals h :), (congrArg Inst.bestStrategy h :),
    (congrArg Inst.heights h :)⟩

theorem kin_validate (E : Env) {i k i' k' : Inst} (h : Kin i k i' k') :
    KinOut i k (i'.validateSettings E) (k'.validateSettings E) := by
  refine h.lift (f := Inst.validateSettings E) fun s o b hs j => ?_
  rw [past_validate]
  obtain ⟨h1, h2, h3, h4⟩ := validate_results E j
  exact ⟨⟨⟨s, o, b, hs, rfl⟩, .inr ⟨h1, h2, rfl, rfl⟩, .inr ⟨h3, rfl⟩, .inr ⟨h4, rfl⟩⟩, rfl⟩

/-! ### sorting and orienting -/

theorem kin_sortItems (A : Arith) (by_ : Option (PyVal × Bool)) {i k i' k' : Inst} (h : Kin i k i' k') :
    KinOut i k (i'.sortItems A by_) (k'.sortItems A by_) := by
  refine h.lift (f := Inst.sortItems A by_) fun s o b hs j => ?_
  unfold Inst.sortItems
  cases by_ with
  | none => kin
  | some p =>
    obtain ⟨by_, rev⟩ := p
    simp only []
    cases sortKey? A by_ with
    | none => kin
    | some f => exact past_assign s o b hs j .items _

theorem kin_orientLoop {i k : Inst} (turn : Nat → Nat → Bool) : ∀ (ids : List String) {i' k' : Inst}, Kin i k i' k' →
    KinOut i k (Inst.orientLoop turn ids i') (Inst.orientLoop turn ids k')
  | [], _, _, h => ⟨h, rfl⟩
  | id :: ids, i', k', h => by
    unfold Inst.orientLoop
    obtain ⟨s, o, b, hs, e⟩ := h.same
    have hit : k'.items = i'.items := by rw [e]; rfl
    rw [hit]
    cases PyDict.find? i'.items id with
    | none => exact ⟨h, rfl⟩
    | some d =>
      simp only []
      split
      · obtain ⟨h1, h2⟩ := h.lift (f := Inst.setDim .items (.str id) (.str "w") (.int d.l)) fun s o b hs j =>
          past_setDim s o b hs j .items (.str id) (.str "w") (.int d.l)
        rcases e1 : i'.setDim .items (.str id) (.str "w") (.int d.l) with ⟨j, r⟩
        rcases e2 : k'.setDim .items (.str id) (.str "w") (.int d.l) with ⟨j', r'⟩
        rw [e1, e2] at h1 h2
        simp only at h1 h2
        subst h2
        cases r' with
        | error e => exact ⟨h1, rfl⟩
        | ok u =>
          simp only []
          obtain ⟨h3, h4⟩ := h1.lift (f := Inst.setDim .items (.str id) (.str "l") (.int d.w)) fun s o b hs j =>
            past_setDim s o b hs j .items (.str id) (.str "l") (.int d.w)
          rcases e3 : j.setDim .items (.str id) (.str "l") (.int d.w) with ⟨l, r⟩
          rcases e4 : j'.setDim .items (.str id) (.str "l") (.int d.w) with ⟨l', r'⟩
          rw [e3, e4] at h3 h4
          simp only at h3 h4
          subst h4
          cases r' with
          | error e => exact ⟨h3, rfl⟩
          | ok u => exact kin_orientLoop turn ids h3
      · exact kin_orientLoop turn ids h

theorem kin_orientItems (v : PyVal) {i k i' k' : Inst} (h : Kin i k i' k') :
    KinOut i k (i'.orientItems v) (k'.orientItems v) := by
  unfold Inst.orientItems
  obtain ⟨s, o, b, hs, e⟩ := h.same
  have hit : k'.items = i'.items := by rw [e]; rfl
  have hr : k'.rotation = i'.rotation := by rw [e]; rfl
  rw [hit, hr]
  split
  · exact ⟨h, rfl⟩
  · split
    · exact ⟨h, rfl⟩
    · split
      · exact kin_orientLoop _ _ h
      · split
        · exact kin_orientLoop _ _ h
        · exact ⟨h, rfl⟩

/-! ### solving -/

/-- another best strategy and other heights -/
def Inst.tail (b : Option (Option (List PClass))) (hs : List Nat) (i : Inst) : Inst :=
  { i with bestStrategy := b, heights := hs }

/-- another best strategy -/
def Inst.setBest (b : Option (Option (List PClass))) (i : Inst) : Inst := { i with bestStrategy := b }

theorem past_solve (A : Arith) (seq : Option (List String)) (s : Solution) (o : ObjVals)
    (b : Option (Option (List PClass))) (hs : List Nat) (i : Inst) :
    (i.past s o b hs).solve A seq = (i.solve A seq).map (Inst.tail b hs) := by
  unfold Inst.solve
  show (do let r ← HP.solve A i.solveIn seq; _) = _
  cases HP.solve A i.solveIn seq <;> rfl

/-- in bin packing neither is used -/
theorem tailHom (A : Arith) (b : Option (Option (List PClass))) (hs : List Nat) :
    InstHom A (Inst.tail b hs) id id id (fun i => i.strip = false) where
  solve i seq _ := by
    have hid : seq.map (List.map id) = seq := by cases seq <;> simp
    rw [hid]
    exact past_solve A seq i.solution i.objVals b hs i
  calcObj _ _ := rfl
  deepcopy i sol _ := by
    show i.deepcopySolution sol = _
    cases i.deepcopySolution sol <;> rfl
  copyVals _ := rfl
  compare _ _ _ _ := rfl
  extra i hP := by
    obtain ⟨strip, cs, its, ht, mh, hs, set, rot, mt, w, pi, po, ki, ko, str, n, sol, ov, bs⟩ := i
    have hP : strip = false := hP
    subst hP
    rfl
  keys _ _ := by rw [List.map_id]; rfl
  fuel _ _ := rfl
  solution _ := rfl
  objVals _ := rfl
  strip _ := rfl
  maxTime _ := rfl
  workers _ := rfl
  height _ _ _ := rfl
  set_strategy _ _ := rfl
  set_heights _ _ h hP := by rw [hP] at h; cases h
  set_result _ _ _ := rfl
  frame i j h _ _ hP := by rw [h]; exact hP

/-- the best strategy is not used -/
theorem bestHom (A : Arith) (b : Option (Option (List PClass))) :
    InstHom A (Inst.setBest b) id id id (fun _ => True) where
  solve i seq _ := by
    have hid : seq.map (List.map id) = seq := by cases seq <;> simp
    rw [hid]
    unfold Inst.solve
    show (do let r ← HP.solve A i.solveIn seq; _) = _
    cases HP.solve A i.solveIn seq <;> rfl
  calcObj _ _ := rfl
  deepcopy i sol _ := by
    show i.deepcopySolution sol = _
    cases i.deepcopySolution sol <;> rfl
  copyVals _ := rfl
  compare _ _ _ _ := rfl
  extra i _ := by
    obtain ⟨strip, cs, its, ht, mh, hs, set, rot, mt, w, pi, po, ki, ko, str, n, sol, ov, bs⟩ := i
    unfold Inst.extraNode Inst.setHeight Inst.setBest
    simp only [bind, Except.bind, pure, Except.pure]
    cases strip with
    | false => rfl
    | true =>
      simp only [if_true]
      by_cases hsol : sol = []
      · simp only [if_pos hsol]
        cases PyDict.getE cs stripId <;> rfl
      · simp only [if_neg hsol]
        cases PyDict.getE sol stripId with
        | error e => rfl
        | ok m => cases mh <;> rfl
  keys _ _ := by rw [List.map_id]; rfl
  fuel _ _ := rfl
  solution _ := rfl
  objVals _ := rfl
  strip _ := rfl
  maxTime _ := rfl
  workers _ := rfl
  height _ _ _ := rfl
  set_strategy _ _ := rfl
  set_heights _ _ _ _ := rfl
  set_result _ _ _ := rfl
  frame _ _ _ _ _ _ := trivial

theorem setRes_initSolution (A : Arith) (s : Solution) (o : ObjVals) (i : Inst) :
    ({ i with solution := s, objVals := o } : Inst).initSolution A = i.initSolution A := rfl

theorem lsRun_init {σ ρ : Type} {O : LSOps σ ρ} {C : LSParams} {fuel : Nat} {seq : List String} {throttle : Bool} {x y : σ}
    (h : O.init x = O.init y) : lsRun O C fuel seq throttle x = lsRun O C fuel seq throttle y := by
  unfold lsRun
  rw [h]

theorem setRes_localSearch (A : Arith) (clock : Nat → Rat) (start : Rat) (throttle : Bool) (s : Solution) (o : ObjVals)
    (i : Inst) : ({ i with solution := s, objVals := o } : Inst).localSearch A clock start throttle =
      i.localSearch A clock start throttle := by
  rw [localSearch_prep, localSearch_prep]
  have e : ({ i with solution := s, objVals := o } : Inst).prep = { i.prep with solution := s, objVals := o } := by
    unfold Inst.prep
    by_cases h : i.strip = true <;> simp [h]
  rw [e]
  have := lsRun_init (O := instOps A) (C := ⟨A, clock, start, i.prep.maxTime⟩) (fuel := lsFuel i.prep)
    (seq := PyDict.keys i.prep.items) (throttle := throttle) (setRes_initSolution A s o i.prep)
  exact congrArg (Except.map _) this

theorem heights_localSearch (A : Arith) (clock : Nat → Rat) (start : Rat) (throttle : Bool) (hs : List Nat) (i : Inst)
    (h : i.strip = true) : ({ i with heights := hs } : Inst).localSearch A clock start throttle =
      i.localSearch A clock start throttle := by
  rw [localSearch_prep, localSearch_prep]
  have e : ({ i with heights := hs } : Inst).prep = i.prep := by
    unfold Inst.prep
    rw [if_pos h, if_pos h]
  rw [e]

theorem kin_solve (A : Arith) (seq : Option (List String)) {i k : Inst} (h : ∃ s o b hs, k = i.past s o b hs) :
    KinOut i k (step A i (.solve seq)) (step A k (.solve seq)) ∧
    ((step A i (.solve seq)).2 = .ok → (step A k (.solve seq)).1.solution = (step A i (.solve seq)).1.solution ∧
      (step A k (.solve seq)).1.objVals = (step A i (.solve seq)).1.objVals) := by
  obtain ⟨s, o, b, hs, rfl⟩ := h
  simp only [step]
  rw [past_solve]
  cases hr : i.solve A seq with
  | error e => exact ⟨⟨.refl ⟨_, _, _, _, rfl⟩, rfl⟩, nofun⟩
  | ok j =>
    have hj : j.bestStrategy = i.bestStrategy ∧ j.heights = i.heights := by
      unfold Inst.solve at hr
      simp only [bind, Except.bind, pure, Except.pure] at hr
      cases hs : HP.solve A i.solveIn seq with
      | error e => rw [hs] at hr; cases hr
      | ok r => rw [hs] at hr; injection hr with hr; subst hr; exact ⟨rfl, rfl⟩
    exact ⟨⟨⟨⟨_, _, _, _, rfl⟩, .inl ⟨rfl, rfl⟩, .inr ⟨hj.1, rfl⟩, .inr ⟨hj.2, rfl⟩⟩, rfl⟩, fun _ => ⟨rfl, rfl⟩⟩

/-- a local search of the object with other results -/
theorem past_localSearch (A : Arith) (clock : Nat → Rat) (start : Rat) (throttle : Bool) (s : Solution) (o : ObjVals)
    (b : Option (Option (List PClass))) (hs : List Nat) (i : Inst) :
    (i.past s o b hs).localSearch A clock start throttle =
      if i.strip then (i.localSearch A clock start throttle).map
          (fun r => (r.1.setBest b, r.2.hom (Inst.setBest b) (Prod.map id id) id))
      else (i.localSearch A clock start throttle).map
          (fun r => (r.1.tail b hs, r.2.hom (Inst.tail b hs) (Prod.map id id) id)) := by
  rw [show i.past s o b hs = { i.tail b hs with solution := s, objVals := o } from rfl, setRes_localSearch]
  split
  · rename_i h
    rw [show i.tail b hs = { i.setBest b with heights := hs } from rfl, heights_localSearch A _ _ _ _ (i.setBest b) h]
    exact ((bestHom A b).localSearch clock start throttle trivial).1
  · rename_i h
    exact ((tailHom A b hs).localSearch clock start throttle (by simpa using h)).1

/-- what a local search leaves alone -/
theorem localSearch_kept {A : Arith} {clock : Nat → Rat} {start : Rat} {throttle : Bool} {i : Inst}
    {r : Inst × LSState Inst (Solution × ObjVals)} (h : i.localSearch A clock start throttle = .ok r) :
    r.1.bestStrategy = i.bestStrategy ∧ (i.strip = false → r.1.heights = i.heights) := by
  have e := past_localSearch A clock start throttle i.solution i.objVals i.bestStrategy i.heights i
  rw [show i.past i.solution i.objVals i.bestStrategy i.heights = i from rfl, h] at e
  split at e
  · injection e with e
    have e1 : r.1 = r.1.setBest i.bestStrategy := congrArg Prod.fst e
    refine ⟨(congrArg Inst.bestStrategy e1 :), ?_⟩
    intro hb
    rename_i h
    rw [hb] at h
    cases h
  · injection e with e
    have e1 : r.1 = r.1.tail i.bestStrategy i.heights := congrArg Prod.fst e
    exact ⟨(congrArg Inst.bestStrategy e1 :), fun _ => (congrArg Inst.heights e1 :)⟩

theorem kin_localSearch (A : Arith) (clock : Nat → Rat) (throttle : Bool) {i k : Inst}
    (h : ∃ s o b hs, k = i.past s o b hs) :
    KinOut i k (step A i (.localSearch clock throttle)) (step A k (.localSearch clock throttle)) ∧
    ((step A i (.localSearch clock throttle)).2 = .ok →
      (step A k (.localSearch clock throttle)).1.solution = (step A i (.localSearch clock throttle)).1.solution ∧
      (step A k (.localSearch clock throttle)).1.objVals = (step A i (.localSearch clock throttle)).1.objVals) := by
  obtain ⟨s, o, b, hs, rfl⟩ := h
  simp only [step]
  rw [past_localSearch]
  cases hr : i.localSearch A (fun k => clock (k + 1)) (clock 0) throttle with
  | error e =>
    cases i.strip <;> exact ⟨⟨.refl ⟨_, _, _, _, rfl⟩, rfl⟩, nofun⟩
  | ok r =>
    obtain ⟨h1, h2⟩ := localSearch_kept hr
    by_cases hst : i.strip = true
    · simp only [hst, if_true]
      exact ⟨⟨⟨⟨_, _, _, _, rfl⟩, .inl ⟨rfl, rfl⟩, .inr ⟨h1, rfl⟩, .inl rfl⟩, rfl⟩, fun _ => ⟨rfl, rfl⟩⟩
    · have hst' : i.strip = false := by simpa using hst
      simp only [hst', Bool.false_eq_true, if_false]
      exact ⟨⟨⟨⟨_, _, _, _, rfl⟩, .inl ⟨rfl, rfl⟩, .inr ⟨h1, rfl⟩, .inr ⟨h2 hst', rfl⟩⟩, rfl⟩, fun _ => ⟨rfl, rfl⟩⟩

/-! ### hypersearch -/

theorem setRes_singleHS (A : Arith) (clock : Nat → Rat) (start : Rat) (throttle : Bool) (sts : List (List PClass))
    (s : Solution) (o : ObjVals) (i : Inst) :
    ({ i with solution := s, objVals := o } : Inst).singleHS A clock start throttle sts =
      i.singleHS A clock start throttle sts := rfl

theorem tail_initSolution (A : Arith) (b : Option (Option (List PClass))) (hs : List Nat) (i : Inst) :
    (i.tail b hs).initSolution A = (i.initSolution A).map (fun r => (r.1.tail b hs, r.2)) := by
  have h := past_solve A none i.solution i.objVals b hs i
  have h : (i.tail b hs).solve A none = _ := h
  unfold Inst.initSolution
  simp only [bind, Except.bind, pure, Except.pure]
  rw [h]
  cases i.solve A none with
  | error e => rfl
  | ok j =>
    simp only [Except.map]
    have : (j.tail b hs).getSolution = j.getSolution := rfl
    rw [this]
    cases j.getSolution <;> rfl

theorem initSolution_strip {A : Arith} {i : Inst} {r : Inst × Solution × ObjVals} (h : i.initSolution A = .ok r) :
    r.1.strip = i.strip := by
  unfold Inst.initSolution at h
  simp only [bind, Except.bind, pure, Except.pure] at h
  cases hs : i.solve A none with
  | error e => rw [hs] at h; cases h
  | ok j =>
    rw [hs] at h
    simp only at h
    cases hg : j.getSolution with
    | error e => rw [hg] at h; cases h
    | ok x =>
      rw [hg] at h
      injection h with h
      subst h
      exact (solve_frame hs).1

theorem heights_singleHS (A : Arith) (clock : Nat → Rat) (start : Rat) (throttle : Bool) (sts : List (List PClass))
    (hne : sts ≠ []) (hs : List Nat) (i : Inst) (h : i.strip = true) :
    ({ i with heights := hs } : Inst).singleHS A clock start throttle sts = i.singleHS A clock start throttle sts := by
  have hi : ({ i with heights := hs } : Inst).initSolution A = _ := tail_initSolution A i.bestStrategy hs i
  unfold Inst.singleHS
  simp only [bind, Except.bind]
  rw [hi]
  cases hr : i.initSolution A with
  | error e => rfl
  | ok r =>
    simp only [Except.map]
    have hst := (initSolution_strip hr).trans h
    have hb : r.1.bestStrategy = i.bestStrategy := by
      have e : i.initSolution A = (i.initSolution A).map _ := tail_initSolution A i.bestStrategy i.heights i
      rw [hr] at e
      injection e with e
      have e1 : r.1 = r.1.tail i.bestStrategy i.heights := congrArg Prod.fst e
      exact (congrArg Inst.bestStrategy e1 :)
    have ho : (r.1.tail i.bestStrategy hs).calcObj A = r.1.calcObj A := rfl
    rw [ho]
    cases r.1.calcObj A with
    | error e => rfl
    | ok best =>
      simp only []
      cases sts with
      | nil => exact absurd rfl hne
      | cons st rest =>
        have e : ({ r.1.tail i.bestStrategy hs with strategy := st } : Inst) =
            { ({ r.1 with strategy := st } : Inst) with heights := hs } := by
          unfold Inst.tail
          rw [← hb]
        have hstep : hsStep A clock start throttle st ⟨r.1.tail i.bestStrategy hs, best, r.2, defaultStrategy, 0, []⟩ =
            hsStep A clock start throttle st ⟨r.1, best, r.2, defaultStrategy, 0, []⟩ := by
          unfold hsStep
          simp only [bind, Except.bind, pure, Except.pure]
          rw [e, heights_localSearch A _ _ _ _ { r.1 with strategy := st } hst]
        unfold hsLoop
        rw [hstep]

/-- a hypersearch of the object with other results -/
theorem past_singleHS (A : Arith) (clock : Nat → Rat) (start : Rat) (throttle : Bool) (sts : List (List PClass))
    (hne : sts ≠ []) (s : Solution) (o : ObjVals) (b : Option (Option (List PClass))) (hs : List Nat) (i : Inst) :
    (i.past s o b hs).singleHS A clock start throttle sts =
      if i.strip then (i.singleHS A clock start throttle sts).map (HSState.hom (Inst.setBest b) (Prod.map id id))
      else (i.singleHS A clock start throttle sts).map (HSState.hom (Inst.tail b hs) (Prod.map id id)) := by
  rw [show i.past s o b hs = { i.tail b hs with solution := s, objVals := o } from rfl, setRes_singleHS]
  split
  · rename_i h
    rw [show i.tail b hs = { i.setBest b with heights := hs } from rfl, heights_singleHS A _ _ _ _ hne _ (i.setBest b) h]
    exact (bestHom A b).singleHS clock start throttle sts trivial
  · rename_i h
    exact (tailHom A b hs).singleHS clock start throttle sts (by simpa using h)

theorem kin_search (A : Arith) (h : HSArgs) {i k i' k' : Inst} (hk : Kin i k i' k') :
    KinOut i k (i'.search A h) (k'.search A h) ∧
    ((i'.search A h).2 = .ok → (k'.search A h).1.solution = (i'.search A h).1.solution ∧
      (k'.search A h).1.objVals = (i'.search A h).1.objVals ∧
      (k'.search A h).1.bestStrategy = (i'.search A h).1.bestStrategy) := by
  obtain ⟨s, o, b, hs, rfl⟩ := hk.same
  have kin : ∀ {r r' : Inst × Outcome}, KinOut i' (i'.past s o b hs) r r' → KinOut i k r r' :=
    fun h => ⟨hk.trans h.1, h.2⟩
  have hne := (pool_nodup h.order h.orderPerm i'.strip h.exhaustive).2
  unfold Inst.search
  have hs1 : (i'.past s o b hs).strip = i'.strip := rfl
  have hs2 : (i'.past s o b hs).workers = i'.workers := rfl
  simp only [hs1, hs2]
  generalize getStrategies h.order i'.strip h.exhaustive = sts at hne ⊢
  split
  · rw [past_singleHS A _ _ _ _ hne]
    cases hr : i'.singleHS A (fun k => h.clock (k + 1)) (h.clock 0) h.throttle sts with
    | error e => cases i'.strip <;> exact ⟨kin ⟨.refl ⟨_, _, _, _, rfl⟩, rfl⟩, nofun⟩
    | ok x =>
      by_cases hst : i'.strip = true
      · simp only [hst, if_true]
        exact ⟨kin ⟨⟨⟨_, _, _, _, rfl⟩, .inl ⟨rfl, rfl⟩, .inl rfl, .inl rfl⟩, rfl⟩, fun _ => ⟨rfl, rfl, rfl⟩⟩
      · have hst' : i'.strip = false := by simpa using hst
        simp only [hst', Bool.false_eq_true, if_false]
        have hh : x.inst.heights = i'.heights := by
          have e := past_singleHS A (fun k => h.clock (k + 1)) (h.clock 0) h.throttle sts hne i'.solution i'.objVals
            i'.bestStrategy i'.heights i'
          rw [show i'.past i'.solution i'.objVals i'.bestStrategy i'.heights = i' from rfl, hr, if_neg hst] at e
          injection e with e
          have e1 : x.inst = x.inst.tail i'.bestStrategy i'.heights := congrArg HSState.inst e
          exact (congrArg Inst.heights e1 :)
        exact ⟨kin ⟨⟨⟨_, _, _, _, rfl⟩, .inl ⟨rfl, rfl⟩, .inl rfl, .inr ⟨hh, rfl⟩⟩, rfl⟩, fun _ => ⟨rfl, rfl, rfl⟩⟩
  · have hm : (i'.past s o b hs).multiHS h.env (h.mp A) sts h.schedule = i'.multiHS h.env (h.mp A) sts h.schedule := rfl
    rw [hm]
    cases i'.multiHS h.env (h.mp A) sts h.schedule with
    | returned sol ov st =>
      exact ⟨kin ⟨⟨⟨_, _, _, _, rfl⟩, .inl ⟨rfl, rfl⟩, .inl rfl, .inr ⟨rfl, rfl⟩⟩, rfl⟩, fun _ => ⟨rfl, rfl, rfl⟩⟩
    | raised e => exact ⟨kin ⟨.refl ⟨_, _, _, _, rfl⟩, rfl⟩, nofun⟩
    | blocked => exact ⟨kin ⟨.refl ⟨_, _, _, _, rfl⟩, rfl⟩, nofun⟩

theorem kin_hypersearch (A : Arith) (h : HSArgs) {i k : Inst}
    (hk : ∃ s o b hs, k = i.past s o b hs) :
    KinOut i k (i.hypersearch A h) (k.hypersearch A h) ∧
    ((i.hypersearch A h).2 = .ok → (k.hypersearch A h).1.solution = (i.hypersearch A h).1.solution ∧
      (k.hypersearch A h).1.objVals = (i.hypersearch A h).1.objVals ∧
      (k.hypersearch A h).1.bestStrategy = (i.hypersearch A h).1.bestStrategy) := by
  unfold Inst.hypersearch
  obtain ⟨h1, h2⟩ := kin_sortItems A h.sortingBy (Kin.refl hk)
  rcases e1 : i.sortItems A h.sortingBy with ⟨j, r⟩
  rcases e2 : k.sortItems A h.sortingBy with ⟨j', r'⟩
  rw [e1, e2] at h1 h2
  simp only at h1 h2
  subst h2
  cases r' with
  | error e => exact ⟨⟨h1, rfl⟩, nofun⟩
  | ok u =>
    simp only []
    obtain ⟨h3, h4⟩ := kin_orientItems h.orientation h1
    rcases e3 : j.orientItems h.orientation with ⟨l, r⟩
    rcases e4 : j'.orientItems h.orientation with ⟨l', r'⟩
    rw [e3, e4] at h3 h4
    simp only at h3 h4
    subst h4
    cases r' with
    | error e => exact ⟨⟨h3, rfl⟩, nofun⟩
    | ok u => exact kin_search A h h3

end HP
