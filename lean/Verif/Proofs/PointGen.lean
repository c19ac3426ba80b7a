import Verif.SpecPointGen
/-
`PointGenPack` objects are `HyperPack` objects with other settings.
-/
namespace HP

/-- other settings, time limit and number of workers -/
def Inst.over (s : PyVal) (t : Int) (w : PyVal) (i : Inst) : Inst :=
  { i with settings := s, maxTime := t, workers := w }

section over
variable (s : PyVal) (t : Int) (w : PyVal) (i : Inst)

@[simp] theorem over_resetSol : (i.over s t w).resetSol = i.resetSol.over s t w := rfl
@[simp] theorem over_data (k : SKind) : (i.over s t w).data k = i.data k := by cases k <;> rfl
@[simp] theorem over_setData (k : SKind) (d) : (i.over s t w).setData k d = (i.setData k d).over s t w := by
  cases k <;> rfl
@[simp] theorem over_resetAttrs (k : SKind) : (i.over s t w).resetAttrs k = (i.resetAttrs k).over s t w := by
  cases k <;> rfl
@[simp] theorem over_strip : (i.over s t w).strip = i.strip := rfl

theorem over_assign (k : SKind) (v : PyVal) :
    (i.over s t w).assign k v = ((i.assign k v).1.over s t w, (i.assign k v).2) := by
  obtain ⟨st⟩ := i
  unfold Inst.assign
  rcases h : buildStructure k v with ⟨b, r⟩
  cases st <;> cases k <;> cases b <;> cases r <;> rfl

theorem over_setKey (k : SKind) (id v : PyVal) :
    (i.over s t w).setKey k id v = ((i.setKey k id v).1.over s t w, (i.setKey k id v).2) := by
  obtain ⟨st⟩ := i
  unfold Inst.setKey
  cases id.asStr? <;> cases mkDims k v <;> cases st <;> cases k <;> rfl

theorem over_delKey (k : SKind) (key : PyVal) :
    (i.over s t w).delKey k key = ((i.delKey k key).1.over s t w, (i.delKey k key).2) := by
  unfold Inst.delKey
  simp only [over_data, over_setData, over_resetAttrs]
  by_cases hl : (i.data k).length = 1
  · simp only [if_pos hl]
  · simp only [if_neg hl]
    cases h : lookupKey (i.data k) key <;> simp [h]

theorem over_setDim (k : SKind) (id key v : PyVal) :
    (i.over s t w).setDim k id key v = ((i.setDim k id key v).1.over s t w, (i.setDim k id key v).2) := by
  unfold Inst.setDim
  simp only [over_strip, over_data, over_setData]
  cases h : lookupKey (i.data k) id with
  | error e => rfl
  | ok p =>
    obtain ⟨a, d⟩ := p
    obtain ⟨st⟩ := i
    simp only []
    cases key.hashable <;> cases key.eqStr k.width <;> cases key.eqStr k.length <;> cases v.posInt? <;>
      cases st <;> cases k <;> rfl

theorem over_delDim (k : SKind) (id : PyVal) :
    (i.over s t w).delDim k id = ((i.delDim k id).1.over s t w, (i.delDim k id).2) := by
  unfold Inst.delDim
  simp only [over_data]
  cases h : lookupKey (i.data k) id <;> rfl

theorem over_popKey (k : SKind) (key : PyVal) (d : Bool) :
    (i.over s t w).popKey k key d = ((i.popKey k key d).1.over s t w, (i.popKey k key d).2) := by
  unfold Inst.popKey
  simp only [over_data, over_delKey]
  split <;> rfl

theorem over_popItem (k : SKind) :
    (i.over s t w).popItem k = ((i.popItem k).1.over s t w, (i.popItem k).2) := by
  unfold Inst.popItem
  simp only [over_data, over_delKey]
  split <;> rfl

theorem over_clearLoop (k : SKind) (n : Nat) :
    ∀ i : Inst, Inst.clearLoop k n (i.over s t w) = ((Inst.clearLoop k n i).1.over s t w, (Inst.clearLoop k n i).2) := by
  induction n with
  | zero => intro i; rfl
  | succ n ih =>
    intro i
    unfold Inst.clearLoop
    rw [over_popItem]
    rcases h : i.popItem k with ⟨j, r⟩
    cases r with
    | ok u => exact ih j
    | error e => cases e <;> rfl

theorem over_clear (k : SKind) :
    (i.over s t w).clear k = ((i.clear k).1.over s t w, (i.clear k).2) := by
  unfold Inst.clear
  rw [over_data, over_clearLoop]

theorem over_update (k : SKind) (es : List (PyVal × PyVal)) :
    ∀ i : Inst, Inst.update k es (i.over s t w) = ((Inst.update k es i).1.over s t w, (Inst.update k es i).2) := by
  induction es with
  | nil => intro i; rfl
  | cons p es ih =>
    intro i
    obtain ⟨id, v⟩ := p
    unfold Inst.update
    rw [over_setKey]
    rcases h : i.setKey k id v with ⟨j, r⟩
    cases r with
    | ok u => exact ih j
    | error e => rfl

theorem over_updateDim (k : SKind) (id : PyVal) (es : List (PyVal × PyVal)) :
    ∀ i : Inst, Inst.updateDim k id es (i.over s t w) =
      ((Inst.updateDim k id es i).1.over s t w, (Inst.updateDim k id es i).2) := by
  induction es with
  | nil =>
    intro i
    unfold Inst.updateDim
    rw [over_data]
    split <;> rfl
  | cons p es ih =>
    intro i
    obtain ⟨key, v⟩ := p
    unfold Inst.updateDim
    rw [over_setDim]
    rcases h : i.setDim k id key v with ⟨j, r⟩
    cases r with
    | ok u => exact ih j
    | error e => rfl

theorem over_setDefault (k : SKind) (key v : PyVal) :
    (i.over s t w).setDefault k key v = ((i.setDefault k key v).1.over s t w, (i.setDefault k key v).2) := by
  unfold Inst.setDefault
  rw [over_data, over_setKey]
  split <;> rfl

theorem over_assignHeight (v : PyVal) :
    (i.over s t w).assignHeight v = ((i.assignHeight v).1.over s t w, (i.assignHeight v).2) := by
  obtain ⟨st, cs, its, h, mh⟩ := i
  unfold Inst.assignHeight Inst.over
  cases v.atLeastOne? with
  | none => rfl
  | some n =>
    cases mh with
    | none => rfl
    | some m => simp only []; split <;> rfl

theorem over_assignMinHeight (v : PyVal) :
    (i.over s t w).assignMinHeight v = ((i.assignMinHeight v).1.over s t w, (i.assignMinHeight v).2) := by
  obtain ⟨st, cs, its, h, mh⟩ := i
  unfold Inst.assignMinHeight Inst.over
  cases v.atLeastOne? with
  | none => rfl
  | some n =>
    cases h with
    | none => rfl
    | some m => simp only []; split <;> rfl

theorem over_resetHeight :
    (i.over s t w).resetHeight = (i.resetHeight.1.over s t w, i.resetHeight.2) := by
  unfold Inst.resetHeight Inst.over
  simp only []
  split
  · cases PyDict.find? i.containers stripId <;> rfl
  · rfl

theorem over_assignStrategy (v : PyVal) :
    (i.over s t w).assignStrategy v = ((i.assignStrategy v).1.over s t w, (i.assignStrategy v).2) := by
  unfold Inst.assignStrategy
  cases v.asTuple? with
  | none => rfl
  | some l => simp only []; cases checkStrategy l [] <;> rfl

theorem over_solve (A : Arith) (seq : Option (List String)) :
    (i.over s t w).solve A seq = (i.solve A seq).map (Inst.over s t w) := by
  unfold Inst.solve
  show (do let r ← HP.solve A i.solveIn seq; _) = _
  cases HP.solve A i.solveIn seq <;> rfl

theorem over_getHeight (cid : String) : (i.over s t w).getHeight cid = i.getHeight cid := rfl

theorem over_logContainers (cs : PyDict String Dim) : logContainers (i.over s t w) cs = logContainers i cs := by
  induction cs with
  | nil => rfl
  | cons p cs ih =>
    obtain ⟨cid, c⟩ := p
    unfold logContainers
    rw [ih]; rfl

theorem over_logSolution : (i.over s t w).logSolution = i.logSolution := by
  unfold Inst.logSolution
  simp only [over_logContainers]
  rfl

theorem over_drawAll (writes : String → String → Bool) (ex : PyVal) (sh : Bool) (cs : PyDict String Dim) :
    drawAll writes (i.over s t w) ex sh cs = drawAll writes i ex sh cs := by
  induction cs with
  | nil => rfl
  | cons p cs ih =>
    obtain ⟨cid, c⟩ := p
    unfold drawAll
    rw [ih]; rfl

end over

/-- the calls that neither read nor change the settings, and that both classes have -/
def Op.plain : Op → Bool
  | .settings _ _ => false
  | .editSettings _ => false
  | .validate _ => false
  | .figure _ _ => false
  | .localSearch _ _ => false
  | .sortItems _ => false
  | .orientItems _ => false
  | .hypersearch _ => false
  | _ => true

theorem over_step (A : Arith) (s : PyVal) (t : Int) (w : PyVal) (i : Inst) (o : Op) (ho : o.plain = true) :
    step A (i.over s t w) o = ((step A i o).1.over s t w, (step A i o).2) := by
  cases o with
  | assign k v => simp only [step, outcomeOf, over_assign]
  | setKey k id v => simp only [step, outcomeOf, over_setKey]
  | delKey k key => simp only [step, outcomeOf, over_delKey]
  | setDim k id key v => simp only [step, outcomeOf, over_setDim]
  | delDim k id => simp only [step, outcomeOf, over_delDim]
  | popKey k key d => simp only [step, outcomeOf, over_popKey]
  | popItem k => simp only [step, outcomeOf, over_popItem]
  | clear k => simp only [step, outcomeOf, over_clear]
  | update k es => simp only [step, outcomeOf, over_update]
  | updateDim k id es => simp only [step, outcomeOf, over_updateDim]
  | setDefault k key v => simp only [step, outcomeOf, over_setDefault]
  | delAttr e => rfl
  | height v => simp only [step, outcomeOf, over_assignHeight]
  | minHeight v => simp only [step, outcomeOf, over_assignMinHeight]
  | resetHeight => simp only [step, outcomeOf, over_resetHeight]
  | strategy v => simp only [step, outcomeOf, over_assignStrategy]
  | solve seq =>
    simp only [step, over_solve]
    cases h : i.solve A seq <;> rfl
  | log => simp only [step, over_logSolution]
  | settings E v => cases ho
  | editSettings v => cases ho
  | validate E => cases ho
  | figure a b => cases ho
  | localSearch a b => cases ho
  | sortItems a => cases ho
  | orientItems a => cases ho
  | hypersearch a => cases ho

/-! ### settings without the entries of the searches -/

theorem eqStr_iff {k : PyVal} {a : String} : k.eqStr a = true ↔ k = .str a := by
  cases k <;> simp [PyVal.eqStr]

theorem get?_without (st : List (PyVal × PyVal)) (key : String) (h1 : key ≠ "max_time_in_seconds")
    (h2 : key ≠ "workers_num") : PyVal.get? (withoutSearch st) key = PyVal.get? st key := by
  induction st with
  | nil => rfl
  | cons p st ih =>
    obtain ⟨k, v⟩ := p
    by_cases hk : k.isSearchKey = true
    · have : k.eqStr key = false := by
        by_contra hc
        rw [Bool.not_eq_false, eqStr_iff] at hc
        subst hc
        unfold PyVal.isSearchKey at hk
        simp [PyVal.eqStr, h1, h2] at hk
      simp only [withoutSearch, List.filter_cons, hk, Bool.not_true, Bool.false_eq_true, if_false, PyVal.get?, this]
      exact ih
    · rw [Bool.not_eq_true] at hk
      simp only [withoutSearch, List.filter_cons, hk, Bool.not_false, if_true, PyVal.get?]
      split
      · rfl
      · exact ih

theorem get?_search (st : List (PyVal × PyVal)) (key : String)
    (h : key = "max_time_in_seconds" ∨ key = "workers_num") : PyVal.get? (withoutSearch st) key = none := by
  induction st with
  | nil => rfl
  | cons p st ih =>
    obtain ⟨k, v⟩ := p
    by_cases hk : k.isSearchKey = true
    · simp only [withoutSearch, List.filter_cons, hk, Bool.not_true, Bool.false_eq_true, if_false]
      exact ih
    · have : k.eqStr key = false := by
        by_contra hc
        rw [Bool.not_eq_false] at hc
        apply hk
        unfold PyVal.isSearchKey
        rcases h with rfl | rfl <;> simp [hc]
      rw [Bool.not_eq_true] at hk
      simp only [withoutSearch, List.filter_cons, hk, Bool.not_false, if_true, PyVal.get?, this]
      exact ih

theorem withoutSearch_setEntry (st : List (PyVal × PyVal)) (key : String) (v : PyVal)
    (h1 : key ≠ "max_time_in_seconds") (h2 : key ≠ "workers_num") :
    withoutSearch (setEntry st key v) = setEntry (withoutSearch st) key v := by
  have hkey : (PyVal.str key).isSearchKey = false := by simp [PyVal.isSearchKey, PyVal.eqStr, h1, h2]
  induction st with
  | nil => simp [setEntry, withoutSearch, hkey]
  | cons p st ih =>
    obtain ⟨k, u⟩ := p
    by_cases hk : k.eqStr key = true
    · have hks := eqStr_iff.1 hk
      subst hks
      simp [setEntry, withoutSearch, List.filter_cons, hkey, hk]
    · rw [Bool.not_eq_true] at hk
      simp only [setEntry, hk, Bool.false_eq_true, if_false]
      by_cases hs : k.isSearchKey = true
      · simp only [withoutSearch, List.filter_cons, hs, Bool.not_true, Bool.false_eq_true, if_false]
        exact ih
      · rw [Bool.not_eq_true] at hs
        simp only [withoutSearch, List.filter_cons, hs, Bool.not_false, if_true, setEntry, hk, Bool.false_eq_true,
          if_false]
        exact congrArg _ ih

/-- the `HyperPack` object that corresponds to a `PointGenPack` object -/
def Inst.asHyper (i : Inst) : Inst := i.over i.settings.withoutSearch 60 (.int 1)

theorem asHyper_plotly (i : Inst) : i.asHyper.plotlyInstalled = i.plotlyInstalled := rfl

theorem asHyper_plotlyOk (i : Inst) : i.asHyper.plotlyOk = i.plotlyOk := rfl

theorem asHyper_settings (i : Inst) : i.asHyper.settings = i.settings.withoutSearch := rfl

theorem asDict_without (v : PyVal) : v.withoutSearch.asDict? = v.asDict?.map withoutSearch := by
  cases v <;> rfl

theorem validateBase_eq {i : Inst} {st : List (PyVal × PyVal)} (h : i.settings.asDict? = some st) :
    i.validateBase = if (PyVal.getD st "rotation").isNone then ({ i with rotation := rotationDefault }, .ok ())
      else match (PyVal.getD st "rotation").asBool? with
        | some b => ({ i with rotation := b }, .ok ())
        | none => (i, settingsErr "ROTATION_TYPE") := by
  unfold Inst.validateBase
  rw [h]
  cases st with
  | nil => rfl
  | cons p st => rfl

theorem getD_without (st : List (PyVal × PyVal)) (key : String) (h1 : key ≠ "max_time_in_seconds")
    (h2 : key ≠ "workers_num") : PyVal.getD (withoutSearch st) key = PyVal.getD st key := by
  unfold PyVal.getD
  rw [get?_without st key h1 h2]

theorem over_validateBase (t : Int) (w : PyVal) (i : Inst) :
    (i.over i.settings.withoutSearch t w).validateBase =
      (i.validateBase.1.over i.settings.withoutSearch t w, i.validateBase.2) := by
  have hset : (i.over i.settings.withoutSearch t w).settings = i.settings.withoutSearch := rfl
  cases h : i.settings.asDict? with
  | none =>
    have h' : (i.over i.settings.withoutSearch t w).settings.asDict? = none := by
      rw [hset, asDict_without, h]; rfl
    unfold Inst.validateBase
    rw [h, h']
  | some st =>
    have h' : (i.over i.settings.withoutSearch t w).settings.asDict? = some (withoutSearch st) := by
      rw [hset, asDict_without, h]; rfl
    rw [validateBase_eq h, validateBase_eq h', getD_without st _ (by decide) (by decide)]
    split
    · rfl
    · split <;> rfl

theorem validateBase_settings (i : Inst) : i.validateBase.1.settings = i.settings := by
  unfold Inst.validateBase
  split
  · rfl
  · split
    · rfl
    · simp only []
      split
      · rfl
      · split <;> rfl

theorem over_validateHyper (t : Int) (w : PyVal) (i : Inst) :
    (i.over i.settings.withoutSearch t w).validateHyper =
      match i.validateBase with
      | (j, .error e) => (j.over j.settings.withoutSearch t w, .error e)
      | (j, .ok ()) => (j.asHyper, .ok ()) := by
  unfold Inst.validateHyper
  rw [over_validateBase]
  have hs := validateBase_settings i
  rcases hb : i.validateBase with ⟨j, r⟩
  rw [hb] at hs
  simp only at hs
  rw [← hs]
  cases r with
  | error e => rfl
  | ok u =>
    simp only []
    cases h : j.settings.asDict? with
    | none =>
      exfalso
      unfold Inst.validateBase at hb
      rw [← hs, h] at hb
      simp [settingsErr] at hb
    | some st =>
      have h' : (j.over j.settings.withoutSearch t w).settings.asDict? = some (withoutSearch st) := by
        show j.settings.withoutSearch.asDict? = _
        rw [asDict_without, h]; rfl
      rw [h']
      simp only [Inst.validateWorkers, PyVal.getD, get?_search st _ (Or.inl rfl), get?_search st _ (Or.inr rfl)]
      simp only [Option.getD_none, PyVal.asInt?, PyVal.isNone, maxTimeDefault, workersDefault, if_true]
      split
      · rfl
      · rfl

theorem asHyper_validateHyper (i : Inst) :
    i.asHyper.validateHyper = (i.validateBase.1.asHyper, i.validateBase.2) := by
  unfold Inst.asHyper
  rw [over_validateHyper]
  rcases i.validateBase with ⟨j, r⟩
  cases r <;> rfl

theorem asHyper_checkVersions (E : Env) (i : Inst) : i.asHyper.checkVersions E = (i.checkVersions E).asHyper := rfl

theorem checkExport2_over (s : PyVal) (t : Int) (w : PyVal) (i : Inst) (ex : List (PyVal × PyVal)) (b : Bool) :
    checkExport2 (i.over s t w) ex b = checkExport2 i ex b := rfl

theorem withoutSearch_setFileName (st fig ex : List (PyVal × PyVal)) (name : String) :
    (PyVal.dict (setFileName st fig ex name)).withoutSearch =
      .dict (setFileName (withoutSearch st) fig ex name) := by
  unfold setFileName
  rw [← withoutSearch_setEntry st "figure" _ (by decide) (by decide)]
  rfl

theorem asHyper_checkExport (E : Env) (i : Inst) (st fig : List (PyVal × PyVal)) :
    i.asHyper.checkExport E (withoutSearch st) fig =
      ((i.checkExport E st fig).1.asHyper, (i.checkExport E st fig).2) := by
  unfold Inst.checkExport
  cases PyVal.get? fig "export" with
  | none => rfl
  | some v =>
    simp only []
    cases v.asDict? with
    | none => rfl
    | some ex =>
      simp only []
      cases checkExport1 E ex with
      | error e => rfl
      | ok html =>
        simp only []
        split
        · refine Prod.ext ?_ rfl
          unfold Inst.asHyper
          simp only [withoutSearch_setFileName]
          rfl
        · split
          · rfl
          · split <;> rfl

theorem asHyper_validateFigure (E : Env) (i : Inst) :
    i.asHyper.validateFigure E = ((i.validateFigure E).1.asHyper, (i.validateFigure E).2) := by
  unfold Inst.validateFigure
  simp only [asHyper_checkVersions]
  cases h : (i.checkVersions E).settings.asDict? with
  | none =>
    have h' : (i.checkVersions E).asHyper.settings.asDict? = none := by rw [asHyper_settings, asDict_without, h]; rfl
    rw [h']
  | some st =>
    have h' : (i.checkVersions E).asHyper.settings.asDict? = some (withoutSearch st) := by
      rw [asHyper_settings, asDict_without, h]; rfl
    rw [h']
    simp only [get?_without st "figure" (by decide) (by decide), asHyper_checkExport, asHyper_plotly, asHyper_plotlyOk]
    split
    · split
      · rfl
      · split
        · rfl
        · split
          · rfl
          · rcases (i.checkVersions E).checkExport E st _ with ⟨a, r⟩
            cases r <;> rfl
    · rfl

theorem asHyper_validateSettings (E : Env) (i : Inst) :
    i.asHyper.validateSettings E = ((i.pgValidate E).1.asHyper, (i.pgValidate E).2) := by
  unfold Inst.validateSettings Inst.pgValidate
  rw [asHyper_validateHyper]
  rcases i.validateBase with ⟨j, r⟩
  cases r with
  | error e => rfl
  | ok u => exact asHyper_validateFigure E j

theorem asHyper_createFigure (writes : String → String → Bool) (sh : Bool) (i : Inst) :
    i.asHyper.createFigure writes sh = i.createFigure writes sh := by
  unfold Inst.createFigure
  cases h : i.settings.asDict? with
  | none =>
    have h' : i.asHyper.settings.asDict? = none := by rw [asHyper_settings, asDict_without, h]; rfl
    rw [h']; rfl
  | some st =>
    have h' : i.asHyper.settings.asDict? = some (withoutSearch st) := by
      rw [asHyper_settings, asDict_without, h]; rfl
    rw [h']
    simp only [get?_without st "figure" (by decide) (by decide), Inst.asHyper, over_drawAll]
    rfl

end HP
