import Verif.Props.Subclass
import Verif.Props.SettingsStored
import Verif.Props.Frame
import Verif.Model.Export
/-
Properties C109 and C110: settings that were rejected, and settings that were changed in place and not
validated.
-/
namespace HP
open Spec

/-! ### the stored settings are read by few calls only -/

/-- the object with other stored settings -/
def Inst.leave (v : PyVal) (i : Inst) : Inst := { i with settings := v }

theorem leave_over (v : PyVal) (i : Inst) : i.leave v = i.over v i.maxTime i.workers := rfl

theorem leaveHom (A : Arith) (v : PyVal) :
    InstHom A (Inst.leave v) id id id (fun _ => True) where
  solve i seq _ := by
    have hid : seq.map (List.map id) = seq := by cases seq <;> simp
    rw [hid]
    unfold Inst.solve
    show (do let r ← HP.solve A i.solveIn seq; _) = _
    cases HP.solve A i.solveIn seq <;> rfl
  calcObj _ _ := rfl
  deepcopy i sol _ := by
    show i.deepcopySolution sol = _
    cases i.deepcopySolution sol <;> rfl
  copyVals _ := rfl
  compare _ _ _ _ := rfl
  extra i _ := by
    obtain ⟨strip, cs, its, ht, mh, hs, set, rot, mt, w, pi, po, ki, ko, str, n, sol, ov, bs⟩ := i
    unfold Inst.extraNode Inst.setHeight Inst.leave
    simp only [bind, Except.bind, pure, Except.pure]
    cases strip with
    | false => rfl
    | true =>
      simp only [if_true]
      by_cases hsol : sol = []
      · simp only [if_pos hsol]
        cases PyDict.getE cs stripId <;> rfl
      · simp only [if_neg hsol]
        cases PyDict.getE sol stripId with
        | error e => rfl
        | ok m => cases mh <;> rfl
  keys _ _ := by rw [List.map_id]; rfl
  fuel _ _ := rfl
  solution _ := rfl
  objVals _ := rfl
  strip _ := rfl
  maxTime _ := rfl
  workers _ := rfl
  height _ _ _ := rfl
  set_strategy _ _ := rfl
  set_heights _ _ _ _ := rfl
  set_result _ _ _ := rfl
  frame _ _ _ _ _ _ := trivial

theorem leave_assign (u : PyVal) (i : Inst) (k : SKind) (v : PyVal) :
    (i.leave u).assign k v = ((i.assign k v).1.leave u, (i.assign k v).2) := by
  have h := over_assign (i := i) (s := i.settings) (t := i.maxTime) (w := i.workers) k v
  have h' := over_assign (i := i) (s := u) (t := i.maxTime) (w := i.workers) k v
  rw [leave_over, h']
  have e : (i.assign k v).1 = (i.assign k v).1.over i.settings i.maxTime i.workers := congrArg Prod.fst h
  conv_rhs => rw [e]
  rfl

theorem leave_setDim (u : PyVal) (i : Inst) (k : SKind) (id key v : PyVal) :
    (i.leave u).setDim k id key v = ((i.setDim k id key v).1.leave u, (i.setDim k id key v).2) := by
  have h := over_setDim (i := i) (s := i.settings) (t := i.maxTime) (w := i.workers) k id key v
  have h' := over_setDim (i := i) (s := u) (t := i.maxTime) (w := i.workers) k id key v
  rw [leave_over, h']
  have e : (i.setDim k id key v).1 = (i.setDim k id key v).1.over i.settings i.maxTime i.workers := congrArg Prod.fst h
  conv_rhs => rw [e]
  rfl

theorem leave_sortItems (A : Arith) (u : PyVal) (i : Inst) (s : Option (PyVal × Bool)) :
    (i.leave u).sortItems A s = ((i.sortItems A s).1.leave u, (i.sortItems A s).2) := by
  unfold Inst.sortItems
  cases s with
  | none => rfl
  | some p =>
    obtain ⟨by_, rev⟩ := p
    simp only []
    cases sortKey? A by_ with
    | none => rfl
    | some f => exact leave_assign u i .items _

theorem leave_orientLoop (u : PyVal) (turn : Nat → Nat → Bool) : ∀ (ids : List String) (i : Inst),
    Inst.orientLoop turn ids (i.leave u) =
      ((Inst.orientLoop turn ids i).1.leave u, (Inst.orientLoop turn ids i).2)
  | [], i => rfl
  | id :: ids, i => by
    unfold Inst.orientLoop
    have hi : (i.leave u).items = i.items := rfl
    rw [hi]
    cases PyDict.find? i.items id with
    | none => rfl
    | some d =>
      simp only []
      split
      · rw [leave_setDim]
        generalize i.setDim .items (.str id) (.str "w") (.int d.l) = x
        obtain ⟨j, r⟩ := x
        cases r with
        | error e => rfl
        | ok _ =>
          simp only []
          rw [leave_setDim]
          generalize j.setDim .items (.str id) (.str "l") (.int d.w) = x
          obtain ⟨k, r⟩ := x
          cases r with
          | error e => rfl
          | ok _ => exact leave_orientLoop u turn ids k
      · exact leave_orientLoop u turn ids i

theorem leave_orientItems (u : PyVal) (i : Inst) (o : PyVal) :
    (i.leave u).orientItems o = ((i.orientItems o).1.leave u, (i.orientItems o).2) := by
  unfold Inst.orientItems
  have hi : (i.leave u).items = i.items := rfl
  have hr : (i.leave u).rotation = i.rotation := rfl
  rw [hi, hr]
  split
  · rfl
  · split
    · rfl
    · split
      · exact leave_orientLoop u _ _ i
      · split
        · exact leave_orientLoop u _ _ i
        · rfl

theorem leave_search (A : Arith) (u : PyVal) (h : HSArgs) (i : Inst) (hw : i.workers.isOne = true) :
    (i.leave u).search A h = ((i.search A h).1.leave u, (i.search A h).2) := by
  unfold Inst.search
  have hw' : (i.leave u).workers.isOne = true := hw
  have hs : (i.leave u).strip = i.strip := rfl
  simp only [hw, hw', if_true, hs]
  rw [(leaveHom A u).singleHS _ _ _ _ trivial]
  cases hr : i.singleHS A (fun k => h.clock (k + 1)) (h.clock 0) h.throttle
      (getStrategies h.order i.strip h.exhaustive) with
  | error e => rfl
  | ok s =>
    show ((HSState.hom (Inst.leave u) (Prod.map id id) s).finish, Outcome.ok) = _
    rw [(leaveHom A u).finish fun _ _ => rfl]

theorem leave_hypersearch (A : Arith) (u : PyVal) (h : HSArgs) (i : Inst) (hw : i.workers.isOne = true) :
    (i.leave u).hypersearch A h = ((i.hypersearch A h).1.leave u, (i.hypersearch A h).2) := by
  unfold Inst.hypersearch
  rw [leave_sortItems]
  have w1 := sortItems_workers A i h.sortingBy
  generalize i.sortItems A h.sortingBy = x at w1 ⊢
  obtain ⟨j, r⟩ := x
  cases r with
  | error e => rfl
  | ok _ =>
    simp only [] at w1 ⊢
    have w2 := (spell_orientItems noRotation j h.orientation).2
    rw [leave_orientItems]
    generalize j.orientItems h.orientation = x at w2 ⊢
    obtain ⟨k, r⟩ := x
    cases r with
    | error e => rfl
    | ok _ =>
      simp only [] at w2 ⊢
      exact leave_search A u h k (by rw [w2, w1]; exact hw)

/-- calls that do not read the stored settings -/
def BlindToSettings (i : Inst) : Op → Prop
  | .settings _ _ | .editSettings _ | .validate _ | .figure _ _ => False
  | .hypersearch _ => SoleWorker i
  | _ => True

theorem soleWorker_isOne {i : Inst} (h : SoleWorker i) : i.workers.isOne = true := by
  rcases h with h | h | h <;> rw [h] <;> rfl

theorem leave_step (A : Arith) (u : PyVal) (i : Inst) (o : Op) (ho : BlindToSettings i o) :
    step A (i.leave u) o = ((step A i o).1.leave u, (step A i o).2) := by
  have plain : o.plain = true → step A (i.leave u) o = ((step A i o).1.leave u, (step A i o).2) := by
    intro h1
    have h5 := over_step A i.settings i.maxTime i.workers i o h1
    have h6 : i.over i.settings i.maxTime i.workers = i := rfl
    rw [h6] at h5
    have e : (step A i o).1 = (step A i o).1.over i.settings i.maxTime i.workers := congrArg Prod.fst h5
    rw [leave_over, over_step A _ _ _ i o h1]
    conv_rhs => rw [e]
    rfl
  cases o with
  | settings E v => exact absurd ho id
  | validate E => exact absurd ho id
  | editSettings v => exact absurd ho id
  | figure a b => exact absurd ho id
  | localSearch clock th =>
    show (match (i.leave u).localSearch A (fun k => clock (k + 1)) (clock 0) th with
      | .ok (j, _) => (j, Outcome.ok)
      | .error e => (i.leave u, .raised e)) = _
    rw [((leaveHom A u).localSearch (fun k => clock (k + 1)) (clock 0) th trivial).1]
    simp only [step]
    cases i.localSearch A (fun k => clock (k + 1)) (clock 0) th <;> rfl
  | sortItems s =>
    show outcomeOf ((i.leave u).sortItems A s) = _
    rw [leave_sortItems]; rfl
  | orientItems o =>
    show outcomeOf ((i.leave u).orientItems o) = _
    rw [leave_orientItems]; rfl
  | hypersearch h => exact leave_hypersearch A u h i (soleWorker_isOne ho)
  | _ => exact plain rfl

/-! ### C109: settings that were rejected -/

/-- `new` is what `R` asks for; if `R` asks for nothing, it is the old value -/
def Takes {α : Type} (R : α → Prop) (old new : α) : Prop := R new ∨ ((∀ a, ¬ R a) ∧ new = old)

theorem checkExport_kept {E : Env} {i : Inst} {st fig : List (PyVal × PyVal)}
    (hs : i.settings = .dict st) (hf : PyVal.get? st "figure" = some (.dict fig)) :
    ∃ st', (i.checkExport E st fig).1.settings = .dict st' ∧ (st' = st ∨ StoredAs st st') := by
  unfold Inst.checkExport
  cases hx : PyVal.get? fig "export" with
  | none => exact ⟨st, hs, Or.inl rfl⟩
  | some v =>
    simp only
    cases hd : v.asDict? with
    | none => exact ⟨st, hs, Or.inl rfl⟩
    | some ex =>
      have hv := asDict_eq.1 hd
      subst hv
      simp only
      cases h1 : checkExport1 E ex with
      | error e => exact ⟨st, hs, Or.inl rfl⟩
      | ok html =>
        simp only
        by_cases hn : (PyVal.getD ex "file_name").isNone = true
        · rw [if_pos hn]
          refine ⟨setFileName st fig ex defaultFileName, rfl, Or.inr (Or.inl ?_)⟩
          refine ⟨fig, ex, _, _, ⟨hf, hx⟩, getD_absent.1 hn,
            ⟨get?_setEntry_self _ _ _, get?_setEntry_self _ _ _⟩, get?_setEntry_self _ _ _, ?_, ?_, ?_⟩ <;>
          · intro k hk; exact get?_setEntry_ne (fun h => hk h.symm) _ _
        · rw [if_neg hn]
          cases h2 : (PyVal.getD ex "file_name").asStr? with
          | none => exact ⟨st, hs, Or.inl rfl⟩
          | some n =>
            simp only
            split <;> exact ⟨st, hs, Or.inl rfl⟩

theorem validateFigure_kept {E : Env} {i : Inst} {st : List (PyVal × PyVal)} (hs : i.settings = .dict st) :
    ∃ st', (i.validateFigure E).1.settings = .dict st' ∧ (st' = st ∨ StoredAs st st') := by
  have hset : (i.checkVersions E).settings = .dict st := hs
  unfold Inst.validateFigure
  simp only
  rw [asDict_eq.2 hset]
  simp only
  cases hf : PyVal.get? st "figure" with
  | none => exact ⟨st, hset, Or.inl rfl⟩
  | some v =>
    simp only [Option.getD_some]
    cases v with
    | dict fig =>
      simp only
      split
      · exact ⟨st, hset, Or.inl rfl⟩
      · split
        · exact ⟨st, hset, Or.inl rfl⟩
        · split
          · exact ⟨st, hset, Or.inl rfl⟩
          · obtain ⟨st', h⟩ := checkExport_kept hset hf (E := E)
            refine ⟨st', ?_⟩
            generalize (i.checkVersions E).checkExport E st fig = x at h ⊢
            obtain ⟨j, r⟩ := x
            cases r <;> exact h
    | _ => exact ⟨st, hset, Or.inl rfl⟩

/-- the three settings in the order in which they are looked at -/
theorem validateHyper_takes {i : Inst} {st : List (PyVal × PyVal)} (hs : i.settings = .dict st) :
    i.validateHyper.1.settings = .dict st ∧
    Takes (RotationSetting st) i.rotation i.validateHyper.1.rotation ∧
    Takes (fun t => (∃ b, RotationSetting st b) ∧ TimeSetting st t) i.maxTime i.validateHyper.1.maxTime ∧
    Takes (fun w => (∃ b, RotationSetting st b) ∧ (∃ t, TimeSetting st t) ∧ WorkersSetting st w)
      i.workers i.validateHyper.1.workers := by
  unfold Inst.validateHyper
  rcases validateBase_cases hs with ⟨b, h1, h2⟩ | ⟨h1, m, h2⟩
  · rw [h2]
    simp only
    rw [asDict_eq.2 hs]
    simp only
    by_cases he : st.isEmpty = true
    · rw [if_pos he]
      have : st = [] := List.isEmpty_iff.1 he
      subst this
      exact ⟨hs, Or.inl h1, Or.inl ⟨⟨b, h1⟩, Or.inl ⟨rfl, rfl⟩⟩,
        Or.inl ⟨⟨b, h1⟩, ⟨60, Or.inl ⟨rfl, rfl⟩⟩, Or.inl ⟨Or.inl rfl, rfl⟩⟩⟩
    · rw [if_neg he]
      cases ht : ((PyVal.get? st "max_time_in_seconds").getD (.int maxTimeDefault)).asInt? with
      | none =>
        have hno : ∀ t, ¬ TimeSetting st t := by
          intro t h; rw [timeSetting_iff, ht] at h; cases h.1
        exact ⟨hs, Or.inl h1, Or.inr ⟨fun t h => hno t h.2, rfl⟩,
          Or.inr ⟨fun w h => h.2.1.elim hno, rfl⟩⟩
      | some t =>
        simp only
        by_cases hlt : t < 1
        · rw [if_pos hlt]
          have hno : ∀ t, ¬ TimeSetting st t := by
            intro t' h; rw [timeSetting_iff, ht] at h
            have := h.1
            injection this with this
            omega
          exact ⟨hs, Or.inl h1, Or.inr ⟨fun t h => hno t h.2, rfl⟩,
            Or.inr ⟨fun w h => h.2.1.elim hno, rfl⟩⟩
        · rw [if_neg hlt]
          have h3 : TimeSetting st t := timeSetting_iff.2 ⟨ht, by omega⟩
          rcases validateWorkers_cases { i with rotation := b, maxTime := t } st with ⟨w, h4, h5⟩ | ⟨h4, m, h5⟩
          · rw [h5]
            exact ⟨hs, Or.inl h1, Or.inl ⟨⟨b, h1⟩, h3⟩, Or.inl ⟨⟨b, h1⟩, ⟨t, h3⟩, h4⟩⟩
          · rw [h5]
            exact ⟨hs, Or.inl h1, Or.inl ⟨⟨b, h1⟩, h3⟩, Or.inr ⟨fun w h => h4 ⟨w, h.2.2⟩, rfl⟩⟩
  · rw [h2]
    refine ⟨hs, Or.inr ⟨fun b h => h1 ⟨b, h⟩, rfl⟩, Or.inr ⟨fun t h => h1 h.1, rfl⟩,
      Or.inr ⟨fun w h => h1 h.1, rfl⟩⟩

/-- C109, what an assignment of settings leaves behind, whether it is rejected or not.  The problem
itself and the solution are untouched.  A value that is not a dict is stored as the settings, and
nothing else happens.  Of a dict, the rotation setting is applied if it is acceptable, the time limit
if these two are, the number of workers if these three are: each one keeps its old value only if it,
or a setting before it, is not acceptable.  The rejected dict itself is stored. -/
theorem C109_applied_partial (A : Arith) (i : Inst) (E : Env) (v : PyVal) :
    let j := (step A i (.settings E v)).1
    (j.strip = i.strip ∧ j.containers = i.containers ∧ j.items = i.items ∧ j.height = i.height ∧
      j.minHeight = i.minHeight ∧ j.heights = i.heights ∧ j.strategy = i.strategy ∧ j.containersNum = i.containersNum ∧
      j.solution = i.solution ∧ j.objVals = i.objVals ∧ j.bestStrategy = i.bestStrategy) ∧
    ((∀ st, v ≠ .dict st) → j = { i with settings := v }) ∧
    (∀ st, v = .dict st →
      Takes (RotationSetting st) i.rotation j.rotation ∧
      Takes (fun t => (∃ b, RotationSetting st b) ∧ TimeSetting st t) i.maxTime j.maxTime ∧
      Takes (fun w => (∃ b, RotationSetting st b) ∧ (∃ t, TimeSetting st t) ∧ WorkersSetting st w)
        i.workers j.workers ∧
      ∃ st', j.settings = .dict st' ∧ (st' = st ∨ StoredAs st st')) := by
  intro j
  have hj : j = (Inst.validateSettings E { i with settings := v }).1 := rfl
  have hfr := (validateSettings_frame { i with settings := v } E).1
  unfold SettingsFrame at hfr
  refine ⟨?_, ?_, ?_⟩
  · rw [hj, hfr]
    exact ⟨rfl, rfl, rfl, rfl, rfl, rfl, rfl, rfl, rfl, rfl, rfl⟩
  · intro h
    rw [hj]
    have : v.asDict? = none := by
      cases hd : v.asDict? with
      | none => rfl
      | some st => exact absurd (asDict_eq.1 hd) (h st)
    unfold Inst.validateSettings Inst.validateHyper Inst.validateBase
    simp only [this]
    rfl
  · rintro st rfl
    have h := validateHyper_takes (i := { i with settings := .dict st }) (st := st) rfl
    rw [hj]
    unfold Inst.validateSettings
    generalize Inst.validateHyper { i with settings := .dict st } = x at h ⊢
    obtain ⟨k, r⟩ := x
    obtain ⟨h0, h1, h2, h3⟩ := h
    cases r with
    | error e => exact ⟨h1, h2, h3, st, h0, Or.inl rfl⟩
    | ok u =>
      simp only at h0 h1 h2 h3 ⊢
      have hf := validateFigure_frame k E
      refine ⟨?_, ?_, ?_, validateFigure_kept h0⟩
      · rw [hf]; exact h1
      · rw [hf]; exact h2
      · rw [hf]; exact h3

/-- the result of an accepted assignment depends on the problem and the solution only -/
theorem assign_accepted_congr {i j : Inst} (h : SettingsFrame i j) (E : Env) (v : PyVal)
    (ok : (i.assignSettings E v).2 = .ok ()) : j.assignSettings E v = i.assignSettings E v := by
  have hj : ({ j with settings := v } : Inst) = { i with
      settings := v, rotation := j.rotation, maxTime := j.maxTime, workers := j.workers,
      plotlyInstalled := j.plotlyInstalled, plotlyOk := j.plotlyOk,
      kaleidoInstalled := j.kaleidoInstalled, kaleidoOk := j.kaleidoOk } := by
    rw [h]
  unfold Inst.assignSettings at ok ⊢
  rw [hj]
  cases hd : v.asDict? with
  | none =>
    unfold Inst.validateSettings Inst.validateHyper Inst.validateBase at ok
    simp only [hd] at ok
    cases ok
  | some st =>
    obtain rfl := asDict_eq.1 hd
    unfold Inst.validateSettings at ok ⊢
    rcases validateHyper_cases (i := { i with settings := .dict st }) (st := st) rfl with
      ⟨b, t, w, h1, h2, h3, h4⟩ | ⟨_, j', m, h4⟩
    · rcases validateHyper_cases (i := { i with
        settings := .dict st, rotation := j.rotation, maxTime := j.maxTime, workers := j.workers,
        plotlyInstalled := j.plotlyInstalled, plotlyOk := j.plotlyOk,
        kaleidoInstalled := j.kaleidoInstalled, kaleidoOk := j.kaleidoOk }) (st := st) rfl with
        ⟨b', t', w', g1, g2, g3, g4⟩ | ⟨g1, _⟩
      · obtain ⟨rfl, rfl, rfl⟩ := plainSettings_unique ⟨h1, h2, h3⟩ ⟨g1, g2, g3⟩
        rw [h4, g4]
        rfl
      · exact absurd ⟨b, t, w, h1, h2, h3⟩ g1
    · rw [h4] at ok; cases ok

/-- C109, a rejected assignment does no lasting harm: the next accepted one has the effect it would
have had without it. -/
theorem C109_recover (A : Arith) (i : Inst) (E E' : Env) (bad good : PyVal)
    (ok : (step A i (.settings E good)).2 = .ok) :
    step A (step A i (.settings E' bad)).1 (.settings E good) = step A i (.settings E good) := by
  have hfr := (validateSettings_frame { i with settings := bad } E').1
  have h : SettingsFrame i (i.assignSettings E' bad).1 := by
    unfold SettingsFrame at hfr ⊢
    exact hfr
  have ok' : (i.assignSettings E good).2 = .ok () := by
    generalize hx : i.assignSettings E good = x
    have ok2 : Outcome.of (i.assignSettings E good).2 = .ok := ok
    rw [hx] at ok2
    obtain ⟨y, r⟩ := x
    cases r with
    | ok u => rfl
    | error e => cases ok2
  show outcomeOf ((i.assignSettings E' bad).1.assignSettings E good) = outcomeOf (i.assignSettings E good)
  rw [assign_accepted_congr h E good ok']

/-- C109, the state before a rejected assignment can be restored: assigning the settings that were
in force (so that validating them changes nothing) undoes every effect of it. -/
theorem C109_restore (A : Arith) (i : Inst) (E E' : Env) (bad : PyVal)
    (inForce : step A i (.validate E) = (i, .ok)) :
    step A (step A i (.settings E' bad)).1 (.settings E i.settings) = (i, .ok) := by
  have h : step A i (.settings E i.settings) = (i, .ok) := inForce
  rw [C109_recover A i E E' bad i.settings (by rw [h]), h]

/-- a problem with one item, which fits only if it is turned -/
def turnedWith (settings : List (PyVal × PyVal)) : PyVal × PyVal × PyVal :=
  (turnedArgs.1, turnedArgs.2.1, .dict settings)

/-- C109 is false of the code: the assignment is rejected because of the time limit, but has turned
rotation on, so that the next `solve()` packs the item turned. -/
theorem C109_refuted : ∃ i, mkInst plainEnv turnedArgs.1 turnedArgs.2.1 (.dict [(.str "rotation", .bool false)]) .none = .ok i ∧
    (step Arith.exact i (.settings plainEnv (.dict [(.str "max_time_in_seconds", .int 0)]))).2 =
      .raised (.settingsError "MAX_TIME_IN_SECONDS_VALUE") ∧
    (step Arith.exact i (.solve none)).1.solution = [("c", [])] ∧
    (runOps Arith.exact i [.settings plainEnv (.dict [(.str "max_time_in_seconds", .int 0)]), .solve none]).solution =
      [("c", [("a", ⟨0, 0, 2, 1⟩)])] := by
  refine ⟨_, rfl, by decide +kernel, by decide +kernel, by decide +kernel⟩

/-- C109 is false of the code: a rejected value that is not a dict is stored, and the worker processes
get it.  With an empty list they ignore the settings of the problem (rotation is off, the item is
packed turned); with a list that is not empty, none of them can be created. -/
theorem C109_refuted_workers : ∃ i,
    mkInst plainEnv turnedArgs.1 turnedArgs.2.1 (.dict [(.str "rotation", .bool false), (.str "workers_num", .int 2)]) .none = .ok i ∧
    (step Arith.exact i (.settings plainEnv (.list []))).2 = .raised (.settingsError "TYPE") ∧
    (step Arith.exact i (.settings plainEnv (.list []))).1.rotation = false ∧
    (step Arith.exact i (.hypersearch turnedSearch)).2 = .ok ∧
    (step Arith.exact i (.hypersearch turnedSearch)).1.solution = [("c", [])] ∧
    (step Arith.exact (step Arith.exact i (.settings plainEnv (.list []))).1 (.hypersearch turnedSearch)).2 = .ok ∧
    (step Arith.exact (step Arith.exact i (.settings plainEnv (.list []))).1 (.hypersearch turnedSearch)).1.solution =
      [("c", [("a", ⟨0, 0, 2, 1⟩)])] ∧
    (step Arith.exact (step Arith.exact i (.settings plainEnv (.list [.int 1]))).1 (.hypersearch turnedSearch)).2 =
      .raised (.settingsError "TYPE") := by
  refine ⟨_, rfl, by decide +kernel, by decide +kernel, by decide +kernel, by decide +kernel, by decide +kernel,
    by decide +kernel, by decide +kernel⟩

/-- a surrounding with plotly 5.14.0 and every directory -/
def plotlyEnv : Env := ⟨some ["5", "14", "0"], none, fun _ => true, fun _ => true⟩

/-- C109 is false of the code: after a rejected value that is not a dict, `create_figure()` fails with
an AttributeError -/
theorem C109_refuted_figure : ∃ i,
    mkInst plotlyEnv turnedArgs.1 turnedArgs.2.1 .none .none = .ok i ∧
    (step Arith.exact i (.settings plotlyEnv (.int 5))).2 = .raised (.settingsError "TYPE") ∧
    (step Arith.exact (runOps Arith.exact i [.solve none]) (.figure (fun _ _ => true) true)).2 = .ok ∧
    (step Arith.exact (runOps Arith.exact i [.solve none, .settings plotlyEnv (.int 5)]) (.figure (fun _ _ => true) true)).2 =
      .raised .attributeError := by
  refine ⟨_, rfl, by decide +kernel, by decide +kernel, by decide +kernel⟩

/-- C109 is false of the code: after a rejected value that is `None`, a bool or a number, `hypersearch()` with several
workers raises TypeError (if sorting and orienting the items, which come first, succeed), without searching: the
items are sorted and oriented, nothing else happens. -/
theorem C109_refuted_hypersearch (A : Arith) (i : Inst) (E : Env) (v : PyVal) (h : HSArgs) (n : Nat) (hn : 2 ≤ n)
    (ho : ∀ l, (h.order l).Perm l) (hw : i.workers = .int n)
    (hv : v = .none ∨ (∃ b, v = .bool b) ∨ (∃ k, v = .int k) ∨ (∃ q, v = .float q) ∨ v = .inf ∨ v = .ninf ∨ v = .nan)
    (sorted : (step A i (.sortItems h.sortingBy)).2 = .ok)
    (oriented : (step A (step A i (.sortItems h.sortingBy)).1 (.orientItems h.orientation)).2 = .ok) :
    (step A i (.settings E v)).2 = .raised (.settingsError "TYPE") ∧
    step A (step A i (.settings E v)).1 (.hypersearch h) =
      (runOps A i [.sortItems h.sortingBy, .orientItems h.orientation, .editSettings v], .raised .typeError) := by
  have hd : ∀ st, v ≠ .dict st := by
    rintro st rfl
    rcases hv with h | ⟨_, h⟩ | ⟨_, h⟩ | ⟨_, h⟩ | h | h | h <;> cases h
  have hl : (step A i (.settings E v)).1 = i.leave v := (C109_applied_partial A i E v).2.1 hd
  have hr : (step A i (.settings E v)).2 = .raised (.settingsError "TYPE") := by
    rcases hv with rfl | ⟨_, rfl⟩ | ⟨_, rfl⟩ | ⟨_, rfl⟩ | rfl | rfl | rfl <;> rfl
  refine ⟨hr, ?_⟩
  rw [hl]
  show (i.leave v).hypersearch A h = _
  have s1 : step A i (.sortItems h.sortingBy) = outcomeOf (i.sortItems A h.sortingBy) := rfl
  unfold Inst.hypersearch
  rw [leave_sortItems]
  simp only [runOps, List.foldl]
  rw [s1] at sorted oriented ⊢
  have w1 := sortItems_workers A i h.sortingBy
  generalize i.sortItems A h.sortingBy = x at w1 sorted oriented ⊢
  obtain ⟨j, r⟩ := x
  cases r with
  | error e => cases sorted
  | ok _ =>
    have s2 : step A j (.orientItems h.orientation) = outcomeOf (j.orientItems h.orientation) := rfl
    simp only [] at w1 ⊢
    have oriented : (step A j (.orientItems h.orientation)).2 = .ok := oriented
    show _ = ((step A (step A j (.orientItems h.orientation)).1 (.editSettings v)).1, _)
    have w2 := (spell_orientItems noRotation j h.orientation).2
    rw [leave_orientItems]
    rw [s2] at oriented ⊢
    generalize j.orientItems h.orientation = x at w2 oriented ⊢
    obtain ⟨k, r⟩ := x
    cases r with
    | error e => cases oriented
    | ok _ =>
      simp only [] at w2 ⊢
      show (k.leave v).search A h = (k.leave v, _)
      have hk : (k.leave v).workers = .int n := by
        show k.workers = _
        rw [w2, w1, hw]
      have h1 : (k.leave v).workers.isOne = false := by
        rw [hk]
        simp [PyVal.isOne]
        omega
      obtain ⟨chunks, hc⟩ := (C31_count (getStrategies h.order (k.leave v).strip h.exhaustive) (n : Int)
        (by omega)).1 (pool_nodup h.order (fun l _ => ho l) _ _).2
      unfold Inst.search
      simp only [h1]
      unfold Inst.multiHS
      rw [hk, hc]
      have : workerInst h.env (k.leave v) = .error .typeError := by
        unfold workerInst
        have : (k.leave v).settings = v := rfl
        rw [this]
        rcases hv with rfl | ⟨_, rfl⟩ | ⟨_, rfl⟩ | ⟨_, rfl⟩ | rfl | rfl | rfl <;> rfl
      rw [this]
      rfl

/-- the hypotheses of C109_refuted_hypersearch are met -/
example : ∃ i, mkInst plainEnv turnedArgs.1 turnedArgs.2.1 (.dict [(.str "workers_num", .int 2)]) .none = .ok i ∧
    i.workers = .int 2 ∧ (step Arith.exact i (.sortItems turnedSearch.sortingBy)).2 = .ok ∧
    (step Arith.exact (step Arith.exact i (.settings plainEnv (.int 5))).1 (.hypersearch turnedSearch)).2 = .raised .typeError := by
  refine ⟨_, rfl, rfl, rfl, ?_⟩
  decide +kernel

/-- C109_recover and C109_restore on a concrete problem: the settings are in force, the rejected
assignment changes the rotation, assigning the old settings restores the problem -/
example : ∃ i, mkInst plainEnv turnedArgs.1 turnedArgs.2.1 (.dict [(.str "rotation", .bool false)]) .none = .ok i ∧
    step Arith.exact i (.validate plainEnv) = (i, .ok) ∧
    (step Arith.exact i (.settings plainEnv (.dict [(.str "max_time_in_seconds", .int 0)]))).1.rotation = true ∧
    step Arith.exact (step Arith.exact i (.settings plainEnv (.dict [(.str "max_time_in_seconds", .int 0)]))).1
      (.settings plainEnv i.settings) = (i, .ok) := by
  refine ⟨_, rfl, rfl, rfl, ?_⟩
  exact C109_restore _ _ _ _ _ rfl

/-! ### C110: settings that were changed in place -/

/-- every call of the list does not read the stored settings -/
def AllBlind (A : Arith) : Inst → List Op → Prop
  | _, [] => True
  | i, o :: os => BlindToSettings i o ∧ AllBlind A (step A i o).1 os

/-- C110: after changing the settings in place, every call that does not validate settings or create
figures, and searches in one process, does what it would have done without the change: it ends in the
same way and has the same effects, and the changed settings stay stored. -/
theorem C110_calls_partial (A : Arith) (i : Inst) (v : PyVal) (o : Op) (ho : BlindToSettings i o) :
    step A (step A i (.editSettings v)).1 o = ({ (step A i o).1 with settings := v }, (step A i o).2) :=
  leave_step A v i o ho

/-- C110, for any number of calls -/
theorem C110_history_partial (A : Arith) (v : PyVal) (ops : List Op) : ∀ (i : Inst), AllBlind A i ops →
    runOps A i (.editSettings v :: ops) = { runOps A i ops with settings := v } ∧
    outcomes (step A) (step A i (.editSettings v)).1 ops = outcomes (step A) i ops := by
  induction ops with
  | nil => intro i _; exact ⟨rfl, rfl⟩
  | cons o os ih =>
    intro i h
    have hs := C110_calls_partial A i v o h.1
    obtain ⟨h1, h2⟩ := ih (step A i o).1 h.2
    constructor
    · show runOps A (step A (step A i (.editSettings v)).1 o).1 os = _
      rw [hs]
      exact h1
    · show (step A (step A i (.editSettings v)).1 o).2 :: outcomes (step A) (step A (step A i (.editSettings v)).1 o).1 os = _
      rw [hs]
      exact congrArg _ h2

/-- C110: `validate_settings()` after changing the settings in place does what assigning the changed
settings does. -/
theorem C110_validate (A : Arith) (i : Inst) (E : Env) (v : PyVal) :
    step A (step A i (.editSettings v)).1 (.validate E) = step A i (.settings E v) := rfl

/-- C110: `create_figure()` reads the stored settings, but only the value of "figure"; changes of
other settings do not affect it (the figures and files are the same, too). -/
theorem C110_figure_partial (A : Arith) (i : Inst) (st st' : List (PyVal × PyVal)) (hs : i.settings = .dict st)
    (same : PyVal.get? st' "figure" = PyVal.get? st "figure") (writes : String → String → Bool) (show_ : Bool) :
    (step A (step A i (.editSettings (.dict st'))).1 (.figure writes show_)).2 = (step A i (.figure writes show_)).2 ∧
    (step A i (.editSettings (.dict st'))).1.createFigure writes show_ = i.createFigure writes show_ ∧
    ∀ io s, (step A i (.editSettings (.dict st'))).1.runFigure io show_ s = i.runFigure io show_ s := by
  have draw : ∀ (cs : PyDict String Dim) (ex : PyVal) (sh : Bool),
      drawAll writes (i.leave (.dict st')) ex sh cs = drawAll writes i ex sh cs := by
    intro cs ex sh
    induction cs with
    | nil => rfl
    | cons c cs ih =>
      obtain ⟨cid, c⟩ := c
      unfold drawAll
      rw [ih]
      rfl
  have draw' : ∀ (io : FigIO) (cs : PyDict String Dim) (ex : PyVal) (sh : Bool) (s : FigWorld),
      drawAllDisk io (i.leave (.dict st')) ex sh cs s = drawAllDisk io i ex sh cs s := by
    intro io cs ex sh
    induction cs with
    | nil => intro s; rfl
    | cons c cs ih =>
      intro s
      obtain ⟨cid, c⟩ := c
      unfold drawAllDisk
      simp only [ih]
      rfl
  have hc : (i.leave (.dict st')).createFigure writes show_ = i.createFigure writes show_ := by
    unfold Inst.createFigure
    have h1 : (i.leave (.dict st')).settings = .dict st' := rfl
    rw [h1, hs]
    simp only [PyVal.asDict?, same, draw]
    rfl
  refine ⟨congrArg Outcome.of hc, hc, ?_⟩
  intro io s
  show (i.leave (.dict st')).runFigure io show_ s = _
  unfold Inst.runFigure
  have h1 : (i.leave (.dict st')).settings = .dict st' := rfl
  rw [h1, hs]
  simp only [PyVal.asDict?, same, draw']
  rfl

/-- C110 is false of the code: a search with two workers uses the changed settings, although they
have not been validated: rotation is still off, but the item is packed turned. -/
theorem C110_refuted : ∃ i,
    mkInst plainEnv turnedArgs.1 turnedArgs.2.1 (.dict [(.str "rotation", .bool false), (.str "workers_num", .int 2)]) .none = .ok i ∧
    (step Arith.exact i (.hypersearch turnedSearch)).1.solution = [("c", [])] ∧
    (runOps Arith.exact i [.editSettings (.dict [(.str "rotation", .bool true), (.str "workers_num", .int 2)]),
      .hypersearch turnedSearch]).rotation = false ∧
    (runOps Arith.exact i [.editSettings (.dict [(.str "rotation", .bool true), (.str "workers_num", .int 2)]),
      .hypersearch turnedSearch]).solution = [("c", [("a", ⟨0, 0, 2, 1⟩)])] := by
  refine ⟨_, rfl, by decide +kernel, by decide +kernel, by decide +kernel⟩

/-- C110 is false of the code: `create_figure()` uses changed figure settings, although they have not
been validated: validating rejects the file name, but the file is written. -/
theorem C110_refuted_figure : ∃ i v,
    mkInst plotlyEnv turnedArgs.1 turnedArgs.2.1 .none .none = .ok i ∧
    v = .dict [(.str "figure", .dict [(.str "export",
      .dict [(.str "type", .str "html"), (.str "path", .str "/d"), (.str "file_name", .str "../x")])])] ∧
    (step Arith.exact i (.settings plotlyEnv v)).2 = .raised (.settingsError "FIGURE_EXPORT_FILE_NAME_VALUE") ∧
    ((runOps Arith.exact i [.solve none, .editSettings v]).createFigure (fun _ _ => true) false).toOption.map
      (List.map Drawn.file) = some [some ("/d", "../x__c.html")] := by
  refine ⟨_, _, rfl, rfl, by decide +kernel, by decide +kernel⟩

/-- C110_history_partial on a concrete problem: rotation is changed in place, then the problem is
searched, solved and searched locally; a change that leaves the figure settings alone, for
C110_figure_partial -/
example : (∃ i, mkInst plainEnv turnedArgs.1 turnedArgs.2.1 (.dict [(.str "rotation", .bool false)]) .none = .ok i ∧
    AllBlind Arith.exact i [.hypersearch turnedSearch, .solve none, .localSearch (fun _ => 0) true] ∧
    (runOps Arith.exact i (.editSettings (.dict [(.str "rotation", .bool true)]) ::
      [.hypersearch turnedSearch, .solve none, .localSearch (fun _ => 0) true])).solution = [("c", [])]) ∧
    PyVal.get? [(.str "figure", .dict []), (.str "rotation", .bool true)] "figure" =
      PyVal.get? [(.str "figure", .dict [])] "figure" := by
  refine ⟨⟨_, rfl, ⟨Or.inl rfl, trivial, trivial, trivial⟩, by decide +kernel⟩, rfl⟩

end HP
