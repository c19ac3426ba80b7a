import Verif.SpecSubclass
import Verif.Proofs.PointGen
import Verif.Proofs.Hom
import Verif.Props.SettingsStored
import Verif.Props.Frame
import Verif.Props.Workers
import Verif.Props.PointGen
/-
Property C97: subclasses that override the default settings.
-/
namespace HP
open Spec

variable {D : Defaults}

/-! ### the filled settings -/

theorem get?_fill_other (D : Defaults) (st : List (PyVal × PyVal)) (key : String) (h1 : key ≠ "rotation")
    (h2 : key ≠ "max_time_in_seconds") (h3 : key ≠ "workers_num") :
    PyVal.get? (D.fill st) key = PyVal.get? st key := by
  have e1 : ∀ st : List (PyVal × PyVal), PyVal.get? (if (PyVal.getD st "rotation").isNone then
      setEntry st "rotation" (.bool D.rotation) else st) key = PyVal.get? st key := by
    intro st; split
    · exact get?_setEntry_ne (Ne.symm h1) _ _
    · rfl
  have e2 : ∀ st : List (PyVal × PyVal), PyVal.get? (if (PyVal.get? st "max_time_in_seconds").isNone then
      setEntry st "max_time_in_seconds" (.int D.maxTime) else st) key = PyVal.get? st key := by
    intro st; split
    · exact get?_setEntry_ne (Ne.symm h2) _ _
    · rfl
  have e3 : ∀ st : List (PyVal × PyVal), PyVal.get? (if (PyVal.getD st "workers_num").isNone then
      setEntry st "workers_num" D.workers else st) key = PyVal.get? st key := by
    intro st; split
    · exact get?_setEntry_ne (Ne.symm h3) _ _
    · rfl
  unfold Defaults.fill
  rw [e3, e2, e1]

theorem getD_fill_rotation (D : Defaults) (st : List (PyVal × PyVal)) :
    PyVal.getD (D.fill st) "rotation" =
      if (PyVal.getD st "rotation").isNone then .bool D.rotation else PyVal.getD st "rotation" := by
  have e2 : ∀ st : List (PyVal × PyVal), PyVal.get? (if (PyVal.get? st "max_time_in_seconds").isNone then
      setEntry st "max_time_in_seconds" (.int D.maxTime) else st) "rotation" = PyVal.get? st "rotation" := by
    intro st; split
    · exact get?_setEntry_ne (by decide) _ _
    · rfl
  have e3 : ∀ st : List (PyVal × PyVal), PyVal.get? (if (PyVal.getD st "workers_num").isNone then
      setEntry st "workers_num" D.workers else st) "rotation" = PyVal.get? st "rotation" := by
    intro st; split
    · exact get?_setEntry_ne (by decide) _ _
    · rfl
  conv_lhs => unfold PyVal.getD Defaults.fill
  rw [e3, e2]
  split
  · rw [get?_setEntry_self]; rfl
  · rfl

theorem get?_fill_maxTime (D : Defaults) (st : List (PyVal × PyVal)) :
    PyVal.get? (D.fill st) "max_time_in_seconds" =
      some ((PyVal.get? st "max_time_in_seconds").getD (.int D.maxTime)) := by
  have e1 : ∀ st : List (PyVal × PyVal), PyVal.get? (if (PyVal.getD st "rotation").isNone then
      setEntry st "rotation" (.bool D.rotation) else st) "max_time_in_seconds" =
        PyVal.get? st "max_time_in_seconds" := by
    intro st; split
    · exact get?_setEntry_ne (by decide) _ _
    · rfl
  have e3 : ∀ st : List (PyVal × PyVal), PyVal.get? (if (PyVal.getD st "workers_num").isNone then
      setEntry st "workers_num" D.workers else st) "max_time_in_seconds" =
        PyVal.get? st "max_time_in_seconds" := by
    intro st; split
    · exact get?_setEntry_ne (by decide) _ _
    · rfl
  unfold Defaults.fill
  rw [e3]
  have h1 := e1 st
  generalize (if (PyVal.getD st "rotation").isNone then
      setEntry st "rotation" (.bool D.rotation) else st) = st1 at h1 ⊢
  split
  · rename_i h
    rw [h1] at h
    rw [get?_setEntry_self]
    cases hg : PyVal.get? st "max_time_in_seconds" with
    | none => rfl
    | some v => rw [hg] at h; cases h
  · rename_i h
    rw [h1] at h ⊢
    cases hg : PyVal.get? st "max_time_in_seconds" with
    | none => rw [hg] at h; exact absurd rfl h
    | some v => rfl

theorem getD_fill_workers (D : Defaults) (st : List (PyVal × PyVal)) :
    PyVal.getD (D.fill st) "workers_num" =
      if (PyVal.getD st "workers_num").isNone then D.workers else PyVal.getD st "workers_num" := by
  have e1 : ∀ st : List (PyVal × PyVal), PyVal.getD (if (PyVal.getD st "rotation").isNone then
      setEntry st "rotation" (.bool D.rotation) else st) "workers_num" = PyVal.getD st "workers_num" := by
    intro st; unfold PyVal.getD; split
    · rw [get?_setEntry_ne (by decide)]
    · rfl
  have e2 : ∀ st : List (PyVal × PyVal), PyVal.getD (if (PyVal.get? st "max_time_in_seconds").isNone then
      setEntry st "max_time_in_seconds" (.int D.maxTime) else st) "workers_num" = PyVal.getD st "workers_num" := by
    intro st; unfold PyVal.getD; split
    · rw [get?_setEntry_ne (by decide)]
    · rfl
  unfold Defaults.fill
  simp only [e2, e1]
  split
  · unfold PyVal.getD; rw [get?_setEntry_self]; rfl
  · rw [e2, e1]

theorem setEntry_comm {a b : String} (hab : a ≠ b) (u v : PyVal) :
    ∀ st : List (PyVal × PyVal), (PyVal.get? st b).isSome = true →
      setEntry (setEntry st a u) b v = setEntry (setEntry st b v) a u
  | [], h => by cases h
  | (k, w) :: st, h => by
    by_cases hb : k.eqStr b = true
    · have hk := eqStr_iff.1 hb
      subst hk
      have ha : (PyVal.str b).eqStr a = false := by simp [PyVal.eqStr, Ne.symm hab]
      simp [setEntry, hb, ha]
    · rw [Bool.not_eq_true] at hb
      by_cases ha : k.eqStr a = true
      · simp [setEntry, ha, hb]
      · rw [Bool.not_eq_true] at ha
        have h' : (PyVal.get? st b).isSome = true := by
          simpa [PyVal.get?, hb] using h
        simp [setEntry, ha, hb, setEntry_comm hab u v st h']

theorem fill_setEntry (D : Defaults) (st : List (PyVal × PyVal)) (key : String) (v : PyVal)
    (h1 : key ≠ "rotation") (h2 : key ≠ "max_time_in_seconds") (h3 : key ≠ "workers_num")
    (h : (PyVal.get? st key).isSome = true) :
    D.fill (setEntry st key v) = setEntry (D.fill st) key v := by
  have g : ∀ (st : List (PyVal × PyVal)) (k : String), key ≠ k → PyVal.get? (setEntry st key v) k = PyVal.get? st k :=
    fun st k hk => get?_setEntry_ne hk v st
  have gD : ∀ (st : List (PyVal × PyVal)) (k : String), key ≠ k → PyVal.getD (setEntry st key v) k = PyVal.getD st k :=
    fun st k hk => by unfold PyVal.getD; rw [g st k hk]
  have s1 : (if (PyVal.getD (setEntry st key v) "rotation").isNone then
      setEntry (setEntry st key v) "rotation" (.bool D.rotation) else setEntry st key v) =
      setEntry (if (PyVal.getD st "rotation").isNone then setEntry st "rotation" (.bool D.rotation) else st) key v := by
    rw [gD _ _ h1]
    split
    · exact (setEntry_comm (Ne.symm h1) _ _ st h).symm
    · rfl
  have k1 : (PyVal.get? (if (PyVal.getD st "rotation").isNone then setEntry st "rotation" (.bool D.rotation)
      else st) key).isSome = true := by
    split
    · rw [get?_setEntry_ne (Ne.symm h1)]; exact h
    · exact h
  unfold Defaults.fill
  simp only [s1]
  generalize (if (PyVal.getD st "rotation").isNone then setEntry st "rotation" (.bool D.rotation) else st) = st1 at k1 ⊢
  have s2 : (if (PyVal.get? (setEntry st1 key v) "max_time_in_seconds").isNone then
      setEntry (setEntry st1 key v) "max_time_in_seconds" (.int D.maxTime) else setEntry st1 key v) =
      setEntry (if (PyVal.get? st1 "max_time_in_seconds").isNone then
        setEntry st1 "max_time_in_seconds" (.int D.maxTime) else st1) key v := by
    rw [g _ _ h2]
    split
    · exact (setEntry_comm (Ne.symm h2) _ _ st1 k1).symm
    · rfl
  have k2 : (PyVal.get? (if (PyVal.get? st1 "max_time_in_seconds").isNone then
        setEntry st1 "max_time_in_seconds" (.int D.maxTime) else st1) key).isSome = true := by
    split
    · rw [get?_setEntry_ne (Ne.symm h2)]; exact k1
    · exact k1
  rw [s2]
  generalize (if (PyVal.get? st1 "max_time_in_seconds").isNone then
        setEntry st1 "max_time_in_seconds" (.int D.maxTime) else st1) = st2 at k2 ⊢
  rw [gD _ _ h3]
  split
  · exact (setEntry_comm (Ne.symm h3) _ _ st2 k2).symm
  · rfl

theorem fill_ne_nil (D : Defaults) (st : List (PyVal × PyVal)) : (D.fill st).isEmpty = false := by
  have h := get?_fill_maxTime D st
  cases hf : D.fill st with
  | nil => rw [hf] at h; cases h
  | cons a l => rfl

/-! ### the corresponding object -/

/-- the object with the missing settings written out -/
def Inst.spell (D : Defaults) (i : Inst) : Inst := { i with settings := D.explicit i.settings }

theorem spell_over (D : Defaults) (i : Inst) :
    i.spell D = i.over (D.explicit i.settings) i.maxTime i.workers := rfl

theorem asDict_explicit (D : Defaults) (v : PyVal) : (D.explicit v).asDict? = v.asDict?.map D.fill := by
  cases v <;> rfl

theorem subBase_settings (i : Inst) : (i.subBase D).1.settings = i.settings := by
  unfold Inst.subBase
  split
  · rfl
  · split
    · rfl
    · simp only []
      split
      · rfl
      · split <;> rfl

theorem spell_validateBase (i : Inst) :
    (i.spell D).validateBase = ((i.subBase D).1.spell D, (i.subBase D).2) := by
  have hset : (i.spell D).settings.asDict? = i.settings.asDict?.map D.fill := asDict_explicit D i.settings
  unfold Inst.validateBase Inst.subBase
  rw [hset]
  cases h : i.settings.asDict? with
  | none => rfl
  | some st =>
    simp only [Option.map_some, fill_ne_nil, Bool.false_eq_true, if_false, getD_fill_rotation]
    by_cases hr : (PyVal.getD st "rotation").isNone = true
    · have : (PyVal.bool D.rotation).isNone = false := rfl
      simp only [hr, if_true, this, Bool.false_eq_true, if_false]
      cases st with
      | nil => rfl
      | cons a l => rfl
    · rw [Bool.not_eq_true] at hr
      have hne : st.isEmpty = false := by
        cases st with
        | nil => cases hr
        | cons a l => rfl
      simp only [hr, hne, Bool.false_eq_true, if_false]
      cases (PyVal.getD st "rotation").asBool? <;> rfl

theorem spell_validateHyper (hD : D.Legal) (i : Inst) :
    (i.spell D).validateHyper = ((i.subHyper D).1.spell D, (i.subHyper D).2) := by
  obtain ⟨hD1, hD2⟩ := hD
  replace hD2 := gtZero?_iff.2 hD2
  have hDw : D.workers.isNone = false := by
    cases hw : D.workers <;> first | rfl | (rw [hw] at hD2; cases hD2)
  unfold Inst.validateHyper Inst.subHyper
  rw [spell_validateBase]
  rcases hb : i.subBase D with ⟨j, r⟩
  cases r with
  | error e => rfl
  | ok u =>
    simp only []
    have hset : (j.spell D).settings.asDict? = j.settings.asDict?.map D.fill := asDict_explicit D j.settings
    rw [hset]
    cases h : j.settings.asDict? with
    | none => rfl
    | some st =>
      simp only [Option.map_some, fill_ne_nil, Bool.false_eq_true, if_false, get?_fill_maxTime, Option.getD_some]
      have hwork : ∀ k : Inst, Inst.validateWorkers (D.fill st) (k.spell D) =
          ((Inst.subWorkers D st k).1.spell D, (Inst.subWorkers D st k).2) := by
        intro k
        unfold Inst.validateWorkers Inst.subWorkers
        simp only [getD_fill_workers]
        by_cases hr : (PyVal.getD st "workers_num").isNone = true
        · simp only [hr, if_true, hDw, Bool.false_eq_true, if_false, hD2]
          rfl
        · rw [Bool.not_eq_true] at hr
          simp only [hr, Bool.false_eq_true, if_false]
          rcases (PyVal.getD st "workers_num").gtZero? with _ | _ | _ <;> rfl
      by_cases he : st.isEmpty = true
      · have hnil : st = [] := by cases st <;> simp_all
        subst hnil
        have hlt : ¬ D.maxTime < 1 := by omega
        simp only [PyVal.get?, Option.getD_none, PyVal.asInt?, if_neg hlt, List.isEmpty_nil, if_true]
        have := hwork { j with maxTime := D.maxTime }
        exact this
      · rw [Bool.not_eq_true] at he
        simp only [he, Bool.false_eq_true, if_false]
        cases ((PyVal.get? st "max_time_in_seconds").getD (.int D.maxTime)).asInt? with
        | none => rfl
        | some t =>
          simp only []
          split
          · rfl
          · exact hwork { j with maxTime := t }

theorem spell_checkExport (E : Env) (i : Inst) (st fig : List (PyVal × PyVal))
    (hf : (PyVal.get? st "figure").isSome = true) :
    (i.spell D).checkExport E (D.fill st) fig =
      ((i.checkExport E st fig).1.spell D, (i.checkExport E st fig).2) := by
  unfold Inst.checkExport
  cases PyVal.get? fig "export" with
  | none => rfl
  | some v =>
    simp only []
    cases v.asDict? with
    | none => rfl
    | some ex =>
      simp only []
      cases checkExport1 E ex with
      | error e => rfl
      | ok html =>
        simp only []
        split
        · refine Prod.ext ?_ rfl
          unfold Inst.spell setFileName
          simp only [Defaults.explicit, fill_setEntry D st "figure" _ (by decide) (by decide) (by decide) hf]
        · split
          · rfl
          · split <;> rfl

theorem spell_validateFigure (E : Env) (i : Inst) :
    (i.spell D).validateFigure E = ((i.validateFigure E).1.spell D, (i.validateFigure E).2) := by
  unfold Inst.validateFigure
  have hc : (i.spell D).checkVersions E = (i.checkVersions E).spell D := rfl
  simp only [hc]
  generalize i.checkVersions E = j
  have hset : (j.spell D).settings.asDict? = j.settings.asDict?.map D.fill := asDict_explicit D j.settings
  rw [hset]
  cases h : j.settings.asDict? with
  | none => rfl
  | some st =>
    simp only [Option.map_some, get?_fill_other D st "figure" (by decide) (by decide) (by decide)]
    cases hg : PyVal.get? st "figure" with
    | none => rfl
    | some v =>
      simp only [Option.getD_some]
      cases v with
      | dict fig =>
        simp only []
        have hp : (j.spell D).plotlyInstalled = j.plotlyInstalled := rfl
        have hq : (j.spell D).plotlyOk = j.plotlyOk := rfl
        rw [hp, hq, spell_checkExport E j st fig (by rw [hg]; rfl)]
        split
        · rfl
        · split
          · rfl
          · split
            · rfl
            · rcases j.checkExport E st fig with ⟨a, r⟩
              cases r <;> rfl
      | _ => rfl

theorem spell_validate (hD : D.Legal) (E : Env) (i : Inst) :
    (i.spell D).validateSettings E = ((i.subValidate D E).1.spell D, (i.subValidate D E).2) := by
  unfold Inst.validateSettings Inst.subValidate
  rw [spell_validateHyper hD]
  rcases i.subHyper D with ⟨j, r⟩
  cases r with
  | error e => rfl
  | ok u => exact spell_validateFigure E j

/-- the settings do not matter to the searches -/
theorem spellHom (A : Arith) (D : Defaults) :
    InstHom A (Inst.spell D) id id id (fun _ => True) where
  solve i seq _ := by
    have hid : seq.map (List.map id) = seq := by cases seq <;> simp
    rw [hid]
    unfold Inst.solve
    show (do let r ← HP.solve A i.solveIn seq; _) = _
    cases HP.solve A i.solveIn seq <;> rfl
  calcObj _ _ := rfl
  deepcopy i sol _ := by
    show i.deepcopySolution sol = _
    cases i.deepcopySolution sol <;> rfl
  copyVals _ := rfl
  compare _ _ _ _ := rfl
  extra i _ := by
    obtain ⟨strip, cs, its, ht, mh, hs, set, rot, mt, w, pi, po, ki, ko, str, n, sol, ov, bs⟩ := i
    unfold Inst.extraNode Inst.setHeight Inst.spell
    simp only [bind, Except.bind, pure, Except.pure]
    cases strip with
    | false => rfl
    | true =>
      simp only [if_true]
      by_cases hsol : sol = []
      · simp only [if_pos hsol]
        cases PyDict.getE cs stripId <;> rfl
      · simp only [if_neg hsol]
        cases PyDict.getE sol stripId with
        | error e => rfl
        | ok m => cases mh <;> rfl
  keys _ _ := by rw [List.map_id]; rfl
  fuel _ _ := rfl
  solution _ := rfl
  objVals _ := rfl
  strip _ := rfl
  maxTime _ := rfl
  workers _ := rfl
  height _ _ _ := rfl
  set_strategy _ _ := rfl
  set_heights _ _ _ _ := rfl
  set_result _ _ _ := rfl
  frame _ _ _ _ _ _ := trivial

theorem spell_assign (D : Defaults) (i : Inst) (k : SKind) (v : PyVal) :
    (i.spell D).assign k v = ((i.assign k v).1.spell D, (i.assign k v).2) := by
  have h := over_assign (i := i) (s := i.settings) (t := i.maxTime) (w := i.workers) k v
  have h' := over_assign (i := i) (s := D.explicit i.settings) (t := i.maxTime) (w := i.workers) k v
  rw [spell_over, h']
  have e : (i.assign k v).1 = (i.assign k v).1.over i.settings i.maxTime i.workers := congrArg Prod.fst h
  conv_rhs => rw [e]
  rfl

theorem spell_setDim (D : Defaults) (i : Inst) (k : SKind) (id key v : PyVal) :
    (i.spell D).setDim k id key v = ((i.setDim k id key v).1.spell D, (i.setDim k id key v).2) := by
  have h := over_setDim (i := i) (s := i.settings) (t := i.maxTime) (w := i.workers) k id key v
  have h' := over_setDim (i := i) (s := D.explicit i.settings) (t := i.maxTime) (w := i.workers) k id key v
  rw [spell_over, h']
  have e : (i.setDim k id key v).1 = (i.setDim k id key v).1.over i.settings i.maxTime i.workers := congrArg Prod.fst h
  conv_rhs => rw [e]
  rfl

theorem assign_workers (i : Inst) (k : SKind) (v : PyVal) : (i.assign k v).1.workers = i.workers := by
  have h := over_assign (i := i) (s := i.settings) (t := i.maxTime) (w := i.workers) k v
  have e : (i.assign k v).1 = (i.assign k v).1.over i.settings i.maxTime i.workers := congrArg Prod.fst h
  rw [e]; rfl

theorem setDim_workers (i : Inst) (k : SKind) (id key v : PyVal) :
    (i.setDim k id key v).1.workers = i.workers := by
  have h := over_setDim (i := i) (s := i.settings) (t := i.maxTime) (w := i.workers) k id key v
  have e : (i.setDim k id key v).1 = (i.setDim k id key v).1.over i.settings i.maxTime i.workers := congrArg Prod.fst h
  rw [e]; rfl

theorem spell_sortItems (A : Arith) (D : Defaults) (i : Inst) (s : Option (PyVal × Bool)) :
    (i.spell D).sortItems A s = ((i.sortItems A s).1.spell D, (i.sortItems A s).2) := by
  unfold Inst.sortItems
  cases s with
  | none => rfl
  | some p =>
    obtain ⟨by_, rev⟩ := p
    simp only []
    cases sortKey? A by_ with
    | none => rfl
    | some f => exact spell_assign D i .items _

theorem sortItems_workers (A : Arith) (i : Inst) (s : Option (PyVal × Bool)) :
    (i.sortItems A s).1.workers = i.workers := by
  unfold Inst.sortItems
  cases s with
  | none => rfl
  | some p =>
    obtain ⟨by_, rev⟩ := p
    simp only []
    cases sortKey? A by_ with
    | none => rfl
    | some f => exact assign_workers i .items _

theorem spell_orientLoop (D : Defaults) (turn : Nat → Nat → Bool) : ∀ (ids : List String) (i : Inst),
    Inst.orientLoop turn ids (i.spell D) =
      ((Inst.orientLoop turn ids i).1.spell D, (Inst.orientLoop turn ids i).2) ∧
    (Inst.orientLoop turn ids i).1.workers = i.workers
  | [], i => ⟨rfl, rfl⟩
  | id :: ids, i => by
    unfold Inst.orientLoop
    have hi : (i.spell D).items = i.items := rfl
    rw [hi]
    cases PyDict.find? i.items id with
    | none => exact ⟨rfl, rfl⟩
    | some d =>
      simp only []
      split
      · rw [spell_setDim]
        have w1 := setDim_workers i .items (.str id) (.str "w") (.int d.l)
        generalize i.setDim .items (.str id) (.str "w") (.int d.l) = x at w1 ⊢
        obtain ⟨j, r⟩ := x
        cases r with
        | error e => exact ⟨rfl, w1⟩
        | ok u =>
          simp only []
          rw [spell_setDim]
          have w2 := setDim_workers j .items (.str id) (.str "l") (.int d.w)
          generalize j.setDim .items (.str id) (.str "l") (.int d.w) = x at w2 ⊢
          obtain ⟨k, r⟩ := x
          cases r with
          | error e => exact ⟨rfl, w2.trans w1⟩
          | ok u =>
            simp only [] at w1 w2 ⊢
            obtain ⟨h1, h2⟩ := spell_orientLoop D turn ids k
            exact ⟨h1, h2.trans (w2.trans w1)⟩
      · exact spell_orientLoop D turn ids i

theorem spell_orientItems (D : Defaults) (i : Inst) (o : PyVal) :
    (i.spell D).orientItems o = ((i.orientItems o).1.spell D, (i.orientItems o).2) ∧
    (i.orientItems o).1.workers = i.workers := by
  unfold Inst.orientItems
  have hi : (i.spell D).items = i.items := rfl
  have hr : (i.spell D).rotation = i.rotation := rfl
  rw [hi, hr]
  split
  · exact ⟨rfl, rfl⟩
  · split
    · exact ⟨rfl, rfl⟩
    · split
      · exact spell_orientLoop D _ _ i
      · split
        · exact spell_orientLoop D _ _ i
        · exact ⟨rfl, rfl⟩

theorem spell_search (A : Arith) (D : Defaults) (h : HSArgs) (i : Inst) (hw : i.workers.isOne = true) :
    (i.spell D).search A h = ((i.search A h).1.spell D, (i.search A h).2) := by
  unfold Inst.search
  have hw' : (i.spell D).workers.isOne = true := hw
  have hs : (i.spell D).strip = i.strip := rfl
  simp only [hw, hw', if_true, hs]
  rw [(spellHom A D).singleHS _ _ _ _ trivial]
  cases hr : i.singleHS A (fun k => h.clock (k + 1)) (h.clock 0) h.throttle
      (getStrategies h.order i.strip h.exhaustive) with
  | error e => rfl
  | ok s =>
    show ((HSState.hom (Inst.spell D) (Prod.map id id) s).finish, Outcome.ok) = _
    rw [(spellHom A D).finish fun _ _ => rfl]

theorem spell_hypersearch (A : Arith) (D : Defaults) (h : HSArgs) (i : Inst) (hw : i.workers.isOne = true) :
    (i.spell D).hypersearch A h = ((i.hypersearch A h).1.spell D, (i.hypersearch A h).2) := by
  unfold Inst.hypersearch
  rw [spell_sortItems]
  have w1 := sortItems_workers A i h.sortingBy
  generalize i.sortItems A h.sortingBy = x at w1 ⊢
  obtain ⟨j, r⟩ := x
  cases r with
  | error e => rfl
  | ok u =>
    simp only [] at w1 ⊢
    obtain ⟨h1, w2⟩ := spell_orientItems D j h.orientation
    rw [h1]
    clear h1
    generalize j.orientItems h.orientation = x at w2 ⊢
    obtain ⟨k, r⟩ := x
    cases r with
    | error e => rfl
    | ok u =>
      simp only [] at w2 ⊢
      exact spell_search A D h k (by rw [w2, w1]; exact hw)

theorem spell_createFigure (writes : String → String → Bool) (sh : Bool) (i : Inst) :
    (i.spell D).createFigure writes sh = i.createFigure writes sh := by
  unfold Inst.createFigure
  have hset : (i.spell D).settings.asDict? = i.settings.asDict?.map D.fill := asDict_explicit D i.settings
  rw [hset]
  cases h : i.settings.asDict? with
  | none => rfl
  | some st =>
    simp only [Option.map_some, get?_fill_other D st "figure" (by decide) (by decide) (by decide)]
    rw [spell_over]
    simp only [over_drawAll]
    rfl

theorem spell_localSearch (A : Arith) (clock : Nat → Rat) (start : Rat) (th : Bool) (i : Inst) :
    (i.spell D).localSearch A clock start th = (i.localSearch A clock start th).map
      (fun r => (r.1.spell D, r.2.hom (Inst.spell D) (Prod.map id id) id)) :=
  ((spellHom A D).localSearch clock start th trivial).1

theorem spell_step (hD : D.Legal) (A : Arith) (i : Inst) (o : Op) (ho : InOneProcess i o) :
    step A (i.spell D) (o.explicit D) = ((subStep A D i o).1.spell D, (subStep A D i o).2) := by
  have plain : o.plain = true → o.explicit D = o → subStep A D i o = step A i o →
      step A (i.spell D) (o.explicit D) = ((subStep A D i o).1.spell D, (subStep A D i o).2) := by
    intro h1 h3 h4
    have h5 := over_step A i.settings i.maxTime i.workers i o h1
    have h6 : i.over i.settings i.maxTime i.workers = i := rfl
    rw [h6] at h5
    have e : (step A i o).1 = (step A i o).1.over i.settings i.maxTime i.workers := congrArg Prod.fst h5
    rw [h3, h4, spell_over, over_step A _ _ _ i o h1]
    conv_rhs => rw [e]
    rfl
  cases o with
  | settings E v =>
    have h := spell_validate hD E { i with settings := v }
    show outcomeOf (Inst.validateSettings E (Inst.spell D { i with settings := v })) = _
    rw [h]; rfl
  | validate E =>
    show outcomeOf (Inst.validateSettings E (i.spell D)) = _
    rw [spell_validate hD]; rfl
  | editSettings v => rfl
  | figure a b =>
    show (i.spell D, Outcome.of ((i.spell D).createFigure a b)) = _
    rw [spell_createFigure]; rfl
  | localSearch clock th =>
    show (match (i.spell D).localSearch A (fun k => clock (k + 1)) (clock 0) th with
      | .ok (j, _) => (j, Outcome.ok)
      | .error e => (i.spell D, .raised e)) = _
    rw [spell_localSearch]
    show _ = ((step A i (.localSearch clock th)).1.spell D, (step A i (.localSearch clock th)).2)
    simp only [step]
    cases i.localSearch A (fun k => clock (k + 1)) (clock 0) th <;> rfl
  | sortItems s =>
    show outcomeOf ((i.spell D).sortItems A s) = _
    rw [spell_sortItems]; rfl
  | orientItems o =>
    show outcomeOf ((i.spell D).orientItems o) = _
    rw [(spell_orientItems D i o).1]; rfl
  | hypersearch h => exact spell_hypersearch A D h i (ho h rfl)
  | _ => exact plain rfl rfl rfl

/-! ### C97 -/

theorem complete_get {st : List (PyVal × PyVal)} (h : AllGiven st) :
    (∃ r, PyVal.get? st "rotation" = some r ∧ r.isNone = false) ∧
    (∃ m, PyVal.get? st "max_time_in_seconds" = some m) ∧
    (∃ w, PyVal.get? st "workers_num" = some w ∧ w.isNone = false) := by
  have key : ∀ k, ¬ Absent st k → ∃ r, PyVal.get? st k = some r ∧ r.isNone = false := by
    intro k hk
    unfold Absent at hk
    cases hg : PyVal.get? st k with
    | none => exact absurd (Or.inl hg) hk
    | some v =>
      refine ⟨v, rfl, ?_⟩
      cases v <;> first | rfl | exact absurd (Or.inr hg) hk
  refine ⟨key _ h.1, ?_, key _ h.2.2⟩
  cases hg : PyVal.get? st "max_time_in_seconds" with
  | none => exact absurd hg h.2.1
  | some v => exact ⟨v, rfl⟩

theorem subMk_map (hD : D.Legal) (E : Env) (containers items settings stripWidth : PyVal) :
    mkInst E containers items (D.given settings) stripWidth =
      (subMk D E containers items settings stripWidth).map (Inst.spell D) := by
  unfold mkInst subMk
  cases initContainers containers stripWidth with
  | error e => rfl
  | ok c =>
    obtain ⟨strip, cs, height⟩ := c
    simp only []
    cases (buildStructure .items items).2 with
    | error e => rfl
    | ok its =>
      simp only []
      have hraw : rawInst strip cs its height (D.given settings) =
          (rawInst strip cs its height settings).spell D := by
        have hs : (if (D.given settings).truthy then D.given settings else .dict []) =
            D.explicit (if settings.truthy then settings else .dict []) := by
          have hd : ∀ st, (PyVal.dict (D.fill st)).truthy = true := by
            intro st
            show (!(D.fill st).isEmpty) = true
            rw [fill_ne_nil]; rfl
          unfold Defaults.given
          by_cases ht : settings.truthy = true
          · rw [if_pos ht]
            cases settings with
            | dict st => exact if_pos (hd st)
            | _ => exact if_pos ht
          · rw [if_neg ht]
            exact if_pos (hd [])
        unfold rawInst Inst.spell
        simp only [hs]
      rw [hraw, spell_validate hD]
      rcases Inst.subValidate D E (rawInst strip cs its height settings) with ⟨j, r⟩
      cases r <;> rfl

/-- C97, the constructor: the subclass raises exactly what `HyperPack` raises for the same arguments
with the missing settings written out, and otherwise creates the same object.
(Partial: C97 is false of a search in several processes, `C97_refuted`.) -/
theorem C97_constructor_partial (D : Defaults) (hD : D.Legal) (E : Env)
    (containers items settings stripWidth : PyVal) :
    (∀ e, subMk D E containers items settings stripWidth = .error e ↔
      mkInst E containers items (D.given settings) stripWidth = .error e) ∧
    (∀ p, subMk D E containers items settings stripWidth = .ok p →
      ∃ h, mkInst E containers items (D.given settings) stripWidth = .ok h ∧ ExplicitTwin D p h) := by
  rw [subMk_map hD]
  constructor
  · intro e
    cases subMk D E containers items settings stripWidth <;> simp [Except.map]
  · intro p hp
    rw [hp]
    exact ⟨p.spell D, rfl, rfl⟩

/-- C97, one call that starts no worker processes: it ends in the same way on twins and leaves twins;
log and figures are the same. -/
theorem C97_call_partial (A : Arith) (D : Defaults) (hD : D.Legal) (p h : Inst) (t : ExplicitTwin D p h)
    (o : Op) (ho : InOneProcess p o) :
    (subStep A D p o).2 = (step A h (o.explicit D)).2 ∧
    ExplicitTwin D (subStep A D p o).1 (step A h (o.explicit D)).1 ∧
    p.logSolution = h.logSolution ∧
    (∀ writes show_, p.createFigure writes show_ = h.createFigure writes show_) := by
  have e : h = p.spell D := t
  subst e
  rw [spell_step hD A p o ho]
  refine ⟨rfl, rfl, ?_, ?_⟩
  · rw [spell_over, over_logSolution]
  · intro a b; rw [spell_createFigure]

/-- C97, histories without worker processes: the calls end as on the `HyperPack` twin, and the objects
are twins after them. -/
theorem C97_history_partial (A : Arith) (D : Defaults) (hD : D.Legal) (p h : Inst) (t : ExplicitTwin D p h)
    (ops : List Op) (ho : AllInOneProcess (subStep A D) p ops) :
    ExplicitTwin D (after (subStep A D) p ops) (after (step A) h (ops.map (Op.explicit D))) ∧
    outcomes (subStep A D) p ops = outcomes (step A) h (ops.map (Op.explicit D)) := by
  induction ops generalizing p h with
  | nil => exact ⟨t, rfl⟩
  | cons o ops ih =>
    obtain ⟨h1, h2, _⟩ := C97_call_partial A D hD p h t o ho.1
    obtain ⟨h3, h4⟩ := ih _ _ h2 ho.2
    refine ⟨h3, ?_⟩
    show _ :: _ = _ :: _
    rw [h1]
    congr 1

/-- every object of the subclass reached without worker processes has a reachable `HyperPack` twin, so
what is proved of reachable `HyperPack` objects holds of it -/
theorem C97_reach_partial (A : Arith) (D : Defaults) (hD : D.Legal) (p : Inst) (hp : SubReach A D p) :
    ∃ h, Reach A h ∧ ExplicitTwin D p h := by
  induction hp with
  | new hmk =>
    obtain ⟨h, h1, h2⟩ := (C97_constructor_partial D hD _ _ _ _ _).2 _ hmk
    exact ⟨h, .new h1, h2⟩
  | step o ho hp ih =>
    obtain ⟨h, h1, h2⟩ := ih
    exact ⟨_, .step _ h1, (C97_call_partial A D hD _ h h2 o ho).2.1⟩

/-- C97, settings that are given win: if all three are given, the defaults of the subclass do not
matter, also not to searches in several processes. -/
theorem C97_given_partial (A : Arith) (D : Defaults) (E : Env)
    (containers items stripWidth : PyVal) (st : List (PyVal × PyVal)) (hst : AllGiven st) :
    subMk D E containers items (.dict st) stripWidth = mkInst E containers items (.dict st) stripWidth ∧
    (∀ p, subStep A D p (.settings E (.dict st)) = step A p (.settings E (.dict st))) ∧
    (∀ p, p.settings = .dict st → subStep A D p (.validate E) = step A p (.validate E)) ∧
    (∀ p h, subStep A D p (.hypersearch h) = step A p (.hypersearch h)) := by
  obtain ⟨⟨r, hr, hr'⟩, ⟨m, hm⟩, ⟨w, hw, hw'⟩⟩ := complete_get hst
  have hbase : ∀ i : Inst, i.settings = .dict st → i.subBase D = i.validateBase := by
    intro i hi
    unfold Inst.subBase Inst.validateBase
    rw [hi]
    have hne : st.isEmpty = false := by cases st with | nil => cases hr | cons a l => rfl
    have h1 : (PyVal.getD st "rotation").isNone = false := by simp only [PyVal.getD, hr]; exact hr'
    simp only [PyVal.asDict?, hne, h1, Bool.false_eq_true, if_false]
    cases (PyVal.getD st "rotation").asBool? <;> rfl
  have hval : ∀ i : Inst, i.settings = .dict st → i.subValidate D E = i.validateSettings E := by
    intro i hi
    unfold Inst.subValidate Inst.validateSettings
    have hh : i.subHyper D = i.validateHyper := by
      unfold Inst.subHyper Inst.validateHyper
      have hset : (i.subBase D).1.settings = .dict st := (subBase_settings i).trans hi
      rw [hbase i hi] at hset ⊢
      generalize i.validateBase = x at hset ⊢
      obtain ⟨j, r⟩ := x
      cases r with
      | error e => rfl
      | ok u =>
        simp only [] at hset ⊢
        rw [hset]
        have hne : st.isEmpty = false := by cases st with | nil => cases hm | cons a l => rfl
        simp only [PyVal.asDict?, hne, Bool.false_eq_true, if_false, hm, Option.getD_some]
        cases m.asInt? with
        | none => rfl
        | some t =>
          simp only []
          split
          · rfl
          · unfold Inst.subWorkers Inst.validateWorkers
            have h1 : (PyVal.getD st "workers_num").isNone = false := by simp only [PyVal.getD, hw]; exact hw'
            simp only [h1, Bool.false_eq_true, if_false]
            rfl
    rw [hh]
    rcases i.validateHyper with ⟨j, r⟩
    cases r <;> rfl
  refine ⟨?_, ?_, ?_, ?_⟩
  · unfold subMk mkInst
    cases initContainers containers stripWidth with
    | error e => rfl
    | ok c =>
      obtain ⟨strip, cs, height⟩ := c
      simp only []
      cases (buildStructure .items items).2 with
      | error e => rfl
      | ok its =>
        simp only []
        have ht : (PyVal.dict st).truthy = true := by cases st with | nil => cases hr | cons a l => rfl
        rw [hval _ (by unfold rawInst; simp only [ht, if_true])]
        rcases (rawInst strip cs its height (.dict st)).validateSettings E with ⟨j, r⟩
        cases r <;> rfl
  · intro p
    show outcomeOf _ = outcomeOf _
    rw [hval _ rfl]; rfl
  · intro p hp
    show outcomeOf _ = outcomeOf _
    rw [hval _ hp]
  · intro p h; rfl

/-- C97: without overriding there is no difference. -/
theorem C97_same (A : Arith) (E : Env) (containers items settings stripWidth : PyVal) (p : Inst) (o : Op) :
    subMk ⟨true, 60, .int 1⟩ E containers items settings stripWidth = mkInst E containers items settings stripWidth ∧
    subStep A ⟨true, 60, .int 1⟩ p o = step A p o := by
  have hb : ∀ i : Inst, i.subBase ⟨true, 60, .int 1⟩ = i.validateBase := fun _ => rfl
  have hv : ∀ (E : Env) (i : Inst), i.subValidate ⟨true, 60, .int 1⟩ E = i.validateSettings E := by
    intro E i; rfl
  refine ⟨rfl, ?_⟩
  cases o <;> rfl

/-- C97, what missing settings mean: the object gets the values of the subclass, at construction and
whenever settings are assigned. -/
theorem C97_applied (A : Arith) (D : Defaults) (hD : D.Legal) (E : Env) (st : List (PyVal × PyVal)) (p q : Inst)
    (h : (∃ containers items stripWidth, subMk D E containers items (.dict st) stripWidth = .ok q) ∨
      subStep A D p (.settings E (.dict st)) = (q, .ok)) :
    (Absent st "rotation" → q.rotation = D.rotation) ∧
    (∀ b, PyVal.get? st "rotation" = some (.bool b) → q.rotation = b) ∧
    (PyVal.get? st "max_time_in_seconds" = none → q.maxTime = D.maxTime) ∧
    (∀ t, PyVal.get? st "max_time_in_seconds" = some (.int t) → q.maxTime = t) ∧
    (Absent st "workers_num" → q.workers = D.workers) ∧
    (∀ w, PyVal.get? st "workers_num" = some w → w ≠ .none → q.workers = w) := by
  have key : ∃ i : Inst, i.settings = .dict st ∧ Inst.subValidate D E i = (q, .ok ()) := by
    rcases h with ⟨cs, its, sw, h⟩ | h
    · unfold subMk at h
      cases hc : initContainers cs sw with
      | error e => rw [hc] at h; cases h
      | ok c =>
        obtain ⟨strip, cs, height⟩ := c
        rw [hc] at h
        simp only [] at h
        cases hi : (buildStructure .items its).2 with
        | error e => rw [hi] at h; cases h
        | ok its =>
          rw [hi] at h
          simp only [] at h
          refine ⟨rawInst strip cs its height (.dict st), ?_, ?_⟩
          · unfold rawInst
            cases st <;> rfl
          · generalize Inst.subValidate D E (rawInst strip cs its height (.dict st)) = x at h ⊢
            obtain ⟨j, r⟩ := x
            cases r with
            | error e => cases h
            | ok u => cases h; rfl
    · refine ⟨{ p with settings := .dict st }, rfl, ?_⟩
      have h' : outcomeOf (Inst.subValidate D E { p with settings := .dict st }) = (q, .ok) := h
      generalize Inst.subValidate D E { p with settings := .dict st } = x at h' ⊢
      obtain ⟨j, r⟩ := x
      cases r with
      | error e => cases h'
      | ok u => cases h'; rfl
  obtain ⟨i, hi, hv⟩ := key
  have hv' := spell_validate hD E i
  rw [hv] at hv'
  have hs : (i.spell D).settings = .dict (D.fill st) := by
    unfold Inst.spell; rw [hi]; rfl
  have ha : (step A (i.spell D) (.settings E (.dict (D.fill st)))) = (q.spell D, .ok) := by
    show outcomeOf (Inst.validateSettings E { i.spell D with settings := .dict (D.fill st) }) = _
    have e2 : ({ i.spell D with settings := .dict (D.fill st) } : Inst) = i.spell D := by
      rw [← hs]
    rw [e2, hv']; rfl
  obtain ⟨st', hst', ⟨b, t, w, hp⟩, _⟩ := (C47_accepts A (i.spell D) E _).1.1 (by rw [ha])
  injection hst' with hst'
  subst hst'
  obtain ⟨a1, a2, a3, _⟩ := C47_applied A (i.spell D) E _ b t w hp (by rw [ha])
  rw [ha] at a1 a2 a3
  have b1 : q.rotation = b := a1
  have b2 : q.maxTime = t := a2
  have b3 : q.workers = w := a3
  subst b1 b2 b3
  obtain ⟨p1, p2, p3⟩ := hp
  have hr := getD_fill_rotation D st
  have hm := get?_fill_maxTime D st
  have hw := getD_fill_workers D st
  have abs : ∀ k, Absent st k → (PyVal.getD st k).isNone = true := by
    rintro k (h | h) <;> simp only [PyVal.getD, h] <;> rfl
  have hDw : D.workers ≠ .none := by
    intro h
    have := hD.2
    rw [h] at this
    rcases this with ⟨_, h, _⟩ | h | ⟨_, h, _⟩ | h <;> cases h
  have rot : PyVal.getD (D.fill st) "rotation" = .bool q.rotation ∨
      (PyVal.getD (D.fill st) "rotation" = .none ∧ q.rotation = true) := by
    rcases p1 with ⟨h | h, h'⟩ | h
    · exact Or.inr ⟨by simp only [PyVal.getD, h]; rfl, h'⟩
    · exact Or.inr ⟨by simp only [PyVal.getD, h]; rfl, h'⟩
    · exact Or.inl (by simp only [PyVal.getD, h]; rfl)
  have wor : PyVal.getD (D.fill st) "workers_num" = q.workers ∨ PyVal.getD (D.fill st) "workers_num" = .none := by
    rcases p3 with ⟨h | h, h'⟩ | h
    · exact Or.inr (by simp only [PyVal.getD, h]; rfl)
    · exact Or.inr (by simp only [PyVal.getD, h]; rfl)
    · exact Or.inl (by simp only [PyVal.getD, h.1]; rfl)
  have tim : ∀ v, (PyVal.get? st "max_time_in_seconds").getD (.int D.maxTime) = .int v → q.maxTime = v := by
    intro v hv
    rw [hv] at hm
    rcases p2 with ⟨h, _⟩ | ⟨h, _⟩ | ⟨h, _⟩
    · rw [hm] at h; cases h
    · rw [hm] at h; injection h with h; injection h with h; exact h.symm
    · rw [hm] at h; injection h with h; cases h
  refine ⟨?_, ?_, ?_, ?_, ?_, ?_⟩
  · intro h
    rw [if_pos (abs _ h)] at hr
    rw [hr] at rot
    rcases rot with h | ⟨h, _⟩
    · injection h with h; exact h.symm
    · cases h
  · intro b' h
    have e : PyVal.getD st "rotation" = .bool b' := by simp only [PyVal.getD, h]; rfl
    rw [e] at hr
    rw [hr] at rot
    rcases rot with h | ⟨h, _⟩
    · injection h with h; exact h.symm
    · cases h
  · intro h
    exact tim _ (by rw [h]; rfl)
  · intro t' h
    exact tim _ (by rw [h]; rfl)
  · intro h
    rw [if_pos (abs _ h)] at hw
    rw [hw] at wor
    rcases wor with h | h
    · exact h.symm
    · exact absurd h hDw
  · intro w' h hn
    have e : PyVal.getD st "workers_num" = w' := by simp only [PyVal.getD, h]; rfl
    have e2 : w'.isNone = false := by cases w' <;> first | rfl | exact absurd rfl hn
    rw [e, e2] at hw
    rw [hw] at wor
    rcases wor with h | h
    · exact h.symm
    · exact absurd h hn

/-- a subclass with `ROTATION_DEFAULT_VALUE = False` -/
def noRotation : Defaults := ⟨false, 60, .int 1⟩

/-- the arguments of a problem with one item, which fits only if it is turned, and two workers -/
def turnedArgs : PyVal × PyVal × PyVal :=
  (.dict [(.str "c", .dict [(.str "W", .int 2), (.str "L", .int 1)])],
   .dict [(.str "a", .dict [(.str "w", .int 1), (.str "l", .int 2)])],
   .dict [(.str "workers_num", .int 2)])

/-- the search: two workers, both run until they have ended -/
def turnedSearch : HSArgs := { plainArgs false (fun _ => 0) with orientation := .none, schedule := mpTurns }

/-- C97 is false of a search in several processes: the subclass forbids rotation by default, its
object says so, but the worker processes create `HyperPack` objects, so the item is packed turned.
A `HyperPack` object with the explicit setting leaves it out. -/
theorem C97_refuted : ∃ p h, noRotation.Legal ∧
    subMk noRotation plainEnv turnedArgs.1 turnedArgs.2.1 turnedArgs.2.2 .none = .ok p ∧
    p.rotation = false ∧ PyDict.find? p.items "a" = some ⟨1, 2⟩ ∧
    (subStep Arith.exact noRotation p (.hypersearch turnedSearch)).2 = .ok ∧
    (subStep Arith.exact noRotation p (.hypersearch turnedSearch)).1.solution = [("c", [("a", ⟨0, 0, 2, 1⟩)])] ∧
    mkInst plainEnv turnedArgs.1 turnedArgs.2.1 (noRotation.given turnedArgs.2.2) .none = .ok h ∧
    ExplicitTwin noRotation p h ∧
    (step Arith.exact h (.hypersearch turnedSearch)).2 = .ok ∧
    (step Arith.exact h (.hypersearch turnedSearch)).1.solution = [("c", [])] := by
  refine ⟨_, _, ⟨by decide, Or.inl ⟨1, rfl, by decide⟩⟩, rfl, rfl, by decide, by decide +kernel, by decide +kernel,
    rfl, rfl, by decide +kernel, by decide +kernel⟩

/-- the hypotheses of C97 on concrete objects: a subclass without rotation; its object, constructed
without settings, leaves the item out, where a `HyperPack` object packs it turned -/
example : noRotation.Legal ∧ ∃ p h,
    subMk noRotation plainEnv turnedArgs.1 turnedArgs.2.1 .none .none = .ok p ∧
    mkInst plainEnv turnedArgs.1 turnedArgs.2.1 .none .none = .ok h ∧
    AllInOneProcess (subStep Arith.exact noRotation) p
      [.solve none, .settings plainEnv (.dict [(.str "workers_num", .none)]), .hypersearch turnedSearch] ∧
    (after (subStep Arith.exact noRotation) p
      [.solve none, .settings plainEnv (.dict [(.str "workers_num", .none)]), .hypersearch turnedSearch]).solution =
        [("c", [])] ∧
    (after (step Arith.exact) h
      [.solve none, .settings plainEnv (.dict [(.str "workers_num", .none)]), .hypersearch turnedSearch]).solution =
        [("c", [("a", ⟨0, 0, 2, 1⟩)])] := by
  refine ⟨⟨by decide, Or.inl ⟨1, rfl, by decide⟩⟩, _, _, rfl, rfl, ⟨?_, ?_, ?_, trivial⟩, by decide +kernel, by decide +kernel⟩
  · intro a h; cases h
  · intro a h; cases h
  · intro a _; decide +kernel

/-- a settings value with all three settings given, C97_given_partial -/
example : AllGiven [(.str "rotation", .bool true), (.str "max_time_in_seconds", .int 3), (.str "workers_num", .int 2)] := by
  refine ⟨?_, by decide, ?_⟩ <;> rintro (h | h) <;> cases h

end HP
