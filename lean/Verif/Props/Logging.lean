import Verif.SpecLogging
import Verif.Props.MultiProcess
import Verif.Props.Settings
import Verif.Props.Workers
import Verif.Props.SettingsStored
import Verif.Props.Api
import Verif.Props.Subclass
import Verif.Proofs.PointGen
/-
Property C98: logging.
-/
namespace HP
open Spec

/-! ### records -/

theorem messages_append (lv : Level) (a b : List LogRec) : messages lv (a ++ b) = messages lv a ++ messages lv b := by
  simp [messages]

theorem messages_nil (lv : Level) : messages lv [] = [] := rfl

theorem messages_created (lv : Level) (e : PyErr) :
    messages lv (logCreated e) = if e.ofLibrary && decide (lv = .error) then [.exception e] else [] := by
  unfold logCreated
  cases e.ofLibrary <;> cases lv <;> rfl

theorem gtNat_iff {v : PyVal} {n : Nat} : v.gtNat n = true ↔ Exceeds v n := by
  unfold Exceeds
  cases v <;> simp [PyVal.gtNat]

theorem warnings_spec (m : Machine) (w : PyVal) :
    WorkersWarned m w (messages .warning (workersWarnings m w)) ∧ messages .error (workersWarnings m w) = [] ∧
    messages .info (workersWarnings m w) = [] := by
  unfold WorkersWarned workersWarnings
  rw [← gtNat_iff, ← gtNat_iff]
  cases w.gtNat m.cpus <;> cases w.gtNat 1 <;> cases m.windows <;> cases m.mainProcess <;>
    simp [messages]

theorem reports_created {e : PyErr} (h : e.ofLibrary = true) : Reports e (logCreated e) := by
  left; rw [messages_created, h]; rfl

theorem ofLibrary_iff (e : PyErr) : e.ofLibrary = true ↔ LibraryException e := by
  unfold LibraryException
  cases e <;> simp [PyErr.ofLibrary]

/-! ### settings -/

theorem hyperLog_spec (m : Machine) (i : Inst) :
    (∀ e, i.validateHyper.2 = .error e → (∃ s, e = .settingsError s) ∧ Reports e (i.hyperLog m) ∧
      messages .warning (i.hyperLog m) = []) ∧
    (i.validateHyper.2 = .ok () → messages .error (i.hyperLog m) = []) ∧ messages .info (i.hyperLog m) = [] := by
  have one : ∀ msg : String, (∀ e, (settingsErr msg : Except PyErr Unit) = .error e → (∃ s, e = .settingsError s) ∧
      Reports e (logResult (settingsErr (α := Unit) msg)) ∧ messages .warning (logResult (settingsErr (α := Unit) msg)) = []) ∧
      ((settingsErr msg : Except PyErr Unit) = .ok () → messages .error (logResult (settingsErr (α := Unit) msg)) = []) ∧
      messages .info (logResult (settingsErr (α := Unit) msg)) = [] := by
    intro msg
    refine ⟨?_, ?_, rfl⟩
    · intro e h; injection h with h; subst h; exact ⟨⟨_, rfl⟩, Or.inl rfl, rfl⟩
    · intro h; cases h
  unfold Inst.validateHyper Inst.hyperLog
  have hb : ∀ e, i.validateBase.2 = .error e → ∃ s, e = .settingsError s := by
    unfold Inst.validateBase
    intro e
    split
    · intro h; cases h; exact ⟨_, rfl⟩
    · split
      · intro h; cases h
      · simp only []
        split
        · intro h; cases h
        · split
          · intro h; cases h
          · intro h; cases h; exact ⟨_, rfl⟩
  generalize i.validateBase = x at hb ⊢
  obtain ⟨j, r⟩ := x
  cases r with
  | error e =>
    obtain ⟨s, rfl⟩ := hb e rfl
    simp only []
    refine ⟨?_, ?_, rfl⟩
    · intro e h; injection h with h; subst h; exact ⟨⟨_, rfl⟩, Or.inl rfl, rfl⟩
    · intro h; cases h
  | ok u =>
    simp only []
    cases j.settings.asDict? with
    | none => exact one _
    | some st =>
      simp only []
      split
      · exact ⟨fun e h => (by cases h), fun _ => rfl, rfl⟩
      · cases ((PyVal.get? st "max_time_in_seconds").getD (.int maxTimeDefault)).asInt? with
        | none => exact one _
        | some t =>
          simp only []
          split
          · exact one _
          · unfold Inst.validateWorkers workersLog
            simp only []
            split
            · obtain ⟨_, h2, h3⟩ := warnings_spec m workersDefault
              exact ⟨fun e h => (by cases h), fun _ => h2, h3⟩
            · rcases (PyVal.getD st "workers_num").gtZero? with _ | _ | _
              · refine ⟨?_, fun h => (by cases h), rfl⟩
                intro e h; cases h; exact ⟨⟨_, rfl⟩, Or.inl rfl, rfl⟩
              · refine ⟨?_, fun h => (by cases h), rfl⟩
                intro e h; cases h; exact ⟨⟨_, rfl⟩, Or.inr ⟨rfl, rfl⟩, rfl⟩
              · obtain ⟨_, h2, h3⟩ := warnings_spec m (PyVal.getD st "workers_num")
                exact ⟨fun e h => (by cases h), fun _ => h2, h3⟩

theorem messages_result {α : Type} (r : Except PyErr α) :
    (∀ e, r = .error e → e.ofLibrary = true → Reports e (logResult r)) ∧
    ((∀ e, r = .error e → e.ofLibrary = false) → messages .error (logResult r) = []) ∧
    messages .warning (logResult r) = [] ∧ messages .info (logResult r) = [] := by
  cases r with
  | ok a => exact ⟨fun e h => (by cases h), fun _ => rfl, rfl, rfl⟩
  | error e =>
    refine ⟨?_, ?_, ?_, ?_⟩
    · intro e' h; cases h; exact reports_created
    · intro h
      show messages _ (logCreated e) = []
      rw [messages_created, h e rfl]; rfl
    · show messages _ (logCreated e) = []
      rw [messages_created]; simp
    · show messages _ (logCreated e) = []
      rw [messages_created]; simp

theorem validateLog_spec (m : Machine) (E : Env) (i : Inst) :
    (∀ e, (i.validateSettings E).2 = .error e → e.ofLibrary = true → Reports e (i.validateLog m E)) ∧
    ((∀ e, (i.validateSettings E).2 = .error e → e.ofLibrary = false) → messages .error (i.validateLog m E) = []) ∧
    messages .info (i.validateLog m E) = [] ∧
    messages .warning (i.validateLog m E) = messages .warning (i.hyperLog m) := by
  obtain ⟨h1, h2, h3⟩ := hyperLog_spec m i
  unfold Inst.validateSettings Inst.validateLog
  have hlib : ∀ e, i.validateHyper.2 = .error e → e.ofLibrary = true := by
    intro e he
    obtain ⟨⟨s, rfl⟩, _⟩ := h1 e he
    rfl
  generalize i.validateHyper = x at h1 h2 hlib ⊢
  obtain ⟨j, r⟩ := x
  cases r with
  | error e =>
    simp only [List.append_nil] at h1 hlib ⊢
    clear h2
    refine ⟨?_, ?_, h3, trivial⟩
    · intro e' h _; injection h with h; subst h; exact (h1 e rfl).2.1
    · intro h
      have := h e rfl
      rw [hlib e rfl] at this; cases this
  | ok u =>
    replace h2 := h2 rfl
    simp only []
    obtain ⟨g1, g2, g3, g4⟩ := messages_result (j.validateFigure E).2
    refine ⟨?_, ?_, ?_, ?_⟩
    · intro e he hl
      have := g1 e he hl
      unfold Reports at *
      rw [messages_append, h2]
      exact this
    · intro h
      rw [messages_append, h2, g2 h]; rfl
    · rw [messages_append, h3, g4]; rfl
    · rw [messages_append, g3, List.append_nil]

theorem notPositive_iff (v : PyVal) : v.gtZero? = some false ↔ NumberNotPositive v := by
  unfold NumberNotPositive
  cases v <;> simp [PyVal.gtZero?]

theorem hyperLog_twice (m : Machine) (i : Inst) (a b : LogMsg) :
    messages .error (i.hyperLog m) = [a, b] ↔
      i.validateHyper.2 = .error (.settingsError "WORKERS_NUM_VALUE") ∧
      a = .exception (.settingsError "WORKERS_NUM_VALUE") ∧ b = .exception (.settingsError "WORKERS_NUM_VALUE") ∧
      ∃ st, i.settings = .dict st ∧ NumberNotPositive (PyVal.getD st "workers_num") := by
  have short : ∀ {l : List LogRec} {r : Except PyErr Unit} {Q : Prop}, (messages .error l).length ≤ 1 →
      (r = .error (.settingsError "WORKERS_NUM_VALUE") → ¬ Q) →
      (messages .error l = [a, b] ↔ r = .error (.settingsError "WORKERS_NUM_VALUE") ∧
        a = .exception (.settingsError "WORKERS_NUM_VALUE") ∧ b = .exception (.settingsError "WORKERS_NUM_VALUE") ∧ Q) := by
    intro l r Q h1 h2
    constructor
    · intro h; rw [h] at h1; simp at h1
    · rintro ⟨h, _, _, hq⟩; exact absurd hq (h2 h)
  have created : ∀ e, (messages .error (logCreated e)).length ≤ 1 := by
    intro e; rw [messages_created]; split <;> simp
  have hs := validateBase_settings i
  have hb : ∀ e, i.validateBase.2 = .error e → e ≠ .settingsError "WORKERS_NUM_VALUE" := by
    unfold Inst.validateBase
    intro e
    split
    · intro h; cases h; simp
    · split
      · intro h; cases h
      · simp only []
        split
        · intro h; cases h
        · split
          · intro h; cases h
          · intro h; cases h; simp
  unfold Inst.validateHyper Inst.hyperLog
  generalize i.validateBase = x at hb hs ⊢
  obtain ⟨j, r⟩ := x
  simp only [] at hs
  rw [← hs]
  cases r with
  | error e =>
    simp only []
    exact short (created e) (fun h => absurd (by injection h) (hb e rfl))
  | ok u =>
    simp only []
    cases hst : j.settings with
    | dict st =>
      simp only [PyVal.asDict?]
      split
      · exact short (by simp [messages_nil]) (fun h => by cases h)
      · cases ((PyVal.get? st "max_time_in_seconds").getD (.int maxTimeDefault)).asInt? with
        | none => exact short (created _) (fun h => by simp [settingsErr] at h)
        | some t =>
          simp only []
          split
          · exact short (created _) (fun h => by simp [settingsErr] at h)
          · unfold Inst.validateWorkers workersLog
            simp only []
            split
            · exact short (by rw [(warnings_spec m workersDefault).2.1]; simp) (fun h => by cases h)
            · rcases hg : (PyVal.getD st "workers_num").gtZero? with _ | _ | _
              · refine short (created _) (fun _ => ?_)
                rintro ⟨st', h, hn⟩
                cases h
                rw [(notPositive_iff _).2 hn] at hg
                cases hg
              · simp only [messages_append, messages_created]
                constructor
                · intro h
                  have h' : [LogMsg.exception workersError, LogMsg.exception workersError] = [a, b] := h
                  injection h' with h1 h2
                  injection h2 with h2 _
                  exact ⟨rfl, h1.symm, h2.symm, _, rfl, (notPositive_iff _).1 hg⟩
                · rintro ⟨_, rfl, rfl, _⟩; rfl
              · exact short (by rw [(warnings_spec m _).2.1]; simp) (fun h => by cases h)
    | _ => exact short (created _) (fun h => by simp [PyVal.asDict?, settingsErr] at h)

theorem hyperOk_positive (i : Inst) (h : i.validateHyper.2 = .ok ()) {st : List (PyVal × PyVal)}
    (hi : i.settings = .dict st) : ¬ NumberNotPositive (PyVal.getD st "workers_num") := by
  intro hn
  have hg := (notPositive_iff _).2 hn
  have hs := validateBase_settings i
  unfold Inst.validateHyper at h
  generalize i.validateBase = x at h hs
  obtain ⟨j, r⟩ := x
  simp only [] at hs
  cases r with
  | error e => cases h
  | ok u =>
    simp only [hs, hi, PyVal.asDict?] at h
    split at h
    · rename_i he
      cases st with
      | nil => simp [PyVal.getD, PyVal.get?, PyVal.gtZero?] at hg
      | cons a l => cases he
    · cases ht : ((PyVal.get? st "max_time_in_seconds").getD (.int maxTimeDefault)).asInt? with
      | none => rw [ht] at h; cases h
      | some t =>
        rw [ht] at h
        simp only [] at h
        split at h
        · cases h
        · unfold Inst.validateWorkers at h
          simp only [] at h
          split at h
          · rename_i hnone
            generalize PyVal.getD st "workers_num" = w at hnone hg
            cases w <;> simp [PyVal.gtZero?, PyVal.isNone] at hg hnone
          · rw [hg] at h; cases h

theorem validateLog_twice (m : Machine) (E : Env) (i : Inst) (a b : LogMsg) :
    messages .error (i.validateLog m E) = [a, b] ↔
      (i.validateSettings E).2 = .error (.settingsError "WORKERS_NUM_VALUE") ∧
      a = .exception (.settingsError "WORKERS_NUM_VALUE") ∧ b = .exception (.settingsError "WORKERS_NUM_VALUE") ∧
      ∃ st, i.settings = .dict st ∧ NumberNotPositive (PyVal.getD st "workers_num") := by
  have key := hyperLog_twice m i a b
  have hok := (hyperLog_spec m i).2.1
  unfold Inst.validateSettings Inst.validateLog
  generalize hx : i.validateHyper = x at key hok ⊢
  obtain ⟨j, r⟩ := x
  cases r with
  | error e => simpa using key
  | ok u =>
    simp only [messages_append, hok rfl, List.nil_append]
    constructor
    · intro h
      exfalso
      have hl : (messages .error (logResult (j.validateFigure E).2)).length ≤ 1 := by
        cases (j.validateFigure E).2 with
        | ok _ => simp [logResult, messages_nil]
        | error e => show (messages .error (logCreated e)).length ≤ 1; rw [messages_created]; split <;> simp
      rw [h] at hl; simp at hl
    · rintro ⟨h, _, _, st, hst, hn⟩
      exfalso
      exact hyperOk_positive i (by rw [hx]) hst hn

theorem messages_created_error {e : PyErr} (h : e.ofLibrary = false) : logCreated e = [] := by
  unfold logCreated; rw [h]; rfl

/-- what a part of a call that ends with `r` logs: an exception of the library is reported, otherwise
there are no errors -/
def LogOk {α : Type} (r : Except PyErr α) (l : List LogRec) : Prop :=
  (∀ e, r = .error e → e.ofLibrary = true → Reports e l) ∧
  ((∀ e, r = .error e → e.ofLibrary = false) → messages .error l = [])

theorem logOk_result {α : Type} (r : Except PyErr α) : LogOk r (logResult r) :=
  ⟨(messages_result r).1, (messages_result r).2.1⟩

theorem LogOk.ofError {α β : Type} {e : PyErr} {l : List LogRec} (h : LogOk (.error e : Except PyErr α) l) :
    LogOk (.error e : Except PyErr β) l :=
  ⟨fun e' he => h.1 e' (by injection he with he; rw [he]), fun h' => h.2 (fun e' he => h' e' (by injection he with he; rw [he]))⟩

theorem mkLog_spec (m : Machine) (E : Env) (containers items settings stripWidth : PyVal) :
    LogOk (mkInst E containers items settings stripWidth) (mkLog m E containers items settings stripWidth) ∧
    messages .info (mkLog m E containers items settings stripWidth) = [] := by
  unfold mkInst mkLog
  cases initContainers containers stripWidth with
  | error e =>
    exact ⟨logOk_result (Except.error e), (messages_result (Except.error (α := Unit) e)).2.2.2⟩
  | ok c =>
    obtain ⟨strip, cs, height⟩ := c
    simp only []
    cases (buildStructure .items items).2 with
    | error e =>
      exact ⟨logOk_result (Except.error e), (messages_result (Except.error (α := Unit) e)).2.2.2⟩
    | ok its =>
      simp only []
      obtain ⟨h1, h2, h3, _⟩ := validateLog_spec m E (rawInst strip cs its height settings)
      refine ⟨?_, h3⟩
      generalize Inst.validateSettings E (rawInst strip cs its height settings) = x at h1 h2 ⊢
      obtain ⟨j, r⟩ := x
      cases r with
      | error e => exact LogOk.ofError (α := Unit) ⟨h1, h2⟩
      | ok u =>
        refine ⟨fun e he => (by cases he), fun _ => h2 (fun e he => (by cases he))⟩

/-- the settings ask for one worker, or for none -/
theorem one_quiet (m : Machine) (hm : 1 ≤ m.cpus) : workersWarnings m (.int 1) = [] := by
  unfold workersWarnings
  have h1 : (PyVal.int 1).gtNat m.cpus = false := by
    simp only [PyVal.gtNat, decide_eq_false_iff_not]; omega
  have h2 : (PyVal.int 1).gtNat 1 = false := by decide
  rw [h1, h2]; rfl

theorem hyperLog_quiet (m : Machine) (hm : 1 ≤ m.cpus) (i : Inst)
    (hw : ∀ st, i.settings = .dict st →
      (PyVal.getD st "workers_num").isNone = true ∨ PyVal.getD st "workers_num" = .int 1) :
    messages .warning (i.hyperLog m) = [] := by
  unfold Inst.hyperLog
  have hset := validateBase_settings i
  generalize i.validateBase = x at hset ⊢
  obtain ⟨j, r⟩ := x
  cases r with
  | error e =>
    simp only []
    rw [messages_created]; simp
  | ok u =>
    simp only [] at hset ⊢
    rw [hset]
    cases hd : i.settings.asDict? with
    | none => rfl
    | some st =>
    have hw := hw st (by
      cases hi : i.settings <;> rw [hi] at hd <;> simp [PyVal.asDict?] at hd
      rw [hd])
    simp only []
    split
    · rfl
    · cases ((PyVal.get? st "max_time_in_seconds").getD (.int maxTimeDefault)).asInt? with
      | none => rfl
      | some t =>
        simp only []
        split
        · rfl
        · unfold workersLog
          rcases hw with h | h
          · simp only [h, if_true]
            rw [show workersDefault = .int 1 from rfl, one_quiet m hm]; rfl
          · have h1 : (PyVal.int 1).isNone = false := rfl
            have h2 : (PyVal.int 1).gtZero? = some true := rfl
            simp only [h, h1, h2, Bool.false_eq_true, if_false]
            rw [one_quiet m hm]; rfl

theorem workerSettings_one {s st : PyVal} (h : workerSettings s = .ok st) (l : List (PyVal × PyVal))
    (hl : (if st.truthy then st else .dict []) = .dict l) :
    (PyVal.getD l "workers_num").isNone = true ∨ PyVal.getD l "workers_num" = .int 1 := by
  have hnil : PyVal.getD [] "workers_num" = .none := rfl
  unfold workerSettings at h
  cases s with
  | dict d =>
    simp only [] at h
    split at h
    · injection h with h
      subst h
      right
      split at hl
      · injection hl with hl
        subst hl
        unfold PyVal.getD
        rw [get?_setEntry_self]; rfl
      · rename_i hf
        exfalso
        apply hf
        cases d <;> simp [setEntry, PyVal.truthy]
        split <;> simp
    · rename_i hn
      injection h with h
      subst h
      left
      split at hl
      · injection hl with hl
        subst hl
        unfold PyVal.getD
        cases hg : PyVal.get? d "workers_num" with
        | none => rfl
        | some v => rw [hg] at hn; exact absurd rfl hn
      · injection hl with hl
        subst hl; rfl
  | str t =>
    simp only [] at h
    split at h
    · cases h
    · injection h with h
      subst h
      split at hl
      · cases hl
      · injection hl with hl
        subst hl; left; rfl
  | list t =>
    simp only [] at h
    split at h
    · cases h
    · injection h with h
      subst h
      split at hl
      · cases hl
      · injection hl with hl
        subst hl; left; rfl
  | tuple t =>
    simp only [] at h
    split at h
    · cases h
    · injection h with h
      subst h
      split at hl
      · cases hl
      · injection hl with hl
        subst hl; left; rfl
  | _ => cases h

theorem mkLog_quiet (m : Machine) (hm : 1 ≤ m.cpus) (E : Env) (containers items stripWidth st : PyVal)
    (hw : ∀ l, (if st.truthy then st else .dict []) = .dict l →
      (PyVal.getD l "workers_num").isNone = true ∨ PyVal.getD l "workers_num" = .int 1) :
    messages .warning (mkLog m E containers items st stripWidth) = [] := by
  unfold mkLog
  cases initContainers containers stripWidth with
  | error e => simp only []; rw [messages_created]; simp
  | ok c =>
    obtain ⟨strip, cs, height⟩ := c
    simp only []
    cases (buildStructure .items items).2 with
    | error e => simp only []; rw [messages_created]; simp
    | ok its =>
      simp only []
      rw [(validateLog_spec m E _).2.2.2]
      exact hyperLog_quiet m hm _ hw

theorem messages_flatMap {α : Type} (lv : Level) (l : List α) (r : List LogRec) (h : messages lv r = []) :
    messages lv (l.flatMap (fun _ => r)) = [] := by
  induction l with
  | nil => rfl
  | cons a l ih => rw [List.flatMap_cons, messages_append, h, ih]; rfl

theorem copySolution_error {items : PyDict String Dim} {sol : Solution} {cids : List String} {e : PyErr}
    (h : copySolution items sol cids = .error e) : e.ofLibrary = false := by
  induction cids with
  | nil => cases h
  | cons c cs ih =>
    unfold copySolution PyDict.getE at h
    simp only [bind, Except.bind, pure, Except.pure] at h
    cases hf : PyDict.find? sol c with
    | none => rw [hf] at h; simp only [] at h; cases h; rfl
    | some v =>
      rw [hf] at h; simp only [] at h
      cases hc : copySolution items sol cs with
      | error e' => rw [hc] at h; simp only [] at h; cases h; exact ih hc
      | ok r => rw [hc] at h; simp only [] at h; cases h

theorem deepcopy_error {i : Inst} {sol : Solution} {e : PyErr} (h : i.deepcopySolution sol = .error e) :
    e.ofLibrary = false := copySolution_error h

/-- the outcome of a search in several processes as a result -/
def MPOutcome.result : MPOutcome → Except PyErr Unit
  | .raised e => .error e
  | _ => .ok ()

/-- the errors of the parent, and how the search ends -/
theorem mpFinish_raised {i : Inst} {s : MPState} {e : PyErr} (h : mpFinish i s = .raised e)
    (hl : e.ofLibrary = true) :
    e = .multiProcessError "ALL_PROCESSES_FAILED" ∧ s.phases.all Phase.ended = true ∧ arrayMax s.arr = some (-1) := by
  unfold mpFinish at h
  split at h
  · cases h
  · rename_i hend
    split at h
    · injection h with h; subst h; cases hl
    · rename_i x hx
      split at h
      · rename_i h1
        injection h with h
        subst h1
        exact ⟨h.symm, by simpa using hend, hx⟩
      · split at h
        · cases h
        · split at h
          · rename_i hd
            injection h with h; subst h
            rw [deepcopy_error hd] at hl; cases hl
          · cases h

theorem multiLog_spec (m : Machine) (hm : 1 ≤ m.cpus) (E : Env) (M : MPParams) (strategies : List (List PClass))
    (schedule : List (Nat × MPEvent)) (i : Inst) :
    (LogOk (i.multiHS E M strategies schedule).result (i.multiLog m E M strategies schedule) ∨
      ((∀ e, i.multiHS E M strategies schedule = .raised e → e.ofLibrary = false) ∧
        messages .error (i.multiLog m E M strategies schedule) = [.someProcessesFailed])) ∧
    messages .warning (i.multiLog m E M strategies schedule) = [] ∧
    messages .info (i.multiLog m E M strategies schedule) = [] := by
  unfold Inst.multiHS Inst.multiLog
  have created : ∀ e : PyErr, (LogOk (MPOutcome.raised e).result (logCreated e) ∨
      ((∀ e', MPOutcome.raised e = .raised e' → e'.ofLibrary = false) ∧
        messages .error (logCreated e) = [.someProcessesFailed])) ∧
      messages .warning (logCreated e) = [] ∧ messages .info (logCreated e) = [] := by
    intro e
    obtain ⟨h1, h2, h3, h4⟩ := messages_result (Except.error (α := Unit) e)
    exact ⟨Or.inl ⟨h1, h2⟩, h3, h4⟩
  cases strategyChunks strategies i.workers with
  | error e => exact created e
  | ok chunks =>
    simp only []
    unfold workerInst
    simp only [bind, Except.bind, pure, Except.pure]
    cases hst : workerSettings i.settings with
    | error e => cases workerContainers i <;> exact created e
    | ok st =>
      cases hc : workerContainers i with
      | error e => exact created e
      | ok c =>
        simp only []
        obtain ⟨g1, g2⟩ := mkLog_spec m E c.1 (SKind.items.encodeAll i.items) st c.2
        have g3 := mkLog_quiet m hm E c.1 (SKind.items.encodeAll i.items) c.2 st (workerSettings_one hst)
        cases hmk : mkInst E c.1 (SKind.items.encodeAll i.items) st c.2 with
        | error e =>
          rw [hmk] at g1
          simp only []
          exact ⟨Or.inl (LogOk.ofError g1), g3, g2⟩
        | ok w =>
          rw [hmk] at g1
          simp only []
          have g0 := g1.2 (fun e he => (by cases he))
          simp only [messages_append, messages_flatMap _ _ _ g3, messages_flatMap _ _ _ g2, List.nil_append]
          unfold LogOk Reports
          simp only [messages_append, messages_flatMap _ _ _ g0, List.nil_append]
          generalize mpRun M { w with minHeight := i.minHeight } chunks schedule = s
          have fin := fun e => @mpFinish_raised i s e
          have hall : s.phases.all Phase.ended = true → arrayMax s.arr = some (-1) →
              mpFinish i s = .raised (.multiProcessError "ALL_PROCESSES_FAILED") := by
            intro h1 h2
            unfold mpFinish
            rw [h1, h2]; rfl
          have other : (∀ h : s.phases.all Phase.ended = true, arrayMax s.arr ≠ some (-1)) →
              ∀ e, mpFinish i s = .raised e → e.ofLibrary = false := by
            intro h e he
            cases hl : e.ofLibrary with
            | false => rfl
            | true =>
              obtain ⟨_, h1, h2⟩ := fin e he hl
              exact absurd h2 (h h1)
          generalize mpFinish i s = out at fin hall other
          have quiet : (∀ h : s.phases.all Phase.ended = true, arrayMax s.arr ≠ some (-1)) →
              ∀ l : List LogMsg, ∀ e, out.result = .error e → e.ofLibrary = true →
              l = [.exception e] ∨ (e = .settingsError "WORKERS_NUM_VALUE" ∧ l = [.exception e, .exception e]) := by
            intro h l e he hl
            have := other h e (by cases out <;> first | (injection he with he; rw [he]) | cases he)
            rw [hl] at this; cases this
          unfold finishLog
          by_cases hend : (!s.phases.all Phase.ended) = true
          · simp only [hend, if_true]
            have h0 : ∀ h : s.phases.all Phase.ended = true, arrayMax s.arr ≠ some (-1) := by
              intro h; rw [h] at hend; cases hend
            exact ⟨Or.inl ⟨quiet h0 _, fun _ => rfl⟩, rfl, rfl⟩
          · simp only [if_neg hend]
            cases hmax : arrayMax s.arr with
            | none =>
              have h0 : ∀ h : s.phases.all Phase.ended = true, arrayMax s.arr ≠ some (-1) := by
                intro h; rw [hmax]; simp
              exact ⟨Or.inl ⟨quiet h0 _, fun _ => rfl⟩, rfl, rfl⟩
            | some x =>
              simp only []
              by_cases hx : x = -1
              · simp only [if_pos hx]
                rw [hall (by simpa using hend) (by rw [hmax, hx])]
                refine ⟨Or.inl ⟨?_, ?_⟩, rfl, rfl⟩
                · intro e he _; cases he; exact Or.inl rfl
                · intro h; cases h _ rfl
              · simp only [if_neg hx]
                have h0 : ∀ h : s.phases.all Phase.ended = true, arrayMax s.arr ≠ some (-1) := by
                  intro h; rw [hmax]; simpa using hx
                by_cases hn : s.arr.contains (-1) = true
                · simp only [if_pos hn]
                  exact ⟨Or.inr ⟨other h0, rfl⟩, rfl, rfl⟩
                · simp only [if_neg hn]
                  exact ⟨Or.inl ⟨quiet h0 _, fun _ => rfl⟩, rfl, rfl⟩

/-! ### all calls -/

/-- as `LogOk`, for the outcome of a call -/
def CallOk (out : Outcome) (l : List LogRec) : Prop :=
  (∀ e, out = .raised e → e.ofLibrary = true → Reports e l) ∧
  ((∀ e, out = .raised e → e.ofLibrary = false) → messages .error l = [])

theorem LogOk.call {α : Type} {r : Except PyErr α} {l : List LogRec} (h : LogOk r l) : CallOk (Outcome.of r) l := by
  cases r with
  | ok a => exact ⟨fun e he => (by cases he), fun _ => h.2 (fun e he => (by cases he))⟩
  | error e =>
    refine ⟨?_, ?_⟩
    · intro e' he; injection he with he; subst he; exact h.1 _ rfl
    · intro h'; exact h.2 (fun e' he => by injection he with he; subst he; exact h' _ rfl)

theorem callOk_default (out : Outcome) :
    CallOk out (match out with | .raised e => logCreated e | _ => []) ∧
    messages .warning (match out with | .raised e => logCreated e | _ => []) = [] ∧
    messages .info (match out with | .raised e => logCreated e | _ => []) = [] := by
  cases out with
  | ok => exact ⟨⟨fun e he => (by cases he), fun _ => rfl⟩, rfl, rfl⟩
  | blocked => exact ⟨⟨fun e he => (by cases he), fun _ => rfl⟩, rfl, rfl⟩
  | raised e =>
    obtain ⟨h1, h2, h3, h4⟩ := messages_result (Except.error (α := Unit) e)
    exact ⟨LogOk.call (r := Except.error (α := Unit) e) ⟨h1, h2⟩, h3, h4⟩

theorem orientLog_spec (orientation : PyVal) (i : Inst) :
    LogOk (i.orientItems orientation).2 (i.orientLog orientation) ∧ messages .info (i.orientLog orientation) = [] := by
  unfold Inst.orientLog
  split
  · rename_i h1
    have : (i.orientItems orientation).2 = .ok () := by simp [Inst.orientItems, h1]
    rw [this]
    exact ⟨⟨fun e he => (by cases he), fun _ => rfl⟩, rfl⟩
  · rename_i h1
    split
    · rename_i h2
      have : (i.orientItems orientation).2 = .ok () := by simp [Inst.orientItems, h1, h2]
      rw [this]
      exact ⟨⟨fun e he => (by cases he), fun _ => rfl⟩, rfl⟩
    · rename_i h2
      split
      · rename_i h3
        have : (i.orientItems orientation).2 = .ok () := by
          simp only [Bool.not_eq_true', Bool.or_eq_false_iff] at h3
          simp [Inst.orientItems, h1, h2, h3.1, h3.2]
        rw [this]
        exact ⟨⟨fun e he => (by cases he), fun _ => rfl⟩, rfl⟩
      · exact ⟨logOk_result _, (messages_result _).2.2.2⟩

theorem solutionLog_ok (i : Inst) : LogOk i.logSolution i.solutionLog := by
  unfold Inst.solutionLog
  cases i.logSolution with
  | error e => exact logOk_result (Except.error e)
  | ok l => cases l <;> exact ⟨fun e he => (by cases he), fun _ => rfl⟩

theorem figureLog_ok (writes : String → String → Bool) (show_ : Bool) (i : Inst) :
    LogOk (i.createFigure writes show_) (i.figureLog writes show_) ∧
    messages .info (i.figureLog writes show_) = [] := by
  have er : ∀ e, LogOk (.error e : Except PyErr (List Drawn)) (logCreated e) ∧ messages .info (logCreated e) = [] :=
    fun e => ⟨logOk_result (Except.error e), (messages_result (Except.error (α := Unit) e)).2.2.2⟩
  unfold Inst.createFigure Inst.figureLog
  split
  · exact ⟨⟨fun e he => (by cases he), fun _ => rfl⟩, rfl⟩
  · split
    · exact er _
    · split
      · exact er _
      · cases i.settings.asDict? with
        | none => exact er _
        | some st =>
          simp only []
          cases (PyVal.get? st "figure").getD (.dict []) with
          | dict fig =>
            simp only []
            split
            · exact ⟨⟨fun e he => (by cases he), fun _ => rfl⟩, rfl⟩
            · exact ⟨logOk_result _, (messages_result _).2.2.2⟩
          | _ => exact er _

/-- the outcome of the search part of `hypersearch` -/
theorem search_outcome (A : Arith) (h : HSArgs) (k : Inst) :
    (k.search A h).2 =
      if k.workers.isOne then
        Outcome.of (k.singleHS A (fun n => h.clock (n + 1)) (h.clock 0) h.throttle
          (getStrategies h.order k.strip h.exhaustive))
      else
        match k.multiHS h.env (h.mp A) (getStrategies h.order k.strip h.exhaustive) h.schedule with
        | .returned _ _ _ => .ok
        | .raised e => .raised e
        | .blocked => .blocked := by
  unfold Inst.search
  simp only []
  split
  · cases k.singleHS A (fun n => h.clock (n + 1)) (h.clock 0) h.throttle
          (getStrategies h.order k.strip h.exhaustive) <;> rfl
  · cases k.multiHS h.env (h.mp A) (getStrategies h.order k.strip h.exhaustive) h.schedule <;> rfl

theorem CallOk.append {out : Outcome} {a l : List LogRec} (ha : messages .error a = []) (h : CallOk out l) :
    CallOk out (a ++ l) := by
  unfold CallOk Reports at *
  rw [messages_append, ha, List.nil_append]
  exact h

theorem hypersearchLog_spec (m : Machine) (hm : 1 ≤ m.cpus) (A : Arith) (h : HSArgs) (i : Inst) :
    (CallOk (i.hypersearch A h).2 (i.hypersearchLog m A h) ∨
      ((∀ e, (i.hypersearch A h).2 = .raised e → e.ofLibrary = false) ∧
        messages .error (i.hypersearchLog m A h) = [.someProcessesFailed])) ∧
    messages .info (i.hypersearchLog m A h) = [] ∧
    messages .warning (i.hypersearchLog m A h) =
      match i.sortItems A h.sortingBy with
      | (_, .error _) => []
      | (j, .ok ()) => messages .warning (j.orientLog h.orientation) := by
  unfold Inst.hypersearch Inst.hypersearchLog
  generalize i.sortItems A h.sortingBy = x
  obtain ⟨j, r⟩ := x
  cases r with
  | error e =>
    obtain ⟨h1, h2, h3, h4⟩ := messages_result (Except.error (α := Unit) e)
    exact ⟨Or.inl (LogOk.call (r := Except.error (α := Unit) e) ⟨h1, h2⟩), h4, h3⟩
  | ok u =>
    simp only []
    obtain ⟨o1, o2⟩ := orientLog_spec h.orientation j
    generalize j.orientItems h.orientation = y at o1 ⊢
    obtain ⟨k, r⟩ := y
    cases r with
    | error e =>
      simp only [List.append_nil] at o1 ⊢
      exact ⟨Or.inl o1.call, o2, trivial⟩
    | ok u =>
      have o0 := o1.2 (fun e he => (by cases he))
      simp only [search_outcome]
      by_cases hw : k.workers.isOne = true
      · simp only [if_pos hw]
        generalize k.singleHS A (fun n => h.clock (n + 1)) (h.clock 0) h.throttle
          (getStrategies h.order k.strip h.exhaustive) = r
        obtain ⟨h1, h2, h3, h4⟩ := messages_result r
        simp only [messages_append, o2, h4, h3]
        exact ⟨Or.inl (CallOk.append o0 (LogOk.call ⟨h1, h2⟩)), rfl, by simp⟩
      · simp only [if_neg hw]
        obtain ⟨g1, g2, g3⟩ := multiLog_spec m hm h.env (h.mp A) (getStrategies h.order k.strip h.exhaustive) h.schedule k
        simp only [messages_append, o0, o2, g2, g3]
        generalize k.multiHS h.env (h.mp A) (getStrategies h.order k.strip h.exhaustive) h.schedule = out at g1
        refine ⟨?_, rfl, by simp⟩
        rcases g1 with g | ⟨g, g'⟩
        · refine Or.inl (CallOk.append o0 ?_)
          cases out with
          | blocked => exact ⟨fun e he => (by cases he), fun _ => g.2 (fun e he => (by cases he))⟩
          | returned a b c => exact LogOk.call g
          | raised e => exact LogOk.call g
        · refine Or.inr ⟨?_, g'⟩
          intro e he
          refine g e ?_
          cases out <;> first | (injection he with he; rw [he]) | cases he

/-! ### C98 -/

/-- C98, errors: if a call of the API ends with an exception of the library, then what it logged at
level ERROR is this exception (once, or twice for `workers_num`).  Otherwise it logged no error,
except that `hypersearch` may have reported failed worker processes.
Missing: the exception about `workers_num` should be logged once as well (`C98_refuted`). -/
theorem C98_error_partial (m : Machine) (hm : 1 ≤ m.cpus) (A : Arith) (i : Inst) (o : Op) :
    (∀ e, (step A i o).2 = .raised e → LibraryException e → Reports e (callLog m A i o)) ∧
    ((∀ e, (step A i o).2 = .raised e → ¬ LibraryException e) →
      messages .error (callLog m A i o) = [] ∨
      ∃ h, o = .hypersearch h ∧ messages .error (callLog m A i o) = [.someProcessesFailed]) := by
  simp only [← ofLibrary_iff, Bool.not_eq_true]
  have of : ∀ {out l}, CallOk out l → (∀ e, out = .raised e → e.ofLibrary = true → Reports e l) ∧
      ((∀ e, out = .raised e → e.ofLibrary = false) →
        messages .error l = [] ∨ ∃ h, o = .hypersearch h ∧ messages .error l = [.someProcessesFailed]) :=
    fun h => ⟨h.1, fun h' => Or.inl (h.2 h')⟩
  have nrm : ∀ o' : Op, callLog m A i o' = (match (step A i o').2 with | .raised e => logCreated e | _ => []) →
      CallOk (step A i o').2 (callLog m A i o') := by
    intro o' h; rw [h]; exact (callOk_default _).1
  cases o with
  | settings E v =>
    obtain ⟨h1, h2, _⟩ := validateLog_spec m E { i with settings := v }
    exact of (LogOk.call ⟨h1, h2⟩)
  | validate E =>
    obtain ⟨h1, h2, _⟩ := validateLog_spec m E i
    exact of (LogOk.call ⟨h1, h2⟩)
  | orientItems v => exact of (orientLog_spec v i).1.call
  | log => exact of (solutionLog_ok i).call
  | figure writes show_ => exact of (figureLog_ok writes show_ i).1.call
  | hypersearch h =>
    obtain ⟨g, _⟩ := hypersearchLog_spec m hm A h i
    rcases g with g | ⟨g, g'⟩
    · exact of g
    · refine ⟨?_, fun _ => Or.inr ⟨h, rfl, g'⟩⟩
      intro e he hl
      have := g e he
      rw [hl] at this; cases this
  | _ => exact of (nrm _ rfl)

/-- C98, errors of the constructor; the same part is missing. -/
theorem C98_constructor_partial (m : Machine) (E : Env) (containers items settings stripWidth : PyVal) :
    (∀ e, mkInst E containers items settings stripWidth = .error e → LibraryException e →
      Reports e (mkLog m E containers items settings stripWidth)) ∧
    ((∀ e, mkInst E containers items settings stripWidth = .error e → ¬ LibraryException e) →
      messages .error (mkLog m E containers items settings stripWidth) = []) := by
  simp only [← ofLibrary_iff, Bool.not_eq_true]
  exact
    (mkLog_spec m E containers items settings stripWidth).1

/-- an entry of the array shows whether its worker raised an exception -/
theorem entry_raised {M : MPParams} {w : Inst} {chunks : List (List (List PClass))} {v0 : Rat} (h0 : 0 ≤ v0)
    {sch : List (Nat × MPEvent)} (hrun : RunInv M w chunks v0 sch (mpRun M w chunks sch))
    (hend : AllEnded M w chunks sch) (hkill : ∀ p, ¬ Killed sch p) {p : Nat} {e : Rat}
    (he : (mpRun M w chunks sch).arr[p]? = some e) : e = -1 ↔ Raised M w chunks sch p := by
  obtain ⟨hp, _⟩ := List.getElem?_eq_some_iff.1 he
  rw [hrun.arr] at hp
  have hpp : p < (mpRun M w chunks sch).phases.length := by rw [hrun.phases]; exact hp
  have hph := List.getElem?_eq_getElem hpp
  have inv := hrun.each p _ _ _ (List.getElem?_eq_getElem hp) hph he
  refine ⟨inv.neg, fun hR => ?_⟩
  have hd := hend p _ hph
  rcases inv.raised hR with h | ⟨m, h⟩
  · have hi := inv.inv
    generalize (mpRun M w chunks sch).phases[p] = ph at h hd hi
    cases ph with
    | done m =>
      simp only [Phase.failed, beq_iff_eq] at h
      subst h
      rcases hi with ⟨_, h⟩ | ⟨s, _, _, h1, _, _, ⟨_, _, h2⟩ | ⟨_, _, h2⟩⟩
      · exact h
      · exfalso
        have : (-1 : Rat) = s.best := h1
        rw [h2] at this
        linarith
      · exfalso
        have : (-1 : Rat) = s.best := h1
        linarith
    | dead m => cases h
    | _ => cases hd
  · exact absurd (inv.dead m h) (hkill p)

theorem finishLog_errors {M : MPParams} {w : Inst} {chunks : List (List (List PClass))} {v0 : Rat} (h0 : 0 ≤ v0)
    (hne : chunks ≠ []) {sch : List (Nat × MPEvent)} (hrun : RunInv M w chunks v0 sch (mpRun M w chunks sch))
    (hend : AllEnded M w chunks sch) (hkill : ∀ p, ¬ Killed sch p) :
    ((∀ p, p < chunks.length → Raised M w chunks sch p) →
      messages .error (finishLog (mpRun M w chunks sch)) = [.exception (.multiProcessError "ALL_PROCESSES_FAILED")]) ∧
    ((∃ p, p < chunks.length ∧ Raised M w chunks sch p) → (∃ p, p < chunks.length ∧ ¬ Raised M w chunks sch p) →
      messages .error (finishLog (mpRun M w chunks sch)) = [.someProcessesFailed]) ∧
    ((∀ p, p < chunks.length → ¬ Raised M w chunks sch p) →
      messages .error (finishLog (mpRun M w chunks sch)) = []) := by
  have ent := fun p e => @entry_raised M w chunks v0 h0 sch hrun hend hkill p e
  have hlen := hrun.arr
  have hall := (allEnded_iff (M := M) (w := w) (chunks := chunks) (sch := sch)).1 hend
  have mem : ∀ x ∈ (mpRun M w chunks sch).arr, ∃ p, p < chunks.length ∧ (mpRun M w chunks sch).arr[p]? = some x := by
    intro x hx
    obtain ⟨p, hp, rfl⟩ := List.getElem_of_mem hx
    exact ⟨p, by rw [← hlen]; exact hp, List.getElem?_eq_getElem hp⟩
  have sign : ∀ x ∈ (mpRun M w chunks sch).arr, x = -1 ∨ 0 ≤ x := by
    intro x hx
    obtain ⟨p, hp, he⟩ := mem x hx
    have hpp : p < (mpRun M w chunks sch).phases.length := by rw [hrun.phases]; exact hp
    exact (hrun.each p _ _ _ (List.getElem?_eq_getElem hp) (List.getElem?_eq_getElem hpp) he).sign
  have at_ : ∀ p, p < chunks.length → ∃ e, e ∈ (mpRun M w chunks sch).arr ∧ (mpRun M w chunks sch).arr[p]? = some e := by
    intro p hp
    have hp' : p < (mpRun M w chunks sch).arr.length := by rw [hlen]; exact hp
    exact ⟨_, List.getElem_mem hp', List.getElem?_eq_getElem hp'⟩
  have hpos : 0 < chunks.length := List.length_pos_of_ne_nil hne
  unfold finishLog
  simp only [hall, Bool.not_true, Bool.false_eq_true, if_false]
  generalize (mpRun M w chunks sch).arr = arr at *
  cases hmax : arrayMax arr with
  | none =>
    cases arr with
    | nil => simp at hlen; omega
    | cons a l => cases hmax
  | some x =>
    obtain ⟨hx1, hx2⟩ := arrayMax_spec hmax
    simp only []
    have some_not : (∃ p, p < chunks.length ∧ ¬ Raised M w chunks sch p) → x ≠ -1 := by
      rintro ⟨p, hp, hR⟩ hx
      obtain ⟨e, he1, he2⟩ := at_ p hp
      have h1 := hx2 e he1
      rcases sign e he1 with h | h
      · exact hR ((ent p e he2).1 h)
      · rw [hx] at h1; linarith
    refine ⟨?_, ?_, ?_⟩
    · intro h
      obtain ⟨p, hp, he⟩ := mem x hx1
      rw [if_pos ((ent p x he).2 (h p hp))]
      rfl
    · rintro ⟨p, hp, hR⟩ hnot
      rw [if_neg (some_not hnot)]
      obtain ⟨e, he1, he2⟩ := at_ p hp
      have : arr.contains (-1) = true := by
        rw [List.contains_iff_mem, ← (ent p e he2).2 hR]; exact he1
      rw [if_pos this]; rfl
    · intro h
      rw [if_neg (some_not ⟨0, hpos, h 0 hpos⟩)]
      have : ¬ arr.contains (-1) = true := by
        rw [List.contains_iff_mem]
        intro hm
        obtain ⟨p, hp, he⟩ := mem _ hm
        exact h p hp ((ent p _ he).1 rfl)
      rw [if_neg this]; rfl

/-- C98, failed workers: when all worker processes of a `hypersearch` have ended and none was killed,
the errors logged are: nothing if no worker raised an exception; the message about some processes if
some did and some did not; the MultiProcessError, which the call raises, if all did. -/
theorem C98_workers (m : Machine) (hm : 1 ≤ m.cpus) (A : Arith) (hA : NonNeg A) (i : Inst) (hi : Reach A i)
    (h : HSArgs) (k w : Inst) (chunks : List (List (List PClass)))
    (hk : (i.sortItems A h.sortingBy).2 = .ok ())
    (hk' : ((i.sortItems A h.sortingBy).1.orientItems h.orientation).1 = k)
    (hone : k.workers.isOne = false)
    (hc : strategyChunks (getStrategies h.order k.strip h.exhaustive) k.workers = .ok chunks)
    (hw : workerInst h.env k = .ok w) (hend : AllEnded (h.mp A) w chunks h.schedule)
    (hkill : ∀ p, ¬ Killed h.schedule p) :
    ((∀ p, p < chunks.length → Raised (h.mp A) w chunks h.schedule p) →
      messages .error (callLog m A i (.hypersearch h)) = [.exception (.multiProcessError "ALL_PROCESSES_FAILED")]) ∧
    ((∃ p, p < chunks.length ∧ Raised (h.mp A) w chunks h.schedule p) →
      (∃ p, p < chunks.length ∧ ¬ Raised (h.mp A) w chunks h.schedule p) →
      messages .error (callLog m A i (.hypersearch h)) = [.someProcessesFailed]) ∧
    ((∀ p, p < chunks.length → ¬ Raised (h.mp A) w chunks h.schedule p) →
      messages .error (callLog m A i (.hypersearch h)) = []) := by
  have hj : Reach A (i.sortItems A h.sortingBy).1 := Reach.step (.sortItems h.sortingBy) hi
  have hkr : Reach A k := by rw [← hk']; exact Reach.step (.orientItems h.orientation) hj
  have hv := hkr.good.valid
  obtain ⟨w1, w2, w3, _⟩ := workerInst_spec hv hw
  obtain ⟨v0, h0, hinit, _⟩ := workerInit_spec (M := h.mp A) hA w1 (workerInst_num hw)
  have hrun := runInv w1 h0 hinit chunks h.schedule
  have hne : chunks ≠ [] := (C31_partition _ _ _ hc).2.2
  have key : messages .error (callLog m A i (.hypersearch h)) =
      messages .error (finishLog (mpRun (h.mp A) w chunks h.schedule)) := by
    show messages .error (i.hypersearchLog m A h) = _
    unfold Inst.hypersearchLog
    have ok := orientItems_ok hj h.orientation
    generalize i.sortItems A h.sortingBy = x at hk hk' ok
    obtain ⟨j, r⟩ := x
    simp only at hk hk' ok
    subst hk
    simp only []
    have o1 := (orientLog_spec h.orientation j).1
    rw [messages_append, o1.2 (fun e he => by rw [ok] at he; cases he), List.nil_append]
    generalize j.orientItems h.orientation = y at hk' ok
    obtain ⟨k', r⟩ := y
    simp only at hk' ok
    subst hk' ok
    simp only [hone, Bool.false_eq_true, if_false]
    unfold Inst.multiLog
    rw [hc]
    simp only []
    unfold workerInst at hw
    simp only [bind, Except.bind, pure, Except.pure] at hw
    cases hst : workerSettings k'.settings with
    | error e => rw [hst] at hw; cases hw
    | ok st =>
      rw [hst] at hw
      cases hcn : workerContainers k' with
      | error e => rw [hcn] at hw; cases hw
      | ok c =>
        rw [hcn] at hw
        simp only [] at hw ⊢
        have g1 := (mkLog_spec m h.env c.1 (SKind.items.encodeAll k'.items) st c.2).1
        cases hmk : mkInst h.env c.1 (SKind.items.encodeAll k'.items) st c.2 with
        | error e => rw [hmk] at hw; cases hw
        | ok w' =>
          rw [hmk] at hw g1
          simp only [] at hw ⊢
          injection hw with hw
          rw [messages_append, messages_flatMap _ _ _ (g1.2 (fun e he => (by cases he))), List.nil_append, hw]
  rw [key]
  exact finishLog_errors h0 hne hrun hend hkill

theorem hyperLog_warned (m : Machine) (hm : 1 ≤ m.cpus) (i : Inst) (h : i.validateHyper.2 = .ok ()) :
    WorkersWarned m i.validateHyper.1.workers (messages .warning (i.hyperLog m)) := by
  unfold Inst.validateHyper at h ⊢
  unfold Inst.hyperLog
  generalize i.validateBase = x at h ⊢
  obtain ⟨j, r⟩ := x
  cases r with
  | error e => cases h
  | ok u =>
    simp only [] at h ⊢
    cases hst : j.settings.asDict? with
    | none => rw [hst] at h; cases h
    | some st =>
      rw [hst] at h
      simp only [] at h ⊢
      by_cases he : st.isEmpty = true
      · simp only [if_pos he]
        have := (warnings_spec m (.int 1)).1
        rw [one_quiet m hm] at this
        exact this
      · simp only [if_neg he] at h ⊢
        cases ht : ((PyVal.get? st "max_time_in_seconds").getD (.int maxTimeDefault)).asInt? with
        | none => rw [ht] at h; cases h
        | some t =>
          rw [ht] at h
          simp only [] at h ⊢
          by_cases h1 : t < 1
          · simp only [if_pos h1] at h; cases h
          · simp only [if_neg h1] at h ⊢
            unfold Inst.validateWorkers at h ⊢
            unfold workersLog
            simp only [] at h ⊢
            by_cases h2 : (PyVal.getD st "workers_num").isNone = true
            · simp only [if_pos h2] at h ⊢
              exact (warnings_spec m _).1
            · simp only [if_neg h2] at h ⊢
              rcases hg : (PyVal.getD st "workers_num").gtZero? with _ | _ | _
              · rw [hg] at h; cases h
              · rw [hg] at h; cases h
              · exact (warnings_spec m _).1

theorem validateLog_warned (m : Machine) (hm : 1 ≤ m.cpus) (E : Env) (i : Inst)
    (h : (i.validateSettings E).2 = .ok ()) :
    WorkersWarned m (i.validateSettings E).1.workers (messages .warning (i.validateLog m E)) := by
  rw [(validateLog_spec m E i).2.2.2]
  have hw := hyperLog_warned m hm i
  unfold Inst.validateSettings at h ⊢
  generalize i.validateHyper = x at h hw ⊢
  obtain ⟨j, r⟩ := x
  cases r with
  | error e => cases h
  | ok u =>
    simp only [] at h hw ⊢
    rw [validateFigure_frame j E]
    exact hw trivial

theorem orientLog_warned (v : PyVal) (i : Inst) : OrientWarned i.rotation v (messages .warning (i.orientLog v)) := by
  unfold OrientWarned Inst.orientLog
  have hstr : ∀ t, v.eqStr t = true ↔ v = .str t := by
    intro t
    cases v <;> simp [PyVal.eqStr]
  have hn : v.isNone = true ↔ v = .none := by cases v <;> simp [PyVal.isNone]
  by_cases h1 : v.isNone = true
  · have := hn.1 h1
    subst this
    exact ⟨fun _ => rfl, fun h => absurd rfl h, fun h => absurd rfl h, fun _ _ => rfl⟩
  · simp only [if_neg h1]
    have h1' : v ≠ .none := fun h => h1 (hn.2 h)
    cases i.rotation with
    | false =>
      exact ⟨fun h => absurd h h1', fun _ _ => rfl, fun _ h => (by cases h), fun h => (by cases h)⟩
    | true =>
      simp only [Bool.not_true, Bool.false_eq_true, if_false]
      refine ⟨fun h => absurd h h1', fun _ h => (by cases h), fun _ _ h2 h3 => ?_, fun _ h => ?_⟩
      · have : (v.eqStr "wide" || v.eqStr "long") = false := by
          rw [Bool.eq_false_iff, ne_eq, Bool.or_eq_true, hstr, hstr]
          rintro (h | h)
          · exact h2 h
          · exact h3 h
        rw [this]; rfl
      · have : (v.eqStr "wide" || v.eqStr "long") = true := by
          rw [Bool.or_eq_true, hstr, hstr]; exact h
        rw [this]
        exact (messages_result _).2.2.1

theorem figureLog_warned (writes : String → String → Bool) (show_ : Bool) (i : Inst) :
    FigureWarned i show_ (messages .warning (i.figureLog writes show_)) := by
  have er : ∀ e, messages .warning (logCreated e) = [] := fun e => (messages_result (Except.error (α := Unit) e)).2.2.1
  unfold FigureWarned Inst.figureLog
  by_cases h1 : i.solution.isEmpty = true
  · have h1' := List.isEmpty_iff.1 h1
    simp only [if_pos h1]
    exact ⟨fun _ => rfl, fun h => absurd h1' h, fun h => absurd h1' h⟩
  · have h1' : i.solution ≠ [] := fun h => h1 (by rw [h]; rfl)
    simp only [if_neg h1]
    refine ⟨fun h => absurd h h1', fun _ => ?_, fun _ hp hq st fig hs hf => ?_⟩
    · split
      · rw [er]; exact Or.inl rfl
      · split
        · rw [er]; exact Or.inl rfl
        · cases i.settings.asDict? with
          | none => simp only []; rw [er]; exact Or.inl rfl
          | some st =>
            simp only []
            cases (PyVal.get? st "figure").getD (.dict []) with
            | dict fig =>
              simp only []
              split
              · exact Or.inr rfl
              · rw [(messages_result _).2.2.1]; exact Or.inl rfl
            | _ => simp only []; rw [er]; exact Or.inl rfl
    · rw [hp, hq, hs]
      simp only [Bool.not_true, Bool.false_eq_true, if_false, PyVal.asDict?, hf]
      have hn : (PyVal.getD fig "export").isNone = true ↔ PyVal.getD fig "export" = .none := by
        cases PyVal.getD fig "export" <;> simp [PyVal.isNone]
      split
      · rename_i h
        simp only [Bool.and_eq_true, Bool.not_eq_true', Bool.or_eq_false_iff] at h
        exact ⟨fun _ => ⟨h.1.2, truthy_false_iff.1 h.1.1, hn.1 h.2⟩, fun _ => rfl⟩
      · rename_i h
        rw [(messages_result _).2.2.1]
        simp only [Bool.and_eq_true, Bool.not_eq_true', Bool.or_eq_false_iff] at h
        refine ⟨fun h' => (by cases h'), ?_⟩
        rintro ⟨h3, h4, h5⟩
        exact absurd ⟨⟨truthy_false_iff.2 h4, h3⟩, hn.2 h5⟩ h

/-- C98, warnings: which call logs which warnings. -/
theorem C98_warnings (m : Machine) (hm : 1 ≤ m.cpus) (A : Arith) (i : Inst) (hi : Reach A i) (o : Op) :
    match o with
    | .settings _ _ | .validate _ => (step A i o).2 = .ok →
        WorkersWarned m (step A i o).1.workers (messages .warning (callLog m A i o))
    | .orientItems v => OrientWarned i.rotation v (messages .warning (callLog m A i o))
    | .hypersearch h => if (step A i (.sortItems h.sortingBy)).2 = .ok then
          OrientWarned i.rotation h.orientation (messages .warning (callLog m A i o))
        else messages .warning (callLog m A i o) = []
    | .log => messages .warning (callLog m A i o) = if i.solution = [] then [.nothingSolved] else []
    | .figure _ show_ => FigureWarned i show_ (messages .warning (callLog m A i o))
    | _ => messages .warning (callLog m A i o) = [] := by
  have dflt : ∀ o' : Op, callLog m A i o' = (match (step A i o').2 with | .raised e => logCreated e | _ => []) →
      messages .warning (callLog m A i o') = [] := by
    intro o' h; rw [h]; exact (callOk_default _).2.1
  have ofOk : ∀ r : Except PyErr Unit, Outcome.of r = .ok → r = .ok () := by
    intro r h; cases r with
    | ok u => rfl
    | error e => cases h
  cases o with
  | settings E v => intro h; exact validateLog_warned m hm E _ (ofOk _ h)
  | validate E => intro h; exact validateLog_warned m hm E _ (ofOk _ h)
  | orientItems v => exact orientLog_warned v i
  | log =>
    show messages .warning i.solutionLog = _
    unfold Inst.solutionLog Inst.logSolution
    by_cases h : i.solution = []
    · simp [h, messages]
    · have : ¬ i.solution.isEmpty = true := fun h' => h (List.isEmpty_iff.1 h')
      simp only [if_neg this, if_neg h]
      by_cases h0 : i.items.length = 0
      · simp only [if_pos h0]; rfl
      · simp only [if_neg h0, bind, Except.bind, pure, Except.pure]
        cases logContainers i i.containers with
        | error e => exact (messages_result (Except.error (α := Unit) e)).2.2.1
        | ok cs => rfl
  | figure writes show_ => exact figureLog_warned writes show_ i
  | hypersearch h =>
    show if Outcome.of (i.sortItems A h.sortingBy).2 = .ok then _ else _
    have hw := (hypersearchLog_spec m hm A h i).2.2
    have hr : (i.sortItems A h.sortingBy).2 = .ok () → (i.sortItems A h.sortingBy).1.rotation = i.rotation := by
      intro _
      rcases sortItems_cases hi h.sortingBy with ⟨e, he⟩ | he | ⟨its, he⟩ <;> rw [he]
    show if Outcome.of (i.sortItems A h.sortingBy).2 = .ok then
      OrientWarned i.rotation h.orientation (messages .warning (i.hypersearchLog m A h))
      else messages .warning (i.hypersearchLog m A h) = []
    rw [hw]
    generalize i.sortItems A h.sortingBy = x at hr
    obtain ⟨j, r⟩ := x
    cases r with
    | error e => simp [Outcome.of]
    | ok u =>
      simp only [Outcome.of, if_true]
      rw [← hr rfl]
      exact orientLog_warned _ _
  | assign k v => exact dflt _ rfl
  | setKey k id v => exact dflt _ rfl
  | delKey k key => exact dflt _ rfl
  | setDim k id key v => exact dflt _ rfl
  | delDim k id => exact dflt _ rfl
  | popKey k key d => exact dflt _ rfl
  | popItem k => exact dflt _ rfl
  | clear k => exact dflt _ rfl
  | update k es => exact dflt _ rfl
  | updateDim k id es => exact dflt _ rfl
  | setDefault k key v => exact dflt _ rfl
  | delAttr e => exact dflt _ rfl
  | height v => exact dflt _ rfl
  | minHeight v => exact dflt _ rfl
  | resetHeight => exact dflt _ rfl
  | strategy v => exact dflt _ rfl
  | editSettings v => exact dflt _ rfl
  | solve seq => exact dflt _ rfl
  | localSearch c t => exact dflt _ rfl
  | sortItems s => exact dflt _ rfl

/-- C98, warnings of the constructor: those about the number of workers of the new object. -/
theorem C98_constructor_warnings (m : Machine) (hm : 1 ≤ m.cpus) (E : Env)
    (containers items settings stripWidth : PyVal) (p : Inst)
    (h : mkInst E containers items settings stripWidth = .ok p) :
    WorkersWarned m p.workers (messages .warning (mkLog m E containers items settings stripWidth)) := by
  unfold mkInst at h
  unfold mkLog
  cases hc : initContainers containers stripWidth with
  | error e => rw [hc] at h; cases h
  | ok c =>
    obtain ⟨strip, cs, height⟩ := c
    rw [hc] at h
    simp only [] at h ⊢
    cases hb : (buildStructure .items items).2 with
    | error e => rw [hb] at h; cases h
    | ok its =>
      rw [hb] at h
      simp only [] at h ⊢
      have hw := validateLog_warned m hm E (rawInst strip cs its height settings)
      generalize Inst.validateSettings E (rawInst strip cs its height settings) = x at h hw
      obtain ⟨j, r⟩ := x
      cases r with
      | error e => cases h
      | ok u => cases h; exact hw rfl

/-- C98, reports: `log_solution` logs at level INFO the report of the solution when there is one and the
report can be made; nothing else is ever logged at this level. -/
theorem C98_info (m : Machine) (hm : 1 ≤ m.cpus) (A : Arith) (i : Inst) (o : Op) (msgs : List LogMsg)
    (h : messages .info (callLog m A i o) = msgs) :
    (∀ l, o = .log → i.logSolution = .ok (some l) → msgs = [.report l]) ∧
    (msgs ≠ [] → o = .log ∧ i.solution ≠ [] ∧ ∃ l, i.logSolution = .ok (some l)) := by
  subst h
  have dflt : ∀ o' : Op, callLog m A i o' = (match (step A i o').2 with | .raised e => logCreated e | _ => []) →
      messages .info (callLog m A i o') = [] := by
    intro o' h; rw [h]; exact (callOk_default _).2.2
  have quiet : ∀ {l : List LogRec}, messages .info l = [] → o ≠ .log →
      (∀ l', o = .log → i.logSolution = .ok (some l') → messages .info l = [.report l']) ∧
      (messages .info l ≠ [] → o = .log ∧ i.solution ≠ [] ∧ ∃ l, i.logSolution = .ok (some l)) :=
    fun h hne => ⟨fun _ h' => absurd h' hne, fun h' => absurd h h'⟩
  cases o with
  | log =>
    show _ ∧ (messages .info i.solutionLog ≠ [] → _)
    constructor
    · intro l _ hl
      show messages .info i.solutionLog = _
      unfold Inst.solutionLog
      rw [hl]; rfl
    · intro hne
      refine ⟨rfl, ?_⟩
      unfold Inst.solutionLog at hne
      rcases hl : i.logSolution with e | _ | l
      · rw [hl] at hne
        exact absurd (messages_result (Except.error (α := Unit) e)).2.2.2 hne
      · rw [hl] at hne; exact absurd rfl hne
      · refine ⟨?_, l, rfl⟩
        intro h
        unfold Inst.logSolution at hl
        rw [h] at hl; cases hl
  | settings E v => exact quiet (validateLog_spec m E { i with settings := v }).2.2.1 (by simp)
  | validate E => exact quiet (validateLog_spec m E i).2.2.1 (by simp)
  | orientItems v => exact quiet (orientLog_spec v i).2 (by simp)
  | figure writes show_ => exact quiet (figureLog_ok writes show_ i).2 (by simp)
  | hypersearch h => exact quiet (hypersearchLog_spec m hm A h i).2.1 (by simp)
  | _ => exact quiet (dflt _ rfl) (by simp)

/-- C98: exactly when an exception is logged twice: assigning or validating settings raises the
exception about `workers_num`, whose value is a number that is not positive (as opposed to not being a
number). -/
theorem C98_twice (m : Machine) (A : Arith) (i : Inst) (E : Env) (v : PyVal) :
    ((∃ a b, messages .error (callLog m A i (.settings E v)) = [a, b]) ↔
      (step A i (.settings E v)).2 = .raised (.settingsError "WORKERS_NUM_VALUE") ∧
      ∃ st, v = .dict st ∧ NumberNotPositive (PyVal.getD st "workers_num")) ∧
    ((∃ a b, messages .error (callLog m A i (.validate E)) = [a, b]) ↔
      (step A i (.validate E)).2 = .raised (.settingsError "WORKERS_NUM_VALUE") ∧
      ∃ st, i.settings = .dict st ∧ NumberNotPositive (PyVal.getD st "workers_num")) := by
  have key : ∀ j : Inst, (∃ a b, messages .error (j.validateLog m E) = [a, b]) ↔
      Outcome.of (j.validateSettings E).2 = .raised (.settingsError "WORKERS_NUM_VALUE") ∧
      ∃ st, j.settings = .dict st ∧ NumberNotPositive (PyVal.getD st "workers_num") := by
    intro j
    have ho : Outcome.of (j.validateSettings E).2 = .raised (.settingsError "WORKERS_NUM_VALUE") ↔
        (j.validateSettings E).2 = .error (.settingsError "WORKERS_NUM_VALUE") := by
      cases (j.validateSettings E).2 <;> simp [Outcome.of]
    rw [ho]
    constructor
    · rintro ⟨a, b, h⟩
      obtain ⟨h1, _, _, h2⟩ := (validateLog_twice m E j a b).1 h
      exact ⟨h1, h2⟩
    · rintro ⟨h1, h2⟩
      exact ⟨_, _, (validateLog_twice m E j _ _).2 ⟨h1, rfl, rfl, h2⟩⟩
  exact ⟨key { i with settings := v }, key i⟩

/-- C98 does not hold as stated: a number of workers that is not positive is logged twice. -/
theorem C98_refuted (m : Machine) (A : Arith) (i : Inst) (E : Env) (n : Int) (hn : n ≤ 0) :
    (step A i (.settings E (.dict [(.str "workers_num", .int n)]))).2 =
      .raised (.settingsError "WORKERS_NUM_VALUE") ∧
    messages .error (callLog m A i (.settings E (.dict [(.str "workers_num", .int n)]))) =
      [.exception (.settingsError "WORKERS_NUM_VALUE"), .exception (.settingsError "WORKERS_NUM_VALUE")] := by
  have hg : (PyVal.int n).gtZero? = some false := by simp [PyVal.gtZero?, hn]
  have hb : ∀ j : Inst, j.settings = .dict [(.str "workers_num", .int n)] →
      ∃ k, j.validateBase = (k, .ok ()) ∧ k.settings = j.settings := by
    intro j hj
    refine ⟨j.validateBase.1, ?_, validateBase_settings j⟩
    unfold Inst.validateBase
    rw [hj]
    rfl
  obtain ⟨k, hk, hks⟩ := hb { i with settings := .dict [(.str "workers_num", .int n)] } rfl
  have hget : PyVal.getD [((PyVal.str "workers_num"), PyVal.int n)] "workers_num" = .int n := rfl
  have hmax : ((PyVal.get? [((PyVal.str "workers_num"), PyVal.int n)] "max_time_in_seconds").getD
      (.int maxTimeDefault)).asInt? = some maxTimeDefault := rfl
  have hlt : ¬ (maxTimeDefault : Int) < 1 := by decide
  constructor
  · show Outcome.of (Inst.validateSettings E { i with settings := .dict [(.str "workers_num", .int n)] }).2 = _
    unfold Inst.validateSettings Inst.validateHyper
    simp only [hk, hks, PyVal.asDict?, List.isEmpty_cons, Bool.false_eq_true, if_false, hmax, if_neg hlt]
    unfold Inst.validateWorkers
    simp only [hget, hg, PyVal.isNone, Bool.false_eq_true, if_false]
    rfl
  · show messages .error (Inst.validateLog m E { i with settings := .dict [(.str "workers_num", .int n)] }) = _
    unfold Inst.validateLog Inst.validateHyper Inst.hyperLog
    simp only [hk, hks, PyVal.asDict?, List.isEmpty_cons, Bool.false_eq_true, if_false, hmax, if_neg hlt]
    unfold Inst.validateWorkers workersLog
    simp only [hget, hg, PyVal.isNone, Bool.false_eq_true, if_false]
    rfl

/-- C98 does not hold as documented: "If a number greater than 1 is given a warning message will be
logged" (docs/source/problem_params.rst 373); on Linux with enough processors nothing is logged. -/
theorem C98_refuted_documented (A : Arith) (i : Inst) (hi : Reach A i) (E : Env) (m : Machine) (hm : 2 ≤ m.cpus)
    (hwin : m.windows = false) :
    (step A i (.settings E (.dict [(.str "workers_num", .int 2)]))).2 = .ok ∧
    (step A i (.settings E (.dict [(.str "workers_num", .int 2)]))).1.workers = .int 2 ∧
    messages .warning (callLog m A i (.settings E (.dict [(.str "workers_num", .int 2)]))) = [] := by
  have hp : PlainSettings [(.str "workers_num", .int 2)] true 60 (.int 2) :=
    ⟨Or.inl ⟨Or.inl rfl, rfl⟩, Or.inl ⟨rfl, rfl⟩, Or.inr ⟨rfl, Or.inl ⟨2, rfl, by omega⟩⟩⟩
  have hok : (step A i (.settings E (.dict [(.str "workers_num", .int 2)]))).2 = .ok :=
    (C47_accepts A i E _).1.2 ⟨_, rfl, ⟨_, _, _, hp⟩, Or.inl rfl⟩
  have hwk := (C47_applied A i E _ _ _ _ hp hok).2.2.1
  have h := C98_warnings m (by omega) A i hi (.settings E (.dict [(.str "workers_num", .int 2)])) hok
  refine ⟨hok, hwk, ?_⟩
  rw [hwk] at h
  obtain ⟨h1, h2, h3⟩ := h
  have n1 : ¬ Exceeds (.int 2) m.cpus := by
    rintro (⟨i, hi, h⟩ | ⟨q, hq, _⟩ | ⟨hb, _⟩ | hb)
    · cases hi; omega
    · cases hq
    · cases hb
    · cases hb
  have n2 : ¬ (Exceeds (.int 2) 1 ∧ m.windows = true ∧ m.mainProcess = true) := by
    rintro ⟨_, h, _⟩; rw [hwin] at h; cases h
  generalize messages .warning _ = l at h1 h2 h3
  rcases h1 with rfl | rfl | rfl | rfl
  · rfl
  · exact absurd (h2.1 (by simp)) n1
  · exact absurd (h3.1 (by simp)) n2
  · exact absurd (h2.1 (by simp)) n1

/-! ### concrete cases -/

/-- a machine -/
def laptop : Machine := ⟨4, true, true⟩

/-- C98 is not vacuous: with two workers, of which the first is made to fail, the second, both, none;
the number of exceptions and of messages about some workers among the errors -/
example : ∃ p, mkInst plainEnv turnedArgs.1 turnedArgs.2.1 turnedArgs.2.2 .none = .ok p ∧
    [fun n => n == 0, fun n => n == 1, fun _ => true, fun _ => false].map (fun f =>
      (messages .error (callLog laptop Arith.exact p (.hypersearch { turnedSearch with force := f }))).map
        (fun msg => match msg with | .someProcessesFailed => 1 | .exception e => if e.ofLibrary then 2 else 3 | _ => 0)) =
      [[1], [1], [2], []] := by
  refine ⟨_, rfl, by decide +kernel⟩

/-- warnings: of the constructor, of the settings, of an invalid orientation, of a figure without
solution and of a report without solution -/
example : ∃ p, mkInst plainEnv turnedArgs.1 turnedArgs.2.1 .none .none = .ok p ∧
    [callLog laptop Arith.exact p (.settings plainEnv (.dict [(.str "workers_num", .int 9)])),
     callLog laptop Arith.exact p (.settings plainEnv (.dict [(.str "workers_num", .int 3)])),
     callLog laptop Arith.exact p (.settings plainEnv (.dict [(.str "workers_num", .none)])),
     callLog laptop Arith.exact p (.orientItems (.str "tall")),
     callLog laptop Arith.exact p (.orientItems (.str "long")),
     callLog laptop Arith.exact p (.figure (fun _ _ => true) true),
     callLog laptop Arith.exact p .log].map (fun l => (messages .warning l).map (fun msg =>
        match msg with
        | .moreWorkersThanCpus => 1 | .entryPoint => 2 | .orientationInvalid _ => 3
        | .noFigureWithoutSolution => 4 | .nothingSolved => 5 | _ => 0)) =
      [[1, 2], [2], [], [3], [], [4], [5]] := by
  refine ⟨_, rfl, by decide +kernel⟩

/-- a report -/
example : ∃ p, mkInst plainEnv turnedArgs.1 turnedArgs.2.1 .none .none = .ok p ∧
    (messages .info (callLog laptop Arith.exact (step Arith.exact p (.solve none)).1 .log)).map
      (fun msg => match msg with | .report l => some (l.stored, l.total) | _ => none) = [some (1, 1)] := by
  refine ⟨_, rfl, by decide +kernel⟩

end HP
