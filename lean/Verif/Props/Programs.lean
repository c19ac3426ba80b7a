import Verif.Proofs.ProgramInv
import Verif.Props.Unvalidated
import Verif.Props.ErrorsSettings
import Verif.Props.Handles
/-
Properties C112 and C113: programs with several problems (Model/Program.lean), and copies of a problem.

`m.step A o` is one operation of the program and its outcome, `m.view q` problem `q` as its methods see it (contents,
settings, solution and all other attributes), `m.np` the number of problems.  `PReach A m`: a program without `copy.copy`
of a problem can be in the state `m`.  `(m.probs q).sref` is the dict that is `q.settings`.
-/
namespace HP
open Spec

/-- the operation is one on problem `q`, or on an `Items`, `Containers` or `Dimensions` object of problem `q` -/
def POp.Concerns (m : Program) (q : Nat) : POp → Prop
  | .call p _ => p = q
  | .share _ p _ => p = q
  | .onStruct r _ => m.owner r = q
  | .onDims r _ => m.downer r = q
  | _ => False

/-- the operation is a change of the dict `q.settings` made by the program itself, not by the library -/
def POp.EditsDict (m : Program) (q : Nat) : POp → Prop
  | .call p (.editSettings _) => (m.probs p).sref = (m.probs q).sref
  | _ => False

/-- `v'` are the settings `v`, an export without a file name, with the file name "PlotlyGraph" -/
def NameFilled (v v' : PyVal) : Prop :=
  ∃ st st' fig ex fig' ex', v = .dict st ∧ v' = .dict st' ∧ AsksExport st fig ex ∧ Absent ex "file_name" ∧
    AsksExport st' fig' ex' ∧ PyVal.get? ex' "file_name" = some (.str "PlotlyGraph") ∧
    SameExcept "figure" st st' ∧ SameExcept "export" fig fig' ∧ SameExcept "file_name" ex ex'

/-- the settings ask for no export, or the export has a file name -/
def Named (v : PyVal) : Prop := ∀ st fig ex, v = .dict st → AsksExport st fig ex → ¬ Absent ex "file_name"

/-! ### what becomes of the settings -/

theorem validate_named (E : Env) (i : Inst) : (i.validateSettings E).1.settings = i.settings ∨
    NameFilled i.settings (i.validateSettings E).1.settings := by
  have h0 := validateHyper_settings i
  unfold Inst.validateSettings
  generalize i.validateHyper = x at h0
  obtain ⟨j, r⟩ := x
  cases r with
  | error e => exact .inl h0
  | ok u =>
    simp only at h0 ⊢
    cases hd : j.settings.asDict? with
    | none =>
      left
      unfold Inst.validateFigure
      have : (j.checkVersions E).settings.asDict? = none := hd
      simp only [this]
      exact h0
    | some st =>
      have hs := asDict_eq.1 hd
      obtain ⟨st', h1, h2⟩ := validateFigure_kept hs (E := E)
      rw [h1, ← h0, hs]
      rcases h2 with rfl | ⟨fig, ex, fig', ex', h⟩ | ⟨_, rfl⟩
      · exact .inl rfl
      · exact .inr ⟨st, st', fig, ex, fig', ex', rfl, rfl, h⟩
      · exact .inl rfl

theorem NameFilled.not_named {v v' : PyVal} (h : NameFilled v v') : ¬ Named v := by
  obtain ⟨st, st', fig, ex, _, _, h1, _, h2, h3, _⟩ := h
  exact fun hn => hn st fig ex h1 h2 h3

theorem NameFilled.named {v v' : PyVal} (h : NameFilled v v') : Named v' := by
  obtain ⟨st, st', fig, ex, fig', ex', _, h2, _, _, ⟨h5, h5'⟩, h6, _⟩ := h
  intro s f e hs ⟨hf, he⟩ ha
  rw [h2] at hs
  injection hs with hs
  subst hs
  rw [h5] at hf
  injection hf with hf
  injection hf with hf
  subst hf
  rw [h5'] at he
  injection he with he
  injection he with he
  subst he
  rcases ha with ha | ha <;> rw [h6] at ha <;> cases ha

theorem step_settings {A : Arith} {i : Inst} (hg : Good A i) (o : Op) (h1 : ∀ E v, o ≠ .settings E v)
    (h2 : ∀ v, o ≠ .editSettings v) (h3 : ∀ E, o ≠ .validate E) : (step A i o).1.settings = i.settings := by
  have blind : ∀ (o : Op) (i : Inst), BlindToSettings i o → (step A i o).1.settings = i.settings := by
    intro o i hb
    have h := leave_step A i.settings i o hb
    have e : i.leave i.settings = i := rfl
    rw [e] at h
    rw [h]
    rfl
  cases o with
  | settings E v => exact absurd rfl (h1 E v)
  | editSettings v => exact absurd rfl (h2 v)
  | validate E => exact absurd rfl (h3 E)
  | figure w s => rfl
  | hypersearch a =>
    have b1 : (step A i (.sortItems a.sortingBy)).1.settings = i.settings := blind (.sortItems a.sortingBy) i trivial
    have g1 := step_good hg (.sortItems a.sortingBy)
    show (i.hypersearch A a).1.settings = _
    unfold Inst.hypersearch
    have e1 : (step A i (.sortItems a.sortingBy)).1 = (i.sortItems A a.sortingBy).1 := rfl
    rw [e1] at b1 g1
    generalize i.sortItems A a.sortingBy = x at b1 g1 ⊢
    obtain ⟨i1, r⟩ := x
    cases r with
    | error e => exact b1
    | ok u =>
      simp only at b1 g1 ⊢
      have b2 : (step A i1 (.orientItems a.orientation)).1.settings = i1.settings :=
        blind (.orientItems a.orientation) i1 trivial
      have g2 := step_good g1 (.orientItems a.orientation)
      have e2 : (step A i1 (.orientItems a.orientation)).1 = (i1.orientItems a.orientation).1 := rfl
      rw [e2] at b2 g2
      generalize i1.orientItems a.orientation = x at b2 g2 ⊢
      obtain ⟨i2, r⟩ := x
      cases r with
      | error e => exact b2.trans b1
      | ok u =>
        simp only at b2 g2 ⊢
        have : Attr.Same i2 (i2.search A a).1 .settings := hsearch_keeps a g2.valid .settings (by
          simp only [mayChange]
          split <;> (try split) <;> simp)
        exact (show _ = _ from this).trans (b2.trans b1)
  | _ => exact blind _ i trivial

theorem call_settings {A : Arith} {w : World} (hw : w.WF) (hg : Good A w.view) (o : Op) :
    (w.call A o).1.inst.settings = (step A w.view o).1.settings := by
  rw [← (World.call_sim hw hg.valid o).2]
  rfl

theorem onStruct_settings {w : World} (hw : w.WF) {r : Nat} (hr : r < w.ns) (f : SMeth) :
    (w.onStruct r f).1.inst.settings = w.inst.settings := by
  rcases World.onStruct_maybe hw hr f with h | h
  · rw [h]
  · rw [h.attrs]
    unfold World.resetBy
    split <;> rfl

theorem onDims_settings {w : World} (hw : w.WF) {r : Nat} (hr : r < w.nd) (f : DMeth) :
    (w.onDims r f).1.inst.settings = w.inst.settings := by
  by_cases hm : f = .copy
  · subst hm
    show (w.copyDim r).1.inst.settings = _
    unfold World.copyDim
    split <;> rfl
  · rcases World.onDims_maybe hw hr f hm with h | h
    · rw [h]
    · rw [h.attrs]; rfl

/-! ### the invariant -/

theorem World.step_keeps_good {A : Arith} {w : World} (hw : w.WF) (hg : Good A w.view) (o : WOp) (he : o.Exists w) :
    (w.step A o).1.WF ∧ Good A (w.step A o).1.view := by
  obtain ⟨h1, h2⟩ := World.step_view (A := A) hw hg.valid o he
  refine ⟨h1, ?_⟩
  rcases h2 with ⟨op, h, _⟩ | h | h | ⟨_, n, h⟩
  · rw [h]; exact step_good hg op
  · rw [h]; exact hg
  · rw [h]; exact hg.resetSol
  · rw [h]; exact hg.resetSol.setNum n

namespace Program

theorem Inv.empty (A : Arith) : Inv A Program.empty := by
  refine ⟨?_, ?_, ?_, ?_, ?_, ?_, ?_, ?_, ?_⟩
  · intro p
    refine ⟨?_, ?_, ?_, ?_, ?_⟩ <;> intro r hr <;> exact absurd hr (Nat.not_lt_zero _)
  all_goals intro p hp; exact absurd hp (Nat.not_lt_zero _)

/-- an operation on objects of problem `p` -/
theorem Inv.object {A : Arith} {m : Program} (h : Inv A m) {p : Nat} (hp : p < m.np) (o : WOp)
    (he : o.Exists (m.world p)) (hL : (m.world p).Local (m.D p) (m.S p) ((m.world p).step A o).1) :
    Inv A (m.put p ((m.world p).step A o).1) := by
  obtain ⟨h1, h2⟩ := World.step_keeps_good (h.wf p hp) (h.good p hp) o he
  exact h.put hp hL h1 h2

theorem Inv.localStruct {A : Arith} {m : Program} (h : Inv A m) {r : Nat} (hr : r < m.ns) (f : SMeth) :
    (m.world (m.owner r)).Local (m.D (m.owner r)) (m.S (m.owner r)) ((m.world (m.owner r)).onStruct r f).1 :=
  World.onStruct_local (h.region _) hr (fun _ => rfl) f

theorem Inv.localDims {A : Arith} {m : Program} (h : Inv A m) (r : Nat) (f : DMeth) :
    (m.world (m.downer r)).Local (m.D (m.downer r)) (m.S (m.downer r)) ((m.world (m.downer r)).onDims r f).1 :=
  World.onDims_local (h.region _) (fun _ => rfl) f

theorem Inv.localCopyStruct {A : Arith} {m : Program} (h : Inv A m) {r : Nat} (hr : r < m.ns) :
    (m.world (m.owner r)).Local (m.D (m.owner r)) (m.S (m.owner r)) ((m.world (m.owner r)).shallowStruct r) :=
  World.newStruct_local (h.region _) _ fun e he _ => h.refs r hr e he

theorem Inv.localCopyDims {A : Arith} {m : Program} (h : Inv A m) (r : Nat) :
    (m.world (m.downer r)).Local (m.D (m.downer r)) (m.S (m.downer r)) ((m.world (m.downer r)).shallowDim r) :=
  World.newDim_local (h.region _) _ _

theorem newWith_program (m : Program) (E : Env) (c i : PyVal) (q : Nat) (w : PyVal)
    (ht : (m.settings q).truthy = true) : m.newWith E c i q w =
    (match mkInst E c i (m.settings q) w with
    | .error e => (m.setDict (m.probs q).sref (settingsAfter E c i (m.settings q) w), .raised e)
    | .ok j => ((m.setDict (m.probs q).sref (settingsAfter E c i (m.settings q) w)).add j (m.probs q).sref, .ok)) := by
  unfold newWith
  rw [if_pos ht]
  rfl

theorem settingsAfter_ok {E : Env} {c i s w : PyVal} {j : Inst} (h : mkInst E c i s w = .ok j) :
    settingsAfter E c i s w = j.settings := by
  unfold mkInst at h
  unfold settingsAfter
  split at h
  · cases h
  · rename_i strip cs height h1
    simp only [h1]
    split at h
    · cases h
    · rename_i its h2
      simp only [h2]
      split at h
      · cases h
      · rename_i k h3
        injection h with h
        rw [h3, ← h]

/-- the constructor leaves the given dict as it is or fills in the file name -/
theorem settingsAfter_named (E : Env) (c i s w : PyVal) (hs : s.truthy = true) : settingsAfter E c i s w = s ∨
    NameFilled s (settingsAfter E c i s w) := by
  unfold settingsAfter
  split
  · exact .inl rfl
  · split
    · exact .inl rfl
    · rename_i strip cs height _ _ its _
      have := validate_named E (rawInst strip cs its height s)
      rwa [show (rawInst strip cs its height s).settings = s by simp [rawInst, hs]] at this

theorem Inv.new {A : Arith} {m : Program} (h : Inv A m) (E : Env) (c i s w : PyVal) :
    Inv A (m.new E c i s w).1 ∧ ∀ q, q < m.np → (m.new E c i s w).1.view q = m.view q := by
  unfold Program.new
  cases hm : mkInst E c i s w with
  | error e => exact ⟨h, fun _ _ => rfl⟩
  | ok j =>
    have hg := mkInst_good (A := A) hm
    have h1 := h.addDict j.settings
    obtain ⟨a1, _, a3⟩ := h1.add hg (s := m.nset) (Nat.lt_succ_self _) (by simp [Program.addDict])
    exact ⟨a1, fun q hq => (a3 q hq).trans (addDict_view h _ hq)⟩

theorem Inv.deepcopy {A : Arith} {m : Program} (h : Inv A m) {p : Nat} (hp : p < m.np) :
    Inv A (m.deepcopy p) ∧ (m.deepcopy p).view m.np = m.view p ∧
    ∀ q, q < m.np → (m.deepcopy p).view q = m.view q := by
  have h1 := h.addDict (m.settings p)
  obtain ⟨a1, a2, a3⟩ := h1.add (h.good p hp) (s := m.nset) (Nat.lt_succ_self _) (by
    show (m.view p).settings = _
    simp [Program.addDict]
    rfl)
  exact ⟨a1, a2, fun q hq => (a3 q hq).trans (addDict_view h _ hq)⟩

theorem step_inv {A : Arith} {m : Program} (h : Inv A m) (o : POp) (he : o.Exists m) (hc : ∀ p, o ≠ .copy p) :
    Inv A (m.step A o).1 := by
  cases o with
  | new E c i s w => exact (h.new E c i s w).1
  | newWith E c i q w =>
    show Inv A (m.newWith E c i q w).1
    by_cases ht : (m.settings q).truthy = true
    · rw [newWith_program m E c i q w ht]
      have h1 := h.setDict (m.probs q).sref (settingsAfter E c i (m.settings q) w)
      cases hm : mkInst E c i (m.settings q) w with
      | error e => exact h1
      | ok j =>
        refine (h1.add (mkInst_good hm) (h.sref q he) ?_).1
        rw [settingsAfter_ok hm]
        simp [Program.setDict]
    · unfold Program.newWith
      rw [if_neg ht]
      exact (h.new E c i _ w).1
  | call p o =>
    by_cases hs : ∃ E v, o = .settings E v
    · obtain ⟨E, v, rfl⟩ := hs
      exact (h.newDict p v).call (p := p) he (.inl rfl)
    · exact h.call he (call_as h he o fun E v e => hs ⟨E, v, e⟩).1
  | share E p q => exact (h.sameDict p he.2).call (p := p) he.1 (.inl rfl)
  | onStruct r f => exact h.object (h.owner r he) (.onStruct r f) he (h.localStruct he f)
  | onDims r f => exact h.object (h.downer r he) (.onDims r f) he (h.localDims r f)
  | copyStruct r => exact h.object (h.owner r he) (.copyStruct r) he (h.localCopyStruct he)
  | copyDims r => exact h.object (h.downer r he) (.copyDims r) he (h.localCopyDims r)
  | deepcopy p => exact (h.deepcopy he).1
  | copy p => exact absurd rfl (hc p)

end Program

theorem PReach.inv {A : Arith} {m : Program} (h : PReach A m) : Program.Inv A m := by
  induction h with
  | empty => exact .empty A
  | step o _ he hc ih => exact Program.step_inv ih o he hc

/-! ### C112 -/

/-- the operation validates the dict `q.settings` as the settings of some problem -/
def POp.Uses (m : Program) (q : Nat) : POp → Prop
  | .newWith _ _ _ p _ => (m.probs p).sref = (m.probs q).sref
  | .share _ _ p => (m.probs p).sref = (m.probs q).sref
  | .call p (.validate _) => (m.probs p).sref = (m.probs q).sref
  | _ => False

/-- C112, a call on a problem does in a program with any other problems what it does in a program of its own: the
effect and the outcome depend on this problem only. -/
theorem C112_own (A : Arith) (m : Program) (h : PReach A m) (p : Nat) (hp : p < m.np) (o : Op) :
    (m.step A (.call p o)).2 = (step A (m.view p) o).2 ∧
    (m.step A (.call p o)).1.view p = (step A (m.view p) o).1 := by
  have hi := h.inv
  by_cases hs : ∃ E v, o = .settings E v
  · obtain ⟨E, v, rfl⟩ := hs
    have h1 := hi.newDict p v
    have hw := h1.wf p hp
    have hg := h1.good p hp
    have e : (m.newDict p v).view p = { m.view p with settings := v } := by
      rw [(Program.newDict_dicts m p v).view, Program.newDict_settings hi hp, if_pos rfl]
    obtain ⟨s1, s2⟩ := World.call_sim (A := A) hw hg.valid (.validate E)
    have e' : ((m.newDict p v).world p).view = { m.view p with settings := v } := e
    rw [e'] at s1 s2
    refine ⟨s1, ?_⟩
    show (((m.newDict p v).own A p (.validate E)).1).view p = _
    unfold Program.own
    rw [Program.view_put]
    exact s2
  · obtain ⟨a1, a2⟩ := Program.call_as hi hp o fun E v e => hs ⟨E, v, e⟩
    obtain ⟨s1, s2⟩ := World.call_sim (A := A) (hi.wf p hp) (hi.good p hp).valid o
    refine ⟨a2.trans s1, ?_⟩
    show ((m.call A p o).1.world p).view = _
    rw [a1.world]
    exact s2

/-- C112, all problems but the one that is operated on: nothing of them changes, except possibly the content of their
settings dict, and this only if the program itself changes the dict, or gives it to another problem, which then
fills in the file name of the export. -/
theorem C112_others (A : Arith) (m : Program) (h : PReach A m) (o : POp) (he : o.Exists m) (hc : ∀ p, o ≠ .copy p)
    (q : Nat) (hq : q < m.np) (hn : ¬ o.Concerns m q) :
    ∃ v, (m.step A o).1.view q = { m.view q with settings := v } ∧
      (v = (m.view q).settings ∨ o.EditsDict m q ∨ (o.Uses m q ∧ NameFilled (m.view q).settings v)) := by
  have hi := h.inv
  have same : ∀ {m' : Program}, m'.view q = m.view q → ∃ v, m'.view q = { m.view q with settings := v } ∧
      (v = (m.view q).settings ∨ o.EditsDict m q ∨ (o.Uses m q ∧ NameFilled (m.view q).settings v)) :=
    fun e => ⟨_, e, .inl rfl⟩
  -- objects of another problem
  have obj : ∀ (p : Nat) (w' : World), q ≠ p → (m.world p).Local (m.D p) (m.S p) w' →
      w'.inst.settings = (m.world p).inst.settings → (m.put p w').view q = m.view q := by
    intro p w' hqp hL hs
    rw [Program.view_put_other hi hq hqp hL, hs]
    have : (if (m.probs q).sref = (m.probs p).sref then (m.world p).inst.settings else m.settings q) = m.settings q := by
      split
      · rename_i e
        show m.sets (m.probs p).sref = m.sets (m.probs q).sref
        rw [e]
      · rfl
    rw [this]
    rfl
  cases o with
  | new E c i s w => exact same ((hi.new E c i s w).2 q hq)
  | newWith E c i p w =>
    show ∃ v, (m.newWith E c i p w).1.view q = _ ∧ _
    by_cases ht : (m.settings p).truthy = true
    · rw [Program.newWith_program m E c i p w ht]
      have hd := Program.setDict_dicts m (m.probs p).sref (Program.settingsAfter E c i (m.settings p) w)
      have h1 := hi.setDict (m.probs p).sref (Program.settingsAfter E c i (m.settings p) w)
      have e : ∀ x, x = (match mkInst E c i (m.settings p) w with
          | .error e => (m.setDict (m.probs p).sref (Program.settingsAfter E c i (m.settings p) w), Outcome.raised e)
          | .ok j => ((m.setDict (m.probs p).sref (Program.settingsAfter E c i (m.settings p) w)).add j (m.probs p).sref,
              .ok)) → x.1.view q =
          (m.setDict (m.probs p).sref (Program.settingsAfter E c i (m.settings p) w)).view q := by
        intro x hx
        rw [hx]
        cases hm : mkInst E c i (m.settings p) w with
        | error e => rfl
        | ok j =>
          refine (h1.add (mkInst_good hm) (hi.sref p he) ?_).2.2 q hq
          rw [Program.settingsAfter_ok hm]
          simp [Program.setDict]
      rw [e _ rfl, hd.view]
      refine ⟨_, rfl, ?_⟩
      by_cases hr : (m.probs q).sref = (m.probs p).sref
      · have e1 : (m.setDict (m.probs p).sref (Program.settingsAfter E c i (m.settings p) w)).settings q =
            Program.settingsAfter E c i (m.settings p) w := by
          simp [Program.setDict, Program.settings, hr]
        have e2 : m.settings p = (m.view q).settings := by
          show m.sets _ = m.sets _
          rw [hr]
        rw [e1]
        rcases Program.settingsAfter_named E c i (m.settings p) w ht with k | k
        · rw [k]; exact .inl e2
        · exact .inr (.inr ⟨hr.symm, e2 ▸ k⟩)
      · left
        show (m.setDict (m.probs p).sref (Program.settingsAfter E c i (m.settings p) w)).settings q = m.settings q
        simp [Program.setDict, Program.settings, hr]
    · unfold Program.newWith
      rw [if_neg ht]
      exact same ((hi.new E c i _ w).2 q hq)
  | call p o =>
    have hqp : q ≠ p := fun e => hn e.symm
    show ∃ v, (m.call A p o).1.view q = _ ∧ _
    by_cases hs : ∃ E v, o = .settings E v
    · obtain ⟨E, v, rfl⟩ := hs
      have h1 := hi.newDict p v
      apply same
      show ((m.newDict p v).own A p (.validate E)).1.view q = _
      unfold Program.own
      rw [Program.view_put_other h1 hq hqp (h1.local he _)]
      have hsq : ((m.newDict p v).probs q).sref = (m.probs q).sref := by simp [Program.newDict, hqp]
      have hsp : ((m.newDict p v).probs p).sref = m.nset := by simp [Program.newDict]
      rw [hsq, hsp, if_neg (Nat.ne_of_lt (hi.sref q hq)), (Program.newDict_dicts m p v).view,
        Program.newDict_settings hi hq, if_neg hqp]
      rfl
    · have hs' : ∀ E v, o ≠ .settings E v := fun E v e => hs ⟨E, v, e⟩
      have ha := (Program.call_as hi he o hs').1
      rw [ha.other hi hq hqp (hi.local he o)]
      refine ⟨_, rfl, ?_⟩
      rw [call_settings (hi.wf p he) (hi.good p he) o]
      by_cases hr : (m.probs q).sref = (m.probs p).sref
      · rw [if_pos hr]
        have e2 : (m.world p).view.settings = (m.view q).settings := by
          show m.sets _ = m.sets _
          rw [hr]
        by_cases h2 : ∃ v, o = .editSettings v
        · obtain ⟨v, rfl⟩ := h2
          exact .inr (.inl hr.symm)
        · by_cases h3 : ∃ E, o = .validate E
          · obtain ⟨E, rfl⟩ := h3
            rcases validate_named E (m.world p).view with k | k
            · exact .inl (Eq.trans k e2)
            · exact .inr (.inr ⟨hr.symm, e2 ▸ k⟩)
          · exact .inl ((step_settings (hi.good p he) o hs' (fun v e => h2 ⟨v, e⟩) (fun E e => h3 ⟨E, e⟩)).trans e2)
      · rw [if_neg hr]
        exact .inl rfl
  | share E p s =>
    have hqp : q ≠ p := fun e => hn e.symm
    have h1 := hi.sameDict p he.2
    show ∃ v, ((m.sameDict p s).own A p (.validate E)).1.view q = _ ∧ _
    unfold Program.own
    rw [Program.view_put_other h1 hq hqp (h1.local he.1 _), (Program.sameDict_dicts m p s).view]
    refine ⟨_, rfl, ?_⟩
    have hsq : ((m.sameDict p s).probs q).sref = (m.probs q).sref := by simp [Program.sameDict, hqp]
    have hsp : ((m.sameDict p s).probs p).sref = (m.probs s).sref := by simp [Program.sameDict]
    rw [hsq, hsp, Program.sameDict_settings, if_neg hqp]
    by_cases hr : (m.probs q).sref = (m.probs s).sref
    · rw [if_pos hr, call_settings (h1.wf p he.1) (h1.good p he.1) (.validate E)]
      have e2 : ((m.sameDict p s).world p).view.settings = (m.view q).settings := by
        show (m.sameDict p s).settings p = m.sets _
        rw [Program.sameDict_settings, if_pos rfl, hr]
        rfl
      rcases validate_named E ((m.sameDict p s).world p).view with k | k
      · exact .inl (Eq.trans k e2)
      · exact .inr (.inr ⟨hr.symm, e2 ▸ k⟩)
    · rw [if_neg hr]
      exact .inl rfl
  | onStruct r f =>
    have hp := hi.owner r he
    exact same (obj _ _ (fun e => hn e.symm) (hi.localStruct he f) (onStruct_settings (hi.wf _ hp) he f))
  | onDims r f =>
    have hp := hi.downer r he
    exact same (obj _ _ (fun e => hn e.symm) (hi.localDims r f) (onDims_settings (hi.wf _ hp) he f))
  | copyStruct r =>
    apply same
    show (m.put (m.owner r) _).view q = _
    by_cases e : q = m.owner r
    · rw [e, Program.view_put]
      exact (World.shallowStruct_spec (hi.wf _ (hi.owner r he)) he).2
    · exact obj _ _ e (hi.localCopyStruct he) rfl
  | copyDims r =>
    apply same
    show (m.put (m.downer r) _).view q = _
    by_cases e : q = m.downer r
    · rw [e, Program.view_put]
      exact (World.shallowDim_spec (hi.wf _ (hi.downer r he)) he).2
    · exact obj _ _ e (hi.localCopyDims r) rfl
  | deepcopy p => exact same ((hi.deepcopy he).2.2 q hq)
  | copy p => exact absurd rfl (hc p)

/-- C112, the settings of a problem: as long as the program does not change the dict itself, and either the dict is not
used for other problems or its export has a file name (which it has as soon as the settings were accepted),
operations that do not concern problem `q` change nothing at all of it. -/
theorem C112_independent (A : Arith) (m : Program) (h : PReach A m) (o : POp) (he : o.Exists m) (hc : ∀ p, o ≠ .copy p)
    (q : Nat) (hq : q < m.np) (hn : ¬ o.Concerns m q) (hd : ¬ o.EditsDict m q)
    (hu : ¬ o.Uses m q ∨ Named (m.view q).settings) : (m.step A o).1.view q = m.view q := by
  obtain ⟨v, h1, h2⟩ := C112_others A m h o he hc q hq hn
  rw [h1]
  rcases h2 with rfl | h2 | ⟨h2, h3⟩
  · rfl
  · exact absurd h2 hd
  · rcases hu with hu | hu
    · exact absurd h2 hu
    · exact absurd hu h3.not_named

/-- C112, accepted settings have a file name for the export, so other problems no longer change the dict. -/
theorem C112_accepted (A : Arith) (i : Inst) (E : Env) (v : PyVal) :
    ((step A i (.settings E v)).2 = .ok → Named (step A i (.settings E v)).1.settings) ∧
    ((step A i (.validate E)).2 = .ok → Named (step A i (.validate E)).1.settings) ∧
    (∀ c it s w, mkInst E c it s w = .ok i → Named i.settings) := by
  have val : ∀ j : Inst, (j.validateSettings E).2 = .ok () → Named (j.validateSettings E).1.settings := by
    intro j ok
    rcases validate_named E j with h | h
    · rw [h]
      intro st fig ex hs ha hab
      obtain ⟨_, _, _, st', _, h1, _, h2⟩ := validateSettings_stored hs ok
      rw [h2] at h
      have e : st' = st := by
        have h' : PyVal.dict st' = j.settings := h
        rw [hs] at h'
        injection h'
      subst e
      rcases h1 with ⟨fig1, ex1, fig', ex', _, _, ⟨h3, h3'⟩, h4, _⟩ | ⟨h3, _⟩
      · obtain ⟨ha1, ha2⟩ := ha
        rw [ha1] at h3
        injection h3 with h3
        injection h3 with h3
        subst h3
        rw [ha2] at h3'
        injection h3' with h3'
        injection h3' with h3'
        subst h3'
        rcases hab with hab | hab <;> rw [h4] at hab <;> cases hab
      · exact h3 fig ex ha hab
    · exact h.named
  have out : ∀ r : Inst × Except PyErr Unit, (outcomeOf r).2 = .ok → r.2 = .ok () := by
    rintro ⟨j, r⟩ h
    cases r with
    | error e => cases h
    | ok u => rfl
  refine ⟨fun h => val _ (out _ h), fun h => val _ (out _ h), ?_⟩
  intro c it s w h
  unfold mkInst at h
  split at h
  · cases h
  · split at h
    · cases h
    · split at h
      · cases h
      · rename_i strip cs height _ _ its _ _ k h3
        injection h with h
        subst h
        have := val (rawInst strip cs its height s) (by rw [h3])
        rwa [h3] at this

/-- an edit of a `Containers` object that its problem no longer has -/
def POp.EditsOldContainers (m : Program) : POp → Prop
  | .onStruct r _ => (m.structs r).kind = .containers ∧ r ≠ (m.probs (m.owner r)).cont
  | _ => False

/-- programs without `copy.copy` of a problem and without edits of `Containers` objects that were replaced (C44) -/
inductive PReachCur (A : Arith) : Program → Prop where
  | empty : PReachCur A Program.empty
  | step {m : Program} (o : POp) : PReachCur A m → o.Exists m → (∀ p, o ≠ .copy p) → ¬ o.EditsOldContainers m →
      PReachCur A (m.step A o).1

theorem PReachCur.reach {A : Arith} {m : Program} (h : PReachCur A m) : PReach A m := by
  induction h with
  | empty => exact .empty
  | step o _ he hc _ ih => exact .step o ih he hc

theorem Acts.np {m m' : Program} {p : Nat} {w' : World} (h : Program.Acts m p w' m') : m'.np = m.np := by
  rcases h with rfl | ⟨rfl, _⟩ <;> rfl

/-- the problem an operation adds -/
theorem step_np {A : Arith} {m : Program} (h : Program.Inv A m) (o : POp) (he : o.Exists m) (hc : ∀ p, o ≠ .copy p) :
    (m.step A o).1.np = m.np ∨ ((m.step A o).1.np = m.np + 1 ∧
      ((∃ E c i s w j, mkInst E c i s w = .ok j ∧ (m.step A o).1.view m.np = j) ∨
        ∃ p, p < m.np ∧ (m.step A o).1.view m.np = m.view p)) := by
  have new : ∀ E c i s w, (m.new E c i s w).1.np = m.np ∨ ((m.new E c i s w).1.np = m.np + 1 ∧
      ∃ E' c' i' s' w' j, mkInst E' c' i' s' w' = .ok j ∧ (m.new E c i s w).1.view m.np = j) := by
    intro E c i s w
    unfold Program.new
    cases hm : mkInst E c i s w with
    | error e => exact .inl rfl
    | ok j =>
      refine .inr ⟨rfl, E, c, i, s, w, j, hm, ?_⟩
      exact ((h.addDict j.settings).add (mkInst_good hm) (s := m.nset) (Nat.lt_succ_self _)
        (by simp [Program.addDict])).2.1
  cases o with
  | new E c i s w =>
    rcases new E c i s w with h | ⟨h1, h2⟩
    · exact .inl h
    · exact .inr ⟨h1, .inl h2⟩
  | newWith E c i q w =>
    show (m.newWith E c i q w).1.np = _ ∨ ((m.newWith E c i q w).1.np = _ ∧ ((∃ E' c' i' s' w' j', _ ∧
      (m.newWith E c i q w).1.view m.np = j') ∨ ∃ p', _ ∧ (m.newWith E c i q w).1.view m.np = m.view p'))
    by_cases ht : (m.settings q).truthy = true
    · rw [Program.newWith_program m E c i q w ht]
      have h1 := h.setDict (m.probs q).sref (Program.settingsAfter E c i (m.settings q) w)
      cases hm : mkInst E c i (m.settings q) w with
      | error e => exact .inl rfl
      | ok j =>
        refine .inr ⟨rfl, .inl ⟨E, c, i, m.settings q, w, j, hm, ?_⟩⟩
        refine (h1.add (mkInst_good hm) (h.sref q he) ?_).2.1
        rw [Program.settingsAfter_ok hm]
        simp [Program.setDict]
    · unfold Program.newWith
      rw [if_neg ht]
      rcases new E c i (m.settings q) w with h | ⟨h1, h2⟩
      · exact .inl h
      · exact .inr ⟨h1, .inl h2⟩
  | call p o =>
    left
    by_cases hs : ∃ E v, o = .settings E v
    · obtain ⟨E, v, rfl⟩ := hs; rfl
    · exact Acts.np (Program.call_as h he o fun E v e => hs ⟨E, v, e⟩).1
  | deepcopy p => exact .inr ⟨rfl, .inr ⟨p, he, (h.deepcopy he).2.1⟩⟩
  | copy p => exact absurd rfl (hc p)
  | _ => exact .inl rfl

/-- C112: in a program with any number of problems, whatever happens to the others, every problem is at any time in a
state that a program with this problem alone can bring it into (if no replaced `Containers` object is edited): all
theorems about reachable states hold for it. -/
theorem C112_reach (A : Arith) (m : Program) (h : PReachCur A m) (p : Nat) (hp : p < m.np) : Reach A (m.view p) := by
  induction h generalizing p with
  | empty => exact absurd hp (Nat.not_lt_zero _)
  | @step m o hm he hc hold ih =>
    have hi := hm.reach.inv
    by_cases hlt : p < m.np
    · by_cases hn : o.Concerns m p
      · have obj : ∀ wo : WOp, wo.Exists (m.world p) → ¬ wo.EditsOldContainers (m.world p) →
            Reach A ((m.world p).step A wo).1.view := by
          intro wo hwe hwo
          obtain ⟨_, h2⟩ := World.step_view (A := A) (hi.wf p hlt) (hi.good p hlt).valid wo hwe
          rcases h2 with ⟨op, h, _⟩ | h | h | ⟨hc, _⟩
          · rw [h]; exact .step op (ih p hlt)
          · rw [h]; exact ih p hlt
          · rw [h]; exact (ih p hlt).resetSol
          · exact absurd hc hwo
        cases o with
        | call q o =>
          have e : q = p := hn
          subst e
          rw [(C112_own A m hm.reach q hlt o).2]
          exact .step o (ih q hlt)
        | share E q s =>
          have e : q = p := hn
          subst e
          have h1 := hi.sameDict q he.2
          show Reach A (((m.sameDict q s).own A q (.validate E)).1.view q)
          unfold Program.own
          rw [Program.view_put, (World.call_sim (h1.wf q hlt) (h1.good q hlt).valid (.validate E)).2]
          refine .step _ ?_
          show Reach A ((m.sameDict q s).view q)
          rw [(Program.sameDict_dicts m q s).view]
          exact .step (.editSettings _) (ih q hlt)
        | onStruct r f =>
          have e : m.owner r = p := hn
          show Reach A ((m.put (m.owner r) _).view p)
          rw [e, Program.view_put]
          refine obj (.onStruct r f) he ?_
          subst e
          exact hold
        | onDims r f =>
          have e : m.downer r = p := hn
          show Reach A ((m.put (m.downer r) _).view p)
          rw [e, Program.view_put]
          exact obj (.onDims r f) he (fun h => h)
        | _ => exact absurd hn (fun h => h)
      · obtain ⟨v, h1, _⟩ := C112_others A m hm.reach o he hc p hlt hn
        rw [h1]
        exact .step (.editSettings v) (ih p hlt)
    · rcases step_np hi o he hc with e | ⟨e, hcase⟩
      · exact absurd (e ▸ hp) hlt
      · have : p = m.np := by rw [e] at hp; omega
        subst this
        rcases hcase with ⟨E, c, i, s, w, j, h1, h2⟩ | ⟨q, h1, h2⟩
        · rw [h2]; exact .new h1
        · rw [h2]; exact ih q h1

/-- C112, new problems: the constructor gives and raises in any program what it gives and raises alone, whether its
settings dict is its own or that of a problem `q`, which is then the dict of both (an empty dict is not kept). -/
theorem C112_new (A : Arith) (m : Program) (h : PReach A m) (E : Env) (c its s w : PyVal) (q : Nat) (hq : q < m.np) :
    (∀ j, mkInst E c its s w = .ok j → (m.step A (.new E c its s w)).2 = .ok ∧
      (m.step A (.new E c its s w)).1.np = m.np + 1 ∧ (m.step A (.new E c its s w)).1.view m.np = j ∧
      ∀ p, p < m.np → ((m.step A (.new E c its s w)).1.probs p).sref ≠ ((m.step A (.new E c its s w)).1.probs m.np).sref) ∧
    (∀ e, mkInst E c its s w = .error e → m.step A (.new E c its s w) = (m, .raised e)) ∧
    (∀ j, mkInst E c its (m.view q).settings w = .ok j → (m.step A (.newWith E c its q w)).2 = .ok ∧
      (m.step A (.newWith E c its q w)).1.np = m.np + 1 ∧ (m.step A (.newWith E c its q w)).1.view m.np = j ∧
      (((m.step A (.newWith E c its q w)).1.probs m.np).sref = ((m.step A (.newWith E c its q w)).1.probs q).sref ↔
        (m.view q).settings.truthy = true)) ∧
    (∀ e, mkInst E c its (m.view q).settings w = .error e →
      (m.step A (.newWith E c its q w)).2 = .raised e ∧ (m.step A (.newWith E c its q w)).1.np = m.np) := by
  have hi := h.inv
  have own : ∀ s j, mkInst E c its s w = .ok j → (m.new E c its s w).2 = .ok ∧
      (m.new E c its s w).1.np = m.np + 1 ∧ (m.new E c its s w).1.view m.np = j ∧
      ∀ p, p < m.np → ((m.new E c its s w).1.probs p).sref ≠ ((m.new E c its s w).1.probs m.np).sref := by
    intro s j hm
    unfold Program.new
    rw [hm]
    refine ⟨rfl, rfl, ?_, ?_⟩
    · exact ((hi.addDict j.settings).add (mkInst_good hm) (s := m.nset) (Nat.lt_succ_self _)
        (by simp [Program.addDict])).2.1
    · intro p hp
      have := hi.sref p hp
      have hne : p ≠ m.np := Nat.ne_of_lt hp
      simp only [Program.add, Program.addDict, hne, if_false, if_true]
      exact Nat.ne_of_lt this
  have err : ∀ s e, mkInst E c its s w = .error e → m.new E c its s w = (m, .raised e) := by
    intro s e hm
    unfold Program.new
    rw [hm]
  have hset : (m.view q).settings = m.settings q := rfl
  refine ⟨own s, err s, ?_, ?_⟩
  · intro j hm
    show (m.newWith E c its q w).2 = _ ∧ (m.newWith E c its q w).1.np = _ ∧ (m.newWith E c its q w).1.view m.np = _ ∧
      (((m.newWith E c its q w).1.probs m.np).sref = ((m.newWith E c its q w).1.probs q).sref ↔ _)
    rw [hset] at hm ⊢
    by_cases ht : (m.settings q).truthy = true
    · have h1 := hi.setDict (m.probs q).sref (Program.settingsAfter E c its (m.settings q) w)
      unfold Program.newWith
      rw [if_pos ht, hm]
      refine ⟨rfl, rfl, ?_, ?_⟩
      · refine (h1.add (mkInst_good hm) (hi.sref q hq) ?_).2.1
        rw [Program.settingsAfter_ok hm]
        simp [Program.setDict]
      · simp [Program.add, Nat.ne_of_lt hq, ht]
    · unfold Program.newWith
      rw [if_neg ht]
      obtain ⟨o1, o2, o3, o4⟩ := own _ _ hm
      exact ⟨o1, o2, o3, fun e => absurd e.symm (o4 q hq), fun e => absurd e ht⟩
  · intro e hm
    show (m.newWith E c its q w).2 = _ ∧ (m.newWith E c its q w).1.np = _
    rw [hset] at hm
    by_cases ht : (m.settings q).truthy = true
    · unfold Program.newWith
      rw [if_pos ht, hm]
      exact ⟨rfl, rfl⟩
    · unfold Program.newWith
      rw [if_neg ht, err _ _ hm]
      exact ⟨rfl, rfl⟩

/-- C112, `p.settings = q.settings` is for `p` the assignment of the settings of `q`; from then on the problems have the
same settings dict. -/
theorem C112_share (A : Arith) (m : Program) (h : PReach A m) (E : Env) (p q : Nat) (hp : p < m.np) (hq : q < m.np) :
    (m.step A (.share E p q)).2 = (step A (m.view p) (.settings E (m.view q).settings)).2 ∧
    (m.step A (.share E p q)).1.view p = (step A (m.view p) (.settings E (m.view q).settings)).1 ∧
    ((m.step A (.share E p q)).1.view q).settings = ((m.step A (.share E p q)).1.view p).settings ∧
    ((m.step A (.share E p q)).1.probs p).sref = ((m.step A (.share E p q)).1.probs q).sref := by
  have hi := h.inv
  have h1 := hi.sameDict p hq
  have e : (m.sameDict p q).view p = { m.view p with settings := (m.view q).settings } := by
    rw [(Program.sameDict_dicts m p q).view, Program.sameDict_settings, if_pos rfl]
    rfl
  obtain ⟨s1, s2⟩ := World.call_sim (A := A) (h1.wf p hp) (h1.good p hp).valid (.validate E)
  have e' : ((m.sameDict p q).world p).view = { m.view p with settings := (m.view q).settings } := e
  rw [e'] at s1 s2
  have hr : ((m.step A (.share E p q)).1.probs p).sref = ((m.step A (.share E p q)).1.probs q).sref := by
    show (((m.sameDict p q).own A p (.validate E)).1.probs p).sref = (((m.sameDict p q).own A p (.validate E)).1.probs q).sref
    unfold Program.own
    by_cases hqp : q = p <;> simp [Program.put, Program.sameDict, hqp]
  refine ⟨s1, ?_, ?_, hr⟩
  · show ((m.sameDict p q).own A p (.validate E)).1.view p = _
    unfold Program.own
    rw [Program.view_put, s2]
    rfl
  · show (m.step A (.share E p q)).1.sets _ = (m.step A (.share E p q)).1.sets _
    rw [hr]

/-- calls on one problem, one after another -/
def Program.calls (A : Arith) (m : Program) (p : Nat) (ops : List Op) : Program :=
  ops.foldl (fun m o => (m.step A (.call p o)).1) m

/-- which dicts the problems have, after a call on problem `p` -/
theorem call_srefs {A : Arith} {m : Program} (h : Program.Inv A m) {p : Nat} (hp : p < m.np) (o : Op) :
    (∀ q, q ≠ p → ((m.call A p o).1.probs q).sref = (m.probs q).sref) ∧
    (((m.call A p o).1.probs p).sref = (m.probs p).sref ∨ ((m.call A p o).1.probs p).sref = m.nset) := by
  have acts : ∀ {m0 m' : Program} {w' : World}, Program.Acts m0 p w' m' → ∀ q, (m'.probs q).sref = (m0.probs q).sref := by
    intro m0 m' w' ha q
    rcases ha with rfl | ⟨rfl, _⟩
    · by_cases e : q = p <;> simp [Program.put, e]
    · rfl
  by_cases hs : ∃ E v, o = .settings E v
  · obtain ⟨E, v, rfl⟩ := hs
    have ha := acts (Program.own_as A (m.newDict p v) p (.validate E)).1
    refine ⟨?_, .inr ?_⟩
    · intro q hq
      refine (ha q).trans ?_
      simp [Program.newDict, hq]
    · refine (ha p).trans ?_
      simp [Program.newDict]
  · have ha := acts (Program.call_as h hp o fun E v e => hs ⟨E, v, e⟩).1
    exact ⟨fun q _ => ha q, .inl (ha p)⟩

/-- C112 for histories: any calls on problem `p` give for it what they give in a program of its own, and leave a problem `q`
with a settings dict of its own as it was. -/
theorem C112_history (A : Arith) (m : Program) (h : PReach A m) (p q : Nat) (hp : p < m.np) (hq : q < m.np) (hpq : p ≠ q)
    (hs : (m.probs p).sref ≠ (m.probs q).sref) (ops : List Op) :
    (m.calls A p ops).view p = runOps A (m.view p) ops ∧ (m.calls A p ops).view q = m.view q := by
  induction ops generalizing m with
  | nil => exact ⟨rfl, rfl⟩
  | cons o ops ih =>
    have hi := h.inv
    have hnp : (m.step A (.call p o)).1.np = m.np := by
      by_cases hs : ∃ E v, o = .settings E v
      · obtain ⟨E, v, rfl⟩ := hs; rfl
      · exact Acts.np (Program.call_as hi hp o fun E v e => hs ⟨E, v, e⟩).1
    obtain ⟨s1, s2⟩ := call_srefs hi hp o
    have hs' : ((m.step A (.call p o)).1.probs p).sref ≠ ((m.step A (.call p o)).1.probs q).sref := by
      show ((m.call A p o).1.probs p).sref ≠ ((m.call A p o).1.probs q).sref
      rw [s1 q hpq.symm]
      rcases s2 with e | e
      · rw [e]; exact hs
      · rw [e]; exact Ne.symm (Nat.ne_of_lt (hi.sref q hq))
    obtain ⟨i1, i2⟩ := ih _ (.step (.call p o) h hp (fun _ => nofun)) (by rw [hnp]; exact hp) (by rw [hnp]; exact hq) hs'
    have hu : ¬ POp.Uses m q (.call p o) := by
      intro hu
      cases o <;> first | exact hu | exact hs hu
    have hd : ¬ POp.EditsDict m q (.call p o) := by
      intro hu
      cases o <;> first | exact hu | exact hs hu
    have e1 := C112_independent A m h (.call p o) hp (fun _ => nofun) q hq hpq hd (.inl hu)
    have e2 := (C112_own A m h p hp o).2
    refine ⟨?_, i2.trans e1⟩
    show ((m.step A (.call p o)).1.calls A p ops).view p = runOps A (step A (m.view p) o).1 ops
    rw [i1, e2]

/-! ### C113: copies -/

/-- C113, `copy.deepcopy(problem)`: the copy is the same problem with the same settings and solution, nothing of the
others changes, and any calls on the copy do for it what they would have done for the original, and leave the
original alone. -/
theorem C113_deepcopy (A : Arith) (m : Program) (h : PReach A m) (p : Nat) (hp : p < m.np) (ops : List Op) :
    let m' := (m.step A (.deepcopy p)).1
    m'.np = m.np + 1 ∧ m'.view m.np = m.view p ∧ (∀ q, q < m.np → m'.view q = m.view q) ∧
    (m'.calls A m.np ops).view m.np = runOps A (m.view p) ops ∧
    (∀ q, q < m.np → (m'.calls A m.np ops).view q = m.view q) ∧
    (m'.calls A p ops).view p = runOps A (m.view p) ops ∧ (m'.calls A p ops).view m.np = m.view p := by
  intro m'
  have hi := h.inv
  obtain ⟨_, d2, d3⟩ := hi.deepcopy hp
  have hr : PReach A m' := .step (.deepcopy p) h hp (fun _ => nofun)
  have hnp : m'.np = m.np + 1 := rfl
  have hlt : m.np < m'.np := by rw [hnp]; exact Nat.lt_succ_self _
  have snew : (m'.probs m.np).sref = m.nset := by
    show ((m.deepcopy p).probs m.np).sref = _
    simp [Program.deepcopy, Program.add, Program.addDict]
  have sold : ∀ q, q < m.np → (m'.probs q).sref = (m.probs q).sref := by
    intro q hq
    show ((m.deepcopy p).probs q).sref = _
    simp [Program.deepcopy, Program.add, Program.addDict, Nat.ne_of_lt hq]
  have sne : ∀ q, q < m.np → (m'.probs m.np).sref ≠ (m'.probs q).sref := by
    intro q hq
    rw [snew, sold q hq]
    exact Ne.symm (Nat.ne_of_lt (hi.sref q hq))
  have hq' : ∀ q, q < m.np → q < m'.np := fun q hq => Nat.lt_trans hq hlt
  have c1 := fun q hq => C112_history A m' hr m.np q hlt (hq' q hq) (Ne.symm (Nat.ne_of_lt hq)) (sne q hq) ops
  have c2 := C112_history A m' hr p m.np (hq' p hp) hlt (Nat.ne_of_lt hp) (Ne.symm (sne p hp)) ops
  refine ⟨hnp, d2, d3, ?_, fun q hq => (c1 q hq).2.trans (d3 q hq), ?_, c2.2.trans d2⟩
  · rw [(c1 p hp).1, show m'.view m.np = m.view p from d2]
  · rw [c2.1, show m'.view p = m.view p from d3 p hp]

/-- methods of `problem.items`, `problem.containers` and their entries, and `orient_items` -/
def Op.editsInPlace : Op → Bool
  | .setKey .. | .delKey .. | .popKey .. | .popItem _ | .clear _ | .update .. | .setDefault .. => true
  | .setDim .. | .delDim .. | .updateDim .. | .orientItems _ => true
  | _ => false

theorem editsInPlace_ptr {A : Arith} {w : World} (hw : w.WF) (o : Op) (ho : o.editsInPlace = true) (k : SKind) :
    (w.call A o).1.ptr k = w.ptr k := by
  cases o with
  | setKey k' id v => exact (World.setKey_maybe hw (hw.ptr k').1 id v).ptr k
  | delKey k' key => exact (World.delKey_maybe hw (hw.ptr k').1 key).ptr k
  | setDim k' id key v => exact World.onEntry_ptr hw k' id _ k fun r hr => (World.setDim_maybe hw hr key v).ptr k
  | delDim k' id => exact World.onEntry_ptr hw k' id _ k fun r hr => rfl
  | popKey k' key d => exact (World.popKey_maybe hw (hw.ptr k').1 key d).ptr k
  | popItem k' => exact (World.popItem_maybe hw (hw.ptr k').1).ptr k
  | clear k' => exact (World.clearLoop_maybe _ _ hw (hw.ptr k').1).ptr k
  | update k' es => exact (World.update_maybe _ es hw (hw.ptr k').1).ptr k
  | updateDim k' id es => exact World.onEntry_ptr hw k' id _ k fun r hr => (World.updateDim_maybe r es hw hr).ptr k
  | setDefault k' key v => exact (World.setDefault_maybe hw (hw.ptr k').1 key v).ptr k
  | orientItems o => exact (World.orientItems_sim hw o).2.ptr k
  | _ => cases ho

/-- C113, `copy.copy(problem)`: the copy looks like the original, and the calls that change neither structures nor
settings act on the copy only. -/
theorem C113_copy_partial (A : Arith) (m : Program) (h : PReach A m) (p : Nat) (hp : p < m.np) :
    let m' := (m.step A (.copy p)).1
    m'.np = m.np + 1 ∧ m'.view m.np = m.view p ∧ (∀ q, q < m.np → m'.view q = m.view q) ∧
    ∀ o : Op, o.attrsOnly = true → (∀ E v, o ≠ .settings E v) → (∀ v, o ≠ .editSettings v) → (∀ E, o ≠ .validate E) →
      (m'.step A (.call m.np o)).2 = (step A (m.view p) o).2 ∧
      (m'.step A (.call m.np o)).1.view m.np = (step A (m.view p) o).1 ∧
      ∀ q, q < m.np → (m'.step A (.call m.np o)).1.view q = m.view q := by
  intro m'
  have hi := h.inv
  have wnew : m'.world m.np = m.world p := by
    show (m.copy p).world m.np = _
    simp [Program.world, Program.copy, Program.settings]
  have wold : ∀ q, q < m.np → m'.world q = m.world q := by
    intro q hq
    show (m.copy p).world q = _
    simp [Program.world, Program.copy, Program.settings, Nat.ne_of_lt hq]
  refine ⟨rfl, congrArg World.view wnew, fun q hq => congrArg World.view (wold q hq), ?_⟩
  intro o ho h1 h2 h3
  have hcall : (m.world p).call A o = (m.world p).attrs A o := by cases o <;> first | rfl | cases ho
  have hstep : m'.step A (.call m.np o) = (m'.put m.np ((m.world p).attrs A o).1, ((m.world p).attrs A o).2) := by
    show m'.call A m.np o = _
    have : m'.call A m.np o = m'.own A m.np o := by
      cases o <;> first | rfl | exact absurd rfl (h1 _ _) | cases ho
    rw [this]
    unfold Program.own
    rw [wnew, hcall]
  obtain ⟨a1, a2⟩ := World.attrs_sim (A := A) (w := m.world p) (hi.good p hp).valid o ho
  rw [hstep]
  refine ⟨a1, ?_, ?_⟩
  · show (m'.put m.np _).view m.np = _
    rw [Program.view_put]
    exact a2
  · intro q hq
    have hne := Nat.ne_of_lt hq
    have hs : (step A (m.world p).view o).1.settings = m.settings p := step_settings (hi.good p hp) o h1 h2 h3
    have hpr : (m'.put m.np ((m.world p).attrs A o).1).probs q = m.probs q := by
      show (if q = m.np then _ else if q = m.np then _ else m.probs q) = _
      rw [if_neg hne, if_neg hne]
    have hset : (m'.put m.np ((m.world p).attrs A o).1).settings q = m.settings q := by
      rw [Program.settings_put m' hne]
      have e1 : (m'.probs m.np).sref = (m.probs p).sref := by
        show ((m.copy p).probs m.np).sref = _
        simp [Program.copy]
      have e2 : (m'.probs q).sref = (m.probs q).sref := by
        show ((m.copy p).probs q).sref = _
        simp [Program.copy, hne]
      rw [e1, e2]
      split
      · rename_i e
        show (step A (m.world p).view o).1.settings = _
        rw [hs]
        show m.sets _ = m.sets _
        rw [e]
      · show (m'.world q).inst.settings = _
        rw [wold q hq]
        rfl
    show ((m'.put m.np ((m.world p).attrs A o).1).world q).view = _
    have : (m'.put m.np ((m.world p).attrs A o).1).world q = m.world q := by
      show World.mk _ _ _ _ _ _ _ = _
      rw [hpr, hset]
      rfl
    rw [this]
    rfl

/-- C113, the copy is not independent: an edit through the copy is an edit of the original, which loses its
solution.  The copy has the edited contents too, but keeps its solution, which is one for the old contents. -/
theorem C113_refuted_copy (A : Arith) (m : Program) (h : PReach A m) (p : Nat) (hp : p < m.np) (o : Op)
    (ho : o.editsInPlace = true) :
    let m' := (m.step A (.copy p)).1
    let m'' := (m'.step A (.call m.np o)).1
    (m'.step A (.call m.np o)).2 = (step A (m.view p) o).2 ∧
    m''.view p = (step A (m.view p) o).1 ∧
    m''.view m.np = { m.view p with items := (m''.view p).items, containers := (m''.view p).containers } := by
  intro m' m''
  have hi := h.inv
  have hw := hi.wf p hp
  have wnew : m'.world m.np = m.world p := by
    show (m.copy p).world m.np = _
    simp [Program.world, Program.copy, Program.settings]
  have wold : m'.world p = m.world p := by
    show (m.copy p).world p = _
    simp [Program.world, Program.copy, Program.settings, Nat.ne_of_lt hp]
  have hown : ∀ k, m'.owner ((m.world p).ptr k) = p := by
    intro k
    cases k
    · exact hi.cont p hp
    · exact hi.its p hp
  have hstruct : ∀ k f, Program.CallAs m' p (m'.onStruct ((m'.world m.np).ptr k) f)
      ((m.world p).onStruct ((m.world p).ptr k) f) := by
    intro k f
    unfold Program.onStruct
    rw [wnew, hown k, wold]
    exact ⟨.inl rfl, rfl⟩
  have hentry : ∀ k id (f : DMeth) g, (∀ r w, World.onDims w r f = World.outcome (g r w)) →
      Program.CallAs m' p (m'.onEntry m.np k id f) ((m.world p).onEntry k id g) := by
    intro k id f g hg
    unfold Program.onEntry World.onEntry
    rw [wnew]
    cases hl : lookupKey ((m.world p).entries ((m.world p).ptr k)) id with
    | error e => exact ⟨.inr ⟨rfl, wold.symm⟩, rfl⟩
    | ok x =>
      obtain ⟨s, r⟩ := x
      simp only
      have hm := PyDict.find?_mem (lookupKey_find hl)
      have hd : m'.downer r = p := by
        have := hi.refs _ (hw.ptr k).1 _ hm
        rw [show m'.downer r = m.owner ((m.world p).ptr k) from this]
        exact hown k
      unfold Program.onDims
      rw [hd, ← hg r, wold]
      exact ⟨.inl rfl, rfl⟩
  have has : Program.CallAs m' p (m'.call A m.np o) ((m.world p).call A o) := by
    cases o with
    | setKey k id v => exact hstruct k (.setItem id v)
    | delKey k key => exact hstruct k (.delItem key)
    | popKey k key d => exact hstruct k (.pop key d)
    | popItem k => exact hstruct k .popitem
    | clear k => exact hstruct k .clear
    | update k es => exact hstruct k (.update es)
    | setDefault k key v => exact hstruct k (.setdefault key v)
    | setDim k id key v => exact hentry k id (.setItem key v) _ fun r w => rfl
    | delDim k id => exact hentry k id .delItem _ fun r w => rfl
    | updateDim k id es => exact hentry k id (.update es) _ fun r w => rfl
    | orientItems v =>
      have hpn : m'.probs m.np = m.probs p := by
        show (m.copy p).probs m.np = _
        simp [Program.copy]
      have hpp : m'.probs p = m.probs p := by
        show (m.copy p).probs p = _
        simp [Program.copy, Nat.ne_of_lt hp]
      have loop : ∀ turn, Program.CallAs m' p (m'.orientWith m.np turn) (World.outcome
          ((m.world p).orientLoop turn (PyDict.keys ((m.world p).entries (m.world p).its)))) := by
        intro turn
        unfold Program.orientWith
        rw [hpn]
        have ho : m'.owner (m.probs p).its = p := hown .items
        simp only [ho, wold, hpp]
        have e : { m.world p with its := (m.probs p).its } = m.world p := rfl
        rw [e]
        have hj := ((World.orientLoop_sim turn (PyDict.keys ((m.world p).entries (m.world p).its)) hw).2).its
        have e2 : (m.world p).its = (m.probs p).its := rfl
        simp only [e2] at hj ⊢
        generalize World.orientLoop turn (PyDict.keys ((m.world p).entries (m.probs p).its)) (m.world p) = x at hj ⊢
        obtain ⟨⟨_, _, _, _, its, _, _⟩, _⟩ := x
        refine ⟨.inl ?_, rfl⟩
        have hj' : its = (m.probs p).its := hj
        rw [hj']
        rfl
      show Program.CallAs m' p (m'.orient m.np v) (World.outcome ((m.world p).orientItems v))
      unfold Program.orient World.orientItems
      rw [hpn, show (m.world p).inst.rotation = (m.probs p).inst.rotation from rfl]
      split
      · exact ⟨.inr ⟨rfl, wold.symm⟩, rfl⟩
      · split
        · exact ⟨.inr ⟨rfl, wold.symm⟩, rfl⟩
        · split
          · exact loop _
          · split
            · exact loop _
            · exact ⟨.inr ⟨rfl, wold.symm⟩, rfl⟩
    | _ => cases ho
  obtain ⟨a1, a2⟩ := has
  obtain ⟨s1, s2⟩ := World.call_sim (A := A) hw (hi.good p hp).valid o
  have hvp : m''.view p = (step A (m.view p) o).1 := by
    show ((m'.call A m.np o).1.world p).view = _
    rw [a1.world]
    exact s2
  refine ⟨a2.trans s1, hvp, ?_⟩
  have hset : ((m.world p).call A o).1.inst.settings = m.settings p := by
    rw [call_settings hw (hi.good p hp) o]
    exact step_settings (hi.good p hp) o (by rintro E v rfl; cases ho) (by rintro v rfl; cases ho)
      (by rintro E rfl; cases ho)
  have hits := editsInPlace_ptr (A := A) hw o ho .items
  have hcont := editsInPlace_ptr (A := A) hw o ho .containers
  have hne : m.np ≠ p := Ne.symm (Nat.ne_of_lt hp)
  have hpn : m'.probs m.np = m.probs p := by
    show (m.copy p).probs m.np = _
    simp [Program.copy]
  have hpp : m'.probs p = m.probs p := by
    show (m.copy p).probs p = _
    simp [Program.copy]
  rw [hvp, show (step A (m.view p) o).1 = _ from s2.symm]
  show ((m'.call A m.np o).1.world m.np).view = _
  rcases a1 with e | ⟨e, ew⟩
  · rw [e]
    have hpr : (m'.put p ((m.world p).call A o).1).probs m.np = m.probs p := by
      show (if m.np = p then _ else m'.probs m.np) = _
      rw [if_neg hne, hpn]
    have hs : (m'.put p ((m.world p).call A o).1).settings m.np = m.settings p := by
      rw [Program.settings_put m' hne, hpn, hpp, if_pos rfl, hset]
    have : (m'.put p ((m.world p).call A o).1).world m.np =
        { ((m.world p).call A o).1 with inst := (m.world p).inst } := by
      show World.mk _ _ _ _ _ _ _ = _
      rw [hpr, hs]
      have e1 : (m.probs p).its = ((m.world p).call A o).1.its := hits.symm
      have e2 : (m.probs p).cont = ((m.world p).call A o).1.cont := hcont.symm
      rw [e1, e2]
      rfl
    rw [this]
    rfl
  · rw [e, ew, wnew, wold]
    rfl

/-! ### an example -/

/-- settings that ask for an export without a file name -/
def unnamed : PyVal := .dict [(.str "figure", .dict [(.str "export", .dict [(.str "type", .str "html"), (.str "path", .str "d")])])]

def oneSize (a b : String) (n : Nat) : PyVal := .dict [(.str "x", .dict [(.str a, .int n), (.str b, .int 2)])]

/-- a problem; a second one with the same settings dict; the first is solved -/
def twoProblems : Program :=
  (((Program.empty.step Arith.exact (.new fullEnv (oneSize "W" "L" 3) (oneSize "w" "l" 1) unnamed .none)).1.step Arith.exact
    (.newWith fullEnv (oneSize "W" "L" 4) (oneSize "w" "l" 2) 0 .none)).1.step Arith.exact (.call 0 (.solve none))).1

theorem twoProblems_reach : PReachCur Arith.exact twoProblems := by
  refine .step _ (.step _ (.step _ .empty trivial ?_ (fun h => h)) ?_ ?_ (fun h => h)) ?_ ?_ (fun h => h)
  · exact fun p => nofun
  · show (0 : Nat) < _; decide +kernel
  · exact fun p => nofun
  · show (0 : Nat) < _; decide +kernel
  · exact fun p => nofun

/-- the hypotheses of C112 and C113 are met: two problems with the same dict, the first solved, the second not -/
example : twoProblems.np = 2 ∧ (twoProblems.probs 0).sref = (twoProblems.probs 1).sref ∧
    (twoProblems.view 0).solution = [("x", [("x", ⟨0, 0, 1, 2⟩)])] ∧ (twoProblems.view 1).solution = [] ∧
    (twoProblems.view 1).items = [("x", ⟨2, 2⟩)] := by decide +kernel

/-- after a shallow copy of the solved problem, an edit of the copy's item changes the original's item and discards the
original's solution; the copy still has the old packing -/
example :
    let m := ((twoProblems.step Arith.exact (.copy 0)).1.step Arith.exact
      (.call 2 (.setDim .items (.str "x") (.str "w") (.int 3)))).1
    (m.view 0).items = [("x", ⟨3, 2⟩)] ∧ (m.view 0).solution = [] ∧ (m.view 2).items = [("x", ⟨3, 2⟩)] ∧
    (m.view 2).solution = [("x", [("x", ⟨0, 0, 1, 2⟩)])] := by decide +kernel

/-- after a deep copy, the same edit leaves the original alone -/
example :
    let m := ((twoProblems.step Arith.exact (.deepcopy 0)).1.step Arith.exact
      (.call 2 (.setDim .items (.str "x") (.str "w") (.int 3)))).1
    (m.view 0).items = [("x", ⟨1, 2⟩)] ∧ (m.view 0).solution ≠ [] ∧ (m.view 2).items = [("x", ⟨3, 2⟩)] ∧
    (m.view 2).solution = [] ∧ (m.probs 2).sref ≠ (m.probs 0).sref := by decide +kernel

/-- `p.settings = q.settings` with a dict that is not named yet: the dict of `q`, changed in place and not validated, gets
its file name from the validation by `p` -/
example : ∃ v, NameFilled unnamed v ∧
    (((((twoProblems.step Arith.exact (.call 0 (.editSettings unnamed))).1.step Arith.exact
      (.share fullEnv 1 0)).1).view 0).settings) = v := by
  refine ⟨_, ⟨_, _, _, _, _, _, rfl, rfl, ⟨rfl, rfl⟩, .inl rfl, ⟨rfl, rfl⟩, rfl, ?_, ?_, ?_⟩, rfl⟩ <;>
  · intro k hk
    simp [PyVal.get?, PyVal.eqStr, setEntry, setFileName, Ne.symm hk]

end HP
