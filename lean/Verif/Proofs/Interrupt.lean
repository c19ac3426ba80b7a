import Verif.Model.Interrupt
import Verif.Proofs.Hom
import Verif.Proofs.Machine
/-
Calls that are cut off: the last write gives the state after the whole call.
-/
namespace HP
open Spec

theorem lastD_append (i : Inst) (a b : List Inst) : (a ++ b).getLastD i = b.getLastD (a.getLastD i) := by
  cases b with
  | nil => simp
  | cons x b =>
    simp only [List.getLastD_eq_getLast?]
    rw [List.getLast?_append]
    cases h : (x :: b).getLast? with
    | none => simp at h
    | some y => rfl

theorem last_reset (i j : Inst) : i.resetWrites.getLastD j = i.resetSol := rfl

theorem last_resetAttrs (k : SKind) (i j : Inst) : (i.resetAttrsWrites k).getLastD j = i.resetAttrs k := by
  cases k <;> rfl

theorem last_assign (k : SKind) (v : PyVal) (i : Inst) : (i.assignWrites k v).getLastD i = (i.assign k v).1 := by
  unfold Inst.assignWrites Inst.assign
  split
  · rfl
  · rw [lastD_append]
    simp only []
    cases (buildStructure k v).2 with
    | error e => cases (buildStructure k v).1 <;> rfl
    | ok d => cases (buildStructure k v).1 <;> cases k <;> rfl

theorem setData_resetSol (i : Inst) (k : SKind) (d : PyDict String Dim) :
    (i.resetSol.setData k d).resetAttrs k = (i.setData k d).resetAttrs k := by
  cases k <;> rfl

theorem last_setKey (k : SKind) (id v : PyVal) (i : Inst) :
    (i.setKeyWrites k id v).getLastD i = (i.setKey k id v).1 := by
  unfold Inst.setKeyWrites Inst.setKey
  split
  · rfl
  · cases id.asStr? with
    | none => rfl
    | some s =>
      cases mkDims k v with
      | error e => rfl
      | ok d => simp only [lastD_append, last_resetAttrs, setData_resetSol]

theorem last_delKey (k : SKind) (key : PyVal) (i : Inst) :
    (i.delKeyWrites k key).getLastD i = (i.delKey k key).1 := by
  unfold Inst.delKeyWrites Inst.delKey
  split
  · rfl
  · cases lookupKey (i.data k) key with
    | error e => rfl
    | ok s =>
      simp only []
      rw [show ∀ (x : Inst) l, (x :: l : List Inst) = [x] ++ l from fun _ _ => rfl, lastD_append, last_resetAttrs]

theorem last_setDim (k : SKind) (id key v : PyVal) (i : Inst) :
    (i.setDimWrites k id key v).getLastD i = (i.setDim k id key v).1 := by
  unfold Inst.setDimWrites Inst.setDim
  cases lookupKey (i.data k) id with
  | error e => rfl
  | ok p =>
    obtain ⟨s, d⟩ := p
    simp only []
    split
    · rfl
    · split
      · rfl
      · split
        · cases v.posInt? <;> rfl
        · split
          · cases v.posInt? <;> rfl
          · rfl

theorem last_popKey (k : SKind) (key : PyVal) (d : Bool) (i : Inst) :
    (i.popKeyWrites k key).getLastD i = (i.popKey k key d).1 := by
  unfold Inst.popKeyWrites Inst.popKey
  cases lookupKey (i.data k) key with
  | error e => cases e <;> rfl
  | ok p => exact last_delKey k key i

theorem last_popItem (k : SKind) (i : Inst) : (i.popItemWrites k).getLastD i = (i.popItem k).1 := by
  unfold Inst.popItemWrites Inst.popItem
  cases i.data k with
  | nil => rfl
  | cons p l => exact last_delKey k _ i

theorem last_clear (k : SKind) : ∀ (n : Nat) (i : Inst),
    (Inst.clearLoopWrites k n i).getLastD i = (Inst.clearLoop k n i).1
  | 0, _ => rfl
  | n + 1, i => by
    have h := last_popItem k i
    unfold Inst.clearLoopWrites Inst.clearLoop
    rw [lastD_append, h]
    generalize i.popItem k = x
    obtain ⟨j, r⟩ := x
    cases r with
    | ok u => exact last_clear k n j
    | error e => cases e <;> rfl

theorem last_update (k : SKind) : ∀ (es : List (PyVal × PyVal)) (i : Inst),
    (Inst.updateWrites k es i).getLastD i = (Inst.update k es i).1
  | [], _ => rfl
  | (id, v) :: rest, i => by
    have h := last_setKey k id v i
    unfold Inst.updateWrites Inst.update
    rw [lastD_append, h]
    generalize i.setKey k id v = x
    obtain ⟨j, r⟩ := x
    cases r with
    | ok u => exact last_update k rest j
    | error e => rfl

theorem last_updateDim (k : SKind) (id : PyVal) : ∀ (es : List (PyVal × PyVal)) (i : Inst),
    (Inst.updateDimWrites k id es i).getLastD i = (Inst.updateDim k id es i).1
  | [], i => by
    unfold Inst.updateDimWrites Inst.updateDim
    cases lookupKey (i.data k) id <;> rfl
  | (key, v) :: rest, i => by
    have h := last_setDim k id key v i
    unfold Inst.updateDimWrites Inst.updateDim
    rw [lastD_append, h]
    generalize i.setDim k id key v = x
    obtain ⟨j, r⟩ := x
    cases r with
    | ok u => exact last_updateDim k id rest j
    | error e => rfl

theorem last_setDefault (k : SKind) (key v : PyVal) (i : Inst) :
    (i.setDefaultWrites k key v).getLastD i = (i.setDefault k key v).1 := by
  unfold Inst.setDefaultWrites Inst.setDefault
  cases lookupKey (i.data k) key with
  | error e => cases e <;> first | rfl | exact last_setKey k key v i
  | ok p => rfl

theorem last_resetHeight (i : Inst) : i.resetHeightWrites.getLastD i = i.resetHeight.1 := by
  unfold Inst.resetHeightWrites Inst.resetHeight
  split
  · cases PyDict.find? i.containers stripId <;> rfl
  · rfl

theorem last_validate (E : Env) (i j : Inst) : (i.validateWrites E).getLastD j = (i.validateSettings E).1 := by
  unfold Inst.validateWrites Inst.validateSettings
  simp only []
  rw [lastD_append]
  have hb : ∀ e, i.validateBase.2 = .error e → i.validateHyper = (i.validateBase.1, .error e) := by
    intro e h
    unfold Inst.validateHyper
    generalize i.validateBase = x at h
    obtain ⟨a, b⟩ := x
    simp only at h
    subst h; rfl
  cases h1 : i.validateBase.2 with
  | error e => rw [hb e h1]; rfl
  | ok u =>
    simp only []
    rw [lastD_append]
    generalize i.validateHyper = x
    obtain ⟨a, b⟩ := x
    cases b with
    | error e => rfl
    | ok u => simp [lastD_append]

theorem last_solve (A : Arith) (seq : Option (List String)) (i : Inst) :
    (i.solveWrites A seq).getLastD i = (step A i (.solve seq)).1 := by
  unfold Inst.solveWrites
  simp only [step]
  cases i.solve A seq <;> rfl

/-! ### local search -/

/-- a traced local search is the local search -/
theorem traced_hom (A : Arith) (P : Inst × List Inst → Prop) (S : List String → Prop)
    (hswap : ∀ q q' i j, S q → swapSeq q i j = .ok q' → S q')
    (hinit : ∀ s r, P s → s.1.initSolution A = .ok r → P (r.1, s.2 ++ s.1.solveWrites A none))
    (hev : ∀ q s j, S q → P s → s.1.solve A (some q) = .ok j → P (j, s.2 ++ s.1.solveWrites A (some q)))
    (hex : ∀ s j, P s → s.1.extraNode = .ok j → P (j, s.2 ++ s.1.extraWrites)) :
    LSHom (tracedOps A) (instOps A) Prod.fst id id P S where
  init s _ := by
    show s.1.initSolution A = ((s.1.initSolution A).map _).map _
    cases s.1.initSolution A <;> rfl
  init_P s r hP h := by
    change (s.1.initSolution A).map _ = _ at h
    cases hi : s.1.initSolution A with
    | error e => rw [hi] at h; cases h
    | ok x => rw [hi] at h; injection h with h; subst h; exact hinit s x hP hi
  evaluate q s _ _ := by
    show s.1.solve A (some (q.map id)) = ((s.1.solve A (some q)).map _).map _
    rw [List.map_id]
    cases s.1.solve A (some q) <;> rfl
  evaluate_P q s s' hq hP h := by
    change (s.1.solve A (some q)).map _ = _ at h
    cases hi : s.1.solve A (some q) with
    | error e => rw [hi] at h; cases h
    | ok x => rw [hi] at h; injection h with h; subst h; exact hev q s x hq hP hi
  objVal _ _ := rfl
  compare _ _ _ _ := rfl
  getSol s _ := by
    show s.1.getSolution = (s.1.getSolution).map id
    cases s.1.getSolution <;> rfl
  extra s _ := by
    show s.1.extraNode = (s.1.extraNode.map _).map _
    cases s.1.extraNode <;> rfl
  extra_P s s' hP h := by
    change s.1.extraNode.map _ = _ at h
    cases hi : s.1.extraNode with
    | error e => rw [hi] at h; cases h
    | ok x => rw [hi] at h; injection h with h; subst h; exact hex s x hP hi
  swap := hswap

theorem traced_run (A : Arith) (C : LSParams) (fuel : Nat) (seq : List String) (throttle : Bool) (j : Inst) :
    lsRun (instOps A) C fuel seq throttle j =
      (lsRun (tracedOps A) C fuel seq throttle (j, [])).map (LSState.hom Prod.fst id id) := by
  have h := (lsRun_hom (traced_hom A (fun _ => True) (fun _ => True) (fun _ _ _ _ _ _ => trivial)
    (fun _ _ _ _ => trivial) (fun _ _ _ _ _ _ => trivial) (fun _ _ _ _ => trivial))
    C fuel seq throttle (j, []) trivial trivial).1
  rw [List.map_id] at h
  exact h

theorem last_localSearch (A : Arith) (clock : Nat → Rat) (start : Rat) (throttle : Bool) (i : Inst) :
    (∀ r, i.localSearch A clock start throttle = .ok r →
      (i.localSearchWrites A clock start throttle).getLastD i = r.1) ∧
    (∀ e, i.localSearch A clock start throttle = .error e → i.localSearchWrites A clock start throttle = []) := by
  unfold Inst.localSearch Inst.localSearchWrites
  simp only [bind, Except.bind, pure, Except.pure]
  rw [traced_run]
  generalize lsRun (tracedOps A) _ _ _ _ _ = x
  cases x with
  | error e => exact ⟨fun r h => (by cases h), fun _ _ => rfl⟩
  | ok s =>
    refine ⟨fun r h => ?_, fun e h => (by cases h)⟩
    cases h
    simp only [lastD_append]
    rfl

/-! ### hypersearch -/

theorem hsStep_writes {A : Arith} {clock : Nat → Rat} {start : Rat} {throttle : Bool} {st : List PClass}
    {s s' : HSState} {b : Bool} (h : hsStep A clock start throttle st s = .ok (s', b)) :
    ∃ r, Inst.localSearch A (fun k => clock (s.tick + k)) start throttle { s.inst with strategy := st } = .ok r ∧
      s'.inst = r.1 := by
  unfold hsStep at h
  simp only [bind, Except.bind, pure, Except.pure] at h
  split at h
  · cases h
  · rename_i r hr
    refine ⟨r, hr, ?_⟩
    split at h
    · cases h
    · split at h
      · split at h
        · cases h
        · split at h <;> cases h <;> rfl
      · cases h; rfl

theorem last_hsLoop (A : Arith) (clock : Nat → Rat) (start : Rat) (throttle : Bool) :
    ∀ (sts : List (List PClass)) (s t : HSState), hsLoop A clock start throttle sts s = .ok t →
      (hsLoopWrites A clock start throttle sts s).getLastD s.inst = t.inst
  | [], s, t, h => by cases h; rfl
  | st :: rest, s, t, h => by
    unfold hsLoop at h
    simp only [bind, Except.bind, pure, Except.pure] at h
    unfold hsLoopWrites
    cases hs : hsStep A clock start throttle st s with
    | error e => rw [hs] at h; cases h
    | ok x =>
      obtain ⟨s', b⟩ := x
      rw [hs] at h
      obtain ⟨r, hr, hr'⟩ := hsStep_writes hs
      have hl := (last_localSearch A (fun k => clock (s.tick + k)) start throttle { s.inst with strategy := st }).1 r hr
      simp only [List.cons_append] at h ⊢
      rw [show ∀ (x : Inst) l, (x :: l : List Inst) = [x] ++ l from fun _ _ => rfl, lastD_append, lastD_append,
        show ([({ s.inst with strategy := st } : Inst)]).getLastD s.inst = { s.inst with strategy := st } from rfl, hl, ← hr']
      cases b with
      | true => simp only [if_true] at h; cases h; rfl
      | false => exact last_hsLoop A clock start throttle rest s' t h

theorem last_search (A : Arith) (h : HSArgs) (i : Inst) : (i.searchWrites A h).getLastD i = (i.search A h).1 := by
  unfold Inst.searchWrites Inst.search
  simp only []
  split
  · cases hs : i.singleHS A (fun k => h.clock (k + 1)) (h.clock 0) h.throttle
        (getStrategies h.order i.strip h.exhaustive) with
    | error e => cases i.initSolution A <;> rfl
    | ok s =>
      cases hi : i.initSolution A with
      | error e =>
        unfold Inst.singleHS at hs
        rw [hi] at hs; cases hs
      | ok r => simp only [lastD_append]; rfl
  · cases i.multiHS h.env (h.mp A) (getStrategies h.order i.strip h.exhaustive) h.schedule <;> rfl

theorem last_orientLoop (turn : Nat → Nat → Bool) : ∀ (ids : List String) (i : Inst),
    (Inst.orientLoopWrites turn ids i).getLastD i = (Inst.orientLoop turn ids i).1
  | [], _ => rfl
  | id :: ids, i => by
    unfold Inst.orientLoopWrites Inst.orientLoop
    cases PyDict.find? i.items id with
    | none => rfl
    | some d =>
      simp only []
      split
      · rw [lastD_append, last_setDim]
        generalize i.setDim .items (.str id) (.str "w") (.int d.l) = x
        obtain ⟨j, r⟩ := x
        cases r with
        | error e => rfl
        | ok u =>
          simp only []
          rw [lastD_append, last_setDim]
          generalize j.setDim .items (.str id) (.str "l") (.int d.w) = x
          obtain ⟨k, r⟩ := x
          cases r with
          | error e => rfl
          | ok u => exact last_orientLoop turn ids k
      · exact last_orientLoop turn ids i

theorem last_orient (o : PyVal) (i : Inst) : (i.orientWrites o).getLastD i = (i.orientItems o).1 := by
  unfold Inst.orientWrites Inst.orientItems
  split
  · rfl
  · split
    · rfl
    · split
      · exact last_orientLoop _ _ i
      · split
        · exact last_orientLoop _ _ i
        · rfl

theorem last_sort (A : Arith) (s : Option (PyVal × Bool)) (i : Inst) :
    (i.sortWrites A s).getLastD i = (i.sortItems A s).1 := by
  unfold Inst.sortWrites Inst.sortItems
  cases s with
  | none => rfl
  | some p =>
    obtain ⟨b, r⟩ := p
    simp only []
    cases sortKey? A b with
    | none => rfl
    | some f => exact last_assign _ _ i

theorem last_hypersearch (A : Arith) (h : HSArgs) (i : Inst) :
    (i.hypersearchWrites A h).getLastD i = (i.hypersearch A h).1 := by
  unfold Inst.hypersearchWrites Inst.hypersearch
  rw [lastD_append, last_sort]
  generalize i.sortItems A h.sortingBy = x
  obtain ⟨j, r⟩ := x
  cases r with
  | error e => rfl
  | ok u =>
    simp only []
    rw [lastD_append, last_orient]
    generalize j.orientItems h.orientation = x
    obtain ⟨k, r⟩ := x
    cases r with
    | error e => rfl
    | ok u => exact last_search A h k

theorem last_writes (A : Arith) (i : Inst) (o : Op) : (writes A i o).getLastD i = (step A i o).1 := by
  cases o with
  | assign k v => exact last_assign k v i
  | setKey k id v => exact last_setKey k id v i
  | delKey k key => exact last_delKey k key i
  | setDim k id key v => exact last_setDim k id key v i
  | delDim k id =>
    show i = (i.delDim k id).1
    unfold Inst.delDim
    cases lookupKey (i.data k) id <;> rfl
  | popKey k key d => exact last_popKey k key d i
  | popItem k => exact last_popItem k i
  | clear k => exact last_clear k _ i
  | update k es => exact last_update k es i
  | updateDim k id es => exact last_updateDim k id es i
  | setDefault k key v => exact last_setDefault k key v i
  | delAttr e => rfl
  | height v => rfl
  | minHeight v => rfl
  | resetHeight => exact last_resetHeight i
  | strategy v => rfl
  | settings E v =>
    show ([_] ++ _ : List Inst).getLastD i = _
    rw [lastD_append]; exact last_validate E _ _
  | editSettings v => rfl
  | validate E => exact last_validate E i i
  | solve seq => exact last_solve A seq i
  | localSearch clock throttle =>
    obtain ⟨h1, h2⟩ := last_localSearch A (fun k => clock (k + 1)) (clock 0) throttle i
    simp only [step, writes]
    generalize i.localSearch A (fun k => clock (k + 1)) (clock 0) throttle = x at h1 h2
    cases x with
    | error e => rw [h2 e rfl]; rfl
    | ok r => exact h1 r rfl
  | sortItems s => exact last_sort A s i
  | orientItems o => exact last_orient o i
  | hypersearch h => exact last_hypersearch A h i
  | log => rfl
  | figure writes show_ => rfl

end HP
