import Verif.SpecFrame
import Verif.Props.Api
/-
Property C95: every call changes only the attributes that belong to it.
-/
namespace HP
open Spec

/-- all attributes but those of the list are the same -/
def Keeps (l : List Attr) (i j : Inst) : Prop := ∀ a, a ∉ l → Attr.Same i j a

theorem Attr.same_refl (i : Inst) (a : Attr) : Attr.Same i i a := by
  cases a <;> simp [Attr.Same]

theorem Attr.same_trans {i j k : Inst} {a : Attr} (h1 : Attr.Same i j a) (h2 : Attr.Same j k a) :
    Attr.Same i k a := by
  cases a <;> simp only [Attr.Same] at * <;> simp only [h2, h1, and_self]

theorem Keeps.refl (l : List Attr) (i : Inst) : Keeps l i i := fun a _ => Attr.same_refl i a

theorem Keeps.trans {l : List Attr} {i j k : Inst} (h1 : Keeps l i j) (h2 : Keeps l j k) : Keeps l i k :=
  fun a ha => Attr.same_trans (h1 a ha) (h2 a ha)

theorem Keeps.mono {l l' : List Attr} {i j : Inst} (h : Keeps l i j) (hl : ∀ a ∈ l, a ∈ l') : Keeps l' i j :=
  fun a ha => h a (fun h' => ha (hl a h'))

theorem keeps_resetSol (k : SKind) (i : Inst) : Keeps [.of k, .result] i i.resetSol := by
  intro a ha
  cases a <;> first | (simp [Attr.Same, Inst.resetSol]; done) | (simp at ha)

theorem keeps_setData (k : SKind) (i : Inst) (d : PyDict String Dim) :
    Keeps [.of k, .result] i (i.setData k d) := by
  intro a ha
  cases k <;> cases a <;> first | (simp [Attr.Same, Inst.setData]; done) | (simp [Attr.of] at ha)

theorem keeps_resetAttrs (k : SKind) (i : Inst) : Keeps [.of k, .result] i (i.resetAttrs k) := by
  intro a ha
  cases k <;> cases a <;>
    first | (simp [Attr.Same, Inst.resetAttrs, Inst.resetSol]; done) | (simp [Attr.of] at ha)

theorem assign_keeps (k : SKind) (v : PyVal) (i : Inst) : Keeps [.of k, .result] i (i.assign k v).1 := by
  unfold Inst.assign
  split
  · exact .refl _ _
  · simp only
    have h0 : Keeps [.of k, .result] i (if (buildStructure k v).1 then i.resetSol else i) := by
      split
      · exact keeps_resetSol k i
      · exact .refl _ _
    refine h0.trans ?_
    generalize (if (buildStructure k v).1 then i.resetSol else i) = j
    split
    · exact .refl _ _
    · rename_i d _
      cases k with
      | items => exact keeps_setData .items j d
      | containers =>
        intro a ha
        cases a <;> first | (simp [Attr.Same]; done) | (simp [Attr.of] at ha)

theorem setKey_keeps (k : SKind) (id v : PyVal) (i : Inst) : Keeps [.of k, .result] i (i.setKey k id v).1 := by
  unfold Inst.setKey
  split
  · exact .refl _ _
  · split
    · exact .refl _ _
    · split
      · exact .refl _ _
      · exact (keeps_setData k i _).trans (keeps_resetAttrs k _)

theorem delKey_keeps (k : SKind) (key : PyVal) (i : Inst) : Keeps [.of k, .result] i (i.delKey k key).1 := by
  unfold Inst.delKey
  split
  · exact .refl _ _
  · split
    · exact .refl _ _
    · exact (keeps_setData k i _).trans (keeps_resetAttrs k _)

theorem setDim_keeps (k : SKind) (id key v : PyVal) (i : Inst) :
    Keeps [.of k, .result] i (i.setDim k id key v).1 := by
  unfold Inst.setDim
  split
  · exact .refl _ _
  · split
    · exact .refl _ _
    · split
      · exact .refl _ _
      · split
        · split
          · exact (keeps_setData k i _).trans (keeps_resetSol k _)
          · exact .refl _ _
        · split
          · split
            · exact (keeps_setData k i _).trans (keeps_resetSol k _)
            · exact .refl _ _
          · exact .refl _ _

theorem popKey_keeps (k : SKind) (key : PyVal) (b : Bool) (i : Inst) :
    Keeps [.of k, .result] i (i.popKey k key b).1 := by
  unfold Inst.popKey
  split
  · exact .refl _ _
  · exact .refl _ _
  · exact delKey_keeps k key i

theorem popItem_keeps (k : SKind) (i : Inst) : Keeps [.of k, .result] i (i.popItem k).1 := by
  unfold Inst.popItem
  split
  · exact .refl _ _
  · exact delKey_keeps k _ i

theorem clearLoop_keeps (k : SKind) : ∀ (n : Nat) (i : Inst), Keeps [.of k, .result] i (Inst.clearLoop k n i).1
  | 0, i => .refl _ _
  | n + 1, i => by
    have hp := popItem_keeps k i
    unfold Inst.clearLoop
    split
    · rename_i j hj; rw [hj] at hp; exact hp.trans (clearLoop_keeps k n j)
    · rename_i j hj; rw [hj] at hp; exact hp
    · rename_i j e _ hj; rw [hj] at hp; exact hp

theorem update_keeps (k : SKind) : ∀ (es : List (PyVal × PyVal)) (i : Inst),
    Keeps [.of k, .result] i (Inst.update k es i).1
  | [], i => .refl _ _
  | (id, v) :: es, i => by
    have hp := setKey_keeps k id v i
    unfold Inst.update
    split
    · rename_i j hj; rw [hj] at hp; exact hp.trans (update_keeps k es j)
    · rename_i j e hj; rw [hj] at hp; exact hp

theorem updateDim_keeps (k : SKind) (id : PyVal) : ∀ (es : List (PyVal × PyVal)) (i : Inst),
    Keeps [.of k, .result] i (Inst.updateDim k id es i).1
  | [], i => by
    unfold Inst.updateDim
    split <;> exact .refl _ _
  | (key, v) :: es, i => by
    have hp := setDim_keeps k id key v i
    unfold Inst.updateDim
    split
    · rename_i j hj; rw [hj] at hp; exact hp.trans (updateDim_keeps k id es j)
    · rename_i j e hj; rw [hj] at hp; exact hp

theorem setDefault_keeps (k : SKind) (key v : PyVal) (i : Inst) :
    Keeps [.of k, .result] i (i.setDefault k key v).1 := by
  unfold Inst.setDefault
  split
  · exact .refl _ _
  · exact setKey_keeps k key v i
  · exact .refl _ _

theorem sortItems_keeps (A : Arith) (s : Option (PyVal × Bool)) (i : Inst) :
    Keeps [.items, .result] i (i.sortItems A s).1 := by
  unfold Inst.sortItems
  split
  · exact .refl _ _
  · split
    · exact .refl _ _
    · exact assign_keeps .items _ i

theorem orientLoop_keeps (t : Nat → Nat → Bool) : ∀ (ids : List String) (i : Inst),
    Keeps [.items, .result] i (Inst.orientLoop t ids i).1
  | [], i => .refl _ _
  | id :: ids, i => by
    unfold Inst.orientLoop
    split
    · exact .refl _ _
    · rename_i d hd
      split
      · have h1 := setDim_keeps .items (.str id) (.str "w") (.int d.l) i
        split
        · rename_i j e hj; rw [hj] at h1; exact h1
        · rename_i j hj
          rw [hj] at h1
          have h2 := setDim_keeps .items (.str id) (.str "l") (.int d.w) j
          refine Keeps.trans h1 ?_
          split
          · rename_i j' e' hj'; rw [hj'] at h2; exact h2
          · rename_i j' hj'; rw [hj'] at h2; exact Keeps.trans h2 (orientLoop_keeps t ids j')
      · exact orientLoop_keeps t ids i

theorem orientItems_keeps (o : PyVal) (i : Inst) : Keeps [.items, .result] i (i.orientItems o).1 := by
  unfold Inst.orientItems
  split
  · exact .refl _ _
  · split
    · exact .refl _ _
    · split
      · exact orientLoop_keeps _ _ i
      · split
        · exact orientLoop_keeps _ _ i
        · exact .refl _ _

theorem settingsFrame_keeps {i j : Inst} (h : SettingsFrame i j) :
    Keeps [.settings, .options, .versions] i j := by
  unfold SettingsFrame at h
  intro a ha
  cases a <;> first | (rw [h]; simp [Attr.Same]; done) | (simp at ha)

theorem soleWorker_iff (i : Inst) : i.workers.isOne = true ↔ SoleWorker i := by
  rw [oneWorker_iff]
  unfold OneWorker SoleWorker
  constructor
  · rintro (h | h | h) <;> simp [h]
  · rintro (h | h | h) <;> simp [h]

theorem hsearch_keeps {A : Arith} {i : Inst} (h : HSArgs) (hv : i.Valid) :
    Keeps (mayChange i (.hypersearch h)) i (i.search A h).1 := by
  unfold Inst.search mayChange
  simp only []
  by_cases hw : SoleWorker i
  · rw [if_pos ((soleWorker_iff i).2 hw), if_pos hw]
    cases hs : i.singleHS A (fun k => h.clock (k + 1)) (h.clock 0) h.throttle
        (getStrategies h.order i.strip h.exhaustive) with
    | error e => exact .refl _ _
    | ok s =>
      obtain ⟨f1, f2, _⟩ := C27_frame A _ _ _ i _ hv s hs
      show Keeps _ i s.finish
      cases hst : i.strip with
      | true =>
        intro a ha
        cases a <;> first | (rw [f1]; simp [Attr.Same]; done) | (simp at ha)
      | false =>
        obtain ⟨f2, f3⟩ := f2 hst
        intro a ha
        cases a <;> first | exact f2 | exact f3 | (rw [f1]; simp [Attr.Same]; done) | (simp at ha; done)
  · rw [if_neg (fun h' => hw ((soleWorker_iff i).1 h')), if_neg hw]
    cases i.multiHS h.env (h.mp A) (getStrategies h.order i.strip h.exhaustive) h.schedule with
    | returned sol ov st =>
      intro a ha
      cases a <;> first | (simp [Attr.Same]; done) | (simp at ha)
    | raised e => exact .refl _ _
    | blocked => exact .refl _ _

/-- C95: a call leaves all attributes as they were that are not listed for it, whether it returns, raises or
never comes back. -/
theorem C95_frame (A : Arith) (i : Inst) (hr : Reach A i) (o : Op) (a : Attr) (ha : a ∉ mayChange i o) :
    Attr.Same i (step A i o).1 a := by
  have hv := hr.good.valid
  revert a
  show Keeps (mayChange i o) i (step A i o).1
  cases o with
  | assign k v => exact assign_keeps k v i
  | setKey k id v => exact setKey_keeps k id v i
  | delKey k key => exact delKey_keeps k key i
  | setDim k id key v => exact setDim_keeps k id key v i
  | delDim k id =>
    have : (step A i (.delDim k id)).1 = i := (delDim_same i k id).1
    rw [this]; exact .refl _ _
  | popKey k key b => exact popKey_keeps k key b i
  | popItem k => exact popItem_keeps k i
  | clear k => exact clearLoop_keeps k _ i
  | update k es => exact update_keeps k es i
  | updateDim k id es => exact updateDim_keeps k id es i
  | setDefault k key v => exact setDefault_keeps k key v i
  | delAttr e => exact .refl _ _
  | height v =>
    show Keeps [.height] i (i.assignHeight v).1
    have hset : ∀ h, Keeps [.height] i { i with height := h } := by
      intro h a ha
      cases a <;> first | (simp [Attr.Same]; done) | (simp at ha)
    unfold Inst.assignHeight
    split
    · exact .refl _ _
    · split
      · split
        · exact .refl _ _
        · exact hset _
      · exact hset _
  | minHeight v =>
    show Keeps [.minHeight] i (i.assignMinHeight v).1
    have hset : ∀ h, Keeps [.minHeight] i { i with minHeight := h } := by
      intro h a ha
      cases a <;> first | (simp [Attr.Same]; done) | (simp at ha)
    unfold Inst.assignMinHeight
    split
    · exact .refl _ _
    · split
      · exact .refl _ _
      · split
        · exact .refl _ _
        · exact hset _
  | resetHeight =>
    show Keeps _ i i.resetHeight.1
    unfold Inst.resetHeight mayChange
    cases hst : i.strip with
    | false => exact .refl _ _
    | true =>
      cases PyDict.find? i.containers stripId with
      | some c =>
        intro a ha
        cases a <;> first | exact hst.symm | (simp [Attr.Same]; done) | (simp at ha)
      | none => exact .refl _ _
  | strategy v =>
    show Keeps [.strategy] i (i.assignStrategy v).1
    unfold Inst.assignStrategy
    split
    · exact .refl _ _
    · split
      · exact .refl _ _
      · intro a ha
        cases a <;> first | (simp [Attr.Same]; done) | (simp at ha)
  | settings E v =>
    show Keeps _ i (Inst.validateSettings E { i with settings := v }).1
    show Keeps [.settings, .options, .versions] i _
    have h1 := settingsFrame_keeps (validateSettings_frame { i with settings := v } E).1
    refine Keeps.trans ?_ h1
    intro a ha
    cases a <;> first | (simp [Attr.Same]; done) | exact absurd (by simp) ha
  | editSettings v =>
    show Keeps [.settings] i { i with settings := v }
    intro a ha
    cases a <;> first | (simp [Attr.Same]; done) | (simp at ha)
  | validate E => exact settingsFrame_keeps (validateSettings_frame i E).1
  | solve seq =>
    obtain ⟨_, h2, h3⟩ := C13_frame A i hr seq
    by_cases hok : (step A i (.solve seq)).2 = .ok
    · have f1 := h2 hok
      intro a ha
      cases a <;> first | (rw [f1]; simp [Attr.Same]; done) | (simp [mayChange] at ha)
    · rw [h3 hok]; exact .refl _ _
  | localSearch clock throttle =>
    cases hs : i.localSearch A (fun k => clock (k + 1)) (clock 0) throttle with
    | error e =>
      have : (step A i (.localSearch clock throttle)).1 = i := by simp only [step, hs]
      rw [this]; exact .refl _ _
    | ok r =>
      obtain ⟨j, t⟩ := r
      have : (step A i (.localSearch clock throttle)).1 = j := by simp only [step, hs]
      rw [this]
      obtain ⟨f1, f2⟩ := C17_frame A _ _ throttle i j t hv hs
      unfold mayChange
      cases hst : i.strip with
      | true =>
        intro a ha
        cases a <;> first | (rw [f1]; simp [Attr.Same]; done) | (simp at ha)
      | false =>
        obtain ⟨f2, f3⟩ := f2 hst
        intro a ha
        cases a <;> first | exact f2 | exact f3 | (rw [f1]; simp [Attr.Same]; done) | (simp at ha; done)
  | sortItems s => exact sortItems_keeps A s i
  | orientItems o => exact orientItems_keeps o i
  | log => exact .refl _ _
  | figure w s => exact .refl _ _
  | hypersearch h =>
    have hsub : ∀ a ∈ [Attr.items, Attr.result], a ∈ mayChange i (.hypersearch h) := by
      intro a ha
      unfold mayChange
      simp at ha ⊢
      tauto
    have k1 := (sortItems_keeps A h.sortingBy i).mono hsub
    by_cases hs : (step A i (.sortItems h.sortingBy)).2 = .ok
    · have hr1 : Reach A (step A i (.sortItems h.sortingBy)).1 := .step _ hr
      have hr2 : Reach A (step A (step A i (.sortItems h.sortingBy)).1 (.orientItems h.orientation)).1 := .step _ hr1
      have k2 := (orientItems_keeps h.orientation (step A i (.sortItems h.sortingBy)).1).mono hsub
      rw [(step_hypersearch h hr hs).2]
      have k3 := hsearch_keeps (A := A) h hr2.good.valid
      have k12 : Keeps (mayChange i (.hypersearch h)) i
          (step A (step A i (.sortItems h.sortingBy)).1 (.orientItems h.orientation)).1 := k1.trans k2
      have e : mayChange (step A (step A i (.sortItems h.sortingBy)).1 (.orientItems h.orientation)).1 (.hypersearch h)
          = mayChange i (.hypersearch h) := by
        have k12' : Keeps [.items, .result] i
          (step A (step A i (.sortItems h.sortingBy)).1 (.orientItems h.orientation)).1 :=
          (sortItems_keeps A h.sortingBy i).trans (orientItems_keeps h.orientation _)
        have m1 : _ = _ := k12' .mode (by simp)
        obtain ⟨_, _, m2⟩ := k12' .options (by simp)
        unfold mayChange SoleWorker
        rw [m1, m2]
      rw [e] at k3
      exact k12.trans k3
    · have : (step A i (.hypersearch h)).1 = i := ((C70_prepare A i hr h).1 hs).2
      rw [this]; exact .refl _ _

/-- C95 for histories: an attribute that no call of the history may change has its first value at the end. -/
theorem C95_history (A : Arith) (a : Attr) (ops : List Op) (i : Inst) (hr : Reach A i)
    (h : ∀ pre o post, ops = pre ++ o :: post → a ∉ mayChange (runOps A i pre) o) :
    Attr.Same i (runOps A i ops) a := by
  induction ops generalizing i with
  | nil => exact Attr.same_refl i a
  | cons o ops ih =>
    have h1 := C95_frame A i hr o a (h [] o ops rfl)
    refine Attr.same_trans h1 (ih _ (.step o hr) ?_)
    intro pre o' post he
    exact h (o :: pre) o' post (by rw [he]; rfl)

/-- Not vacuous: turning item "a" of the solved problem changes the items and the result; the calls
`potential_points_strategy = ("B", "A")` and `solve()` leave the items alone but change other attributes. -/
example :
    ¬ Attr.Same problemSolved (step Arith.exact problemSolved (.setDim .items (.str "a") (.str "w") (.int 3))).1 .items ∧
    ¬ Attr.Same problemSolved (step Arith.exact problemSolved (.setDim .items (.str "a") (.str "w") (.int 3))).1 .result ∧
    ¬ Attr.Same problemSolved (step Arith.exact problemSolved (.strategy (.tuple [.str "B", .str "A"]))).1 .strategy ∧
    Attr.items ∉ mayChange problemSolved (.strategy (.tuple [.str "B", .str "A"])) := by
  refine ⟨by simp only [Attr.Same]; decide, by simp only [Attr.Same]; decide, by simp only [Attr.Same]; decide, ?_⟩
  simp [mayChange]

end HP
