import Verif.Model.Program
import Verif.Proofs.ObjectsReach
/-
Programs with several problems: which objects an operation touches.
-/
namespace HP
open Spec
namespace World

/-- only `Dimensions` objects in `D` and structure objects in `S` differ; structures in `S` refer to objects in `D`
only, and the problem to structures in `S` only, if that was so before -/
structure Local (D S : Nat → Prop) (w w' : World) : Prop where
  nd : w.nd ≤ w'.nd
  ns : w.ns ≤ w'.ns
  dims : ∀ n, ¬ D n → w'.dims n = w.dims n
  structs : ∀ r, ¬ S r → w'.structs r = w.structs r
  refs : (∀ r, r < w.ns → S r → ∀ e ∈ w.entries r, D e.2) → ∀ r, r < w'.ns → S r → ∀ e ∈ w'.entries r, D e.2
  its : S w.its → S w'.its
  cont : S w.cont → S w'.cont

/-- a set of objects that contains all objects that do not exist yet -/
structure Region (D S : Nat → Prop) (w : World) : Prop where
  nd : ∀ n, w.nd ≤ n → D n
  ns : ∀ r, w.ns ≤ r → S r
  refs : ∀ r, r < w.ns → S r → ∀ e ∈ w.entries r, D e.2

variable {D S : Nat → Prop}

theorem Local.refl (w : World) : Local D S w w :=
  ⟨Nat.le_refl _, Nat.le_refl _, fun _ _ => rfl, fun _ _ => rfl, id, id, id⟩

theorem Local.trans {w w' w'' : World} (h1 : Local D S w w') (h2 : Local D S w' w'') : Local D S w w'' :=
  ⟨Nat.le_trans h1.nd h2.nd, Nat.le_trans h1.ns h2.ns, fun n hn => (h2.dims n hn).trans (h1.dims n hn),
    fun r hr => (h2.structs r hr).trans (h1.structs r hr), fun h => h2.refs (h1.refs h),
    fun h => h2.its (h1.its h), fun h => h2.cont (h1.cont h)⟩

theorem Local.region {w w' : World} (h : Local D S w w') (hr : Region D S w) : Region D S w' :=
  ⟨fun n hn => hr.nd n (Nat.le_trans h.nd hn), fun r hn => hr.ns r (Nat.le_trans h.ns hn), h.refs hr.refs⟩

/-- only attributes of the problem differ -/
theorem SameHeap.local {w w' : World} (h : SameHeap w w') : Local D S w w' := by
  obtain ⟨h1, h2, h3, h4, h5, h6⟩ := h
  refine ⟨by rw [h2], by rw [h4], fun _ _ => by rw [h1], fun _ _ => by rw [h3], ?_,
    by rw [h5]; exact id, by rw [h6]; exact id⟩
  unfold World.entries
  rw [h3, h4]
  exact id

theorem newDim_local {w : World} (hR : Region D S w) (k : SKind) (d : Dim) : Local D S w (w.newDim k d) := by
  refine ⟨Nat.le_succ _, Nat.le_refl _, ?_, fun _ _ => rfl, id, id, id⟩
  intro n hn
  refine if_neg ?_
  rintro rfl
  exact hn (hR.nd _ (Nat.le_refl _))

theorem setEntries_local {w : World} {r : Nat} (hr : S r) {e : PyDict String Nat} (he : ∀ p ∈ e, D p.2) :
    Local D S w (w.setEntries r e) := by
  refine ⟨Nat.le_refl _, Nat.le_refl _, fun _ _ => rfl, ?_, ?_, id, id⟩
  · intro s hs
    refine if_neg ?_
    rintro rfl
    exact hs hr
  · intro h s hs hS p hp
    rw [entries_setEntries] at hp
    split at hp
    · exact he p hp
    · exact h s hs hS p hp

theorem setVal_local {w : World} {r : Nat} (hr : D r) (d : Dim) : Local D S w (w.setVal r d) := by
  refine ⟨Nat.le_refl _, Nat.le_refl _, ?_, fun _ _ => rfl, id, id, id⟩
  intro s hs
  refine if_neg ?_
  rintro rfl
  exact hs hr

theorem resetAttrs_local (r : Nat) (w : World) : Local D S w (w.resetAttrs r) := (resetAttrs_same r w).local

theorem resetSol_local (w : World) : Local D S w w.resetSol := (resetSol_same w).local

theorem mem_insert {d : PyDict String Nat} {s : String} {n : Nat} {p : String × Nat}
    (h : p ∈ PyDict.insert d s n) : p ∈ d ∨ p.2 = n := by
  induction d with
  | nil => simp [PyDict.insert] at h; exact .inr (by rw [h])
  | cons q d ih =>
    obtain ⟨k, v⟩ := q
    unfold PyDict.insert at h
    split at h
    · rcases List.mem_cons.1 h with h | h
      · exact .inr (by rw [h])
      · exact .inl (List.mem_cons_of_mem _ h)
    · rcases List.mem_cons.1 h with h | h
      · exact .inl (by rw [h]; exact List.mem_cons_self)
      · rcases ih h with h | h
        · exact .inl (List.mem_cons_of_mem _ h)
        · exact .inr h

theorem mem_erase {d : PyDict String Nat} {s : String} {p : String × Nat} (h : p ∈ PyDict.erase d s) : p ∈ d := by
  induction d with
  | nil => exact h
  | cons q d ih =>
    obtain ⟨k, v⟩ := q
    unfold PyDict.erase at h
    split at h
    · exact List.mem_cons_of_mem _ h
    · rcases List.mem_cons.1 h with h | h
      · rw [h]; exact List.mem_cons_self
      · exact List.mem_cons_of_mem _ (ih h)

theorem setKey_local {w : World} (hR : Region D S w) {r : Nat} (hr : r < w.ns) (hS : S r) (id v : PyVal) :
    Local D S w (w.setKey r id v).1 := by
  unfold World.setKey
  split
  · exact .refl _
  · split
    · exact .refl _
    · split
      · exact .refl _
      · rename_i s _ d _
        refine (newDim_local hR (w.structs r).kind d).trans ((setEntries_local hS ?_).trans (resetAttrs_local r _))
        intro p hp
        rcases mem_insert hp with h | h
        · exact hR.refs r hr hS p h
        · rw [h]; exact hR.nd _ (Nat.le_refl _)

theorem delKey_local {w : World} (hR : Region D S w) {r : Nat} (hr : r < w.ns) (hS : S r) (key : PyVal) :
    Local D S w (w.delKey r key).1 := by
  unfold World.delKey
  split
  · exact .refl _
  · split
    · exact .refl _
    · refine (setEntries_local hS ?_).trans (resetAttrs_local r _)
      intro p hp
      exact hR.refs r hr hS p (mem_erase hp)

theorem popKey_local {w : World} (hR : Region D S w) {r : Nat} (hr : r < w.ns) (hS : S r) (key : PyVal) (d : Bool) :
    Local D S w (w.popKey r key d).1 := by
  unfold World.popKey
  split
  · exact .refl _
  · exact .refl _
  · exact delKey_local hR hr hS key

theorem popItem_local {w : World} (hR : Region D S w) {r : Nat} (hr : r < w.ns) (hS : S r) :
    Local D S w (w.popItem r).1 := by
  unfold World.popItem
  split
  · exact .refl _
  · exact delKey_local hR hr hS _

theorem clearLoop_local {r : Nat} (hS : S r) : ∀ (n : Nat) {w : World}, Region D S w → r < w.ns →
    Local D S w (w.clearLoop r n).1
  | 0, w, _, _ => .refl _
  | n + 1, w, hR, hr => by
    unfold World.clearLoop
    have h := popItem_local hR hr hS
    cases hp : w.popItem r with
    | mk w' x =>
      rw [hp] at h
      cases x with
      | ok u => exact h.trans (clearLoop_local hS n (h.region hR) (Nat.lt_of_lt_of_le hr h.ns))
      | error e => cases e <;> exact h

theorem update_local {r : Nat} (hS : S r) : ∀ (es : List (PyVal × PyVal)) {w : World}, Region D S w → r < w.ns →
    Local D S w (w.update r es).1
  | [], w, _, _ => .refl _
  | (id, v) :: es, w, hR, hr => by
    unfold World.update
    have h := setKey_local hR hr hS id v
    cases hp : w.setKey r id v with
    | mk w' x =>
      rw [hp] at h
      cases x with
      | ok u => exact h.trans (update_local hS es (h.region hR) (Nat.lt_of_lt_of_le hr h.ns))
      | error e => exact h

theorem setDefault_local {w : World} (hR : Region D S w) {r : Nat} (hr : r < w.ns) (hS : S r) (key v : PyVal) :
    Local D S w (w.setDefault r key v).1 := by
  unfold World.setDefault
  split
  · exact .refl _
  · exact setKey_local hR hr hS key v
  · exact .refl _

theorem onStruct_local {w : World} (hR : Region D S w) {r : Nat} (hr : r < w.ns) (hS : S r) (f : SMeth) :
    Local D S w (w.onStruct r f).1 := by
  cases f with
  | setItem id v => exact setKey_local hR hr hS id v
  | delItem key => exact delKey_local hR hr hS key
  | pop key d => exact popKey_local hR hr hS key d
  | popitem => exact popItem_local hR hr hS
  | clear => exact clearLoop_local hS _ hR hr
  | update es => exact update_local hS es hR hr
  | setdefault key v => exact setDefault_local hR hr hS key v
  | copy => exact .refl _

theorem setDim_local {w : World} {r : Nat} (hD : D r) (key v : PyVal) : Local D S w (w.setDim r key v).1 := by
  unfold World.setDim
  split
  · exact .refl _
  · split
    · exact .refl _
    · split
      · split
        · exact (setVal_local hD _).trans (resetSol_local _)
        · exact .refl _
      · split
        · split
          · exact (setVal_local hD _).trans (resetSol_local _)
          · exact .refl _
        · exact .refl _

theorem updateDim_local {r : Nat} (hD : D r) : ∀ (es : List (PyVal × PyVal)) {w : World},
    Local D S w (w.updateDim r es).1
  | [], w => .refl _
  | (key, v) :: es, w => by
    unfold World.updateDim
    have h := setDim_local (S := S) (w := w) hD key v
    cases hp : w.setDim r key v with
    | mk w' x =>
      rw [hp] at h
      cases x with
      | ok u => exact h.trans (updateDim_local hD es)
      | error e => exact h

theorem onDims_local {w : World} (hR : Region D S w) {r : Nat} (hD : D r) (f : DMeth) :
    Local D S w (w.onDims r f).1 := by
  cases f with
  | setItem key v => exact setDim_local hD key v
  | delItem => exact .refl _
  | update es => exact updateDim_local hD es
  | copy =>
    show Local D S w (w.copyDim r).1
    unfold World.copyDim
    split
    · exact resetSol_local _
    · exact (newDim_local hR _ _).trans (resetSol_local _)
  | pop key d => exact .refl _
  | popitem => exact .refl _
  | clear => exact .refl _
  | setdefault key v =>
    show Local D S w (w.setDefaultDim r key v).1
    rw [setDefaultDim_same]
    exact .refl _

theorem newStruct_local {w : World} (hR : Region D S w) (k : SKind) {e : PyDict String Nat} (he : ∀ p ∈ e, D p.2) :
    Local D S w (w.newStruct k e) := by
  refine ⟨Nat.le_refl _, Nat.le_succ _, fun _ _ => rfl, ?_, ?_, id, id⟩
  · intro s hs
    refine if_neg ?_
    rintro rfl
    exact hs (hR.ns _ (Nat.le_refl _))
  · intro h s hs hS p hp
    by_cases hse : s = w.ns
    · subst hse
      have : (w.newStruct k e).entries w.ns = e := congrArg StructObj.entries (newStruct_new w k e)
      rw [this] at hp
      exact he p hp
    · have hlt : s < w.ns := by
        have : s < w.ns + 1 := hs
        omega
      have : (w.newStruct k e).entries s = w.entries s := congrArg StructObj.entries (newStruct_old w k e hlt)
      rw [this] at hp
      exact h s hlt hS p hp

theorem newDims_local (k : SKind) : ∀ (d : PyDict String Dim) {w : World}, Region D S w →
    Local D S w (newDims k d w).1 ∧ ∀ p ∈ (newDims k d w).2, D p.2
  | [], w, _ => ⟨.refl _, fun p hp => by cases hp⟩
  | (s, d) :: rest, w, hR => by
    unfold newDims
    have h := newDim_local hR k d
    obtain ⟨i1, i2⟩ := newDims_local k rest (h.region hR)
    refine ⟨h.trans i1, ?_⟩
    intro p hp
    rcases List.mem_cons.1 hp with e | hp
    · rw [e]; exact hR.nd _ (Nat.le_refl _)
    · exact i2 p hp

theorem build_local {w : World} (hR : Region D S w) (k : SKind) (d : PyDict String Dim) :
    Local D S w (w.build k d) := by
  obtain ⟨h1, h2⟩ := newDims_local k d hR
  exact h1.trans (newStruct_local (h1.region hR) k h2)

theorem assign_local {w : World} (hR : Region D S w) (k : SKind) (v : PyVal) : Local D S w (w.assign k v).1 := by
  unfold World.assign
  split
  · exact .refl _
  · have h0 : ∀ b : Bool, Local D S w (if b then w.resetSol else w) := by
      intro b; cases b
      · exact .refl _
      · exact resetSol_local _
    have h1 := (h0 (buildStructure k v).1).region hR
    cases hb : (buildStructure k v).2 with
    | error e => simp only [hb]; exact h0 _
    | ok d =>
      have h2 := (h0 (buildStructure k v).1).trans (build_local h1 k d)
      simp only [hb]
      cases k with
      | items => exact ⟨h2.nd, h2.ns, h2.dims, h2.structs, h2.refs, fun _ => h1.ns _ (Nat.le_refl _), h2.cont⟩
      | containers => exact ⟨h2.nd, h2.ns, h2.dims, h2.structs, h2.refs, h2.its, fun _ => h1.ns _ (Nat.le_refl _)⟩

theorem sortItems_local {w : World} (hR : Region D S w) (A : Arith) (s : Option (PyVal × Bool)) :
    Local D S w (w.sortItems A s).1 := by
  unfold World.sortItems
  split
  · exact .refl _
  · split
    · exact .refl _
    · exact assign_local hR .items _

theorem orientLoop_local (turn : Nat → Nat → Bool) : ∀ (ids : List String) {w : World}, Region D S w → w.its < w.ns →
    S w.its → Local D S w (w.orientLoop turn ids).1
  | [], w, _, _, _ => .refl _
  | id :: ids, w, hR, hi, hS => by
    unfold World.orientLoop
    split
    · exact .refl _
    · rename_i r hf
      have hD : D r := hR.refs _ hi hS _ (PyDict.find?_mem hf)
      simp only
      split
      · have h1 := setDim_local (S := S) (w := w) hD (.str "w") (.int (w.dims r).val.l)
        have k1 := setDim_ptr (w := w) r (.str "w") (.int (w.dims r).val.l)
        cases hp : w.setDim r (.str "w") (.int (w.dims r).val.l) with
        | mk w1 x =>
          rw [hp] at h1 k1
          cases x with
          | error e => exact h1
          | ok u =>
            simp only
            have h2 := setDim_local (S := S) (w := w1) hD (.str "l") (.int (w.dims r).val.w)
            have k2 := setDim_ptr (w := w1) r (.str "l") (.int (w.dims r).val.w)
            cases hp2 : w1.setDim r (.str "l") (.int (w.dims r).val.w) with
            | mk w2 x2 =>
              rw [hp2] at h2 k2
              have h12 := h1.trans h2
              cases x2 with
              | error e => exact h12
              | ok u =>
                refine h12.trans (orientLoop_local turn ids (h12.region hR) ?_ (h12.its hS))
                simp only at k1 k2
                rw [k2.1, k1.1]
                exact Nat.lt_of_lt_of_le hi h12.ns
      · exact orientLoop_local turn ids hR hi hS
where
  setDim_ptr {w : World} (r : Nat) (key v : PyVal) :
      (w.setDim r key v).1.its = w.its ∧ (w.setDim r key v).1.cont = w.cont := by
    unfold World.setDim
    split
    · exact ⟨rfl, rfl⟩
    · split
      · exact ⟨rfl, rfl⟩
      · split
        · split <;> exact ⟨rfl, rfl⟩
        · split
          · split <;> exact ⟨rfl, rfl⟩
          · exact ⟨rfl, rfl⟩

theorem orientItems_local {w : World} (hR : Region D S w) (hi : w.its < w.ns) (hS : S w.its) (o : PyVal) :
    Local D S w (w.orientItems o).1 := by
  unfold World.orientItems
  split
  · exact .refl _
  · split
    · exact .refl _
    · split
      · exact orientLoop_local _ _ hR hi hS
      · split
        · exact orientLoop_local _ _ hR hi hS
        · exact .refl _

theorem onEntry_local {w : World} (hR : Region D S w) (k : SKind) (id : PyVal) (hi : w.ptr k < w.ns) (hS : S (w.ptr k))
    (f : Nat → World → World × Except PyErr Unit) (hf : ∀ r, D r → Local D S w (f r w).1) :
    Local D S w (w.onEntry k id f).1 := by
  unfold World.onEntry
  split
  · exact .refl _
  · rename_i s r h
    exact hf r (hR.refs _ hi hS _ (PyDict.find?_mem (lookupKey_find h)))

/-- a call through the problem -/
theorem call_local {A : Arith} {w : World} (hR : Region D S w) (hw : w.WF) (hi : S w.its) (hc : S w.cont) (o : Op) :
    Local D S w (w.call A o).1 := by
  have hp : ∀ k, w.ptr k < w.ns ∧ S (w.ptr k) := by
    intro k
    refine ⟨(hw.ptr k).1, ?_⟩
    cases k
    · exact hc
    · exact hi
  cases o with
  | assign k v => exact assign_local hR k v
  | setKey k id v => exact setKey_local hR (hp k).1 (hp k).2 id v
  | delKey k key => exact delKey_local hR (hp k).1 (hp k).2 key
  | setDim k id key v => exact onEntry_local hR k id (hp k).1 (hp k).2 _ fun r hr => setDim_local hr key v
  | delDim k id => exact onEntry_local hR k id (hp k).1 (hp k).2 _ fun r hr => .refl _
  | popKey k key d => exact popKey_local hR (hp k).1 (hp k).2 key d
  | popItem k => exact popItem_local hR (hp k).1 (hp k).2
  | clear k => exact clearLoop_local (hp k).2 _ hR (hp k).1
  | update k es => exact update_local (hp k).2 es hR (hp k).1
  | updateDim k id es => exact onEntry_local hR k id (hp k).1 (hp k).2 _ fun r hr => updateDim_local hr es
  | setDefault k key v => exact setDefault_local hR (hp k).1 (hp k).2 key v
  | sortItems s => exact sortItems_local hR A s
  | orientItems o => exact orientItems_local hR hw.its hi o
  | hypersearch h =>
    show Local D S w (w.hypersearch A h).1
    unfold World.hypersearch
    have h1 := sortItems_local hR A h.sortingBy
    have wf1 := sortItems_wf hw A h.sortingBy
    cases hp : w.sortItems A h.sortingBy with
    | mk w1 x =>
      rw [hp] at h1 wf1
      simp only at wf1
      cases x with
      | error e => exact h1
      | ok u =>
        simp only
        have h2 := orientItems_local (h1.region hR) wf1.its (h1.its hi) h.orientation
        cases hp2 : w1.orientItems h.orientation with
        | mk w2 x2 =>
          rw [hp2] at h2
          cases x2 with
          | error e => exact h1.trans h2
          | ok u => exact (h1.trans h2).trans (SameHeap.local ⟨rfl, rfl, rfl, rfl, rfl, rfl⟩)
  | delAttr e => exact SameHeap.local ⟨rfl, rfl, rfl, rfl, rfl, rfl⟩
  | height v => exact SameHeap.local ⟨rfl, rfl, rfl, rfl, rfl, rfl⟩
  | minHeight v => exact SameHeap.local ⟨rfl, rfl, rfl, rfl, rfl, rfl⟩
  | resetHeight => exact SameHeap.local ⟨rfl, rfl, rfl, rfl, rfl, rfl⟩
  | strategy v => exact SameHeap.local ⟨rfl, rfl, rfl, rfl, rfl, rfl⟩
  | settings E v => exact SameHeap.local ⟨rfl, rfl, rfl, rfl, rfl, rfl⟩
  | editSettings v => exact SameHeap.local ⟨rfl, rfl, rfl, rfl, rfl, rfl⟩
  | validate E => exact SameHeap.local ⟨rfl, rfl, rfl, rfl, rfl, rfl⟩
  | solve seq => exact SameHeap.local ⟨rfl, rfl, rfl, rfl, rfl, rfl⟩
  | localSearch c t => exact SameHeap.local ⟨rfl, rfl, rfl, rfl, rfl, rfl⟩
  | log => exact SameHeap.local ⟨rfl, rfl, rfl, rfl, rfl, rfl⟩
  | figure w s => exact SameHeap.local ⟨rfl, rfl, rfl, rfl, rfl, rfl⟩

end World
end HP
