import Verif.Model.Objects
import Verif.Proofs.Machine
/-
Objects with identities: the heap stays well-formed, and calls through the problem do to the
current contents what the model without identities says.
-/
namespace HP
open Spec

/-! ### dictionaries with changed values -/

def mapV {α β : Type} (f : α → β) (d : PyDict String α) : PyDict String β := d.map (fun p => (p.1, f p.2))

theorem keys_mapV {α β : Type} (f : α → β) (d : PyDict String α) :
    PyDict.keys (mapV f d) = PyDict.keys d := by
  unfold PyDict.keys mapV; rw [List.map_map]; rfl

theorem length_mapV {α β : Type} (f : α → β) (d : PyDict String α) : (mapV f d).length = d.length := by
  unfold mapV; rw [List.length_map]

theorem find?_mapV {α β : Type} (f : α → β) (d : PyDict String α) (s : String) :
    PyDict.find? (mapV f d) s = (PyDict.find? d s).map f := by
  induction d with
  | nil => rfl
  | cons p d ih =>
    obtain ⟨k, a⟩ := p
    show PyDict.find? ((k, f a) :: mapV f d) s = _
    unfold PyDict.find?
    split
    · rfl
    · exact ih

theorem insert_mapV {α β : Type} (f : α → β) (d : PyDict String α) (s : String) (a : α) :
    mapV f (PyDict.insert d s a) = PyDict.insert (mapV f d) s (f a) := by
  induction d with
  | nil => rfl
  | cons p d ih =>
    obtain ⟨k, b⟩ := p
    show mapV f (PyDict.insert ((k, b) :: d) s a) = PyDict.insert ((k, f b) :: mapV f d) s (f a)
    unfold PyDict.insert
    split
    · rfl
    · show (k, f b) :: mapV f (PyDict.insert d s a) = _
      rw [ih]

theorem erase_mapV {α β : Type} (f : α → β) (d : PyDict String α) (s : String) :
    mapV f (PyDict.erase d s) = PyDict.erase (mapV f d) s := by
  induction d with
  | nil => rfl
  | cons p d ih =>
    obtain ⟨k, b⟩ := p
    show mapV f (PyDict.erase ((k, b) :: d) s) = PyDict.erase ((k, f b) :: mapV f d) s
    unfold PyDict.erase
    split
    · rfl
    · show (k, f b) :: mapV f (PyDict.erase d s) = _
      rw [ih]

theorem mapV_congr {α β : Type} {f g : α → β} {d : PyDict String α} (h : ∀ p ∈ d, f p.2 = g p.2) :
    mapV f d = mapV g d := by
  unfold mapV
  apply List.map_congr_left
  intro p hp
  rw [h p hp]

/-- changing the object under one key -/
theorem mapV_update {β : Type} {f g : Nat → β} {d : PyDict String Nat} {s : String} {r : Nat}
    (hk : (PyDict.keys d).Nodup) (hr : (d.map (·.2)).Nodup) (h : PyDict.find? d s = some r)
    (hg : ∀ n, n ≠ r → g n = f n) : mapV g d = PyDict.insert (mapV f d) s (g r) := by
  induction d with
  | nil => cases h
  | cons p d ih =>
    obtain ⟨k, a⟩ := p
    unfold PyDict.find? at h
    show (k, g a) :: mapV g d = PyDict.insert ((k, f a) :: mapV f d) s (g r)
    unfold PyDict.insert
    rw [List.map_cons, List.nodup_cons] at hr
    unfold PyDict.keys at hk ih
    rw [List.map_cons, List.nodup_cons] at hk
    split at h
    · rename_i e
      injection h with h
      rw [if_pos e, h]
      congr 1
      apply mapV_congr
      intro q hq
      apply hg
      intro e2
      apply hr.1
      rw [show ((k, a) : String × Nat).2 = q.2 by rw [e2]; exact h]
      exact List.mem_map.2 ⟨q, hq, rfl⟩
    · rename_i e
      rw [if_neg e]
      have hne : a ≠ r := by
        intro e2
        apply hr.1
        exact List.mem_map.2 ⟨(s, r), PyDict.find?_mem h, e2.symm⟩
      rw [hg a hne, ih hk.2 hr.2 h]

theorem lookupKey_mapV {α β : Type} (f : α → β) (d : PyDict String α) (key : PyVal) :
    lookupKey (mapV f d) key = (lookupKey d key).map (fun p => (p.1, f p.2)) := by
  unfold lookupKey
  split
  · rw [find?_mapV]
    cases PyDict.find? d _ <;> rfl
  · rfl

theorem lookupKey_find {α : Type} {d : PyDict String α} {key : PyVal} {s : String} {x : α}
    (h : lookupKey d key = .ok (s, x)) : PyDict.find? d s = some x := by
  unfold lookupKey at h
  split at h
  · split at h
    · rename_i y hy
      injection h with h
      injection h with h1 h2
      subst h1 h2
      exact hy
    · cases h
  · cases h

theorem insert_refs {d : PyDict String Nat} (hr : (d.map (·.2)).Nodup) (s : String) {n : Nat}
    (hn : ∀ p ∈ d, p.2 ≠ n) : ((PyDict.insert d s n).map (·.2)).Nodup := by
  induction d with
  | nil => simp [PyDict.insert]
  | cons p d ih =>
    obtain ⟨k, a⟩ := p
    unfold PyDict.insert
    rw [List.map_cons, List.nodup_cons] at hr
    split
    · rw [List.map_cons, List.nodup_cons]
      refine ⟨?_, hr.2⟩
      intro h
      obtain ⟨q, hq, e⟩ := List.mem_map.1 h
      exact hn q (List.mem_cons_of_mem _ hq) e
    · rw [List.map_cons, List.nodup_cons]
      refine ⟨?_, ih hr.2 fun p hp => hn p (List.mem_cons_of_mem _ hp)⟩
      intro h
      obtain ⟨q, hq, e⟩ := List.mem_map.1 h
      rcases PyDict.mem_insert hq with h | h
      · rw [h] at e
        exact hn (k, a) List.mem_cons_self e.symm
      · exact hr.1 (List.mem_map.2 ⟨q, h, e⟩)

namespace World

theorem content_eq (w : World) (r : Nat) :
    w.content r = mapV (fun n => (w.dims n).val) (w.entries r) := rfl

/-- the objects fit together -/
structure Heap (w : World) : Prop where
  keys : ∀ r, r < w.ns → (PyDict.keys (w.entries r)).Nodup
  refs : ∀ r, r < w.ns → ((w.entries r).map (·.2)).Nodup
  ne : ∀ r, r < w.ns → w.entries r ≠ []
  bound : ∀ r, r < w.ns → ∀ p ∈ w.entries r, p.2 < w.nd ∧ (w.dims p.2).kind = (w.structs r).kind
  pos : ∀ r, r < w.nd → 0 < (w.dims r).val.w ∧ 0 < (w.dims r).val.l

/-- and the problem refers to an `Items` and to a `Containers` object -/
structure WF (w : World) : Prop extends Heap w where
  its : w.its < w.ns
  itsKind : (w.structs w.its).kind = .items
  cont : w.cont < w.ns
  contKind : (w.structs w.cont).kind = .containers

/-- the heap is the same, only attributes of the problem differ -/
def SameHeap (w w' : World) : Prop :=
  w'.dims = w.dims ∧ w'.nd = w.nd ∧ w'.structs = w.structs ∧ w'.ns = w.ns ∧ w'.its = w.its ∧ w'.cont = w.cont

theorem SameHeap.wf {w w' : World} (h : SameHeap w w') (hw : w.WF) : w'.WF := by
  obtain ⟨h1, h2, h3, h4, h5, h6⟩ := h
  refine ⟨⟨?_, ?_, ?_, ?_, ?_⟩, ?_, ?_, ?_, ?_⟩ <;> simp only [World.entries, h1, h2, h3, h4, h5, h6]
  exacts [hw.keys, hw.refs, hw.ne, hw.bound, hw.pos, hw.its, hw.itsKind, hw.cont, hw.contKind]

theorem SameHeap.view {w w' : World} (h : SameHeap w w') :
    w'.view = { w'.inst with containers := w.content w.cont, items := w.content w.its } := by
  obtain ⟨h1, h2, h3, h4, h5, h6⟩ := h
  unfold World.view
  simp only [World.content, World.entries, h1, h3, h5, h6]

theorem WF.ptr {w : World} (h : w.WF) (k : SKind) : w.ptr k < w.ns ∧ (w.structs (w.ptr k)).kind = k := by
  cases k
  · exact ⟨h.cont, h.contKind⟩
  · exact ⟨h.its, h.itsKind⟩

theorem view_data (w : World) (k : SKind) : w.view.data k = w.content (w.ptr k) := by cases k <;> rfl

theorem view_strip (w : World) : w.view.strip = w.inst.strip := rfl

/-! ### new `Dimensions` objects -/

theorem content_newDim {w : World} (h : w.Heap) (k : SKind) (d : Dim) {r : Nat} (hr : r < w.ns) :
    (w.newDim k d).content r = w.content r := by
  rw [content_eq, content_eq]
  apply mapV_congr
  intro p hp
  have := (h.bound r hr p hp).1
  show (if p.2 = w.nd then (⟨k, d⟩ : DimObj) else w.dims p.2).val = _
  rw [if_neg (Nat.ne_of_lt this)]

theorem newDim_dims {w : World} (k : SKind) (d : Dim) {r : Nat} (hr : r < w.nd) :
    (w.newDim k d).dims r = w.dims r := by
  show (if r = w.nd then (⟨k, d⟩ : DimObj) else w.dims r) = _
  rw [if_neg (Nat.ne_of_lt hr)]

theorem newDim_new (w : World) (k : SKind) (d : Dim) : (w.newDim k d).dims w.nd = ⟨k, d⟩ := by
  show (if w.nd = w.nd then (⟨k, d⟩ : DimObj) else w.dims w.nd) = _
  rw [if_pos rfl]

theorem Heap.newDim {w : World} (h : w.Heap) (k : SKind) {d : Dim} (hd : 0 < d.w ∧ 0 < d.l) :
    (w.newDim k d).Heap := by
  refine ⟨h.keys, h.refs, h.ne, ?_, ?_⟩
  · intro r hr p hp
    have hb := h.bound r hr p hp
    refine ⟨Nat.lt_succ_of_lt hb.1, ?_⟩
    rw [newDim_dims k d hb.1]
    exact hb.2
  · intro r hr
    by_cases e : r = w.nd
    · rw [e, newDim_new]; exact hd
    · have : r < w.nd := by
        have : r < w.nd + 1 := hr
        omega
      rw [newDim_dims k d this]
      exact h.pos r this

theorem WF.newDim {w : World} (h : w.WF) (k : SKind) {d : Dim} (hd : 0 < d.w ∧ 0 < d.l) :
    (w.newDim k d).WF :=
  ⟨h.toHeap.newDim k hd, h.its, h.itsKind, h.cont, h.contKind⟩

theorem view_newDim {w : World} (h : w.WF) (k : SKind) (d : Dim) : (w.newDim k d).view = w.view := by
  have h1 := content_newDim h.toHeap k d h.cont
  have h2 := content_newDim h.toHeap k d h.its
  unfold World.view
  show ({ w.inst with containers := (w.newDim k d).content w.cont,
                      items := (w.newDim k d).content w.its } : Inst) = _
  rw [h1, h2]

/-! ### changed entries -/

theorem entries_setEntries (w : World) (r : Nat) (e : PyDict String Nat) (s : Nat) :
    (w.setEntries r e).entries s = if s = r then e else w.entries s := by
  show (if s = r then (⟨(w.structs r).kind, e⟩ : StructObj) else w.structs s).entries = _
  split <;> rfl

theorem kind_setEntries (w : World) (r : Nat) (e : PyDict String Nat) (s : Nat) :
    ((w.setEntries r e).structs s).kind = (w.structs s).kind := by
  show (if s = r then (⟨(w.structs r).kind, e⟩ : StructObj) else w.structs s).kind = _
  split
  · rename_i h; rw [h]
  · rfl

theorem content_setEntries (w : World) (r : Nat) (e : PyDict String Nat) (s : Nat) :
    (w.setEntries r e).content s = if s = r then mapV (fun n => (w.dims n).val) e else w.content s := by
  rw [content_eq, entries_setEntries]
  split <;> rfl

theorem WF.setEntries {w : World} (h : w.WF) (r : Nat) {e : PyDict String Nat}
    (hk : (PyDict.keys e).Nodup) (hr : (e.map (·.2)).Nodup) (hne : e ≠ [])
    (hb : ∀ p ∈ e, p.2 < w.nd ∧ (w.dims p.2).kind = (w.structs r).kind) : (w.setEntries r e).WF := by
  refine ⟨⟨?_, ?_, ?_, ?_, h.pos⟩, h.its, ?_, h.cont, ?_⟩
  · intro s hs; rw [entries_setEntries]; split
    · exact hk
    · exact h.keys s hs
  · intro s hs; rw [entries_setEntries]; split
    · exact hr
    · exact h.refs s hs
  · intro s hs; rw [entries_setEntries]; split
    · exact hne
    · exact h.ne s hs
  · intro s hs; rw [entries_setEntries, kind_setEntries]; split
    · rename_i e; subst e; exact hb
    · exact h.bound s hs
  · rw [kind_setEntries]; exact h.itsKind
  · rw [kind_setEntries]; exact h.contKind

/-! ### resets -/

theorem resetAttrs_same (r : Nat) (w : World) : SameHeap w (w.resetAttrs r) := by
  unfold World.resetAttrs
  split <;> exact ⟨rfl, rfl, rfl, rfl, rfl, rfl⟩

theorem resetSol_same (w : World) : SameHeap w w.resetSol := ⟨rfl, rfl, rfl, rfl, rfl, rfl⟩

theorem view_resetSol (w : World) : w.resetSol.view = w.view.resetSol := rfl

/-- the attributes after the reset by structure object `r` -/
def resetBy (k : SKind) (n : Nat) (i : Inst) : Inst :=
  match k with
  | .items => i.resetSol
  | .containers => { i.resetSol with containersNum := n }

theorem view_resetAttrs (r : Nat) (w : World) :
    (w.resetAttrs r).view = resetBy (w.structs r).kind (w.entries r).length w.view := by
  unfold World.resetAttrs resetBy
  split <;> rename_i h <;> rw [h] <;> rfl

/-! ### edits of one structure object -/

/-- `w'` is `w` after an edit of structure object `r` -/
structure Edit (r : Nat) (w w' : World) : Prop where
  its : w'.its = w.its
  cont : w'.cont = w.cont
  ns : w'.ns = w.ns
  kinds : ∀ s, (w'.structs s).kind = (w.structs s).kind
  others : ∀ s, s ≠ r → w'.entries s = w.entries s
  nd : w.nd ≤ w'.nd
  dims : ∀ n, n < w.nd → w'.dims n = w.dims n
  wf : w.WF → w'.WF
  attrs : w'.inst = resetBy (w.structs r).kind (w'.entries r).length w.inst

theorem resetBy_resetBy (k : SKind) (n m : Nat) (i : Inst) : resetBy k n (resetBy k m i) = resetBy k n i := by
  cases k <;> rfl

theorem Edit.trans {r : Nat} {w w' w'' : World} (h1 : Edit r w w') (h2 : Edit r w' w'') : Edit r w w'' := by
  refine ⟨h2.its.trans h1.its, h2.cont.trans h1.cont, h2.ns.trans h1.ns,
    fun s => (h2.kinds s).trans (h1.kinds s), fun s hs => (h2.others s hs).trans (h1.others s hs),
    Nat.le_trans h1.nd h2.nd, ?_, fun h => h2.wf (h1.wf h), ?_⟩
  · intro n hn
    rw [h2.dims n (Nat.lt_of_lt_of_le hn h1.nd), h1.dims n hn]
  · rw [h2.attrs, h1.kinds, h1.attrs, resetBy_resetBy]

theorem Edit.content {r : Nat} {w w' : World} (h : Edit r w w') (hw : w.WF) {s : Nat} (hs : s < w.ns)
    (hr : s ≠ r) : w'.content s = w.content s := by
  rw [content_eq, content_eq, h.others s hr]
  apply mapV_congr
  intro p hp
  rw [h.dims _ (hw.bound s hs p hp).1]

/-- an object that is not current: only attributes change -/
theorem Edit.stale {r : Nat} {w w' : World} (h : Edit r w w') (hw : w.WF) (h1 : r ≠ w.its) (h2 : r ≠ w.cont) :
    w'.view = resetBy (w.structs r).kind (w'.entries r).length w.view := by
  have e1 := h.content hw hw.its h1.symm
  have e2 := h.content hw hw.cont h2.symm
  have e3 := h.attrs
  unfold World.view
  rw [h.its, h.cont, e1, e2, e3]
  cases (w.structs r).kind <;> rfl

/-- nothing, or an edit of structure object `r` -/
def MaybeEdit (r : Nat) (w w' : World) : Prop := w' = w ∨ Edit r w w'

theorem MaybeEdit.trans {r : Nat} {w w' w'' : World} (h1 : MaybeEdit r w w') (h2 : MaybeEdit r w' w'') :
    MaybeEdit r w w'' := by
  rcases h1 with rfl | h1
  · exact h2
  · rcases h2 with rfl | h2
    · exact .inr h1
    · exact .inr (h1.trans h2)

theorem MaybeEdit.wf {r : Nat} {w w' : World} (h : MaybeEdit r w w') (hw : w.WF) : w'.WF := by
  rcases h with rfl | h
  · exact hw
  · exact h.wf hw

theorem MaybeEdit.ns {r : Nat} {w w' : World} (h : MaybeEdit r w w') : w'.ns = w.ns := by
  rcases h with rfl | h
  · rfl
  · exact h.ns

theorem edit_resetAttrs {r : Nat} {w w1 : World} (his : w1.its = w.its) (hc : w1.cont = w.cont)
    (hns : w1.ns = w.ns) (hk : ∀ s, (w1.structs s).kind = (w.structs s).kind)
    (ho : ∀ s, s ≠ r → w1.entries s = w.entries s) (hnd : w.nd ≤ w1.nd)
    (hd : ∀ n, n < w.nd → w1.dims n = w.dims n) (hwf : w.WF → w1.WF) (hi : w1.inst = w.inst) :
    Edit r w (w1.resetAttrs r) := by
  have hs := resetAttrs_same r w1
  obtain ⟨h1, h2, h3, h4, h5, h6⟩ := hs
  refine ⟨h5.trans his, h6.trans hc, h4.trans hns, ?_, ?_, ?_, ?_, fun h => (resetAttrs_same r w1).wf (hwf h), ?_⟩
  · intro s; rw [h3]; exact hk s
  · intro s hs
    show ((w1.resetAttrs r).structs s).entries = _
    rw [h3]; exact ho s hs
  · rw [h2]; exact hnd
  · intro n hn; rw [h1]; exact hd n hn
  · have he : (w1.resetAttrs r).entries r = w1.entries r := by
      show ((w1.resetAttrs r).structs r).entries = _
      rw [h3]; rfl
    rw [he, ← hk r, ← hi]
    unfold World.resetAttrs resetBy
    split <;> rename_i h <;> rw [h] <;> rfl

theorem setKey_edit {w : World} (hw : w.WF) {r : Nat} (hr : r < w.ns) (id v : PyVal) :
    (∃ e, w.setKey r id v = (w, .error e)) ∨ (∃ w', w.setKey r id v = (w', .ok ()) ∧ Edit r w w') := by
  unfold World.setKey
  split
  · exact .inl ⟨_, rfl⟩
  · split
    · exact .inl ⟨_, rfl⟩
    · rename_i s hs
      split
      · exact .inl ⟨_, rfl⟩
      · rename_i d hd
        refine .inr ⟨_, rfl, ?_⟩
        refine edit_resetAttrs ?_ ?_ ?_ ?_ ?_ ?_ ?_ ?_ ?_
        · rfl
        · rfl
        · rfl
        · intro s; exact kind_setEntries (w.newDim _ d) r _ s
        · intro s hs
          rw [entries_setEntries, if_neg hs]; rfl
        · exact Nat.le_succ _
        · intro n hn; exact newDim_dims _ d hn
        · intro _
          have hb := hw.bound r hr
          apply (hw.newDim (w.structs r).kind (mkDims_pos hd)).setEntries
          · exact PyDict.nodup_insert (hw.keys r hr) _ _
          · exact insert_refs (hw.refs r hr) _ fun p hp => Nat.ne_of_lt (hb p hp).1
          · exact insert_ne_nil _ _ _
          · intro p hp
            rcases PyDict.mem_insert hp with h | h
            · rw [h]
              exact ⟨Nat.lt_succ_self _, by rw [newDim_new]; rfl⟩
            · have := hb p h
              exact ⟨Nat.lt_succ_of_lt this.1, by rw [newDim_dims _ d this.1]; exact this.2⟩
        · rfl

theorem delKey_edit {w : World} (hw : w.WF) {r : Nat} (hr : r < w.ns) (key : PyVal) :
    (∃ e, w.delKey r key = (w, .error e)) ∨ (∃ w', w.delKey r key = (w', .ok ()) ∧ Edit r w w') := by
  unfold World.delKey
  split
  · exact .inl ⟨_, rfl⟩
  · rename_i hl
    split
    · exact .inl ⟨_, rfl⟩
    · rename_i s hs
      refine .inr ⟨_, rfl, ?_⟩
      have hf : PyDict.find? (w.entries r) s.1 = some s.2 := lookupKey_find hs
      have hsub := PyDict.erase_sublist (w.entries r) s.1
      refine edit_resetAttrs ?_ ?_ ?_ ?_ ?_ ?_ ?_ ?_ ?_
      · rfl
      · rfl
      · rfl
      · intro s; exact kind_setEntries w r _ s
      · intro s hs
        rw [entries_setEntries, if_neg hs]
      · exact Nat.le_refl _
      · intro n hn; rfl
      · intro _
        apply hw.setEntries
        · exact (hw.keys r hr).sublist (hsub.map _)
        · exact (hw.refs r hr).sublist (hsub.map _)
        · intro h
          have := (PyDict.perm_erase hf).length_eq
          rw [h] at this
          exact hl this
        · intro p hp
          exact hw.bound r hr p (hsub.subset hp)
      · rfl

theorem setKey_maybe {w : World} (hw : w.WF) {r : Nat} (hr : r < w.ns) (id v : PyVal) :
    MaybeEdit r w (w.setKey r id v).1 := by
  rcases setKey_edit hw hr id v with ⟨e, h⟩ | ⟨w', h, h'⟩
  · rw [h]; exact .inl rfl
  · rw [h]; exact .inr h'

theorem delKey_maybe {w : World} (hw : w.WF) {r : Nat} (hr : r < w.ns) (key : PyVal) :
    MaybeEdit r w (w.delKey r key).1 := by
  rcases delKey_edit hw hr key with ⟨e, h⟩ | ⟨w', h, h'⟩
  · rw [h]; exact .inl rfl
  · rw [h]; exact .inr h'

theorem popKey_maybe {w : World} (hw : w.WF) {r : Nat} (hr : r < w.ns) (key : PyVal) (d : Bool) :
    MaybeEdit r w (w.popKey r key d).1 := by
  unfold World.popKey
  split
  · exact .inl rfl
  · exact .inl rfl
  · exact delKey_maybe hw hr key

theorem popItem_maybe {w : World} (hw : w.WF) {r : Nat} (hr : r < w.ns) :
    MaybeEdit r w (w.popItem r).1 := by
  unfold World.popItem
  split
  · exact .inl rfl
  · exact delKey_maybe hw hr _

theorem clearLoop_maybe (r : Nat) : ∀ (n : Nat) {w : World}, w.WF → r < w.ns →
    MaybeEdit r w (w.clearLoop r n).1 := by
  intro n
  induction n with
  | zero => intro w _ _; exact .inl rfl
  | succ n ih =>
    intro w hw hr
    have h1 := popItem_maybe hw hr
    unfold World.clearLoop
    split <;> rename_i heq <;> rw [heq] at h1
    · exact h1.trans (ih (h1.wf hw) (by rw [h1.ns]; exact hr))
    · exact h1
    · exact h1

theorem update_maybe (r : Nat) : ∀ (es : List (PyVal × PyVal)) {w : World}, w.WF → r < w.ns →
    MaybeEdit r w (w.update r es).1 := by
  intro es
  induction es with
  | nil => intro w _ _; exact .inl rfl
  | cons p es ih =>
    obtain ⟨id, v⟩ := p
    intro w hw hr
    have h1 := setKey_maybe hw hr id v
    unfold World.update
    split <;> rename_i heq <;> rw [heq] at h1
    · exact h1.trans (ih (h1.wf hw) (by rw [h1.ns]; exact hr))
    · exact h1

theorem setDefault_maybe {w : World} (hw : w.WF) {r : Nat} (hr : r < w.ns) (key v : PyVal) :
    MaybeEdit r w (w.setDefault r key v).1 := by
  unfold World.setDefault
  split
  · exact .inl rfl
  · exact setKey_maybe hw hr key v
  · exact .inl rfl

theorem onStruct_maybe {w : World} (hw : w.WF) {r : Nat} (hr : r < w.ns) (m : SMeth) :
    MaybeEdit r w (w.onStruct r m).1 := by
  cases m with
  | setItem id v => exact setKey_maybe hw hr id v
  | delItem key => exact delKey_maybe hw hr key
  | pop key d => exact popKey_maybe hw hr key d
  | popitem => exact popItem_maybe hw hr
  | clear => exact clearLoop_maybe r _ hw hr
  | update es => exact update_maybe r es hw hr
  | setdefault key v => exact setDefault_maybe hw hr key v
  | copy => exact .inl rfl

/-! ### the current structure objects: the model without identities -/

/-- the same outcome, and the same problem seen by its methods -/
def Sims (r : World × Except PyErr Unit) (s : Inst × Except PyErr Unit) : Prop := r.2 = s.2 ∧ r.1.view = s.1

theorem content_self_resetAttrs {w : World} {r s : Nat} : (w.resetAttrs r).content s = w.content s := by
  obtain ⟨h1, h2, h3, h4, h5, h6⟩ := resetAttrs_same r w
  unfold World.content World.entries
  rw [h1, h3]

/-- an edit of the current structure object of kind `k` whose new content is `d` -/
theorem Edit.current {k : SKind} {w w' : World} (h : Edit (w.ptr k) w w') (hw : w.WF) {d : PyDict String Dim}
    (hc : w'.content (w.ptr k) = d) : w'.view = (w.view.setData k d).resetAttrs k := by
  have hl : (w'.entries (w.ptr k)).length = d.length := by
    rw [← hc, content_eq, length_mapV]
  have hi := h.attrs
  rw [(hw.ptr k).2, hl] at hi
  cases k with
  | items =>
    have hne : w.cont ≠ w.its := by
      intro e; have := hw.contKind; rw [e, hw.itsKind] at this; cases this
    have e2 := h.content hw hw.cont hne
    unfold World.view
    rw [h.its, h.cont, e2, hi, show w.its = w.ptr .items from rfl, hc]
    rfl
  | containers =>
    have hne : w.its ≠ w.cont := by
      intro e; have := hw.contKind; rw [← e, hw.itsKind] at this; cases this
    have e2 := h.content hw hw.its hne
    unfold World.view
    rw [h.its, h.cont, e2, hi, show w.cont = w.ptr .containers from rfl, hc]
    rfl

theorem setKey_sim {w : World} (hw : w.WF) (k : SKind) (id v : PyVal) :
    Sims (w.setKey (w.ptr k) id v) (w.view.setKey k id v) := by
  have hk := (hw.ptr k).2
  have hed := setKey_edit hw (hw.ptr k).1 id v
  unfold World.setKey at hed ⊢
  unfold Inst.setKey
  rw [hk] at hed ⊢
  rw [view_strip]
  split
  · exact ⟨rfl, rfl⟩
  · rename_i hstrip
    rw [if_neg hstrip] at hed
    cases hs : id.asStr? with
    | none => exact ⟨rfl, rfl⟩
    | some s =>
      simp only [hs] at hed ⊢
      cases hd : mkDims k v with
      | error e => exact ⟨rfl, rfl⟩
      | ok d =>
        simp only [hd] at hed ⊢
        rcases hed with ⟨e, he⟩ | ⟨w', he, hed⟩
        · injection he with _ he; cases he
        · injection he with he _
          rw [← he] at hed
          refine ⟨rfl, ?_⟩
          rw [view_data]
          apply hed.current hw
          rw [content_self_resetAttrs, content_setEntries, if_pos rfl, insert_mapV, newDim_new]
          congr 1
          exact content_newDim hw.toHeap k d (hw.ptr k).1

theorem lookup_content (w : World) (r : Nat) (key : PyVal) :
    lookupKey (w.content r) key = (lookupKey (w.entries r) key).map (fun p => (p.1, (w.dims p.2).val)) :=
  lookupKey_mapV (fun n => (w.dims n).val) (w.entries r) key

theorem length_content (w : World) (r : Nat) : (w.content r).length = (w.entries r).length :=
  length_mapV (fun n => (w.dims n).val) (w.entries r)

theorem delKey_sim {w : World} (hw : w.WF) (k : SKind) (key : PyVal) :
    Sims (w.delKey (w.ptr k) key) (w.view.delKey k key) := by
  have hk := (hw.ptr k).2
  have hed := delKey_edit hw (hw.ptr k).1 key
  unfold World.delKey at hed ⊢
  unfold Inst.delKey
  rw [hk] at hed ⊢
  rw [view_data, length_content]
  split
  · exact ⟨rfl, rfl⟩
  · rename_i hl
    rw [if_neg hl] at hed
    rw [lookup_content]
    cases hs : lookupKey (w.entries (w.ptr k)) key with
    | error e => exact ⟨rfl, rfl⟩
    | ok s =>
      simp only [hs] at hed
      rcases hed with ⟨e, he⟩ | ⟨w', he, hed⟩
      · injection he with _ he; cases he
      · injection he with he _
        rw [← he] at hed
        refine ⟨rfl, ?_⟩
        apply hed.current hw
        rw [content_self_resetAttrs, content_setEntries, if_pos rfl, erase_mapV]
        rfl

theorem popKey_sim {w : World} (hw : w.WF) (k : SKind) (key : PyVal) (d : Bool) :
    Sims (w.popKey (w.ptr k) key d) (w.view.popKey k key d) := by
  unfold World.popKey Inst.popKey
  rw [view_data, lookup_content]
  cases lookupKey (w.entries (w.ptr k)) key with
  | ok s => exact delKey_sim hw k key
  | error e => cases e <;> exact ⟨rfl, rfl⟩

theorem popItem_sim {w : World} (hw : w.WF) (k : SKind) :
    Sims (w.popItem (w.ptr k)) (w.view.popItem k) := by
  unfold World.popItem Inst.popItem
  rw [view_data, content_eq]
  cases h : w.entries (w.ptr k) with
  | nil => exact ⟨rfl, rfl⟩
  | cons p d => exact delKey_sim hw k _

theorem MaybeEdit.ptr {r : Nat} {w w' : World} (h : MaybeEdit r w w') (k : SKind) : w'.ptr k = w.ptr k := by
  rcases h with rfl | h
  · rfl
  · cases k
    · exact h.cont
    · exact h.its

theorem clearLoop_sim (k : SKind) : ∀ (n : Nat) {w : World}, w.WF →
    Sims (w.clearLoop (w.ptr k) n) (Inst.clearLoop k n w.view) := by
  intro n
  induction n with
  | zero => intro w _; exact ⟨rfl, rfl⟩
  | succ n ih =>
    intro w hw
    obtain ⟨h1, h2⟩ := popItem_sim hw k
    have hm := popItem_maybe hw (hw.ptr k).1
    unfold World.clearLoop Inst.clearLoop
    cases hp : w.popItem (w.ptr k) with
    | mk w' r =>
      cases hq : w.view.popItem k with
      | mk j r' =>
        rw [hp] at h1 h2 hm
        rw [hq] at h1 h2
        simp only at h1 h2 hm
        subst h1 h2
        cases r with
        | ok u =>
          have := ih (hm.wf hw)
          rw [hm.ptr k] at this
          exact this
        | error e => cases e <;> exact ⟨rfl, rfl⟩

theorem clear_sim {w : World} (hw : w.WF) (k : SKind) : Sims (w.clear (w.ptr k)) (w.view.clear k) := by
  unfold World.clear Inst.clear
  rw [view_data, length_content]
  exact clearLoop_sim k _ hw

theorem update_sim (k : SKind) : ∀ (es : List (PyVal × PyVal)) {w : World}, w.WF →
    Sims (w.update (w.ptr k) es) (w.view.update k es) := by
  intro es
  induction es with
  | nil => intro w _; exact ⟨rfl, rfl⟩
  | cons p es ih =>
    obtain ⟨id, v⟩ := p
    intro w hw
    obtain ⟨h1, h2⟩ := setKey_sim hw k id v
    have hm := setKey_maybe hw (hw.ptr k).1 id v
    unfold World.update Inst.update
    cases hp : w.setKey (w.ptr k) id v with
    | mk w' r =>
      cases hq : w.view.setKey k id v with
      | mk j r' =>
        rw [hp] at h1 h2 hm
        rw [hq] at h1 h2
        simp only at h1 h2 hm
        subst h1 h2
        cases r with
        | ok u =>
          have := ih (hm.wf hw)
          rw [hm.ptr k] at this
          exact this
        | error e => exact ⟨rfl, rfl⟩

theorem setDefault_sim {w : World} (hw : w.WF) (k : SKind) (key v : PyVal) :
    Sims (w.setDefault (w.ptr k) key v) (w.view.setDefault k key v) := by
  unfold World.setDefault Inst.setDefault
  rw [view_data, lookup_content]
  cases lookupKey (w.entries (w.ptr k)) key with
  | ok s => exact ⟨rfl, rfl⟩
  | error e => cases e <;> first | exact ⟨rfl, rfl⟩ | exact setKey_sim hw k key v

/-! ### edits of one `Dimensions` object -/

/-- `w'` is `w` after an edit of `Dimensions` object `r` -/
structure DimEdit (r : Nat) (w w' : World) : Prop where
  its : w'.its = w.its
  cont : w'.cont = w.cont
  ns : w'.ns = w.ns
  structs : w'.structs = w.structs
  nd : w'.nd = w.nd
  dims : ∀ n, n ≠ r → w'.dims n = w.dims n
  kind : (w'.dims r).kind = (w.dims r).kind
  pos : 0 < (w'.dims r).val.w ∧ 0 < (w'.dims r).val.l
  attrs : w'.inst = w.inst.resetSol

theorem DimEdit.trans {r : Nat} {w w' w'' : World} (h1 : DimEdit r w w') (h2 : DimEdit r w' w'') :
    DimEdit r w w'' :=
  ⟨h2.its.trans h1.its, h2.cont.trans h1.cont, h2.ns.trans h1.ns, h2.structs.trans h1.structs,
    h2.nd.trans h1.nd, fun n hn => (h2.dims n hn).trans (h1.dims n hn), h2.kind.trans h1.kind, h2.pos,
    by rw [h2.attrs, h1.attrs]; rfl⟩

theorem DimEdit.entries {r : Nat} {w w' : World} (h : DimEdit r w w') (s : Nat) :
    w'.entries s = w.entries s := by unfold World.entries; rw [h.structs]

theorem DimEdit.wf {r : Nat} {w w' : World} (h : DimEdit r w w') (hw : w.WF) : w'.WF := by
  refine ⟨⟨?_, ?_, ?_, ?_, ?_⟩, by rw [h.its, h.ns]; exact hw.its, by rw [h.its, h.structs]; exact hw.itsKind,
    by rw [h.cont, h.ns]; exact hw.cont, by rw [h.cont, h.structs]; exact hw.contKind⟩
  · intro s hs; rw [h.ns] at hs; rw [h.entries]; exact hw.keys s hs
  · intro s hs; rw [h.ns] at hs; rw [h.entries]; exact hw.refs s hs
  · intro s hs; rw [h.ns] at hs; rw [h.entries]; exact hw.ne s hs
  · intro s hs p hp
    rw [h.ns] at hs; rw [h.entries] at hp; rw [h.nd, h.structs]
    have hb := hw.bound s hs p hp
    refine ⟨hb.1, ?_⟩
    by_cases e : p.2 = r
    · rw [e, h.kind, ← e]; exact hb.2
    · rw [h.dims _ e]; exact hb.2
  · intro n hn
    rw [h.nd] at hn
    by_cases e : n = r
    · rw [e]; exact h.pos
    · rw [h.dims n e]; exact hw.pos n hn

/-- the content of a structure without the object does not change -/
theorem DimEdit.content {r : Nat} {w w' : World} (h : DimEdit r w w') {s : Nat}
    (hs : ∀ p ∈ w.entries s, p.2 ≠ r) : w'.content s = w.content s := by
  rw [content_eq, content_eq, h.entries]
  apply mapV_congr
  intro p hp
  rw [h.dims _ (hs p hp)]

/-- an object that is not in the current structures: only the solution is discarded -/
theorem DimEdit.stale {r : Nat} {w w' : World} (h : DimEdit r w w')
    (h1 : ∀ p ∈ w.entries w.its, p.2 ≠ r) (h2 : ∀ p ∈ w.entries w.cont, p.2 ≠ r) :
    w'.view = w.view.resetSol := by
  unfold World.view
  rw [h.its, h.cont, h.content h1, h.content h2, h.attrs]
  rfl

/-- the object under a key of a current structure -/
theorem DimEdit.current {k : SKind} {s : String} {r : Nat} {w w' : World} (h : DimEdit r w w') (hw : w.WF)
    (hs : PyDict.find? (w.entries (w.ptr k)) s = some r) :
    w'.view = (w.view.setData k (PyDict.insert (w.view.data k) s (w'.dims r).val)).resetSol := by
  have hp := hw.ptr k
  have hc : w'.content (w.ptr k) = PyDict.insert (w.view.data k) s (w'.dims r).val := by
    rw [view_data, content_eq, content_eq, h.entries]
    exact mapV_update (f := fun n => (w.dims n).val) (g := fun n => (w'.dims n).val)
      (hw.keys _ hp.1) (hw.refs _ hp.1) hs (fun n hn => by rw [h.dims n hn])
  have hr := (hw.bound _ hp.1 _ (PyDict.find?_mem hs)).2
  rw [hp.2] at hr
  cases k with
  | items =>
    have : w'.content w.cont = w.content w.cont := by
      apply h.content
      intro p hp e
      have := (hw.bound _ hw.cont p hp).2
      rw [e, hw.contKind] at this
      rw [this] at hr; cases hr
    unfold World.view at hc ⊢
    rw [h.its, h.cont, this, h.attrs, show w.its = w.ptr .items from rfl, hc]
    rfl
  | containers =>
    have : w'.content w.its = w.content w.its := by
      apply h.content
      intro p hp e
      have := (hw.bound _ hw.its p hp).2
      rw [e, hw.itsKind] at this
      rw [this] at hr; cases hr
    unfold World.view at hc ⊢
    rw [h.its, h.cont, this, h.attrs, show w.cont = w.ptr .containers from rfl, hc]
    rfl

theorem setVal_edit {w : World} (r : Nat) {d : Dim} (hd : 0 < d.w ∧ 0 < d.l) :
    DimEdit r w ((w.setVal r d).resetSol) := by
  refine ⟨rfl, rfl, rfl, rfl, rfl, ?_, ?_, ?_, rfl⟩
  · intro n hn
    show (if n = r then (⟨(w.dims r).kind, d⟩ : DimObj) else w.dims n) = _
    rw [if_neg hn]
  · show (if r = r then (⟨(w.dims r).kind, d⟩ : DimObj) else w.dims r).kind = _
    rw [if_pos rfl]
  · show 0 < (if r = r then (⟨(w.dims r).kind, d⟩ : DimObj) else w.dims r).val.w ∧ _
    rw [if_pos rfl]
    refine ⟨hd.1, ?_⟩
    show 0 < (if r = r then (⟨(w.dims r).kind, d⟩ : DimObj) else w.dims r).val.l
    rw [if_pos rfl]; exact hd.2

theorem setVal_val (w : World) (r : Nat) (d : Dim) : ((w.setVal r d).resetSol.dims r).val = d := by
  show (if r = r then (⟨(w.dims r).kind, d⟩ : DimObj) else w.dims r).val = _
  rw [if_pos rfl]

theorem setDim_edit {w : World} (hw : w.WF) {r : Nat} (hr : r < w.nd) (key v : PyVal) :
    (∃ e, w.setDim r key v = (w, .error e)) ∨ (∃ w', w.setDim r key v = (w', .ok ()) ∧ DimEdit r w w') := by
  have hp := hw.pos r hr
  unfold World.setDim
  split
  · exact .inl ⟨_, rfl⟩
  · split
    · exact .inl ⟨_, rfl⟩
    · split
      · split
        · rename_i x hx
          exact .inr ⟨_, rfl, setVal_edit r ⟨posInt?_pos hx, hp.2⟩⟩
        · exact .inl ⟨_, rfl⟩
      · split
        · split
          · rename_i x hx
            exact .inr ⟨_, rfl, setVal_edit r ⟨hp.1, posInt?_pos hx⟩⟩
          · exact .inl ⟨_, rfl⟩
        · exact .inl ⟨_, rfl⟩

theorem find_content {w : World} {r : Nat} {s : String} {n : Nat} (h : PyDict.find? (w.entries r) s = some n) :
    PyDict.find? (w.content r) s = some (w.dims n).val := by
  rw [content_eq, find?_mapV, h]; rfl

theorem setDim_sim {w : World} (hw : w.WF) (k : SKind) {id : PyVal} {s : String} {r : Nat}
    (hs : lookupKey (w.entries (w.ptr k)) id = .ok (s, r)) (key v : PyVal) :
    Sims (w.setDim r key v) (w.view.setDim k id key v) := by
  have hf := lookupKey_find hs
  have hb := hw.bound _ (hw.ptr k).1 _ (PyDict.find?_mem hf)
  have hr : r < w.nd := hb.1
  have hk : (w.dims r).kind = k := hb.2.trans (hw.ptr k).2
  have hp := hw.pos r hr
  unfold World.setDim Inst.setDim
  have hl : lookupKey (w.view.data k) id = .ok (s, (w.dims r).val) := by
    rw [view_data, lookup_content, hs]; rfl
  rw [hl, hk, view_strip]
  simp only
  split
  · exact ⟨rfl, rfl⟩
  · split
    · exact ⟨rfl, rfl⟩
    · split
      · cases hx : v.posInt? with
        | none => exact ⟨rfl, rfl⟩
        | some x =>
          refine ⟨rfl, ?_⟩
          have := (setVal_edit (w := w) r (d := { (w.dims r).val with w := x }) ⟨posInt?_pos hx, hp.2⟩).current hw hf
          rw [setVal_val] at this
          exact this
      · split
        · cases hx : v.posInt? with
          | none => exact ⟨rfl, rfl⟩
          | some x =>
            refine ⟨rfl, ?_⟩
            have := (setVal_edit (w := w) r (d := { (w.dims r).val with l := x }) ⟨hp.1, posInt?_pos hx⟩).current hw hf
            rw [setVal_val] at this
            exact this
        · exact ⟨rfl, rfl⟩

/-- nothing, or an edit of `Dimensions` object `r` -/
def MaybeDimEdit (r : Nat) (w w' : World) : Prop := w' = w ∨ DimEdit r w w'

theorem MaybeDimEdit.trans {r : Nat} {w w' w'' : World} (h1 : MaybeDimEdit r w w') (h2 : MaybeDimEdit r w' w'') :
    MaybeDimEdit r w w'' := by
  rcases h1 with rfl | h1
  · exact h2
  · rcases h2 with rfl | h2
    · exact .inr h1
    · exact .inr (h1.trans h2)

theorem MaybeDimEdit.wf {r : Nat} {w w' : World} (h : MaybeDimEdit r w w') (hw : w.WF) : w'.WF := by
  rcases h with rfl | h
  · exact hw
  · exact h.wf hw

theorem MaybeDimEdit.nd {r : Nat} {w w' : World} (h : MaybeDimEdit r w w') : w'.nd = w.nd := by
  rcases h with rfl | h
  · rfl
  · exact h.nd

theorem MaybeDimEdit.ns {r : Nat} {w w' : World} (h : MaybeDimEdit r w w') : w'.ns = w.ns := by
  rcases h with rfl | h
  · rfl
  · exact h.ns

theorem MaybeDimEdit.structs {r : Nat} {w w' : World} (h : MaybeDimEdit r w w') : w'.structs = w.structs := by
  rcases h with rfl | h
  · rfl
  · exact h.structs

theorem MaybeDimEdit.ptr {r : Nat} {w w' : World} (h : MaybeDimEdit r w w') (k : SKind) : w'.ptr k = w.ptr k := by
  rcases h with rfl | h
  · rfl
  · cases k
    · exact h.cont
    · exact h.its

theorem setDim_maybe {w : World} (hw : w.WF) {r : Nat} (hr : r < w.nd) (key v : PyVal) :
    MaybeDimEdit r w (w.setDim r key v).1 := by
  rcases setDim_edit hw hr key v with ⟨e, h⟩ | ⟨w', h, h'⟩
  · rw [h]; exact .inl rfl
  · rw [h]; exact .inr h'

theorem updateDim_maybe (r : Nat) : ∀ (es : List (PyVal × PyVal)) {w : World}, w.WF → r < w.nd →
    MaybeDimEdit r w (w.updateDim r es).1 := by
  intro es
  induction es with
  | nil => intro w _ _; exact .inl rfl
  | cons p es ih =>
    obtain ⟨id, v⟩ := p
    intro w hw hr
    have h1 := setDim_maybe hw hr id v
    unfold World.updateDim
    split <;> rename_i heq <;> rw [heq] at h1
    · exact h1.trans (ih (h1.wf hw) (by rw [h1.nd]; exact hr))
    · exact h1

theorem updateDim_sim (k : SKind) (id : PyVal) (r : Nat) (s : String) :
    ∀ (es : List (PyVal × PyVal)) {w : World}, w.WF → lookupKey (w.entries (w.ptr k)) id = .ok (s, r) →
    Sims (w.updateDim r es) (w.view.updateDim k id es) := by
  intro es
  induction es with
  | nil =>
    intro w _ hs
    unfold World.updateDim Inst.updateDim
    have hl : lookupKey (w.view.data k) id = .ok (s, (w.dims r).val) := by
      rw [view_data, lookup_content, hs]; rfl
    rw [hl]
    exact ⟨rfl, rfl⟩
  | cons p es ih =>
    obtain ⟨key, v⟩ := p
    intro w hw hs
    obtain ⟨h1, h2⟩ := setDim_sim hw k hs key v
    have hb := hw.bound _ (hw.ptr k).1 _ (PyDict.find?_mem (lookupKey_find hs))
    have hm := setDim_maybe hw hb.1 key v
    unfold World.updateDim Inst.updateDim
    simp only at hm
    cases hp : w.setDim r key v with
    | mk w' x =>
      cases hq : w.view.setDim k id key v with
      | mk j y =>
        rw [hp] at h1 h2 hm
        rw [hq] at h1 h2
        simp only at h1 h2 hm
        subst h1 h2
        cases x with
        | ok u =>
          apply ih (hm.wf hw)
          rw [hm.ptr k]
          unfold World.entries at hs ⊢
          rw [hm.structs]; exact hs
        | error e => exact ⟨rfl, rfl⟩

/-! ### new structure objects -/

theorem newDims_spec (k : SKind) : ∀ (d : PyDict String Dim) {w : World}, w.Heap →
    (∀ p ∈ d, 0 < p.2.w ∧ 0 < p.2.l) →
    (newDims k d w).1.Heap ∧ (newDims k d w).1.structs = w.structs ∧ (newDims k d w).1.ns = w.ns ∧
    (newDims k d w).1.its = w.its ∧ (newDims k d w).1.cont = w.cont ∧ (newDims k d w).1.inst = w.inst ∧
    w.nd ≤ (newDims k d w).1.nd ∧ (∀ n, n < w.nd → (newDims k d w).1.dims n = w.dims n) ∧
    mapV (fun n => ((newDims k d w).1.dims n).val) (newDims k d w).2 = d ∧
    (∀ p ∈ (newDims k d w).2, w.nd ≤ p.2 ∧ p.2 < (newDims k d w).1.nd ∧ ((newDims k d w).1.dims p.2).kind = k) ∧
    ((newDims k d w).2.map (·.2)).Nodup := by
  intro d
  induction d with
  | nil =>
    intro w hw _
    exact ⟨hw, rfl, rfl, rfl, rfl, rfl, Nat.le_refl _, fun _ _ => rfl, rfl,
      (fun p hp => nomatch hp), List.nodup_nil⟩
  | cons p d ih =>
    obtain ⟨s, x⟩ := p
    intro w hw hpos
    have hw1 := hw.newDim k (hpos (s, x) List.mem_cons_self)
    obtain ⟨h1, h2, h3, h4, h5, h6, h7, h8, h9, h10, h11⟩ :=
      ih hw1 (fun p hp => hpos p (List.mem_cons_of_mem _ hp))
    have hnd : (w.newDim k x).nd = w.nd + 1 := rfl
    rw [hnd] at h7 h10
    have hnew : (newDims k d (w.newDim k x)).1.dims w.nd = ⟨k, x⟩ := by
      rw [h8 w.nd (by rw [hnd]; omega), newDim_new]
    unfold World.newDims
    refine ⟨h1, h2, h3, h4, h5, h6, ?_, ?_, ?_, ?_, ?_⟩
    · exact Nat.le_trans (Nat.le_succ _) h7
    · intro n hn
      rw [h8 n (by rw [hnd]; omega), newDim_dims k x hn]
    · show mapV (fun n => ((newDims k d (w.newDim k x)).1.dims n).val)
        ((s, w.nd) :: (newDims k d (w.newDim k x)).2) = _
      unfold mapV at h9 ⊢
      rw [List.map_cons, h9]
      simp only [hnew]
    · intro p hp
      rcases List.mem_cons.1 hp with rfl | hp
      · exact ⟨Nat.le_refl _, h7, by rw [hnew]⟩
      · have := h10 p hp
        exact ⟨by omega, this.2.1, this.2.2⟩
    · rw [List.map_cons, List.nodup_cons]
      refine ⟨?_, h11⟩
      intro h
      obtain ⟨q, hq, e⟩ := List.mem_map.1 h
      have := (h10 q hq).1
      simp only at e
      omega

theorem newStruct_old (w : World) (k : SKind) (e : PyDict String Nat) {r : Nat} (hr : r < w.ns) :
    (w.newStruct k e).structs r = w.structs r := by
  show (if r = w.ns then (⟨k, e⟩ : StructObj) else w.structs r) = _
  rw [if_neg (Nat.ne_of_lt hr)]

theorem newStruct_new (w : World) (k : SKind) (e : PyDict String Nat) :
    (w.newStruct k e).structs w.ns = ⟨k, e⟩ := by
  show (if w.ns = w.ns then (⟨k, e⟩ : StructObj) else w.structs w.ns) = _
  rw [if_pos rfl]

theorem Heap.newStruct {w : World} (hw : w.Heap) (k : SKind) {e : PyDict String Nat}
    (hk : (PyDict.keys e).Nodup) (hr : (e.map (·.2)).Nodup) (hne : e ≠ [])
    (hb : ∀ p ∈ e, p.2 < w.nd ∧ (w.dims p.2).kind = k) : (w.newStruct k e).Heap := by
  have cs : ∀ r, r < w.ns + 1 → r = w.ns ∨ r < w.ns := by intro r hr; omega
  refine ⟨?_, ?_, ?_, ?_, hw.pos⟩
  · intro r h
    unfold World.entries
    rcases cs r h with rfl | h
    · rw [newStruct_new]; exact hk
    · rw [newStruct_old _ _ _ h]; exact hw.keys r h
  · intro r h
    unfold World.entries
    rcases cs r h with rfl | h
    · rw [newStruct_new]; exact hr
    · rw [newStruct_old _ _ _ h]; exact hw.refs r h
  · intro r h
    unfold World.entries
    rcases cs r h with rfl | h
    · rw [newStruct_new]; exact hne
    · rw [newStruct_old _ _ _ h]; exact hw.ne r h
  · intro r h
    unfold World.entries
    rcases cs r h with rfl | h
    · rw [newStruct_new]; exact hb
    · rw [newStruct_old _ _ _ h]; exact hw.bound r h

theorem WF.newStruct {w : World} (hw : w.WF) (k : SKind) {e : PyDict String Nat}
    (hk : (PyDict.keys e).Nodup) (hr : (e.map (·.2)).Nodup) (hne : e ≠ [])
    (hb : ∀ p ∈ e, p.2 < w.nd ∧ (w.dims p.2).kind = k) : (w.newStruct k e).WF := by
  refine ⟨hw.toHeap.newStruct k hk hr hne hb, Nat.lt_succ_of_lt hw.its, ?_, Nat.lt_succ_of_lt hw.cont, ?_⟩
  · show ((w.newStruct k e).structs w.its).kind = _
    rw [newStruct_old _ _ _ hw.its]; exact hw.itsKind
  · show ((w.newStruct k e).structs w.cont).kind = _
    rw [newStruct_old _ _ _ hw.cont]; exact hw.contKind

theorem content_newStruct {w : World} (k : SKind) (e : PyDict String Nat) {r : Nat} (hr : r < w.ns) :
    (w.newStruct k e).content r = w.content r := by
  unfold World.content World.entries
  rw [newStruct_old _ _ _ hr]; rfl

theorem content_newStruct_new (w : World) (k : SKind) (e : PyDict String Nat) :
    (w.newStruct k e).content w.ns = mapV (fun n => (w.dims n).val) e := by
  unfold World.content World.entries
  rw [newStruct_new]; rfl

theorem view_newStruct {w : World} (hw : w.WF) (k : SKind) (e : PyDict String Nat) :
    (w.newStruct k e).view = w.view := by
  have h1 := content_newStruct k e hw.cont
  have h2 := content_newStruct k e hw.its
  unfold World.view
  show ({ w.inst with containers := (w.newStruct k e).content w.cont,
                      items := (w.newStruct k e).content w.its } : Inst) = _
  rw [h1, h2]

theorem build_spec {w : World} (hw : w.Heap) (k : SKind) {d : PyDict String Dim} (hd : ValidSizes d) (hne : d ≠ []) :
    (w.build k d).Heap ∧ (w.build k d).content w.ns = d ∧ (∀ r, r < w.ns → (w.build k d).content r = w.content r) ∧
    ((w.build k d).structs w.ns).kind = k ∧ (w.build k d).ns = w.ns + 1 ∧ (w.build k d).inst = w.inst ∧
    (w.build k d).its = w.its ∧ (w.build k d).cont = w.cont ∧
    (∀ r, r < w.ns → (w.build k d).structs r = w.structs r) ∧
    (∀ n, n < w.nd → (w.build k d).dims n = w.dims n) ∧ w.nd ≤ (w.build k d).nd := by
  obtain ⟨h1, h2, h3, h4, h5, h6, h7, h8, h9, h10, h11⟩ := newDims_spec k d hw hd.2
  unfold World.build
  have hwf : ((newDims k d w).1.newStruct k (newDims k d w).2).Heap := by
    apply h1.newStruct
    · have : PyDict.keys (newDims k d w).2 = PyDict.keys d := by
        rw [← keys_mapV (fun n => ((newDims k d w).1.dims n).val), h9]
      rw [this]; exact hd.1
    · exact h11
    · intro e
      rw [e] at h9
      exact hne h9.symm
    · intro p hp; exact (h10 p hp).2
  refine ⟨hwf, ?_, ?_, ?_, ?_, h6, h4, h5, ?_, h8, h7⟩
  · rw [← h3, content_newStruct_new]; exact h9
  · intro r hr
    rw [content_newStruct _ _ (by rw [h3]; exact hr)]
    rw [content_eq, content_eq]
    unfold World.entries
    rw [h2]
    apply mapV_congr
    intro p hp
    rw [h8 _ (hw.bound r hr p hp).1]
  · rw [← h3, newStruct_new]
  · show (newDims k d w).1.ns + 1 = _
    rw [h3]
  · intro r hr
    rw [newStruct_old _ _ _ (by rw [h3]; exact hr), h2]

/-! ### the methods of the problem -/

/-- the objects that existed are unchanged -/
structure Keeps (w w' : World) : Prop where
  ns : w.ns ≤ w'.ns
  nd : w.nd ≤ w'.nd
  structs : ∀ r, r < w.ns → w'.structs r = w.structs r
  dims : ∀ n, n < w.nd → w'.dims n = w.dims n

theorem Keeps.refl (w : World) : Keeps w w := ⟨Nat.le_refl _, Nat.le_refl _, fun _ _ => rfl, fun _ _ => rfl⟩

theorem Keeps.content {w w' : World} (h : Keeps w w') (hw : w.Heap) {r : Nat} (hr : r < w.ns) :
    w'.content r = w.content r := by
  rw [content_eq, content_eq]
  have : w'.entries r = w.entries r := by unfold World.entries; rw [h.structs r hr]
  rw [this]
  apply mapV_congr
  intro p hp
  rw [h.dims _ (hw.bound r hr p hp).1]

/-- what an assignment to `problem.items` or `problem.containers` does to the objects -/
theorem assign_objects {w : World} (hw : w.WF) (k : SKind) (v : PyVal) :
    (w.assign k v).1.WF ∧ Keeps w (w.assign k v).1 ∧
    (∀ k', k' ≠ k → (w.assign k v).1.ptr k' = w.ptr k') ∧
    ((w.assign k v).2 = .ok () → (w.assign k v).1.ptr k = w.ns) ∧
    ((w.assign k v).2 ≠ .ok () → (w.assign k v).1.ptr k = w.ptr k) := by
  unfold World.assign
  split
  · exact ⟨hw, .refl _, fun _ _ => rfl, (fun h => nomatch h), fun _ => rfl⟩
  · rename_i hstrip
    cases hb : (buildStructure k v).2 with
    | error e =>
      simp only [hb]
      split
      · refine ⟨(resetSol_same w).wf hw, ⟨Nat.le_refl _, Nat.le_refl _, fun _ _ => rfl, fun _ _ => rfl⟩, ?_,
          (fun h => nomatch h), ?_⟩
        · intro k' _; cases k' <;> rfl
        · intro _; cases k <;> rfl
      · exact ⟨hw, .refl _, fun _ _ => rfl, (fun h => nomatch h), fun _ => rfl⟩
    | ok d =>
      obtain ⟨h1, h2, h3⟩ := buildStructure_valid hb
      simp only [hb, h3, if_true]
      have hw' : w.resetSol.WF := (resetSol_same w).wf hw
      obtain ⟨b1, b2, b3, b4, b5, b6, b7, b8, b9, b10, b11⟩ := build_spec hw'.toHeap k h1 h2
      have hns : w.resetSol.ns = w.ns := rfl
      rw [hns] at b2 b3 b4 b5 b9
      have hk : Keeps w (w.resetSol.build k d) := ⟨by rw [b5]; exact Nat.le_succ _, b11, b9, b10⟩
      have ho : ∀ r, r < w.ns → ((w.resetSol.build k d).structs r).kind = (w.structs r).kind := by
        intro r hr; rw [b9 r hr]; rfl
      cases k with
      | items =>
        refine ⟨⟨⟨b1.keys, b1.refs, b1.ne, b1.bound, b1.pos⟩, ?_, b4, ?_, ?_⟩,
          ⟨hk.ns, hk.nd, hk.structs, hk.dims⟩, ?_, fun _ => rfl, fun h => absurd rfl h⟩
        · show w.ns < (w.resetSol.build .items d).ns
          rw [b5]; exact Nat.lt_succ_self _
        · show (w.resetSol.build .items d).cont < (w.resetSol.build .items d).ns
          rw [b5, b8]; exact Nat.lt_succ_of_lt hw.cont
        · show ((w.resetSol.build .items d).structs (w.resetSol.build .items d).cont).kind = _
          rw [b8]
          exact (ho _ hw.cont).trans hw.contKind
        · intro k' hk'
          cases k' with
          | items => exact absurd rfl hk'
          | containers => exact b8
      | containers =>
        refine ⟨⟨⟨b1.keys, b1.refs, b1.ne, b1.bound, b1.pos⟩, ?_, ?_, ?_, b4⟩,
          ⟨hk.ns, hk.nd, hk.structs, hk.dims⟩, ?_, fun _ => rfl, fun h => absurd rfl h⟩
        · show (w.resetSol.build .containers d).its < (w.resetSol.build .containers d).ns
          rw [b5, b7]; exact Nat.lt_succ_of_lt hw.its
        · show ((w.resetSol.build .containers d).structs (w.resetSol.build .containers d).its).kind = _
          rw [b7]
          exact (ho _ hw.its).trans hw.itsKind
        · show w.ns < (w.resetSol.build .containers d).ns
          rw [b5]; exact Nat.lt_succ_self _
        · intro k' hk'
          cases k' with
          | items => exact b7
          | containers => exact absurd rfl hk'

theorem assign_sim {w : World} (hw : w.WF) (k : SKind) (v : PyVal) :
    Sims (w.assign k v) (w.view.assign k v) := by
  unfold World.assign Inst.assign
  rw [view_strip]
  split
  · exact ⟨rfl, rfl⟩
  · cases hb : (buildStructure k v).2 with
    | error e =>
      simp only [hb]
      split <;> exact ⟨rfl, rfl⟩
    | ok d =>
      obtain ⟨h1, h2, h3⟩ := buildStructure_valid hb
      simp only [hb, h3, if_true]
      have hw' : w.resetSol.WF := (resetSol_same w).wf hw
      obtain ⟨b1, b2, b3, b4, b5, b6, b7, b8, b9, b10, b11⟩ := build_spec hw'.toHeap k h1 h2
      cases k with
      | items =>
        refine ⟨rfl, ?_⟩
        have e := b3 _ hw'.cont
        unfold World.view
        show ({ (w.resetSol.build .items d).inst with
                  containers := (w.resetSol.build .items d).content (w.resetSol.build .items d).cont
                  items := (w.resetSol.build .items d).content w.resetSol.ns } : Inst) = _
        rw [b2, b8, e, b6]
        rfl
      | containers =>
        refine ⟨rfl, ?_⟩
        have e := b3 _ hw'.its
        unfold World.view
        show ({ w.resetSol.inst with
                  containersNum := d.length
                  containers := (w.resetSol.build .containers d).content w.resetSol.ns
                  items := (w.resetSol.build .containers d).content (w.resetSol.build .containers d).its } : Inst) = _
        rw [b2, b7, e]
        rfl

theorem sortItems_sim {w : World} (hw : w.WF) (A : Arith) (s : Option (PyVal × Bool)) :
    Sims (w.sortItems A s) (w.view.sortItems A s) := by
  unfold World.sortItems Inst.sortItems
  cases s with
  | none => exact ⟨rfl, rfl⟩
  | some p =>
    obtain ⟨b, r⟩ := p
    simp only
    cases sortKey? A b with
    | none => exact ⟨rfl, rfl⟩
    | some f => exact assign_sim hw .items _

theorem sortItems_wf {w : World} (hw : w.WF) (A : Arith) (s : Option (PyVal × Bool)) :
    (w.sortItems A s).1.WF := by
  unfold World.sortItems
  split
  · exact hw
  · split
    · exact hw
    · exact (assign_objects hw .items _).1

/-- only sizes and attributes change -/
structure SizesOnly (w w' : World) : Prop where
  its : w'.its = w.its
  cont : w'.cont = w.cont
  ns : w'.ns = w.ns
  structs : w'.structs = w.structs
  nd : w'.nd = w.nd
  wf : w.WF → w'.WF

theorem SizesOnly.refl (w : World) : SizesOnly w w := ⟨rfl, rfl, rfl, rfl, rfl, id⟩

theorem SizesOnly.trans {w w' w'' : World} (h1 : SizesOnly w w') (h2 : SizesOnly w' w'') : SizesOnly w w'' :=
  ⟨h2.its.trans h1.its, h2.cont.trans h1.cont, h2.ns.trans h1.ns, h2.structs.trans h1.structs,
    h2.nd.trans h1.nd, fun h => h2.wf (h1.wf h)⟩

theorem MaybeDimEdit.sizesOnly {r : Nat} {w w' : World} (h : MaybeDimEdit r w w') : SizesOnly w w' := by
  rcases h with rfl | h
  · exact .refl _
  · exact ⟨h.its, h.cont, h.ns, h.structs, h.nd, h.wf⟩

theorem lookupKey_str {α : Type} {d : PyDict String α} {s : String} {x : α} (h : PyDict.find? d s = some x) :
    lookupKey d (.str s) = .ok (s, x) := by
  unfold lookupKey
  show (match PyDict.find? d s with | some x => Except.ok (s, x) | none => Except.error PyErr.keyError) = _
  rw [h]

theorem orientLoop_sim (turn : Nat → Nat → Bool) : ∀ (ids : List String) {w : World}, w.WF →
    Sims (w.orientLoop turn ids) (w.view.orientLoop turn ids) ∧ SizesOnly w (w.orientLoop turn ids).1 := by
  intro ids
  induction ids with
  | nil => intro w _; exact ⟨⟨rfl, rfl⟩, .refl _⟩
  | cons id ids ih =>
    intro w hw
    unfold World.orientLoop Inst.orientLoop
    have hfind : PyDict.find? w.view.items id = (PyDict.find? (w.entries w.its) id).map (fun n => (w.dims n).val) :=
      find?_mapV (fun n => (w.dims n).val) (w.entries w.its) id
    rw [hfind]
    cases hf : PyDict.find? (w.entries w.its) id with
    | none => exact ⟨⟨rfl, rfl⟩, .refl _⟩
    | some r =>
      simp only [Option.map_some]
      split
      · have hl : lookupKey (w.entries (w.ptr .items)) (.str id) = .ok (id, r) := lookupKey_str hf
        have hr := (hw.bound _ hw.its _ (PyDict.find?_mem hf)).1
        obtain ⟨a1, a2⟩ := setDim_sim hw .items hl (.str "w") (.int (w.dims r).val.l)
        have m1 := setDim_maybe hw hr (.str "w") (.int (w.dims r).val.l)
        cases hp : w.setDim r (.str "w") (.int (w.dims r).val.l) with
        | mk w1 x =>
          cases hq : w.view.setDim .items (.str id) (.str "w") (.int (w.dims r).val.l) with
          | mk j1 y =>
            simp only at m1
            rw [hp] at a1 a2 m1
            rw [hq] at a1 a2
            simp only at a1 a2 m1
            subst a1 a2
            cases x with
            | error e => exact ⟨⟨rfl, rfl⟩, m1.sizesOnly⟩
            | ok u =>
              have hw1 := m1.wf hw
              have s1 := m1.sizesOnly
              have hl1 : lookupKey (w1.entries (w1.ptr .items)) (.str id) = .ok (id, r) := by
                rw [m1.ptr]; unfold World.entries at hl ⊢; rw [m1.structs]; exact hl
              obtain ⟨b1, b2⟩ := setDim_sim hw1 .items hl1 (.str "l") (.int (w.dims r).val.w)
              have m2 := setDim_maybe hw1 (show r < w1.nd by rw [s1.nd]; exact hr) (.str "l") (.int (w.dims r).val.w)
              simp only
              cases hp2 : w1.setDim r (.str "l") (.int (w.dims r).val.w) with
              | mk w2 x2 =>
                cases hq2 : w1.view.setDim .items (.str id) (.str "l") (.int (w.dims r).val.w) with
                | mk j2 y2 =>
                  rw [hp2] at b1 b2 m2
                  rw [hq2] at b1 b2
                  simp only at b1 b2 m2
                  subst b1 b2
                  cases x2 with
                  | error e => exact ⟨⟨rfl, rfl⟩, s1.trans m2.sizesOnly⟩
                  | ok u =>
                    obtain ⟨c1, c2⟩ := ih (m2.wf hw1)
                    exact ⟨c1, (s1.trans m2.sizesOnly).trans c2⟩
      · exact ih hw

theorem orientItems_sim {w : World} (hw : w.WF) (o : PyVal) :
    Sims (w.orientItems o) (w.view.orientItems o) ∧ SizesOnly w (w.orientItems o).1 := by
  have hk : PyDict.keys w.view.items = PyDict.keys (w.entries w.its) :=
    keys_mapV (fun n => (w.dims n).val) (w.entries w.its)
  unfold World.orientItems Inst.orientItems
  rw [hk, show w.view.rotation = w.inst.rotation from rfl]
  split
  · exact ⟨⟨rfl, rfl⟩, .refl _⟩
  · split
    · exact ⟨⟨rfl, rfl⟩, .refl _⟩
    · split
      · exact orientLoop_sim _ _ hw
      · split
        · exact orientLoop_sim _ _ hw
        · exact ⟨⟨rfl, rfl⟩, .refl _⟩

end World

/-- the search changes neither items nor containers -/
theorem search_keeps {A : Arith} {h : HSArgs} {i : Inst} (hv : i.Valid) :
    (i.search A h).1.containers = i.containers ∧ (i.search A h).1.items = i.items := by
  by_cases hw : i.workers.isOne = true
  · obtain ⟨s, h1, h2⟩ := C27_returns A h i hv hw
    rw [h2]
    obtain ⟨f1, _⟩ := C27_frame A _ _ _ i _ hv s h1
    show s.finish.containers = _ ∧ s.finish.items = _
    rw [f1]; exact ⟨rfl, rfl⟩
  · unfold Inst.search
    rw [if_neg hw]
    split <;> exact ⟨rfl, rfl⟩

/-- operations that only concern the other attributes of the problem -/
def Op.attrsOnly : Op → Bool
  | .delAttr _ => true
  | .height _ => true
  | .minHeight _ => true
  | .resetHeight => true
  | .strategy _ => true
  | .settings _ _ => true
  | .editSettings _ => true
  | .validate _ => true
  | .solve _ => true
  | .localSearch _ _ => true
  | .log => true
  | .figure _ _ => true
  | _ => false

theorem settings_frame {i j : Inst} (h : SettingsFrame i j) : j.containers = i.containers ∧ j.items = i.items := by
  rw [h]; exact ⟨rfl, rfl⟩

theorem attrsOnly_frame {A : Arith} {i : Inst} (hv : i.Valid) (o : Op) (ho : o.attrsOnly = true) :
    (step A i o).1.containers = i.containers ∧ (step A i o).1.items = i.items := by
  cases o with
  | delAttr e => exact ⟨rfl, rfl⟩
  | height v =>
    show (i.assignHeight v).1.containers = _ ∧ (i.assignHeight v).1.items = _
    unfold Inst.assignHeight
    split
    · exact ⟨rfl, rfl⟩
    · split
      · split <;> exact ⟨rfl, rfl⟩
      · exact ⟨rfl, rfl⟩
  | minHeight v =>
    show (i.assignMinHeight v).1.containers = _ ∧ (i.assignMinHeight v).1.items = _
    unfold Inst.assignMinHeight
    split
    · exact ⟨rfl, rfl⟩
    · split
      · exact ⟨rfl, rfl⟩
      · split <;> exact ⟨rfl, rfl⟩
  | resetHeight =>
    show i.resetHeight.1.containers = _ ∧ i.resetHeight.1.items = _
    unfold Inst.resetHeight
    split
    · split <;> exact ⟨rfl, rfl⟩
    · exact ⟨rfl, rfl⟩
  | strategy v =>
    show (i.assignStrategy v).1.containers = _ ∧ (i.assignStrategy v).1.items = _
    unfold Inst.assignStrategy
    split
    · exact ⟨rfl, rfl⟩
    · split <;> exact ⟨rfl, rfl⟩
  | settings E v => exact settings_frame (validateSettings_frame { i with settings := v } E).1
  | editSettings v => exact ⟨rfl, rfl⟩
  | validate E => exact settings_frame (validateSettings_frame i E).1
  | solve seq =>
    simp only [step]
    split
    · rename_i j h
      unfold Inst.solve at h
      simp only [bind, Except.bind, pure, Except.pure] at h
      split at h
      · cases h
      · injection h with h
        subst h; exact ⟨rfl, rfl⟩
    · exact ⟨rfl, rfl⟩
  | localSearch clock throttle =>
    simp only [step]
    split
    · rename_i j t h
      obtain ⟨fr, _⟩ := C17_frame A _ _ _ i j t hv h
      show j.containers = _ ∧ j.items = _
      rw [fr]; exact ⟨rfl, rfl⟩
    · exact ⟨rfl, rfl⟩
  | log => exact ⟨rfl, rfl⟩
  | figure writes show_ => exact ⟨rfl, rfl⟩
  | _ => cases ho

namespace World

theorem view_attrs {w : World} {i : Inst} (hc : i.containers = w.view.containers) (hi : i.items = w.view.items) :
    ({ w with inst := i } : World).view = i := by
  have h : ({ w with inst := i } : World).view = { i with containers := w.view.containers, items := w.view.items } :=
    rfl
  rw [h, ← hc, ← hi]

theorem attrs_sim {A : Arith} {w : World} (hv : w.view.Valid) (o : Op) (ho : o.attrsOnly = true) :
    (w.attrs A o).2 = (HP.step A w.view o).2 ∧ (w.attrs A o).1.view = (HP.step A w.view o).1 := by
  obtain ⟨h1, h2⟩ := attrsOnly_frame (A := A) hv o ho
  exact ⟨rfl, view_attrs h1 h2⟩

theorem hypersearch_sim {A : Arith} {w : World} (hw : w.WF) (hv : w.view.Valid) (h : HSArgs) :
    (w.hypersearch A h).2 = (w.view.hypersearch A h).2 ∧ (w.hypersearch A h).1.view = (w.view.hypersearch A h).1 ∧
    (w.hypersearch A h).1.WF := by
  unfold World.hypersearch Inst.hypersearch
  obtain ⟨a1, a2⟩ := sortItems_sim hw A h.sortingBy
  have wf1 := sortItems_wf hw A h.sortingBy
  have v1 := either_valid hv (sortItems_edited hv A h.sortingBy)
  cases hp : w.sortItems A h.sortingBy with
  | mk w1 x =>
    cases hq : w.view.sortItems A h.sortingBy with
    | mk j1 y =>
      rw [hp] at a1 a2 wf1
      rw [hq] at a1 a2 v1
      simp only at a1 a2 wf1 v1
      subst a1 a2
      cases x with
      | error e => exact ⟨rfl, rfl, wf1⟩
      | ok u =>
        simp only
        obtain ⟨⟨b1, b2⟩, so⟩ := orientItems_sim wf1 h.orientation
        have v2 := either_valid v1 (orientItems_edited v1 h.orientation)
        cases hp2 : w1.orientItems h.orientation with
        | mk w2 x2 =>
          cases hq2 : w1.view.orientItems h.orientation with
          | mk j2 y2 =>
            rw [hp2] at b1 b2 so
            rw [hq2] at b1 b2 v2
            simp only at b1 b2 so v2
            subst b1 b2
            cases x2 with
            | error e => exact ⟨rfl, rfl, so.wf wf1⟩
            | ok u =>
              obtain ⟨f1, f2⟩ := search_keeps (A := A) (h := h) v2
              refine ⟨rfl, view_attrs f1 f2, ?_⟩
              exact SameHeap.wf (w := w2) ⟨rfl, rfl, rfl, rfl, rfl, rfl⟩ (so.wf wf1)

theorem onEntry_sim {w : World} (k : SKind) (id : PyVal)
    (f : Nat → World → World × Except PyErr Unit) (g : Inst × Except PyErr Unit)
    (hok : ∀ s r, lookupKey (w.entries (w.ptr k)) id = .ok (s, r) → Sims (f r w) g)
    (herr : ∀ e, lookupKey (w.entries (w.ptr k)) id = .error e → g = (w.view, .error e)) :
    (w.onEntry k id f).2 = (outcomeOf g).2 ∧ (w.onEntry k id f).1.view = (outcomeOf g).1 := by
  unfold World.onEntry
  cases h : lookupKey (w.entries (w.ptr k)) id with
  | error e => rw [herr e h]; exact ⟨rfl, rfl⟩
  | ok p =>
    obtain ⟨s, r⟩ := p
    obtain ⟨h1, h2⟩ := hok s r h
    exact ⟨congrArg Outcome.of h1, h2⟩

theorem lookup_view_err {w : World} {k : SKind} {id : PyVal} {e : PyErr}
    (h : lookupKey (w.entries (w.ptr k)) id = .error e) : lookupKey (w.view.data k) id = .error e := by
  rw [view_data, lookup_content, h]; rfl

theorem Sims.out {r : World × Except PyErr Unit} {g : Inst × Except PyErr Unit} (h : Sims r g) :
    (outcome r).2 = (outcomeOf g).2 ∧ (outcome r).1.view = (outcomeOf g).1 :=
  ⟨congrArg Outcome.of h.1, h.2⟩

/-- Calls through the problem: the model without identities says what happens. -/
theorem call_sim {A : Arith} {w : World} (hw : w.WF) (hv : w.view.Valid) (o : Op) :
    (w.call A o).2 = (HP.step A w.view o).2 ∧ (w.call A o).1.view = (HP.step A w.view o).1 := by
  cases o with
  | assign k v => exact (assign_sim hw k v).out
  | setKey k id v => exact (setKey_sim hw k id v).out
  | delKey k key => exact (delKey_sim hw k key).out
  | setDim k id key v =>
    refine onEntry_sim k id _ (w.view.setDim k id key v) (fun s r h => setDim_sim hw k h key v) ?_
    intro e h
    unfold Inst.setDim
    rw [lookup_view_err h]
  | delDim k id =>
    refine onEntry_sim k id _ (w.view.delDim k id) ?_ ?_
    · intro s r h
      unfold Inst.delDim
      rw [view_data, lookup_content, h]
      exact ⟨rfl, rfl⟩
    · intro e h
      unfold Inst.delDim
      rw [lookup_view_err h]
  | popKey k key d => exact (popKey_sim hw k key d).out
  | popItem k => exact (popItem_sim hw k).out
  | clear k => exact (clear_sim hw k).out
  | update k es => exact (update_sim k es hw).out
  | updateDim k id es =>
    refine onEntry_sim k id _ (w.view.updateDim k id es) (fun s r h => updateDim_sim k id r s es hw h) ?_
    intro e h
    cases es with
    | nil => unfold Inst.updateDim; rw [lookup_view_err h]
    | cons p es =>
      obtain ⟨key, v⟩ := p
      unfold Inst.updateDim Inst.setDim
      rw [lookup_view_err h]
  | setDefault k key v => exact (setDefault_sim hw k key v).out
  | sortItems s => exact (sortItems_sim hw A s).out
  | orientItems o => exact (orientItems_sim hw o).1.out
  | hypersearch h => exact ⟨(hypersearch_sim hw hv h).1, (hypersearch_sim hw hv h).2.1⟩
  | delAttr e => exact attrs_sim hv _ rfl
  | height v => exact attrs_sim hv _ rfl
  | minHeight v => exact attrs_sim hv _ rfl
  | resetHeight => exact attrs_sim hv _ rfl
  | strategy v => exact attrs_sim hv _ rfl
  | settings E v => exact attrs_sim hv _ rfl
  | editSettings v => exact attrs_sim hv _ rfl
  | validate E => exact attrs_sim hv _ rfl
  | solve seq => exact attrs_sim hv _ rfl
  | localSearch c t => exact attrs_sim hv _ rfl
  | log => exact attrs_sim hv _ rfl
  | figure w s => exact attrs_sim hv _ rfl

theorem attrs_wf {A : Arith} {w : World} (hw : w.WF) (o : Op) : (w.attrs A o).1.WF :=
  SameHeap.wf (w := w) ⟨rfl, rfl, rfl, rfl, rfl, rfl⟩ hw

theorem onEntry_wf {w : World} (hw : w.WF) (k : SKind) (id : PyVal)
    (f : Nat → World → World × Except PyErr Unit)
    (hf : ∀ r, r < w.nd → (f r w).1.WF) : (w.onEntry k id f).1.WF := by
  unfold World.onEntry
  split
  · exact hw
  · rename_i s r h
    exact hf r (hw.bound _ (hw.ptr k).1 _ (PyDict.find?_mem (lookupKey_find h))).1

theorem call_wf {A : Arith} {w : World} (hw : w.WF) (hv : w.view.Valid) (o : Op) : (w.call A o).1.WF := by
  cases o with
  | assign k v => exact (assign_objects hw k v).1
  | setKey k id v => exact (setKey_maybe hw (hw.ptr k).1 id v).wf hw
  | delKey k key => exact (delKey_maybe hw (hw.ptr k).1 key).wf hw
  | setDim k id key v => exact onEntry_wf hw k id _ fun r hr => (setDim_maybe hw hr key v).wf hw
  | delDim k id => exact onEntry_wf hw k id _ fun r hr => hw
  | popKey k key d => exact (popKey_maybe hw (hw.ptr k).1 key d).wf hw
  | popItem k => exact (popItem_maybe hw (hw.ptr k).1).wf hw
  | clear k => exact (clearLoop_maybe _ _ hw (hw.ptr k).1).wf hw
  | update k es => exact (update_maybe _ es hw (hw.ptr k).1).wf hw
  | updateDim k id es => exact onEntry_wf hw k id _ fun r hr => (updateDim_maybe r es hw hr).wf hw
  | setDefault k key v => exact (setDefault_maybe hw (hw.ptr k).1 key v).wf hw
  | sortItems s => exact sortItems_wf hw A s
  | orientItems o => exact (orientItems_sim hw o).2.wf hw
  | hypersearch h => exact (hypersearch_sim hw hv h).2.2
  | delAttr e => exact attrs_wf hw _
  | height v => exact attrs_wf hw _
  | minHeight v => exact attrs_wf hw _
  | resetHeight => exact attrs_wf hw _
  | strategy v => exact attrs_wf hw _
  | settings E v => exact attrs_wf hw _
  | editSettings v => exact attrs_wf hw _
  | validate E => exact attrs_wf hw _
  | solve seq => exact attrs_wf hw _
  | localSearch c t => exact attrs_wf hw _
  | log => exact attrs_wf hw _
  | figure w s => exact attrs_wf hw _

/-! ### the start -/

theorem ofInst_spec {i : Inst} (hv : i.Valid) : (ofInst i).WF ∧ (ofInst i).view = i := by
  have h0 : Heap ⟨fun _ => ⟨.items, ⟨0, 0⟩⟩, 0, fun _ => ⟨.items, []⟩, 0, 1, 0, i⟩ := by
    refine ⟨?_, ?_, ?_, ?_, ?_⟩ <;> intro r hr <;> exact absurd hr (Nat.not_lt_zero _)
  obtain ⟨b1, b2, b3, b4, b5, b6, b7, b8, b9, b10, b11⟩ := build_spec h0 .containers hv.conts hv.contsNe
  obtain ⟨c1, c2, c3, c4, c5, c6, c7, c8, c9, c10, c11⟩ := build_spec b1 .items hv.items hv.itemsNe
  unfold ofInst
  simp only at b2 b3 b4 b5 b6 b7 b8 b9
  rw [b5] at c2 c3 c4 c5 c9
  rw [b7] at c7
  rw [b8] at c8
  rw [b6] at c6
  simp only
  refine ⟨⟨c1, ?_, ?_, ?_, ?_⟩, ?_⟩
  · rw [c7, c5]; decide
  · rw [c7]; exact c4
  · rw [c8, c5]; decide
  · rw [c8, c9 0 (by decide)]; exact b4
  · unfold World.view
    rw [c7, c8, c6, c3 0 (by decide), b2]
    have : (World.build .items i.items (World.build .containers i.containers
      ⟨fun _ => ⟨.items, ⟨0, 0⟩⟩, 0, fun _ => ⟨.items, []⟩, 0, 1, 0, i⟩)).content 1 = i.items := c2
    rw [this]

end World
end HP
