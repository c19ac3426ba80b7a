import Verif.Model.Machine
import Verif.Proofs.Search
/-
Lemmas about the operations on items and containers.
-/
namespace HP
open Spec

theorem posInt?_pos {v : PyVal} {n : Nat} (h : v.posInt? = some n) : 0 < n := by
  unfold PyVal.posInt? at h
  split at h
  · split at h
    · cases h
    · injection h with h; omega
  · cases h

theorem atLeastOne?_pos {v : PyVal} {n : Nat} (h : v.atLeastOne? = some n) : 0 < n := by
  unfold PyVal.atLeastOne? at h
  split at h
  · split at h
    · cases h
    · injection h with h; omega
  · cases h

theorem mkDims_pos {k : SKind} {v : PyVal} {d : Dim} (h : mkDims k v = .ok d) : 0 < d.w ∧ 0 < d.l := by
  unfold mkDims at h
  split at h
  · cases h
  · split at h
    · cases h
    · split at h
      · split at h
        · split at h
          · rename_i h1 h2
            injection h with h
            subst h
            exact ⟨posInt?_pos h1, posInt?_pos h2⟩
          · cases h
        · cases h
      · cases h

theorem insert_ne_nil {α : Type} (d : PyDict String α) (k : String) (a : α) : PyDict.insert d k a ≠ [] := by
  cases d with
  | nil => simp [PyDict.insert]
  | cons p l =>
    unfold PyDict.insert
    split <;> simp

theorem validSizes_insert {d : PyDict String Dim} (hd : ValidSizes d) (k : String) {x : Dim}
    (hx : 0 < x.w ∧ 0 < x.l) : ValidSizes (PyDict.insert d k x) := by
  constructor
  · exact PyDict.nodup_insert hd.1 k x
  · intro p hp
    rcases PyDict.mem_insert hp with h | h
    · subst h; exact hx
    · exact hd.2 p h

theorem validSizes_erase {d : PyDict String Dim} (hd : ValidSizes d) (k : String) :
    ValidSizes (PyDict.erase d k) := validSizes_sublist (PyDict.erase_sublist d k) hd

theorem validSizes_nil : ValidSizes ([] : PyDict String Dim) := ⟨List.nodup_nil, by simp⟩

theorem buildEntries_valid {k : SKind} : ∀ {l : List (PyVal × PyVal)} {acc d : PyDict String Dim} {t b : Bool},
    buildEntries k l acc t = (b, .ok d) → ValidSizes acc →
    ValidSizes d ∧ (acc ≠ [] ∨ l ≠ [] → d ≠ []) ∧ (l ≠ [] → b = true) ∧ (l = [] → b = t)
  | [], acc, d, t, b, h, hv => by
    simp only [buildEntries, Prod.mk.injEq, Except.ok.injEq] at h
    obtain ⟨h1, h2⟩ := h
    subst h1 h2
    exact ⟨hv, by simp, by simp, by simp⟩
  | (id, v) :: rest, acc, d, t, b, h, hv => by
    unfold buildEntries at h
    split at h
    · simp at h
    · split at h
      · simp at h
      · rename_i s _ _ x hx
        obtain ⟨h1, h2, h3, h4⟩ := buildEntries_valid h (validSizes_insert hv s (mkDims_pos hx))
        refine ⟨h1, fun _ => h2 (Or.inl (insert_ne_nil _ _ _)), fun _ => ?_, by simp⟩
        by_cases hr : rest = []
        · exact h4 hr
        · exact h3 hr

theorem buildStructure_valid {k : SKind} {v : PyVal} {d : PyDict String Dim}
    (h : (buildStructure k v).2 = .ok d) :
    ValidSizes d ∧ d ≠ [] ∧ (buildStructure k v).1 = true := by
  unfold buildStructure at h ⊢
  split at h
  · cases h
  · rename_i l hl
    split at h
    · cases h
    · rename_i hne
      have hl : l ≠ [] := by simpa using hne
      rw [if_neg hne]
      have e : buildEntries k l [] false = ((buildEntries k l [] false).1, .ok d) := by
        rw [← h]
      obtain ⟨h1, h2, h3, _⟩ := buildEntries_valid e validSizes_nil
      exact ⟨h1, h2 (Or.inr hl), h3 hl⟩

/-- `j` is `i` with other (valid) items and containers and without a solution; the stored number
of containers is right if it was -/
def Edited (i j : Inst) : Prop :=
  ∃ cs its n, j = { i with containers := cs, items := its, containersNum := n,
                           solution := [], objVals := [] } ∧
    ValidSizes cs ∧ cs ≠ [] ∧ ValidSizes its ∧ its ≠ [] ∧ (i.strip = true → cs = i.containers) ∧
    (i.containersNum = i.containers.length → n = cs.length)

theorem Edited.trans {i j k : Inst} (h1 : Edited i j) (h2 : Edited j k) : Edited i k := by
  obtain ⟨cs, its, n, rfl, a1, a2, a3, a4, a5, a6⟩ := h1
  obtain ⟨cs', its', n', rfl, b1, b2, b3, b4, b5, b6⟩ := h2
  refine ⟨cs', its', n', rfl, b1, b2, b3, b4, ?_, fun h => b6 (a6 h)⟩
  intro hs
  rw [b5 hs, a5 hs]

theorem Edited.resetSol {i : Inst} (hv : i.Valid) : Edited i i.resetSol :=
  ⟨i.containers, i.items, i.containersNum, rfl, hv.conts, hv.contsNe, hv.items, hv.itemsNe, fun _ => rfl, id⟩

theorem Edited.num {i j : Inst} (h : Edited i j) (hn : i.containersNum = i.containers.length) :
    j.containersNum = j.containers.length := by
  obtain ⟨cs, its, n, rfl, _, _, _, _, _, h⟩ := h
  exact h hn

theorem Edited.valid {i j : Inst} (hv : i.Valid) (h : Edited i j) : j.Valid := by
  obtain ⟨cs, its, n, rfl, a1, a2, a3, a4, a5, _⟩ := h
  refine ⟨a1, a3, a2, a4, ?_, hv.height, hv.minPos⟩
  intro hs
  rw [a5 hs]
  exact hv.strip hs

/-- new valid data for structure `k`, with `reset_instance_attrs` -/
theorem edited_setData {i : Inst} (hv : i.Valid) (k : SKind) {d : PyDict String Dim}
    (hd : ValidSizes d) (hne : d ≠ []) (hk : k = .containers → i.strip = true → d = i.containers) :
    Edited i ((i.setData k d).resetAttrs k) := by
  cases k with
  | containers =>
    exact ⟨d, i.items, d.length, rfl, hd, hne, hv.items, hv.itemsNe, hk rfl, fun _ => rfl⟩
  | items =>
    exact ⟨i.containers, d, i.containersNum, rfl, hv.conts, hv.contsNe, hd, hne, fun _ => rfl, id⟩

theorem edited_setData' {i : Inst} (hv : i.Valid) (k : SKind) {d : PyDict String Dim}
    (hd : ValidSizes d) (hne : d ≠ []) (hl : d.length = (i.data k).length)
    (hk : k = .containers → i.strip = true → d = i.containers) :
    Edited i (i.setData k d).resetSol := by
  cases k with
  | containers =>
    exact ⟨d, i.items, i.containersNum, rfl, hd, hne, hv.items, hv.itemsNe, hk rfl,
      fun h => by rw [h]; exact hl.symm⟩
  | items =>
    exact ⟨i.containers, d, i.containersNum, rfl, hv.conts, hv.contsNe, hd, hne, fun _ => rfl, id⟩

theorem data_valid {i : Inst} (hv : i.Valid) (k : SKind) : ValidSizes (i.data k) := by
  cases k
  · exact hv.conts
  · exact hv.items

theorem data_ne {i : Inst} (hv : i.Valid) (k : SKind) : i.data k ≠ [] := by
  cases k
  · exact hv.contsNe
  · exact hv.itemsNe

/-- the result of an operation: it succeeded and edited the problem, or raised without effect -/
def EditOrSame (i : Inst) (r : Inst × Except PyErr Unit) : Prop :=
  (r.2 = .ok () ∧ Edited i r.1) ∨ (∃ e, r.2 = .error e ∧ r.1 = i)

theorem setKey_spec {i : Inst} (hv : i.Valid) (k : SKind) (id v : PyVal) :
    EditOrSame i (i.setKey k id v) := by
  unfold Inst.setKey
  split
  · exact Or.inr ⟨_, rfl, rfl⟩
  · rename_i hns
    split
    · exact Or.inr ⟨_, rfl, rfl⟩
    · split
      · exact Or.inr ⟨_, rfl, rfl⟩
      · rename_i s _ _ d hd
        refine Or.inl ⟨rfl, edited_setData hv k (validSizes_insert (data_valid hv k) s (mkDims_pos hd))
          (insert_ne_nil _ _ _) ?_⟩
        intro hk hs
        simp [hk, hs] at hns

theorem lookupKey_ok {d : PyDict String Dim} {key : PyVal} {s : String} {x : Dim}
    (h : lookupKey d key = .ok (s, x)) : key = .str s ∧ PyDict.find? d s = some x := by
  unfold lookupKey at h
  split at h
  · rename_i t ht
    split at h
    · rename_i y hy
      injection h with h
      injection h with h1 h2
      subst h1 h2
      unfold PyVal.asStr? at ht
      split at ht
      · injection ht with ht; subst ht; exact ⟨rfl, hy⟩
      · cases ht
    · cases h
  · cases h

theorem length_erase_pos {d : PyDict String Dim} {s : String} {x : Dim}
    (h : PyDict.find? d s = some x) (h1 : d.length ≠ 1) : PyDict.erase d s ≠ [] := by
  have hp := (PyDict.perm_erase h).length_eq
  intro he
  rw [he] at hp
  simp at hp
  exact h1 hp

theorem delKey_spec {i : Inst} (hv : i.Valid) (k : SKind) (key : PyVal) :
    EditOrSame i (i.delKey k key) := by
  unfold Inst.delKey
  split
  · exact Or.inr ⟨_, rfl, rfl⟩
  · rename_i hlen
    split
    · exact Or.inr ⟨_, rfl, rfl⟩
    · rename_i s hs
      obtain ⟨h1, h2⟩ := lookupKey_ok (s := s.1) (x := s.2) hs
      refine Or.inl ⟨rfl, edited_setData hv k (validSizes_erase (data_valid hv k) s.1)
        (length_erase_pos h2 hlen) ?_⟩
      intro hk hst
      obtain ⟨W, hW⟩ := hv.strip hst
      subst hk
      simp [Inst.data, hW] at hlen

theorem length_insert_mem {α : Type} {d : PyDict String α} {s : String} {x y : α}
    (h : PyDict.find? d s = some x) : (PyDict.insert d s y).length = d.length := by
  have := PyDict.keys_insert_mem d s y (PyDict.mem_keys_of_find? h)
  have := congrArg List.length this
  simpa [PyDict.keys] using this

theorem setDim_spec {i : Inst} (hv : i.Valid) (k : SKind) (id key v : PyVal) :
    EditOrSame i (i.setDim k id key v) := by
  unfold Inst.setDim
  split
  · exact Or.inr ⟨_, rfl, rfl⟩
  · rename_i s d hl
    obtain ⟨_, hf⟩ := lookupKey_ok hl
    split
    · exact Or.inr ⟨_, rfl, rfl⟩
    · rename_i hns
      have hk : k = .containers → i.strip = true → ∀ x : PyDict String Dim, x = i.containers := by
        intro hk hs; simp [hk, hs] at hns
      have hpos := (data_valid hv k).2 _ (PyDict.find?_mem hf)
      split
      · exact Or.inr ⟨_, rfl, rfl⟩
      · split
        · split
          · rename_i w hw
            exact Or.inl ⟨rfl, edited_setData' hv k
              (validSizes_insert (data_valid hv k) s ⟨posInt?_pos hw, hpos.2⟩)
              (insert_ne_nil _ _ _) (length_insert_mem hf) (fun a b => hk a b _)⟩
          · exact Or.inr ⟨_, rfl, rfl⟩
        · split
          · split
            · rename_i w hw
              exact Or.inl ⟨rfl, edited_setData' hv k
                (validSizes_insert (data_valid hv k) s ⟨hpos.1, posInt?_pos hw⟩)
                (insert_ne_nil _ _ _) (length_insert_mem hf) (fun a b => hk a b _)⟩
            · exact Or.inr ⟨_, rfl, rfl⟩
          · exact Or.inr ⟨_, rfl, rfl⟩

/-- a rejected assignment keeps the data, but may have discarded the solution -/
theorem assign_spec {i : Inst} (hv : i.Valid) (k : SKind) (v : PyVal) :
    ((i.assign k v).2 = .ok () ∧ Edited i (i.assign k v).1) ∨
    (∃ e, (i.assign k v).2 = .error e ∧ ((i.assign k v).1 = i ∨ (i.assign k v).1 = i.resetSol)) := by
  unfold Inst.assign
  split
  · exact Or.inr ⟨_, rfl, Or.inl rfl⟩
  · rename_i hns
    have hb : ∀ d, (buildStructure k v).2 = .ok d → ValidSizes d ∧ d ≠ [] ∧ (buildStructure k v).1 = true :=
      fun d hd => buildStructure_valid hd
    rcases hB : buildStructure k v with ⟨t, r⟩
    rw [hB] at hb
    cases r with
    | error e =>
      refine Or.inr ⟨e, rfl, ?_⟩
      cases t
      · exact Or.inl rfl
      · exact Or.inr rfl
    | ok d =>
      obtain ⟨h1, h2, h3⟩ := hb d rfl
      simp only at h3
      subst h3
      left
      cases k with
      | items =>
        exact ⟨rfl, i.containers, d, i.containersNum, rfl, hv.conts, hv.contsNe, h1, h2, fun _ => rfl, id⟩
      | containers =>
        refine ⟨rfl, d, i.items, d.length, rfl, h1, h2, hv.items, hv.itemsNe, ?_, fun _ => rfl⟩
        intro hs
        simp [hs] at hns

theorem assign_edited {i : Inst} (hv : i.Valid) (k : SKind) (v : PyVal) :
    (i.assign k v).1 = i ∨ Edited i (i.assign k v).1 := by
  rcases assign_spec hv k v with ⟨_, h⟩ | ⟨_, _, h | h⟩
  · exact Or.inr h
  · exact Or.inl h
  · rw [h]; exact Or.inr (.resetSol hv)

theorem EditOrSame.either {i : Inst} {r : Inst × Except PyErr Unit} (h : EditOrSame i r) :
    r.1 = i ∨ Edited i r.1 := by
  rcases h with ⟨_, h⟩ | ⟨_, _, h⟩
  · exact Or.inr h
  · exact Or.inl h

/-- chaining of "same or edited" -/
theorem edited_chain {i j k : Inst} (h1 : j = i ∨ Edited i j) (h2 : k = j ∨ Edited j k) :
    k = i ∨ Edited i k := by
  rcases h1 with rfl | h1
  · exact h2
  · rcases h2 with rfl | h2
    · exact Or.inr h1
    · exact Or.inr (h1.trans h2)

theorem either_valid {i j : Inst} (hv : i.Valid) (h : j = i ∨ Edited i j) : j.Valid := by
  rcases h with rfl | h
  · exact hv
  · exact h.valid hv

theorem delDim_same (i : Inst) (k : SKind) (id : PyVal) : (i.delDim k id).1 = i ∧
    ∃ e, (i.delDim k id).2 = .error e := by
  unfold Inst.delDim
  split
  · exact ⟨rfl, _, rfl⟩
  · exact ⟨rfl, _, rfl⟩

theorem popKey_edited {i : Inst} (hv : i.Valid) (k : SKind) (key : PyVal) (b : Bool) :
    (i.popKey k key b).1 = i ∨ Edited i (i.popKey k key b).1 := by
  unfold Inst.popKey
  split
  · exact Or.inl rfl
  · exact Or.inl rfl
  · exact (delKey_spec hv k key).either

theorem popItem_spec {i : Inst} (hv : i.Valid) (k : SKind) : EditOrSame i (i.popItem k) := by
  unfold Inst.popItem
  split
  · exact Or.inr ⟨_, rfl, rfl⟩
  · exact delKey_spec hv k _

theorem clearLoop_edited (k : SKind) : ∀ (n : Nat) {i : Inst}, i.Valid →
    (Inst.clearLoop k n i).1 = i ∨ Edited i (Inst.clearLoop k n i).1
  | 0, i, _ => Or.inl rfl
  | n + 1, i, hv => by
    have hp := popItem_spec hv k
    unfold Inst.clearLoop
    split
    · rename_i j hj
      rw [hj] at hp
      have hp' := hp.either
      exact edited_chain hp' (clearLoop_edited k n (either_valid hv hp'))
    · rename_i j hj; rw [hj] at hp; exact hp.either
    · rename_i j e _ hj; rw [hj] at hp; exact hp.either

theorem update_edited (k : SKind) : ∀ (es : List (PyVal × PyVal)) {i : Inst}, i.Valid →
    (Inst.update k es i).1 = i ∨ Edited i (Inst.update k es i).1
  | [], i, _ => Or.inl rfl
  | (id, v) :: es, i, hv => by
    have hp := setKey_spec hv k id v
    unfold Inst.update
    split
    · rename_i j hj
      rw [hj] at hp
      have hp' := hp.either
      exact edited_chain hp' (update_edited k es (either_valid hv hp'))
    · rename_i j e hj; rw [hj] at hp; exact hp.either

theorem updateDim_edited (k : SKind) (id : PyVal) : ∀ (es : List (PyVal × PyVal)) {i : Inst}, i.Valid →
    (Inst.updateDim k id es i).1 = i ∨ Edited i (Inst.updateDim k id es i).1
  | [], i, _ => by
    left
    unfold Inst.updateDim
    split <;> rfl
  | (key, v) :: es, i, hv => by
    have hp := setDim_spec hv k id key v
    unfold Inst.updateDim
    split
    · rename_i j hj
      rw [hj] at hp
      have hp' := hp.either
      exact edited_chain hp' (updateDim_edited k id es (either_valid hv hp'))
    · rename_i j e hj; rw [hj] at hp; exact hp.either

theorem setDefault_edited {i : Inst} (hv : i.Valid) (k : SKind) (key v : PyVal) :
    (i.setDefault k key v).1 = i ∨ Edited i (i.setDefault k key v).1 := by
  unfold Inst.setDefault
  split
  · exact Or.inl rfl
  · exact (setKey_spec hv k key v).either
  · exact Or.inl rfl

theorem sortItems_edited {i : Inst} (hv : i.Valid) (A : Arith) (s : Option (PyVal × Bool)) :
    (i.sortItems A s).1 = i ∨ Edited i (i.sortItems A s).1 := by
  unfold Inst.sortItems
  split
  · exact Or.inl rfl
  · split
    · exact Or.inl rfl
    · exact assign_edited hv _ _

theorem orientLoop_edited (t : Nat → Nat → Bool) : ∀ (ids : List String) {i : Inst}, i.Valid →
    (Inst.orientLoop t ids i).1 = i ∨ Edited i (Inst.orientLoop t ids i).1
  | [], i, _ => Or.inl rfl
  | id :: ids, i, hv => by
    unfold Inst.orientLoop
    split
    · exact Or.inl rfl
    · rename_i d hd
      split
      · have h1 := setDim_spec hv .items (.str id) (.str "w") (.int d.l)
        split
        · rename_i j e hj; rw [hj] at h1; exact h1.either
        · rename_i j hj
          rw [hj] at h1
          have h1' := h1.either
          have hvj := either_valid hv h1'
          have h2 := setDim_spec hvj .items (.str id) (.str "l") (.int d.w)
          refine edited_chain h1' ?_
          split
          · rename_i j' e' hj'; rw [hj'] at h2; exact h2.either
          · rename_i j' hj'
            rw [hj'] at h2
            have h2' := h2.either
            exact edited_chain h2' (orientLoop_edited t ids (either_valid hvj h2'))
      · exact orientLoop_edited t ids hv

theorem orientItems_edited {i : Inst} (hv : i.Valid) (o : PyVal) :
    (i.orientItems o).1 = i ∨ Edited i (i.orientItems o).1 := by
  unfold Inst.orientItems
  split
  · exact Or.inl rfl
  · split
    · exact Or.inl rfl
    · split
      · exact orientLoop_edited _ _ hv
      · split
        · exact orientLoop_edited _ _ hv
        · exact Or.inl rfl

end HP
