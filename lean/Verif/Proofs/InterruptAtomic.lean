import Verif.Proofs.InterruptSane
import Verif.Proofs.RenameSearch
/-
Calls that are cut off: what the items and containers look like.
-/
namespace HP
open Spec

/-- the sizes in `j` are those of `i` or those of `m` -/
def Between (i m j : Inst) : Prop := ∀ k, j.data k = i.data k ∨ j.data k = m.data k

theorem data_resetSol (i : Inst) (k : SKind) : i.resetSol.data k = i.data k := by cases k <;> rfl

theorem data_resetAttrs (i : Inst) (k k' : SKind) : (i.resetAttrs k).data k' = i.data k' := by
  cases k <;> cases k' <;> rfl

theorem reset_data {i j : Inst} (hj : j ∈ i.resetWrites) (k : SKind) : j.data k = i.data k := by
  simp only [Inst.resetWrites, List.mem_cons, List.not_mem_nil, or_false] at hj
  rcases hj with rfl | rfl <;> cases k <;> rfl

theorem resetAttrs_data {i j : Inst} {k : SKind} (hj : j ∈ i.resetAttrsWrites k) (k' : SKind) : j.data k' = i.data k' := by
  cases k with
  | items => exact reset_data hj k'
  | containers =>
    simp only [Inst.resetAttrsWrites, List.mem_append, List.mem_singleton] at hj
    rcases hj with hj | rfl
    · exact reset_data hj k'
    · exact data_resetAttrs i _ k'

theorem between_assign (k : SKind) (v : PyVal) (i : Inst) : ∀ j ∈ i.assignWrites k v, Between i (i.assign k v).1 j := by
  intro j hj
  unfold Inst.assignWrites at hj
  unfold Inst.assign
  split at hj
  · cases hj
  · rename_i hc
    simp only [List.mem_append] at hj
    rw [if_neg hc]
    simp only
    rcases hj with hj | hj
    · intro k'
      left
      split at hj
      · exact reset_data hj k'
      · cases hj
    · cases hb : (buildStructure k v).2 with
      | error e => rw [hb] at hj; cases hj
      | ok d =>
        rw [hb] at hj
        cases hf : (buildStructure k v).1 <;> rw [hf] at hj <;> cases k <;>
          simp only [if_true, Bool.false_eq_true, if_false, List.mem_cons, List.not_mem_nil, or_false] at hj <;>
          intro k' <;> cases k' <;> (try rcases hj with hj | hj) <;> (try subst hj) <;>
          first | exact Or.inl rfl | exact Or.inr rfl

theorem between_setKey (k : SKind) (id v : PyVal) (i : Inst) : ∀ j ∈ i.setKeyWrites k id v, Between i (i.setKey k id v).1 j := by
  intro j hj
  unfold Inst.setKeyWrites at hj
  unfold Inst.setKey
  split at hj
  · cases hj
  · rename_i hc
    rw [if_neg hc]
    cases hs : id.asStr? with
    | none => rw [hs] at hj; cases hj
    | some s =>
      rw [hs] at hj
      cases hd : mkDims k v with
      | error e => rw [hd] at hj; cases hj
      | ok d =>
        rw [hd] at hj
        simp only [List.mem_append, List.mem_singleton] at hj
        simp only
        intro k'
        rw [data_resetAttrs]
        have e : ∀ d, (i.resetSol.setData k d).data k' = (i.setData k d).data k' := by
          intro d; cases k <;> cases k' <;> rfl
        rcases hj with (hj | hj) | hj
        · exact Or.inl (reset_data hj k')
        · rw [hj]; exact Or.inr (e _)
        · exact Or.inr ((resetAttrs_data hj k').trans (e _))

theorem between_delKey (k : SKind) (key : PyVal) (i : Inst) : ∀ j ∈ i.delKeyWrites k key, Between i (i.delKey k key).1 j := by
  intro j hj
  unfold Inst.delKeyWrites at hj
  unfold Inst.delKey
  split at hj
  · cases hj
  · rename_i hc
    rw [if_neg hc]
    cases hl : lookupKey (i.data k) key with
    | error e => rw [hl] at hj; cases hj
    | ok s =>
      rw [hl] at hj
      simp only [List.mem_cons] at hj
      simp only
      intro k'
      rw [data_resetAttrs]
      rcases hj with hj | hj
      · rw [hj]; exact Or.inr rfl
      · exact Or.inr (resetAttrs_data hj k')

theorem between_setDim (k : SKind) (id key v : PyVal) (i : Inst) :
    ∀ j ∈ i.setDimWrites k id key v, Between i (i.setDim k id key v).1 j := by
  intro j hj
  unfold Inst.setDimWrites at hj
  unfold Inst.setDim
  cases hl : lookupKey (i.data k) id with
  | error e => rw [hl] at hj; cases hj
  | ok p =>
    obtain ⟨s, d⟩ := p
    rw [hl] at hj
    simp only at hj ⊢
    have key : ∀ (m : Inst), j ∈ m :: m.resetWrites → Between i m.resetSol j := by
      intro m hm k'
      rw [data_resetSol]
      rcases List.mem_cons.1 hm with h | h
      · rw [h]; exact Or.inr rfl
      · exact Or.inr (reset_data h k')
    split at hj
    · cases hj
    · rename_i h1
      rw [if_neg h1]
      split at hj
      · cases hj
      · rename_i h2
        rw [if_neg h2]
        split at hj
        · rename_i h3
          rw [if_pos h3]
          cases hp : v.posInt? with
          | none => rw [hp] at hj; cases hj
          | some w => rw [hp] at hj; exact key _ hj
        · rename_i h3
          rw [if_neg h3]
          split at hj
          · rename_i h4
            rw [if_pos h4]
            cases hp : v.posInt? with
            | none => rw [hp] at hj; cases hj
            | some w => rw [hp] at hj; exact key _ hj
          · cases hj

theorem between_popKey (k : SKind) (key : PyVal) (d : Bool) (i : Inst) :
    ∀ j ∈ i.popKeyWrites k key, Between i (i.popKey k key d).1 j := by
  intro j hj
  unfold Inst.popKeyWrites at hj
  unfold Inst.popKey
  cases hl : lookupKey (i.data k) key with
  | error e => rw [hl] at hj; cases hj
  | ok s => rw [hl] at hj; exact between_delKey k key i j hj

theorem between_popItem (k : SKind) (i : Inst) : ∀ j ∈ i.popItemWrites k, Between i (i.popItem k).1 j := by
  intro j hj
  unfold Inst.popItemWrites at hj
  unfold Inst.popItem
  cases hd : i.data k with
  | nil => rw [hd] at hj; cases hj
  | cons p l => rw [hd] at hj; exact between_delKey k _ i j hj

theorem between_setDefault (k : SKind) (key v : PyVal) (i : Inst) :
    ∀ j ∈ i.setDefaultWrites k key v, Between i (i.setDefault k key v).1 j := by
  intro j hj
  unfold Inst.setDefaultWrites at hj
  unfold Inst.setDefault
  cases hl : lookupKey (i.data k) key with
  | error e => rw [hl] at hj; cases e <;> first | exact between_setKey k key v i j hj | cases hj
  | ok s => rw [hl] at hj; cases hj

theorem between_sort (A : Arith) (s : Option (PyVal × Bool)) (i : Inst) :
    ∀ j ∈ i.sortWrites A s, Between i (i.sortItems A s).1 j := by
  intro j hj
  unfold Inst.sortWrites at hj
  unfold Inst.sortItems
  cases s with
  | none => cases hj
  | some p =>
    obtain ⟨b, r⟩ := p
    cases hk : sortKey? A b with
    | none => simp only [hk] at hj; cases hj
    | some f => simp only [hk] at hj ⊢; exact between_assign .items _ i j hj

/-- the first entries of the update are there -/
theorem atomic_update (k : SKind) : ∀ (es : List (PyVal × PyVal)) (i : Inst), ∀ j ∈ Inst.updateWrites k es i,
    ∃ m, ∀ k', j.data k' = (Inst.update k (es.take m) i).1.data k'
  | [], _ => by intro j hj; cases hj
  | (id, v) :: rest, i => by
    intro j hj
    unfold Inst.updateWrites at hj
    rcases List.mem_append.1 hj with hj | hj
    · have h := between_setKey k id v i j hj
      -- both kinds cannot disagree: only kind `k` is written
      have ho : ∀ k', k' ≠ k → (i.setKey k id v).1.data k' = i.data k' := by
        intro k' hk
        unfold Inst.setKey
        split
        · rfl
        · split
          · rfl
          · split
            · rfl
            · rw [data_resetAttrs]; cases k <;> cases k' <;> first | rfl | exact absurd rfl hk
      have e1 : (Inst.update k (((id, v) :: rest).take 1) i).1 = (i.setKey k id v).1 := by
        simp only [List.take_succ_cons, List.take_zero]
        unfold Inst.update
        generalize i.setKey k id v = x
        obtain ⟨m, r⟩ := x
        cases r <;> rfl
      rcases h k with h' | h'
      · refine ⟨0, fun k' => ?_⟩
        show j.data k' = i.data k'
        by_cases hk : k' = k
        · rw [hk]; exact h'
        · rcases h k' with g | g
          · exact g
          · exact g.trans (ho k' hk)
      · refine ⟨1, fun k' => ?_⟩
        rw [e1]
        by_cases hk : k' = k
        · rw [hk]; exact h'
        · rcases h k' with g | g
          · exact g.trans (ho k' hk).symm
          · exact g
    · cases hx : i.setKey k id v with
      | mk m r =>
        rw [hx] at hj
        cases r with
        | error e => cases hj
        | ok u =>
          obtain ⟨n, hn⟩ := atomic_update k rest m j hj
          refine ⟨n + 1, fun k' => ?_⟩
          rw [hn k']
          simp only [List.take_succ_cons]
          rw [Inst.update, hx]

/-- the first sizes of the update are there -/
theorem atomic_updateDim (k : SKind) (id : PyVal) : ∀ (es : List (PyVal × PyVal)) (i : Inst), ∀ j ∈ Inst.updateDimWrites k id es i,
    ∃ m, ∀ k', j.data k' = (Inst.updateDim k id (es.take m) i).1.data k'
  | [], _ => by intro j hj; cases hj
  | (key, v) :: rest, i => by
    intro j hj
    unfold Inst.updateDimWrites at hj
    have h0 : (Inst.updateDim k id [] i).1 = i := by
      unfold Inst.updateDim
      cases lookupKey (i.data k) id <;> rfl
    rcases List.mem_append.1 hj with hj | hj
    · have h := between_setDim k id key v i j hj
      have ho : ∀ k', k' ≠ k → (i.setDim k id key v).1.data k' = i.data k' := by
        intro k' hk
        have hs : ∀ d, (i.setData k d).resetSol.data k' = i.data k' := by
          intro d; cases k <;> cases k' <;> first | rfl | exact absurd rfl hk
        unfold Inst.setDim
        split
        · rfl
        · split
          · rfl
          · split
            · rfl
            · split
              · split
                · exact hs _
                · rfl
              · split
                · split
                  · exact hs _
                  · rfl
                · rfl
      have e1 : (Inst.updateDim k id (((key, v) :: rest).take 1) i).1 = (i.setDim k id key v).1 := by
        simp only [List.take_succ_cons, List.take_zero]
        unfold Inst.updateDim
        generalize i.setDim k id key v = x
        obtain ⟨m, r⟩ := x
        cases r with
        | error e => rfl
        | ok u =>
          show (Inst.updateDim k id [] m).1 = m
          unfold Inst.updateDim
          cases lookupKey (m.data k) id <;> rfl
      rcases h k with h' | h'
      · refine ⟨0, fun k' => ?_⟩
        simp only [List.take_zero, h0]
        by_cases hk : k' = k
        · rw [hk]; exact h'
        · rcases h k' with g | g
          · exact g
          · exact g.trans (ho k' hk)
      · refine ⟨1, fun k' => ?_⟩
        rw [e1]
        by_cases hk : k' = k
        · rw [hk]; exact h'
        · rcases h k' with g | g
          · exact g.trans (ho k' hk).symm
          · exact g
    · cases hx : i.setDim k id key v with
      | mk m r =>
        rw [hx] at hj
        cases r with
        | error e => cases hj
        | ok u =>
          obtain ⟨n, hn⟩ := atomic_updateDim k id rest m j hj
          refine ⟨n + 1, fun k' => ?_⟩
          rw [hn k']
          simp only [List.take_succ_cons]
          rw [Inst.updateDim, hx]

theorem erase_head (p : String × Dim) (l : PyDict String Dim) :
    PyDict.erase (p :: l) p.1 = l := by
  show (if p.1 = p.1 then l else _) = l
  rw [if_pos rfl]

theorem popItem_data {k : SKind} {i : Inst} {j : Inst}
    (h : j = i ∨ j ∈ i.popItemWrites k) : (j.data k = i.data k ∨ j.data k = (i.data k).drop 1) ∧
      ∀ k', k' ≠ k → j.data k' = i.data k' := by
  rcases h with h | h
  · rw [h]; exact ⟨Or.inl rfl, fun _ _ => rfl⟩
  · unfold Inst.popItemWrites at h
    cases hd : i.data k with
    | nil => rw [hd] at h; cases h
    | cons p l =>
      rw [hd] at h
      unfold Inst.delKeyWrites at h
      simp only at h
      split at h
      · cases h
      · rw [hd] at h
        have hl : lookupKey (p :: l) (.str p.1) = .ok (p.1, p.2) := by
          unfold lookupKey
          simp [PyVal.asStr?, PyVal.hashable, PyDict.find?]
        rw [hl] at h
        simp only at h
        rw [erase_head p l] at h
        have key : ∀ k', (i.setData k l).data k' = if k' = k then l else i.data k' := by
          intro k'; cases k <;> cases k' <;> rfl
        have hj : ∀ k', j.data k' = (i.setData k l).data k' := by
          intro k'
          rcases List.mem_cons.1 h with h | h
          · rw [h]
          · exact resetAttrs_data h k'
        constructor
        · right; rw [hj k, key, if_pos rfl]; rfl
        · intro k' hk; rw [hj k', key, if_neg hk]

theorem atomic_clear (k : SKind) : ∀ (n : Nat) {i : Inst}, i.Valid → ∀ j ∈ Inst.clearLoopWrites k n i,
    (∃ m, j.data k = (i.data k).drop m) ∧ ∀ k', k' ≠ k → j.data k' = i.data k'
  | 0, _, _ => by intro j hj; cases hj
  | n + 1, i, hv => by
    intro j hj
    unfold Inst.clearLoopWrites at hj
    rcases List.mem_append.1 hj with hj | hj
    · obtain ⟨h1, h2⟩ := popItem_data (Or.inr hj)
      refine ⟨?_, h2⟩
      rcases h1 with h | h
      · exact ⟨0, h⟩
      · exact ⟨1, h⟩
    · have hl := last_popItem k i
      have hmid : EditMid i (i.popItem k).1 := by
        rcases lastD_mem hl with h | h
        · rw [h]; exact .refl hv
        · exact mid_popItem hv k _ h
      have hd := popItem_data (lastD_mem hl)
      generalize i.popItem k = x at hj hmid hd
      obtain ⟨m, r⟩ := x
      cases r with
      | error e => cases hj
      | ok u =>
        obtain ⟨⟨c, hc⟩, h2⟩ := atomic_clear k n (hmid.valid hv) j hj
        obtain ⟨d1, d2⟩ := hd
        refine ⟨?_, fun k' hk => (h2 k' hk).trans (d2 k' hk)⟩
        rcases d1 with h | h
        · exact ⟨c, by rw [hc]; exact congrArg _ h⟩
        · exact ⟨1 + c, by rw [hc]; simp only at h; rw [h, List.drop_drop]⟩

theorem atomic_orient (t : Nat → Nat → Bool) : ∀ (rest done : PyDict String Dim) (i : Inst),
    i.items = done ++ rest → (PyDict.keys (done ++ rest)).Nodup → (∀ p ∈ rest, 0 < p.2.w ∧ 0 < p.2.l) →
    ∀ j ∈ Inst.orientLoopWrites t (PyDict.keys rest) i, j.containers = i.containers ∧
      ∃ a b, rest = a ++ b ∧ (j.items = done ++ (a.map (turnIf t) ++ b) ∨
        ∃ p b', b = p :: b' ∧ t p.2.w p.2.l = true ∧ j.items = done ++ (a.map (turnIf t) ++ (p.1, ⟨p.2.l, p.2.l⟩) :: b'))
  | [], done, i, hi, _, _ => by intro j hj; cases hj
  | (s, d) :: rest, done, i, hi, hn, hp => by
    intro j hj
    have hs : s ∉ PyDict.keys done := by
      intro hm
      simp only [PyDict.keys, List.map_append, List.map_cons, List.nodup_append] at hn
      exact hn.2.2 s hm s (by simp) rfl
    have hd := hp (s, d) (by simp)
    have hn' : ∀ x : Dim, (PyDict.keys ((done ++ [(s, x)]) ++ rest)).Nodup := by
      intro x
      have : PyDict.keys ((done ++ [(s, x)]) ++ rest) = PyDict.keys (done ++ (s, d) :: rest) := by
        simp [PyDict.keys]
      rw [this]; exact hn
    have hp' : ∀ p ∈ rest, 0 < p.2.w ∧ 0 < p.2.l := fun p h => hp p (by simp [h])
    have hf : PyDict.find? i.items s = some d := by rw [hi]; exact find?_mid hs
    change j ∈ Inst.orientLoopWrites t (s :: PyDict.keys rest) i at hj
    unfold Inst.orientLoopWrites at hj
    simp only [hf] at hj
    by_cases ht : t d.w d.l = true
    · have hm : (turnIf t (s, d)) = (s, turned d) := by simp [turnIf, ht]
      rw [if_pos ht] at hj
      have b1 := between_setDim .items (.str s) (.str "w") (.int d.l) i
      rw [(setDim_mid hi hs hd.2).1] at hj b1
      simp only at hj
      rcases List.mem_append.1 hj with hj | hj
      · have b := b1 j hj
        refine ⟨?_, ?_⟩
        · rcases b .containers with h | h <;> exact h
        · rcases b .items with h | h
          · exact ⟨[], _, rfl, Or.inl (by simpa using (show j.items = i.items from h).trans hi)⟩
          · exact ⟨[], _, rfl, Or.inr ⟨(s, d), rest, rfl, ht, h⟩⟩
      · have b2 := between_setDim .items (.str s) (.str "l") (.int d.w)
          { i with items := done ++ (s, { d with w := d.l }) :: rest, solution := [], objVals := [] }
        rw [(setDim_mid (i := { i with items := done ++ (s, { d with w := d.l }) :: rest, solution := [], objVals := [] })
          rfl hs hd.1).2] at hj b2
        simp only at hj
        rcases List.mem_append.1 hj with hj | hj
        · have b := b2 j hj
          refine ⟨?_, ?_⟩
          · rcases b .containers with h | h <;> exact h
          · rcases b .items with h | h
            · exact ⟨[], _, rfl, Or.inr ⟨(s, d), rest, rfl, ht, h⟩⟩
            · exact ⟨[(s, d)], rest, rfl, Or.inl (h.trans (by rw [List.map_singleton, hm]; rfl))⟩
        · obtain ⟨e1, a, b, e2, e3⟩ := atomic_orient t rest (done ++ [(s, turned d)]) _ (by simp [turned]) (hn' _) hp' j hj
          refine ⟨e1, (s, d) :: a, b, by rw [e2]; rfl, ?_⟩
          rcases e3 with h | ⟨p, b', h1, h2, h3⟩
          · left; rw [h, List.map_cons, hm]; simp
          · right; refine ⟨p, b', h1, h2, ?_⟩; rw [h3, List.map_cons, hm]; simp
    · have hm : (turnIf t (s, d)) = (s, d) := by simp [turnIf, ht]
      rw [if_neg ht] at hj
      obtain ⟨e1, a, b, e2, e3⟩ := atomic_orient t rest (done ++ [(s, d)]) i (by rw [hi]; simp) (hn' _) hp' j hj
      refine ⟨e1, (s, d) :: a, b, by rw [e2]; rfl, ?_⟩
      rcases e3 with h | ⟨p, b', h1, h2, h3⟩
      · left; rw [h, List.map_cons, hm]; simp
      · right; refine ⟨p, b', h1, h2, ?_⟩; rw [h3, List.map_cons, hm]; simp

end HP
