import Verif.Proofs.Machine
import Verif.Proofs.Agree
import Verif.SpecStructures
/-
C13, C14, C25, C36 - C46: items, containers, heights and strategy over all histories.
-/
namespace HP
open Spec

/-! ### accepted values -/

theorem posInt?_iff {v : PyVal} {n : Nat} : v.posInt? = some n ↔ IsPosInt v n := by
  unfold PyVal.posInt? IsPosInt
  cases v with
  | bool b => cases b <;> simp [PyVal.asInt?] <;> omega
  | int i =>
    simp only [PyVal.asInt?, PyVal.int.injEq, reduceCtorEq, false_and, or_false]
    split
    · simp; omega
    · simp only [Option.some.injEq]; omega
  | _ => simp [PyVal.asInt?]

theorem atLeastOne?_iff {v : PyVal} {n : Nat} : v.atLeastOne? = some n ↔ IsPosInt v n := by
  rw [← posInt?_iff]
  unfold PyVal.posInt? PyVal.atLeastOne?
  cases v.asInt? with
  | none => rfl
  | some i =>
    simp only
    by_cases h : i ≤ 0
    · rw [if_pos h, if_pos (by omega)]
    · rw [if_neg h, if_neg (by omega)]

theorem Spec.IsPosInt.unique {v : PyVal} {a b : Nat} (h1 : IsPosInt v a) (h2 : IsPosInt v b) : a = b := by
  rw [← posInt?_iff] at h1 h2
  rw [h1] at h2; injection h2

theorem eqStr_iff {v : PyVal} {s : String} : v.eqStr s = true ↔ v = .str s := by
  cases v <;> simp [PyVal.eqStr]

/-- the values accepted as a size -/
theorem mkDims_iff (k : SKind) (v : PyVal) (d : Dim) :
    mkDims k v = .ok d ↔ IsSize k.width k.length v d := by
  have hne : k.width ≠ k.length := by cases k <;> decide
  constructor
  · intro h
    unfold mkDims at h
    split at h
    · cases h
    · rename_i es hes
      have hv : v = .dict es := by cases v <;> simp_all [PyVal.asDict?]
      split at h
      · cases h
      · split at h
        · rename_i a b ha hb
          split at h
          · rename_i hlen
            split at h
            · rename_i w l hw hl
              injection h with h
              subst h
              refine ⟨a, b, ?_, posInt?_iff.1 hw, posInt?_iff.1 hl⟩
              match es, hlen with
              | [(k1, v1), (k2, v2)], _ =>
                rw [hv]
                simp only [PyVal.get?] at ha hb
                by_cases c1 : k1.eqStr k.width = true
                · rw [if_pos c1] at ha
                  have e1 := eqStr_iff.1 c1
                  subst e1
                  have : (PyVal.str k.width).eqStr k.length = false := by simp [PyVal.eqStr, hne]
                  rw [this] at hb
                  by_cases c2 : k2.eqStr k.length = true
                  · rw [c2] at hb
                    simp at ha hb
                    have e2 := eqStr_iff.1 c2
                    left; rw [e2, ha, hb]
                  · simp [c2] at hb
                · rw [if_neg c1] at ha
                  by_cases c2 : k2.eqStr k.width = true
                  · rw [if_pos c2] at ha
                    have e2 := eqStr_iff.1 c2
                    subst e2
                    have : (PyVal.str k.width).eqStr k.length = false := by simp [PyVal.eqStr, hne]
                    rw [this] at hb
                    by_cases c3 : k1.eqStr k.length = true
                    · rw [c3] at hb
                      have e3 := eqStr_iff.1 c3
                      simp only [if_true, Option.some.injEq] at ha hb
                      right; rw [e3]; simp [hb]; simpa using ha
                    · simp [c3] at hb
                  · simp [c2] at ha
            · cases h
          · cases h
        · cases h
  · rintro ⟨a, b, hv, ha, hb⟩
    have ha' := posInt?_iff.2 ha
    have hb' := posInt?_iff.2 hb
    have f1 : (k.width == k.length) = false := by simpa using hne
    have f2 : (k.length == k.width) = false := by simpa using hne.symm
    rcases hv with rfl | rfl
    · simp [mkDims, PyVal.asDict?, PyVal.get?, PyVal.eqStr, f1, ha', hb']
    · simp [mkDims, PyVal.asDict?, PyVal.get?, PyVal.eqStr, f2, ha', hb']

theorem asStr?_iff {v : PyVal} {s : String} : v.asStr? = some s ↔ v = .str s := by
  cases v <;> simp [PyVal.asStr?]

theorem buildEntries_iff (k : SKind) : ∀ (es : List (PyVal × PyVal)) (acc d : PyDict String Dim) (t : Bool),
    (buildEntries k es acc t).2 = .ok d ↔
      ∃ sizes : List (String × Dim),
        List.Forall₂ (fun e s => e.1 = .str s.1 ∧ IsSize k.width k.length e.2 s.2) es sizes ∧
        d = sizes.foldl (fun acc s => PyDict.insert acc s.1 s.2) acc
  | [], acc, d, t => by
    simp only [buildEntries, Except.ok.injEq]
    constructor
    · rintro rfl; exact ⟨[], .nil, rfl⟩
    · rintro ⟨sizes, h, rfl⟩; cases h; rfl
  | (id, v) :: es, acc, d, t => by
    unfold buildEntries
    cases hs : id.asStr? with
    | none =>
      simp only [reduceCtorEq, false_iff]
      rintro ⟨sizes, h, _⟩
      cases h with
      | cons h1 _ => rw [asStr?_iff.2 h1.1] at hs; cases hs
    | some s =>
      have hid := asStr?_iff.1 hs
      simp only
      cases hd : mkDims k v with
      | error e =>
        simp only [reduceCtorEq, false_iff]
        rintro ⟨sizes, h, _⟩
        cases h with
        | cons h1 _ => rw [(mkDims_iff k v _).2 h1.2] at hd; cases hd
      | ok x =>
        simp only
        rw [buildEntries_iff k es]
        constructor
        · rintro ⟨sizes, h, rfl⟩
          exact ⟨(s, x) :: sizes, .cons ⟨hid, (mkDims_iff k v x).1 hd⟩ h, rfl⟩
        · rintro ⟨sizes, h, rfl⟩
          cases h with
          | @cons _ y _ ys h1 h2 =>
            obtain ⟨s', x'⟩ := y
            have e1 : s' = s := by
              have := h1.1
              rw [hid] at this
              simpa using this.symm
            have e2 : x' = x := by
              have := (mkDims_iff k v x').2 h1.2
              rw [hd] at this
              simpa using this.symm
            subst e1 e2
            exact ⟨ys, h2, rfl⟩

theorem insert_append_new {d : PyDict String Dim} {s : String} (x : Dim) (h : s ∉ PyDict.keys d) :
    PyDict.insert d s x = d ++ [(s, x)] := by
  induction d with
  | nil => rfl
  | cons p l ih =>
    simp only [PyDict.keys, List.map_cons, List.mem_cons, not_or] at h
    unfold PyDict.insert
    rw [if_neg (fun e => h.1 e.symm), ih h.2]
    rfl

theorem foldl_insert_nodup : ∀ (sizes acc : PyDict String Dim), ((acc ++ sizes).map (·.1)).Nodup →
    sizes.foldl (fun acc s => PyDict.insert acc s.1 s.2) acc = acc ++ sizes
  | [], acc, _ => by simp
  | (s, x) :: rest, acc, h => by
    have hs : s ∉ PyDict.keys acc := by
      intro hm
      rw [List.map_append, List.nodup_append] at h
      exact h.2.2 _ hm s (by simp) rfl
    simp only [List.foldl_cons]
    rw [insert_append_new x hs, foldl_insert_nodup rest _ (by simpa using h)]
    simp

theorem buildStructure_iff (k : SKind) (v : PyVal) (d : PyDict String Dim) :
    (buildStructure k v).2 = .ok d ↔
      ∃ sizes, IsSizes k.width k.length v sizes ∧
        d = sizes.foldl (fun acc s => PyDict.insert acc s.1 s.2) [] := by
  unfold buildStructure IsSizes
  cases hv : v.asDict? with
  | none =>
    simp only [reduceCtorEq, false_iff]
    rintro ⟨_, ⟨es, rfl, _⟩, _⟩
    simp [PyVal.asDict?] at hv
  | some es =>
    have he : v = .dict es := by cases v <;> simp_all [PyVal.asDict?]
    subst he
    simp only
    by_cases h : es.isEmpty = true
    · rw [if_pos h]
      simp only [reduceCtorEq, false_iff]
      rintro ⟨_, ⟨es', h1, h2, _⟩, _⟩
      injection h1 with h1
      subst h1
      exact h2 (List.isEmpty_iff.1 h)
    · rw [if_neg h, buildEntries_iff]
      constructor
      · rintro ⟨sizes, h1, h2⟩
        exact ⟨sizes, ⟨es, rfl, by simpa using h, h1⟩, h2⟩
      · rintro ⟨sizes, ⟨es', h1, h2, h3⟩, h4⟩
        injection h1 with h1
        subst h1
        exact ⟨sizes, h3, h4⟩

theorem outcome_ok {r : Inst × Except PyErr Unit} : (outcomeOf r).2 = .ok ↔ r.2 = .ok () := by
  obtain ⟨j, e⟩ := r
  cases e <;> simp [outcomeOf, Outcome.of]

theorem outcome_raised {r : Inst × Except PyErr Unit} {e : PyErr} :
    (outcomeOf r).2 = .raised e ↔ r.2 = .error e := by
  obtain ⟨j, x⟩ := r
  cases x <;> simp [outcomeOf, Outcome.of]

/-! ### C36 -/

theorem sizes_of_valid {i : Inst} (hv : i.Valid) :
    (IsSizes "w" "l" (SKind.items.encodeAll i.items) i.items ∧ (i.items.map (·.1)).Nodup) ∧
    (IsSizes "W" "L" (SKind.containers.encodeAll i.containers) i.containers ∧
      (i.containers.map (·.1)).Nodup) := by
  have key : ∀ (k : SKind) (d : PyDict String Dim), ValidSizes d → d ≠ [] →
      IsSizes k.width k.length (k.encodeAll d) d := by
    intro k d hd hne
    refine ⟨_, rfl, by simpa using hne, ?_⟩
    rw [List.forall₂_map_left_iff]
    refine List.forall₂_same.2 ?_
    intro p hp
    have := hd.2 p hp
    exact ⟨rfl, _, _, Or.inl rfl, ⟨this.1, Or.inl rfl⟩, ⟨this.2, Or.inl rfl⟩⟩
  exact ⟨⟨key .items _ hv.items hv.itemsNe, hv.items.1⟩, ⟨key .containers _ hv.conts hv.contsNe, hv.conts.1⟩⟩

/-- C36: in every reachable state both structures are non-empty dicts from different string ids
to dicts with exactly the two expected keys and positive integer values (`encodeAll` is what
`deepcopy()` shows). -/
theorem C36_valid (A : Arith) (i : Inst) (h : Reach A i) :
    (IsSizes "w" "l" (SKind.items.encodeAll i.items) i.items ∧ (i.items.map (·.1)).Nodup) ∧
    (IsSizes "W" "L" (SKind.containers.encodeAll i.containers) i.containers ∧
      (i.containers.map (·.1)).Nodup) :=
  sizes_of_valid h.good.valid

/-! ### C59: what the edits accept and do -/

/-- the structure may not be edited: the container of strip packing -/
def Locked (k : SKind) (i : Inst) : Prop := k = .containers ∧ i.strip = true

instance (k : SKind) (i : Inst) : Decidable (Locked k i) := by unfold Locked; infer_instance

theorem locked_iff (k : SKind) (i : Inst) :
    (decide (k = .containers) && i.strip) = true ↔ Locked k i := by
  unfold Locked; simp

/-- C59, `problem.items = v`: accepted exactly for non-empty dicts from strings to sizes, and
then the structure is that dict (the ids of a Python dict are different). -/
theorem C59_assign (A : Arith) (i : Inst) (k : SKind) (v : PyVal) :
    ((step A i (.assign k v)).2 = .ok ↔
      ¬ Locked k i ∧ ∃ sizes, IsSizes k.width k.length v sizes) ∧
    (∀ sizes, ¬ Locked k i → IsSizes k.width k.length v sizes → (sizes.map (·.1)).Nodup →
      (step A i (.assign k v)).1.data k = sizes) := by
  have hstep : step A i (.assign k v) = outcomeOf (i.assign k v) := rfl
  rw [hstep, outcome_ok]
  by_cases hl : Locked k i
  · constructor
    · have : i.assign k v = (i, .error (.containersError "STRIP_PACK_ONLY")) := by
        unfold Inst.assign; rw [if_pos ((locked_iff k i).2 hl)]
      rw [this]; simp [hl]
    · intro _ h; exact absurd hl h
  · have hl' : ¬ ((decide (k = .containers) && i.strip) = true) := fun h => hl ((locked_iff k i).1 h)
    unfold Inst.assign
    rw [if_neg hl']
    simp only
    cases hb : (buildStructure k v).2 with
    | error e =>
      have hno : ¬ ∃ sizes, IsSizes k.width k.length v sizes := by
        rintro ⟨sizes, hs⟩
        rw [(buildStructure_iff k v _).2 ⟨sizes, hs, rfl⟩] at hb
        cases hb
      constructor
      · simp [hno]
      · intro sizes _ hs; exact absurd ⟨sizes, hs⟩ hno
    | ok d =>
      obtain ⟨sizes, hs, hd⟩ := (buildStructure_iff k v d).1 hb
      constructor
      · constructor
        · intro _; exact ⟨hl, sizes, hs⟩
        · intro _; cases k <;> rfl
      · intro sizes' _ hs' hn
        have := (buildStructure_iff k v _).2 ⟨sizes', hs', rfl⟩
        rw [hb] at this
        injection this with this
        rw [foldl_insert_nodup sizes' [] (by simpa using hn), List.nil_append] at this
        cases k <;> exact this

/-- C59, `problem.items[id] = v`: accepted exactly for a string and a size; then the entry of
`id` is that size and the others are as before, a new id comes last. -/
theorem C59_setKey (A : Arith) (i : Inst) (k : SKind) (id v : PyVal) :
    ((step A i (.setKey k id v)).2 = .ok ↔
      ¬ Locked k i ∧ ∃ s d, id = .str s ∧ IsSize k.width k.length v d) ∧
    (∀ s d, ¬ Locked k i → id = .str s → IsSize k.width k.length v d →
      PyDict.find? ((step A i (.setKey k id v)).1.data k) s = some d ∧
      (∀ s', s' ≠ s →
        PyDict.find? ((step A i (.setKey k id v)).1.data k) s' = PyDict.find? (i.data k) s') ∧
      PyDict.keys ((step A i (.setKey k id v)).1.data k) =
        (if s ∈ PyDict.keys (i.data k) then PyDict.keys (i.data k)
         else PyDict.keys (i.data k) ++ [s])) := by
  have hstep : step A i (.setKey k id v) = outcomeOf (i.setKey k id v) := rfl
  rw [hstep, outcome_ok]
  by_cases hl : Locked k i
  · constructor
    · have : i.setKey k id v = (i, .error (.containersError "STRIP_PACK_ONLY")) := by
        unfold Inst.setKey; rw [if_pos ((locked_iff k i).2 hl)]
      rw [this]; simp [hl]
    · intro _ _ h; exact absurd hl h
  · have hl' : ¬ ((decide (k = .containers) && i.strip) = true) := fun h => hl ((locked_iff k i).1 h)
    constructor
    · unfold Inst.setKey
      rw [if_neg hl']
      cases hid : id.asStr? with
      | none =>
        simp only [reduceCtorEq, false_iff, not_and]
        rintro _ ⟨s, d, rfl, _⟩
        simp [PyVal.asStr?] at hid
      | some s =>
        simp only
        cases hd : mkDims k v with
        | error e =>
          simp only [reduceCtorEq, false_iff, not_and]
          rintro _ ⟨s, d, _, hd'⟩
          rw [(mkDims_iff k v d).2 hd'] at hd; cases hd
        | ok d =>
          simp only [true_iff]
          exact ⟨hl, s, d, asStr?_iff.1 hid, (mkDims_iff k v d).1 hd⟩
    · intro s d _ hid hd
      have : (outcomeOf (i.setKey k id v)).1.data k = PyDict.insert (i.data k) s d := by
        unfold Inst.setKey
        rw [if_neg hl', asStr?_iff.2 hid]
        simp only
        rw [(mkDims_iff k v d).2 hd]
        cases k <;> rfl
      rw [this]
      exact ⟨PyDict.find?_insert_self _ _ _, fun s' h => PyDict.find?_insert_ne _ _ h,
        PyDict.keys_insert _ _ _⟩

/-- C59, `problem.items[id][key] = v`: accepted exactly for an id of the structure, one of its two
keys and a positive integer; then that number is replaced and nothing else. -/
theorem C59_setDim (A : Arith) (i : Inst) (k : SKind) (id key v : PyVal) :
    ((step A i (.setDim k id key v)).2 = .ok ↔
      ¬ Locked k i ∧ ∃ s d n, id = .str s ∧ PyDict.find? (i.data k) s = some d ∧ IsPosInt v n ∧
        (key = .str k.width ∨ key = .str k.length)) ∧
    (∀ s d n, ¬ Locked k i → id = .str s → PyDict.find? (i.data k) s = some d → IsPosInt v n →
      (key = .str k.width →
        (step A i (.setDim k id key v)).1.data k = PyDict.insert (i.data k) s ⟨n, d.l⟩) ∧
      (key = .str k.length →
        (step A i (.setDim k id key v)).1.data k = PyDict.insert (i.data k) s ⟨d.w, n⟩)) := by
  have hstep : step A i (.setDim k id key v) = outcomeOf (i.setDim k id key v) := rfl
  have hne : k.width ≠ k.length := by cases k <;> decide
  have hwl : (PyVal.str k.length).eqStr k.width = false := by simp [PyVal.eqStr, hne.symm]
  rw [hstep, outcome_ok]
  constructor
  · unfold Inst.setDim
    cases hk : lookupKey (i.data k) id with
    | error e =>
      simp only [reduceCtorEq, false_iff, not_and]
      rintro _ ⟨s, d, n, rfl, hf, _⟩
      simp [lookupKey, PyVal.asStr?, hf] at hk
    | ok p =>
      obtain ⟨s, d⟩ := p
      obtain ⟨h1, h2⟩ := lookupKey_ok hk
      simp only
      by_cases hl : Locked k i
      · rw [if_pos ((locked_iff k i).2 hl)]; simp [hl]
      · rw [if_neg (fun h => hl ((locked_iff k i).1 h))]
        by_cases hh : (!key.hashable) = true
        · rw [if_pos hh]
          simp only [reduceCtorEq, false_iff, not_and]
          rintro _ ⟨s, d, n, _, _, _, rfl | rfl⟩ <;> simp [PyVal.hashable] at hh
        · rw [if_neg hh]
          by_cases hw : key.eqStr k.width = true
          · rw [if_pos hw]
            cases hn : v.posInt? with
            | none =>
              simp only [reduceCtorEq, false_iff, not_and]
              rintro _ ⟨s, d, n, _, _, hp, _⟩
              rw [posInt?_iff.2 hp] at hn; cases hn
            | some n =>
              simp only [true_iff]
              exact ⟨hl, s, d, n, h1, h2, posInt?_iff.1 hn, Or.inl (eqStr_iff.1 hw)⟩
          · rw [if_neg hw]
            by_cases hw' : key.eqStr k.length = true
            · rw [if_pos hw']
              cases hn : v.posInt? with
              | none =>
                simp only [reduceCtorEq, false_iff, not_and]
                rintro _ ⟨s, d, n, _, _, hp, _⟩
                rw [posInt?_iff.2 hp] at hn; cases hn
              | some n =>
                simp only [true_iff]
                exact ⟨hl, s, d, n, h1, h2, posInt?_iff.1 hn, Or.inr (eqStr_iff.1 hw')⟩
            · rw [if_neg hw']
              simp only [reduceCtorEq, false_iff, not_and]
              rintro _ ⟨s, d, n, _, _, _, hc | hc⟩
              · exact hw (eqStr_iff.2 hc)
              · exact hw' (eqStr_iff.2 hc)
  · intro s d n hl hid hf hn
    have hl' : ¬ ((decide (k = .containers) && i.strip) = true) := fun h => hl ((locked_iff k i).1 h)
    subst hid
    have hk : lookupKey (i.data k) (.str s) = .ok (s, d) := by simp [lookupKey, PyVal.asStr?, hf]
    constructor
    · rintro rfl
      unfold Inst.setDim
      rw [hk]; simp only
      rw [if_neg hl', if_neg (by simp [PyVal.hashable]), if_pos (eqStr_iff.2 rfl), posInt?_iff.2 hn]
      cases k <;> rfl
    · rintro rfl
      unfold Inst.setDim
      rw [hk]; simp only
      rw [if_neg hl', if_neg (by simp [PyVal.hashable]), if_neg (by simp [hwl]),
        if_pos (eqStr_iff.2 rfl), posInt?_iff.2 hn]
      cases k <;> rfl

/-- C59, `del problem.items[key]`: accepted exactly for an id of a structure with at least two
entries; then that entry is gone and the others are as before. -/
theorem C59_delKey (A : Arith) (i : Inst) (h : Reach A i) (k : SKind) (key : PyVal) :
    ((step A i (.delKey k key)).2 = .ok ↔
      ¬ Locked k i ∧ 2 ≤ (i.data k).length ∧ ∃ s ∈ PyDict.keys (i.data k), key = .str s) ∧
    (∀ s, key = .str s → (step A i (.delKey k key)).2 = .ok →
      (step A i (.delKey k key)).1.data k = (i.data k).filter (fun p => p.1 ≠ s)) := by
  have hv := h.good.valid
  have hne := data_ne hv k
  have hpos : 0 < (i.data k).length := List.length_pos_iff.2 hne
  have hnd := (data_valid hv k).1
  have hstep : step A i (.delKey k key) = outcomeOf (i.delKey k key) := rfl
  rw [hstep, outcome_ok]
  have hlock : Locked k i → (i.data k).length = 1 := by
    rintro ⟨rfl, hs⟩
    obtain ⟨W, hW⟩ := hv.strip hs
    show i.containers.length = 1
    rw [hW]; rfl
  unfold Inst.delKey
  by_cases h1 : (i.data k).length = 1
  · rw [if_pos h1]
    constructor
    · simp only [reduceCtorEq, false_iff]
      rintro ⟨_, h2, _⟩; omega
    · intro _ _ h; cases h
  · rw [if_neg h1]
    cases hk : lookupKey (i.data k) key with
    | error e =>
      constructor
      · simp only [reduceCtorEq, false_iff]
        rintro ⟨_, _, s, hs, rfl⟩
        obtain ⟨d, hd⟩ := PyDict.find?_isSome_of_mem_keys hs
        simp [lookupKey, PyVal.asStr?, hd] at hk
      · intro _ _ h; cases h
    | ok p =>
      obtain ⟨s, d⟩ := p
      obtain ⟨e1, e2⟩ := lookupKey_ok hk
      constructor
      · simp only [true_iff]
        exact ⟨fun hl => h1 (hlock hl), by omega, s, PyDict.mem_keys_of_find? e2, e1⟩
      · intro s' hs' _
        rw [e1] at hs'
        injection hs' with hs'
        subst hs'
        have herase : ∀ d : PyDict String Dim, (d.map (·.1)).Nodup →
            PyDict.erase d s = d.filter (fun p => p.1 ≠ s) := by
          intro d
          induction d with
          | nil => intro _; rfl
          | cons p l ih =>
            intro hn
            simp only [List.map_cons, List.nodup_cons] at hn
            unfold PyDict.erase
            by_cases hp : p.1 = s
            · rw [if_pos hp, List.filter_cons_of_neg (by simp [hp])]
              symm
              rw [List.filter_eq_self]
              intro q hq
              have : q.1 ≠ s := by
                rintro rfl
                exact hn.1 (by rw [hp]; exact List.mem_map_of_mem hq)
              simp [this]
            · rw [if_neg hp, List.filter_cons_of_pos (by simp [hp]), ih hn.2]
        rw [← herase _ hnd]
        cases k <;> rfl

/-! ### C38: a change discards the old result -/

/-- the operations that change one structure or raise -/
def Op.isEdit : Op → Bool
  | .assign .. | .setKey .. | .setDim .. | .delKey .. | .popItem .. => true
  | _ => false

/-- all operations on `items` and `containers` -/
def Op.onStructures : Op → Bool
  | .assign .. | .setKey .. | .setDim .. | .delKey .. | .popItem .. | .delDim .. | .popKey .. | .clear ..
  | .update .. | .updateDim .. | .setDefault .. | .sortItems .. | .orientItems .. => true
  | _ => false

theorem Edited.cleared {i j : Inst} (h : Edited i j) : j.solution = [] ∧ j.objVals = [] := by
  obtain ⟨cs, its, n, rfl, _⟩ := h
  exact ⟨rfl, rfl⟩

theorem EditOrSame.ok {i : Inst} {r : Inst × Except PyErr Unit} (h : EditOrSame i r)
    (hok : (outcomeOf r).2 = .ok) : Edited i r.1 := by
  rcases h with ⟨_, h⟩ | ⟨e, h, _⟩
  · exact h
  · rw [outcome_ok, h] at hok; cases hok

theorem EditOrSame.raised {i : Inst} {r : Inst × Except PyErr Unit} (h : EditOrSame i r) {e : PyErr}
    (hr : (outcomeOf r).2 = .raised e) : (outcomeOf r).1 = i := by
  rcases h with ⟨h, _⟩ | ⟨_, _, h⟩
  · rw [outcome_raised, h] at hr; cases hr
  · exact h

/-- C38: after every successful assignment of a structure, a key or a dimension, and every
successful deletion, solution and objective values are empty. -/
theorem C38_discards (A : Arith) (i : Inst) (h : Reach A i) (o : Op) (ho : o.isEdit = true)
    (hok : (step A i o).2 = .ok) : (step A i o).1.solution = [] ∧ (step A i o).1.objVals = [] := by
  have hv := h.good.valid
  cases o with
  | assign k v =>
    rcases assign_spec hv k v with ⟨_, he⟩ | ⟨e, he, _⟩
    · exact he.cleared
    · have : (outcomeOf (i.assign k v)).2 = .ok := hok
      rw [outcome_ok, he] at this; cases this
  | setKey k id v => exact ((setKey_spec hv k id v).ok hok).cleared
  | setDim k id key v => exact ((setDim_spec hv k id key v).ok hok).cleared
  | delKey k key => exact ((delKey_spec hv k key).ok hok).cleared
  | popItem k => exact ((popItem_spec hv k).ok hok).cleared
  | _ => simp [Op.isEdit] at ho

/-- C38 for every operation on the structures, also the inherited dict methods, sorting and
orienting, whether it raises or not: the object is as before, or solution and objective values
are empty.  In particular no changed item or container coexists with an old result. -/
theorem C38_changed (A : Arith) (i : Inst) (h : Reach A i) (o : Op) (ho : o.onStructures = true) :
    (step A i o).1 = i ∨ ((step A i o).1.solution = [] ∧ (step A i o).1.objVals = []) := by
  have hv := h.good.valid
  have key : ∀ j, (j = i ∨ Edited i j) → j = i ∨ (j.solution = [] ∧ j.objVals = []) := by
    rintro j (h | h)
    · exact Or.inl h
    · exact Or.inr h.cleared
  cases o with
  | assign k v => exact key _ (assign_edited hv k v)
  | setKey k id v => exact key _ (setKey_spec hv k id v).either
  | delKey k k' => exact key _ (delKey_spec hv k k').either
  | setDim k id k' v => exact key _ (setDim_spec hv k id k' v).either
  | delDim k id => exact Or.inl (delDim_same i k id).1
  | popKey k k' d => exact key _ (popKey_edited hv k k' d)
  | popItem k => exact key _ (popItem_spec hv k).either
  | clear k => exact key _ (clearLoop_edited k _ hv)
  | update k es => exact key _ (update_edited k es hv)
  | updateDim k id es => exact key _ (updateDim_edited k id es hv)
  | setDefault k k' v => exact key _ (setDefault_edited hv k k' v)
  | sortItems s => exact key _ (sortItems_edited hv A s)
  | orientItems o => exact key _ (orientItems_edited hv o)
  | _ => simp [Op.onStructures] at ho

/-! ### C39, C40: rejected changes -/

/-- operations that change at most one entry, or assign the whole structure -/
def Op.isSingle : Op → Bool
  | .assign .. | .setKey .. | .setDim .. | .delKey .. | .popItem .. | .delDim .. | .popKey ..
  | .setDefault .. | .delAttr .. => true
  | _ => false

/-- C39: an operation of this kind that raises leaves items, containers and the number of
containers as they were. -/
theorem C39_rejected (A : Arith) (i : Inst) (h : Reach A i) (o : Op) (ho : o.isSingle = true) (e : PyErr)
    (hr : (step A i o).2 = .raised e) :
    (step A i o).1.items = i.items ∧ (step A i o).1.containers = i.containers ∧
    (step A i o).1.containersNum = i.containersNum := by
  have hv := h.good.valid
  have key : (step A i o).1 = i → (step A i o).1.items = i.items ∧
      (step A i o).1.containers = i.containers ∧ (step A i o).1.containersNum = i.containersNum := by
    intro h; rw [h]; exact ⟨rfl, rfl, rfl⟩
  cases o with
  | assign k v =>
    rcases assign_spec hv k v with ⟨he, _⟩ | ⟨e, _, he | he⟩
    · have : (outcomeOf (i.assign k v)).2 = .raised e := hr
      rw [outcome_raised, he] at this; cases this
    · exact key he
    · have : (step A i (.assign k v)).1 = i.resetSol := he
      rw [this]; exact ⟨rfl, rfl, rfl⟩
  | setKey k id v => exact key ((setKey_spec hv k id v).raised hr)
  | setDim k id k' v => exact key ((setDim_spec hv k id k' v).raised hr)
  | delKey k k' => exact key ((delKey_spec hv k k').raised hr)
  | popItem k => exact key ((popItem_spec hv k).raised hr)
  | delDim k id => exact key (delDim_same i k id).1
  | delAttr => exact key rfl
  | popKey k k' d =>
    apply key
    have hr' : (outcomeOf (i.popKey k k' d)).2 = .raised e := hr
    show (outcomeOf (i.popKey k k' d)).1 = i
    unfold Inst.popKey at hr' ⊢
    split
    · rfl
    · rfl
    · rename_i heq
      rw [heq] at hr'
      exact (delKey_spec hv k k').raised hr'
  | setDefault k k' v =>
    apply key
    have hr' : (outcomeOf (i.setDefault k k' v)).2 = .raised e := hr
    show (outcomeOf (i.setDefault k k' v)).1 = i
    unfold Inst.setDefault at hr' ⊢
    split
    · rfl
    · rename_i heq
      rw [heq] at hr'
      exact (setKey_spec hv k k' v).raised hr'
    · rfl
  | _ => simp [Op.isSingle] at ho

/-- C39 for `update`: when it raises, exactly the entries before the rejected one have been
assigned. -/
theorem C39_update (A : Arith) (k : SKind) : ∀ (es : List (PyVal × PyVal)) (i : Inst) (e : PyErr),
    (step A i (.update k es)).2 = .raised e →
    ∃ pre id v post, es = pre ++ (id, v) :: post ∧ (step A i (.update k pre)).2 = .ok ∧
      (step A i (.update k es)).1 = (step A i (.update k pre)).1 ∧
      (step A (step A i (.update k pre)).1 (.setKey k id v)).2 = .raised e
  | [], i, e, h => by
    have : (Outcome.ok) = .raised e := h
    cases this
  | (id, v) :: es, i, e, h => by
    have h' : (outcomeOf (Inst.update k ((id, v) :: es) i)).2 = .raised e := h
    rw [outcome_raised] at h'
    unfold Inst.update at h'
    cases hs : i.setKey k id v with
    | mk j r =>
      rw [hs] at h'
      cases r with
      | error e' =>
        simp only [Except.error.injEq] at h'
        subst h'
        have hj : j = i := by
          unfold Inst.setKey at hs
          split at hs
          · injection hs with hs _; exact hs.symm
          · split at hs
            · injection hs with hs _; exact hs.symm
            · split at hs
              · injection hs with hs _; exact hs.symm
              · injection hs with _ hs; cases hs
        refine ⟨[], id, v, es, rfl, rfl, ?_, ?_⟩
        · show (Inst.update k ((id, v) :: es) i).1 = i
          unfold Inst.update
          rw [hs]; exact hj
        · show (outcomeOf (i.setKey k id v)).2 = .raised _
          rw [hs]; rfl
      | ok u =>
        cases u
        simp only at h'
        obtain ⟨pre, id', v', post, h1, h2, h3, h4⟩ := C39_update A k es j e (outcome_raised.2 h')
        have hstep : ∀ l, step A i (.update k ((id, v) :: l)) = step A j (.update k l) := by
          intro l
          show outcomeOf (Inst.update k ((id, v) :: l) i) = outcomeOf (Inst.update k l j)
          rw [show Inst.update k ((id, v) :: l) i = Inst.update k l j by
            rw [Inst.update, hs]]
        refine ⟨(id, v) :: pre, id', v', post, by rw [h1]; rfl, ?_, ?_, ?_⟩
        · rw [hstep]; exact h2
        · rw [hstep, hstep]; exact h3
        · rw [hstep]; exact h4

theorem buildEntries_touched (k : SKind) : ∀ (es : List (PyVal × PyVal)) (acc : PyDict String Dim) (t : Bool),
    (buildEntries k es acc t).1 = (t || match es with
      | [] => false
      | (id, v) :: _ => id.asStr?.isSome && (mkDims k v).isOk)
  | [], acc, t => by simp [buildEntries]
  | (id, v) :: es, acc, t => by
    unfold buildEntries
    cases hid : id.asStr? with
    | none => simp [hid]
    | some s =>
      simp only
      cases hd : mkDims k v with
      | error e => simp [Except.isOk, Except.toBool]
      | ok d =>
        simp only
        rw [buildEntries_touched k es]
        simp [hid, Except.isOk, Except.toBool]

/-- C40, exactly when a rejected assignment of a structure loses the old result: if the first
entry of the dict was acceptable.  Otherwise, and for every other single operation that is
rejected, the object is unchanged. -/
theorem C40_partial (A : Arith) (i : Inst) (h : Reach A i) (e : PyErr) :
    (∀ k v, (step A i (.assign k v)).2 = .raised e →
      (step A i (.assign k v)).1 = i ∨
      ((step A i (.assign k v)).1 = { i with solution := [], objVals := [] } ∧
        ∃ s x d rest, v = .dict ((.str s, x) :: rest) ∧ IsSize k.width k.length x d)) ∧
    (∀ o : Op, o.isSingle = true → (∀ k v, o ≠ .assign k v) → (step A i o).2 = .raised e →
      (step A i o).1 = i) := by
  have hv := h.good.valid
  constructor
  · intro k v hr
    have hr' : (outcomeOf (i.assign k v)).2 = .raised e := hr
    rw [outcome_raised] at hr'
    show (i.assign k v).1 = i ∨ ((i.assign k v).1 = i.resetSol ∧ _)
    unfold Inst.assign at hr' ⊢
    split
    · exact Or.inl rfl
    · rename_i hl
      rw [if_neg hl] at hr'
      simp only at hr' ⊢
      cases hb : (buildStructure k v).2 with
      | ok d => rw [hb] at hr'; cases k <;> simp at hr'
      | error e' =>
        simp only
        by_cases ht : (buildStructure k v).1 = true
        · right
          rw [if_pos ht]
          refine ⟨rfl, ?_⟩
          unfold buildStructure at ht
          cases hd : v.asDict? with
          | none => rw [hd] at ht; simp at ht
          | some es =>
            have he : v = .dict es := by cases v <;> simp_all [PyVal.asDict?]
            rw [hd] at ht
            simp only at ht
            split at ht
            · simp at ht
            · rw [buildEntries_touched] at ht
              match es, ht with
              | [], ht => simp at ht
              | (id, x) :: rest, ht =>
                simp only [Bool.false_or, Bool.and_eq_true] at ht
                obtain ⟨t1, t2⟩ := ht
                obtain ⟨s, hs⟩ := Option.isSome_iff_exists.1 t1
                cases hm : mkDims k x with
                | error _ => rw [hm] at t2; simp [Except.isOk, Except.toBool] at t2
                | ok d =>
                  exact ⟨s, x, d, rest, by rw [he, asStr?_iff.1 hs], (mkDims_iff k x d).1 hm⟩
        · left; rw [if_neg ht]
  · intro o ho hno hr
    cases o with
    | assign k v => exact absurd rfl (hno k v)
    | setKey k id v => exact (setKey_spec hv k id v).raised hr
    | setDim k id k' v => exact (setDim_spec hv k id k' v).raised hr
    | delKey k k' => exact (delKey_spec hv k k').raised hr
    | popItem k => exact (popItem_spec hv k).raised hr
    | delDim k id => exact (delDim_same i k id).1
    | delAttr => rfl
    | popKey k k' d =>
      have hr' : (outcomeOf (i.popKey k k' d)).2 = .raised e := hr
      show (outcomeOf (i.popKey k k' d)).1 = i
      unfold Inst.popKey at hr' ⊢
      split
      · rfl
      · rfl
      · rename_i heq
        rw [heq] at hr'
        exact (delKey_spec hv k k').raised hr'
    | setDefault k k' v =>
      have hr' : (outcomeOf (i.setDefault k k' v)).2 = .raised e := hr
      show (outcomeOf (i.setDefault k k' v)).1 = i
      unfold Inst.setDefault at hr' ⊢
      split
      · rfl
      · rename_i heq
        rw [heq] at hr'
        exact (setKey_spec hv k k' v).raised hr'
      · rfl
    | _ => simp [Op.isSingle] at ho

/-! ### A concrete problem -/

/-- two containers 4 x 3 and 2 x 2 -/
def problemConts : PyVal := .dict
  [(.str "c1", .dict [(.str "W", .int 4), (.str "L", .int 3)]),
   (.str "c2", .dict [(.str "L", .int 2), (.str "W", .int 2)])]

/-- three items -/
def problemItems : PyVal := .dict
  [(.str "a", .dict [(.str "w", .int 2), (.str "l", .int 3)]),
   (.str "b", .dict [(.str "w", .int 4), (.str "l", .int 1)]),
   (.str "c", .dict [(.str "w", .int 2), (.str "l", .int 2)])]

/-- neither plotly nor kaleido, no files -/
def bareEnv : Env := ⟨none, none, fun _ => false, fun _ => false⟩

/-- `HyperPack(containers, items)` -/
def problem : Inst := { rawInst false [("c1", ⟨4, 3⟩), ("c2", ⟨2, 2⟩)]
    [("a", ⟨2, 3⟩), ("b", ⟨4, 1⟩), ("c", ⟨2, 2⟩)] none (.dict []) with
  rotation := true, maxTime := 60, workers := .int 1 }

theorem problem_new : mkInst bareEnv problemConts problemItems .none .none = .ok problem := by rfl

theorem problem_reach (A : Arith) : Reach A problem := .new problem_new

/-- the same after `solve()` -/
def problemSolved : Inst := { problem with
  solution := [("c1", [("a", ⟨0, 0, 2, 3⟩), ("c", ⟨2, 0, 2, 2⟩)]), ("c2", [])],
  objVals := [("c1", 5 / 6), ("c2", 0)] }

/-- C40 is false of the code: an assignment of items that is rejected because of its second
entry has already discarded the solution. -/
theorem C40_refuted : ∃ (i : Inst) (v : PyVal) (e : PyErr), Reach Arith.exact i ∧ i.solution ≠ [] ∧
    (step Arith.exact i (.assign .items v)).2 = .raised e ∧
    (step Arith.exact i (.assign .items v)).1.items = i.items ∧
    (step Arith.exact i (.assign .items v)).1.solution = [] := by
  refine ⟨(step Arith.exact problem (.solve none)).1,
    .dict [(.str "a", .dict [(.str "w", .int 2), (.str "l", .int 3)]), (.str "b", .none)], _,
    .step _ (problem_reach _), ?_, rfl, rfl, rfl⟩
  decide +kernel

theorem problem_solve : step Arith.exact problem (.solve none) = (problemSolved, .ok) := by
  have h : HP.solve Arith.exact problem.solveIn none = .ok (problemSolved.solution, problemSolved.objVals) := by
    decide +kernel
  simp only [step, Inst.solve, bind, Except.bind, pure, Except.pure]
  rw [h]
  rfl

theorem problemSolved_reach : Reach Arith.exact problemSolved := by
  have := Reach.step (.solve none) (problem_reach Arith.exact)
  rw [problem_solve] at this
  exact this

/-- C38 on the solved problem: turning item "a" is accepted and discards the packing -/
example : problemSolved.solution ≠ [] ∧
    (step Arith.exact problemSolved (.setDim .items (.str "a") (.str "w") (.int 3))).2 = .ok ∧
    (step Arith.exact problemSolved (.setDim .items (.str "a") (.str "w") (.int 3))).1.solution = [] :=
  ⟨by decide, rfl, rfl⟩

/-- C39 on the solved problem: rejected operations of each kind -/
example :
    (step Arith.exact problemSolved (.setDim .items (.str "a") (.str "w") (.int 0))).2 =
      .raised (.dimensionsError "DIMENSION_VALUE") ∧
    (step Arith.exact problemSolved (.setKey .items (.int 3) (.dict []))).2 = .raised (.itemsError "ID_TYPE") ∧
    (step Arith.exact problemSolved (.delKey .containers (.str "c3"))).2 = .raised .keyError ∧
    (step Arith.exact problemSolved (.update .containers
      [(.str "c3", .dict [(.str "W", .int 1), (.str "L", .int 1)]), (.str "c4", .none)])).2 =
      .raised (.dimensionsError "DIMENSIONS_TYPE") :=
  ⟨rfl, rfl, rfl, rfl⟩

/-! ### C41: the last entry stays -/

/-- C41: items and containers are never empty. -/
theorem C41_nonempty (A : Arith) (i : Inst) (h : Reach A i) : i.items ≠ [] ∧ i.containers ≠ [] :=
  ⟨h.good.valid.itemsNe, h.good.valid.contsNe⟩

theorem clearLoop_last (k : SKind) : ∀ (n : Nat) (i : Inst), i.Valid → (i.data k).length ≤ n →
    (Inst.clearLoop k n i).2 = .error (k.error "CANT_DELETE_STRUCTURE") ∧
    ∃ last, (i.data k).getLast? = some last ∧ (Inst.clearLoop k n i).1.data k = [last]
  | 0, i, hv, hn => by
    have := data_ne hv k
    exact absurd (List.length_eq_zero_iff.1 (Nat.le_zero.1 hn)) this
  | n + 1, i, hv, hn => by
    have hne := data_ne hv k
    match hd : i.data k with
    | [] => exact absurd hd hne
    | (s, x) :: rest =>
      have hp : i.popItem k = i.delKey k (.str s) := by unfold Inst.popItem; rw [hd]
      unfold Inst.clearLoop
      rw [hp]
      cases rest with
      | nil =>
        have : i.delKey k (.str s) = (i, .error (k.error "CANT_DELETE_STRUCTURE")) := by
          unfold Inst.delKey; rw [hd]; rfl
        rw [this]
        cases k <;> exact ⟨rfl, (s, x), rfl, hd⟩
      | cons q rest =>
        have hdel : i.delKey k (.str s) = ((i.setData k (q :: rest)).resetAttrs k, .ok ()) := by
          unfold Inst.delKey
          rw [hd]
          simp [lookupKey, PyVal.asStr?, PyDict.find?, PyDict.erase]
        have hspec := delKey_spec hv k (.str s)
        have hv' : ((i.setData k (q :: rest)).resetAttrs k).Valid := by
          have := either_valid hv hspec.either
          rw [hdel] at this; exact this
        have hdata : ((i.setData k (q :: rest)).resetAttrs k).data k = q :: rest := by cases k <;> rfl
        rw [hdel]
        simp only
        obtain ⟨h1, last, h2, h3⟩ := clearLoop_last k n _ hv' (by
          rw [hdata]; rw [hd] at hn; simp only [List.length_cons] at hn ⊢; omega)
        rw [hdata] at h2
        exact ⟨h1, last, by rw [← h2]; simp [List.getLast?_cons_cons], h3⟩

/-- C41: `clear()` raises, and leaves exactly the last entry. -/
theorem C41_clear (A : Arith) (i : Inst) (h : Reach A i) (k : SKind) :
    (step A i (.clear k)).2 = .raised (k.error "CANT_DELETE_STRUCTURE") ∧
    ∃ last, (i.data k).getLast? = some last ∧ (step A i (.clear k)).1.data k = [last] := by
  obtain ⟨h1, h2⟩ := clearLoop_last k ((i.data k).length + 1) i h.good.valid (Nat.le_succ _)
  exact ⟨outcome_raised.2 h1, h2⟩

example : (step Arith.exact problemSolved (.clear .items)).1.items = [("c", ⟨2, 2⟩)] := rfl

/-! ### C42: the container of strip packing -/

/-- the operations on `containers` -/
def Op.onContainers : Op → Bool
  | .assign k _ | .setKey k _ _ | .setDim k _ _ _ | .delKey k _ | .popItem k | .delDim k _ | .clear k =>
    decide (k = .containers)
  | _ => false

/-- C42: on a strip packing object every attempt to assign the containers, a container or a
dimension, or to delete (also `popitem`, `clear`) raises and changes nothing. -/
theorem C42_rejected (A : Arith) (i : Inst) (h : Reach A i) (hs : i.strip = true) (o : Op)
    (ho : o.onContainers = true) : (step A i o).1 = i ∧ ∃ e, (step A i o).2 = .raised e := by
  have hv := h.good.valid
  obtain ⟨W, hW⟩ := hv.strip hs
  have hlen : (i.data .containers).length = 1 := by show i.containers.length = 1; rw [hW]; rfl
  have hdel : ∀ k, i.delKey .containers k = (i, .error (.containersError "CANT_DELETE_STRUCTURE")) := by
    intro k; unfold Inst.delKey; rw [if_pos hlen]; rfl
  have hpop : i.popItem .containers = (i, .error (.containersError "CANT_DELETE_STRUCTURE")) := by
    have : i.data .containers = [(stripId, ⟨W, stripInitHeight⟩)] := hW
    unfold Inst.popItem
    rw [this]
    exact hdel _
  cases o with
  | assign k v =>
    have : k = .containers := by simpa [Op.onContainers] using ho
    subst this
    simp [step, Inst.assign, hs, outcomeOf, Outcome.of]
  | setKey k id v =>
    have : k = .containers := by simpa [Op.onContainers] using ho
    subst this
    simp [step, Inst.setKey, hs, outcomeOf, Outcome.of]
  | setDim k id key v =>
    have : k = .containers := by simpa [Op.onContainers] using ho
    subst this
    simp only [step, Inst.setDim]
    cases lookupKey (i.data .containers) id with
    | error e => exact ⟨rfl, e, rfl⟩
    | ok p => simp [hs, outcomeOf, Outcome.of]
  | delKey k key =>
    have : k = .containers := by simpa [Op.onContainers] using ho
    subst this
    simp only [step]
    rw [hdel]; exact ⟨rfl, _, rfl⟩
  | popItem k =>
    have : k = .containers := by simpa [Op.onContainers] using ho
    subst this
    simp only [step]
    rw [hpop]; exact ⟨rfl, _, rfl⟩
  | delDim k id =>
    obtain ⟨h1, e, h2⟩ := delDim_same i k id
    exact ⟨h1, e, outcome_raised.2 h2⟩
  | clear k =>
    have : k = .containers := by simpa [Op.onContainers] using ho
    subst this
    simp only [step, Inst.clear, Inst.clearLoop]
    rw [hpop]; exact ⟨rfl, _, rfl⟩
  | _ => simp [Op.onContainers] at ho

theorem Edited.strip {i j : Inst} (h : j = i ∨ Edited i j) (hs : i.strip = true) :
    j.strip = true ∧ j.containers = i.containers := by
  rcases h with rfl | ⟨cs, its, n, rfl, _, _, _, _, h⟩
  · exact ⟨hs, rfl⟩
  · exact ⟨hs, h.1 hs⟩

theorem step_strip {A : Arith} {i : Inst} (hg : Good A i) (hs : i.strip = true) (o : Op) :
    (step A i o).1.strip = true ∧ (step A i o).1.containers = i.containers := by
  have hv := hg.valid
  have same : ∀ j : Inst, j.strip = i.strip → j.containers = i.containers →
      j.strip = true ∧ j.containers = i.containers := fun j a b => ⟨by rw [a]; exact hs, b⟩
  have hsearch : ∀ (a : HSArgs) (j : Inst), j.Valid → j.strip = true → j.containers = i.containers →
      (j.search A a).1.strip = true ∧ (j.search A a).1.containers = i.containers := by
    intro a j hj h1 h2
    by_cases hw : j.workers.isOne = true
    · obtain ⟨s, k1, k2⟩ := C27_returns A a j hj hw
      rw [k2]
      obtain ⟨f1, _⟩ := C27_frame A _ _ _ j _ hj s k1
      show s.finish.strip = true ∧ s.finish.containers = _
      rw [f1]; exact ⟨h1, h2⟩
    · unfold Inst.search
      rw [if_neg hw]
      split <;> exact ⟨h1, h2⟩
  cases o with
  | assign k v => exact Edited.strip (assign_edited hv k v) hs
  | setKey k id v => exact Edited.strip (setKey_spec hv k id v).either hs
  | delKey k k' => exact Edited.strip (delKey_spec hv k k').either hs
  | setDim k id k' v => exact Edited.strip (setDim_spec hv k id k' v).either hs
  | delDim k id => exact Edited.strip (Or.inl (delDim_same i k id).1) hs
  | popKey k k' d => exact Edited.strip (popKey_edited hv k k' d) hs
  | popItem k => exact Edited.strip (popItem_spec hv k).either hs
  | clear k => exact Edited.strip (clearLoop_edited k _ hv) hs
  | update k es => exact Edited.strip (update_edited k es hv) hs
  | updateDim k id es => exact Edited.strip (updateDim_edited k id es hv) hs
  | setDefault k k' v => exact Edited.strip (setDefault_edited hv k k' v) hs
  | sortItems s => exact Edited.strip (sortItems_edited hv A s) hs
  | orientItems o => exact Edited.strip (orientItems_edited hv o) hs
  | delAttr => exact ⟨hs, rfl⟩
  | height v =>
    simp only [step, Inst.assignHeight]
    split
    · exact ⟨hs, rfl⟩
    · split
      · split <;> exact ⟨hs, rfl⟩
      · exact ⟨hs, rfl⟩
  | minHeight v =>
    simp only [step, Inst.assignMinHeight]
    split
    · exact ⟨hs, rfl⟩
    · split
      · exact ⟨hs, rfl⟩
      · split <;> exact ⟨hs, rfl⟩
  | resetHeight =>
    simp only [step, Inst.resetHeight]
    rw [if_pos hs]
    split <;> exact ⟨hs, rfl⟩
  | strategy v =>
    simp only [step, Inst.assignStrategy]
    split
    · exact ⟨hs, rfl⟩
    · split <;> exact ⟨hs, rfl⟩
  | settings E v =>
    have := (validateSettings_frame { i with settings := v } E).1
    show (Inst.validateSettings E { i with settings := v }).1.strip = true ∧
      (Inst.validateSettings E { i with settings := v }).1.containers = i.containers
    rw [this]; exact ⟨hs, rfl⟩
  | editSettings v => exact ⟨hs, rfl⟩
  | validate E =>
    have := (validateSettings_frame i E).1
    show (i.validateSettings E).1.strip = true ∧ (i.validateSettings E).1.containers = i.containers
    rw [this]; exact ⟨hs, rfl⟩
  | solve seq =>
    simp only [step]
    split
    · rename_i j h
      rw [(solve_good hg h).2]
      exact ⟨hs, rfl⟩
    · exact ⟨hs, rfl⟩
  | localSearch clock throttle =>
    simp only [step]
    split
    · rename_i j t h
      rw [(C17_frame A _ _ throttle i j t hv h).1]
      exact ⟨hs, rfl⟩
    · exact ⟨hs, rfl⟩
  | hypersearch a =>
    show (i.hypersearch A a).1.strip = true ∧ (i.hypersearch A a).1.containers = i.containers
    unfold Inst.hypersearch
    have hv1 := either_valid hv (sortItems_edited hv A a.sortingBy)
    have h1 := Edited.strip (sortItems_edited hv A a.sortingBy) hs
    split
    · rename_i heq; rw [heq] at h1; exact h1
    · rename_i j heq
      rw [heq] at h1 hv1
      have hv2 := either_valid hv1 (orientItems_edited hv1 a.orientation)
      have h2 := Edited.strip (orientItems_edited hv1 a.orientation) h1.1
      split
      · rename_i heq'; rw [heq'] at h2; exact ⟨h2.1, h2.2.trans h1.2⟩
      · rename_i heq'
        rw [heq'] at h2 hv2
        exact hsearch a _ hv2 h2.1 (h2.2.trans h1.2)
  | log => exact ⟨hs, rfl⟩
  | figure writes show_ => exact ⟨hs, rfl⟩

/-- C42: whatever is done to a strip packing object, its one container keeps its id, its width
and its (unused) length. -/
theorem C42_kept (A : Arith) (i : Inst) (h : Reach A i) (hs : i.strip = true) (ops : List Op) :
    (runOps A i ops).containers = i.containers ∧
    ∃ W, 0 < W ∧ i.containers = [("strip-pack-container", ⟨W, 2 ^ 100⟩)] := by
  constructor
  · induction ops generalizing i with
    | nil => rfl
    | cons o ops ih =>
      obtain ⟨h1, h2⟩ := step_strip h.good hs o
      show (runOps A (step A i o).1 ops).containers = _
      rw [ih _ (.step o h) h1, h2]
  · obtain ⟨W, hW⟩ := h.good.valid.strip hs
    have hpos := h.good.valid.conts.2 (stripId, ⟨W, stripInitHeight⟩) (by rw [hW]; simp)
    exact ⟨W, hpos.1, hW⟩

/-- a strip packing problem: `HyperPack(strip_pack_width=4, items=items)` -/
def stripProblem : Inst := { rawInst true [(stripId, ⟨4, stripInitHeight⟩)]
    [("a", ⟨2, 3⟩), ("b", ⟨4, 1⟩), ("c", ⟨2, 2⟩)] (some 40) (.dict []) with
  rotation := true, maxTime := 60, workers := .int 1 }

theorem stripProblem_reach (A : Arith) : Reach A stripProblem :=
  .new (show mkInst bareEnv .none problemItems .none (.int 4) = .ok stripProblem by rfl)

/-- C42's hypotheses on it -/
example : stripProblem.strip = true ∧
    (step Arith.exact stripProblem (.setDim .containers (.str stripId) (.str "W") (.int 5))).2 =
      .raised (.containersError "STRIP_PACK_ONLY") := ⟨rfl, rfl⟩

/-! ### C43: no stale result -/

/-- C43: in every reachable state the result is empty, or its containers are exactly the current
ones and so are those of the objective values, every placed item is a current item, placed once,
with its current size up to rotation, and inside the current width of its container (and, in bin
packing, its current length; the length of a strip is not limited by its container). -/
theorem C43_current (A : Arith) (i : Inst) (h : Reach A i) :
    (i.solution = [] ∧ i.objVals = []) ∨
    (i.solution.map (·.1) = i.containers.map (·.1) ∧ i.objVals.map (·.1) = i.containers.map (·.1) ∧
     (placedIds i.solution).Nodup ∧
     ∀ cid m, (cid, m) ∈ i.solution → ∃ c, (cid, c) ∈ i.containers ∧
       ∀ id r, (id, r) ∈ m → ∃ d, (id, d) ∈ i.items ∧ SizedAs true d r ∧
         r.x + r.w ≤ c.w ∧ (i.strip = false → r.y + r.l ≤ c.l)) := by
  rcases h.good.sol with hs | hs
  · exact Or.inl hs
  · have hf := hs.facts
    exact Or.inr ⟨hf.keysS, hf.keysO, hs.nodup, hs.placements⟩

/-- C43 on the solved problem -/
example : problemSolved.solution ≠ [] := by decide

/-- after another item is made smaller the result is empty, after solving again it is the new one -/
example :
    ((step Arith.exact (step Arith.exact problemSolved
        (.setDim .items (.str "b") (.str "w") (.int 2))).1 (.solve none)).1.solution =
      [("c1", [("a", ⟨0, 0, 2, 3⟩), ("b", ⟨2, 0, 2, 1⟩), ("c", ⟨2, 1, 2, 2⟩)]), ("c2", [])]) := by
  decide +kernel

/-! ### C44: the overall objective -/

/-- C44, for histories that do not use a `Containers` object that has been replaced: whenever there
is a result, `calculate_obj_value()` is the sum of the utilizations of the current containers,
the last one weighted 0.7 exactly if there are several. -/
theorem C44_partial (A : Arith) (i : Inst) (h : Reach A i) (hsol : i.solution ≠ []) :
    i.objVals.map (·.1) = i.containers.map (·.1) ∧
    (i.containers.length = 1 → i.calcObj A = .ok (A.sum (i.objVals.map (·.2)))) ∧
    (2 ≤ i.containers.length → ∃ init last, i.objVals.map (·.2) = init ++ [last] ∧
      i.calcObj A = .ok (A.add (A.sum init) (A.mul07 last))) := by
  have hv := h.good.valid
  rcases h.good.sol with ⟨h1, _⟩ | hs
  · exact absurd h1 hsol
  · have hk := hs.facts.keysO
    have hlen : i.objVals.length = i.containers.length := by
      have := congrArg List.length hk
      simpa [PyDict.keys] using this
    refine ⟨hk, ?_, ?_⟩
    · intro h1
      unfold Inst.calcObj
      rw [if_pos (by rw [h.num]; exact h1)]
    · intro h2
      have hne : i.objVals.map (·.2) ≠ [] := by
        intro he
        have := congrArg List.length he
        simp only [List.length_map, List.length_nil] at this
        omega
      refine ⟨(i.objVals.map (·.2)).dropLast, (i.objVals.map (·.2)).getLast hne,
        (List.dropLast_append_getLast hne).symm, ?_⟩
      unfold Inst.calcObj
      rw [if_neg (by rw [h.num]; omega), List.getLast?_eq_some_getLast hne]

/-- C44 on the solved problem: 5/6 + 0.7 * 0 -/
example : problemSolved.calcObj Arith.exact = .ok (5 / 6) := by decide +kernel

/-- C44 without a result: 0 for one container, IndexError for several -/
theorem C44_unsolved (A : Arith) (i : Inst) (h : Reach A i) (hsol : i.solution = []) :
    (i.containers.length = 1 → i.calcObj A = .ok (A.sum [])) ∧
    (2 ≤ i.containers.length → i.calcObj A = .error .indexError) := by
  have hv := h.good.valid
  have ho : i.objVals = [] := by
    rcases h.good.sol with ⟨_, h2⟩ | hs
    · exact h2
    · have := hs.facts.keysS
      rw [hsol] at this
      have : i.containers = [] := by
        simpa [PyDict.keys] using this.symm
      exact absurd this hv.contsNe
  unfold Inst.calcObj
  rw [ho]
  constructor
  · intro h1; rw [if_pos (by rw [h.num]; exact h1)]; rfl
  · intro h1; rw [if_neg (by rw [h.num]; omega)]; rfl

/-! ### C45: strategy -/

theorem ofName?_iff (s : String) (c : PClass) : PClass.ofName? s = some c ↔ c.name = s := by
  constructor
  · intro h
    have := List.find?_some h
    simpa using this
  · rintro rfl
    cases c <;> decide

theorem name_mem (c : PClass) : c.name ∈ pointNames := by cases c <;> decide

theorem name_inj {a b : PClass} (h : a.name = b.name) : a = b := by
  have h1 := (ofName?_iff b.name a).2 h
  have h2 := (ofName?_iff b.name b).2 rfl
  rw [h1] at h2
  injection h2

theorem exists_of_name {s : String} (h : s ∈ pointNames) : ∃ c : PClass, c.name = s := by
  simp only [pointNames, List.mem_cons, List.not_mem_nil, or_false] at h
  rcases h with rfl | rfl | rfl | rfl | rfl | rfl | rfl | rfl | rfl | rfl
  · exact ⟨.A, rfl⟩
  · exact ⟨.B, rfl⟩
  · exact ⟨.C, rfl⟩
  · exact ⟨.D, rfl⟩
  · exact ⟨.A_, rfl⟩
  · exact ⟨.B_, rfl⟩
  · exact ⟨.B__, rfl⟩
  · exact ⟨.A__, rfl⟩
  · exact ⟨.E, rfl⟩
  · exact ⟨.F, rfl⟩

theorem checkStrategy_iff : ∀ (l : List PyVal) (seen cs : List PClass), seen.Nodup →
    (checkStrategy l seen = .ok cs ↔
      ∃ new : List PClass, cs = seen ++ new ∧ cs.Nodup ∧ l = new.map (fun c => .str c.name))
  | [], seen, cs, hn => by
    simp only [checkStrategy, Except.ok.injEq]
    constructor
    · rintro rfl; exact ⟨[], by simp, hn, rfl⟩
    · rintro ⟨new, h1, _, h2⟩
      have : new = [] := by simpa using h2.symm
      subst this; simpa using h1.symm
  | v :: rest, seen, cs, hn => by
    unfold checkStrategy
    cases hv : v.asStr? with
    | none =>
      simp only [reduceCtorEq, false_iff]
      rintro ⟨new, _, _, h2⟩
      cases new with
      | nil => cases h2
      | cons c new =>
        simp only [List.map_cons, List.cons.injEq] at h2
        rw [h2.1] at hv; cases hv
    | some s =>
      have hvs := asStr?_iff.1 hv
      simp only
      cases hc : PClass.ofName? s with
      | none =>
        simp only [reduceCtorEq, false_iff]
        rintro ⟨new, _, _, h2⟩
        cases new with
        | nil => cases h2
        | cons c new =>
          simp only [List.map_cons, List.cons.injEq] at h2
          rw [hvs] at h2
          have : s = c.name := by simpa using h2.1
          rw [(ofName?_iff s c).2 this.symm] at hc; cases hc
      | some c =>
        have hcs := (ofName?_iff s c).1 hc
        simp only
        by_cases hm : c ∈ seen
        · rw [if_pos hm]
          simp only [reduceCtorEq, false_iff]
          rintro ⟨new, h1, h3, h2⟩
          cases new with
          | nil => cases h2
          | cons c' new =>
            simp only [List.map_cons, List.cons.injEq] at h2
            rw [hvs] at h2
            have e : s = c'.name := by simpa using h2.1
            have : c' = c := name_inj (by rw [← e, hcs])
            subst this
            rw [h1, List.nodup_append] at h3
            exact h3.2.2 _ hm c' (by simp) rfl
        · rw [if_neg hm]
          have hn' : (seen ++ [c]).Nodup := by
            rw [List.nodup_append]
            refine ⟨hn, by simp, ?_⟩
            rintro a ha b hb rfl
            simp only [List.mem_singleton] at hb
            subst hb; exact hm ha
          rw [checkStrategy_iff rest (seen ++ [c]) cs hn']
          constructor
          · rintro ⟨new, h1, h3, h2⟩
            exact ⟨c :: new, by rw [h1]; simp, h3, by rw [hvs, ← hcs, h2]; rfl⟩
          · rintro ⟨new, h1, h3, h2⟩
            cases new with
            | nil => cases h2
            | cons c' new =>
              simp only [List.map_cons, List.cons.injEq] at h2
              have e : s = c'.name := by rw [hvs] at h2; simpa using h2.1
              have : c' = c := name_inj (by rw [← e, hcs])
              subst this
              exact ⟨new, by rw [h1]; simp, h3, h2.2⟩

theorem checkStrategy_error : ∀ (l : List PyVal) (seen : List PClass) (e : PyErr),
    checkStrategy l seen = .error e → ∃ m, e = .potentialPointsError m
  | [], seen, e, h => by simp [checkStrategy] at h
  | v :: rest, seen, e, h => by
    unfold checkStrategy at h
    split at h
    · injection h with h; exact ⟨_, h.symm⟩
    · split at h
      · injection h with h; exact ⟨_, h.symm⟩
      · split at h
        · injection h with h; exact ⟨_, h.symm⟩
        · exact checkStrategy_error rest _ e h

/-- C45: assigning the strategy succeeds exactly for tuples of different names of point classes,
which is then the strategy, and nothing else changes; every other value raises
PotentialPointsError and changes nothing. -/
theorem C45_strategy (A : Arith) (i : Inst) (v : PyVal) :
    ((step A i (.strategy v)).2 = .ok ↔ ∃ names, IsStrategy v names) ∧
    (∀ names, IsStrategy v names →
      ∃ cs : List PClass, cs.map PClass.name = names ∧ (step A i (.strategy v)).1 = { i with strategy := cs }) ∧
    ((step A i (.strategy v)).2 ≠ .ok → (step A i (.strategy v)).1 = i ∧
      ∃ m, (step A i (.strategy v)).2 = .raised (.potentialPointsError m)) := by
  have hstep : step A i (.strategy v) = outcomeOf (i.assignStrategy v) := rfl
  have hiff : (∃ cs, i.assignStrategy v = ({ i with strategy := cs }, .ok ()) ∧
      ∃ l, v = .tuple l ∧ checkStrategy l [] = .ok cs) ∨
      (∃ m, i.assignStrategy v = (i, .error (.potentialPointsError m)) ∧
        ∀ l, v = .tuple l → ∃ e, checkStrategy l [] = .error e) := by
    unfold Inst.assignStrategy
    cases hv : v.asTuple? with
    | none =>
      right
      refine ⟨_, rfl, ?_⟩
      rintro l rfl; cases hv
    | some l =>
      have hl : v = .tuple l := by cases v <;> simp_all [PyVal.asTuple?]
      simp only
      cases hc : checkStrategy l [] with
      | error e =>
        right
        obtain ⟨m, rfl⟩ := checkStrategy_error l [] e hc
        refine ⟨m, rfl, ?_⟩
        intro l' h'
        rw [hl] at h'
        injection h' with h'
        subst h'; exact ⟨_, hc⟩
      | ok cs => left; exact ⟨cs, rfl, l, hl, hc⟩
  have hnames : ∀ names, IsStrategy v names → ∃ cs : List PClass, cs.map PClass.name = names ∧
      v = .tuple (cs.map (fun c => .str c.name)) ∧ checkStrategy (cs.map (fun c => .str c.name)) [] = .ok cs := by
    rintro names ⟨h1, h2, h3⟩
    have hex : ∀ ns : List String, (∀ n ∈ ns, n ∈ pointNames) → ∃ cs : List PClass, cs.map PClass.name = ns := by
      intro ns
      induction ns with
      | nil => intro _; exact ⟨[], rfl⟩
      | cons a l ih =>
        intro h
        obtain ⟨cs, hcs⟩ := ih (fun n hn => h n (by simp [hn]))
        obtain ⟨c, hc⟩ := exists_of_name (h a (by simp))
        exact ⟨c :: cs, by simp [hc, hcs]⟩
    obtain ⟨cs, hcs⟩ := hex names h3
    have hn : cs.Nodup := by
      apply List.Nodup.of_map PClass.name
      rw [hcs]; exact h2
    refine ⟨cs, hcs, ?_, (checkStrategy_iff _ [] cs List.nodup_nil).2 ⟨cs, rfl, hn, rfl⟩⟩
    rw [h1, ← hcs, List.map_map]; rfl
  rw [hstep]
  refine ⟨?_, ?_, ?_⟩
  · rw [outcome_ok]
    constructor
    · intro hok
      rcases hiff with ⟨cs, _, l, hl, hc⟩ | ⟨m, h1, _⟩
      · obtain ⟨new, h1, h2, h3⟩ := (checkStrategy_iff l [] cs List.nodup_nil).1 hc
        simp only [List.nil_append] at h1
        subst h1
        refine ⟨cs.map PClass.name, ?_, h2.map (fun _ _ h => name_inj h), ?_⟩
        · rw [hl, h3, List.map_map]; rfl
        · intro n hn
          obtain ⟨c, _, rfl⟩ := List.mem_map.1 hn
          exact name_mem c
      · rw [h1] at hok; cases hok
    · rintro ⟨names, hs⟩
      obtain ⟨cs, _, h2, h3⟩ := hnames names hs
      rcases hiff with ⟨cs, h1, _⟩ | ⟨m, _, h1⟩
      · rw [h1]
      · obtain ⟨e, he⟩ := h1 _ h2
        rw [h3] at he; cases he
  · intro names hs
    obtain ⟨cs, h1, h2, h3⟩ := hnames names hs
    refine ⟨cs, h1, ?_⟩
    unfold Inst.assignStrategy
    rw [h2]
    simp only [PyVal.asTuple?]
    rw [h3]; rfl
  · intro hne
    rcases hiff with ⟨cs, h1, _⟩ | ⟨m, h1, _⟩
    · rw [h1] at hne; exact absurd rfl hne
    · rw [h1]; exact ⟨rfl, m, rfl⟩

example : IsStrategy (.tuple [.str "B__", .str "A"]) ["B__", "A"] := ⟨rfl, by decide, by decide⟩

/-! ### C25, C46: heights -/

/-- C25: in every reachable state of a strip packing object the container height is a positive
integer and the minimum height is None or a positive integer not above it. -/
theorem C25_heights (A : Arith) (i : Inst) (h : Reach A i) (hs : i.strip = true) :
    ∃ H, i.height = some H ∧ 0 < H ∧ ∀ m, i.minHeight = some m → 0 < m ∧ m ≤ H := by
  have hg := h.good
  obtain ⟨H, h1, h2⟩ := hg.valid.height hs
  refine ⟨H, h1, h2, ?_⟩
  intro m hm
  refine ⟨hg.valid.minPos m hm, ?_⟩
  have := hg.minLe
  rw [hm, h1] at this
  exact this

/-- C46, `problem.container_height = v`: accepted exactly for integers from the minimum height (or
1) on; then it is the height; otherwise an error is raised; nothing else changes. -/
theorem C46_height (A : Arith) (i : Inst) (v : PyVal) :
    ((step A i (.height v)).2 = .ok ↔ ∃ n, IsPosInt v n ∧ ∀ m, i.minHeight = some m → m ≤ n) ∧
    (∀ n, IsPosInt v n → (∀ m, i.minHeight = some m → m ≤ n) →
      (step A i (.height v)).1 = { i with height := some n }) ∧
    ((step A i (.height v)).2 ≠ .ok → (step A i (.height v)).1 = i ∧
      ((step A i (.height v)).2 = .raised (.dimensionsError "DIMENSION_VALUE") ∨
       (step A i (.height v)).2 = .raised (.containersError "STRIP_PACK_MIN_HEIGHT"))) := by
  simp only [step, Inst.assignHeight]
  cases hn : v.atLeastOne? with
  | none =>
    have hno : ∀ n, ¬ IsPosInt v n := fun n h => by rw [atLeastOne?_iff.2 h] at hn; cases hn
    refine ⟨?_, ?_, ?_⟩
    · simp [outcomeOf, Outcome.of, hno]
    · intro n h; exact absurd h (hno n)
    · intro _; exact ⟨rfl, Or.inl rfl⟩
  | some n =>
    have hp := atLeastOne?_iff.1 hn
    cases hm : i.minHeight with
    | none =>
      refine ⟨?_, ?_, ?_⟩
      · simp [outcomeOf, Outcome.of]; exact ⟨n, hp⟩
      · intro n' h' _; rw [hp.unique h']; rfl
      · intro h; exact absurd rfl h
    | some m =>
      simp only
      by_cases hlt : n < m
      · rw [if_pos hlt]
        refine ⟨?_, ?_, ?_⟩
        · simp only [outcomeOf, Outcome.of, reduceCtorEq, false_iff]
          rintro ⟨n', h1, h2⟩
          rw [← hp.unique h1] at h2
          have := h2 m rfl
          omega
        · intro n' h1 h2
          rw [← hp.unique h1] at h2
          have := h2 m rfl
          omega
        · intro _; exact ⟨rfl, Or.inr rfl⟩
      · rw [if_neg hlt]
        refine ⟨?_, ?_, ?_⟩
        · simp only [outcomeOf, Outcome.of, true_iff]
          exact ⟨n, hp, fun m' h => by injection h with h; omega⟩
        · intro n' h' _; rw [hp.unique h']; rfl
        · intro h; exact absurd rfl h

/-- C46, `problem.container_min_height = v` on a strip packing object: accepted exactly for
integers from 1 to the container height; then it is the minimum height; otherwise an error is
raised; nothing else changes. -/
theorem C46_minHeight (A : Arith) (i : Inst) (h : Reach A i) (hs : i.strip = true) (v : PyVal) :
    ((step A i (.minHeight v)).2 = .ok ↔ ∃ n H, IsPosInt v n ∧ i.height = some H ∧ n ≤ H) ∧
    (∀ n H, IsPosInt v n → i.height = some H → n ≤ H →
      (step A i (.minHeight v)).1 = { i with minHeight := some n }) ∧
    ((step A i (.minHeight v)).2 ≠ .ok → (step A i (.minHeight v)).1 = i ∧
      ((step A i (.minHeight v)).2 = .raised (.dimensionsError "DIMENSION_VALUE") ∨
       (step A i (.minHeight v)).2 = .raised (.containersError "STRIP_PACK_MIN_HEIGHT"))) := by
  obtain ⟨H, hH, _⟩ := h.good.valid.height hs
  simp only [step, Inst.assignMinHeight]
  rw [hH]
  cases hn : v.atLeastOne? with
  | none =>
    have hno : ∀ n, ¬ IsPosInt v n := fun n h => by rw [atLeastOne?_iff.2 h] at hn; cases hn
    refine ⟨?_, ?_, ?_⟩
    · simp [outcomeOf, Outcome.of, hno]
    · intro n _ h; exact absurd h (hno n)
    · intro _; exact ⟨rfl, Or.inl rfl⟩
  | some n =>
    have hp := atLeastOne?_iff.1 hn
    simp only
    by_cases hgt : n > H
    · rw [if_pos hgt]
      refine ⟨?_, ?_, ?_⟩
      · simp only [outcomeOf, Outcome.of, reduceCtorEq, false_iff]
        rintro ⟨n', H', h1, h2, h3⟩
        injection h2 with h2
        rw [← hp.unique h1] at h3
        omega
      · intro n' H' h1 h2 h3
        injection h2 with h2
        rw [← hp.unique h1] at h3
        omega
      · intro _; exact ⟨rfl, Or.inr rfl⟩
    · rw [if_neg hgt]
      refine ⟨?_, ?_, ?_⟩
      · simp only [outcomeOf, Outcome.of, true_iff]
        exact ⟨n, H, hp, rfl, by omega⟩
      · intro n' H' h' _ _; rw [hp.unique h']; rfl
      · intro h; exact absurd rfl h

/-- C46, `reset_container_height()`: height 10 times the width of the strip, no minimum height;
nothing happens in bin packing. -/
theorem C46_reset (A : Arith) (i : Inst) (h : Reach A i) :
    (step A i .resetHeight).2 = .ok ∧
    (i.strip = true → ∃ W L, i.containers = [("strip-pack-container", ⟨W, L⟩)] ∧
      (step A i .resetHeight).1 = { i with height := some (10 * W), minHeight := none }) ∧
    (i.strip = false → (step A i .resetHeight).1 = i) := by
  simp only [step, Inst.resetHeight]
  cases hs : i.strip with
  | false => exact ⟨rfl, by simp, fun _ => rfl⟩
  | true =>
    obtain ⟨W, hW⟩ := h.good.valid.strip hs
    have hf : PyDict.find? i.containers stripId = some ⟨W, stripInitHeight⟩ := by
      rw [hW]; simp [PyDict.find?]
    rw [if_pos rfl, hf]
    refine ⟨rfl, ?_, by simp⟩
    intro _
    refine ⟨W, stripInitHeight, hW, ?_⟩
    rw [Nat.mul_comm 10 W]
    rfl

/-- the setter of the minimum height is not guarded in bin packing: it raises TypeError there
unless a container height was assigned -/
theorem C46_bin (A : Arith) (i : Inst) (hh : i.height = none) (v : PyVal) (n : Nat) (hv : IsPosInt v n) :
    (step A i (.minHeight v)) = (i, .raised .typeError) := by
  simp only [step, Inst.assignMinHeight]
  rw [atLeastOne?_iff.2 hv, hh]; rfl

example : (step Arith.exact problem (.minHeight (.int 5))) = (problem, .raised .typeError) := rfl

/-- C46 on the strip packing problem: 10 is accepted as minimum, 41 is not -/
example : (step Arith.exact stripProblem (.minHeight (.int 10))).2 = .ok ∧
    (step Arith.exact stripProblem (.minHeight (.int 41))).2 = .raised (.containersError "STRIP_PACK_MIN_HEIGHT") ∧
    (step Arith.exact (step Arith.exact stripProblem (.minHeight (.int 10))).1 (.height (.int 9))).2 =
      .raised (.containersError "STRIP_PACK_MIN_HEIGHT") := ⟨rfl, rfl, rfl⟩

/-! ### C13, C14: solve -/

/-- C13: `solve(sequence)` returns exactly if all ids of the sequence are known (otherwise it
raises KeyError); it changes nothing but the solution and the objective values, and nothing at
all if it raises. -/
theorem C13_frame (A : Arith) (i : Inst) (h : Reach A i) (seq : Option (List String)) :
    ((step A i (.solve seq)).2 = .ok ↔ ∀ s, seq = some s → ∀ id ∈ s, id ∈ i.items.map (·.1)) ∧
    ((step A i (.solve seq)).2 = .ok →
      (step A i (.solve seq)).1 = { i with
        solution := (step A i (.solve seq)).1.solution, objVals := (step A i (.solve seq)).1.objVals }) ∧
    ((step A i (.solve seq)).2 ≠ .ok → step A i (.solve seq) = (i, .raised .keyError)) := by
  have hg := h.good
  have hv := hg.valid
  by_cases hk : KnownSeq i.solveIn seq
  · obtain ⟨sol, ov, hs⟩ := (C06_total A i.solveIn hv.solveIn seq).1 hk
    have : step A i (.solve seq) = ({ i with solution := sol, objVals := ov }, .ok) := by
      simp only [step, Inst.solve, bind, Except.bind, pure, Except.pure]
      rw [hs]
    rw [this]
    refine ⟨?_, ?_, ?_⟩
    · simp only [true_iff]; exact hk
    · intro _; rfl
    · intro h; exact absurd rfl h
  · have : step A i (.solve seq) = (i, .raised .keyError) := by
      simp only [step, Inst.solve, bind, Except.bind]
      rw [(C06_total A i.solveIn hv.solveIn seq).2 hk]
    rw [this]
    refine ⟨?_, ?_, ?_⟩
    · simp only [reduceCtorEq, false_iff]; exact hk
    · intro h; cases h
    · intro _; rfl

/-- C13 on the solved problem: a sequence with an unknown id raises and keeps the packing -/
example : step Arith.exact problemSolved (.solve (some ["c", "nope"])) = (problemSolved, .raised .keyError) := rfl

/-- C14: two objects with the same items (in order), containers, mode, strategy, rotation setting and
(when strip packing) container height get the same result from `solve(sequence)`, whatever else
differs between them. -/
theorem C14_function (A : Arith) (a b : Inst) (seq : Option (List String))
    (h1 : a.items = b.items) (h2 : a.containers = b.containers) (h3 : a.strip = b.strip)
    (h4 : a.strategy = b.strategy) (h5 : a.rotation = b.rotation)
    (h6 : a.strip = true → a.height = b.height) :
    (step A a (.solve seq)).2 = (step A b (.solve seq)).2 ∧
    ((step A a (.solve seq)).2 = .ok →
      (step A a (.solve seq)).1.solution = (step A b (.solve seq)).1.solution ∧
      (step A a (.solve seq)).1.objVals = (step A b (.solve seq)).1.objVals) := by
  have key : HP.solve A a.solveIn seq = HP.solve A b.solveIn seq := by
    let a' : Inst := { a with containersNum := 0, minHeight := none }
    let b' : Inst := { b with containersNum := 0, minHeight := none }
    have : SameProblem a' b' := ⟨h3, h2, rfl, h1, h5, h4, h6, fun _ => rfl⟩
    exact this.solve A seq
  simp only [step, Inst.solve, bind, Except.bind, pure, Except.pure]
  rw [key]
  cases HP.solve A b.solveIn seq with
  | error e => exact ⟨rfl, fun h => by cases h⟩
  | ok r => exact ⟨rfl, fun _ => ⟨rfl, rfl⟩⟩

/-- C14 on two states of the same problem with different pasts: the solved problem with other settings, and a new one -/
example : problemSolved.items = problem.items ∧ problemSolved.containers = problem.containers ∧
    problemSolved.strategy = problem.strategy ∧ problemSolved.solution ≠ problem.solution :=
  ⟨rfl, rfl, rfl, by decide⟩

/-! ### C37: in-place merge -/

/-- an entry of a valid structure -/
def GoodEntry (k : SKind) (e : PyVal × PyVal) : Prop :=
  ∃ s d, e.1 = .str s ∧ IsSize k.width k.length e.2 d

theorem isSizes_of_good (k : SKind) {es : List (PyVal × PyVal)} (hne : es ≠ []) (h : ∀ e ∈ es, GoodEntry k e) :
    ∃ sizes, IsSizes k.width k.length (.dict es) sizes := by
  have : ∀ l : List (PyVal × PyVal), (∀ e ∈ l, GoodEntry k e) → ∃ sizes : List (String × Dim),
      List.Forall₂ (fun e s => e.1 = .str s.1 ∧ IsSize k.width k.length e.2 s.2) l sizes := by
    intro l
    induction l with
    | nil => intro _; exact ⟨[], .nil⟩
    | cons e l ih =>
      intro h
      obtain ⟨sizes, hs⟩ := ih (fun e he => h e (by simp [he]))
      obtain ⟨s, d, h1, h2⟩ := h e (by simp)
      exact ⟨(s, d) :: sizes, .cons ⟨h1, h2⟩ hs⟩
  obtain ⟨sizes, hs⟩ := this es h
  exact ⟨sizes, es, rfl, hne, hs⟩

theorem good_setEntry (k : SKind) {s : String} {v : PyVal} (hv : ∃ d, IsSize k.width k.length v d) :
    ∀ (es : List (PyVal × PyVal)), (∀ e ∈ es, GoodEntry k e) → ∀ e ∈ setEntry es s v, GoodEntry k e
  | [], _, e, he => by
    simp only [setEntry, List.mem_singleton] at he
    subst he
    obtain ⟨d, hd⟩ := hv
    exact ⟨s, d, rfl, hd⟩
  | (k', v') :: es, h, e, he => by
    unfold setEntry at he
    split at he
    · rename_i hk
      rcases List.mem_cons.1 he with rfl | he
      · obtain ⟨d, hd⟩ := hv
        exact ⟨s, d, eqStr_iff.1 hk, hd⟩
      · exact h e (by simp [he])
    · rcases List.mem_cons.1 he with rfl | he
      · exact h _ (by simp)
      · exact good_setEntry k hv es (fun e he => h e (by simp [he])) e he

theorem good_rawIor (k : SKind) : ∀ (other es : List (PyVal × PyVal)), (∀ e ∈ other, GoodEntry k e) →
    (∀ e ∈ es, GoodEntry k e) → es ≠ [] →
    (∀ e ∈ rawIor es other, GoodEntry k e) ∧ rawIor es other ≠ []
  | [], es, _, h, hne => ⟨h, hne⟩
  | (id, v) :: other, es, ho, h, hne => by
    obtain ⟨s, d, h1, h2⟩ := ho (id, v) (by simp)
    simp only at h1
    subst h1
    have : rawIor es ((.str s, v) :: other) = rawIor (setEntry es s v) other := rfl
    rw [this]
    exact good_rawIor k other _ (fun e he => ho e (by simp [he])) (good_setEntry k ⟨d, h2⟩ es h)
      (setEntry_ne_nil es s v)

/-- C37 is false of the code: for every object and each structure there is a dict `other` such
that `|= other` raises and leaves a structure that is not valid (here: the entry `"" : None`,
whatever the structure was). -/
theorem C37_refuted (i : Inst) (k : SKind) :
    ∃ other, ¬ ∃ sizes, IsSizes k.width k.length (i.ior k other).1 sizes := by
  refine ⟨[(.str "", .none)], ?_⟩
  rintro ⟨sizes, es, h1, _, h2⟩
  have hmem : ∀ l : List (PyVal × PyVal), ∃ e ∈ setEntry l "" PyVal.none, e.2 = PyVal.none := by
    intro l
    induction l with
    | nil => exact ⟨(.str "", .none), by simp [setEntry], rfl⟩
    | cons p l ih =>
      obtain ⟨a, b⟩ := p
      unfold setEntry
      split
      · exact ⟨(a, .none), by simp, rfl⟩
      · obtain ⟨e, he, h⟩ := ih
        exact ⟨e, by simp [he], h⟩
  have hes : es = setEntry ((i.data k).map (fun p => (.str p.1, k.encode p.2))) "" .none := by
    simpa [Inst.ior, rawIor, PyVal.asStr?] using h1.symm
  obtain ⟨e, he, hnone⟩ := hmem ((i.data k).map (fun p => (.str p.1, k.encode p.2)))
  rw [← hes] at he
  have : ∀ (l : List (PyVal × PyVal)) (sz : List (String × Dim)),
      List.Forall₂ (fun e s => e.1 = .str s.1 ∧ IsSize k.width k.length e.2 s.2) l sz →
      ∀ e ∈ l, e.2 ≠ .none := by
    intro l sz h
    induction h with
    | nil => simp
    | cons hd _ ih =>
      intro e he
      rcases List.mem_cons.1 he with rfl | he
      · obtain ⟨_, a, b, hv | hv, _⟩ := hd <;> rw [hv] <;> simp
      · exact ih e he
  exact this es sizes h2 e he hnone

/-- C37, what holds: merging a dict whose entries are all valid leaves a valid structure (but the
call raises all the same, and the old solution is not discarded). -/
theorem C37_partial (A : Arith) (i : Inst) (h : Reach A i) (k : SKind) (other : List (PyVal × PyVal))
    (ho : ∀ e ∈ other, ∃ s d, e.1 = .str s ∧ IsSize k.width k.length e.2 d) :
    ∃ sizes, IsSizes k.width k.length (i.ior k other).1 sizes := by
  have hv := h.good.valid
  have hd := data_valid hv k
  have hne := data_ne hv k
  obtain ⟨h1, h2⟩ := good_rawIor k other ((i.data k).map (fun p => (.str p.1, k.encode p.2))) ho (by
    intro e he
    obtain ⟨p, hp, rfl⟩ := List.mem_map.1 he
    exact ⟨p.1, p.2, rfl, (mkDims_iff k _ _).1 (mkDims_encode k (hd.2 p hp))⟩) (by simpa using hne)
  exact isSizes_of_good k h2 h1

example : problem.ior .items [(.str "a", .dict [(.str "w", .int 9), (.str "l", .int 9)])] =
    (.dict [(.str "a", .dict [(.str "w", .int 9), (.str "l", .int 9)]),
            (.str "b", .dict [(.str "w", .int 4), (.str "l", .int 1)]),
            (.str "c", .dict [(.str "w", .int 2), (.str "l", .int 2)])], .itemsError "TYPE") := rfl

/-- C37, one size: whatever is merged, the assignment then raises - the containers of a strip cannot be assigned at all,
everywhere else a size object is not accepted as a size. -/
theorem C37_size_raises (i : Inst) (d : Dim) (other : List (PyVal × PyVal)) :
    (i.iorSize .items d other).2 = .dimensionsError "DIMENSIONS_TYPE" ∧
    (i.strip = false → (i.iorSize .containers d other).2 = .dimensionsError "DIMENSIONS_TYPE") ∧
    (i.strip = true → (i.iorSize .containers d other).2 = .containersError "STRIP_PACK_ONLY") := by
  refine ⟨rfl, fun h => ?_, fun h => ?_⟩
  · simp [Inst.iorSize, h]
  · simp [Inst.iorSize, h]

/-- C37 for one size, `problem.items[id] |= other`, is false of the code as well: for every size there is a dict that leaves it
with a value that is not positive, although the call raises -/
theorem C37_refuted_size (i : Inst) (k : SKind) (d : Dim) :
    ∃ other, ¬ ∃ d', IsSize k.width k.length (i.iorSize k d other).1 d' := by
  refine ⟨[(.str k.width, .int 0)], ?_⟩
  rintro ⟨d', a, b, h, h1, h2⟩
  have e : (i.iorSize k d [(.str k.width, .int 0)]).1 = .dict [(.str k.width, .int 0), (.str k.length, .int d.l)] := by
    cases k <;> rfl
  rw [e] at h
  have hne : k.width ≠ k.length := by cases k <;> decide
  rcases h with h | h
  · simp only [PyVal.dict.injEq, List.cons.injEq, Prod.mk.injEq] at h
    obtain ⟨⟨_, rfl⟩, _⟩ := h
    obtain ⟨h3, h4 | ⟨h4, _⟩⟩ := h1
    · injection h4 with h4; omega
    · cases h4
  · simp only [PyVal.dict.injEq, List.cons.injEq, Prod.mk.injEq, PyVal.str.injEq] at h
    exact hne h.1.1

/-- the value of the last entry for this key -/
def Spec.lastEntry (other : List (PyVal × PyVal)) (key : String) : Option PyVal :=
  (other.reverse.find? (fun e => e.1.asStr? == some key)).map (·.2)

/-- C37 for one size, what holds: merging a dict of positive integers for the two keys leaves a size with these values (but the
call raises all the same, and the old solution is not discarded). -/
theorem C37_size_partial (i : Inst) (k : SKind) (d : Dim) (hd : 0 < d.w ∧ 0 < d.l) (other : List (PyVal × PyVal))
    (ho : ∀ e ∈ other, (e.1 = .str k.width ∨ e.1 = .str k.length) ∧ ∃ n, IsPosInt e.2 n) :
    ∃ d', IsSize k.width k.length (i.iorSize k d other).1 d' ∧
      IsPosInt ((lastEntry other k.width).getD (.int d.w)) d'.w ∧
      IsPosInt ((lastEntry other k.length).getD (.int d.l)) d'.l := by
  have hne : k.width ≠ k.length := by cases k <;> decide
  have key : ∀ (other : List (PyVal × PyVal)) (a b : PyVal), (∃ n, IsPosInt a n) → (∃ n, IsPosInt b n) →
      (∀ e ∈ other, (e.1 = .str k.width ∨ e.1 = .str k.length) ∧ ∃ n, IsPosInt e.2 n) →
      ∃ a' b', rawIor [(.str k.width, a), (.str k.length, b)] other = [(.str k.width, a'), (.str k.length, b')] ∧
        a' = (lastEntry other k.width).getD a ∧ b' = (lastEntry other k.length).getD b ∧
        (∃ n, IsPosInt a' n) ∧ (∃ n, IsPosInt b' n) := by
    intro other
    induction other with
    | nil => intro a b ha hb _; exact ⟨a, b, rfl, rfl, rfl, ha, hb⟩
    | cons e other ih =>
      intro a b ha hb h
      obtain ⟨he, hv⟩ := h e (by simp)
      have hrest : ∀ e ∈ other, (e.1 = .str k.width ∨ e.1 = .str k.length) ∧ ∃ n, IsPosInt e.2 n := fun e he => h e (by simp [he])
      obtain ⟨key, v⟩ := e
      have hlast : ∀ s : String, ∀ c, (lastEntry ((key, v) :: other) s).getD c =
          (lastEntry other s).getD (if key.asStr? = some s then v else c) := by
        intro s c
        unfold lastEntry
        rw [List.reverse_cons, List.find?_append]
        cases other.reverse.find? (fun e => e.1.asStr? == some s) with
        | some x => simp
        | none => by_cases hk : key.asStr? = some s <;> simp [hk]
      rcases he with rfl | rfl
      · have e1 : rawIor [(.str k.width, a), (.str k.length, b)] ((.str k.width, v) :: other) =
            rawIor [(.str k.width, v), (.str k.length, b)] other := by
          cases k <;> rfl
        obtain ⟨a', b', g1, g2, g3, g4⟩ := ih v b hv hb hrest
        exact ⟨a', b', by rw [e1]; exact g1, by rw [hlast, if_pos (by simp [PyVal.asStr?])]; exact g2,
          by rw [hlast, if_neg (by simp [PyVal.asStr?, hne])]; exact g3, g4⟩
      · have e1 : rawIor [(.str k.width, a), (.str k.length, b)] ((.str k.length, v) :: other) =
            rawIor [(.str k.width, a), (.str k.length, v)] other := by
          cases k <;> rfl
        obtain ⟨a', b', g1, g2, g3, g4⟩ := ih a v ha hv hrest
        exact ⟨a', b', by rw [e1]; exact g1, by rw [hlast, if_neg (by simp [PyVal.asStr?, hne.symm])]; exact g2,
          by rw [hlast, if_pos (by simp [PyVal.asStr?])]; exact g3, g4⟩
  obtain ⟨a', b', g1, g2, g3, ⟨n, hn⟩, m, hm⟩ := key other (.int d.w) (.int d.l) ⟨d.w, hd.1, .inl rfl⟩ ⟨d.l, hd.2, .inl rfl⟩ ho
  refine ⟨⟨n, m⟩, ⟨a', b', .inl ?_, hn, hm⟩, by rw [← g2]; exact hn, by rw [← g3]; exact hm⟩
  show PyVal.dict _ = _
  rw [g1]

example : problem.iorSize .items ⟨3, 2⟩ [(.str "w", .int 9), (.str "w", .int 5)] =
    (.dict [(.str "w", .int 5), (.str "l", .int 2)], .dimensionsError "DIMENSIONS_TYPE") := rfl

end HP
