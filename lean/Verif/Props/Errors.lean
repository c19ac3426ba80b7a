import Verif.Props.Structures
import Verif.SpecErrors
/-
Property C94: which exception a rejected edit raises.
-/
namespace HP
open Spec

/-- the keys of sizes and the exception class of the two structures -/
def Naming (k : SKind) (wk lk : String) (err : String → PyErr) : Prop :=
  (k = .items ∧ wk = "w" ∧ lk = "l" ∧ err = PyErr.itemsError) ∨
  (k = .containers ∧ wk = "W" ∧ lk = "L" ∧ err = PyErr.containersError)

theorem Naming.eqs {k : SKind} {wk lk : String} {err : String → PyErr} (h : Naming k wk lk err) :
    wk = k.width ∧ lk = k.length ∧ err = k.error ∧ wk ≠ lk := by
  rcases h with ⟨rfl, rfl, rfl, rfl⟩ | ⟨rfl, rfl, rfl, rfl⟩
  · exact ⟨rfl, rfl, rfl, by decide⟩
  · exact ⟨rfl, rfl, rfl, by decide⟩

theorem notPosInt_iff {v : PyVal} : NotPosInt v ↔ v.posInt? = none := by
  unfold NotPosInt
  constructor
  · intro h
    cases hv : v.posInt? with
    | none => rfl
    | some n => exact absurd (posInt?_iff.1 hv) (h n)
  · intro h n hn
    rw [posInt?_iff.2 hn] at h; cases h

theorem twoKeys_of {wk lk : String} (hne : wk ≠ lk) {es : List (PyVal × PyVal)} {a b : PyVal}
    (ha : PyVal.get? es wk = some a) (hb : PyVal.get? es lk = some b) (hlen : es.length = 2) :
    TwoKeys wk lk (.dict es) a b := by
  match es, hlen with
  | [(k1, v1), (k2, v2)], _ =>
    simp only [PyVal.get?] at ha hb
    have f : (PyVal.str wk).eqStr lk = false := by simp [PyVal.eqStr, hne]
    by_cases c1 : k1.eqStr wk = true
    · rw [if_pos c1] at ha
      have e1 := eqStr_iff.1 c1
      subst e1
      rw [f] at hb
      by_cases c2 : k2.eqStr lk = true
      · rw [c2] at hb
        simp at ha hb
        have e2 := eqStr_iff.1 c2
        left; rw [e2, ha, hb]
      · simp [c2] at hb
    · rw [if_neg c1] at ha
      by_cases c2 : k2.eqStr wk = true
      · rw [if_pos c2] at ha
        have e2 := eqStr_iff.1 c2
        subst e2
        rw [f] at hb
        by_cases c3 : k1.eqStr lk = true
        · rw [c3] at hb
          have e3 := eqStr_iff.1 c3
          simp only [if_true, Option.some.injEq] at ha hb
          right; rw [e3]; simp [hb]; simpa using ha
        · simp [c3] at hb
      · simp [c2] at ha

theorem mkDims_two (k : SKind) {v a b : PyVal} (h : TwoKeys k.width k.length v a b) :
    mkDims k v = match a.posInt?, b.posInt? with
      | some w, some l => .ok ⟨w, l⟩
      | _, _ => .error (.dimensionsError "DIMENSION_VALUE") := by
  have hne : k.width ≠ k.length := by cases k <;> decide
  have f1 : (k.width == k.length) = false := by simpa using hne
  have f2 : (k.length == k.width) = false := by simpa using hne.symm
  rcases h with rfl | rfl
  · simp [mkDims, PyVal.asDict?, PyVal.get?, PyVal.eqStr, f1]
    cases a.posInt? <;> cases b.posInt? <;> rfl
  · simp [mkDims, PyVal.asDict?, PyVal.get?, PyVal.eqStr, f2]
    cases a.posInt? <;> cases b.posInt? <;> rfl

theorem mkDims_error (k : SKind) (v : PyVal) (e : PyErr) :
    mkDims k v = .error e ↔ ∃ m, SizeFault k.width k.length v m ∧ e = .dimensionsError m := by
  have hne : k.width ≠ k.length := by cases k <;> decide
  by_cases hd : ∃ d, v = .dict d
  · obtain ⟨d, rfl⟩ := hd
    by_cases he : d = []
    · subst he
      have : mkDims k (.dict []) = .error (.dimensionsError "DIMENSIONS_MISSING") := rfl
      rw [this]
      constructor
      · intro h; injection h with h
        exact ⟨_, Or.inr (Or.inl ⟨rfl, rfl⟩), h.symm⟩
      · rintro ⟨m, ⟨h, _⟩ | ⟨_, rfl⟩ | ⟨⟨d, h, h'⟩, _⟩ | ⟨⟨a, b, h | h, _⟩, _⟩, rfl⟩
        · exact absurd rfl (h _)
        · rfl
        · injection h with h; exact absurd h.symm h'
        · cases h
        · cases h
    · by_cases ht : ∃ a b, TwoKeys k.width k.length (.dict d) a b
      · obtain ⟨a, b, ht⟩ := ht
        rw [mkDims_two k ht]
        have huniq : ∀ a' b', TwoKeys k.width k.length (.dict d) a' b' → a' = a ∧ b' = b := by
          intro a' b' h'
          rcases ht with ht | ht <;> rcases h' with h' | h'
          · rw [ht] at h'; simp at h'; exact ⟨h'.1.symm, h'.2.symm⟩
          · rw [ht] at h'; simp [hne] at h'
          · rw [ht] at h'; simp [hne.symm] at h'
          · rw [ht] at h'; simp at h'; exact ⟨h'.2.symm, h'.1.symm⟩
        have hval : (∃ m, SizeFault k.width k.length (.dict d) m ∧ e = .dimensionsError m) ↔
            (NotPosInt a ∨ NotPosInt b) ∧ e = .dimensionsError "DIMENSION_VALUE" := by
          constructor
          · rintro ⟨m, ⟨h, _⟩ | ⟨h, _⟩ | ⟨_, h, _⟩ | ⟨⟨a', b', h, h'⟩, rfl⟩, rfl⟩
            · exact absurd rfl (h _)
            · injection h with h; exact absurd h he
            · exact absurd ht (h a b)
            · obtain ⟨rfl, rfl⟩ := huniq _ _ h
              exact ⟨h', rfl⟩
          · rintro ⟨h, rfl⟩
            exact ⟨_, Or.inr (Or.inr (Or.inr ⟨⟨a, b, ht, h⟩, rfl⟩)), rfl⟩
        rw [hval, notPosInt_iff, notPosInt_iff]
        cases a.posInt? <;> cases b.posInt? <;> simp [eq_comm]
      · have hk : mkDims k (.dict d) = .error (.dimensionsError "DIMENSIONS_KEYS") := by
          unfold mkDims
          simp only [PyVal.asDict?]
          rw [if_neg (by simpa using he)]
          cases h1 : PyVal.get? d k.width with
          | none => rfl
          | some a =>
            cases h2 : PyVal.get? d k.length with
            | none => rfl
            | some b =>
              simp only
              by_cases hl : d.length = 2
              · exact absurd ⟨a, b, twoKeys_of hne h1 h2 hl⟩ ht
              · rw [if_neg hl]
        rw [hk]
        constructor
        · intro h; injection h with h
          exact ⟨_, Or.inr (Or.inr (Or.inl ⟨⟨d, rfl, he⟩, fun a b h => ht ⟨a, b, h⟩, rfl⟩)), h.symm⟩
        · rintro ⟨m, ⟨h, _⟩ | ⟨h, _⟩ | ⟨_, _, rfl⟩ | ⟨⟨a, b, h, _⟩, _⟩, rfl⟩
          · exact absurd rfl (h _)
          · injection h with h; exact absurd h he
          · rfl
          · exact absurd ⟨a, b, h⟩ ht
  · have hv : ∀ d, v ≠ .dict d := fun d h => hd ⟨d, h⟩
    have : mkDims k v = .error (.dimensionsError "DIMENSIONS_TYPE") := by
      cases v <;> first | rfl | exact absurd rfl (hv _)
    rw [this]
    constructor
    · intro h; injection h with h
      exact ⟨_, Or.inl ⟨hv, rfl⟩, h.symm⟩
    · rintro ⟨m, ⟨_, rfl⟩ | ⟨h, _⟩ | ⟨⟨d, h, _⟩, _⟩ | ⟨⟨a, b, h | h, _⟩, _⟩, rfl⟩
      · rfl
      · exact absurd h (hv _)
      · exact absurd h (hv _)
      · exact absurd h (hv _)
      · exact absurd h (hv _)

theorem asStr?_none {v : PyVal} : v.asStr? = none ↔ ∀ s, v ≠ .str s := by
  cases v <;> simp [PyVal.asStr?]

/-- an entry is read: `id` a string and `v` a size, or a fault -/
theorem entry_cases (k : SKind) (id v : PyVal) (e : PyErr) :
    EntryFault k.width k.length k.error id v e ↔
      (id.asStr? = none ∧ e = k.error "ID_TYPE") ∨ (∃ s, id.asStr? = some s ∧ mkDims k v = .error e) := by
  unfold EntryFault
  rw [asStr?_none]
  constructor
  · rintro (h | ⟨s, m, rfl, h, rfl⟩)
    · exact Or.inl h
    · exact Or.inr ⟨s, rfl, (mkDims_error k v _).2 ⟨m, h, rfl⟩⟩
  · rintro (h | ⟨s, h, h'⟩)
    · exact Or.inl h
    · obtain ⟨m, h1, h2⟩ := (mkDims_error k v e).1 h'
      exact Or.inr ⟨s, m, asStr?_iff.1 h, h1, h2⟩

theorem buildEntries_error (k : SKind) (e : PyErr) : ∀ (es : List (PyVal × PyVal)) (acc : PyDict String Dim) (t : Bool),
    (buildEntries k es acc t).2 = .error e ↔ EntriesFault k.width k.length k.error es e
  | [], acc, t => by
    simp only [buildEntries, reduceCtorEq, false_iff]
    rintro ⟨pre, id, v, post, h, _⟩
    simp at h
  | (id, v) :: es, acc, t => by
    have hfirst : EntriesFault k.width k.length k.error ((id, v) :: es) e ↔
        EntryFault k.width k.length k.error id v e ∨
        ((∃ s d, id = .str s ∧ IsSize k.width k.length v d) ∧ EntriesFault k.width k.length k.error es e) := by
      constructor
      · rintro ⟨pre, id', v', post, h, hpre, hf⟩
        cases pre with
        | nil =>
          simp only [List.nil_append, List.cons.injEq, Prod.mk.injEq] at h
          obtain ⟨⟨rfl, rfl⟩, rfl⟩ := h
          exact Or.inl hf
        | cons x pre =>
          simp only [List.cons_append, List.cons.injEq] at h
          obtain ⟨rfl, rfl⟩ := h
          exact Or.inr ⟨hpre (id, v) (by simp), pre, id', v', post, rfl, fun y hy => hpre y (by simp [hy]), hf⟩
      · rintro (h | ⟨h, pre, id', v', post, rfl, hpre, hf⟩)
        · exact ⟨[], id, v, es, rfl, by simp, h⟩
        · refine ⟨(id, v) :: pre, id', v', post, rfl, ?_, hf⟩
          intro y hy
          rcases List.mem_cons.1 hy with rfl | hy
          · exact h
          · exact hpre y hy
    rw [hfirst, entry_cases]
    unfold buildEntries
    cases hs : id.asStr? with
    | none =>
      have hno : ∀ s, id ≠ .str s := asStr?_none.1 hs
      simp only [reduceCtorEq, false_and, exists_false, or_false, true_and, Except.error.injEq]
      constructor
      · intro h; exact Or.inl h.symm
      · rintro (h | ⟨⟨s, _, h, _⟩, _⟩)
        · exact h.symm
        · exact absurd h (hno s)
    | some s =>
      have hid := asStr?_iff.1 hs
      simp only [reduceCtorEq, false_and, false_or, Option.some.injEq, exists_eq_left']
      cases hd : mkDims k v with
      | error e' =>
        simp only [Except.error.injEq]
        constructor
        · intro h; exact Or.inl h
        · rintro (h | ⟨⟨_, d, _, h⟩, _⟩)
          · exact h
          · rw [(mkDims_iff k v d).2 h] at hd; cases hd
      | ok d =>
        simp only [reduceCtorEq, false_or]
        rw [buildEntries_error k e es]
        constructor
        · intro h; exact ⟨⟨s, d, hid, (mkDims_iff k v d).1 hd⟩, h⟩
        · rintro ⟨_, h⟩; exact h

theorem buildStructure_error (k : SKind) (v : PyVal) (e : PyErr) :
    (buildStructure k v).2 = .error e ↔ StructFault k.width k.length k.error v e := by
  unfold buildStructure StructFault
  by_cases hd : ∃ d, v = .dict d
  · obtain ⟨d, rfl⟩ := hd
    simp only [PyVal.asDict?]
    by_cases he : d = []
    · subst he
      simp only [List.isEmpty_nil, if_true, Except.error.injEq]
      constructor
      · intro h; exact Or.inr (Or.inl ⟨trivial, h.symm⟩)
      · rintro (⟨h, _⟩ | ⟨_, rfl⟩ | ⟨es, h, h'⟩)
        · exact absurd rfl (h _)
        · rfl
        · injection h with h; subst h
          obtain ⟨pre, id, v, post, h, _⟩ := h'
          simp at h
    · have : d.isEmpty = false := by simpa using he
      rw [this]
      simp only [Bool.false_eq_true, if_false]
      rw [buildEntries_error]
      constructor
      · intro h; exact Or.inr (Or.inr ⟨d, rfl, h⟩)
      · rintro (⟨h, _⟩ | ⟨h, _⟩ | ⟨es, h, h'⟩)
        · exact absurd rfl (h _)
        · injection h with h; exact absurd h he
        · injection h with h; subst h; exact h'
  · have hv : ∀ d, v ≠ .dict d := fun d h => hd ⟨d, h⟩
    have : v.asDict? = none := by cases v <;> first | rfl | exact absurd rfl (hv _)
    rw [this]
    simp only [Except.error.injEq]
    constructor
    · intro h; exact Or.inl ⟨hv, h.symm⟩
    · rintro (⟨_, rfl⟩ | ⟨h, _⟩ | ⟨es, h, _⟩)
      · rfl
      · exact absurd h (hv _)
      · exact absurd h (hv _)

/-- C94, `problem.items = v`, `problem.containers = v`: the exception. -/
theorem C94_assign (A : Arith) (i : Inst) (k : SKind) (v : PyVal) (wk lk : String) (err : String → PyErr)
    (hk : Naming k wk lk err) (e : PyErr) :
    (step A i (.assign k v)).2 = .raised e ↔
      (Locked k i ∧ e = .containersError "STRIP_PACK_ONLY") ∨ (¬ Locked k i ∧ StructFault wk lk err v e) := by
  obtain ⟨rfl, rfl, rfl, _⟩ := hk.eqs
  have hstep : step A i (.assign k v) = outcomeOf (i.assign k v) := rfl
  rw [hstep, outcome_raised, ← buildStructure_error]
  unfold Inst.assign
  by_cases hl : Locked k i
  · rw [if_pos ((locked_iff k i).2 hl)]
    simp [hl, eq_comm]
  · have hl' : ¬ ((decide (k = .containers) && i.strip) = true) := fun h => hl ((locked_iff k i).1 h)
    rw [if_neg hl']
    simp only [hl, false_and, not_false_eq_true, true_and, false_or]
    cases hb : (buildStructure k v).2 with
    | error e' => simp
    | ok d => cases k <;> simp

/-- C94, `problem.items[id] = v`, `problem.containers[id] = v`: the exception. -/
theorem C94_setKey (A : Arith) (i : Inst) (k : SKind) (id v : PyVal) (wk lk : String) (err : String → PyErr)
    (hk : Naming k wk lk err) (e : PyErr) :
    (step A i (.setKey k id v)).2 = .raised e ↔
      (Locked k i ∧ e = .containersError "STRIP_PACK_ONLY") ∨ (¬ Locked k i ∧ EntryFault wk lk err id v e) := by
  obtain ⟨rfl, rfl, rfl, _⟩ := hk.eqs
  have hstep : step A i (.setKey k id v) = outcomeOf (i.setKey k id v) := rfl
  rw [hstep, outcome_raised, entry_cases]
  unfold Inst.setKey
  by_cases hl : Locked k i
  · rw [if_pos ((locked_iff k i).2 hl)]
    simp [hl, eq_comm]
  · have hl' : ¬ ((decide (k = .containers) && i.strip) = true) := fun h => hl ((locked_iff k i).1 h)
    rw [if_neg hl']
    simp only [hl, false_and, not_false_eq_true, true_and, false_or]
    cases hs : id.asStr? with
    | none => simp [eq_comm]
    | some s =>
      simp only [reduceCtorEq, false_and, false_or, Option.some.injEq, exists_eq_left']
      cases hd : mkDims k v with
      | error e' => simp
      | ok d => simp

/-! ### keys -/

mutual
theorem hashable_iff : ∀ v : PyVal, v.hashable = false ↔ Unhashable v
  | .list l => by simp only [PyVal.hashable, true_iff]; exact .list l
  | .dict l => by simp only [PyVal.hashable, true_iff]; exact .dict l
  | .tuple l => by
    simp only [PyVal.hashable]
    rw [hashableAll_iff l]
    constructor
    · rintro ⟨v, h1, h2⟩; exact .tuple l v h1 h2
    · intro h; cases h with
      | tuple _ v h1 h2 => exact ⟨v, h1, h2⟩
  | .none => by simp only [PyVal.hashable, Bool.true_eq_false, false_iff]; intro h; cases h
  | .bool b => by simp only [PyVal.hashable, Bool.true_eq_false, false_iff]; intro h; cases h
  | .int i => by simp only [PyVal.hashable, Bool.true_eq_false, false_iff]; intro h; cases h
  | .float q => by simp only [PyVal.hashable, Bool.true_eq_false, false_iff]; intro h; cases h
  | .inf => by simp only [PyVal.hashable, Bool.true_eq_false, false_iff]; intro h; cases h
  | .ninf => by simp only [PyVal.hashable, Bool.true_eq_false, false_iff]; intro h; cases h
  | .nan => by simp only [PyVal.hashable, Bool.true_eq_false, false_iff]; intro h; cases h
  | .str s => by simp only [PyVal.hashable, Bool.true_eq_false, false_iff]; intro h; cases h
  | .other n => by simp only [PyVal.hashable, Bool.true_eq_false, false_iff]; intro h; cases h
theorem hashableAll_iff : ∀ l : List PyVal, PyVal.hashableAll l = false ↔ ∃ v ∈ l, Unhashable v
  | [] => by simp [PyVal.hashableAll]
  | v :: vs => by
    simp only [PyVal.hashableAll, Bool.and_eq_false_iff, List.mem_cons, exists_eq_or_imp]
    rw [hashable_iff v, hashableAll_iff vs]
end

theorem lookupKey_error {d : PyDict String Dim} {key : PyVal} {e : PyErr} :
    lookupKey d key = .error e ↔ KeyFault (d.map (·.1)) key e := by
  unfold lookupKey KeyFault
  cases hs : key.asStr? with
  | none =>
    have hno := asStr?_none.1 hs
    simp only [Except.error.injEq]
    cases hh : key.hashable with
    | true =>
      have hu : ¬ Unhashable key := fun h => by rw [(hashable_iff key).2 h] at hh; cases hh
      simp only [if_true, hu, false_and, not_false_eq_true, true_and, false_or]
      constructor
      · intro h; exact ⟨fun s _ => hno s, h.symm⟩
      · intro h; exact h.2.symm
    | false =>
      have hu : Unhashable key := (hashable_iff key).1 hh
      simp only [Bool.false_eq_true, if_false, hu, not_true_eq_false, false_and, or_false, true_and]
      constructor
      · intro h; exact ⟨fun s _ => hno s, h.symm⟩
      · intro h; exact h.2.symm
  | some s =>
    have hk := asStr?_iff.1 hs
    subst hk
    have hu : ¬ Unhashable (.str s) := by intro h; cases h
    simp only [hu, false_and, not_false_eq_true, true_and, false_or]
    cases hf : PyDict.find? d s with
    | none =>
      have : s ∉ d.map (·.1) := fun h => by
        have h' := PyDict.find?_isSome_of_mem_keys (d := d) h
        rw [hf] at h'; simp at h'
      simp only [Except.error.injEq]
      constructor
      · intro h; exact ⟨fun t ht hh => this (by injection hh with hh; rw [hh]; exact ht), h.symm⟩
      · intro h; exact h.2.symm
    | some x =>
      simp only [reduceCtorEq, false_iff]
      rintro ⟨h, _⟩
      have : s ∈ d.map (·.1) := List.mem_map_of_mem (PyDict.find?_mem hf)
      exact h s this rfl

/-- C94, `problem.items[id][key] = v`: the exception. -/
theorem C94_setDim (A : Arith) (i : Inst) (k : SKind) (id key v : PyVal) (wk lk : String) (err : String → PyErr)
    (hk : Naming k wk lk err) (e : PyErr) :
    (step A i (.setDim k id key v)).2 = .raised e ↔
      KeyFault ((i.data k).map (·.1)) id e ∨
      ((∃ s ∈ (i.data k).map (·.1), id = .str s) ∧
        ((Locked k i ∧ e = .containersError "STRIP_PACK_ONLY") ∨ (¬ Locked k i ∧ SideFault wk lk key v e))) := by
  obtain ⟨rfl, rfl, _, hne⟩ := hk.eqs
  have hstep : step A i (.setDim k id key v) = outcomeOf (i.setDim k id key v) := rfl
  rw [hstep, outcome_raised, ← lookupKey_error]
  unfold Inst.setDim
  cases hlk : lookupKey (i.data k) id with
  | error e' =>
    have := (lookupKey_error).1 hlk
    simp only [Except.error.injEq]
    constructor
    · intro h; exact Or.inl h
    · rintro (h | ⟨⟨s, hs, h⟩, _⟩)
      · exact h
      · exact absurd h (this.1 s hs)
  | ok p =>
    obtain ⟨s, d⟩ := p
    obtain ⟨rfl, hf⟩ := lookupKey_ok hlk
    have hmem : ∃ t ∈ (i.data k).map (·.1), PyVal.str s = .str t :=
      ⟨s, List.mem_map_of_mem (PyDict.find?_mem hf), rfl⟩
    simp only [reduceCtorEq, false_or, hmem, true_and]
    by_cases hl : Locked k i
    · rw [if_pos ((locked_iff k i).2 hl)]
      simp [hl, eq_comm]
    · have hl' : ¬ ((decide (k = .containers) && i.strip) = true) := fun h => hl ((locked_iff k i).1 h)
      rw [if_neg hl']
      simp only [hl, false_and, not_false_eq_true, true_and, false_or]
      unfold SideFault
      cases hh : key.hashable with
      | false =>
        have hu : Unhashable key := (hashable_iff key).1 hh
        have h1 : key ≠ .str k.width := by rintro rfl; cases hu
        have h2 : key ≠ .str k.length := by rintro rfl; cases hu
        simp [hu, h1, h2, eq_comm]
      | true =>
        have hu : ¬ Unhashable key := fun h => by rw [(hashable_iff key).2 h] at hh; cases hh
        simp only [Bool.not_true, Bool.false_eq_true, if_false, hu, false_and, false_or, not_false_eq_true, true_and]
        by_cases h1 : key = .str k.width
        · subst h1
          have : (PyVal.str k.width).eqStr k.width = true := by simp [PyVal.eqStr]
          rw [this, if_pos rfl, notPosInt_iff]
          cases v.posInt? <;> simp [eq_comm]
        · have h1' : key.eqStr k.width = false := by
            cases h : key.eqStr k.width with
            | false => rfl
            | true => exact absurd (eqStr_iff.1 h) h1
          rw [h1']
          simp only [Bool.false_eq_true, if_false]
          by_cases h2 : key = .str k.length
          · subst h2
            have : (PyVal.str k.length).eqStr k.length = true := by simp [PyVal.eqStr]
            rw [this, if_pos rfl, notPosInt_iff]
            cases v.posInt? <;> simp [eq_comm]
          · have h2' : key.eqStr k.length = false := by
              cases h : key.eqStr k.length with
              | false => rfl
              | true => exact absurd (eqStr_iff.1 h) h2
            rw [h2']
            simp [h1, h2, eq_comm]

/-- C94, `del problem.items[key]`: the exception; the last entry is protected before the key is
looked at. -/
theorem C94_delKey (A : Arith) (i : Inst) (k : SKind) (key : PyVal) (wk lk : String) (err : String → PyErr)
    (hk : Naming k wk lk err) (e : PyErr) :
    (step A i (.delKey k key)).2 = .raised e ↔
      ((i.data k).length = 1 ∧ e = err "CANT_DELETE_STRUCTURE") ∨
      ((i.data k).length ≠ 1 ∧ KeyFault ((i.data k).map (·.1)) key e) := by
  obtain ⟨_, _, rfl, _⟩ := hk.eqs
  have hstep : step A i (.delKey k key) = outcomeOf (i.delKey k key) := rfl
  rw [hstep, outcome_raised, ← lookupKey_error]
  unfold Inst.delKey
  by_cases h1 : (i.data k).length = 1
  · rw [if_pos h1]; simp [h1, eq_comm]
  · rw [if_neg h1]
    simp only [h1, false_and, ne_eq, not_false_eq_true, true_and, false_or]
    cases lookupKey (i.data k) key <;> simp

/-- C94, `del problem.items[id][key]`: always an exception. -/
theorem C94_delDim (A : Arith) (i : Inst) (k : SKind) (id : PyVal) (e : PyErr) :
    (step A i (.delDim k id)).2 = .raised e ↔
      KeyFault ((i.data k).map (·.1)) id e ∨
      ((∃ s ∈ (i.data k).map (·.1), id = .str s) ∧ e = .dimensionsError "CANT_DELETE") := by
  have hstep : step A i (.delDim k id) = outcomeOf (i.delDim k id) := rfl
  rw [hstep, outcome_raised, ← lookupKey_error]
  unfold Inst.delDim
  cases hlk : lookupKey (i.data k) id with
  | error e' =>
    have := (lookupKey_error).1 hlk
    simp only [Except.error.injEq]
    constructor
    · intro h; exact Or.inl h
    · rintro (h | ⟨⟨s, hs, h⟩, _⟩)
      · exact h
      · exact absurd h (this.1 s hs)
  | ok p =>
    obtain ⟨s, d⟩ := p
    obtain ⟨rfl, hf⟩ := lookupKey_ok hlk
    have hmem : ∃ t ∈ (i.data k).map (·.1), PyVal.str s = .str t :=
      ⟨s, List.mem_map_of_mem (PyDict.find?_mem hf), rfl⟩
    simp only [reduceCtorEq, false_or, hmem, true_and, Except.error.injEq]
    exact eq_comm

/-- C94, `problem.items.pop(key)` with or without a default: the exception. -/
theorem C94_pop (A : Arith) (i : Inst) (k : SKind) (key : PyVal) (hasDefault : Bool) (wk lk : String)
    (err : String → PyErr) (hk : Naming k wk lk err) (e : PyErr) :
    (step A i (.popKey k key hasDefault)).2 = .raised e ↔
      (KeyFault ((i.data k).map (·.1)) key e ∧ ¬ (hasDefault = true ∧ e = .keyError)) ∨
      ((∃ s ∈ (i.data k).map (·.1), key = .str s) ∧ (i.data k).length = 1 ∧ e = err "CANT_DELETE_STRUCTURE") := by
  have hstep : step A i (.popKey k key hasDefault) = outcomeOf (i.popKey k key hasDefault) := rfl
  have hdel := C94_delKey A i k key wk lk err hk e
  have hstep2 : step A i (.delKey k key) = outcomeOf (i.delKey k key) := rfl
  rw [hstep2, outcome_raised] at hdel
  rw [hstep, outcome_raised]
  unfold Inst.popKey
  cases hlk : lookupKey (i.data k) key with
  | error e' =>
    have hf := lookupKey_error.1 hlk
    have hno : ¬ ∃ s ∈ (i.data k).map (·.1), key = .str s := by
      rintro ⟨s, hs, h⟩; exact hf.1 s hs h
    have hfe : KeyFault ((i.data k).map (·.1)) key e ↔ e = e' := by
      rw [← lookupKey_error, hlk]; simp [eq_comm]
    rw [hfe]
    simp only [hno, false_and, or_false]
    have h2 : e' = .typeError ∨ e' = .keyError := by
      rcases hf.2 with ⟨_, h⟩ | ⟨_, h⟩
      · exact Or.inl h
      · exact Or.inr h
    rcases h2 with rfl | rfl
    · simp only [Except.error.injEq]
      constructor
      · rintro rfl; simp
      · intro h; exact h.1.symm
    · cases hasDefault with
      | true => simp
      | false => simp [eq_comm]
  | ok p =>
    obtain ⟨s, d⟩ := p
    obtain ⟨rfl, hf⟩ := lookupKey_ok hlk
    have hmem : ∃ t ∈ (i.data k).map (·.1), PyVal.str s = .str t :=
      ⟨s, List.mem_map_of_mem (PyDict.find?_mem hf), rfl⟩
    have hno : ¬ KeyFault ((i.data k).map (·.1)) (.str s) e := by
      rw [← lookupKey_error, hlk]; simp
    simp only [hmem, true_and, hno, false_and, false_or, and_false, or_false] at hdel ⊢
    exact hdel

/-- C94, `problem.items.popitem()`: the exception. -/
theorem C94_popItem (A : Arith) (i : Inst) (h : Reach A i) (k : SKind) (wk lk : String)
    (err : String → PyErr) (hk : Naming k wk lk err) (e : PyErr) :
    (step A i (.popItem k)).2 = .raised e ↔ (i.data k).length = 1 ∧ e = err "CANT_DELETE_STRUCTURE" := by
  have hstep : step A i (.popItem k) = outcomeOf (i.popItem k) := rfl
  rw [hstep, outcome_raised]
  unfold Inst.popItem
  cases hd : i.data k with
  | nil =>
    exfalso
    have := C41_nonempty A i h
    cases k
    · exact this.2 hd
    · exact this.1 hd
  | cons p rest =>
    obtain ⟨s, x⟩ := p
    simp only
    have hdel := C94_delKey A i k (.str s) wk lk err hk e
    have hstep2 : step A i (.delKey k (.str s)) = outcomeOf (i.delKey k (.str s)) := rfl
    rw [hstep2, outcome_raised] at hdel
    rw [hdel, hd]
    have hno : ¬ KeyFault (((s, x) :: rest).map (·.1)) (.str s) e := by
      rintro ⟨hh, _⟩; exact hh s (by simp) rfl
    simp only [hno, and_false, or_false]

/-- C94, `problem.items.setdefault(key, v)`: the exception. -/
theorem C94_setDefault (A : Arith) (i : Inst) (k : SKind) (key v : PyVal) (wk lk : String)
    (err : String → PyErr) (hk : Naming k wk lk err) (e : PyErr) :
    (step A i (.setDefault k key v)).2 = .raised e ↔
      (Unhashable key ∧ e = .typeError) ∨
      (¬ Unhashable key ∧ (∀ s ∈ (i.data k).map (·.1), key ≠ .str s) ∧
        ((Locked k i ∧ e = .containersError "STRIP_PACK_ONLY") ∨ (¬ Locked k i ∧ EntryFault wk lk err key v e))) := by
  have hstep : step A i (.setDefault k key v) = outcomeOf (i.setDefault k key v) := rfl
  have hset := C94_setKey A i k key v wk lk err hk e
  have hstep2 : step A i (.setKey k key v) = outcomeOf (i.setKey k key v) := rfl
  rw [hstep2, outcome_raised] at hset
  rw [hstep, outcome_raised]
  unfold Inst.setDefault
  cases hlk : lookupKey (i.data k) key with
  | ok p =>
    obtain ⟨s, d⟩ := p
    obtain ⟨rfl, hf⟩ := lookupKey_ok hlk
    have hu : ¬ Unhashable (.str s) := by intro h; cases h
    have hno : ¬ ∀ t ∈ (i.data k).map (·.1), PyVal.str s ≠ .str t := fun h =>
      h s (List.mem_map_of_mem (PyDict.find?_mem hf)) rfl
    simp [hu]
    intro h
    exact absurd (fun t ht hh => by
      obtain ⟨q, hq, hq'⟩ := List.mem_map.1 ht
      injection hh with hh
      exact h q.1 q.2 (by simpa using hq) (by rw [hh, hq'])) hno
  | error e' =>
    obtain ⟨hf1, hf2⟩ := lookupKey_error.1 hlk
    rcases hf2 with ⟨hu, rfl⟩ | ⟨hu, rfl⟩
    · simp [hu, eq_comm]
    · simp only [hu, false_and, not_false_eq_true, true_and, false_or]
      rw [hset]
      constructor
      · intro h; exact ⟨fun s hs => hf1 s hs, h⟩
      · intro h; exact h.2

/-- C94, `problem.items.update(dict)`: the exception; the first wrong entry decides. -/
theorem C94_update (A : Arith) (k : SKind) (wk lk : String) (err : String → PyErr) (hk : Naming k wk lk err)
    (e : PyErr) : ∀ (es : List (PyVal × PyVal)) (i : Inst),
    (step A i (.update k es)).2 = .raised e ↔
      (Locked k i ∧ es ≠ [] ∧ e = .containersError "STRIP_PACK_ONLY") ∨ (¬ Locked k i ∧ EntriesFault wk lk err es e)
  | [], i => by
    have hstep : step A i (.update k []) = (i, .ok) := rfl
    rw [hstep]
    simp only [reduceCtorEq, ne_eq, not_true_eq_false, false_and, and_false, false_or, false_iff, not_and]
    rintro _ ⟨pre, id, v, post, h, _⟩
    simp at h
  | (id, v) :: es, i => by
    have hset := C94_setKey A i k id v wk lk err hk
    have hstep2 : step A i (.setKey k id v) = outcomeOf (i.setKey k id v) := rfl
    have hstep : step A i (.update k ((id, v) :: es)) = outcomeOf (i.update k ((id, v) :: es)) := rfl
    rw [hstep, outcome_raised]
    unfold Inst.update
    have hok := (C59_setKey A i k id v).1
    rw [hstep2] at hok
    cases hs : i.setKey k id v with
    | mk j r =>
      cases r with
      | error e' =>
        have h1 : ∀ e, (outcomeOf (i.setKey k id v)).2 = .raised e ↔ e = e' := by
          intro e; rw [outcome_raised, hs]; simp [eq_comm]
        simp only [Except.error.injEq]
        have hfault := (hset e').1 (by rw [hstep2]; exact (h1 e').2 rfl)
        by_cases hl : Locked k i
        · simp only [hl, true_and, not_true_eq_false, false_and, or_false] at hfault
          subst hfault
          constructor
          · rintro rfl; exact Or.inl ⟨hl, by simp, rfl⟩
          · rintro (⟨_, _, rfl⟩ | ⟨h, _⟩)
            · rfl
            · exact absurd hl h
        · simp only [hl, false_and, not_false_eq_true, true_and, false_or] at hfault ⊢
          constructor
          · rintro rfl
            exact ⟨[], id, v, es, rfl, by simp, hfault⟩
          · rintro ⟨pre, id', v', post, h, hpre, hf⟩
            cases pre with
            | nil =>
              simp only [List.nil_append, List.cons.injEq, Prod.mk.injEq] at h
              obtain ⟨⟨rfl, rfl⟩, rfl⟩ := h
              exact ((h1 e).1 (by rw [← hstep2]; exact (hset e).2 (Or.inr ⟨hl, hf⟩))).symm
            | cons x pre =>
              simp only [List.cons_append, List.cons.injEq] at h
              obtain ⟨rfl, rfl⟩ := h
              obtain ⟨s, d, a1, a2⟩ := hpre (id, v) (by simp)
              have := hok.2 ⟨hl, s, d, a1, by obtain ⟨rfl, rfl, _⟩ := hk.eqs; exact a2⟩
              rw [outcome_ok, hs] at this
              cases this
      | ok u =>
        have h0 : (outcomeOf (i.setKey k id v)).2 = .ok := by rw [outcome_ok, hs]
        obtain ⟨hl, s, d, rfl, hd⟩ := hok.1 h0
        have hj : Locked k j ↔ Locked k i := by
          have e1 : j = ((i.setData k (PyDict.insert (i.data k) s d)).resetAttrs k) := by
            have hl' : ¬ ((decide (k = .containers) && i.strip) = true) := fun h => hl ((locked_iff k i).1 h)
            unfold Inst.setKey at hs
            rw [if_neg hl'] at hs
            simp only [PyVal.asStr?, (mkDims_iff k v d).2 hd] at hs
            simp only [Prod.mk.injEq] at hs
            exact hs.1.symm
          rw [e1]
          cases k <;> rfl
        simp only
        have ih := C94_update A k wk lk err hk e es j
        have hstep3 : step A j (.update k es) = outcomeOf (j.update k es) := rfl
        rw [hstep3, outcome_raised, hj] at ih
        rw [ih]
        simp only [hl, false_and, not_false_eq_true, true_and, false_or]
        obtain ⟨rfl, rfl, rfl, _⟩ := hk.eqs
        constructor
        · rintro ⟨pre, id', v', post, rfl, hpre, hf⟩
          refine ⟨(.str s, v) :: pre, id', v', post, rfl, ?_, hf⟩
          intro y hy
          rcases List.mem_cons.1 hy with rfl | hy
          · exact ⟨s, d, rfl, hd⟩
          · exact hpre y hy
        · rintro ⟨pre, id', v', post, h, hpre, hf⟩
          cases pre with
          | nil =>
            simp only [List.nil_append, List.cons.injEq, Prod.mk.injEq] at h
            obtain ⟨⟨rfl, rfl⟩, rfl⟩ := h
            rw [entry_cases] at hf
            rcases hf with ⟨h, _⟩ | ⟨_, _, h⟩
            · cases h
            · rw [(mkDims_iff k v d).2 hd] at h; cases h
          | cons x pre =>
            simp only [List.cons_append, List.cons.injEq] at h
            obtain ⟨rfl, rfl⟩ := h
            exact ⟨pre, id', v', post, rfl, fun y hy => hpre y (by simp [hy]), hf⟩

/-! ### heights, strategy, in-place merge -/

/-- C94, `problem.container_height = v`: the exception. -/
theorem C94_height (A : Arith) (i : Inst) (v : PyVal) (e : PyErr) :
    (step A i (.height v)).2 = .raised e ↔
      (NotPosInt v ∧ e = .dimensionsError "DIMENSION_VALUE") ∨
      (∃ n m, IsPosInt v n ∧ i.minHeight = some m ∧ n < m ∧ e = .containersError "STRIP_PACK_MIN_HEIGHT") := by
  have hstep : step A i (.height v) = outcomeOf (i.assignHeight v) := rfl
  rw [hstep, outcome_raised]
  unfold Inst.assignHeight
  cases hn : v.atLeastOne? with
  | none =>
    have hno : NotPosInt v := fun n h => by rw [atLeastOne?_iff.2 h] at hn; cases hn
    have : ¬ ∃ n m, IsPosInt v n ∧ i.minHeight = some m ∧ n < m ∧ e = .containersError "STRIP_PACK_MIN_HEIGHT" := by
      rintro ⟨n, _, h, _⟩; exact hno n h
    rw [or_iff_left this]
    simp [hno, eq_comm]
  | some n =>
    have hp := atLeastOne?_iff.1 hn
    have hno : ¬ NotPosInt v := fun h => h n hp
    simp only [hno, false_and, false_or]
    cases hm : i.minHeight with
    | none => simp
    | some m =>
      simp only
      by_cases hlt : n < m
      · rw [if_pos hlt]
        simp only [Except.error.injEq]
        constructor
        · rintro rfl; exact ⟨n, m, hp, rfl, hlt, rfl⟩
        · rintro ⟨_, _, _, _, _, rfl⟩; rfl
      · rw [if_neg hlt]
        simp only [reduceCtorEq, false_iff]
        rintro ⟨n', m', h1, h2, h3, _⟩
        have := h1.unique hp
        injection h2 with h2
        omega

/-- C94, `problem.container_min_height = v`: the exception; TypeError in bin packing without a
container height. -/
theorem C94_minHeight (A : Arith) (i : Inst) (v : PyVal) (e : PyErr) :
    (step A i (.minHeight v)).2 = .raised e ↔
      (NotPosInt v ∧ e = .dimensionsError "DIMENSION_VALUE") ∨
      (∃ n, IsPosInt v n ∧ i.height = none ∧ e = .typeError) ∨
      (∃ n H, IsPosInt v n ∧ i.height = some H ∧ H < n ∧ e = .containersError "STRIP_PACK_MIN_HEIGHT") := by
  have hstep : step A i (.minHeight v) = outcomeOf (i.assignMinHeight v) := rfl
  rw [hstep, outcome_raised]
  unfold Inst.assignMinHeight
  cases hn : v.atLeastOne? with
  | none =>
    have hno : NotPosInt v := fun n h => by rw [atLeastOne?_iff.2 h] at hn; cases hn
    have h1 : ¬ ∃ n, IsPosInt v n ∧ i.height = none ∧ e = .typeError := by
      rintro ⟨n, h, _⟩; exact hno n h
    have h2 : ¬ ∃ n H, IsPosInt v n ∧ i.height = some H ∧ H < n ∧ e = .containersError "STRIP_PACK_MIN_HEIGHT" := by
      rintro ⟨n, _, h, _⟩; exact hno n h
    rw [or_iff_left h2, or_iff_left h1]
    simp [hno, eq_comm]
  | some n =>
    have hp := atLeastOne?_iff.1 hn
    have hno : ¬ NotPosInt v := fun h => h n hp
    simp only [hno, false_and, false_or]
    cases hm : i.height with
    | none =>
      simp only [Except.error.injEq, reduceCtorEq, false_and, and_false, exists_false, or_false, true_and]
      constructor
      · rintro rfl; exact ⟨n, hp, rfl⟩
      · rintro ⟨_, _, rfl⟩; rfl
    | some m =>
      simp only [reduceCtorEq, false_and, and_false, exists_false, false_or]
      by_cases hlt : n > m
      · rw [if_pos hlt]
        simp only [Except.error.injEq]
        constructor
        · rintro rfl; exact ⟨n, m, hp, rfl, hlt, rfl⟩
        · rintro ⟨_, _, _, _, _, rfl⟩; rfl
      · rw [if_neg hlt]
        simp only [reduceCtorEq, false_iff]
        rintro ⟨n', m', h1, h2, h3, _⟩
        have := h1.unique hp
        injection h2 with h2
        omega

theorem checkStrategy_fault (m : String) : ∀ (l : List PyVal) (seen : List PClass), seen.Nodup →
    (checkStrategy l seen = .error (.potentialPointsError m) ↔
      ∃ (pre : List String) (x : PyVal) (post : List PyVal), l = pre.map .str ++ x :: post ∧
        (seen.map PClass.name ++ pre).Nodup ∧ (∀ n ∈ pre, n ∈ pointNames) ∧
        (((∀ s, x ≠ .str s) ∧ m = "ELEMENT_TYPE") ∨
         (∃ s, x = .str s ∧ s ∉ pointNames ∧ m = "ELEMENT_NOT_POINT") ∨
         (∃ s, x = .str s ∧ s ∈ seen.map PClass.name ++ pre ∧ m = "DUPLICATE_POINTS")))
  | [], seen, _ => by
    simp only [checkStrategy, reduceCtorEq, false_iff]
    rintro ⟨pre, x, post, h, _⟩
    simp at h
  | v :: rest, seen, hn => by
    have hnn : (seen.map PClass.name).Nodup := hn.map (fun a b h => name_inj h)
    unfold checkStrategy
    cases hv : v.asStr? with
    | none =>
      have hno := asStr?_none.1 hv
      simp only [Except.error.injEq, PyErr.potentialPointsError.injEq]
      constructor
      · rintro rfl
        exact ⟨[], v, rest, rfl, by simpa using hnn, by simp, Or.inl ⟨hno, rfl⟩⟩
      · rintro ⟨pre, x, post, h, _, _, hc⟩
        cases pre with
        | nil =>
          simp only [List.map_nil, List.nil_append, List.cons.injEq] at h
          obtain ⟨rfl, rfl⟩ := h
          rcases hc with ⟨_, rfl⟩ | ⟨s, h, _⟩ | ⟨s, h, _⟩
          · rfl
          · exact absurd h (hno s)
          · exact absurd h (hno s)
        | cons p pre =>
          simp only [List.map_cons, List.cons_append, List.cons.injEq] at h
          exact absurd h.1 (hno p)
    | some s =>
      have hvs := asStr?_iff.1 hv
      subst hvs
      simp only
      cases hc : PClass.ofName? s with
      | none =>
        have hnp : s ∉ pointNames := by
          intro h
          obtain ⟨c, h⟩ := exists_of_name h
          rw [(ofName?_iff s c).2 h] at hc; cases hc
        simp only [Except.error.injEq, PyErr.potentialPointsError.injEq]
        constructor
        · rintro rfl
          exact ⟨[], .str s, rest, rfl, by simpa using hnn, by simp, Or.inr (Or.inl ⟨s, rfl, hnp, rfl⟩)⟩
        · rintro ⟨pre, x, post, h, _, hpre, hc⟩
          cases pre with
          | nil =>
            simp only [List.map_nil, List.nil_append, List.cons.injEq] at h
            obtain ⟨rfl, rfl⟩ := h
            rcases hc with ⟨h, _⟩ | ⟨t, _, _, rfl⟩ | ⟨t, h, ht, _⟩
            · exact absurd rfl (h s)
            · rfl
            · injection h with h; subst h
              simp only [List.append_nil] at ht
              obtain ⟨c, _, rfl⟩ := List.mem_map.1 ht
              exact absurd (name_mem c) hnp
          | cons p pre =>
            simp only [List.map_cons, List.cons_append, List.cons.injEq, PyVal.str.injEq] at h
            exact absurd (h.1 ▸ hpre p (by simp)) hnp
      | some c =>
        have hcs := (ofName?_iff s c).1 hc
        subst hcs
        simp only
        by_cases hm : c ∈ seen
        · rw [if_pos hm]
          have hmem : c.name ∈ seen.map PClass.name := List.mem_map_of_mem hm
          simp only [Except.error.injEq, PyErr.potentialPointsError.injEq]
          constructor
          · rintro rfl
            exact ⟨[], .str c.name, rest, rfl, by simpa using hnn, by simp,
              Or.inr (Or.inr ⟨_, rfl, by simpa using hmem, rfl⟩)⟩
          · rintro ⟨pre, x, post, h, hnd, hpre, hc⟩
            cases pre with
            | nil =>
              simp only [List.map_nil, List.nil_append, List.cons.injEq] at h
              obtain ⟨rfl, rfl⟩ := h
              rcases hc with ⟨h, _⟩ | ⟨t, h, ht, _⟩ | ⟨t, _, _, rfl⟩
              · exact absurd rfl (h _)
              · injection h with h; subst h; exact absurd (name_mem c) ht
              · rfl
            | cons p pre =>
              simp only [List.map_cons, List.cons_append, List.cons.injEq, PyVal.str.injEq] at h
              obtain ⟨rfl, _⟩ := h
              rw [List.nodup_append] at hnd
              exact absurd rfl (hnd.2.2 _ hmem _ (by simp))
        · rw [if_neg hm]
          have hn' : (seen ++ [c]).Nodup := by
            rw [List.nodup_append]
            refine ⟨hn, by simp, ?_⟩
            rintro a ha b hb rfl
            simp only [List.mem_singleton] at hb
            subst hb; exact hm ha
          have hnm : c.name ∉ seen.map PClass.name := by
            intro h
            obtain ⟨c', h1, h2⟩ := List.mem_map.1 h
            exact hm (name_inj h2 ▸ h1)
          rw [checkStrategy_fault m rest (seen ++ [c]) hn']
          simp only [List.map_append, List.map_cons, List.map_nil, List.append_assoc, List.singleton_append]
          constructor
          · rintro ⟨pre, x, post, rfl, hnd, hpre, hc⟩
            refine ⟨c.name :: pre, x, post, rfl, hnd, ?_, hc⟩
            intro n hnm
            rcases List.mem_cons.1 hnm with rfl | hnm
            · exact name_mem c
            · exact hpre n hnm
          · rintro ⟨pre, x, post, h, hnd, hpre, hc⟩
            cases pre with
            | nil =>
              exfalso
              simp only [List.map_nil, List.nil_append, List.cons.injEq] at h
              obtain ⟨rfl, rfl⟩ := h
              rcases hc with ⟨h, _⟩ | ⟨t, h, ht, _⟩ | ⟨t, h, ht, _⟩
              · exact absurd rfl (h _)
              · injection h with h; subst h; exact absurd (name_mem c) ht
              · injection h with h; subst h; exact hnm (by simpa using ht)
            | cons p pre =>
              simp only [List.map_cons, List.cons_append, List.cons.injEq, PyVal.str.injEq] at h
              obtain ⟨rfl, rfl⟩ := h
              exact ⟨pre, x, post, rfl, hnd, fun n hn => hpre n (by simp [hn]), hc⟩

/-- C94, `problem.potential_points_strategy = v`: the exception. -/
theorem C94_strategy (A : Arith) (i : Inst) (v : PyVal) (e : PyErr) :
    (step A i (.strategy v)).2 = .raised e ↔ ∃ m, StrategyFault v m ∧ e = .potentialPointsError m := by
  have hstep : step A i (.strategy v) = outcomeOf (i.assignStrategy v) := rfl
  rw [hstep, outcome_raised]
  unfold Inst.assignStrategy
  by_cases ht : ∃ l, v = .tuple l
  · obtain ⟨l, rfl⟩ := ht
    have key := fun m => checkStrategy_fault m l [] (by simp)
    simp only [List.map_nil, List.nil_append] at key
    have hsf : ∀ m, StrategyFault (.tuple l) m ↔ checkStrategy l [] = .error (.potentialPointsError m) := by
      intro m
      rw [key]
      unfold StrategyFault
      constructor
      · rintro (⟨h, _⟩ | ⟨pre, x, post, h, h'⟩)
        · exact absurd rfl (h _)
        · injection h with h; exact ⟨pre, x, post, h, h'⟩
      · rintro ⟨pre, x, post, rfl, h'⟩
        exact Or.inr ⟨pre, x, post, rfl, h'⟩
    simp only [PyVal.asTuple?, hsf]
    cases hc : checkStrategy l [] with
    | ok cs => simp
    | error e' =>
      obtain ⟨m, rfl⟩ := checkStrategy_error l [] e' hc
      simp [eq_comm]
  · have hv : ∀ l, v ≠ .tuple l := fun l h => ht ⟨l, h⟩
    have : v.asTuple? = none := by cases v <;> first | rfl | exact absurd rfl (hv _)
    rw [this]
    simp only [Except.error.injEq]
    constructor
    · rintro rfl; exact ⟨_, Or.inl ⟨hv, rfl⟩, rfl⟩
    · rintro ⟨m, ⟨_, rfl⟩ | ⟨pre, x, post, h, _⟩, rfl⟩
      · rfl
      · exact absurd h (hv _)

/-- C94, `problem.items |= other`: always an exception (see C37). -/
theorem C94_merge (i : Inst) (k : SKind) (wk lk : String) (err : String → PyErr) (hk : Naming k wk lk err)
    (other : List (PyVal × PyVal)) :
    (Locked k i → (i.ior k other).2 = .containersError "STRIP_PACK_ONLY") ∧
    (¬ Locked k i → (i.ior k other).2 = err "TYPE") := by
  obtain ⟨_, _, rfl, _⟩ := hk.eqs
  unfold Inst.ior
  constructor
  · intro hl; simp only [if_pos ((locked_iff k i).2 hl)]
  · intro hl
    have hl' : ¬ ((decide (k = .containers) && i.strip) = true) := fun h => hl ((locked_iff k i).1 h)
    simp only [if_neg hl']

/-- C94 on concrete values -/
example : Naming .items "w" "l" PyErr.itemsError ∧
    EntriesFault "w" "l" PyErr.itemsError
      [(.str "a", .dict [(.str "w", .int 2), (.str "l", .int 3)]), (.str "b", .dict [(.str "w", .int 2)])]
      (.dimensionsError "DIMENSIONS_KEYS") ∧
    KeyFault ["a", "b"] (.tuple [.list []]) .typeError ∧
    StrategyFault (.tuple [.str "A", .str "B", .str "A"]) "DUPLICATE_POINTS" := by
  refine ⟨Or.inl ⟨rfl, rfl, rfl, rfl⟩, ⟨[(.str "a", .dict [(.str "w", .int 2), (.str "l", .int 3)])], _, _, [], rfl, ?_, ?_⟩, ?_, ?_⟩
  · intro x hx
    simp only [List.mem_singleton] at hx
    subst hx
    exact ⟨"a", ⟨2, 3⟩, rfl, _, _, Or.inl rfl, ⟨by decide, Or.inl rfl⟩, ⟨by decide, Or.inl rfl⟩⟩
  · refine Or.inr ⟨"b", "DIMENSIONS_KEYS", rfl, Or.inr (Or.inr (Or.inl ⟨⟨_, rfl, by simp⟩, ?_, rfl⟩)), rfl⟩
    rintro a b (h | h) <;> simp at h
  · refine ⟨(by intro s _ h; cases h), Or.inl ⟨.tuple _ (.list []) (by simp) (.list []), rfl⟩⟩
  · exact Or.inr ⟨["A", "B"], .str "A", [], rfl, by decide, by decide, Or.inr (Or.inr ⟨"A", rfl, by decide, rfl⟩)⟩

end HP
