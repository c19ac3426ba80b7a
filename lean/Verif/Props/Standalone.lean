import Verif.Model.Standalone
import Verif.Props.Structures
import Verif.Proofs.Objects
/-
C105: Items, Containers and Dimensions objects that belong to no problem.
-/
namespace HP
open Spec

/-! ### Merged dicts -/

theorem mem_setEntry {s : String} {v : PyVal} : ∀ {l : List (PyVal × PyVal)}, (l.map (·.1)).Nodup →
    ∀ {e}, e ∈ setEntry l s v ↔ e = (.str s, v) ∨ (e ∈ l ∧ e.1 ≠ .str s)
  | [], _, e => by simp [setEntry]
  | (k, w) :: l, hn, e => by
    simp only [List.map_cons, List.nodup_cons] at hn
    unfold setEntry
    by_cases hk : k.eqStr s = true
    · rw [if_pos hk]
      have hk' := eqStr_iff.1 hk
      subst hk'
      simp only [List.mem_cons]
      constructor
      · rintro (h | h)
        · exact Or.inl h
        · refine Or.inr ⟨Or.inr h, ?_⟩
          intro he
          exact hn.1 (List.mem_map.2 ⟨e, h, he⟩)
      · rintro (h | ⟨rfl | h, h2⟩)
        · exact Or.inl h
        · exact absurd rfl h2
        · exact Or.inr h
    · rw [if_neg hk]
      have hk' : k ≠ .str s := fun h => hk (eqStr_iff.2 h)
      simp only [List.mem_cons, mem_setEntry hn.2]
      constructor
      · rintro (rfl | h | ⟨h, h2⟩)
        · exact Or.inr ⟨Or.inl rfl, hk'⟩
        · exact Or.inl h
        · exact Or.inr ⟨Or.inr h, h2⟩
      · rintro (h | ⟨rfl | h, h2⟩)
        · exact Or.inr (Or.inl h)
        · exact Or.inl rfl
        · exact Or.inr (Or.inr ⟨h, h2⟩)

theorem keys_setEntry {s : String} {v : PyVal} : ∀ (l : List (PyVal × PyVal)),
    (.str s ∈ l.map (·.1) → (setEntry l s v).map (·.1) = l.map (·.1)) ∧
    (.str s ∉ l.map (·.1) → (setEntry l s v).map (·.1) = l.map (·.1) ++ [.str s])
  | [] => by simp [setEntry]
  | (k, w) :: l => by
    unfold setEntry
    by_cases hk : k.eqStr s = true
    · rw [if_pos hk]
      have hk' := eqStr_iff.1 hk
      subst hk'
      simp
    · rw [if_neg hk]
      have hk' : PyVal.str s ≠ k := fun h => hk (eqStr_iff.2 h.symm)
      obtain ⟨h1, h2⟩ := keys_setEntry (s := s) (v := v) l
      constructor
      · intro h
        simp only [List.map_cons, List.mem_cons] at h
        rcases h with h | h
        · exact absurd h hk'
        · simp only [List.map_cons]; rw [h1 h]
      · intro h
        simp only [List.map_cons, List.mem_cons, not_or] at h
        simp only [List.map_cons, List.cons_append]; rw [h2 h.2]

theorem nodup_keys_setEntry {s : String} {v : PyVal} {l : List (PyVal × PyVal)} (hn : (l.map (·.1)).Nodup) :
    ((setEntry l s v).map (·.1)).Nodup := by
  by_cases h : .str s ∈ l.map (·.1)
  · rw [(keys_setEntry l).1 h]; exact hn
  · rw [(keys_setEntry l).2 h, List.nodup_append]
    exact ⟨hn, by simp, by intro a ha b hb; simp at hb; subst hb; rintro rfl; exact h ha⟩

/-- the entries of `l | es` -/
theorem mem_rawIor : ∀ {es l : List (PyVal × PyVal)}, (l.map (·.1)).Nodup → (es.map (·.1)).Nodup →
    (∀ e ∈ es, e.1.asStr? = none → e.1 ∉ l.map (·.1)) →
    ((rawIor l es).map (·.1)).Nodup ∧
    ∀ e, e ∈ rawIor l es ↔ e ∈ es ∨ (e ∈ l ∧ e.1 ∉ es.map (·.1))
  | [], l, hl, _, _ => ⟨hl, by simp [rawIor]⟩
  | (k, v) :: es, l, hl, hes, hd => by
    simp only [List.map_cons, List.nodup_cons] at hes
    cases hk : k.asStr? with
    | some s =>
      have hks : k = .str s := by cases k <;> simp_all [PyVal.asStr?]
      subst hks
      have hr : rawIor l ((.str s, v) :: es) = rawIor (setEntry l s v) es := rfl
      rw [hr]
      obtain ⟨h1, h2⟩ := mem_rawIor (es := es) (l := setEntry l s v) (nodup_keys_setEntry hl) hes.2 (by
        intro e he hn hm
        obtain ⟨e', he', heq⟩ := List.mem_map.1 hm
        rcases (mem_setEntry hl).1 he' with rfl | ⟨h, _⟩
        · rw [← heq] at hn; cases hn
        · exact hd e (by simp [he]) hn (List.mem_map.2 ⟨e', h, heq⟩))
      refine ⟨h1, ?_⟩
      intro e
      rw [h2, mem_setEntry hl]
      simp only [List.map_cons, List.mem_cons, not_or]
      constructor
      · rintro (h | ⟨rfl | ⟨h, h3⟩, h4⟩)
        · exact Or.inl (Or.inr h)
        · exact Or.inl (Or.inl rfl)
        · exact Or.inr ⟨h, h3, h4⟩
      · rintro ((rfl | h) | ⟨h, h3, h4⟩)
        · exact Or.inr ⟨Or.inl rfl, hes.1⟩
        · exact Or.inl h
        · exact Or.inr ⟨Or.inr ⟨h, h3⟩, h4⟩
    | none =>
      have hr : rawIor l ((k, v) :: es) = rawIor (l ++ [(k, v)]) es := by
        show es.foldl _ (match k.asStr? with | some s => setEntry l s v | none => l ++ [(k, v)]) = _
        rw [hk]; rfl
      rw [hr]
      have hkl := hd (k, v) (by simp) hk
      obtain ⟨h1, h2⟩ := mem_rawIor (es := es) (l := l ++ [(k, v)]) (by
          rw [List.map_append, List.nodup_append]
          refine ⟨hl, by simp, ?_⟩
          intro a ha b hb
          simp at hb; subst hb
          rintro rfl; exact hkl ha) hes.2 (by
        intro e he hn hm
        simp only [List.map_append, List.map_cons, List.map_nil, List.mem_append, List.mem_singleton] at hm
        rcases hm with hm | hm
        · exact hd e (by simp [he]) hn hm
        · exact hes.1 (List.mem_map.2 ⟨e, he, hm⟩))
      refine ⟨h1, ?_⟩
      intro e
      rw [h2]
      simp only [List.map_cons, List.mem_cons, not_or, List.mem_append, List.not_mem_nil, or_false]
      constructor
      · rintro (h | ⟨h | rfl, h4⟩)
        · exact Or.inl (Or.inr h)
        · refine Or.inr ⟨h, ?_, h4⟩
          rintro heq
          exact hkl (List.mem_map.2 ⟨e, h, heq⟩)
        · exact Or.inl (Or.inl rfl)
      · rintro ((rfl | h) | ⟨h, h3, h4⟩)
        · exact Or.inr ⟨Or.inr rfl, hes.1⟩
        · exact Or.inl h
        · exact Or.inr ⟨Or.inl h, h4⟩

/-- the keys of `l | es`: those of `l`, then the new ones -/
theorem keys_rawIor : ∀ (names own : List String) (es l : List (PyVal × PyVal)), es.map (·.1) = names.map .str →
    names.Nodup → l.map (·.1) = own.map .str →
    (rawIor l es).map (·.1) = (own ++ names.filter (· ∉ own)).map .str
  | [], own, es, l, h, _, hl => by
    have : es = [] := by simpa using h
    subst this
    simpa [rawIor] using hl
  | n :: names, own, es, l, h, hnd, hl => by
    rw [List.nodup_cons] at hnd
    obtain ⟨e, es, rfl, he, hes⟩ := List.map_eq_cons_iff.1 h
    obtain ⟨k, v⟩ := e
    simp only at he; subst he
    have hr : rawIor l ((.str n, v) :: es) = rawIor (setEntry l n v) es := rfl
    rw [hr]
    have hin : PyVal.str n ∈ l.map (·.1) ↔ n ∈ own := by rw [hl]; simp
    by_cases hno : n ∈ own
    · rw [keys_rawIor names own es _ hes hnd.2 (by rw [(keys_setEntry l).1 (hin.2 hno), hl])]
      rw [List.filter_cons_of_neg (by simpa using hno)]
    · rw [keys_rawIor names (own ++ [n]) es _ hes hnd.2
        (by rw [(keys_setEntry l).2 (fun h => hno (hin.1 h)), hl]; simp)]
      rw [List.filter_cons_of_pos (by simpa using hno)]
      have : names.filter (· ∉ own ++ [n]) = names.filter (· ∉ own) := by
        apply List.filter_congr
        intro x hx
        have : x ≠ n := by rintro rfl; exact hnd.1 hx
        simp [this]
      rw [this]; simp

/-! ### Creating -/

/-- C105: `Items(v)` and `Containers(v)` accept exactly what the constructor of a problem accepts
(C60), and contain just that. -/
theorem C105_create_partial (k : SKind) (v : PyVal) :
    ((∃ d, Standalone.mk k v = .ok d) ↔ ∃ sizes, IsSizes k.width k.length v sizes) ∧
    (∀ d sizes, Standalone.mk k v = .ok d → IsSizes k.width k.length v sizes → (sizes.map (·.1)).Nodup → d = sizes) := by
  constructor
  · constructor
    · rintro ⟨d, h⟩
      obtain ⟨sizes, h1, _⟩ := (buildStructure_iff k v d).1 h
      exact ⟨sizes, h1⟩
    · rintro ⟨sizes, h⟩
      exact ⟨_, (buildStructure_iff k v _).2 ⟨sizes, h, rfl⟩⟩
  · intro d sizes h h1 hn
    have := (buildStructure_iff k v _).2 ⟨sizes, h1, rfl⟩
    rw [show (buildStructure k v).2 = .ok d from h, foldl_insert_nodup sizes [] (by simpa using hn)] at this
    injection this

/-- C105: `Dimensions(v, s)` accepts exactly sizes, and only if `s` is an `Items` or a `Containers` -/
theorem C105_dimensions_partial (k : Option SKind) (v : PyVal) (d : Dim) :
    Standalone.mkDimensions k v = .ok d ↔ ∃ kind, k = some kind ∧ IsSize kind.width kind.length v d := by
  cases k with
  | none => simp [Standalone.mkDimensions]
  | some k => simp [Standalone.mkDimensions, mkDims_iff]

/-- C105: without an `Items` or a `Containers` as second argument `Dimensions(v, x)` raises for that reason, whatever `v` is. -/
theorem C105_reference (v : PyVal) :
    Standalone.mkDimensions none v = .error (.dimensionsError "DIMENSIONS_REFERENCE_OBJECT") := rfl

/-- what can become of a structure that belongs to no problem -/
inductive SReach (k : SKind) : PyDict String Dim → Prop where
  | new {v : PyVal} {d : PyDict String Dim} : Standalone.mk k v = .ok d → SReach k d
  | step {d : PyDict String Dim} (m : SMeth) : SReach k d → SReach k (Standalone.onStruct k d m).1

theorem filter_of_erase {d : PyDict String Dim} (hn : (PyDict.keys d).Nodup) (s : String) :
    PyDict.erase d s = d.filter (fun p => p.1 ≠ s) := by
  induction d with
  | nil => rfl
  | cons p d ih =>
    obtain ⟨a, x⟩ := p
    simp only [PyDict.keys, List.map_cons, List.nodup_cons] at hn
    show (if a = s then d else (a, x) :: PyDict.erase d s) = _
    by_cases h : a = s
    · subst h
      rw [if_pos rfl, List.filter_cons_of_neg (by simp)]
      symm
      rw [List.filter_eq_self]
      intro q hq
      simp only [ne_eq, decide_eq_true_eq]
      rintro heq
      exact hn.1 (List.mem_map.2 ⟨q, hq, heq⟩)
    · rw [if_neg h, List.filter_cons_of_pos (by simpa using h), ih hn.2]

/-- the call removes the entry `id`, if it does not fail before -/
def RemovesFirst (d : PyDict String Dim) (id : String) : SMeth → Prop
  | .delItem key => key = .str id
  | .pop key _ => key = .str id
  | .popitem => d.head?.map (·.1) = some id
  | .clear => d.head?.map (·.1) = some id
  | _ => False

/-- the key can be looked up, and is not an id of the collection -/
def KeyMissing (d : PyDict String Dim) (key : PyVal) : Prop :=
  key.hashable = true ∧ ∀ id, key = .str id → id ∉ PyDict.keys d

theorem delItem_cases (k : SKind) (key : PyVal) (d : PyDict String Dim) :
    ((Standalone.delItem k key d).1 = d ∧ (Standalone.delItem k key d).2 ≠ .ok ()) ∨
    ∃ s, key = .str s ∧ d.length ≠ 1 ∧ s ∈ PyDict.keys d ∧
      Standalone.delItem k key d = (PyDict.erase d s, .error .attributeError) := by
  unfold Standalone.delItem
  split
  · left; exact ⟨rfl, by simp⟩
  · rename_i hlen
    cases h : lookupKey d key with
    | error e => left; exact ⟨rfl, by simp⟩
    | ok p =>
      right
      obtain ⟨s, x⟩ := p
      have hf := lookupKey_find h
      have hks : key = .str s := by
        unfold lookupKey at h
        cases hk : key.asStr? with
        | none => rw [hk] at h; cases h
        | some t =>
          rw [hk] at h
          simp only at h
          cases hf' : PyDict.find? d t with
          | none => rw [hf'] at h; cases h
          | some y =>
            rw [hf'] at h
            injection h with h
            injection h with h h2
            subst h
            cases key <;> simp_all [PyVal.asStr?]
      exact ⟨s, hks, hlen, List.mem_map.2 ⟨_, PyDict.find?_mem hf, rfl⟩, rfl⟩

/-- C105: what the methods of an object without a problem do: no edit succeeds; and each changes
nothing, or deletes one entry, which it was asked to delete, and then raises AttributeError. -/
theorem C105_methods_partial (k : SKind) (d : PyDict String Dim) (hn : (PyDict.keys d).Nodup) (m : SMeth) :
    ((Standalone.onStruct k d m).2 = .ok () → (Standalone.onStruct k d m).1 = d) ∧
    ((Standalone.onStruct k d m).1 = d ∨
      ∃ id, RemovesFirst d id m ∧ 2 ≤ d.length ∧ (Standalone.onStruct k d m).1 = d.filter (fun p => p.1 ≠ id) ∧
        (Standalone.onStruct k d m).2 = .error .attributeError) := by
  have del : ∀ key, (Standalone.delItem k key d).2 ≠ .ok () ∧ ((Standalone.delItem k key d).1 = d ∨
      ∃ id, key = .str id ∧ 2 ≤ d.length ∧ (Standalone.delItem k key d).1 = d.filter (fun p => p.1 ≠ id) ∧
        (Standalone.delItem k key d).2 = .error .attributeError) := by
    intro key
    rcases delItem_cases k key d with ⟨h1, h2⟩ | ⟨s, h1, h2, h3, h4⟩
    · exact ⟨h2, Or.inl h1⟩
    · rw [h4]
      refine ⟨by simp, Or.inr ⟨s, h1, ?_, filter_of_erase hn s, rfl⟩⟩
      cases d with
      | nil => simp [PyDict.keys] at h3
      | cons a d =>
        cases d with
        | nil => simp at h2
        | cons b d => simp
  cases m with
  | setItem id v => exact ⟨fun _ => rfl, Or.inl rfl⟩
  | delItem key =>
    refine ⟨fun h => absurd h (del key).1, ?_⟩
    rcases (del key).2 with h | ⟨id, h1, h2⟩
    · exact Or.inl h
    · exact Or.inr ⟨id, h1, h2⟩
  | pop key dflt =>
    simp only [Standalone.onStruct]
    split
    · exact ⟨fun _ => rfl, Or.inl rfl⟩
    · exact ⟨fun _ => rfl, Or.inl rfl⟩
    · refine ⟨fun h => absurd h (del key).1, ?_⟩
      rcases (del key).2 with h | ⟨id, h1, h2⟩
      · exact Or.inl h
      · exact Or.inr ⟨id, h1, h2⟩
  | popitem =>
    cases d with
    | nil => exact ⟨fun _ => rfl, Or.inl rfl⟩
    | cons a d =>
      obtain ⟨s, x⟩ := a
      refine ⟨fun h => absurd h (del (.str s)).1, ?_⟩
      rcases (del (.str s)).2 with h | ⟨id, h1, h2⟩
      · exact Or.inl h
      · injection h1 with h1; subst h1
        exact Or.inr ⟨s, rfl, h2⟩
  | clear =>
    cases d with
    | nil => exact ⟨fun _ => rfl, Or.inl rfl⟩
    | cons a d =>
      obtain ⟨s, x⟩ := a
      refine ⟨fun h => absurd h (del (.str s)).1, ?_⟩
      rcases (del (.str s)).2 with h | ⟨id, h1, h2⟩
      · exact Or.inl h
      · injection h1 with h1; subst h1
        exact Or.inr ⟨s, rfl, h2⟩
  | update es => cases es <;> exact ⟨fun _ => rfl, Or.inl rfl⟩
  | setdefault key v =>
    simp only [Standalone.onStruct]
    split <;> exact ⟨fun _ => rfl, Or.inl rfl⟩
  | copy => exact ⟨fun _ => rfl, Or.inl rfl⟩

/-- C105: the only calls that do not raise are those that have nothing to do: reading the default of
`pop` for an unknown key, `update` with nothing, and `setdefault` of an entry that is there. -/
theorem C105_succeeds_partial (k : SKind) (d : PyDict String Dim) (hne : d ≠ []) (m : SMeth) :
    (Standalone.onStruct k d m).2 = .ok () ↔
      (∃ key, m = .pop key true ∧ KeyMissing d key) ∨ m = .update [] ∨
      (∃ id v, m = .setdefault (.str id) v ∧ id ∈ PyDict.keys d) := by
  have del : ∀ key, (Standalone.delItem k key d).2 ≠ .ok () := by
    intro key
    rcases delItem_cases k key d with ⟨_, h2⟩ | ⟨s, _, _, _, h4⟩
    · exact h2
    · rw [h4]; simp
  have look : ∀ key, (lookupKey d key = .error .keyError ↔ KeyMissing d key) := by
    intro key
    unfold lookupKey KeyMissing
    cases key with
    | str s =>
      simp only [PyVal.asStr?]
      cases hf : PyDict.find? d s with
      | some x =>
        have : s ∈ PyDict.keys d := List.mem_map.2 ⟨_, PyDict.find?_mem hf, rfl⟩
        simp [this]
      | none =>
        simp only [PyVal.str.injEq, forall_eq', true_iff]
        refine ⟨by simp [PyVal.hashable], ?_⟩
        intro hin
        obtain ⟨x, hx⟩ := PyDict.find?_isSome_of_mem_keys hin
        rw [hf] at hx; cases hx
    | _ => simp [PyVal.asStr?]
  cases m with
  | setItem id v => simp [Standalone.onStruct]
  | delItem key => simpa [Standalone.onStruct] using del key
  | pop key dflt =>
    simp only [Standalone.onStruct, SMeth.pop.injEq, reduceCtorEq, false_and, exists_false, or_false]
    cases hl : lookupKey d key with
    | error e =>
      by_cases he : e = .keyError
      · subst he
        have hk := (look key).1 hl
        cases dflt
        · simp
        · simp only [if_true, true_iff]
          exact ⟨key, ⟨rfl, trivial⟩, hk⟩
      · have h1 : ¬ KeyMissing d key := by
          intro h
          rw [(look key).2 h] at hl
          injection hl with hl
          exact he hl.symm
        constructor
        · intro h
          split at h <;> simp_all
        · rintro ⟨key', ⟨rfl, _⟩, h⟩
          exact absurd h h1
    | ok p =>
      simp only
      constructor
      · intro h; exact absurd h (del key)
      · rintro ⟨key', ⟨rfl, _⟩, h⟩
        rw [(look key).2 h] at hl
        cases hl
  | popitem =>
    cases d with
    | nil => exact absurd rfl hne
    | cons a d => simpa [Standalone.onStruct] using del (.str a.1)
  | clear =>
    cases d with
    | nil => exact absurd rfl hne
    | cons a d => simpa [Standalone.onStruct] using del (.str a.1)
  | update es => cases es <;> simp [Standalone.onStruct]
  | setdefault key v =>
    simp only [Standalone.onStruct, SMeth.setdefault.injEq, reduceCtorEq, false_and, exists_false, false_or]
    constructor
    · intro h
      cases hl : lookupKey d key with
      | error e =>
        rw [hl] at h
        split at h <;> simp_all
      | ok p =>
        obtain ⟨s, x⟩ := p
        have hin := PyDict.find?_mem (lookupKey_find hl)
        refine ⟨s, v, ⟨?_, rfl⟩, List.mem_map.2 ⟨_, hin, rfl⟩⟩
        unfold lookupKey at hl
        cases key <;> simp only [PyVal.asStr?] at hl <;> try cases hl
        rename_i t
        cases hf : PyDict.find? d t with
        | none => rw [hf] at hl; cases hl
        | some y => rw [hf] at hl; cases hl; rfl
    · rintro ⟨id, v', ⟨rfl, rfl⟩, hid⟩
      obtain ⟨x, hx⟩ := PyDict.find?_isSome_of_mem_keys hid
      rw [World.lookupKey_str hx]
  | copy =>
    cases d with
    | nil => exact absurd rfl hne
    | cons a d => simp [Standalone.onStruct]

/-- C105: whatever is done with it (short of `|=`), it stays a non-empty collection of sizes; and a
`Dimensions` object never changes. -/
theorem C105_valid_partial (k : SKind) (d : PyDict String Dim) (h : SReach k d) :
    ValidSizes d ∧ d ≠ [] ∧ ∀ dim m, (Standalone.onDims k dim m).1 = dim := by
  refine ⟨?_, ?_, ?_⟩
  rotate_left
  rotate_left
  · intro dim m
    cases m with
    | update es => cases es <;> rfl
    | _ => rfl
  all_goals
    have both : ValidSizes d ∧ d ≠ [] := by
      induction h with
      | new h =>
        obtain ⟨h1, h2, _⟩ := buildStructure_valid h
        exact ⟨h1, h2⟩
      | @step d m _ ih =>
        rcases (C105_methods_partial k d ih.1.1 m).2 with h | ⟨id, _, h2, h3, _⟩
        · rw [h]; exact ih
        · rw [h3]
          refine ⟨⟨ih.1.1.sublist (List.filter_sublist.map _), fun p hp => ih.1.2 p (List.mem_of_mem_filter hp)⟩, ?_⟩
          intro hnil
          rw [List.filter_eq_nil_iff] at hnil
          have hn := ih.1.1
          match d, h2, hn, hnil with
          | a :: b :: d, _, hn, hnil =>
            have ha := hnil a (by simp)
            have hb := hnil b (by simp)
            simp only [ne_eq, decide_not, Bool.not_eq_true', decide_eq_false_iff_not, not_not] at ha hb
            simp only [PyDict.keys, List.map_cons, List.nodup_cons, List.mem_cons, not_or] at hn
            exact hn.1.1 (by rw [ha, hb])
    first | exact both.1 | exact both.2

/-- C105 is false of the code: no edit of such an object succeeds, however valid; and deleting an
entry (also by `pop`, `popitem` or `clear`) raises AttributeError although the entry is gone. -/
theorem C105_refuted_edit (k : SKind) (d : PyDict String Dim) (hn : (PyDict.keys d).Nodup) :
    (∀ id v, Standalone.onStruct k d (.setItem id v) = (d, .error .attributeError)) ∧
    (∀ (dim : Dim) key v, Standalone.onDims k dim (.setItem key v) = (dim, .error .attributeError)) ∧
    (∀ id ∈ PyDict.keys d, 2 ≤ d.length → ∀ m, RemovesFirst d id m →
      Standalone.onStruct k d m = (d.filter (fun p => p.1 ≠ id), .error .attributeError)) := by
  refine ⟨fun _ _ => rfl, fun _ _ _ => rfl, ?_⟩
  intro id hid hl m hm
  obtain ⟨x, hx⟩ := PyDict.find?_isSome_of_mem_keys hid
  have del : Standalone.delItem k (.str id) d = (d.filter (fun p => p.1 ≠ id), .error .attributeError) := by
    unfold Standalone.delItem
    rw [if_neg (by omega), World.lookupKey_str hx]
    simp only
    rw [filter_of_erase hn]
  cases m with
  | delItem key => cases hm; exact del
  | pop key dflt =>
    cases hm
    simp only [Standalone.onStruct, World.lookupKey_str hx]
    exact del
  | popitem =>
    cases d with
    | nil => cases hm
    | cons a d =>
      obtain ⟨s, y⟩ := a
      simp only [RemovesFirst, List.head?_cons, Option.map_some, Option.some.injEq] at hm
      subst hm
      exact del
  | clear =>
    cases d with
    | nil => cases hm
    | cons a d =>
      obtain ⟨s, y⟩ := a
      simp only [RemovesFirst, List.head?_cons, Option.map_some, Option.some.injEq] at hm
      subst hm
      exact del
  | _ => cases hm

/-- C105: `str` works for items, but not for containers. -/
theorem C105_str (d : PyDict String Dim) (hne : d ≠ []) :
    Standalone.str .items d = .ok (itemsText d) ∧ Standalone.str .containers d = .error .attributeError :=
  ⟨rfl, by simp [Standalone.str, hne]⟩

/-! ### Merging -/

theorem good_of_isSizes (k : SKind) {es : List (PyVal × PyVal)} {sizes : List (String × Dim)}
    (h : IsSizes k.width k.length (.dict es) sizes) :
    (∀ e ∈ es, GoodEntry k e) ∧ es.map (·.1) = sizes.map (fun p => PyVal.str p.1) ∧
    ∀ e ∈ es, ∃ p ∈ sizes, e.1 = .str p.1 ∧ IsSize k.width k.length e.2 p.2 := by
  obtain ⟨es', h1, hne, h3⟩ := h
  injection h1 with h1; subst h1
  clear hne
  induction h3 with
  | nil => simp
  | @cons e p l sz hd tl ih =>
    obtain ⟨i1, i2, i3⟩ := ih
    refine ⟨?_, ?_, ?_⟩
    · intro e' he'
      rcases List.mem_cons.1 he' with rfl | he'
      · exact ⟨p.1, p.2, hd⟩
      · exact i1 e' he'
    · simp [hd.1, i2]
    · intro e' he'
      rcases List.mem_cons.1 he' with rfl | he'
      · exact ⟨p, by simp, hd⟩
      · obtain ⟨q, hq, h⟩ := i3 e' he'
        exact ⟨q, by simp [hq], h⟩

theorem dataEntries_keys (ids : List String) : (dataEntries ids).map (·.1) = ids.map .str := by
  simp [dataEntries, Function.comp_def]

theorem str_nodup {ids : List String} (h : ids.Nodup) : (ids.map PyVal.str).Nodup :=
  h.map (fun a b h => by injection h)

/-- C105: `s | other` for a dict `other` (its keys are different, as in every dict) works exactly if
`other` gives a size for every id of `s` and all its entries are sizes. -/
theorem C105_or_partial (k : SKind) (d : PyDict String Dim) (hv : ValidSizes d) (hne : d ≠ [])
    (es : List (PyVal × PyVal)) (hes : (es.map (·.1)).Nodup) :
    (∃ r, structOr k d (.dict es) = .ok r) ↔
      (∀ id ∈ PyDict.keys d, .str id ∈ es.map (·.1)) ∧
      (∀ e ∈ es, ∃ s x, e.1 = .str s ∧ IsSize k.width k.length e.2 x) := by
  have hl : ((dataEntries (PyDict.keys d)).map (·.1)).Nodup := by
    rw [dataEntries_keys]; exact str_nodup hv.1
  have hmem := (mem_rawIor (l := dataEntries (PyDict.keys d)) (es := es) hl hes (by
    intro e _ hn hm
    rw [dataEntries_keys] at hm
    obtain ⟨s, _, hs⟩ := List.mem_map.1 hm
    rw [← hs] at hn; cases hn)).2
  have hbad : ∀ id, ¬ GoodEntry k (.str id, .other 0) := by
    rintro id ⟨s, x, _, a, b, h | h, _⟩ <;> cases h
  show (∃ r, Standalone.mk k _ = .ok r) ↔ _
  rw [(C105_create_partial k _).1]
  constructor
  · rintro ⟨sizes, h⟩
    obtain ⟨hg, _, _⟩ := good_of_isSizes k h
    refine ⟨?_, fun e he => hg e ((hmem _).2 (Or.inl he))⟩
    intro id hid
    by_cases hin : .str id ∈ es.map (·.1)
    · exact hin
    · exact absurd (hg (.str id, .other 0)
        ((hmem _).2 (Or.inr ⟨List.mem_map.2 ⟨id, hid, rfl⟩, hin⟩))) (hbad id)
  · rintro ⟨h1, h2⟩
    apply isSizes_of_good
    · intro h0
      obtain ⟨p, hp⟩ := List.exists_mem_of_ne_nil d hne
      obtain ⟨e, he, _⟩ := List.mem_map.1 (h1 p.1 (List.mem_map.2 ⟨p, hp, rfl⟩))
      have := (hmem _).2 (Or.inl he)
      rw [h0] at this; simp at this
    · intro e he
      rcases (hmem _).1 he with h | ⟨h, h'⟩
      · exact h2 e h
      · exfalso
        obtain ⟨id, hid, rfl⟩ := List.mem_map.1 h
        exact h' (h1 id hid)

/-- C105: and then the result has the ids of `s` first, then the new ones, with the sizes of `other`. -/
theorem C105_or_content_partial (k : SKind) (d : PyDict String Dim) (hv : ValidSizes d)
    (es : List (PyVal × PyVal)) (names : List String) (hnames : es.map (·.1) = names.map .str) (hnd : names.Nodup)
    (r : PyDict String Dim) (h : structOr k d (.dict es) = .ok r) :
    PyDict.keys r = PyDict.keys d ++ names.filter (· ∉ PyDict.keys d) ∧
    ∀ s v, (.str s, v) ∈ es → ∃ x, (s, x) ∈ r ∧ IsSize k.width k.length v x := by
  have hes : (es.map (·.1)).Nodup := by rw [hnames]; exact str_nodup hnd
  have hl : ((dataEntries (PyDict.keys d)).map (·.1)).Nodup := by
    rw [dataEntries_keys]; exact str_nodup hv.1
  have hmem := (mem_rawIor (l := dataEntries (PyDict.keys d)) (es := es) hl hes (by
    intro e _ hn hm
    rw [dataEntries_keys] at hm
    obtain ⟨s, _, hs⟩ := List.mem_map.1 hm
    rw [← hs] at hn; cases hn)).2
  have hk := keys_rawIor names (PyDict.keys d) es (dataEntries (PyDict.keys d)) hnames hnd (dataEntries_keys _)
  obtain ⟨sizes, h1, h2⟩ := (buildStructure_iff k _ r).1 h
  obtain ⟨_, hkk, hg⟩ := good_of_isSizes k h1
  rw [hk] at hkk
  have hkeys : sizes.map (·.1) = PyDict.keys d ++ names.filter (· ∉ PyDict.keys d) := by
    have : (sizes.map (·.1)).map PyVal.str = (PyDict.keys d ++ names.filter (· ∉ PyDict.keys d)).map PyVal.str := by
      rw [hkk, List.map_map]; rfl
    exact List.map_injective_iff.2 (fun a b h => by injection h) this
  have hsn : (sizes.map (·.1)).Nodup := by
    rw [hkeys, List.nodup_append]
    refine ⟨hv.1, hnd.filter _, ?_⟩
    intro a ha b hb
    rintro rfl
    exact (by simpa using (List.mem_filter.1 hb).2 : a ∉ PyDict.keys d) ha
  rw [foldl_insert_nodup sizes [] (by simpa using hsn), List.nil_append] at h2
  subst h2
  refine ⟨hkeys, ?_⟩
  intro s v hsv
  obtain ⟨p, hp, e1, e2⟩ := hg _ ((hmem _).2 (Or.inl hsv))
  injection e1 with e1
  obtain ⟨a, x⟩ := p
  simp only at e1; subst e1
  exact ⟨x, hp, e2⟩

/-- C105 is false of the code: `problem.items | {}` raises DimensionsError, and so does any
`problem.items | other` for another problem's structure and any `other | problem.items`. -/
theorem C105_refuted_merge (k : SKind) (d : PyDict String Dim) (hv : ValidSizes d) (hne : d ≠ []) :
    structOr k d (.dict []) = .error (.dimensionsError "DIMENSIONS_TYPE") ∧
    (∀ ids : List String, ids.Nodup → ¬ ∃ r, structOr k d (.struct ids) = .ok r) ∧
    (∀ es : List (PyVal × PyVal), (es.map (·.1)).Nodup → ¬ ∃ r, structRor k d (.dict es) = .ok r) ∧
    (∀ ids : List String, ids.Nodup → ¬ ∃ r, structRor k d (.struct ids) = .ok r) := by
  have hbad : ∀ id, ¬ GoodEntry k (.str id, .other 0) := by
    rintro id ⟨s, x, _, a, b, h | h, _⟩ <;> cases h
  obtain ⟨p, hp⟩ := List.exists_mem_of_ne_nil d hne
  have key : ∀ l es : List (PyVal × PyVal), (l.map (·.1)).Nodup → (es.map (·.1)).Nodup →
      (∀ e ∈ es, e.1.asStr? = none → e.1 ∉ l.map (·.1)) →
      (∃ id, (PyVal.str id, PyVal.other 0) ∈ es ∨ ((PyVal.str id, PyVal.other 0) ∈ l ∧ .str id ∉ es.map (·.1))) →
      ¬ ∃ r, Standalone.mk k (.dict (rawIor l es)) = .ok r := by
    intro l es h1 h2 h3 ⟨id, h4⟩
    rw [(C105_create_partial k _).1]
    rintro ⟨sizes, h⟩
    exact hbad id ((good_of_isSizes k h).1 _ (((mem_rawIor h1 h2 h3).2 _).2 h4))
  have hdk : ((dataEntries (PyDict.keys d)).map (·.1)).Nodup := by
    rw [dataEntries_keys]; exact str_nodup hv.1
  have hpd : (PyVal.str p.1, PyVal.other 0) ∈ dataEntries (PyDict.keys d) :=
    List.mem_map.2 ⟨p.1, List.mem_map.2 ⟨p, hp, rfl⟩, rfl⟩
  have hstr : ∀ ids, ∀ e ∈ dataEntries ids, e.1.asStr? ≠ none := by
    intro ids e he
    obtain ⟨s, _, rfl⟩ := List.mem_map.1 he
    simp [PyVal.asStr?]
  refine ⟨?_, ?_, ?_, ?_⟩
  · cases d with
    | nil => exact absurd rfl hne
    | cons q d => rfl
  · intro ids hids
    refine key _ _ hdk (by rw [dataEntries_keys]; exact str_nodup hids)
      (fun e he h => absurd h (hstr ids e he)) ⟨p.1, ?_⟩
    by_cases hin : .str p.1 ∈ (dataEntries ids).map (·.1)
    · left
      obtain ⟨e, he, heq⟩ := List.mem_map.1 hin
      obtain ⟨s, hs, rfl⟩ := List.mem_map.1 he
      simp only at heq
      exact heq ▸ he
    · exact Or.inr ⟨hpd, hin⟩
  · intro es hes
    exact key _ _ hes hdk (fun e he h => absurd h (hstr _ e he)) ⟨p.1, Or.inl hpd⟩
  · intro ids hids
    exact key _ _ (by rw [dataEntries_keys]; exact str_nodup hids) hdk
      (fun e he h => absurd h (hstr _ e he)) ⟨p.1, Or.inl hpd⟩

/-- C105 is false of the code: `s |= other` on a variable checks nothing and raises nothing (compare
C37): for every collection, of a problem or of none, there is an `other` after which it is no
collection of sizes. -/
theorem C105_refuted_inplace (k : SKind) (d : PyDict String Dim) :
    ∃ other, ¬ ∃ sizes, IsSizes k.width k.length (structIor k d other) sizes := by
  refine ⟨[(.str "", .none)], ?_⟩
  rintro ⟨sizes, h⟩
  obtain ⟨hg, _, _⟩ := good_of_isSizes k h
  have hmem : ∀ l : List (PyVal × PyVal), ∃ e ∈ setEntry l "" PyVal.none, e.2 = PyVal.none := by
    intro l
    induction l with
    | nil => exact ⟨(.str "", .none), by simp [setEntry], rfl⟩
    | cons p l ih =>
      obtain ⟨a, b⟩ := p
      unfold setEntry
      split
      · exact ⟨(a, .none), by simp, rfl⟩
      · obtain ⟨e, he, h⟩ := ih
        exact ⟨e, by simp [he], h⟩
  obtain ⟨e, he, hnone⟩ := hmem (d.map (fun p => (.str p.1, k.encode p.2)))
  obtain ⟨_, _, _, a, b, h | h, _⟩ := hg e he <;> rw [hnone] at h <;> cases h

/-! ### Copying -/

/-- C105: a `Dimensions` object of no problem never changes, and the only calls that do not raise are those that have
nothing to do: the default of `pop` for a key it does not have, `update` with nothing, `setdefault` of one of its two
keys.  `dimensions | x` always raises, a `TypeError` if `x` is not a mapping. -/
theorem C105_sizes_partial (k : SKind) (d : Dim) (m : DMeth) (x : Operand) :
    ((Standalone.onDims k d m).2 = .ok () ↔
      (∃ key, m = .pop key true ∧ key.hashable = true ∧ key.eqStr k.width = false ∧ key.eqStr k.length = false) ∨
      m = .update [] ∨
      (∃ key v, m = .setdefault key v ∧ key.hashable = true ∧ (key.eqStr k.width = true ∨ key.eqStr k.length = true))) ∧
    (∃ e, dimsOr x = .error e) ∧ (dimsOr x = .error .typeError ↔ x = .other) := by
  refine ⟨?_, ?_, ?_⟩
  · cases m with
    | pop key b =>
      simp only [Standalone.onDims, World.popDim]
      cases h1 : key.hashable <;> cases h2 : key.eqStr k.width <;> cases h3 : key.eqStr k.length <;> cases b <;>
        simp [h1, h2, h3]
    | update es => cases es <;> simp [Standalone.onDims]
    | setdefault key v =>
      simp only [Standalone.onDims]
      cases h1 : key.hashable <;> cases h2 : key.eqStr k.width <;> cases h3 : key.eqStr k.length <;> simp [h1, h2, h3]
    | _ => simp [Standalone.onDims]
  · cases x <;> exact ⟨_, rfl⟩
  · cases x <;> simp [dimsOr, Standalone.mkDimensions]

/-- C105: `deepcopy()` gives a plain dict from which `Items` / `Containers` makes the same collection
again; `deepcopy(ids)` for known ids gives the first occurrences of the ids with their sizes, and
an unknown id raises KeyError. -/
theorem C105_deepcopy (k : SKind) (d : PyDict String Dim) (hv : ValidSizes d) (hne : d ≠ []) :
    (∃ v, deepcopyStruct k d none = .ok v ∧ Standalone.mk k v = .ok d) ∧
    (∀ ids : List String, ids ≠ [] → (∀ id ∈ ids, id ∈ PyDict.keys d) → ids.Nodup →
      ∃ v c, deepcopyStruct k d (some ids) = .ok v ∧ Standalone.mk k v = .ok c ∧
        PyDict.keys c = ids ∧ ∀ p ∈ c, p ∈ d) ∧
    (∀ ids : List String, ¬ (∀ id ∈ ids, id ∈ PyDict.keys d) → deepcopyStruct k d (some ids) = .error .keyError) := by
  have seq : ∀ (ids : List String) (acc : PyDict String Dim), (∀ id ∈ ids, id ∈ PyDict.keys d) →
      (PyDict.keys acc ++ ids).Nodup → (∀ p ∈ acc, p ∈ d) →
      ∃ c, deepcopySeq d ids acc = .ok c ∧ PyDict.keys c = PyDict.keys acc ++ ids ∧ ∀ p ∈ c, p ∈ d := by
    intro ids
    induction ids with
    | nil => intro acc _ _ h; exact ⟨acc, rfl, by simp, h⟩
    | cons id ids ih =>
      intro acc hk hn ha
      obtain ⟨x, hx⟩ := PyDict.find?_isSome_of_mem_keys (hk id (by simp))
      have hnew : id ∉ PyDict.keys acc := by
        intro h
        rw [List.nodup_append] at hn
        exact hn.2.2 id h id (by simp) rfl
      have hins : PyDict.insert acc id x = acc ++ [(id, x)] := insert_append_new x hnew
      obtain ⟨c, h1, h2, h3⟩ := ih (acc ++ [(id, x)]) (fun i hi => hk i (by simp [hi]))
        (by simpa [PyDict.keys] using hn) (by
          intro p hp
          rcases List.mem_append.1 hp with hp | hp
          · exact ha p hp
          · simp at hp; subst hp; exact PyDict.find?_mem hx)
      refine ⟨c, ?_, by rw [h2]; simp [PyDict.keys], h3⟩
      unfold deepcopySeq
      have : PyDict.getE d id = .ok x := by unfold PyDict.getE; rw [hx]
      rw [this]
      show deepcopySeq d ids (PyDict.insert acc id x) = _
      rw [hins]; exact h1
  refine ⟨⟨_, rfl, buildStructure_encodeAll k hv hne⟩, ?_, ?_⟩
  · intro ids hids hk hn
    obtain ⟨c, h1, h2, h3⟩ := seq ids [] hk (by simpa [PyDict.keys] using hn) (by simp)
    have h2' : PyDict.keys c = ids := by rw [h2]; rfl
    refine ⟨k.encodeAll c, c, ?_, ?_, h2', h3⟩
    · show (deepcopySeq d ids []).map k.encodeAll = _
      rw [h1]; rfl
    · apply buildStructure_encodeAll k ⟨by rw [show c.map (·.1) = ids from h2']; exact hn, fun p hp => hv.2 p (h3 p hp)⟩
      rintro rfl
      exact hids h2'.symm
  · intro ids hk
    have : ∀ (ids : List String) (acc : PyDict String Dim), ¬ (∀ id ∈ ids, id ∈ PyDict.keys d) →
        deepcopySeq d ids acc = .error .keyError := by
      intro ids
      induction ids with
      | nil => intro acc h; exact absurd (by simp) h
      | cons id ids ih =>
        intro acc h
        unfold deepcopySeq
        cases hx : PyDict.find? d id with
        | none =>
          have : PyDict.getE d id = .error .keyError := by unfold PyDict.getE; rw [hx]
          rw [this]; rfl
        | some x =>
          have : PyDict.getE d id = .ok x := by unfold PyDict.getE; rw [hx]
          rw [this]
          show deepcopySeq d ids (PyDict.insert acc id x) = _
          apply ih
          intro h'
          apply h
          intro i hi
          rcases List.mem_cons.1 hi with rfl | hi
          · exact List.mem_map.2 ⟨_, PyDict.find?_mem hx, rfl⟩
          · exact h' i hi
    show (deepcopySeq d ids []).map k.encodeAll = _
    rw [this ids [] hk]; rfl

/-- the hypotheses are met, and both branches of `|` occur -/
example :
    let d : PyDict String Dim := [("a", ⟨2, 3⟩), ("b", ⟨4, 1⟩)]
    ValidSizes d ∧ SReach .items d ∧
    structOr .items d (.dict [(.str "b", .dict [(.str "w", .int 9), (.str "l", .int 9)])]) =
      .error (.dimensionsError "DIMENSIONS_TYPE") ∧
    structOr .items d (.dict [(.str "c", .dict [(.str "w", .int 7), (.str "l", .int 7)]),
      (.str "b", .dict [(.str "w", .int 9), (.str "l", .int 9)]),
      (.str "a", .dict [(.str "w", .int 8), (.str "l", .int 8)])]) =
      .ok [("a", ⟨8, 8⟩), ("b", ⟨9, 9⟩), ("c", ⟨7, 7⟩)] ∧
    (Standalone.onStruct .items d (.delItem (.str "a"))).1 = [("b", ⟨4, 1⟩)] ∧
    Standalone.onStruct .items d .clear = ([("b", ⟨4, 1⟩)], .error .attributeError) := by
  refine ⟨⟨by decide, by decide⟩, ?_, rfl, rfl, rfl, rfl⟩
  exact .new (v := SKind.items.encodeAll [("a", ⟨2, 3⟩), ("b", ⟨4, 1⟩)]) rfl

end HP
