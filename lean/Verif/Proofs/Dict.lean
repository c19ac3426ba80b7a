import Verif.Model.Py
/-
Lemmas about insertion ordered dictionaries.
-/
namespace HP
namespace PyDict
variable {κ α : Type} [DecidableEq κ]

theorem find?_mem {d : PyDict κ α} {k : κ} {a : α} (h : find? d k = some a) : (k, a) ∈ d := by
  induction d with
  | nil => simp [find?] at h
  | cons p d ih =>
    obtain ⟨k', a'⟩ := p
    unfold find? at h
    split at h
    · rename_i hk; subst hk; injection h with h; subst h; simp
    · exact List.mem_cons_of_mem _ (ih h)

theorem find?_of_mem {d : PyDict κ α} (hn : (keys d).Nodup) {k : κ} {a : α} (h : (k, a) ∈ d) :
    find? d k = some a := by
  induction d with
  | nil => simp at h
  | cons p d ih =>
    obtain ⟨k', a'⟩ := p
    simp only [keys, List.map_cons, List.nodup_cons] at hn
    unfold find?
    rcases List.mem_cons.1 h with h | h
    · injection h with h1 h2; subst h1; subst h2; simp
    · have : k' ≠ k := by
        rintro rfl
        exact hn.1 (List.mem_map.2 ⟨(k', a), h, rfl⟩)
      rw [if_neg this]; exact ih hn.2 h

theorem find?_isSome_of_mem_keys {d : PyDict κ α} {k : κ} (h : k ∈ keys d) :
    ∃ a, find? d k = some a := by
  induction d with
  | nil => simp [keys] at h
  | cons p d ih =>
    obtain ⟨k', a'⟩ := p
    unfold find?
    by_cases hk : k' = k
    · exact ⟨a', by rw [if_pos hk]⟩
    · rw [if_neg hk]
      apply ih
      simp only [keys, List.map_cons, List.mem_cons] at h
      rcases h with h | h
      · exact absurd h.symm hk
      · exact h

theorem find?_none {d : PyDict κ α} {k : κ} (h : k ∉ keys d) : find? d k = none := by
  induction d with
  | nil => rfl
  | cons p d ih =>
    obtain ⟨k', a'⟩ := p
    simp only [keys, List.map_cons, List.mem_cons, not_or] at h
    unfold find?
    rw [if_neg (fun hh => h.1 hh.symm)]
    exact ih h.2

theorem mem_keys_of_find? {d : PyDict κ α} {k : κ} {a : α} (h : find? d k = some a) : k ∈ keys d :=
  List.mem_map.2 ⟨_, find?_mem h, rfl⟩

theorem getE_of_find? {d : PyDict κ α} {k : κ} {a : α} (h : find? d k = some a) :
    getE d k = .ok a := by unfold getE; rw [h]

theorem delE_of_find? {d : PyDict κ α} {k : κ} {a : α} (h : find? d k = some a) :
    delE d k = .ok (erase d k) := by unfold delE; rw [h]

theorem keys_erase (d : PyDict κ α) (k : κ) : keys (erase d k) = (keys d).erase k := by
  induction d with
  | nil => rfl
  | cons p d ih =>
    obtain ⟨k', a'⟩ := p
    unfold erase
    simp only [keys, List.map_cons, List.erase_cons, beq_iff_eq]
    by_cases hk : k' = k
    · rw [if_pos hk, if_pos hk]
    · rw [if_neg hk, if_neg hk]; simp only [List.map_cons]; rw [← keys, ih]; rfl

theorem perm_erase {d : PyDict κ α} {k : κ} {a : α} (h : find? d k = some a) :
    List.Perm d ((k, a) :: erase d k) := by
  induction d with
  | nil => simp [find?] at h
  | cons p d ih =>
    obtain ⟨k', a'⟩ := p
    unfold find? at h
    unfold erase
    split at h
    · rename_i hk
      injection h with h; subst h; subst hk
      rw [if_pos rfl]
    · rename_i hk
      rw [if_neg hk]
      exact (List.Perm.cons _ (ih h)).trans (List.Perm.swap _ _ _)

theorem erase_subset (d : PyDict κ α) (k : κ) : ∀ p ∈ erase d k, p ∈ d := by
  induction d with
  | nil => simp [erase]
  | cons q d ih =>
    obtain ⟨k', a'⟩ := q
    unfold erase
    split
    · intro p hp; exact List.mem_cons_of_mem _ hp
    · intro p hp
      rcases List.mem_cons.1 hp with rfl | hp
      · simp
      · exact List.mem_cons_of_mem _ (ih p hp)

theorem erase_sublist (d : PyDict κ α) (k : κ) : List.Sublist (erase d k) d := by
  induction d with
  | nil => exact List.Sublist.slnil
  | cons q d ih =>
    obtain ⟨k', a'⟩ := q
    unfold erase
    split
    · exact List.sublist_cons_self _ _
    · exact ih.cons_cons _

theorem find?_insert_self (d : PyDict κ α) (k : κ) (a : α) : find? (insert d k a) k = some a := by
  induction d with
  | nil => simp [insert, find?]
  | cons q d ih =>
    obtain ⟨k', a'⟩ := q
    unfold insert
    split
    · rename_i h; unfold find?; rw [if_pos h]
    · rename_i h; unfold find?; rw [if_neg h]; exact ih

theorem find?_insert_ne (d : PyDict κ α) {k k' : κ} (a : α) (h : k' ≠ k) :
    find? (insert d k a) k' = find? d k' := by
  induction d with
  | nil => simp [insert, find?, h.symm]
  | cons q d ih =>
    obtain ⟨k2, a2⟩ := q
    unfold insert
    split
    · rename_i h2; subst h2
      unfold find?; rw [if_neg (Ne.symm h), if_neg (Ne.symm h)]
    · rename_i h2
      unfold find?; rw [ih]

theorem keys_insert_mem (d : PyDict κ α) (k : κ) (a : α) (h : k ∈ keys d) :
    keys (insert d k a) = keys d := by
  induction d with
  | nil => simp [keys] at h
  | cons q d ih =>
    obtain ⟨k', a'⟩ := q
    unfold insert
    split
    · rfl
    · rename_i hk
      simp only [keys, List.map_cons, List.mem_cons] at h ⊢
      rcases h with h | h
      · exact absurd h.symm hk
      · congr 1; exact ih h

theorem insert_not_mem (d : PyDict κ α) (k : κ) (a : α) (h : k ∉ keys d) :
    insert d k a = d ++ [(k, a)] := by
  induction d with
  | nil => rfl
  | cons q d ih =>
    obtain ⟨k', a'⟩ := q
    simp only [keys, List.map_cons, List.mem_cons, not_or] at h
    unfold insert
    rw [if_neg (fun hh => h.1 hh.symm), ih h.2]; rfl

theorem keys_insert (d : PyDict κ α) (k : κ) (a : α) :
    keys (insert d k a) = if k ∈ keys d then keys d else keys d ++ [k] := by
  split
  · rename_i h; exact keys_insert_mem d k a h
  · rename_i h; rw [insert_not_mem d k a h]; simp [keys]

theorem nodup_insert {d : PyDict κ α} (hn : (keys d).Nodup) (k : κ) (a : α) :
    (keys (insert d k a)).Nodup := by
  rw [keys_insert]
  split
  · exact hn
  · rename_i h
    rw [List.nodup_append]
    refine ⟨hn, by simp, ?_⟩
    intro x hx y hy
    simp at hy; subst hy
    rintro rfl; exact h hx

theorem mem_insert {d : PyDict κ α} {k : κ} {a : α} {p : κ × α} (h : p ∈ insert d k a) :
    p = (k, a) ∨ p ∈ d := by
  induction d with
  | nil => simp [insert] at h; exact Or.inl h
  | cons q d ih =>
    obtain ⟨k', a'⟩ := q
    unfold insert at h
    split at h
    · rename_i hk; subst hk
      rcases List.mem_cons.1 h with h | h
      · exact Or.inl h
      · exact Or.inr (List.mem_cons_of_mem _ h)
    · rcases List.mem_cons.1 h with h | h
      · exact Or.inr (by simp [h])
      · rcases ih h with h | h
        · exact Or.inl h
        · exact Or.inr (List.mem_cons_of_mem _ h)

theorem eq_of_find? {d e : PyDict κ α} (hk : keys d = keys e) (hn : (keys d).Nodup)
    (h : ∀ k, find? d k = find? e k) : d = e := by
  induction d generalizing e with
  | nil => cases e with
    | nil => rfl
    | cons q e => simp [keys] at hk
  | cons p d ih =>
    cases e with
    | nil => simp [keys] at hk
    | cons q e =>
      obtain ⟨k1, a1⟩ := p
      obtain ⟨k2, a2⟩ := q
      simp only [keys, List.map_cons, List.cons.injEq] at hk
      simp only [keys, List.map_cons, List.nodup_cons] at hn
      obtain ⟨rfl, hk2⟩ := hk
      have h1 := h k1
      simp [find?] at h1
      subst h1
      congr 1
      refine ih hk2 hn.2 ?_
      intro k
      by_cases hkk : k1 = k
      · subst hkk
        rw [find?_none hn.1, find?_none (by rw [keys, ← hk2]; exact hn.1)]
      · have := h k
        simpa [find?, hkk] using this

end PyDict
end HP
