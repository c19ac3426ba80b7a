import Mathlib.Data.List.Perm.Basic
import Mathlib.Data.List.Nodup
import Mathlib.Data.Nat.Factorial.Basic
import Verif.Model.HyperSearch
/-
`itertools.permutations` lists every permutation exactly once.
-/
namespace HP

theorem picks_fst {α : Type} : ∀ l : List α, (picks l).map (·.1) = l
  | [] => rfl
  | a :: l => by
    have := picks_fst l
    simp only [picks, List.map_cons, List.map_map]
    congr 1

theorem picks_perm {α : Type} : ∀ {l : List α} {p : α × List α}, p ∈ picks l → (p.1 :: p.2).Perm l
  | a :: l, p, h => by
    simp only [picks, List.mem_cons, List.mem_map] at h
    rcases h with rfl | ⟨q, hq, rfl⟩
    · exact .refl _
    · exact (List.Perm.swap _ _ _).trans ((picks_perm hq).cons a)

theorem picks_mem {α : Type} {l : List α} {a : α} (h : a ∈ l) : ∃ r, (a, r) ∈ picks l := by
  rw [← picks_fst l] at h
  obtain ⟨p, hp, rfl⟩ := List.mem_map.1 h
  exact ⟨p.2, hp⟩

theorem mem_permsOf {α : Type} : ∀ (n : Nat) (l : List α), l.length = n →
    ∀ q, q ∈ permsOf n l ↔ q.Perm l
  | 0, l, hl, q => by
    have : l = [] := List.length_eq_zero_iff.1 hl
    subst this
    simp [permsOf]
  | n + 1, l, hl, q => by
    simp only [permsOf, List.mem_flatMap, List.mem_map]
    constructor
    · rintro ⟨p, hp, q', hq', rfl⟩
      have hpl := picks_perm hp
      have hlen : p.2.length = n := by
        have := hpl.length_eq
        simp [hl] at this
        exact this
      exact (((mem_permsOf n p.2 hlen q').1 hq').cons _).trans hpl
    · intro hq
      cases q with
      | nil => have := hq.length_eq; simp [hl] at this
      | cons a q' =>
        obtain ⟨r, hr⟩ := picks_mem (hq.subset (List.mem_cons_self ..))
        have hpl := picks_perm hr
        have hlen : r.length = n := by
          have := hpl.length_eq
          simp [hl] at this
          exact this
        refine ⟨(a, r), hr, q', (mem_permsOf n r hlen q').2 ?_, rfl⟩
        exact List.Perm.cons_inv (hq.trans hpl.symm)

theorem nodup_permsOf {α : Type} : ∀ (n : Nat) (l : List α), l.length = n → l.Nodup →
    (permsOf n l).Nodup
  | 0, _, _, _ => by simp [permsOf]
  | n + 1, l, hl, hnd => by
    simp only [permsOf]
    rw [List.nodup_flatMap]
    constructor
    · intro p hp
      have hpl := picks_perm hp
      have hlen : p.2.length = n := by
        have := hpl.length_eq
        simp [hl] at this
        exact this
      have hnd' : p.2.Nodup := ((hpl.nodup_iff).2 hnd).of_cons
      exact (nodup_permsOf n p.2 hlen hnd').map (fun _ _ h => (List.cons.inj h).2)
    · have h1 : ((picks l).map (·.1)).Nodup := by rw [picks_fst]; exact hnd
      have h2 : (picks l).Pairwise (fun p q => p.1 ≠ q.1) := by
        rw [List.Nodup, List.pairwise_map] at h1
        exact h1
      refine h2.imp ?_
      intro p q hne x hx hy
      obtain ⟨_, _, rfl⟩ := List.mem_map.1 hx
      obtain ⟨_, _, he⟩ := List.mem_map.1 hy
      exact hne (List.cons.inj he).1.symm

theorem length_permsOf {α : Type} : ∀ (n : Nat) (l : List α), l.length = n →
    (permsOf n l).length = n.factorial
  | 0, _, _ => rfl
  | n + 1, l, hl => by
    simp only [permsOf, List.length_flatMap, List.length_map]
    have h : ∀ p ∈ picks l, (permsOf n p.2).length = n.factorial := by
      intro p hp
      have := (picks_perm hp).length_eq
      simp [hl] at this
      exact length_permsOf n p.2 this
    rw [List.map_congr_left h, List.map_const', List.sum_replicate_nat]
    have hpl : (picks l).length = n + 1 := by
      have := congrArg List.length (picks_fst l)
      simpa [hl] using this
    rw [hpl, Nat.factorial_succ]

end HP
