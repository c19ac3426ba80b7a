import Verif.Proofs.Solve
/-
The construction takes, at every point, the first item of the pool that fits.
-/
namespace HP
open Spec

theorem before_split {ids : List String} {a b : String} (hn : ids.Nodup) (h : Earlier ids a b)
    {sub pre post : List String} (hs : sub.Sublist ids) (ha : a ∈ sub) (hsub : sub = pre ++ b :: post) :
    a ∈ pre := by
  obtain ⟨x, y, z, rfl⟩ := h
  subst hsub
  rcases List.mem_append.1 ha with h | h
  · exact h
  exfalso
  have hab : a ≠ b := by
    rintro rfl
    rw [List.append_assoc, List.nodup_append] at hn
    simp at hn
  rcases List.mem_cons.1 h with h | h
  · exact hab h
  -- `[b, a]` would be a sublist
  have h1 : [b, a].Sublist (x ++ a :: y ++ b :: z) := by
    refine List.Sublist.trans ?_ hs
    refine List.Sublist.trans ?_ (List.sublist_append_right pre _)
    exact (List.singleton_sublist.2 h).cons_cons b
  rw [List.append_assoc] at h1 hn
  have hbx : b ∉ x := by
    intro hb
    rw [List.nodup_append] at hn
    exact hn.2.2 b hb b (by simp) rfl
  have hby : b ∉ a :: y := by
    intro hb
    rw [List.nodup_append] at hn
    have := hn.2.1
    rw [List.nodup_append] at this
    exact this.2.2 b hb b (by simp) rfl
  have key : ∀ (l : List String), b ∉ l → ∀ r, [b, a].Sublist (l ++ r) → [b, a].Sublist r := by
    intro l
    induction l with
    | nil => intro _ r h; exact h
    | cons c l ih =>
      intro hb r h
      simp only [List.mem_cons, not_or] at hb
      rw [List.cons_append] at h
      cases h with
      | cons _ h => exact ih hb.2 r h
      | cons_cons => exact absurd rfl hb.1
  have h2 := key _ hby _ (key _ hbx _ h1)
  have h3 : a ∈ z := by
    cases h2 with
    | cons _ h =>
      exact h.subset (by simp)
    | cons_cons _ h => exact List.singleton_sublist.1 h
  rw [List.nodup_append] at hn
  have := hn.2.1
  rw [List.nodup_append] at this
  exact this.2.2 a (by simp) a (by simp [h3]) rfl

theorem append_singleton_split {α : Type} {l pre post : List α} {x p : α}
    (h : l ++ [x] = pre ++ p :: post) : (pre = l ∧ p = x) ∨ ∃ bs, l = pre ++ p :: bs := by
  rcases List.append_eq_append_iff.1 h with ⟨as, h1, h2⟩ | ⟨bs, h1, h2⟩
  · cases as with
    | nil => simp at h1 h2; exact Or.inl ⟨h1, h2.1.symm⟩
    | cons a as => simp at h2
  · cases bs with
    | nil => simp at h1 h2; exact Or.inl ⟨h1.symm, h2.1⟩
    | cons b bs =>
      simp at h2
      obtain ⟨rfl, _⟩ := h2
      exact Or.inr ⟨bs, h1⟩

/-- what the order of the items decides about one placement: `pre` are the placements made before -/
def PrioAt (P : CParams) (items0 : PyDict String Dim) (pre : List Placed) (p : Placed) : Prop :=
  (∀ q ∈ items0, Earlier (PyDict.keys items0) q.1 p.id → q.1 ∉ pre.map (·.id) →
    ¬ CanAdd P.W P.L P.rot (pre.map Placed.rect) q.2 p.x p.y) ∧
  (p.rotated = true → ¬ FreeFor P.W P.L (pre.map Placed.rect) ⟨p.x, p.y, p.dim.w, p.dim.l⟩)

theorem Run_prio {P : CParams} {items : PyDict String Dim} {n : Nat} {s : CState}
    (hg : GoodItems items) (h : Run P (constructInit P items) n s) :
    ∀ pre p post, s.placed = pre ++ p :: post → PrioAt P items pre p := by
  induction h with
  | refl => intro pre p post h; simp [constructInit] at h
  | @step n s pt s' hr hI hA hS hI' ih =>
    have hG := Run_GInv (GInv_init P items) hr
    obtain ⟨s1, ha, rfl⟩ := hS
    rcases ha with ⟨rfl, hn⟩ | ⟨id, d, ro, g, gen, pre0, post0, hd, hids, hpre, hchk, hro, _, _, rfl⟩
    · exact ih
    intro pre p post heq
    simp only at heq
    rcases append_singleton_split heq with ⟨rfl, rfl⟩ | ⟨bs, hbs⟩
    · constructor
      · intro q hq hb hnot hcan
        simp only at hb hcan
        have hqs : q ∈ s.items := by
          rcases List.mem_append.1 (hG.perm.mem_iff.2 hq) with h | h
          · obtain ⟨p', hp', rfl⟩ := List.mem_map.1 h
            exact absurd (List.mem_map.2 ⟨p', hp', rfl⟩) hnot
          · exact h
        have hmem : q.1 ∈ pre0 := by
          refine before_split hg.1 hb (sub := s.ids) ?_ ?_ hids
          · rw [hI.ids]; exact hG.sub.map _
          · rw [hI.ids]; exact List.mem_map.2 ⟨q, hqs, rfl⟩
        refine hpre q.1 hmem q.2 (PyDict.find?_of_mem hI.nodup hqs) ?_
        have hpp := hI.pos q hqs
        rcases hcan with hc | ⟨hr, hc⟩
        · exact Or.inl (check_of_free hG.cov hpp.1 hpp.2 hc)
        · exact Or.inr ⟨hr, check_of_free hG.cov hpp.2 hpp.1 hc⟩
      · intro hr hf
        simp only at hr hf
        have hpp := hI.pos _ (PyDict.find?_mem hd)
        exact (hro hr).2 (check_of_free hG.cov hpp.1 hpp.2 hf)
    · exact ih pre p bs hbs

end HP
