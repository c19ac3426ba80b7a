import Verif.SpecFirstFit
/-
First fit, bin by bin.
-/
namespace HP
open Spec

/-- one pass of a bin over the items: those it takes -/
def greedy : Bin → List (String × Dim) → List (String × Dim)
  | _, [] => []
  | b, q :: qs => if b.Takes q.2 then q :: greedy { b with items := b.items ++ [q] } qs else greedy b qs

/-- and those it does not -/
def passed : Bin → List (String × Dim) → List (String × Dim)
  | _, [] => []
  | b, q :: qs => if b.Takes q.2 then passed { b with items := b.items ++ [q] } qs else q :: passed b qs

theorem firstFit_nil (items : List (String × Dim)) : firstFit [] items = [] := by
  unfold firstFit
  induction items with
  | nil => rfl
  | cons q qs ih => simpa [putFirst] using ih

theorem firstFit_cons (items : List (String × Dim)) : ∀ (b : Bin) (bs : List Bin),
    firstFit (b :: bs) items = { b with items := b.items ++ greedy b items } :: firstFit bs (passed b items) := by
  induction items with
  | nil => intro b bs; simp [firstFit, greedy, passed]
  | cons q qs ih =>
    intro b bs
    have hstep : ∀ bs, firstFit bs (q :: qs) = firstFit (putFirst q bs) qs := fun bs => rfl
    rw [hstep]
    unfold putFirst
    by_cases h : b.Takes q.2
    · rw [if_pos h, ih]
      simp only [greedy, passed, if_pos h, List.append_assoc, List.singleton_append]
    · rw [if_neg h, ih]
      simp only [greedy, passed, if_neg h]
      rfl

theorem greedy_sublist (items : List (String × Dim)) : ∀ b : Bin, (greedy b items).Sublist items := by
  induction items with
  | nil => intro b; exact List.Sublist.refl _
  | cons q qs ih =>
    intro b
    unfold greedy
    split
    · exact (ih _).cons_cons q
    · exact (ih _).cons q

theorem passed_eq (items : List (String × Dim)) (hn : (items.map (·.1)).Nodup) : ∀ b : Bin,
    passed b items = items.filter (fun q => q.1 ∉ (greedy b items).map (·.1)) := by
  induction items with
  | nil => intro b; rfl
  | cons q qs ih =>
    intro b
    rw [List.map_cons, List.nodup_cons] at hn
    have hq : ∀ b, q.1 ∉ (greedy b qs).map (·.1) :=
      fun b h => hn.1 ((((greedy_sublist qs b).map (·.1)).subset) h)
    unfold passed greedy
    split
    · rw [ih hn.2, List.filter_cons, if_neg (by simp)]
      refine List.filter_congr fun x hx => ?_
      have : x.1 ≠ q.1 := fun h => hn.1 (h ▸ List.mem_map_of_mem hx)
      simp [this]
    · rw [ih hn.2, List.filter_cons, if_pos (by simpa using hq b)]

/-- The items in the bin were chosen by the rules: each one had room when it came, those before it that were not chosen
had not, and those that are left over have no room at the end. -/
theorem greedy_unique (items : List (String × Dim)) (hn : (items.map (·.1)).Nodup) : ∀ (b : Bin) (chosen : List (String × Dim)),
    (∀ q ∈ chosen, q ∈ items) → (chosen.map (·.1)).Nodup →
    (∀ e q l, chosen = e ++ q :: l → Bin.Takes { b with items := b.items ++ e } q.2) →
    (∀ e q l, chosen = e ++ q :: l → ∀ q' ∈ items, Earlier (items.map (·.1)) q'.1 q.1 → q'.1 ∉ e.map (·.1) →
      ¬ Bin.Takes { b with items := b.items ++ e } q'.2) →
    (∀ q' ∈ items, q'.1 ∉ chosen.map (·.1) → ¬ Bin.Takes { b with items := b.items ++ chosen } q'.2) →
    chosen = greedy b items := by
  induction items with
  | nil =>
    intro b chosen h1 _ _ _ _
    cases chosen with
    | nil => rfl
    | cons q l => exact absurd (h1 q (by simp)) (by simp)
  | cons y qs ih =>
    intro b chosen h1 hd h2 h3 h4
    rw [List.map_cons, List.nodup_cons] at hn
    unfold greedy
    split
    · rename_i hy
      -- the first one fits: it is the first chosen
      have hhead : ∃ l, chosen = y :: l := by
        cases chosen with
        | nil =>
          have := h4 y (by simp) (by simp)
          rw [List.append_nil] at this
          exact absurd hy this
        | cons x l =>
          by_cases hxy : x = y
          · exact ⟨l, by rw [hxy]⟩
          exfalso
          have hx : x ∈ qs := by
            have := h1 x (by simp)
            rcases List.mem_cons.1 this with h | h
            · exact absurd h hxy
            · exact h
          have he : Earlier ((y :: qs).map (·.1)) y.1 x.1 := by
            obtain ⟨u, v, huv⟩ := List.append_of_mem (List.mem_map_of_mem (f := (·.1)) hx)
            exact ⟨[], u, v, by rw [List.map_cons, huv]; simp⟩
          have := h3 [] x l rfl y (by simp) he (by simp)
          rw [List.append_nil] at this
          exact this hy
      obtain ⟨l, rfl⟩ := hhead
      congr 1
      have hyl : y.1 ∉ l.map (·.1) := by
        rw [List.map_cons, List.nodup_cons] at hd; exact hd.1
      refine ih hn.2 _ l ?_ ?_ ?_ ?_ ?_
      · intro q hq
        rcases List.mem_cons.1 (h1 q (by simp [hq])) with h | h
        · subst h; exact absurd (List.mem_map_of_mem hq) hyl
        · exact h
      · rw [List.map_cons, List.nodup_cons] at hd; exact hd.2
      · intro e q l' hl
        have := h2 (y :: e) q l' (by rw [hl]; rfl)
        simpa using this
      · intro e q l' hl q' hq' hE hne
        have := h3 (y :: e) q l' (by rw [hl]; rfl) q' (by simp [hq']) ?_ ?_
        · simpa using this
        · obtain ⟨a, b', c, habc⟩ := hE
          exact ⟨y.1 :: a, b', c, by rw [List.map_cons, habc]; rfl⟩
        · rw [List.map_cons, List.mem_cons, not_or]
          exact ⟨fun h => hn.1 (h ▸ List.mem_map_of_mem hq'), hne⟩
      · intro q' hq' hne
        have := h4 q' (by simp [hq']) (by
          rw [List.map_cons, List.mem_cons, not_or]
          exact ⟨fun h => hn.1 (h ▸ List.mem_map_of_mem hq'), hne⟩)
        simpa using this
    · rename_i hy
      -- it does not fit now, so it never does
      have hyc : y ∉ chosen := by
        intro h
        obtain ⟨e, l, hel⟩ := List.append_of_mem h
        have := h2 e y l hel
        refine hy ⟨this.1, ?_⟩
        have h' := this.2
        simp only [Bin.load, List.map_append, List.sum_append] at h' ⊢
        omega
      have hmem : ∀ q ∈ chosen, q ∈ qs := by
        intro q hq
        rcases List.mem_cons.1 (h1 q hq) with h | h
        · subst h; exact absurd hq hyc
        · exact h
      refine ih hn.2 b chosen hmem hd h2 ?_ ?_
      · intro e q l hl q' hq' hE hne
        refine h3 e q l hl q' (by simp [hq']) ?_ hne
        obtain ⟨a, b', c, habc⟩ := hE
        exact ⟨y.1 :: a, b', c, by rw [List.map_cons, habc]; rfl⟩
      · intro q' hq' hne
        exact h4 q' (by simp [hq']) hne

/-- what a bin did not take has no room in it at the end -/
theorem passed_left (items : List (String × Dim)) : ∀ b : Bin, ∀ q ∈ passed b items,
    ¬ Bin.Takes { b with items := b.items ++ greedy b items } q.2 := by
  induction items with
  | nil => intro b q hq; simp [passed] at hq
  | cons y qs ih =>
    intro b q hq
    unfold passed at hq
    unfold greedy
    split at hq
    · rename_i hy
      rw [if_pos hy]
      have := ih _ q hq
      simpa using this
    · rename_i hy
      rw [if_neg hy]
      rcases List.mem_cons.1 hq with rfl | hq
      · intro h
        refine hy ⟨h.1, ?_⟩
        have := h.2
        simp only [Bin.load, List.map_append, List.sum_append] at this ⊢
        omega
      · exact ih b q hq

theorem firstFit_from : ∀ (bins : List Bin) (items : List (String × Dim)), (∀ b ∈ bins, b.items = []) →
    ∀ b ∈ firstFit bins items, ∀ q ∈ b.items, q ∈ items
  | [], items, _, b, hb => by rw [firstFit_nil] at hb; simp at hb
  | b0 :: bs, items, he, b, hb => by
    rw [firstFit_cons] at hb
    rcases List.mem_cons.1 hb with rfl | hb
    · intro q hq
      simp only [he b0 (by simp), List.nil_append] at hq
      exact (greedy_sublist items b0).subset hq
    · intro q hq
      have := firstFit_from bs _ (fun b hb => he b (by simp [hb])) b hb q hq
      have hsub : ∀ (items : List (String × Dim)) (b : Bin), (passed b items).Sublist items := by
        intro items
        induction items with
        | nil => intro b; exact List.Sublist.refl _
        | cons q qs ih =>
          intro b
          unfold passed
          split
          · exact (ih _).cons q
          · exact (ih _).cons_cons q
      exact (hsub items b0).subset this

/-- an item in a later bin has no room in the earlier ones -/
theorem firstFit_pairwise : ∀ (bins : List Bin) (items : List (String × Dim)), (∀ b ∈ bins, b.items = []) →
    (firstFit bins items).Pairwise (fun b b' => ∀ q ∈ b'.items, ¬ b.Takes q.2)
  | [], items, _ => by rw [firstFit_nil]; exact .nil
  | b0 :: bs, items, he => by
    rw [firstFit_cons, List.pairwise_cons]
    have he' : ∀ b ∈ bs, b.items = [] := fun b hb => he b (by simp [hb])
    refine ⟨fun b' hb' q hq => ?_, firstFit_pairwise bs _ he'⟩
    exact passed_left items b0 q (firstFit_from bs _ he' b' hb' q hq)

theorem firstFit_shape : ∀ (bins : List Bin) (items : List (String × Dim)) (b : Bin), b ∈ firstFit bins items →
    ∃ b0 ∈ bins, b.id = b0.id ∧ b.width = b0.width ∧ b.cap = b0.cap
  | [], items, b, hb => by rw [firstFit_nil] at hb; simp at hb
  | b0 :: bs, items, b, hb => by
    rw [firstFit_cons] at hb
    rcases List.mem_cons.1 hb with rfl | hb
    · exact ⟨b0, by simp, rfl, rfl, rfl⟩
    · obtain ⟨b1, h1, h2⟩ := firstFit_shape bs _ b hb
      exact ⟨b1, by simp [h1], h2⟩

/-- if any two of the numbers are together more than `L`, half of them times `L + 1` is at most the sum -/
theorem pairs_sum {L : Nat} : ∀ (l : List Nat), l.Pairwise (fun a b => L < a + b) → l.length / 2 * (L + 1) ≤ l.sum
  | [], _ => by simp
  | [a], _ => by simp
  | a :: b :: l, h => by
    rw [List.pairwise_cons, List.pairwise_cons] at h
    have h1 := h.1 b (by simp)
    have h2 := pairs_sum l h.2.2
    simp only [List.length_cons, List.sum_cons]
    have : (l.length + 1 + 1) / 2 = l.length / 2 + 1 := by omega
    rw [this, Nat.add_mul]
    omega

end HP
