import Verif.Props.Fewer
/-
C134: if the lengths divide each other and the length of the containers, every container but the last one used is full.
-/
namespace HP
open Spec

theorem pileAt_area_w (w x : Nat) : ∀ (items : List (String × Dim)) (y : Nat), (∀ q ∈ items, q.2.w = w) →
    ((pileAt x y items).map (fun q => q.2.w * q.2.l)).sum = w * (items.map (fun q => q.2.l)).sum
  | [], _, _ => rfl
  | (id, d) :: items, y, h => by
    have := h (id, d) (by simp)
    simp only at this
    simp [pileAt, pileAt_area_w w x items _ (fun q hq => h q (by simp [hq])), this, Nat.mul_add]

theorem standing_area_w (w : Nat) : ∀ (bins : List Bin) (x : Nat), (∀ b ∈ bins, ∀ q ∈ b.items, q.2.w = w) →
    ((standing w x bins).map (fun q => q.2.w * q.2.l)).sum = w * (bins.map Bin.load).sum
  | [], _, _ => rfl
  | b :: bins, x, h => by
    simp [standing, pileAt_area_w w _ b.items 0 (h b (by simp)), standing_area_w w bins _ (fun c hc => h c (by simp [hc])), Bin.load, Nat.mul_add]

theorem rowAt_area_t (t y : Nat) : ∀ (items : List (String × Dim)) (x : Nat), (∀ q ∈ items, q.2.w = t) →
    ((rowAt y x items).map (fun q => q.2.w * q.2.l)).sum = t * (items.map (fun q => q.2.l)).sum
  | [], _, _ => rfl
  | (id, d) :: items, x, h => by
    have := h (id, d) (by simp)
    simp only at this
    simp [rowAt, rowAt_area_t t y items _ (fun q hq => h q (by simp [hq])), this, Nat.mul_add, Nat.mul_comm]

theorem shelves_area_t (t : Nat) : ∀ (bins : List Bin) (y : Nat), (∀ b ∈ bins, ∀ q ∈ b.items, q.2.w = t) →
    ((shelves t y bins).map (fun q => q.2.w * q.2.l)).sum = t * (bins.map Bin.load).sum
  | [], _, _ => rfl
  | b :: bins, y, h => by
    simp [shelves, rowAt_area_t t _ b.items 0 (h b (by simp)), shelves_area_t t bins _ (fun c hc => h c (by simp [hc])), Bin.load, Nat.mul_add]

/-- a bin before one that is used is full -/
theorem filled_bin {C : Nat} {b b' : Bin} (hload : b.load ≤ C)
    (hfull : ∀ q ∈ b'.items, C < (b.items.map (fun x => atLeast q.2.l x.2.l)).sum + q.2.l)
    (hdiv : ∀ q ∈ b'.items, q.2.l ∣ C ∧ ∀ x ∈ b.items, q.2.l ≤ x.2.l → q.2.l ∣ x.2.l) (hne : b'.items ≠ []) : b.load = C := by
  obtain ⟨q, hq⟩ := List.exists_mem_of_ne_nil _ hne
  have h1 := hfull q hq
  obtain ⟨hC, hx⟩ := hdiv q hq
  have h2 : q.2.l ∣ (b.items.map (fun x => atLeast q.2.l x.2.l)).sum := by
    refine List.dvd_sum ?_
    intro z hz
    obtain ⟨x, hxm, rfl⟩ := List.mem_map.1 hz
    unfold atLeast
    split
    · rename_i h3; exact hx x hxm h3
    · exact dvd_zero _
  have h3 : (b.items.map (fun x => atLeast q.2.l x.2.l)).sum ≤ b.load := by
    unfold Bin.load
    refine List.sum_le_sum fun x _ => ?_
    unfold atLeast
    split <;> omega
  have h4 : q.2.l ∣ C - (b.items.map (fun x => atLeast q.2.l x.2.l)).sum := Nat.dvd_sub hC h2
  have := Nat.eq_zero_of_dvd_of_lt h4 (by omega)
  omega

theorem sum_const (k : Nat) : ∀ l : List Nat, (∀ z ∈ l, z = k) → l.sum = l.length * k
  | [], _ => by simp
  | z :: l, h => by
    rw [List.sum_cons, sum_const k l (fun y hy => h y (by simp [hy])), h z (by simp), List.length_cons, Nat.add_mul]
    omega

theorem sum_le_const (k : Nat) : ∀ l : List Nat, (∀ z ∈ l, z ≤ k) → l.sum ≤ l.length * k
  | [], _ => by simp
  | z :: l, h => by
    have h1 := sum_le_const k l (fun y hy => h y (by simp [hy]))
    have h2 := h z (by simp)
    rw [List.sum_cons, List.length_cons, Nat.add_mul]
    omega

/-- the areas of the items in a container together -/
def Spec.areaSum (m : List (String × Rect)) : Nat := (m.map (fun q => q.2.w * q.2.l)).sum

/-- how many containers are used, if all used ones but the last hold exactly `F` -/
theorem count_filled {F : Nat} : ∀ sol : Solution, sol.Pairwise (fun c c' => c'.2 ≠ [] → areaSum c.2 = F) →
    (∀ c ∈ sol, areaSum c.2 ≤ F ∧ (c.2 ≠ [] → 0 < areaSum c.2)) →
    ((sol.filter (fun c => !c.2.isEmpty)).length - 1) * F ≤ (sol.map (fun c => areaSum c.2)).sum ∧
    (sol.filter (fun c => !c.2.isEmpty) ≠ [] →
      ((sol.filter (fun c => !c.2.isEmpty)).length - 1) * F < (sol.map (fun c => areaSum c.2)).sum) ∧
    (sol.map (fun c => areaSum c.2)).sum ≤ (sol.filter (fun c => !c.2.isEmpty)).length * F
  | [], _, _ => by simp
  | c :: sol, hp, h => by
    rw [List.pairwise_cons] at hp
    obtain ⟨h1, h2, h3⟩ := count_filled sol hp.2 (fun x hx => h x (by simp [hx]))
    obtain ⟨g1, g2⟩ := h c (by simp)
    rw [List.map_cons, List.sum_cons, List.filter_cons]
    by_cases hc : c.2 = []
    · have : areaSum c.2 = 0 := by rw [hc]; rfl
      have e : (!c.2.isEmpty) = false := by rw [hc]; rfl
      simp only [e, Bool.false_eq_true, if_false, this, Nat.zero_add]
      exact ⟨h1, h2, h3⟩
    · have e : (!c.2.isEmpty) = true := by simpa using hc
      have g2 := g2 hc
      simp only [e, if_true, List.length_cons, Nat.add_sub_cancel, ne_eq, reduceCtorEq, not_false_eq_true, forall_const]
      by_cases hr : sol.filter (fun c => !c.2.isEmpty) = []
      · simp only [hr, List.length_nil] at *
        omega
      · obtain ⟨x, hx⟩ := List.exists_mem_of_ne_nil _ hr
        rw [List.mem_filter] at hx
        have g3 := hp.1 x hx.1 (by simpa using hx.2)
        have g4 := h2 hr
        have hpos := List.length_pos_iff.2 hr
        generalize (sol.filter (fun c => !c.2.isEmpty)).length = K at *
        obtain ⟨k, rfl⟩ : ∃ k, K = k + 1 := ⟨K - 1, by omega⟩
        simp only [Nat.add_sub_cancel, Nat.add_mul, Nat.one_mul] at *
        omega

theorem count_least {F : Nat} (sol : Solution) (h : sol.Pairwise (fun c c' => c'.2 ≠ [] → areaSum c.2 = F))
    (hF : ∀ c ∈ sol, areaSum c.2 ≤ F ∧ (c.2 ≠ [] → 0 < areaSum c.2)) :
    (sol.map (fun c => areaSum c.2)).sum ≤ (sol.filter (fun c => !c.2.isEmpty)).length * F ∧
    ∀ n, (sol.map (fun c => areaSum c.2)).sum ≤ n * F → (sol.filter (fun c => !c.2.isEmpty)).length ≤ n := by
  obtain ⟨_, h2, h3⟩ := count_filled sol h hF
  refine ⟨h3, fun n hn => ?_⟩
  by_cases hr : sol.filter (fun c => !c.2.isEmpty) = []
  · rw [hr]; simp
  · have h4 := h2 hr
    by_contra hcon
    have := Nat.mul_le_mul_right F (show n ≤ (sol.filter (fun c => !c.2.isEmpty)).length - 1 by omega)
    omega

/-- a container that is used holds some area -/
theorem area_pos {A : Arith} {p : SolveIn} (hv : ValidIn p) {seq : Option (List String)} (hs : KnownSeq p seq)
    {sol : Solution} {ov : ObjVals} (h : solve A p seq = .ok (sol, ov)) {c : String × List (String × Rect)} (hc : c ∈ sol)
    (hne : c.2 ≠ []) : 0 < areaSum c.2 := by
  obtain ⟨q, hq⟩ := List.exists_mem_of_ne_nil _ hne
  obtain ⟨d, hd, hsz⟩ := C05_sizes A p hv seq hs sol ov h c.1 c.2 hc q.1 q.2 hq
  have hpos := hv.items.2 _ hd
  have h1 : 0 < q.2.w * q.2.l := by
    rcases hsz with ⟨g1, g2⟩ | ⟨_, g1, g2⟩
    · rw [g1, g2]; exact Nat.mul_pos hpos.1 hpos.2
    · rw [g1, g2]; exact Nat.mul_pos hpos.2 hpos.1
  refine lt_of_lt_of_le h1 ?_
  exact List.single_le_sum (fun _ _ => Nat.zero_le _) _ (List.mem_map_of_mem (f := fun q : String × Rect => q.2.w * q.2.l) hq)

/-- the part that is common to columns and rows -/
theorem filled_core {n C k : Nat} {cols : List (String × List Bin)} {place : List Bin → List (String × Rect)}
    (hplace : ∀ bins, (place bins).map (·.1) = (bins.flatMap (·.items)).map (·.1))
    (hsum : ∀ x ∈ cols, areaSum (place x.2) = k * (x.2.map Bin.load).sum) (hn : ∀ x ∈ cols, x.2.length = n)
    (hload : ∀ b ∈ cols.flatMap (·.2), b.load ≤ C)
    (hfull : (cols.flatMap (·.2)).Pairwise (fun b b' => ∀ q ∈ b'.items, C < (b.items.map (fun x => atLeast q.2.l x.2.l)).sum + q.2.l))
    (hdiv : ∀ b ∈ cols.flatMap (·.2), ∀ b' ∈ cols.flatMap (·.2), ∀ q ∈ b'.items, q.2.l ∣ C ∧ ∀ x ∈ b.items, q.2.l ≤ x.2.l → q.2.l ∣ x.2.l) :
    (cols.map (fun c => (c.1, place c.2))).Pairwise (fun c c' => c'.2 ≠ [] → areaSum c.2 = k * (n * C)) ∧
    ∀ c ∈ cols.map (fun c => (c.1, place c.2)), areaSum c.2 ≤ k * (n * C) := by
  refine ⟨?_, ?_⟩
  · rw [List.pairwise_map]
    have hp := (List.pairwise_flatMap.1 hfull).2
    refine List.Pairwise.imp_of_mem ?_ hp
    intro c c' hc hc' hcc hne
    simp only at hne ⊢
    have h1 : c'.2.any (fun b => !b.items.isEmpty) = true := by
      rw [← isEmpty_of_ids (hplace c'.2)]
      simpa using hne
    obtain ⟨b', hb', hbe⟩ := List.any_eq_true.1 h1
    have hbe : b'.items ≠ [] := by simpa using hbe
    have hb'm : b' ∈ cols.flatMap (·.2) := List.mem_flatMap.2 ⟨c', hc', hb'⟩
    rw [hsum c hc, ← hn c hc]
    have : ∀ z ∈ c.2.map Bin.load, z = C := by
      intro z hz
      obtain ⟨b, hb, rfl⟩ := List.mem_map.1 hz
      have hbm : b ∈ cols.flatMap (·.2) := List.mem_flatMap.2 ⟨c, hc, hb⟩
      exact filled_bin (hload b hbm) (hcc b hb b' hb') (hdiv b hbm b' hb'm) hbe
    rw [sum_const C _ this, List.length_map]
  · intro c hc
    obtain ⟨x, hx, rfl⟩ := List.mem_map.1 hc
    rw [hsum x hx, ← hn x hx]
    refine Nat.mul_le_mul_left k ?_
    have := sum_le_const C (x.2.map Bin.load) (by
      intro z hz
      obtain ⟨b, hb, rfl⟩ := List.mem_map.1 hz
      exact hload b (List.mem_flatMap.2 ⟨x, hx, hb⟩))
    rwa [List.length_map] at this

/-- **C134**, columns: with bins of one size, items of one width and A before B before B'' in the strategy, longest first, if of
two lengths one divides the other and all divide the length of the containers, then every container before one that is used is
full: its items cover all of the area `w * (W / w) * L` that columns of this width can cover, and no container holds more. -/
theorem C134_columns (A : Arith) (p : SolveIn) (hv : ValidIn p) (seq : Option (List String)) (hs : KnownSeq p seq)
    (hb : p.strip = false) (har : A = Arith.exact) (w : Nat) (hw : 0 < w)
    (hone : OneWidth w p.rotation p.containers p.items) (hst : ColumnOrder p.strategy)
    (W L : Nat) (hc : ∀ c ∈ p.containers, c.2 = ⟨W, L⟩) (hsort : (solvedFor p.items seq).Pairwise (fun a b => b.2.l ≤ a.2.l))
    (hdiv : ∀ q ∈ p.items, ∀ q' ∈ p.items, q.2.l ≤ q'.2.l → q.2.l ∣ q'.2.l) (hL : ∀ q ∈ p.items, q.2.l ∣ L)
    (sol : Solution) (ov : ObjVals) (h : solve A p seq = .ok (sol, ov)) :
    sol.Pairwise (fun c c' => c'.2 ≠ [] → areaSum c.2 = w * (W / w * L)) ∧
    ∀ c ∈ sol, areaSum c.2 ≤ w * (W / w * L) := by
  obtain ⟨cols, rem, h1, h2, h3, h4, _⟩ := columns_facts hv hs hw hone h (.inr har) hst
  simp only [hb, Bool.false_eq_true, if_false] at h2
  have hb1 : ∀ b ∈ columnsOf w p.containers (fun c => c.l), b.items = [] ∧ b.width = w ∧ b.cap = L := by
    intro b hb
    obtain ⟨c, hcm, hbc⟩ := List.mem_flatMap.1 hb
    obtain ⟨_, rfl⟩ := List.mem_replicate.1 hbc
    have := hc c hcm
    refine ⟨rfl, rfl, ?_⟩
    simp only [this]
  have hi1 : ∀ q ∈ solvedFor p.items seq, q.2.w ≤ w := fun q hq => le_of_eq (hone _ (solvedFor_mem _ hq)).1
  have hfrom := (firstFit_two hb1 hi1).1
  have hfull := firstFit_full _ _ hb1 hi1 hsort
  rw [← h2] at hfrom hfull
  have hmem : ∀ b ∈ cols.flatMap (·.2), ∀ q ∈ b.items, q ∈ p.items := fun b hb q hq =>
    solvedFor_mem _ (h4.subset (List.mem_append_left _ (List.mem_flatMap.2 ⟨b, hb, hq⟩)))
  rw [h3]
  refine filled_core (standing_ids w · 0) (fun x hx => standing_area_w w x.2 0 (fun b hb q hq =>
    (hone _ (hmem b (List.mem_flatMap.2 ⟨x, hx, hb⟩) q hq)).1)) ?_ hfrom hfull ?_
  · intro x hx
    have : (x.1, x.2.length) ∈ p.containers.map (fun c => (c.1, c.2.w / w)) := by
      rw [← h1]; exact List.mem_map_of_mem (f := fun c : String × List Bin => (c.1, c.2.length)) hx
    obtain ⟨y, hy, he⟩ := List.mem_map.1 this
    injection he with f1 f2
    rw [← f2, hc y hy]
  · intro b hb b' hb' q hq
    have hm := hmem b' hb' q hq
    exact ⟨hL q hm, fun x hx => hdiv q hm x (hmem b hb x hx)⟩

/-- **C134**, rows: the same for items of one length of at least two, widest first, with B before A before A'' in the strategy. -/
theorem C134_rows (A : Arith) (p : SolveIn) (hv : ValidIn p) (seq : Option (List String)) (hs : KnownSeq p seq)
    (hb : p.strip = false) (har : A = Arith.exact) (t : Nat) (ht : 2 ≤ t)
    (hone : OneLength t p.rotation p.containers p.items (fun c => c.l)) (hst : RowOrder p.strategy)
    (W L : Nat) (hc : ∀ c ∈ p.containers, c.2 = ⟨W, L⟩) (hsort : (solvedFor p.items seq).Pairwise (fun a b => b.2.w ≤ a.2.w))
    (hdiv : ∀ q ∈ p.items, ∀ q' ∈ p.items, q.2.w ≤ q'.2.w → q.2.w ∣ q'.2.w) (hW : ∀ q ∈ p.items, q.2.w ∣ W)
    (sol : Solution) (ov : ObjVals) (h : solve A p seq = .ok (sol, ov)) :
    sol.Pairwise (fun c c' => c'.2 ≠ [] → areaSum c.2 = t * (L / t * W)) ∧
    ∀ c ∈ sol, areaSum c.2 ≤ t * (L / t * W) := by
  obtain ⟨rows, rem, h1, h2, h3, h4, _⟩ := rows_facts hv hs ht
    (by simpa only [hb, Bool.false_eq_true, if_false] using hone) h (.inr har) hst
  simp only [hb, Bool.false_eq_true, if_false] at h1 h2
  have hb1 : ∀ b ∈ shelfRows t p.containers (fun c => c.l), b.items = [] ∧ b.width = t ∧ b.cap = W := by
    intro b hb
    obtain ⟨c, hcm, hbc⟩ := List.mem_flatMap.1 hb
    obtain ⟨_, rfl⟩ := List.mem_replicate.1 hbc
    have := hc c hcm
    refine ⟨rfl, rfl, ?_⟩
    simp only [this]
  have hi1 : ∀ q ∈ turnedItems (solvedFor p.items seq), q.2.w ≤ t := by
    intro q hq
    obtain ⟨q', hq', rfl⟩ := List.mem_map.1 hq
    exact le_of_eq (hone _ (solvedFor_mem _ hq')).1
  have hfrom := (firstFit_two hb1 hi1).1
  have hfull := firstFit_full _ _ hb1 hi1 (by
    unfold turnedItems
    rw [List.pairwise_map]
    exact hsort)
  rw [← h2] at hfrom hfull
  have hmem : ∀ b ∈ rows.flatMap (·.2), ∀ q ∈ b.items, (∃ q' ∈ p.items, q.2.l = q'.2.w) ∧ q.2.w = t := by
    intro b hb q hq
    obtain ⟨q', hq', rfl⟩ := List.mem_map.1 (h4.subset (List.mem_append_left _ (List.mem_flatMap.2 ⟨b, hb, hq⟩)))
    exact ⟨⟨q', solvedFor_mem _ hq', rfl⟩, (hone _ (solvedFor_mem _ hq')).1⟩
  rw [h3]
  refine filled_core (shelves_ids t · 0) (fun x hx => shelves_area_t t x.2 0 (fun b hb q hq =>
    (hmem b (List.mem_flatMap.2 ⟨x, hx, hb⟩) q hq).2)) ?_ hfrom hfull ?_
  · intro x hx
    have : (x.1, x.2.length) ∈ p.containers.map (fun c => (c.1, c.2.l / t)) := by
      rw [← h1]; exact List.mem_map_of_mem (f := fun c : String × List Bin => (c.1, c.2.length)) hx
    obtain ⟨y, hy, he⟩ := List.mem_map.1 this
    injection he with f1 f2
    rw [← f2, hc y hy]
  · intro b hb b' hb' q hq
    obtain ⟨⟨q1, hq1, e1⟩, _⟩ := hmem b' hb' q hq
    rw [e1]
    refine ⟨hW q1 hq1, fun x hx => ?_⟩
    obtain ⟨⟨q2, hq2, e2⟩, _⟩ := hmem b hb x hx
    rw [e2]
    exact hdiv q1 hq1 q2 hq2

/-- **C134**, the number of containers: under the same hypotheses the number of containers used is the total area of the placed
items divided by `w * (W / w) * L`, rounded up. -/
theorem C134_count (A : Arith) (p : SolveIn) (hv : ValidIn p) (seq : Option (List String)) (hs : KnownSeq p seq)
    (hb : p.strip = false) (har : A = Arith.exact) (w : Nat) (hw : 0 < w)
    (hone : OneWidth w p.rotation p.containers p.items) (hst : ColumnOrder p.strategy)
    (W L : Nat) (hc : ∀ c ∈ p.containers, c.2 = ⟨W, L⟩) (hsort : (solvedFor p.items seq).Pairwise (fun a b => b.2.l ≤ a.2.l))
    (hdiv : ∀ q ∈ p.items, ∀ q' ∈ p.items, q.2.l ≤ q'.2.l → q.2.l ∣ q'.2.l) (hL : ∀ q ∈ p.items, q.2.l ∣ L)
    (sol : Solution) (ov : ObjVals) (h : solve A p seq = .ok (sol, ov)) :
    (sol.map (fun c => areaSum c.2)).sum ≤ (sol.filter (fun c => !c.2.isEmpty)).length * (w * (W / w * L)) ∧
    ∀ n, (sol.map (fun c => areaSum c.2)).sum ≤ n * (w * (W / w * L)) → (sol.filter (fun c => !c.2.isEmpty)).length ≤ n := by
  obtain ⟨h1, h2⟩ := C134_columns A p hv seq hs hb har w hw hone hst W L hc hsort hdiv hL sol ov h
  exact count_least sol h1 (fun c hcm => ⟨h2 c hcm, area_pos hv hs h hcm⟩)

/-- **C134**, the number of containers for rows -/
theorem C134_rows_count (A : Arith) (p : SolveIn) (hv : ValidIn p) (seq : Option (List String)) (hs : KnownSeq p seq)
    (hb : p.strip = false) (har : A = Arith.exact) (t : Nat) (ht : 2 ≤ t)
    (hone : OneLength t p.rotation p.containers p.items (fun c => c.l)) (hst : RowOrder p.strategy)
    (W L : Nat) (hc : ∀ c ∈ p.containers, c.2 = ⟨W, L⟩) (hsort : (solvedFor p.items seq).Pairwise (fun a b => b.2.w ≤ a.2.w))
    (hdiv : ∀ q ∈ p.items, ∀ q' ∈ p.items, q.2.w ≤ q'.2.w → q.2.w ∣ q'.2.w) (hW : ∀ q ∈ p.items, q.2.w ∣ W)
    (sol : Solution) (ov : ObjVals) (h : solve A p seq = .ok (sol, ov)) :
    (sol.map (fun c => areaSum c.2)).sum ≤ (sol.filter (fun c => !c.2.isEmpty)).length * (t * (L / t * W)) ∧
    ∀ n, (sol.map (fun c => areaSum c.2)).sum ≤ n * (t * (L / t * W)) → (sol.filter (fun c => !c.2.isEmpty)).length ≤ n := by
  obtain ⟨h1, h2⟩ := C134_rows A p hv seq hs hb har t ht hone hst W L hc hsort hdiv hW sol ov h
  exact count_least sol h1 (fun c hcm => ⟨h2 c hcm, area_pos hv hs h hcm⟩)

/-- **C134**: if moreover the width of the items divides that of the containers, no space at all is wasted in a container before
one that is used. -/
theorem C134_no_waste (A : Arith) (p : SolveIn) (hv : ValidIn p) (seq : Option (List String)) (hs : KnownSeq p seq)
    (hb : p.strip = false) (har : A = Arith.exact) (w : Nat) (hw : 0 < w)
    (hone : OneWidth w p.rotation p.containers p.items) (hst : ColumnOrder p.strategy)
    (W L : Nat) (hc : ∀ c ∈ p.containers, c.2 = ⟨W, L⟩) (hsort : (solvedFor p.items seq).Pairwise (fun a b => b.2.l ≤ a.2.l))
    (hdiv : ∀ q ∈ p.items, ∀ q' ∈ p.items, q.2.l ≤ q'.2.l → q.2.l ∣ q'.2.l) (hL : ∀ q ∈ p.items, q.2.l ∣ L) (hwW : w ∣ W)
    (sol : Solution) (ov : ObjVals) (h : solve A p seq = .ok (sol, ov)) :
    sol.Pairwise (fun c c' => c'.2 ≠ [] → areaSum c.2 = W * L) := by
  obtain ⟨h1, _⟩ := C134_columns A p hv seq hs hb har w hw hone hst W L hc hsort hdiv hL sol ov h
  rwa [← Nat.mul_assoc, Nat.mul_div_cancel' hwW] at h1

/-- **C134**, columns, in binary64 arithmetic, for problems of ordinary size -/
theorem C134_double (p : SolveIn) (hv : ValidIn p) (seq : Option (List String)) (hs : KnownSeq p seq)
    (hlow : ∀ q ∈ p.items, ¬ LowStrip p.rotation q.2)
    (hsmall : ∀ c ∈ p.containers, 10 * ((p.items.length + 1) * (c.2.w * c.2.l)) < 2 ^ 53)
    (hb : p.strip = false) (w : Nat) (hw : 0 < w)
    (hone : OneWidth w p.rotation p.containers p.items) (hst : ColumnOrder p.strategy)
    (W L : Nat) (hc : ∀ c ∈ p.containers, c.2 = ⟨W, L⟩) (hsort : (solvedFor p.items seq).Pairwise (fun a b => b.2.l ≤ a.2.l))
    (hdiv : ∀ q ∈ p.items, ∀ q' ∈ p.items, q.2.l ≤ q'.2.l → q.2.l ∣ q'.2.l) (hL : ∀ q ∈ p.items, q.2.l ∣ L)
    (sol : Solution) (ov : ObjVals) (h : solve Arith.double p seq = .ok (sol, ov)) :
    sol.Pairwise (fun c c' => c'.2 ≠ [] → areaSum c.2 = w * (W / w * L)) ∧
    ∀ c ∈ sol, areaSum c.2 ≤ w * (W / w * L) := by
  obtain ⟨ov', h'⟩ := (C83_bin p hv hb hlow hsmall seq hs sol).1 ⟨ov, h⟩
  exact C134_columns Arith.exact p hv seq hs hb rfl w hw hone hst W L hc hsort hdiv hL sol ov' h'

/-- **C134**, rows, in binary64 arithmetic, for problems of ordinary size -/
theorem C134_rows_double (p : SolveIn) (hv : ValidIn p) (seq : Option (List String)) (hs : KnownSeq p seq)
    (hlow : ∀ q ∈ p.items, ¬ LowStrip p.rotation q.2)
    (hsmall : ∀ c ∈ p.containers, 10 * ((p.items.length + 1) * (c.2.w * c.2.l)) < 2 ^ 53)
    (hb : p.strip = false) (t : Nat) (ht : 2 ≤ t)
    (hone : OneLength t p.rotation p.containers p.items (fun c => c.l)) (hst : RowOrder p.strategy)
    (W L : Nat) (hc : ∀ c ∈ p.containers, c.2 = ⟨W, L⟩) (hsort : (solvedFor p.items seq).Pairwise (fun a b => b.2.w ≤ a.2.w))
    (hdiv : ∀ q ∈ p.items, ∀ q' ∈ p.items, q.2.w ≤ q'.2.w → q.2.w ∣ q'.2.w) (hW : ∀ q ∈ p.items, q.2.w ∣ W)
    (sol : Solution) (ov : ObjVals) (h : solve Arith.double p seq = .ok (sol, ov)) :
    sol.Pairwise (fun c c' => c'.2 ≠ [] → areaSum c.2 = t * (L / t * W)) ∧
    ∀ c ∈ sol, areaSum c.2 ≤ t * (L / t * W) := by
  obtain ⟨ov', h'⟩ := (C83_bin p hv hb hlow hsmall seq hs sol).1 ⟨ov, h⟩
  exact C134_rows Arith.exact p hv seq hs hb rfl t ht hone hst W L hc hsort hdiv hW sol ov' h'

/-- **C134**, number of containers, in binary64 arithmetic, for problems of ordinary size -/
theorem C134_count_double (p : SolveIn) (hv : ValidIn p) (seq : Option (List String)) (hs : KnownSeq p seq)
    (hlow : ∀ q ∈ p.items, ¬ LowStrip p.rotation q.2)
    (hsmall : ∀ c ∈ p.containers, 10 * ((p.items.length + 1) * (c.2.w * c.2.l)) < 2 ^ 53)
    (hb : p.strip = false) (w : Nat) (hw : 0 < w)
    (hone : OneWidth w p.rotation p.containers p.items) (hst : ColumnOrder p.strategy)
    (W L : Nat) (hc : ∀ c ∈ p.containers, c.2 = ⟨W, L⟩) (hsort : (solvedFor p.items seq).Pairwise (fun a b => b.2.l ≤ a.2.l))
    (hdiv : ∀ q ∈ p.items, ∀ q' ∈ p.items, q.2.l ≤ q'.2.l → q.2.l ∣ q'.2.l) (hL : ∀ q ∈ p.items, q.2.l ∣ L)
    (sol : Solution) (ov : ObjVals) (h : solve Arith.double p seq = .ok (sol, ov)) :
    (sol.map (fun c => areaSum c.2)).sum ≤ (sol.filter (fun c => !c.2.isEmpty)).length * (w * (W / w * L)) ∧
    ∀ n, (sol.map (fun c => areaSum c.2)).sum ≤ n * (w * (W / w * L)) → (sol.filter (fun c => !c.2.isEmpty)).length ≤ n := by
  obtain ⟨ov', h'⟩ := (C83_bin p hv hb hlow hsmall seq hs sol).1 ⟨ov, h⟩
  exact C134_count Arith.exact p hv seq hs hb rfl w hw hone hst W L hc hsort hdiv hL sol ov' h'

/-- **C134**, number of containers for rows, in binary64 arithmetic, for problems of ordinary size -/
theorem C134_rows_count_double (p : SolveIn) (hv : ValidIn p) (seq : Option (List String)) (hs : KnownSeq p seq)
    (hlow : ∀ q ∈ p.items, ¬ LowStrip p.rotation q.2)
    (hsmall : ∀ c ∈ p.containers, 10 * ((p.items.length + 1) * (c.2.w * c.2.l)) < 2 ^ 53)
    (hb : p.strip = false) (t : Nat) (ht : 2 ≤ t)
    (hone : OneLength t p.rotation p.containers p.items (fun c => c.l)) (hst : RowOrder p.strategy)
    (W L : Nat) (hc : ∀ c ∈ p.containers, c.2 = ⟨W, L⟩) (hsort : (solvedFor p.items seq).Pairwise (fun a b => b.2.w ≤ a.2.w))
    (hdiv : ∀ q ∈ p.items, ∀ q' ∈ p.items, q.2.w ≤ q'.2.w → q.2.w ∣ q'.2.w) (hW : ∀ q ∈ p.items, q.2.w ∣ W)
    (sol : Solution) (ov : ObjVals) (h : solve Arith.double p seq = .ok (sol, ov)) :
    (sol.map (fun c => areaSum c.2)).sum ≤ (sol.filter (fun c => !c.2.isEmpty)).length * (t * (L / t * W)) ∧
    ∀ n, (sol.map (fun c => areaSum c.2)).sum ≤ n * (t * (L / t * W)) → (sol.filter (fun c => !c.2.isEmpty)).length ≤ n := by
  obtain ⟨ov', h'⟩ := (C83_bin p hv hb hlow hsmall seq hs sol).1 ⟨ov, h⟩
  exact C134_rows_count Arith.exact p hv seq hs hb rfl t ht hone hst W L hc hsort hdiv hW sol ov' h'

/-- **C134**, no waste, in binary64 arithmetic, for problems of ordinary size -/
theorem C134_no_waste_double (p : SolveIn) (hv : ValidIn p) (seq : Option (List String)) (hs : KnownSeq p seq)
    (hlow : ∀ q ∈ p.items, ¬ LowStrip p.rotation q.2)
    (hsmall : ∀ c ∈ p.containers, 10 * ((p.items.length + 1) * (c.2.w * c.2.l)) < 2 ^ 53)
    (hb : p.strip = false) (w : Nat) (hw : 0 < w)
    (hone : OneWidth w p.rotation p.containers p.items) (hst : ColumnOrder p.strategy)
    (W L : Nat) (hc : ∀ c ∈ p.containers, c.2 = ⟨W, L⟩) (hsort : (solvedFor p.items seq).Pairwise (fun a b => b.2.l ≤ a.2.l))
    (hdiv : ∀ q ∈ p.items, ∀ q' ∈ p.items, q.2.l ≤ q'.2.l → q.2.l ∣ q'.2.l) (hL : ∀ q ∈ p.items, q.2.l ∣ L) (hwW : w ∣ W)
    (sol : Solution) (ov : ObjVals) (h : solve Arith.double p seq = .ok (sol, ov)) :
    sol.Pairwise (fun c c' => c'.2 ≠ [] → areaSum c.2 = W * L) := by
  obtain ⟨ov', h'⟩ := (C83_bin p hv hb hlow hsmall seq hs sol).1 ⟨ov, h⟩
  exact C134_no_waste Arith.exact p hv seq hs hb rfl w hw hone hst W L hc hsort hdiv hL hwW sol ov' h'

/-! ### the hypotheses are met -/

/-- lengths 6, 3 and 1 in containers of two columns of length 6 -/
def filledDemo : SolveIn :=
  ⟨[("a", ⟨4, 6⟩), ("b", ⟨4, 6⟩), ("c", ⟨4, 6⟩)],
    [("p", ⟨2, 6⟩), ("q", ⟨2, 3⟩), ("r", ⟨2, 3⟩), ("s", ⟨2, 3⟩), ("t", ⟨2, 1⟩), ("u", ⟨2, 1⟩)],
    defaultStrategy, false, false, 0⟩

theorem filledDemo_run : (solve Arith.exact filledDemo none).toOption.map (·.1) = some
    [("a", [("p", ⟨0, 0, 2, 6⟩), ("q", ⟨2, 0, 2, 3⟩), ("r", ⟨2, 3, 2, 3⟩)]),
     ("b", [("s", ⟨0, 0, 2, 3⟩), ("t", ⟨0, 3, 2, 1⟩), ("u", ⟨0, 4, 2, 1⟩)]), ("c", [])] := by decide +kernel

example : ValidIn filledDemo ∧ OneWidth 2 filledDemo.rotation filledDemo.containers filledDemo.items ∧
    ColumnOrder filledDemo.strategy ∧ (∀ c ∈ filledDemo.containers, c.2 = ⟨4, 6⟩) ∧
    (solvedFor filledDemo.items none).Pairwise (fun a b => b.2.l ≤ a.2.l) ∧
    (∀ q ∈ filledDemo.items, ∀ q' ∈ filledDemo.items, q.2.l ≤ q'.2.l → q.2.l ∣ q'.2.l) ∧
    (∀ q ∈ filledDemo.items, q.2.l ∣ 6) ∧ 2 ∣ 4 ∧ (∀ q ∈ filledDemo.items, ¬ (q.2.l = 1 ∧ 3 ≤ q.2.w)) ∧
    (∀ c ∈ filledDemo.containers, 10 * ((filledDemo.items.length + 1) * (c.2.w * c.2.l)) < 2 ^ 53) := by
  refine ⟨⟨⟨by decide, by decide⟩, ⟨by decide, by decide⟩, nofun⟩, ?_, ⟨[], [], _, rfl, by decide, by decide⟩, by decide, by decide, by decide, by decide, by decide, by decide, by decide⟩
  intro q hq
  refine ⟨?_, by intro h; cases h⟩
  revert q
  decide

/-- rows -/
def filledRows : SolveIn :=
  ⟨[("a", ⟨6, 4⟩), ("b", ⟨6, 4⟩)], [("p", ⟨6, 2⟩), ("q", ⟨3, 2⟩), ("r", ⟨3, 2⟩), ("s", ⟨3, 2⟩)],
   [.B, .A, .C, .A_, .B_, .B__, .A__, .F, .E, .D], false, false, 0⟩

theorem filledRows_run : (solve Arith.exact filledRows none).toOption.map (·.1) = some
    [("a", [("p", ⟨0, 0, 6, 2⟩), ("q", ⟨0, 2, 3, 2⟩), ("r", ⟨3, 2, 3, 2⟩)]), ("b", [("s", ⟨0, 0, 3, 2⟩)])] := by decide +kernel

example : ValidIn filledRows ∧ OneLength 2 filledRows.rotation filledRows.containers filledRows.items (fun c => c.l) ∧
    RowOrder filledRows.strategy ∧ (∀ c ∈ filledRows.containers, c.2 = ⟨6, 4⟩) ∧
    (solvedFor filledRows.items none).Pairwise (fun a b => b.2.w ≤ a.2.w) ∧
    (∀ q ∈ filledRows.items, ∀ q' ∈ filledRows.items, q.2.w ≤ q'.2.w → q.2.w ∣ q'.2.w) ∧ (∀ q ∈ filledRows.items, q.2.w ∣ 6) := by
  refine ⟨⟨⟨by decide, by decide⟩, ⟨by decide, by decide⟩, nofun⟩, ?_, ⟨[], [], _, rfl, by decide, by decide⟩, by decide, by decide, by decide, by decide⟩
  intro q hq
  refine ⟨?_, by intro h; cases h⟩
  revert q
  decide

end HP
