import Verif.Props.DecreasingWide
/-
C132: items of one width whose lengths divide each other, longest first: `solve` uses as few containers as possible.
-/
namespace HP
open Spec

/-- the length counted if it is at least `s` -/
def atLeast (s l : Nat) : Nat := if s ≤ l then l else 0

theorem greedy_full (s : Nat) : ∀ (items : List (String × Dim)) (b : Bin), items.Pairwise (fun a b => b.2.l ≤ a.2.l) →
    (∀ x ∈ b.items, ∀ y ∈ items, y.2.l ≤ x.2.l) → (∀ y ∈ items, y.2.w ≤ b.width) → ∀ q ∈ passed b items, q.2.l = s →
    b.cap < ((b.items ++ greedy b items).map (fun x => atLeast s x.2.l)).sum + s
  | [], b, _, _, _, q, hq, _ => by simp [passed] at hq
  | y :: qs, b, hs, hb, hw, q, hq, hqs => by
    rw [List.pairwise_cons] at hs
    unfold passed at hq
    unfold greedy
    split at hq
    · rename_i hy
      rw [if_pos hy]
      have := greedy_full s qs { b with items := b.items ++ [y] } hs.2 (by
        intro x hx z hz
        rcases List.mem_append.1 hx with hx | hx
        · exact hb x hx z (by simp [hz])
        · rw [List.mem_singleton.1 hx]; exact hs.1 z hz) (fun z hz => hw z (by simp [hz])) q hq hqs
      simpa using this
    · rename_i hy
      rw [if_neg hy]
      rcases List.mem_cons.1 hq with rfl | hq
      · have h1 : ¬ (b.load + q.2.l ≤ b.cap) := fun h => hy ⟨hw q (by simp), h⟩
        have h2 : (b.items.map (fun x => atLeast s x.2.l)).sum = b.load := by
          unfold Bin.load
          congr 1
          refine List.map_congr_left fun x hx => ?_
          unfold atLeast
          rw [if_pos (by rw [← hqs]; exact hb x hx q (by simp))]
        rw [List.map_append, List.sum_append, h2]
        omega
      · exact greedy_full s qs b hs.2 (fun x hx z hz => hb x hx z (by simp [hz])) (fun z hz => hw z (by simp [hz])) q hq hqs

/-- the earlier bin is full for an item of a later one, even if only items of at least its length are counted -/
theorem firstFit_full {v L : Nat} : ∀ (bins : List Bin) (items : List (String × Dim)),
    (∀ b ∈ bins, b.items = [] ∧ b.width = v ∧ b.cap = L) → (∀ q ∈ items, q.2.w ≤ v) → items.Pairwise (fun a b => b.2.l ≤ a.2.l) →
    (firstFit bins items).Pairwise (fun b b' => ∀ q ∈ b'.items, L < (b.items.map (fun x => atLeast q.2.l x.2.l)).sum + q.2.l)
  | [], items, _, _, _ => by rw [firstFit_nil]; exact .nil
  | b0 :: bs, items, he, hw, hs => by
    rw [firstFit_cons, List.pairwise_cons]
    have he' := fun b hb => he b (List.mem_cons_of_mem b0 hb)
    have hsub := passed_sublist items b0
    have hw' : ∀ q ∈ passed b0 items, q.2.w ≤ v := fun q hq => hw q (hsub.subset hq)
    refine ⟨fun b' hb' q hq => ?_, firstFit_full bs _ he' hw' (hs.sublist hsub)⟩
    have hqp := firstFit_from bs _ (fun b hb => (he' b hb).1) b' hb' q hq
    obtain ⟨e1, e2, e3⟩ := he b0 (by simp)
    have := greedy_full q.2.l items b0 hs (by rw [e1]; simp) (by rw [e2]; exact hw) q hqp rfl
    rw [e3] at this
    exact this

/-- rectangles of width `w` without overlaps in a container, those of at least `s` having lengths that are multiples of `s` -/
theorem multiples_columns {w W L s : Nat} (hw : 0 < w) (hs : 0 < s) (m : List Rect) (hd : m.Pairwise Spec.Disjoint)
    (hin : ∀ r ∈ m, (Inside W L r ∧ r.w = w) ∧ (s ≤ r.l → s ∣ r.l)) :
    (m.map (fun r => atLeast s r.l)).sum ≤ W / w * (s * (L / s)) := by
  have hmem : ∀ r ∈ m.filter (fun r => decide (s ≤ r.l)), (Inside W L r ∧ r.w = w) ∧ r.l = s * (r.l / s) := by
    intro r hr
    rw [List.mem_filter] at hr
    obtain ⟨h1, h2⟩ := hin r hr.1
    exact ⟨h1, (Nat.mul_div_cancel' (h2 (of_decide_eq_true hr.2))).symm⟩
  have key := lengths_columns (W := W) (L := L / s) hw
    ((m.filter (fun r => decide (s ≤ r.l))).map (fun r => (⟨r.x, r.y / s, r.w, r.l / s⟩ : Rect)))
    (by
      rw [List.pairwise_map]
      refine List.Pairwise.imp_of_mem ?_ (hd.sublist List.filter_sublist)
      intro r t hr ht hrt x y ⟨⟨h1, h2, h3, h4⟩, ⟨h5, h6, h7, h8⟩⟩
      have e1 := (hmem r hr).2
      have e2 := (hmem t ht).2
      simp only at h1 h2 h3 h4 h5 h6 h7 h8
      have f1 := Nat.div_add_mod r.y s
      have f2 := Nat.mod_lt r.y hs
      have f3 := Nat.div_add_mod t.y s
      have f4 := Nat.mod_lt t.y hs
      have g1 := Nat.mul_le_mul_left s h3
      have g2 := Nat.mul_le_mul_left s (Nat.succ_le_of_lt h4)
      have g3 := Nat.mul_le_mul_left s h7
      have g4 := Nat.mul_le_mul_left s (Nat.succ_le_of_lt h8)
      simp only [Nat.succ_eq_add_one, Nat.mul_add, Nat.mul_one] at g2 g4
      rw [← e1] at g2
      rw [← e2] at g4
      exact hrt x (s * y + (s - 1)) ⟨⟨h1, h2, by omega, by omega⟩, ⟨h5, h6, by omega, by omega⟩⟩)
    (by
      intro r hr
      obtain ⟨r', hr', rfl⟩ := List.mem_map.1 hr
      obtain ⟨⟨⟨a, b⟩, c⟩, e⟩ := hmem r' hr'
      refine ⟨⟨a, ?_⟩, c⟩
      have : (r'.y + s * (r'.l / s)) / s ≤ L / s := Nat.div_le_div_right (by rw [← e]; exact b)
      rw [Nat.add_mul_div_left _ _ hs] at this
      exact this)
  have e : (m.map (fun r => atLeast s r.l)).sum =
      s * (((m.filter (fun r => decide (s ≤ r.l))).map (fun r => (⟨r.x, r.y / s, r.w, r.l / s⟩ : Rect))).map (·.l)).sum := by
    rw [List.map_map]
    clear key hmem hd
    induction m with
    | nil => rfl
    | cons r m ih =>
      have ih := ih (fun r hr => hin r (by simp [hr]))
      rw [List.map_cons, List.sum_cons, ih, List.filter_cons]
      unfold atLeast
      by_cases h : s ≤ r.l
      · have := Nat.mul_div_cancel' ((hin r (by simp)).2 h)
        simp only [h, decide_true, if_true, List.map_cons, List.sum_cons, Nat.mul_add, Function.comp]
        rw [this]
      · simp [h]
  rw [e, Nat.mul_left_comm]
  exact Nat.mul_le_mul_left s key

theorem multiples_rows {t W L s : Nat} (ht : 0 < t) (hs : 0 < s) (m : List Rect) (hd : m.Pairwise Spec.Disjoint)
    (hin : ∀ r ∈ m, (Inside W L r ∧ r.l = t) ∧ (s ≤ r.w → s ∣ r.w)) :
    (m.map (fun r => atLeast s r.w)).sum ≤ L / t * (s * (W / s)) := by
  have := multiples_columns (W := L) (L := W) ht hs (m.map (fun r => (⟨r.y, r.x, r.l, r.w⟩ : Rect))) (by
    rw [List.pairwise_map]
    refine hd.imp ?_
    intro a b hab x y ⟨⟨h1, h2, h3, h4⟩, ⟨h5, h6, h7, h8⟩⟩
    exact hab y x ⟨⟨h3, h4, h1, h2⟩, ⟨h7, h8, h5, h6⟩⟩) (by
    intro r hr
    obtain ⟨r', hr', rfl⟩ := List.mem_map.1 hr
    obtain ⟨⟨⟨h1, h2⟩, h3⟩, h4⟩ := hin r' hr'
    exact ⟨⟨⟨h2, h1⟩, h3⟩, h4⟩)
  simpa [Function.comp_def] using this

theorem sum_ge {α : Type} (f : α → Nat) (k : Nat) : ∀ l : List α, (∀ a ∈ l, k ≤ f a) → l.length * k ≤ (l.map f).sum
  | [], _ => by simp
  | a :: l, h => by
    have ih := sum_ge f k l (fun b hb => h b (by simp [hb]))
    have := h a (by simp)
    rw [List.length_cons, List.map_cons, List.sum_cons, Nat.add_mul]
    omega

/-- the bins that are used, compared with a competing packing -/
theorem divisible_bins {A : Arith} {p : SolveIn} (hv : ValidIn p) {seq : Option (List String)} (hs : KnownSeq p seq)
    {sol : Solution} {ov : ObjVals} (h : solve A p seq = .ok (sol, ov)) {n C : Nat} {size : Dim → Nat} {cols : List (String × List Bin)}
    {place : List Bin → List (String × Rect)} (hplace : ∀ bins, (place bins).map (·.1) = (bins.flatMap (·.items)).map (·.1))
    (hsol : sol = cols.map (fun c => (c.1, place c.2)))
    (hdiv : ∀ q ∈ p.items, ∀ q' ∈ p.items, size q.2 ≤ size q'.2 → size q.2 ∣ size q'.2)
    (hfull : (cols.flatMap (·.2)).Pairwise (fun b b' => ∀ q ∈ b'.items, C < (b.items.map (fun x => atLeast q.2.l x.2.l)).sum + q.2.l))
    (hsize : ∀ b ∈ cols.flatMap (·.2), ∀ q ∈ b.items, 0 < q.2.l ∧ ∃ d, (q.1, d) ∈ p.items ∧ size d = q.2.l)
    (other : List (List (String × Rect)))
    (hother : ∀ s, 0 < s → (∀ q ∈ p.items, s ≤ size q.2 → s ∣ size q.2) → ∀ m ∈ other, ∃ f : Rect → Nat,
      (∀ q ∈ m, ∃ d, (q.1, d) ∈ p.items ∧ size d = f q.2) ∧ (m.map (fun q => atLeast s (f q.2))).sum ≤ n * (s * (C / s)))
    (hall : ∀ id ∈ placedIds sol, ∃ m ∈ other, id ∈ m.map (·.1)) :
    ((cols.flatMap (·.2)).filter (fun b => !b.items.isEmpty)).length ≤ other.length * n := by
  generalize hlen : (fun id : String => ((PyDict.find? p.items id).map size).getD 0) = len
  have hlen' : ∀ id d, (id, d) ∈ p.items → len id = size d := by
    intro id d hd
    rw [← hlen]
    simp only [PyDict.find?_of_mem hv.items.1 hd, Option.map_some, Option.getD_some]
  obtain ⟨_, _, hnd, _⟩ := C04_once A p hv seq hs sol ov h
  have hids : placedIds sol = ((cols.flatMap (·.2)).flatMap (·.items)).map (·.1) := by
    rw [hsol]
    unfold placedIds
    rw [List.flatMap_assoc, List.flatMap_map, List.map_flatMap]
    congr 1
    funext c
    exact hplace c.2
  generalize hU : (cols.flatMap (·.2)).filter (fun b => !b.items.isEmpty) = U
  have hUsub : U.Sublist (cols.flatMap (·.2)) := by rw [← hU]; exact List.filter_sublist
  have hUne : ∀ b ∈ U, b.items ≠ [] := by
    intro b hb h0
    rw [← hU, List.mem_filter] at hb
    rw [h0] at hb
    simp at hb
  rcases List.eq_nil_or_concat U with h0 | ⟨U', b, hUb⟩
  · rw [h0]; simp
  rw [List.concat_eq_append] at hUb
  have hbU : b ∈ U := by rw [hUb]; simp
  obtain ⟨q, hq⟩ := List.exists_mem_of_ne_nil _ (hUne b hbU)
  obtain ⟨hpos, d, hd, hsz⟩ := hsize b (hUsub.subset hbU) q hq
  generalize hqs : q.2.l = s at *
  have hmul : ∀ q' ∈ p.items, s ≤ size q'.2 → s ∣ size q'.2 := by
    intro q' hq'
    rw [← hsz]
    exact hdiv _ hd _ hq'
  -- the competing packing
  have hcov := covered_sum (len := fun id => atLeast s (len id)) hnd (other := other) (B := n * (s * (C / s))) (by
    intro m hm
    obtain ⟨f, h1, h2⟩ := hother s hpos hmul m hm
    refine le_trans (le_of_eq ?_) h2
    rw [List.map_map]
    congr 1
    refine List.map_congr_left fun q hq => ?_
    obtain ⟨d, h3, h4⟩ := h1 q hq
    simp only [Function.comp]
    rw [hlen' _ _ h3, h4]) hall
  -- the bins
  have hfullU := hfull.sublist hUsub
  rw [hUb, List.pairwise_append] at hfullU
  have hbin : ∀ a ∈ U', s * (C / s) ≤ (a.items.map (fun x => atLeast s x.2.l)).sum := by
    intro a ha
    have h1 := hfullU.2.2 a ha b (by simp) q hq
    rw [hqs] at h1
    have h2 : s ∣ (a.items.map (fun x => atLeast s x.2.l)).sum := by
      refine List.dvd_sum ?_
      intro z hz
      obtain ⟨x, hx, rfl⟩ := List.mem_map.1 hz
      unfold atLeast
      split
      · rename_i h3
        obtain ⟨_, d', hd', e⟩ := hsize a (hUsub.subset (by rw [hUb]; simp [ha])) x hx
        rw [← e] at h3 ⊢
        exact hmul _ hd' h3
      · exact dvd_zero s
    obtain ⟨k, hk⟩ := h2
    rw [hk] at h1 ⊢
    refine Nat.mul_le_mul_left s ?_
    have : C / s < k + 1 := by
      rw [Nat.div_lt_iff_lt_mul hpos, Nat.add_mul, Nat.one_mul, Nat.mul_comm k s]
      exact h1
    omega
  have hsumU := sum_ge (fun a : Bin => (a.items.map (fun x => atLeast s x.2.l)).sum) _ U' hbin
  have hb1 : s ≤ (b.items.map (fun x => atLeast s x.2.l)).sum := by
    refine le_trans ?_ (List.single_le_sum (fun _ _ => Nat.zero_le _) _ (List.mem_map_of_mem (f := fun x : String × Dim => atLeast s x.2.l) hq))
    simp only [hqs, atLeast, le_refl, if_true]
  have htot : (U.map (fun a => (a.items.map (fun x => atLeast s x.2.l)).sum)).sum ≤
      ((placedIds sol).map (fun id => atLeast s (len id))).sum := by
    rw [hids, List.map_map]
    have e1 : (U.map (fun a => (a.items.map (fun x => atLeast s x.2.l)).sum)).sum =
        ((U.flatMap (·.items)).map (fun x => atLeast s x.2.l)).sum := by
      clear hU hUsub hUne hUb hbU hfullU
      induction U with
      | nil => rfl
      | cons a U ih => rw [List.map_cons, List.sum_cons, List.flatMap_cons, List.map_append, List.sum_append, ih]
    rw [e1]
    refine le_trans (((List.Sublist.flatMap hUsub _).map _).sum_le_sum (fun _ _ => Nat.zero_le _)) (le_of_eq ?_)
    congr 1
    refine List.map_congr_left fun x hx => ?_
    obtain ⟨a, ha, hxa⟩ := List.mem_flatMap.1 hx
    obtain ⟨_, d', hd', e⟩ := hsize a ha x hxa
    simp only [Function.comp]
    rw [hlen' _ _ hd', e]
  rw [hUb, List.map_append, List.sum_append, List.map_singleton, List.sum_singleton] at htot
  rw [hUb, List.length_append, List.length_singleton]
  by_contra hcon
  have h3 : other.length * n ≤ U'.length := by omega
  have h4 := Nat.mul_le_mul_right (s * (C / s)) h3
  rw [Nat.mul_assoc] at h4
  omega

/-- the part that is common to columns and rows -/
theorem divisible_core {A : Arith} {p : SolveIn} (hv : ValidIn p) {seq : Option (List String)} (hs : KnownSeq p seq)
    {sol : Solution} {ov : ObjVals} (h : solve A p seq = .ok (sol, ov)) {n C : Nat} {size : Dim → Nat} {cols : List (String × List Bin)}
    {place : List Bin → List (String × Rect)} (hplace : ∀ bins, (place bins).map (·.1) = (bins.flatMap (·.items)).map (·.1))
    (hsol : sol = cols.map (fun c => (c.1, place c.2))) (hn : ∀ x ∈ cols, x.2.length = n)
    (hload : ∀ b ∈ cols.flatMap (·.2), b.load ≤ C)
    (hpair : (cols.flatMap (·.2)).Pairwise (fun b b' => ∀ q ∈ b'.items, C < b.load + q.2.l))
    (hdiv : ∀ q ∈ p.items, ∀ q' ∈ p.items, size q.2 ≤ size q'.2 → size q.2 ∣ size q'.2)
    (hfull : (cols.flatMap (·.2)).Pairwise (fun b b' => ∀ q ∈ b'.items, C < (b.items.map (fun x => atLeast q.2.l x.2.l)).sum + q.2.l))
    (hsize : ∀ b ∈ cols.flatMap (·.2), ∀ q ∈ b.items, 0 < q.2.l ∧ ∃ d, (q.1, d) ∈ p.items ∧ size d = q.2.l)
    (other : List (List (String × Rect)))
    (hother : ∀ s, 0 < s → (∀ q ∈ p.items, s ≤ size q.2 → s ∣ size q.2) → ∀ m ∈ other, ∃ f : Rect → Nat,
      (∀ q ∈ m, ∃ d, (q.1, d) ∈ p.items ∧ size d = f q.2) ∧ (m.map (fun q => atLeast s (f q.2))).sum ≤ n * (s * (C / s)))
    (hall : ∀ id ∈ placedIds sol, ∃ m ∈ other, id ∈ m.map (·.1)) :
    (sol.filter (fun c => !c.2.isEmpty)).length ≤ other.length := by
  have key := divisible_bins hv hs h hplace hsol hdiv hfull hsize other hother hall
  have hp2 : (cols.flatMap (·.2)).Pairwise (fun b b' => b'.items ≠ [] → C < b.load + b'.load) := by
    refine hpair.imp ?_
    intro a b hab hne
    obtain ⟨q, hq⟩ := List.exists_mem_of_ne_nil _ hne
    have h1 := hab q hq
    have h2 : q.2.l ≤ b.load := by
      unfold Bin.load
      exact List.single_le_sum (fun _ _ => Nat.zero_le _) _ (List.mem_map_of_mem (f := fun q : String × Dim => q.2.l) hq)
    omega
  have hused := groups_used cols hn hload hp2
  have hK : (sol.filter (fun c => !c.2.isEmpty)).length = (cols.filter (fun x => x.2.any (fun b => !b.items.isEmpty))).length := by
    rw [hsol, List.filter_map, List.length_map]
    congr 1
    refine List.filter_congr fun x _ => ?_
    exact isEmpty_of_ids (hplace x.2)
  rw [hK]
  generalize (cols.filter (fun x => x.2.any (fun b => !b.items.isEmpty))).length = K at hused ⊢
  rcases hused with h0 | h0
  · omega
  · by_contra hcon
    have h2 := Nat.mul_le_mul_right n (show other.length ≤ K - 1 by omega)
    omega

/-- **C132**, columns: with bins of one size, items of one width and A before B before B'' in the strategy, longest first, if of
two lengths one divides the other, no packing without overlaps of (at least) the placed items into containers of this size uses
fewer containers than `solve`. -/
theorem C132_columns (A : Arith) (p : SolveIn) (hv : ValidIn p) (seq : Option (List String)) (hs : KnownSeq p seq)
    (hb : p.strip = false) (har : A = Arith.exact) (w : Nat) (hw : 0 < w)
    (hone : OneWidth w p.rotation p.containers p.items) (hst : ColumnOrder p.strategy)
    (W L : Nat) (hc : ∀ c ∈ p.containers, c.2 = ⟨W, L⟩) (hsort : (solvedFor p.items seq).Pairwise (fun a b => b.2.l ≤ a.2.l))
    (hdiv : ∀ q ∈ p.items, ∀ q' ∈ p.items, q.2.l ≤ q'.2.l → q.2.l ∣ q'.2.l)
    (sol : Solution) (ov : ObjVals) (h : solve A p seq = .ok (sol, ov))
    (other : List (List (String × Rect)))
    (hother : ∀ m ∈ other, (m.map (·.2)).Pairwise Spec.Disjoint ∧
      ∀ q ∈ m, Inside W L q.2 ∧ ∃ d, (q.1, d) ∈ p.items ∧ SizedAs p.rotation d q.2)
    (hall : ∀ id ∈ placedIds sol, ∃ m ∈ other, id ∈ m.map (·.1)) :
    (sol.filter (fun c => !c.2.isEmpty)).length ≤ other.length := by
  by_cases hne : p.containers = []
  · have hck := (C04_once A p hv seq hs sol ov h).1
    rw [hne] at hck
    have : sol = [] := by simpa using hck
    rw [this]; simp
  obtain ⟨cols, rem, h1, h2, h3, h4, _⟩ := columns_facts hv hs hw hone h (.inr har) hst
  simp only [hb, Bool.false_eq_true, if_false] at h2
  have hb1 : ∀ b ∈ columnsOf w p.containers (fun c => c.l), b.items = [] ∧ b.width = w ∧ b.cap = L := by
    intro b hb
    obtain ⟨c, hcm, hbc⟩ := List.mem_flatMap.1 hb
    obtain ⟨_, rfl⟩ := List.mem_replicate.1 hbc
    have := hc c hcm
    refine ⟨rfl, rfl, ?_⟩
    simp only [this]
  have hi1 : ∀ q ∈ solvedFor p.items seq, q.2.w ≤ w := fun q hq => le_of_eq (hone _ (solvedFor_mem _ hq)).1
  have hfrom := (firstFit_two hb1 hi1).1
  have heach := firstFit_each hb1 hi1
  have hfull := firstFit_full _ _ hb1 hi1 hsort
  rw [← h2] at hfrom heach hfull
  refine divisible_core hv hs h (n := W / w) (C := L) (size := Dim.l) (standing_ids w · 0) h3 ?_ hfrom heach hdiv hfull ?_ other ?_ hall
  · intro x hx
    have : (x.1, x.2.length) ∈ p.containers.map (fun c => (c.1, c.2.w / w)) := by
      rw [← h1]; exact List.mem_map_of_mem (f := fun c : String × List Bin => (c.1, c.2.length)) hx
    obtain ⟨y, hy, he⟩ := List.mem_map.1 this
    injection he with f1 f2
    rw [← f2, hc y hy]
  · intro b hb q hq
    have hm := solvedFor_mem _ (h4.subset (List.mem_append_left _ (List.mem_flatMap.2 ⟨b, hb, hq⟩)))
    exact ⟨(hv.items.2 _ hm).2, q.2, hm, rfl⟩
  · intro s hs0 hmul m hm
    obtain ⟨ho1, ho2⟩ := hother m hm
    have hsz : ∀ q ∈ m, (Inside W L q.2 ∧ q.2.w = w) ∧ ∃ d, (q.1, d) ∈ p.items ∧ d.l = q.2.l := by
      intro q hq
      obtain ⟨hin, d, hd, hsz⟩ := ho2 q hq
      obtain ⟨e1, e2⟩ := hone _ hd
      simp only at e1 e2
      rcases hsz with ⟨g1, g2⟩ | ⟨hr, g1, g2⟩
      · exact ⟨⟨hin, by rw [g1, e1]⟩, d, hd, g2.symm⟩
      · rcases e2 hr with e3 | e3
        · exact ⟨⟨hin, by rw [g1, e3]⟩, d, hd, by rw [g2, e1, e3]⟩
        · exfalso
          obtain ⟨c, hcm⟩ := List.exists_mem_of_ne_nil _ hne
          have h7 := e3 c hcm
          rw [hc c hcm] at h7
          have := hin.1
          simp only at h7
          omega
    refine ⟨Rect.l, fun q hq => (hsz q hq).2, ?_⟩
    have := multiples_columns (W := W) (L := L) (s := s) hw hs0 (m.map (·.2)) ho1 (by
      intro r hr
      obtain ⟨q, hq, rfl⟩ := List.mem_map.1 hr
      obtain ⟨h1, d, hd, he⟩ := hsz q hq
      refine ⟨h1, ?_⟩
      rw [← he]
      exact hmul _ hd)
    simpa [Function.comp_def] using this

/-- **C132**, rows: with bins of one size, items of one length of at least two and B before A before A'' in the strategy,
widest first, the same holds if of two widths one divides the other. -/
theorem C132_rows (A : Arith) (p : SolveIn) (hv : ValidIn p) (seq : Option (List String)) (hs : KnownSeq p seq)
    (hb : p.strip = false) (har : A = Arith.exact) (t : Nat) (ht : 2 ≤ t)
    (hone : OneLength t p.rotation p.containers p.items (fun c => c.l)) (hst : RowOrder p.strategy)
    (W L : Nat) (hc : ∀ c ∈ p.containers, c.2 = ⟨W, L⟩) (hsort : (solvedFor p.items seq).Pairwise (fun a b => b.2.w ≤ a.2.w))
    (hdiv : ∀ q ∈ p.items, ∀ q' ∈ p.items, q.2.w ≤ q'.2.w → q.2.w ∣ q'.2.w)
    (sol : Solution) (ov : ObjVals) (h : solve A p seq = .ok (sol, ov))
    (other : List (List (String × Rect)))
    (hother : ∀ m ∈ other, (m.map (·.2)).Pairwise Spec.Disjoint ∧
      ∀ q ∈ m, Inside W L q.2 ∧ ∃ d, (q.1, d) ∈ p.items ∧ SizedAs p.rotation d q.2)
    (hall : ∀ id ∈ placedIds sol, ∃ m ∈ other, id ∈ m.map (·.1)) :
    (sol.filter (fun c => !c.2.isEmpty)).length ≤ other.length := by
  by_cases hne : p.containers = []
  · have hck := (C04_once A p hv seq hs sol ov h).1
    rw [hne] at hck
    have : sol = [] := by simpa using hck
    rw [this]; simp
  obtain ⟨rows, rem, h1, h2, h3, h4, _⟩ := rows_facts hv hs ht
    (by simpa only [hb, Bool.false_eq_true, if_false] using hone) h (.inr har) hst
  simp only [hb, Bool.false_eq_true, if_false] at h1 h2
  have hb1 : ∀ b ∈ shelfRows t p.containers (fun c => c.l), b.items = [] ∧ b.width = t ∧ b.cap = W := by
    intro b hb
    obtain ⟨c, hcm, hbc⟩ := List.mem_flatMap.1 hb
    obtain ⟨_, rfl⟩ := List.mem_replicate.1 hbc
    have := hc c hcm
    refine ⟨rfl, rfl, ?_⟩
    simp only [this]
  have hi1 : ∀ q ∈ turnedItems (solvedFor p.items seq), q.2.w ≤ t := by
    intro q hq
    obtain ⟨q', hq', rfl⟩ := List.mem_map.1 hq
    exact le_of_eq (hone _ (solvedFor_mem _ hq')).1
  have hfrom := (firstFit_two hb1 hi1).1
  have heach := firstFit_each hb1 hi1
  have hfull := firstFit_full _ _ hb1 hi1 (by
    unfold turnedItems
    rw [List.pairwise_map]
    exact hsort)
  rw [← h2] at hfrom heach hfull
  refine divisible_core hv hs h (n := L / t) (C := W) (size := Dim.w) (shelves_ids t · 0) h3 ?_ hfrom heach hdiv hfull ?_ other ?_ hall
  · intro x hx
    have : (x.1, x.2.length) ∈ p.containers.map (fun c => (c.1, c.2.l / t)) := by
      rw [← h1]; exact List.mem_map_of_mem (f := fun c : String × List Bin => (c.1, c.2.length)) hx
    obtain ⟨y, hy, he⟩ := List.mem_map.1 this
    injection he with f1 f2
    rw [← f2, hc y hy]
  · intro b hb q hq
    obtain ⟨q', hq', rfl⟩ := List.mem_map.1 (h4.subset (List.mem_append_left _ (List.mem_flatMap.2 ⟨b, hb, hq⟩)))
    exact ⟨(hv.items.2 _ (solvedFor_mem _ hq')).1, q'.2, solvedFor_mem _ hq', rfl⟩
  · intro s hs0 hmul m hm
    obtain ⟨ho1, ho2⟩ := hother m hm
    have hsz : ∀ q ∈ m, (Inside W L q.2 ∧ q.2.l = t) ∧ ∃ d, (q.1, d) ∈ p.items ∧ d.w = q.2.w := by
      intro q hq
      obtain ⟨hin, d, hd, hsz⟩ := ho2 q hq
      obtain ⟨e1, e2⟩ := hone _ hd
      simp only at e1 e2
      rcases hsz with ⟨g1, g2⟩ | ⟨hr, g1, g2⟩
      · exact ⟨⟨hin, by rw [g2, e1]⟩, d, hd, g1.symm⟩
      · rcases e2 hr with e3 | e3
        · exact ⟨⟨hin, by rw [g2, e3]⟩, d, hd, by rw [g1, e1, e3]⟩
        · exfalso
          obtain ⟨c, hcm⟩ := List.exists_mem_of_ne_nil _ hne
          have h7 := e3 c hcm
          rw [hc c hcm] at h7
          have := hin.2
          simp only at h7
          omega
    refine ⟨Rect.w, fun q hq => (hsz q hq).2, ?_⟩
    have := multiples_rows (W := W) (L := L) (s := s) (show 0 < t by omega) hs0 (m.map (·.2)) ho1 (by
      intro r hr
      obtain ⟨q, hq, rfl⟩ := List.mem_map.1 hr
      obtain ⟨h1, d, hd, he⟩ := hsz q hq
      refine ⟨h1, ?_⟩
      rw [← he]
      exact hmul _ hd)
    simpa [Function.comp_def] using this

/-- **C132**, wide items: with containers of one size `W × L` and the items longest first, if of two lengths one divides
the other, no packing of (at least) the placed items into containers of this size uses fewer containers than `solve`. -/
theorem C132_wide (A : Arith) (p : SolveIn) (hv : ValidIn p) (seq : Option (List String)) (hs : KnownSeq p seq)
    (hb : p.strip = false) (har : A = Arith.exact) (hst : .A ∈ p.strategy ∧ .A__ ∈ p.strategy)
    (hwide : Wide p.rotation p.containers p.items) (W L : Nat) (hc : ∀ c ∈ p.containers, c.2 = ⟨W, L⟩)
    (hfit : ∀ q ∈ p.items, q.2.w ≤ W) (hsort : (solvedFor p.items seq).Pairwise (fun a b => b.2.l ≤ a.2.l))
    (hdiv : ∀ q ∈ p.items, ∀ q' ∈ p.items, q.2.l ≤ q'.2.l → q.2.l ∣ q'.2.l)
    (sol : Solution) (ov : ObjVals) (h : solve A p seq = .ok (sol, ov))
    (other : List (List (String × Rect)))
    (hother : ∀ m ∈ other, (m.map (·.2)).Pairwise Spec.Disjoint ∧
      ∀ q ∈ m, Inside W L q.2 ∧ ∃ d, (q.1, d) ∈ p.items ∧ SizedAs p.rotation d q.2)
    (hall : ∀ id ∈ placedIds sol, ∃ m ∈ other, id ∈ m.map (·.1)) :
    (sol.filter (fun c => !c.2.isEmpty)).length ≤ other.length := by
  by_cases hne : p.containers = []
  · have hck := (C04_once A p hv seq hs sol ov h).1
    rw [hne] at hck
    have : sol = [] := by simpa using hck
    rw [this]; simp
  obtain ⟨c0, hc0⟩ := List.exists_mem_of_ne_nil _ hne
  have hsol := C115_first_fit A p hv seq hs (.inr har) hst hwide sol ov h
  simp only [hb, Bool.false_eq_true, if_false] at hsol
  have hb1 : ∀ b ∈ binsOf p.containers (fun c => c.l), b.items = [] ∧ b.width = W ∧ b.cap = L := by
    intro b hb
    obtain ⟨c, hcm, rfl⟩ := List.mem_map.1 hb
    have := hc c hcm
    refine ⟨rfl, ?_, ?_⟩ <;> simp only [this]
  have hi1 : ∀ q ∈ solvedFor p.items seq, q.2.w ≤ W := fun q hq => hfit q (solvedFor_mem _ hq)
  have hfull := firstFit_full _ _ hb1 hi1 hsort
  have hfrom := firstFit_from _ (solvedFor p.items seq) (fun b hb => (hb1 b hb).1)
  generalize firstFit (binsOf p.containers (fun c => c.l)) (solvedFor p.items seq) = bins at *
  have hcols : (bins.map (fun b => (b.id, [b]))).flatMap (·.2) = bins := by
    rw [List.flatMap_map]; simp
  have key := divisible_bins hv hs h (n := 1) (C := L) (size := Dim.l) (cols := bins.map (fun b => (b.id, [b])))
    (place := fun bs => pileFrom 0 (bs.flatMap (·.items))) (fun bs => pileFrom_ids _ _)
    (by rw [hsol, List.map_map]; simp [Function.comp_def]) hdiv (by rw [hcols]; exact hfull)
    (by
      rw [hcols]
      intro b hb q hq
      have hm := solvedFor_mem _ (hfrom b hb q hq)
      exact ⟨(hv.items.2 _ hm).2, q.2, hm, rfl⟩) other (by
      intro s hs0 hmul m hm
      obtain ⟨ho1, ho2⟩ := hother m hm
      have hw0 := hwide _ hc0
      rw [hc _ hc0] at hw0
      have hsz : ∀ q ∈ m, (q.2.x + q.2.w ≤ W ∧ q.2.y + q.2.l ≤ L ∧ W < 2 * q.2.w) ∧ ∃ d, (q.1, d) ∈ p.items ∧ d.l = q.2.l := by
        intro q hq
        obtain ⟨⟨h1, h2⟩, d, hd, hsz⟩ := ho2 q hq
        obtain ⟨h3, h4⟩ := hw0 _ hd
        simp only at h3 h4
        rcases hsz with ⟨e1, e2⟩ | ⟨hr, e1, e2⟩
        · exact ⟨⟨h1, h2, by omega⟩, d, hd, e2.symm⟩
        · rcases h4 hr with h5 | h5
          · exact ⟨⟨h1, h2, by omega⟩, d, hd, by omega⟩
          · omega
      refine ⟨Rect.l, fun q hq => (hsz q hq).2, ?_⟩
      have := multiples_columns (W := 1) (L := L) Nat.one_pos hs0 ((m.map (·.2)).map (fun r => (⟨0, r.y, 1, r.l⟩ : Rect)))
        (by
          rw [List.pairwise_map]
          refine List.Pairwise.imp_of_mem ?_ ho1
          intro r s hr hs hrs x y ⟨⟨_, _, h1, h2⟩, ⟨_, _, h3, h4⟩⟩
          obtain ⟨q, hq, rfl⟩ := List.mem_map.1 hr
          obtain ⟨q', hq', rfl⟩ := List.mem_map.1 hs
          obtain ⟨⟨a1, a2, a3⟩, _⟩ := hsz q hq
          obtain ⟨⟨b1, b2, b3⟩, _⟩ := hsz q' hq'
          simp only at h1 h2 h3 h4
          exact hrs ((W - 1) / 2) y ⟨⟨by omega, by omega, h1, h2⟩, ⟨by omega, by omega, h3, h4⟩⟩)
        (by
          intro r hr
          obtain ⟨r', hr', rfl⟩ := List.mem_map.1 hr
          obtain ⟨q, hq, rfl⟩ := List.mem_map.1 hr'
          refine ⟨⟨⟨by simp, (hsz q hq).1.2.1⟩, rfl⟩, ?_⟩
          obtain ⟨_, d, hd, he⟩ := hsz q hq
          simp only
          rw [← he]
          exact hmul _ hd)
      rw [Nat.div_one] at this
      simpa [Function.comp_def] using this) hall
  rw [hcols, Nat.mul_one] at key
  rw [hsol, filter_used (place := pileFrom 0) (fun l => pileFrom_ids l 0)]
  exact key

/-- **C132**, long items: the same along the floor, with the items widest first, if of two widths one divides the other. -/
theorem C132_long (A : Arith) (p : SolveIn) (hv : ValidIn p) (seq : Option (List String)) (hs : KnownSeq p seq)
    (hb : p.strip = false) (har : A = Arith.exact) (hst : .B ∈ p.strategy ∧ .B__ ∈ p.strategy)
    (htall : Tall p.rotation (fun c => c.l) p.containers p.items) (W L : Nat) (hc : ∀ c ∈ p.containers, c.2 = ⟨W, L⟩)
    (hfit : ∀ q ∈ p.items, q.2.l ≤ L) (hsort : (solvedFor p.items seq).Pairwise (fun a b => b.2.w ≤ a.2.w))
    (hdiv : ∀ q ∈ p.items, ∀ q' ∈ p.items, q.2.w ≤ q'.2.w → q.2.w ∣ q'.2.w)
    (sol : Solution) (ov : ObjVals) (h : solve A p seq = .ok (sol, ov))
    (other : List (List (String × Rect)))
    (hother : ∀ m ∈ other, (m.map (·.2)).Pairwise Spec.Disjoint ∧
      ∀ q ∈ m, Inside W L q.2 ∧ ∃ d, (q.1, d) ∈ p.items ∧ SizedAs p.rotation d q.2)
    (hall : ∀ id ∈ placedIds sol, ∃ m ∈ other, id ∈ m.map (·.1)) :
    (sol.filter (fun c => !c.2.isEmpty)).length ≤ other.length := by
  by_cases hne : p.containers = []
  · have hck := (C04_once A p hv seq hs sol ov h).1
    rw [hne] at hck
    have : sol = [] := by simpa using hck
    rw [this]; simp
  obtain ⟨c0, hc0⟩ := List.exists_mem_of_ne_nil _ hne
  have hlo : lenOf p = (fun c => c.l) := by funext c; unfold lenOf; rw [hb]; rfl
  have hsol := C116_first_fit A p hv seq hs (.inr har) hst (by rw [hlo]; exact htall) sol ov h
  simp only [hb, Bool.false_eq_true, if_false] at hsol
  have hb1 : ∀ b ∈ rowsOf p.containers (fun c => c.l), b.items = [] ∧ b.width = L ∧ b.cap = W := by
    intro b hb
    obtain ⟨c, hcm, rfl⟩ := List.mem_map.1 hb
    have := hc c hcm
    refine ⟨rfl, ?_, ?_⟩ <;> simp only [this]
  have hi1 : ∀ q ∈ turnedItems (solvedFor p.items seq), q.2.w ≤ L := by
    intro q hq
    obtain ⟨q', hq', rfl⟩ := List.mem_map.1 hq
    exact hfit q' (solvedFor_mem _ hq')
  have hfull := firstFit_full _ _ hb1 hi1 (by
    unfold turnedItems
    rw [List.pairwise_map]
    exact hsort)
  have hfrom := firstFit_from _ (turnedItems (solvedFor p.items seq)) (fun b hb => (hb1 b hb).1)
  generalize firstFit (rowsOf p.containers (fun c => c.l)) (turnedItems (solvedFor p.items seq)) = bins at *
  have hcols : (bins.map (fun b => (b.id, [b]))).flatMap (·.2) = bins := by
    rw [List.flatMap_map]; simp
  have key := divisible_bins hv hs h (n := 1) (C := W) (size := Dim.w) (cols := bins.map (fun b => (b.id, [b])))
    (place := fun bs => rowFrom 0 (bs.flatMap (·.items))) (fun bs => rowFrom_ids _ _)
    (by rw [hsol, List.map_map]; simp [Function.comp_def]) hdiv (by rw [hcols]; exact hfull)
    (by
      rw [hcols]
      intro b hb q hq
      obtain ⟨q', hq', rfl⟩ := List.mem_map.1 (hfrom b hb q hq)
      have hm := solvedFor_mem _ hq'
      exact ⟨(hv.items.2 _ hm).1, q'.2, hm, rfl⟩) other (by
      intro s hs0 hmul m hm
      obtain ⟨ho1, ho2⟩ := hother m hm
      have hw0 := htall _ hc0
      rw [hc _ hc0] at hw0
      have hsz : ∀ q ∈ m, (q.2.x + q.2.w ≤ W ∧ q.2.y + q.2.l ≤ L ∧ L < 2 * q.2.l) ∧ ∃ d, (q.1, d) ∈ p.items ∧ d.w = q.2.w := by
        intro q hq
        obtain ⟨⟨h1, h2⟩, d, hd, hsz⟩ := ho2 q hq
        obtain ⟨h3, h4⟩ := hw0 _ hd
        simp only at h3 h4
        rcases hsz with ⟨e1, e2⟩ | ⟨hr, e1, e2⟩
        · exact ⟨⟨h1, h2, by omega⟩, d, hd, e1.symm⟩
        · rcases h4 hr with h5 | h5
          · exact ⟨⟨h1, h2, by omega⟩, d, hd, by omega⟩
          · omega
      refine ⟨Rect.w, fun q hq => (hsz q hq).2, ?_⟩
      have := multiples_columns (W := 1) (L := W) Nat.one_pos hs0 ((m.map (·.2)).map (fun r => (⟨0, r.x, 1, r.w⟩ : Rect)))
        (by
          rw [List.pairwise_map]
          refine List.Pairwise.imp_of_mem ?_ ho1
          intro r s hr hs hrs x y ⟨⟨_, _, h1, h2⟩, ⟨_, _, h3, h4⟩⟩
          obtain ⟨q, hq, rfl⟩ := List.mem_map.1 hr
          obtain ⟨q', hq', rfl⟩ := List.mem_map.1 hs
          obtain ⟨⟨a1, a2, a3⟩, _⟩ := hsz q hq
          obtain ⟨⟨b1, b2, b3⟩, _⟩ := hsz q' hq'
          simp only at h1 h2 h3 h4
          exact hrs y ((L - 1) / 2) ⟨⟨h1, h2, by omega, by omega⟩, ⟨h3, h4, by omega, by omega⟩⟩)
        (by
          intro r hr
          obtain ⟨r', hr', rfl⟩ := List.mem_map.1 hr
          obtain ⟨q, hq, rfl⟩ := List.mem_map.1 hr'
          refine ⟨⟨⟨by simp, (hsz q hq).1.1⟩, rfl⟩, ?_⟩
          obtain ⟨_, d, hd, he⟩ := hsz q hq
          simp only
          rw [← he]
          exact hmul _ hd)
      rw [Nat.div_one] at this
      simpa [Function.comp_def] using this) hall
  rw [hcols, Nat.mul_one] at key
  rw [hsol, filter_used (place := rowFrom 0) (fun l => rowFrom_ids l 0)]
  exact key

/-- **C132**, columns, in binary64 arithmetic, for problems of ordinary size -/
theorem C132_double (p : SolveIn) (hv : ValidIn p) (seq : Option (List String)) (hs : KnownSeq p seq)
    (hlow : ∀ q ∈ p.items, ¬ LowStrip p.rotation q.2)
    (hsmall : ∀ c ∈ p.containers, 10 * ((p.items.length + 1) * (c.2.w * c.2.l)) < 2 ^ 53)
    (hb : p.strip = false) (w : Nat) (hw : 0 < w)
    (hone : OneWidth w p.rotation p.containers p.items) (hst : ColumnOrder p.strategy)
    (W L : Nat) (hc : ∀ c ∈ p.containers, c.2 = ⟨W, L⟩) (hsort : (solvedFor p.items seq).Pairwise (fun a b => b.2.l ≤ a.2.l))
    (hdiv : ∀ q ∈ p.items, ∀ q' ∈ p.items, q.2.l ≤ q'.2.l → q.2.l ∣ q'.2.l)
    (sol : Solution) (ov : ObjVals) (h : solve Arith.double p seq = .ok (sol, ov))
    (other : List (List (String × Rect)))
    (hother : ∀ m ∈ other, (m.map (·.2)).Pairwise Spec.Disjoint ∧
      ∀ q ∈ m, Inside W L q.2 ∧ ∃ d, (q.1, d) ∈ p.items ∧ SizedAs p.rotation d q.2)
    (hall : ∀ id ∈ placedIds sol, ∃ m ∈ other, id ∈ m.map (·.1)) :
    (sol.filter (fun c => !c.2.isEmpty)).length ≤ other.length := by
  obtain ⟨ov', h'⟩ := (C83_bin p hv hb hlow hsmall seq hs sol).1 ⟨ov, h⟩
  exact C132_columns Arith.exact p hv seq hs hb rfl w hw hone hst W L hc hsort hdiv sol ov' h' other hother hall

/-- **C132**, rows, in binary64 arithmetic, for problems of ordinary size -/
theorem C132_rows_double (p : SolveIn) (hv : ValidIn p) (seq : Option (List String)) (hs : KnownSeq p seq)
    (hlow : ∀ q ∈ p.items, ¬ LowStrip p.rotation q.2)
    (hsmall : ∀ c ∈ p.containers, 10 * ((p.items.length + 1) * (c.2.w * c.2.l)) < 2 ^ 53)
    (hb : p.strip = false) (t : Nat) (ht : 2 ≤ t)
    (hone : OneLength t p.rotation p.containers p.items (fun c => c.l)) (hst : RowOrder p.strategy)
    (W L : Nat) (hc : ∀ c ∈ p.containers, c.2 = ⟨W, L⟩) (hsort : (solvedFor p.items seq).Pairwise (fun a b => b.2.w ≤ a.2.w))
    (hdiv : ∀ q ∈ p.items, ∀ q' ∈ p.items, q.2.w ≤ q'.2.w → q.2.w ∣ q'.2.w)
    (sol : Solution) (ov : ObjVals) (h : solve Arith.double p seq = .ok (sol, ov))
    (other : List (List (String × Rect)))
    (hother : ∀ m ∈ other, (m.map (·.2)).Pairwise Spec.Disjoint ∧
      ∀ q ∈ m, Inside W L q.2 ∧ ∃ d, (q.1, d) ∈ p.items ∧ SizedAs p.rotation d q.2)
    (hall : ∀ id ∈ placedIds sol, ∃ m ∈ other, id ∈ m.map (·.1)) :
    (sol.filter (fun c => !c.2.isEmpty)).length ≤ other.length := by
  obtain ⟨ov', h'⟩ := (C83_bin p hv hb hlow hsmall seq hs sol).1 ⟨ov, h⟩
  exact C132_rows Arith.exact p hv seq hs hb rfl t ht hone hst W L hc hsort hdiv sol ov' h' other hother hall

/-- **C132**, wide items, in binary64 arithmetic, for problems of ordinary size -/
theorem C132_wide_double (p : SolveIn) (hv : ValidIn p) (seq : Option (List String)) (hs : KnownSeq p seq)
    (hlow : ∀ q ∈ p.items, ¬ LowStrip p.rotation q.2)
    (hsmall : ∀ c ∈ p.containers, 10 * ((p.items.length + 1) * (c.2.w * c.2.l)) < 2 ^ 53)
    (hb : p.strip = false) (hst : .A ∈ p.strategy ∧ .A__ ∈ p.strategy)
    (hwide : Wide p.rotation p.containers p.items) (W L : Nat) (hc : ∀ c ∈ p.containers, c.2 = ⟨W, L⟩)
    (hfit : ∀ q ∈ p.items, q.2.w ≤ W) (hsort : (solvedFor p.items seq).Pairwise (fun a b => b.2.l ≤ a.2.l))
    (hdiv : ∀ q ∈ p.items, ∀ q' ∈ p.items, q.2.l ≤ q'.2.l → q.2.l ∣ q'.2.l)
    (sol : Solution) (ov : ObjVals) (h : solve Arith.double p seq = .ok (sol, ov))
    (other : List (List (String × Rect)))
    (hother : ∀ m ∈ other, (m.map (·.2)).Pairwise Spec.Disjoint ∧
      ∀ q ∈ m, Inside W L q.2 ∧ ∃ d, (q.1, d) ∈ p.items ∧ SizedAs p.rotation d q.2)
    (hall : ∀ id ∈ placedIds sol, ∃ m ∈ other, id ∈ m.map (·.1)) :
    (sol.filter (fun c => !c.2.isEmpty)).length ≤ other.length := by
  obtain ⟨ov', h'⟩ := (C83_bin p hv hb hlow hsmall seq hs sol).1 ⟨ov, h⟩
  exact C132_wide Arith.exact p hv seq hs hb rfl hst hwide W L hc hfit hsort hdiv sol ov' h' other hother hall

/-- **C132**, long items, in binary64 arithmetic, for problems of ordinary size -/
theorem C132_long_double (p : SolveIn) (hv : ValidIn p) (seq : Option (List String)) (hs : KnownSeq p seq)
    (hlow : ∀ q ∈ p.items, ¬ LowStrip p.rotation q.2)
    (hsmall : ∀ c ∈ p.containers, 10 * ((p.items.length + 1) * (c.2.w * c.2.l)) < 2 ^ 53)
    (hb : p.strip = false) (hst : .B ∈ p.strategy ∧ .B__ ∈ p.strategy)
    (htall : Tall p.rotation (fun c => c.l) p.containers p.items) (W L : Nat) (hc : ∀ c ∈ p.containers, c.2 = ⟨W, L⟩)
    (hfit : ∀ q ∈ p.items, q.2.l ≤ L) (hsort : (solvedFor p.items seq).Pairwise (fun a b => b.2.w ≤ a.2.w))
    (hdiv : ∀ q ∈ p.items, ∀ q' ∈ p.items, q.2.w ≤ q'.2.w → q.2.w ∣ q'.2.w)
    (sol : Solution) (ov : ObjVals) (h : solve Arith.double p seq = .ok (sol, ov))
    (other : List (List (String × Rect)))
    (hother : ∀ m ∈ other, (m.map (·.2)).Pairwise Spec.Disjoint ∧
      ∀ q ∈ m, Inside W L q.2 ∧ ∃ d, (q.1, d) ∈ p.items ∧ SizedAs p.rotation d q.2)
    (hall : ∀ id ∈ placedIds sol, ∃ m ∈ other, id ∈ m.map (·.1)) :
    (sol.filter (fun c => !c.2.isEmpty)).length ≤ other.length := by
  obtain ⟨ov', h'⟩ := (C83_bin p hv hb hlow hsmall seq hs sol).1 ⟨ov, h⟩
  exact C132_long Arith.exact p hv seq hs hb rfl hst htall W L hc hfit hsort hdiv sol ov' h' other hother hall

/-- **C132** for the user: sort the items by decreasing area, then solve with the default strategy. -/
theorem C132_api (i : Inst) (A : Arith) (hr : Reach A i) (har : A = Arith.exact) (hb : i.strip = false)
    (hst : i.strategy = defaultStrategy) (w : Nat) (hw : 0 < w) (hone : OneWidth w i.rotation i.containers i.items)
    (hdiv : ∀ q ∈ i.items, ∀ q' ∈ i.items, q.2.l ≤ q'.2.l → q.2.l ∣ q'.2.l)
    (W L : Nat) (hc : ∀ c ∈ i.containers, c.2 = ⟨W, L⟩) (other : List (List (String × Rect)))
    (hother : ∀ m ∈ other, (m.map (·.2)).Pairwise Spec.Disjoint ∧
      ∀ q ∈ m, Inside W L q.2 ∧ ∃ d, (q.1, d) ∈ i.items ∧ SizedAs i.rotation d q.2)
    (hall : ∀ id ∈ i.items.map (·.1), ∃ m ∈ other, id ∈ m.map (·.1)) :
    ((HP.step A (HP.step A i (.sortItems (some (.str "area", true)))).1 (.solve none)).1.solution.filter
      (fun c => !c.2.isEmpty)).length ≤ other.length := by
  obtain ⟨sorted, h1, hperm, hsort⟩ := C50_sorted A i hr "area" (fun d => (d.w : Rat) * d.l) rfl true
  have hr' : Reach A (HP.step A i (.sortItems (some (.str "area", true)))).1 := Reach.step _ hr
  rw [h1] at hr' ⊢
  generalize hj : ({ i with items := sorted, solution := [], objVals := [] } : Inst) = j at *
  have e1 : j.items = sorted := by rw [← hj]
  have e2 : j.containers = i.containers := by rw [← hj]
  have e3 : j.rotation = i.rotation := by rw [← hj]
  have e4 : j.strip = false := by rw [← hj]; exact hb
  have e5 : j.strategy = defaultStrategy := by rw [← hj]; exact hst
  have hmem : ∀ q, q ∈ j.items ↔ q ∈ i.items := fun q => by rw [e1]; exact hperm.mem_iff
  have hone' : OneWidth w j.rotation j.containers j.items := by
    rw [e2, e3]
    intro q hq
    exact hone q ((hmem q).1 hq)
  have hv := hr'.good.valid.solveIn
  have hs : KnownSeq j.solveIn none := by intro s h; cases h
  obtain ⟨sol, ov, h⟩ := (C06_total A j.solveIn hv none).1 hs
  have key := C132_columns A j.solveIn hv none hs e4 har w hw hone'
    (by
      show ColumnOrder j.strategy
      rw [e5]
      exact ⟨[], [], _, rfl, by decide, by decide⟩) W L (by show ∀ c ∈ j.containers, _; rw [e2]; exact hc)
    (by
      show j.items.Pairwise _
      rw [e1]
      refine List.Pairwise.imp_of_mem ?_ hsort
      intro a b ha hb hab
      have wa := (hone a (hperm.mem_iff.1 ha)).1
      have wb := (hone b (hperm.mem_iff.1 hb)).1
      simp only [if_true] at hab
      have h3 : ((b.2.w : Rat) * b.2.l) ≤ (a.2.w : Rat) * a.2.l := by
        rcases hab with h | ⟨h, _⟩
        · exact le_of_lt h
        · exact le_of_eq h
      rw [wa, wb] at h3
      have h4 : w * b.2.l ≤ w * a.2.l := by exact_mod_cast h3
      exact Nat.le_of_mul_le_mul_left h4 hw)
    (fun q hq q' hq' => hdiv q ((hmem q).1 hq) q' ((hmem q').1 hq')) sol ov h other (by
    intro m hm
    obtain ⟨g1, g2⟩ := hother m hm
    refine ⟨g1, fun q hq => ?_⟩
    obtain ⟨g3, d, g4, g5⟩ := g2 q hq
    refine ⟨g3, d, (hmem _).2 g4, ?_⟩
    show SizedAs j.rotation d q.2
    rw [e3]; exact g5) (by
    intro id hid
    unfold placedIds at hid
    obtain ⟨x, hx, hi⟩ := List.mem_flatMap.1 hid
    obtain ⟨q, hq, rfl⟩ := List.mem_map.1 hi
    obtain ⟨d, hd, _⟩ := C05_sizes A j.solveIn hv none hs sol ov h x.1 x.2 hx q.1 q.2 hq
    exact hall _ (List.mem_map_of_mem (f := (·.1)) ((hmem _).1 hd)))
  simp only [HP.step, Inst.solve, h, bind, Except.bind, pure, Except.pure]
  exact key

/-! ### the hypotheses are met, and without divisibility the claim is false (decreasingMiss, wideMiss) -/

/-- lengths 8, 4, 2 and 1 in containers of length 11 -/
def divisibleDemo : SolveIn :=
  ⟨[("a", ⟨2, 11⟩), ("b", ⟨2, 11⟩), ("c", ⟨2, 11⟩)],
    [("p", ⟨1, 8⟩), ("q", ⟨1, 8⟩), ("r", ⟨1, 4⟩), ("s", ⟨1, 4⟩), ("t", ⟨1, 2⟩), ("u", ⟨1, 2⟩), ("v", ⟨1, 2⟩), ("w", ⟨1, 1⟩)],
    defaultStrategy, false, false, 0⟩

theorem divisibleDemo_run : (solve Arith.exact divisibleDemo none).toOption.map (·.1) = some
    [("a", [("p", ⟨0, 0, 1, 8⟩), ("t", ⟨0, 8, 1, 2⟩), ("w", ⟨0, 10, 1, 1⟩), ("q", ⟨1, 0, 1, 8⟩), ("u", ⟨1, 8, 1, 2⟩)]),
     ("b", [("r", ⟨0, 0, 1, 4⟩), ("s", ⟨0, 4, 1, 4⟩), ("v", ⟨0, 8, 1, 2⟩)]), ("c", [])] := by decide +kernel

example : ValidIn divisibleDemo ∧ OneWidth 1 divisibleDemo.rotation divisibleDemo.containers divisibleDemo.items ∧
    ColumnOrder divisibleDemo.strategy ∧ (∀ c ∈ divisibleDemo.containers, c.2 = ⟨2, 11⟩) ∧
    (solvedFor divisibleDemo.items none).Pairwise (fun a b => b.2.l ≤ a.2.l) ∧
    (∀ q ∈ divisibleDemo.items, ∀ q' ∈ divisibleDemo.items, q.2.l ≤ q'.2.l → q.2.l ∣ q'.2.l) := by
  refine ⟨⟨⟨by decide, by decide⟩, ⟨by decide, by decide⟩, nofun⟩, ?_, ⟨[], [], _, rfl, by decide, by decide⟩, by decide, by decide, by decide⟩
  intro q hq
  refine ⟨?_, by intro h; cases h⟩
  revert q
  decide

/-- wide items of lengths 6, 3 and 1, which divide each other -/
def divisibleWide : SolveIn :=
  ⟨[("a", ⟨5, 10⟩), ("b", ⟨5, 10⟩)], [("p", ⟨4, 6⟩), ("q", ⟨3, 6⟩), ("r", ⟨5, 3⟩), ("s", ⟨3, 3⟩), ("t", ⟨4, 1⟩)], defaultStrategy, false, false, 0⟩

theorem divisibleWide_run : (solve Arith.exact divisibleWide none).toOption.map (·.1) = some
    [("a", [("p", ⟨0, 0, 4, 6⟩), ("r", ⟨0, 6, 5, 3⟩), ("t", ⟨0, 9, 4, 1⟩)]), ("b", [("q", ⟨0, 0, 3, 6⟩), ("s", ⟨0, 6, 3, 3⟩)])] := by
  decide +kernel

example : ValidIn divisibleWide ∧ Wide divisibleWide.rotation divisibleWide.containers divisibleWide.items ∧
    (.A ∈ divisibleWide.strategy ∧ .A__ ∈ divisibleWide.strategy) ∧ (∀ c ∈ divisibleWide.containers, c.2 = ⟨5, 10⟩) ∧
    (∀ q ∈ divisibleWide.items, q.2.w ≤ 5) ∧ (solvedFor divisibleWide.items none).Pairwise (fun a b => b.2.l ≤ a.2.l) ∧
    (∀ q ∈ divisibleWide.items, ∀ q' ∈ divisibleWide.items, q.2.l ≤ q'.2.l → q.2.l ∣ q'.2.l) := by
  refine ⟨⟨⟨by decide, by decide⟩, ⟨by decide, by decide⟩, nofun⟩, ?_, by decide, by decide, by decide, by decide, by decide⟩
  intro c hc q hq
  refine ⟨?_, by intro h; cases h⟩
  revert q
  revert c
  decide

end HP
