import Verif.Props.TwiceOptimal
import Verif.Props.Items
/-
C130: items of one width or of one length, longest first: `solve` uses at most 3/2 of the optimal number of containers, rounded up.
-/
namespace HP
open Spec

/-! ### first fit decreasing -/

theorem passed_sublist (items : List (String × Dim)) : ∀ b : Bin, (passed b items).Sublist items := by
  induction items with
  | nil => intro b; simp [passed]
  | cons y qs ih =>
    intro b
    unfold passed
    split
    · exact (ih _).cons _
    · exact (ih _).cons_cons _

theorem greedy_largest : ∀ (items : List (String × Dim)) (b : Bin), b.items = [] →
    items.Pairwise (fun a b => b.2.l ≤ a.2.l) → ∀ q ∈ passed b items, b.Takes q.2 → ∃ q' ∈ greedy b items, q.2.l ≤ q'.2.l
  | [], b, _, _, q, hq, _ => by simp [passed] at hq
  | y :: qs, b, he, hs, q, hq, ht => by
    rw [List.pairwise_cons] at hs
    unfold passed at hq
    unfold greedy
    split at hq
    · rename_i hy
      rw [if_pos hy]
      refine ⟨y, by simp, hs.1 q ?_⟩
      exact (passed_sublist qs _).subset hq
    · rename_i hy
      rw [if_neg hy]
      rcases List.mem_cons.1 hq with rfl | hq
      · exact absurd ht hy
      · exact greedy_largest qs b he hs.2 q hq ht

/-- a later bin has no item that is longer than all of an earlier one -/
theorem firstFit_largest {v L : Nat} : ∀ (bins : List Bin) (items : List (String × Dim)),
    (∀ b ∈ bins, b.items = [] ∧ b.width = v ∧ b.cap = L) → (∀ q ∈ items, q.2.w ≤ v) → items.Pairwise (fun a b => b.2.l ≤ a.2.l) →
    (firstFit bins items).Pairwise (fun b b' => ∀ q ∈ b'.items, ∃ q' ∈ b.items, q.2.l ≤ q'.2.l)
  | [], items, _, _, _ => by rw [firstFit_nil]; exact .nil
  | b0 :: bs, items, he, hw, hs => by
    rw [firstFit_cons, List.pairwise_cons]
    have he' := fun b hb => he b (List.mem_cons_of_mem b0 hb)
    have hsub := passed_sublist items b0
    have hw' : ∀ q ∈ passed b0 items, q.2.w ≤ v := fun q hq => hw q (hsub.subset hq)
    refine ⟨fun b' hb' q hq => ?_, firstFit_largest bs _ he' hw' (hs.sublist hsub)⟩
    have hload := (firstFit_two he' hw').1 b' hb'
    have hqp := firstFit_from bs _ (fun b hb => (he' b hb).1) b' hb' q hq
    obtain ⟨e1, e2, e3⟩ := he b0 (by simp)
    have hql : q.2.l ≤ b'.load := by
      unfold Bin.load
      exact List.single_le_sum (fun _ _ => Nat.zero_le _) _ (List.mem_map_of_mem (f := fun q : String × Dim => q.2.l) hq)
    obtain ⟨q', h1, h2⟩ := greedy_largest items b0 e1 hs q hqp ⟨by rw [e2]; exact hw' q hqp, by
      unfold Bin.load; rw [e1, e3]; simp; omega⟩
    exact ⟨q', by simp only [e1, List.nil_append]; exact h1, h2⟩

theorem count_big {L : Nat} : ∀ (X : List (List Nat)), (∀ a ∈ X, ∃ q ∈ a, L < 2 * q) →
    X.length ≤ (X.flatten.filter (fun q => decide (L < 2 * q))).length
  | [], _ => by simp
  | a :: X, h => by
    have ih := count_big X (fun b hb => h b (List.mem_cons_of_mem _ hb))
    obtain ⟨q, h1, h2⟩ := h a (by simp)
    have : 0 < (a.filter (fun q => decide (L < 2 * q))).length := List.length_pos_of_mem (List.mem_filter.2 ⟨h1, by simpa using h2⟩)
    rw [List.flatten_cons, List.filter_append, List.length_append, List.length_cons]
    omega

theorem two_each {L : Nat} : ∀ (Z : List (List Nat)), (∀ b ∈ Z, b ≠ []) → (∀ b ∈ Z, ∀ q ∈ b, 2 * q ≤ L) →
    Z.Pairwise (fun a b => ∀ q ∈ b, L < a.sum + q) → 2 * Z.length ≤ Z.flatten.length + 1
  | [], _, _, _ => by simp
  | [z], h, _, _ => by
    have := List.length_pos_iff.2 (h z (by simp))
    simp; omega
  | z :: z' :: Z, h, hs, hp => by
    rw [List.pairwise_cons] at hp
    have ih := two_each (z' :: Z) (fun b hb => h b (List.mem_cons_of_mem _ hb)) (fun b hb => hs b (List.mem_cons_of_mem _ hb)) hp.2
    obtain ⟨q, hq⟩ := List.exists_mem_of_ne_nil _ (h z' (by simp))
    have h1 := hp.1 z' (by simp) q hq
    have h2 := hs z' (by simp) q hq
    have hz : 2 ≤ z.length := by
      match z, h z (by simp), hs z (by simp), h1 with
      | [], h0, _, _ => exact absurd rfl h0
      | [a], _, h3, h1 =>
        have := h3 a (by simp)
        simp at h1
        omega
      | _ :: _ :: _, _, _, _ => simp
    rw [List.flatten_cons, List.length_append, List.length_cons]
    omega

theorem pair_off {L : Nat} : ∀ (X : List (List Nat)) (Q : List Nat), X.length ≤ Q.length → (∀ x ∈ X, ∀ q ∈ Q, L < x.sum + q) →
    X.length * (L + 1) ≤ (X.map List.sum).sum + Q.sum
  | [], Q, _, _ => by simp
  | x :: X, [], h, _ => by simp at h
  | x :: X, q :: Q, h, hl => by
    have ih := pair_off X Q (by simpa using h) (fun y hy r hr => hl y (List.mem_cons_of_mem _ hy) r (List.mem_cons_of_mem _ hr))
    have := hl x (by simp) q (by simp)
    simp only [List.length_cons, List.map_cons, List.sum_cons, Nat.add_mul]
    omega

/-- bins filled by first fit decreasing: if their items go into `m` bins, at least as far as the sum of the lengths and the
number of items of more than half a bin tell, then at most `3 / 2 * m` are used -/
theorem ffd_core {L m : Nat} (U : List (List Nat)) (hpos : ∀ b ∈ U, ∀ q ∈ b, 0 < q) (hne : ∀ b ∈ U, b ≠ [])
    (h1 : U.Pairwise (fun a b => ∀ q ∈ b, L < a.sum + q)) (h2 : U.Pairwise (fun a b => ∀ q ∈ b, ∃ q' ∈ a, q ≤ q'))
    (hT : (U.map List.sum).sum ≤ m * L) (hG : (U.flatten.filter (fun q => decide (L < 2 * q))).length ≤ m) :
    2 * U.length ≤ 3 * m := by
  by_contra hcon
  have hm : m < U.length := by omega
  obtain ⟨X, b, Y, rfl, hX⟩ : ∃ X b Y, U = X ++ b :: Y ∧ X.length = m := by
    refine ⟨U.take m, U[m], U.drop (m + 1), ?_, by simp; omega⟩
    rw [← List.drop_eq_getElem_cons hm, List.take_append_drop]
  rw [List.pairwise_append] at h1 h2
  obtain ⟨_, a2, a3⟩ := h1
  obtain ⟨_, b2, b3⟩ := h2
  by_cases hbig : ∃ q ∈ b, L < 2 * q
  · have hall : ∀ a ∈ X ++ [b], ∃ q ∈ a, L < 2 * q := by
      intro a ha
      rcases List.mem_append.1 ha with ha | ha
      · obtain ⟨q, hq, hqL⟩ := hbig
        obtain ⟨q', h1, h2⟩ := b3 a ha b (by simp) q hq
        exact ⟨q', h1, by omega⟩
      · rw [List.mem_singleton.1 ha]; exact hbig
    have := count_big (X ++ [b]) hall
    have hsub : ((X ++ [b]).flatten.filter (fun q => decide (L < 2 * q))).length ≤
        ((X ++ b :: Y).flatten.filter (fun q => decide (L < 2 * q))).length := by
      apply List.Sublist.length_le
      apply List.Sublist.filter
      simp
    simp only [List.length_append, List.length_singleton] at this
    omega
  · push Not at hbig
    have hsmall : ∀ a ∈ b :: Y, ∀ q ∈ a, 2 * q ≤ L := by
      intro a ha q hq
      rcases List.mem_cons.1 ha with rfl | ha
      · exact hbig q hq
      · obtain ⟨q', h1, h2⟩ := (List.pairwise_cons.1 b2).1 a ha q hq
        have := hbig q' h1
        omega
    have hcount := two_each (b :: Y) (fun a ha => hne a (List.mem_append_right _ ha)) hsmall a2
    have hlen : X.length ≤ (b :: Y).flatten.length := by
      simp only [List.length_append, List.length_cons] at hcon hcount ⊢
      omega
    have hp := pair_off X (b :: Y).flatten hlen (by
      intro x hx q hq
      obtain ⟨a, ha, hqa⟩ := List.mem_flatten.1 hq
      exact a3 x hx a ha q hqa)
    have e := List.sum_flatten (l := b :: Y)
    rw [List.map_append, List.sum_append] at hT
    rw [hX] at hp
    rcases Nat.eq_zero_or_pos m with h0 | h0
    · subst h0
      obtain ⟨q, hq⟩ := List.exists_mem_of_ne_nil _ (hne b (by simp))
      have := hpos b (by simp) q hq
      have : q ≤ (b :: Y).flatten.sum := List.single_le_sum (fun _ _ => Nat.zero_le _) _ (List.mem_flatten.2 ⟨b, by simp, hq⟩)
      omega
    · rw [Nat.mul_add] at hp
      omega

/-- rectangles of width `w` without overlaps in a container: at most one in each column is longer than half of it -/
theorem big_columns {w W L : Nat} (hw : 0 < w) (m : List Rect) (hd : m.Pairwise Spec.Disjoint)
    (hin : ∀ r ∈ m, Inside W L r ∧ r.w = w) : (m.map (fun r => if L < 2 * r.l then 1 else 0)).sum ≤ W / w := by
  have key := lengths_columns (W := W) (L := 1) hw ((m.filter (fun r => decide (L < 2 * r.l))).map (fun r => (⟨r.x, 0, r.w, 1⟩ : Rect)))
    (by
      rw [List.pairwise_map]
      refine List.Pairwise.imp_of_mem ?_ (hd.sublist List.filter_sublist)
      intro r s hr hs hrs x y ⟨⟨h1, h2, h3, h4⟩, ⟨h5, h6, h7, h8⟩⟩
      rw [List.mem_filter] at hr hs
      obtain ⟨⟨_, a⟩, _⟩ := hin r hr.1
      obtain ⟨⟨_, b⟩, _⟩ := hin s hs.1
      have hr2 := of_decide_eq_true hr.2
      have hs2 := of_decide_eq_true hs.2
      simp only at h1 h2 h5 h6
      exact hrs x (L / 2) ⟨⟨h1, h2, by omega, by omega⟩, ⟨h5, h6, by omega, by omega⟩⟩)
    (by
      intro r hr
      obtain ⟨r', hr', rfl⟩ := List.mem_map.1 hr
      rw [List.mem_filter] at hr'
      obtain ⟨⟨a, _⟩, b⟩ := hin r' hr'.1
      exact ⟨⟨a, by simp⟩, b⟩)
  rw [List.map_map] at key
  refine le_trans (le_of_eq ?_) (le_trans key (by simp))
  clear key hd hin
  induction m with
  | nil => rfl
  | cons r m ih =>
    rw [List.map_cons, List.sum_cons, ih, List.filter_cons]
    by_cases h : L < 2 * r.l
    · simp [h]
    · simp [h]

theorem big_rows {t W L : Nat} (ht : 0 < t) (m : List Rect) (hd : m.Pairwise Spec.Disjoint)
    (hin : ∀ r ∈ m, Inside W L r ∧ r.l = t) : (m.map (fun r => if W < 2 * r.w then 1 else 0)).sum ≤ L / t := by
  have := big_columns (W := L) (L := W) ht (m.map (fun r => (⟨r.y, r.x, r.l, r.w⟩ : Rect))) (by
    rw [List.pairwise_map]
    refine hd.imp ?_
    intro a b hab x y ⟨⟨h1, h2, h3, h4⟩, ⟨h5, h6, h7, h8⟩⟩
    exact hab y x ⟨⟨h3, h4, h1, h2⟩, ⟨h7, h8, h5, h6⟩⟩) (by
    intro r hr
    obtain ⟨r', hr', rfl⟩ := List.mem_map.1 hr
    obtain ⟨⟨h1, h2⟩, h3⟩ := hin r' hr'
    exact ⟨⟨h2, h1⟩, h3⟩)
  simpa [Function.comp_def] using this

theorem count_sum {α : Type} (P : α → Prop) [DecidablePred P] : ∀ l : List α,
    (l.filter (fun a => decide (P a))).length = (l.map (fun a => if P a then 1 else 0)).sum
  | [] => rfl
  | a :: l => by
    have ih := count_sum P l
    rw [List.filter_cons, List.map_cons, List.sum_cons, ← ih]
    by_cases h : P a
    · simp [h]; omega
    · simp [h]

/-- the bins that are used, compared with a competing packing -/
theorem decreasing_bins {A : Arith} {p : SolveIn} (hv : ValidIn p) {seq : Option (List String)} (hs : KnownSeq p seq)
    {sol : Solution} {ov : ObjVals} (h : solve A p seq = .ok (sol, ov)) {n C : Nat} {size : Dim → Nat} {cols : List (String × List Bin)}
    {place : List Bin → List (String × Rect)} (hplace : ∀ bins, (place bins).map (·.1) = (bins.flatMap (·.items)).map (·.1))
    (hsol : sol = cols.map (fun c => (c.1, place c.2)))
    (hpair : (cols.flatMap (·.2)).Pairwise (fun b b' => ∀ q ∈ b'.items, C < b.load + q.2.l))
    (hlargest : (cols.flatMap (·.2)).Pairwise (fun b b' => ∀ q ∈ b'.items, ∃ q' ∈ b.items, q.2.l ≤ q'.2.l))
    (hsize : ∀ b ∈ cols.flatMap (·.2), ∀ q ∈ b.items, 0 < q.2.l ∧ ∃ d, (q.1, d) ∈ p.items ∧ size d = q.2.l)
    (other : List (List (String × Rect)))
    (hother : ∀ m ∈ other, ∃ f : Rect → Nat, (∀ q ∈ m, ∃ d, (q.1, d) ∈ p.items ∧ size d = f q.2) ∧
      (m.map (fun q => f q.2)).sum ≤ n * C ∧ (m.map (fun q => if C < 2 * f q.2 then 1 else 0)).sum ≤ n)
    (hall : ∀ id ∈ placedIds sol, ∃ m ∈ other, id ∈ m.map (·.1)) :
    2 * ((cols.flatMap (·.2)).filter (fun b => !b.items.isEmpty)).length ≤ 3 * (other.length * n) := by
  generalize hlen : (fun id : String => ((PyDict.find? p.items id).map size).getD 0) = len
  have hlen' : ∀ id d, (id, d) ∈ p.items → len id = size d := by
    intro id d hd
    rw [← hlen]
    simp only [PyDict.find?_of_mem hv.items.1 hd, Option.map_some, Option.getD_some]
  obtain ⟨_, _, hnd, _⟩ := C04_once A p hv seq hs sol ov h
  have hids : placedIds sol = ((cols.flatMap (·.2)).flatMap (·.items)).map (·.1) := by
    rw [hsol]
    unfold placedIds
    rw [List.flatMap_assoc, List.flatMap_map, List.map_flatMap]
    congr 1
    funext c
    exact hplace c.2
  have hlq : ∀ b ∈ cols.flatMap (·.2), ∀ q ∈ b.items, len q.1 = q.2.l := by
    intro b hb q hq
    obtain ⟨_, d, h1, h2⟩ := hsize b hb q hq
    rw [hlen' _ _ h1, h2]
  have htotal := bins_total len (cols.flatMap (·.2)) hlq
  rw [← hids] at htotal
  have hcov := covered_sum (len := len) hnd (other := other) (B := n * C) (by
    intro m hm
    obtain ⟨f, h1, h2, _⟩ := hother m hm
    refine le_trans (le_of_eq ?_) h2
    rw [List.map_map]
    congr 1
    refine List.map_congr_left fun q hq => ?_
    obtain ⟨d, h3, h4⟩ := h1 q hq
    simp only [Function.comp]
    rw [hlen' _ _ h3, h4]) hall
  have hbig := covered_sum (len := fun id => if C < 2 * len id then 1 else 0) hnd (other := other) (B := n) (by
    intro m hm
    obtain ⟨f, h1, _, h2⟩ := hother m hm
    refine le_trans (le_of_eq ?_) h2
    rw [List.map_map]
    congr 1
    refine List.map_congr_left fun q hq => ?_
    obtain ⟨d, h3, h4⟩ := h1 q hq
    simp only [Function.comp]
    rw [hlen' _ _ h3, h4]) hall
  -- the bins that are used
  generalize hU : (cols.flatMap (·.2)).filter (fun b => !b.items.isEmpty) = U at *
  have hUsub : U.Sublist (cols.flatMap (·.2)) := by rw [← hU]; exact List.filter_sublist
  have hUne : ∀ b ∈ U, b.items ≠ [] := by
    intro b hb h0
    rw [← hU, List.mem_filter] at hb
    rw [h0] at hb
    simp at hb
  have key := ffd_core (L := C) (m := other.length * n) (U.map (fun b => b.items.map (fun q => q.2.l)))
    (by
      intro l hl x hx
      obtain ⟨b, hb, rfl⟩ := List.mem_map.1 hl
      obtain ⟨q, hq, rfl⟩ := List.mem_map.1 hx
      exact (hsize b (hUsub.subset hb) q hq).1)
    (by
      intro l hl
      obtain ⟨b, hb, rfl⟩ := List.mem_map.1 hl
      simpa using hUne b hb)
    (by
      rw [List.pairwise_map]
      refine (hpair.sublist hUsub).imp ?_
      intro a b hab x hx
      obtain ⟨q, hq, rfl⟩ := List.mem_map.1 hx
      exact hab q hq)
    (by
      rw [List.pairwise_map]
      refine (hlargest.sublist hUsub).imp ?_
      intro a b hab x hx
      obtain ⟨q, hq, rfl⟩ := List.mem_map.1 hx
      obtain ⟨q', h1, h2⟩ := hab q hq
      exact ⟨_, List.mem_map_of_mem (f := fun q : String × Dim => q.2.l) h1, h2⟩)
    (by
      rw [List.map_map, Nat.mul_assoc, ← Nat.mul_comm C, Nat.mul_comm C]
      refine le_trans ?_ hcov
      rw [← htotal]
      exact (hUsub.map _).sum_le_sum (fun _ _ => Nat.zero_le _))
    (by
      rw [count_sum (fun q => C < 2 * q)]
      refine le_trans ?_ hbig
      rw [hids, List.map_map]
      have e : (U.map (fun b => b.items.map (fun q => q.2.l))).flatten = (U.flatMap (·.items)).map (fun q => q.2.l) := by
        rw [List.map_flatMap, List.flatMap_def]
      rw [e, List.map_map]
      have hs : (U.flatMap (·.items)).Sublist ((cols.flatMap (·.2)).flatMap (·.items)) := by

        exact List.Sublist.flatMap hUsub _
      refine le_trans ((hs.map _).sum_le_sum (fun _ _ => Nat.zero_le _)) (le_of_eq ?_)
      congr 1
      refine List.map_congr_left fun q hq => ?_
      obtain ⟨b, hb, hqb⟩ := List.mem_flatMap.1 hq
      simp only [Function.comp]
      rw [hlq b hb q hqb])
  rw [List.length_map] at key
  exact key

/-- the part that is common to columns and rows -/
theorem decreasing_core {A : Arith} {p : SolveIn} (hv : ValidIn p) {seq : Option (List String)} (hs : KnownSeq p seq)
    {sol : Solution} {ov : ObjVals} (h : solve A p seq = .ok (sol, ov)) {n C : Nat} {size : Dim → Nat} {cols : List (String × List Bin)}
    {place : List Bin → List (String × Rect)} (hplace : ∀ bins, (place bins).map (·.1) = (bins.flatMap (·.items)).map (·.1))
    (hsol : sol = cols.map (fun c => (c.1, place c.2))) (hn : ∀ x ∈ cols, x.2.length = n)
    (hload : ∀ b ∈ cols.flatMap (·.2), b.load ≤ C)
    (hpair : (cols.flatMap (·.2)).Pairwise (fun b b' => ∀ q ∈ b'.items, C < b.load + q.2.l))
    (hlargest : (cols.flatMap (·.2)).Pairwise (fun b b' => ∀ q ∈ b'.items, ∃ q' ∈ b.items, q.2.l ≤ q'.2.l))
    (hsize : ∀ b ∈ cols.flatMap (·.2), ∀ q ∈ b.items, 0 < q.2.l ∧ ∃ d, (q.1, d) ∈ p.items ∧ size d = q.2.l)
    (other : List (List (String × Rect)))
    (hother : ∀ m ∈ other, ∃ f : Rect → Nat, (∀ q ∈ m, ∃ d, (q.1, d) ∈ p.items ∧ size d = f q.2) ∧
      (m.map (fun q => f q.2)).sum ≤ n * C ∧ (m.map (fun q => if C < 2 * f q.2 then 1 else 0)).sum ≤ n)
    (hall : ∀ id ∈ placedIds sol, ∃ m ∈ other, id ∈ m.map (·.1)) :
    2 * (sol.filter (fun c => !c.2.isEmpty)).length ≤ 3 * other.length + 1 := by
  have key := decreasing_bins hv hs h hplace hsol hpair hlargest hsize other hother hall
  have hp2 : (cols.flatMap (·.2)).Pairwise (fun b b' => b'.items ≠ [] → C < b.load + b'.load) := by
    refine hpair.imp ?_
    intro a b hab hne
    obtain ⟨q, hq⟩ := List.exists_mem_of_ne_nil _ hne
    have h1 := hab q hq
    have h2 : q.2.l ≤ b.load := by
      unfold Bin.load
      exact List.single_le_sum (fun _ _ => Nat.zero_le _) _ (List.mem_map_of_mem (f := fun q : String × Dim => q.2.l) hq)
    omega
  have hused := groups_used cols hn hload hp2
  have hK : (sol.filter (fun c => !c.2.isEmpty)).length = (cols.filter (fun x => x.2.any (fun b => !b.items.isEmpty))).length := by
    rw [hsol, List.filter_map, List.length_map]
    congr 1
    refine List.filter_congr fun x _ => ?_
    exact isEmpty_of_ids (hplace x.2)
  rw [hK]
  generalize (cols.filter (fun x => x.2.any (fun b => !b.items.isEmpty))).length = K at hused ⊢
  rcases hused with h0 | h0
  · omega
  · by_contra hcon
    have h1 : 3 * other.length ≤ 2 * (K - 1) := by omega
    have h2 := Nat.mul_le_mul_right n h1
    rw [Nat.mul_assoc, Nat.mul_assoc] at h2
    omega

theorem firstFit_each {v L : Nat} {bins : List Bin} {items : List (String × Dim)}
    (hb : ∀ b ∈ bins, b.items = [] ∧ b.width = v ∧ b.cap = L) (hi : ∀ q ∈ items, q.2.w ≤ v) :
    (firstFit bins items).Pairwise (fun b b' => ∀ q ∈ b'.items, L < b.load + q.2.l) := by
  have he : ∀ b ∈ bins, b.items = [] := fun b h => (hb b h).1
  refine List.Pairwise.imp_of_mem ?_ (firstFit_pairwise bins items he)
  intro a b ha hb' hab q hq
  obtain ⟨a0, ha0, _, hw, hcap⟩ := firstFit_shape _ _ a ha
  obtain ⟨_, h2, h3⟩ := hb a0 ha0
  have h4 := hab q hq
  have h5 := hi q (firstFit_from bins _ he b hb' q hq)
  unfold Bin.Takes at h4
  rw [hw, hcap, h2, h3] at h4
  have h6 : ¬ (a.load + q.2.l ≤ L) := fun h => h4 ⟨h5, h⟩
  omega

/-- **C130**, columns: with bins of one size, items of one width and A before B before B'' in the strategy, longest first,
twice the number of containers `solve` uses is at most three times that of any packing without overlaps of (at least) the
placed items into containers of this size, plus one. -/
theorem C130_columns (A : Arith) (p : SolveIn) (hv : ValidIn p) (seq : Option (List String)) (hs : KnownSeq p seq)
    (hb : p.strip = false) (har : A = Arith.exact) (w : Nat) (hw : 0 < w)
    (hone : OneWidth w p.rotation p.containers p.items) (hst : ColumnOrder p.strategy)
    (W L : Nat) (hc : ∀ c ∈ p.containers, c.2 = ⟨W, L⟩) (hsort : (solvedFor p.items seq).Pairwise (fun a b => b.2.l ≤ a.2.l))
    (sol : Solution) (ov : ObjVals) (h : solve A p seq = .ok (sol, ov))
    (other : List (List (String × Rect)))
    (hother : ∀ m ∈ other, (m.map (·.2)).Pairwise Spec.Disjoint ∧
      ∀ q ∈ m, Inside W L q.2 ∧ ∃ d, (q.1, d) ∈ p.items ∧ SizedAs p.rotation d q.2)
    (hall : ∀ id ∈ placedIds sol, ∃ m ∈ other, id ∈ m.map (·.1)) :
    2 * (sol.filter (fun c => !c.2.isEmpty)).length ≤ 3 * other.length + 1 := by
  by_cases hne : p.containers = []
  · have hck := (C04_once A p hv seq hs sol ov h).1
    rw [hne] at hck
    have : sol = [] := by simpa using hck
    rw [this]; simp
  obtain ⟨cols, rem, h1, h2, h3, h4, _⟩ := columns_facts hv hs hw hone h (.inr har) hst
  simp only [hb, Bool.false_eq_true, if_false] at h2
  have hb1 : ∀ b ∈ columnsOf w p.containers (fun c => c.l), b.items = [] ∧ b.width = w ∧ b.cap = L := by
    intro b hb
    obtain ⟨c, hcm, hbc⟩ := List.mem_flatMap.1 hb
    obtain ⟨_, rfl⟩ := List.mem_replicate.1 hbc
    have := hc c hcm
    refine ⟨rfl, rfl, ?_⟩
    simp only [this]
  have hi1 : ∀ q ∈ solvedFor p.items seq, q.2.w ≤ w := fun q hq => le_of_eq (hone _ (solvedFor_mem _ hq)).1
  have hfrom := (firstFit_two hb1 hi1).1
  have heach := firstFit_each hb1 hi1
  have hlarge := firstFit_largest _ _ hb1 hi1 hsort
  rw [← h2] at hfrom heach hlarge
  refine decreasing_core hv hs h (n := W / w) (C := L) (size := Dim.l) (standing_ids w · 0) h3 ?_ hfrom heach hlarge ?_ other ?_ hall
  · intro x hx
    have : (x.1, x.2.length) ∈ p.containers.map (fun c => (c.1, c.2.w / w)) := by
      rw [← h1]; exact List.mem_map_of_mem (f := fun c : String × List Bin => (c.1, c.2.length)) hx
    obtain ⟨y, hy, he⟩ := List.mem_map.1 this
    injection he with f1 f2
    rw [← f2, hc y hy]
  · intro b hb q hq
    have hm := solvedFor_mem _ (h4.subset (List.mem_append_left _ (List.mem_flatMap.2 ⟨b, hb, hq⟩)))
    exact ⟨(hv.items.2 _ hm).2, q.2, hm, rfl⟩
  · intro m hm
    obtain ⟨ho1, ho2⟩ := hother m hm
    have hsz : ∀ q ∈ m, (Inside W L q.2 ∧ q.2.w = w) ∧ ∃ d, (q.1, d) ∈ p.items ∧ d.l = q.2.l := by
      intro q hq
      obtain ⟨hin, d, hd, hsz⟩ := ho2 q hq
      obtain ⟨e1, e2⟩ := hone _ hd
      simp only at e1 e2
      rcases hsz with ⟨g1, g2⟩ | ⟨hr, g1, g2⟩
      · exact ⟨⟨hin, by rw [g1, e1]⟩, d, hd, g2.symm⟩
      · rcases e2 hr with e3 | e3
        · exact ⟨⟨hin, by rw [g1, e3]⟩, d, hd, by rw [g2, e1, e3]⟩
        · exfalso
          obtain ⟨c, hcm⟩ := List.exists_mem_of_ne_nil _ hne
          have h7 := e3 c hcm
          rw [hc c hcm] at h7
          have := hin.1
          simp only at h7
          omega
    refine ⟨Rect.l, fun q hq => (hsz q hq).2, ?_⟩
    have k1 := lengths_columns (W := W) (L := L) hw (m.map (·.2)) ho1 (by
      intro r hr
      obtain ⟨q, hq, rfl⟩ := List.mem_map.1 hr
      exact (hsz q hq).1)
    have k2 := big_columns (W := W) (L := L) hw (m.map (·.2)) ho1 (by
      intro r hr
      obtain ⟨q, hq, rfl⟩ := List.mem_map.1 hr
      exact (hsz q hq).1)
    exact ⟨by simpa [Function.comp_def] using k1, by simpa [Function.comp_def] using k2⟩

/-- **C130**, rows: with bins of one size, items of one length of at least two and B before A before A'' in the strategy,
widest first, the same holds. -/
theorem C130_rows (A : Arith) (p : SolveIn) (hv : ValidIn p) (seq : Option (List String)) (hs : KnownSeq p seq)
    (hb : p.strip = false) (har : A = Arith.exact) (t : Nat) (ht : 2 ≤ t)
    (hone : OneLength t p.rotation p.containers p.items (fun c => c.l)) (hst : RowOrder p.strategy)
    (W L : Nat) (hc : ∀ c ∈ p.containers, c.2 = ⟨W, L⟩) (hsort : (solvedFor p.items seq).Pairwise (fun a b => b.2.w ≤ a.2.w))
    (sol : Solution) (ov : ObjVals) (h : solve A p seq = .ok (sol, ov))
    (other : List (List (String × Rect)))
    (hother : ∀ m ∈ other, (m.map (·.2)).Pairwise Spec.Disjoint ∧
      ∀ q ∈ m, Inside W L q.2 ∧ ∃ d, (q.1, d) ∈ p.items ∧ SizedAs p.rotation d q.2)
    (hall : ∀ id ∈ placedIds sol, ∃ m ∈ other, id ∈ m.map (·.1)) :
    2 * (sol.filter (fun c => !c.2.isEmpty)).length ≤ 3 * other.length + 1 := by
  by_cases hne : p.containers = []
  · have hck := (C04_once A p hv seq hs sol ov h).1
    rw [hne] at hck
    have : sol = [] := by simpa using hck
    rw [this]; simp
  obtain ⟨rows, rem, h1, h2, h3, h4, _⟩ := rows_facts hv hs ht
    (by simpa only [hb, Bool.false_eq_true, if_false] using hone) h (.inr har) hst
  simp only [hb, Bool.false_eq_true, if_false] at h1 h2
  have hb1 : ∀ b ∈ shelfRows t p.containers (fun c => c.l), b.items = [] ∧ b.width = t ∧ b.cap = W := by
    intro b hb
    obtain ⟨c, hcm, hbc⟩ := List.mem_flatMap.1 hb
    obtain ⟨_, rfl⟩ := List.mem_replicate.1 hbc
    have := hc c hcm
    refine ⟨rfl, rfl, ?_⟩
    simp only [this]
  have hi1 : ∀ q ∈ turnedItems (solvedFor p.items seq), q.2.w ≤ t := by
    intro q hq
    obtain ⟨q', hq', rfl⟩ := List.mem_map.1 hq
    exact le_of_eq (hone _ (solvedFor_mem _ hq')).1
  have hfrom := (firstFit_two hb1 hi1).1
  have heach := firstFit_each hb1 hi1
  have hlarge := firstFit_largest _ _ hb1 hi1 (by
    unfold turnedItems
    rw [List.pairwise_map]
    exact hsort)
  rw [← h2] at hfrom heach hlarge
  refine decreasing_core hv hs h (n := L / t) (C := W) (size := Dim.w) (shelves_ids t · 0) h3 ?_ hfrom heach hlarge ?_ other ?_ hall
  · intro x hx
    have : (x.1, x.2.length) ∈ p.containers.map (fun c => (c.1, c.2.l / t)) := by
      rw [← h1]; exact List.mem_map_of_mem (f := fun c : String × List Bin => (c.1, c.2.length)) hx
    obtain ⟨y, hy, he⟩ := List.mem_map.1 this
    injection he with f1 f2
    rw [← f2, hc y hy]
  · intro b hb q hq
    obtain ⟨q', hq', rfl⟩ := List.mem_map.1 (h4.subset (List.mem_append_left _ (List.mem_flatMap.2 ⟨b, hb, hq⟩)))
    exact ⟨(hv.items.2 _ (solvedFor_mem _ hq')).1, q'.2, solvedFor_mem _ hq', rfl⟩
  · intro m hm
    obtain ⟨ho1, ho2⟩ := hother m hm
    have hsz : ∀ q ∈ m, (Inside W L q.2 ∧ q.2.l = t) ∧ ∃ d, (q.1, d) ∈ p.items ∧ d.w = q.2.w := by
      intro q hq
      obtain ⟨hin, d, hd, hsz⟩ := ho2 q hq
      obtain ⟨e1, e2⟩ := hone _ hd
      simp only at e1 e2
      rcases hsz with ⟨g1, g2⟩ | ⟨hr, g1, g2⟩
      · exact ⟨⟨hin, by rw [g2, e1]⟩, d, hd, g1.symm⟩
      · rcases e2 hr with e3 | e3
        · exact ⟨⟨hin, by rw [g2, e3]⟩, d, hd, by rw [g1, e1, e3]⟩
        · exfalso
          obtain ⟨c, hcm⟩ := List.exists_mem_of_ne_nil _ hne
          have h7 := e3 c hcm
          rw [hc c hcm] at h7
          have := hin.2
          simp only at h7
          omega
    refine ⟨Rect.w, fun q hq => (hsz q hq).2, ?_⟩
    have k1 := widths_rows (W := W) (L := L) (show 0 < t by omega) (m.map (·.2)) ho1 (by
      intro r hr
      obtain ⟨q, hq, rfl⟩ := List.mem_map.1 hr
      exact (hsz q hq).1)
    have k2 := big_rows (W := W) (L := L) (show 0 < t by omega) (m.map (·.2)) ho1 (by
      intro r hr
      obtain ⟨q, hq, rfl⟩ := List.mem_map.1 hr
      exact (hsz q hq).1)
    exact ⟨by simpa [Function.comp_def] using k1, by simpa [Function.comp_def] using k2⟩

/-- **C130**, columns, in binary64 arithmetic, for problems of ordinary size -/
theorem C130_double (p : SolveIn) (hv : ValidIn p) (seq : Option (List String)) (hs : KnownSeq p seq)
    (hlow : ∀ q ∈ p.items, ¬ LowStrip p.rotation q.2)
    (hsmall : ∀ c ∈ p.containers, 10 * ((p.items.length + 1) * (c.2.w * c.2.l)) < 2 ^ 53)
    (hb : p.strip = false) (w : Nat) (hw : 0 < w)
    (hone : OneWidth w p.rotation p.containers p.items) (hst : ColumnOrder p.strategy)
    (W L : Nat) (hc : ∀ c ∈ p.containers, c.2 = ⟨W, L⟩) (hsort : (solvedFor p.items seq).Pairwise (fun a b => b.2.l ≤ a.2.l))
    (sol : Solution) (ov : ObjVals) (h : solve Arith.double p seq = .ok (sol, ov))
    (other : List (List (String × Rect)))
    (hother : ∀ m ∈ other, (m.map (·.2)).Pairwise Spec.Disjoint ∧
      ∀ q ∈ m, Inside W L q.2 ∧ ∃ d, (q.1, d) ∈ p.items ∧ SizedAs p.rotation d q.2)
    (hall : ∀ id ∈ placedIds sol, ∃ m ∈ other, id ∈ m.map (·.1)) :
    2 * (sol.filter (fun c => !c.2.isEmpty)).length ≤ 3 * other.length + 1 := by
  obtain ⟨ov', h'⟩ := (C83_bin p hv hb hlow hsmall seq hs sol).1 ⟨ov, h⟩
  exact C130_columns Arith.exact p hv seq hs hb rfl w hw hone hst W L hc hsort sol ov' h' other hother hall

/-- **C130**, rows, in binary64 arithmetic, for problems of ordinary size -/
theorem C130_rows_double (p : SolveIn) (hv : ValidIn p) (seq : Option (List String)) (hs : KnownSeq p seq)
    (hlow : ∀ q ∈ p.items, ¬ LowStrip p.rotation q.2)
    (hsmall : ∀ c ∈ p.containers, 10 * ((p.items.length + 1) * (c.2.w * c.2.l)) < 2 ^ 53)
    (hb : p.strip = false) (t : Nat) (ht : 2 ≤ t)
    (hone : OneLength t p.rotation p.containers p.items (fun c => c.l)) (hst : RowOrder p.strategy)
    (W L : Nat) (hc : ∀ c ∈ p.containers, c.2 = ⟨W, L⟩) (hsort : (solvedFor p.items seq).Pairwise (fun a b => b.2.w ≤ a.2.w))
    (sol : Solution) (ov : ObjVals) (h : solve Arith.double p seq = .ok (sol, ov))
    (other : List (List (String × Rect)))
    (hother : ∀ m ∈ other, (m.map (·.2)).Pairwise Spec.Disjoint ∧
      ∀ q ∈ m, Inside W L q.2 ∧ ∃ d, (q.1, d) ∈ p.items ∧ SizedAs p.rotation d q.2)
    (hall : ∀ id ∈ placedIds sol, ∃ m ∈ other, id ∈ m.map (·.1)) :
    2 * (sol.filter (fun c => !c.2.isEmpty)).length ≤ 3 * other.length + 1 := by
  obtain ⟨ov', h'⟩ := (C83_bin p hv hb hlow hsmall seq hs sol).1 ⟨ov, h⟩
  exact C130_rows Arith.exact p hv seq hs hb rfl t ht hone hst W L hc hsort sol ov' h' other hother hall

/-- **C130** for the user: sort the items by decreasing area, then solve with the default strategy. -/
theorem C130_api (i : Inst) (A : Arith) (hr : Reach A i) (har : A = Arith.exact) (hb : i.strip = false)
    (hst : i.strategy = defaultStrategy) (w : Nat) (hw : 0 < w) (hone : OneWidth w i.rotation i.containers i.items)
    (W L : Nat) (hc : ∀ c ∈ i.containers, c.2 = ⟨W, L⟩) (other : List (List (String × Rect)))
    (hother : ∀ m ∈ other, (m.map (·.2)).Pairwise Spec.Disjoint ∧
      ∀ q ∈ m, Inside W L q.2 ∧ ∃ d, (q.1, d) ∈ i.items ∧ SizedAs i.rotation d q.2)
    (hall : ∀ id ∈ i.items.map (·.1), ∃ m ∈ other, id ∈ m.map (·.1)) :
    2 * ((HP.step A (HP.step A i (.sortItems (some (.str "area", true)))).1 (.solve none)).1.solution.filter
      (fun c => !c.2.isEmpty)).length ≤ 3 * other.length + 1 := by
  obtain ⟨sorted, h1, hperm, hsort⟩ := C50_sorted A i hr "area" (fun d => (d.w : Rat) * d.l) rfl true
  have hr' : Reach A (HP.step A i (.sortItems (some (.str "area", true)))).1 := Reach.step _ hr
  rw [h1] at hr' ⊢
  generalize hj : ({ i with items := sorted, solution := [], objVals := [] } : Inst) = j at *
  have e1 : j.items = sorted := by rw [← hj]
  have e2 : j.containers = i.containers := by rw [← hj]
  have e3 : j.rotation = i.rotation := by rw [← hj]
  have e4 : j.strip = false := by rw [← hj]; exact hb
  have e5 : j.strategy = defaultStrategy := by rw [← hj]; exact hst
  have hmem : ∀ q, q ∈ j.items ↔ q ∈ i.items := fun q => by rw [e1]; exact hperm.mem_iff
  have hone' : OneWidth w j.rotation j.containers j.items := by
    rw [e2, e3]
    intro q hq
    exact hone q ((hmem q).1 hq)
  have hv := hr'.good.valid.solveIn
  have hs : KnownSeq j.solveIn none := by intro s h; cases h
  obtain ⟨sol, ov, h⟩ := (C06_total A j.solveIn hv none).1 hs
  have key := C130_columns A j.solveIn hv none hs e4 har w hw hone'
    (by
      show ColumnOrder j.strategy
      rw [e5]
      exact ⟨[], [], _, rfl, by decide, by decide⟩) W L (by show ∀ c ∈ j.containers, _; rw [e2]; exact hc)
    (by
      show j.items.Pairwise _
      rw [e1]
      refine List.Pairwise.imp_of_mem ?_ hsort
      intro a b ha hb hab
      have wa := (hone a (hperm.mem_iff.1 ha)).1
      have wb := (hone b (hperm.mem_iff.1 hb)).1
      simp only [if_true] at hab
      have h3 : ((b.2.w : Rat) * b.2.l) ≤ (a.2.w : Rat) * a.2.l := by
        rcases hab with h | ⟨h, _⟩
        · exact le_of_lt h
        · exact le_of_eq h
      rw [wa, wb] at h3
      have h4 : w * b.2.l ≤ w * a.2.l := by exact_mod_cast h3
      exact Nat.le_of_mul_le_mul_left h4 hw) sol ov h other (by
    intro m hm
    obtain ⟨g1, g2⟩ := hother m hm
    refine ⟨g1, fun q hq => ?_⟩
    obtain ⟨g3, d, g4, g5⟩ := g2 q hq
    refine ⟨g3, d, (hmem _).2 g4, ?_⟩
    show SizedAs j.rotation d q.2
    rw [e3]; exact g5) (by
    intro id hid
    unfold placedIds at hid
    obtain ⟨x, hx, hi⟩ := List.mem_flatMap.1 hid
    obtain ⟨q, hq, rfl⟩ := List.mem_map.1 hi
    obtain ⟨d, hd, _⟩ := C05_sizes A j.solveIn hv none hs sol ov h x.1 x.2 hx q.1 q.2 hq
    exact hall _ (List.mem_map_of_mem (f := (·.1)) ((hmem _).1 hd)))
  simp only [HP.step, Inst.solve, h, bind, Except.bind, pure, Except.pure]
  exact key

/-! ### the hypotheses are met, the order matters, and the optimum may be missed -/

/-- the problem of `twiceDemo`, longest first: one container is enough now -/
def decreasingDemo : SolveIn :=
  ⟨[("a", ⟨4, 10⟩), ("b", ⟨4, 10⟩)], [("r", ⟨2, 6⟩), ("s", ⟨2, 6⟩), ("p", ⟨2, 4⟩), ("q", ⟨2, 4⟩)], defaultStrategy, false, false, 0⟩

theorem decreasingDemo_run : (solve Arith.exact decreasingDemo none).toOption.map (·.1) = some
    [("a", [("r", ⟨0, 0, 2, 6⟩), ("p", ⟨0, 6, 2, 4⟩), ("s", ⟨2, 0, 2, 6⟩), ("q", ⟨2, 6, 2, 4⟩)]), ("b", [])] := by decide +kernel

/-- longest first can need two containers, where one is enough: the bound `(3 * 1 + 1) / 2` is reached -/
def decreasingMiss : SolveIn :=
  ⟨[("a", ⟨2, 12⟩), ("b", ⟨2, 12⟩)],
    [("p", ⟨1, 6⟩), ("q", ⟨1, 5⟩), ("r", ⟨1, 4⟩), ("s", ⟨1, 4⟩), ("t", ⟨1, 3⟩), ("u", ⟨1, 2⟩)], defaultStrategy, false, false, 0⟩

def decreasingOther : List (List (String × Rect)) :=
  [[("p", ⟨0, 0, 1, 6⟩), ("r", ⟨0, 6, 1, 4⟩), ("u", ⟨0, 10, 1, 2⟩), ("q", ⟨1, 0, 1, 5⟩), ("s", ⟨1, 5, 1, 4⟩), ("t", ⟨1, 9, 1, 3⟩)]]

theorem decreasingMiss_run : (solve Arith.exact decreasingMiss none).toOption.map (·.1) = some
    [("a", [("p", ⟨0, 0, 1, 6⟩), ("q", ⟨0, 6, 1, 5⟩), ("r", ⟨1, 0, 1, 4⟩), ("s", ⟨1, 4, 1, 4⟩), ("t", ⟨1, 8, 1, 3⟩)]),
     ("b", [("u", ⟨0, 0, 1, 2⟩)])] := by decide +kernel

example : ValidIn decreasingMiss ∧ OneWidth 1 decreasingMiss.rotation decreasingMiss.containers decreasingMiss.items ∧
    ColumnOrder decreasingMiss.strategy ∧ (∀ c ∈ decreasingMiss.containers, c.2 = ⟨2, 12⟩) ∧
    (solvedFor decreasingMiss.items none).Pairwise (fun a b => b.2.l ≤ a.2.l) ∧
    (∀ m ∈ decreasingOther, (m.map (·.2)).Pairwise Spec.Disjoint ∧
      ∀ q ∈ m, Inside 2 12 q.2 ∧ ∃ d, (q.1, d) ∈ decreasingMiss.items ∧ SizedAs decreasingMiss.rotation d q.2) ∧
    (∀ id ∈ ["p", "q", "r", "s", "t", "u"], ∃ m ∈ decreasingOther, id ∈ m.map (·.1)) := by
  refine ⟨⟨⟨by decide, by decide⟩, ⟨by decide, by decide⟩, nofun⟩, ?_, ⟨[], [], _, rfl, by decide, by decide⟩, by decide, by decide, ?_, by decide⟩
  · intro q hq
    refine ⟨?_, by intro h; cases h⟩
    revert q
    decide
  · intro m hm
    rw [decreasingOther, List.mem_singleton] at hm
    subst hm
    refine ⟨?_, ?_⟩
    · simp only [List.map_cons, List.map_nil, List.pairwise_cons, List.mem_cons, List.not_mem_nil, or_false]
      refine ⟨?_, ?_, ?_, ?_, ?_, fun _ h => h.elim, .nil⟩
      · rintro r (rfl | rfl | rfl | rfl | rfl) x y ⟨⟨_, _, _, _⟩, ⟨_, _, _, _⟩⟩ <;> simp only at * <;> omega
      · rintro r (rfl | rfl | rfl | rfl) x y ⟨⟨_, _, _, _⟩, ⟨_, _, _, _⟩⟩ <;> simp only at * <;> omega
      · rintro r (rfl | rfl | rfl) x y ⟨⟨_, _, _, _⟩, ⟨_, _, _, _⟩⟩ <;> simp only at * <;> omega
      · rintro r (rfl | rfl) x y ⟨⟨_, _, _, _⟩, ⟨_, _, _, _⟩⟩ <;> simp only at * <;> omega
      · rintro r rfl x y ⟨⟨_, _, _, _⟩, ⟨_, _, _, _⟩⟩
        simp only at *; omega
    · intro q hq
      simp only [List.mem_cons, List.not_mem_nil, or_false] at hq
      rcases hq with rfl | rfl | rfl | rfl | rfl | rfl
      · exact ⟨⟨by decide, by decide⟩, ⟨1, 6⟩, by decide, .inl ⟨rfl, rfl⟩⟩
      · exact ⟨⟨by decide, by decide⟩, ⟨1, 4⟩, by decide, .inl ⟨rfl, rfl⟩⟩
      · exact ⟨⟨by decide, by decide⟩, ⟨1, 2⟩, by decide, .inl ⟨rfl, rfl⟩⟩
      · exact ⟨⟨by decide, by decide⟩, ⟨1, 5⟩, by decide, .inl ⟨rfl, rfl⟩⟩
      · exact ⟨⟨by decide, by decide⟩, ⟨1, 4⟩, by decide, .inl ⟨rfl, rfl⟩⟩
      · exact ⟨⟨by decide, by decide⟩, ⟨1, 3⟩, by decide, .inl ⟨rfl, rfl⟩⟩

/-- rows, widest first -/
def decreasingRows : SolveIn :=
  ⟨[("a", ⟨10, 4⟩), ("b", ⟨10, 4⟩)], [("r", ⟨6, 2⟩), ("s", ⟨6, 2⟩), ("p", ⟨4, 2⟩), ("q", ⟨4, 2⟩)],
   [.B, .A, .C, .A_, .B_, .B__, .A__, .F, .E, .D], false, false, 0⟩

theorem decreasingRows_run : (solve Arith.exact decreasingRows none).toOption.map (·.1) = some
    [("a", [("r", ⟨0, 0, 6, 2⟩), ("p", ⟨6, 0, 4, 2⟩), ("s", ⟨0, 2, 6, 2⟩), ("q", ⟨6, 2, 4, 2⟩)]), ("b", [])] := by decide +kernel

example : ValidIn decreasingRows ∧ OneLength 2 decreasingRows.rotation decreasingRows.containers decreasingRows.items (fun c => c.l) ∧
    RowOrder decreasingRows.strategy ∧ (∀ c ∈ decreasingRows.containers, c.2 = ⟨10, 4⟩) ∧
    (solvedFor decreasingRows.items none).Pairwise (fun a b => b.2.w ≤ a.2.w) := by
  refine ⟨⟨⟨by decide, by decide⟩, ⟨by decide, by decide⟩, nofun⟩, ?_, ⟨[], [], _, rfl, by decide, by decide⟩, by decide, by decide⟩
  intro q hq
  refine ⟨?_, by intro h; cases h⟩
  revert q
  decide

end HP
