import Verif.Props.Rows
/-
C121: with items of one width or of one length `solve` uses at most twice the optimal number of containers.
-/
namespace HP
open Spec

/-- if whole groups are filled one after the other, all but the last used one are used up -/
theorem groups_used {n L : Nat} : ∀ (cols : List (String × List Bin)), (∀ x ∈ cols, x.2.length = n) →
    (∀ b ∈ cols.flatMap (·.2), b.load ≤ L) →
    (cols.flatMap (·.2)).Pairwise (fun b b' => b'.items ≠ [] → L < b.load + b'.load) →
    (cols.filter (fun x => x.2.any (fun b => !b.items.isEmpty))).length = 0 ∨
    ((cols.filter (fun x => x.2.any (fun b => !b.items.isEmpty))).length - 1) * n + 1 ≤
      ((cols.flatMap (·.2)).filter (fun b => !b.items.isEmpty)).length
  | [], _, _, _ => .inl rfl
  | x :: cols, hn, hl, hp => by
    rw [List.flatMap_cons, List.pairwise_append] at hp
    obtain ⟨_, hp2, hp3⟩ := hp
    have ih := groups_used cols (fun y hy => hn y (by simp [hy])) (fun b hb => hl b (by
      rw [List.flatMap_cons]; exact List.mem_append_right _ hb)) hp2
    rw [List.flatMap_cons, List.filter_append, List.length_append, List.filter_cons]
    cases hu : x.2.any (fun b => !b.items.isEmpty) with
    | false =>
      simp only [Bool.false_eq_true, if_false]
      rcases ih with h | h
      · exact .inl h
      · exact .inr (by omega)
    | true =>
      right
      simp only [if_true, List.length_cons, Nat.add_sub_cancel]
      rcases ih with h | h
      · rw [h]
        obtain ⟨b, hb, hbi⟩ := List.any_eq_true.1 hu
        have : 0 < (x.2.filter (fun b => !b.items.isEmpty)).length := List.length_pos_of_mem (List.mem_filter.2 ⟨hb, hbi⟩)
        omega
      · have hpos : 0 < ((cols.flatMap (·.2)).filter (fun b => !b.items.isEmpty)).length := by omega
        obtain ⟨b', hb'⟩ := List.exists_mem_of_length_pos hpos
        rw [List.mem_filter] at hb'
        have hall : x.2.filter (fun b => !b.items.isEmpty) = x.2 := by
          rw [List.filter_eq_self]
          intro b hb
          have h1 := hp3 b hb b' hb'.1 (by intro h0; rw [h0] at hb'; simp at hb')
          have h2 := hl b' (by rw [List.flatMap_cons]; exact List.mem_append_right _ hb'.1)
          cases hbi : b.items with
          | nil => unfold Bin.load at h1 h2; rw [hbi] at h1; simp at h1; omega
          | cons q l => rfl
        rw [hall, hn x (by simp)]
        generalize (cols.filter (fun x => x.2.any (fun b => !b.items.isEmpty))).length = k at h ⊢
        cases k with
        | zero => simp; omega
        | succ k =>
          simp only [Nat.add_sub_cancel] at h
          rw [Nat.add_mul]
          omega

/-- so at most `2 * m` groups are used if all loads together are at most those of `m` full groups -/
theorem groups_two {n L m : Nat} (hm : 0 < m) (hn0 : 0 < n) (cols : List (String × List Bin)) (hn : ∀ x ∈ cols, x.2.length = n)
    (hl : ∀ b ∈ cols.flatMap (·.2), b.load ≤ L)
    (hp : (cols.flatMap (·.2)).Pairwise (fun b b' => b'.items ≠ [] → L < b.load + b'.load))
    (ht : ((cols.flatMap (·.2)).map Bin.load).sum ≤ m * (n * L)) :
    (cols.filter (fun x => x.2.any (fun b => !b.items.isEmpty))).length ≤ 2 * m := by
  have h1 := groups_used cols hn hl hp
  have hpw : (((cols.flatMap (·.2)).filter (fun b => !b.items.isEmpty)).map Bin.load).Pairwise (fun a b => L < a + b) := by
    rw [List.pairwise_map]
    refine List.Pairwise.imp_of_mem ?_ (hp.sublist List.filter_sublist)
    intro a b _ hb hab
    rw [List.mem_filter] at hb
    exact hab (by have := hb.2; intro h0; rw [h0] at this; simp at this)
  have h2 := pairs_sum _ hpw
  rw [List.length_map] at h2
  have h3 : (((cols.flatMap (·.2)).filter (fun b => !b.items.isEmpty)).map Bin.load).sum ≤ ((cols.flatMap (·.2)).map Bin.load).sum :=
    (List.filter_sublist.map _).sum_le_sum (fun _ _ => Nat.zero_le _)
  generalize ((cols.flatMap (·.2)).filter (fun b => !b.items.isEmpty)).length = u at h1 h2
  generalize (cols.filter (fun x => x.2.any (fun b => !b.items.isEmpty))).length = k at h1 ⊢
  have hmn : 0 < m * n := Nat.mul_pos hm hn0
  have h4 : u / 2 < m * n := by
    by_contra hge
    have hge : m * n ≤ u / 2 := by omega
    have := Nat.mul_le_mul_right (L + 1) hge
    rw [Nat.mul_add, Nat.mul_assoc] at this
    omega
  rcases h1 with h1 | h1
  · omega
  · by_contra hgt
    have hgt : 2 * m ≤ k - 1 := by omega
    have := Nat.mul_le_mul_right n hgt
    rw [Nat.mul_assoc] at this
    omega

/-- if the sizes of a packing are bounded and the placed ids are among its ids, so are their sizes -/
theorem covered_sum {len : String → Nat} {placed : List String} (hnd : placed.Nodup) {other : List (List (String × Rect))} {B : Nat}
    (hB : ∀ m ∈ other, ((m.map (·.1)).map len).sum ≤ B) (hall : ∀ id ∈ placed, ∃ m ∈ other, id ∈ m.map (·.1)) :
    (placed.map len).sum ≤ other.length * B := by
  have hothersum : ∀ l : List (List (String × Rect)), (∀ m ∈ l, m ∈ other) →
      ((l.flatMap (fun m => m.map (·.1))).map len).sum ≤ l.length * B := by
    intro l
    induction l with
    | nil => intro _; simp
    | cons m l ih =>
      intro hl
      have h1 := hB m (hl m (by simp))
      have h2 := ih (fun m hm => hl m (by simp [hm]))
      simp only [List.flatMap_cons, List.map_append, List.sum_append, List.length_cons, Nat.add_mul]
      omega
  have hsubp : placed.Subperm (other.flatMap (fun m => m.map (·.1))) := by
    refine List.subperm_of_subset hnd ?_
    intro id hid
    obtain ⟨m, hm, hi⟩ := hall id hid
    exact List.mem_flatMap.2 ⟨m, hm, hi⟩
  obtain ⟨l, hp, hsl⟩ := hsubp
  refine le_trans ?_ (hothersum other (fun m hm => hm))
  rw [← (hp.map len).sum_eq]
  exact (hsl.map len).sum_le_sum (fun _ _ => Nat.zero_le _)

/-- rectangles of width `w` without overlaps in a container have together at most the length of its columns -/
theorem lengths_columns {w W L : Nat} (hw : 0 < w) (m : List Rect) (hd : m.Pairwise Spec.Disjoint)
    (hin : ∀ r ∈ m, Inside W L r ∧ r.w = w) : (m.map (·.l)).sum ≤ W / w * L := by
  have hpw : (m.map (fun r => (⟨r.x / w, r.y, 1, r.l⟩ : Rect))).Pairwise Spec.Disjoint := by
    rw [List.pairwise_map]
    refine List.Pairwise.imp_of_mem ?_ hd
    intro r s hr hs hrs x y ⟨⟨h1, h2, h3, h4⟩, ⟨h5, h6, h7, h8⟩⟩
    obtain ⟨_, a⟩ := hin r hr
    obtain ⟨_, b⟩ := hin s hs
    simp only at h1 h2 h3 h4 h5 h6 h7 h8
    have e1 := Nat.div_add_mod r.x w
    have e2 := Nat.mod_lt r.x hw
    have e3 := Nat.div_add_mod s.x w
    have e4 := Nat.mod_lt s.x hw
    have e5 : r.x / w = x := by omega
    have e6 : s.x / w = x := by omega
    rw [e5] at e1
    rw [e6] at e3
    exact hrs (w * x + (w - 1)) y ⟨⟨by omega, by omega, h3, h4⟩, ⟨by omega, by omega, h7, h8⟩⟩
  have := totalArea_le (W := W / w) (L := L) hpw (by
    intro r hr
    obtain ⟨r', hr', rfl⟩ := List.mem_map.1 hr
    obtain ⟨⟨h1, h2⟩, h3⟩ := hin r' hr'
    refine ⟨?_, h2⟩
    simp only
    have : (r'.x + w) / w ≤ W / w := Nat.div_le_div_right (by omega)
    rw [Nat.add_div_right _ hw] at this
    omega)
  simpa [totalArea, area, Function.comp_def] using this

/-- rectangles of length `t` without overlaps in a container have together at most the width of its rows -/
theorem widths_rows {t W L : Nat} (ht : 0 < t) (m : List Rect) (hd : m.Pairwise Spec.Disjoint)
    (hin : ∀ r ∈ m, Inside W L r ∧ r.l = t) : (m.map (·.w)).sum ≤ L / t * W := by
  have := lengths_columns (W := L) (L := W) ht (m.map (fun r => (⟨r.y, r.x, r.l, r.w⟩ : Rect))) (by
    rw [List.pairwise_map]
    refine hd.imp ?_
    intro a b hab x y ⟨⟨h1, h2, h3, h4⟩, ⟨h5, h6, h7, h8⟩⟩
    exact hab y x ⟨⟨h3, h4, h1, h2⟩, ⟨h7, h8, h5, h6⟩⟩) (by
    intro r hr
    obtain ⟨r', hr', rfl⟩ := List.mem_map.1 hr
    obtain ⟨⟨h1, h2⟩, h3⟩ := hin r' hr'
    exact ⟨⟨h2, h1⟩, h3⟩)
  simpa [Function.comp_def] using this

theorem putFirst_load (q : String × Dim) : ∀ (bins : List Bin), (∀ b ∈ bins, b.load ≤ b.cap) → ∀ b ∈ putFirst q bins, b.load ≤ b.cap
  | [], _, b, hb => by simp [putFirst] at hb
  | b0 :: bs, h, b, hb => by
    unfold putFirst at hb
    split at hb
    · rename_i ht
      rcases List.mem_cons.1 hb with rfl | hb
      · have := ht.2
        simp only [Bin.load, List.map_append, List.sum_append, List.map_cons, List.map_nil, List.sum_cons, List.sum_nil] at this ⊢
        omega
      · exact h b (by simp [hb])
    · rcases List.mem_cons.1 hb with rfl | hb
      · exact h b (by simp)
      · exact putFirst_load q bs (fun b hb => h b (by simp [hb])) b hb

theorem firstFit_load : ∀ (items : List (String × Dim)) (bins : List Bin), (∀ b ∈ bins, b.load ≤ b.cap) →
    ∀ b ∈ firstFit bins items, b.load ≤ b.cap
  | [], _, h => h
  | q :: items, bins, h => firstFit_load items (putFirst q bins) (putFirst_load q bins h)

/-- the bins that are filled by first fit, of one width and capacity: two of them are more than one, if the later is used -/
theorem firstFit_two {v L : Nat} {bins : List Bin} {items : List (String × Dim)} (hb : ∀ b ∈ bins, b.items = [] ∧ b.width = v ∧ b.cap = L)
    (hi : ∀ q ∈ items, q.2.w ≤ v) :
    (∀ b ∈ firstFit bins items, b.load ≤ L) ∧
    (firstFit bins items).Pairwise (fun b b' => b'.items ≠ [] → L < b.load + b'.load) := by
  have he : ∀ b ∈ bins, b.items = [] := fun b h => (hb b h).1
  constructor
  · intro b h
    obtain ⟨b0, h0, _, _, hcap⟩ := firstFit_shape _ _ b h
    have := firstFit_load items bins (fun b h => by unfold Bin.load; rw [(hb b h).1]; simp) b h
    rw [hcap, (hb b0 h0).2.2] at this
    exact this
  · refine List.Pairwise.imp_of_mem ?_ (firstFit_pairwise bins items he)
    intro a b ha hb' hab hne
    obtain ⟨a0, ha0, _, hw, hcap⟩ := firstFit_shape _ _ a ha
    obtain ⟨_, h2, h3⟩ := hb a0 ha0
    cases hbi : b.items with
    | nil => exact absurd hbi hne
    | cons q l =>
      have hq : q ∈ b.items := by rw [hbi]; simp
      have h4 := hab q hq
      have h5 := hi q (firstFit_from bins _ he b hb' q hq)
      unfold Bin.Takes at h4
      rw [hw, hcap, h2, h3] at h4
      have h6 : ¬ (a.load + q.2.l ≤ L) := fun h => h4 ⟨h5, h⟩
      have h7 : b.load = q.2.l + (l.map (fun q => q.2.l)).sum := by unfold Bin.load; rw [hbi]; simp
      omega

theorem bins_total (len : String → Nat) : ∀ (bins : List Bin), (∀ b ∈ bins, ∀ q ∈ b.items, len q.1 = q.2.l) →
    (bins.map Bin.load).sum = (((bins.flatMap (·.items)).map (·.1)).map len).sum
  | [], _ => rfl
  | b :: bins, h => by
    have ih := bins_total len bins (fun b hb => h b (by simp [hb]))
    simp only [List.map_cons, List.sum_cons, List.flatMap_cons, List.map_append, List.sum_append, ih]
    congr 1
    unfold Bin.load
    rw [List.map_map]
    congr 1
    exact List.map_congr_left fun q hq => (h b (by simp) q hq).symm

theorem isEmpty_of_ids {m : List (String × Rect)} {bins : List Bin} (h : m.map (·.1) = (bins.flatMap (·.items)).map (·.1)) :
    (!m.isEmpty) = bins.any (fun b => !b.items.isEmpty) := by
  have h1 : m.length = (bins.flatMap (·.items)).length := by
    have := congrArg List.length h
    simpa using this
  rw [Bool.eq_iff_iff]
  simp only [Bool.not_eq_true', List.isEmpty_eq_false_iff, List.any_eq_true]
  rw [← List.length_pos_iff, h1, List.length_pos_iff]
  constructor
  · intro hne
    obtain ⟨q, hq⟩ := List.exists_mem_of_ne_nil _ hne
    obtain ⟨b, hb, hqb⟩ := List.mem_flatMap.1 hq
    exact ⟨b, hb, List.ne_nil_of_mem hqb⟩
  · rintro ⟨b, hb, hne⟩
    obtain ⟨q, hq⟩ := List.exists_mem_of_ne_nil _ hne
    exact List.ne_nil_of_mem (List.mem_flatMap.2 ⟨b, hb, hq⟩)

/-- the part that is common to columns and rows -/
theorem two_core {A : Arith} {p : SolveIn} (hv : ValidIn p) {seq : Option (List String)} (hs : KnownSeq p seq)
    {sol : Solution} {ov : ObjVals} (h : solve A p seq = .ok (sol, ov)) {n C : Nat} {size : Dim → Nat} {cols : List (String × List Bin)}
    {place : List Bin → List (String × Rect)} (hplace : ∀ bins, (place bins).map (·.1) = (bins.flatMap (·.items)).map (·.1))
    (hsol : sol = cols.map (fun c => (c.1, place c.2))) (hn : ∀ x ∈ cols, x.2.length = n)
    (hload : ∀ b ∈ cols.flatMap (·.2), b.load ≤ C)
    (hpair : (cols.flatMap (·.2)).Pairwise (fun b b' => b'.items ≠ [] → C < b.load + b'.load))
    (hsize : ∀ b ∈ cols.flatMap (·.2), ∀ q ∈ b.items, ∃ d, (q.1, d) ∈ p.items ∧ size d = q.2.l)
    (other : List (List (String × Rect)))
    (hother : ∀ m ∈ other, ∃ f : Rect → Nat, (∀ q ∈ m, ∃ d, (q.1, d) ∈ p.items ∧ size d = f q.2) ∧
      (m.map (fun q => f q.2)).sum ≤ n * C)
    (hall : ∀ id ∈ placedIds sol, ∃ m ∈ other, id ∈ m.map (·.1)) :
    (sol.filter (fun c => !c.2.isEmpty)).length ≤ 2 * other.length := by
  by_cases hsome : placedIds sol = []
  · have : sol.filter (fun c => !c.2.isEmpty) = [] := by
      rw [List.filter_eq_nil_iff]
      intro x hx
      unfold placedIds at hsome
      rw [List.flatMap_eq_nil_iff] at hsome
      have := hsome x hx
      rw [List.map_eq_nil_iff] at this
      simp [this]
    rw [this]; simp
  generalize hlen : (fun id : String => ((PyDict.find? p.items id).map size).getD 0) = len
  have hlen' : ∀ id d, (id, d) ∈ p.items → len id = size d := by
    intro id d hd
    rw [← hlen]
    simp only [PyDict.find?_of_mem hv.items.1 hd, Option.map_some, Option.getD_some]
  obtain ⟨_, _, hnd, _⟩ := C04_once A p hv seq hs sol ov h
  have hopos : 0 < other.length := by
    obtain ⟨id, hid⟩ := List.exists_mem_of_ne_nil _ hsome
    obtain ⟨m, hm, _⟩ := hall id hid
    exact List.length_pos_of_mem hm
  have hids : placedIds sol = ((cols.flatMap (·.2)).flatMap (·.items)).map (·.1) := by
    rw [hsol]
    unfold placedIds
    rw [List.flatMap_assoc, List.flatMap_map, List.map_flatMap]
    congr 1
    funext c
    exact hplace c.2
  have htotal := bins_total len (cols.flatMap (·.2)) (by
    intro b hb q hq
    obtain ⟨d, h1, h2⟩ := hsize b hb q hq
    rw [hlen' _ _ h1, h2])
  rw [← hids] at htotal
  have hcov := covered_sum (len := len) hnd (other := other) (B := n * C) (by
    intro m hm
    obtain ⟨f, h1, h2⟩ := hother m hm
    refine le_trans (le_of_eq ?_) h2
    rw [List.map_map]
    congr 1
    refine List.map_congr_left fun q hq => ?_
    obtain ⟨d, h3, h4⟩ := h1 q hq
    simp only [Function.comp]
    rw [hlen' _ _ h3, h4]) hall
  have hnpos : 0 < n := by
    rcases Nat.eq_zero_or_pos n with h0 | h0
    · exfalso
      apply hsome
      rw [hids, List.map_eq_nil_iff, List.flatMap_eq_nil_iff]
      intro b hb
      obtain ⟨x, hx, hbx⟩ := List.mem_flatMap.1 hb
      have := hn x hx
      rw [h0] at this
      have := List.length_pos_of_mem hbx
      omega
    · exact h0
  have := groups_two hopos hnpos cols hn hload hpair (by rw [htotal]; exact hcov)
  rw [hsol, List.filter_map, List.length_map]
  refine le_trans (le_of_eq ?_) this
  congr 1
  refine List.filter_congr fun x _ => ?_
  exact isEmpty_of_ids (hplace x.2)

/-- **C121**, columns: with bins of one size, items of one width and A before B before B'' in the strategy, `solve` uses at most
twice as many containers as any packing without overlaps of (at least) the placed items into containers of this size. -/
theorem C121_columns (A : Arith) (p : SolveIn) (hv : ValidIn p) (seq : Option (List String)) (hs : KnownSeq p seq)
    (hb : p.strip = false) (har : A = Arith.exact) (w : Nat) (hw : 0 < w)
    (hone : OneWidth w p.rotation p.containers p.items) (hst : ColumnOrder p.strategy)
    (W L : Nat) (hc : ∀ c ∈ p.containers, c.2 = ⟨W, L⟩) (sol : Solution) (ov : ObjVals) (h : solve A p seq = .ok (sol, ov))
    (other : List (List (String × Rect)))
    (hother : ∀ m ∈ other, (m.map (·.2)).Pairwise Spec.Disjoint ∧
      ∀ q ∈ m, Inside W L q.2 ∧ ∃ d, (q.1, d) ∈ p.items ∧ SizedAs p.rotation d q.2)
    (hall : ∀ id ∈ placedIds sol, ∃ m ∈ other, id ∈ m.map (·.1)) :
    (sol.filter (fun c => !c.2.isEmpty)).length ≤ 2 * other.length := by
  by_cases hne : p.containers = []
  · have hck := (C04_once A p hv seq hs sol ov h).1
    rw [hne] at hck
    have : sol = [] := by simpa using hck
    rw [this]; simp
  obtain ⟨cols, rem, h1, h2, h3, h4, _⟩ := columns_facts hv hs hw hone h (.inr har) hst
  simp only [hb, Bool.false_eq_true, if_false] at h2
  have hfrom := firstFit_two (v := w) (L := L) (bins := columnsOf w p.containers (fun c => c.l)) (items := solvedFor p.items seq) (by
    intro b hb
    obtain ⟨c, hcm, hbc⟩ := List.mem_flatMap.1 hb
    obtain ⟨_, rfl⟩ := List.mem_replicate.1 hbc
    have := hc c hcm
    refine ⟨rfl, rfl, ?_⟩
    simp only [this]) (by
    intro q hq
    exact le_of_eq (hone _ (solvedFor_mem _ hq)).1)
  rw [← h2] at hfrom
  refine two_core hv hs h (n := W / w) (C := L) (size := Dim.l) (standing_ids w · 0) h3 ?_ hfrom.1 hfrom.2 ?_ other ?_ hall
  · intro x hx
    have : (x.1, x.2.length) ∈ p.containers.map (fun c => (c.1, c.2.w / w)) := by
      rw [← h1]; exact List.mem_map_of_mem (f := fun c : String × List Bin => (c.1, c.2.length)) hx
    obtain ⟨y, hy, he⟩ := List.mem_map.1 this
    injection he with f1 f2
    rw [← f2, hc y hy]
  · intro b hb q hq
    refine ⟨q.2, solvedFor_mem _ (h4.subset (List.mem_append_left _ (List.mem_flatMap.2 ⟨b, hb, hq⟩))), rfl⟩
  · intro m hm
    obtain ⟨ho1, ho2⟩ := hother m hm
    have hsz : ∀ q ∈ m, (Inside W L q.2 ∧ q.2.w = w) ∧ ∃ d, (q.1, d) ∈ p.items ∧ d.l = q.2.l := by
      intro q hq
      obtain ⟨hin, d, hd, hsz⟩ := ho2 q hq
      obtain ⟨e1, e2⟩ := hone _ hd
      simp only at e1 e2
      rcases hsz with ⟨g1, g2⟩ | ⟨hr, g1, g2⟩
      · exact ⟨⟨hin, by rw [g1, e1]⟩, d, hd, g2.symm⟩
      · rcases e2 hr with e3 | e3
        · exact ⟨⟨hin, by rw [g1, e3]⟩, d, hd, by rw [g2, e1, e3]⟩
        · exfalso
          obtain ⟨c, hcm⟩ := List.exists_mem_of_ne_nil _ hne
          have h7 := e3 c hcm
          rw [hc c hcm] at h7
          have := hin.1
          simp only at h7
          omega
    refine ⟨Rect.l, fun q hq => (hsz q hq).2, ?_⟩
    have := lengths_columns (W := W) (L := L) hw (m.map (·.2)) ho1 (by
      intro r hr
      obtain ⟨q, hq, rfl⟩ := List.mem_map.1 hr
      exact (hsz q hq).1)
    simpa [Function.comp_def] using this

/-- **C121**, rows: with bins of one size, items of one length of at least two and B before A before A'' in the strategy, `solve`
uses at most twice as many containers as any packing without overlaps of (at least) the placed items. -/
theorem C121_rows (A : Arith) (p : SolveIn) (hv : ValidIn p) (seq : Option (List String)) (hs : KnownSeq p seq)
    (hb : p.strip = false) (har : A = Arith.exact) (t : Nat) (ht : 2 ≤ t)
    (hone : OneLength t p.rotation p.containers p.items (fun c => c.l)) (hst : RowOrder p.strategy)
    (W L : Nat) (hc : ∀ c ∈ p.containers, c.2 = ⟨W, L⟩) (sol : Solution) (ov : ObjVals) (h : solve A p seq = .ok (sol, ov))
    (other : List (List (String × Rect)))
    (hother : ∀ m ∈ other, (m.map (·.2)).Pairwise Spec.Disjoint ∧
      ∀ q ∈ m, Inside W L q.2 ∧ ∃ d, (q.1, d) ∈ p.items ∧ SizedAs p.rotation d q.2)
    (hall : ∀ id ∈ placedIds sol, ∃ m ∈ other, id ∈ m.map (·.1)) :
    (sol.filter (fun c => !c.2.isEmpty)).length ≤ 2 * other.length := by
  by_cases hne : p.containers = []
  · have hck := (C04_once A p hv seq hs sol ov h).1
    rw [hne] at hck
    have : sol = [] := by simpa using hck
    rw [this]; simp
  obtain ⟨rows, rem, h1, h2, h3, h4, _⟩ := rows_facts hv hs ht
    (by simpa only [hb, Bool.false_eq_true, if_false] using hone) h (.inr har) hst
  simp only [hb, Bool.false_eq_true, if_false] at h1 h2
  have hfrom := firstFit_two (v := t) (L := W) (bins := shelfRows t p.containers (fun c => c.l))
    (items := turnedItems (solvedFor p.items seq)) (by
    intro b hb
    obtain ⟨c, hcm, hbc⟩ := List.mem_flatMap.1 hb
    obtain ⟨_, rfl⟩ := List.mem_replicate.1 hbc
    have := hc c hcm
    refine ⟨rfl, rfl, ?_⟩
    simp only [this]) (by
    intro q hq
    obtain ⟨q', hq', rfl⟩ := List.mem_map.1 hq
    exact le_of_eq (hone _ (solvedFor_mem _ hq')).1)
  rw [← h2] at hfrom
  refine two_core hv hs h (n := L / t) (C := W) (size := Dim.w) (shelves_ids t · 0) h3 ?_ hfrom.1 hfrom.2 ?_ other ?_ hall
  · intro x hx
    have : (x.1, x.2.length) ∈ p.containers.map (fun c => (c.1, c.2.l / t)) := by
      rw [← h1]; exact List.mem_map_of_mem (f := fun c : String × List Bin => (c.1, c.2.length)) hx
    obtain ⟨y, hy, he⟩ := List.mem_map.1 this
    injection he with f1 f2
    rw [← f2, hc y hy]
  · intro b hb q hq
    obtain ⟨q', hq', rfl⟩ := List.mem_map.1 (h4.subset (List.mem_append_left _ (List.mem_flatMap.2 ⟨b, hb, hq⟩)))
    exact ⟨q'.2, solvedFor_mem _ hq', rfl⟩
  · intro m hm
    obtain ⟨ho1, ho2⟩ := hother m hm
    have hsz : ∀ q ∈ m, (Inside W L q.2 ∧ q.2.l = t) ∧ ∃ d, (q.1, d) ∈ p.items ∧ d.w = q.2.w := by
      intro q hq
      obtain ⟨hin, d, hd, hsz⟩ := ho2 q hq
      obtain ⟨e1, e2⟩ := hone _ hd
      simp only at e1 e2
      rcases hsz with ⟨g1, g2⟩ | ⟨hr, g1, g2⟩
      · exact ⟨⟨hin, by rw [g2, e1]⟩, d, hd, g1.symm⟩
      · rcases e2 hr with e3 | e3
        · exact ⟨⟨hin, by rw [g2, e3]⟩, d, hd, by rw [g1, e1, e3]⟩
        · exfalso
          obtain ⟨c, hcm⟩ := List.exists_mem_of_ne_nil _ hne
          have h7 := e3 c hcm
          rw [hc c hcm] at h7
          have := hin.2
          simp only at h7
          omega
    refine ⟨Rect.w, fun q hq => (hsz q hq).2, ?_⟩
    have := widths_rows (W := W) (L := L) (show 0 < t by omega) (m.map (·.2)) ho1 (by
      intro r hr
      obtain ⟨q, hq, rfl⟩ := List.mem_map.1 hr
      exact (hsz q hq).1)
    simpa [Function.comp_def] using this

/-- **C121**, columns, in binary64 arithmetic, for problems of ordinary size -/
theorem C121_double (p : SolveIn) (hv : ValidIn p) (seq : Option (List String)) (hs : KnownSeq p seq)
    (hlow : ∀ q ∈ p.items, ¬ LowStrip p.rotation q.2)
    (hsmall : ∀ c ∈ p.containers, 10 * ((p.items.length + 1) * (c.2.w * c.2.l)) < 2 ^ 53)
    (hb : p.strip = false) (w : Nat) (hw : 0 < w)
    (hone : OneWidth w p.rotation p.containers p.items) (hst : ColumnOrder p.strategy)
    (W L : Nat) (hc : ∀ c ∈ p.containers, c.2 = ⟨W, L⟩) (sol : Solution) (ov : ObjVals) (h : solve Arith.double p seq = .ok (sol, ov))
    (other : List (List (String × Rect)))
    (hother : ∀ m ∈ other, (m.map (·.2)).Pairwise Spec.Disjoint ∧
      ∀ q ∈ m, Inside W L q.2 ∧ ∃ d, (q.1, d) ∈ p.items ∧ SizedAs p.rotation d q.2)
    (hall : ∀ id ∈ placedIds sol, ∃ m ∈ other, id ∈ m.map (·.1)) :
    (sol.filter (fun c => !c.2.isEmpty)).length ≤ 2 * other.length := by
  obtain ⟨ov', h'⟩ := (C83_bin p hv hb hlow hsmall seq hs sol).1 ⟨ov, h⟩
  exact C121_columns Arith.exact p hv seq hs hb rfl w hw hone hst W L hc sol ov' h' other hother hall

/-- **C121** for a problem with the default strategy. -/
theorem C121_api (i : Inst) (A : Arith) (hr : Reach A i) (har : A = Arith.exact) (hb : i.strip = false)
    (hst : i.strategy = defaultStrategy) (w : Nat) (hw : 0 < w) (hone : OneWidth w i.rotation i.containers i.items)
    (W L : Nat) (hc : ∀ c ∈ i.containers, c.2 = ⟨W, L⟩) (other : List (List (String × Rect)))
    (hother : ∀ m ∈ other, (m.map (·.2)).Pairwise Spec.Disjoint ∧
      ∀ q ∈ m, Inside W L q.2 ∧ ∃ d, (q.1, d) ∈ i.items ∧ SizedAs i.rotation d q.2)
    (hall : ∀ id ∈ i.items.map (·.1), ∃ m ∈ other, id ∈ m.map (·.1)) :
    (((step A i (.solve none)).1.solution).filter (fun c => !c.2.isEmpty)).length ≤ 2 * other.length := by
  have hv := hr.good.valid.solveIn
  have hs : KnownSeq i.solveIn none := by intro s h; cases h
  obtain ⟨sol, ov, h⟩ := (C06_total A i.solveIn hv none).1 hs
  have key := C121_columns A i.solveIn hv none hs hb har w hw hone
    (by
      show ColumnOrder i.strategy
      rw [hst]
      exact ⟨[], [], _, rfl, by decide, by decide⟩) W L hc sol ov h other hother (by
    intro id hid
    unfold placedIds at hid
    obtain ⟨x, hx, hi⟩ := List.mem_flatMap.1 hid
    obtain ⟨q, hq, rfl⟩ := List.mem_map.1 hi
    obtain ⟨d, hd, _⟩ := C05_sizes A i.solveIn hv none hs sol ov h x.1 x.2 hx q.1 q.2 hq
    exact hall _ (List.mem_map_of_mem (f := (·.1)) hd))
  simp only [step, Inst.solve, h, bind, Except.bind, pure, Except.pure]
  exact key

/-! ### the hypotheses are met, and twice as many containers can indeed be needed -/

/-- two containers, though one has room for all -/
def twiceDemo : SolveIn :=
  ⟨[("a", ⟨4, 10⟩), ("b", ⟨4, 10⟩)], [("p", ⟨2, 4⟩), ("q", ⟨2, 4⟩), ("r", ⟨2, 6⟩), ("s", ⟨2, 6⟩)], defaultStrategy, false, false, 0⟩

def twiceOther : List (List (String × Rect)) :=
  [[("p", ⟨0, 0, 2, 4⟩), ("r", ⟨0, 4, 2, 6⟩), ("q", ⟨2, 0, 2, 4⟩), ("s", ⟨2, 4, 2, 6⟩)]]

theorem twiceDemo_run : (solve Arith.exact twiceDemo none).toOption.map (·.1) = some
    [("a", [("p", ⟨0, 0, 2, 4⟩), ("q", ⟨0, 4, 2, 4⟩), ("r", ⟨2, 0, 2, 6⟩)]), ("b", [("s", ⟨0, 0, 2, 6⟩)])] := by decide +kernel

example : ValidIn twiceDemo ∧ OneWidth 2 twiceDemo.rotation twiceDemo.containers twiceDemo.items ∧
    ColumnOrder twiceDemo.strategy ∧ (∀ c ∈ twiceDemo.containers, c.2 = ⟨4, 10⟩) ∧
    (∀ m ∈ twiceOther, (m.map (·.2)).Pairwise Spec.Disjoint ∧
      ∀ q ∈ m, Inside 4 10 q.2 ∧ ∃ d, (q.1, d) ∈ twiceDemo.items ∧ SizedAs twiceDemo.rotation d q.2) ∧
    (∀ id ∈ ["p", "q", "r", "s"], ∃ m ∈ twiceOther, id ∈ m.map (·.1)) := by
  refine ⟨⟨⟨by decide, by decide⟩, ⟨by decide, by decide⟩, nofun⟩, ?_, ⟨[], [], _, rfl, by decide, by decide⟩, by decide, ?_, by decide⟩
  · intro q hq
    refine ⟨?_, by intro h; cases h⟩
    revert q
    decide
  · intro m hm
    rw [twiceOther, List.mem_singleton] at hm
    subst hm
    refine ⟨?_, ?_⟩
    · simp only [List.map_cons, List.map_nil, List.pairwise_cons, List.mem_cons, List.not_mem_nil, or_false]
      refine ⟨?_, ?_, ?_, fun _ h => h.elim, .nil⟩
      · rintro r (rfl | rfl | rfl) x y ⟨⟨_, _, _, _⟩, ⟨_, _, _, _⟩⟩ <;> simp only at * <;> omega
      · rintro r (rfl | rfl) x y ⟨⟨_, _, _, _⟩, ⟨_, _, _, _⟩⟩ <;> simp only at * <;> omega
      · rintro r rfl x y ⟨⟨_, _, _, _⟩, ⟨_, _, _, _⟩⟩
        simp only at *; omega
    · intro q hq
      simp only [List.mem_cons, List.not_mem_nil, or_false] at hq
      rcases hq with rfl | rfl | rfl | rfl
      · exact ⟨⟨by decide, by decide⟩, ⟨2, 4⟩, by decide, .inl ⟨rfl, rfl⟩⟩
      · exact ⟨⟨by decide, by decide⟩, ⟨2, 6⟩, by decide, .inl ⟨rfl, rfl⟩⟩
      · exact ⟨⟨by decide, by decide⟩, ⟨2, 4⟩, by decide, .inl ⟨rfl, rfl⟩⟩
      · exact ⟨⟨by decide, by decide⟩, ⟨2, 6⟩, by decide, .inl ⟨rfl, rfl⟩⟩

/-- the same with rows -/
def twiceRows : SolveIn :=
  ⟨[("a", ⟨10, 4⟩), ("b", ⟨10, 4⟩)], [("p", ⟨4, 2⟩), ("q", ⟨4, 2⟩), ("r", ⟨6, 2⟩), ("s", ⟨6, 2⟩)],
   [.B, .A, .C, .A_, .B_, .B__, .A__, .F, .E, .D], false, false, 0⟩

def twiceRowsOther : List (List (String × Rect)) :=
  [[("p", ⟨0, 0, 4, 2⟩), ("r", ⟨4, 0, 6, 2⟩), ("q", ⟨0, 2, 4, 2⟩), ("s", ⟨4, 2, 6, 2⟩)]]

theorem twiceRows_run : (solve Arith.exact twiceRows none).toOption.map (·.1) = some
    [("a", [("p", ⟨0, 0, 4, 2⟩), ("q", ⟨4, 0, 4, 2⟩), ("r", ⟨0, 2, 6, 2⟩)]), ("b", [("s", ⟨0, 0, 6, 2⟩)])] := by decide +kernel

example : ValidIn twiceRows ∧ OneLength 2 twiceRows.rotation twiceRows.containers twiceRows.items (fun c => c.l) ∧
    RowOrder twiceRows.strategy ∧ (∀ c ∈ twiceRows.containers, c.2 = ⟨10, 4⟩) ∧
    (∀ m ∈ twiceRowsOther, (m.map (·.2)).Pairwise Spec.Disjoint ∧
      ∀ q ∈ m, Inside 10 4 q.2 ∧ ∃ d, (q.1, d) ∈ twiceRows.items ∧ SizedAs twiceRows.rotation d q.2) ∧
    (∀ id ∈ ["p", "q", "r", "s"], ∃ m ∈ twiceRowsOther, id ∈ m.map (·.1)) := by
  refine ⟨⟨⟨by decide, by decide⟩, ⟨by decide, by decide⟩, nofun⟩, ?_, ⟨[], [], _, rfl, by decide, by decide⟩, by decide, ?_, by decide⟩
  · intro q hq
    refine ⟨?_, by intro h; cases h⟩
    revert q
    decide
  · intro m hm
    rw [twiceRowsOther, List.mem_singleton] at hm
    subst hm
    refine ⟨?_, ?_⟩
    · simp only [List.map_cons, List.map_nil, List.pairwise_cons, List.mem_cons, List.not_mem_nil, or_false]
      refine ⟨?_, ?_, ?_, fun _ h => h.elim, .nil⟩
      · rintro r (rfl | rfl | rfl) x y ⟨⟨_, _, _, _⟩, ⟨_, _, _, _⟩⟩ <;> simp only at * <;> omega
      · rintro r (rfl | rfl) x y ⟨⟨_, _, _, _⟩, ⟨_, _, _, _⟩⟩ <;> simp only at * <;> omega
      · rintro r rfl x y ⟨⟨_, _, _, _⟩, ⟨_, _, _, _⟩⟩
        simp only at *; omega
    · intro q hq
      simp only [List.mem_cons, List.not_mem_nil, or_false] at hq
      rcases hq with rfl | rfl | rfl | rfl
      · exact ⟨⟨by decide, by decide⟩, ⟨4, 2⟩, by decide, .inl ⟨rfl, rfl⟩⟩
      · exact ⟨⟨by decide, by decide⟩, ⟨6, 2⟩, by decide, .inl ⟨rfl, rfl⟩⟩
      · exact ⟨⟨by decide, by decide⟩, ⟨4, 2⟩, by decide, .inl ⟨rfl, rfl⟩⟩
      · exact ⟨⟨by decide, by decide⟩, ⟨6, 2⟩, by decide, .inl ⟨rfl, rfl⟩⟩

end HP
