import Verif.Props.Columns
import Verif.Props.Rows
import Verif.Props.Interchange
/-
Properties C125 (items of equal size are packed in a grid, as many as possible) and C126 (a strip of them is a single pile).
-/
namespace HP
open Spec

/-! ### specification -/

/-- the items one after the other in columns of `r` items from the bottom, the columns side by side from the left wall -/
def Spec.columnGrid (d : Dim) (r : Nat) (ids : List String) : List (String × Rect) :=
  ids.mapIdx (fun k id => (id, ⟨k / r * d.w, k % r * d.l, d.w, d.l⟩))

/-- how many items of the size `d` stand in a `W × L` container as a grid -/
def Spec.gridRoom (d : Dim) (W L : Nat) : Nat := W / d.w * (L / d.l)

/-- every container takes the next of the items, as many as stand in it as a grid -/
def Spec.gridFill (d : Dim) (len : Dim → Nat) : List (String × Dim) → List String → List (String × List (String × Rect))
  | [], _ => []
  | (cid, c) :: cs, ids =>
    (cid, columnGrid d (len c / d.l) (ids.take (gridRoom d c.w (len c)))) ::
      gridFill d len cs (ids.drop (gridRoom d c.w (len c)))

/-- the items one after the other in rows of `r` items from the left wall, the rows one above the other from the bottom -/
def Spec.rowGrid (d : Dim) (r : Nat) (ids : List String) : List (String × Rect) :=
  ids.mapIdx (fun k id => (id, ⟨k % r * d.w, k / r * d.l, d.w, d.l⟩))

/-- the same as `gridFill` with rows instead of columns -/
def Spec.rowFill (d : Dim) (len : Dim → Nat) : List (String × Dim) → List String → List (String × List (String × Rect))
  | [], _ => []
  | (cid, c) :: cs, ids =>
    (cid, rowGrid d (c.w / d.w) (ids.take (gridRoom d c.w (len c)))) ::
      rowFill d len cs (ids.drop (gridRoom d c.w (len c)))

/-! ### first fit of equal items -/

/-- every bin takes the next of the items, as many as its capacity allows -/
def fillBins (l : Nat) : List Bin → List (String × Dim) → List Bin
  | [], _ => []
  | b :: bs, items => { b with items := items.take (b.cap / l) } :: fillBins l bs (items.drop (b.cap / l))

theorem firstFit_same {d : Dim} (hl : 0 < d.l) (b : Bin) (bs : List Bin) :
    ∀ (items got : List (String × Dim)), (∀ q ∈ items, q.2 = d) → (∀ q ∈ got, q.2 = d) → d.w ≤ b.width →
      got.length ≤ b.cap / d.l →
      firstFit ({ b with items := got } :: bs) items =
        { b with items := got ++ items.take (b.cap / d.l - got.length) } ::
          firstFit bs (items.drop (b.cap / d.l - got.length))
  | [], got, _, _, _, _ => by simp [firstFit]
  | q :: items, got, h, hg, hw, hk => by
    have hq : q.2 = d := h q (by simp)
    have hload : ({ b with items := got } : Bin).load = got.length * d.l := by
      unfold Bin.load
      clear hk
      show (got.map (fun q => q.2.l)).sum = _
      induction got with
      | nil => simp
      | cons a got ih =>
        rw [List.map_cons, List.sum_cons, ih (fun q hq => hg q (by simp [hq])), hg a (by simp), List.length_cons, Nat.add_mul]
        omega
    by_cases hlt : got.length < b.cap / d.l
    · have htake : ({ b with items := got } : Bin).Takes q.2 := by
        refine ⟨by rw [hq]; exact hw, ?_⟩
        rw [hload, hq]
        show got.length * d.l + d.l ≤ b.cap
        have h1 := Nat.mul_le_mul_right d.l hlt
        have h2 := Nat.div_mul_le_self b.cap d.l
        rw [Nat.succ_mul] at h1
        omega
      show firstFit (putFirst q ({ b with items := got } :: bs)) items = _
      unfold putFirst
      rw [if_pos htake]
      have ih := firstFit_same hl b bs items (got ++ [q]) (fun x hx => h x (by simp [hx]))
        (by intro x hx; rcases List.mem_append.1 hx with h1 | h1
            · exact hg x h1
            · simp only [List.mem_singleton] at h1; rw [h1, hq]) hw (by simp; omega)
      rw [ih]
      obtain ⟨m, hm⟩ : ∃ m, b.cap / d.l - got.length = m + 1 := ⟨b.cap / d.l - got.length - 1, by omega⟩
      have hm' : b.cap / d.l - (got ++ [q]).length = m := by simp; omega
      rw [hm, hm']
      simp
    · have hno : ¬ ({ b with items := got } : Bin).Takes q.2 := by
        intro ht
        have h1 := ht.2
        rw [hload, hq] at h1
        have h1 : got.length * d.l + d.l ≤ b.cap := h1
        have h2 : got.length + 1 ≤ b.cap / d.l := by
          rw [Nat.le_div_iff_mul_le hl, Nat.add_mul]; omega
        omega
      show firstFit (putFirst q ({ b with items := got } :: bs)) items = _
      unfold putFirst
      rw [if_neg hno]
      have ih := firstFit_same hl b (putFirst q bs) items got (fun x hx => h x (by simp [hx])) hg hw hk
      rw [ih]
      have h0 : b.cap / d.l - got.length = 0 := by omega
      rw [h0]
      simp [firstFit]

theorem firstFit_fill {d : Dim} (hl : 0 < d.l) : ∀ (bins : List Bin) (items : List (String × Dim)),
    (∀ q ∈ items, q.2 = d) → (∀ b ∈ bins, b.items = [] ∧ d.w ≤ b.width) → firstFit bins items = fillBins d.l bins items
  | [], items, _, _ => by
    unfold fillBins
    exact firstFit_nil items
  | b :: bs, items, h, hb => by
    have hb0 := hb b (by simp)
    have := firstFit_same hl b bs items [] h (by simp) hb0.2 (by simp)
    have e : ({ b with items := [] } : Bin) = b := by rw [← hb0.1]
    rw [e] at this
    rw [this]
    unfold fillBins
    simp only [List.nil_append, List.length_nil, Nat.sub_zero]
    rw [firstFit_fill hl bs _ (fun q hq => h q (List.mem_of_mem_drop hq)) (fun x hx => hb x (by simp [hx]))]

theorem fillBins_length (l : Nat) : ∀ (bins : List Bin) (items : List (String × Dim)), (fillBins l bins items).length = bins.length
  | [], _ => rfl
  | b :: bs, items => by simp [fillBins, fillBins_length l bs]

theorem fillBins_append (l : Nat) : ∀ (a b : List Bin) (items : List (String × Dim)),
    fillBins l (a ++ b) items = fillBins l a items ++ fillBins l b (items.drop ((a.map (fun x => x.cap / l)).sum))
  | [], b, items => by simp [fillBins]
  | x :: a, b, items => by
    simp only [List.cons_append, fillBins, List.map_cons, List.sum_cons, fillBins_append l a b, List.drop_drop]

theorem pileAt_same {d : Dim} (x : Nat) : ∀ (items : List (String × Dim)) (y : Nat), (∀ q ∈ items, q.2 = d) →
    pileAt x y items = items.mapIdx (fun k q => (q.1, ⟨x, y + k * d.l, d.w, d.l⟩))
  | [], _, _ => rfl
  | (id, e) :: items, y, h => by
    have he : e = d := h (id, e) (by simp)
    subst he
    rw [pileAt, pileAt_same x items _ (fun q hq => h q (by simp [hq])), List.mapIdx_cons]
    simp only [Nat.zero_mul, Nat.add_zero, Nat.add_mul, Nat.one_mul]
    congr 2
    funext k q
    rw [show y + e.l + k * e.l = y + (k * e.l + e.l) by omega]

theorem standing_fill {d : Dim} (hl : 0 < d.l) (cid : String) (cap : Nat) : ∀ (n : Nat) (items : List (String × Dim)) (x : Nat),
    (∀ q ∈ items, q.2 = d) →
    standing d.w x (fillBins d.l (List.replicate n ⟨cid, d.w, cap, []⟩) items) =
      (items.take (n * (cap / d.l))).mapIdx
        (fun k q => (q.1, ⟨x + k / (cap / d.l) * d.w, k % (cap / d.l) * d.l, d.w, d.l⟩))
  | 0, items, x, _ => by simp [fillBins, standing]
  | n + 1, items, x, h => by
    rw [List.replicate_succ, fillBins, standing]
    simp only
    generalize hr : cap / d.l = r
    have ih := standing_fill hl cid cap n (items.drop r) (x + d.w) (fun q hq => h q (List.mem_of_mem_drop hq))
    rw [hr] at ih
    rw [ih, pileAt_same x _ 0 (fun q hq => h q (List.mem_of_mem_take hq))]
    have e : items.take ((n + 1) * r) = items.take r ++ (items.drop r).take (n * r) := by
      rw [Nat.add_mul, Nat.one_mul, Nat.add_comm, List.take_add]
    rw [e, List.mapIdx_append]
    congr 1
    · apply List.ext_getElem
      · simp
      · intro k h1 h2
        simp only [List.length_mapIdx, List.length_take] at h1
        simp only [List.getElem_mapIdx, Nat.zero_add]
        have hk : k < r := by omega
        rw [Nat.div_eq_of_lt hk, Nat.mod_eq_of_lt hk, Nat.zero_mul, Nat.add_zero]
    · apply List.ext_getElem
      · simp
      · intro k h1 h2
        simp only [List.length_mapIdx, List.length_take, List.length_drop] at h1
        simp only [List.getElem_mapIdx]
        have hlen : (items.take r).length = r := by rw [List.length_take]; omega
        have hr0 : 0 < r := by
          rcases Nat.eq_zero_or_pos r with h0 | h0
          · rw [h0, Nat.mul_zero] at h1; omega
          · exact h0
        simp only [hlen, Nat.add_div_right k hr0, Nat.add_mod_right, Nat.succ_mul]
        rw [show x + d.w + k / r * d.w = x + (k / r * d.w + d.w) by omega]

theorem columns_grid {d : Dim} (hw : 0 < d.w) (hl : 0 < d.l) (len : Dim → Nat) : ∀ (cs : List (String × Dim))
    (cols : List (String × List Bin)) (items : List (String × Dim)), (∀ q ∈ items, q.2 = d) →
    cols.map (fun c => (c.1, c.2.length)) = cs.map (fun c => (c.1, c.2.w / d.w)) →
    cols.flatMap (·.2) = fillBins d.l (columnsOf d.w cs len) items →
    cols.map (fun c => (c.1, standing d.w 0 c.2)) = gridFill d len cs (items.map (·.1))
  | [], cols, items, _, h1, _ => by
    have : cols = [] := by simpa using h1
    rw [this]; rfl
  | (cid, c) :: cs, cols, items, h, h1, h2 => by
    cases cols with
    | nil => simp at h1
    | cons x cols =>
      obtain ⟨xid, bins⟩ := x
      simp only [List.map_cons, List.cons.injEq, Prod.mk.injEq] at h1
      obtain ⟨⟨e1, e2⟩, e3⟩ := h1
      subst e1
      have hco : columnsOf d.w ((xid, c) :: cs) len = List.replicate (c.w / d.w) ⟨xid, d.w, len c, []⟩ ++ columnsOf d.w cs len := rfl
      rw [hco, fillBins_append, List.flatMap_cons] at h2
      have hsum : ((List.replicate (c.w / d.w) (⟨xid, d.w, len c, []⟩ : Bin)).map (fun x => x.cap / d.l)).sum =
          gridRoom d c.w (len c) := by simp [gridRoom]
      rw [hsum] at h2
      obtain ⟨g1, g2⟩ := List.append_inj h2 (by rw [fillBins_length, List.length_replicate, e2])
      have ih := columns_grid hw hl len cs cols (items.drop (gridRoom d c.w (len c)))
        (fun q hq => h q (List.mem_of_mem_drop hq)) e3 g2
      rw [List.map_cons, ih, gridFill, List.map_drop]
      congr 1
      simp only [Prod.mk.injEq, true_and]
      simp only at g1
      rw [g1, standing_fill hl xid (len c) _ _ 0 h]
      unfold columnGrid gridRoom
      rw [← List.map_take]
      apply List.ext_getElem
      · simp
      · intro k h1 h2
        simp

/-- **C125**: `solve()` packs items of one size `d` as a grid: container after container, each takes the next of the
items, as many as stand in it as a grid, column after column. -/
theorem C125_grid (A : Arith) (p : SolveIn) (hv : ValidIn p) (seq : Option (List String)) (hs : KnownSeq p seq)
    (d : Dim) (hd : ∀ q ∈ p.items, q.2 = d) (hturn : p.rotation = true → d.w = d.l ∨ ∀ c ∈ p.containers, c.2.w < d.l)
    (har : p.strip = true ∨ A = Arith.exact) (hst : ColumnOrder p.strategy) (sol : Solution) (ov : ObjVals)
    (h : solve A p seq = .ok (sol, ov)) (hsome : p.items ≠ []) :
    sol = gridFill d (fun c => if p.strip then p.height else c.l) p.containers ((solvedFor p.items seq).map (·.1)) := by
  obtain ⟨q0, hq0⟩ := List.exists_mem_of_ne_nil _ hsome
  have hpos := hv.items.2 _ hq0
  rw [hd q0 hq0] at hpos
  have hone : OneWidth d.w p.rotation p.containers p.items := by
    intro q hq
    rw [hd q hq]
    refine ⟨rfl, fun hr => ?_⟩
    rcases hturn hr with h1 | h1
    · exact .inl h1.symm
    · exact .inr h1
  obtain ⟨cols, h1, h2, h3⟩ := C118_columns A p hv seq hs d.w hpos.1 hone har hst sol ov h
  have hd' : ∀ q ∈ solvedFor p.items seq, q.2 = d := fun q hq => hd q (solvedFor_mem _ hq)
  rw [firstFit_fill hpos.2 _ _ hd' (by
    intro b hb
    obtain ⟨c, _, hb⟩ := List.mem_flatMap.1 hb
    rw [List.eq_of_mem_replicate hb]
    exact ⟨rfl, le_refl _⟩)] at h2
  rw [h3]
  exact columns_grid hpos.1 hpos.2 _ _ _ _ hd' h1 h2

/-! ### as many as possible -/

/-- rectangles of one size that do not overlap are not more than stand as a grid -/
theorem grid_bound {d : Dim} (hw : 0 < d.w) (hl : 0 < d.l) {W L : Nat} {m : List Rect} (hd : m.Pairwise Spec.Disjoint)
    (hin : ∀ r ∈ m, Inside W L r ∧ r.w = d.w ∧ r.l = d.l) : m.length ≤ gridRoom d W L := by
  have hcell : ∀ r ∈ m, Covers r (r.x / d.w * d.w + (d.w - 1)) (r.y / d.l * d.l + (d.l - 1)) := by
    intro r hr
    obtain ⟨⟨h1, h2⟩, h3, h4⟩ := hin r hr
    have a1 := Nat.div_add_mod r.x d.w
    have a2 := Nat.mod_lt r.x hw
    have b1 := Nat.div_add_mod r.y d.l
    have b2 := Nat.mod_lt r.y hl
    rw [Nat.mul_comm] at a1 b1
    unfold Covers
    rw [h3, h4]
    omega
  have hnd : (m.map (fun r => (r.x / d.w, r.y / d.l))).Nodup := by
    unfold List.Nodup
    rw [List.pairwise_map]
    refine hd.imp_of_mem (fun {a b} ha hb hab he => ?_)
    injection he with e1 e2
    apply hab (a.x / d.w * d.w + (d.w - 1)) (a.y / d.l * d.l + (d.l - 1))
    refine ⟨hcell a ha, ?_⟩
    rw [e1, e2]
    exact hcell b hb
  have hsub : m.map (fun r => (r.x / d.w, r.y / d.l)) ⊆ (List.range (W / d.w)) ×ˢ (List.range (L / d.l)) := by
    intro c hc
    obtain ⟨r, hr, rfl⟩ := List.mem_map.1 hc
    obtain ⟨⟨h1, h2⟩, h3, h4⟩ := hin r hr
    obtain ⟨c1, c2, c3, c4⟩ := hcell r hr
    refine List.pair_mem_product.2 ?_; rw [List.mem_range, List.mem_range]
    constructor
    · apply (Nat.le_div_iff_mul_le hw).2
      rw [Nat.succ_mul]; omega
    · apply (Nat.le_div_iff_mul_le hl).2
      rw [Nat.succ_mul]; omega
  have := (hnd.subperm hsub).length_le
  rw [List.length_map, List.length_product, List.length_range, List.length_range] at this
  exact this

/-- rectangles of the size of an item, if turning is of no use -/
theorem packing_bound {d : Dim} (hw : 0 < d.w) (hl : 0 < d.l) {W L : Nat} {rotation : Bool} {items : List (String × Dim)}
    (hd : ∀ q ∈ items, q.2 = d) (hturn : rotation = true → d.w = d.l ∨ W < d.l) {m : List (String × Rect)}
    (hm : (m.map (·.2)).Pairwise Spec.Disjoint)
    (hin : ∀ q ∈ m, Inside W L q.2 ∧ ∃ dq, (q.1, dq) ∈ items ∧ SizedAs rotation dq q.2) : m.length ≤ gridRoom d W L := by
  have := grid_bound hw hl (W := W) (L := L) hm (by
    intro r hr
    obtain ⟨q, hq, rfl⟩ := List.mem_map.1 hr
    obtain ⟨h1, dq, h2, h3⟩ := hin q hq
    have e := hd _ h2
    simp only at e
    subst e
    refine ⟨h1, ?_⟩
    rcases h3 with h3 | ⟨hr, h3, h4⟩
    · exact h3
    · rcases hturn hr with e | e
      · rw [h3, h4, e]; exact ⟨rfl, rfl⟩
      · exfalso
        have := h1.1
        omega)
  simpa using this

theorem columnGrid_ids (d : Dim) (r : Nat) (ids : List String) : (columnGrid d r ids).map (·.1) = ids := by
  unfold columnGrid
  apply List.ext_getElem
  · simp
  · intro k h1 h2
    simp

theorem gridFill_ids (d : Dim) (len : Dim → Nat) : ∀ (cs : List (String × Dim)) (ids : List String),
    placedIds (gridFill d len cs ids) = ids.take ((cs.map (fun c => gridRoom d c.2.w (len c.2))).sum)
  | [], ids => by simp [gridFill, placedIds]
  | (cid, c) :: cs, ids => by
    have ih := gridFill_ids d len cs (ids.drop (gridRoom d c.w (len c)))
    unfold placedIds at ih ⊢
    rw [gridFill, List.flatMap_cons, ih]
    simp only [columnGrid_ids, List.map_cons, List.sum_cons]
    rw [List.take_add]

section
variable {A : Arith} {p : SolveIn} (hv : ValidIn p) {seq : Option (List String)} (hs : KnownSeq p seq)
  {d : Dim} (hd : ∀ q ∈ p.items, q.2 = d) (hturn : p.rotation = true → d.w = d.l ∨ ∀ c ∈ p.containers, c.2.w < d.l)
  (har : p.strip = true ∨ A = Arith.exact) (hst : ColumnOrder p.strategy) {sol : Solution} {ov : ObjVals}
  (h : solve A p seq = .ok (sol, ov))
include hv hs hd hturn har hst h

theorem C125_placed (hsome : p.items ≠ []) : placedIds sol = ((solvedFor p.items seq).map (·.1)).take
    ((p.containers.map (fun c => gridRoom d c.2.w (if p.strip then p.height else c.2.l))).sum) := by
  rw [C125_grid A p hv seq hs d hd hturn har hst sol ov h hsome, gridFill_ids]

end

/-- **C125**: the number of items placed: all of them, or as many as stand as a grid in each of the containers. -/
theorem C125_number (A : Arith) (p : SolveIn) (hv : ValidIn p) (seq : Option (List String)) (hs : KnownSeq p seq)
    (d : Dim) (hd : ∀ q ∈ p.items, q.2 = d) (hturn : p.rotation = true → d.w = d.l ∨ ∀ c ∈ p.containers, c.2.w < d.l)
    (har : p.strip = true ∨ A = Arith.exact) (hst : ColumnOrder p.strategy) (sol : Solution) (ov : ObjVals)
    (h : solve A p seq = .ok (sol, ov)) (hsome : p.items ≠ []) :
    (placedIds sol).length = min (solvedFor p.items seq).length
      ((p.containers.map (fun c => gridRoom d c.2.w (if p.strip then p.height else c.2.l))).sum) := by
  rw [C125_placed hv hs hd hturn har hst h hsome, List.length_take, List.length_map, Nat.min_comm]

/-- **C125**: no packing of the same items in the same containers has more of them. -/
theorem C125_most (A : Arith) (p : SolveIn) (hv : ValidIn p) (seq : Option (List String)) (hs : KnownSeq p seq)
    (d : Dim) (hd : ∀ q ∈ p.items, q.2 = d) (hturn : p.rotation = true → d.w = d.l ∨ ∀ c ∈ p.containers, c.2.w < d.l)
    (har : p.strip = true ∨ A = Arith.exact) (hst : ColumnOrder p.strategy) (sol : Solution) (ov : ObjVals)
    (h : solve A p seq = .ok (sol, ov)) (other : List (String × List (String × Rect)))
    (hconts : (other.map (·.1)).Nodup) (honce : (placedIds other).Nodup)
    (hother : ∀ x ∈ other, ∃ c, (x.1, c) ∈ p.containers ∧ (x.2.map (·.2)).Pairwise Spec.Disjoint ∧
      ∀ q ∈ x.2, Inside c.w (if p.strip then p.height else c.l) q.2 ∧
        ∃ dq, (q.1, dq) ∈ solvedFor p.items seq ∧ SizedAs p.rotation dq q.2) :
    (placedIds other).length ≤ (placedIds sol).length := by
  by_cases hsome : p.items = []
  · have : placedIds other = [] := by
      rw [List.eq_nil_iff_forall_not_mem]
      intro id hid
      unfold placedIds at hid
      obtain ⟨x, hx, hid⟩ := List.mem_flatMap.1 hid
      obtain ⟨q, hq, rfl⟩ := List.mem_map.1 hid
      obtain ⟨c, _, _, hin⟩ := hother x hx
      obtain ⟨_, dq, hdq, _⟩ := hin q hq
      have := solvedFor_mem _ hdq
      rw [hsome] at this
      cases this
    rw [this]; exact Nat.zero_le _
  rw [C125_number A p hv seq hs d hd hturn har hst sol ov h hsome]
  obtain ⟨q0, hq0⟩ := List.exists_mem_of_ne_nil _ hsome
  have hpos := hv.items.2 _ hq0
  rw [hd q0 hq0] at hpos
  have hd' : ∀ q ∈ solvedFor p.items seq, q.2 = d := fun q hq => hd q (solvedFor_mem _ hq)
  refine Nat.le_min.2 ⟨?_, ?_⟩
  · have hsub : placedIds other ⊆ (solvedFor p.items seq).map (·.1) := by
      intro id hid
      unfold placedIds at hid
      obtain ⟨x, hx, hid⟩ := List.mem_flatMap.1 hid
      obtain ⟨q, hq, rfl⟩ := List.mem_map.1 hid
      obtain ⟨c, _, _, hin⟩ := hother x hx
      obtain ⟨_, dq, hdq, _⟩ := hin q hq
      exact List.mem_map.2 ⟨_, hdq, rfl⟩
    have := (honce.subperm hsub).length_le
    rwa [List.length_map] at this
  · let g : String → Nat := fun cid => ((PyDict.find? p.containers cid).map
      (fun c => gridRoom d c.w (if p.strip then p.height else c.l))).getD 0
    have hg : ∀ c ∈ p.containers, g c.1 = gridRoom d c.2.w (if p.strip then p.height else c.2.l) := by
      intro c hc
      simp only [g, PyDict.find?_of_mem hv.conts.1 (show (c.1, c.2) ∈ p.containers from hc), Option.map_some, Option.getD_some]
    have h1 : (placedIds other).length ≤ ((other.map (·.1)).map g).sum := by
      unfold placedIds
      rw [List.length_flatMap, List.map_map]
      refine List.sum_le_sum (fun x hx => ?_)
      obtain ⟨c, hc, hdis, hin⟩ := hother x hx
      have := packing_bound hpos.1 hpos.2 hd' (fun hr => (hturn hr).imp id (fun h => h _ hc)) hdis hin
      simp only [List.length_map, Function.comp]
      rw [hg _ hc]
      exact this
    have h2 : ((other.map (·.1)).map g).sum ≤ ((p.containers.map (·.1)).map g).sum := by
      have hsub : other.map (·.1) ⊆ p.containers.map (·.1) := by
        intro cid hcid
        obtain ⟨x, hx, rfl⟩ := List.mem_map.1 hcid
        obtain ⟨c, hc, _⟩ := hother x hx
        exact List.mem_map.2 ⟨_, hc, rfl⟩
      obtain ⟨l, hl1, hl2⟩ := hconts.subperm hsub
      rw [← (hl1.map g).sum_eq]
      exact (hl2.map g).sum_le_sum (by simp)
    have h3 : ((p.containers.map (·.1)).map g).sum =
        (p.containers.map (fun c => gridRoom d c.2.w (if p.strip then p.height else c.2.l))).sum := by
      rw [List.map_map]
      exact congrArg List.sum (List.map_congr_left hg)
    omega

/-- how many containers are used if all have the same room -/
theorem gridFill_used (d : Dim) (len : Dim → Nat) (K : Nat) (hK : 0 < K) : ∀ (cs : List (String × Dim)) (ids : List String),
    (∀ c ∈ cs, gridRoom d c.2.w (len c.2) = K) →
    ((gridFill d len cs ids).filter (fun c => !c.2.isEmpty)).length * K < (placedIds (gridFill d len cs ids)).length + K
  | [], ids, _ => by simpa [gridFill, placedIds] using hK
  | (cid, c) :: cs, ids, h => by
    have hc := h (cid, c) (by simp)
    simp only at hc
    have ih := gridFill_used d len K hK cs (ids.drop K) (fun x hx => h x (by simp [hx]))
    have hpl : placedIds (gridFill d len ((cid, c) :: cs) ids) = ids.take K ++ placedIds (gridFill d len cs (ids.drop K)) := by
      unfold placedIds
      rw [gridFill, List.flatMap_cons, columnGrid_ids, hc]
    rw [hpl, List.length_append, List.length_take, gridFill, hc, List.filter_cons]
    cases ids with
    | nil =>
      have e : placedIds (gridFill d len cs (List.drop K [])) = [] := by
        rw [gridFill_ids]; simp
      rw [e] at ih ⊢
      have : ((columnGrid d (len c / d.l) (List.take K [])).isEmpty) = true := by simp [columnGrid]
      simp only [this]
      simpa using ih
    | cons a ids =>
      have hne : ((columnGrid d (len c / d.l) (List.take K (a :: ids))).isEmpty) = false := by
        obtain ⟨n, rfl⟩ : ∃ n, K = n + 1 := ⟨K - 1, by omega⟩
        simp [columnGrid]
      simp only [hne, Bool.not_false, if_true, List.length_cons, Nat.add_mul, Nat.one_mul]
      by_cases hle : ids.length + 1 ≤ K
      · have e : placedIds (gridFill d len cs (List.drop K (a :: ids))) = [] := by
          rw [gridFill_ids, List.drop_eq_nil_of_le (by simpa using hle)]; simp
        rw [e] at ih ⊢
        simp only [List.length_nil, Nat.zero_add] at ih
        simp only [List.length_nil, Nat.add_zero]
        have : 0 < min K (ids.length + 1) := by omega
        have hu : ((gridFill d len cs (List.drop K (a :: ids))).filter (fun c => !c.2.isEmpty)).length = 0 := by
          by_contra h0
          have := Nat.mul_le_mul_right K (Nat.pos_of_ne_zero h0)
          omega
        rw [hu]
        omega
      · rw [Nat.min_eq_left (by omega)]
        omega

/-- **C125**: with equal containers no packing of the items placed needs fewer containers. -/
theorem C125_fewest (A : Arith) (p : SolveIn) (hv : ValidIn p) (seq : Option (List String)) (hs : KnownSeq p seq)
    (d : Dim) (hd : ∀ q ∈ p.items, q.2 = d) (hturn : p.rotation = true → d.w = d.l ∨ ∀ c ∈ p.containers, c.2.w < d.l)
    (har : p.strip = true ∨ A = Arith.exact) (hst : ColumnOrder p.strategy) (sol : Solution) (ov : ObjVals)
    (h : solve A p seq = .ok (sol, ov)) (W L : Nat) (hc : ∀ c ∈ p.containers, c.2.w = W ∧ (if p.strip then p.height else c.2.l) = L)
    (hne : p.containers ≠ []) (other : List (List (String × Rect)))
    (hother : ∀ m ∈ other, (m.map (·.2)).Pairwise Spec.Disjoint ∧
      ∀ q ∈ m, Inside W L q.2 ∧ ∃ dq, (q.1, dq) ∈ p.items ∧ SizedAs p.rotation dq q.2)
    (hall : ∀ id ∈ placedIds sol, ∃ m ∈ other, id ∈ m.map (·.1)) :
    (sol.filter (fun c => !c.2.isEmpty)).length ≤ other.length := by
  by_cases hsome : p.items = []
  · have hp : placedIds sol = [] := by
      rw [List.eq_nil_iff_forall_not_mem]
      intro id hid
      obtain ⟨x, hx, hid⟩ := List.mem_flatMap.1 hid
      obtain ⟨q, hq, rfl⟩ := List.mem_map.1 hid
      obtain ⟨dq, hdq, _⟩ := C05_sizes A p hv seq hs sol ov h x.1 x.2 hx q.1 q.2 hq
      rw [hsome] at hdq
      cases hdq
    have : sol.filter (fun c => !c.2.isEmpty) = [] := by
      rw [List.filter_eq_nil_iff]
      intro c hc
      cases hcm : c.2 with
      | nil => simp
      | cons a l =>
        exfalso
        have : a.1 ∈ placedIds sol := List.mem_flatMap.2 ⟨c, hc, by rw [hcm]; simp⟩
        rw [hp] at this
        cases this
    rw [this]; exact Nat.zero_le _
  obtain ⟨q0, hq0⟩ := List.exists_mem_of_ne_nil _ hsome
  have hpos := hv.items.2 _ hq0
  rw [hd q0 hq0] at hpos
  have hturn' : p.rotation = true → d.w = d.l ∨ W < d.l := by
    intro hr
    obtain ⟨c, hcm⟩ := List.exists_mem_of_ne_nil _ hne
    exact (hturn hr).imp id (fun h => by rw [← (hc c hcm).1]; exact h c hcm)
  have heq := C125_grid A p hv seq hs d hd hturn har hst sol ov h hsome
  have hroom : ∀ c ∈ p.containers, gridRoom d c.2.w (if p.strip then p.height else c.2.l) = gridRoom d W L := by
    intro c hcm
    obtain ⟨e1, e2⟩ := hc c hcm
    rw [e1, e2]
  have hplaced : (placedIds sol).length ≤ other.length * gridRoom d W L := by
    have hnd : (placedIds sol).Nodup := (C04_once A p hv seq hs sol ov h).2.2.1
    have hsub : placedIds sol ⊆ other.flatMap (fun m => m.map (·.1)) := by
      intro id hid
      obtain ⟨m, hm, hid⟩ := hall id hid
      exact List.mem_flatMap.2 ⟨m, hm, hid⟩
    refine (hnd.subperm hsub).length_le.trans ?_
    rw [List.length_flatMap]
    refine (List.sum_le_card_nsmul _ (gridRoom d W L) ?_).trans ?_
    · intro x hx
      obtain ⟨m, hm, rfl⟩ := List.mem_map.1 hx
      rw [List.length_map]
      exact packing_bound hpos.1 hpos.2 hd hturn' (hother m hm).1 (hother m hm).2
    · simp
  rcases Nat.eq_zero_or_pos (gridRoom d W L) with h0 | h0
  · have hp : placedIds sol = [] := by
      rw [h0, Nat.mul_zero] at hplaced
      exact List.length_eq_zero_iff.1 (Nat.le_zero.1 hplaced)
    have : sol.filter (fun c => !c.2.isEmpty) = [] := by
      rw [List.filter_eq_nil_iff]
      intro c hc
      cases hcm : c.2 with
      | nil => simp
      | cons a l =>
        exfalso
        have : a.1 ∈ placedIds sol := List.mem_flatMap.2 ⟨c, hc, by rw [hcm]; simp⟩
        rw [hp] at this
        cases this
    rw [this]; exact Nat.zero_le _
  · have hu : (sol.filter (fun c => !c.2.isEmpty)).length * gridRoom d W L < (placedIds sol).length + gridRoom d W L := by
      rw [heq]
      exact gridFill_used d (fun c => if p.strip then p.height else c.l) _ h0 p.containers
        ((solvedFor p.items seq).map (·.1)) hroom
    have : (sol.filter (fun c => !c.2.isEmpty)).length * gridRoom d W L < (other.length + 1) * gridRoom d W L := by
      rw [Nat.add_mul, Nat.one_mul]; omega
    exact Nat.lt_succ_iff.1 (Nat.lt_of_mul_lt_mul_right this)

/-! ### rows -/

theorem shelves_fill {d : Dim} (hw : 0 < d.w) (cid : String) (W : Nat) (n : Nat) (items : List (String × Dim))
    (h : ∀ q ∈ items, q.2 = d) :
    shelves d.l 0 (fillBins d.w (List.replicate n ⟨cid, d.l, W, []⟩) (turnedItems items)) =
      rowGrid d (W / d.w) ((items.map (·.1)).take (n * (W / d.w))) := by
  have ht : ∀ q ∈ turnedItems items, q.2 = (⟨d.l, d.w⟩ : Dim) := by
    intro q hq
    obtain ⟨q', hq', rfl⟩ := List.mem_map.1 hq
    simp only [h q' hq']
  have := standing_fill (d := ⟨d.l, d.w⟩) hw cid W n (turnedItems items) 0 ht
  rw [Rows.shelves_flip, this]
  unfold rowGrid
  apply List.ext_getElem
  · simp [turnedItems]
  · intro k h1 h2
    simp [turnedItems, Rows.flipQ]

theorem rows_grid {d : Dim} (hw : 0 < d.w) (len : Dim → Nat) : ∀ (cs : List (String × Dim))
    (rows : List (String × List Bin)) (items : List (String × Dim)), (∀ q ∈ items, q.2 = d) →
    rows.map (fun c => (c.1, c.2.length)) = cs.map (fun c => (c.1, len c.2 / d.l)) →
    rows.flatMap (·.2) = fillBins d.w (shelfRows d.l cs len) (turnedItems items) →
    rows.map (fun c => (c.1, shelves d.l 0 c.2)) = rowFill d len cs (items.map (·.1))
  | [], rows, items, _, h1, _ => by
    have : rows = [] := by simpa using h1
    rw [this]; rfl
  | (cid, c) :: cs, rows, items, h, h1, h2 => by
    cases rows with
    | nil => simp at h1
    | cons x rows =>
      obtain ⟨xid, bins⟩ := x
      simp only [List.map_cons, List.cons.injEq, Prod.mk.injEq] at h1
      obtain ⟨⟨e1, e2⟩, e3⟩ := h1
      subst e1
      have hco : shelfRows d.l ((xid, c) :: cs) len =
          List.replicate (len c / d.l) ⟨xid, d.l, c.w, []⟩ ++ shelfRows d.l cs len := rfl
      rw [hco, fillBins_append, List.flatMap_cons] at h2
      have hsum : ((List.replicate (len c / d.l) (⟨xid, d.l, c.w, []⟩ : Bin)).map (fun x => x.cap / d.w)).sum =
          gridRoom d c.w (len c) := by simp [gridRoom, Nat.mul_comm]
      rw [hsum] at h2
      obtain ⟨g1, g2⟩ := List.append_inj h2 (by rw [fillBins_length, List.length_replicate, e2])
      have hdrop : List.drop (gridRoom d c.w (len c)) (turnedItems items) = turnedItems (items.drop (gridRoom d c.w (len c))) := by
        unfold turnedItems; rw [List.map_drop]
      rw [hdrop] at g2
      have ih := rows_grid hw len cs rows (items.drop (gridRoom d c.w (len c)))
        (fun q hq => h q (List.mem_of_mem_drop hq)) e3 g2
      rw [List.map_cons, ih, rowFill, List.map_drop]
      congr 1
      simp only [Prod.mk.injEq, true_and]
      simp only at g1
      rw [g1, shelves_fill hw xid c.w _ _ h, show len c / d.l * (c.w / d.w) = gridRoom d c.w (len c) from Nat.mul_comm _ _]

/-- **C125**: with B before A before A'' in the strategy the grid is filled row after row. -/
theorem C125_rows (A : Arith) (p : SolveIn) (hv : ValidIn p) (seq : Option (List String)) (hs : KnownSeq p seq)
    (d : Dim) (hd : ∀ q ∈ p.items, q.2 = d) (ht : 2 ≤ d.l)
    (hturn : p.rotation = true → d.w = d.l ∨ ∀ c ∈ p.containers, (if p.strip then p.height else c.2.l) < d.w)
    (har : p.strip = true ∨ A = Arith.exact) (hst : RowOrder p.strategy) (sol : Solution) (ov : ObjVals)
    (h : solve A p seq = .ok (sol, ov)) (hsome : p.items ≠ []) :
    sol = rowFill d (fun c => if p.strip then p.height else c.l) p.containers ((solvedFor p.items seq).map (·.1)) := by
  obtain ⟨q0, hq0⟩ := List.exists_mem_of_ne_nil _ hsome
  have hpos := hv.items.2 _ hq0
  rw [hd q0 hq0] at hpos
  have hone : OneLength d.l p.rotation p.containers p.items (fun c => if p.strip then p.height else c.l) := by
    intro q hq
    rw [hd q hq]
    exact ⟨rfl, fun hr => hturn hr⟩
  obtain ⟨rows, h1, h2, h3⟩ := C119_rows A p hv seq hs d.l ht hone har hst sol ov h
  have hd' : ∀ q ∈ solvedFor p.items seq, q.2 = d := fun q hq => hd q (solvedFor_mem _ hq)
  rw [firstFit_fill (d := ⟨d.l, d.w⟩) hpos.1 _ _ (by
    intro q hq
    obtain ⟨q', hq', rfl⟩ := List.mem_map.1 hq
    simp only [hd' q' hq']) (by
    intro b hb
    obtain ⟨c, _, hb⟩ := List.mem_flatMap.1 hb
    rw [List.eq_of_mem_replicate hb]
    exact ⟨rfl, le_refl _⟩)] at h2
  rw [h3]
  exact rows_grid hpos.1 _ _ _ _ hd' h1 h2

theorem rowGrid_ids (d : Dim) (r : Nat) (ids : List String) : (rowGrid d r ids).map (·.1) = ids := by
  unfold rowGrid
  apply List.ext_getElem
  · simp
  · intro k h1 h2
    simp

/-- **C126**: strip packing, with B before A before A'' in the strategy: if all items can be packed into a part of the
strip that is `h` high, `solve()` packs all of them and not higher than `h`. -/
theorem C126_rows_partial (A : Arith) (p : SolveIn) (hv : ValidIn p) (hstrip : p.strip = true) (cid : String) (c : Dim)
    (hc : p.containers = [(cid, c)]) (seq : Option (List String)) (hs : KnownSeq p seq)
    (d : Dim) (hd : ∀ q ∈ p.items, q.2 = d) (ht : 2 ≤ d.l) (hturn : p.rotation = true → d.w = d.l)
    (hst : RowOrder p.strategy) (sol : Solution) (ov : ObjVals) (h : solve A p seq = .ok (sol, ov))
    (top : Nat) (htop : top ≤ p.height) (other : List (String × Rect)) (hdis : (other.map (·.2)).Pairwise Spec.Disjoint)
    (hin : ∀ q ∈ other, Inside c.w top q.2 ∧ ∃ dq, (q.1, dq) ∈ p.items ∧ SizedAs p.rotation dq q.2)
    (hall : (other.map (·.1)).Perm ((solvedFor p.items seq).map (·.1))) :
    ∃ m, sol = [(cid, m)] ∧ m.map (·.1) = (solvedFor p.items seq).map (·.1) ∧ ∀ q ∈ m, q.2.y + q.2.l ≤ top := by
  by_cases hsome : p.items = []
  · have hsv : (solvedFor p.items seq).map (·.1) = [] := by
      rw [List.map_eq_nil_iff, List.eq_nil_iff_forall_not_mem]
      intro q hq
      have := solvedFor_mem _ hq
      rw [hsome] at this
      cases this
    have hkeys := (C04_once A p hv seq hs sol ov h).1
    rw [hc] at hkeys
    obtain ⟨⟨k, m⟩, rfl⟩ : ∃ x, sol = [x] := by
      match sol, hkeys with
      | [x], _ => exact ⟨x, rfl⟩
    simp only [List.map_cons, List.map_nil, List.cons.injEq, and_true] at hkeys
    subst hkeys
    have : m = [] := by
      rw [List.eq_nil_iff_forall_not_mem]
      intro q hq
      obtain ⟨dq, hdq, _⟩ := C05_sizes A p hv seq hs _ ov h k m (by simp) q.1 q.2 hq
      rw [hsome] at hdq
      cases hdq
    subst this
    exact ⟨[], rfl, by rw [hsv]; rfl, by simp⟩
  have heq := C125_rows A p hv seq hs d hd ht (fun hr => .inl (hturn hr)) (.inl hstrip) hst sol ov h hsome
  obtain ⟨q0, hq0⟩ := List.exists_mem_of_ne_nil _ hsome
  have hpos := hv.items.2 _ hq0
  rw [hd q0 hq0] at hpos
  have hn := packing_bound hpos.1 hpos.2 hd (fun hr => .inl (hturn hr)) hdis hin
  have hn' := hall.length_eq
  rw [List.length_map] at hn'
  rw [hn'] at hn
  generalize hids : (solvedFor p.items seq).map (·.1) = ids at *
  rw [hc, rowFill, rowFill] at heq
  simp only [hstrip, if_true] at heq
  have hroom : gridRoom d c.w top ≤ gridRoom d c.w p.height :=
    Nat.mul_le_mul_left _ (Nat.div_le_div_right htop)
  rw [List.take_of_length_le (by omega)] at heq
  refine ⟨_, heq, rowGrid_ids _ _ _, ?_⟩
  intro q hq
  unfold rowGrid at hq
  obtain ⟨k, hk, rfl⟩ := List.mem_iff_getElem.1 hq
  rw [List.length_mapIdx] at hk
  rw [List.getElem_mapIdx]
  simp only
  have h1 : k / (c.w / d.w) < top / d.l := Nat.div_lt_of_lt_mul (by unfold gridRoom at hn; omega)
  have h2 := Nat.mul_le_mul_right d.l h1
  have h3 := Nat.div_mul_le_self top d.l
  rw [Nat.succ_mul] at h2
  omega

/-! ### the default strategy in a strip -/

/-- **C126**: strip packing with the default strategy: if all items on top of each other are not higher than
`container_height`, then that is where they are put. -/
theorem C126_pile (A : Arith) (p : SolveIn) (hv : ValidIn p) (hstrip : p.strip = true) (cid : String) (c : Dim)
    (hc : p.containers = [(cid, c)]) (seq : Option (List String)) (hs : KnownSeq p seq)
    (d : Dim) (hd : ∀ q ∈ p.items, q.2 = d) (hw : d.w ≤ c.w) (hturn : p.rotation = true → d.w = d.l ∨ c.w < d.l)
    (hst : ColumnOrder p.strategy) (hhigh : (solvedFor p.items seq).length * d.l ≤ p.height)
    (sol : Solution) (ov : ObjVals) (h : solve A p seq = .ok (sol, ov)) (hsome : p.items ≠ []) :
    sol = [(cid, ((solvedFor p.items seq).map (·.1)).mapIdx (fun k id => (id, ⟨0, k * d.l, d.w, d.l⟩)))] := by
  have heq := C125_grid A p hv seq hs d hd (by rw [hc]; simpa using hturn) (.inl hstrip) hst sol ov h hsome
  obtain ⟨q0, hq0⟩ := List.exists_mem_of_ne_nil _ hsome
  have hpos := hv.items.2 _ hq0
  rw [hd q0 hq0] at hpos
  have hr : (solvedFor p.items seq).length ≤ p.height / d.l := (Nat.le_div_iff_mul_le hpos.2).2 hhigh
  have h1 : 1 ≤ c.w / d.w := (Nat.le_div_iff_mul_le hpos.1).2 (by omega)
  rw [hc, gridFill, gridFill] at heq
  simp only [hstrip, if_true] at heq
  have hroom : (solvedFor p.items seq).length ≤ gridRoom d c.w p.height := by
    have := Nat.mul_le_mul_right (p.height / d.l) h1
    unfold gridRoom
    omega
  rw [List.take_of_length_le (by rw [List.length_map]; exact hroom)] at heq
  rw [heq]
  congr 2
  unfold columnGrid
  apply List.ext_getElem
  · simp
  · intro k a1 a2
    rw [List.length_mapIdx, List.length_map] at a1
    have hk : k < p.height / d.l := by omega
    rw [List.getElem_mapIdx, List.getElem_mapIdx]
    simp only [Nat.div_eq_of_lt hk, Nat.mod_eq_of_lt hk, Nat.zero_mul]

/-- **C126**: and `local_search()` leaves them there. -/
theorem C126_pile_search (A : Arith) (i : Inst) (hr : Reach A i) (hstrip : i.strip = true) (W : Nat)
    (hW : i.containers = [(stripId, ⟨W, stripInitHeight⟩)]) (hst : i.strategy = defaultStrategy)
    (d : Dim) (hd : ∀ q ∈ i.items, q.2 = d) (hw : d.w ≤ W) (hturn : i.rotation = true → d.w = d.l)
    (H : Nat) (hH : i.height = some H) (hhigh : i.items.length * d.l ≤ H) (clock : Nat → Rat) (throttle : Bool) :
    (step A i (.localSearch clock throttle)).2 = .ok ∧
    SamePacking (step A i (.localSearch clock throttle)).1.solution
      [(stripId, (i.items.map (·.1)).mapIdx (fun k id => (id, ⟨0, k * d.l, d.w, d.l⟩)))] := by
  have hv := hr.good.valid.solveIn
  obtain ⟨h1, h2, _, h4⟩ := C124_local_search A i hr d hd clock throttle
  refine ⟨h1, ?_⟩
  have hs : KnownSeq i.solveIn none := by intro s h; cases h
  obtain ⟨sol, ov, h⟩ := (C06_total A i.solveIn hv none).1 hs
  have hp := C126_pile A i.solveIn hv hstrip stripId ⟨W, stripInitHeight⟩ hW none hs d hd hw (fun hr => .inl (hturn hr))
    (by
      show ColumnOrder i.strategy
      rw [hst]
      exact ⟨[], [], _, rfl, by decide, by decide⟩)
    (by
      show i.items.length * d.l ≤ i.height.getD 0
      rw [hH]; exact hhigh) sol ov h hr.good.valid.itemsNe
  have e : (step A i (.solve none)).1.solution = sol := by
    simp only [step, Inst.solve, h, bind, Except.bind, pure, Except.pure]
  rw [e, hp] at h4
  exact h4

/-- `PointGenPack(items={"a": 1 × 1, "b": 1 × 1, "c": 1 × 1}, strip_pack_width=3)` -/
def flatStrip : Inst := { rawInst true [(stripId, ⟨3, stripInitHeight⟩)]
    [("a", ⟨1, 1⟩), ("b", ⟨1, 1⟩), ("c", ⟨1, 1⟩)] (some 30) (.dict []) with
  rotation := true, maxTime := 60, workers := .int 1 }

theorem flatStrip_reach (A : Arith) : Reach A flatStrip :=
  .new (E := bareEnv) (i := flatStrip) (containers := .none)
    (items := SKind.items.encodeAll [("a", ⟨1, 1⟩), ("b", ⟨1, 1⟩), ("c", ⟨1, 1⟩)]) (settings := .none)
    (stripWidth := .int 3) (by rfl)

/-- The claim that `local_search()` finds the lowest strip for items of equal size is false of the code: three unit
squares side by side fill a strip of width 3 to the height 1, and they are left in one pile, whatever the clock says. -/
theorem C126_refuted : ∃ (i : Inst) (lowest : List (String × Rect)), Reach Arith.exact i ∧ i.strip = true ∧
    i.strategy = defaultStrategy ∧ i.containers = [(stripId, ⟨3, stripInitHeight⟩)] ∧ (∀ q ∈ i.items, q.2 = ⟨1, 1⟩) ∧
    (lowest.map (·.1)).Perm (i.items.map (·.1)) ∧ (lowest.map (·.2)).Pairwise Spec.Disjoint ∧
    (∀ q ∈ lowest, Inside 3 1 q.2 ∧ q.2.w = 1 ∧ q.2.l = 1) ∧
    ∀ (clock : Nat → Rat) (throttle : Bool), (step Arith.exact i (.localSearch clock throttle)).2 = .ok ∧
      SamePacking (step Arith.exact i (.localSearch clock throttle)).1.solution
        [(stripId, [("a", ⟨0, 0, 1, 1⟩), ("b", ⟨0, 1, 1, 1⟩), ("c", ⟨0, 2, 1, 1⟩)])] := by
  refine ⟨flatStrip, [("a", ⟨0, 0, 1, 1⟩), ("b", ⟨1, 0, 1, 1⟩), ("c", ⟨2, 0, 1, 1⟩)], flatStrip_reach _, rfl, rfl, rfl,
    by decide, by decide, ?_, by unfold Inside; decide, ?_⟩
  · simp only [List.map_cons, List.map_nil, List.pairwise_cons, List.mem_cons, List.not_mem_nil, or_false, forall_eq_or_imp,
      forall_eq, Spec.Disjoint, Covers]
    refine ⟨⟨?_, ?_⟩, ?_, ?_⟩
    all_goals first | (intro x y; omega) | simp
  · intro clock throttle
    have := C126_pile_search Arith.exact flatStrip (flatStrip_reach _) rfl 3 rfl rfl ⟨1, 1⟩ (by decide) (by decide)
      (fun _ => rfl) 30 rfl (by decide) clock throttle
    exact this

/-- **C125** in binary64 arithmetic, for bin packing problems of ordinary size -/
theorem C125_double (p : SolveIn) (hv : ValidIn p) (hb : p.strip = false) (seq : Option (List String)) (hs : KnownSeq p seq)
    (d : Dim) (hd : ∀ q ∈ p.items, q.2 = d) (hturn : p.rotation = true → d.w = d.l ∨ ∀ c ∈ p.containers, c.2.w < d.l)
    (hlow : ¬ LowStrip p.rotation d)
    (hsmall : ∀ c ∈ p.containers, 10 * ((p.items.length + 1) * (c.2.w * c.2.l)) < 2 ^ 53)
    (hst : ColumnOrder p.strategy) (sol : Solution) (ov : ObjVals) (h : solve Arith.double p seq = .ok (sol, ov))
    (hsome : p.items ≠ []) :
    sol = gridFill d (fun c => c.l) p.containers ((solvedFor p.items seq).map (·.1)) := by
  obtain ⟨ov', h'⟩ := (C83_bin p hv hb (fun q hq => by rw [hd q hq]; exact hlow) hsmall seq hs sol).1 ⟨ov, h⟩
  have := C125_grid Arith.exact p hv seq hs d hd hturn (.inr rfl) hst sol ov' h' hsome
  simpa only [hb, Bool.false_eq_true, if_false] using this

/-- **C125** for a problem: with the default strategy `problem.solve()` packs as many of equal items as possible. -/
theorem C125_api (i : Inst) (A : Arith) (hr : Reach A i) (har : i.strip = true ∨ A = Arith.exact)
    (hst : i.strategy = defaultStrategy) (d : Dim) (hd : ∀ q ∈ i.items, q.2 = d)
    (hturn : i.rotation = true → d.w = d.l ∨ ∀ c ∈ i.containers, c.2.w < d.l) :
    (step A i (.solve none)).2 = .ok ∧
    (step A i (.solve none)).1.solution =
      gridFill d (fun c => if i.strip then i.height.getD 0 else c.l) i.containers (i.items.map (·.1)) ∧
    ∀ other : List (String × List (String × Rect)), (other.map (·.1)).Nodup → (placedIds other).Nodup →
      (∀ x ∈ other, ∃ c, (x.1, c) ∈ i.containers ∧ (x.2.map (·.2)).Pairwise Spec.Disjoint ∧
        ∀ q ∈ x.2, Inside c.w (if i.strip then i.height.getD 0 else c.l) q.2 ∧
          ∃ dq, (q.1, dq) ∈ i.items ∧ SizedAs i.rotation dq q.2) →
      (placedIds other).length ≤ (placedIds (step A i (.solve none)).1.solution).length := by
  have hv := hr.good.valid.solveIn
  have hs : KnownSeq i.solveIn none := by intro s h; cases h
  obtain ⟨sol, ov, h⟩ := (C06_total A i.solveIn hv none).1 hs
  have hco : ColumnOrder i.solveIn.strategy := by
    show ColumnOrder i.strategy
    rw [hst]
    exact ⟨[], [], _, rfl, by decide, by decide⟩
  have e : step A i (.solve none) = ({ i with solution := sol, objVals := ov }, .ok) := by
    simp only [step, Inst.solve, h, bind, Except.bind, pure, Except.pure]
  rw [e]
  refine ⟨rfl, C125_grid A i.solveIn hv none hs d hd hturn har hco sol ov h hr.good.valid.itemsNe, ?_⟩
  intro other h1 h2 h3
  exact C125_most A i.solveIn hv none hs d hd hturn har hco sol ov h other h1 h2 h3

/-! ### the hypotheses are met -/

/-- two containers that hold 3 × 2 and 2 × 2 squares of side 2, and eight of them -/
def gridDemo : SolveIn :=
  ⟨[("c", ⟨7, 5⟩), ("e", ⟨4, 4⟩)],
   [("s1", ⟨2, 2⟩), ("s2", ⟨2, 2⟩), ("s3", ⟨2, 2⟩), ("s4", ⟨2, 2⟩), ("s5", ⟨2, 2⟩), ("s6", ⟨2, 2⟩), ("s7", ⟨2, 2⟩), ("s8", ⟨2, 2⟩)],
   defaultStrategy, true, false, 0⟩

example : ValidIn gridDemo ∧ (∀ q ∈ gridDemo.items, q.2 = ⟨2, 2⟩) ∧ gridDemo.rotation = true ∧ ColumnOrder gridDemo.strategy ∧
    ∃ ov, solve Arith.exact gridDemo none = .ok (
      [("c", [("s1", ⟨0, 0, 2, 2⟩), ("s2", ⟨0, 2, 2, 2⟩), ("s3", ⟨2, 0, 2, 2⟩), ("s4", ⟨2, 2, 2, 2⟩), ("s5", ⟨4, 0, 2, 2⟩),
        ("s6", ⟨4, 2, 2, 2⟩)]),
       ("e", [("s7", ⟨0, 0, 2, 2⟩), ("s8", ⟨0, 2, 2, 2⟩)])], ov) := by
  have hv : ValidIn gridDemo := ⟨⟨by decide, by decide⟩, ⟨by decide, by decide⟩, nofun⟩
  have hco : ColumnOrder gridDemo.strategy := ⟨[], [], _, rfl, by decide, by decide⟩
  have hd : ∀ q ∈ gridDemo.items, q.2 = ⟨2, 2⟩ := by decide
  refine ⟨hv, hd, rfl, hco, ?_⟩
  have hs : KnownSeq gridDemo none := by intro s h; cases h
  obtain ⟨sol, ov, h⟩ := (C06_total Arith.exact gridDemo hv none).1 hs
  have := C125_grid Arith.exact gridDemo hv none hs ⟨2, 2⟩ hd (fun _ => .inl rfl) (.inr rfl) hco sol ov h (by decide)
  refine ⟨ov, ?_⟩
  rw [h, this]
  rfl

/-- with B first the squares stand in rows; 5 of them in a strip of width 5 need the height 6 -/
example : ∃ ov, solve Arith.exact ⟨[(stripId, ⟨5, 100⟩)], [("s1", ⟨2, 2⟩), ("s2", ⟨2, 2⟩), ("s3", ⟨2, 2⟩), ("s4", ⟨2, 2⟩), ("s5", ⟨2, 2⟩)],
      [.B, .A, .A__], true, true, 50⟩ none = .ok (
      [(stripId, [("s1", ⟨0, 0, 2, 2⟩), ("s2", ⟨2, 0, 2, 2⟩), ("s3", ⟨0, 2, 2, 2⟩), ("s4", ⟨2, 2, 2, 2⟩), ("s5", ⟨0, 4, 2, 2⟩)])],
      ov) := by
  refine ⟨[(stripId, 20 / 25)], ?_⟩
  decide +kernel

end HP
