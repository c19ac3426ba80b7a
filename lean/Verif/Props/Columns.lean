import Verif.Proofs.Columns
import Verif.Props.Heuristic
import Verif.Props.WideItems
/-
C118: items of one width are packed into columns by first fit.
-/
namespace HP
open Spec

/-- all items have the width `w`, and none can be turned to advantage -/
def Spec.OneWidth (w : Nat) (rotation : Bool) (containers items : List (String × Dim)) : Prop :=
  ∀ q ∈ items, q.2.w = w ∧ (rotation = true → q.2.l = w ∨ ∀ c ∈ containers, c.2.w < q.2.l)

/-- the columns of width `w` of the containers, in order, all empty -/
def Spec.columnsOf (w : Nat) (containers : List (String × Dim)) (len : Dim → Nat) : List Bin :=
  containers.flatMap (fun c => List.replicate (c.2.w / w) ⟨c.1, w, len c.2, []⟩)

/-- the columns of the container together with the items that nothing more fits -/
theorem packs_columns {S : Dim → Setting} {w : Nat} (hw : 0 < w) {cs items : List (String × Dim)}
    {sol : List (String × List (String × Rect))} (h : Spec.Packs S cs items sol)
    (hS : ∀ c ∈ cs, ((S c.2).strip = true ∨ (S c.2).ar = Arith.exact) ∧ (S c.2).W = c.2.w ∧ 0 < c.2.w ∧ 0 < (S c.2).L ∧
      ColumnOrder (S c.2).strategy ∧ OneW (S c.2) w items) :
    ∃ (cols : List (String × List Bin)) (rem : List (String × Dim)),
      cols.map (fun c => (c.1, c.2.length)) = cs.map (fun c => (c.1, c.2.w / w)) ∧
      cols.flatMap (·.2) = firstFit (columnsOf w cs (fun c => (S c).L)) items ∧
      sol = cols.map (fun c => (c.1, standing w 0 c.2)) ∧
      ((cols.flatMap (·.2)).flatMap (·.items) ++ rem).Perm items ∧
      ∀ x ∈ cols, ∃ c, (x.1, c) ∈ cs ∧ ∀ b ∈ x.2, Shut (S c).L rem b := by
  induction h with
  | @nil items => exact ⟨[], items, rfl, by simp [columnsOf, firstFit_nil], rfl, by simp, by simp⟩
  | @cons cid c cs items m left sol hfc _ ih =>
    obtain ⟨h1, h2, h3, h4, h5, h6⟩ := hS (cid, c) (by simp)
    simp only at h1 h2 h3 h4 h5 h6
    obtain ⟨bins, e1, e2, e3, e4, e5, e6⟩ := container_columns hw h1 (by rw [h2]; exact h3) h4 h5 h6 hfc cid
    obtain ⟨cols, rem, f1, f2, f3, f4, f5⟩ := ih (by
      intro c' hc'
      obtain ⟨a1, a2, a3, a4, a5, a6⟩ := hS c' (by simp [hc'])
      exact ⟨a1, a2, a3, a4, a5, fun q hq => a6 q (e3.subset hq)⟩)
    refine ⟨(cid, bins) :: cols, rem, ?_, ?_, ?_, ?_, ?_⟩
    · rw [List.map_cons, List.map_cons, f1, e1, h2]
    · rw [List.flatMap_cons, f2]
      have := e4 (columnsOf w cs (fun c => (S c).L))
      rw [h2] at this
      exact this.symm
    · rw [List.map_cons, ← f3, e2]
    · rw [List.flatMap_cons, List.flatMap_append, List.append_assoc]
      exact (List.Perm.append_left _ f4).trans e5
    · intro x hx
      rcases List.mem_cons.1 hx with rfl | hx
      · refine ⟨c, by simp, fun b hb q hq => e6 b hb q ?_⟩
        exact f4.mem_iff.1 (List.mem_append_right _ hq)
      · obtain ⟨c', hc', hs⟩ := f5 x hx
        exact ⟨c', by simp [hc'], hs⟩

section
variable {A : Arith} {p : SolveIn} (hv : ValidIn p) {seq : Option (List String)} (hs : KnownSeq p seq) {w : Nat} (hw : 0 < w)
  (hone : OneWidth w p.rotation p.containers p.items) {sol : Solution} {ov : ObjVals} (h : solve A p seq = .ok (sol, ov))
include hv hs hw hone h

/-- the placed items have the width `w` and stand at multiples of it -/
theorem column_places {cid : String} {m : PyDict String Rect} (hm : (cid, m) ∈ sol) :
    ∀ q ∈ m, q.2.w = w ∧ 0 < q.2.l ∧ w ∣ q.2.x := by
  obtain ⟨c, hc, hin⟩ := C03_inside A p hv seq hs sol ov h cid m hm
  have hsize : ∀ q ∈ m, q.2.w = w ∧ 0 < q.2.l := by
    intro q hq
    obtain ⟨d, hd, hsz⟩ := C05_sizes A p hv seq hs sol ov h cid m hm q.1 q.2 hq
    have hpos := hv.items.2 _ hd
    obtain ⟨hdw, hdr⟩ := hone _ hd
    simp only at hpos hdw hdr
    rcases hsz with ⟨e1, e2⟩ | ⟨hr, e1, e2⟩
    · exact ⟨by rw [e1, hdw], by omega⟩
    · rcases hdr hr with he | hl
      · exact ⟨by rw [e1, he], by omega⟩
      · exfalso
        have h1 := hl _ hc
        have h2 := (hin q hq).1
        simp only at h1
        omega
  have hmul : ∀ n, ∀ q ∈ m.take n, w ∣ q.2.x := by
    intro n
    induction n with
    | zero => intro q hq; simp at hq
    | succ n ih =>
      intro q hq
      by_cases hn : n < m.length
      · rw [List.take_succ_eq_append_getElem hn, List.mem_append] at hq
        rcases hq with hq | hq
        · exact ih q hq
        · rw [List.mem_singleton] at hq
          have hsplit : m = m.take n ++ (m[n].1, m[n].2) :: m.drop (n + 1) := by
            show m = m.take n ++ m[n] :: m.drop (n + 1)
            rw [List.getElem_cons_drop, List.take_append_drop]
          have hed := (C87_edges A p hv seq hs sol ov h cid m hm (m.take n) m[n].1 m[n].2 _ hsplit).1
          rw [hq]
          rcases hed with h0 | ⟨z, hz, h0⟩
          · rw [h0]; exact Nat.dvd_zero _
          · rw [h0, (hsize z (List.mem_of_mem_take hz)).1]
            exact Nat.dvd_add (ih z hz) (Nat.dvd_refl _)
      · rw [List.take_of_length_le (by omega)] at hq
        rw [List.take_of_length_le (by omega)] at ih
        exact ih q hq
  intro q hq
  exact ⟨(hsize q hq).1, (hsize q hq).2, hmul m.length q (by rw [List.take_length]; exact hq)⟩

/-- so they do not overlap -/
theorem column_disjoint {cid : String} {m : PyDict String Rect} (hm : (cid, m) ∈ sol) :
    (m.map (·.2)).Pairwise Spec.Disjoint := by
  refine List.Pairwise.imp_of_mem (R := SharesOnlyMiddle) ?_ (C01_shared_partial A p hv seq hs sol ov h cid m hm)
  intro a b ha hb hab x y ⟨h1, h2⟩
  obtain ⟨qa, hqa, rfl⟩ := List.mem_map.1 ha
  obtain ⟨qb, hqb, rfl⟩ := List.mem_map.1 hb
  obtain ⟨wa, la, i, hi⟩ := column_places hv hs hw hone h hm qa hqa
  obtain ⟨wb, lb, j, hj⟩ := column_places hv hs hw hone h hm qb hqb
  obtain ⟨a1, a2, a3, a4⟩ := h1
  obtain ⟨b1, b2, b3, b4⟩ := h2
  rw [Nat.mul_comm] at hi hj
  have : i = j := mul_between (w := w) (t := x) (by omega) (by omega) (by omega) (by omega)
  subst this
  have := (hab qb.2.x y ⟨by omega, by omega, a3, a4⟩ ⟨Nat.le_refl _, by omega, b3, b4⟩).2.1
  omega

/-- the columns, with what is left over -/
theorem columns_facts (har : p.strip = true ∨ A = Arith.exact) (hst : ColumnOrder p.strategy) :
    ∃ (cols : List (String × List Bin)) (rem : List (String × Dim)),
      cols.map (fun c => (c.1, c.2.length)) = p.containers.map (fun c => (c.1, c.2.w / w)) ∧
      cols.flatMap (·.2) = firstFit (columnsOf w p.containers (fun c => if p.strip then p.height else c.l)) (solvedFor p.items seq) ∧
      sol = cols.map (fun c => (c.1, standing w 0 c.2)) ∧
      ((cols.flatMap (·.2)).flatMap (·.items) ++ rem).Perm (solvedFor p.items seq) ∧
      ∀ x ∈ cols, ∃ c, (x.1, c) ∈ p.containers ∧ ∀ b ∈ x.2, Shut (if p.strip then p.height else c.l) rem b := by
  have hp := (C76_heuristic A p hv seq hs sol ov h (fun cid m hm => column_disjoint hv hs hw hone h hm) sol).2 rfl
  refine packs_columns hw hp ?_
  intro c hc
  have hcpos := hv.conts.2 _ hc
  refine ⟨har, rfl, hcpos.1, ?_, hst, ?_⟩
  · show 0 < (if p.strip then p.height else c.2.l)
    split
    · rename_i hstrip; exact hv.height hstrip
    · exact hcpos.2
  · intro q hq
    have hqi := solvedFor_mem _ hq
    obtain ⟨h1, h2⟩ := hone _ hqi
    refine ⟨h1, (hv.items.2 _ hqi).2, fun hr => ?_⟩
    rcases h2 hr with h3 | h3
    · exact .inl (by rw [h1, h3])
    · exact .inr (h3 c hc)

end

/-- **C118**: with items of one width `w`, and A before B before B'' in the strategy, the items are distributed over the
columns of the containers (as many of width `w` as fit side by side) by first fit, and stand in them one above the other. -/
theorem C118_columns (A : Arith) (p : SolveIn) (hv : ValidIn p) (seq : Option (List String)) (hs : KnownSeq p seq)
    (w : Nat) (hw : 0 < w) (hone : OneWidth w p.rotation p.containers p.items) (har : p.strip = true ∨ A = Arith.exact)
    (hst : ColumnOrder p.strategy) (sol : Solution) (ov : ObjVals) (h : solve A p seq = .ok (sol, ov)) :
    ∃ cols : List (String × List Bin),
      cols.map (fun c => (c.1, c.2.length)) = p.containers.map (fun c => (c.1, c.2.w / w)) ∧
      cols.flatMap (·.2) = firstFit (columnsOf w p.containers (fun c => if p.strip then p.height else c.l)) (solvedFor p.items seq) ∧
      sol = cols.map (fun c => (c.1, standing w 0 c.2)) := by
  obtain ⟨cols, rem, h1, h2, h3, _⟩ := columns_facts hv hs hw hone h har hst
  exact ⟨cols, h1, h2, h3⟩

/-- **C118** in binary64 arithmetic, for problems of ordinary size -/
theorem C118_double (p : SolveIn) (hv : ValidIn p) (hb : p.strip = false) (seq : Option (List String)) (hs : KnownSeq p seq)
    (hlow : ∀ q ∈ p.items, ¬ LowStrip p.rotation q.2)
    (hsmall : ∀ c ∈ p.containers, 10 * ((p.items.length + 1) * (c.2.w * c.2.l)) < 2 ^ 53)
    (w : Nat) (hw : 0 < w) (hone : OneWidth w p.rotation p.containers p.items)
    (hst : ColumnOrder p.strategy) (sol : Solution) (ov : ObjVals) (h : solve Arith.double p seq = .ok (sol, ov)) :
    ∃ cols : List (String × List Bin),
      cols.map (fun c => (c.1, c.2.length)) = p.containers.map (fun c => (c.1, c.2.w / w)) ∧
      cols.flatMap (·.2) = firstFit (columnsOf w p.containers (fun c => c.l)) (solvedFor p.items seq) ∧
      sol = cols.map (fun c => (c.1, standing w 0 c.2)) := by
  obtain ⟨ov', h'⟩ := (C83_bin p hv hb hlow hsmall seq hs sol).1 ⟨ov, h⟩
  have := C118_columns Arith.exact p hv seq hs w hw hone (.inr rfl) hst sol ov' h'
  simpa only [hb, Bool.false_eq_true, if_false] using this

theorem pileAt_ids (x : Nat) : ∀ (l : List (String × Dim)) (y : Nat), (pileAt x y l).map (·.1) = l.map (·.1)
  | [], y => rfl
  | (id, d) :: l, y => by simp [pileAt, pileAt_ids x l]

theorem standing_ids (w : Nat) : ∀ (cols : List Bin) (x : Nat),
    (standing w x cols).map (·.1) = (cols.flatMap (·.items)).map (·.1)
  | [], x => rfl
  | b :: cols, x => by simp [standing, pileAt_ids, standing_ids w cols]

/-- the lengths of the items that stand at `x` -/
def Spec.lengthsAt (x : Nat) (m : List (String × Rect)) : Nat := ((m.filter (fun q => q.2.x = x)).map (fun q => q.2.l)).sum

theorem pileAt_lengths (x : Nat) : ∀ (l : List (String × Dim)) (y : Nat), lengthsAt x (pileAt x y l) = (l.map (fun q => q.2.l)).sum
  | [], y => rfl
  | (id, d) :: l, y => by
    have := pileAt_lengths x l (y + d.l)
    simp only [lengthsAt] at this
    simp [lengthsAt, pileAt, this]

theorem pileAt_other (x x' : Nat) (hx : x ≠ x') : ∀ (l : List (String × Dim)) (y : Nat), lengthsAt x' (pileAt x y l) = 0
  | [], y => rfl
  | (id, d) :: l, y => by
    have := pileAt_other x x' hx l (y + d.l)
    simp only [lengthsAt] at this
    simp only [lengthsAt, pileAt, List.filter_cons, hx, decide_false, Bool.false_eq_true, if_false]
    exact this

theorem lengthsAt_append (x : Nat) (a b : List (String × Rect)) : lengthsAt x (a ++ b) = lengthsAt x a + lengthsAt x b := by
  simp [lengthsAt]

theorem standing_lengths {w : Nat} (hw : 0 < w) : ∀ (cols : List Bin) (x j : Nat) (hj : j < cols.length),
    lengthsAt (x + j * w) (standing w x cols) = cols[j].load
  | [], x, j, hj => by simp at hj
  | b :: cols, x, j, hj => by
    have hfar : ∀ (cols : List Bin) (x x' : Nat), x' < x → lengthsAt x' (standing w x cols) = 0 := by
      intro cols
      induction cols with
      | nil => intro x x' _; rfl
      | cons b cols ih =>
        intro x x' hx
        simp only [standing, lengthsAt_append]
        rw [pileAt_other _ _ (by omega), ih _ _ (by omega)]
    simp only [standing, lengthsAt_append]
    cases j with
    | zero =>
      rw [Nat.zero_mul, Nat.add_zero, pileAt_lengths, hfar cols (x + w) x (by omega)]
      rfl
    | succ j =>
      rw [pileAt_other _ _ (by
        have : 0 < (j + 1) * w := Nat.mul_pos (by omega) hw
        omega)]
      have := standing_lengths hw cols (x + w) j (by simpa using hj)
      rw [show x + w + j * w = x + (j + 1) * w by rw [Nat.add_mul]; omega] at this
      rw [this, Nat.zero_add]
      rfl

/-- **C118**, left over: an item that was not placed has no room above any of the columns. -/
theorem C118_left (A : Arith) (p : SolveIn) (hv : ValidIn p) (seq : Option (List String)) (hs : KnownSeq p seq)
    (w : Nat) (hw : 0 < w) (hone : OneWidth w p.rotation p.containers p.items) (har : p.strip = true ∨ A = Arith.exact)
    (hst : ColumnOrder p.strategy) (sol : Solution) (ov : ObjVals) (h : solve A p seq = .ok (sol, ov))
    (id : String) (d : Dim) (hit : (id, d) ∈ solvedFor p.items seq) (hleft : id ∉ placedIds sol)
    (cid : String) (m : PyDict String Rect) (hm : (cid, m) ∈ sol) (c : Dim) (hc : (cid, c) ∈ p.containers)
    (j : Nat) (hj : j < c.w / w) : (if p.strip then p.height else c.l) < lengthsAt (j * w) m + d.l := by
  obtain ⟨cols, rem, h1, h2, h3, h4, h5⟩ := columns_facts hv hs hw hone h har hst
  have hrem : (id, d) ∈ rem := by
    have := h4.mem_iff.2 hit
    rcases List.mem_append.1 this with h' | h'
    · exfalso
      apply hleft
      obtain ⟨b, hb, hib⟩ := List.mem_flatMap.1 h'
      obtain ⟨x, hx, hbx⟩ := List.mem_flatMap.1 hb
      rw [h3]
      unfold placedIds
      rw [List.mem_flatMap]
      refine ⟨(x.1, standing w 0 x.2), List.mem_map_of_mem hx, ?_⟩
      simp only [standing_ids]
      exact List.mem_map_of_mem (f := (·.1)) (List.mem_flatMap.2 ⟨b, hbx, hib⟩)
    · exact h'
  rw [h3] at hm
  obtain ⟨x, hx, he⟩ := List.mem_map.1 hm
  injection he with e1 e2
  obtain ⟨c', hc', hsh⟩ := h5 x hx
  have hcc : c' = c := by
    rw [e1] at hc'
    have e1 := PyDict.find?_of_mem hv.conts.1 hc'
    rw [PyDict.find?_of_mem hv.conts.1 hc] at e1
    injection e1 with e1; exact e1.symm
  subst hcc
  have hlen : x.2.length = c'.w / w := by
    have : (x.1, x.2.length) ∈ p.containers.map (fun c => (c.1, c.2.w / w)) := by
      rw [← h1]; exact List.mem_map_of_mem (f := fun c : String × List Bin => (c.1, c.2.length)) hx
    obtain ⟨y, hy, he⟩ := List.mem_map.1 this
    injection he with f1 f2
    have hy' : (x.1, y.2) ∈ p.containers := by rw [← f1]; exact hy
    have e1 := PyDict.find?_of_mem hv.conts.1 hc'
    rw [PyDict.find?_of_mem hv.conts.1 hy'] at e1
    injection e1 with e1
    rw [← f2, e1]
  have hj' : j < x.2.length := by rw [hlen]; exact hj
  have := hsh x.2[j] (List.getElem_mem _) _ hrem
  rw [← e2]
  have hl := standing_lengths hw x.2 0 j hj'
  rw [Nat.zero_add] at hl
  rw [hl]
  exact this

/-- **C118**, enough room: containers of one length `L` with `n` columns together take all items if no item is longer than `M`
and all of them together are not longer than `n` times `L + 1 - M`. -/
theorem C118_enough (A : Arith) (p : SolveIn) (hv : ValidIn p) (seq : Option (List String)) (hs : KnownSeq p seq)
    (w : Nat) (hw : 0 < w) (hone : OneWidth w p.rotation p.containers p.items) (har : p.strip = true ∨ A = Arith.exact)
    (hst : ColumnOrder p.strategy) (sol : Solution) (ov : ObjVals) (h : solve A p seq = .ok (sol, ov))
    (L M : Nat) (hL : ∀ c ∈ p.containers, (if p.strip then p.height else c.2.l) = L)
    (hM : ∀ q ∈ solvedFor p.items seq, q.2.l ≤ M)
    (hall : ((solvedFor p.items seq).map (fun q => q.2.l)).sum ≤ (p.containers.map (fun c => c.2.w / w)).sum * (L + 1 - M)) :
    ∀ q ∈ solvedFor p.items seq, q.1 ∈ placedIds sol := by
  intro q hq
  by_contra hno
  obtain ⟨cols, rem, h1, h2, h3, h4, h5⟩ := columns_facts hv hs hw hone h har hst
  have hrem : q ∈ rem := by
    have := h4.mem_iff.2 hq
    rcases List.mem_append.1 this with h' | h'
    · exfalso
      apply hno
      obtain ⟨b, hb, hib⟩ := List.mem_flatMap.1 h'
      obtain ⟨x, hx, hbx⟩ := List.mem_flatMap.1 hb
      rw [h3]
      unfold placedIds
      rw [List.mem_flatMap]
      refine ⟨(x.1, standing w 0 x.2), List.mem_map_of_mem hx, ?_⟩
      simp only [standing_ids]
      exact List.mem_map_of_mem (f := (·.1)) (List.mem_flatMap.2 ⟨b, hbx, hib⟩)
    · exact h'
  have hbin : ∀ b ∈ cols.flatMap (·.2), L + 1 - M ≤ b.load := by
    intro b hb
    obtain ⟨x, hx, hbx⟩ := List.mem_flatMap.1 hb
    obtain ⟨c, hc, hsh⟩ := h5 x hx
    have e1 := hsh b hbx q hrem
    rw [hL _ hc] at e1
    have := hM q hq
    omega
  have hnum : (cols.flatMap (·.2)).length = (p.containers.map (fun c => c.2.w / w)).sum := by
    rw [List.length_flatMap]
    have := congrArg (fun l : List (String × Nat) => (l.map (·.2)).sum) h1
    simpa [Function.comp_def] using this
  have hsum : ∀ l : List Bin, (∀ b ∈ l, L + 1 - M ≤ b.load) →
      l.length * (L + 1 - M) ≤ ((l.flatMap (·.items)).map (fun q => q.2.l)).sum := by
    intro l
    induction l with
    | nil => intro _; simp
    | cons b l ih =>
      intro hb
      have a1 := ih (fun b hb' => hb b (by simp [hb']))
      have a2 := hb b (by simp)
      simp only [List.length_cons, Nat.add_mul, Nat.one_mul, List.flatMap_cons, List.map_append, List.sum_append]
      unfold Bin.load at a2
      omega
  have a1 := hsum _ hbin
  have a2 := (h4.map (fun q => q.2.l)).sum_eq
  rw [List.map_append, List.sum_append] at a2
  have a3 : q.2.l ≤ (rem.map (fun q => q.2.l)).sum := List.le_sum_of_mem (List.mem_map_of_mem (f := fun q : String × Dim => q.2.l) hrem)
  have a4 := (hv.items.2 _ (solvedFor_mem _ hq)).2
  rw [hnum] at a1
  omega

/-- **C118** for a problem: with the default strategy `problem.solve()` fills columns. -/
theorem C118_api (i : Inst) (A : Arith) (hr : Reach A i) (har : i.strip = true ∨ A = Arith.exact)
    (hst : i.strategy = defaultStrategy) (w : Nat) (hw : 0 < w) (hone : OneWidth w i.rotation i.containers i.items) :
    (step A i (.solve none)).2 = .ok ∧ ∃ cols : List (String × List Bin),
      cols.map (fun c => (c.1, c.2.length)) = i.containers.map (fun c => (c.1, c.2.w / w)) ∧
      cols.flatMap (·.2) = firstFit (columnsOf w i.containers (fun c => if i.strip then i.height.getD 0 else c.l)) i.items ∧
      (step A i (.solve none)).1.solution = cols.map (fun c => (c.1, standing w 0 c.2)) := by
  have hv := hr.good.valid.solveIn
  have hs : KnownSeq i.solveIn none := by intro s h; cases h
  obtain ⟨sol, ov, h⟩ := (C06_total A i.solveIn hv none).1 hs
  have key := C118_columns A i.solveIn hv none hs w hw hone har
    (by
      show ColumnOrder i.strategy
      rw [hst]
      exact ⟨[], [], _, rfl, by decide, by decide⟩) sol ov h
  simp only [step, Inst.solve, h, bind, Except.bind, pure, Except.pure]
  exact ⟨trivial, key⟩

/-! ### the hypotheses are met -/

/-- two containers with two columns each (and a gap), and items for which first fit goes back to an earlier column -/
def columnDemo : SolveIn :=
  ⟨[("a", ⟨5, 10⟩), ("b", ⟨4, 7⟩)],
   [("p", ⟨2, 6⟩), ("q", ⟨2, 7⟩), ("r", ⟨2, 4⟩), ("s", ⟨2, 3⟩), ("t", ⟨2, 5⟩), ("u", ⟨2, 8⟩), ("v", ⟨2, 2⟩)],
   defaultStrategy, false, false, 0⟩

theorem columnDemo_meets : ValidIn columnDemo ∧ OneWidth 2 columnDemo.rotation columnDemo.containers columnDemo.items ∧
    ColumnOrder columnDemo.strategy := by
  refine ⟨⟨⟨by decide, by decide⟩, ⟨by decide, by decide⟩, nofun⟩, ?_, [], [], _, rfl, by decide, by decide⟩
  intro q hq
  refine ⟨?_, by intro h; cases h⟩
  revert q
  decide

example : (solve Arith.exact columnDemo none).toOption.map (·.1) = some
    [("a", [("p", ⟨0, 0, 2, 6⟩), ("r", ⟨0, 6, 2, 4⟩), ("q", ⟨2, 0, 2, 7⟩), ("s", ⟨2, 7, 2, 3⟩)]),
     ("b", [("t", ⟨0, 0, 2, 5⟩), ("v", ⟨0, 5, 2, 2⟩)])] := by decide +kernel

/-- the order of the classes matters: with B first the items stand on the floor, though the first column takes both -/
example : (solve Arith.exact ⟨[("a", ⟨5, 10⟩)], [("p", ⟨2, 6⟩), ("q", ⟨2, 4⟩)], [.B, .A], false, false, 0⟩ none).toOption.map (·.1)
    = some [("a", [("p", ⟨0, 0, 2, 6⟩), ("q", ⟨2, 0, 2, 4⟩)])] := by decide +kernel

end HP
