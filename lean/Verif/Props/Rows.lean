import Verif.Proofs.Rows
import Verif.Props.Columns
/-
C119: items of one length are packed into rows by first fit, if the strategy has B before A before A''.
-/
namespace HP
open Spec

/-- all items have the length `t`, and none can be turned to advantage; `len` is the length of a container -/
def Spec.OneLength (t : Nat) (rotation : Bool) (containers items : List (String × Dim)) (len : Dim → Nat) : Prop :=
  ∀ q ∈ items, q.2.l = t ∧ (rotation = true → q.2.w = t ∨ ∀ c ∈ containers, len c.2 < q.2.w)

/-- the rows of height `t` of the containers, in order, all empty -/
def Spec.shelfRows (t : Nat) (containers : List (String × Dim)) (len : Dim → Nat) : List Bin :=
  containers.flatMap (fun c => List.replicate (len c.2 / t) ⟨c.1, t, c.2.w, []⟩)

/-- the rows of the containers together with the items that nothing more fits -/
theorem packs_rows {S : Dim → Setting} {t : Nat} (ht : 0 < t) {cs items : List (String × Dim)}
    {sol : List (String × List (String × Rect))} (h : Spec.Packs S cs items sol)
    (hS : ∀ c ∈ cs, ((S c.2).strip = true ∨ (S c.2).ar = Arith.exact) ∧ (S c.2).W = c.2.w ∧ 0 < c.2.w ∧ 0 < (S c.2).L ∧
      RowOrder (S c.2).strategy ∧ Rows.OneW (S c.2) t items) :
    ∃ (rows : List (String × List Bin)) (rem : List (String × Dim)),
      rows.map (fun c => (c.1, c.2.length)) = cs.map (fun c => (c.1, (S c.2).L / t)) ∧
      rows.flatMap (·.2) = firstFit (shelfRows t cs (fun c => (S c).L)) (turnedItems items) ∧
      sol = rows.map (fun c => (c.1, shelves t 0 c.2)) ∧
      ((rows.flatMap (·.2)).flatMap (·.items) ++ turnedItems rem).Perm (turnedItems items) ∧
      ∀ x ∈ rows, ∃ c, (x.1, c) ∈ cs ∧ ∀ b ∈ x.2, Rows.Shut c.w rem b := by
  induction h with
  | @nil items => exact ⟨[], items, rfl, by simp [shelfRows, firstFit_nil], rfl, by simp, by simp⟩
  | @cons cid c cs items m left sol hfc _ ih =>
    obtain ⟨h1, h2, h3, h4, h5, h6⟩ := hS (cid, c) (by simp)
    simp only at h1 h2 h3 h4 h5 h6
    obtain ⟨bins, e1, e2, e3, e4, e5, e6⟩ := Rows.container_rows ht h1 h4 (by rw [h2]; exact h3) h5 h6 hfc cid
    obtain ⟨rows, rem, f1, f2, f3, f4, f5⟩ := ih (by
      intro c' hc'
      obtain ⟨a1, a2, a3, a4, a5, a6⟩ := hS c' (by simp [hc'])
      exact ⟨a1, a2, a3, a4, a5, fun q hq => a6 q (e3.subset hq)⟩)
    refine ⟨(cid, bins) :: rows, rem, ?_, ?_, ?_, ?_, ?_⟩
    · rw [List.map_cons, List.map_cons, f1, e1]
    · rw [List.flatMap_cons, f2]
      have := e4 (shelfRows t cs (fun c => (S c).L))
      rw [h2] at this
      exact this.symm
    · rw [List.map_cons, ← f3, e2]
    · rw [List.flatMap_cons, List.flatMap_append, List.append_assoc]
      exact (List.Perm.append_left _ f4).trans e5
    · intro x hx
      rcases List.mem_cons.1 hx with rfl | hx
      · refine ⟨c, by simp, fun b hb q hq => ?_⟩
        have hm : ((q.1, ⟨q.2.l, q.2.w⟩) : String × Dim) ∈ turnedItems left := by
          refine f4.mem_iff.1 (List.mem_append_right _ ?_)
          exact List.mem_map.2 ⟨q, hq, rfl⟩
        obtain ⟨q', hq', he⟩ := List.mem_map.1 hm
        have := e6 b hb q' hq'
        injection he with g1 g2
        injection g2 with g2 g3
        rw [h2] at this
        omega
      · obtain ⟨c', hc', hs⟩ := f5 x hx
        exact ⟨c', by simp [hc'], hs⟩

/-- items that are higher than one unit and cannot be turned to advantage are no low strips -/
theorem notLow_of_oneLength {t : Nat} {rot : Bool} {cs items : List (String × Dim)} {len : Dim → Nat}
    (h : OneLength t rot cs items len) (ht : 2 ≤ t) {c : String × Dim} (hc : c ∈ cs) (hl : 0 < len c.2) :
    ∀ q ∈ items, ¬ LowStrip rot q.2 := by
  intro q hq
  obtain ⟨h1, h2⟩ := h q hq
  rintro (⟨h3, _⟩ | ⟨hr, h3, h4⟩)
  · omega
  · rcases h2 hr with h5 | h5
    · omega
    · have := h5 c hc; omega

section
variable {A : Arith} {p : SolveIn} (hv : ValidIn p) {seq : Option (List String)} (hs : KnownSeq p seq) {t : Nat} (ht : 2 ≤ t)
  (hone : OneLength t p.rotation p.containers p.items (fun c => if p.strip then p.height else c.l))
  {sol : Solution} {ov : ObjVals} (h : solve A p seq = .ok (sol, ov))
include hv hs ht hone h

/-- the rows, with what is left over -/
theorem rows_facts (har : p.strip = true ∨ A = Arith.exact) (hst : RowOrder p.strategy) :
    ∃ (rows : List (String × List Bin)) (rem : List (String × Dim)),
      rows.map (fun c => (c.1, c.2.length)) =
        p.containers.map (fun c => (c.1, (if p.strip then p.height else c.2.l) / t)) ∧
      rows.flatMap (·.2) = firstFit (shelfRows t p.containers (fun c => if p.strip then p.height else c.l))
        (turnedItems (solvedFor p.items seq)) ∧
      sol = rows.map (fun c => (c.1, shelves t 0 c.2)) ∧
      ((rows.flatMap (·.2)).flatMap (·.items) ++ turnedItems rem).Perm (turnedItems (solvedFor p.items seq)) ∧
      ∀ x ∈ rows, ∃ c, (x.1, c) ∈ p.containers ∧ ∀ b ∈ x.2, Rows.Shut c.w rem b := by
  have hLpos : ∀ c ∈ p.containers, 0 < (if p.strip then p.height else c.2.l) := by
    intro c hc
    split
    · rename_i hstrip; exact hv.height hstrip
    · exact (hv.conts.2 _ hc).2
  have hdis : ∀ cid m, (cid, m) ∈ sol → (m.map (·.2)).Pairwise Spec.Disjoint := by
    intro cid m hm
    obtain ⟨c, hc, _⟩ := C03_inside A p hv seq hs sol ov h cid m hm
    exact C02_no_overlap A p hv seq hs (notLow_of_oneLength hone ht hc (hLpos _ hc)) sol ov h cid m hm
  have hp := (C76_heuristic A p hv seq hs sol ov h hdis sol).2 rfl
  refine packs_rows (by omega) hp ?_
  intro c hc
  have hcpos := hv.conts.2 _ hc
  refine ⟨har, rfl, hcpos.1, hLpos c hc, hst, ?_⟩
  intro q hq
  have hqi := solvedFor_mem _ hq
  obtain ⟨h1, h2⟩ := hone _ hqi
  refine ⟨h1, (hv.items.2 _ hqi).1, fun hr => ?_⟩
  rcases h2 hr with h3 | h3
  · exact .inl (by rw [h1, h3])
  · exact .inr (h3 c hc)

end

/-- **C119**: with items of one length `t`, at least two, and B before A before A'' in the strategy, the items are distributed
over the rows of the containers (as many of height `t` as fit one above the other) by first fit, and stand in them side by side. -/
theorem C119_rows (A : Arith) (p : SolveIn) (hv : ValidIn p) (seq : Option (List String)) (hs : KnownSeq p seq)
    (t : Nat) (ht : 2 ≤ t) (hone : OneLength t p.rotation p.containers p.items (fun c => if p.strip then p.height else c.l))
    (har : p.strip = true ∨ A = Arith.exact) (hst : RowOrder p.strategy)
    (sol : Solution) (ov : ObjVals) (h : solve A p seq = .ok (sol, ov)) :
    ∃ rows : List (String × List Bin),
      rows.map (fun c => (c.1, c.2.length)) =
        p.containers.map (fun c => (c.1, (if p.strip then p.height else c.2.l) / t)) ∧
      rows.flatMap (·.2) = firstFit (shelfRows t p.containers (fun c => if p.strip then p.height else c.l))
        (turnedItems (solvedFor p.items seq)) ∧
      sol = rows.map (fun c => (c.1, shelves t 0 c.2)) := by
  obtain ⟨rows, rem, h1, h2, h3, _⟩ := rows_facts hv hs ht hone h har hst
  exact ⟨rows, h1, h2, h3⟩

/-- **C119** in binary64 arithmetic, for problems of ordinary size -/
theorem C119_double (p : SolveIn) (hv : ValidIn p) (hb : p.strip = false) (seq : Option (List String)) (hs : KnownSeq p seq)
    (hsmall : ∀ c ∈ p.containers, 10 * ((p.items.length + 1) * (c.2.w * c.2.l)) < 2 ^ 53)
    (t : Nat) (ht : 2 ≤ t) (hone : OneLength t p.rotation p.containers p.items (fun c => c.l))
    (hst : RowOrder p.strategy) (sol : Solution) (ov : ObjVals) (h : solve Arith.double p seq = .ok (sol, ov)) :
    ∃ rows : List (String × List Bin),
      rows.map (fun c => (c.1, c.2.length)) = p.containers.map (fun c => (c.1, c.2.l / t)) ∧
      rows.flatMap (·.2) = firstFit (shelfRows t p.containers (fun c => c.l)) (turnedItems (solvedFor p.items seq)) ∧
      sol = rows.map (fun c => (c.1, shelves t 0 c.2)) := by
  cases hc : p.containers with
  | nil =>
    have : sol = [] := by
      cases hsol : sol with
      | nil => rfl
      | cons x l =>
        obtain ⟨c, hc', _⟩ := C03_inside Arith.double p hv seq hs sol ov h x.1 x.2 (by rw [hsol]; simp)
        rw [hc] at hc'; simp at hc'
    exact ⟨[], rfl, by simp [shelfRows, firstFit_nil], by rw [this]; rfl⟩
  | cons c cs =>
    have hlow : ∀ q ∈ p.items, ¬ LowStrip p.rotation q.2 :=
      notLow_of_oneLength hone ht (c := c) (by rw [hc]; simp) (hv.conts.2 _ (by rw [hc]; simp)).2
    obtain ⟨ov', h'⟩ := (C83_bin p hv hb hlow hsmall seq hs sol).1 ⟨ov, h⟩
    have := C119_rows Arith.exact p hv seq hs t ht (by simpa only [hb, Bool.false_eq_true, if_false] using hone)
      (.inr rfl) hst sol ov' h'
    rw [← hc]
    simpa only [hb, Bool.false_eq_true, if_false] using this

theorem shelves_ids (t : Nat) (rows : List Bin) (y : Nat) :
    (shelves t y rows).map (·.1) = (rows.flatMap (·.items)).map (·.1) := by
  rw [Rows.shelves_flip, ← standing_ids t rows y, List.map_map]
  rfl

/-- the widths of the items that stand at the height `y` -/
def Spec.widthsAt (y : Nat) (m : List (String × Rect)) : Nat := ((m.filter (fun q => q.2.y = y)).map (fun q => q.2.w)).sum

theorem shelves_widths {t : Nat} (ht : 0 < t) (rows : List Bin) (j : Nat) (hj : j < rows.length) :
    widthsAt (j * t) (shelves t 0 rows) = rows[j].load := by
  have := standing_lengths ht rows 0 j hj
  rw [Nat.zero_add] at this
  rw [← this, Rows.shelves_flip]
  simp only [widthsAt, lengthsAt, List.filter_map, List.map_map]
  rfl

/-- what is left is not placed -/
theorem rows_rem {rows : List (String × List Bin)} {rem all : List (String × Dim)}
    (h4 : ((rows.flatMap (·.2)).flatMap (·.items) ++ turnedItems rem).Perm (turnedItems all)) {t : Nat}
    {q : String × Dim} (hq : q ∈ all) (hno : q.1 ∉ placedIds (rows.map (fun c => (c.1, shelves t 0 c.2)))) : q ∈ rem := by
  have hm : ((q.1, ⟨q.2.l, q.2.w⟩) : String × Dim) ∈ turnedItems all := List.mem_map.2 ⟨q, hq, rfl⟩
  rcases List.mem_append.1 (h4.mem_iff.2 hm) with h' | h'
  · exfalso
    apply hno
    obtain ⟨b, hb, hib⟩ := List.mem_flatMap.1 h'
    obtain ⟨x, hx, hbx⟩ := List.mem_flatMap.1 hb
    unfold placedIds
    rw [List.mem_flatMap]
    refine ⟨(x.1, shelves t 0 x.2), List.mem_map_of_mem hx, ?_⟩
    simp only [shelves_ids]
    exact List.mem_map.2 ⟨_, List.mem_flatMap.2 ⟨b, hbx, hib⟩, rfl⟩
  · obtain ⟨q', hq', he⟩ := List.mem_map.1 h'
    have : q' = q := by
      obtain ⟨a, ⟨b, c⟩⟩ := q
      obtain ⟨a', ⟨b', c'⟩⟩ := q'
      simp only [Prod.mk.injEq, Dim.mk.injEq] at he ⊢
      exact ⟨he.1, he.2.2, he.2.1⟩
    rw [← this]; exact hq'

/-- **C119**, left over: an item that was not placed has no room at the end of any of the rows. -/
theorem C119_left (A : Arith) (p : SolveIn) (hv : ValidIn p) (seq : Option (List String)) (hs : KnownSeq p seq)
    (t : Nat) (ht : 2 ≤ t) (hone : OneLength t p.rotation p.containers p.items (fun c => if p.strip then p.height else c.l))
    (har : p.strip = true ∨ A = Arith.exact) (hst : RowOrder p.strategy)
    (sol : Solution) (ov : ObjVals) (h : solve A p seq = .ok (sol, ov))
    (id : String) (d : Dim) (hit : (id, d) ∈ solvedFor p.items seq) (hleft : id ∉ placedIds sol)
    (cid : String) (m : PyDict String Rect) (hm : (cid, m) ∈ sol) (c : Dim) (hc : (cid, c) ∈ p.containers)
    (j : Nat) (hj : j < (if p.strip then p.height else c.l) / t) : c.w < widthsAt (j * t) m + d.w := by
  obtain ⟨rows, rem, h1, h2, h3, h4, h5⟩ := rows_facts hv hs ht hone h har hst
  have hrem : (id, d) ∈ rem := rows_rem h4 hit (by rw [← h3]; exact hleft)
  rw [h3] at hm
  obtain ⟨x, hx, he⟩ := List.mem_map.1 hm
  injection he with e1 e2
  obtain ⟨c', hc', hsh⟩ := h5 x hx
  have same : ∀ {a b : Dim}, (x.1, a) ∈ p.containers → (x.1, b) ∈ p.containers → a = b := by
    intro a b ha hb
    have e1 := PyDict.find?_of_mem hv.conts.1 ha
    rw [PyDict.find?_of_mem hv.conts.1 hb] at e1
    injection e1 with e1; exact e1.symm
  have hcc : c' = c := same hc' (by rw [e1]; exact hc)
  subst hcc
  have hlen : x.2.length = (if p.strip then p.height else c'.l) / t := by
    have : (x.1, x.2.length) ∈ p.containers.map (fun c => (c.1, (if p.strip then p.height else c.2.l) / t)) := by
      rw [← h1]; exact List.mem_map_of_mem (f := fun c : String × List Bin => (c.1, c.2.length)) hx
    obtain ⟨y, hy, he⟩ := List.mem_map.1 this
    injection he with f1 f2
    rw [← f2, same (a := y.2) (by rw [← f1]; exact hy) hc']
  have hj' : j < x.2.length := by rw [hlen]; exact hj
  have := hsh x.2[j] (List.getElem_mem _) _ hrem
  rw [← e2, shelves_widths (by omega) x.2 j hj']
  exact this

/-- **C119**, enough room: containers of one width `W` with `n` rows together take all items if no item is wider than `M`
and all of them together are not wider than `n` times `W + 1 - M`. -/
theorem C119_enough (A : Arith) (p : SolveIn) (hv : ValidIn p) (seq : Option (List String)) (hs : KnownSeq p seq)
    (t : Nat) (ht : 2 ≤ t) (hone : OneLength t p.rotation p.containers p.items (fun c => if p.strip then p.height else c.l))
    (har : p.strip = true ∨ A = Arith.exact) (hst : RowOrder p.strategy)
    (sol : Solution) (ov : ObjVals) (h : solve A p seq = .ok (sol, ov))
    (W M : Nat) (hW : ∀ c ∈ p.containers, c.2.w = W) (hM : ∀ q ∈ solvedFor p.items seq, q.2.w ≤ M)
    (hall : ((solvedFor p.items seq).map (fun q => q.2.w)).sum ≤
      (p.containers.map (fun c => (if p.strip then p.height else c.2.l) / t)).sum * (W + 1 - M)) :
    ∀ q ∈ solvedFor p.items seq, q.1 ∈ placedIds sol := by
  intro q hq
  by_contra hno
  obtain ⟨rows, rem, h1, h2, h3, h4, h5⟩ := rows_facts hv hs ht hone h har hst
  have hrem : q ∈ rem := rows_rem h4 hq (by rw [← h3]; exact hno)
  have hbin : ∀ b ∈ rows.flatMap (·.2), W + 1 - M ≤ b.load := by
    intro b hb
    obtain ⟨x, hx, hbx⟩ := List.mem_flatMap.1 hb
    obtain ⟨c, hc, hsh⟩ := h5 x hx
    have e1 := hsh b hbx q hrem
    have e2 := hW _ hc
    have := hM q hq
    simp only at e2
    omega
  have hnum : (rows.flatMap (·.2)).length = (p.containers.map (fun c => (if p.strip then p.height else c.2.l) / t)).sum := by
    rw [List.length_flatMap]
    have := congrArg (fun l : List (String × Nat) => (l.map (·.2)).sum) h1
    simpa [Function.comp_def] using this
  have hsum : ∀ l : List Bin, (∀ b ∈ l, W + 1 - M ≤ b.load) →
      l.length * (W + 1 - M) ≤ ((l.flatMap (·.items)).map (fun q => q.2.l)).sum := by
    intro l
    induction l with
    | nil => intro _; simp
    | cons b l ih =>
      intro hb
      have a1 := ih (fun b hb' => hb b (by simp [hb']))
      have a2 := hb b (by simp)
      simp only [List.length_cons, Nat.add_mul, Nat.one_mul, List.flatMap_cons, List.map_append, List.sum_append]
      unfold Bin.load at a2
      omega
  have hturn : ∀ l : List (String × Dim), ((turnedItems l).map (fun q => q.2.l)).sum = (l.map (fun q => q.2.w)).sum := by
    intro l; simp [turnedItems, Function.comp_def]
  have a1 := hsum _ hbin
  have a2 := (h4.map (fun q => q.2.l)).sum_eq
  rw [List.map_append, List.sum_append, hturn, hturn] at a2
  have a3 : q.2.w ≤ (rem.map (fun q => q.2.w)).sum := List.le_sum_of_mem (List.mem_map_of_mem (f := fun q : String × Dim => q.2.w) hrem)
  have a4 := (hv.items.2 _ (solvedFor_mem _ hq)).1
  rw [hnum] at a1
  omega

/-- **C119** for a problem: with B before A before A'' in its strategy `problem.solve()` fills rows. -/
theorem C119_api (i : Inst) (A : Arith) (hr : Reach A i) (har : i.strip = true ∨ A = Arith.exact)
    (hst : RowOrder i.strategy) (t : Nat) (ht : 2 ≤ t)
    (hone : OneLength t i.rotation i.containers i.items (fun c => if i.strip then i.height.getD 0 else c.l)) :
    (step A i (.solve none)).2 = .ok ∧ ∃ rows : List (String × List Bin),
      rows.map (fun c => (c.1, c.2.length)) =
        i.containers.map (fun c => (c.1, (if i.strip then i.height.getD 0 else c.2.l) / t)) ∧
      rows.flatMap (·.2) = firstFit (shelfRows t i.containers (fun c => if i.strip then i.height.getD 0 else c.l))
        (turnedItems i.items) ∧
      (step A i (.solve none)).1.solution = rows.map (fun c => (c.1, shelves t 0 c.2)) := by
  have hv := hr.good.valid.solveIn
  have hs : KnownSeq i.solveIn none := by intro s h; cases h
  obtain ⟨sol, ov, h⟩ := (C06_total A i.solveIn hv none).1 hs
  have key := C119_rows A i.solveIn hv none hs t ht hone har hst sol ov h
  simp only [step, Inst.solve, h, bind, Except.bind, pure, Except.pure]
  exact ⟨trivial, key⟩

/-! ### the hypotheses are met -/

/-- two containers with two rows each (and a gap), and items for which first fit goes back to an earlier row -/
def rowDemo : SolveIn :=
  ⟨[("a", ⟨10, 5⟩), ("b", ⟨7, 4⟩)],
   [("p", ⟨6, 2⟩), ("q", ⟨7, 2⟩), ("r", ⟨4, 2⟩), ("s", ⟨3, 2⟩), ("t", ⟨5, 2⟩), ("u", ⟨8, 2⟩), ("v", ⟨2, 2⟩)],
   [.B, .A, .C, .A_, .B_, .B__, .A__, .F, .E, .D], false, false, 0⟩

theorem rowDemo_meets : ValidIn rowDemo ∧ OneLength 2 rowDemo.rotation rowDemo.containers rowDemo.items (fun c => c.l) ∧
    RowOrder rowDemo.strategy := by
  refine ⟨⟨⟨by decide, by decide⟩, ⟨by decide, by decide⟩, nofun⟩, ?_, [], [], _, rfl, by decide, by decide⟩
  intro q hq
  refine ⟨?_, by intro h; cases h⟩
  revert q
  decide

example : (solve Arith.exact rowDemo none).toOption.map (·.1) = some
    [("a", [("p", ⟨0, 0, 6, 2⟩), ("r", ⟨6, 0, 4, 2⟩), ("q", ⟨0, 2, 7, 2⟩), ("s", ⟨7, 2, 3, 2⟩)]),
     ("b", [("t", ⟨0, 0, 5, 2⟩), ("v", ⟨5, 0, 2, 2⟩)])] := by decide +kernel

/-- the order of the classes matters: with A first the items stand one above the other -/
example : (solve Arith.exact ⟨[("a", ⟨10, 5⟩)], [("p", ⟨6, 2⟩), ("q", ⟨4, 2⟩)], [.A, .B], false, false, 0⟩ none).toOption.map (·.1)
    = some [("a", [("p", ⟨0, 0, 6, 2⟩), ("q", ⟨0, 2, 4, 2⟩)])] := by decide +kernel

end HP
