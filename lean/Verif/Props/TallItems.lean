import Verif.Props.WideItems
/-
C116: items that are too long to stand on top of each other are packed by one-dimensional first fit, in rows.
-/
namespace HP
open Spec

/-- items of exchanged width and length, side by side on the floor, from `x` to the right -/
def Spec.rowFrom (x : Nat) : List (String × Dim) → List (String × Rect)
  | [] => []
  | (id, d) :: l => (id, ⟨x, 0, d.l, d.w⟩) :: rowFrom (x + d.l) l

/-- width and length exchanged -/
def Spec.turnedItems (items : List (String × Dim)) : List (String × Dim) := items.map (fun q => (q.1, ⟨q.2.l, q.2.w⟩))

/-- no two of the items fit on top of each other into any of the containers, and none can be turned to avoid that -/
def Spec.Tall (rotation : Bool) (len : Dim → Nat) (containers items : List (String × Dim)) : Prop :=
  ∀ c ∈ containers, ∀ q ∈ items, len c.2 < 2 * q.2.l ∧ (rotation = true → q.2.w = q.2.l ∨ len c.2 < q.2.w)

/-- the containers as bins filled along their width -/
def Spec.rowsOf (containers : List (String × Dim)) (len : Dim → Nat) : List Bin :=
  containers.map (fun c => ⟨c.1, len c.2, c.2.w, []⟩)

theorem turnedItems_ids (l : List (String × Dim)) : (turnedItems l).map (·.1) = l.map (·.1) := by
  simp [turnedItems, Function.comp_def]

theorem turnedItems_filter (l : List (String × Dim)) (f : String → Prop) [DecidablePred f] :
    (turnedItems l).filter (fun q => decide (f q.1)) = turnedItems (l.filter (fun q => decide (f q.1))) := by
  simp only [turnedItems, List.filter_map, Function.comp_def]

theorem rowFrom_append : ∀ (a b : List (String × Dim)) (y : Nat),
    rowFrom y (a ++ b) = rowFrom y a ++ rowFrom (y + lengths a) b
  | [], b, y => by simp [rowFrom, lengths]
  | (id, d) :: a, b, y => by
    simp only [List.cons_append, rowFrom, rowFrom_append a b, lengths, List.map_cons, List.sum_cons]
    rw [Nat.add_assoc]

theorem rowFrom_mem : ∀ {l : List (String × Dim)} {y : Nat} {q : String × Rect}, q ∈ rowFrom y l →
    q.2.y = 0 ∧ y ≤ q.2.x ∧ q.2.x + q.2.w ≤ y + lengths l
  | [], y, q, h => by simp [rowFrom] at h
  | (id, d) :: l, y, q, h => by
    simp only [rowFrom, List.mem_cons] at h
    simp only [lengths, List.map_cons, List.sum_cons]
    rcases h with h | h
    · subst h; exact ⟨rfl, Nat.le_refl _, by simp⟩
    · obtain ⟨h1, h2, h3⟩ := rowFrom_mem h
      unfold lengths at h3
      exact ⟨h1, by omega, by omega⟩

theorem rowFrom_covers : ∀ {l : List (String × Dim)} {y t : Nat}, (∀ q ∈ l, 0 < q.2.w) → y ≤ t → t < y + lengths l →
    ∃ q ∈ rowFrom y l, Covers q.2 t 0
  | [], y, t, _, h1, h2 => by simp [lengths] at h2; omega
  | (id, d) :: l, y, t, hw, h1, h2 => by
    simp only [lengths, List.map_cons, List.sum_cons] at h2
    by_cases h : t < y + d.l
    · refine ⟨_, List.mem_cons_self .., h1, h, Nat.le_refl _, ?_⟩
      have := hw (id, d) (by simp)
      simpa using this
    · obtain ⟨q, hq, hc⟩ := rowFrom_covers (l := l) (y := y + d.l) (t := t) (fun q hq => hw q (by simp [hq]))
        (by omega) (by unfold lengths; omega)
      exact ⟨q, List.mem_cons_of_mem _ hq, hc⟩

theorem rowFrom_ids : ∀ (l : List (String × Dim)) (y : Nat), (rowFrom y l).map (·.1) = l.map (·.1)
  | [], y => rfl
  | (id, d) :: l, y => by simp [rowFrom, rowFrom_ids l]

section
variable {A : Arith} {p : SolveIn} (hv : ValidIn p) {seq : Option (List String)} (hs : KnownSeq p seq)
  (htall : Tall p.rotation (lenOf p) p.containers p.items) {sol : Solution} {ov : ObjVals} (h : solve A p seq = .ok (sol, ov))
include hv hs htall h

/-- sizes of the placed items -/
theorem tall_size {cid : String} {m : PyDict String Rect} (hm : (cid, m) ∈ sol) {c : Dim} (hc : (cid, c) ∈ p.containers)
    {q : String × Rect} (hq : q ∈ m) :
    (q.1, ⟨q.2.w, q.2.l⟩) ∈ p.items ∧ lenOf p c < 2 * q.2.l ∧ Inside c.w (lenOf p c) q.2 := by
  obtain ⟨c', hc', hin⟩ := C03_inside A p hv seq hs sol ov h cid m hm
  have hcc : c' = c := by
    have e1 := PyDict.find?_of_mem hv.conts.1 hc'
    rw [PyDict.find?_of_mem hv.conts.1 hc] at e1
    injection e1 with e1; exact e1.symm
  subst hcc
  obtain ⟨d, hd, hsz⟩ := C05_sizes A p hv seq hs sol ov h cid m hm q.1 q.2 hq
  have hw := htall _ hc _ hd
  have hi := hin q hq
  have key : q.2.w = d.w ∧ q.2.l = d.l := by
    rcases hsz with hsz | ⟨hr, h1, h2⟩
    · exact hsz
    · rcases hw.2 hr with he | hlt
      · exact ⟨by rw [h1]; exact he.symm, by rw [h2]; exact he⟩
      · exfalso; have := hi.2; rw [h2] at this; simp only at hlt; omega
  refine ⟨?_, by rw [key.2]; exact hw.1, hi⟩
  rw [key.1, key.2]; exact hd

/-- all items stand in one row on the floor -/
theorem tall_pile {cid : String} {m : PyDict String Rect} (hm : (cid, m) ∈ sol) {c : Dim} (hc : (cid, c) ∈ p.containers) :
    ∀ (n : Nat), m.take n = rowFrom 0 ((m.take n).map (fun q => (q.1, ⟨q.2.l, q.2.w⟩))) := by
  intro n
  induction n with
  | zero => rfl
  | succ n ih =>
    by_cases hn : n < m.length
    · obtain ⟨⟨id, r⟩, hx⟩ : ∃ x, m[n]? = some x := ⟨m[n], List.getElem?_eq_getElem hn⟩
      have htake : m.take (n + 1) = m.take n ++ [(id, r)] := by
        rw [List.take_add_one, hx]; rfl
      have hsplit : m = m.take n ++ (id, r) :: m.drop (n + 1) := by
        conv_lhs => rw [← List.take_append_drop (n + 1) m, htake]
        simp
      generalize hpre : m.take n = pre at ih htake hsplit
      have hmem : (id, r) ∈ m := by rw [hsplit]; simp
      obtain ⟨hd, hw, hin⟩ := tall_size hv hs htall h hm hc hmem
      obtain ⟨hx0, hy0⟩ := C87_edges A p hv seq hs sol ov h cid m hm pre id r _ hsplit
      have hpos : ∀ q ∈ pre, 0 < q.2.l := by
        intro q hq
        have := (tall_size hv hs htall h hm hc (q := q) (by rw [hsplit]; simp [hq])).2.1
        omega
      have hrx : r.y = 0 := by
        rcases hy0 with h0 | ⟨q, hq, hqx⟩
        · exact h0
        · exfalso
          have := (tall_size hv hs htall h hm hc (q := q) (by rw [hsplit]; simp [hq])).2.1
          have h1 := hin.2
          simp only at hw h1
          omega
      have hry : r.x = lengths (pre.map (fun q => (q.1, (⟨q.2.l, q.2.w⟩ : Dim)))) := by
        apply Nat.le_antisymm
        · rcases hx0 with h0 | ⟨q, hq, hqy⟩
          · omega
          · rw [ih] at hq
            have := (rowFrom_mem hq).2.2
            omega
        · by_contra hlt
          have hlt : r.x < lengths (pre.map (fun q => (q.1, (⟨q.2.l, q.2.w⟩ : Dim)))) := by omega
          obtain ⟨q, hq, hcov⟩ := rowFrom_covers (y := 0) (t := r.x) (l := pre.map (fun q => (q.1, (⟨q.2.l, q.2.w⟩ : Dim))))
            (by
              intro q hq
              obtain ⟨q', hq', rfl⟩ := List.mem_map.1 hq
              exact hpos q' hq') (Nat.zero_le _) (by omega)
          rw [← ih] at hq
          have hpw := C01_shared_partial A p hv seq hs sol ov h cid m hm
          rw [hsplit, List.map_append, List.map_cons, List.pairwise_append] at hpw
          have hsh := hpw.2.2 q.2 (List.mem_map_of_mem hq) r (by simp)
          have hl : 0 < r.w := (hv.items.2 _ hd).1
          have := hsh r.x 0 hcov ⟨by omega, by omega, by omega, by simp only at hw; omega⟩
          omega
      rw [htake, List.map_append, rowFrom_append, ← ih]
      simp only [List.map_cons, List.map_nil, rowFrom]
      rw [Nat.zero_add, ← hry]
      have : r = ⟨r.x, 0, r.w, r.l⟩ := by rw [← hrx]
      rw [← this]
    · have h1 : m.take (n + 1) = m := List.take_of_length_le (by omega)
      have h2 : m.take n = m := List.take_of_length_le (by omega)
      rw [h1]; rw [h2] at ih; exact ih

/-- the pile, whole -/
theorem tall_whole {cid : String} {m : PyDict String Rect} (hm : (cid, m) ∈ sol) {c : Dim} (hc : (cid, c) ∈ p.containers)
    {pre post : List (String × Rect)} (hsplit : m = pre ++ post) :
    pre = rowFrom 0 (pre.map (fun q => (q.1, ⟨q.2.l, q.2.w⟩))) := by
  have := tall_pile hv hs htall h hm hc pre.length
  rw [hsplit, List.take_left] at this
  exact this

omit hs htall h in
/-- right of the row there is room for an item if it is not too wide -/
theorem canAdd_right {L W : Nat} {pile : List (String × Dim)} {d : Dim} (hd : d.l ≤ L ∧ lengths pile + d.w ≤ W) :
    CanAdd W L p.rotation ((rowFrom 0 pile).map (·.2)) d (lengths pile) 0 := by
  refine .inl ⟨⟨hd.2, by simpa using hd.1⟩, ?_⟩
  intro r hr x y ⟨⟨h3, _, _, _⟩, ⟨_, h4, _, _⟩⟩
  obtain ⟨q, hq, rfl⟩ := List.mem_map.1 hr
  have := (rowFrom_mem hq).2.2
  simp only at h3
  omega

/-- each container holds what first fit gives to it -/
theorem tall_container (hB : .B ∈ p.strategy) (hB' : .B__ ∈ p.strategy) (har : p.strip = true ∨ A = Arith.exact)
    {before : Solution} {cid : String} {m : PyDict String Rect} {after : Solution}
    (hsplit : sol = before ++ (cid, m) :: after) {c : Dim} (hc : (cid, c) ∈ p.containers) :
    m = rowFrom 0 (greedy ⟨cid, lenOf p c, c.w, []⟩
      (turnedItems ((solvedFor p.items seq).filter (fun q => q.1 ∉ placedIds before)))) := by
  have hm : (cid, m) ∈ sol := by rw [hsplit]; simp
  have hval := solvedFor_valid hv hs h
  obtain ⟨-, hovk, hnd, hids⟩ := C04_once A p hv seq hs sol ov h
  have hwhole := tall_whole hv hs htall h hm hc (pre := m) (post := []) (by simp)
  generalize hpool : (solvedFor p.items seq).filter (fun q => q.1 ∉ placedIds before) = pool
  have hsub : pool.Sublist (solvedFor p.items seq) := by rw [← hpool]; exact List.filter_sublist
  have hpn : (pool.map (·.1)).Nodup := hval.1.sublist (hsub.map _)
  have hpl : placedIds sol = placedIds before ++ (m.map (·.1) ++ placedIds after) := by
    rw [hsplit]; simp [placedIds]
  rw [hpl] at hnd
  obtain ⟨_, hnd2, hdis⟩ := List.nodup_append.1 hnd
  have hmn : (m.map (·.1)).Nodup := (List.nodup_append.1 hnd2).1
  have hmem : ∀ q ∈ m, (q.1, (⟨q.2.w, q.2.l⟩ : Dim)) ∈ pool := by
    intro q hq
    have hq1 : q.1 ∈ placedIds sol := by rw [hpl]; simp; exact .inr (.inl ⟨_, hq⟩)
    have hin := (hids q.1 hq1).1
    obtain ⟨⟨id, d⟩, hd, he⟩ := List.mem_map.1 hin
    simp only at he
    subst he
    have h1 := (tall_size hv hs htall h hm hc hq).1
    have h2 := solvedFor_mem _ hd
    have e1 := PyDict.find?_of_mem hv.items.1 h1
    rw [PyDict.find?_of_mem hv.items.1 h2] at e1
    injection e1 with e1
    subst e1
    rw [← hpool, List.mem_filter]
    refine ⟨hd, ?_⟩
    simp only [decide_eq_true_eq]
    intro hb
    exact hdis _ hb q.1 (by simp; exact .inl ⟨_, hq⟩) rfl
  have hload : ∀ e : List (String × Rect), Bin.load ⟨cid, lenOf p c, c.w, [] ++ e.map (fun q => (q.1, (⟨q.2.l, q.2.w⟩ : Dim)))⟩ =
      lengths (e.map (fun q => (q.1, (⟨q.2.l, q.2.w⟩ : Dim)))) := by
    intro e; rfl
  -- what the split of the chosen list means
  have split : ∀ {e q l}, m.map (fun q => (q.1, (⟨q.2.l, q.2.w⟩ : Dim))) = e ++ q :: l →
      ∃ pre r post, m = pre ++ (q.1, r) :: post ∧ e = pre.map (fun q => (q.1, (⟨q.2.l, q.2.w⟩ : Dim))) ∧
        q.2 = ⟨r.l, r.w⟩ ∧ r.y = 0 ∧ r.x = lengths e := by
    intro e q l he
    obtain ⟨pre, x, rfl, rfl, h2⟩ := List.map_eq_append_iff.1 he
    obtain ⟨y, post, rfl, rfl, rfl⟩ := List.map_eq_cons_iff.1 h2
    refine ⟨pre, y.2, post, rfl, rfl, rfl, ?_⟩
    have h3 := tall_whole hv hs htall h hm hc (pre := pre ++ [y]) (post := post) (by simp)
    rw [List.map_append, rowFrom_append] at h3
    have hlen : pre.length = (rowFrom 0 (pre.map (fun q => (q.1, (⟨q.2.l, q.2.w⟩ : Dim))))).length :=
      congrArg List.length (tall_whole hv hs htall h hm hc (pre := pre) (post := y :: post) rfl)
    have h4 := (List.append_inj h3 hlen).2
    simp only [List.map_cons, List.map_nil, rowFrom, List.cons.injEq, and_true] at h4
    rw [h4]
    simp
  have key := greedy_unique (turnedItems pool) (by rw [turnedItems_ids]; exact hpn) ⟨cid, lenOf p c, c.w, []⟩ (m.map (fun q => (q.1, ⟨q.2.l, q.2.w⟩))) ?_ ?_ ?_ ?_ ?_
  · rw [← key]; exact hwhole
  · intro q hq
    obtain ⟨q', hq', rfl⟩ := List.mem_map.1 hq
    exact List.mem_map.2 ⟨_, hmem q' hq', rfl⟩
  · rw [List.map_map]; exact hmn
  · intro e q l he
    obtain ⟨pre, r, post, h1, h2, h3, h4, h5⟩ := split he
    obtain ⟨_, _, hin⟩ := tall_size hv hs htall h hm hc (q := (q.1, r)) (by rw [h1]; simp)
    have hi1 := hin.1
    have hi2 := hin.2
    simp only at hi1 hi2
    refine ⟨?_, ?_⟩
    · rw [h3]; simp only; omega
    · rw [h3, h2, hload, ← h2, ← h5]
      exact hi1
  · intro e q l he q'' hq'' hE hne ht
    obtain ⟨pre, r, post, h1, h2, h3, h4, h5⟩ := split he
    have hprio := (C71_priority A p hv seq hs sol ov h before cid m after hsplit c hc pre q.1 r post h1).1
    obtain ⟨q', hq', rfl⟩ := List.mem_map.1 hq''
    rw [turnedItems_ids] at hE
    have hqf := hq'
    rw [← hpool, List.mem_filter] at hqf
    have hb := hqf.2
    simp only [decide_eq_true_eq] at hb
    refine hprio q'.1 q'.2 hqf.1 (earlier_sublist (hsub.map _) hE) hb (by rw [h2] at hne; simpa using hne) ?_
    have hw := tall_whole hv hs htall h hm hc (pre := pre) (post := (q.1, r) :: post) h1
    rw [hw, ← h2, h4, h5]
    refine canAdd_right hv ⟨ht.1, ?_⟩
    have := ht.2
    rw [h2, hload] at this
    rw [h2]; exact this
  · intro q'' hq'' hne ht
    obtain ⟨q', hq', rfl⟩ := List.mem_map.1 hq''
    have hqf := hq'
    rw [← hpool, List.mem_filter] at hqf
    have hb := hqf.2
    simp only [decide_eq_true_eq] at hb
    have hl : 0 < q'.2.w := (hval.2 _ hqf.1).1
    obtain ⟨v, hvv⟩ : ∃ v, (cid, v) ∈ ov := by
      have : cid ∈ ov.map (·.1) := by rw [hovk]; exact List.mem_map_of_mem (f := (·.1)) hc
      obtain ⟨⟨a, v⟩, hav, rfl⟩ := List.mem_map.1 this
      exact ⟨v, hav⟩
    have ht2 := ht.2
    rw [hload] at ht2
    have hcan := canAdd_right (p := p) hv (pile := m.map (fun q => (q.1, (⟨q.2.l, q.2.w⟩ : Dim)))) ⟨ht.1, ht2⟩
    rw [← hwhole] at hcan
    have hfull : p.strip = true ∨ v < 1 := by
      rcases har with har | har
      · exact .inl har
      · cases hst : p.strip with
        | true => exact .inl rfl
        | false =>
          right
          subst har
          obtain ⟨c', v', hc', hv', he, _, _⟩ := C07_utilization p hv hst seq hs sol ov h cid m hm
          have hcc : c' = c := by
            have e1 := PyDict.find?_of_mem hv.conts.1 hc'
            rw [PyDict.find?_of_mem hv.conts.1 hc] at e1
            injection e1 with e1; exact e1.symm
          subst hcc
          have hovn : (ov.map (·.1)).Nodup := by rw [hovk]; exact hv.conts.1
          have hvv' : v' = v := by
            have e1 := PyDict.find?_of_mem hovn hv'
            rw [PyDict.find?_of_mem hovn hvv] at e1
            injection e1 with e1; exact e1.symm
          subst hvv'
          have hcpos := hv.conts.2 _ hc
          simp only at hcpos
          have harea : ∀ l : List (String × Rect), (∀ q ∈ l, q.2.l ≤ c'.l) →
              totalArea (l.map (·.2)) ≤ c'.l * lengths (l.map (fun q => (q.1, (⟨q.2.l, q.2.w⟩ : Dim)))) := by
            intro l
            induction l with
            | nil => intro _; simp [totalArea]
            | cons q l ih =>
              intro hq
              have h1 := ih (fun q hq' => hq q (by simp [hq']))
              have h2 := hq q (by simp)
              simp only [totalArea, lengths, List.map_cons, List.sum_cons, area] at h1 ⊢
              rw [Nat.mul_add]
              have := Nat.mul_le_mul_left q.2.w h2
              rw [Nat.mul_comm q.2.w c'.l] at this
              omega
          have hlt : totalArea (m.map (·.2)) < c'.w * c'.l := by
            refine Nat.lt_of_le_of_lt (harea m fun q hq => ?_) ?_
            · have := (tall_size hv hs htall h hm hc hq).2.2.2
              have hlen : lenOf p c' = c'.l := by unfold lenOf; rw [hst]; rfl
              omega
            · rw [Nat.mul_comm c'.w]
              refine Nat.mul_lt_mul_of_pos_left ?_ hcpos.2
              have ht3 : lengths (m.map (fun q => (q.1, (⟨q.2.l, q.2.w⟩ : Dim)))) + q'.2.w ≤ c'.w := ht2
              omega
          rw [he, div_lt_one (by exact_mod_cast Nat.mul_pos hcpos.1 hcpos.2)]
          exact_mod_cast hlt
    have hgr := C102_greedy A p hv seq hs sol ov h before cid m after hsplit c hc q'.1 q'.2 hqf.1 hb
      (by simpa using hne) v hvv hfull
    rcases List.eq_nil_or_concat m with hnil | ⟨pre, ⟨id, r⟩, hcat⟩
    · subst hnil
      exact hgr.1 hcan
    · rw [List.concat_eq_append] at hcat
      have hsp : m.map (fun q => (q.1, (⟨q.2.l, q.2.w⟩ : Dim))) =
          pre.map (fun q => (q.1, (⟨q.2.l, q.2.w⟩ : Dim))) ++ [(id, ⟨r.l, r.w⟩)] := by rw [hcat]; simp
      obtain ⟨pre', r', post', h1, h2, h3, h4, h5⟩ := split hsp
      have hlast := hgr.2.2 hB hB' (id, r) (by rw [hcat]; simp)
      have hr : r' = r ∧ pre' = pre := by
        have hl : pre'.length = pre.length := by have := congrArg List.length h2; simpa using this.symm
        have := List.append_inj (h1.symm.trans hcat) hl
        refine ⟨?_, this.1⟩
        have := this.2
        injection this with this _
        exact (Prod.mk.inj this).2
      obtain ⟨rfl, rfl⟩ := hr
      rw [h4, h5] at hlast
      refine hlast ?_
      have : lengths (m.map (fun q => (q.1, (⟨q.2.l, q.2.w⟩ : Dim)))) =
          lengths (pre'.map (fun q => (q.1, (⟨q.2.l, q.2.w⟩ : Dim)))) + r'.w := by
        rw [hsp]; simp [lengths]
      rw [this] at hcan
      exact hcan

omit hv hs htall h in
theorem tall_chain (hall : ∀ before cid m after c, sol = before ++ (cid, m) :: after → (cid, c) ∈ p.containers →
      m = rowFrom 0 (greedy ⟨cid, lenOf p c, c.w, []⟩ (turnedItems ((solvedFor p.items seq).filter (fun q => q.1 ∉ placedIds before)))))
    (hn : ((solvedFor p.items seq).map (·.1)).Nodup) :
    ∀ (cs : List (String × Dim)) (before after : Solution), sol = before ++ after → after.map (·.1) = cs.map (·.1) →
      (∀ c ∈ cs, c ∈ p.containers) →
      after = (firstFit (rowsOf cs (lenOf p)) (turnedItems ((solvedFor p.items seq).filter (fun q => q.1 ∉ placedIds before)))).map
        (fun b => (b.id, rowFrom 0 b.items))
  | [], before, after, hsol, hk, _ => by
    have : after = [] := by simpa using hk
    subst this
    simp [rowsOf, firstFit_nil]
  | (cid, c) :: cs, before, after, hsol, hk, hc => by
    cases after with
    | nil => simp at hk
    | cons x after =>
      obtain ⟨cid', m⟩ := x
      simp only [List.map_cons, List.cons.injEq] at hk
      obtain ⟨rfl, hk⟩ := hk
      have hm := hall before cid' m after c hsol (hc _ (by simp))
      have ih := tall_chain hall hn cs (before ++ [(cid', m)]) after (by rw [hsol]; simp) hk
        (fun c hc' => hc c (by simp [hc']))
      have hb : rowsOf ((cid', c) :: cs) (lenOf p) = ⟨cid', lenOf p c, c.w, []⟩ :: rowsOf cs (lenOf p) := rfl
      rw [hb, firstFit_cons, List.map_cons, List.nil_append]
      generalize hpool : (solvedFor p.items seq).filter (fun q => q.1 ∉ placedIds before) = pool at hm ⊢
      have hpn : (pool.map (·.1)).Nodup := by
        rw [← hpool]; exact hn.sublist (List.filter_sublist.map _)
      have hmids : m.map (·.1) = (greedy ⟨cid', lenOf p c, c.w, []⟩ (turnedItems pool)).map (·.1) := by
        conv_lhs => rw [hm]
        rw [rowFrom_ids]
      rw [passed_eq _ (by rw [turnedItems_ids]; exact hpn), ← hm]
      congr 1
      rw [ih]
      congr 2
      generalize (greedy ⟨cid', lenOf p c, c.w, []⟩ (turnedItems pool)).map (·.1) = ids at hmids ⊢
      rw [turnedItems_filter pool (fun id => id ∉ ids)]
      congr 1
      rw [← hpool, List.filter_filter]
      refine List.filter_congr fun q _ => ?_
      have : q.1 ∈ placedIds (before ++ [(cid', m)]) ↔ q.1 ∈ placedIds before ∨ q.1 ∈ ids := by
        rw [← hmids]; simp [placedIds]
      simp only [this, not_or, Bool.decide_and]
      rw [Bool.and_comm]

end

/-- **C116**: if no two items fit on top of each other into any container (and none can be turned to avoid that), `solve`
carries out one-dimensional first fit along the widths: the items are taken in their order, each goes to the first container
that has room for its width and is long enough for it, and in each container they stand side by side on the floor, from the
left wall, without gaps.  The strategy must have the classes B and B''; all default strategies have them. -/
theorem C116_first_fit (A : Arith) (p : SolveIn) (hv : ValidIn p) (seq : Option (List String)) (hs : KnownSeq p seq)
    (har : p.strip = true ∨ A = Arith.exact) (hst : .B ∈ p.strategy ∧ .B__ ∈ p.strategy)
    (htall : Tall p.rotation (lenOf p) p.containers p.items) (sol : Solution) (ov : ObjVals) (h : solve A p seq = .ok (sol, ov)) :
    sol = (firstFit (rowsOf p.containers (fun c => if p.strip then p.height else c.l)) (turnedItems (solvedFor p.items seq))).map
      (fun b => (b.id, rowFrom 0 b.items)) := by
  have hval := solvedFor_valid hv hs h
  have := tall_chain (sol := sol) (p := p) (seq := seq)
    (fun before cid m after c hsplit hc => tall_container hv hs htall h hst.1 hst.2 har hsplit hc) hval.1
    p.containers [] sol rfl (C04_once A p hv seq hs sol ov h).1 (fun c hc => hc)
  have e : (fun c : Dim => if p.strip = true then p.height else c.l) = lenOf p := rfl
  rw [e]
  simpa [placedIds] using this

/-- **C116** in binary64 arithmetic, for problems of ordinary size -/
theorem C116_double (p : SolveIn) (hv : ValidIn p) (hb : p.strip = false) (seq : Option (List String)) (hs : KnownSeq p seq)
    (hlow : ∀ q ∈ p.items, ¬ LowStrip p.rotation q.2)
    (hsmall : ∀ c ∈ p.containers, 10 * ((p.items.length + 1) * (c.2.w * c.2.l)) < 2 ^ 53)
    (hst : .B ∈ p.strategy ∧ .B__ ∈ p.strategy) (htall : Tall p.rotation (lenOf p) p.containers p.items)
    (sol : Solution) (ov : ObjVals) (h : solve Arith.double p seq = .ok (sol, ov)) :
    sol = (firstFit (rowsOf p.containers (fun c => c.l)) (turnedItems (solvedFor p.items seq))).map
      (fun b => (b.id, rowFrom 0 b.items)) := by
  obtain ⟨ov', h'⟩ := (C83_bin p hv hb hlow hsmall seq hs sol).1 ⟨ov, h⟩
  have := C116_first_fit Arith.exact p hv seq hs (.inr rfl) hst htall sol ov' h'
  simpa [hb] using this


/-- the lengths of the items placed in a container -/
def Spec.filled (m : List (String × Rect)) : Nat := (m.map (fun q => q.2.w)).sum

theorem filled_row : ∀ (l : List (String × Dim)) (y : Nat), filled (rowFrom y l) = lengths l
  | [], y => rfl
  | (id, d) :: l, y => by
    have := filled_row l (y + d.l)
    simp only [filled, lengths] at this
    simp [filled, rowFrom, lengths, this]

/-- **C116**, half full: with containers of one size `W × L` that all items fit, the lengths in any container and in a later
filled one are together more than `L`; so at most one of the filled containers is filled to a half or less. -/
theorem C116_half (A : Arith) (p : SolveIn) (hv : ValidIn p) (seq : Option (List String)) (hs : KnownSeq p seq)
    (hb : p.strip = false) (har : A = Arith.exact) (hst : .B ∈ p.strategy ∧ .B__ ∈ p.strategy)
    (htall : Tall p.rotation (lenOf p) p.containers p.items) (W L : Nat) (hc : ∀ c ∈ p.containers, c.2 = ⟨W, L⟩)
    (hfit : ∀ q ∈ p.items, q.2.l ≤ L) (sol : Solution) (ov : ObjVals) (h : solve A p seq = .ok (sol, ov)) :
    sol.Pairwise (fun a b => b.2 ≠ [] → W < filled a.2 + filled b.2) := by
  rw [C116_first_fit A p hv seq hs (.inr har) hst htall sol ov h]
  rw [List.pairwise_map]
  have he : ∀ b ∈ rowsOf p.containers (fun c => if p.strip = true then p.height else c.l), b.items = [] := by
    intro b hb
    obtain ⟨c, _, rfl⟩ := List.mem_map.1 hb
    rfl
  refine List.Pairwise.imp_of_mem ?_ (firstFit_pairwise _ (turnedItems (solvedFor p.items seq)) he)
  intro a b ha hb' hab hne
  obtain ⟨a0, ha0, _, hw, hcap⟩ := firstFit_shape _ _ a ha
  obtain ⟨c, hcm, rfl⟩ := List.mem_map.1 ha0
  have hcc := hc c hcm
  simp only [hb, hcc, Bool.false_eq_true, if_false] at hw hcap
  cases hbi : b.items with
  | nil => rw [hbi] at hne; exact absurd rfl hne
  | cons q l =>
    have hq : q ∈ b.items := by rw [hbi]; simp
    have h1 := hab q hq
    have h2 : q.2.w ≤ L := by
      obtain ⟨q', hq', rfl⟩ := List.mem_map.1 (firstFit_from _ _ he b hb' q hq)
      exact hfit q' (solvedFor_mem _ hq')
    simp only [filled_row, hbi]
    unfold Bin.Takes at h1
    rw [hw, hcap] at h1
    have h3 : ¬ (a.load + q.2.l ≤ W) := fun h => h1 ⟨h2, h⟩
    simp only [Bin.load] at h3
    simp only [lengths, List.map_cons, List.sum_cons]
    omega

/-- **C116**, lower bound: no packing of such items without overlaps has more than the width of the container in it. -/
theorem C116_lower (rotation : Bool) (W L : Nat) (sizes : List (String × Dim)) (cid : String)
    (htall : Tall rotation (fun c => c.l) [(cid, ⟨W, L⟩)] sizes) (m : List (String × Rect)) (hd : (m.map (·.2)).Pairwise Spec.Disjoint)
    (hin : ∀ q ∈ m, Inside W L q.2 ∧ ∃ d, (q.1, d) ∈ sizes ∧ SizedAs rotation d q.2) : filled m ≤ W := by
  have hw : ∀ q ∈ m, q.2.x + q.2.w ≤ W ∧ q.2.y + q.2.l ≤ L ∧ L < 2 * q.2.l := by
    intro q hq
    obtain ⟨⟨h1, h2⟩, d, hd, hsz⟩ := hin q hq
    have := htall (cid, ⟨W, L⟩) (by simp) _ hd
    simp only at this
    refine ⟨h1, h2, ?_⟩
    rcases hsz with ⟨_, e1⟩ | ⟨hr, e1, e2⟩
    · rw [e1]; exact this.1
    · rcases this.2 hr with h | h <;> omega
  have hpw : ((m.map (·.2)).map (fun r => (⟨r.x, 0, r.w, 1⟩ : Rect))).Pairwise Spec.Disjoint := by
    rw [List.pairwise_map]
    refine List.Pairwise.imp_of_mem ?_ hd
    intro r s hr hs hrs x y ⟨⟨h1, h2, _, _⟩, ⟨h3, h4, _, _⟩⟩
    obtain ⟨q, hq, rfl⟩ := List.mem_map.1 hr
    obtain ⟨q', hq', rfl⟩ := List.mem_map.1 hs
    obtain ⟨a1, a2, a3⟩ := hw q hq
    obtain ⟨b1, b2, b3⟩ := hw q' hq'
    simp only at h1 h2 h3 h4
    exact hrs x ((L - 1) / 2) ⟨⟨h1, h2, by omega, by omega⟩, ⟨h3, h4, by omega, by omega⟩⟩
  have := totalArea_le (W := W) (L := 1) hpw (by
    intro r hr
    obtain ⟨r', hr', rfl⟩ := List.mem_map.1 hr
    obtain ⟨q, hq, rfl⟩ := List.mem_map.1 hr'
    exact ⟨(hw q hq).1, by simp⟩)
  simpa [totalArea, area, filled, Function.comp_def] using this

/-- **C116**, twice the optimum: the number of containers `solve` uses is less than twice the number of containers of the
same size that any packing of these items needs. -/
theorem C116_two (A : Arith) (p : SolveIn) (hv : ValidIn p) (seq : Option (List String)) (hs : KnownSeq p seq)
    (hb : p.strip = false) (har : A = Arith.exact) (hst : .B ∈ p.strategy ∧ .B__ ∈ p.strategy)
    (htall : Tall p.rotation (lenOf p) p.containers p.items) (W L : Nat) (hc : ∀ c ∈ p.containers, c.2 = ⟨W, L⟩)
    (hfit : ∀ q ∈ p.items, q.2.l ≤ L) (sol : Solution) (ov : ObjVals) (h : solve A p seq = .ok (sol, ov))
    (other : List (List (String × Rect)))
    (hother : ∀ m ∈ other, (m.map (·.2)).Pairwise Spec.Disjoint ∧
      ∀ q ∈ m, Inside W L q.2 ∧ ∃ d, (q.1, d) ∈ p.items ∧ SizedAs p.rotation d q.2)
    (hall : ∀ id ∈ placedIds sol, ∃ m ∈ other, id ∈ m.map (·.1)) (hsome : placedIds sol ≠ []) :
    (sol.filter (fun c => !c.2.isEmpty)).length < 2 * other.length := by
  have hlo : ∀ c, lenOf p c = c.l := by intro c; unfold lenOf; rw [hb]; rfl
  -- the width of an item
  generalize hlen : (fun id : String => ((PyDict.find? p.items id).map Dim.w).getD 0) = len
  have hlen' : ∀ id d, (id, d) ∈ p.items → len id = d.w := by
    intro id d hd
    rw [← hlen]
    simp only [PyDict.find?_of_mem hv.items.1 hd, Option.map_some, Option.getD_some]
  obtain ⟨hck, _, hnd, _⟩ := C04_once A p hv seq hs sol ov h
  have hsolc : ∀ x ∈ sol, (x.1, (⟨W, L⟩ : Dim)) ∈ p.containers := by
    intro x hx
    have : x.1 ∈ p.containers.map (·.1) := by rw [← hck]; exact List.mem_map_of_mem hx
    obtain ⟨⟨a, c⟩, hac, he⟩ := List.mem_map.1 this
    have := hc _ hac
    simp only at he this
    rw [← he, ← this]; exact hac
  -- all widths of the solution
  have hsum : ∀ l : List (String × List (String × Rect)), (∀ x ∈ l, x ∈ sol) →
      (l.map (fun x => filled x.2)).sum = ((placedIds l).map len).sum := by
    intro l
    induction l with
    | nil => intro _; rfl
    | cons x l ih =>
      intro hl
      have hx := hl x (by simp)
      have : filled x.2 = ((x.2.map (·.1)).map len).sum := by
        unfold filled
        rw [List.map_map]
        congr 1
        refine List.map_congr_left fun q hq => ?_
        exact (hlen' _ _ (tall_size hv hs htall h hx (hsolc x hx) hq).1).symm
      simp only [List.map_cons, List.sum_cons, placedIds, List.flatMap_cons, List.map_append, List.sum_append]
      rw [this, ih (fun y hy => hl y (by simp [hy]))]
      rfl
  -- all widths of the other packing
  have hothersum : ∀ l : List (List (String × Rect)), (∀ m ∈ l, m ∈ other) → p.containers ≠ [] →
      ((l.flatMap (fun m => m.map (·.1))).map len).sum ≤ l.length * W := by
    intro l
    induction l with
    | nil => intro _ _; simp
    | cons m l ih =>
      intro hl hne
      have hm := hother m (hl m (by simp))
      obtain ⟨⟨cid, c⟩, hcm⟩ := List.exists_mem_of_ne_nil _ hne
      have hcc := hc _ hcm
      simp only at hcc
      subst hcc
      have hlow : filled m ≤ W := C116_lower p.rotation W L p.items cid
        (by
          intro c' hc' q hq
          rw [List.mem_singleton] at hc'
          subst hc'
          have := htall _ hcm q hq
          simp only [hlo] at this
          exact this) m hm.1 hm.2
      have : ((m.map (·.1)).map len).sum = filled m := by
        unfold filled
        rw [List.map_map]
        congr 1
        refine List.map_congr_left fun q hq => ?_
        obtain ⟨_, d, hd, hsz⟩ := hm.2 q hq
        simp only [Function.comp]
        rw [hlen' _ _ hd]
        have hw := htall _ hcm _ hd
        have hi := (hm.2 q hq).1.2
        rcases hsz with ⟨e, _⟩ | ⟨hr, e1, e2⟩
        · exact e.symm
        · rcases hw.2 hr with he | he
          · rw [e1]; exact he
          · simp only [hlo] at he; omega
      have ih' := ih (fun m hm => hl m (by simp [hm])) hne
      simp only [List.flatMap_cons, List.map_append, List.sum_append, List.length_cons, Nat.add_mul, this]
      omega
  have hne : p.containers ≠ [] := by
    intro h0
    rw [h0] at hck
    have : sol = [] := by simpa using hck
    subst this
    exact hsome rfl
  -- the filled containers
  have hhalf := C116_half A p hv seq hs hb har hst htall W L hc hfit sol ov h
  have hpw : ((sol.filter (fun c => !c.2.isEmpty)).map (fun x => filled x.2)).Pairwise (fun a b => W < a + b) := by
    rw [List.pairwise_map]
    refine List.Pairwise.imp_of_mem ?_ (hhalf.sublist List.filter_sublist)
    intro a b _ hb' hab
    rw [List.mem_filter] at hb'
    exact hab (by have := hb'.2; intro h0; rw [h0] at this; simp at this)
  have h1 := pairs_sum _ hpw
  rw [List.length_map] at h1
  have h2 : ((sol.filter (fun c => !c.2.isEmpty)).map (fun x => filled x.2)).sum ≤ ((placedIds sol).map len).sum := by
    rw [← hsum sol (fun x hx => hx)]
    exact (List.filter_sublist.map _).sum_le_sum (fun _ _ => Nat.zero_le _)
  have hsubp : (placedIds sol).Subperm (other.flatMap (fun m => m.map (·.1))) := by
    refine List.subperm_of_subset hnd ?_
    intro id hid
    obtain ⟨m, hm, hi⟩ := hall id hid
    exact List.mem_flatMap.2 ⟨m, hm, hi⟩
  have h3 : ((placedIds sol).map len).sum ≤ ((other.flatMap (fun m => m.map (·.1))).map len).sum := by
    obtain ⟨l, hp, hsl⟩ := hsubp
    rw [← (hp.map len).sum_eq]
    exact (hsl.map len).sum_le_sum (fun _ _ => Nat.zero_le _)
  have h4 := hothersum other (fun m hm => hm) hne
  have hopos : 0 < other.length := by
    obtain ⟨id, hid⟩ := List.exists_mem_of_ne_nil _ hsome
    obtain ⟨m, hm, _⟩ := hall id hid
    exact List.length_pos_of_mem hm
  generalize (sol.filter (fun c => !c.2.isEmpty)).length = k at h1 ⊢
  have h5 : k / 2 * (W + 1) ≤ other.length * W := by omega
  have h6 : k / 2 < other.length := by
    by_contra hge
    have hge : other.length ≤ k / 2 := by omega
    have := Nat.mul_le_mul_right (W + 1) hge
    rw [Nat.mul_add] at this
    omega
  omega

/-- **C116** for a problem: with the default strategy `problem.solve()` is first fit. -/
theorem C116_api (i : Inst) (A : Arith) (hr : Reach A i) (har : i.strip = true ∨ A = Arith.exact)
    (hst : i.strategy = defaultStrategy) (htall : Tall i.rotation (fun c => if i.strip then i.height.getD 0 else c.l) i.containers i.items) :
    (step A i (.solve none)).2 = .ok ∧
    (step A i (.solve none)).1.solution =
      (firstFit (rowsOf i.containers (fun c => if i.strip then i.height.getD 0 else c.l)) (turnedItems i.items)).map
        (fun b => (b.id, rowFrom 0 b.items)) := by
  have hv := hr.good.valid.solveIn
  have hs : KnownSeq i.solveIn none := by intro s h; cases h
  obtain ⟨sol, ov, h⟩ := (C06_total A i.solveIn hv none).1 hs
  have key := C116_first_fit A i.solveIn hv none hs har
    (by show PClass.B ∈ i.strategy ∧ PClass.B__ ∈ i.strategy; rw [hst]; decide) htall sol ov h
  simp only [step, Inst.solve, h, bind, Except.bind, pure, Except.pure]
  exact ⟨trivial, key⟩


/-! ### the hypotheses are met -/

/-- the reflected problem of `wideDemo`: items longer than half of the containers -/
def tallDemo : SolveIn :=
  ⟨[("a", ⟨10, 5⟩), ("b", ⟨10, 5⟩), ("c", ⟨10, 5⟩)],
   [("p", ⟨6, 4⟩), ("q", ⟨7, 3⟩), ("r", ⟨4, 5⟩), ("s", ⟨8, 3⟩), ("t", ⟨3, 4⟩)], defaultStrategy, false, false, 0⟩

theorem tallDemo_meets : ValidIn tallDemo ∧ Tall tallDemo.rotation (lenOf tallDemo) tallDemo.containers tallDemo.items ∧
    (.B ∈ tallDemo.strategy ∧ .B__ ∈ tallDemo.strategy) ∧ (∀ c ∈ tallDemo.containers, c.2 = ⟨10, 5⟩) ∧
    (∀ q ∈ tallDemo.items, q.2.l ≤ 5) ∧ (∀ q ∈ tallDemo.items, ¬ LowStrip tallDemo.rotation q.2) := by
  refine ⟨⟨⟨by decide, by decide⟩, ⟨by decide, by decide⟩, nofun⟩, ?_, by decide, by decide, by decide, ?_⟩
  · intro c hc q hq
    revert q c
    decide
  · intro q hq h
    rcases h with ⟨h, _⟩ | ⟨h, _⟩
    · revert q; decide
    · cases h

example : (solve Arith.exact tallDemo none).toOption.map (·.1) = some
    [("a", rowFrom 0 [("p", ⟨4, 6⟩), ("r", ⟨5, 4⟩)]), ("b", rowFrom 0 [("q", ⟨3, 7⟩), ("t", ⟨4, 3⟩)]),
      ("c", rowFrom 0 [("s", ⟨3, 8⟩)])] := by decide +kernel

end HP
