import Verif.Props.Grid
import Verif.Props.Rounds
import Verif.Props.Items
import Verif.Props.Effort
import Verif.Props.Reproducible
import Verif.Props.Team
import Verif.Props.Comeback
/-
Property C126, the exhaustive search: it finds the lowest strip of equal items.
-/
namespace HP
open Spec

/-! ### a climb among items of one size goes nowhere -/

theorem hill_one_size (A : Arith) (clock : Nat → Rat) (start : Rat) (throttle : Bool) (i : Inst) (hv : i.Valid)
    (d : Dim) (hd : ∀ q ∈ i.items, q.2 = d) (H : Nat) (hH : i.strip = true → 0 < H) (first : Solution × ObjVals)
    (hp : (i.hill A clock start throttle).pack H (i.items.map (·.1)) first) {n m : Nat} {hs : List Nat}
    {z : HillNode String (Solution × ObjVals)}
    (h : Hill (i.hill A clock start throttle) n ⟨i.items.map (·.1), first, H, hs⟩ m z) :
    z = ⟨i.items.map (·.1), first, H, hs⟩ := by
  have hno : ∀ y r, y ∈ neighbours (i.items.map (·.1)) → (i.hill A clock start throttle).pack H y r →
      ¬ (i.hill A clock start throttle).better r first := by
    intro y r hy hp' hb
    obtain ⟨a, b, h1, h2, h3⟩ := neighbours_swap hv.items.1 hy
    obtain ⟨qa, m1, e1⟩ := List.mem_map.1 h1
    obtain ⟨qb, m2, e2⟩ := List.mem_map.1 h2
    have k1 : (a, d) ∈ i.items := by rw [← e1, ← hd qa m1]; exact m1
    have k2 : (b, d) ∈ i.items := by rw [← e2, ← hd qb m2]; exact m2
    subst h3
    have hp1 : solve A (i.at H) (some (i.items.map (·.1))) = .ok (first.1, first.2) := hp
    have hp2 : solve A (i.at H) (some ((i.items.map (·.1)).map (Spec.swapIds a b))) = .ok (r.1, r.2) := hp'
    obtain ⟨v1, _⟩ := C124_value A (i.at H) (at_valid hv hH) a b d k1 k2 (i.items.map (·.1))
      first.1 r.1 first.2 r.2 hp1 hp2
    have := hb.1
    rw [v1] at this
    exact lt_irrefl _ this
  have hmem : ∀ y, y ∈ (neighbours (i.items.map (·.1))).take (i.hill A clock start throttle).limit →
      y ∈ neighbours (i.items.map (·.1)) := fun y hy => List.mem_of_mem_take hy
  cases h with
  | rest => rfl
  | last e _ _ hp hb _ => exact absurd hb (hno _ _ (hmem _ (by simp only at e; rw [e]; simp)) hp)
  | move e _ _ hp hb _ _ => exact absurd hb (hno _ _ (hmem _ (by simp only at e; rw [e]; simp)) hp)

/-- a search over strategies, all in time, among items of one size: the height stays, and the best of all the first
packings is left -/
theorem hyper_one_size {A : Arith} {clock : Nat → Rat} {start : Rat} {throttle : Bool} {i : Inst} (hv : i.Valid)
    {d : Dim} (hd : ∀ q ∈ i.items, q.2 = d) {H : Nat} (hH : i.strip = true → 0 < H)
    (hlate : ∀ n, ¬ (i.rounds A clock start throttle).late n) {sts : List (List PClass)}
    {a z : HyperNode (List PClass) (Solution × ObjVals)} (h : Hyper (i.rounds A clock start throttle) sts a z) :
    a.height = H →
    (z.best = a.best ∨ ∃ st ∈ sts, solve A { i.at H with strategy := st } (some (i.items.map (·.1))) = .ok z.best) ∧
    overall A (a.best.2.map (·.2)) ≤ overall A (z.best.2.map (·.2)) ∧
    ∀ st ∈ sts, ∃ r, solve A { i.at H with strategy := st } (some (i.items.map (·.1))) = .ok r ∧
      overall A (r.2.map (·.2)) ≤ overall A (z.best.2.map (·.2)) := by
  induction h with
  | done => intro _; exact ⟨.inl rfl, le_refl _, by simp⟩
  | stop _ hl => exact absurd hl (hlate _)
  | @next st rest a b c hr _ _ ih =>
    intro ha
    obtain ⟨r, m, z, p1, p2, p3, p4, p5, p6, p7⟩ := hr
    rw [ha] at p1 p2
    have hvst : ({ i with strategy := st } : Inst).Valid :=
      ⟨hv.conts, hv.items, hv.contsNe, hv.itemsNe, hv.strip, hv.height, hv.minPos⟩
    have hz := hill_one_size A (fun k => clock (a.readings + k)) start throttle { i with strategy := st } hvst d hd H hH r
      p1 p2
    subst hz
    obtain ⟨g1, g2, g3⟩ := ih p4
    have hpack : solve A { i.at H with strategy := st } (some (i.items.map (·.1))) = .ok r := p1
    rcases p7 with ⟨q1, q2, q3⟩ | ⟨q1, q2, q3⟩
    · have q1' : overall A (a.best.2.map (·.2)) < overall A (r.2.map (·.2)) := q1
      simp only at q2
      rw [q2] at g1 g2
      refine ⟨.inr ?_, le_trans (le_of_lt q1') g2, ?_⟩
      · rcases g1 with g1 | ⟨st', m1, m2⟩
        · exact ⟨st, by simp, by rw [g1]; exact hpack⟩
        · exact ⟨st', by simp [m1], m2⟩
      · intro st' hst'
        rcases List.mem_cons.1 hst' with rfl | hst'
        · exact ⟨r, hpack, g2⟩
        · exact g3 st' hst'
    · have q1' : ¬ overall A (a.best.2.map (·.2)) < overall A (r.2.map (·.2)) := q1
      rw [q2] at g1 g2
      refine ⟨?_, g2, ?_⟩
      · rcases g1 with g1 | ⟨st', m1, m2⟩
        · exact .inl g1
        · exact .inr ⟨st', by simp [m1], m2⟩
      · intro st' hst'
        rcases List.mem_cons.1 hst' with rfl | hst'
        · exact ⟨r, hpack, le_trans (not_lt.1 q1') g2⟩
        · exact g3 st' hst'

/-! ### one packing -/

theorem rect_grid {p : Nat → Nat × Nat} {d : Dim} {ids : List String} :
    (ids.mapIdx (fun k id => (id, (⟨(p k).1, (p k).2, d.w, d.l⟩ : Rect)))).map (·.1) = ids ∧
    totalArea ((ids.mapIdx (fun k id => (id, (⟨(p k).1, (p k).2, d.w, d.l⟩ : Rect)))).map (·.2)) =
      ids.length * (d.w * d.l) := by
  constructor
  · apply List.ext_getElem
    · simp
    · intro k h1 h2
      simp
  · unfold totalArea
    have : ((ids.mapIdx (fun k id => (id, (⟨(p k).1, (p k).2, d.w, d.l⟩ : Rect)))).map (·.2)).map area =
        List.replicate ids.length (d.w * d.l) := by
      apply List.ext_getElem
      · simp
      · intro k h1 h2
        simp [area]
    rw [this, List.sum_replicate_nat]

/-- with one of the two kinds of strategies all items are packed, if there is room for them -/
theorem strip_complete (A : Arith) (p : SolveIn) (hv : ValidIn p) (hstrip : p.strip = true) (cid : String) (c : Dim)
    (hc : p.containers = [(cid, c)]) (seq : Option (List String)) (hs : KnownSeq p seq)
    (d : Dim) (hd : ∀ q ∈ p.items, q.2 = d) (ht : 2 ≤ d.l) (hturn : p.rotation = true → d.w = d.l)
    (hst : ColumnOrder p.strategy ∨ RowOrder p.strategy) (hsome : p.items ≠ []) (hne : solvedFor p.items seq ≠ [])
    (hroom : (solvedFor p.items seq).length ≤ gridRoom d c.w p.height)
    (sol : Solution) (ov : ObjVals) (h : solve A p seq = .ok (sol, ov)) :
    ∃ m v, sol = [(cid, m)] ∧ ov = [(cid, v)] ∧ m.map (·.1) = (solvedFor p.items seq).map (·.1) ∧
      d.l ≤ stackHeight (m.map (·.2)) ∧
      v = A.div ((solvedFor p.items seq).length * (d.w * d.l)) (c.w * max 1 (stackHeight (m.map (·.2)) - 1)) := by
  have hm : ∃ f : Nat → Nat × Nat, sol = [(cid, ((solvedFor p.items seq).map (·.1)).mapIdx
      (fun k id => (id, (⟨(f k).1, (f k).2, d.w, d.l⟩ : Rect))))] := by
    have hlen : ((solvedFor p.items seq).map (·.1)).length ≤ gridRoom d c.w p.height := by
      rw [List.length_map]; exact hroom
    rcases hst with hst | hst
    · have heq := C125_grid A p hv seq hs d hd (fun hr => .inl (hturn hr)) (.inl hstrip) hst sol ov h hsome
      rw [hc, gridFill, gridFill] at heq
      simp only [hstrip, if_true] at heq
      rw [List.take_of_length_le hlen] at heq
      exact ⟨fun k => (k / (p.height / d.l) * d.w, k % (p.height / d.l) * d.l), heq⟩
    · have heq := C125_rows A p hv seq hs d hd ht (fun hr => .inl (hturn hr)) (.inl hstrip) hst sol ov h hsome
      rw [hc, rowFill, rowFill] at heq
      simp only [hstrip, if_true] at heq
      rw [List.take_of_length_le hlen] at heq
      exact ⟨fun k => (k % (c.w / d.w) * d.w, k / (c.w / d.w) * d.l), heq⟩
  obtain ⟨f, hm⟩ := hm
  obtain ⟨g1, g2⟩ := rect_grid (p := f) (d := d) (ids := (solvedFor p.items seq).map (·.1))
  generalize hmm : ((solvedFor p.items seq).map (·.1)).mapIdx
      (fun k id => (id, (⟨(f k).1, (f k).2, d.w, d.l⟩ : Rect))) = m at *
  have hmne : m ≠ [] := by
    rintro rfl
    rw [List.map_nil] at g1
    exact hne (List.map_eq_nil_iff.1 g1.symm)
  obtain ⟨c', v, k1, k2, k3⟩ := C08_partial A p hv hstrip seq hs sol ov h cid m (by rw [hm]; simp) hmne
  have hko := (C04_once A p hv seq hs sol ov h).2.1
  rw [hc] at hko k1
  simp only [List.mem_singleton, Prod.mk.injEq] at k1
  obtain ⟨_, rfl⟩ := k1
  have hov : ov = [(cid, v)] := by
    match ov, hko, k2 with
    | [x], _, k2 => rw [List.mem_singleton] at k2; rw [k2]
  refine ⟨m, v, hm, hov, g1, ?_, ?_⟩
  · obtain ⟨q, hq⟩ := List.exists_mem_of_ne_nil _ hmne
    have h1 := (stackHeight_le (rs := m.map (·.2))).1 (le_refl _) q.2 (List.mem_map.2 ⟨q, hq, rfl⟩)
    have h2 : q.2.l = d.l := by
      rw [← hmm] at hq
      obtain ⟨k, hk, rfl⟩ := List.mem_iff_getElem.1 hq
      rw [List.getElem_mapIdx]
    omega
  · rw [k3, g2, List.length_map]

/-! ### sorting and orienting -/

theorem prepared_one_size {A : Arith} {i : Inst} (hr : Reach A i) (h : HSArgs)
    (hs : (step A i (.sortItems h.sortingBy)).2 = .ok) {d : Dim} (hd : ∀ q ∈ i.items, q.2 = d)
    (hturn : i.rotation = true → d.w = d.l) :
    let i0 := (step A (step A i (.sortItems h.sortingBy)).1 (.orientItems h.orientation)).1
    (∀ q ∈ i0.items, q.2 = d) ∧ (i0.items.map (·.1)).Perm (i.items.map (·.1)) ∧ i0.containers = i.containers ∧
      i0.rotation = i.rotation ∧ i0.strategy = i.strategy ∧ i0.height = i.height ∧ i0.strip = i.strip ∧
      i0.maxTime = i.maxTime := by
  have h1 : ∃ j, (step A i (.sortItems h.sortingBy)).1 = j ∧ (∀ q ∈ j.items, q.2 = d) ∧
      (j.items.map (·.1)).Perm (i.items.map (·.1)) ∧ j.containers = i.containers ∧
      j.rotation = i.rotation ∧ j.strategy = i.strategy ∧ j.height = i.height ∧ j.strip = i.strip ∧
      j.maxTime = i.maxTime := by
    cases hsb : h.sortingBy with
    | none =>
      rw [(C50_unknown A i .none false (by intro name key e; cases e)).2]
      exact ⟨i, rfl, hd, List.Perm.refl _, rfl, rfl, rfl, rfl, rfl, rfl⟩
    | some x =>
      obtain ⟨b, rev⟩ := x
      by_cases hk : ∃ name key, b = .str name ∧ criterion A.quot name = some key
      · obtain ⟨name, key, rfl, hk⟩ := hk
        obtain ⟨sorted, e, hp, _⟩ := C50_sorted A i hr name key hk rev
        rw [e]
        exact ⟨_, rfl, fun q hq => hd q (hp.mem_iff.1 hq), hp.map _, rfl, rfl, rfl, rfl, rfl, rfl⟩
      · have := (C50_unknown A i b rev (fun name key e he => hk ⟨name, key, e, he⟩)).1
        rw [hsb, this] at hs
        cases hs
  obtain ⟨j, hj, a1, a2, a3, a4, a5, a6, a7, a8⟩ := h1
  have hrj : Reach A j := by rw [← hj]; exact .step _ hr
  intro i0
  have h2 : i0 = j := by
    show (step A (step A i (.sortItems h.sortingBy)).1 (.orientItems h.orientation)).1 = j
    rw [hj]
    by_cases hrot : j.rotation = true
    · have hsq := hturn (a4 ▸ hrot)
      by_cases ho : h.orientation = .str "wide"
      · rw [ho, (C51_oriented A j hrj hrot "wide" widened (.inl ⟨rfl, rfl⟩)).2 (by
          intro q hq
          rw [a1 q hq, widened, if_neg (by omega)])]
      · by_cases ho' : h.orientation = .str "long"
        · rw [ho', (C51_oriented A j hrj hrot "long" lengthened (.inr ⟨rfl, rfl⟩)).2 (by
            intro q hq
            rw [a1 q hq, lengthened, if_neg (by omega)])]
        · rw [C51_skipped A j h.orientation (.inr ⟨ho, ho'⟩)]
    · rw [C51_skipped A j h.orientation (.inl (by simpa using hrot))]
  rw [h2]
  exact ⟨a1, a2, a3, a4, a5, a6, a7, a8⟩

/-- every strategy tried by an exhaustive search is of one of the two kinds -/
theorem strategy_kind (order : List PClass → List PClass) (ho : ∀ l : List PClass, l.Nodup → (order l).Perm l)
    (strip : Bool) (st : List PClass) (h : st ∈ getStrategies order strip true) : ColumnOrder st ∨ RowOrder st := by
  obtain ⟨_, pre, hpre⟩ := (C28_strategies order strip ho).2.2.1 st h
  obtain ⟨hp, _⟩ := (C28_strategies order strip ho).2.2.1 st h
  have hpre' : pre.Perm [.A, .B, .C, .D, .A_, .B_] := by
    rw [hpre] at hp
    have e : ([.A, .B, .C, .D, .A_, .B_, .B__, .A__, .E, .F] : List PClass).Perm
        ([.A, .B, .C, .D, .A_, .B_] ++ [.A__, .B__, .F, .E]) := by decide
    exact (List.perm_append_right_iff _).1 (hp.trans e)
  have hA : .A ∈ pre := hpre'.mem_iff.2 (by decide)
  have hB : .B ∈ pre := hpre'.mem_iff.2 (by decide)
  have hnd : pre.Nodup := hpre'.nodup_iff.2 (by decide)
  have hA2 : .A__ ∉ pre := fun h => absurd (hpre'.mem_iff.1 h) (by decide)
  have hB2 : .B__ ∉ pre := fun h => absurd (hpre'.mem_iff.1 h) (by decide)
  obtain ⟨s1, s2, rfl⟩ := List.append_of_mem hA
  rcases List.mem_append.1 hB with hB | hB
  · right
    obtain ⟨t1, t2, rfl⟩ := List.append_of_mem hB
    refine ⟨t1, t2, s2 ++ [.A__, .B__, .F, .E], by rw [hpre]; simp, ?_, ?_⟩
    · intro hm
      simp only [List.nodup_append, List.mem_append, List.mem_cons] at hnd hm
      rcases hm with hm | hm
      · exact hnd.2.2 .A (.inl hm) .A (.inl rfl) rfl
      · exact hnd.2.2 .A (.inr (.inr hm)) .A (.inl rfl) rfl
    · intro hm
      apply hA2
      simp only [List.mem_append, List.mem_cons] at hm ⊢
      rcases hm with hm | hm
      · exact .inl (.inl hm)
      · exact .inl (.inr (.inr hm))
  · left
    rcases List.mem_cons.1 hB with hB | hB
    · cases hB
    obtain ⟨t1, t2, rfl⟩ := List.append_of_mem hB
    refine ⟨s1, t1, t2 ++ [.A__, .B__, .F, .E], by rw [hpre]; simp, ?_, ?_⟩
    · intro hm
      simp only [List.nodup_append, List.nodup_cons, List.mem_append, List.mem_cons] at hnd hm
      rcases hm with hm | hm
      · exact hnd.2.2 .B hm .B (by simp) rfl
      · exact hnd.2.1.2.2.2 .B hm .B (by simp) rfl
    · intro hm
      apply hB2
      simp only [List.mem_append, List.mem_cons] at hm ⊢
      rcases hm with hm | hm
      · exact .inl hm
      · exact .inr (.inr (.inl hm))

/-! ### the search -/

/-- a packing of equal items at least as good as the rows is not higher than any packing -/
theorem strip_lowest {k : Inst} (hv0 : k.Valid) (hstrip : k.strip = true) {W L H top : Nat}
    (hW : k.containers = [(stripId, ⟨W, L⟩)]) (hHpos : 0 < H) {d : Dim} (b1 : ∀ q ∈ k.items, q.2 = d) (ht : 2 ≤ d.l)
    (hturn : k.rotation = true → d.w = d.l) (htop : top ≤ H) {other : List (String × Rect)}
    (hdis : (other.map (·.2)).Pairwise Spec.Disjoint)
    (hin : ∀ q ∈ other, Inside W top q.2 ∧ ∃ dq, (q.1, dq) ∈ k.items ∧ SizedAs k.rotation dq q.2)
    (hall : (other.map (·.1)).Perm (k.items.map (·.1))) {r best : Solution × ObjVals} {rows st : List PClass}
    (hro : RowOrder rows) (hk : ColumnOrder st ∨ RowOrder st)
    (g1 : solve Arith.exact { k.at H with strategy := rows } (some (k.items.map (·.1))) = .ok r)
    (hsol : solve Arith.exact { k.at H with strategy := st } (some (k.items.map (·.1))) = .ok best)
    (g2 : overall Arith.exact (r.2.map (·.2)) ≤ overall Arith.exact (best.2.map (·.2))) :
    ∃ m, best.1 = [(stripId, m)] ∧ m.map (·.1) = k.items.map (·.1) ∧ stackHeight (m.map (·.2)) ≤ top := by
  have hkeys0 : (PyDict.keys k.items).Nodup := hv0.items.1
  have hsolved : solvedFor k.items (some (k.items.map (·.1))) = k.items := reorder_self hkeys0
  have hpos := hv0.items.2
  obtain ⟨q0, hq0⟩ := List.exists_mem_of_ne_nil _ hv0.itemsNe
  obtain ⟨w0, l0⟩ := hpos _ hq0
  rw [b1 q0 hq0] at w0 l0
  have hWpos : 0 < W := by
    have := hv0.conts.2 (stripId, ⟨W, L⟩) (by rw [hW]; simp)
    exact this.1
  have hlen : other.length = k.items.length := by
    have := hall.length_eq
    simpa using this
  have hroomtop := packing_bound w0 l0 b1 (fun hr => .inl (hturn hr)) hdis hin
  have hroom : k.items.length ≤ gridRoom d W H := by
    have := Nat.mul_le_mul_left (W / d.w) (Nat.div_le_div_right (c := d.l) htop)
    unfold gridRoom at hroomtop ⊢
    omega
  have hvalid : ∀ st, ValidIn { k.at H with strategy := st } := by
    intro st
    have := at_valid hv0 (h := H) (fun _ => hHpos)
    exact ⟨this.conts, this.items, this.height⟩
  have hknown : ∀ st, KnownSeq { k.at H with strategy := st } (some (k.items.map (·.1))) :=
    fun st => KnownSeq_perm (List.Perm.refl _)
  have hcompl : ∀ st r, ColumnOrder st ∨ RowOrder st →
      solve Arith.exact { k.at H with strategy := st } (some (k.items.map (·.1))) = .ok r →
      ∃ m v, r.1 = [(stripId, m)] ∧ r.2 = [(stripId, v)] ∧ m.map (·.1) = k.items.map (·.1) ∧
        d.l ≤ stackHeight (m.map (·.2)) ∧
        v = Arith.exact.div (k.items.length * (d.w * d.l)) (W * max 1 (stackHeight (m.map (·.2)) - 1)) := by
    intro st r hk hsol
    have := strip_complete Arith.exact { k.at H with strategy := st } (hvalid st) hstrip
      stripId ⟨W, L⟩ (by show k.containers = _; rw [hW])
      (some (k.items.map (fun q : String × Dim => q.1))) (hknown st) d b1 ht hturn hk hv0.itemsNe
      (show solvedFor k.items (some (k.items.map (·.1))) ≠ [] by rw [hsolved]; exact hv0.itemsNe)
      (show (solvedFor k.items (some (k.items.map (·.1)))).length ≤ gridRoom d W H by rw [hsolved]; exact hroom) r.1 r.2 hsol
    have e : solvedFor ({ k.at H with strategy := st } : SolveIn).items (some (k.items.map (·.1))) = k.items := hsolved
    rw [e] at this
    exact this
  obtain ⟨m, v, e1, e2, e3, e4, e5⟩ := hcompl st best hk hsol
  obtain ⟨m', v', f1, f2, f3, f4, f5⟩ := hcompl _ r (.inr hro) g1
  obtain ⟨m2, k1, _, k3⟩ := C126_rows_partial Arith.exact _ (hvalid rows) hstrip stripId ⟨W, L⟩
    (by show k.containers = _; rw [hW])
    (some (k.items.map (fun q : String × Dim => q.1))) (hknown _) d b1 ht hturn hro r.1 r.2 g1
    top htop other hdis hin (show (other.map (·.1)).Perm ((solvedFor k.items (some (k.items.map (·.1)))).map (·.1)) by
      rw [hsolved]; exact hall)
  have hmm : m2 = m' := by
    rw [k1] at f1
    simpa using f1
  subst hmm
  have hS' : stackHeight (m2.map (·.2)) ≤ top := stackHeight_le.2 (by
    intro x hx
    obtain ⟨q, hq, rfl⟩ := List.mem_map.1 hx
    exact k3 q hq)
  have hval : v' ≤ v := by
    rw [e2, f2] at g2
    simpa [overall, Arith.exact] using g2
  have hS : stackHeight (m.map (·.2)) ≤ stackHeight (m2.map (·.2)) := by
    by_contra hlt
    have hn : 0 < k.items.length := List.length_pos_of_mem hq0
    have harea : (0 : Rat) < ((k.items.length * (d.w * d.l) : Nat) : Rat) := by
      exact_mod_cast Nat.mul_pos hn (Nat.mul_pos w0 l0)
    have hden : W * max 1 (stackHeight (m2.map (·.2)) - 1) < W * max 1 (stackHeight (m.map (·.2)) - 1) :=
      Nat.mul_lt_mul_of_pos_left (by omega) hWpos
    have hden' : ((W * max 1 (stackHeight (m2.map (·.2)) - 1) : Nat) : Rat) <
        ((W * max 1 (stackHeight (m.map (·.2)) - 1) : Nat) : Rat) := by exact_mod_cast hden
    have hpos' : (0 : Rat) < ((W * max 1 (stackHeight (m2.map (·.2)) - 1) : Nat) : Rat) := by
      exact_mod_cast Nat.mul_pos hWpos (by omega)
    have := div_lt_div_of_pos_left harea hpos' hden'
    rw [e5, f5] at hval
    exact absurd hval (not_le.2 this)
  exact ⟨m, e1, e3, le_trans hS hS'⟩

/-- the items of a packing of one container, whatever way it is written -/
theorem same_one {sol : Solution} {cid : String} {m : List (String × Rect)} (h : SamePacking sol [(cid, m)]) :
    ∃ m', sol = [(cid, m')] ∧ m'.Perm m := by
  obtain ⟨hk', hp'⟩ := h
  obtain ⟨⟨k, mj⟩, hjs⟩ : ∃ x, sol = [x] := by
    have hl := congrArg List.length hk'
    rw [List.length_map] at hl
    exact List.length_eq_one_iff.1 hl
  rw [hjs] at hk' hp'
  simp only [List.map_cons, List.map_nil, List.cons.injEq, and_true] at hk'
  subst hk'
  obtain ⟨m3, h3, hperm⟩ := hp' k mj (by simp)
  simp only [List.mem_singleton, Prod.mk.injEq, true_and] at h3
  subst h3
  exact ⟨mj, hjs, hperm⟩

/-- a strategy that fills rows, and that every exhaustive search tries -/
theorem rows_tried (h : HSArgs) (strip : Bool) :
    [.B, .A, .C, .D, .A_, .B_] ++ [.A__, .B__, .F, .E] ∈ getStrategies h.order strip true ∧
    RowOrder ([.B, .A, .C, .D, .A_, .B_] ++ [.A__, .B__, .F, .E]) :=
  ⟨(C28_strategies h.order strip h.orderPerm).2.2.2 [.B, .A, .C, .D, .A_, .B_] (by decide),
    ⟨[], [], _, rfl, by decide, by decide⟩⟩

/-- a competing packing of the items is one of the sorted and oriented items -/
theorem one_size_inside {i i0 : Inst} {d : Dim} (hd : ∀ q ∈ i.items, q.2 = d) (b1 : ∀ q ∈ i0.items, q.2 = d)
    (b2 : (i0.items.map (·.1)).Perm (i.items.map (·.1))) (b4 : i0.rotation = i.rotation) {W top : Nat}
    {other : List (String × Rect)}
    (hin : ∀ q ∈ other, Inside W top q.2 ∧ ∃ dq, (q.1, dq) ∈ i.items ∧ SizedAs i.rotation dq q.2) :
    ∀ q ∈ other, Inside W top q.2 ∧ ∃ dq, (q.1, dq) ∈ i0.items ∧ SizedAs i0.rotation dq q.2 := by
  intro q hq
  obtain ⟨k1, dq, k2, k3⟩ := hin q hq
  have e := hd _ k2
  simp only at e
  subst e
  refine ⟨k1, dq, ?_, by rw [b4]; exact k3⟩
  have : q.1 ∈ i0.items.map (·.1) := b2.mem_iff.2 (List.mem_map.2 ⟨_, k2, rfl⟩)
  obtain ⟨q', hq', e⟩ := List.mem_map.1 this
  rw [← e, ← b1 q' hq']
  exact hq'

/-- **C126**: strip packing, items of one size `d` with `l ≥ 2`, not turned: if all of them can be packed into a part of the strip that
is `top` high (and not higher than `container_height`), the exhaustive `hypersearch()` of one worker that is not
stopped by its time limit returns a packing of all of them that is not higher than `top`. -/
theorem C126_hypersearch_partial (i : Inst) (hr : Reach Arith.exact i) (hstrip : i.strip = true) (W L : Nat)
    (hW : i.containers = [(stripId, ⟨W, L⟩)]) (H : Nat) (hH : i.height = some H)
    (hst : ColumnOrder i.strategy ∨ RowOrder i.strategy)
    (d : Dim) (hd : ∀ q ∈ i.items, q.2 = d) (ht : 2 ≤ d.l) (hturn : i.rotation = true → d.w = d.l)
    (h : HSArgs) (hw : OneWorker i.workers) (hs : (step Arith.exact i (.sortItems h.sortingBy)).2 = .ok)
    (hex : h.exhaustive = true) (htime : ∀ n, h.clock (n + 1) - h.clock 0 ≤ (i.maxTime : Rat))
    (top : Nat) (htop : top ≤ H) (other : List (String × Rect)) (hdis : (other.map (·.2)).Pairwise Spec.Disjoint)
    (hin : ∀ q ∈ other, Inside W top q.2 ∧ ∃ dq, (q.1, dq) ∈ i.items ∧ SizedAs i.rotation dq q.2)
    (hall : (other.map (·.1)).Perm (i.items.map (·.1))) :
    (step Arith.exact i (.hypersearch h)).2 = .ok ∧
    ∃ m, (step Arith.exact i (.hypersearch h)).1.solution = [(stripId, m)] ∧
      (m.map (·.1)).Perm (i.items.map (·.1)) ∧ ∀ q ∈ m, q.2.y + q.2.l ≤ top := by
  obtain ⟨i0, h0⟩ : ∃ x, x = (step Arith.exact (step Arith.exact i (.sortItems h.sortingBy)).1
    (.orientItems h.orientation)).1 := ⟨_, rfl⟩
  obtain ⟨hr0, _, _, _⟩ := prepared_facts hr h
  obtain ⟨b1, b2, b3, b4, b5, b6, b7, b8⟩ := prepared_one_size hr h hs hd hturn
  rw [← h0] at hr0 b1 b2 b3 b4 b5 b6 b7 b8
  obtain ⟨j, first, hj, hfirst, ⟨z, hz⟩, hend⟩ := C107_hypersearch Arith.exact i hr h hw hs i0 h0
  obtain ⟨c1, _, _, _, _, _⟩ := hend z hz
  rw [hj]
  refine ⟨rfl, ?_⟩
  have hv0 := hr0.good.valid
  have hHpos : 0 < H := by
    obtain ⟨k, hk, hp⟩ := hr.good.valid.height hstrip
    rw [hH] at hk
    injection hk with hk
    omega
  have hheight : i0.height.getD 0 = H := by rw [b6, hH]; rfl
  have hlate : ∀ n, ¬ (i0.rounds Arith.exact (fun k => h.clock (k + 1)) (h.clock 0) h.throttle).late n := by
    intro n hl
    have hl' : h.clock (n + 1) - h.clock 0 > (i0.maxTime : Rat) := hl
    rw [b8] at hl'
    exact absurd (htime n) (not_le.2 hl')
  rw [hex] at hz
  obtain ⟨d1, _, d3⟩ := hyper_one_size hv0 b1 (H := H) (fun _ => hHpos) hlate hz hheight
  simp only at d1
  have hbest : ∃ st, (ColumnOrder st ∨ RowOrder st) ∧
      solve Arith.exact { i0.at H with strategy := st } (some (i0.items.map (·.1))) = .ok z.best := by
    rcases d1 with d1 | ⟨st, m1, m2⟩
    · refine ⟨i0.strategy, by rw [b5]; exact hst, ?_⟩
      have := first_packs hv0 hfirst
      rw [hheight] at this
      rw [d1]
      exact this
    · exact ⟨st, strategy_kind h.order h.orderPerm _ st m1, m2⟩
  obtain ⟨st, hk, hsol⟩ := hbest
  obtain ⟨hrow, hro⟩ := rows_tried h i.strip
  obtain ⟨r, g1, g2⟩ := d3 _ hrow
  obtain ⟨m, e1, e3, e4⟩ := strip_lowest hv0 (b7.trans hstrip) (b3.trans hW) hHpos b1 ht (fun hrot => hturn (b4 ▸ hrot)) htop
    hdis (one_size_inside hd b1 b2 b4 hin) (hall.trans b2.symm) hro hk g1 hsol g2
  rw [e1] at c1
  obtain ⟨mj, hjs, hperm⟩ := same_one c1
  refine ⟨mj, hjs, (hperm.map _).trans (by rw [e3]; exact b2), ?_⟩
  intro q hq
  have := (stackHeight_le (rs := m.map (·.2))).1 (le_refl _) q.2 (List.mem_map.2 ⟨q, hperm.mem_iff.1 hq, rfl⟩)
  omega

/-- **C126**: the same for several workers, none of which fails, if the settings of the problem are in force (each
worker is a new problem made with them) and `hypersearch()` returns.  Each worker sets the height to 10 times the
width, so `top` may be higher than `container_height`, and the strategy of the problem does not matter. -/
theorem C126_workers_partial (i : Inst) (hr : Reach Arith.exact i) (hstrip : i.strip = true) (W L : Nat)
    (hW : i.containers = [(stripId, ⟨W, L⟩)])
    (d : Dim) (hd : ∀ q ∈ i.items, q.2 = d) (ht : 2 ≤ d.l) (hturn : i.rotation = true → d.w = d.l)
    (st : List (PyVal × PyVal)) (hset : i.settings = .dict st) (hrot : RotationSetting st i.rotation) (t : Int)
    (hmax : TimeSetting st t)
    (h : HSArgs) (hw : ¬ OneWorker i.workers) (hs : (step Arith.exact i (.sortItems h.sortingBy)).2 = .ok)
    (hex : h.exhaustive = true) (htime : ∀ p n, h.workerClock p n - h.clock 0 ≤ (t : Rat))
    (hforce : ∀ p, h.force p = false)
    (hfail : ∀ p, (p, MPEvent.raise) ∉ h.schedule ∧ ¬ Killed h.schedule p)
    (hret : (step Arith.exact i (.hypersearch h)).2 = .ok)
    (top : Nat) (htop : top ≤ 10 * W) (other : List (String × Rect)) (hdis : (other.map (·.2)).Pairwise Spec.Disjoint)
    (hin : ∀ q ∈ other, Inside W top q.2 ∧ ∃ dq, (q.1, dq) ∈ i.items ∧ SizedAs i.rotation dq q.2)
    (hall : (other.map (·.1)).Perm (i.items.map (·.1))) :
    ∃ m, (step Arith.exact i (.hypersearch h)).1.solution = [(stripId, m)] ∧
      (m.map (·.1)).Perm (i.items.map (·.1)) ∧ ∀ q ∈ m, q.2.y + q.2.l ≤ top := by
  obtain ⟨i0, h0⟩ : ∃ x, x = (step Arith.exact (step Arith.exact i (.sortItems h.sortingBy)).1
    (.orientItems h.orientation)).1 := ⟨_, rfl⟩
  obtain ⟨b1, b2, b3, b4, b5, b6, b7, b8⟩ := prepared_one_size hr h hs hd hturn
  rw [← h0] at b1 b2 b3 b4 b5 b6 b7 b8
  obtain ⟨j, hj⟩ : ∃ j, step Arith.exact i (.hypersearch h) = (j, .ok) := ⟨_, Prod.ext rfl hret⟩
  have hr0 : Reach Arith.exact i0 := by rw [h0]; exact .step _ (.step _ hr)
  obtain ⟨chunks, w, first, hwi, hc, ⟨w1, w2, w3, w4, w5, w6, w7⟩, hfirst, ⟨z, hz⟩, hend⟩ :=
    team_worker Arith.exact nonNeg_exact i hr h hw hs i0 h0 (fun p => (hfail p).2) j hj
  obtain ⟨p, ⟨hp1, hp2, hp3⟩, hsame, _⟩ := hend z hz
  rw [hj]
  obtain ⟨hwv, _⟩ := workerInst_spec hr0.good.valid hwi
  obtain ⟨r1, r2⟩ := w7 st _ t hset hrot hmax
  obtain ⟨W', L', e, hH⟩ := w6 hstrip
  rw [hW] at e
  have e' : W = W' := by simpa using congrArg (fun l => (l.map (fun q : String × Dim => q.2.w)).head?) e
  subst e'
  have hWpos : 0 < W := by
    have := hr.good.valid.conts.2 (stripId, ⟨W, L⟩) (by rw [hW]; simp)
    exact this.1
  have hHpos : 0 < 10 * W := by omega
  have hheight : w.height.getD 0 = 10 * W := by rw [hH]; rfl
  have hdw : ∀ q ∈ w.items, q.2 = d := by rw [w1]; exact b1
  have hraise : ∀ q, ¬ Raised (h.mp Arith.exact) w chunks h.schedule q := fun q =>
    C33_none_raised _ _ _ _ hforce (fun p => (hfail p).1) q
  rw [hex] at hc
  have hlate : ∀ q n, ¬ (w.rounds Arith.exact (h.workerClock q) (h.clock 0) h.throttle).late n := by
    intro q n hl
    have hl' : h.workerClock q n - h.clock 0 > (w.maxTime : Rat) := hl
    rw [r2] at hl'
    exact absurd (htime q n) (not_le.2 hl')
  have hone := fun q chunk (hq : chunks[q]? = some chunk) =>
    hyper_one_size hwv hdw (H := 10 * W) (fun _ => hHpos) (hlate q) (hz q chunk hq) hheight
  have hflat := (C31_partition _ _ _ hc).1
  -- the winner
  obtain ⟨chp, hchp⟩ : ∃ ch, chunks[p]? = some ch := ⟨_, List.getElem?_eq_getElem hp1⟩
  obtain ⟨d1, _, _⟩ := hone p chp hchp
  simp only at d1
  have hbest : ∃ st, (ColumnOrder st ∨ RowOrder st) ∧
      solve Arith.exact { w.at (10 * W) with strategy := st } (some (w.items.map (·.1))) = .ok (z p).best := by
    rcases d1 with d1 | ⟨st, m1, m2⟩
    · refine ⟨w.strategy, by rw [w5]; exact .inl ⟨[], [], _, rfl, by decide, by decide⟩, ?_⟩
      have := first_packs hwv hfirst
      rw [hheight] at this
      rw [d1]
      exact this
    · refine ⟨st, strategy_kind h.order h.orderPerm i.strip st ?_, m2⟩
      rw [← hflat]
      exact List.mem_flatten.2 ⟨chp, List.mem_of_getElem? hchp, m1⟩
  obtain ⟨sp, hk, hsol⟩ := hbest
  -- the worker that fills rows
  obtain ⟨hrow, hro⟩ := rows_tried h i.strip
  rw [← hflat] at hrow
  obtain ⟨chq, hchq, hrow⟩ := List.mem_flatten.1 hrow
  obtain ⟨q, hq⟩ := List.mem_iff_getElem?.1 hchq
  obtain ⟨_, _, d3⟩ := hone q chq hq
  obtain ⟨r, g1, g2⟩ := d3 _ hrow
  have hqlt : q < chunks.length := (List.getElem?_eq_some_iff.1 hq).1
  have g3 := le_trans g2 (hp3 q hqlt (hraise q)).1
  obtain ⟨m, e1, e3, e4⟩ := strip_lowest hwv (w3.trans hstrip) (w2.trans hW) hHpos hdw ht
    (fun hrot => hturn (r1 ▸ hrot)) htop hdis
    (one_size_inside hd hdw (by rw [w1]; exact b2) r1 hin) (by rw [w1]; exact hall.trans b2.symm) hro hk g1 hsol g3
  rw [e1] at hsame
  obtain ⟨mj, hjs, hperm⟩ := same_one hsame
  refine ⟨mj, hjs, (hperm.map _).trans (by rw [e3, w1]; exact b2), ?_⟩
  intro q hq
  have := (stackHeight_le (rs := m.map (·.2))).1 (le_refl _) q.2 (List.mem_map.2 ⟨q, hperm.mem_iff.1 hq, rfl⟩)
  omega

/-! ### the hypotheses are met -/

/-- `HyperPack(items={"a": 2 × 2, "b": 2 × 2, "c": 2 × 2}, strip_pack_width=6)` -/
def flatSquares : Inst := { rawInst true [(stripId, ⟨6, stripInitHeight⟩)]
    [("a", ⟨2, 2⟩), ("b", ⟨2, 2⟩), ("c", ⟨2, 2⟩)] (some 60) (.dict []) with
  rotation := true, maxTime := 60, workers := .int 1 }

theorem flatSquares_reach (A : Arith) : Reach A flatSquares :=
  .new (E := bareEnv) (i := flatSquares) (containers := .none)
    (items := SKind.items.encodeAll [("a", ⟨2, 2⟩), ("b", ⟨2, 2⟩), ("c", ⟨2, 2⟩)]) (settings := .none)
    (stripWidth := .int 6) (by rfl)

/-- `local_search()` leaves the three squares in a pile of height 6; plain `hypersearch()` puts them side by side. -/
example (h : HSArgs) (hsb : h.sortingBy = some (.str "area", true)) (hex : h.exhaustive = true)
    (htime : ∀ n, h.clock (n + 1) - h.clock 0 ≤ 60) (clock : Nat → Rat) (throttle : Bool) :
    SamePacking (step Arith.exact flatSquares (.localSearch clock throttle)).1.solution
      [(stripId, [("a", ⟨0, 0, 2, 2⟩), ("b", ⟨0, 2, 2, 2⟩), ("c", ⟨0, 4, 2, 2⟩)])] ∧
    ∃ m, (step Arith.exact flatSquares (.hypersearch h)).1.solution = [(stripId, m)] ∧
      (m.map (·.1)).Perm ["a", "b", "c"] ∧ ∀ q ∈ m, q.2.y + q.2.l ≤ 2 := by
  constructor
  · exact (C126_pile_search Arith.exact flatSquares (flatSquares_reach _) rfl 6 rfl rfl ⟨2, 2⟩ (by decide) (by decide)
      (fun _ => rfl) 60 rfl (by decide) clock throttle).2
  · refine (C126_hypersearch_partial flatSquares (flatSquares_reach _) rfl 6 _ rfl 60 rfl
      (.inl ⟨[], [], _, rfl, by decide, by decide⟩) ⟨2, 2⟩ (by decide) (by decide) (fun _ => rfl) h (.inl rfl) ?_ hex
      (by intro n; exact_mod_cast htime n) 2 (by decide)
      [("a", ⟨0, 0, 2, 2⟩), ("b", ⟨2, 0, 2, 2⟩), ("c", ⟨4, 0, 2, 2⟩)] ?_ ?_ (by decide)).2
    · rw [hsb]
      obtain ⟨_, e, _⟩ := C50_sorted Arith.exact flatSquares (flatSquares_reach _) "area" _ rfl true
      rw [e]
    · simp only [List.map_cons, List.map_nil, List.pairwise_cons, List.mem_cons, List.not_mem_nil, or_false,
        forall_eq_or_imp, forall_eq, Spec.Disjoint, Covers]
      refine ⟨⟨?_, ?_⟩, ?_, ?_⟩
      all_goals first | (intro x y; omega) | simp
    · intro q hq
      simp only [List.mem_cons, List.not_mem_nil, or_false] at hq
      rcases hq with rfl | rfl | rfl
      all_goals exact ⟨by unfold Inside; decide, ⟨2, 2⟩, by decide, .inl ⟨rfl, rfl⟩⟩

/-- `HyperPack(items={"a": 2 × 2, "b": 2 × 2, "c": 2 × 2}, strip_pack_width=6, settings={"workers_num": 2})` -/
def sharedSquares : Inst := { flatSquares with settings := .dict [(.str "workers_num", .int 2)], workers := .int 2 }

theorem sharedSquares_reach (A : Arith) : Reach A sharedSquares :=
  .new (E := bareEnv) (i := sharedSquares) (containers := .none)
    (items := SKind.items.encodeAll [("a", ⟨2, 2⟩), ("b", ⟨2, 2⟩), ("c", ⟨2, 2⟩)])
    (settings := .dict [(.str "workers_num", .int 2)]) (stripWidth := .int 6) (by rfl)

/-- and so do two workers, whatever their schedule, if they are given enough time -/
example (schedule : List (Nat × MPEvent)) (h1 : ∀ p, (p, MPEvent.raise) ∉ schedule ∧ ¬ Killed schedule p)
    (h2 : 2885 ≤ schedule.count (0, .step)) (h3 : 2885 ≤ schedule.count (1, .step)) :
    ∃ m, (step Arith.exact sharedSquares (.hypersearch { plainArgs true (fun _ => 0) with schedule := schedule })).1.solution =
        [(stripId, m)] ∧
      (m.map (·.1)).Perm ["a", "b", "c"] ∧ ∀ q ∈ m, q.2.y + q.2.l ≤ 2 := by
  have hr := sharedSquares_reach Arith.exact
  have hsort : (step Arith.exact sharedSquares (.sortItems (some (.str "area", true)))).2 = .ok := by
    obtain ⟨_, e, _⟩ := C50_sorted Arith.exact sharedSquares hr "area" _ rfl true
    rw [e]
  have hone : ¬ OneWorker sharedSquares.workers := by rintro (h | h | h) <;> cases h
  refine C126_workers_partial sharedSquares hr rfl 6 _ rfl ⟨2, 2⟩ (by decide) (by decide) (fun _ => rfl)
    [(.str "workers_num", .int 2)] rfl (.inl ⟨.inl rfl, rfl⟩) 60 (.inl ⟨rfl, rfl⟩) _ hone hsort rfl ?_ (fun _ => rfl) h1 ?_ 2
    (by decide) [("a", ⟨0, 0, 2, 2⟩), ("b", ⟨2, 0, 2, 2⟩), ("c", ⟨4, 0, 2, 2⟩)] ?_ ?_ (by decide)
  · intro p n
    show (0 : Rat) - 0 ≤ ((60 : Int) : Rat)
    norm_num
  · refine C127_returns_partial Arith.exact nonNeg_exact sharedSquares hr _ rfl
      ⟨_, _, _, .inl ⟨.inl rfl, rfl⟩, .inl ⟨rfl, rfl⟩, .inr ⟨rfl, .inl ⟨2, rfl, by decide⟩⟩⟩ 2 rfl (by decide) _ hsort (.inl rfl)
      (fun _ => rfl) h1 (fun _ => rfl) ?_
    intro p hp2
    have hl : (getStrategies id true true).length = 720 := (C28_strategies id true (fun l _ => .refl l)).2.1
    show 4 * (getStrategies id true true).length + 5 ≤ schedule.count (p, .step)
    rw [hl]
    match p, hp2 with
    | 0, _ => exact h2
    | 1, _ => exact h3
  · simp only [List.map_cons, List.map_nil, List.pairwise_cons, List.mem_cons, List.not_mem_nil, or_false,
      forall_eq_or_imp, forall_eq, Spec.Disjoint, Covers]
    refine ⟨⟨?_, ?_⟩, ?_, ?_⟩
    all_goals first | (intro x y; omega) | simp
  · intro q hq
    simp only [List.mem_cons, List.not_mem_nil, or_false] at hq
    rcases hq with rfl | rfl | rfl
    all_goals exact ⟨by unfold Inside; decide, ⟨2, 2⟩, by decide, .inl ⟨rfl, rfl⟩⟩

end HP
