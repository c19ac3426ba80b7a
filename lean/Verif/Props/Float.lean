import Verif.Proofs.Float
import Verif.Props.Units
import Verif.Props.UnitsSearch
import Verif.Props.HyperSearch
import Verif.Props.Metamorphic
/-
C81, C82: the reported numbers are binary64 floating point numbers.  What rounding does to the
values, to the early stop at full utilization and to the comparisons of the searches.
-/
namespace HP
open Spec

/-! ### specification -/

/-- the fraction of each container covered by a solution, as exact numbers -/
def Spec.coverage (conts : List (String × Dim)) (sol : List (String × List (String × Rect))) : List Rat :=
  (conts.zip sol).map (fun x => (totalArea (x.2.2.map (·.2)) : Rat) / ((x.1.2.w * x.1.2.l : Nat) : Rat))

/-- the overall value of a solution, as an exact number: sum of the covered fractions, the last
one weighted 0.7 when there are several containers -/
def Spec.trueValue (conts : List (String × Dim)) (sol : List (String × List (String × Rect))) : Rat :=
  overall Arith.exact (coverage conts sol)

/-! ### C81: the reported values -/

/-- rounding arithmetic keeps the sign -/
theorem C81_nonneg {rnd : Rat → Rat} (hr : Accurate rnd) : NonNeg (Arith.rounding rnd) where
  div a b := hr.nonneg (by positivity)
  add x y hx hy := hr.nonneg (by linarith)
  sum xs h := by
    have : ∀ (xs : List Rat) (s : Rat), 0 ≤ s → (∀ x ∈ xs, 0 ≤ x) →
        0 ≤ xs.foldl (fun s x => rnd (s + x)) s := by
      intro xs
      induction xs with
      | nil => intro s hs _; exact hs
      | cons x xs ih =>
        intro s hs h
        exact ih _ (hr.nonneg (by linarith [h x (by simp)])) (fun y hy => h y (by simp [hy]))
    exact this xs 0 le_rfl h
  mul07 x hx := hr.nonneg (mul_nonneg (hr.nonneg (by norm_num)) hx)

theorem C81_divZero {rnd : Rat → Rat} (hr : Accurate rnd) : DivZero (Arith.rounding rnd) := by
  intro n _
  simp [Arith.rounding, hr.zero]

/-- rounding arithmetic depends on ratios only -/
theorem C81_unitFree (rnd : Rat → Rat) (k : Nat) (hk : 0 < k) : UnitFree (Arith.rounding rnd) k := by
  have h := C80_exact k hk
  have hq : ∀ a b : Nat, ((k * a : Nat) : Rat) / ((k * b : Nat) : Rat) = (a : Rat) / (b : Rat) := h.quot
  have hd : ∀ a b : Nat, ((k * k * a : Nat) : Rat) / ((k * k * b : Nat) : Rat) = (a : Rat) / (b : Rat) := h.div
  exact ⟨fun a b => by simp only [Arith.rounding]; rw [hq],
    fun a b => by simp only [Arith.rounding]; rw [hd],
    fun a b => by simp only [Arith.rounding]; rw [hq]⟩

/-- **C81**, the hypotheses on the arithmetic in the other properties are met by binary64 -/
theorem C81_double : NonNeg Arith.double ∧ DivZero Arith.double ∧
    ∀ k, 0 < k → UnitFree Arith.double k :=
  ⟨C81_nonneg rne_accurate, C81_divZero rne_accurate, fun k hk => C81_unitFree rne k hk⟩

theorem fractions_near {rnd : Rat → Rat} (hr : Accurate rnd) (W L : Nat) (m : List (String × Rect)) :
    Near (m.length + 1) (fractions (Arith.rounding rnd) W L m)
      ((totalArea (m.map (·.2)) : Rat) / ((W * L : Nat) : Rat)) := by
  have h2 : List.Forall₂ (Near 1)
      (m.map (fun q => rnd (((q.2.w * q.2.l : Nat) : Rat) / ((W * L : Nat) : Rat))))
      (m.map (fun q => ((q.2.w * q.2.l : Nat) : Rat) / ((W * L : Nat) : Rat))) := by
    rw [List.forall₂_map_left_iff, List.forall₂_map_right_iff, List.forall₂_same]
    intro q _
    exact (Near.exact (by positivity)).rnd hr
  have h3 := Near.foldl hr h2 (p := 1) (s := 0) (e := 0) le_rfl ((Near.exact le_rfl).mono (by omega))
  rw [List.foldl_map, List.length_map, zero_add, add_comm 1] at h3
  have e : (m.map (fun q => ((q.2.w * q.2.l : Nat) : Rat) / ((W * L : Nat) : Rat))).sum =
      (totalArea (m.map (·.2)) : Rat) / ((W * L : Nat) : Rat) := by
    clear h2 h3
    induction m with
    | nil => simp [totalArea]
    | cons q m ih =>
      simp only [List.map_cons, List.sum_cons] at ih ⊢
      rw [ih]
      simp only [totalArea, area, List.map_cons, List.sum_cons]
      push_cast
      ring
  rw [e] at h3
  exact h3

/-- the relative error of `m` roundings -/
theorem Near.error {m : Nat} {x e : Rat} (h : Near m x e) (hm : m ≤ 2 ^ 52) :
    |x - e| ≤ e * m / 2 ^ 52 := by
  have h0 := h.1
  have hu : (m : Rat) * ulp ≤ 1 / 2 := by
    unfold ulp
    have : (m : Rat) ≤ 2 ^ 52 := by exact_mod_cast hm
    rw [mul_one_div, div_le_iff₀ (by norm_num)]
    linarith
  have hu0 : 0 ≤ (m : Rat) * ulp := mul_nonneg (by positivity) ulp_pos.le
  have ha : (1 + ulp) ^ m ≤ 1 + 2 * (m * ulp) := by
    have h1 := one_add_pow m
    have hp : (0 : Rat) ≤ (1 + ulp) ^ m := pow_nonneg (by linarith [ulp_pos]) _
    have h2 : (1 : Rat) ≤ (1 + 2 * (m * ulp)) * (1 - m * ulp) := by nlinarith
    have h3 : (1 + ulp) ^ m * (1 - m * ulp) ≤ (1 + 2 * (m * ulp)) * (1 - m * ulp) := h1.trans h2
    exact le_of_mul_le_mul_right h3 (by linarith)
  have hb := one_sub_pow m
  have e1 : e * m / 2 ^ 52 = e * (2 * (m * ulp)) := by unfold ulp; ring
  rw [e1, abs_le]
  have := mul_le_mul_of_nonneg_left ha h0
  have := mul_le_mul_of_nonneg_left hb h0
  have := h.2.1
  have := h.2.2
  have := mul_nonneg h0 hu0
  constructor <;> nlinarith

/-- the reported value of a container, with its exact counterpart -/
theorem reported_near {rnd : Rat → Rat} (hr : Accurate rnd) (p : SolveIn) (hv : ValidIn p)
    (hb : p.strip = false) (seq : Option (List String)) (hs : KnownSeq p seq) (sol : Solution) (ov : ObjVals)
    (h : solve (Arith.rounding rnd) p seq = .ok (sol, ov)) (cid : String) (v : Rat) (hvv : (cid, v) ∈ ov) :
    ∃ c m, (cid, c) ∈ p.containers ∧ (cid, m) ∈ sol ∧
      Near (m.length + 1) v ((totalArea (m.map (·.2)) : Rat) / ((c.w * c.l : Nat) : Rat)) := by
  have hov := C07_rounded _ p hv hb seq hs sol ov h
  have hk := (solve_facts hv hs h).keysS
  rw [hov] at hvv
  obtain ⟨⟨⟨cid', c⟩, ⟨sid, m⟩⟩, hx, he⟩ := List.mem_map.1 hvv
  simp only [Prod.mk.injEq] at he
  obtain ⟨rfl, rfl⟩ := he
  have h1 := (List.of_mem_zip hx).1
  have h2 := (List.of_mem_zip hx).2
  have hid : cid' = sid := by
    have : ∀ (a : List (String × Dim)) (b : Solution), b.map (·.1) = a.map (·.1) →
        ∀ x ∈ a.zip b, x.1.1 = x.2.1 := by
      intro a
      induction a with
      | nil => intro b _ x hx; simp at hx
      | cons a as ih =>
        intro b hb x hx
        cases b with
        | nil => simp at hx
        | cons b bs =>
          simp only [List.map_cons, List.cons.injEq] at hb
          simp only [List.zip_cons_cons, List.mem_cons] at hx
          rcases hx with rfl | hx
          · exact hb.1.symm
          · exact ih bs hb.2 x hx
    exact this _ _ hk _ hx
  subst hid
  exact ⟨c, m, h1, h2, fractions_near hr _ _ _⟩

/-- **C81**: the value reported for a container holding `n` items is the covered fraction of its
area up to a relative error of `(n + 1) / 2^52`. -/
theorem C81_utilization (p : SolveIn) (hv : ValidIn p) (hb : p.strip = false)
    (seq : Option (List String)) (hs : KnownSeq p seq) (sol : Solution) (ov : ObjVals)
    (h : solve Arith.double p seq = .ok (sol, ov)) (cid : String) (v : Rat) (hvv : (cid, v) ∈ ov) :
    ∃ c m, (cid, c) ∈ p.containers ∧ (cid, m) ∈ sol ∧
      (m.length < 2 ^ 52 →
        |v - (totalArea (m.map (·.2)) : Rat) / ((c.w * c.l : Nat) : Rat)| ≤
          (totalArea (m.map (·.2)) : Rat) / ((c.w * c.l : Nat) : Rat) * ((m.length + 1 : Nat) : Rat) / 2 ^ 52) := by
  obtain ⟨c, m, h1, h2, h3⟩ := reported_near rne_accurate p hv hb seq hs sol ov h cid v hvv
  exact ⟨c, m, h1, h2, fun hm => h3.error hm⟩

/-- **C81**: a value of 1 or more, which ends the packing of a container, is reported only for a
container that really is full. -/
theorem C81_full (p : SolveIn) (hv : ValidIn p) (hb : p.strip = false)
    (seq : Option (List String)) (hs : KnownSeq p seq) (sol : Solution) (ov : ObjVals)
    (h : solve Arith.double p seq = .ok (sol, ov)) (cid : String) (v : Rat) (hvv : (cid, v) ∈ ov)
    (h1 : 1 ≤ v) :
    ∃ c m, (cid, c) ∈ p.containers ∧ (cid, m) ∈ sol ∧
      ((m.length + 1) * (c.w * c.l) < 2 ^ 53 → c.w * c.l ≤ totalArea (m.map (·.2))) := by
  obtain ⟨c, m, hc, hm, hn⟩ := reported_near rne_accurate p hv hb seq hs sol ov h cid v hvv
  refine ⟨c, m, hc, hm, fun hsmall => ?_⟩
  have hpos : 0 < c.w * c.l := Nat.mul_pos (hv.conts.2 _ hc).1 (hv.conts.2 _ hc).2
  refine hn.one hpos ?_ hsmall h1
  have : ((c.w * c.l : Nat) : Rat) ≠ 0 := by exact_mod_cast hpos.ne'
  field_simp

/-- **C81** with C12: an item left over fits at none of the offered corners of a container that is
not full, with binary64 numbers, provided the container is not astronomically large. -/
theorem C81_greedy (p : SolveIn) (hv : ValidIn p) (hb : p.strip = false) (seq : Option (List String))
    (hs : KnownSeq p seq) (sol : Solution) (ov : ObjVals) (h : solve Arith.double p seq = .ok (sol, ov))
    (id : String) (d : Dim) (hit : (id, d) ∈ solvedFor p.items seq) (hleft : id ∉ placedIds sol)
    (cid : String) (m : PyDict String Rect) (hm : (cid, m) ∈ sol) (c : Dim)
    (hc : (cid, c) ∈ p.containers) (hsmall : (m.length + 1) * (c.w * c.l) < 2 ^ 53)
    (hroom : totalArea (m.map (·.2)) < c.w * c.l) :
    ¬ CanAdd c.w c.l p.rotation (m.map (·.2)) d 0 0 ∧
    (.A ∈ p.strategy → .A__ ∈ p.strategy → ∀ q ∈ m,
      ¬ CanAdd c.w c.l p.rotation (m.map (·.2)) d q.2.x (q.2.y + q.2.l)) ∧
    (.B ∈ p.strategy → .B__ ∈ p.strategy → ∀ q ∈ m,
      ¬ CanAdd c.w c.l p.rotation (m.map (·.2)) d (q.2.x + q.2.w) q.2.y) := by
  have hk := solve_facts hv hs h
  have hkeys : cid ∈ ov.map (·.1) := by
    have := hk.keysO
    unfold PyDict.keys at this
    rw [this]; exact List.mem_map.2 ⟨_, hc, rfl⟩
  obtain ⟨⟨cid', v⟩, hvv, rfl⟩ := List.mem_map.1 hkeys
  have hlt : v < 1 := by
    by_contra h1
    push Not at h1
    obtain ⟨c', m', g1, g2, g3⟩ := C81_full p hv hb seq hs sol ov h _ v hvv h1
    have e1 : c' = c := by
      have a := PyDict.find?_of_mem hv.conts.1 g1
      have b := PyDict.find?_of_mem hv.conts.1 hc
      rw [a] at b; injection b
    have hnd : (sol.map (·.1)).Nodup := by
      have := hk.keysS
      unfold PyDict.keys at this
      rw [this]; exact hv.conts.1
    have e2 : m' = m := by
      have a := PyDict.find?_of_mem hnd g2
      have b := PyDict.find?_of_mem hnd hm
      rw [a] at b; injection b
    subst e1; subst e2
    have := g3 hsmall
    omega
  have := C12_greedy Arith.double p hv seq hs sol ov h id d hit hleft _ m hm c hc v hvv (.inr hlt)
  rw [show lenOf p c = c.l by simp [lenOf, hb]] at this
  exact this

/-- ten squares fill a container of ten -/
def tenthsDemo : SolveIn where
  containers := [("c0", ⟨10, 1⟩)]
  items := [("i0", ⟨1, 1⟩), ("i1", ⟨1, 1⟩), ("i2", ⟨1, 1⟩), ("i3", ⟨1, 1⟩), ("i4", ⟨1, 1⟩),
            ("i5", ⟨1, 1⟩), ("i6", ⟨1, 1⟩), ("i7", ⟨1, 1⟩), ("i8", ⟨1, 1⟩), ("i9", ⟨1, 1⟩)]
  strategy := defaultStrategy
  rotation := false
  strip := false
  height := 0

theorem tenthsDemo_valid : ValidIn tenthsDemo := ⟨by constructor <;> decide, by constructor <;> decide, by decide⟩

/-- The converse of `C81_full` fails: a container that is completely covered can be reported with
0.9999999999999999 instead of 1. -/
theorem C81_full_converse_refuted : ∃ sol, solve Arith.double tenthsDemo none = .ok (sol, [("c0", 1 - 1 / 2 ^ 53)]) ∧
    ∃ m, sol = [("c0", m)] ∧ totalArea (m.map (·.2)) = 10 * 1 :=
  ⟨[("c0", (List.range 10).map (fun k => (s!"i{k}", ⟨k, 0, 1, 1⟩)))], by decide +kernel, _, rfl, by decide +kernel⟩

/-- C81 on a concrete problem: the reported value differs from the covered fraction, by less than the bound -/
example : |(1 - 1 / 2 ^ 53 : Rat) - 1| ≤ 1 * ((10 + 1 : Nat) : Rat) / 2 ^ 52 := by
  norm_num [abs_le]

/-! ### C82: comparisons of overall values -/

theorem exact_sum (xs : List Rat) : Arith.exact.sum xs = xs.sum := by
  simp only [Arith.exact]
  induction xs with
  | nil => rfl
  | cons x xs ih => simp [ih]

theorem forall₂_dropLast {α β : Type} {R : α → β → Prop} : ∀ {xs : List α} {ys : List β},
    List.Forall₂ R xs ys → List.Forall₂ R xs.dropLast ys.dropLast
  | _, _, .nil => .nil
  | _, _, .cons h .nil => by simp
  | _, _, .cons h (.cons h' t) => by
    simp only [List.dropLast_cons₂]
    exact .cons h (forall₂_dropLast (.cons h' t))

theorem forall₂_getLast {α β : Type} {R : α → β → Prop} {a : α} {b : β} (hab : R a b) :
    ∀ {xs : List α} {ys : List β}, List.Forall₂ R xs ys → R (xs.getLast?.getD a) (ys.getLast?.getD b)
  | _, _, .nil => by simpa
  | _, _, .cons h .nil => by simpa
  | _, _, .cons h (.cons h' t) => by
    simp only [List.getLast?_cons_cons]
    exact forall₂_getLast hab (.cons h' t)

theorem overall_near {rnd : Rat → Rat} (hr : Accurate rnd) {q : Nat} {xs es : List Rat}
    (h : List.Forall₂ (Near q) xs es) (hne : xs ≠ []) :
    Near (q + xs.length + 1) (overall (Arith.rounding rnd) xs) (overall Arith.exact es) := by
  have hlen := h.length_eq
  have hpos : 0 < xs.length := List.length_pos_iff.2 hne
  have hsum : ∀ {xs es : List Rat}, List.Forall₂ (Near q) xs es →
      Near (q + xs.length) ((Arith.rounding rnd).sum xs) (Arith.exact.sum es) := by
    intro xs es h
    have := Near.foldl hr h (p := q) (s := 0) (e := 0) le_rfl ((Near.exact le_rfl).mono (by omega))
    rw [zero_add] at this
    rw [exact_sum]
    exact this
  unfold overall
  rw [← hlen]
  split
  · exact (hsum h).mono (by omega)
  · rename_i hk
    have h1 := hsum (forall₂_dropLast h)
    have h2 : Near q (xs.getLast?.getD 0) (es.getLast?.getD 0) :=
      forall₂_getLast ((Near.exact le_rfl).mono (by omega)) h
    have h3 : Near (1 + q) (rnd (7 / 10) * (xs.getLast?.getD 0)) ((7 / 10) * (es.getLast?.getD 0)) :=
      Near.mul ((Near.exact (by norm_num)).rnd hr) h2
    have h4 := h3.rnd hr
    rw [List.length_dropLast] at h1
    have h5 := Near.rnd hr (Near.add (h1.mono (show _ ≤ q + xs.length by omega))
      (h4.mono (show _ ≤ q + xs.length by omega)))
    exact h5

theorem sum_nat {D B : Nat} : ∀ {es : List Rat}, (∀ e ∈ es, ∃ X : Nat, (D : Rat) * e = X ∧ X ≤ B) →
    ∃ Y : Nat, (D : Rat) * es.sum = Y ∧ Y ≤ B * es.length
  | [], _ => ⟨0, by simp, by simp⟩
  | e :: es, h => by
    obtain ⟨Y, h1, h2⟩ := sum_nat (fun e he => h e (List.mem_cons_of_mem _ he))
    obtain ⟨X, h3, h4⟩ := h e (by simp)
    refine ⟨X + Y, ?_, ?_⟩
    · rw [List.sum_cons, mul_add, h1, h3]; push_cast; rfl
    · rw [List.length_cons, Nat.mul_succ]; omega

theorem overall_nat {D B : Nat} {es : List Rat} (hne : es ≠ [])
    (h : ∀ e ∈ es, ∃ X : Nat, (D : Rat) * e = X ∧ X ≤ B) :
    ∃ Y : Nat, ((10 * D : Nat) : Rat) * overall Arith.exact es = Y ∧ Y ≤ 10 * B * es.length := by
  unfold overall
  split
  · obtain ⟨Y, h1, h2⟩ := sum_nat h
    refine ⟨10 * Y, ?_, by rw [Nat.mul_assoc]; omega⟩
    rw [exact_sum]; push_cast; rw [mul_assoc, h1]
  · obtain ⟨Y, h1, h2⟩ := sum_nat (es := es.dropLast) (fun e he => h e (List.dropLast_subset _ he))
    obtain ⟨X, h3, h4⟩ := h (es.getLast hne) (List.getLast_mem hne)
    refine ⟨10 * Y + 7 * X, ?_, ?_⟩
    · rw [exact_sum, List.getLast?_eq_some_getLast hne]
      simp only [Option.getD_some, Arith.exact]
      push_cast
      rw [← h1, ← h3]
      ring
    · rw [List.length_dropLast] at h2
      have hpos : 0 < es.length := List.length_pos_iff.2 hne
      have e : 10 * B * es.length = 10 * (B * (es.length - 1)) + 10 * B := by
        obtain ⟨n, hn⟩ : ∃ n, es.length = n + 1 := ⟨es.length - 1, by omega⟩
        rw [hn]; simp only [Nat.add_sub_cancel]; ring
      rw [e]; omega

theorem zip_keys : ∀ (a : List (String × Dim)) (b : Solution), b.map (·.1) = a.map (·.1) →
    ∀ x ∈ a.zip b, x.1.1 = x.2.1
  | [], _, _, x, hx => by simp at hx
  | a :: as, [], _, x, hx => by simp at hx
  | a :: as, b :: bs, hb, x, hx => by
    simp only [List.map_cons, List.cons.injEq] at hb
    simp only [List.zip_cons_cons, List.mem_cons] at hx
    rcases hx with rfl | hx
    · exact hb.1.symm
    · exact zip_keys as bs hb.2 x hx

/-- number of items in each container -/
theorem sol_length {A : Arith} {p : SolveIn} (hv : ValidIn p) {seq : Option (List String)} (hs : KnownSeq p seq)
    {sol : Solution} {ov : ObjVals} (h : solve A p seq = .ok (sol, ov)) :
    ∀ q ∈ sol, q.2.length ≤ p.items.length := by
  intro q hq
  have hf := solve_facts hv hs h
  have := (List.Nodup.subperm (hf.nodup q.1 q.2 hq) (hf.sub q.1 q.2 hq)).length_le
  simpa [PyDict.keys] using this

/-- what the arithmetic reports, container by container, against the exact fractions -/
theorem vals_near {rnd : Rat → Rat} (hr : Accurate rnd) {p : SolveIn} (hv : ValidIn p)
    (hb : p.strip = false) {seq : Option (List String)} (hs : KnownSeq p seq) {sol : Solution} {ov : ObjVals}
    (h : solve (Arith.rounding rnd) p seq = .ok (sol, ov)) {N : Nat} (hN : p.items.length ≤ N) :
    List.Forall₂ (Near (N + 1)) (ov.map (·.2)) (coverage p.containers sol) := by
  have hov := C07_rounded _ p hv hb seq hs sol ov h
  have hlen := sol_length hv hs h
  rw [hov]
  unfold coverage
  rw [List.map_map, List.forall₂_map_left_iff, List.forall₂_map_right_iff, List.forall₂_same]
  intro x hx
  exact (fractions_near hr x.1.2.w x.1.2.l x.2.2).mono
    (by have := hlen _ (List.of_mem_zip hx).2; omega)

theorem coverage_length {A : Arith} {p : SolveIn} (hv : ValidIn p)
    {seq : Option (List String)} (hs : KnownSeq p seq) {sol : Solution} {ov : ObjVals}
    (h : solve A p seq = .ok (sol, ov)) : (coverage p.containers sol).length = p.containers.length := by
  have hk := (C04_once A p hv seq hs sol ov h).1
  have := congrArg List.length hk
  simp only [List.length_map] at this
  unfold coverage
  rw [List.length_map, List.length_zip, this, Nat.min_self]

/-- the covered part of a container is at most its area, as numerators over the common denominator -/
theorem coverage_nat {A : Arith} {p : SolveIn} (hv : ValidIn p) (hb : p.strip = false)
    (hlow : ∀ q ∈ p.items, ¬ LowStrip p.rotation q.2)
    {seq : Option (List String)} (hs : KnownSeq p seq) {sol : Solution} {ov : ObjVals}
    (h : solve A p seq = .ok (sol, ov)) {D : Nat} (hD : ∀ c ∈ p.containers, c.2.w * c.2.l ∣ D) :
    ∀ e ∈ coverage p.containers sol, ∃ X : Nat, (D : Rat) * e = X ∧ X ≤ D := by
  intro e he
  obtain ⟨x, hx, rfl⟩ := List.mem_map.1 he
  have hc := (List.of_mem_zip hx).1
  have hm := (List.of_mem_zip hx).2
  have hk := zip_keys _ _ (C04_once A p hv seq hs sol ov h).1 x hx
  obtain ⟨F, hF⟩ := hD _ hc
  have hpos : 0 < x.1.2.w * x.1.2.l := Nat.mul_pos (hv.conts.2 _ hc).1 (hv.conts.2 _ hc).2
  have hne : ((x.1.2.w * x.1.2.l : Nat) : Rat) ≠ 0 := by exact_mod_cast hpos.ne'
  have hle : totalArea (x.2.2.map (·.2)) ≤ x.1.2.w * x.1.2.l := by
    apply totalArea_le (C02_no_overlap A p hv seq hs hlow sol ov h x.2.1 x.2.2 hm)
    intro r hr
    obtain ⟨q, hq, rfl⟩ := List.mem_map.1 hr
    obtain ⟨c, hc', hin⟩ := C03_inside A p hv seq hs sol ov h x.2.1 x.2.2 hm
    have e1 : c = x.1.2 := by
      have a := PyDict.find?_of_mem hv.conts.1 hc'
      have b := PyDict.find?_of_mem hv.conts.1 (show (x.1.1, x.1.2) ∈ p.containers from hc)
      rw [← hk, b] at a; injection a with a; exact a.symm
    subst e1
    have := hin _ hq
    simpa [lenOf, hb] using this
  refine ⟨totalArea (x.2.2.map (·.2)) * F, ?_, ?_⟩
  · rw [hF]
    rw [Nat.cast_mul (x.1.2.w * x.1.2.l) F, mul_right_comm, mul_div_cancel₀ _ hne,
      Nat.cast_mul (totalArea _)]
  · rw [hF]; exact Nat.mul_le_mul_right _ hle

/-- the size condition of C82: `D` is a common multiple of the areas of the containers, and
(number of items + number of containers + 2) * 10 * D * (number of containers) is less than 2^52 -/
def Spec.Resolved (conts : List (String × Dim)) (n D : Nat) : Prop :=
  0 < D ∧ (∀ c ∈ conts, c.2.w * c.2.l ∣ D) ∧
    (n + conts.length + 2) * (10 * D * conts.length) < 2 ^ 52

/-- the overall value reported, against the exact one -/
theorem value_near {rnd : Rat → Rat} (hr : Accurate rnd) {p : SolveIn} (hv : ValidIn p)
    (hb : p.strip = false) (hne : p.containers ≠ []) {seq : Option (List String)} (hs : KnownSeq p seq)
    {sol : Solution} {ov : ObjVals}
    (h : solve (Arith.rounding rnd) p seq = .ok (sol, ov)) {N : Nat} (hN : p.items.length ≤ N) :
    Near (N + p.containers.length + 2) (overall (Arith.rounding rnd) (ov.map (·.2)))
      (trueValue p.containers sol) := by
  have h1 := vals_near hr hv hb hs h hN
  have hl := h1.length_eq
  rw [coverage_length hv hs h] at hl
  have h2 := overall_near hr h1 (by
    rw [← List.length_pos_iff, hl]; exact List.length_pos_iff.2 hne)
  rw [hl] at h2
  exact h2.mono (by omega)

/-- **C82**: rounding never reverses the order of two packings. Two packings of the same containers
(by any sequences, strategies, rotation settings) whose exact overall values differ are reported with
binary64 values that differ in the same direction. -/
theorem C82_order (p q : SolveIn) (hp : ValidIn p) (hq : ValidIn q) (hpb : p.strip = false)
    (hqb : q.strip = false) (hpl : ∀ x ∈ p.items, ¬ LowStrip p.rotation x.2)
    (hql : ∀ x ∈ q.items, ¬ LowStrip q.rotation x.2) (hpq : p.containers = q.containers)
    (hne : p.containers ≠ []) (N D : Nat) (hpN : p.items.length ≤ N) (hqN : q.items.length ≤ N)
    (hres : Resolved p.containers N D)
    (seq1 seq2 : Option (List String)) (hs1 : KnownSeq p seq1) (hs2 : KnownSeq q seq2)
    (sol1 sol2 : Solution) (ov1 ov2 : ObjVals)
    (h1 : solve Arith.double p seq1 = .ok (sol1, ov1)) (h2 : solve Arith.double q seq2 = .ok (sol2, ov2))
    (hlt : trueValue p.containers sol1 < trueValue p.containers sol2) :
    overall Arith.double (ov1.map (·.2)) < overall Arith.double (ov2.map (·.2)) := by
  obtain ⟨hD, hdvd, hsmall⟩ := hres
  have n1 := value_near rne_accurate hp hpb hne hs1 h1 hpN
  have n2 := value_near rne_accurate hq hqb (hpq ▸ hne) hs2 h2 hqN
  rw [← hpq] at n2
  have l1 := coverage_length hp hs1 h1
  have l2 := coverage_length hq hs2 h2
  have c1 := coverage_nat hp hpb hpl hs1 h1 hdvd
  have c2 := coverage_nat hq hqb hql hs2 h2 (hpq ▸ hdvd)
  rw [← hpq] at l2 c2
  have hpos : 0 < p.containers.length := List.length_pos_iff.2 hne
  obtain ⟨X, hX, _⟩ := overall_nat (by rw [← List.length_pos_iff, l1]; exact hpos) c1
  obtain ⟨Y, hY, hYle⟩ := overall_nat (by rw [← List.length_pos_iff, l2]; exact hpos) c2
  rw [l2] at hYle
  have hD' : (0 : Rat) < ((10 * D : Nat) : Rat) := by exact_mod_cast (by omega : 0 < 10 * D)
  have hXY : X < Y := by
    have : (X : Rat) < Y := by
      rw [← hX, ← hY]
      exact mul_lt_mul_of_pos_left hlt hD'
    exact_mod_cast this
  exact Near.lt n1 n2 (by omega : 0 < 10 * D) hX hY hXY
    (lt_of_le_of_lt (Nat.mul_le_mul_left _ hYle) hsmall)

/-- `C82_order` the other way round: a packing reported as no worse is no worse. -/
theorem C82_reported (p q : SolveIn) (hp : ValidIn p) (hq : ValidIn q) (hpb : p.strip = false)
    (hqb : q.strip = false) (hpl : ∀ x ∈ p.items, ¬ LowStrip p.rotation x.2)
    (hql : ∀ x ∈ q.items, ¬ LowStrip q.rotation x.2) (hpq : p.containers = q.containers)
    (hne : p.containers ≠ []) (N D : Nat) (hpN : p.items.length ≤ N) (hqN : q.items.length ≤ N)
    (hres : Resolved p.containers N D)
    (seq1 seq2 : Option (List String)) (hs1 : KnownSeq p seq1) (hs2 : KnownSeq q seq2)
    (sol1 sol2 : Solution) (ov1 ov2 : ObjVals)
    (h1 : solve Arith.double p seq1 = .ok (sol1, ov1)) (h2 : solve Arith.double q seq2 = .ok (sol2, ov2))
    (hle : overall Arith.double (ov1.map (·.2)) ≤ overall Arith.double (ov2.map (·.2))) :
    trueValue p.containers sol1 ≤ trueValue p.containers sol2 := by
  by_contra hlt
  push Not at hlt
  have := C82_order q p hq hp hqb hpb hql hpl hpq.symm (hpq ▸ hne) N D hqN hpN (hpq ▸ hres) seq2 seq1 hs2 hs1
    sol2 sol1 ov2 ov1 h2 h1 (by rw [← hpq]; exact hlt)
  exact absurd hle (not_le.2 this)

theorem find_zip {conts : List (String × Dim)} {s : Solution}
    (hk : s.map (·.1) = conts.map (·.1)) (hnd : (conts.map (·.1)).Nodup) :
    coverage conts s = conts.map (fun c =>
      (totalArea (((PyDict.find? s c.1).getD []).map (·.2)) : Rat) / ((c.2.w * c.2.l : Nat) : Rat)) := by
  have hlen := congrArg List.length hk
  simp only [List.length_map] at hlen
  unfold coverage
  conv_rhs => rw [← List.map_fst_zip (l₁ := conts) (l₂ := s) (by omega)]
  rw [List.map_map]
  apply List.map_congr_left
  intro x hx
  have hnd' : (s.map (·.1)).Nodup := by rw [hk]; exact hnd
  have := PyDict.find?_of_mem hnd' (show (x.2.1, x.2.2) ∈ s from (List.of_mem_zip hx).2)
  rw [← zip_keys _ _ hk x hx] at this
  simp only [Function.comp_apply, this, Option.getD_some]

/-- the same packing has the same exact value -/
theorem trueValue_same {conts : List (String × Dim)} {s t : Solution} (h : SamePacking s t)
    (hk : t.map (·.1) = conts.map (·.1)) (hnd : (conts.map (·.1)).Nodup) :
    trueValue conts s = trueValue conts t := by
  have hks : s.map (·.1) = conts.map (·.1) := h.1.trans hk
  unfold trueValue
  rw [find_zip hks hnd, find_zip hk hnd]
  congr 1
  apply List.map_congr_left
  intro c hc
  have : c.1 ∈ s.map (·.1) := by rw [hks]; exact List.mem_map.2 ⟨c, hc, rfl⟩
  obtain ⟨⟨k, m⟩, hm, hkk⟩ := List.mem_map.1 this
  simp only at hkk
  subst hkk
  obtain ⟨m', h1, h2⟩ := h.2 _ m hm
  have e1 := PyDict.find?_of_mem (show (s.map (·.1)).Nodup by rw [hks]; exact hnd) hm
  have e2 := PyDict.find?_of_mem (show (t.map (·.1)).Nodup by rw [hk]; exact hnd) h1
  rw [e1, e2]
  simp only [Option.getD_some]
  rw [totalArea_perm (h2.map _)]

/-- **C82** for `local_search()`: run with binary64 numbers, it never ends with a packing of smaller
exact value than `solve()`. -/
theorem C82_local_search (clock : Nat → Rat) (start : Rat) (throttle : Bool) (i j : Inst)
    (t : LSState Inst (Solution × ObjVals)) (hv : i.Valid) (hn : i.containersNum = i.containers.length)
    (hb : i.strip = false) (hlow : ∀ x ∈ i.items, ¬ LowStrip i.rotation x.2) (D : Nat)
    (hres : Resolved i.containers i.items.length D)
    (h : i.localSearch Arith.double clock start throttle = .ok (j, t))
    (sol : Solution) (ov : ObjVals) (hsolve : solve Arith.double i.solveIn none = .ok (sol, ov)) :
    trueValue i.containers sol ≤ trueValue i.containers j.solution := by
  have hle := (C16_not_worse _ clock start throttle i j t hv hn h sol ov hsolve).1
  obtain ⟨seq, H, sol', hperm, _, _, hs', hsame⟩ := C17_genuine _ clock start throttle i j t hv h
  have hvH : ValidIn (i.at H) := ⟨hv.conts, hv.items, fun hs => by rw [show i.strip = true from hs] at hb; cases hb⟩
  have hks : KnownSeq (i.at H) (some seq) := KnownSeq_perm hperm
  rw [trueValue_same (conts := i.containers) hsame (C04_once _ _ hvH _ hks _ _ hs').1 hv.conts.1]
  exact C82_reported i.solveIn (i.at H) hv.solveIn hvH hb hb hlow hlow rfl hv.contsNe i.items.length D le_rfl le_rfl
    hres none (some seq) (KnownSeq_none _) hks sol sol' ov j.objVals hsolve hs' hle

/-- **C82** for `local_search()`: with binary64 numbers, too, it ends in a packing that no exchange
of two items improves, in exact value. -/
theorem C82_local_optimum (clock : Nat → Rat) (start : Rat) (throttle : Bool) (i j : Inst)
    (t : LSState Inst (Solution × ObjVals)) (hv : i.Valid) (hn : i.containersNum = i.containers.length)
    (hb : i.strip = false) (hlow : ∀ x ∈ i.items, ¬ LowStrip i.rotation x.2) (D : Nat)
    (hres : Resolved i.containers i.items.length D)
    (h : i.localSearch Arith.double clock start throttle = .ok (j, t))
    (hclock : ∀ k, k < t.tick → ¬ Late Arith.double clock start i k)
    (hthr : throttle = false ∨ i.items.length ≤ 71) :
    ∃ (seq : List String) (sol : Solution), seq.Perm (i.items.map (·.1)) ∧
      solve Arith.double i.solveIn (some seq) = .ok (sol, j.objVals) ∧ SamePacking j.solution sol ∧
      ∀ a b, a < b → b < i.items.length →
        ∀ sol' ov', solve Arith.double i.solveIn (some (exchange seq a b)) = .ok (sol', ov') →
          trueValue i.containers sol' ≤ trueValue i.containers j.solution := by
  obtain ⟨seq, sol, h1, h2, h3, h4⟩ := C19_local_optimum _ clock start throttle i j t hv hn hb h hclock hthr
  refine ⟨seq, sol, h1, h2, h3, ?_⟩
  intro a b hab hbn sol' ov' hs'
  have hle := h4 a b hab hbn sol' ov' hs'
  have hk := known_of_ok hv.solveIn hs'
  have hks : KnownSeq i.solveIn (some seq) := KnownSeq_perm h1
  rw [trueValue_same (conts := i.containers) h3 (C04_once _ _ hv.solveIn _ hks _ _ h2).1 hv.conts.1]
  exact C82_reported i.solveIn i.solveIn hv.solveIn hv.solveIn hb hb hlow hlow rfl hv.contsNe i.items.length D
    le_rfl le_rfl hres _ _ hk hks sol' sol ov' j.objVals hs' h2 hle

/-- **C82** for `hypersearch()` in one process: with binary64 numbers the packing it ends with has at
least the exact value of the initial `solve()` and of what the local search of every strategy tried
ended with. -/
theorem C82_hypersearch (clock : Nat → Rat) (start : Rat) (throttle : Bool) (i : Inst)
    (sts : List (List PClass)) (hv : i.Valid) (hn : i.containersNum = i.containers.length)
    (hb : i.strip = false) (hlow : ∀ x ∈ i.items, ¬ LowStrip i.rotation x.2) (D : Nat)
    (hres : Resolved i.containers i.items.length D) (s : HSState)
    (h : i.singleHS Arith.double clock start throttle sts = .ok s) :
    ∃ (sol0 : Solution) (ov0 : ObjVals) (tried : List (List PClass)),
      solve Arith.double i.solveIn none = .ok (sol0, ov0) ∧
      trueValue i.containers sol0 ≤ trueValue i.containers s.finish.solution ∧
      tried <+: sts ∧ (sts ≠ [] → tried ≠ []) ∧
      (tried = sts ∨ ∃ n, Arith.double.sub (clock n) start > (i.maxTime : Rat)) ∧
      ∀ st ∈ tried, ∃ (k : Nat) (j : Inst) (t : LSState Inst (Solution × ObjVals)),
        Inst.localSearch Arith.double (fun n => clock (k + n)) start throttle { i with strategy := st } =
          .ok (j, t) ∧
        trueValue i.containers j.solution ≤ trueValue i.containers s.finish.solution := by
  obtain ⟨v, sol0, ov0, tried, h1, h2, h3, h4, h5, h6, h7, h8, h9⟩ :=
    C27_best _ clock start throttle i sts hv hn s h
  obtain ⟨st, seq, H, sol, g1, g2, g3, g4, g5, g6⟩ :=
    C22_hypersearch_genuine _ clock start throttle i sts hv s h
  have hvH : ∀ st H, ValidIn { i.solveIn with strategy := st, height := H } := fun st H =>
    ⟨hv.conts, hv.items, fun hs => by rw [show i.strip = true from hs] at hb; cases hb⟩
  have hks : KnownSeq { i.solveIn with strategy := st, height := H } (some seq) := KnownSeq_perm g2
  have hfin : trueValue i.containers s.finish.solution = trueValue i.containers sol :=
    trueValue_same (conts := i.containers) g6 (C04_once _ _ (hvH _ _) _ hks _ _ g5).1 hv.conts.1
  refine ⟨sol0, ov0, tried.map (·.1), h3, ?_, h5, ?_, h7, ?_⟩
  · rw [hfin]
    exact C82_reported i.solveIn _ hv.solveIn (hvH st H) hb hb hlow hlow rfl hv.contsNe i.items.length D le_rfl le_rfl
      hres none (some seq) (KnownSeq_none _) hks sol0 sol ov0 _ h3 g5 (h2 ▸ h4)
  · intro hne hnil
    exact h6 hne (List.map_eq_nil_iff.1 hnil)
  · intro st' hst'
    obtain ⟨q, hq, rfl⟩ := List.mem_map.1 hst'
    obtain ⟨⟨k, hgt, j, t, e1, _, e3, e4⟩, hle⟩ := h8 q hq
    have hh := e1 hb
    subst hh
    have hvi : ({ i with strategy := q.1, height := i.height } : Inst).Valid :=
      ⟨hv.conts, hv.items, hv.contsNe, hv.itemsNe, hv.strip, hv.height, hv.minPos⟩
    refine ⟨k, j, t, e3, ?_⟩
    obtain ⟨seq', H', sol', p1, _, _, p4, p5⟩ := C17_genuine _ _ _ _ _ _ _ hvi e3
    have hks' : KnownSeq { i.solveIn with strategy := q.1, height := H' } (some seq') := KnownSeq_perm p1
    have p4' : solve Arith.double { i.solveIn with strategy := q.1, height := H' } (some seq') =
      .ok (sol', j.objVals) := p4
    rw [hfin, trueValue_same (conts := i.containers) p5 (C04_once _ _ (hvH _ _) _ hks' _ _ p4').1 hv.conts.1]
    obtain ⟨_, ho, _⟩ := C17_carries_over _ _ _ _ _ _ _ hvi e3
    obtain ⟨hfr, _⟩ := C17_frame _ _ _ _ _ _ _ hvi e3
    have hjn : j.containersNum = j.containers.length := by rw [hfr]; exact hn
    have hjc : j.containers = i.containers := by rw [hfr]
    have e5 := calcObj_eq (A := Arith.double) (i := j) (by rw [hjc]; exact ho) (by rw [hjc]; exact hv.contsNe)
    rw [Inst.worth_eq hjn (by rw [hjc]; exact ho), e4] at e5
    injection e5 with e5
    exact C82_reported _ _ (hvH q.1 H') (hvH st H) hb hb hlow hlow rfl hv.contsNe i.items.length D le_rfl le_rfl
      hres (some seq') (some seq) hks' hks sol' sol _ _ p4' g5 (by rw [← e5, ← h2]; exact hle)

/-- **C82** without the size condition: however large the containers, the searches lose at most a
relative `(items + containers + 2) / 2^51` of the exact value to rounding. Two packings of the same
containers, the second reported as no worse than the first. -/
theorem C82_loss (p q : SolveIn) (hp : ValidIn p) (hq : ValidIn q) (hpb : p.strip = false)
    (hqb : q.strip = false) (hpq : p.containers = q.containers)
    (hne : p.containers ≠ []) (N : Nat) (hpN : p.items.length ≤ N) (hqN : q.items.length ≤ N)
    (hN : N + p.containers.length + 2 ≤ 2 ^ 52)
    (seq1 seq2 : Option (List String)) (hs1 : KnownSeq p seq1) (hs2 : KnownSeq q seq2)
    (sol1 sol2 : Solution) (ov1 ov2 : ObjVals)
    (h1 : solve Arith.double p seq1 = .ok (sol1, ov1)) (h2 : solve Arith.double q seq2 = .ok (sol2, ov2))
    (hle : overall Arith.double (ov1.map (·.2)) ≤ overall Arith.double (ov2.map (·.2))) :
    trueValue p.containers sol1 * (1 - ((N + p.containers.length + 2 : Nat) : Rat) / 2 ^ 51) ≤
      trueValue p.containers sol2 := by
  have n1 := value_near rne_accurate hp hpb hne hs1 h1 hpN
  have n2 := value_near rne_accurate hq hqb (hpq ▸ hne) hs2 h2 hqN
  rw [← hpq] at n2
  have e1 := (abs_le.1 (n1.error hN)).1
  have e2 := (abs_le.1 (n2.error hN)).2
  have p1 := n1.1
  have p2 := n2.1
  have hle' : overall (Arith.rounding rne) (ov1.map (·.2)) ≤ overall (Arith.rounding rne) (ov2.map (·.2)) := hle
  generalize overall (Arith.rounding rne) (ov1.map (·.2)) = x1 at *
  generalize overall (Arith.rounding rne) (ov2.map (·.2)) = x2 at *
  generalize trueValue p.containers sol1 = E1 at *
  generalize trueValue p.containers sol2 = E2 at *
  generalize hd : ((N + p.containers.length + 2 : Nat) : Rat) / 2 ^ 52 = d at *
  have hd0 : 0 ≤ d := by rw [← hd]; positivity
  have hd2 : ((N + p.containers.length + 2 : Nat) : Rat) / 2 ^ 51 = 2 * d := by rw [← hd]; ring
  rw [hd2]
  rw [mul_div_assoc, hd] at e1 e2
  have h3 : E1 * (1 - d) ≤ E2 * (1 + d) := by linarith
  by_contra hc
  push Not at hc
  by_cases hd1 : 1 ≤ 2 * d
  · have : E1 * (1 - 2 * d) ≤ 0 := mul_nonpos_of_nonneg_of_nonpos p1 (by linarith)
    linarith
  · push Not at hd1
    have h4 : E2 * (1 + d) < E1 * (1 - 2 * d) * (1 + d) := mul_lt_mul_of_pos_right hc (by linarith)
    have h5 : E1 * (1 - 2 * d) * (1 + d) ≤ E1 * (1 - d) := by
      have : E1 * (1 - d) - E1 * (1 - 2 * d) * (1 + d) = E1 * (2 * d * d) := by ring
      have : 0 ≤ E1 * (2 * d * d) := by positivity
      linarith
    linarith

/-- **C82** for strip packing: the reported values of two packings are ordered as the exact quotients
the code stands for (covered area over strip width times the index of the topmost occupied row, see
C08), if twice (area of the better one) * (that row of the other one) is less than 2^52. -/
theorem C82_strip (p q : SolveIn) (hp : ValidIn p) (hq : ValidIn q) (hps : p.strip = true)
    (hqs : q.strip = true) (seq1 seq2 : Option (List String)) (hs1 : KnownSeq p seq1) (hs2 : KnownSeq q seq2)
    (cid : String) (W : Nat) (hcp : ∀ c, (cid, c) ∈ p.containers → c.w = W) (hcq : ∀ c, (cid, c) ∈ q.containers → c.w = W)
    (m1 m2 : PyDict String Rect) (ov1 ov2 : ObjVals) (hm1 : m1 ≠ []) (hm2 : m2 ≠ [])
    (h1 : solve Arith.double p seq1 = .ok ([(cid, m1)], ov1)) (h2 : solve Arith.double q seq2 = .ok ([(cid, m2)], ov2))
    (hsmall : 2 * (totalArea (m2.map (·.2)) * max 1 (stackHeight (m1.map (·.2)) - 1)) < 2 ^ 52)
    (hlt : (totalArea (m1.map (·.2)) : Rat) / ((W * max 1 (stackHeight (m1.map (·.2)) - 1) : Nat) : Rat) <
      (totalArea (m2.map (·.2)) : Rat) / ((W * max 1 (stackHeight (m2.map (·.2)) - 1) : Nat) : Rat)) :
    overall Arith.double (ov1.map (·.2)) < overall Arith.double (ov2.map (·.2)) := by
  have key : ∀ (p : SolveIn) (hp : ValidIn p) (hps : p.strip = true) (seq : Option (List String))
      (hs : KnownSeq p seq) (hc : ∀ c, (cid, c) ∈ p.containers → c.w = W) (m : PyDict String Rect)
      (hm : m ≠ []) (ov : ObjVals) (h : solve Arith.double p seq = .ok ([(cid, m)], ov)),
      0 < W ∧ Near 2 (overall Arith.double (ov.map (·.2)))
        ((totalArea (m.map (·.2)) : Rat) / ((W * max 1 (stackHeight (m.map (·.2)) - 1) : Nat) : Rat)) := by
    intro p hp hps seq hs hc m hm ov h
    obtain ⟨c, v, a1, a2, a3⟩ := C08_partial _ p hp hps seq hs _ ov h cid m (by simp) hm
    have hcw := hc c a1
    refine ⟨hcw ▸ (hp.conts.2 _ a1).1, ?_⟩
    obtain ⟨k1, k2, _⟩ := C04_once _ p hp seq hs _ ov h
    have hlen : ov.length = 1 := by
      have := congrArg List.length (k2.trans k1.symm)
      simpa using this
    obtain ⟨x, rfl⟩ := List.length_eq_one_iff.1 hlen
    simp only [List.mem_singleton] at a2
    subst a2
    have e : overall Arith.double (List.map (·.2) [(cid, v)]) = rne (0 + v) := rfl
    rw [e, zero_add, a3, hcw]
    exact ((Near.exact (by positivity)).rnd rne_accurate).rnd rne_accurate
  obtain ⟨hW, n1⟩ := key p hp hps seq1 hs1 hcp m1 hm1 ov1 h1
  obtain ⟨_, n2⟩ := key q hq hqs seq2 hs2 hcq m2 hm2 ov2 h2
  generalize totalArea (m1.map (·.2)) = a1 at *
  generalize totalArea (m2.map (·.2)) = a2 at *
  generalize hH1 : max 1 (stackHeight (m1.map (·.2)) - 1) = H1 at *
  generalize hH2 : max 1 (stackHeight (m2.map (·.2)) - 1) = H2 at *
  have p1 : 0 < H1 := by omega
  have p2 : 0 < H2 := by omega
  have r1 : (0 : Rat) < H1 := by exact_mod_cast p1
  have r2 : (0 : Rat) < H2 := by exact_mod_cast p2
  have rW : (0 : Rat) < W := by exact_mod_cast hW
  have e1 : ((W * H1 * H2 : Nat) : Rat) * ((a1 : Rat) / ((W * H1 : Nat) : Rat)) = ((a1 * H2 : Nat) : Rat) := by
    push_cast; field_simp
  have e2 : ((W * H1 * H2 : Nat) : Rat) * ((a2 : Rat) / ((W * H2 : Nat) : Rat)) = ((a2 * H1 : Nat) : Rat) := by
    push_cast; field_simp
  have hD : 0 < W * H1 * H2 := Nat.mul_pos (Nat.mul_pos hW p1) p2
  refine n1.lt n2 hD e1 e2 ?_ hsmall
  have hD' : (0 : Rat) < ((W * H1 * H2 : Nat) : Rat) := by exact_mod_cast hD
  have := mul_lt_mul_of_pos_left hlt hD'
  rw [e1, e2] at this
  exact_mod_cast this

/-- two items on a strip -/
def pairDemo (s : List PClass) : SolveIn where
  containers := [("strip", ⟨4, 1⟩)]
  items := [("i0", ⟨2, 2⟩), ("i1", ⟨2, 3⟩)]
  strategy := s
  rotation := false
  strip := true
  height := 20

/-- C82 on a concrete strip: the items above each other and next to each other -/
example : ∃ ov1 ov2,
    solve Arith.double (pairDemo defaultStrategy) none =
      .ok ([("strip", [("i0", ⟨0, 0, 2, 2⟩), ("i1", ⟨0, 2, 2, 3⟩)])], ov1) ∧
    solve Arith.double (pairDemo [.B, .A]) none =
      .ok ([("strip", [("i0", ⟨0, 0, 2, 2⟩), ("i1", ⟨2, 0, 2, 3⟩)])], ov2) ∧
    overall Arith.double (ov1.map (·.2)) < overall Arith.double (ov2.map (·.2)) := by
  have hv : ∀ s, ValidIn (pairDemo s) := fun s =>
    ⟨⟨by simp [pairDemo], by simp [pairDemo]⟩, ⟨by simp [pairDemo], by simp [pairDemo]⟩, fun _ => by simp [pairDemo]⟩
  have h1 : solve Arith.double (pairDemo defaultStrategy) none =
      .ok ([("strip", [("i0", ⟨0, 0, 2, 2⟩), ("i1", ⟨0, 2, 2, 3⟩)])], [("strip", 5 / 8)]) := by decide +kernel
  have h2 : solve Arith.double (pairDemo [.B, .A]) none =
      .ok ([("strip", [("i0", ⟨0, 0, 2, 2⟩), ("i1", ⟨2, 0, 2, 3⟩)])], [("strip", 5 / 4)]) := by decide +kernel
  refine ⟨_, _, h1, h2, ?_⟩
  refine C82_strip _ _ (hv _) (hv _) rfl rfl none none (KnownSeq_none _) (KnownSeq_none _) "strip" 4 ?_ ?_ _ _ _ _
    (by simp) (by simp) h1 h2 (by decide) (by decide +kernel)
  all_goals
    intro c hc
    simp only [pairDemo, List.mem_singleton, Prod.mk.injEq, true_and] at hc
    subst hc
    rfl

/-- three items in a container of ten -/
def sumDemo : SolveIn where
  containers := [("c0", ⟨10, 2⟩)]
  items := [("i0", ⟨1, 2⟩), ("i1", ⟨2, 2⟩), ("i2", ⟨3, 2⟩)]
  strategy := defaultStrategy
  rotation := false
  strip := false
  height := 0

/-- Packings of equal exact value need not be reported equal: the same three items, placed in two
orders, are reported as 0.6000000000000001 and 0.6. (So a strictly better reported value may be an
equally good packing; by `C82_order` it is never a worse one.) -/
theorem C82_ties_refuted : ∃ sol1 sol2 v1 v2,
    solve Arith.double sumDemo none = .ok (sol1, [("c0", v1)]) ∧
    solve Arith.double sumDemo (some ["i2", "i1", "i0"]) = .ok (sol2, [("c0", v2)]) ∧
    trueValue sumDemo.containers sol1 = trueValue sumDemo.containers sol2 ∧ v2 < v1 :=
  ⟨[("c0", [("i0", ⟨0, 0, 1, 2⟩), ("i1", ⟨1, 0, 2, 2⟩), ("i2", ⟨3, 0, 3, 2⟩)])],
   [("c0", [("i2", ⟨0, 0, 3, 2⟩), ("i1", ⟨3, 0, 2, 2⟩), ("i0", ⟨5, 0, 1, 2⟩)])],
   rne (rne (rne (1 / 10) + rne (1 / 5)) + rne (3 / 10)), rne (rne (rne (3 / 10) + rne (1 / 5)) + rne (1 / 10)),
   by decide +kernel, by decide +kernel, by decide +kernel, by decide +kernel⟩

/-- the size condition of C82 on concrete problems: a thousand items in fifty containers of a million
unit squares each, and the two containers of `metres` in millimetres -/
example : Resolved (List.replicate 50 ("c", ⟨1000, 1000⟩)) 1000 1000000 := by
  refine ⟨by norm_num, ?_, by norm_num⟩
  intro c hc
  rw [List.eq_of_mem_replicate hc]
  exact ⟨1, by decide⟩

example : Resolved (scaleInst 1000 metres).containers (scaleInst 1000 metres).items.length 9000000 := by
  refine ⟨by norm_num, ?_, by decide⟩
  intro c hc
  simp only [scaleInst, scaleDims, metres, rawInst, List.map_cons, List.map_nil, List.mem_cons, List.not_mem_nil,
    or_false] at hc
  rcases hc with rfl | rfl <;> exact ⟨1, by decide⟩

/-- C82 on a concrete problem: what `local_search()` on `metres` does to the exact value -/
example : ∃ j t sol ov, metres.localSearch Arith.double (fun _ => 0) 0 true = .ok (j, t) ∧
    solve Arith.double metres.solveIn none = .ok (sol, ov) ∧
    trueValue metres.containers sol ≤ trueValue metres.containers j.solution := by
  have hv : metres.Valid := metres_reach.good.valid
  obtain ⟨j, t, h⟩ := C18_terminates Arith.double (fun _ => 0) 0 true metres hv
  obtain ⟨sol, ov, hs⟩ := (C06_total Arith.double metres.solveIn hv.solveIn none).1 (KnownSeq_none _)
  refine ⟨j, t, sol, ov, h, hs, ?_⟩
  refine C82_local_search _ _ _ metres j t hv rfl rfl ?_ 9 ?_ h sol ov hs
  · intro q hq
    simp only [metres, rawInst, List.mem_cons, List.not_mem_nil, or_false] at hq
    unfold LowStrip
    rcases hq with rfl | rfl | rfl | rfl <;> simp
  · refine ⟨by norm_num, ?_, by decide⟩
    intro c hc
    simp only [metres, rawInst, List.mem_cons, List.not_mem_nil, or_false] at hc
    rcases hc with rfl | rfl <;> exact ⟨1, by decide⟩

end HP
