import Verif.Proofs.Rounding
import Verif.Props.Float
/-
C83: rounding does not change the packings of `solve`.
-/
namespace HP
open Spec

theorem Chain.agree {A B : Arith} {p : SolveIn} {n : Nat} {cs items : PyDict String Dim} {sol sol' : Solution}
    {ov ov' : ObjVals} {rem rem' : PyDict String Dim} (hh : p.strip = true → 0 < p.height)
    (hcs : ∀ c ∈ cs, 0 < c.2.w ∧ 0 < c.2.l) (hi : ValidSizes items) (hn : items.length ≤ n)
    (hr : ∀ c ∈ cs, SameRatio A B c.2.w ∧ SameRatio A B (lenOf p c.2))
    (hm : p.strip = true ∨ ((∀ q ∈ items, ¬ LowStrip p.rotation q.2) ∧
      ∀ c ∈ cs, Honest (p.params A c.2) n ∧ Honest (p.params B c.2) n))
    (h : Chain A p cs items sol ov rem) (h' : Chain B p cs items sol' ov' rem') : sol = sol' := by
  induction h generalizing sol' ov' rem' with
  | nil => cases h'; rfl
  | skip _ ih =>
    cases h' with
    | skip h' =>
      rw [ih (fun c hc => hcs c (by simp [hc])) hi hn (fun c hc => hr c (by simp [hc]))
        (hm.imp id (fun k => ⟨k.1, fun c hc => k.2 c (by simp [hc])⟩)) h']
    | cons h0 => exact absurd rfl h0
  | @cons cid c cs items r sol ov rem hne hr1 hf _ ih =>
    cases h' with
    | skip => exact absurd rfl hne
    | @cons _ _ _ _ q _ _ _ _ hq1 hf' h' =>
      have hc := hcs (cid, c) (by simp)
      have hL : 0 < (p.params A c).L := by
        unfold SolveIn.params
        simp only
        split
        · rename_i hs; exact hh hs
        · exact hc.2
      have hLe : (p.params A c).L = lenOf p c := rfl
      obtain ⟨e1, e2⟩ := construct_agree (P := p.params A c) (Q := p.params B c) rfl
        (hr (cid, c) (by simp)).1 (by rw [hLe]; exact (hr (cid, c) (by simp)).2) hi hc.1 hL
        (hm.imp id (fun k => ⟨k.1, fun pl hpl => (k.2 (cid, c) (by simp)).1 pl (by omega),
          fun pl hpl => (k.2 (cid, c) (by simp)).2 pl (by omega)⟩)) hr1 hq1
      rw [← e2] at h'
      rw [e1, ih (fun c hc => hcs c (by simp [hc])) (validSizes_sublist hf.sub hi)
        (le_trans hf.sub.length_le hn) (fun c hc => hr c (by simp [hc]))
        (hm.imp id (fun k => ⟨fun x hx => k.1 x (hf.sub.subset hx), fun c hc => k.2 c (by simp [hc])⟩)) h']

/-- **C83**, for any two ways of rounding that agree on the 20% test and that report a value of 1 or
more only for full containers: the same packings. -/
theorem C83_agree (A B : Arith) (p : SolveIn) (hv : ValidIn p) (seq : Option (List String)) (hs : KnownSeq p seq)
    (hr : ∀ c ∈ p.containers, SameRatio A B c.2.w ∧ SameRatio A B (lenOf p c.2))
    (hm : p.strip = true ∨ ((∀ q ∈ p.items, ¬ LowStrip p.rotation q.2) ∧
      ∀ c ∈ p.containers, Honest (p.params A c.2) p.items.length ∧ Honest (p.params B c.2) p.items.length))
    (sol : Solution) (ov : ObjVals) (h : solve A p seq = .ok (sol, ov)) :
    ∃ ov', solve B p seq = .ok (sol, ov') := by
  obtain ⟨hi, rem, hch⟩ := solve_ok hv hs h
  obtain ⟨sol', ov', rem', h1, _, h2⟩ := solve_chain (A := B) hv hs
  have hsub : ∀ q ∈ solvedFor p.items seq, q ∈ p.items := fun q hq => solvedFor_mem q hq
  have hlen : (solvedFor p.items seq).length ≤ p.items.length :=
    (List.Nodup.subperm (List.Nodup.of_map _ hi.1) hsub).length_le
  have := Chain.agree hv.height hv.conts.2 hi hlen hr
    (hm.imp id (fun k => ⟨fun q hq => k.1 q (hsub q hq), k.2⟩)) hch h2
  subst this
  exact ⟨ov', h1⟩

/-- the 20% test comes out as in exact arithmetic -/
theorem ratio_double (b : Nat) (hb : 0 < b) (h : 5 * b < 2 ^ 52) : SameRatio Arith.double Arith.exact b := by
  intro a
  simp only [Arith.double, Arith.rounding, Arith.exact]
  have n1 : Near 1 (rne ((a : Rat) / (b : Rat))) ((a : Rat) / (b : Rat)) := (Near.exact (by positivity)).rnd rne_accurate
  have n2 : Near 1 (rne (1 / 5)) (1 / 5) := (Near.exact (by norm_num)).rnd rne_accurate
  have hb' : (b : Rat) ≠ 0 := by exact_mod_cast hb.ne'
  have e1 : ((5 * b : Nat) : Rat) * ((a : Rat) / (b : Rat)) = ((5 * a : Nat) : Rat) := by
    push_cast; field_simp
  have e2 : ((5 * b : Nat) : Rat) * (1 / 5) = ((b : Nat) : Rat) := by
    push_cast; field_simp
  apply decide_eq_decide.2
  constructor
  · intro hle
    by_contra hgt
    push Not at hgt
    by_cases hab : a ≤ b
    · have := n2.lt n1 (by omega) e2 e1 hgt (by omega)
      linarith
    · push Not at hab
      have h1 : (1 : Rat) ≤ (a : Rat) / (b : Rat) := by
        rw [le_div_iff₀ (by exact_mod_cast hb)]
        have : (b : Rat) ≤ a := by exact_mod_cast hab.le
        linarith
      have h2 := n1.2.1
      have h3 := n2.2.2
      rw [pow_one] at h2 h3
      have hu : ulp < 1 / 2 := by unfold ulp; norm_num
      have hu0 := ulp_pos
      nlinarith
  · intro hle
    rcases Nat.lt_or_ge (5 * a) b with hlt | hge
    · exact (n1.lt n2 (by omega) e1 e2 hlt (by omega)).le
    · have hab : b = 5 * a := by omega
      have ha : (a : Rat) ≠ 0 := by
        rintro h0
        apply hb'
        rw [hab]; push_cast; rw [h0]; norm_num
      rw [show (a : Rat) / (b : Rat) = 1 / 5 by rw [hab]; push_cast; field_simp]

theorem objFold_fractions (P : CParams) (placed : List Placed) :
    objFold P placed = fractions P.ar P.W P.L (placed.map (fun p => (p.id, p.rect))) := by
  unfold objFold fractions
  rw [List.foldl_map]

theorem honest_double {P : CParams} (hP : P.ar = Arith.double) {n : Nat} (hpos : 0 < P.W * P.L)
    (h : (n + 1) * (P.W * P.L) < 2 ^ 53) : Honest P n := by
  intro placed hlen hge
  rw [objFold_fractions, hP] at hge
  have hn := fractions_near rne_accurate P.W P.L (placed.map (fun p => (p.id, p.rect)))
  rw [List.map_map, List.length_map] at hn
  have hne : ((P.W * P.L : Nat) : Rat) ≠ 0 := by exact_mod_cast hpos.ne'
  have hcomp : (fun x : String × Rect => x.2) ∘ (fun p : Placed => (p.id, p.rect)) = Placed.rect := rfl
  rw [hcomp] at hn
  refine hn.one hpos (by rw [mul_div_cancel₀ _ hne]) (lt_of_le_of_lt (Nat.mul_le_mul_right _ (by omega)) h) hge

theorem honest_exact {P : CParams} (hP : P.ar = Arith.exact) (n : Nat) (hpos : 0 < P.W * P.L) : Honest P n := by
  intro placed _ hge
  rw [objFold_exact P hP] at hge
  have hp : (0 : Rat) < ((P.W * P.L : Nat) : Rat) := by exact_mod_cast hpos
  rw [ge_iff_le, le_div_iff₀ hp, one_mul] at hge
  exact_mod_cast hge

/-- **C83** for bin packing: `solve()` with binary64 numbers places the items exactly as it would with
unlimited precision, if ten times (number of items + 1) times the container's area is less than 2^53
(no item one unit thin and three or more long, which the code may overlap, see C01). The values
are the covered fractions, rounded as in C81. -/
theorem C83_bin (p : SolveIn) (hv : ValidIn p) (hb : p.strip = false)
    (hlow : ∀ q ∈ p.items, ¬ LowStrip p.rotation q.2)
    (hsmall : ∀ c ∈ p.containers, 10 * ((p.items.length + 1) * (c.2.w * c.2.l)) < 2 ^ 53)
    (seq : Option (List String)) (hs : KnownSeq p seq) (sol : Solution) :
    (∃ ov, solve Arith.double p seq = .ok (sol, ov)) ↔ ∃ ov, solve Arith.exact p seq = .ok (sol, ov) := by
  have hl : ∀ c ∈ p.containers, 0 < c.2.w ∧ 0 < lenOf p c.2 ∧ 5 * c.2.w < 2 ^ 52 ∧ 5 * lenOf p c.2 < 2 ^ 52 ∧
      (p.items.length + 1) * (c.2.w * lenOf p c.2) < 2 ^ 53 := by
    intro c hc
    have h0 := hv.conts.2 c hc
    have h1 := hsmall c hc
    rw [show lenOf p c.2 = c.2.l by simp [lenOf, hb]]
    have h2 : c.2.w * 1 ≤ c.2.w * c.2.l := Nat.mul_le_mul_left _ h0.2
    have h3 : 1 * c.2.l ≤ c.2.w * c.2.l := Nat.mul_le_mul_right _ h0.1
    have h4 : 1 * (c.2.w * c.2.l) ≤ (p.items.length + 1) * (c.2.w * c.2.l) := Nat.mul_le_mul_right _ (by omega)
    exact ⟨h0.1, h0.2, by omega, by omega, by omega⟩
  have hr : ∀ c ∈ p.containers, SameRatio Arith.double Arith.exact c.2.w ∧
      SameRatio Arith.double Arith.exact (lenOf p c.2) := fun c hc =>
    ⟨ratio_double _ (hl c hc).1 (hl c hc).2.2.1, ratio_double _ (hl c hc).2.1 (hl c hc).2.2.2.1⟩
  have hd : ∀ c ∈ p.containers, Honest (p.params Arith.double c.2) p.items.length := fun c hc =>
    honest_double rfl (Nat.mul_pos (hl c hc).1 (hl c hc).2.1) (hl c hc).2.2.2.2
  have he : ∀ c ∈ p.containers, Honest (p.params Arith.exact c.2) p.items.length := fun c hc =>
    honest_exact rfl _ (Nat.mul_pos (hl c hc).1 (hl c hc).2.1)
  constructor
  · rintro ⟨ov, h⟩
    exact C83_agree _ _ p hv seq hs hr (.inr ⟨hlow, fun c hc => ⟨hd c hc, he c hc⟩⟩) sol ov h
  · rintro ⟨ov, h⟩
    exact C83_agree _ _ p hv seq hs (fun c hc => ⟨fun a => ((hr c hc).1 a).symm, fun a => ((hr c hc).2 a).symm⟩)
      (.inr ⟨hlow, fun c hc => ⟨he c hc, hd c hc⟩⟩) sol ov h

/-- **C83** for strip packing: the same, for every item, if five times the width and the height of the
strip are less than 2^52. -/
theorem C83_strip (p : SolveIn) (hv : ValidIn p) (hb : p.strip = true)
    (hsmall : (∀ c ∈ p.containers, 5 * c.2.w < 2 ^ 52) ∧ 5 * p.height < 2 ^ 52)
    (seq : Option (List String)) (hs : KnownSeq p seq) (sol : Solution) :
    (∃ ov, solve Arith.double p seq = .ok (sol, ov)) ↔ ∃ ov, solve Arith.exact p seq = .ok (sol, ov) := by
  have hr : ∀ c ∈ p.containers, SameRatio Arith.double Arith.exact c.2.w ∧
      SameRatio Arith.double Arith.exact (lenOf p c.2) := by
    intro c hc
    rw [show lenOf p c.2 = p.height by simp [lenOf, hb]]
    exact ⟨ratio_double _ (hv.conts.2 c hc).1 (hsmall.1 c hc), ratio_double _ (hv.height hb) hsmall.2⟩
  constructor
  · rintro ⟨ov, h⟩
    exact C83_agree _ _ p hv seq hs hr (.inl hb) sol ov h
  · rintro ⟨ov, h⟩
    exact C83_agree _ _ p hv seq hs (fun c hc => ⟨fun a => ((hr c hc).1 a).symm, fun a => ((hr c hc).2 a).symm⟩)
      (.inl hb) sol ov h

/-- C83 on concrete problems: the full container of C81, with an item that is left over, and the strip of C82 -/
example : ∃ sol ov, solve Arith.exact tenthsDemo none = .ok (sol, ov) ∧ ∃ ov', solve Arith.double tenthsDemo none = .ok (sol, ov') ∧
    ov ≠ ov' := by
  obtain ⟨sol, h, _⟩ := C81_full_converse_refuted
  obtain ⟨ov, h'⟩ := (C83_bin tenthsDemo tenthsDemo_valid rfl (by
    intro q hq
    simp only [tenthsDemo, List.mem_cons, List.not_mem_nil, or_false] at hq
    unfold LowStrip
    rcases hq with rfl | rfl | rfl | rfl | rfl | rfl | rfl | rfl | rfl | rfl <;> simp)
    (by decide) none (KnownSeq_none _) sol).1 ⟨_, h⟩
  refine ⟨sol, ov, h', _, h, ?_⟩
  rintro rfl
  obtain ⟨c, v, h1, h2, h3, _⟩ := C07_utilization tenthsDemo tenthsDemo_valid rfl none (KnownSeq_none _) sol _ h' _ _
    (show ("c0", sol.head!.2) ∈ sol by
      have := (C04_once _ _ tenthsDemo_valid none (KnownSeq_none _) _ _ h').1
      cases sol with
      | nil => simp [tenthsDemo] at this
      | cons x xs =>
        simp only [tenthsDemo, List.map_cons, List.map_nil, List.cons.injEq] at this
        rw [← this.1]; simp)
  simp only [tenthsDemo, List.mem_singleton, Prod.mk.injEq, true_and] at h1 h2
  subst h1; subst h2
  generalize totalArea _ = a at h3
  have h4 : ((a : Nat) : Rat) = 10 * (1 - 1 / 2 ^ 53) := by rw [h3]; norm_num; ring
  have h5 : ((a * 2 ^ 53 : Nat) : Rat) = ((10 * (2 ^ 53 - 1) : Nat) : Rat) := by push_cast; rw [h4]; norm_num
  have h6 : a * 2 ^ 53 = 10 * (2 ^ 53 - 1) := by exact_mod_cast h5
  omega

/-! ### the number of strategies per worker -/

theorem roundEven_nat (N : Nat) : roundEven (N : Rat) = N := by
  unfold roundEven
  have hf : (N : Rat).floor = (N : Int) := by
    have := Rat.floor_intCast (N : Int)
    simpa using this
  rw [hf]
  simp

/-- integers below 2^53 are not rounded -/
theorem rne_nat (n : Nat) (h : n < 2 ^ 53) : rne (n : Rat) = n := by
  unfold rne
  split
  · rename_i h0; exact h0.symm
  · rename_i h0
    have he := expo_le h0
    have hlt : expo (n : Rat) < 53 := by
      by_contra hge
      push Not at hge
      rw [pow2_eq] at he
      have h1 : (2 : Rat) ^ (53 : Int) ≤ 2 ^ expo (n : Rat) := zpow_le_zpow_right₀ (by norm_num) hge
      have h2 : ((n : Nat) : Rat) < 2 ^ 53 := by exact_mod_cast h
      have h3 : |(n : Rat)| = n := abs_of_nonneg (by positivity)
      rw [h3] at he
      norm_num at h1
      linarith
    have hp := pow2_pos (expo (n : Rat) - 52)
    obtain ⟨k, hk⟩ := Int.eq_ofNat_of_zero_le (show 0 ≤ 52 - expo (n : Rat) by omega)
    have e1 : (n : Rat) / pow2 (expo (n : Rat) - 52) = ((n * 2 ^ k : Nat) : Rat) := by
      rw [pow2_eq, show expo (n : Rat) - 52 = -(k : Int) by omega, zpow_neg, zpow_natCast]
      push_cast
      rw [div_inv_eq_mul]
    have e2 : roundEven (n / pow2 (expo (n : Rat) - 52)) = ((n * 2 ^ k : Nat) : Int) := by
      rw [e1]
      exact roundEven_nat _
    simp only
    rw [e2]
    have : (((n * 2 ^ k : Nat) : Int) : Rat) = (n : Rat) / pow2 (expo (n : Rat) - 52) := by rw [e1]; push_cast; rfl
    rw [this, div_mul_cancel₀ _ hp.ne']

/-- **C31** with binary64 numbers: `math.ceil(len(strategies) / workers_num)` is the exact quotient
rounded up, for fewer than 2^53 strategies (there are at most 10! of them). -/
theorem C31_rounded (n k : Nat) (hk : 0 < k) (hn : n < 2 ^ 53) :
    ⌈rne ((n : Rat) / (k : Rat))⌉ = ⌈(n : Rat) / (k : Rat)⌉ := by
  have hk' : (0 : Rat) < k := by exact_mod_cast hk
  rcases Nat.eq_zero_or_pos (n % k) with h0 | h0
  · obtain ⟨m, hm⟩ := Nat.dvd_of_mod_eq_zero h0
    have e : (n : Rat) / (k : Rat) = (m : Rat) := by rw [hm]; push_cast; field_simp
    rw [e, rne_nat m (by
      have : 1 * m ≤ k * m := Nat.mul_le_mul_right _ hk
      omega)]
  · -- q < n / k < q + 1, at least 1 / k away from both
    have hdm := Nat.div_add_mod n k
    have hmod := Nat.mod_lt n hk
    have hq1 : (((n / k : Nat) : Rat)) + 1 / k ≤ (n : Rat) / k := by
      rw [← sub_nonneg]
      have : (n : Rat) / k - (((n / k : Nat) : Rat) + 1 / k) = ((n : Rat) - ((k * (n / k) : Nat) : Rat) - 1) / k := by
        push_cast; field_simp; ring
      rw [this]
      apply div_nonneg _ hk'.le
      have : ((k * (n / k) + 1 : Nat) : Rat) ≤ n := by exact_mod_cast (by omega)
      push_cast at this ⊢
      linarith
    have hq2 : (n : Rat) / k + 1 / k ≤ ((n / k : Nat) : Rat) + 1 := by
      rw [← sub_nonneg]
      have : ((n / k : Nat) : Rat) + 1 - ((n : Rat) / k + 1 / k) = (((k * (n / k) + k : Nat) : Rat) - n - 1) / k := by
        push_cast; field_simp; ring
      rw [this]
      apply div_nonneg _ hk'.le
      have : ((n + 1 : Nat) : Rat) ≤ ((k * (n / k) + k : Nat) : Rat) := by exact_mod_cast (by omega)
      push_cast at this ⊢
      linarith
    have herr := abs_le.1 (rne_accurate ((n : Rat) / k))
    rw [abs_of_nonneg (by positivity)] at herr
    have hsmall : (n : Rat) / k / 2 ^ 53 < 1 / k := by
      rw [div_right_comm]
      apply div_lt_div_of_pos_right _ hk'
      rw [div_lt_one (by norm_num)]
      exact_mod_cast hn
    have hc : ∀ x : Rat, ((n / k : Nat) : Rat) < x → x ≤ ((n / k : Nat) : Rat) + 1 → ⌈x⌉ = ((n / k : Nat) : Int) + 1 := by
      intro x h1 h2
      rw [Int.ceil_eq_iff]
      generalize n / k = q at h1 h2 ⊢
      push_cast
      constructor <;> linarith
    have hpos : (0 : Rat) < 1 / k := by positivity
    rw [hc _ (by linarith [herr.1]) (by linarith [herr.2]), hc _ (by linarith) (by linarith)]

end HP
