import Verif.Model.Float
import Mathlib.Data.Rat.Floor
import Mathlib.Tactic.Linarith
import Mathlib.Tactic.Positivity
import Mathlib.Tactic.Ring
import Mathlib.Tactic.FieldSimp
/-
binary64 rounding has a relative error of at most 2 ** -53.
-/
namespace HP

theorem roundEven_err (x : Rat) : |(roundEven x : Rat) - x| ≤ 1 / 2 := by
  unfold roundEven
  have h1 : (x.floor : Rat) ≤ x := Rat.floor_le x
  have h2 : x < (x.floor : Rat) + 1 := by exact_mod_cast Rat.lt_floor_add_one x
  simp only
  split
  · rw [abs_le]; constructor <;> linarith
  · split
    · push_cast; rw [abs_le]; constructor <;> linarith
    · split
      · rw [abs_le]; constructor <;> linarith
      · push_cast; rw [abs_le]; constructor <;> linarith

theorem pow2_eq (e : Int) : pow2 e = (2 : Rat) ^ e := by
  unfold pow2
  split
  · rename_i h
    obtain ⟨n, rfl⟩ := Int.eq_ofNat_of_zero_le h
    simp
  · rename_i h
    obtain ⟨n, hn⟩ := Int.eq_ofNat_of_zero_le (show 0 ≤ -e by omega)
    have : e = -(n : Int) := by omega
    subst this
    simp

theorem pow2_pos (e : Int) : 0 < pow2 e := by
  rw [pow2_eq]; exact zpow_pos (by norm_num) _

theorem expo_le {x : Rat} (hx : x ≠ 0) : pow2 (expo x) ≤ |x| := by
  have habs : (if x < 0 then -x else x) = |x| := by
    split
    · rename_i h; rw [abs_of_neg h]
    · rename_i h; rw [abs_of_nonneg (not_lt.1 h)]
  unfold expo
  simp only [habs]
  split
  · assumption
  · have hn : x.num.natAbs ≠ 0 := by simpa using hx
    have hd : x.den ≠ 0 := x.den_nz
    have h1 : 2 ^ Nat.log2 x.num.natAbs ≤ x.num.natAbs := Nat.log2_self_le hn
    have h2 : x.den < 2 ^ (Nat.log2 x.den + 1) := Nat.lt_log2_self
    have e1 : |x| = (x.num.natAbs : Rat) / (x.den : Rat) := by
      conv_lhs => rw [← Rat.num_div_den x]
      rw [abs_div, Nat.abs_cast]
      congr 1
      rw [← Int.cast_abs, Int.abs_eq_natAbs]
      rfl
    rw [e1, pow2_eq]
    have hdp : (0 : Rat) < x.den := by exact_mod_cast Nat.pos_of_ne_zero hd
    rw [le_div_iff₀ hdp]
    have h1' : ((2 : Rat) ^ Nat.log2 x.num.natAbs) ≤ (x.num.natAbs : Rat) := by exact_mod_cast h1
    have h2' : (x.den : Rat) ≤ (2 : Rat) ^ (Nat.log2 x.den + 1) := by exact_mod_cast h2.le
    calc (2 : Rat) ^ ((Nat.log2 x.num.natAbs : Int) - (Nat.log2 x.den : Int) - 1) * x.den
        ≤ (2 : Rat) ^ ((Nat.log2 x.num.natAbs : Int) - (Nat.log2 x.den : Int) - 1) *
          (2 : Rat) ^ (Nat.log2 x.den + 1) := by
          exact mul_le_mul_of_nonneg_left h2' (zpow_pos (by norm_num) _).le
      _ = (2 : Rat) ^ Nat.log2 x.num.natAbs := by
          rw [← zpow_natCast, ← zpow_natCast, ← zpow_add₀ (by norm_num)]
          congr 1
          push_cast
          ring
      _ ≤ _ := h1'

/-- rounding with a relative error of at most 2 ** -53 -/
def Accurate (rnd : Rat → Rat) : Prop := ∀ x, |rnd x - x| ≤ |x| / 2 ^ 53

theorem rne_accurate : Accurate rne := by
  intro x
  unfold rne
  split
  · rename_i h; subst h; simp
  · rename_i hx
    have he := expo_le hx
    have hp := pow2_pos (expo x - 52)
    simp only
    have h1 := roundEven_err (x / pow2 (expo x - 52))
    have e1 : (roundEven (x / pow2 (expo x - 52)) : Rat) * pow2 (expo x - 52) - x =
        ((roundEven (x / pow2 (expo x - 52)) : Rat) - x / pow2 (expo x - 52)) * pow2 (expo x - 52) := by
      field_simp
    rw [e1, abs_mul, abs_of_pos hp]
    have e2 : pow2 (expo x - 52) = pow2 (expo x) / 2 ^ 52 := by
      rw [pow2_eq, pow2_eq, zpow_sub₀ (by norm_num)]
      norm_num
    calc |(roundEven (x / pow2 (expo x - 52)) : Rat) - x / pow2 (expo x - 52)| * pow2 (expo x - 52)
        ≤ 1 / 2 * pow2 (expo x - 52) := mul_le_mul_of_nonneg_right h1 hp.le
      _ = pow2 (expo x) / 2 ^ 53 := by rw [e2]; ring
      _ ≤ |x| / 2 ^ 53 := by
        exact div_le_div_of_nonneg_right he (by norm_num)

/-- the unit roundoff of binary64 -/
def ulp : Rat := 1 / 2 ^ 53

theorem Accurate.le {rnd : Rat → Rat} (h : Accurate rnd) {x : Rat} (hx : 0 ≤ x) : rnd x ≤ x * (1 + ulp) := by
  have := (abs_le.1 (h x)).2
  rw [abs_of_nonneg hx] at this
  unfold ulp
  linarith

theorem Accurate.ge {rnd : Rat → Rat} (h : Accurate rnd) {x : Rat} (hx : 0 ≤ x) : x * (1 - ulp) ≤ rnd x := by
  have := (abs_le.1 (h x)).1
  rw [abs_of_nonneg hx] at this
  unfold ulp
  linarith

theorem Accurate.nonneg {rnd : Rat → Rat} (h : Accurate rnd) {x : Rat} (hx : 0 ≤ x) : 0 ≤ rnd x := by
  refine le_trans ?_ (h.ge hx)
  have : (0 : Rat) ≤ 1 - ulp := by unfold ulp; norm_num
  positivity

theorem Accurate.zero {rnd : Rat → Rat} (h : Accurate rnd) : rnd 0 = 0 := by
  have := h 0
  simpa using this

/-! ### numbers known up to some roundings -/

/-- `x` is `e` up to at most `q` roundings -/
def Near (q : Nat) (x e : Rat) : Prop := 0 ≤ e ∧ e * (1 - ulp) ^ q ≤ x ∧ x ≤ e * (1 + ulp) ^ q

theorem ulp_pos : 0 < ulp := by unfold ulp; norm_num

theorem one_sub_ulp : 0 ≤ 1 - ulp ∧ 1 - ulp ≤ 1 := by unfold ulp; constructor <;> norm_num

theorem Near.exact {e : Rat} (h : 0 ≤ e) : Near 0 e e := ⟨h, by simp, by simp⟩

theorem Near.nonneg {q : Nat} {x e : Rat} (h : Near q x e) : 0 ≤ x :=
  le_trans (mul_nonneg h.1 (pow_nonneg one_sub_ulp.1 _)) h.2.1

theorem Near.mono {q q' : Nat} {x e : Rat} (h : Near q x e) (hq : q ≤ q') : Near q' x e := by
  refine ⟨h.1, le_trans ?_ h.2.1, le_trans h.2.2 ?_⟩
  · exact mul_le_mul_of_nonneg_left (pow_le_pow_of_le_one one_sub_ulp.1 one_sub_ulp.2 hq) h.1
  · exact mul_le_mul_of_nonneg_left (pow_le_pow_right₀ (by linarith [ulp_pos]) hq) h.1

theorem Near.add {q : Nat} {x e y f : Rat} (h : Near q x e) (k : Near q y f) : Near q (x + y) (e + f) :=
  ⟨add_nonneg h.1 k.1, by rw [add_mul]; exact add_le_add h.2.1 k.2.1,
    by rw [add_mul]; exact add_le_add h.2.2 k.2.2⟩

theorem Near.mul {p q : Nat} {x e y f : Rat} (h : Near p x e) (k : Near q y f) : Near (p + q) (x * y) (e * f) := by
  have hu : (0 : Rat) ≤ 1 + ulp := by linarith [ulp_pos]
  refine ⟨mul_nonneg h.1 k.1, ?_, ?_⟩
  · calc e * f * (1 - ulp) ^ (p + q) = (e * (1 - ulp) ^ p) * (f * (1 - ulp) ^ q) := by rw [pow_add]; ring
      _ ≤ x * y := mul_le_mul h.2.1 k.2.1 (mul_nonneg k.1 (pow_nonneg one_sub_ulp.1 _)) h.nonneg
  · calc x * y ≤ (e * (1 + ulp) ^ p) * (f * (1 + ulp) ^ q) :=
          mul_le_mul h.2.2 k.2.2 k.nonneg (mul_nonneg h.1 (pow_nonneg hu _))
      _ = e * f * (1 + ulp) ^ (p + q) := by rw [pow_add]; ring

theorem Near.rnd {rnd : Rat → Rat} (hr : Accurate rnd) {q : Nat} {x e : Rat} (h : Near q x e) :
    Near (q + 1) (rnd x) e := by
  refine ⟨h.1, ?_, ?_⟩
  · calc e * (1 - ulp) ^ (q + 1) = (e * (1 - ulp) ^ q) * (1 - ulp) := by rw [pow_succ]; ring
      _ ≤ x * (1 - ulp) := mul_le_mul_of_nonneg_right h.2.1 one_sub_ulp.1
      _ ≤ rnd x := hr.ge h.nonneg
  · calc rnd x ≤ x * (1 + ulp) := hr.le h.nonneg
      _ ≤ (e * (1 + ulp) ^ q) * (1 + ulp) := mul_le_mul_of_nonneg_right h.2.2 (by linarith [ulp_pos])
      _ = e * (1 + ulp) ^ (q + 1) := by rw [pow_succ]; ring

theorem Near.foldl {rnd : Rat → Rat} (hr : Accurate rnd) {q : Nat} : ∀ {xs es : List Rat},
    List.Forall₂ (Near q) xs es → ∀ {p : Nat} {s e : Rat}, q ≤ p → Near p s e →
    Near (p + xs.length) (xs.foldl (fun s x => rnd (s + x)) s) (e + es.sum)
  | _, _, .nil, p, s, e, _, h => by simpa using h
  | x :: xs, f :: es, .cons h0 h1, p, s, e, hp, h => by
    have := Near.foldl hr h1 (p := p + 1) (by omega) ((h.add (h0.mono hp)).rnd hr)
    simp only [List.foldl_cons, List.length_cons, List.sum_cons]
    rw [show p + (xs.length + 1) = p + 1 + xs.length by omega, ← add_assoc]
    exact this

/-- Bernoulli, for the roundings -/
theorem one_sub_pow (m : Nat) : 1 - (m : Rat) * ulp ≤ (1 - ulp) ^ m := by
  induction m with
  | zero => simp
  | succ m ih =>
    rw [pow_succ]
    have h1 := one_sub_ulp
    have h2 := ulp_pos
    calc 1 - ((m + 1 : Nat) : Rat) * ulp ≤ (1 - (m : Rat) * ulp) * (1 - ulp) := by
          push_cast
          have : 0 ≤ (m : Rat) * ulp * ulp := by positivity
          nlinarith
      _ ≤ (1 - ulp) ^ m * (1 - ulp) := mul_le_mul_of_nonneg_right ih h1.1

theorem one_add_pow (m : Nat) : (1 + ulp) ^ m * (1 - (m : Rat) * ulp) ≤ 1 := by
  have h2 := ulp_pos
  have hp : (0 : Rat) ≤ (1 + ulp) ^ m := pow_nonneg (by linarith) _
  calc (1 + ulp) ^ m * (1 - (m : Rat) * ulp) ≤ (1 + ulp) ^ m * (1 - ulp) ^ m :=
        mul_le_mul_of_nonneg_left (one_sub_pow m) hp
    _ = (1 - ulp * ulp) ^ m := by rw [← mul_pow]; congr 1; ring
    _ ≤ 1 := pow_le_one₀ (by unfold ulp; norm_num) (by nlinarith)

/-- Two numbers with a common denominator `D` that differ: so do their rounded versions, in the same
direction, if the larger one has a small enough numerator. -/
theorem Near.lt {m D X Y : Nat} {x y e f : Rat} (h : Near m x e) (k : Near m y f) (hD : 0 < D)
    (hX : (D : Rat) * e = X) (hY : (D : Rat) * f = Y) (hlt : X < Y) (hm : m * Y < 2 ^ 52) : x < y := by
  have hu := ulp_pos
  have hD' : (0 : Rat) < D := by exact_mod_cast hD
  have hY1 : 1 ≤ Y := by omega
  have hmY : (m : Rat) * Y < 2 ^ 52 := by exact_mod_cast hm
  have hm0 : (0 : Rat) ≤ m := by positivity
  have hY1' : (1 : Rat) ≤ Y := by exact_mod_cast hY1
  have hXY : (X : Rat) + 1 ≤ Y := by exact_mod_cast hlt
  have hX0 : (0 : Rat) ≤ X := by positivity
  have hmu : (m : Rat) * ulp * Y < 1 / 2 := by
    unfold ulp
    have : (m : Rat) * (1 / 2 ^ 53) * Y = (m * Y) / 2 ^ 53 := by ring
    rw [this, div_lt_iff₀ (by norm_num)]
    calc (m : Rat) * Y < 2 ^ 52 := hmY
      _ = 1 / 2 * 2 ^ 53 := by norm_num
  have hmu0 : 0 ≤ (m : Rat) * ulp := by positivity
  have hmu1 : (m : Rat) * ulp < 1 / 2 := by nlinarith
  have hpos : 0 < 1 - (m : Rat) * ulp := by linarith
  -- D x (1 - m u) ≤ X,  Y (1 - m u) ≤ D y
  have h1 : (D : Rat) * x * (1 - m * ulp) ≤ X := by
    calc (D : Rat) * x * (1 - m * ulp) ≤ D * (e * (1 + ulp) ^ m) * (1 - m * ulp) := by
          exact mul_le_mul_of_nonneg_right (mul_le_mul_of_nonneg_left h.2.2 hD'.le) hpos.le
      _ = X * ((1 + ulp) ^ m * (1 - m * ulp)) := by rw [← hX]; ring
      _ ≤ X * 1 := mul_le_mul_of_nonneg_left (one_add_pow m) hX0
      _ = X := mul_one _
  have h2 : (Y : Rat) * (1 - m * ulp) ≤ D * y := by
    calc (Y : Rat) * (1 - m * ulp) ≤ Y * (1 - ulp) ^ m :=
          mul_le_mul_of_nonneg_left (one_sub_pow m) (by linarith)
      _ = D * (f * (1 - ulp) ^ m) := by rw [← hY]; ring
      _ ≤ D * y := mul_le_mul_of_nonneg_left k.2.1 hD'.le
  have h3 : (X : Rat) < Y * (1 - m * ulp) * (1 - m * ulp) := by nlinarith
  have h4 : (D : Rat) * x * (1 - m * ulp) < D * y * (1 - m * ulp) :=
    lt_of_le_of_lt h1 (lt_of_lt_of_le h3 (mul_le_mul_of_nonneg_right h2 hpos.le))
  have h5 : (D : Rat) * x < D * y := lt_of_mul_lt_mul_right h4 hpos.le
  exact lt_of_mul_lt_mul_left h5 hD'.le

/-- a number that is at least 1 after rounding is at least 1, if its denominator is small enough -/
theorem Near.one {m D X : Nat} {x e : Rat} (h : Near m x e) (hD : 0 < D) (hX : (D : Rat) * e = X)
    (hm : m * D < 2 ^ 53) (hx : 1 ≤ x) : D ≤ X := by
  by_contra hlt
  push Not at hlt
  have hu := ulp_pos
  have hD' : (0 : Rat) < D := by exact_mod_cast hD
  have hmD : (m : Rat) * D < 2 ^ 53 := by exact_mod_cast hm
  have hmu : (m : Rat) * ulp * D < 1 := by
    unfold ulp
    have : (m : Rat) * (1 / 2 ^ 53) * D = (m * D) / 2 ^ 53 := by ring
    rw [this, div_lt_iff₀ (by norm_num)]
    linarith
  have hD1 : (1 : Rat) ≤ D := by exact_mod_cast hD
  have hmu0 : 0 ≤ (m : Rat) * ulp := by positivity
  have hmu1 : (m : Rat) * ulp < 1 := by nlinarith
  have hpos : 0 < 1 - (m : Rat) * ulp := by linarith
  have hXD : (X : Rat) + 1 ≤ D := by exact_mod_cast hlt
  have hX0 : (0 : Rat) ≤ X := by positivity
  have h1 : (D : Rat) * x * (1 - m * ulp) ≤ X := by
    calc (D : Rat) * x * (1 - m * ulp) ≤ D * (e * (1 + ulp) ^ m) * (1 - m * ulp) := by
          exact mul_le_mul_of_nonneg_right (mul_le_mul_of_nonneg_left h.2.2 hD'.le) hpos.le
      _ = X * ((1 + ulp) ^ m * (1 - m * ulp)) := by rw [← hX]; ring
      _ ≤ X * 1 := mul_le_mul_of_nonneg_left (one_add_pow m) hX0
      _ = X := mul_one _
  have h2 : (D : Rat) * (1 - m * ulp) ≤ D * x * (1 - m * ulp) :=
    mul_le_mul_of_nonneg_right (le_mul_of_one_le_right hD'.le hx) hpos.le
  nlinarith

end HP
