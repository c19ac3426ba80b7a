import Verif.Proofs.Edges
import Verif.Proofs.Solve
import Mathlib.Data.List.ProdSigma
import Mathlib.Data.List.Nodup
import Mathlib.Data.List.Lemmas
import Mathlib.Algebra.Order.Field.Basic
import Mathlib.Algebra.Field.Rat
import Mathlib.Algebra.Order.Ring.Rat
/-
Items of one size: the construction fills the lattice of multiples of that size.
-/
namespace HP
open Spec

/-- the lattice cells of a `W × L` container for items of size `w × l` -/
def lattice (W L w l : Nat) : List (Nat × Nat) := (List.range (W / w)) ×ˢ (List.range (L / l))

theorem lattice_length (W L w l : Nat) : (lattice W L w l).length = (W / w) * (L / l) := by
  unfold lattice; simp [List.length_product]

theorem lattice_nodup (W L w l : Nat) : (lattice W L w l).Nodup :=
  List.Nodup.product List.nodup_range List.nodup_range

theorem mem_lattice {W L w l i j : Nat} : (i, j) ∈ lattice W L w l ↔ i < W / w ∧ j < L / l := by
  unfold lattice; simp [List.mem_product]

/-- at most `(W / w) * (L / l)` rectangles of size `w × l` fit a `W × L` container -/
theorem equal_cap {W L w l : Nat} (hw : 0 < w) (hl : 0 < l) {rs : List Rect}
    (hsz : ∀ r ∈ rs, r.w = w ∧ r.l = l) (hin : ∀ r ∈ rs, Inside W L r) (hd : rs.Pairwise Spec.Disjoint) :
    rs.length ≤ (W / w) * (L / l) := by
  have hnd : (rs.map (fun r => (r.x / w, r.y / l))).Nodup := by
    unfold List.Nodup
    rw [List.pairwise_map]
    refine List.Pairwise.imp_of_mem (R := Spec.Disjoint) ?_ hd
    intro a b ha hb hab he
    obtain ⟨ea, fa⟩ := hsz a ha
    obtain ⟨eb, fb⟩ := hsz b hb
    injection he with h1 h2
    have a1 := Nat.div_add_mod a.x w
    have b1 := Nat.div_add_mod b.x w
    have a2 := Nat.div_add_mod a.y l
    have b2 := Nat.div_add_mod b.y l
    have a3 := Nat.mod_lt a.x hw
    have b3 := Nat.mod_lt b.x hw
    have a4 := Nat.mod_lt a.y hl
    have b4 := Nat.mod_lt b.y hl
    rw [h1] at a1
    rw [h2] at a2
    refine hab (w * (b.x / w) + w - 1) (l * (b.y / l) + l - 1) ⟨?_, ?_⟩
    · unfold Covers; omega
    · unfold Covers; omega
  have hsub : ∀ q ∈ rs.map (fun r => (r.x / w, r.y / l)), q ∈ lattice W L w l := by
    intro q hq
    obtain ⟨r, hr, rfl⟩ := List.mem_map.1 hq
    obtain ⟨e, f⟩ := hsz r hr
    obtain ⟨h1, h2⟩ := hin r hr
    rw [e] at h1; rw [f] at h2
    rw [mem_lattice]
    have h3 := Nat.div_le_div_right (c := w) h1
    have h4 := Nat.div_le_div_right (c := l) h2
    rw [Nat.add_div_right _ hw] at h3
    rw [Nat.add_div_right _ hl] at h4
    omega
  have := (hnd.subperm hsub).length_le
  rw [lattice_length, List.length_map] at this
  exact this

/-- lattice points that share a cell are equal -/
theorem lattice_same {w l : Nat} {a b : Rect} (ha : a.w = w ∧ a.l = l)
    (hb : b.w = w ∧ b.l = l) (hax : w ∣ a.x) (hay : l ∣ a.y) (hbx : w ∣ b.x) (hby : l ∣ b.y) {x y : Nat}
    (h1 : Covers a x y) (h2 : Covers b x y) : a.x = b.x ∧ a.y = b.y := by
  unfold Covers at h1 h2
  obtain ⟨i, hi⟩ := hax
  obtain ⟨j, hj⟩ := hbx
  obtain ⟨k, hk⟩ := hay
  obtain ⟨n, hn⟩ := hby
  have key : ∀ {z s t u : Nat}, z * s ≤ u → u < z * s + z → z * t ≤ u → u < z * t + z → s = t := by
    intro z s t u h1 h2 h3 h4
    have e1 : z * s < z * (t + 1) := by rw [Nat.mul_add]; omega
    have e2 : z * t < z * (s + 1) := by rw [Nat.mul_add]; omega
    have f1 := Nat.lt_of_mul_lt_mul_left e1
    have f2 := Nat.lt_of_mul_lt_mul_left e2
    omega
  have e1 : i = j := key (z := w) (u := x) (by omega) (by omega) (by omega) (by omega)
  have e2 : k = n := key (z := l) (u := y) (by omega) (by omega) (by omega) (by omega)
  rw [hi, hj, hk, hn, e1, e2]; exact ⟨rfl, rfl⟩

/-- one container, items of one size -/
theorem construct_equal {P : CParams} {items : PyDict String Dim} (hg : GoodItems items) (hW : 0 < P.W)
    (hL : 0 < P.L) {w l : Nat} (hw : 0 < w) (hl : 0 < l) (hsz : ∀ q ∈ items, q.2 = ⟨w, l⟩)
    (hrot : P.rot = false ∨ w = l) (har : P.strip = true ∨ P.ar = Arith.exact)
    (hst : .A ∈ P.strategy ∧ .A__ ∈ P.strategy ∧ .B ∈ P.strategy ∧ .B__ ∈ P.strategy)
    {r : CResult} (h : construct P items = .ok r) (hf : CFacts P items r) :
    r.solution.length = min items.length ((P.W / w) * (P.L / l)) ∧
    r.items.length = items.length - (P.W / w) * (P.L / l) ∧
    (∀ q ∈ r.solution, q.2.w = w ∧ q.2.l = l ∧ w ∣ q.2.x ∧ l ∣ q.2.y) ∧
    (rectsOf r.solution).Pairwise Spec.Disjoint := by
  have hsize : ∀ q ∈ r.solution, q.2.w = w ∧ q.2.l = l := by
    intro q hq
    obtain ⟨d, hd, hs⟩ := hf.sized q hq
    have := hsz _ hd
    simp only at this
    subst this
    rcases hs with ⟨e1, e2⟩ | ⟨e0, e1, e2⟩
    · exact ⟨e1, e2⟩
    · rcases hrot with hr | hr
      · rw [hr] at e0; cases e0
      · simp only at e1 e2; exact ⟨by omega, by omega⟩
  have hedge := construct_edges hg hW hL h
  have hmul : ∀ pre q post, r.solution = pre ++ q :: post → w ∣ q.2.x ∧ l ∣ q.2.y := by
    intro pre
    induction hn : pre.length using Nat.strong_induction_on generalizing pre with
    | _ n ih =>
      subst hn
      intro q post he
      have hin : ∀ z ∈ pre, (z.2.w = w ∧ z.2.l = l) ∧ w ∣ z.2.x ∧ l ∣ z.2.y := by
        intro z hz
        obtain ⟨l1, l2, e⟩ := List.append_of_mem hz
        refine ⟨hsize z (by rw [he]; simp [hz]), ?_⟩
        exact ih l1.length (by rw [e]; simp) l1 rfl z (l2 ++ q :: post) (by rw [he, e]; simp)
      obtain ⟨h1, h2⟩ := hedge pre q post he
      constructor
      · rcases h1 with h1 | ⟨z, hz, h1⟩
        · rw [h1]; exact Nat.dvd_zero _
        · obtain ⟨⟨a, b⟩, c, d⟩ := hin z hz
          rw [h1, a]; exact Nat.dvd_add c (Nat.dvd_refl _)
      · rcases h2 with h1 | ⟨z, hz, h1⟩
        · rw [h1]; exact Nat.dvd_zero _
        · obtain ⟨⟨a, b⟩, c, d⟩ := hin z hz
          rw [h1, b]; exact Nat.dvd_add d (Nat.dvd_refl _)
  have hall : ∀ q ∈ r.solution, (q.2.w = w ∧ q.2.l = l) ∧ w ∣ q.2.x ∧ l ∣ q.2.y := by
    intro q hq
    obtain ⟨l1, l2, e⟩ := List.append_of_mem hq
    exact ⟨hsize q hq, hmul l1 q l2 e⟩
  have hdis : (rectsOf r.solution).Pairwise Spec.Disjoint := by
    refine List.Pairwise.imp_of_mem (R := SharesOnlyMiddle) ?_ hf.over
    intro a b ha hb hab x y ⟨h1, h2⟩
    obtain ⟨qa, hqa, rfl⟩ := List.mem_map.1 ha
    obtain ⟨qb, hqb, rfl⟩ := List.mem_map.1 hb
    obtain ⟨sa, xa, ya⟩ := hall qa hqa
    obtain ⟨sb, xb, yb⟩ := hall qb hqb
    obtain ⟨e1, e2⟩ := lattice_same sa sb xa ya xb yb h1 h2
    have := (hab qb.2.x qb.2.y (by unfold Covers; omega) (by unfold Covers; omega)).2.1
    omega
  have hin : ∀ q ∈ rectsOf r.solution, Inside P.W P.L q := by
    intro q hq
    obtain ⟨z, hz, rfl⟩ := List.mem_map.1 hq
    exact hf.inside z hz
  have hsr : ∀ q ∈ rectsOf r.solution, q.w = w ∧ q.l = l := by
    intro q hq
    obtain ⟨z, hz, rfl⟩ := List.mem_map.1 hq
    exact hsize z hz
  have hcap := equal_cap hw hl hsr hin hdis
  have hlen : (rectsOf r.solution).length = r.solution.length := by simp [rectsOf]
  rw [hlen] at hcap
  have hcount : r.solution.length + r.items.length = items.length := by
    have := hf.perm.length_eq
    simpa [PyDict.keys] using this
  have hfull : r.items = [] ∨ (P.W / w) * (P.L / l) ≤ r.solution.length := by
    by_cases hr : r.items = []
    · exact Or.inl hr
    · right
      obtain ⟨it, hit⟩ := List.exists_mem_of_ne_nil _ hr
      have hitd : it.2 = ⟨w, l⟩ := hsz _ (hf.sub.subset hit)
      by_cases hob : P.strip = true ∨ ¬ r.obj ≥ 1
      · obtain ⟨g0, gA, gB⟩ := hf.greedy hob it hit
        have gA := gA hst.1 hst.2.1
        have gB := gB hst.2.2.1 hst.2.2.2
        rw [hitd] at g0 gA gB
        -- a lattice place at which nothing can be added is taken
        have taken : ∀ i j, i < P.W / w → j < P.L / l →
            ¬ CanAdd P.W P.L P.rot (rectsOf r.solution) ⟨w, l⟩ (w * i) (l * j) →
            ∃ q ∈ rectsOf r.solution, q.x = w * i ∧ q.y = l * j := by
          intro i j hi hj hno
          by_contra hex
          apply hno
          refine Or.inl ⟨⟨?_, ?_⟩, ?_⟩
          · have h1 : w * (i + 1) ≤ w * (P.W / w) := Nat.mul_le_mul_left _ (by omega)
            have h2 := Nat.mul_div_le P.W w
            simp only
            rw [Nat.mul_add] at h1
            omega
          · have h1 : l * (j + 1) ≤ l * (P.L / l) := Nat.mul_le_mul_left _ (by omega)
            have h2 := Nat.mul_div_le P.L l
            simp only
            rw [Nat.mul_add] at h1
            omega
          · intro q hq x y ⟨h1, h2⟩
            apply hex
            obtain ⟨z, hz, rfl⟩ := List.mem_map.1 hq
            obtain ⟨sz, xz, yz⟩ := hall z hz
            obtain ⟨e1, e2⟩ := lattice_same (a := ⟨w * i, l * j, w, l⟩) ⟨rfl, rfl⟩ sz
              (Nat.dvd_mul_right _ _) (Nat.dvd_mul_right _ _) xz yz h1 h2
            exact ⟨z.2, hq, e1.symm, e2.symm⟩
        have col : ∀ j, 0 < P.W / w → j < P.L / l →
            ∃ q ∈ rectsOf r.solution, q.x = w * 0 ∧ q.y = l * j := by
          intro j h0
          induction j with
          | zero => intro hj; exact taken 0 0 h0 hj (by simpa using g0)
          | succ j ih =>
            intro hj
            obtain ⟨q, hq, e1, e2⟩ := ih (by omega)
            have := gA q hq
            rw [e1, e2, (hsr q hq).2] at this
            exact taken 0 (j + 1) h0 hj (by rw [Nat.mul_add, Nat.mul_one]; exact this)
        have full : ∀ i j, i < P.W / w → j < P.L / l →
            ∃ q ∈ rectsOf r.solution, q.x = w * i ∧ q.y = l * j := by
          intro i j
          induction i with
          | zero => intro hi hj; exact col j hi hj
          | succ i ih =>
            intro hi hj
            obtain ⟨q, hq, e1, e2⟩ := ih (by omega) hj
            have := gB q hq
            rw [e1, e2, (hsr q hq).1] at this
            exact taken (i + 1) j hi hj (by rw [Nat.mul_add, Nat.mul_one]; exact this)
        have hsub : ∀ q ∈ lattice P.W P.L w l, q ∈ (rectsOf r.solution).map (fun r => (r.x / w, r.y / l)) := by
          rintro ⟨i, j⟩ hq
          rw [mem_lattice] at hq
          obtain ⟨z, hz, e1, e2⟩ := full i j hq.1 hq.2
          refine List.mem_map.2 ⟨z, hz, ?_⟩
          rw [e1, e2, Nat.mul_div_cancel_left _ hw, Nat.mul_div_cancel_left _ hl]
        have := ((lattice_nodup P.W P.L w l).subperm hsub).length_le
        rw [lattice_length, List.length_map, hlen] at this
        exact this
      · -- reported as full: the area of the items is the area of the container
        have hb : P.strip = false := by
          cases hs : P.strip with
          | false => rfl
          | true => exact absurd (Or.inl hs) hob
        have hge : r.obj ≥ 1 := Decidable.byContradiction fun hn => hob (Or.inr hn)
        have hex : P.ar = Arith.exact := har.resolve_left (by rw [hb]; decide)
        rw [hf.objBin hb hex] at hge
        have hpos : (0 : Rat) < ((P.W * P.L : Nat) : Rat) := by
          exact_mod_cast Nat.mul_pos hW hL
        rw [ge_iff_le, le_div_iff₀ hpos, one_mul] at hge
        have harea : P.W * P.L ≤ totalArea (rectsOf r.solution) := by exact_mod_cast hge
        have htot : totalArea (rectsOf r.solution) = r.solution.length * (w * l) := by
          rw [← hlen]
          have : ∀ rs : List Rect, (∀ q ∈ rs, q.w = w ∧ q.l = l) → totalArea rs = rs.length * (w * l) := by
            intro rs
            induction rs with
            | nil => intro _; simp [totalArea]
            | cons a rs ih =>
              intro ha
              have h1 := ih (fun q hq => ha q (by simp [hq]))
              have h2 := ha a (by simp)
              unfold totalArea at h1 ⊢
              rw [List.map_cons, List.sum_cons, h1, List.length_cons, Nat.add_mul, area, h2.1, h2.2]
              omega
          exact this _ hsr
        rw [htot] at harea
        have h1 := Nat.mul_div_le P.W w
        have h2 := Nat.mul_div_le P.L l
        have h3 : (P.W / w) * (P.L / l) * (w * l) ≤ P.W * P.L := by
          calc (P.W / w) * (P.L / l) * (w * l) = (w * (P.W / w)) * (l * (P.L / l)) := by
                simp [Nat.mul_comm, Nat.mul_left_comm]
            _ ≤ P.W * P.L := Nat.mul_le_mul h1 h2
        exact Nat.le_of_mul_le_mul_right (Nat.le_trans h3 harea) (Nat.mul_pos hw hl)
  refine ⟨?_, ?_, fun q hq => ⟨(hall q hq).1.1, (hall q hq).1.2, (hall q hq).2.1, (hall q hq).2.2⟩, hdis⟩
  · rcases hfull with hr | hr
    · rw [hr, List.length_nil] at hcount; omega
    · omega
  · rcases hfull with hr | hr
    · rw [hr, List.length_nil] at hcount ⊢; omega
    · omega

end HP
