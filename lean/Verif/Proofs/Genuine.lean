import Verif.Proofs.HyperSearch
import Mathlib.Algebra.Order.Ring.Rat
import Mathlib.Tactic.NormNum
/-
Packings that come out of a `solve`, and what follows for them.
-/
namespace HP
open Spec

/-- `(sol, ov)` is what `solve` gives on the current items and containers, for some sequence of
known ids, strategy, rotation setting and (when strip packing) positive height -/
def Genuine (A : Arith) (i : Inst) (sol : Solution) (ov : ObjVals) : Prop :=
  ∃ (p : SolveIn) (seq : Option (List String)) (s : Solution),
    p.containers = i.containers ∧ p.items = i.items ∧ p.strip = i.strip ∧ ValidIn p ∧
    KnownSeq p seq ∧ solve A p seq = .ok (s, ov) ∧ SamePacking sol s

theorem FromStrategy.genuine {A : Arith} {i : Inst} (hv : i.Valid) {st : List PClass} {sol : Solution}
    {ov : ObjVals} (h : FromStrategy A i st sol ov) : Genuine A i sol ov := by
  obtain ⟨seq, H, s, h1, h2, h3, h4, h5⟩ := h
  exact ⟨{ i.solveIn with strategy := st, height := H }, some seq, s, rfl, rfl, rfl, ⟨hv.conts, hv.items, h2⟩, KnownSeq_perm h1, h4, h5⟩

theorem Genuine.facts {A : Arith} {i : Inst} {sol : Solution} {ov : ObjVals} (h : Genuine A i sol ov) :
    SolFacts i.containers i.items sol ov := by
  obtain ⟨p, seq, s, h1, h2, _, h4, h5, h6, h7⟩ := h
  have := h7.facts (solve_facts h4 h5 h6)
  rw [h1, h2] at this
  exact this

theorem Genuine.nodup {A : Arith} {i : Inst} {sol : Solution} {ov : ObjVals} (h : Genuine A i sol ov) :
    (placedIds sol).Nodup := by
  obtain ⟨p, seq, s, h1, h2, h3, h4, h5, h6, h7⟩ := h
  obtain ⟨_, _, hn, _⟩ := C04_once A _ h4 _ h5 _ _ h6
  have hkn : (PyDict.keys s).Nodup := by rw [(solve_facts h4 h5 h6).keysS]; exact h4.conts.1
  exact (h7.placedIds_perm hkn).nodup_iff.2 hn

/-- the placements of a genuine packing -/
theorem Genuine.placements {A : Arith} {i : Inst} {sol : Solution} {ov : ObjVals}
    (h : Genuine A i sol ov) :
    ∀ cid m, (cid, m) ∈ sol → ∃ c, (cid, c) ∈ i.containers ∧
      ∀ id r, (id, r) ∈ m → ∃ d, (id, d) ∈ i.items ∧ SizedAs true d r ∧
        r.x + r.w ≤ c.w ∧ (i.strip = false → r.y + r.l ≤ c.l) := by
  obtain ⟨p, seq, s, h1, h2, h3, h4, h5, h6, h7⟩ := h
  intro cid m hm
  obtain ⟨m', g1, g2⟩ := h7.2 cid m hm
  obtain ⟨c, hc, hin⟩ := C03_inside A _ h4 _ h5 _ _ h6 cid m' g1
  refine ⟨c, by rw [← h1]; exact hc, ?_⟩
  intro id r hr
  have hr' := g2.mem_iff.1 hr
  obtain ⟨d, hd, hsz⟩ := C05_sizes A _ h4 _ h5 _ _ h6 cid m' g1 id r hr'
  obtain ⟨a, b⟩ := hin _ hr'
  refine ⟨d, by rw [← h2]; exact hd, ?_, a, ?_⟩
  · rcases hsz with h | ⟨_, h⟩
    · exact Or.inl h
    · exact Or.inr ⟨rfl, h⟩
  · intro hs
    rw [← h3] at hs
    simpa [lenOf, hs] using b

/-- utilizations of a genuine bin packing -/
theorem Genuine.bin {i : Inst} {sol : Solution} {ov : ObjVals} (h : Genuine Arith.exact i sol ov)
    (hbin : i.strip = false) :
    ∀ cid m, (cid, m) ∈ sol → ∃ c v, (cid, c) ∈ i.containers ∧ (cid, v) ∈ ov ∧
      v = (totalArea (m.map (·.2)) : Rat) / ((c.w * c.l : Nat) : Rat) := by
  obtain ⟨p, seq, s, h1, h2, h3, h4, h5, h6, h7⟩ := h
  intro cid m hm
  obtain ⟨m', g1, g2⟩ := h7.2 cid m hm
  obtain ⟨c, v, a1, a2, a3, _⟩ := C07_utilization _ h4 (by rw [h3]; exact hbin) _ h5 _ _ h6 cid m' g1
  refine ⟨c, v, by rw [← h1]; exact a1, a2, ?_⟩
  rw [a3, totalArea_perm (g2.map _)]

/-- utilization of a genuine strip packing -/
theorem Genuine.stripVal {A : Arith} {i : Inst} {sol : Solution} {ov : ObjVals} (h : Genuine A i sol ov)
    (hst : i.strip = true) :
    ∀ cid m, (cid, m) ∈ sol → m ≠ [] → ∃ c v, (cid, c) ∈ i.containers ∧ (cid, v) ∈ ov ∧
      v = A.div (totalArea (m.map (·.2))) (c.w * max 1 (stackHeight (m.map (·.2)) - 1)) := by
  obtain ⟨p, seq, s, h1, h2, h3, h4, h5, h6, h7⟩ := h
  intro cid m hm hne
  obtain ⟨m', g1, g2⟩ := h7.2 cid m hm
  have hne' : m' ≠ [] := by rintro rfl; exact hne (List.perm_nil.1 g2)
  obtain ⟨c, v, a1, a2, a3⟩ := C08_partial _ _ h4 (by rw [h3]; exact hst) _ h5 _ _ h6 cid m' g1 hne'
  refine ⟨c, v, by rw [← h1]; exact a1, a2, ?_⟩
  rw [a3, totalArea_perm (g2.map _), stackHeight_perm (g2.map _)]

/-! ### Values are not negative -/

theorem Chain.nonneg {A : Arith} (hA : NonNeg A) {p : SolveIn} {cs items sol ov rem}
    (h : Chain A p cs items sol ov rem) : ∀ q ∈ ov, 0 ≤ q.2 := by
  induction h with
  | nil => simp
  | skip _ ih =>
    intro q hq
    rcases List.mem_cons.1 hq with rfl | hq
    · exact le_refl _
    · exact ih q hq
  | cons _ _ hf _ ih =>
    intro q hq
    rcases List.mem_cons.1 hq with rfl | hq
    · exact hf.nonneg hA
    · exact ih q hq

theorem Genuine.nonneg {A : Arith} (hA : NonNeg A) {i : Inst} {sol : Solution} {ov : ObjVals}
    (h : Genuine A i sol ov) : 0 ≤ overall A (ov.map (·.2)) := by
  obtain ⟨p, seq, s, _, _, _, h4, h5, h6, _⟩ := h
  obtain ⟨_, rem, hch⟩ := solve_ok h4 h5 h6
  have hn := hch.nonneg hA
  have hn' : ∀ x ∈ ov.map (·.2), 0 ≤ x := by
    intro x hx
    obtain ⟨q, hq, rfl⟩ := List.mem_map.1 hx
    exact hn q hq
  unfold overall
  split
  · exact hA.sum _ hn'
  · refine hA.add _ _ (hA.sum _ fun x hx => hn' x (List.dropLast_subset _ hx)) (hA.mul07 _ ?_)
    cases h : (ov.map (·.2)).getLast? with
    | none => exact le_refl _
    | some x => exact hn' x (List.mem_of_getLast? h)

/-- exact arithmetic keeps signs -/
theorem nonNeg_exact : NonNeg Arith.exact where
  div a b := div_nonneg (Rat.natCast_nonneg) (Rat.natCast_nonneg)
  add x y hx hy := add_nonneg hx hy
  sum xs h := by
    simp only [Arith.exact]
    induction xs with
    | nil => exact le_refl _
    | cons a l ih =>
      exact add_nonneg (h a (by simp)) (ih fun x hx => h x (by simp [hx]))
  mul07 x hx := mul_nonneg (by norm_num) hx

end HP
