import Verif.Props.Constructor
import Verif.Proofs.Names
import Verif.SpecReport
/-
Property C55: `generate_problem_data`.
-/
namespace HP
open Spec

/-- the calls of `randint(a, b)` return numbers from `a` to `b` -/
def InRange (randint : Nat → Int → Int → Int) : Prop := ∀ k a b, a ≤ b → a ≤ randint k a b ∧ randint k a b ≤ b

/-- a value of `v` plus or minus `dev` -/
def Within (v dev n : Nat) : Prop := v ≤ n + dev ∧ n ≤ v + dev

theorem genEntries_length (G : GenEnv) (pre wKey lKey : String) (b : (Int × Int) × (Int × Int)) :
    ∀ m n k, (genEntries G pre wKey lKey b m n k).length = m
  | 0, _, _ => rfl
  | m + 1, n, k => by simp [genEntries, genEntries_length G pre wKey lKey b m]

/-- the entries are sizes if the lower bounds are positive -/
theorem genEntries_sizes {G : GenEnv} (hr : InRange G.randint) (pre wKey lKey : String) {vw dw vl dl : Nat}
    (hw : dw < vw) (hl : dl < vl) : ∀ m n k, ∃ ss : List (String × Dim),
      List.Forall₂ (fun e s => e.1 = .str s.1 ∧ IsSize wKey lKey e.2 s.2)
        (genEntries G pre wKey lKey (genBounds vw dw, genBounds vl dl) m n k) ss ∧
      ss.map (·.1) = (List.range' n m).map (fun k => pre ++ toString k) ∧
      ∀ s ∈ ss, Within vw dw s.2.w ∧ Within vl dl s.2.l
  | 0, _, _ => ⟨[], .nil, rfl, by simp⟩
  | m + 1, n, k => by
    obtain ⟨ss, h1, h2, h3⟩ := genEntries_sizes hr pre wKey lKey hw hl m (n + 1) (k + 2)
    have a := hr k ((vw : Int) - dw) ((vw : Int) + dw) (by omega)
    have b := hr (k + 1) ((vl : Int) - dl) ((vl : Int) + dl) (by omega)
    obtain ⟨x, hx⟩ : ∃ x : Nat, G.randint k ((vw : Int) - dw) ((vw : Int) + dw) = x := ⟨_, (Int.toNat_of_nonneg (by omega)).symm⟩
    obtain ⟨y, hy⟩ : ∃ y : Nat, G.randint (k + 1) ((vl : Int) - dl) ((vl : Int) + dl) = y := ⟨_, (Int.toNat_of_nonneg (by omega)).symm⟩
    rw [hx] at a; rw [hy] at b
    refine ⟨(pre ++ toString n, ⟨x, y⟩) :: ss, .cons ⟨rfl, _, _, Or.inl rfl, ⟨by show 0 < x; omega, Or.inl ?_⟩, ⟨by show 0 < y; omega, Or.inl ?_⟩⟩ h1, ?_, ?_⟩
    · show PyVal.int _ = _
      simp only [genBounds]; rw [hx]
    · show PyVal.int _ = _
      simp only [genBounds]; rw [hy]
    · rw [List.map_cons, h2, List.range'_succ, List.map_cons]
    · intro s hs
      rcases List.mem_cons.1 hs with rfl | hs
      · unfold Within; simp only; omega
      · exact h3 s hs

/-- if the draws are the lower bounds, the entries are sizes only if the bounds are positive -/
theorem genEntries_lower {G : GenEnv} (hr : ∀ k a b, G.randint k a b = a) {pre wKey lKey : String} (hk : wKey ≠ lKey)
    {vw dw vl dl : Nat} {m n k : Nat} (hm : 0 < m) {ss : List (String × Dim)}
    (h : List.Forall₂ (fun e s => e.1 = .str s.1 ∧ IsSize wKey lKey e.2 s.2)
        (genEntries G pre wKey lKey (genBounds vw dw, genBounds vl dl) m n k) ss) : dw < vw ∧ dl < vl := by
  obtain ⟨m, rfl⟩ : ∃ j, m = j + 1 := ⟨m - 1, by omega⟩
  unfold genEntries at h
  cases h with
  | cons h _ =>
    obtain ⟨_, a, b, he, ha, hb⟩ := h
    simp only [hr, genBounds, PyVal.dict.injEq, List.cons.injEq, Prod.mk.injEq, PyVal.str.injEq, and_true] at he
    have he' : PyVal.int ((vw : Int) - dw) = a ∧ PyVal.int ((vl : Int) - dl) = b := by
      rcases he with he | he
      · exact ⟨he.1.2, he.2.2⟩
      · exact absurd he.1.1 hk
    obtain ⟨rfl, rfl⟩ := he'
    have e1 : ∃ n : Nat, 0 < n ∧ (vw : Int) - dw = n := by
      obtain ⟨h0, h1 | h1⟩ := ha
      · exact ⟨_, h0, by simpa using h1⟩
      · exact absurd h1.1 (by simp)
    have e2 : ∃ n : Nat, 0 < n ∧ (vl : Int) - dl = n := by
      obtain ⟨h0, h1 | h1⟩ := hb
      · exact ⟨_, h0, by simpa using h1⟩
      · exact absurd h1.1 (by simp)
    obtain ⟨p, hp, e1⟩ := e1
    obtain ⟨q, hq, e2⟩ := e2
    omega

/-- the sizes of the items are around the items' width, with the deviations -/
structure GenOk (G : GenEnv) (P : GenParams) : Prop where
  conts : 0 < P.containersNum
  items : 0 < P.itemsNum
  W : G.round01 P.containersWidth < P.containersWidth
  L : G.round01 P.containersLength < P.containersLength
  w : max (G.round06 P.itemsLength) 1 < P.itemsWidth
  l : max (G.round06 P.itemsWidth) 1 < P.itemsWidth

/-- C55, with the exact condition (see C55_partial for the condition on the parameters) -/
theorem generated_accepted (E : Env) (round01 round06 : Nat → Nat) (P : GenParams) :
    (∀ randint, InRange randint →
      ∃ i, mkInst E (generateProblem ⟨round01, round06, randint⟩ P).1
        (generateProblem ⟨round01, round06, randint⟩ P).2 .none .none = .ok i) ↔
      GenOk ⟨round01, round06, fun _ a _ => a⟩ P := by
  constructor
  · intro h
    have hlow : InRange (fun _ a _ => a) := fun _ a b hab => ⟨le_refl _, hab⟩
    have hacc := (C60_accepts _ _ _ _ _).1 (h _ hlow)
    obtain ⟨⟨strip, cs, height, hc⟩, ⟨its, hi⟩, _⟩ := hacc
    rcases hc with ⟨_, ⟨es, he, hne, hall⟩, _⟩ | ⟨hc, _⟩
    · obtain ⟨es', he', hne', hall'⟩ := hi
      unfold generateProblem at he he'
      simp only [PyVal.dict.injEq] at he he'
      subst he he'
      have hcn : 0 < P.containersNum := by
        rcases Nat.eq_zero_or_pos P.containersNum with h0 | h0
        · exfalso; apply hne; rw [h0]; rfl
        · exact h0
      have hin : 0 < P.itemsNum * P.containersNum := by
        rcases Nat.eq_zero_or_pos (P.itemsNum * P.containersNum) with h0 | h0
        · exfalso; apply hne'; rw [h0]; rfl
        · exact h0
      have a := genEntries_lower (fun _ _ _ => rfl) (by decide) hcn hall
      have b := genEntries_lower (fun _ _ _ => rfl) (by decide) hin hall'
      exact ⟨hcn, Nat.pos_of_mul_pos_right hin, a.1, a.2, b.1, b.2⟩
    · unfold generateProblem at hc; cases hc
  · rintro ⟨h1, h2, h3, h4, h5, h6⟩ randint hr
    obtain ⟨cs, a1, _, _⟩ := genEntries_sizes (G := ⟨round01, round06, randint⟩) hr "container-" "W" "L" h3 h4 P.containersNum 0 0
    obtain ⟨its, b1, _, _⟩ := genEntries_sizes (G := ⟨round01, round06, randint⟩) hr "item-" "w" "l" h5 h6
      (P.itemsNum * P.containersNum) 0 (2 * P.containersNum)
    refine (C60_accepts _ _ _ _ _).2 ⟨⟨false, cs, none, Or.inl ⟨rfl, ⟨_, rfl, ?_, a1⟩, rfl, rfl⟩⟩, ⟨its, _, rfl, ?_, b1⟩, ⟨[], Or.inl ⟨Or.inl rfl, rfl⟩⟩⟩
    · intro h
      have := genEntries_length ⟨round01, round06, randint⟩ "container-" "W" "L" (P.contBounds ⟨round01, round06, randint⟩) P.containersNum 0 0
      rw [h] at this; simp at this; omega
    · intro h
      have := genEntries_length ⟨round01, round06, randint⟩ "item-" "w" "l" (P.itemBounds ⟨round01, round06, randint⟩) (P.itemsNum * P.containersNum) 0 (2 * P.containersNum)
      rw [h] at this; simp at this; omega

/-- C55, with the exact condition.  Whatever the random draws, `HyperPack` accepts the generated data,
if and only if all numbers are positive, the items' width is at least 2, and 6 times the items'
length plus 5 is below 10 times the items' width.  `round(x * 0.1)` and `round(x * 0.6)` are any
nearest integers. Missing: the other positive parameters (C55_refuted). -/
theorem C55_partial (E : Env) (round01 round06 : Nat → Nat) (h01 : ∀ x, RoundsTo 1 10 x (round01 x))
    (h06 : ∀ x, RoundsTo 6 10 x (round06 x)) (P : GenParams) :
    (∀ randint, InRange randint →
      ∃ i, mkInst E (generateProblem ⟨round01, round06, randint⟩ P).1
        (generateProblem ⟨round01, round06, randint⟩ P).2 .none .none = .ok i) ↔
      0 < P.containersNum ∧ 0 < P.containersWidth ∧ 0 < P.containersLength ∧ 0 < P.itemsNum ∧
      2 ≤ P.itemsWidth ∧ 6 * P.itemsLength + 5 < 10 * P.itemsWidth := by
  rw [generated_accepted]
  have a1 := h01 P.containersWidth
  have a2 := h01 P.containersLength
  have b1 := h06 P.itemsLength
  have b2 := h06 P.itemsWidth
  unfold RoundsTo at a1 a2 b1 b2
  constructor
  · rintro ⟨h1, h2, h3, h4, h5, h6⟩
    simp only at h3 h4 h5 h6
    omega
  · rintro ⟨h1, h3, h4, h2, h5, h6⟩
    refine ⟨h1, h2, ?_, ?_, ?_, ?_⟩ <;> simp only <;> omega

/-- C55: the new object has as many containers and items as asked for (the number of items is per
container), with ids numbered from 0, and sizes that deviate from the given ones at most as described. -/
theorem C55_contents (E : Env) (G : GenEnv) (hr : InRange G.randint) (P : GenParams) (hok : GenOk G P) (i : Inst)
    (h : mkInst E (generateProblem G P).1 (generateProblem G P).2 .none .none = .ok i) :
    i.containers.map (·.1) = (List.range P.containersNum).map (fun k => "container-" ++ toString k) ∧
    i.items.map (·.1) = (List.range (P.itemsNum * P.containersNum)).map (fun k => "item-" ++ toString k) ∧
    (∀ c ∈ i.containers, Within P.containersWidth (G.round01 P.containersWidth) c.2.w ∧
      Within P.containersLength (G.round01 P.containersLength) c.2.l) ∧
    (∀ c ∈ i.items, Within P.itemsWidth (max (G.round06 P.itemsLength) 1) c.2.w ∧
      Within P.itemsWidth (max (G.round06 P.itemsWidth) 1) c.2.l) := by
  obtain ⟨h1, h2, h3, h4, h5, h6⟩ := hok
  obtain ⟨cs, a1, a2, a3⟩ := genEntries_sizes hr "container-" "W" "L" h3 h4 P.containersNum 0 0
  obtain ⟨its, b1, b2, b3⟩ := genEntries_sizes hr "item-" "w" "l" h5 h6 (P.itemsNum * P.containersNum) 0 (2 * P.containersNum)
  have nd : ∀ pre n, ((List.range n).map (fun k => pre ++ toString k)).Nodup :=
    fun pre n => List.Nodup.map_on (fun a _ b _ h => numbered_inj h) List.nodup_range
  rw [← List.range_eq_range'] at a2 b2
  have hne : ∀ {pre wk lk b m n k}, 0 < m → genEntries G pre wk lk b m n k ≠ [] := by
    intro pre wk lk b m n k hm h
    have := genEntries_length G pre wk lk b m n k
    rw [h] at this; simp at this; omega
  have hp : PlainSettings [] true 60 (.int 1) := by
    refine ⟨?_, ?_, ?_⟩
    · exact Or.inl ⟨Or.inl rfl, rfl⟩
    · exact Or.inl ⟨rfl, rfl⟩
    · exact Or.inl ⟨Or.inl rfl, rfl⟩
  obtain ⟨_, e1, e2, _⟩ := C60_state E _ _ _ _ i h false cs its none (Or.inl ⟨rfl, ⟨_, rfl, hne h1, a1⟩, rfl, rfl⟩)
    ⟨_, rfl, hne (Nat.mul_pos h2 h1), b1⟩ (by rw [a2]; exact nd _ _) (by rw [b2]; exact nd _ _) []
    (Or.inl ⟨Or.inl rfl, rfl⟩) _ _ _ hp
  rw [e1, e2]
  exact ⟨a2, b2, a3, b3⟩

/-- C55 is false of the code: with the items' width 1 (and any positive values of the others) there
are random draws for which the generated data are rejected. -/
theorem C55_refuted (E : Env) (round01 round06 : Nat → Nat) (P : GenParams) (hw : P.itemsWidth = 1) :
    ∃ randint, InRange randint ∧ ¬ ∃ i, mkInst E (generateProblem ⟨round01, round06, randint⟩ P).1
        (generateProblem ⟨round01, round06, randint⟩ P).2 .none .none = .ok i := by
  by_contra hcon
  have : ∀ randint, InRange randint → ∃ i, mkInst E (generateProblem ⟨round01, round06, randint⟩ P).1
        (generateProblem ⟨round01, round06, randint⟩ P).2 .none .none = .ok i := by
    intro r hr
    by_contra hn
    exact hcon ⟨r, hr, hn⟩
  have := ((generated_accepted E round01 round06 P).1 this).l
  rw [hw] at this
  omega

/-- the default parameters satisfy the condition -/
example (E : Env) : ∃ (r1 r6 : Nat → Nat), (∀ x, RoundsTo 1 10 x (r1 x)) ∧ (∀ x, RoundsTo 6 10 x (r6 x)) ∧
    GenOk ⟨r1, r6, fun _ a _ => a⟩ {} ∧ InRange (fun _ a _ => a) ∧
    ∀ randint, InRange randint → ∃ i, mkInst E (generateProblem ⟨r1, r6, randint⟩ {}).1
        (generateProblem ⟨r1, r6, randint⟩ {}).2 .none .none = .ok i := by
  have h1 : ∀ x, RoundsTo 1 10 x ((2 * x + 10) / 20) := by intro x; unfold RoundsTo; omega
  have h6 : ∀ x, RoundsTo 6 10 x ((12 * x + 10) / 20) := by intro x; unfold RoundsTo; omega
  exact ⟨fun x => (2 * x + 10) / 20, fun x => (12 * x + 10) / 20, h1, h6,
    ⟨by decide, by decide, by decide, by decide, by decide, by decide⟩, fun _ a b hab => ⟨le_refl _, hab⟩,
    (C55_partial E _ _ h1 h6 {}).2 (by decide)⟩

end HP
