import Verif.Props.Hill
import Verif.Props.Float
import Verif.Proofs.AbstractSearch
/-
How many packings a hill climbing search evaluates, against the progress it makes.
-/
namespace HP
open Spec

theorem length_neighbours {α : Type} (xs : List α) : (neighbours xs).length = xs.length * (xs.length - 1) / 2 := by
  rw [ALS.neighbours_eq, List.length_map]
  have := length_indexSwaps xs.length
  omega

theorem neighbours_perm {α : Type} {xs y : List α} (h : y ∈ neighbours xs) : y.Perm xs := by
  rw [ALS.neighbours_eq] at h
  obtain ⟨p, _, rfl⟩ := List.mem_map.1 h
  exact ALS.exchangeAt_perm _ _ _

/-- If `G` is a natural number that every move increases, the search evaluates at most `limit` packings for every unit
by which `G` has grown, and `limit` more. -/
theorem hill_effort {α R : Type} {K : HillRules α R} {P : HillNode α R → Prop} {G : HillNode α R → Nat} {len L : Nat}
    (hL : L = min K.limit (len * (len - 1) / 2))
    (hlen : ∀ a, P a → a.seq.length = len)
    (hmove : ∀ a y r, P a → y.Perm a.seq → K.pack a.height y r → K.better r a.result →
      P (a.moved K y r) ∧ G a + 1 ≤ G (a.moved K y r))
    {n m : Nat} {a z : HillNode α R} (h : Hill K n a m z) :
    P a → P z ∧ G a ≤ G z ∧ m + G a * L ≤ n + (G z + 1) * L := by
  have htake : ∀ a, P a → ((neighbours a.seq).take K.limit).length = L := by
    intro a ha
    rw [List.length_take, length_neighbours, hlen a ha, hL]
  have hsub : ∀ {a : HillNode α R} {pre post : List (List α)} {y : List α},
      (neighbours a.seq).take K.limit = pre ++ y :: post → y.Perm a.seq := by
    intro a pre post y e
    apply neighbours_perm
    have : y ∈ (neighbours a.seq).take K.limit := by rw [e]; simp
    exact List.mem_of_mem_take this
  induction h with
  | @rest n a pre post e _ _ _ =>
    intro ha
    have h1 := htake a ha
    rw [e, List.length_append] at h1
    refine ⟨ha, le_refl _, ?_⟩
    rw [Nat.add_mul, Nat.one_mul]
    omega
  | @last n a pre post y r e _ _ hp hb _ =>
    intro ha
    have h1 := htake a ha
    rw [e, List.length_append, List.length_cons] at h1
    obtain ⟨h2, h3⟩ := hmove a y r ha (hsub e) hp hb
    refine ⟨h2, by omega, ?_⟩
    have := Nat.mul_le_mul_right L h3
    rw [Nat.add_mul, Nat.one_mul] at this ⊢
    omega
  | @move n m a z pre post y r e _ _ hp hb _ _ ih =>
    intro ha
    have h1 := htake a ha
    rw [e, List.length_append, List.length_cons] at h1
    obtain ⟨h2, h3⟩ := hmove a y r ha (hsub e) hp hb
    obtain ⟨i1, i2, i3⟩ := ih h2
    refine ⟨i1, by omega, ?_⟩
    have := Nat.mul_le_mul_right L h3
    rw [Nat.add_mul, Nat.one_mul] at this i3 ⊢
    omega

theorem overall_whole {D : Nat} {es : List Rat} (hne : es ≠ []) (h : ∀ e ∈ es, ∃ X : Nat, (D : Rat) * e = X) :
    ∃ Y : Nat, ((10 * D : Nat) : Rat) * overall Arith.exact es = Y := by
  have hB : ∃ B : Nat, ∀ e ∈ es, ∃ X : Nat, (D : Rat) * e = X ∧ X ≤ B := by
    clear hne
    induction es with
    | nil => exact ⟨0, by simp⟩
    | cons e es ih =>
      obtain ⟨B, hB⟩ := ih (fun e he => h e (by simp [he]))
      obtain ⟨X, hX⟩ := h e (by simp)
      refine ⟨max B X, ?_⟩
      intro u hu
      rcases List.mem_cons.1 hu with rfl | hu
      · exact ⟨X, hX, by omega⟩
      · obtain ⟨X', h1, h2⟩ := hB u hu
        exact ⟨X', h1, by omega⟩
  obtain ⟨B, hB⟩ := hB
  obtain ⟨Y, h1, _⟩ := overall_nat hne hB
  exact ⟨Y, h1⟩

/-- the reported values are whole multiples of `1/D` -/
theorem vals_whole {p : SolveIn} (hv : ValidIn p) (hb : p.strip = false) {seq : Option (List String)}
    (hs : KnownSeq p seq) {sol : Solution} {ov : ObjVals} (h : solve Arith.exact p seq = .ok (sol, ov)) {D : Nat}
    (hD : ∀ c ∈ p.containers, c.2.w * c.2.l ∣ D) : ∀ e ∈ ov.map (·.2), ∃ X : Nat, (D : Rat) * e = X := by
  intro e he
  obtain ⟨q, hq, rfl⟩ := List.mem_map.1 he
  have hf := solve_facts hv hs h
  have hk : q.1 ∈ sol.map (·.1) := by
    have : q.1 ∈ ov.map (·.1) := List.mem_map.2 ⟨q, hq, rfl⟩
    rw [show ov.map (·.1) = p.containers.map (·.1) from hf.keysO] at this
    rw [show sol.map (·.1) = p.containers.map (·.1) from hf.keysS]; exact this
  obtain ⟨s, hs', hse⟩ := List.mem_map.1 hk
  obtain ⟨c, v, h1, h2, h3, _⟩ := C07_utilization p hv hb seq hs sol ov h s.1 s.2 hs'
  have hnd : (ov.map (·.1)).Nodup := by
    rw [show ov.map (·.1) = p.containers.map (·.1) from hf.keysO]; exact hv.conts.1
  have e1 : v = q.2 := by
    have a := PyDict.find?_of_mem hnd h2
    have b := PyDict.find?_of_mem hnd (show (q.1, q.2) ∈ ov from hq)
    rw [hse, b] at a; injection a with a; exact a.symm
  obtain ⟨F, hF⟩ := hD _ h1
  have hpos : 0 < c.w * c.l := Nat.mul_pos (hv.conts.2 _ h1).1 (hv.conts.2 _ h1).2
  have hne : ((c.w * c.l : Nat) : Rat) ≠ 0 := by exact_mod_cast hpos.ne'
  refine ⟨totalArea (s.2.map (·.2)) * F, ?_⟩
  rw [← e1, h3, hF]
  rw [Nat.cast_mul (c.w * c.l) F, mul_right_comm, mul_div_cancel₀ _ hne, Nat.cast_mul (totalArea _)]

end HP
