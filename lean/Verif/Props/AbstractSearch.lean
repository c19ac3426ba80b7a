import Verif.Proofs.AbstractSearch
/-
C91: the local search of `AbstractLocalSearch`, for every subclass.
-/
namespace HP.ALS
open Spec

variable {σ ρ α : Type}

/-! ### the claims -/

/-- a subclass that does not override `compare_node` and raises nothing meets the conditions of `Behaves` -/
theorem behaves_default {C : Cls σ ρ α} {ok : σ → Prop} {seq : List α} {s0 : σ} {f : List α → Num} {g : List α → ρ}
    {v0 : Num} {r0 : ρ} {opt : Num} (hc : C.compare = none)
    (hi : ∃ s1 s2, C.init s0 = .ok (s1, r0) ∧ C.objVal s1 = .ok v0 ∧ C.getOptimum s1 = .ok opt ∧
      hook C.initOps s1 = .ok s2 ∧ ok s2)
    (he : ∀ s x, ok s → x.Perm seq → ∃ s', C.evaluate x s = .ok s' ∧ C.objVal s' = .ok (f x) ∧
      C.getSol s' = .ok (g x) ∧ ok s' ∧ ∃ s'', hook C.extraOps s' = .ok s'' ∧ ok s'') :
    Behaves C ok seq s0 f g v0 r0 opt where
  init := hi
  eval := by
    intro s x hs hx
    obtain ⟨s', h1, h2, h3, h4, h5⟩ := he s x hs hx
    refine ⟨s', h1, h2, h3, h4, ?_, h5⟩
    intro v
    unfold Cls.compareNode Cls.Better
    rw [hc]
    simp only
    refine ⟨_, rfl, ?_⟩
    split <;> rfl

/-- **C91**: for every well behaved subclass of `AbstractLocalSearch` with `OPT_NUM = 2` and every behaviour of
the clock, `local_search` returns (within `n! + 1` nodes for `n` elements).  What it returns belongs to the end of
a climb over exchanges of two elements from the given sequence: it is the solution of the sequence at that end, and
each move went to the first better neighbour ("better" is greater for `OPTIMIZATION = "MAX"`, else smaller) among
those it looks at (all, or with `throttle` the first `MAX_NEIGHBORS_THROTTLE`, at least one).
If no reading of the clock was late, the end has no better neighbour, or its value reaches the optimum. -/
theorem C91_climb (C : Cls σ ρ α) (ok : σ → Prop) (seq : List α) (s0 : σ) (f : List α → Num) (g : List α → ρ)
    (v0 : Num) (r0 : ρ) (opt : Num) (hC : Behaves C ok seq s0 f g v0 r0 opt) (h2 : C.optNum = 2)
    (late : Nat → Bool) (throttle : Bool) (fuel : Nat) (hf : seq.length.factorial + 1 ≤ fuel)
    (limit : Nat) (hlim : limit = max 1 (if throttle = true ∧ C.throttleMax < seq.length * (seq.length - 1) / 2
      then C.throttleMax else seq.length * (seq.length - 1) / 2)) :
    ∃ t n, run C late fuel seq throttle s0 = .ok t ∧
      Climb C.Better (C.Top opt) f g limit seq v0 r0 n t.node t.best t.retained ∧
      (v0 = t.best ∨ C.Better t.best v0) ∧ t.node.Perm seq ∧ n ≤ seq.length.factorial ∧ t.log.length ≤ n + 1 ∧
      ((∀ k, late k = false) →
        (0 < n ∧ C.Top opt t.best) ∨ ∀ y ∈ (neighbours t.node).take limit, ¬ C.Better (f y) t.best) := by
  obtain ⟨t, h1, ⟨n, c1, c2, c3⟩⟩ := run_spec hC h2 late throttle hf
  have e : max 1 (C.maxNeighbors throttle seq.length) = limit := by
    rw [hlim]; unfold Cls.maxNeighbors; simp
  rw [e] at c1 c3
  obtain ⟨_, _, _, _, c4⟩ := climb_count C c1
  exact ⟨t, n, h1, c1, c4, climb_perm c1, climb_bound C c1, c2, c3⟩

/-- **C91**, local optimum: without throttling and without a late reading, no exchange of two elements improves the
result (unless it reached the optimum) -/
theorem C91_optimum (C : Cls σ ρ α) (ok : σ → Prop) (seq : List α) (s0 : σ) (f : List α → Num) (g : List α → ρ)
    (v0 : Num) (r0 : ρ) (opt : Num) (hC : Behaves C ok seq s0 f g v0 r0 opt) (h2 : C.optNum = 2)
    (late : Nat → Bool) (hlate : ∀ k, late k = false) (fuel : Nat) (t : State σ ρ α)
    (ht : run C late fuel seq false s0 = .ok t) (hf : seq.length.factorial + 1 ≤ fuel) :
    C.Top opt t.best ∨ ∀ i j, i < j → j < seq.length → ¬ C.Better (f (exchangeAt t.node i j)) t.best := by
  obtain ⟨t', n, h1, _, _, h4, _, _, h7⟩ := C91_climb C ok seq s0 f g v0 r0 opt hC h2 late false fuel hf _ rfl
  rw [ht] at h1
  injection h1 with h1
  subst h1
  rcases h7 hlate with h | h
  · exact Or.inl h.2
  · right
    intro i j hij hj
    have hlen := h4.length_eq
    have hm : exchangeAt t.node i j ∈ neighbours t.node := by
      rw [neighbours_eq]
      exact List.mem_map.2 ⟨(i, j), mem_indexSwaps.2 ⟨hij, by omega⟩, rfl⟩
    have hl : (neighbours t.node).length ≤ max 1 (seq.length * (seq.length - 1) / 2) := by
      rw [neighbours_eq, List.length_map, hlen]
      have := length_indexSwaps seq.length
      omega
    refine h _ ?_
    simp only [Bool.false_eq_true, false_and, if_false]
    rw [List.take_of_length_le hl]
    exact hm

/-- **C91**: an `OPTIMIZATION` other than "MAX" and "MIN" is refused with ValueError, unless the subclass says
itself what the optimum is -/
theorem C91_optimization (C : Cls σ ρ α) (s0 s1 : σ) (r0 : ρ) (v0 : Num) (hi : C.init s0 = .ok (s1, r0))
    (hv : C.objVal s1 = .ok v0) (ho : C.optimum = none) (hn : C.optimization ≠ "MAX" ∧ C.optimization ≠ "MIN")
    (late : Nat → Bool) (fuel : Nat) (seq : List α) (throttle : Bool) :
    run C late fuel seq throttle s0 = .error .valueError := by
  unfold run
  simp only [bind, Except.bind, hi, hv, Cls.getOptimum, ho, hn.1, hn.2, if_false]

/-- **C91**: the class is documented as "N-opt", but every `OPT_NUM` other than 2 ends in a ValueError as soon as
the sequence has that many elements -/
theorem C91_opt_num (C : Cls σ ρ α) (s0 s1 s2 : σ) (r0 : ρ) (v0 opt : Num) (hi : C.init s0 = .ok (s1, r0))
    (hv : C.objVal s1 = .ok v0) (ho : C.getOptimum s1 = .ok opt) (hh : hook C.initOps s1 = .ok s2)
    (hn : C.optNum ≠ 2) (late : Nat → Bool) (fuel : Nat) (seq : List α) (hl : C.optNum ≤ seq.length)
    (throttle : Bool) : run C late (fuel + 1) seq throttle s0 = .error .valueError := by
  unfold run
  simp only [bind, Except.bind, hi, hv, ho, hh, loop]
  have hne := combinations_ne_nil C.optNum (List.range seq.length) (by simpa using hl)
  obtain ⟨sw, swaps, he⟩ := List.exists_cons_of_ne_nil hne
  have hlen := combinations_length C.optNum (List.range seq.length) sw (by rw [he]; simp)
  rw [he]
  unfold scan
  match sw, hlen with
  | [], _ => rfl
  | [_], _ => rfl
  | [_, _], h => exact absurd h.symm hn
  | _ :: _ :: _ :: _, _ => rfl

/-- **C91**, what better and optimal mean for finite values: greater for "MAX", else smaller; and with the default
optimum no finite value is optimal -/
theorem C91_order (C : Cls σ ρ α) (a b : Rat) :
    (C.optimization = "MAX" → (C.Better (.fin a) (.fin b) ↔ b < a) ∧ (C.Top (.fin b) (.fin a) ↔ b ≤ a) ∧
      ∀ s o, C.optimum = none → C.getOptimum s = .ok o → ¬ C.Top o (.fin a)) ∧
    (C.optimization = "MIN" → (C.Better (.fin a) (.fin b) ↔ a < b) ∧ (C.Top (.fin b) (.fin a) ↔ a ≤ b) ∧
      ∀ s o, C.optimum = none → C.getOptimum s = .ok o → ¬ C.Top o (.fin a)) := by
  constructor <;> intro h <;> refine ⟨by simp [Cls.Better, h, Num.lt], by simp [Cls.Top, h, Num.le], ?_⟩ <;>
    intro s o hn hg <;> simp [Cls.getOptimum, hn, h] at hg <;> subst hg <;> simp [Cls.Top, h, Num.le]

/-! ### `HyperPack` is such a subclass -/

/-- the states of the two models -/
def emb (s : LSState Inst (Solution × ObjVals)) : State Inst (Solution × ObjVals) String :=
  ⟨s.obj, s.node, .fin s.best, s.retained, s.tick,
    s.log.map (fun e => (.fin e.best, e.processed, e.outOfTime, e.found, e.globalOpt))⟩

theorem scan_hyperpack (A : Arith) (P : LSParams) (maxN : Nat) :
    ∀ (swaps : List (Nat × Nat)) (k : Nat) (s : LSState Inst (Solution × ObjVals)),
      scan (hyperPack A) P.late .inf maxN (swaps.map (fun p => [p.1, p.2])) k (emb s) =
        (lsScan (instOps A) P maxN swaps k s).map (fun r =>
          (emb r.1, (.fin r.2.best, r.2.processed, r.2.outOfTime, r.2.found, r.2.globalOpt)))
  | [], k, s => rfl
  | (i, j) :: swaps, k, s => by
    have ih := scan_hyperpack A P maxN swaps (k + 1)
    have hsw : ALS.swapSeq (emb s).node i j = HP.swapSeq s.node i j := rfl
    have hob : (emb s).obj = s.obj := rfl
    simp only [List.map_cons, scan, lsScan, bind, Except.bind]
    rw [hsw, hob]
    cases h1 : HP.swapSeq s.node i j with
    | error e => rfl
    | ok cur =>
      simp only
      have e2 : (hyperPack A).evaluate cur s.obj = (instOps A).evaluate cur s.obj := rfl
      rw [e2]
      cases h2 : (instOps A).evaluate cur s.obj with
      | error e => rfl
      | ok o =>
        simp only
        have e3 : (hyperPack A).objVal o = ((instOps A).objVal o).map .fin := rfl
        rw [e3]
        cases h3 : (instOps A).objVal o with
        | error e => rfl
        | ok v =>
          simp only [Except.map]
          have hcmp : (hyperPack A).compareNode o (.fin v) (emb s).best = (instOps A).compare o v s.best := rfl
          rw [hcmp]
          cases h4 : (instOps A).compare o v s.best with
          | error e => rfl
          | ok b =>
            simp only
            cases b with
            | false =>
              simp only [Bool.false_eq_true, if_false, pure, Except.pure, Bool.false_and, Bool.or_false]
              have ht : (emb s).tick = s.tick := rfl
              rw [ht]
              by_cases hs : (P.late s.tick || decide (k + 1 ≥ maxN)) = true
              · rw [if_pos hs, if_pos hs]; rfl
              · rw [if_neg hs, if_neg hs]
                exact ih { s with obj := o, tick := s.tick + 1 }
            | true =>
              simp only [if_true]
              have e5 : (hyperPack A).getSol o = (instOps A).getSol o := rfl
              have e6 : hook (hyperPack A).extraOps o = (instOps A).extra o := rfl
              rw [e5, e6]
              cases h5 : (instOps A).getSol o with
              | error e => rfl
              | ok r =>
                simp only
                cases h6 : (instOps A).extra o with
                | error e => rfl
                | ok o2 =>
                  simp only [pure, Except.pure, Bool.or_true, Bool.true_or, if_true]
                  rfl

/-- **C91**: `HyperPack.local_search` is this search, for the subclass `HyperPack` (MAX, 2500, 2): the general model
and the model of `HyperPack` used by C16 - C24 agree, including all errors -/
theorem C91_hyperpack (A : Arith) (P : LSParams) (fuel : Nat) (seq : List String) (throttle : Bool) (i : Inst) :
    run (hyperPack A) P.late fuel seq throttle i = (lsRun (instOps A) P fuel seq throttle i).map emb := by
  have hloop : ∀ (maxN fuel : Nat) (s : LSState Inst (Solution × ObjVals)),
      loop (hyperPack A) P.late .inf maxN (combinations 2 (List.range seq.length)) fuel (emb s) =
        (lsLoop (instOps A) P maxN (indexSwaps seq.length) fuel s).map emb := by
    intro maxN fuel
    induction fuel with
    | zero => intro s; rfl
    | succ fuel ih =>
      intro s
      unfold loop lsLoop
      rw [combinations_pairs] at ih ⊢
      rw [scan_hyperpack]
      simp only [bind, Except.bind]
      cases h : lsScan (instOps A) P maxN (indexSwaps seq.length) 0 s with
      | error e => rfl
      | ok r =>
        simp only [Except.map]
        have e : ({ emb r.1 with log := (emb r.1).log ++ [(.fin r.2.best, r.2.processed, r.2.outOfTime, r.2.found,
            r.2.globalOpt)] } : State Inst (Solution × ObjVals) String) = emb { r.1 with log := r.1.log ++ [r.2] } := by
          simp [emb]
        rw [e]
        by_cases hc : (r.2.found && !r.2.outOfTime && !r.2.globalOpt) = true
        · rw [if_pos hc, if_pos hc, ih]
          rfl
        · rw [if_neg hc, if_neg hc]
          rfl
  unfold run lsRun
  simp only [bind, Except.bind]
  have e1 : (hyperPack A).init i = (instOps A).init i := rfl
  rw [e1]
  cases h1 : (instOps A).init i with
  | error e => rfl
  | ok r =>
    simp only
    have e2 : (hyperPack A).objVal r.1 = ((instOps A).objVal r.1).map .fin := rfl
    rw [e2]
    cases h2 : (instOps A).objVal r.1 with
    | error e => rfl
    | ok b =>
      simp only [Except.map]
      have := hloop (HP.maxNeighbors throttle seq.length) fuel ⟨r.1, seq, b, r.2, 0, []⟩
      exact this

/-! ### a subclass of our own: sorting by minimizing the sum of position times value -/

/-- sum of position times value -/
def weight : Nat → List Nat → Nat
  | _, [] => 0
  | k, a :: l => k * a + weight (k + 1) l

/-- a subclass that minimizes it; its solutions are the sequences themselves -/
def sorter : Cls (List Nat) (List Nat) Nat where
  optimization := "MIN"
  throttleMax := 2500
  optNum := 2
  init s := .ok (s, s)
  objVal s := .ok (.fin (weight 0 s))
  getSol s := .ok s
  evaluate x _ := .ok x
  optimum := none
  compare := none
  initOps := none
  extraOps := none

theorem sorter_behaves (seq : List Nat) : Behaves sorter (fun _ => True) seq seq (fun x => .fin (weight 0 x)) id
    (.fin (weight 0 seq)) seq .ninf :=
  behaves_default rfl ⟨seq, seq, rfl, rfl, rfl, rfl, trivial⟩
    (fun _ x _ _ => ⟨x, rfl, rfl, rfl, trivial, x, rfl, trivial⟩)

example : (run sorter (fun _ => false) 30 [3, 1, 4, 2] true [3, 1, 4, 2]).toOption.map (fun t => (t.retained, t.log.length)) =
    some ([4, 3, 2, 1], 4) := by decide +kernel

/-- out of time after the first neighbour -/
example : (run sorter (fun _ => true) 30 [3, 1, 4, 2] true [3, 1, 4, 2]).toOption.map (fun t => t.retained) =
    some [3, 1, 4, 2] := by decide +kernel

/-- with `OPT_NUM = 3` -/
example : run { sorter with optNum := 3 } (fun _ => false) 30 [3, 1, 4, 2] true [3, 1, 4, 2] = .error .valueError :=
  C91_opt_num _ [3, 1, 4, 2] [3, 1, 4, 2] [3, 1, 4, 2] [3, 1, 4, 2] (.fin (weight 0 [3, 1, 4, 2])) .ninf rfl rfl rfl rfl
    (by decide) _ 29 _ (by decide) _

end HP.ALS
