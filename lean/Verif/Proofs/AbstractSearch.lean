import Verif.Model.AbstractSearch
import Verif.SpecClimb
import Verif.Proofs.Search
import Mathlib.Data.List.Permutation
import Mathlib.Data.List.Perm.Subperm
import Mathlib.Algebra.Order.Ring.Rat
/-
Proofs about the general local search.
-/
namespace HP.ALS
open Spec

/-! ### floats -/

theorem lt_irrefl (a : Num) : a.lt a = false := by cases a <;> simp [Num.lt]

theorem lt_trans {a b c : Num} (h1 : a.lt b = true) (h2 : b.lt c = true) : a.lt c = true := by
  cases a <;> cases b <;> cases c <;> simp_all [Num.lt]
  exact _root_.lt_trans h1 h2

/-! ### combinations -/

theorem combinations_one (l : List Nat) : combinations 1 l = l.map (fun a => [a]) := by
  induction l with
  | nil => rfl
  | cons a l ih => simp [combinations, ih]

theorem combinations_two (s : Nat) : ∀ m, combinations 2 (List.range' s m) =
    (List.range m).flatMap (fun i => (List.range' (s + i + 1) (m - 1 - i)).map (fun j => [s + i, j])) := by
  intro m
  induction m generalizing s with
  | zero => rfl
  | succ m ih =>
    rw [List.range'_succ, combinations, combinations_one, ih (s + 1), List.range_succ_eq_map, List.flatMap_cons,
      List.flatMap_map]
    congr 1
    · simp
    · congr 1
      funext i
      simp only [Nat.succ_eq_add_one]
      have e1 : s + 1 + i + 1 = s + (i + 1) + 1 := by omega
      have e2 : m - 1 - i = m + 1 - 1 - (i + 1) := by omega
      have e3 : s + 1 + i = s + (i + 1) := by omega
      rw [e1, e2, e3]

theorem combinations_pairs (n : Nat) : combinations 2 (List.range n) = (indexSwaps n).map (fun p => [p.1, p.2]) := by
  rw [List.range_eq_range', combinations_two, indexSwaps, List.map_flatMap]
  congr 1
  funext i
  simp [Function.comp_def]

theorem neighbours_eq {α : Type} (xs : List α) :
    neighbours xs = (indexSwaps xs.length).map (fun p => exchangeAt xs p.1 p.2) := by
  unfold neighbours indexSwaps
  rw [List.map_flatMap]
  congr 1
  funext i
  simp [Function.comp_def]

theorem combinations_length : ∀ (k : Nat) (l : List Nat), ∀ c ∈ combinations k l, c.length = k
  | 0, l, c, h => by simp [combinations] at h; rw [h]; rfl
  | k + 1, [], c, h => by simp [combinations] at h
  | k + 1, a :: l, c, h => by
    simp only [combinations, List.mem_append, List.mem_map] at h
    rcases h with ⟨c', h', rfl⟩ | h
    · simp [combinations_length k l c' h']
    · exact combinations_length (k + 1) l c h

theorem combinations_ne_nil : ∀ (k : Nat) (l : List Nat), k ≤ l.length → combinations k l ≠ []
  | 0, _, _ => by simp [combinations]
  | k + 1, [], h => by simp at h
  | k + 1, a :: l, h => by
    have := combinations_ne_nil k l (by simpa using h)
    simp [combinations, this]

/-! ### exchanging -/

theorem swapSeq_eq {α : Type} {xs : List α} {i j : Nat} (hi : i < xs.length) (hj : j < xs.length) :
    swapSeq xs i j = .ok (exchangeAt xs i j) := by
  have g : ∀ (ys : List α) (k : Nat) (hk : k < ys.length), pyGet ys k = .ok ys[k] := by
    intro ys k hk
    unfold pyGet pyIdx
    rw [if_pos (Int.natCast_nonneg k), if_pos (by omega)]
    simp [hk]
  have st : ∀ (ys : List α) (k : Nat) (v : α) (hk : k < ys.length), pySet ys k v = .ok (ys.set k v) := by
    intro ys k v hk
    unfold pySet pyIdx
    rw [if_pos (Int.natCast_nonneg k), if_pos (by omega)]
    simp
  unfold swapSeq exchangeAt
  simp only [bind, Except.bind, g xs i hi, g xs j hj, st xs i _ hi]
  rw [st _ j _ (by simpa using hj)]
  simp [hi, hj]

theorem exchangeAt_perm {α : Type} (xs : List α) (i j : Nat) : (exchangeAt xs i j).Perm xs := by
  unfold exchangeAt
  cases hi : xs[i]? with
  | none => exact List.Perm.refl _
  | some a =>
    cases hj : xs[j]? with
    | none => exact List.Perm.refl _
    | some b =>
      simp only
      obtain ⟨hil, rfl⟩ := List.getElem?_eq_some_iff.1 hi
      obtain ⟨hjl, rfl⟩ := List.getElem?_eq_some_iff.1 hj
      exact List.set_set_perm hil hjl

variable {σ ρ α : Type}

/-- the order of the class: is `a` better than `b`? -/
def Cls.Better (C : Cls σ ρ α) (a b : Num) : Prop :=
  if C.optimization = "MAX" then b.lt a = true else a.lt b = true

theorem Cls.better_irrefl (C : Cls σ ρ α) (a : Num) : ¬ C.Better a a := by
  unfold Cls.Better; split <;> simp [lt_irrefl]

theorem Cls.better_trans (C : Cls σ ρ α) {a b c : Num} (h1 : C.Better a b) (h2 : C.Better b c) : C.Better a c := by
  unfold Cls.Better at *
  split at h1 <;> simp_all
  · exact lt_trans h2 h1
  · exact lt_trans h1 h2

/-- the value is at least as good as `opt` -/
def Cls.Top (C : Cls σ ρ α) (opt v : Num) : Prop :=
  if C.optimization = "MAX" then opt.le v = true else v.le opt = true

theorem Cls.globalCheck_iff (C : Cls σ ρ α) (v opt : Num) : C.globalCheck v opt = true ↔ C.Top opt v := by
  unfold Cls.globalCheck Cls.Top; split <;> rfl

/-- The subclass is well behaved on permutations of `seq`: nothing raises, and the value and the solution after
`evaluate_node(x)` are functions `f x`, `g x` of the sequence.  `ok` is a property of the object that all
methods keep.  `v0`, `r0` are the value and solution at the beginning, `opt` the optimum. -/
structure Behaves (C : Cls σ ρ α) (ok : σ → Prop) (seq : List α) (s0 : σ) (f : List α → Num) (g : List α → ρ)
    (v0 : Num) (r0 : ρ) (opt : Num) : Prop where
  init : ∃ s1 s2, C.init s0 = .ok (s1, r0) ∧ C.objVal s1 = .ok v0 ∧ C.getOptimum s1 = .ok opt ∧
    hook C.initOps s1 = .ok s2 ∧ ok s2
  eval : ∀ s x, ok s → x.Perm seq → ∃ s', C.evaluate x s = .ok s' ∧ C.objVal s' = .ok (f x) ∧
    C.getSol s' = .ok (g x) ∧ ok s' ∧ (∀ v, ∃ b, C.compareNode s' (f x) v = .ok b ∧ (b = true ↔ C.Better (f x) v)) ∧
    ∃ s'', hook C.extraOps s' = .ok s'' ∧ ok s''

variable {C : Cls σ ρ α} {ok : σ → Prop} {seq : List α} {s0 : σ} {f : List α → Num} {g : List α → ρ}
  {v0 : Num} {r0 : ρ} {opt : Num}

/-- what a scan of the neighbours returns -/
structure ScanOut (C : Cls σ ρ α) (ok : σ → Prop) (f : List α → Num) (g : List α → ρ) (opt : Num)
    (ys : List (List α)) (late : Nat → Bool) (s s' : State σ ρ α) (e : Num × Nat × Bool × Bool × Bool) : Prop where
  ok : ok s'.obj
  log : s'.log = s.log
  lateTrue : e.2.2.1 = true → ∃ n, late n = true
  out : (e.2.2.2.1 = true ∧ FirstBetter C.Better f s.best ys s'.node ∧ s'.best = f s'.node ∧
      s'.retained = g s'.node ∧ (e.2.2.2.2 = true ↔ C.Top opt s'.best)) ∨
    (e.2.2.2.1 = false ∧ s'.node = s.node ∧ s'.best = s.best ∧ s'.retained = s.retained ∧ e.2.2.2.2 = false ∧
      (e.2.2.1 = false → ∀ y ∈ ys, ¬ C.Better (f y) s.best))

theorem scan_spec (hC : Behaves C ok seq s0 f g v0 r0 opt) (late : Nat → Bool) (maxN : Nat) :
    ∀ (swaps : List (Nat × Nat)) (k : Nat) (s : State σ ρ α), ok s.obj → s.node.Perm seq →
      (∀ p ∈ swaps, p.1 < s.node.length ∧ p.2 < s.node.length) → k < max 1 maxN →
      ∃ s' e, scan C late opt maxN (swaps.map (fun p => [p.1, p.2])) k s = .ok (s', e) ∧
        ScanOut C ok f g opt ((swaps.map (fun p => exchangeAt s.node p.1 p.2)).take (max 1 maxN - k)) late s s' e
  | [], k, s, ho, hp, _, _ => by
    refine ⟨s, (s.best, k, false, false, false), rfl, ho, rfl, by simp, Or.inr ⟨rfl, rfl, rfl, rfl, rfl, ?_⟩⟩
    intro _ y hy; simp at hy
  | (i, j) :: swaps, k, s, ho, hp, hb, hk => by
    obtain ⟨hi, hj⟩ := hb (i, j) (by simp)
    have hperm : (exchangeAt s.node i j).Perm seq := (exchangeAt_perm _ _ _).trans hp
    obtain ⟨o1, e1, e2, e3, e4, e5, o2, e6, e7⟩ := hC.eval s.obj _ ho hperm
    obtain ⟨b, e8, e9⟩ := e5 s.best
    obtain ⟨lim, hlim⟩ : ∃ lim, max 1 maxN - k = lim + 1 := ⟨max 1 maxN - k - 1, by omega⟩
    simp only [List.map_cons, scan, bind, Except.bind, swapSeq_eq hi hj, e1, e2, e8, hlim, List.take_succ_cons]
    cases b with
    | true =>
      have hbet := e9.1 rfl
      simp only [if_true, e3, e6, pure, Except.pure, Bool.true_and, Bool.or_true, Bool.true_or]
      refine ⟨_, _, rfl, e7, rfl, ?_, Or.inl ⟨rfl, ?_, rfl, rfl, ?_⟩⟩
      · intro h; exact ⟨_, h⟩
      · exact ⟨[], _, rfl, by simp, hbet⟩
      · exact C.globalCheck_iff _ _
    | false =>
      have hbet : ¬ C.Better (f (exchangeAt s.node i j)) s.best := fun h => by simpa using e9.2 h
      simp only [Bool.false_eq_true, if_false, pure, Except.pure, Bool.false_and, Bool.or_false]
      by_cases hstop : (late s.tick || decide (k + 1 ≥ maxN)) = true
      · rw [if_pos hstop]
        refine ⟨_, _, rfl, e4, rfl, ?_, Or.inr ⟨rfl, rfl, rfl, rfl, rfl, ?_⟩⟩
        · intro h; exact ⟨_, h⟩
        · intro hl y hy
          simp only at hl
          rw [hl] at hstop
          simp at hstop
          have : lim = 0 := by omega
          subst this
          simp at hy
          subst hy
          exact hbet
      · rw [if_neg hstop]
        simp only [Bool.or_eq_true, decide_eq_true_eq, not_or] at hstop
        obtain ⟨s', e, h1, h2⟩ := scan_spec hC late maxN swaps (k + 1)
          { s with obj := o1, tick := s.tick + 1 } e4 hp (fun p hpm => hb p (by simp [hpm])) (by omega)
        have hl2 : max 1 maxN - (k + 1) = lim := by omega
        rw [hl2] at h2
        refine ⟨s', e, h1, h2.ok, h2.log, h2.lateTrue, ?_⟩
        rcases h2.out with ⟨a1, ⟨pre, post, p1, p2, p3⟩, a3, a4, a5⟩ | ⟨a1, a2, a3, a4, a5, a6⟩
        · refine Or.inl ⟨a1, ⟨exchangeAt s.node i j :: pre, post, ?_, ?_, p3⟩, a3, a4, a5⟩
          · rw [p1]; rfl
          · intro u hu
            rcases List.mem_cons.1 hu with rfl | hu
            · exact hbet
            · exact p2 u hu
        · refine Or.inr ⟨a1, a2, a3, a4, a5, ?_⟩
          intro hl y hy
          rcases List.mem_cons.1 hy with rfl | hy
          · exact hbet
          · exact a6 hl y hy

/-- the climb so far -/
abbrev CI (C : Cls σ ρ α) (f : List α → Num) (g : List α → ρ) (limit : Nat) (seq : List α) (v0 : Num) (r0 : ρ)
    (opt : Num) (n : Nat) (s : State σ ρ α) : Prop :=
  Climb C.Better (C.Top opt) f g limit seq v0 r0 n s.node s.best s.retained

/-- how a search ends -/
structure End (C : Cls σ ρ α) (f : List α → Num) (g : List α → ρ) (limit : Nat) (seq : List α) (v0 : Num) (r0 : ρ)
    (opt : Num) (late : Nat → Bool) (t : State σ ρ α) : Prop where
  climb : ∃ n, CI C f g limit seq v0 r0 opt n t ∧ t.log.length ≤ n + 1 ∧
    ((∀ k, late k = false) → (0 < n ∧ C.Top opt t.best) ∨ ∀ y ∈ (neighbours t.node).take limit, ¬ C.Better (f y) t.best)

theorem climb_perm {better : Num → Num → Prop} {top : Num → Prop} {limit : Nat} {n : Nat} {x : List α}
    {v : Num} {r : ρ} (h : Climb better top f g limit seq v0 r0 n x v r) : x.Perm seq := by
  induction h with
  | start => exact List.Perm.refl _
  | @move n x v r y _ _ hf ih =>
    obtain ⟨pre, post, e, _, _⟩ := hf
    have : y ∈ neighbours x := by
      refine List.mem_of_mem_take (i := limit) ?_
      rw [e]; simp
    rw [neighbours_eq] at this
    obtain ⟨p, _, rfl⟩ := List.mem_map.1 this
    exact (exchangeAt_perm _ _ _).trans ih

/-- all the sequences moved to: different permutations -/
theorem climb_count (C : Cls σ ρ α) {limit n : Nat} {x : List α} {v : Num} {r : ρ}
    (h : Climb C.Better (C.Top opt) f g limit seq v0 r0 n x v r) :
    ∃ l : List (List α), l.length = n ∧ l.Nodup ∧ (∀ y ∈ l, y.Perm seq ∧ (f y = v ∨ C.Better v (f y))) ∧
      (v0 = v ∨ C.Better v v0) := by
  induction h with
  | start => exact ⟨[], rfl, List.nodup_nil, by simp, Or.inl rfl⟩
  | @move n x v r y hc _ hf ih =>
    obtain ⟨l, h1, h2, h3, h4⟩ := ih
    have hy : y.Perm seq := climb_perm (.move hc ‹_› hf)
    obtain ⟨_, _, _, _, hb⟩ := hf
    refine ⟨y :: l, by simp [h1], List.nodup_cons.2 ⟨?_, h2⟩, ?_, ?_⟩
    · intro hm
      rcases (h3 y hm).2 with e | e
      · rw [e] at hb; exact C.better_irrefl _ hb
      · exact C.better_irrefl _ (C.better_trans hb e)
    · intro z hz
      rcases List.mem_cons.1 hz with rfl | hz
      · exact ⟨hy, Or.inl rfl⟩
      · refine ⟨(h3 z hz).1, Or.inr ?_⟩
        rcases (h3 z hz).2 with e | e
        · rw [e]; exact hb
        · exact C.better_trans hb e
    · right
      rcases h4 with e | e
      · rw [e]; exact hb
      · exact C.better_trans hb e

theorem climb_bound (C : Cls σ ρ α) {limit n : Nat} {x : List α} {v : Num} {r : ρ}
    (h : Climb C.Better (C.Top opt) f g limit seq v0 r0 n x v r) : n ≤ seq.length.factorial := by
  obtain ⟨l, h1, h2, h3, _⟩ := climb_count C h
  rw [← h1, ← List.length_permutations]
  exact (h2.subperm (fun y hy => List.mem_permutations.2 (h3 y hy).1)).length_le

theorem loop_spec (hC : Behaves C ok seq s0 f g v0 r0 opt) (late : Nat → Bool) (maxN : Nat) :
    ∀ (fuel : Nat) (s : State σ ρ α) (n : Nat), ok s.obj →
      CI C f g (max 1 maxN) seq v0 r0 opt n s → (n = 0 ∨ ¬ C.Top opt s.best) → s.log.length = n →
      seq.length.factorial + 1 ≤ n + fuel →
      ∃ t, loop C late opt maxN (combinations 2 (List.range seq.length)) fuel s = .ok t ∧
        End C f g (max 1 maxN) seq v0 r0 opt late t
  | 0, s, n, _, hc, _, _, hf => by
    have := climb_bound C hc
    omega
  | fuel + 1, s, n, ho, hc, hn, hlog, hf => by
    have hp := climb_perm hc
    have hlen : s.node.length = seq.length := hp.length_eq
    obtain ⟨s', e, h1, h2⟩ := scan_spec hC late maxN (indexSwaps seq.length) 0 s ho hp
      (by intro p hpm
          obtain ⟨a, b⟩ := p
          have := mem_indexSwaps.1 hpm
          simp only; omega) (by omega)
    rw [Nat.sub_zero, ← hlen, ← neighbours_eq] at h2
    unfold loop
    rw [combinations_pairs]
    simp only [bind, Except.bind, h1]
    rw [← combinations_pairs]
    have hlog' : s'.log.length = n := by rw [h2.log]; exact hlog
    rcases h2.out with ⟨a1, a2, a3, a4, a5⟩ | ⟨a1, a2, a3, a4, a5, a6⟩
    · have hc' : CI C f g (max 1 maxN) seq v0 r0 opt (n + 1) { s' with log := s'.log ++ [e] } := by
        have := Climb.move hc hn a2
        unfold CI
        simp only
        rw [a3, a4]
        exact this
      by_cases hcont : (e.2.2.2.1 && !e.2.2.1 && !e.2.2.2.2) = true
      · rw [if_pos hcont]
        simp only [Bool.and_eq_true, Bool.not_eq_true'] at hcont
        refine loop_spec hC late maxN fuel _ (n + 1) h2.ok hc' (Or.inr ?_) (by simp [hlog']) (by omega)
        intro ht
        have := a5.2 ht
        rw [hcont.2] at this
        cases this
      · rw [if_neg hcont]
        refine ⟨_, rfl, ⟨n + 1, hc', by simp [hlog'], ?_⟩⟩
        intro hl
        left
        refine ⟨by omega, ?_⟩
        rw [a1] at hcont
        have hl0 : e.2.2.1 = false := by
          cases hx : e.2.2.1 with
          | false => rfl
          | true => obtain ⟨m, hm⟩ := h2.lateTrue hx; rw [hl m] at hm; cases hm
        rw [hl0] at hcont
        simp at hcont
        exact a5.1 hcont
    · rw [if_neg (by rw [a1]; simp)]
      have hc' : CI C f g (max 1 maxN) seq v0 r0 opt n { s' with log := s'.log ++ [e] } := by
        unfold CI
        simp only
        rw [a2, a3, a4]
        exact hc
      refine ⟨_, rfl, ⟨n, hc', by simp [hlog'], ?_⟩⟩
      intro hl
      right
      have hl0 : e.2.2.1 = false := by
        cases hx : e.2.2.1 with
        | false => rfl
        | true => obtain ⟨m, hm⟩ := h2.lateTrue hx; rw [hl m] at hm; cases hm
      simp only
      rw [a2, a3]
      exact a6 hl0

theorem run_spec (hC : Behaves C ok seq s0 f g v0 r0 opt) (h2 : C.optNum = 2) (late : Nat → Bool) (throttle : Bool)
    {fuel : Nat} (hf : seq.length.factorial + 1 ≤ fuel) :
    ∃ t, run C late fuel seq throttle s0 = .ok t ∧
      End C f g (max 1 (C.maxNeighbors throttle seq.length)) seq v0 r0 opt late t := by
  obtain ⟨s1, s2, e1, e2, e3, e4, e5⟩ := hC.init
  unfold run
  simp only [bind, Except.bind, e1, e2, e3, e4]
  rw [h2]
  exact loop_spec hC late _ fuel _ 0 e5 .start (Or.inl rfl) rfl (by omega)

end HP.ALS
