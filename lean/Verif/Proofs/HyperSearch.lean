import Verif.Props.Search
import Verif.Model.HyperSearch
/-
Invariant of the single process hypersearch.
-/
namespace HP
open Spec

/-- a local search does not depend on the results stored before it -/
theorem localSearch_forget (A : Arith) (clock : Nat → Rat) (start : Rat) (throttle : Bool) (i : Inst)
    (s : Solution) (o : ObjVals) :
    Inst.localSearch A clock start throttle { i with solution := s, objVals := o } =
      i.localSearch A clock start throttle := by
  cases hs : i.strip <;>
    simp only [Inst.localSearch, hs, Bool.false_eq_true, if_false, if_true, lsRun, instOps,
      Inst.initSolution, Inst.solve, Inst.solveIn, lsFuel] <;> rfl

/-- in strip packing it does not depend on the height history either -/
theorem localSearch_forget_heights (A : Arith) (clock : Nat → Rat) (start : Rat) (throttle : Bool)
    (i : Inst) (hs : List Nat) (hst : i.strip = true) :
    Inst.localSearch A clock start throttle { i with heights := hs } =
      i.localSearch A clock start throttle := by
  simp only [Inst.localSearch, hst, if_true]

theorem localSearch_valid {A : Arith} {clock : Nat → Rat} {start : Rat} {throttle : Bool} {i j : Inst}
    {t : LSState Inst (Solution × ObjVals)} (hv : i.Valid)
    (h : i.localSearch A clock start throttle = .ok (j, t)) :
    j.Valid ∧ (i.minHeight.getD 0 ≤ i.height.getD 0 → j.minHeight.getD 0 ≤ j.height.getD 0) ∧
    (i.strip = true → j.height.getD 0 ≤ i.maxH) := by
  obtain ⟨s0, _, hj, _, _, hinv⟩ := localSearch_ok hv h
  obtain ⟨fi, fc, fs, fh, fm, _, fx, fhs, fb⟩ := searchBase_fields i
  obtain ⟨hh, hs, hN, sol, hi⟩ := hinv
  obtain ⟨o1, o2, hobj⟩ := hi.obj
  obtain ⟨hfr, hbin⟩ := C17_frame A clock start throttle i j t hv h
  have ek : j.height = hh := by rw [hj, hobj]; rfl
  refine ⟨⟨?_, ?_, ?_, ?_, ?_, ?_, ?_⟩, ?_, ?_⟩
  · rw [hfr]; exact hv.conts
  · rw [hfr]; exact hv.items
  · rw [hfr]; exact hv.contsNe
  · rw [hfr]; exact hv.itemsNe
  · rw [hfr]; exact hv.strip
  · intro hst
    have hst' : i.strip = true := by rw [hfr] at hst; exact hst
    obtain ⟨n, h1, h2, _⟩ := hi.hStrip (by rw [fs]; exact hst')
    exact ⟨n, by rw [ek, h1], h2⟩
  · rw [hfr]; exact hv.minPos
  · intro hle
    have hm : j.minHeight = i.minHeight := by rw [hfr]
    rw [hm]
    cases hst : i.strip with
    | false => rw [(hbin hst).1]; exact hle
    | true =>
      have := (hi.hist (by rw [fs]; exact hst) (by rw [fhs hst, fh])).2.2.2 (by rw [fm, fh]; exact hle)
      rw [ek, ← fm]
      exact this.2
  · intro hst
    obtain ⟨n, h1, _, h3⟩ := hi.hStrip (by rw [fs]; exact hst)
    rw [ek, h1, ← fx]; exact h3

/-- the packing `(sol, ov)` is what `solve(sequence)` gives for a permutation of the items
under strategy `st` (at some container height when strip packing) -/
def FromStrategy (A : Arith) (i : Inst) (st : List PClass) (sol : Solution) (ov : ObjVals) : Prop :=
  ∃ (seq : List String) (H : Nat) (s : Solution), seq.Perm (i.items.map (·.1)) ∧
    (i.strip = true → 0 < H) ∧ (i.strip = false → H = i.height.getD 0) ∧
    solve A { i.solveIn with strategy := st, height := H } (some seq) = .ok (s, ov) ∧
    SamePacking sol s

/-- `v` is the value a local search under strategy `st` ends with (from some container height
when strip packing) -/
def LocalValue (A : Arith) (clock : Nat → Rat) (start : Rat) (throttle : Bool) (i : Inst)
    (st : List PClass) (v : Rat) : Prop :=
  ∃ (k : Nat) (h : Option Nat) (j : Inst) (t : LSState Inst (Solution × ObjVals)),
    (i.strip = false → h = i.height) ∧
    (i.strip = true → ∃ H, h = some H ∧ 0 < H ∧ H ≤ i.maxH) ∧
    Inst.localSearch A (fun n => clock (k + n)) start throttle { i with strategy := st, height := h } =
      .ok (j, t) ∧ j.calcObj A = .ok v

theorem Spec.SamePacking.trans {a b c : Solution} (h : SamePacking a b) (g : SamePacking b c) :
    SamePacking a c := by
  refine ⟨h.1.trans g.1, ?_⟩
  intro cid m hm
  obtain ⟨m', e1, e2⟩ := h.2 cid m hm
  obtain ⟨m'', e3, e4⟩ := g.2 cid m' e1
  exact ⟨m'', e3, e2.trans e4⟩

/-- the packing `(sol, ov)` is what `solve()` gives for the items in their current order under
one of the strategies `sts`, at some container height -/
def Starting (A : Arith) (i : Inst) (sts : List (List PClass)) (sol : Solution) (ov : ObjVals) : Prop :=
  ∃ (st : List PClass) (H : Nat) (s : Solution), st ∈ sts ∧ 0 < H ∧ H ≤ i.maxH ∧
    solve A { i.solveIn with strategy := st, height := H } none = .ok (s, ov) ∧ SamePacking sol s

theorem FromStrategy.facts {A : Arith} {i : Inst} (hv : i.Valid) {st : List PClass} {sol : Solution}
    {ov : ObjVals} (h : FromStrategy A i st sol ov) :
    SolFacts i.containers i.items sol ov := by
  obtain ⟨seq, H, s, h1, h2, h3, h4, h5⟩ := h
  have hvH : ValidIn { i.solveIn with strategy := st, height := H } := ⟨hv.conts, hv.items, h2⟩
  have hks : KnownSeq { i.solveIn with strategy := st, height := H } (some seq) := KnownSeq_perm h1
  exact h5.facts (solve_facts hvH hks h4)

structure HSInv (A : Arith) (clock : Nat → Rat) (start : Rat) (throttle : Bool) (i : Inst) (v0 : Rat)
    (s : HSState) : Prop where
  frame : s.inst = { i with
    strategy := s.inst.strategy, height := s.inst.height, heights := s.inst.heights,
    solution := s.inst.solution, objVals := s.inst.objVals }
  valid : s.inst.Valid
  bin : i.strip = false → s.inst.height = i.height ∧ s.inst.heights = i.heights
  minLe : i.minHeight.getD 0 ≤ i.height.getD 0 → i.minHeight.getD 0 ≤ s.inst.height.getD 0
  maxH : i.strip = true → s.inst.height.getD 0 ≤ i.maxH
  best : s.best = i.worth A (s.retained.2.map (·.2))
  src : (s.best = v0 ∧ s.bestStrategy = defaultStrategy ∧
      FromStrategy A i i.strategy s.retained.1 s.retained.2 ∧
      ∃ sol, solve A i.solveIn none = .ok (sol, s.retained.2) ∧ SamePacking s.retained.1 sol) ∨
    (v0 < s.best ∧ (s.bestStrategy, s.best) ∈ s.tried ∧
      FromStrategy A i s.bestStrategy s.retained.1 s.retained.2)
  ge : v0 ≤ s.best
  geTried : ∀ q ∈ s.tried, q.2 ≤ s.best
  full : i.strip = true → i.minHeight = none → (placedIds s.retained.1).Perm (i.items.map (·.1)) ∨
    Starting A i (i.strategy :: s.tried.map (·.1)) s.retained.1 s.retained.2
  triedVal : ∀ q ∈ s.tried, LocalValue A clock start throttle i q.1 q.2

theorem HSInv.gen {A clock start throttle i v0 s} (h : HSInv A clock start throttle i v0 s) :
    ∃ st, FromStrategy A i st s.retained.1 s.retained.2 := by
  rcases h.src with ⟨_, _, h, _⟩ | ⟨_, _, h⟩
  · exact ⟨_, h⟩
  · exact ⟨_, h⟩

theorem HSInv.overall {A clock start throttle i v0 s} (h : HSInv A clock start throttle i v0 s)
    (hv : i.Valid) (hn : i.containersNum = i.containers.length) :
    Spec.overall A (s.retained.2.map (·.2)) = s.best := by
  obtain ⟨st, hgen⟩ := h.gen
  rw [h.best]
  exact (Inst.worth_eq hn (hgen.facts hv).keysO).symm

/-- one pass of the loop -/
theorem hsStep_spec {A : Arith} {clock : Nat → Rat} {start : Rat} {throttle : Bool} {i : Inst}
    (hv : i.Valid) {v0 : Rat} {s : HSState} (hs : HSInv A clock start throttle i v0 s)
    (st : List PClass) :
    ∃ s' b v, hsStep A clock start throttle st s = .ok (s', b) ∧
      HSInv A clock start throttle i v0 s' ∧ s'.tried = s.tried ++ [(st, v)] ∧
      s.tick < s'.tick ∧ s'.inst.strategy = st ∧
      b = outOfTime A (clock (s'.tick - 1)) start i.maxTime := by
  have hvst : ({ s.inst with strategy := st } : Inst).Valid :=
    ⟨hs.valid.conts, hs.valid.items, hs.valid.contsNe, hs.valid.itemsNe, hs.valid.strip,
      hs.valid.height, hs.valid.minPos⟩
  obtain ⟨j, t, hls⟩ := C18_terminates A (fun k => clock (s.tick + k)) start throttle _ hvst
  obtain ⟨hvj, hml, hmx⟩ := localSearch_valid hvst hls
  obtain ⟨hfr, hbn⟩ := C17_frame _ _ _ _ _ _ _ hvst hls
  obtain ⟨solI, ovI, hI⟩ : ∃ sol ov, solve A ({ s.inst with strategy := st } : Inst).solveIn none = .ok (sol, ov) := by
    obtain ⟨sol, ov, _, _, h, _⟩ := init_spec (A := A) hvst
    exact ⟨sol, ov, h⟩
  have hobj : j.calcObj A = .ok (i.worth A (j.objVals.map (·.2))) := by
    rw [(C16_any_count _ _ _ _ _ _ _ hvst hls _ _ hI).2.2]
    congr 1
    rw [hs.frame]; rfl
  obtain ⟨seq, H, sol, g1, g2, g3, g4, g5⟩ := C17_genuine _ _ _ _ _ _ _ hvst hls
  have eitems : s.inst.items = i.items := by rw [hs.frame]
  have econts : s.inst.containers = i.containers := by rw [hs.frame]
  have estrip : s.inst.strip = i.strip := by rw [hs.frame]
  have erot : s.inst.rotation = i.rotation := by rw [hs.frame]
  have emin : s.inst.minHeight = i.minHeight := by rw [hs.frame]
  have etime : j.maxTime = i.maxTime := by rw [hfr]; simp only; rw [hs.frame]
  have hframe : j = { i with
      strategy := j.strategy, height := j.height, heights := j.heights,
      solution := j.solution, objVals := j.objVals } := by
    rw [hfr]; simp only; rw [hs.frame]
  have hstrat : j.strategy = st := by rw [hfr]
  -- the packing found
  have hgen : FromStrategy A i st j.solution j.objVals := by
    refine ⟨seq, H, sol, by rw [← eitems]; exact g1, ?_, ?_, ?_, g5⟩
    · intro h; exact (g2 (by rw [← estrip] at h; exact h)).2
    · intro h
      rw [g3 (by rw [← estrip] at h; exact h)]
      simp only
      rw [(hs.bin h).1]
    · rw [← g4]
      simp only [Inst.at, Inst.solveIn, eitems, econts, estrip, erot]
  have hf := hgen.facts hv
  obtain ⟨r, hr1, hr2⟩ := deepcopy_same hv.conts.1 hv.items.1 hf
  have hget : j.getSolution = .ok (r, j.objVals) := by
    simp only [Inst.getSolution, Inst.deepcopySolution, bind, Except.bind, pure, Except.pure]
    rw [hframe]
    simp only [copyObjVals_eq]
    rw [hr1]
  have hgenr : FromStrategy A i st r j.objVals := by
    obtain ⟨a, b, c, d1, d2, d3, d4, d5⟩ := hgen
    exact ⟨a, b, c, d1, d2, d3, d4, hr2.trans d5⟩
  have hlv : LocalValue A clock start throttle i st (i.worth A (j.objVals.map (·.2))) := by
    refine ⟨s.tick, s.inst.height, j, t, fun h => (hs.bin h).1, ?_, ?_, hobj⟩
    · intro h
      obtain ⟨H, h1, h2⟩ := hs.valid.height (by rw [estrip]; exact h)
      refine ⟨H, h1, h2, ?_⟩
      have := hs.maxH h
      rw [h1] at this
      exact this
    rw [← hls]
    have key : ∀ k : Inst, (k.strip = true ∨ k.heights = s.inst.heights) →
        ({ k with heights := s.inst.heights, solution := s.inst.solution, objVals := s.inst.objVals } : Inst)
          = { s.inst with strategy := st } →
        Inst.localSearch A (fun n => clock (s.tick + n)) start throttle k =
          Inst.localSearch A (fun n => clock (s.tick + n)) start throttle { s.inst with strategy := st } := by
      intro k hk he
      rw [← he]
      rcases hk with hk | hk
      · rw [← localSearch_forget_heights A _ start throttle k s.inst.heights hk]
        exact (localSearch_forget A _ start throttle { k with heights := s.inst.heights } _ _).symm
      · rw [← hk]
        exact (localSearch_forget A _ start throttle k _ _).symm
    apply key
    · cases hst : i.strip with
      | false => exact Or.inr (hs.bin hst).2.symm
      | true => exact Or.inl rfl
    · rw [hs.frame]
  have hbin' : i.strip = false → j.height = i.height ∧ j.heights = i.heights := by
    intro h
    obtain ⟨a, b⟩ := hbn (by rw [← estrip] at h; exact h)
    obtain ⟨c, d⟩ := hs.bin h
    exact ⟨a.trans c, b.trans d⟩
  have hmin' : i.minHeight.getD 0 ≤ i.height.getD 0 → i.minHeight.getD 0 ≤ j.height.getD 0 := by
    intro h
    have h1 := hs.minLe h
    have h2 := hml (by simp only; rw [emin]; exact h1)
    rw [hfr] at h2
    simp only at h2
    rw [emin] at h2
    exact h2
  have hmax' : i.strip = true → j.height.getD 0 ≤ i.maxH := by
    intro h
    have h1 := hmx (by rw [← estrip] at h; exact h)
    have h2 := hs.maxH h
    unfold Inst.maxH at h1 h2 ⊢
    simp only at h1
    rw [emin] at h1
    omega
  have hfull : i.strip = true → i.minHeight = none → (placedIds r).Perm (i.items.map (·.1)) ∨
      Starting A i [st] r j.objVals := by
    intro hst hm0
    have hst' : s.inst.strip = true := by rw [estrip]; exact hst
    obtain ⟨H, k1, k2⟩ := hs.valid.height hst'
    rcases C23_final_height _ _ _ _ _ _ _ hvst (by exact hst') hls with ⟨a1, _, sol1, a3, a4⟩ | ⟨m, _, _, b3⟩
    · right
      refine ⟨st, H, sol1, by simp, k2, ?_, ?_, hr2.trans a4⟩
      · have := hs.maxH hst; rw [k1] at this; exact this
      · rw [← a3]
        simp only [Inst.solveIn, eitems, econts, estrip, erot, k1, Option.getD_some]
    · left
      have hb3 := b3 (by simp only; rw [emin]; exact hm0)
      have hk : j.solution = [(stripId, m)] := by assumption
      obtain ⟨_, _, hnd, hsz⟩ := C17_carries_over _ _ _ _ _ _ _ hvst hls
      have hp := hr2.placedIds_perm (by rw [hk]; simp [PyDict.keys])
      refine hp.trans ?_
      rw [hk] at hnd hsz ⊢
      obtain ⟨c, _, h1, _⟩ := hsz stripId m (by simp)
      have hpl : placedIds [(stripId, m)] = m.map (·.1) := by simp [placedIds]
      rw [hpl] at hnd ⊢
      refine (List.subperm_of_subset hnd ?_).perm_of_length_le (by simp [hb3, eitems])
      intro id hid
      obtain ⟨q, hq, rfl⟩ := List.mem_map.1 hid
      obtain ⟨d, hd, _⟩ := h1 q.1 q.2 hq
      simp only at hd
      rw [eitems] at hd
      exact List.mem_map.2 ⟨_, hd, rfl⟩
  by_cases hc : i.worth A (j.objVals.map (·.2)) > s.best
  · refine ⟨⟨j, i.worth A (j.objVals.map (·.2)), (r, j.objVals), st, s.tick + t.tick + 1,
      s.tried ++ [(st, i.worth A (j.objVals.map (·.2)))]⟩,
      outOfTime A (clock (s.tick + t.tick)) start i.maxTime, i.worth A (j.objVals.map (·.2)), ?_, ?_, rfl, ?_, hstrat, ?_⟩
    · unfold hsStep
      simp only [bind, Except.bind, hls, hobj, checkSolution, hc, decide_true, if_true, hget, globalCheck,
        optimumObjVal, Bool.false_eq_true, if_false, pure, Except.pure, etime]
    · refine ⟨hframe, hvj, hbin', hmin', hmax', rfl, Or.inr ⟨?_, ?_, hgenr⟩, ?_, ?_, ?_, ?_⟩
      · exact lt_of_le_of_lt hs.ge hc
      · simp
      · exact le_of_lt (lt_of_le_of_lt hs.ge hc)
      · intro q hq
        rcases List.mem_append.1 hq with hq | hq
        · exact le_of_lt (lt_of_le_of_lt (hs.geTried q hq) hc)
        · simp at hq; subst hq; exact le_refl _
      · intro h1 h2
        rcases hfull h1 h2 with h | ⟨st', H, s1, g1, g2⟩
        · exact Or.inl h
        · refine Or.inr ⟨st', H, s1, ?_, g2⟩
          simp only [List.mem_singleton] at g1
          subst g1
          simp
      · intro q hq
        rcases List.mem_append.1 hq with hq | hq
        · exact hs.triedVal q hq
        · simp at hq; subst hq; exact hlv
    · simp only; omega
    · simp
  · refine ⟨{ s with
        inst := j, tick := s.tick + t.tick + 1, tried := s.tried ++ [(st, i.worth A (j.objVals.map (·.2)))] },
      outOfTime A (clock (s.tick + t.tick)) start i.maxTime, i.worth A (j.objVals.map (·.2)), ?_, ?_, rfl, ?_, hstrat, ?_⟩
    · unfold hsStep
      simp only [bind, Except.bind, hls, hobj, checkSolution, hc, decide_false, Bool.false_eq_true, if_false,
        pure, Except.pure, etime]
    · refine ⟨hframe, hvj, hbin', hmin', hmax', hs.best, ?_, hs.ge, ?_, ?_, ?_⟩
      · rcases hs.src with h | ⟨h1, h2, h3⟩
        · exact Or.inl h
        · exact Or.inr ⟨h1, List.mem_append_left _ h2, h3⟩
      · intro q hq
        rcases List.mem_append.1 hq with hq | hq
        · exact hs.geTried q hq
        · simp at hq; subst hq; exact not_lt.1 hc
      · intro h1 h2
        rcases hs.full h1 h2 with h | ⟨st', H, s1, g1, g2⟩
        · exact Or.inl h
        · refine Or.inr ⟨st', H, s1, ?_, g2⟩
          simp only [List.map_append]
          rcases List.mem_cons.1 g1 with g1 | g1
          · exact List.mem_cons.2 (Or.inl g1)
          · exact List.mem_cons.2 (Or.inr (List.mem_append_left _ g1))
      · intro q hq
        rcases List.mem_append.1 hq with hq | hq
        · exact hs.triedVal q hq
        · simp at hq; subst hq; exact hlv
    · simp only; omega
    · simp

/-- the loop over the strategies: all are tried, or the last clock reading was out of time -/
theorem hsLoop_spec {A : Arith} {clock : Nat → Rat} {start : Rat} {throttle : Bool} {i : Inst}
    (hv : i.Valid) {v0 : Rat} : ∀ (sts : List (List PClass)) {s : HSState},
    HSInv A clock start throttle i v0 s →
    ∃ s' used, hsLoop A clock start throttle sts s = .ok s' ∧
      HSInv A clock start throttle i v0 s' ∧
      s'.tried.map (·.1) = s.tried.map (·.1) ++ used ∧ used <+: sts ∧
      (used = [] → s' = s) ∧ (used ≠ [] → used.getLast? = some s'.inst.strategy) ∧
      (used = sts ∨ outOfTime A (clock (s'.tick - 1)) start i.maxTime = true) ∧
      (sts ≠ [] → used ≠ [])
  | [], s, hs => ⟨s, [], rfl, hs, by simp, List.prefix_refl _, fun _ => rfl, fun h => absurd rfl h,
      Or.inl rfl, fun h => absurd rfl h⟩
  | st :: rest, s, hs => by
    obtain ⟨s1, b, v, h1, h2, h3, h4, h5, h6⟩ := hsStep_spec hv hs st
    cases hb : b with
    | true =>
      refine ⟨s1, [st], ?_, h2, by rw [h3]; simp, ⟨rest, rfl⟩, by simp, by simp [h5],
        Or.inr (by rw [← h6, hb]), by simp⟩
      unfold hsLoop
      simp only [bind, Except.bind, h1, hb, if_true, pure, Except.pure]
    | false =>
      obtain ⟨s2, used, g1, g2, g3, g4, g5, g6, g7, g8⟩ := hsLoop_spec hv rest h2
      refine ⟨s2, st :: used, ?_, g2, ?_, ?_, by simp, ?_, ?_, by simp⟩
      · unfold hsLoop
        simp only [bind, Except.bind, h1, hb, Bool.false_eq_true, if_false]
        exact g1
      · rw [g3, h3]; simp
      · obtain ⟨t, ht⟩ := g4
        exact ⟨t, by rw [← ht]; rfl⟩
      · intro _
        by_cases hu : used = []
        · rw [g5 hu, hu]; simp [h5]
        · have h7 := g6 hu
          rw [List.getLast?_cons_of_ne_nil hu]
          exact h7
      · rcases g7 with h | h
        · exact Or.inl (by rw [h])
        · exact Or.inr h

/-- everything about one single process hypersearch -/
theorem singleHS_spec {A : Arith} {clock : Nat → Rat} {start : Rat} {throttle : Bool} {i : Inst}
    (hv : i.Valid) (sts : List (List PClass)) :
    ∃ s sol0 ov0, i.singleHS A clock start throttle sts = .ok s ∧
      solve A i.solveIn none = .ok (sol0, ov0) ∧
      HSInv A clock start throttle i (i.worth A (ov0.map (·.2))) s ∧
      s.tried.map (·.1) <+: sts ∧
      (sts ≠ [] → s.tried ≠ []) ∧
      (s.tried.map (·.1)).getLast? = (if s.tried = [] then none else some s.inst.strategy) ∧
      (s.tried.map (·.1) = sts ∨ outOfTime A (clock (s.tick - 1)) start i.maxTime = true) := by
  obtain ⟨sol, ov, r, h1, h2, h3, h4, h5, h6⟩ := init_spec (A := A) hv
  have hinv : HSInv A clock start throttle i (i.worth A (ov.map (·.2)))
      ⟨i.upd sol ov i.height i.heights, i.worth A (ov.map (·.2)), (r, ov), defaultStrategy, 0, []⟩ := by
    refine ⟨rfl, ?_, fun _ => ⟨rfl, rfl⟩, fun h => h, ?_, rfl, Or.inl ⟨rfl, rfl, ?_, sol, h2, h4⟩, le_refl _,
      by simp, ?_, by simp⟩
    · exact ⟨hv.conts, hv.items, hv.contsNe, hv.itemsNe, hv.strip, hv.height, hv.minPos⟩
    · intro _; unfold Inst.maxH; simp only [Inst.upd]; omega
    · refine ⟨PyDict.keys i.items, i.height.getD 0, sol, .refl _, ?_, fun _ => rfl, h1, h4⟩
      intro hst
      obtain ⟨k, hk, hp⟩ := hv.height hst
      rw [hk]; exact hp
    · intro hst _
      obtain ⟨k, hk, hp⟩ := hv.height hst
      refine Or.inr ⟨i.strategy, k, sol, by simp, hp, ?_, ?_, h4⟩
      · unfold Inst.maxH; rw [hk]; simp only [Option.getD_some]; omega
      · rw [← h2]; simp only [Inst.solveIn, hk, Option.getD_some]
  obtain ⟨s, used, g1, g2, g3, g4, g5, g6, g7, g8⟩ := hsLoop_spec hv sts hinv
  simp only [List.map_nil, List.nil_append] at g3
  refine ⟨s, sol, ov, ?_, h2, g2, by rw [g3]; exact g4, ?_, ?_, by rw [g3]; exact g7⟩
  · unfold Inst.singleHS
    simp only [bind, Except.bind, h5, h6]
    exact g1
  · intro hne he
    rw [he] at g3
    exact g8 hne g3.symm
  · rw [g3]
    split
    · rename_i he
      rw [he] at g3
      rw [← g3]; rfl
    · rename_i he
      refine g6 ?_
      intro hu
      rw [hu] at g3
      exact he (by simpa using g3)

end HP
