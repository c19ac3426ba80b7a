import Verif.Proofs.LocalSearch
/-
Invariant and termination of the local search.
-/
namespace HP
open Spec

/-- largest container height a local search can use -/
def Inst.maxH (i : Inst) : Nat := max (i.height.getD 0) (i.minHeight.getD 0)

/-- a strip search may only keep incomplete packings when a minimum height is set -/
def Complete (i : Inst) (sol : Solution) : Prop :=
  i.minHeight = none → (stripPart sol).length = i.items.length

/-- invariant of the search; `i` is the instance at the start, `h`, `hs` its current
container height and height history, `hN`, `sol` the height and packing of the current node -/
structure LSInvAt (A : Arith) (i : Inst) (s : LSState Inst (Solution × ObjVals))
    (h : Option Nat) (hs : List Nat) (hN : Nat) (sol : Solution) : Prop where
  obj : ∃ sol ov, s.obj = i.upd sol ov h hs
  hStrip : i.strip = true → ∃ n, h = some n ∧ 0 < n ∧ n ≤ i.maxH
  hBin : i.strip = false → h = i.height ∧ hs = i.heights
  nStrip : i.strip = true → 0 < hN ∧ hN ≤ i.maxH
  nBin : i.strip = false → hN = i.height.getD 0
  node : s.node.Perm (PyDict.keys i.items)
  packs : Packs A i hN s.node sol s.retained.2
  same : SamePacking s.retained.1 sol
  best : s.best = i.worth A (s.retained.2.map (·.2))
  strip : i.strip = true →
    (h = i.height ∧ hs = i.heights ∧ hN = i.height.getD 0 ∧ s.node = PyDict.keys i.items) ∨
    (h = nextH i sol none ∧ Complete i sol ∧
      ((i.minHeight.getD 0 ≤ i.height.getD 0) → h.getD 0 ≤ hN ∧ hN ≤ i.height.getD 0))
  hist : i.strip = true → i.heights = [i.height.getD 0] →
    hs.head? = some (i.height.getD 0) ∧ hs.getLast? = some (h.getD 0) ∧ hN ∈ hs ∧
    (i.minHeight.getD 0 ≤ i.height.getD 0 → hs.Pairwise (· ≥ ·) ∧ i.minHeight.getD 0 ≤ h.getD 0)

def LSInv (A : Arith) (i : Inst) (s : LSState Inst (Solution × ObjVals)) : Prop :=
  ∃ h hs hN sol, LSInvAt A i s h hs hN sol

/-- a packing at strip height `h` is not higher than `h` -/
theorem stack_le {A : Arith} {i : Inst} (hv : i.Valid) (hst : i.strip = true) {h : Nat}
    (hh : 0 < h) {seq : List String} (hp : seq.Perm (PyDict.keys i.items)) {sol : Solution}
    {ov : ObjVals} (hpk : Packs A i h seq sol ov) : stackOf (stripPart sol) ≤ h := by
  have hf := hpk.facts hv (fun _ => hh) hp
  obtain ⟨_, hmem⟩ := find_strip hv hst hf
  obtain ⟨c, hc, hin⟩ := C03_inside A _ (withH_valid hv (fun _ => hh)) (some seq)
    (KnownSeq_perm hp) sol ov hpk _ _ hmem
  rw [stackOf_eq, stackHeight_le]
  intro r hr
  obtain ⟨q, hq, rfl⟩ := List.mem_map.1 hr
  have := (hin q hq).2
  simpa [lenOf, SolveIn.withH, Inst.solveIn, hst] using this

theorem stack_pos {A : Arith} {i : Inst} (hv : i.Valid) (hst : i.strip = true) {h : Nat}
    (hh : 0 < h) {seq : List String} (hp : seq.Perm (PyDict.keys i.items)) {sol : Solution}
    {ov : ObjVals} (hpk : Packs A i h seq sol ov)
    (hc : (stripPart sol).length = i.items.length) : 0 < stackOf (stripPart sol) := by
  have hf := hpk.facts hv (fun _ => hh) hp
  obtain ⟨_, hmem⟩ := find_strip hv hst hf
  have hlen : 0 < (stripPart sol).length := by
    rw [hc]; exact List.length_pos_iff.2 hv.itemsNe
  obtain ⟨q, hq⟩ := List.exists_mem_of_length_pos hlen
  obtain ⟨id, r⟩ := q
  obtain ⟨d, hd, hsz⟩ := C05_sizes A _ (withH_valid hv (fun _ => hh)) (some seq)
    (KnownSeq_perm hp) sol ov hpk _ _ hmem id r hq
  have hd' := hv.items.2 _ hd
  have hl : 0 < r.l := by
    rcases hsz with ⟨_, h2⟩ | ⟨_, _, h2⟩
    · rw [h2]; exact hd'.2
    · rw [h2]; exact hd'.1
  have : r.y + r.l ≤ stackOf (stripPart sol) := by
    rw [stackOf_eq]
    exact (stackHeight_le.1 (Nat.le_refl _)) r (List.mem_map.2 ⟨_, hq, rfl⟩)
  omega

/-- a scan that finds nothing keeps the invariant, with the same node -/
theorem LSInvAt_stay {A : Arith} {C : LSParams} {maxN : Nat} {i : Inst}
    {swaps : List (Nat × Nat)} {s s' : LSState Inst (Solution × ObjVals)} {lg : NodeLog}
    {h : Option Nat} {hs : List Nat} {hN : Nat} {sol : Solution}
    (hi : LSInvAt A i s h hs hN sol) (hr : ScanRes A C maxN i swaps 0 h hs s s' lg)
    (hfd : lg.found = false) : LSInvAt A i s' h hs hN sol := by
  obtain ⟨q1, q2, q3, q4, _, _⟩ := hr.stay hfd
  exact ⟨q4, hi.hStrip, hi.hBin, hi.nStrip, hi.nBin, by rw [q1]; exact hi.node,
    by rw [q1, q3]; exact hi.packs, by rw [q3]; exact hi.same, by rw [q2, q3]; exact hi.best,
    by rw [q1]; exact hi.strip, hi.hist⟩

/-- a scan that finds a better neighbour keeps the invariant, with the neighbour as the node -/
theorem LSInvAt_move {A : Arith} {i : Inst} (hv : i.Valid)
    {s s' : LSState Inst (Solution × ObjVals)}
    {h : Option Nat} {hs : List Nat} {hN : Nat} {sol sol1 : Solution} {ov1 : ObjVals} {p : Nat × Nat}
    (hi : LSInvAt A i s h hs hN sol)
    (e1 : s'.node = exchange s.node p.1 p.2)
    (e2 : Packs A i (h.getD 0) s'.node sol1 ov1) (e3 : Acc i sol1 (i.worth A (ov1.map (·.2))) s.best)
    (e4 : s'.best = i.worth A (ov1.map (·.2))) (e5 : s'.retained.2 = ov1)
    (e6 : SamePacking s'.retained.1 sol1)
    (e7 : s'.obj = i.upd sol1 ov1 (nextH i sol1 h)
        (if i.strip then hs ++ [(nextH i sol1 h).getD 0] else hs)) :
    LSInvAt A i s' (nextH i sol1 h) (if i.strip then hs ++ [(nextH i sol1 h).getD 0] else hs)
      (h.getD 0) sol1 := by
  have hperm : s'.node.Perm (PyDict.keys i.items) := by
    rw [e1]; exact (exchange_perm _ _ _).trans hi.node
  have hpos : i.strip = true → 0 < h.getD 0 := by
    intro hst
    obtain ⟨n, rfl, hn, _⟩ := hi.hStrip hst
    exact hn
  have hmx : i.strip = true → h.getD 0 ≤ i.maxH := by
    intro hst
    obtain ⟨n, rfl, hn, h2⟩ := hi.hStrip hst
    exact h2
  have hnext : i.strip = true → nextH i sol1 h = some (max (stackOf (stripPart sol1)) (i.minHeight.getD 0)) := by
    intro hst; unfold nextH; rw [if_pos hst]
  constructor
  · exact ⟨sol1, ov1, e7⟩
  · intro hst
    refine ⟨_, hnext hst, ?_, ?_⟩
    · cases hm : i.minHeight with
      | none =>
        have := stack_pos hv hst (hpos hst) hperm e2 (e3.2 hst hm)
        omega
      | some m =>
        have := hv.minPos m hm
        simp only [Option.getD_some]; omega
    · have h1 := stack_le hv hst (hpos hst) hperm e2
      have h2 := hmx hst
      unfold Inst.maxH at h2 ⊢
      omega
  · intro hst
    have : (if i.strip = true then hs ++ [(nextH i sol1 h).getD 0] else hs) = hs := by
      rw [hst]; simp
    rw [this]
    have hn : nextH i sol1 h = h := by unfold nextH; rw [hst]; simp
    rw [hn]; exact hi.hBin hst
  · intro hst; exact ⟨hpos hst, hmx hst⟩
  · intro hst; rw [(hi.hBin hst).1]
  · exact hperm
  · rw [e5]; exact e2
  · exact e6
  · rw [e4, e5]
  · intro hst
    right
    refine ⟨by unfold nextH; rw [if_pos hst, if_pos hst], e3.2 hst, ?_⟩
    intro hm
    rw [hnext hst]
    have h1 := stack_le hv hst (hpos hst) hperm e2
    simp only [Option.getD_some]
    rcases hi.strip hst with ⟨a1, _⟩ | ⟨b1, _, b3⟩
    · rw [a1] at h1 ⊢; omega
    · have b4 := b3 hm
      have : i.minHeight.getD 0 ≤ h.getD 0 := by
        rw [b1]; unfold nextH; rw [if_pos hst]; simp only [Option.getD_some]; omega
      omega
  · intro hst hh0
    obtain ⟨c1, c2, _, c3⟩ := hi.hist hst hh0
    rw [if_pos hst]
    refine ⟨?_, ?_, List.mem_append_left _ (List.mem_of_getLast? c2), ?_⟩
    · cases hs with
      | nil => simp at c1
      | cons a l => simpa using c1
    · simp
    · intro hm
      obtain ⟨c4, c5⟩ := c3 hm
      have h1 := stack_le hv hst (hpos hst) hperm e2
      have hle : (nextH i sol1 h).getD 0 ≤ h.getD 0 := by
        rw [hnext hst]; simp only [Option.getD_some]; omega
      refine ⟨?_, ?_⟩
      · rw [List.pairwise_append]
        refine ⟨c4, by simp, ?_⟩
        intro a ha b hb
        simp only [List.mem_cons, List.not_mem_nil, or_false] at hb
        subst hb
        -- every earlier entry is at least the last one
        have hlast : h.getD 0 ≤ a := by
          obtain ⟨l', hl'⟩ : ∃ l', hs = l' ++ [h.getD 0] := by
            rw [List.getLast?_eq_some_iff] at c2; exact c2
          rw [hl'] at ha c4
          rw [List.pairwise_append] at c4
          rcases List.mem_append.1 ha with ha | ha
          · exact c4.2.2 a ha _ (by simp)
          · simp at ha; omega
        exact Nat.le_trans hle hlast
      · rw [hnext hst]; simp only [Option.getD_some]; omega

theorem LSInv_scan {A : Arith} {C : LSParams} {maxN : Nat} {i : Inst} (hv : i.Valid)
    {swaps : List (Nat × Nat)} {s s' : LSState Inst (Solution × ObjVals)} {lg : NodeLog}
    {h : Option Nat} {hs : List Nat} {hN : Nat} {sol : Solution}
    (hi : LSInvAt A i s h hs hN sol) (hr : ScanRes A C maxN i swaps 0 h hs s s' lg) :
    LSInv A i s' := by
  cases hfd : lg.found with
  | false => exact ⟨h, hs, hN, sol, LSInvAt_stay hi hr hfd⟩
  | true =>
    obtain ⟨p, hp, sol1, ov1, e1, e2, e3, e4, e5, e6, e7⟩ := hr.move hfd
    exact ⟨_, _, _, _, LSInvAt_move hv hi e1 e2 e3 e4 e5 e6 e7⟩

/-- node by node trace of the `while` loop -/
inductive LSPath (A : Arith) (C : LSParams) (maxN : Nat) (swaps : List (Nat × Nat)) (i : Inst) :
    LSState Inst (Solution × ObjVals) → LSState Inst (Solution × ObjVals) → Prop where
  | stop {s s' lg h hs} : (∃ sol ov, s.obj = i.upd sol ov h hs) →
      ScanRes A C maxN i swaps 0 h hs s s' lg →
      (lg.found = false ∨ lg.outOfTime = true) →
      LSPath A C maxN swaps i s { s' with log := s'.log ++ [lg] }
  | next {s s' lg h hs t} : (∃ sol ov, s.obj = i.upd sol ov h hs) →
      ScanRes A C maxN i swaps 0 h hs s s' lg → lg.found = true → lg.outOfTime = false →
      LSPath A C maxN swaps i { s' with log := s'.log ++ [lg] } t → LSPath A C maxN swaps i s t

/-- the value of a sequence at a container height -/
def seqVal (A : Arith) (i : Inst) (h : Nat) (seq : List String) : Rat :=
  match solve A (i.solveIn.withH h) (some seq) with
  | .ok r => i.worth A (r.2.map (·.2))
  | .error _ => 0

theorem seqVal_eq {A : Arith} {i : Inst} {h : Nat} {seq : List String} {sol : Solution}
    {ov : ObjVals} (hp : Packs A i h seq sol ov) : seqVal A i h seq = i.worth A (ov.map (·.2)) := by
  unfold seqVal Packs at *; rw [hp]

/-- all values the search can see -/
def allVals (A : Arith) (i : Inst) : List Rat :=
  (PyDict.keys i.items).permutations.flatMap
    (fun seq => (List.range (i.maxH + 1)).map (fun h => seqVal A i h seq))

theorem fact_eq : ∀ n, fact n = n.factorial
  | 0 => rfl
  | n + 1 => by simp [fact, Nat.factorial, fact_eq n]

theorem length_allVals (A : Arith) (i : Inst) :
    (allVals A i).length = fact i.items.length * (i.maxH + 1) := by
  unfold allVals
  rw [List.length_flatMap]
  simp only [List.length_map, List.length_range]
  rw [List.map_const', List.sum_replicate_nat, List.length_permutations, fact_eq]
  simp [PyDict.keys]

/-- termination measure -/
def lsMeasure (A : Arith) (i : Inst) (best : Rat) : Nat :=
  ((allVals A i).filter (fun v => decide (v > best))).length

theorem lsMeasure_lt {A : Arith} {i : Inst} {best v : Rat} (hv : v ∈ allVals A i) (hb : v > best) :
    lsMeasure A i v < lsMeasure A i best := by
  unfold lsMeasure
  have h1 : (allVals A i).filter (fun x => decide (x > v)) =
      ((allVals A i).filter (fun x => decide (x > best))).filter (fun x => decide (x > v)) := by
    rw [List.filter_filter]
    apply List.filter_congr
    intro x _
    by_cases hx : x > v
    · have : x > best := lt_trans hb hx
      simp [hx, this]
    · simp [hx]
  rw [h1]
  apply List.length_filter_lt_length_iff_exists.2
  exact ⟨v, List.mem_filter.2 ⟨hv, by simpa using hb⟩, by simp⟩

theorem seqVal_mem {A : Arith} {i : Inst} {h : Nat} {seq : List String}
    (hp : seq.Perm (PyDict.keys i.items)) (hh : h ≤ i.maxH) : seqVal A i h seq ∈ allVals A i := by
  unfold allVals
  rw [List.mem_flatMap]
  refine ⟨seq, List.mem_permutations.2 hp, List.mem_map.2 ⟨h, ?_, rfl⟩⟩
  rw [List.mem_range]; omega

theorem LSInv.log {A : Arith} {i : Inst} {s : LSState Inst (Solution × ObjVals)}
    (h : LSInv A i s) (l : List NodeLog) : LSInv A i { s with log := l } := by
  obtain ⟨a, b, c, d, hi⟩ := h
  exact ⟨a, b, c, d, ⟨hi.obj, hi.hStrip, hi.hBin, hi.nStrip, hi.nBin, hi.node, hi.packs, hi.same,
    hi.best, hi.strip, hi.hist⟩⟩

/-- the loop runs to its end within the fuel -/
theorem lsLoop_path {A : Arith} {C : LSParams} {maxN : Nat} {i : Inst} (hv : i.Valid) {n : Nat}
    (hn : n = i.items.length) :
    ∀ (fuel : Nat) (s : LSState Inst (Solution × ObjVals)), LSInv A i s →
      lsMeasure A i s.best < fuel →
      ∃ t, lsLoop (instOps A) C maxN (indexSwaps n) fuel s = .ok t ∧
        LSPath A C maxN (indexSwaps n) i s t ∧ LSInv A i t
  | 0, _, _, h => by omega
  | fuel + 1, s, hinv, hm => by
    obtain ⟨h, hs, hN, sol, hi⟩ := hinv
    have hlen : s.node.length = n := by
      rw [hi.node.length_eq, hn]; simp [PyDict.keys]
    obtain ⟨s', lg, g1, g2⟩ := scan_spec (A := A) (C := C) (maxN := maxN) hv (h := h) (hs := hs)
      (by
        intro hst
        obtain ⟨k, rfl, hk, _⟩ := hi.hStrip hst
        exact hk) (indexSwaps n) 0 s hi.obj hi.node (by
        intro p hp
        obtain ⟨a, b⟩ := p
        have := mem_indexSwaps.1 hp
        simp only; omega)
    have hinv' := LSInv_scan hv hi g2
    unfold lsLoop
    simp only [bind, Except.bind, g1]
    by_cases hc : (lg.found && !lg.outOfTime && !lg.globalOpt) = true
    · rw [if_pos hc]
      simp only [Bool.and_eq_true, Bool.not_eq_eq_eq_not, Bool.not_true] at hc
      obtain ⟨⟨hf, ho⟩, _⟩ := hc
      have hlt : lsMeasure A i s'.best < fuel := by
        obtain ⟨p, hp, sol1, ov1, e1, e2, e3, e4, e5, e6, e7⟩ := g2.move hf
        have hperm : s'.node.Perm (PyDict.keys i.items) := by
          rw [e1]; exact (exchange_perm _ _ _).trans hi.node
        have hmem : s'.best ∈ allVals A i := by
          rw [e4, ← seqVal_eq e2]
          apply seqVal_mem hperm
          cases hst : i.strip with
          | true =>
            obtain ⟨k, rfl, _, hk⟩ := hi.hStrip hst
            exact hk
          | false => rw [(hi.hBin hst).1]; unfold Inst.maxH; omega
        have := lsMeasure_lt hmem (best := s.best) (by rw [e4]; exact e3.1)
        omega
      obtain ⟨t, t1, t2, t3⟩ := lsLoop_path hv hn fuel { s' with log := s'.log ++ [lg] }
        (hinv'.log _) hlt
      exact ⟨t, t1, .next hi.obj g2 hf ho t2, t3⟩
    · rw [if_neg hc]
      refine ⟨_, rfl, .stop hi.obj g2 ?_, hinv'.log _⟩
      simp only [g2.glob, Bool.not_false, Bool.and_true, Bool.and_eq_true,
        Bool.not_eq_eq_eq_not, Bool.not_true, not_and_or, Bool.not_eq_true,
        Bool.not_eq_false] at hc
      exact hc

/-- the base instance of a search: `_heights_history` restarted in strip packing -/
def Inst.searchBase (i : Inst) : Inst :=
  if i.strip then { i with heights := [i.height.getD 0] } else i

theorem searchBase_valid {i : Inst} (hv : i.Valid) : i.searchBase.Valid := by
  unfold Inst.searchBase
  split
  · exact ⟨hv.conts, hv.items, hv.contsNe, hv.itemsNe, hv.strip, hv.height, hv.minPos⟩
  · exact hv

theorem searchBase_worth (A : Arith) (i : Inst) (vals : List Rat) :
    i.searchBase.worth A vals = i.worth A vals := by
  unfold Inst.searchBase; split <;> rfl

theorem searchBase_solveIn (i : Inst) : i.searchBase.solveIn = i.solveIn := by
  unfold Inst.searchBase; split <;> rfl

/-- start of a local search -/
theorem init_spec {A : Arith} {i : Inst} (hv : i.Valid) :
    ∃ sol ov r, Packs A i (i.height.getD 0) (PyDict.keys i.items) sol ov ∧
      solve A i.solveIn none = .ok (sol, ov) ∧
      SolFacts i.containers i.items sol ov ∧ SamePacking r sol ∧
      i.initSolution A = .ok (i.upd sol ov i.height i.heights, (r, ov)) ∧
      (i.upd sol ov i.height i.heights).calcObj A = .ok (i.worth A (ov.map (·.2))) := by
  have hh : i.strip = true → 0 < i.height.getD 0 := by
    intro hst
    obtain ⟨k, hk, hp⟩ := hv.height hst
    rw [hk]; exact hp
  obtain ⟨sol, ov, hpk⟩ := packs_exists (A := A) hv hh (.refl _)
  have hf := hpk.facts hv hh (.refl _)
  obtain ⟨r, hr1, hr2⟩ := deepcopy_same hv.conts.1 hv.items.1 hf
  have hnone : solve A i.solveIn none = .ok (sol, ov) := by
    rw [solve_none_eq (p := i.solveIn) hv.items.1]; exact hpk
  refine ⟨sol, ov, r, hpk, hnone, hf, hr2, ?_, ?_⟩
  · simp only [Inst.initSolution, Inst.solve, bind, Except.bind, hnone, pure, Except.pure,
      Inst.getSolution, Inst.deepcopySolution]
    rw [hr1, copyObjVals_eq]
    rfl
  · exact calcObj_eq (i := i.upd sol ov i.height i.heights) hf.keysO hv.contsNe

/-- everything about one run of `local_search` -/
theorem localSearch_spec {A : Arith} {clock : Nat → Rat} {start : Rat} {throttle : Bool} {i : Inst}
    (hv : i.Valid) :
    ∃ s0 t, (∃ sol ov r, solve A i.solveIn none = .ok (sol, ov) ∧ SamePacking r sol ∧
        s0 = ⟨i.searchBase.upd sol ov i.searchBase.height i.searchBase.heights,
          PyDict.keys i.items, i.worth A (ov.map (·.2)), (r, ov), 0, []⟩) ∧
      i.localSearch A clock start throttle =
        .ok ({ t.obj with solution := t.retained.1, objVals := t.retained.2 }, t) ∧
      LSPath A ⟨A, clock, start, i.maxTime⟩ (maxNeighbors throttle i.items.length)
        (indexSwaps i.items.length) i.searchBase s0 t ∧
      LSInv A i.searchBase s0 ∧ LSInv A i.searchBase t := by
  have hvb := searchBase_valid hv
  obtain ⟨sol, ov, r, h1, h2, h3, h4, h5, h6⟩ := init_spec (A := A) hvb
  have hitems : i.searchBase.items = i.items := by unfold Inst.searchBase; split <;> rfl
  have hmaxT : i.searchBase.maxTime = i.maxTime := by unfold Inst.searchBase; split <;> rfl
  have hstr : i.searchBase.strip = i.strip := by unfold Inst.searchBase; split <;> rfl
  rw [searchBase_solveIn] at h2
  let s0 : LSState Inst (Solution × ObjVals) :=
    ⟨i.searchBase.upd sol ov i.searchBase.height i.searchBase.heights,
      PyDict.keys i.items, i.worth A (ov.map (·.2)), (r, ov), 0, []⟩
  have hinv : LSInv A i.searchBase s0 := by
    refine ⟨i.searchBase.height, i.searchBase.heights, i.searchBase.height.getD 0, sol, ?_⟩
    constructor
    · exact ⟨sol, ov, rfl⟩
    · intro hst
      obtain ⟨k, hk, hp⟩ := hvb.height hst
      exact ⟨k, hk, hp, by unfold Inst.maxH; rw [hk]; simp only [Option.getD_some]; omega⟩
    · intro _; exact ⟨rfl, rfl⟩
    · intro hst
      obtain ⟨k, hk, hp⟩ := hvb.height hst
      unfold Inst.maxH; rw [hk]; simp only [Option.getD_some]; omega
    · intro _; rfl
    · rw [hitems]
    · rw [hitems] at h1; exact h1
    · exact h4
    · exact (searchBase_worth A i _).symm
    · intro _; left; exact ⟨rfl, rfl, rfl, by rw [hitems]⟩
    · intro hst hh
      rw [hh]
      refine ⟨rfl, rfl, by simp, fun hm => ⟨by simp, hm⟩⟩
  obtain ⟨t, t1, t2, t3⟩ := lsLoop_path (A := A) (C := ⟨A, clock, start, i.maxTime⟩)
    (maxN := maxNeighbors throttle i.items.length) hvb (n := i.items.length) (by rw [hitems])
    (lsFuel i.searchBase) s0 hinv (by
      have h7 : lsMeasure A i.searchBase s0.best ≤ (allVals A i.searchBase).length :=
        List.length_filter_le _ _
      rw [length_allVals] at h7
      unfold lsFuel
      unfold Inst.maxH at h7
      omega)
  refine ⟨s0, t, ⟨sol, ov, r, h2, h4, rfl⟩, ?_, t2, hinv, t3⟩
  have hkl : (PyDict.keys i.searchBase.items).length = i.items.length := by
    rw [hitems]; simp [PyDict.keys]
  have hbase : (if i.strip = true then { i with heights := [i.height.getD 0] } else i) = i.searchBase := rfl
  simp only [Inst.localSearch, hbase, lsRun, bind, Except.bind, pure, Except.pure]
  have hi1 : (instOps A).init i.searchBase =
      .ok (i.searchBase.upd sol ov i.searchBase.height i.searchBase.heights, (r, ov)) := h5
  have hi2 : (instOps A).objVal (i.searchBase.upd sol ov i.searchBase.height i.searchBase.heights) =
      .ok (i.worth A (ov.map (·.2))) := by rw [← searchBase_worth]; exact h6
  rw [hi1]; simp only
  rw [hi2]; simp only
  rw [hkl, hitems, hmaxT, t1]

/-! ### facts read off a trace -/

theorem LSPath.best_le {A : Arith} {C : LSParams} {maxN : Nat} {swaps : List (Nat × Nat)} {i : Inst}
    {s t : LSState Inst (Solution × ObjVals)} (h : LSPath A C maxN swaps i s t) :
    s.best ≤ t.best := by
  have step : ∀ h hs (s s' : LSState Inst (Solution × ObjVals)) lg, ScanRes A C maxN i swaps 0 h hs s s' lg → s.best ≤ s'.best := by
    intro h hs s s' lg hr
    cases hf : lg.found with
    | false => rw [(hr.stay hf).2.1]
    | true =>
      obtain ⟨p, _, sol, ov, _, _, ha, hb, _⟩ := hr.move hf
      rw [hb]; exact le_of_lt ha.1
  induction h with
  | stop _ hr _ => exact (step _ _ _ _ _ hr :)
  | next _ hr _ _ _ ih => exact le_trans (step _ _ _ _ _ hr) ih

/-- work and clock readings along a trace -/
structure PathWork (C : LSParams) (maxN : Nat) (swaps : List (Nat × Nat))
    (s t : LSState Inst (Solution × ObjVals)) (ext : List NodeLog) : Prop where
  log : t.log = s.log ++ ext
  ne : ext ≠ []
  proc : ∀ e ∈ ext, e.processed ≤ swaps.length ∧ e.processed ≤ max maxN 1
  tick : t.tick = s.tick + (ext.map (·.processed)).sum
  early : ∀ k, s.tick ≤ k → k + 1 < t.tick → C.late k = false
  best : ∀ e, ext.getLast? = some e → e.best = t.best

theorem LSPath.work {A : Arith} {C : LSParams} {maxN : Nat} {swaps : List (Nat × Nat)} {i : Inst}
    {s t : LSState Inst (Solution × ObjVals)} (h : LSPath A C maxN swaps i s t) :
    ∃ ext, PathWork C maxN swaps s t ext := by
  induction h with
  | @stop s s' lg h hs _ hr _ =>
    refine ⟨[lg], ?_⟩
    have h1 := hr.proc2
    have h2 := hr.proc3
    have h3 := hr.tick
    exact { log := by simp [hr.log], ne := by simp,
            proc := by intro e he; simp at he; subst he; omega,
            tick := by simp; omega,
            early := fun k h1 h2 => hr.early k h1 h2,
            best := by intro e he; simp at he; subst he; exact hr.best }
  | @next s s' lg h hs t _ hr hf ho _ ih =>
    obtain ⟨ext, w⟩ := ih
    have h1 := hr.proc2
    have h2 := hr.proc3
    have h3 := hr.tick
    have h4 := w.tick
    simp only at h4
    refine ⟨lg :: ext, ?_⟩
    exact { log := by rw [w.log]; simp [hr.log], ne := by simp,
            proc := by
              intro e he
              rcases List.mem_cons.1 he with rfl | he
              · omega
              · exact w.proc e he
            tick := by simp; omega,
            early := by
              intro k k1 k2
              by_cases hk : k < s'.tick
              · exact hr.inTime ho k k1 hk
              · exact w.early k (by simp only; omega) k2
            best := by
              intro e he
              rw [List.getLast?_cons] at he
              cases hl : ext.getLast? with
              | none => rw [List.getLast?_eq_none_iff] at hl; exact absurd hl w.ne
              | some x =>
                rw [hl] at he; simp at he; subst he
                exact w.best _ hl }

/-- how a trace ends: the last node -/
theorem LSPath.final {A : Arith} {C : LSParams} {maxN : Nat} {swaps : List (Nat × Nat)} {i : Inst}
    {s t : LSState Inst (Solution × ObjVals)} (h : LSPath A C maxN swaps i s t) :
    ∃ lg h hs, t.log.getLast? = some lg ∧
      (lg.outOfTime = true → 0 < t.tick ∧ C.late (t.tick - 1) = true) ∧
      (lg.outOfTime = false → lg.found = false ∧ (∃ sol ov, t.obj = i.upd sol ov h hs) ∧
        (lg.processed ≥ maxN ∨ lg.processed = swaps.length) ∧
        ∀ p ∈ swaps.take lg.processed, ∀ sol ov,
          Packs A i (h.getD 0) (exchange t.node p.1 p.2) sol ov →
          ¬ Acc i sol (i.worth A (ov.map (·.2))) t.best) := by
  induction h with
  | @stop s s' lg h hs hobj hr hor =>
    refine ⟨lg, h, hs, by simp, ?_, ?_⟩
    · intro ho
      obtain ⟨a, b⟩ := hr.late ho
      exact ⟨by simp only; omega, b⟩
    · intro ho
      have hf : lg.found = false := by
        rcases hor with h | h
        · exact h
        · rw [ho] at h; cases h
      obtain ⟨q1, q2, q3, q4, q5, q6⟩ := hr.stay hf
      refine ⟨hf, q4, ?_, ?_⟩
      · rcases q6 with h | h | h
        · rw [ho] at h; cases h
        · exact Or.inl h
        · right; omega
      · intro p hp sol ov hpk
        simp only at hpk ⊢
        rw [q1] at hpk
        rw [q2]
        exact q5 p hp sol ov hpk
  | next _ _ _ _ _ ih => exact ih

theorem Spec.SamePacking.stripPart_perm {s t : Solution} (h : SamePacking s t)
    (hn : (PyDict.keys t).Nodup) : (stripPart s).Perm (stripPart t) := by
  unfold stripPart
  cases h1 : PyDict.find? s stripId with
  | none =>
    cases h2 : PyDict.find? t stripId with
    | none => exact .refl _
    | some m2 =>
      have := PyDict.mem_keys_of_find? h2
      unfold PyDict.keys at this
      rw [← h.1] at this
      obtain ⟨x, hx⟩ := PyDict.find?_isSome_of_mem_keys (d := s) this
      rw [h1] at hx; cases hx
  | some m1 =>
    obtain ⟨m', g1, g2⟩ := h.2 _ _ (PyDict.find?_mem h1)
    rw [PyDict.find?_of_mem hn g1]
    exact g2

end HP
