import Verif.SpecInterrupt
import Verif.Proofs.InterruptAtomic
import Verif.Props.Report
/-
C99: calls that are cut off.
-/
namespace HP
open Spec

/-- C99: cutting after the last write is the whole call; cutting before the first is no call. -/
theorem C99_complete (A : Arith) (i : Inst) (o : Op) :
    (∀ n, (writes A i o).length ≤ n → cut A i o n = (step A i o).1) ∧ cut A i o 0 = i := by
  refine ⟨fun n hn => ?_, rfl⟩
  unfold cut
  rw [List.take_of_length_le hn]
  exact last_writes A i o

/-- every instance that can be reached by complete calls is among those of C99 -/
theorem Reach.toCut {A : Arith} {i : Inst} (h : Reach A i) : ReachCut A i := by
  induction h with
  | new h => exact .new h
  | @step i o _ ih =>
    have := ReachCut.cut o (writes A i o).length ih
    rwa [(C99_complete A i o).1 _ (le_refl _)] at this

/-- C99: whatever calls were cut off, and wherever: items and containers are legal, a strip is still
one container with a positive height, settings and strategy are legal. -/
theorem C99_valid (A : Arith) (i : Inst) (h : ReachCut A i) :
    LegalSizes i.items ∧ LegalSizes i.containers ∧
    (i.strip = true → i.containers.length = 1 ∧ ∃ n, i.height = some n ∧ 0 < n) ∧
    (∀ m, i.minHeight = some m → 0 < m) ∧
    i.strategy.Nodup ∧ 1 ≤ i.maxTime ∧ i.workers.gtZero? = some true := by
  have hs := reachCut_sane h
  have hv := hs.valid
  refine ⟨⟨hv.itemsNe, hv.items.1, fun id x hx => hv.items.2 _ hx⟩, ⟨hv.contsNe, hv.conts.1, fun id x hx => hv.conts.2 _ hx⟩,
    fun hst => ⟨?_, hv.height hst⟩, hv.minPos, hs.strat, hs.maxTime, hs.workers⟩
  obtain ⟨W, e⟩ := hv.strip hst
  rw [e]; rfl

theorem Genuine.packs {A : Arith} {i : Inst} {sol : Solution} {ov : ObjVals} (h : Genuine A i sol ov) : PacksCurrent i sol :=
  ⟨h.facts.keysS, h.nodup, h.placements⟩

theorem packs_congr {i j : Inst} {sol : Solution} (h : PacksCurrent i sol) (h1 : j.containers = i.containers)
    (h2 : j.items = i.items) (h3 : j.strip = i.strip) : PacksCurrent j sol := by
  unfold PacksCurrent at *
  rw [h1, h2, h3]; exact h

/-- C99: the object still works.  Whatever was cut off before, `solve()` (with a known sequence) and
`local_search()` return, and what they leave packs the current items in the current containers. -/
theorem C99_usable (A : Arith) (i : Inst) (h : ReachCut A i) :
    (∀ seq, (∀ s, seq = some s → ∀ id ∈ s, id ∈ i.items.map (·.1)) →
      ∃ j, step A i (.solve seq) = (j, .ok) ∧ j.items = i.items ∧ j.containers = i.containers ∧ PacksCurrent j j.solution) ∧
    (∀ clock throttle, ∃ j, step A i (.localSearch clock throttle) = (j, .ok) ∧ j.items = i.items ∧
      j.containers = i.containers ∧ PacksCurrent j j.solution) := by
  have hv := (reachCut_sane h).valid
  constructor
  · intro seq hk
    obtain ⟨sol, ov, hr⟩ := (C06_total A i.solveIn hv.solveIn seq).1 hk
    refine ⟨{ i with solution := sol, objVals := ov }, ?_, rfl, rfl, ?_⟩
    · simp only [step, Inst.solve, bind, Except.bind, pure, Except.pure, hr]
    · have hg : Genuine A i sol ov := ⟨i.solveIn, seq, sol, rfl, rfl, rfl, hv.solveIn, hk, hr, .refl _⟩
      exact packs_congr hg.packs rfl rfl rfl
  · intro clock throttle
    obtain ⟨j, t, hrun⟩ := C18_terminates A (fun k => clock (k + 1)) (clock 0) throttle i hv
    obtain ⟨fr, _⟩ := C17_frame A _ _ throttle i j t hv hrun
    obtain ⟨seq, H, sol, k1, k2, k3, k4, k5⟩ := C17_genuine A _ _ throttle i j t hv hrun
    have e1 : j.items = i.items := by rw [fr]
    have e2 : j.containers = i.containers := by rw [fr]
    have e3 : j.strip = i.strip := by rw [fr]
    refine ⟨j, ?_, e1, e2, ?_⟩
    · simp only [step, hrun]
    · have hg : Genuine A i j.solution j.objVals :=
        ⟨i.at H, some seq, sol, rfl, rfl, rfl, ⟨hv.conts, hv.items, fun hs => (k2 hs).2⟩, KnownSeq_perm k1, k4, k5⟩
      exact packs_congr hg.packs e2 e1 e3

theorem search_packs {A : Arith} {h : HSArgs} {i j : Inst} (hv : i.Valid) (he : i.search A h = (j, .ok)) :
    PacksCurrent j j.solution ∧ j.items = i.items ∧ j.containers = i.containers := by
  by_cases hw : i.workers.isOne = true
  · obtain ⟨s, h1, h2⟩ := C27_returns A h i hv hw
    rw [h2] at he
    injection he with he _
    obtain ⟨f1, f2, f3⟩ := C27_frame A _ _ _ i _ hv s h1
    have hgen := singleHS_genuine hv h1
    have e4 : s.finish.containers = i.containers := by rw [f1]
    have e5 : s.finish.items = i.items := by rw [f1]
    have e6 : s.finish.strip = i.strip := by rw [f1]
    rw [← he]
    exact ⟨packs_congr hgen.packs e4 e5 e6, e5, e4⟩
  · unfold Inst.search at he
    rw [if_neg hw] at he
    split at he
    · rename_i sol ov st hm
      injection he with he _
      unfold Inst.multiHS at hm
      split at hm
      · cases hm
      · split at hm
        · cases hm
        · rename_i chunks _ _ w hwi
          obtain ⟨w1, w2, w3, w4, _⟩ := workerInst_spec hv hwi
          obtain ⟨p, chunk, s, _, k2, k3, k4, _⟩ := mpFinish_returned w1 hv w2 w3 hm
          have hgen := Genuine.same (singleHS_genuine w1 k2) k3
          have hg : Genuine A i sol s.retained.2 := hgen.congr w3.symm w2.symm w4.symm
          rw [← he]
          exact ⟨packs_congr hg.packs rfl rfl rfl, rfl, rfl⟩
    · cases he
    · cases he

/-- C99: the same for `hypersearch()`: with one process it returns whenever its arguments are
accepted, and when it returns (with any number of processes) the solution packs the current items
in the current containers. -/
theorem C99_hypersearch (A : Arith) (i : Inst) (h : ReachCut A i) (a : HSArgs) :
    ((step A i (.hypersearch a)).2 = .ok → PacksCurrent (step A i (.hypersearch a)).1 (step A i (.hypersearch a)).1.solution) ∧
    (i.workers = .int 1 → (step A i (.sortItems a.sortingBy)).2 = .ok →
      (step A (step A i (.sortItems a.sortingBy)).1 (.orientItems a.orientation)).2 = .ok →
      (step A i (.hypersearch a)).2 = .ok) := by
  have hs := reachCut_sane h
  have hv := hs.valid
  constructor
  · intro hok
    simp only [step] at hok ⊢
    unfold Inst.hypersearch at hok ⊢
    have h1 := last_sort A a.sortingBy i
    have s1 := sane_mem_last hs (fun j hj => (mid_sort hv A a.sortingBy j hj).sane hs)
    rw [h1] at s1
    generalize i.sortItems A a.sortingBy = x at hok s1 ⊢
    obtain ⟨k, r⟩ := x
    cases r with
    | error e => cases hok
    | ok u =>
      simp only at hok s1 ⊢
      have h2 := last_orient a.orientation k
      have s2 := sane_mem_last s1 (fun j hj => (mid_orient s1.valid a.orientation j hj).sane s1)
      rw [h2] at s2
      generalize k.orientItems a.orientation = y at hok s2 ⊢
      obtain ⟨l, r⟩ := y
      cases r with
      | error e => cases hok
      | ok u =>
        simp only at hok s2 ⊢
        exact (search_packs s2.valid (Prod.ext rfl hok)).1
  · intro hw h1 h2
    simp only [step] at h1 h2 ⊢
    unfold Inst.hypersearch
    have e1 := last_sort A a.sortingBy i
    have s1 := sane_mem_last hs (fun j hj => (mid_sort hv A a.sortingBy j hj).sane hs)
    have w1 : (i.sortItems A a.sortingBy).1.workers = i.workers := by
      have : EditMid i (i.sortItems A a.sortingBy).1 := by
        rcases lastD_mem e1 with h | h
        · rw [h]; exact .refl hv
        · exact mid_sort hv A _ _ h
      obtain ⟨_, _, _, _, _, e, _⟩ := this
      rw [e]
    rw [e1] at s1
    generalize i.sortItems A a.sortingBy = x at h1 h2 s1 w1 ⊢
    obtain ⟨k, r⟩ := x
    cases r with
    | error e => cases h1
    | ok u =>
      change (outcomeOf (k.orientItems a.orientation)).2 = .ok at h2
      simp only at s1 w1 ⊢
      have e2 := last_orient a.orientation k
      have s2 := sane_mem_last s1 (fun j hj => (mid_orient s1.valid a.orientation j hj).sane s1)
      have w2 : (k.orientItems a.orientation).1.workers = k.workers := by
        have : EditMid k (k.orientItems a.orientation).1 := by
          rcases lastD_mem e2 with h | h
          · rw [h]; exact .refl s1.valid
          · exact mid_orient s1.valid _ _ h
        obtain ⟨_, _, _, _, _, e, _⟩ := this
        rw [e]
      rw [e2] at s2
      generalize k.orientItems a.orientation = y at h2 s2 w2 ⊢
      obtain ⟨l, r⟩ := y
      cases r with
      | error e => cases h2
      | ok u =>
        simp only at s2 w2 ⊢
        obtain ⟨s, _, h2⟩ := C27_returns A a l s2.valid (by rw [w2, w1, hw]; rfl)
        rw [h2]

/-- C99: `log_solution()` never fails with a missing key: after any cut it returns, except for a
strip without any height (C52). -/
theorem C99_log (A : Arith) (i : Inst) (h : ReachCut A i) :
    (∃ r, i.logSolution = .ok r) ∨ (i.strip = true ∧ i.logSolution = .error .zeroDivisionError) := by
  have hs := reachCut_sane h
  have hv := hs.valid
  by_cases hne : i.solution = []
  · exact Or.inl ⟨none, C52_unsolved i hne⟩
  have hcov := hs.sol.resolve_left hne
  have key : ∀ cs : List (String × Dim), (∀ c ∈ cs, c ∈ i.containers) →
      (∃ l, logContainers i cs = .ok l) ∨ (i.strip = true ∧ logContainers i cs = .error .zeroDivisionError) := by
    intro cs
    induction cs with
    | nil => intro _; exact Or.inl ⟨[], rfl⟩
    | cons p cs ih =>
      obtain ⟨cid, c⟩ := p
      intro hsub
      have hc := hsub (cid, c) (by simp)
      obtain ⟨m, hm⟩ := PyDict.find?_isSome_of_mem_keys (hcov cid (List.mem_map_of_mem (f := Prod.fst) hc))
      have hw : 0 < c.w := (hv.conts.2 _ hc).1
      have hl : 0 < c.l := (hv.conts.2 _ hc).2
      unfold logContainers
      simp only [getHeight_eq hne (PyDict.find?_of_mem hv.conts.1 hc) hm, PyDict.getE_of_find? hm, bind, Except.bind, pure, Except.pure]
      split
      · rename_i hz
        right
        refine ⟨?_, rfl⟩
        cases hst : i.strip with
        | true => rfl
        | false =>
          simp only [reportLength, hst, Bool.false_eq_true, if_false] at hz
          exact absurd hz (Nat.mul_pos hw hl).ne'
      · rcases ih (fun x hx => hsub x (by simp [hx])) with ⟨l, e⟩ | ⟨e1, e2⟩
        · left; rw [e]; exact ⟨_, rfl⟩
        · right; refine ⟨e1, ?_⟩; rw [e2]
  have hne' : i.solution.isEmpty = false := by simpa using hne
  have hit : i.items.length ≠ 0 := by simpa using hv.itemsNe
  unfold Inst.logSolution
  simp only [hne', Bool.false_eq_true, if_false, hit, bind, Except.bind, pure, Except.pure]
  rcases key i.containers (fun _ h => h) with ⟨l, e⟩ | ⟨e1, e2⟩
  · left; rw [e]; exact ⟨_, rfl⟩
  · right; refine ⟨e1, ?_⟩; rw [e2]

/-! ### items and containers -/

/-- C99: a call that changes one entry or assigns the whole is all or nothing, as far as the items and
the containers are concerned. -/
theorem C99_atomic (A : Arith) (i : Inst) (o : Op) (ho : OneEdit o) (n : Nat) :
    ((cut A i o n).items = i.items ∨ (cut A i o n).items = (step A i o).1.items) ∧
    ((cut A i o n).containers = i.containers ∨ (cut A i o n).containers = (step A i o).1.containers) := by
  have key : Between i (step A i o).1 (cut A i o n) := by
    rcases cut_mem (A := A) (i := i) (o := o) (n := n) with h | h
    · rw [h]; exact fun _ => Or.inl rfl
    · cases o <;> first | exact absurd ho id | skip
      case assign k v => exact between_assign k v i _ h
      case setKey k id v => exact between_setKey k id v i _ h
      case delKey k key => exact between_delKey k key i _ h
      case setDim k id key v => exact between_setDim k id key v i _ h
      case popKey k key d => exact between_popKey k key d i _ h
      case popItem k => exact between_popItem k i _ h
      case setDefault k key v => exact between_setDefault k key v i _ h
      case sortItems s => exact between_sort A s i _ h
  exact ⟨key .items, key .containers⟩

/-- C99: a call that writes several entries leaves what a shorter call would have written: the first
entries of `update`, or the entries that `clear()` has not removed yet. -/
theorem C99_prefix (A : Arith) (i : Inst) (hi : ReachCut A i) (k : SKind) (n : Nat) :
    (∀ es, ∃ m, (cut A i (.update k es) n).items = (step A i (.update k (es.take m))).1.items ∧
      (cut A i (.update k es) n).containers = (step A i (.update k (es.take m))).1.containers) ∧
    (∀ id es, ∃ m, (cut A i (.updateDim k id es) n).items = (step A i (.updateDim k id (es.take m))).1.items ∧
      (cut A i (.updateDim k id es) n).containers = (step A i (.updateDim k id (es.take m))).1.containers) ∧
    (∃ m, (cut A i (.clear .items) n).items = i.items.drop m ∧ (cut A i (.clear .items) n).containers = i.containers) ∧
    (∃ m, (cut A i (.clear .containers) n).containers = i.containers.drop m ∧ (cut A i (.clear .containers) n).items = i.items) := by
  have hv := (reachCut_sane hi).valid
  refine ⟨fun es => ?_, fun id es => ?_, ?_, ?_⟩
  · rcases cut_mem (A := A) (i := i) (o := .update k es) (n := n) with h | h
    · exact ⟨0, by rw [h]; exact ⟨rfl, rfl⟩⟩
    · obtain ⟨m, hm⟩ := atomic_update k es i _ h
      exact ⟨m, hm .items, hm .containers⟩
  · rcases cut_mem (A := A) (i := i) (o := .updateDim k id es) (n := n) with h | h
    · refine ⟨0, ?_⟩
      have h0 : (step A i (.updateDim k id [])).1 = i := by
        simp only [step]
        unfold Inst.updateDim
        cases lookupKey (i.data k) id <;> rfl
      rw [h, List.take_zero, h0]; exact ⟨rfl, rfl⟩
    · obtain ⟨m, hm⟩ := atomic_updateDim k id es i _ h
      exact ⟨m, hm .items, hm .containers⟩
  · rcases cut_mem (A := A) (i := i) (o := .clear .items) (n := n) with h | h
    · exact ⟨0, by rw [h]; exact ⟨rfl, rfl⟩⟩
    · obtain ⟨⟨m, e1⟩, e2⟩ := atomic_clear .items _ hv _ h
      exact ⟨m, e1, e2 .containers (by decide)⟩
  · rcases cut_mem (A := A) (i := i) (o := .clear .containers) (n := n) with h | h
    · exact ⟨0, by rw [h]; exact ⟨rfl, rfl⟩⟩
    · obtain ⟨⟨m, e1⟩, e2⟩ := atomic_clear .containers _ hv _ h
      exact ⟨m, e1, e2 .items (by decide)⟩

theorem turnIf_wide : turnIf (fun w l => decide (l > w)) = turnedEntry true := by
  funext p
  unfold turnIf turnedEntry ToTurn turned
  simp only [gt_iff_lt, decide_eq_true_eq, if_true, Bool.false_eq_true, if_false]
  split <;> rfl

theorem turnIf_long : turnIf (fun w l => decide (l < w)) = turnedEntry false := by
  funext p
  unfold turnIf turnedEntry ToTurn turned
  simp only [gt_iff_lt, decide_eq_true_eq, if_true, Bool.false_eq_true, if_false]
  split <;> rfl

/-- C99: `orient_items` turns one item after the other; at most one item is caught half way, with its
length as both sides. -/
theorem C99_orient_partial (A : Arith) (i : Inst) (hi : ReachCut A i) (wide : Bool) (n : Nat) :
    (cut A i (.orientItems (.str (if wide then "wide" else "long"))) n).containers = i.containers ∧
    ∃ a b, i.items = a ++ b ∧
      ((cut A i (.orientItems (.str (if wide then "wide" else "long"))) n).items = a.map (turnedEntry wide) ++ b ∨
       ∃ id d b', b = (id, d) :: b' ∧ ToTurn wide d ∧
        (cut A i (.orientItems (.str (if wide then "wide" else "long"))) n).items =
          a.map (turnedEntry wide) ++ (id, ⟨d.l, d.l⟩) :: b') := by
  have hv := (reachCut_sane hi).valid
  rcases cut_mem (A := A) (i := i) (o := .orientItems (.str (if wide then "wide" else "long"))) (n := n) with h | h
  · rw [h]; exact ⟨rfl, [], i.items, rfl, Or.inl rfl⟩
  · simp only [writes, Inst.orientWrites, PyVal.isNone, Bool.false_eq_true, if_false] at h
    split at h
    · cases h
    · cases wide with
      | true =>
        simp only [if_true, PyVal.eqStr, beq_self_eq_true] at h
        obtain ⟨e1, a, b, e2, e3⟩ := atomic_orient _ i.items [] i rfl hv.items.1 hv.items.2 _ h
        refine ⟨e1, a, b, e2, ?_⟩
        rw [turnIf_wide] at e3
        rcases e3 with e3 | ⟨p, b', h1, h2, h3⟩
        · exact Or.inl e3
        · exact Or.inr ⟨p.1, p.2, b', h1, by simpa [ToTurn] using h2, h3⟩
      | false =>
        have hne : ("long" == "wide") = false := by decide
        simp only [if_true, PyVal.eqStr, beq_self_eq_true, Bool.false_eq_true, if_false, hne] at h
        obtain ⟨e1, a, b, e2, e3⟩ := atomic_orient _ i.items [] i rfl hv.items.1 hv.items.2 _ h
        refine ⟨e1, a, b, e2, ?_⟩
        rw [turnIf_long] at e3
        rcases e3 with e3 | ⟨p, b', h1, h2, h3⟩
        · exact Or.inl e3
        · exact Or.inr ⟨p.1, p.2, b', h1, by simpa [ToTurn] using h2, h3⟩

/-! ### searches -/

theorem cut_search {A : Arith} {i : Inst} (hv : i.Valid) {o : Op} {sts : List (List PClass)}
    (h : ∀ j ∈ writes A i o, SearchMid A sts i j) (n : Nat) : SearchMid A sts i (cut A i o n) := by
  rcases cut_mem (A := A) (i := i) (o := o) (n := n) with g | g
  · rw [g]; exact .refl hv
  · exact h _ g

theorem searchMid_out {A : Arith} {sts : List (List PClass)} {i j : Inst} (h : SearchMid A sts i j) :
    j.items = i.items ∧ j.containers = i.containers ∧ (j.solution = i.solution ∨ PacksCurrent j j.solution) ∧
    (i.strip = true → ∃ n, j.height = some n ∧ 0 < n ∧ n ≤ max (i.height.getD 0) (i.minHeight.getD 0)) ∧
    (i.strip = false → j.height = i.height) ∧ (j.strategy = i.strategy ∨ j.strategy ∈ sts) := by
  obtain ⟨sol, ov, ht, hs, st, b, rfl, a1, a2, a3, a4⟩ := h
  refine ⟨rfl, rfl, ?_, a1.1, fun hb => (a1.2 hb).1, a2⟩
  exact a3.imp id fun ⟨_, h⟩ => packs_congr h.packs rfl rfl rfl

/-- C99: a `solve()` or search that is cut off changes neither items nor containers; the solution is
the one from before or packs the current items in the current containers; a strip does not get
higher; the strategy is the one from before, or, during a `hypersearch`, one that was tried. -/
theorem C99_search_partial (A : Arith) (i : Inst) (hi : ReachCut A i) (n : Nat) (o : Op) (sts : List (List PClass))
    (ho : (∃ seq, o = .solve seq ∧ sts = []) ∨ (∃ clock throttle, o = .localSearch clock throttle ∧ sts = []) ∨
      ∃ a, o = .hypersearch a ∧ a.sortingBy = none ∧ a.orientation = .none ∧ sts = getStrategies a.order i.strip a.exhaustive) :
    (cut A i o n).items = i.items ∧ (cut A i o n).containers = i.containers ∧
    ((cut A i o n).solution = i.solution ∨ PacksCurrent (cut A i o n) (cut A i o n).solution) ∧
    (i.strip = true → ∃ m, (cut A i o n).height = some m ∧ 0 < m ∧ m ≤ max (i.height.getD 0) (i.minHeight.getD 0)) ∧
    (i.strip = false → (cut A i o n).height = i.height) ∧
    ((cut A i o n).strategy = i.strategy ∨ (cut A i o n).strategy ∈ sts) := by
  have hv := (reachCut_sane hi).valid
  apply searchMid_out (A := A)
  apply cut_search hv
  rcases ho with ⟨seq, rfl, rfl⟩ | ⟨clock, throttle, rfl, rfl⟩ | ⟨a, rfl, h1, h2, rfl⟩
  · exact searchMid_solve hv seq
  · exact fun j hj => (mid_localSearch hv j hj).search hv
  · intro j hj
    simp only [writes, Inst.hypersearchWrites, h1, h2, Inst.sortWrites, Inst.sortItems, Inst.orientWrites, Inst.orientItems,
      PyVal.isNone, if_true, List.nil_append] at hj
    exact mid_search hv j hj

/-! ### the solution fits the data -/

theorem packs_of {A : Arith} {i : Inst} {sol : Solution} (h : ∃ ov, Genuine A i sol ov) : PacksCurrent i sol :=
  h.elim fun _ h => h.packs

/-- no solution, or one of the current items in the current containers -/
def Current (i : Inst) : Prop := i.solution = [] ∨ PacksCurrent i i.solution

theorem CleanMid.current {i j : Inst} (hc : Current i) (h : CleanMid i j) : Current j := by
  obtain ⟨h0, h | ⟨h1, h2, h3⟩⟩ := h
  · exact Or.inl h
  · rcases hc with g | g
    · exact Or.inl (h1.trans g)
    · right; rw [h1]; exact packs_congr g h2 h3 h0

theorem SearchMid.current {A : Arith} {sts : List (List PClass)} {i j : Inst} (hc : Current i) (h : SearchMid A sts i j) : Current j := by
  obtain ⟨sol, ov, ht, hs, st, b, rfl, a1, a2, a3, a4⟩ := h
  rcases a3 with g | g
  · rcases hc with c | c
    · exact Or.inl (g.trans c)
    · right
      have : PacksCurrent i sol := by rw [g]; exact c
      exact packs_congr this rfl rfl rfl
  · exact Or.inr (packs_congr (packs_of g) rfl rfl rfl)

theorem Current.same {i j : Inst} (hc : Current i) (h1 : j.containers = i.containers) (h2 : j.items = i.items)
    (h3 : j.strip = i.strip) (h4 : j.solution = i.solution) : Current j := by
  rcases hc with h | h
  · exact Or.inl (h4.trans h)
  · right; rw [h4]; exact packs_congr h h1 h2 h3

theorem writes_current {A : Arith} {i : Inst} (hv : i.Valid) (hc : Current i) {o : Op} (ho : ¬ EditsFirst o) :
    ∀ j ∈ writes A i o, Current j := by
  cases o with
  | assign k v => exact fun j hj => (clean_assign k v i j hj).current hc
  | setKey k id v => exact fun j hj => (clean_setKey k id v i j hj).current hc
  | delKey k key => exact absurd trivial ho
  | setDim k id key v => exact absurd trivial ho
  | popKey k key d => exact absurd trivial ho
  | popItem k => exact absurd trivial ho
  | clear k => exact absurd trivial ho
  | update k es => exact fun j hj => (clean_update k es i j hj).current hc
  | updateDim k id es => exact absurd trivial ho
  | setDefault k key v => exact fun j hj => (clean_setDefault k key v i j hj).current hc
  | sortItems s => exact fun j hj => (clean_sort A s i j hj).current hc
  | orientItems o => exact absurd trivial ho
  | solve seq => exact fun j hj => (searchMid_solve (sts := []) hv seq j hj).current hc
  | localSearch clock throttle =>
    exact fun j hj => ((mid_localSearch hv j hj).search (sts := []) hv).current hc
  | hypersearch a =>
    have h2 : a.orientation = .none := by
      by_contra h; exact ho h
    intro j hj
    simp only [writes, Inst.hypersearchWrites, List.mem_append] at hj
    rcases hj with hj | hj
    · exact (clean_sort A _ i j hj).current hc
    · have e1 := last_sort A a.sortingBy i
      have s1 : EditMid i (i.sortItems A a.sortingBy).1 := by
        rcases lastD_mem e1 with h | h
        · rw [h]; exact .refl hv
        · exact mid_sort hv A _ _ h
      have c1 : Current (i.sortItems A a.sortingBy).1 := by
        rcases lastD_mem e1 with h | h
        · rw [h]; exact hc
        · exact (clean_sort A _ i _ h).current hc
      generalize i.sortItems A a.sortingBy = x at hj s1 c1
      obtain ⟨k, r⟩ := x
      cases r with
      | error e => cases hj
      | ok u =>
        simp only [h2, Inst.orientWrites, Inst.orientItems, PyVal.isNone, if_true, List.mem_append, List.not_mem_nil, false_or] at hj
        exact (mid_search (s1.valid hv) j hj).current c1
  | settings E v =>
    intro j hj
    simp only [writes, List.mem_cons] at hj
    rcases hj with hj | hj
    · rw [hj]; exact hc.same rfl rfl rfl rfl
    · obtain ⟨h1, _, _⟩ := mid_validate E _ j hj
      refine hc.same ?_ ?_ ?_ ?_ <;> rw [h1]
  | validate E =>
    intro j hj
    obtain ⟨h1, _, _⟩ := mid_validate E _ j hj
    refine hc.same ?_ ?_ ?_ ?_ <;> rw [h1]
  | editSettings v =>
    intro j hj
    simp only [writes, List.mem_singleton] at hj
    rw [hj]; exact hc.same rfl rfl rfl rfl
  | height v =>
    intro j hj
    simp only [writes, List.mem_singleton] at hj
    rw [hj]
    unfold Inst.assignHeight
    split
    · exact hc
    · split
      · split
        · exact hc
        · exact hc.same rfl rfl rfl rfl
      · exact hc.same rfl rfl rfl rfl
  | minHeight v =>
    intro j hj
    simp only [writes, List.mem_singleton] at hj
    rw [hj]
    unfold Inst.assignMinHeight
    split
    · exact hc
    · split
      · exact hc
      · split
        · exact hc
        · exact hc.same rfl rfl rfl rfl
  | resetHeight =>
    intro j hj
    simp only [writes, Inst.resetHeightWrites] at hj
    split at hj
    · split at hj
      · simp only [List.mem_cons, List.not_mem_nil, or_false] at hj
        rcases hj with hj | hj <;> rw [hj] <;> exact hc.same rfl rfl rfl rfl
      · cases hj
    · cases hj
  | strategy v =>
    intro j hj
    simp only [writes, List.mem_singleton] at hj
    rw [hj]
    unfold Inst.assignStrategy
    split
    · exact hc
    · split
      · exact hc
      · exact hc.same rfl rfl rfl rfl
  | delDim k id => intro j hj; cases hj
  | delAttr e => intro j hj; cases hj
  | log => intro j hj; cases hj
  | figure a b => intro j hj; cases hj

theorem either_current {i j : Inst} (hc : Current i) (h : j = i ∨ Edited i j) : Current j := by
  rcases h with h | ⟨_, _, _, h, _⟩
  · rw [h]; exact hc
  · rw [h]; exact Or.inl rfl

theorem step_current {A : Arith} {i : Inst} (hv : i.Valid) (hc : Current i) (o : Op) : Current (step A i o).1 := by
  by_cases ho : EditsFirst o
  · cases o <;> first | exact absurd ho id | skip
    case delKey k key => exact either_current hc (delKey_spec hv k key).either
    case setDim k id key v => exact either_current hc (setDim_spec hv k id key v).either
    case popKey k key d => exact either_current hc (popKey_edited hv k key d)
    case popItem k => exact either_current hc (popItem_spec hv k).either
    case clear k => exact either_current hc (clearLoop_edited k _ hv)
    case updateDim k id es => exact either_current hc (updateDim_edited k id es hv)
    case orientItems o => exact either_current hc (orientItems_edited hv o)
    case hypersearch a =>
      simp only [step, Inst.hypersearch]
      have c1 := either_current hc (sortItems_edited hv A a.sortingBy)
      have v1 : (i.sortItems A a.sortingBy).1.Valid := by
        rcases sortItems_edited hv A a.sortingBy with h | h
        · rw [h]; exact hv
        · exact h.valid hv
      generalize i.sortItems A a.sortingBy = x at c1 v1 ⊢
      obtain ⟨k, r⟩ := x
      cases r with
      | error e => exact c1
      | ok u =>
        simp only at c1 v1 ⊢
        have c2 := either_current c1 (orientItems_edited v1 a.orientation)
        have v2 : (k.orientItems a.orientation).1.Valid := by
          rcases orientItems_edited v1 a.orientation with h | h
          · rw [h]; exact v1
          · exact h.valid v1
        generalize k.orientItems a.orientation = y at c2 v2 ⊢
        obtain ⟨l, r⟩ := y
        cases r with
        | error e => exact c2
        | ok u =>
          simp only at c2 v2 ⊢
          have e := last_search A a l
          rcases lastD_mem e with h | h
          · rw [h]; exact c2
          · exact (mid_search v2 _ h).current c2
  · have e := last_writes A i o
    rcases lastD_mem e with h | h
    · rw [h]; exact hc
    · exact writes_current hv hc ho _ h

theorem cutSafely_toCut {A : Arith} {i : Inst} (h : CutSafely A i) : ReachCut A i := by
  induction h with
  | new h => exact .new h
  | @done i o _ ih =>
    have := ReachCut.cut o (writes A i o).length ih
    rwa [(C99_complete A i o).1 _ (le_refl _)] at this
  | cut o n _ _ ih => exact .cut o n ih

/-- C99: as long as only calls are cut off that do not edit a size or remove an entry before they
discard the solution, the solution is always empty or packs the current items in the current
containers. -/
theorem C99_solution_partial (A : Arith) (i : Inst) (h : CutSafely A i) :
    i.solution = [] ∨ PacksCurrent i i.solution := by
  show Current i
  induction h with
  | new h =>
    rcases (mkInst_good (A := A) h).sol with g | g
    · exact Or.inl g.1
    · exact Or.inr g.packs
  | done o h ih => exact step_current (reachCut_sane (cutSafely_toCut h)).valid ih o
  | @cut i o n ho h ih =>
    rcases cut_mem (A := A) (i := i) (o := o) (n := n) with g | g
    · rw [g]; exact ih
    · exact writes_current (reachCut_sane (cutSafely_toCut h)).valid ih ho _ g

/-! ### trying again -/

theorem solve_forget (A : Arith) (seq : Option (List String)) (i : Inst) (sol : Solution) (ov : ObjVals) :
    Inst.solve A { i with solution := sol, objVals := ov } seq = i.solve A seq := rfl

theorem search_forget (A : Arith) (a : HSArgs) (i : Inst) (sol : Solution) (ov : ObjVals) (hw : i.workers.isOne = true) (hv : i.Valid) :
    Inst.search A a { i with solution := sol, objVals := ov } = i.search A a := by
  have hi : Inst.initSolution A { i with solution := sol, objVals := ov } = i.initSolution A := rfl
  have hs : ∀ c st t sts, Inst.singleHS A c st t sts { i with solution := sol, objVals := ov } = i.singleHS A c st t sts := by
    intro c st t sts
    unfold Inst.singleHS
    rw [hi]
  obtain ⟨s, h1, h2⟩ := C27_returns A a i hv hw
  unfold Inst.search
  rw [if_pos hw, if_pos hw]
  simp only
  rw [hs, h1]

/-- C99: in bin packing a `solve()` or `local_search()` that was cut off leaves no trace in what
comes next: a `solve()`, `local_search()` or `hypersearch()` gives what it would have given without. -/
theorem C99_again (A : Arith) (i : Inst) (hi : ReachCut A i) (hb : i.strip = false) (o : Op) (n : Nat)
    (ho : (∃ seq, o = .solve seq) ∨ ∃ clock throttle, o = .localSearch clock throttle) :
    step A (cut A i o n) (.solve none) = step A i (.solve none) ∧
    (∀ clock throttle, step A (cut A i o n) (.localSearch clock throttle) = step A i (.localSearch clock throttle)) ∧
    (∀ a, i.workers = .int 1 → a.sortingBy = none → a.orientation = .none →
      step A (cut A i o n) (.hypersearch a) = step A i (.hypersearch a)) := by
  have hv := (reachCut_sane hi).valid
  have hf : ∃ sol ov, cut A i o n = { i with solution := sol, objVals := ov } := by
    rcases cut_mem (A := A) (i := i) (o := o) (n := n) with g | g
    · exact ⟨i.solution, i.objVals, g⟩
    · rcases ho with ⟨seq, rfl⟩ | ⟨clock, throttle, rfl⟩
      · obtain ⟨sol, ov, e, _⟩ := mid_solve hv seq _ g
        exact ⟨sol, ov, e⟩
      · obtain ⟨sol, ov, h, hs, e, h2, _⟩ := mid_localSearch hv _ g
        obtain ⟨e1, e2⟩ := h2.2 hb
        refine ⟨sol, ov, ?_⟩
        rw [e, e1, e2]; rfl
  obtain ⟨sol, ov, e⟩ := hf
  rw [e]
  have hk := (C06_total A i.solveIn hv.solveIn none).1 (KnownSeq_none _)
  refine ⟨?_, ?_, ?_⟩
  · obtain ⟨sol', ov', hr⟩ := hk
    have h1 : i.solve A none = .ok { i with solution := sol', objVals := ov' } := by
      simp only [Inst.solve, bind, Except.bind, pure, Except.pure, hr]
    simp only [step, solve_forget, h1]
  · intro clock throttle
    obtain ⟨j, t, hrun⟩ := C18_terminates A (fun k => clock (k + 1)) (clock 0) throttle i hv
    simp only [step, localSearch_forget, hrun]
  · intro a hw h1 h2
    simp only [step, Inst.hypersearch, h1, h2, Inst.sortItems, Inst.orientItems, PyVal.isNone, if_true]
    exact search_forget A a i sol ov (by rw [hw]; rfl) hv

theorem insert_again (s : String) (x y : Dim) : ∀ d : PyDict String Dim,
    PyDict.insert (PyDict.insert d s x) s y = PyDict.insert d s y
  | [] => by simp [PyDict.insert]
  | (k, a) :: rest => by
    simp only [PyDict.insert]
    split
    · rename_i h; simp only [PyDict.insert, if_pos h]
    · rename_i h; simp only [PyDict.insert, if_neg h, insert_again s x y rest]

theorem retry_assign (k : SKind) (v : PyVal) (i j : Inst) (hj : j ∈ i.assignWrites k v) : j.assign k v = i.assign k v := by
  unfold Inst.assignWrites at hj
  unfold Inst.assign
  split at hj
  · cases hj
  · rename_i hc
    rw [if_neg hc]
    have hst : j.strip = i.strip := by
      simp only [List.mem_append] at hj
      rcases hj with hj | hj
      · split at hj
        · simp only [Inst.resetWrites, List.mem_cons, List.not_mem_nil, or_false] at hj
          rcases hj with rfl | rfl <;> rfl
        · cases hj
      · cases hb : (buildStructure k v).2 with
        | error e => rw [hb] at hj; cases hj
        | ok d =>
          rw [hb] at hj
          cases hf : (buildStructure k v).1 <;> rw [hf] at hj <;> cases k <;>
            simp only [if_true, Bool.false_eq_true, if_false, List.mem_cons, List.not_mem_nil, or_false] at hj <;>
            (try rcases hj with hj | hj) <;> (try subst hj) <;> rfl
    rw [hst, if_neg hc]
    simp only [List.mem_append] at hj
    simp only
    cases hf : (buildStructure k v).1 <;> rw [hf] at hj <;> cases hb : (buildStructure k v).2 <;> rw [hb] at hj <;>
      cases k <;>
      simp only [if_true, Bool.false_eq_true, if_false, Inst.resetWrites, List.mem_cons, List.not_mem_nil, or_false, false_or] at hj <;>
      (try rcases hj with hj | hj) <;> (try rcases hj with hj | hj) <;> (try subst hj) <;> rfl

theorem retry_setKey (k : SKind) (id v : PyVal) (i j : Inst) (hj : j ∈ i.setKeyWrites k id v) : j.setKey k id v = i.setKey k id v := by
  unfold Inst.setKeyWrites at hj
  split at hj
  · cases hj
  · rename_i hc
    cases hs : id.asStr? with
    | none => rw [hs] at hj; cases hj
    | some s =>
      rw [hs] at hj
      cases hd : mkDims k v with
      | error e => rw [hd] at hj; cases hj
      | ok d =>
        rw [hd] at hj
        have key : ∀ j : Inst, j.strip = i.strip →
            (j.setData k (PyDict.insert (j.data k) s d)).resetAttrs k = (i.setData k (PyDict.insert (i.data k) s d)).resetAttrs k →
            j.setKey k id v = i.setKey k id v := by
          intro j h1 h2
          unfold Inst.setKey
          rw [h1, hs, hd]
          simp only
          rw [h2]
          simp only [hc]
          rfl
        cases k <;> simp only [Inst.resetWrites, Inst.resetAttrsWrites, List.mem_append, List.mem_cons, List.not_mem_nil, or_false] at hj
        · rcases hj with ((hj | hj) | hj) | (hj | hj) | hj <;> subst hj <;> refine key _ rfl ?_ <;>
            simp only [Inst.resetAttrs, Inst.setData, Inst.data, Inst.resetSol, insert_again]
        · rcases hj with ((hj | hj) | hj) | hj | hj <;> subst hj <;> refine key _ rfl ?_ <;>
            simp only [Inst.resetAttrs, Inst.setData, Inst.data, Inst.resetSol, insert_again]

theorem lookup_insert {d : PyDict String Dim} {id : PyVal} {s : String} {x : Dim} (h : lookupKey d id = .ok (s, x)) (y : Dim) :
    lookupKey (PyDict.insert d s y) id = .ok (s, y) := by
  unfold lookupKey at *
  cases hs : id.asStr? with
  | none => rw [hs] at h; cases h
  | some t =>
    rw [hs] at h
    simp only at h ⊢
    have ht : t = s := by
      cases hf : PyDict.find? d t with
      | none => rw [hf] at h; cases h
      | some z =>
        rw [hf] at h
        injection h with h
        injection h
    subst ht
    rw [PyDict.find?_insert_self]

theorem retry_setDim (k : SKind) (id key v : PyVal) (i j : Inst) (hj : j ∈ i.setDimWrites k id key v) :
    j.setDim k id key v = i.setDim k id key v := by
  unfold Inst.setDimWrites at hj
  cases hl : lookupKey (i.data k) id with
  | error e => rw [hl] at hj; cases hj
  | ok p =>
    obtain ⟨s, d⟩ := p
    rw [hl] at hj
    simp only at hj
    have hdata : ∀ D, (i.setData k D).data k = D := by intro D; cases k <;> rfl
    have hstrip : ∀ D, (i.setData k D).strip = i.strip := by intro D; cases k <;> rfl
    -- the second call in a state with the entry `y` and any solution
    have look : ∀ (y : Dim) (j : Inst), j ∈ (i.setData k (PyDict.insert (i.data k) s y)) :: (i.setData k (PyDict.insert (i.data k) s y)).resetWrites →
        j.data k = PyDict.insert (i.data k) s y ∧ j.strip = i.strip ∧
        ∀ z, (j.setData k (PyDict.insert (j.data k) s z)).resetSol = (i.setData k (PyDict.insert (i.data k) s z)).resetSol := by
      intro y j hj
      simp only [Inst.resetWrites, List.mem_cons, List.not_mem_nil, or_false] at hj
      cases k <;> rcases hj with hj | hj | hj <;> subst hj <;> refine ⟨rfl, rfl, fun z => ?_⟩ <;>
        simp only [Inst.setData, Inst.data, Inst.resetSol, insert_again]
    split at hj
    · cases hj
    · rename_i h1
      split at hj
      · cases hj
      · rename_i h2
        split at hj
        · rename_i h3
          cases hp : v.posInt? with
          | none => rw [hp] at hj; cases hj
          | some w =>
            rw [hp] at hj
            obtain ⟨a, b, c⟩ := look _ j hj
            unfold Inst.setDim
            rw [a, lookup_insert hl, b, hl]
            simp only
            rw [if_neg h1, if_neg h2, if_pos h3, if_neg h1, if_neg h2, if_pos h3, hp]
            simp only
            have c' := c ⟨w, d.l⟩
            rw [a] at c'
            rw [c']
        · rename_i h3
          split at hj
          · rename_i h4
            cases hp : v.posInt? with
            | none => rw [hp] at hj; cases hj
            | some w =>
              rw [hp] at hj
              obtain ⟨a, b, c⟩ := look _ j hj
              unfold Inst.setDim
              rw [a, lookup_insert hl, b, hl]
              simp only
              rw [if_neg h1, if_neg h2, if_neg h3, if_pos h4, if_neg h1, if_neg h2, if_neg h3, if_pos h4, hp]
              simp only
              have c' := c ⟨d.w, w⟩
              rw [a] at c'
              rw [c']
          · cases hj

/-- C99: an assignment that was cut off can simply be repeated: assigning all items or containers, an
entry or a size again has the outcome and the effect of the call that is not cut off. -/
theorem C99_retry (A : Arith) (i : Inst) (o : Op) (n : Nat)
    (ho : (∃ k v, o = .assign k v) ∨ (∃ k id v, o = .setKey k id v) ∨ ∃ k id key v, o = .setDim k id key v) :
    step A (cut A i o n) o = step A i o := by
  rcases cut_mem (A := A) (i := i) (o := o) (n := n) with g | g
  · rw [g]
  · rcases ho with ⟨k, v, rfl⟩ | ⟨k, id, v, rfl⟩ | ⟨k, id, key, v, rfl⟩
    · exact congrArg outcomeOf (retry_assign k v i _ g)
    · exact congrArg outcomeOf (retry_setKey k id v i _ g)
    · exact congrArg outcomeOf (retry_setDim k id key v i _ g)

/-! ### the flags about plotly and kaleido -/

/-- whether the object takes plotly and kaleido for installed and usable is old, or true of the
environment -/
def FlagsHonest (E : Env) (i j : Inst) : Prop :=
  (j.plotlyInstalled = true → i.plotlyInstalled = true ∨ E.plotly ≠ none) ∧
  (j.plotlyInstalled = true ∧ j.plotlyOk = true → (i.plotlyInstalled = true ∧ i.plotlyOk = true) ∨ E.plotlyOk) ∧
  (j.kaleidoInstalled = true → i.kaleidoInstalled = true ∨ E.kaleido ≠ none) ∧
  (j.kaleidoInstalled = true ∧ j.kaleidoOk = true → (i.kaleidoInstalled = true ∧ i.kaleidoOk = true) ∨ E.kaleidoOk)

theorem flags_self (E : Env) (i : Inst) : FlagsHonest E i i := ⟨Or.inl, Or.inl, Or.inl, Or.inl⟩

theorem flags_same {E : Env} {i j k : Inst} (h : FlagsHonest E i j) (h1 : k.plotlyInstalled = j.plotlyInstalled)
    (h2 : k.plotlyOk = j.plotlyOk) (h3 : k.kaleidoInstalled = j.kaleidoInstalled) (h4 : k.kaleidoOk = j.kaleidoOk) :
    FlagsHonest E i k := by
  unfold FlagsHonest; rw [h1, h2, h3, h4]; exact h

theorem flags_check (E : Env) (i k : Inst) : FlagsHonest E i (k.checkVersions E) := by
  refine ⟨fun h => Or.inr ?_, fun h => Or.inr ((checkVersions_plotly E k).1 h), fun h => Or.inr ?_,
    fun h => Or.inr ((checkVersions_kaleido E k).1 h)⟩
  · intro hn; simp [Inst.checkVersions, hn] at h
  · intro hn; simp [Inst.checkVersions, hn] at h

theorem flags_versionWrites (E : Env) (i : Inst) : ∀ j ∈ i.versionWrites E, FlagsHonest E i j := by
  intro j hj
  obtain ⟨c1, c2, c3, c4⟩ := flags_check E i i
  unfold Inst.versionWrites at hj
  simp only [List.mem_cons, List.not_mem_nil, or_false] at hj
  rcases hj with rfl | rfl | rfl | rfl | rfl | rfl | rfl | rfl
  · exact ⟨by simp, by simp, Or.inl, Or.inl⟩
  · exact ⟨by simp, by simp, Or.inl, Or.inl⟩
  · exact ⟨by simp, by simp, by simp, by simp⟩
  · exact ⟨by simp, by simp, by simp, by simp⟩
  · exact ⟨c1, by simp, by simp, by simp⟩
  · exact ⟨c1, c2, by simp, by simp⟩
  · exact ⟨c1, c2, c3, by simp⟩
  · exact ⟨c1, c2, c3, c4⟩

theorem validateFigure_flags (i : Inst) (E : Env) :
    (i.validateFigure E).1 = { i.checkVersions E with settings := (i.validateFigure E).1.settings } := by
  unfold Inst.validateFigure
  generalize i.checkVersions E = k
  simp only
  split
  · rfl
  · split
    · split
      · rfl
      · split
        · rfl
        · split
          · rfl
          · rename_i st _ _ fig _ _ _ _
            have he := checkExport_frame k E st fig
            generalize k.checkExport E st fig = r at he
            obtain ⟨j, e⟩ := r
            simp only at he
            cases e with
            | error e => simp only; rw [he]
            | ok u => simp only; rw [he]
    · rfl

theorem flags_validate (E : Env) (i : Inst) : ∀ j ∈ i.validateWrites E, FlagsHonest E i j := by
  intro j hj
  have hb := validateBase_frame i
  obtain ⟨h1, _, _, _⟩ := validateHyper_frame i
  unfold Inst.validateWrites at hj
  simp only [List.mem_append, List.mem_singleton] at hj
  rcases hj with hj | hj
  · rw [hj]
    refine flags_same (flags_self E i) ?_ ?_ ?_ ?_ <;> rw [hb]
  · cases hbe : i.validateBase.2 with
    | error e => rw [hbe] at hj; cases hj
    | ok u =>
      rw [hbe] at hj
      simp only [List.mem_append, List.mem_cons, List.not_mem_nil, or_false] at hj
      rcases hj with (hj | hj) | hj
      · rw [hj]
        refine flags_same (flags_self E i) ?_ ?_ ?_ ?_ <;> (simp only; rw [hb])
      · rw [hj]
        refine flags_same (flags_self E i) ?_ ?_ ?_ ?_ <;> rw [h1]
      · cases hhe : i.validateHyper.2 with
        | error e => rw [hhe] at hj; cases hj
        | ok u =>
          rw [hhe] at hj
          simp only [List.mem_append, List.mem_singleton] at hj
          rcases hj with hj | hj
          · obtain ⟨a, b, c, d⟩ := flags_versionWrites E i.validateHyper.1 j hj
            rw [h1] at a b c d
            exact ⟨a, b, c, d⟩
          · rw [hj]
            refine flags_same (flags_check E i i.validateHyper.1) ?_ ?_ ?_ ?_ <;> rw [validateFigure_flags]

/-- C99: a `validate_settings()` or an assignment of settings that was cut off does not make the
object believe that plotly or kaleido is installed or usable: it is so in the environment, or the
object believed it before. -/
theorem C99_flags (A : Arith) (E : Env) (i : Inst) (o : Op) (ho : o = .validate E ∨ ∃ v, o = .settings E v) (n : Nat) :
    FlagsHonest E i (cut A i o n) := by
  rcases cut_mem (A := A) (i := i) (o := o) (n := n) with h | h
  · rw [h]; exact flags_self E i
  · generalize cut A i o n = j at h ⊢
    rcases ho with rfl | ⟨v, rfl⟩
    · exact flags_validate E i j h
    · rcases List.mem_cons.1 h with rfl | h
      · exact flags_self E i
      · exact flags_validate E { i with settings := v } j h

end HP
