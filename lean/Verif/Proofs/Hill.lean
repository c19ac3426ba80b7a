import Verif.Props.Search
import Verif.SpecReports
import Verif.Proofs.AbstractSearch
/-
`local_search()` is hill climbing in the sense of SpecHill.
-/
namespace HP
open Spec

/-- What the documentation says about the search: a neighbour is better if its overall value is larger and, in strip
packing without a minimum height, all items are placed; in strip packing the height becomes that of the packing
(at least the minimum height); with `throttle` 2500 neighbours of a node are tried, otherwise all. -/
def Inst.hill (A : Arith) (clock : Nat → Rat) (start : Rat) (throttle : Bool) (i : Inst) :
    HillRules String (Solution × ObjVals) where
  pack h x r := HP.solve A (i.at h) (some x) = .ok r
  better r' r := overall A (r'.2.map (·.2)) > overall A (r.2.map (·.2)) ∧
    (i.strip = true → i.minHeight = none → ∀ id ∈ i.items.map (·.1), id ∈ placedIds r'.1)
  lower h r := if i.strip then max (stackHeight (r.1.flatMap (fun c => c.2.map (·.2)))) (i.minHeight.getD 0)
    else h
  limit := if throttle then 2500 else i.items.length * (i.items.length - 1) / 2
  late := Late A clock start i

theorem hill_base (A : Arith) (clock : Nat → Rat) (start : Rat) (throttle : Bool) (i : Inst) :
    i.searchBase.hill A clock start throttle = i.hill A clock start throttle := by
  unfold Inst.searchBase; split <;> rfl

theorem exchangeAt_eq (xs : List String) (a b : Nat) : exchangeAt xs a b = exchange xs a b := by
  unfold exchangeAt exchange
  cases xs[a]? <;> cases xs[b]? <;> rfl

theorem tried_eq {xs : List String} {n : Nat} (hn : xs.length = n) (throttle : Bool) :
    (neighbours xs).take (if throttle then 2500 else n * (n - 1) / 2) =
      ((indexSwaps n).take (maxNeighbors throttle n)).map (fun p => exchange xs p.1 p.2) := by
  have hfun : (fun p : Nat × Nat => exchangeAt xs p.1 p.2) = fun p => exchange xs p.1 p.2 :=
    funext fun p => exchangeAt_eq xs p.1 p.2
  rw [ALS.neighbours_eq, hn, hfun, ← List.map_take]
  have hl := indexSwaps_length n
  congr 1
  unfold maxNeighbors maxNeighborsThrottle
  cases throttle with
  | false => simp
  | true =>
    simp only [if_true, Bool.true_and, decide_eq_true_eq]
    split
    · rfl
    · rw [List.take_of_length_le (by omega), List.take_of_length_le (by omega)]

theorem strip_single {i : Inst} (hv : i.Valid) (hs : i.strip = true) {sol : Solution} {ov : ObjVals}
    (hf : SolFacts i.containers i.items sol ov) : sol = [(stripId, stripPart sol)] := by
  obtain ⟨W, hW⟩ := hv.strip hs
  have hk := hf.keysS
  rw [hW] at hk
  match sol, hk with
  | [(a, m)], h =>
    simp [PyDict.keys] at h
    subst h
    simp [stripPart, PyDict.find?]

theorem acc_iff {A : Arith} {clock : Nat → Rat} {start : Rat} {throttle : Bool} {i : Inst} (hv : i.Valid)
    (hn : i.containersNum = i.containers.length) {sol1 sol : Solution} {ov1 ov : ObjVals}
    (hf1 : SolFacts i.containers i.items sol1 ov1) (hf : SolFacts i.containers i.items sol ov) :
    Acc i sol1 (i.worth A (ov1.map (·.2))) (i.worth A (ov.map (·.2))) ↔
      (i.hill A clock start throttle).better (sol1, ov1) (sol, ov) := by
  unfold Acc Inst.hill
  simp only
  rw [Inst.worth_eq hn hf1.keysO, Inst.worth_eq hn hf.keysO]
  refine and_congr_right (fun _ => forall_congr' fun hst => forall_congr' fun _ => ?_)
  have h1 := strip_single hv hst hf1
  have hmem : (stripId, stripPart sol1) ∈ sol1 := by rw [h1]; simp [stripPart, PyDict.find?]
  have hnd := hf1.nodup _ _ hmem
  have hsub := hf1.sub _ _ hmem
  have hp : placedIds sol1 = PyDict.keys (stripPart sol1) := by
    conv => lhs; rw [h1]
    simp [placedIds, PyDict.keys]
  rw [hp]
  constructor
  · intro hl id hid
    have hperm : (PyDict.keys (stripPart sol1)).Perm (PyDict.keys i.items) :=
      (List.subperm_of_subset hnd hsub).perm_of_length_le (by simp [PyDict.keys, hl])
    exact hperm.mem_iff.2 hid
  · intro hall
    have l1 := (List.subperm_of_subset hnd hsub).length_le
    have l2 := (List.subperm_of_subset hv.items.1 hall).length_le
    simp [PyDict.keys] at l1 l2
    omega

theorem lower_eq {A : Arith} {clock : Nat → Rat} {start : Rat} {throttle : Bool} {i : Inst} (hv : i.Valid)
    {sol1 : Solution} {ov1 : ObjVals} (hf1 : SolFacts i.containers i.items sol1 ov1) (h : Option Nat) :
    (i.hill A clock start throttle).lower (h.getD 0) (sol1, ov1) = (nextH i sol1 h).getD 0 := by
  unfold Inst.hill nextH
  simp only
  split
  · rename_i hst
    have h1 := strip_single hv hst hf1
    rw [stackOf_eq]
    conv => lhs; rw [h1]
    simp
  · rfl

theorem LSInvAt.log {A : Arith} {i : Inst} {s : LSState Inst (Solution × ObjVals)}
    {h : Option Nat} {hs : List Nat} {hN : Nat} {sol : Solution}
    (hi : LSInvAt A i s h hs hN sol) (l : List NodeLog) : LSInvAt A i { s with log := l } h hs hN sol :=
  ⟨hi.obj, hi.hStrip, hi.hBin, hi.nStrip, hi.nBin, hi.node, hi.packs, hi.same, hi.best, hi.strip, hi.hist⟩

theorem upd_inj {i : Inst} {a b : Solution} {c d : ObjVals} {h h' : Option Nat} {hs hs' : List Nat}
    (e : i.upd a c h hs = i.upd b d h' hs') : h = h' ∧ hs = hs' := by
  unfold Inst.upd at e
  injection e with _ _ _ e1 _ e2
  exact ⟨e1, e2⟩

/-- the climb of which the reports are given -/
theorem Spec.HillReports.hill {α R V : Type} {K : HillRules α R} {val : R → V} {n m : Nat} {a z : HillNode α R}
    {l : List (Report V)} (h : HillReports K val n a m z l) : Hill K n a m z := by
  induction h with
  | rest q1 q2 q3 q4 q5 => exact .rest q1 q2 q3 (q5.imp_right q4.1)
  | last q1 q2 q3 q4 q5 q6 => exact .last q1 q2 q3 q4 q5 q6
  | move q1 q2 q3 q4 q5 q6 _ ih => exact .move q1 q2 q3 q4 q5 q6 ih

/-- the entry of a node as a report -/
def NodeLog.report (e : NodeLog) : Report Rat := ⟨e.best, e.processed, e.found, e.outOfTime⟩

/-- the trace of the model is a climb, and its entries are the reports -/
theorem path_reports {A : Arith} {clock : Nat → Rat} {start : Rat} {throttle : Bool} {i : Inst} (hv : i.Valid)
    (hn : i.containersNum = i.containers.length) {s t : LSState Inst (Solution × ObjVals)}
    (hp : LSPath A ⟨A, clock, start, i.maxTime⟩ (maxNeighbors throttle i.items.length)
      (indexSwaps i.items.length) i s t) :
    ∀ {h : Option Nat} {hs : List Nat} {hN : Nat} {sol : Solution}, LSInvAt A i s h hs hN sol →
    ∀ shs, (i.strip = true → shs = hs) →
    ∃ h' hs' hN' sol' shs', LSInvAt A i t h' hs' hN' sol' ∧ (i.strip = true → shs' = hs') ∧
      ∃ ext, t.log = s.log ++ ext ∧ (∀ e ∈ ext, e.globalOpt = false) ∧
      HillReports (i.hill A clock start throttle) (fun r : Solution × ObjVals => overall A (r.2.map (·.2))) s.tick
        ⟨s.node, (sol, s.retained.2), h.getD 0, shs⟩
        t.tick ⟨t.node, (sol', t.retained.2), h'.getD 0, shs'⟩ (ext.map NodeLog.report) := by
  -- one scan
  have key : ∀ {s s' : LSState Inst (Solution × ObjVals)} {lg : NodeLog} {h : Option Nat} {hs : List Nat} {hN : Nat}
      {sol : Solution}, LSInvAt A i s h hs hN sol →
      ScanRes A ⟨A, clock, start, i.maxTime⟩ (maxNeighbors throttle i.items.length) i
        (indexSwaps i.items.length) 0 h hs s s' lg →
      (lg.found = false →
        ∃ pre post, (neighbours s.node).take (i.hill A clock start throttle).limit = pre ++ post ∧
          Refused (i.hill A clock start throttle) ⟨s.node, (sol, s.retained.2), h.getD 0, []⟩ pre ∧
          (∀ k, k + 1 < pre.length → ¬ Late A clock start i (s.tick + k)) ∧
          (lg.outOfTime = true ↔ pre ≠ [] ∧ Late A clock start i (s.tick + pre.length - 1)) ∧
          (post = [] ∨ lg.outOfTime = true) ∧
          lg.processed = pre.length ∧ lg.best = overall A (s.retained.2.map (·.2)) ∧
          s'.tick = s.tick + pre.length ∧ s'.node = s.node ∧ s'.retained = s.retained) ∧
      (lg.found = true →
        ∃ pre post sol1, (neighbours s.node).take (i.hill A clock start throttle).limit = pre ++ s'.node :: post ∧
          Refused (i.hill A clock start throttle) ⟨s.node, (sol, s.retained.2), h.getD 0, []⟩ pre ∧
          (∀ k, k < pre.length → ¬ Late A clock start i (s.tick + k)) ∧
          (i.hill A clock start throttle).pack (h.getD 0) s'.node (sol1, s'.retained.2) ∧
          (i.hill A clock start throttle).better (sol1, s'.retained.2) (sol, s.retained.2) ∧
          lg.processed = pre.length + 1 ∧ lg.best = overall A (s'.retained.2.map (·.2)) ∧
          s'.tick = s.tick + pre.length + 1 ∧
          (Late A clock start i (s.tick + pre.length) ↔ lg.outOfTime = true) ∧
          (i.hill A clock start throttle).lower (h.getD 0) (sol1, s'.retained.2) = (nextH i sol1 h).getD 0 ∧
          LSInvAt A i s' (nextH i sol1 h)
            (if i.strip then hs ++ [(nextH i sol1 h).getD 0] else hs) (h.getD 0) sol1) := by
    intro s s' lg h hs hN sol hi hr
    have hlen : s.node.length = i.items.length := by rw [hi.node.length_eq]; simp [PyDict.keys]
    have htried := tried_eq hlen throttle
    have hpos : i.strip = true → 0 < h.getD 0 := by
      intro hst
      obtain ⟨k, rfl, hk, _⟩ := hi.hStrip hst
      exact hk
    have hposN : i.strip = true → 0 < hN := fun hst => (hi.nStrip hst).1
    have hf0 := hi.packs.facts hv hposN hi.node
    have hlate : ∀ k, (LSParams.late ⟨A, clock, start, i.maxTime⟩ k = true) ↔ Late A clock start i k := by
      intro k; simp [LSParams.late, Late]
    have hlate' : ∀ k, (LSParams.late ⟨A, clock, start, i.maxTime⟩ k = false) ↔ ¬ Late A clock start i k := by
      intro k; rw [← hlate]; simp
    have href : ∀ ps : List (Nat × Nat), (∀ q ∈ ps, ∀ sol1 ov1,
          Packs A i (h.getD 0) (exchange s.node q.1 q.2) sol1 ov1 →
            ¬ Acc i sol1 (i.worth A (ov1.map (·.2))) s.best) →
        Refused (i.hill A clock start throttle) ⟨s.node, (sol, s.retained.2), h.getD 0, []⟩
          (ps.map (fun p => exchange s.node p.1 p.2)) := by
      intro ps hps y hy r hr' hb
      obtain ⟨q, hq, rfl⟩ := List.mem_map.1 hy
      have hpk : Packs A i (h.getD 0) (exchange s.node q.1 q.2) r.1 r.2 := hr'
      have hf1 := hpk.facts hv hpos ((exchange_perm _ _ _).trans hi.node)
      refine hps q hq r.1 r.2 hpk ?_
      rw [hi.best]
      exact (acc_iff hv hn hf1 hf0).2 hb
    have p2 := hr.proc2
    have p3 := hr.proc3
    have hsl := indexSwaps_length i.items.length
    have htk := hr.tick
    simp only [Nat.zero_add, Nat.sub_zero] at p2 p3 htk
    have hbnd : lg.processed ≤ ((indexSwaps i.items.length).take (maxNeighbors throttle i.items.length)).length := by
      rw [List.length_take]
      by_cases h0 : (indexSwaps i.items.length).length = 0
      · omega
      · have : 1 ≤ maxNeighbors throttle i.items.length := by
          unfold maxNeighbors maxNeighborsThrottle
          simp only
          split <;> omega
        omega
    constructor
    · intro hfd
      obtain ⟨q1, q2, q3, q4, q5, q6⟩ := hr.stay hfd
      rw [Nat.sub_zero] at q5
      have hpl : (((indexSwaps i.items.length).take lg.processed).map
          (fun p => exchange s.node p.1 p.2)).length = lg.processed := by
        rw [List.length_map, List.length_take]; omega
      refine ⟨((indexSwaps i.items.length).take lg.processed).map (fun p => exchange s.node p.1 p.2),
        (((indexSwaps i.items.length).take (maxNeighbors throttle i.items.length)).drop lg.processed).map
          (fun p => exchange s.node p.1 p.2), ?_, href _ q5, ?_, ?_, ?_, hpl.symm, ?_, ?_, q1, q3⟩
      · show (neighbours s.node).take (if throttle then 2500 else _) = _
        rw [htried, ← List.map_append]
        congr 1
        have : (indexSwaps i.items.length).take lg.processed =
            ((indexSwaps i.items.length).take (maxNeighbors throttle i.items.length)).take lg.processed := by
          rw [List.take_take]
          congr 1
          rw [List.length_take] at hbnd
          omega
        rw [this, List.take_append_drop]
      · intro k hk
        rw [hpl] at hk
        exact (hlate' _).1 (hr.early _ (by omega) (by omega))
      · rw [hpl]
        constructor
        · intro h1
          obtain ⟨l1, l2⟩ := hr.late h1
          refine ⟨?_, ?_⟩
          · intro he
            rw [he] at hpl
            simp at hpl
            omega
          · rw [← htk]; exact (hlate _).1 l2
        · rintro ⟨hne, hl⟩
          cases ho : lg.outOfTime with
          | true => rfl
          | false =>
            have h0 : lg.processed ≠ 0 := by
              intro h0
              exact hne (List.length_eq_zero_iff.1 (hpl.trans h0))
            exact absurd hl ((hlate' _).1 (hr.inTime ho (s.tick + lg.processed - 1) (by omega) (by omega)))
      · rcases q6 with h1 | h1 | h1
        · exact .inr h1
        · left
          rw [List.map_eq_nil_iff, List.drop_eq_nil_iff, List.length_take]; omega
        · left
          rw [List.map_eq_nil_iff, List.drop_eq_nil_iff, List.length_take]; omega
      · rw [hr.best, q2, hi.best, Inst.worth_eq hn hf0.keysO]
      · rw [hpl]; exact htk
    · intro hfd
      obtain ⟨p, hp, sol1, ov1, e1, e2, e3, e4, e5, e6, e7⟩ := hr.move hfd
      obtain ⟨pre, p', post, f1, f2, f3, f4⟩ := hr.first hfd
      rw [Nat.zero_add] at f3
      have hperm : s'.node.Perm (PyDict.keys i.items) := by
        rw [e1]; exact (exchange_perm _ _ _).trans hi.node
      have hf1 := e2.facts hv hpos hperm
      subst e5
      refine ⟨pre.map (fun p => exchange s.node p.1 p.2),
        (post.take (maxNeighbors throttle i.items.length - pre.length - 1)).map (fun p => exchange s.node p.1 p.2),
        sol1, ?_, href _ f4, ?_, e2, ?_, by rw [List.length_map]; exact f3, by rw [hr.best, e4, Inst.worth_eq hn hf1.keysO],
        ?_, ?_, lower_eq hv hf1 h, LSInvAt_move hv hi e1 e2 e3 e4 rfl e6 e7⟩
      · show (neighbours s.node).take (if throttle then 2500 else _) = _
        rw [htried, f1, f2]
        rw [List.length_take] at hbnd
        rw [List.take_append, List.take_of_length_le (by omega)]
        obtain ⟨d, hd⟩ : ∃ d, maxNeighbors throttle i.items.length - pre.length = d + 1 :=
          ⟨maxNeighbors throttle i.items.length - pre.length - 1, by omega⟩
        rw [hd, List.take_succ_cons]
        simp
      · intro k hk
        rw [List.length_map] at hk
        exact (hlate' _).1 (hr.early _ (by omega) (by omega))
      · have e3' := e3
        rw [hi.best] at e3'
        exact (acc_iff hv hn hf1 hf0).1 e3'
      · rw [List.length_map]; omega
      · rw [List.length_map]
        have hidx : s'.tick - 1 = s.tick + pre.length := by omega
        constructor
        · intro hl
          cases ho : lg.outOfTime with
          | true => rfl
          | false =>
            have := hr.inTime ho (s.tick + pre.length) (by omega) (by omega)
            exact absurd hl ((hlate' _).1 this)
        · intro ho
          have := (hr.late ho).2
          rw [hidx] at this
          exact (hlate _).1 this
  induction hp with
  | stop hobj hr hst =>
    intro h hs hN sol hi shs hshs
    obtain ⟨a, b, hob⟩ := hobj
    obtain ⟨a', b', hob'⟩ := hi.obj
    rw [hob] at hob'
    obtain ⟨rfl, rfl⟩ := upd_inj hob'
    obtain ⟨k1, k2⟩ := key hi hr
    rename_i s1 s2 lg h1 hs1
    cases hfd : lg.found with
    | false =>
      obtain ⟨pre, post, q1, q2, q3, q4, q4', qp, qb, q5, q6, q7⟩ := k1 hfd
      have hi2 := LSInvAt_stay hi hr hfd
      refine ⟨h1, hs1, hN, sol, shs, hi2.log _, hshs, [lg], by rw [hr.log], by simpa using hr.glob, ?_⟩
      simp only [q5, q6, q7, List.map_cons, List.map_nil, NodeLog.report, qp, qb, hfd]
      exact .rest q1 q2 q3 q4 q4'
    | true =>
      obtain ⟨pre, post, sol1, q1, q2, q3, q4, q5, qp, qb, q6, q7, q8, q9⟩ := k2 hfd
      have ho : lg.outOfTime = true := by
        rcases hst with h | h
        · rw [hfd] at h; cases h
        · exact h
      refine ⟨_, _, _, sol1, shs ++ [(nextH i sol1 h1).getD 0], q9.log _, ?_, [lg], by rw [hr.log],
        by simpa using hr.glob, ?_⟩
      · intro hstr; rw [if_pos hstr, hshs hstr]
      · have := HillReports.last (val := fun r : Solution × ObjVals => overall A (r.2.map (·.2))) (K := i.hill A clock start throttle)
          (a := ⟨s1.node, (sol, s1.retained.2), h1.getD 0, shs⟩) q1 q2 q3 q4 q5 (q7.2 ho)
        unfold HillNode.moved at this
        simp only [q8] at this
        simp only [q6, List.map_cons, List.map_nil, NodeLog.report, qp, qb, hfd, ho]
        exact this
  | next hobj hr hf ho hrest ih =>
    intro h hs hN sol hi shs hshs
    obtain ⟨a, b, hob⟩ := hobj
    obtain ⟨a', b', hob'⟩ := hi.obj
    rw [hob] at hob'
    obtain ⟨rfl, rfl⟩ := upd_inj hob'
    obtain ⟨k1, k2⟩ := key hi hr
    rename_i s1 s2 lg h1 hs1 t1
    obtain ⟨pre, post, sol1, q1, q2, q3, q4, q5, qp, qb, q6, q7, q8, q9⟩ := k2 hf
    obtain ⟨h', hs', hN', sol', shs', r1, r2, ext, x1, x2, r3⟩ := ih (q9.log _) (shs ++ [(nextH i sol1 h1).getD 0])
      (by intro hstr; rw [if_pos hstr, hshs hstr])
    refine ⟨h', hs', hN', sol', shs', r1, r2, lg :: ext, by rw [x1, hr.log]; simp, ?_, ?_⟩
    · intro e he
      rcases List.mem_cons.1 he with rfl | he
      · exact hr.glob
      · exact x2 e he
    simp only [q6] at r3
    simp only [List.map_cons, NodeLog.report, qp, qb, hf, ho]
    refine HillReports.move (val := fun r : Solution × ObjVals => overall A (r.2.map (·.2))) (K := i.hill A clock start throttle) (y := s2.node) (r := (sol1, s2.retained.2))
      (a := ⟨s1.node, (sol, s1.retained.2), h1.getD 0, shs⟩) q1 q2 q3 q4 q5 ?_ ?_
    · intro hl; rw [q7.1 hl] at ho; cases ho
    · unfold HillNode.moved
      simp only [q8]
      exact r3

/-- the trace of the model is a climb -/
theorem path_hill {A : Arith} {clock : Nat → Rat} {start : Rat} {throttle : Bool} {i : Inst} (hv : i.Valid)
    (hn : i.containersNum = i.containers.length) {s t : LSState Inst (Solution × ObjVals)}
    (hp : LSPath A ⟨A, clock, start, i.maxTime⟩ (maxNeighbors throttle i.items.length)
      (indexSwaps i.items.length) i s t)
    {h : Option Nat} {hs : List Nat} {hN : Nat} {sol : Solution} (hi : LSInvAt A i s h hs hN sol)
    (shs : List Nat) (hshs : i.strip = true → shs = hs) :
    ∃ h' hs' hN' sol' shs', LSInvAt A i t h' hs' hN' sol' ∧ (i.strip = true → shs' = hs') ∧
      Hill (i.hill A clock start throttle) s.tick ⟨s.node, (sol, s.retained.2), h.getD 0, shs⟩
        t.tick ⟨t.node, (sol', t.retained.2), h'.getD 0, shs'⟩ := by
  obtain ⟨h', hs', hN', sol', shs', q1, q2, ext, _, _, q3⟩ := path_reports hv hn hp hi shs hshs
  exact ⟨h', hs', hN', sol', shs', q1, q2, q3.hill⟩

end HP
