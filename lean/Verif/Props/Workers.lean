import Verif.Proofs.Agree
import Verif.Props.MultiProcess
import Verif.Props.HyperSearch
/-
C34 (the number of workers does not matter) and C58 (searches within their time limit are
deterministic).
-/
namespace HP
open Spec

theorem best_le {P Q : List PClass → Rat → Prop} {sts : List (List PClass)} {v0 V V' : Rat}
    (hPQ : ∀ st u u', P st u → Q st u' → u = u')
    (hV : V = v0 ∨ ∃ st ∈ sts, P st V) (h0 : v0 ≤ V') (hV' : ∀ st ∈ sts, ∃ u, Q st u ∧ u ≤ V') :
    V ≤ V' := by
  rcases hV with h | ⟨st, hst, hp⟩
  · rw [h]; exact h0
  · obtain ⟨u, hq, hu⟩ := hV' st hst
    rw [hPQ st V u hp hq]; exact hu

/-- the value of a multi process search: the best over the initial value and all strategies -/
theorem multi_best {E : Env} {M : MPParams} {strategies : List (List PClass)}
    {schedule : List (Nat × MPEvent)} {i w : Inst} {chunks : List (List (List PClass))}
    (hA : NonNeg M.ar) (hv : i.Valid) (hc : strategyChunks strategies i.workers = .ok chunks)
    (hw : workerInst E i = .ok w) (htime : ∀ p, InTime M.ar (M.clock p) M.start w.maxTime)
    (hkill : ∀ p, ¬ Killed schedule p) (hraise : ∀ p, ¬ Raised M w chunks schedule p)
    {sol : Solution} {ov : ObjVals} {st : Option (List PClass)}
    (hret : i.multiHS E M strategies schedule = .returned sol ov st)
    {sol0 : Solution} {ov0 : ObjVals} (h0 : solve M.ar w.solveIn none = .ok (sol0, ov0)) :
    overall M.ar (ov0.map (·.2)) ≤ overall M.ar (ov.map (·.2)) ∧
    (∀ st ∈ strategies, ∃ u, (∃ p, LocalValue M.ar (M.clock p) M.start M.throttle w st u) ∧
      u ≤ overall M.ar (ov.map (·.2))) ∧
    (overall M.ar (ov.map (·.2)) = overall M.ar (ov0.map (·.2)) ∨
      ∃ st ∈ strategies, ∃ p, LocalValue M.ar (M.clock p) M.start M.throttle w st
        (overall M.ar (ov.map (·.2)))) := by
  obtain ⟨w1, _⟩ := workerInst_spec hv hw
  obtain ⟨hflat, _, _⟩ := C31_partition _ _ _ hc
  obtain ⟨p, chunk, s, c1, _, c3, c4, c5, _, c7⟩ :=
    C32_best E M strategies schedule i w chunks hA hv hc hw sol ov st hret
  have hb := singleHS_best w1 (workerInst_num hw) (htime p) c3 h0
  rw [← c5] at hb
  have hmem : ∀ (q : Nat) (c : List (List PClass)) (x : List PClass), chunks[q]? = some c → x ∈ c →
      x ∈ strategies := by
    intro q c x hq hx
    rw [← hflat]
    exact List.mem_flatten.2 ⟨c, List.mem_of_getElem? hq, hx⟩
  refine ⟨hb.init, ?_, ?_⟩
  · intro x hx
    rw [← hflat] at hx
    obtain ⟨c, hcm, hxc⟩ := List.mem_flatten.1 hx
    obtain ⟨q, hq, hqc⟩ := List.getElem_of_mem hcm
    obtain ⟨s', hs'⟩ := C27_total M.ar (M.clock q) M.start M.throttle w c w1
    have hle := c7 q c s' (by rw [List.getElem?_eq_getElem hq, hqc]) (hraise q) (hkill q) hs'
    obtain ⟨u, hu1, hu2⟩ := (singleHS_best w1 (workerInst_num hw) (htime q) hs' h0).each x hxc
    exact ⟨u, ⟨q, hu1⟩, le_trans hu2 hle⟩
  · rcases hb.attained with h | ⟨x, hx, h⟩
    · exact Or.inl h
    · exact Or.inr ⟨x, hmem p chunk x c1 hx, p, h⟩

/-- C34: bin packing, nobody raises or is killed, nobody reaches the time limit.  A multi process
search ends with the value of the single process search over the same strategies, for every
number of workers and every schedule, if the instance uses the default strategy and its settings
are in force (validating them again would change nothing). -/
theorem C34_single (E : Env) (M : MPParams) (strategies : List (List PClass))
    (schedule : List (Nat × MPEvent)) (i w : Inst) (chunks : List (List (List PClass)))
    (clock : Nat → Rat) (start : Rat)
    (hA : NonNeg M.ar) (hv : i.Valid) (hn : i.containersNum = i.containers.length) (hbin : i.strip = false) (hst : i.strategy = defaultStrategy)
    (hset : i.validateHyper = (i, .ok ()))
    (hc : strategyChunks strategies i.workers = .ok chunks) (hw : workerInst E i = .ok w)
    (hmulti : ∀ p n, M.ar.sub (M.clock p n) M.start < (i.maxTime : Rat))
    (hsingle : ∀ n, M.ar.sub (clock n) start < (i.maxTime : Rat))
    (hkill : ∀ p, ¬ Killed schedule p) (hraise : ∀ p, ¬ Raised M w chunks schedule p)
    (sol : Solution) (ov : ObjVals) (st : Option (List PClass))
    (hret : i.multiHS E M strategies schedule = .returned sol ov st) (s : HSState)
    (hs : i.singleHS M.ar clock start M.throttle strategies = .ok s) :
    overall M.ar (ov.map (·.2)) = overall M.ar (s.finish.objVals.map (·.2)) := by
  obtain ⟨w1, w2, w3, w4, w5, w6, _⟩ := workerInst_spec hv hw
  obtain ⟨f1, f2⟩ := workerInst_inForce hset hw
  have hsame : SameProblem i w := by
    refine ⟨w4.symm, w3.symm, ?_, w2.symm, f1.symm, by rw [hst, w6], ?_, ?_⟩
    · rw [hn, workerInst_num hw, w3]
    · intro h; rw [hbin] at h; cases h
    · intro h; rw [hbin] at h; cases h
  have hsame' : SameProblem { i with strategy := w.strategy } w := by
    rw [w6, ← hst]; exact hsame
  obtain ⟨sol0, ov0, _, _, g1, _⟩ := init_spec (A := M.ar) w1
  have g1' : solve M.ar i.solveIn none = .ok (sol0, ov0) := by rw [hsame.solve]; exact g1
  obtain ⟨m1, m2, m3⟩ := multi_best hA hv hc hw (by intro p n; rw [f2]; exact hmulti p n) hkill hraise hret g1
  have b := singleHS_best hv hn hsingle hs g1'
  have huniq : ∀ st u u', (∃ p, LocalValue M.ar (M.clock p) M.start M.throttle w st u) →
      LocalValue M.ar clock start M.throttle i st u' → u = u' := by
    rintro st u u' ⟨p, h1⟩ h2
    exact (localValue_unique hsame' hbin hsingle (by intro n; rw [f2]; exact hmulti p n) h2 h1).symm
  apply le_antisymm
  · refine best_le huniq m3 b.init b.each
  · refine best_le (fun st u u' h1 h2 => (huniq st u' u h2 h1).symm) b.attained m1 m2

/-- C34, two numbers of workers: two instances with the same items, containers and rotation
setting, each with its own number of workers, schedule and clocks, end with the same value. -/
theorem C34_workers (E E' : Env) (M M' : MPParams) (strategies : List (List PClass))
    (schedule schedule' : List (Nat × MPEvent)) (i i' w w' : Inst)
    (chunks chunks' : List (List (List PClass)))
    (hA : NonNeg M.ar) (hAA : M'.ar = M.ar) (hth : M'.throttle = M.throttle)
    (hv : i.Valid) (hv' : i'.Valid) (hbin : i.strip = false) (hbin' : i'.strip = false)
    (hitems : i'.items = i.items) (hconts : i'.containers = i.containers)
    (hrot : i'.rotation = i.rotation)
    (hset : i.validateHyper = (i, .ok ())) (hset' : i'.validateHyper = (i', .ok ()))
    (hc : strategyChunks strategies i.workers = .ok chunks)
    (hc' : strategyChunks strategies i'.workers = .ok chunks')
    (hw : workerInst E i = .ok w) (hw' : workerInst E' i' = .ok w')
    (htime : ∀ p n, M.ar.sub (M.clock p n) M.start < (i.maxTime : Rat))
    (htime' : ∀ p n, M'.ar.sub (M'.clock p n) M'.start < (i'.maxTime : Rat))
    (hkill : ∀ p, ¬ Killed schedule p) (hkill' : ∀ p, ¬ Killed schedule' p)
    (hraise : ∀ p, ¬ Raised M w chunks schedule p)
    (hraise' : ∀ p, ¬ Raised M' w' chunks' schedule' p)
    (sol sol' : Solution) (ov ov' : ObjVals) (st st' : Option (List PClass))
    (hret : i.multiHS E M strategies schedule = .returned sol ov st)
    (hret' : i'.multiHS E' M' strategies schedule' = .returned sol' ov' st') :
    overall M.ar (ov.map (·.2)) = overall M.ar (ov'.map (·.2)) := by
  obtain ⟨w1, w2, w3, w4, w5, w6, _⟩ := workerInst_spec hv hw
  obtain ⟨v1, v2, v3, v4, v5, v6, _⟩ := workerInst_spec hv' hw'
  obtain ⟨f1, f2⟩ := workerInst_inForce hset hw
  obtain ⟨f1', f2'⟩ := workerInst_inForce hset' hw'
  have hsw : w.strip = false := by rw [w4, hbin]
  have hsame : SameProblem w w' := by
    refine ⟨by rw [w4, v4, hbin, hbin'], by rw [w3, v3, hconts], ?_, by rw [w2, v2, hitems],
      by rw [f1, f1', hrot], by rw [w6, v6], ?_, ?_⟩
    · rw [workerInst_num hw, workerInst_num hw', w3, v3, hconts]
    · intro h; rw [hsw] at h; cases h
    · intro h; rw [hsw] at h; cases h
  have hsame' : SameProblem { w with strategy := w'.strategy } w' := by
    rw [← hsame.strat]; exact hsame
  obtain ⟨sol0, ov0, _, _, g1, _⟩ := init_spec (A := M.ar) w1
  have g1' : solve M'.ar w'.solveIn none = .ok (sol0, ov0) := by rw [hAA, ← hsame.solve]; exact g1
  have hA' : NonNeg M'.ar := by rw [hAA]; exact hA
  obtain ⟨m1, m2, m3⟩ := multi_best hA hv hc hw (by intro p n; rw [f2]; exact htime p n) hkill hraise hret g1
  obtain ⟨k1, k2, k3⟩ := multi_best hA' hv' hc' hw' (by intro p n; rw [f2']; exact htime' p n) hkill'
    hraise' hret' g1'
  rw [hAA] at k1 k2 k3 htime'
  rw [hth] at k2 k3
  have huniq : ∀ st u u', (∃ p, LocalValue M.ar (M.clock p) M.start M.throttle w st u) →
      (∃ p, LocalValue M.ar (M'.clock p) M'.start M.throttle w' st u') → u = u' := by
    rintro st u u' ⟨p, h1⟩ ⟨q, h2⟩
    exact localValue_unique hsame' hsw (by intro n; rw [f2]; exact htime p n)
      (by intro n; rw [f2']; exact htime' q n) h1 h2
  apply le_antisymm
  · exact best_le huniq m3 k1 k2
  · exact best_le (fun st u u' h1 h2 => (huniq st u' u h2 h1).symm) k3 m1 m2

/-! ### C58: searches within the time limit are deterministic -/

/-- C58, local search: two instances that pose the same problem - same items, containers,
strategy, rotation setting and container heights, whatever solution, settings or time limit they
hold - end with the same solution, values and container height, whatever the clock shows, if no
reading reaches the time limit. -/
theorem C58_local (A : Arith) (c1 c2 : Nat → Rat) (s1 s2 : Rat) (throttle : Bool) (a b : Inst)
    (hstrip : a.strip = b.strip) (hconts : a.containers = b.containers) (hitems : a.items = b.items)
    (hrot : a.rotation = b.rotation) (hstrat : a.strategy = b.strategy)
    (hheight : a.height = b.height) (hmin : a.minHeight = b.minHeight)
    (hnum : a.containersNum = b.containersNum) (hva : a.Valid) (hvb : b.Valid)
    (h1 : ∀ n, A.sub (c1 n) s1 < (a.maxTime : Rat)) (h2 : ∀ n, A.sub (c2 n) s2 < (b.maxTime : Rat)) :
    ∃ j1 t1 j2 t2, a.localSearch A c1 s1 throttle = .ok (j1, t1) ∧
      b.localSearch A c2 s2 throttle = .ok (j2, t2) ∧ j1.solution = j2.solution ∧
      j1.objVals = j2.objVals ∧ t1.log = t2.log ∧ (a.strip = true → j1.height = j2.height) := by
  obtain ⟨_, t1, _, g1, _⟩ := localSearch_spec (A := A) (clock := c1) (start := s1) (throttle := throttle) hva
  obtain ⟨_, t2, _, g2, _⟩ := localSearch_spec (A := A) (clock := c2) (start := s2) (throttle := throttle) hvb
  have hp : SameProblem a b := ⟨hstrip, hconts, hnum, hitems, hrot, hstrat,
    fun _ => hheight, fun _ => hmin⟩
  obtain ⟨e, hl⟩ := localSearch_same hp h1 h2 g1 g2
  refine ⟨_, t1, _, t2, g1, g2, e.sol, e.ov, hl, ?_⟩
  intro hs
  apply e.height
  have hf := (C17_frame A c1 s1 throttle a _ t1 hva g1).1
  rw [hf]
  exact hs

/-- states of two hypersearches over the same problem -/
structure SameHS (m1 m2 : Int) (s t : HSState) : Prop where
  inst : SameProblem s.inst t.inst
  best : s.best = t.best
  ret : s.retained = t.retained
  strat : s.bestStrategy = t.bestStrategy
  tried : s.tried = t.tried
  v1 : s.inst.Valid
  v2 : t.inst.Valid
  m1 : s.inst.maxTime = m1
  m2 : t.inst.maxTime = m2

theorem notLate {A : Arith} {clock : Nat → Rat} {start : Rat} {m : Int} (h : InTime A clock start m) (n : Nat) :
    outOfTime A (clock n) start m = false := by
  simp only [outOfTime, decide_eq_false_iff_not, not_lt, gt_iff_lt]
  exact le_of_lt (h n)

theorem hsLoop_same {A : Arith} {c1 c2 : Nat → Rat} {s1 s2 : Rat} {throttle : Bool} {m1 m2 : Int}
    (h1 : InTime A c1 s1 m1) (h2 : InTime A c2 s2 m2) : ∀ (sts : List (List PClass)) {s t s' t' : HSState},
    SameHS m1 m2 s t → hsLoop A c1 s1 throttle sts s = .ok s' → hsLoop A c2 s2 throttle sts t = .ok t' →
    SameHS m1 m2 s' t'
  | [], s, t, s', t', h, g1, g2 => by
    injection g1 with g1
    injection g2 with g2
    rw [← g1, ← g2]; exact h
  | st :: sts, s, t, s', t', h, g1, g2 => by
    unfold hsLoop at g1 g2
    simp only [bind, Except.bind, pure, Except.pure] at g1 g2
    split at g1
    · cases g1
    · rename_i r1 hr1
      split at g2
      · cases g2
      · rename_i r2 hr2
        have key : SameHS m1 m2 r1.1 r2.1 ∧ r1.2 = false ∧ r2.2 = false := by
          unfold hsStep at hr1 hr2
          simp only [bind, Except.bind, pure, Except.pure] at hr1 hr2
          split at hr1
          · cases hr1
          · rename_i l1 hl1
            split at hr2
            · cases hr2
            · rename_i l2 hl2
              have hp : SameProblem { s.inst with strategy := st } { t.inst with strategy := st } :=
                ⟨h.inst.strip, h.inst.conts, h.inst.num, h.inst.items, h.inst.rot, rfl, h.inst.height, h.inst.minH⟩
              have va : Inst.Valid { s.inst with strategy := st } :=
                ⟨h.v1.conts, h.v1.items, h.v1.contsNe, h.v1.itemsNe, h.v1.strip, h.v1.height, h.v1.minPos⟩
              have vb : Inst.Valid { t.inst with strategy := st } :=
                ⟨h.v2.conts, h.v2.items, h.v2.contsNe, h.v2.itemsNe, h.v2.strip, h.v2.height, h.v2.minPos⟩
              have i1 : InTime A c1 s1 s.inst.maxTime := by rw [h.m1]; exact h1
              have i2 : InTime A c2 s2 t.inst.maxTime := by rw [h.m2]; exact h2
              obtain ⟨e, _⟩ := localSearch_same hp (i1.shift _) (i2.shift _) hl1 hl2
              have vl1 := (localSearch_valid va hl1).1
              have vl2 := (localSearch_valid vb hl2).1
              have ml1 : l1.1.maxTime = m1 := by
                rw [(C17_frame _ _ _ _ _ _ _ va hl1).1]; exact h.m1
              have ml2 : l2.1.maxTime = m2 := by
                rw [(C17_frame _ _ _ _ _ _ _ vb hl2).1]; exact h.m2
              rw [same_calcObj e A] at hr1
              cases hv : l2.1.calcObj A with
              | error e => rw [hv] at hr1; cases hr1
              | ok v =>
                rw [hv] at hr1 hr2
                simp only [ml1, ml2, notLate h1, notLate h2] at hr1 hr2
                rw [h.best] at hr1
                cases hc : checkSolution v t.best with
                | false =>
                  rw [hc] at hr1 hr2
                  simp only [Bool.false_eq_true, if_false] at hr1 hr2
                  injection hr1 with hr1
                  injection hr2 with hr2
                  rw [← hr1, ← hr2]
                  exact ⟨⟨e.toSameProblem, rfl, h.ret, h.strat, by simp only [h.tried], vl1, vl2, ml1, ml2⟩, rfl, rfl⟩
                | true =>
                  rw [hc] at hr1 hr2
                  simp only [if_true] at hr1 hr2
                  rw [same_getSolution e] at hr1
                  cases hg : l2.1.getSolution with
                  | error e => rw [hg] at hr1; cases hr1
                  | ok sol =>
                    rw [hg] at hr1 hr2
                    have hopt : globalCheck v optimumObjVal = false := rfl
                    simp only [hopt, Bool.false_eq_true, if_false] at hr1 hr2
                    injection hr1 with hr1
                    injection hr2 with hr2
                    rw [← hr1, ← hr2]
                    exact ⟨⟨e.toSameProblem, rfl, rfl, rfl, by simp only [h.tried], vl1, vl2, ml1, ml2⟩, rfl, rfl⟩
        obtain ⟨k1, k2, k3⟩ := key
        rw [k2] at g1
        rw [k3] at g2
        simp only [Bool.false_eq_true, if_false] at g1 g2
        exact hsLoop_same h1 h2 sts k1 g1 g2

theorem singleHS_same {A : Arith} {c1 c2 : Nat → Rat} {s1 s2 : Rat} {throttle : Bool} {a b : Inst}
    (hp : SameProblem a b) (hva : a.Valid) (hvb : b.Valid)
    (h1 : InTime A c1 s1 a.maxTime) (h2 : InTime A c2 s2 b.maxTime) {sts : List (List PClass)} {s t : HSState}
    (g1 : a.singleHS A c1 s1 throttle sts = .ok s) (g2 : b.singleHS A c2 s2 throttle sts = .ok t) :
    SameHS a.maxTime b.maxTime s t := by
  obtain ⟨sol, ov, r, k1, k2, k3, k4, k5, k6⟩ := init_spec (A := A) hva
  obtain ⟨sol', ov', r', l1, l2, l3, l4, l5, l6⟩ := init_spec (A := A) hvb
  have hsol : sol' = sol ∧ ov' = ov := by
    rw [hp.solve, l2] at k2
    injection k2 with k2
    injection k2 with e1 e2
    exact ⟨e1, e2⟩
  obtain ⟨rfl, rfl⟩ := hsol
  have hall : SameAll (a.upd sol' ov' a.height a.heights) (b.upd sol' ov' b.height b.heights) :=
    ⟨⟨hp.strip, hp.conts, hp.num, hp.items, hp.rot, hp.strat, hp.height, hp.minH⟩, rfl, rfl⟩
  have hr : r = r' := by
    have := same_getSolution hall
    unfold Inst.initSolution at k5 l5
    simp only [bind, Except.bind, pure, Except.pure] at k5 l5
    split at k5
    · cases k5
    · split at k5
      · cases k5
      · rename_i _ x hx _ y hy
        split at l5
        · cases l5
        · split at l5
          · cases l5
          · rename_i _ x' hx' _ y' hy'
            injection k5 with k5
            injection k5 with e1 e2
            injection l5 with l5
            injection l5 with f1 f2
            rw [e1, this, ← f1, hy'] at hy
            injection hy with hy
            rw [f2, e2] at hy
            injection hy with hy
            exact hy.symm
  subst hr
  unfold Inst.singleHS at g1 g2
  simp only [bind, Except.bind, k5, k6, l5, l6] at g1 g2
  refine hsLoop_same h1 h2 sts ?_ g1 g2
  refine ⟨hall.toSameProblem, by unfold Inst.worth; simp only [hp.num], rfl, rfl, rfl, ?_, ?_, rfl, rfl⟩
  · exact ⟨hva.conts, hva.items, hva.contsNe, hva.itemsNe, hva.strip, hva.height, hva.minPos⟩
  · exact ⟨hvb.conts, hvb.items, hvb.contsNe, hvb.itemsNe, hvb.strip, hvb.height, hvb.minPos⟩

/-- C58, hypersearch in one process: the same for `hypersearch`. -/
theorem C58_hyper (A : Arith) (c1 c2 : Nat → Rat) (s1 s2 : Rat) (throttle : Bool) (a b : Inst)
    (sts : List (List PClass))
    (hstrip : a.strip = b.strip) (hconts : a.containers = b.containers) (hitems : a.items = b.items)
    (hrot : a.rotation = b.rotation) (hstrat : a.strategy = b.strategy)
    (hheight : a.height = b.height) (hmin : a.minHeight = b.minHeight)
    (hnum : a.containersNum = b.containersNum) (hva : a.Valid) (hvb : b.Valid)
    (h1 : ∀ n, A.sub (c1 n) s1 < (a.maxTime : Rat)) (h2 : ∀ n, A.sub (c2 n) s2 < (b.maxTime : Rat)) :
    ∃ s t, a.singleHS A c1 s1 throttle sts = .ok s ∧ b.singleHS A c2 s2 throttle sts = .ok t ∧
      s.finish.solution = t.finish.solution ∧ s.finish.objVals = t.finish.objVals ∧
      s.finish.bestStrategy = t.finish.bestStrategy ∧
      (a.strip = true → s.finish.height = t.finish.height) := by
  obtain ⟨s, g1⟩ := C27_total A c1 s1 throttle a sts hva
  obtain ⟨t, g2⟩ := C27_total A c2 s2 throttle b sts hvb
  have hp : SameProblem a b := ⟨hstrip, hconts, hnum, hitems, hrot, hstrat,
    fun _ => hheight, fun _ => hmin⟩
  have h := singleHS_same hp hva hvb h1 h2 g1 g2
  refine ⟨s, t, g1, g2, ?_, ?_, ?_, ?_⟩
  · show s.retained.1 = t.retained.1; rw [h.ret]
  · show s.retained.2 = t.retained.2; rw [h.ret]
  · show some (some s.bestStrategy) = some (some t.bestStrategy); rw [h.strat]
  · intro hs
    apply h.inst.height
    have hf := (C27_frame A c1 s1 throttle a sts hva s g1).1
    have : s.inst.strip = s.finish.strip := rfl
    rw [this, hf]
    exact hs

/-- what a worker that neither raised nor was killed leaves behind -/
theorem worker_end {M : MPParams} {w : Inst} {chunks : List (List (List PClass))} {v0 : Rat}
    {sch : List (Nat × MPEvent)} (hrun : RunInv M w chunks v0 sch (mpRun M w chunks sch))
    (hend : AllEnded M w chunks sch) (hkill : ∀ p, ¬ Killed sch p)
    (hraise : ∀ p, ¬ Raised M w chunks sch p) (p : Nat) (hp : p < chunks.length) :
    ∃ s, w.singleHS M.ar (M.clock p) M.start M.throttle chunks[p] = .ok s ∧
      (mpRun M w chunks sch).phases[p]? = some (.done ⟨s.best, s.retained.1, s.retained.2,
        if s.best = v0 then none else some s.bestStrategy⟩) ∧
      (mpRun M w chunks sch).arr[p]? = some (if s.best = v0 then 0 else s.best) := by
  have hph := List.getElem?_eq_getElem (l := (mpRun M w chunks sch).phases) (i := p) (by rw [hrun.phases]; exact hp)
  have he := List.getElem?_eq_getElem (l := (mpRun M w chunks sch).arr) (i := p) (by rw [hrun.arr]; exact hp)
  have hc := List.getElem?_eq_getElem hp
  have hw := hrun.each p _ _ _ hc hph he
  generalize (mpRun M w chunks sch).phases[p]'(by rw [hrun.phases]; exact hp) = ph at *
  generalize (mpRun M w chunks sch).arr[p]'(by rw [hrun.arr]; exact hp) = e at *
  cases ph with
  | done m =>
    rcases (hw.inv : MsgOk _ _ _ _ _ _ _ _ _) with ⟨h1, _⟩ | ⟨s, k1, k2, k3, k4, k5, k6⟩
    · exact absurd (hw.failed (by simp [Phase.failed, h1])) (hraise p)
    · refine ⟨s, k1, ?_, ?_⟩
      · rw [hph]
        obtain ⟨mv, ms, mo, mst⟩ := m
        simp only at k3 k4 k5 k6
        rw [k3, k4, k5]
        rcases k6 with ⟨q1, _, q3⟩ | ⟨q1, _, q3⟩
        · rw [if_pos q3, q1]
        · rw [if_neg (ne_of_gt q3), q1]
      · rw [he]
        rcases k6 with ⟨_, q2, q3⟩ | ⟨_, q2, q3⟩
        · rw [if_pos q3, q2]
        · rw [if_neg (ne_of_gt q3), q2]
  | dead m => exact absurd (hw.dead m rfl) (hkill p)
  | _ => exact absurd (hend p _ hph) (by simp [Phase.ended])

/-- C58, hypersearch in several processes: if nobody raises, is killed or reaches the time limit,
and all workers end, the result does not depend on the interleaving of the workers nor on the
clocks. -/
theorem C58_multi (E : Env) (M M' : MPParams) (strategies : List (List PClass))
    (schedule schedule' : List (Nat × MPEvent)) (i w : Inst) (chunks : List (List (List PClass)))
    (hA : NonNeg M.ar) (hAA : M'.ar = M.ar) (hth : M'.throttle = M.throttle) (hv : i.Valid)
    (hc : strategyChunks strategies i.workers = .ok chunks) (hw : workerInst E i = .ok w)
    (htime : ∀ p n, M.ar.sub (M.clock p n) M.start < (w.maxTime : Rat))
    (htime' : ∀ p n, M'.ar.sub (M'.clock p n) M'.start < (w.maxTime : Rat))
    (hend : AllEnded M w chunks schedule) (hend' : AllEnded M' w chunks schedule')
    (hkill : ∀ p, ¬ Killed schedule p) (hkill' : ∀ p, ¬ Killed schedule' p)
    (hraise : ∀ p, ¬ Raised M w chunks schedule p) (hraise' : ∀ p, ¬ Raised M' w chunks schedule' p) :
    i.multiHS E M strategies schedule = i.multiHS E M' strategies schedule' := by
  obtain ⟨w1, _⟩ := workerInst_spec hv hw
  obtain ⟨v0, h0, hinit, _, _, k1, k2⟩ := workerInit_spec (M := M) hA w1 (workerInst_num hw)
  obtain ⟨v0', h0', hinit', _, _, k1', k2'⟩ := workerInit_spec (M := M') (by rw [hAA]; exact hA) w1 (workerInst_num hw)
  have hvv : v0' = v0 := by
    rw [hAA, k1] at k1'
    injection k1' with k1'
    injection k1' with _ e
    rw [k2, k2', e, hAA]
  subst hvv
  have hrun := runInv w1 h0 hinit chunks schedule
  have hrun' := runInv w1 h0' hinit' chunks schedule'
  rw [multiHS_eq hc hw, multiHS_eq hc hw]
  have hsame : ∀ p, p < chunks.length →
      (mpRun M w chunks schedule).phases[p]? = (mpRun M' w chunks schedule').phases[p]? ∧
      (mpRun M w chunks schedule).arr[p]? = (mpRun M' w chunks schedule').arr[p]? := by
    intro p hp
    obtain ⟨s, e1, e2, e3⟩ := worker_end hrun hend hkill hraise p hp
    obtain ⟨s', f1, f2, f3⟩ := worker_end hrun' hend' hkill' hraise' p hp
    rw [hAA, hth] at f1
    have hp0 : SameProblem w w := ⟨rfl, rfl, rfl, rfl, rfl, rfl, fun _ => rfl, fun _ => rfl⟩
    have := singleHS_same hp0 w1 w1 (htime p) (by intro n; have := htime' p n; rw [hAA] at this; exact this) e1 f1
    rw [e2, f2, e3, f3, this.best, this.ret, this.strat]
    exact ⟨rfl, rfl⟩
  have heq : mpRun M w chunks schedule = mpRun M' w chunks schedule' := by
    have hph : (mpRun M w chunks schedule).phases = (mpRun M' w chunks schedule').phases := by
      apply List.ext_getElem?
      intro p
      by_cases hp : p < chunks.length
      · exact (hsame p hp).1
      · rw [List.getElem?_eq_none (by rw [hrun.phases]; omega),
          List.getElem?_eq_none (by rw [hrun'.phases]; omega)]
    have har : (mpRun M w chunks schedule).arr = (mpRun M' w chunks schedule').arr := by
      apply List.ext_getElem?
      intro p
      by_cases hp : p < chunks.length
      · exact (hsame p hp).2
      · rw [List.getElem?_eq_none (by rw [hrun.arr]; omega),
          List.getElem?_eq_none (by rw [hrun'.arr]; omega)]
    generalize mpRun M w chunks schedule = x at *
    generalize mpRun M' w chunks schedule' = y at *
    cases x; cases y
    simp only at hph har
    rw [hph, har]
  rw [heq]

/-! ### Concrete multi process searches -/

/-- `lsBin` with two workers -/
def mpInst : Inst := { lsBin with
  settings := .dict [(.str "rotation", .bool false), (.str "workers_num", .int 2)], workers := .int 2 }

/-- the instance of its workers -/
def mpWorker : Inst := { lsBin with
  settings := .dict [(.str "rotation", .bool false), (.str "workers_num", .int 1)], workers := .int 1 }

/-- exact arithmetic, a stopped clock, small messages -/
def mpParams : MPParams := ⟨Arith.exact, 0, true, fun _ _ => 0, fun _ => false, fun _ => true⟩

/-- the two workers take turns, until both have ended -/
def mpTurns : List (Nat × MPEvent) := (List.range 9).flatMap fun _ => [(0, .step), (1, .step)]

/-- one worker after the other -/
def mpSequential : List (Nat × MPEvent) :=
  (List.range 9).map (fun _ => (1, .step)) ++ (List.range 9).map (fun _ => (0, .step))

def mpChunks : List (List (List PClass)) := strategyPool.map (fun s => [s])

theorem mpInst_valid : mpInst.Valid :=
  ⟨lsBin_valid.conts, lsBin_valid.items, lsBin_valid.contsNe, lsBin_valid.itemsNe,
    lsBin_valid.strip, lsBin_valid.height, lsBin_valid.minPos⟩

theorem mpInst_worker : workerInst plainEnv mpInst = .ok mpWorker := by rfl

theorem mpInst_chunks : strategyChunks strategyPool mpInst.workers = .ok mpChunks := by decide +kernel

theorem mp_noRaise {sch : List (Nat × MPEvent)} (h : ∀ e ∈ sch, e.2 = .step) (p : Nat) :
    ¬ Raised mpParams mpWorker mpChunks sch p :=
  C33_none_raised _ _ _ _ (fun _ => rfl) (fun p hp => by have := h _ hp; cases this) p

theorem mp_noKill {sch : List (Nat × MPEvent)} (h : ∀ e ∈ sch, e.2 = .step) (p : Nat) : ¬ Killed sch p :=
  fun hp => by have := h _ hp; cases this

theorem mp_ends {sch : List (Nat × MPEvent)} (h0 : 9 ≤ sch.count (0, .step)) (h1 : 9 ≤ sch.count (1, .step)) :
    AllEnded mpParams mpWorker mpChunks sch := by
  apply C57_ends _ _ _ _ (fun _ => rfl)
  intro p chunk hc
  match p, hc with
  | 0, hc => simp only [mpChunks, strategyPool, List.map_cons, List.getElem?_cons_zero, Option.some.injEq] at hc; subst hc; exact h0
  | 1, hc => simp only [mpChunks, strategyPool, List.map_cons, List.getElem?_cons_succ, List.getElem?_cons_zero, Option.some.injEq] at hc; subst hc; exact h1
  | p + 2, hc => simp [mpChunks, strategyPool] at hc

/-- the hypotheses of C32, C33, C34, C57_partial and C58_multi hold of `mpInst` and both schedules;
the search improves the initial value 139/90 to 17/10 -/
example : NonNeg mpParams.ar ∧ mpInst.Valid ∧ mpInst.strip = false ∧ mpInst.strategy = defaultStrategy ∧
    mpInst.validateHyper = (mpInst, .ok ()) ∧
    strategyChunks strategyPool mpInst.workers = .ok mpChunks ∧ mpChunks.length = 2 ∧
    workerInst plainEnv mpInst = .ok mpWorker ∧
    (∀ p n, mpParams.ar.sub (mpParams.clock p n) mpParams.start < (mpInst.maxTime : Rat)) ∧
    (∀ p, ¬ Killed mpTurns p) ∧ (∀ p, ¬ Raised mpParams mpWorker mpChunks mpTurns p) ∧
    AllEnded mpParams mpWorker mpChunks mpTurns ∧ AllEnded mpParams mpWorker mpChunks mpSequential ∧
    mpTurns ≠ mpSequential ∧
    ∃ sol ov st, mpInst.multiHS plainEnv mpParams strategyPool mpTurns = .returned sol ov st ∧
      overall Arith.exact (ov.map (·.2)) = 17 / 10 := by
  refine ⟨nonNeg_exact, mpInst_valid, rfl, rfl, rfl, mpInst_chunks, rfl, mpInst_worker, ?_,
    mp_noKill (by decide), mp_noRaise (by decide), mp_ends (by decide) (by decide),
    mp_ends (by decide) (by decide), by decide, ?_⟩
  · intro p n
    have : Arith.exact.sub 0 0 < ((60 : Int) : Rat) := by decide +kernel
    exact this
  · exact ⟨[("c0", [("i1", ⟨0, 0, 3, 3⟩)]), ("c1", [("i2", ⟨0, 0, 3, 3⟩)])], [("c0", 1), ("c1", 1)],
      some [.A, .A_, .B_, .C, .B, .D, .A__, .B__, .F, .E], by decide +kernel, by decide +kernel⟩

/-- one worker raises, the other's result is returned; both raise: MultiProcessError -/
example : (∃ sol ov st, mpInst.multiHS plainEnv mpParams strategyPool ((0, .step) :: (0, .raise) :: mpTurns) =
      .returned sol ov st) ∧
    mpInst.multiHS plainEnv mpParams strategyPool ((0, .step) :: (0, .raise) :: (1, .raise) :: mpTurns) =
      .raised (.multiProcessError "ALL_PROCESSES_FAILED") := by
  refine ⟨⟨[("c0", [("i1", ⟨0, 0, 3, 3⟩)]), ("c1", [("i2", ⟨0, 0, 3, 3⟩)])], [("c0", 1), ("c1", 1)],
      some [.A, .A_, .B_, .C, .B, .D, .A__, .B__, .F, .E], by decide +kernel⟩, by decide +kernel⟩

/-- a problem that cannot be improved, with two workers -/
def mpTiny : Inst :=
  { mkDemo false [("c", ⟨1, 1⟩)] [("a", ⟨1, 1⟩)] none none with
    settings := .dict [(.str "workers_num", .int 2)], workers := .int 2, rotation := true }

/-- C35 is false of the code also if only one worker is killed: the other one finishes normally,
its result is there, but the search waits for the killed one. -/
theorem C35_refuted_one :
    mpTiny.Valid ∧ ¬ Killed ((0, .kill) :: mpTurns) 1 ∧
    (∃ w, workerInst plainEnv mpTiny = .ok w ∧
      (∃ m, (mpRun mpParams w mpChunks ((0, .kill) :: mpTurns)).phases[1]? = some (.done m) ∧
        m.value = 1)) ∧
    mpTiny.multiHS plainEnv mpParams strategyPool ((0, .kill) :: mpTurns) = .blocked := by
  refine ⟨⟨by constructor <;> decide, by constructor <;> decide, by decide, by decide,
      fun h => (nomatch h), fun h => (nomatch h), fun m h => (nomatch h)⟩, by unfold Killed; decide, ?_, by decide +kernel⟩
  refine ⟨{ mpTiny with settings := .dict [(.str "workers_num", .int 1)], workers := .int 1 }, rfl, ?_⟩
  have : (match (mpRun mpParams { mpTiny with settings := .dict [(.str "workers_num", .int 1)], workers := .int 1 }
      mpChunks ((0, .kill) :: mpTurns)).phases[1]? with
    | some (Phase.done m) => some m.value
    | _ => none) = some (1 : Rat) := by decide +kernel
  split at this
  · rename_i m hm
    exact ⟨m, hm, by simpa using this⟩
  · cases this

/-- C35_partial applies: worker 0 of `mpInst` is killed at its start, worker 1 improves on the
initial solution, and the search comes back -/
example : ∃ sol ov st, mpInst.multiHS plainEnv mpParams strategyPool ((0, .kill) :: mpTurns) =
    .returned sol ov st :=
  ⟨[("c0", [("i1", ⟨0, 0, 3, 3⟩)]), ("c1", [("i2", ⟨0, 0, 3, 3⟩)])], [("c0", 1), ("c1", 1)],
      some [.A, .A_, .B_, .C, .B, .D, .A__, .B__, .F, .E], by decide +kernel⟩

/-- C35_exact_partial in these two runs: in the first the killed worker 0 has the first of the two greatest
entries (0, 0), in the second worker 1 has the greater entry -/
example :
    (∃ w, workerInst plainEnv mpTiny = .ok w ∧
      (mpRun mpParams w mpChunks ((0, .kill) :: mpTurns)).arr = [0, 0]) ∧
    (∃ w, workerInst plainEnv mpInst = .ok w ∧
      (mpRun mpParams w mpChunks ((0, .kill) :: mpTurns)).arr = [0, 17 / 10]) :=
  ⟨⟨{ mpTiny with settings := .dict [(.str "workers_num", .int 1)], workers := .int 1 }, rfl, by decide +kernel⟩,
   ⟨mpWorker, mpInst_worker, by decide +kernel⟩⟩

end HP
