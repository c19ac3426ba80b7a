import Verif.Proofs.Determinism
import Verif.Proofs.MultiProcess
/-
A worker's instance poses the same problem as the parent's, if the parent's settings are in force.
-/
namespace HP
open Spec

theorem get?_setEntry_ne {key key' : String} (h : key ≠ key') (v : PyVal) :
    ∀ st : List (PyVal × PyVal), PyVal.get? (setEntry st key v) key' = PyVal.get? st key'
  | [] => by
    have : (PyVal.str key).eqStr key' = false := by simp [PyVal.eqStr, h]
    simp [setEntry, PyVal.get?, this]
  | (k, v') :: rest => by
    unfold setEntry
    split
    · rename_i hk
      have : k.eqStr key' = false := by
        cases k <;> simp [PyVal.eqStr] at hk ⊢
        rw [hk]; exact h
      simp [PyVal.get?, this]
    · simp only [PyVal.get?]
      rw [get?_setEntry_ne h v rest]

theorem setEntry_ne_nil (st : List (PyVal × PyVal)) (key : String) (v : PyVal) :
    setEntry st key v ≠ [] := by
  cases st with
  | nil => simp [setEntry]
  | cons a l => obtain ⟨k, w⟩ := a; unfold setEntry; split <;> simp

/-- the value of `rotation` the settings stand for -/
def RotVal (st : List (PyVal × PyVal)) (b : Bool) : Prop :=
  ((PyVal.getD st "rotation").isNone = true ∧ b = rotationDefault) ∨
  ((PyVal.getD st "rotation").isNone = false ∧ (PyVal.getD st "rotation").asBool? = some b)

/-- the time limit the settings stand for -/
def TimeVal (st : List (PyVal × PyVal)) (t : Int) : Prop :=
  ((PyVal.get? st "max_time_in_seconds").getD (.int maxTimeDefault)).asInt? = some t

theorem RotVal.unique {st : List (PyVal × PyVal)} {a b : Bool} (h1 : RotVal st a) (h2 : RotVal st b) :
    a = b := by
  rcases h1 with ⟨h, h1⟩ | ⟨h, h1⟩ <;> rcases h2 with ⟨g, h2⟩ | ⟨g, h2⟩
  · rw [h1, h2]
  · rw [h] at g; cases g
  · rw [h] at g; cases g
  · rw [h1] at h2; injection h2

theorem TimeVal.unique {st : List (PyVal × PyVal)} {a b : Int} (h1 : TimeVal st a) (h2 : TimeVal st b) :
    a = b := by
  unfold TimeVal at h1 h2
  rw [h1] at h2; injection h2

theorem validateBase_rot {i j : Inst} (h : i.validateBase = (j, .ok ())) :
    ∃ st, i.settings.asDict? = some st ∧ RotVal st j.rotation := by
  unfold Inst.validateBase at h
  split at h
  · cases h
  · rename_i st hst
    refine ⟨st, hst, ?_⟩
    split at h
    · rename_i he
      have : st = [] := List.isEmpty_iff.1 he
      subst this
      injection h with h _
      rw [← h]
      exact Or.inl ⟨rfl, rfl⟩
    · simp only at h
      split at h
      · rename_i hn
        injection h with h _
        rw [← h]
        exact Or.inl ⟨hn, rfl⟩
      · rename_i hn
        split at h
        · rename_i b hb
          injection h with h _
          rw [← h]
          exact Or.inr ⟨by simpa using hn, hb⟩
        · cases h

theorem validateHyper_vals {i j : Inst} (h : i.validateHyper = (j, .ok ())) :
    ∃ st, i.settings.asDict? = some st ∧ RotVal st j.rotation ∧ TimeVal st j.maxTime := by
  unfold Inst.validateHyper at h
  have hb := validateBase_frame i
  split at h
  · cases h
  · rename_i k hk
    obtain ⟨st, h1, h2⟩ := validateBase_rot hk
    rw [hk] at hb
    simp only at hb
    refine ⟨st, h1, ?_⟩
    split at h
    · cases h
    · rename_i st' hst'
      have hs : k.settings = i.settings := by rw [hb]
      rw [hs, h1] at hst'
      injection hst' with hst'
      subst hst'
      split at h
      · rename_i he
        have : st = [] := List.isEmpty_iff.1 he
        subst this
        injection h with h _
        rw [← h]
        exact ⟨h2, rfl⟩
      · split at h
        · cases h
        · rename_i t ht
          split at h
          · cases h
          · obtain ⟨w, _, _⟩ := validateWorkers_frame { k with maxTime := t } st
            rw [h] at w
            simp only at w
            rw [w]
            exact ⟨h2, ht⟩

theorem validateSettings_vals {E : Env} {i j : Inst} (h : i.validateSettings E = (j, .ok ())) :
    ∃ st, i.settings.asDict? = some st ∧ RotVal st j.rotation ∧ TimeVal st j.maxTime := by
  unfold Inst.validateSettings at h
  split at h
  · cases h
  · rename_i k hk
    obtain ⟨st, h1, h2, h3⟩ := validateHyper_vals hk
    refine ⟨st, h1, ?_⟩
    have hf := validateFigure_frame k E
    rw [h] at hf
    simp only at hf
    rw [hf]
    exact ⟨h2, h3⟩

/-- a worker's rotation setting and time limit are those of the parent's settings -/
theorem workerInst_settings {E : Env} {i w : Inst} (h : workerInst E i = .ok w) {st : List (PyVal × PyVal)}
    (hst : i.settings.asDict? = some st) : RotVal st w.rotation ∧ TimeVal st w.maxTime := by
  unfold workerInst at h
  simp only [bind, Except.bind, pure, Except.pure] at h
  split at h
  · cases h
  · rename_i ws hws
    split at h
    · cases h
    · split at h
      · cases h
      · rename_i c hc w0 hw0
        injection h with h
        have hd : i.settings = .dict st := by
          cases hi : i.settings <;> rw [hi] at hst <;> simp [PyVal.asDict?] at hst
          rw [hst]
        obtain ⟨wst, e1, e2, e3⟩ : ∃ wst, ws = .dict wst ∧
            PyVal.get? wst "rotation" = PyVal.get? st "rotation" ∧
            PyVal.get? wst "max_time_in_seconds" = PyVal.get? st "max_time_in_seconds" := by
          unfold workerSettings at hws
          rw [hd] at hws
          simp only at hws
          split at hws
          · injection hws with hws
            exact ⟨_, hws.symm, get?_setEntry_ne (by decide) _ _, get?_setEntry_ne (by decide) _ _⟩
          · injection hws with hws
            exact ⟨_, hws.symm, rfl, rfl⟩
        unfold mkInst at hw0
        split at hw0
        · cases hw0
        · split at hw0
          · cases hw0
          · split at hw0
            · cases hw0
            · rename_i strip cs height _ _ its _ _ j hj
              injection hw0 with hw0
              subst hw0
              obtain ⟨s, k1, k2, k3⟩ := validateSettings_vals hj
              have : (rawInst strip cs its height ws).settings = (if ws.truthy then ws else .dict []) := rfl
              rw [this, e1] at k1
              have hs : s = wst := by
                cases hws' : wst with
                | nil =>
                  rw [hws'] at k1
                  have : (PyVal.dict []).truthy = false := rfl
                  rw [this] at k1
                  simpa [PyVal.asDict?] using k1.symm
                | cons a l =>
                  rw [hws'] at k1
                  have : (PyVal.dict (a :: l)).truthy = true := rfl
                  rw [this] at k1
                  simpa [PyVal.asDict?] using k1.symm
              subst hs
              rw [← h]
              simp only
              unfold RotVal TimeVal PyVal.getD at *
              rw [e2] at k2
              rw [e3] at k3
              exact ⟨k2, k3⟩

/-- the settings are in force: validating them again succeeds and changes nothing -/
def InForce (i : Inst) : Prop := i.validateHyper = (i, .ok ())

theorem workerInst_inForce {E : Env} {i w : Inst} (hf : InForce i) (h : workerInst E i = .ok w) :
    w.rotation = i.rotation ∧ w.maxTime = i.maxTime := by
  obtain ⟨st, h1, h2, h3⟩ := validateHyper_vals hf
  obtain ⟨g2, g3⟩ := workerInst_settings h h1
  exact ⟨g2.unique h2, g3.unique h3⟩

/-! ### values of local searches are determined in bin packing -/

theorem InTime.shift {A : Arith} {clock : Nat → Rat} {start : Rat} {m : Int} (h : InTime A clock start m)
    (k : Nat) : InTime A (fun n => clock (k + n)) start m := fun n => h (k + n)

theorem localValue_unique {A : Arith} {c1 c2 : Nat → Rat} {s1 s2 : Rat} {throttle : Bool} {a b : Inst}
    (hp : SameProblem { a with strategy := b.strategy } b) (hs : a.strip = false)
    (h1 : InTime A c1 s1 a.maxTime) (h2 : InTime A c2 s2 b.maxTime) {st : List PClass} {v1 v2 : Rat}
    (g1 : LocalValue A c1 s1 throttle a st v1) (g2 : LocalValue A c2 s2 throttle b st v2) : v1 = v2 := by
  obtain ⟨k1, H1, j1, t1, _, _, l1, o1⟩ := g1
  obtain ⟨k2, H2, j2, t2, _, _, l2, o2⟩ := g2
  have hsame : SameProblem { a with strategy := st, height := H1 } { b with strategy := st, height := H2 } := by
    refine ⟨hp.strip, hp.conts, hp.num, hp.items, hp.rot, rfl, ?_, ?_⟩
    · intro h; rw [show a.strip = false from hs] at h; cases h
    · intro h; rw [show a.strip = false from hs] at h; cases h
  obtain ⟨e, _⟩ := localSearch_same hsame (h1.shift k1) (h2.shift k2) l1 l2
  rw [same_calcObj e A, o2] at o1
  injection o1 with o1
  exact o1.symm

/-- `v` is the best of the initial value and the values of the local searches of `sts` -/
structure BestOf (A : Arith) (clock : Nat → Rat) (start : Rat) (throttle : Bool) (i : Inst) (v0 : Rat)
    (sts : List (List PClass)) (v : Rat) : Prop where
  init : v0 ≤ v
  each : ∀ st ∈ sts, ∃ u, LocalValue A clock start throttle i st u ∧ u ≤ v
  attained : v = v0 ∨ ∃ st ∈ sts, LocalValue A clock start throttle i st v

theorem singleHS_best {A : Arith} {clock : Nat → Rat} {start : Rat} {throttle : Bool} {i : Inst}
    (hv : i.Valid) (hn : i.containersNum = i.containers.length) (ht : InTime A clock start i.maxTime)
    {sts : List (List PClass)} {s : HSState}
    (h : i.singleHS A clock start throttle sts = .ok s) {sol0 : Solution} {ov0 : ObjVals}
    (h0 : solve A i.solveIn none = .ok (sol0, ov0)) :
    BestOf A clock start throttle i (overall A (ov0.map (·.2))) sts
      (overall A (s.finish.objVals.map (·.2))) := by
  obtain ⟨s', sol0', ov0', g1, g2, g3, g4, g5, g6, g7⟩ := singleHS_spec (A := A) (clock := clock)
    (start := start) (throttle := throttle) hv sts
  rw [h] at g1
  injection g1 with g1
  subst g1
  rw [h0] at g2
  injection g2 with g2
  injection g2 with g2 g2'
  subst g2 g2'
  have hb : overall A (s.finish.objVals.map (·.2)) = s.best := g3.overall hv hn
  rw [Inst.worth_eq hn (solve_facts hv.solveIn (KnownSeq_none _) h0).keysO] at g3
  have hall : s.tried.map (·.1) = sts := by
    rcases g7 with h | h
    · exact h
    · exfalso
      have := ht (s.tick - 1)
      simp only [outOfTime, decide_eq_true_eq, gt_iff_lt] at h
      exact absurd (lt_trans h this) (lt_irrefl _)
  rw [hb]
  refine ⟨g3.ge, ?_, ?_⟩
  · intro st hst
    rw [← hall] at hst
    obtain ⟨q, hq, rfl⟩ := List.mem_map.1 hst
    exact ⟨q.2, g3.triedVal q hq, g3.geTried q hq⟩
  · rcases g3.src with ⟨h, _⟩ | ⟨_, h, _⟩
    · exact Or.inl h
    · right
      refine ⟨s.bestStrategy, ?_, g3.triedVal _ h⟩
      rw [← hall]
      exact List.mem_map.2 ⟨_, h, rfl⟩

end HP
