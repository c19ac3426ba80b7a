import Verif.Proofs.MultiProcess
import Verif.Proofs.Settings
import Verif.Props.HyperSearch
/-
An invariant of all reachable instances.
-/
namespace HP
open Spec

structure Good (A : Arith) (i : Inst) : Prop where
  valid : i.Valid
  minLe : i.minHeight.getD 0 ≤ i.height.getD 0
  strat : i.strategy.Nodup
  maxTime : 1 ≤ i.maxTime
  workers : i.workers.gtZero? = some true
  sol : (i.solution = [] ∧ i.objVals = []) ∨ Genuine A i i.solution i.objVals

theorem Genuine.congr {A : Arith} {i j : Inst} {sol : Solution} {ov : ObjVals} (h : Genuine A i sol ov)
    (h1 : j.containers = i.containers) (h2 : j.items = i.items) (h3 : j.strip = i.strip) :
    Genuine A j sol ov := by
  unfold Genuine at *
  rw [h1, h2, h3]; exact h

theorem Edited.good {A : Arith} {i j : Inst} (hg : Good A i) (h : Edited i j) : Good A j := by
  have hv := h.valid hg.valid
  obtain ⟨cs, its, n, rfl, _⟩ := h
  exact ⟨hv, hg.minLe, hg.strat, hg.maxTime, hg.workers, Or.inl ⟨rfl, rfl⟩⟩

theorem either_good {A : Arith} {i j : Inst} (hg : Good A i) (h : j = i ∨ Edited i j) : Good A j := by
  rcases h with rfl | h
  · exact hg
  · exact h.good hg

theorem mkInst_good {A : Arith} {E : Env} {c it s w : PyVal} {i : Inst} (h : mkInst E c it s w = .ok i) :
    Good A i := by
  obtain ⟨hc, _⟩ := mkInst_spec h
  refine ⟨hc.valid, ?_, by rw [hc.strategy]; decide, hc.maxTime, hc.workers, Or.inl ⟨hc.solution, hc.objVals⟩⟩
  rw [hc.minHeight]; exact Nat.zero_le _

theorem SettingsFrame.good {A : Arith} {i j : Inst} (hg : Good A i) (h : SettingsFrame i j)
    (hw : j.workers = i.workers ∨ j.workers.gtZero? = some true)
    (ht : j.maxTime = i.maxTime ∨ 1 ≤ j.maxTime) : Good A j := by
  refine ⟨h.valid hg.valid, ?_, ?_, ?_, ?_, ?_⟩
  · rw [h]; exact hg.minLe
  · rw [h]; exact hg.strat
  · rcases ht with ht | ht
    · rw [ht]; exact hg.maxTime
    · exact ht
  · rcases hw with hw | hw
    · rw [hw]; exact hg.workers
    · exact hw
  · rcases hg.sol with ⟨a, b⟩ | hs
    · left; rw [h]; exact ⟨a, b⟩
    · right
      have : j.solution = i.solution ∧ j.objVals = i.objVals := by rw [h]; exact ⟨rfl, rfl⟩
      rw [this.1, this.2]
      apply hs.congr <;> rw [h]

theorem solve_good {A : Arith} {i j : Inst} {seq : Option (List String)} (hg : Good A i)
    (h : i.solve A seq = .ok j) : Good A j ∧
      j = { i with solution := j.solution, objVals := j.objVals } := by
  unfold Inst.solve at h
  simp only [bind, Except.bind, pure, Except.pure] at h
  split at h
  · cases h
  · rename_i r hr
    injection h with h
    subst h
    refine ⟨⟨⟨hg.valid.conts, hg.valid.items, hg.valid.contsNe, hg.valid.itemsNe,
      hg.valid.strip, hg.valid.height, hg.valid.minPos⟩, hg.minLe, hg.strat, hg.maxTime, hg.workers, ?_⟩, rfl⟩
    right
    have hk : KnownSeq i.solveIn seq := by
      intro s hs
      subst hs
      by_contra hk
      have hk' : ∃ id ∈ s, id ∉ PyDict.keys i.solveIn.items := by
        simpa [KnownSeq] using hk
      obtain ⟨id, hid, hnot⟩ := hk'
      unfold HP.solve at hr
      simp only [bind, Except.bind, pure, Except.pure] at hr
      rw [deepcopySeq_unknown s [] ⟨id, hid, hnot⟩] at hr
      cases hr
    exact ⟨i.solveIn, seq, r.1, rfl, rfl, rfl, hg.valid.solveIn, hk, by rw [hr], .refl _⟩

theorem Genuine.same {A : Arith} {i : Inst} {sol sol' : Solution} {ov : ObjVals}
    (h : Genuine A i sol ov) (hs : SamePacking sol' sol) : Genuine A i sol' ov := by
  obtain ⟨p, seq, s, h1, h2, h3, h4, h5, h6, h7⟩ := h
  exact ⟨p, seq, s, h1, h2, h3, h4, h5, h6, hs.trans h7⟩

theorem localSearch_good {A : Arith} {clock : Nat → Rat} {start : Rat} {throttle : Bool} {i j : Inst}
    {t : LSState Inst (Solution × ObjVals)} (hg : Good A i)
    (h : i.localSearch A clock start throttle = .ok (j, t)) : Good A j := by
  have hv := hg.valid
  obtain ⟨h1, h2, _⟩ := localSearch_valid hv h
  obtain ⟨fr, _⟩ := C17_frame A clock start throttle i j t hv h
  obtain ⟨seq, H, sol, k1, k2, k3, k4, k5⟩ := C17_genuine A clock start throttle i j t hv h
  have e1 : j.strategy = i.strategy := by rw [fr]
  have e2 : j.maxTime = i.maxTime := by rw [fr]
  have e3 : j.workers = i.workers := by rw [fr]
  have e4 : j.containers = i.containers := by rw [fr]
  have e5 : j.items = i.items := by rw [fr]
  have e6 : j.strip = i.strip := by rw [fr]
  refine ⟨h1, h2 hg.minLe, by rw [e1]; exact hg.strat, by rw [e2]; exact hg.maxTime,
    by rw [e3]; exact hg.workers, Or.inr ?_⟩
  exact ⟨i.at H, some seq, sol, e4.symm, e5.symm, e6.symm, ⟨hv.conts, hv.items, fun hs => (k2 hs).2⟩,
    KnownSeq_perm k1, k4, k5⟩

theorem pool_nodup (order : List PClass → List PClass)
    (horder : ∀ l : List PClass, l.Nodup → (order l).Perm l) (strip ex : Bool) :
    (∀ st ∈ getStrategies order strip ex, st.Nodup) ∧ getStrategies order strip ex ≠ [] := by
  cases ex with
  | true =>
    obtain ⟨_, h1, h2, _⟩ := C28_strategies order strip horder
    constructor
    · intro st hst
      exact (h2 st hst).1.nodup_iff.2 (by decide)
    · intro h; rw [h] at h1; cases h1
  | false =>
    have : getStrategies order strip false = strategyPool := by unfold getStrategies; rfl
    rw [this]
    constructor
    · decide
    · decide

theorem search_good {A : Arith} {a : HSArgs} {i : Inst} (hg : Good A i) : Good A (i.search A a).1 := by
  have hv := hg.valid
  by_cases hw : i.workers.isOne = true
  · obtain ⟨s, h1, h2⟩ := C27_returns A a i hv hw
    rw [h2]
    obtain ⟨f1, f2, f3⟩ := C27_frame A _ _ _ i _ hv s h1
    have hgen := singleHS_genuine hv h1
    obtain ⟨hp1, hp2⟩ := pool_nodup a.order a.orderPerm i.strip a.exhaustive
    obtain ⟨pre, hpre⟩ := C29_left_at_last A _ _ _ i _ hv hp2 s h1
    obtain ⟨s', _, _, g1, _, g3, _⟩ := singleHS_spec (A := A) (clock := (fun k => a.clock (k + 1)))
      (start := a.clock 0) (throttle := a.throttle) hv (getStrategies a.order i.strip a.exhaustive)
    rw [h1] at g1
    injection g1 with g1
    subst g1
    have e2 : s.finish.maxTime = i.maxTime := by rw [f1]
    have e3 : s.finish.workers = i.workers := by rw [f1]
    have e4 : s.finish.containers = i.containers := by rw [f1]
    have e5 : s.finish.items = i.items := by rw [f1]
    have e6 : s.finish.strip = i.strip := by rw [f1]
    have e7 : s.finish.minHeight = i.minHeight := by rw [f1]
    have vi := g3.valid
    refine ⟨⟨vi.conts, vi.items, vi.contsNe, vi.itemsNe, vi.strip, vi.height, vi.minPos⟩, ?_,
      hp1 _ (hpre.subset (by simp)), by rw [e2]; exact hg.maxTime, by rw [e3]; exact hg.workers,
      Or.inr (hgen.congr e4 e5 e6)⟩
    show s.finish.minHeight.getD 0 ≤ _
    rw [e7]
    exact g3.minLe hg.minLe
  · unfold Inst.search
    rw [if_neg hw]
    split
    · rename_i sol ov st h
      unfold Inst.multiHS at h
      split at h
      · cases h
      · split at h
        · cases h
        · rename_i chunks _ _ w hwi
          obtain ⟨w1, w2, w3, w4, _⟩ := workerInst_spec hv hwi
          obtain ⟨p, chunk, s, _, k2, k3, k4, _⟩ := mpFinish_returned w1 hv w2 w3 h
          have hgen := singleHS_genuine w1 k2
          refine ⟨⟨hv.conts, hv.items, hv.contsNe, hv.itemsNe, hv.strip, hv.height, hv.minPos⟩,
            hg.minLe, hg.strat, hg.maxTime, hg.workers, Or.inr ?_⟩
          show Genuine A _ sol ov
          rw [k4]
          exact (Genuine.same hgen k3).congr w3.symm w2.symm w4.symm
    · exact hg
    · exact hg

theorem hypersearch_good {A : Arith} {a : HSArgs} {i : Inst} (hg : Good A i) :
    Good A (i.hypersearch A a).1 := by
  unfold Inst.hypersearch
  have h1 := either_good hg (sortItems_edited hg.valid A a.sortingBy)
  split
  · rename_i heq; rw [heq] at h1; exact h1
  · rename_i j heq
    rw [heq] at h1
    have h2 := either_good h1 (orientItems_edited h1.valid a.orientation)
    split
    · rename_i heq'; rw [heq'] at h2; exact h2
    · rename_i heq'; rw [heq'] at h2; exact search_good h2

theorem assignHeight_good {A : Arith} {i : Inst} (v : PyVal) (hg : Good A i) :
    Good A (i.assignHeight v).1 := by
  have hv := hg.valid
  unfold Inst.assignHeight
  split
  · exact hg
  · rename_i n hn
    have hpos := atLeastOne?_pos hn
    have key : i.minHeight.getD 0 ≤ n → Good A { i with height := some n } := by
      intro hle
      exact ⟨⟨hv.conts, hv.items, hv.contsNe, hv.itemsNe, hv.strip, fun _ => ⟨n, rfl, hpos⟩, hv.minPos⟩,
        hle, hg.strat, hg.maxTime, hg.workers, hg.sol⟩
    split
    · rename_i m hm
      split
      · exact hg
      · exact key (by rw [hm]; simpa using ‹¬ n < m›)
    · rename_i hm
      exact key (by rw [hm]; exact Nat.zero_le _)

theorem assignMinHeight_good {A : Arith} {i : Inst} (v : PyVal) (hg : Good A i) :
    Good A (i.assignMinHeight v).1 := by
  have hv := hg.valid
  unfold Inst.assignMinHeight
  split
  · exact hg
  · rename_i n hn
    have hpos := atLeastOne?_pos hn
    split
    · exact hg
    · rename_i h hh
      split
      · exact hg
      · refine ⟨⟨hv.conts, hv.items, hv.contsNe, hv.itemsNe, hv.strip, hv.height, ?_⟩,
          ?_, hg.strat, hg.maxTime, hg.workers, hg.sol⟩
        · intro m hm
          simp only [Option.some.injEq] at hm
          omega
        · simp only [hh, Option.getD_some]; omega

theorem resetHeight_good {A : Arith} {i : Inst} (hg : Good A i) : Good A i.resetHeight.1 := by
  have hv := hg.valid
  unfold Inst.resetHeight
  split
  · split
    · rename_i hs _ c hc
      have hpos := hv.conts.2 _ (PyDict.find?_mem hc)
      refine ⟨⟨hv.conts, hv.items, hv.contsNe, hv.itemsNe, hv.strip, ?_, by simp⟩,
        Nat.zero_le _, hg.strat, hg.maxTime, hg.workers, hg.sol⟩
      intro _
      exact ⟨_, rfl, Nat.mul_pos hpos.1 (by decide)⟩
    · exact hg
  · exact hg

theorem checkStrategy_nodup : ∀ {l : List PyVal} {seen cs : List PClass}, checkStrategy l seen = .ok cs →
    seen.Nodup → cs.Nodup
  | [], seen, cs, h, hn => by
    simp only [checkStrategy, Except.ok.injEq] at h
    subst h; exact hn
  | v :: rest, seen, cs, h, hn => by
    unfold checkStrategy at h
    split at h
    · cases h
    · split at h
      · cases h
      · rename_i c _
        split at h
        · cases h
        · rename_i hc
          refine checkStrategy_nodup h ?_
          rw [List.nodup_append]
          refine ⟨hn, by simp, ?_⟩
          rintro a ha b hb rfl
          simp only [List.mem_singleton] at hb
          subst hb
          exact hc ha

theorem assignStrategy_good {A : Arith} {i : Inst} (v : PyVal) (hg : Good A i) :
    Good A (i.assignStrategy v).1 := by
  have hv := hg.valid
  unfold Inst.assignStrategy
  split
  · exact hg
  · split
    · exact hg
    · rename_i cs hcs
      exact ⟨⟨hv.conts, hv.items, hv.contsNe, hv.itemsNe, hv.strip, hv.height, hv.minPos⟩,
        hg.minLe, checkStrategy_nodup hcs List.nodup_nil, hg.maxTime, hg.workers, hg.sol⟩

theorem editSettings_good {A : Arith} {i : Inst} (v : PyVal) (hg : Good A i) :
    Good A { i with settings := v } := by
  have hv := hg.valid
  exact ⟨⟨hv.conts, hv.items, hv.contsNe, hv.itemsNe, hv.strip, hv.height, hv.minPos⟩,
    hg.minLe, hg.strat, hg.maxTime, hg.workers, hg.sol⟩

theorem validate_good {A : Arith} {i : Inst} (E : Env) (hg : Good A i) :
    Good A (i.validateSettings E).1 := by
  obtain ⟨h1, h2, h3, _⟩ := validateSettings_frame i E
  exact h1.good hg h2 h3

theorem step_good {A : Arith} {i : Inst} (hg : Good A i) (o : Op) : Good A (step A i o).1 := by
  have hv := hg.valid
  cases o with
  | assign k v => exact either_good hg (assign_edited hv k v)
  | setKey k id v => exact either_good hg (setKey_spec hv k id v).either
  | delKey k key => exact either_good hg (delKey_spec hv k key).either
  | setDim k id key v => exact either_good hg (setDim_spec hv k id key v).either
  | delDim k id => exact either_good hg (Or.inl (delDim_same i k id).1)
  | popKey k key d => exact either_good hg (popKey_edited hv k key d)
  | popItem k => exact either_good hg (popItem_spec hv k).either
  | clear k => exact either_good hg (clearLoop_edited k _ hv)
  | update k es => exact either_good hg (update_edited k es hv)
  | updateDim k id es => exact either_good hg (updateDim_edited k id es hv)
  | setDefault k key v => exact either_good hg (setDefault_edited hv k key v)
  | delAttr e => exact hg
  | height v => exact assignHeight_good v hg
  | minHeight v => exact assignMinHeight_good v hg
  | resetHeight => exact resetHeight_good hg
  | strategy v => exact assignStrategy_good v hg
  | settings E v => exact validate_good E (editSettings_good v hg)
  | editSettings v => exact editSettings_good v hg
  | validate E => exact validate_good E hg
  | solve seq =>
    simp only [step]
    split
    · rename_i j h; exact (solve_good hg h).1
    · exact hg
  | localSearch clock throttle =>
    simp only [step]
    split
    · rename_i j t h; exact localSearch_good hg h
    · exact hg
  | sortItems s => exact either_good hg (sortItems_edited hv A s)
  | orientItems o => exact either_good hg (orientItems_edited hv o)
  | hypersearch h => exact hypersearch_good hg
  | log => exact hg
  | figure writes show_ => exact hg

/-! the stored number of containers stays right -/

def Counted (i : Inst) : Prop := i.containersNum = i.containers.length

theorem either_counted {i j : Inst} (hn : Counted i) (h : j = i ∨ Edited i j) : Counted j := by
  rcases h with rfl | h
  · exact hn
  · exact h.num hn

theorem search_counted {A : Arith} {a : HSArgs} {i : Inst} (hv : i.Valid) (hn : Counted i) :
    Counted (i.search A a).1 := by
  by_cases hw : i.workers.isOne = true
  · obtain ⟨s, h1, h2⟩ := C27_returns A a i hv hw
    rw [h2]
    obtain ⟨f1, _⟩ := C27_frame A _ _ _ i _ hv s h1
    show Counted s.finish
    rw [f1]; exact hn
  · unfold Inst.search
    rw [if_neg hw]
    split <;> exact hn

theorem hypersearch_counted {A : Arith} {a : HSArgs} {i : Inst} (hv : i.Valid) (hn : Counted i) :
    Counted (i.hypersearch A a).1 := by
  unfold Inst.hypersearch
  have e1 := sortItems_edited hv A a.sortingBy
  have h1 := either_counted hn e1
  have v1 : (i.sortItems A a.sortingBy).1.Valid := by
    rcases e1 with h | h
    · rw [h]; exact hv
    · exact h.valid hv
  split
  · rename_i heq; rw [heq] at h1; exact h1
  · rename_i j heq
    rw [heq] at h1 v1
    have e2 := orientItems_edited v1 a.orientation
    have h2 := either_counted h1 e2
    have v2 : (j.orientItems a.orientation).1.Valid := by
      rcases e2 with h | h
      · rw [h]; exact v1
      · exact h.valid v1
    split
    · rename_i heq'; rw [heq'] at h2; exact h2
    · rename_i heq'; rw [heq'] at h2 v2; exact search_counted v2 h2

theorem settings_counted {i j : Inst} (h : SettingsFrame i j) (hn : Counted i) : Counted j := by
  rw [h]; exact hn

theorem step_counted {A : Arith} {i : Inst} (hv : i.Valid) (hn : Counted i) (o : Op) :
    Counted (step A i o).1 := by
  cases o with
  | assign k v => exact either_counted hn (assign_edited hv k v)
  | setKey k id v => exact either_counted hn (setKey_spec hv k id v).either
  | delKey k key => exact either_counted hn (delKey_spec hv k key).either
  | setDim k id key v => exact either_counted hn (setDim_spec hv k id key v).either
  | delDim k id => exact either_counted hn (Or.inl (delDim_same i k id).1)
  | popKey k key d => exact either_counted hn (popKey_edited hv k key d)
  | popItem k => exact either_counted hn (popItem_spec hv k).either
  | clear k => exact either_counted hn (clearLoop_edited k _ hv)
  | update k es => exact either_counted hn (update_edited k es hv)
  | updateDim k id es => exact either_counted hn (updateDim_edited k id es hv)
  | setDefault k key v => exact either_counted hn (setDefault_edited hv k key v)
  | delAttr e => exact hn
  | height v =>
    show Counted (i.assignHeight v).1
    unfold Inst.assignHeight
    split
    · exact hn
    · split
      · split <;> exact hn
      · exact hn
  | minHeight v =>
    show Counted (i.assignMinHeight v).1
    unfold Inst.assignMinHeight
    split
    · exact hn
    · split
      · exact hn
      · split <;> exact hn
  | resetHeight =>
    show Counted i.resetHeight.1
    unfold Inst.resetHeight
    split
    · split <;> exact hn
    · exact hn
  | strategy v =>
    show Counted (i.assignStrategy v).1
    unfold Inst.assignStrategy
    split
    · exact hn
    · split <;> exact hn
  | settings E v => exact settings_counted (validateSettings_frame { i with settings := v } E).1 hn
  | editSettings v => exact hn
  | validate E => exact settings_counted (validateSettings_frame i E).1 hn
  | solve seq =>
    simp only [step]
    split
    · rename_i j h
      unfold Inst.solve at h
      simp only [bind, Except.bind, pure, Except.pure] at h
      split at h
      · cases h
      · injection h with h
        subst h; exact hn
    · exact hn
  | localSearch clock throttle =>
    simp only [step]
    split
    · rename_i j t h
      obtain ⟨fr, _⟩ := C17_frame A _ _ _ i j t hv h
      show Counted j
      rw [fr]; exact hn
    · exact hn
  | sortItems s => exact either_counted hn (sortItems_edited hv A s)
  | orientItems o => exact either_counted hn (orientItems_edited hv o)
  | hypersearch h => exact hypersearch_counted hv hn
  | log => exact hn
  | figure writes show_ => exact hn

theorem Reach.good {A : Arith} {i : Inst} (h : Reach A i) : Good A i := by
  induction h with
  | new h => exact mkInst_good h
  | step o _ ih => exact step_good ih o

/-- without use of replaced `Containers` objects the stored number of containers is right -/
theorem Reach.num {A : Arith} {i : Inst} (h : Reach A i) : i.containersNum = i.containers.length := by
  induction h with
  | new h => exact (mkInst_spec h).1.num
  | step o hr ih => exact step_counted hr.good.valid ih o

end HP
