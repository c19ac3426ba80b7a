import Verif.Proofs.Structures
import Verif.Model.Machine
/-
What the validation of settings changes, and the constructor.
-/
namespace HP
open Spec

/-- `j` differs from `i` at most in the settings and what is derived from them -/
def SettingsFrame (i j : Inst) : Prop :=
  j = { i with
    settings := j.settings, rotation := j.rotation, maxTime := j.maxTime, workers := j.workers,
    plotlyInstalled := j.plotlyInstalled, plotlyOk := j.plotlyOk,
    kaleidoInstalled := j.kaleidoInstalled, kaleidoOk := j.kaleidoOk }

theorem SettingsFrame.refl (i : Inst) : SettingsFrame i i := rfl

theorem SettingsFrame.trans {i j k : Inst} (h1 : SettingsFrame i j) (h2 : SettingsFrame j k) :
    SettingsFrame i k := by
  unfold SettingsFrame at *
  rw [h2, h1]

theorem SettingsFrame.valid {i j : Inst} (hv : i.Valid) (h : SettingsFrame i j) : j.Valid := by
  rw [h]
  exact ⟨hv.conts, hv.items, hv.contsNe, hv.itemsNe, hv.strip, hv.height, hv.minPos⟩

theorem validateBase_frame (i : Inst) :
    i.validateBase.1 = { i with rotation := i.validateBase.1.rotation } := by
  unfold Inst.validateBase
  split
  · rfl
  · split
    · rfl
    · simp only
      split
      · rfl
      · split <;> rfl

theorem validateWorkers_frame (i : Inst) (st : List (PyVal × PyVal)) :
    (i.validateWorkers st).1 = { i with workers := (i.validateWorkers st).1.workers } ∧
    ((i.validateWorkers st).1.workers = i.workers ∨
      (i.validateWorkers st).1.workers.gtZero? = some true) ∧
    ((i.validateWorkers st).2 = .ok () → (i.validateWorkers st).1.workers.gtZero? = some true) := by
  unfold Inst.validateWorkers
  simp only
  split
  · exact ⟨rfl, Or.inr rfl, fun _ => rfl⟩
  · split
    · rename_i h
      exact ⟨rfl, Or.inr h, fun _ => h⟩
    · exact ⟨rfl, Or.inl rfl, fun h => by cases h⟩

theorem validateHyper_frame (i : Inst) :
    i.validateHyper.1 = { i with
      rotation := i.validateHyper.1.rotation, maxTime := i.validateHyper.1.maxTime,
      workers := i.validateHyper.1.workers } ∧
    (i.validateHyper.1.workers = i.workers ∨ i.validateHyper.1.workers.gtZero? = some true) ∧
    (i.validateHyper.1.maxTime = i.maxTime ∨ 1 ≤ i.validateHyper.1.maxTime) ∧
    (i.validateHyper.2 = .ok () → i.validateHyper.1.workers.gtZero? = some true ∧
      1 ≤ i.validateHyper.1.maxTime) := by
  have hb := validateBase_frame i
  unfold Inst.validateHyper
  generalize i.validateBase = r at hb
  obtain ⟨j, e⟩ := r
  simp only at hb
  have hb' : j = { i with rotation := j.rotation, maxTime := j.maxTime, workers := j.workers } := by
    rw [hb]
  cases e with
  | error e => exact ⟨hb', Or.inl (by rw [hb]), Or.inl (by rw [hb]), fun h => by cases h⟩
  | ok u =>
    simp only
    split
    · exact ⟨hb', Or.inl (by rw [hb]), Or.inl (by rw [hb]), fun h => by cases h⟩
    · split
      · refine ⟨?_, Or.inr rfl, Or.inr (show (1 : Int) ≤ maxTimeDefault by decide), fun _ =>
          ⟨rfl, show (1 : Int) ≤ maxTimeDefault by decide⟩⟩
        simp only
        rw [hb]
      · split
        · exact ⟨hb', Or.inl (by rw [hb]), Or.inl (by rw [hb]), fun h => by cases h⟩
        · split
          · exact ⟨hb', Or.inl (by rw [hb]), Or.inl (by rw [hb]), fun h => by cases h⟩
          · rename_i t ht hlt
            obtain ⟨w1, w2, w3⟩ := validateWorkers_frame { j with maxTime := t } _
            refine ⟨?_, ?_, ?_, ?_⟩
            · rw [w1]; simp only; rw [hb]
            · rcases w2 with w2 | w2
              · left; rw [w2]; simp only; rw [hb]
              · exact Or.inr w2
            · right; rw [w1]; simp only; omega
            · intro h
              refine ⟨w3 h, ?_⟩
              rw [w1]; simp only; omega

theorem checkExport_frame (i : Inst) (E : Env) (st fig : List (PyVal × PyVal)) :
    (i.checkExport E st fig).1 = { i with settings := (i.checkExport E st fig).1.settings } := by
  unfold Inst.checkExport
  split
  · rfl
  · split
    · rfl
    · split
      · rfl
      · simp only
        split
        · rfl
        · split
          · rfl
          · split <;> rfl

theorem validateFigure_frame (i : Inst) (E : Env) :
    (i.validateFigure E).1 = { i with
      settings := (i.validateFigure E).1.settings,
      plotlyInstalled := (i.validateFigure E).1.plotlyInstalled,
      plotlyOk := (i.validateFigure E).1.plotlyOk,
      kaleidoInstalled := (i.validateFigure E).1.kaleidoInstalled,
      kaleidoOk := (i.validateFigure E).1.kaleidoOk } := by
  have hc : i.checkVersions E = { i with
      settings := (i.checkVersions E).settings,
      plotlyInstalled := (i.checkVersions E).plotlyInstalled, plotlyOk := (i.checkVersions E).plotlyOk,
      kaleidoInstalled := (i.checkVersions E).kaleidoInstalled,
      kaleidoOk := (i.checkVersions E).kaleidoOk } := rfl
  unfold Inst.validateFigure
  generalize i.checkVersions E = k at hc
  simp only
  split
  · exact hc
  · split
    · split
      · exact hc
      · split
        · exact hc
        · split
          · exact hc
          · rename_i st _ _ fig _ _ _ _
            have he := checkExport_frame k E st fig
            generalize k.checkExport E st fig = r at he
            obtain ⟨j, e⟩ := r
            simp only at he
            cases e with
            | error e => simp only; rw [he, hc]
            | ok u => simp only; rw [he, hc]
    · exact hc

theorem validateSettings_frame (i : Inst) (E : Env) :
    SettingsFrame i (i.validateSettings E).1 ∧
    ((i.validateSettings E).1.workers = i.workers ∨
      (i.validateSettings E).1.workers.gtZero? = some true) ∧
    ((i.validateSettings E).1.maxTime = i.maxTime ∨ 1 ≤ (i.validateSettings E).1.maxTime) ∧
    ((i.validateSettings E).2 = .ok () → (i.validateSettings E).1.workers.gtZero? = some true ∧
      1 ≤ (i.validateSettings E).1.maxTime) := by
  obtain ⟨h1, h2, h3, h4⟩ := validateHyper_frame i
  unfold Inst.validateSettings
  generalize i.validateHyper = r at h1 h2 h3 h4
  obtain ⟨j, e⟩ := r
  simp only at h1 h2 h3 h4
  cases e with
  | error e => exact ⟨by unfold SettingsFrame; rw [h1], h2, h3, fun h => by cases h⟩
  | ok u =>
    simp only
    have hf := validateFigure_frame j E
    refine ⟨?_, ?_, ?_, ?_⟩
    · unfold SettingsFrame; rw [hf, h1]
    · rw [hf]; exact h2
    · rw [hf]; exact h3
    · intro _; rw [hf]; exact h4 rfl

/-! ### the constructor -/

/-- what the constructor produces -/
structure Constructed (i : Inst) : Prop where
  valid : i.Valid
  bin : i.strip = false → i.height = none
  strip : i.strip = true → ∃ W, 0 < W ∧ i.containers = [(stripId, ⟨W, stripInitHeight⟩)] ∧
    i.height = some (maxRatio * W)
  minHeight : i.minHeight = none
  heights : i.heights = []
  strategy : i.strategy = defaultStrategy
  solution : i.solution = []
  objVals : i.objVals = []
  bestStrategy : i.bestStrategy = none
  workers : i.workers.gtZero? = some true
  maxTime : 1 ≤ i.maxTime
  num : i.containersNum = i.containers.length

theorem initContainers_spec {containers width : PyVal} {strip : Bool} {cs : PyDict String Dim}
    {h : Option Nat} (hi : initContainers containers width = .ok (strip, cs, h)) :
    ValidSizes cs ∧ cs ≠ [] ∧
    ((strip = false ∧ h = none ∧ width = .none ∧ (buildStructure .containers containers).2 = .ok cs) ∨
     (strip = true ∧ ∃ W, 0 < W ∧ width.posInt? = some W ∧ containers = .none ∧
        cs = [(stripId, ⟨W, stripInitHeight⟩)] ∧ h = some (maxRatio * W))) := by
  unfold initContainers at hi
  split at hi
  · rename_i hn
    split at hi
    · rename_i d hd
      simp only [Except.ok.injEq, Prod.mk.injEq] at hi
      obtain ⟨rfl, rfl, rfl⟩ := hi
      obtain ⟨a, b, _⟩ := buildStructure_valid hd
      refine ⟨a, b, Or.inl ⟨rfl, rfl, ?_, hd⟩⟩
      cases width <;> simp_all [PyVal.isNone]
    · cases hi
  · split at hi
    · cases hi
    · rename_i w hw
      split at hi
      · rename_i hn
        simp only [Except.ok.injEq, Prod.mk.injEq] at hi
        obtain ⟨rfl, rfl, rfl⟩ := hi
        have hp := posInt?_pos hw
        refine ⟨⟨by simp [PyDict.keys], ?_⟩, by simp, Or.inr ⟨rfl, w, hp, hw, ?_, rfl, rfl⟩⟩
        · intro p hp'
          simp only [List.mem_singleton] at hp'
          subst hp'
          exact ⟨hp, by simp [stripInitHeight]⟩
        · cases containers <;> simp_all [PyVal.isNone]
      · cases hi

/-- the object right after construction -/
theorem mkInst_spec {E : Env} {containers items settings width : PyVal} {i : Inst}
    (h : mkInst E containers items settings width = .ok i) :
    Constructed i ∧
    (∃ height, initContainers containers width = .ok (i.strip, i.containers, height)) ∧
    (buildStructure .items items).2 = .ok i.items := by
  unfold mkInst at h
  split at h
  · cases h
  · rename_i strip cs height hc
    split at h
    · cases h
    · rename_i its hits
      have hs := validateSettings_frame (rawInst strip cs its height settings) E
      generalize Inst.validateSettings E (rawInst strip cs its height settings) = r at h hs
      obtain ⟨j, e⟩ := r
      cases e with
      | error e => cases h
      | ok u =>
        simp only [Except.ok.injEq] at h
        subst h
        obtain ⟨hf, _, _, hok⟩ := hs
        simp only at hf hok
        obtain ⟨hw, ht⟩ := hok trivial
        obtain ⟨a1, a2, a3⟩ := initContainers_spec hc
        obtain ⟨b1, b2, _⟩ := buildStructure_valid hits
        have hst : j.strip = strip := by rw [hf]; rfl
        have hcs : j.containers = cs := by rw [hf]; rfl
        have hit : j.items = its := by rw [hf]; rfl
        have hh : j.height = height := by rw [hf]; rfl
        have hmin : j.minHeight = none := by rw [hf]; rfl
        refine ⟨⟨⟨?_, ?_, ?_, ?_, ?_, ?_, ?_⟩, ?_, ?_, hmin, ?_, ?_, ?_, ?_, ?_, hw, ht, by rw [hcs, hf]; rfl⟩, ?_, ?_⟩
        · rw [hcs]; exact a1
        · rw [hit]; exact b1
        · rw [hcs]; exact a2
        · rw [hit]; exact b2
        · intro h
          rw [hst] at h
          rcases a3 with ⟨h', _⟩ | ⟨_, W, _, _, _, hW, _⟩
          · rw [h] at h'; cases h'
          · exact ⟨W, by rw [hcs, hW]⟩
        · intro h
          rw [hst] at h
          rcases a3 with ⟨h', _⟩ | ⟨_, W, hW, _, _, _, hH⟩
          · rw [h] at h'; cases h'
          · exact ⟨maxRatio * W, by rw [hh, hH], by simp [maxRatio]; exact hW⟩
        · intro m hm; rw [hmin] at hm; cases hm
        · intro h
          rw [hst] at h
          rcases a3 with ⟨_, h', _⟩ | ⟨h', _⟩
          · rw [hh, h']
          · rw [h] at h'; cases h'
        · intro h
          rw [hst] at h
          rcases a3 with ⟨h', _⟩ | ⟨_, W, hW, _, _, hc', hH⟩
          · rw [h] at h'; cases h'
          · exact ⟨W, hW, by rw [hcs, hc'], by rw [hh, hH]⟩
        · rw [hf]; rfl
        · rw [hf]; rfl
        · rw [hf]; rfl
        · rw [hf]; rfl
        · rw [hf]; rfl
        · exact ⟨height, by rw [hst, hcs]; exact hc⟩
        · rw [hit]; exact hits

/-! ### the structures of a copy -/

theorem mkDims_encode (k : SKind) {d : Dim} (h : 0 < d.w ∧ 0 < d.l) : mkDims k (k.encode d) = .ok d := by
  obtain ⟨w, l⟩ := d
  have hw : PyVal.posInt? (.int w) = some w := by
    simp [PyVal.posInt?, PyVal.asInt?]; exact Nat.pos_iff_ne_zero.1 h.1
  have hl : PyVal.posInt? (.int l) = some l := by
    simp [PyVal.posInt?, PyVal.asInt?]; exact Nat.pos_iff_ne_zero.1 h.2
  cases k <;>
    simp [mkDims, SKind.encode, PyVal.asDict?, SKind.width, SKind.length, PyVal.get?, PyVal.eqStr, hw, hl]

theorem buildEntries_encode (k : SKind) : ∀ (d acc : PyDict String Dim) (b : Bool),
    ValidSizes (acc ++ d) →
    (buildEntries k (d.map (fun p => (.str p.1, k.encode p.2))) acc b).2 = .ok (acc ++ d)
  | [], acc, b, _ => by simp [buildEntries]
  | p :: d, acc, b, hv => by
    have hp := hv.2 p (by simp)
    have hnot : p.1 ∉ PyDict.keys acc := by
      have := hv.1
      simp only [PyDict.keys, List.map_append, List.map_cons] at this ⊢
      intro hm
      exact (List.disjoint_of_nodup_append this hm) (by simp)
    have hins : PyDict.insert acc p.1 p.2 = acc ++ [p] := by
      rw [PyDict.insert_not_mem _ _ _ hnot]
    simp only [List.map_cons, buildEntries, PyVal.asStr?, mkDims_encode k hp]
    rw [hins]
    rw [buildEntries_encode k d (acc ++ [p]) true (by simpa using hv)]
    simp

/-- a structure built from a copy has the same entries in the same order -/
theorem buildStructure_encodeAll (k : SKind) {d : PyDict String Dim} (hv : ValidSizes d) (hne : d ≠ []) :
    (buildStructure k (k.encodeAll d)).2 = .ok d := by
  unfold buildStructure SKind.encodeAll
  simp only [PyVal.asDict?]
  rw [if_neg (by simpa using hne)]
  have := buildEntries_encode k d [] false (by simpa using hv)
  simpa using this

/-- a worker builds its own problem object, so its number of containers is right even if that of
the parent is not -/
theorem workerInst_num {E : Env} {i w : Inst} (h : workerInst E i = .ok w) :
    w.containersNum = w.containers.length := by
  unfold workerInst at h
  simp only [bind, Except.bind, pure, Except.pure] at h
  split at h
  · cases h
  · split at h
    · cases h
    · split at h
      · cases h
      · rename_i w0 hw0
        injection h with h
        obtain ⟨hcon, _⟩ := mkInst_spec hw0
        rw [← h]; exact hcon.num

/-- the instance of a worker: a freshly constructed problem with the parent's items and
containers -/
theorem workerInst_spec {E : Env} {i w : Inst} (hv : i.Valid) (h : workerInst E i = .ok w) :
    w.Valid ∧ w.items = i.items ∧ w.containers = i.containers ∧ w.strip = i.strip ∧
    w.minHeight = i.minHeight ∧ w.strategy = defaultStrategy ∧ w.solution = [] ∧
    (i.strip = false → w.height = none) ∧
    (i.strip = true → ∃ W L, i.containers = [(stripId, ⟨W, L⟩)] ∧ w.height = some (10 * W)) ∧
    w.workers.gtZero? = some true ∧ 1 ≤ w.maxTime := by
  unfold workerInst at h
  simp only [bind, Except.bind, pure, Except.pure] at h
  split at h
  · cases h
  · rename_i st hst
    split at h
    · cases h
    · rename_i c hc
      split at h
      · cases h
      · rename_i w0 hw0
        injection h with h
        obtain ⟨hcon, ⟨height, hic⟩, hit⟩ := mkInst_spec hw0
        have hitems : w0.items = i.items := by
          rw [buildStructure_encodeAll .items hv.items hv.itemsNe] at hit
          injection hit with hit
          exact hit.symm
        have hcs : w0.strip = i.strip ∧ w0.containers = i.containers := by
          unfold workerContainers at hc
          split at hc
          · rename_i hs
            obtain ⟨W, hW⟩ := hv.strip hs
            have hf : PyDict.find? i.containers stripId = some ⟨W, stripInitHeight⟩ := by
              rw [hW]; simp [PyDict.find?]
            rw [hf] at hc
            injection hc with hc
            rw [← hc] at hic
            obtain ⟨_, _, hh⟩ := initContainers_spec hic
            rcases hh with ⟨_, _, h', _⟩ | ⟨h1, W', _, h2, _, h3, _⟩
            · cases h'
            · refine ⟨by rw [h1, hs], ?_⟩
              have : W' = W := by
                have hp := (hv.conts.2 (stripId, ⟨W, stripInitHeight⟩) (by rw [hW]; simp)).1
                simp only at hp h2
                have : PyVal.posInt? (.int W) = some W := by
                  simp [PyVal.posInt?, PyVal.asInt?]; exact Nat.pos_iff_ne_zero.1 hp
                rw [this] at h2
                injection h2 with h2
                exact h2.symm
              rw [h3, hW, this]
          · rename_i hs
            injection hc with hc
            rw [← hc] at hic
            obtain ⟨_, _, hh⟩ := initContainers_spec hic
            rcases hh with ⟨h1, _, _, h2⟩ | ⟨_, W, _, h2, _⟩
            · refine ⟨by rw [h1]; simpa using hs, ?_⟩
              rw [buildStructure_encodeAll .containers hv.conts hv.contsNe] at h2
              injection h2 with h2
              exact h2.symm
            · simp [PyVal.posInt?, PyVal.asInt?] at h2
        have hval : w.Valid := by
          rw [← h]
          have := hcon.valid
          exact ⟨this.conts, this.items, this.contsNe, this.itemsNe, this.strip, this.height, hv.minPos⟩
        refine ⟨hval, by rw [← h]; exact hitems, by rw [← h]; exact hcs.2, by rw [← h]; exact hcs.1,
          by rw [← h], by rw [← h]; exact hcon.strategy, by rw [← h]; exact hcon.solution, ?_, ?_,
          by rw [← h]; exact hcon.workers, by rw [← h]; exact hcon.maxTime⟩
        · intro hs
          rw [← h]
          exact hcon.bin (by rw [hcs.1]; exact hs)
        · intro hs
          obtain ⟨W, _, h1, h2⟩ := hcon.strip (by rw [hcs.1]; exact hs)
          refine ⟨W, stripInitHeight, by rw [← hcs.2]; exact h1, ?_⟩
          rw [← h]
          exact h2

end HP
