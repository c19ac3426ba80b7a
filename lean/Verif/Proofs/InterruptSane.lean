import Verif.Proofs.InterruptInv
/-
Calls that are cut off: the states during a hypersearch, and what holds in every state.
-/
namespace HP
open Spec

/-- a state during a search from `i` over the strategies `sts` -/
def SearchMid (A : Arith) (sts : List (List PClass)) (i j : Inst) : Prop :=
  ∃ sol ov h hs st b, j = { i with solution := sol, objVals := ov, height := h, heights := hs, strategy := st, bestStrategy := b } ∧
    HeightsOk i h hs ∧ (st = i.strategy ∨ st ∈ sts) ∧
    (sol = i.solution ∨ ∃ ov', Genuine A i sol ov') ∧
    (ov = i.objVals ∨ ∃ sol', Genuine A i sol' ov)

theorem SearchMid.refl {A : Arith} {sts : List (List PClass)} {i : Inst} (hv : i.Valid) : SearchMid A sts i i :=
  ⟨_, _, _, _, _, _, rfl, .self hv, Or.inl rfl, Or.inl rfl, Or.inl rfl⟩

theorem SearchMid.valid {A : Arith} {sts : List (List PClass)} {i j : Inst} (hv : i.Valid) (h : SearchMid A sts i j) :
    j.Valid := by
  obtain ⟨sol, ov, ht, hs, st, b, rfl, h1, _⟩ := h
  refine ⟨hv.conts, hv.items, hv.contsNe, hv.itemsNe, hv.strip, fun hst => ?_, hv.minPos⟩
  obtain ⟨n, a, b, _⟩ := h1.1 hst
  exact ⟨n, a, b⟩

theorem SearchMid.trans {A : Arith} {sts : List (List PClass)} {i j k : Inst} (h1 : SearchMid A sts i j)
    (h2 : SearchMid A sts j k) : SearchMid A sts i k := by
  obtain ⟨sol, ov, ht, hs, st, b, rfl, a1, a2, a3, a4⟩ := h1
  obtain ⟨sol', ov', ht', hs', st', b', rfl, b1, b2, b3, b4⟩ := h2
  refine ⟨_, _, _, _, _, _, rfl, ⟨fun hst => ?_, fun hb => ?_⟩, ?_, ?_, ?_⟩
  · obtain ⟨n, c1, c2, c3⟩ := b1.1 hst
    obtain ⟨m, d1, d2, d3⟩ := a1.1 hst
    refine ⟨n, c1, c2, le_trans c3 ?_⟩
    unfold Inst.maxH at d3 ⊢
    simp only [d1, Option.getD_some]
    omega
  · exact ⟨((b1.2 hb).1).trans (a1.2 hb).1, ((b1.2 hb).2).trans (a1.2 hb).2⟩
  · rcases b2 with h | h
    · rcases a2 with g | g
      · exact Or.inl (h.trans g)
      · exact Or.inr (by rw [h]; exact g)
    · exact Or.inr h
  · rcases b3 with h | ⟨o, h⟩
    · rcases a3 with g | ⟨o, g⟩
      · exact Or.inl (h.trans g)
      · exact Or.inr ⟨o, by rw [h]; exact g⟩
    · exact Or.inr ⟨o, h.congr rfl rfl rfl⟩
  · rcases b4 with h | ⟨o, h⟩
    · rcases a4 with g | ⟨o, g⟩
      · exact Or.inl (h.trans g)
      · exact Or.inr ⟨o, by rw [h]; exact g⟩
    · exact Or.inr ⟨o, h.congr rfl rfl rfl⟩

theorem LSMid.search {A : Arith} {sts : List (List PClass)} {i j : Inst} (hv : i.Valid) (h : LSMid A i j) :
    SearchMid A sts i j := by
  obtain ⟨sol, ov, ht, hs, rfl, a1, a2, a3⟩ := h
  refine ⟨sol, ov, ht, hs, i.strategy, i.bestStrategy, rfl, a1, Or.inl rfl, ?_, ?_⟩
  · exact a2.imp id fun ⟨o, h⟩ => ⟨o, h.genuine hv⟩
  · exact a3.imp id fun ⟨o, h⟩ => ⟨o, h.genuine hv⟩

theorem mid_solve {A : Arith} {i : Inst} (hv : i.Valid) (seq : Option (List String)) :
    ∀ j ∈ i.solveWrites A seq, ∃ sol ov, j = { i with solution := sol, objVals := ov } ∧
      (∃ ov', Genuine A i sol ov') ∧ (ov = i.objVals ∨ ∃ sol', Genuine A i sol' ov) := by
  intro j hj
  unfold Inst.solveWrites at hj
  cases hk : i.solve A seq with
  | error e => rw [hk] at hj; cases hj
  | ok k =>
    rw [hk] at hj
    have hgen : Genuine A i k.solution k.objVals ∧ k = { i with solution := k.solution, objVals := k.objVals } := by
      unfold Inst.solve at hk
      simp only [bind, Except.bind, pure, Except.pure] at hk
      cases hr : HP.solve A i.solveIn seq with
      | error e => rw [hr] at hk; cases hk
      | ok r =>
        rw [hr] at hk
        injection hk with hk
        subst hk
        have hks : KnownSeq i.solveIn seq := by
          by_contra hn
          have := (C06_total A i.solveIn hv.solveIn seq).2 hn
          rw [hr] at this; cases this
        exact ⟨⟨i.solveIn, seq, r.1, rfl, rfl, rfl, hv.solveIn, hks, by rw [hr], .refl _⟩, rfl⟩
    simp only [List.mem_cons, List.not_mem_nil, or_false] at hj
    rcases hj with hj | hj
    · exact ⟨_, _, hj, ⟨_, hgen.1⟩, Or.inl rfl⟩
    · rw [hj]; exact ⟨_, _, hgen.2, ⟨_, hgen.1⟩, Or.inr ⟨_, hgen.1⟩⟩

theorem searchMid_solve {A : Arith} {sts : List (List PClass)} {i : Inst} (hv : i.Valid) (seq : Option (List String)) :
    ∀ j ∈ i.solveWrites A seq, SearchMid A sts i j := by
  intro j hj
  obtain ⟨sol, ov, e, h1, h2⟩ := mid_solve hv seq j hj
  exact ⟨sol, ov, i.height, i.heights, i.strategy, i.bestStrategy, e, .self hv, Or.inl rfl, Or.inr h1, h2⟩

theorem searchMid_loop {A : Arith} {clock : Nat → Rat} {start : Rat} {throttle : Bool} {i : Inst} (hv : i.Valid)
    {all : List (List PClass)} : ∀ (sts : List (List PClass)), (∀ st ∈ sts, st ∈ all) → ∀ (s : HSState),
      SearchMid A all i s.inst → ∀ j ∈ hsLoopWrites A clock start throttle sts s, SearchMid A all i j
  | [], _, s, hs => by intro j hj; cases hj
  | st :: rest, hsub, s, hs => by
    intro j hj
    have hv' := hs.valid hv
    have hst : SearchMid A all s.inst { s.inst with strategy := st } :=
      ⟨_, _, _, _, _, _, rfl, .self hv', Or.inr (hsub st (by simp)), Or.inl rfl, Or.inl rfl⟩
    have hi := hs.trans hst
    have hls : ∀ k ∈ Inst.localSearchWrites A (fun k => clock (s.tick + k)) start throttle { s.inst with strategy := st },
        SearchMid A all i k := fun k hk =>
      hi.trans ((mid_localSearch (hi.valid hv) k hk).search (hi.valid hv))
    unfold hsLoopWrites at hj
    simp only [List.cons_append, List.mem_cons, List.mem_append] at hj
    rcases hj with hj | hj | hj
    · rw [hj]; exact hi
    · exact hls j hj
    · cases hx : hsStep A clock start throttle st s with
      | error e => rw [hx] at hj; cases hj
      | ok x =>
        obtain ⟨s', b⟩ := x
        rw [hx] at hj
        cases b with
        | true => cases hj
        | false =>
          obtain ⟨r, hr, hr'⟩ := hsStep_writes hx
          have hl := (last_localSearch A (fun k => clock (s.tick + k)) start throttle { s.inst with strategy := st }).1 r hr
          refine searchMid_loop hv rest (fun q hq => hsub q (by simp [hq])) s' ?_ j hj
          rw [hr']
          rcases lastD_mem hl with h | h
          · rw [h]; exact hi
          · exact hls _ h

theorem mid_search {A : Arith} {h : HSArgs} {i : Inst} (hv : i.Valid) :
    ∀ j ∈ i.searchWrites A h, SearchMid A (getStrategies h.order i.strip h.exhaustive) i j := by
  intro j hj
  unfold Inst.searchWrites at hj
  simp only at hj
  generalize hsts : getStrategies h.order i.strip h.exhaustive = sts at hj ⊢
  by_cases hw : i.workers.isOne = true
  · rw [if_pos hw] at hj
    cases hs : i.singleHS A (fun k => h.clock (k + 1)) (h.clock 0) h.throttle sts with
    | error e => rw [hs] at hj; cases i.initSolution A <;> simp at hj
    | ok s =>
      cases hi : i.initSolution A with
      | error e => rw [hs, hi] at hj; cases hj
      | ok r =>
        rw [hs, hi] at hj
        have hr : SearchMid A sts i r.1 := by
          obtain ⟨sol, ov, r', p1, p2, p3, p4, p5, p6⟩ := init_spec (A := A) hv
          rw [hi] at p5
          injection p5 with p5
          rw [p5]
          have hg : Genuine A i sol ov := ⟨i.solveIn, none, sol, rfl, rfl, rfl, hv.solveIn, (fun _ h => by cases h), p2, .refl _⟩
          exact ⟨sol, ov, i.height, i.heights, i.strategy, i.bestStrategy, rfl, .self hv, Or.inl rfl, Or.inr ⟨_, hg⟩, Or.inr ⟨_, hg⟩⟩
        have hgen := singleHS_genuine hv hs
        cases hb : r.1.calcObj A with
        | error e =>
          unfold Inst.singleHS at hs
          rw [hi] at hs
          simp only [bind, Except.bind, hb] at hs
          cases hs
        | ok best =>
          simp only [hb, List.mem_append] at hj
          have hloop := searchMid_loop (A := A) (clock := fun k => h.clock (k + 1)) (start := h.clock 0)
            (throttle := h.throttle) hv sts (fun _ h => h) ⟨r.1, best, r.2, defaultStrategy, 0, []⟩ hr
          rcases hj with (hj | hj) | hj
          · exact searchMid_solve hv none j hj
          · exact hloop j hj
          · have hsi : SearchMid A sts i s.inst := by
              unfold Inst.singleHS at hs
              rw [hi] at hs
              simp only [bind, Except.bind, hb] at hs
              have hl := last_hsLoop A _ _ _ _ _ _ hs
              rcases lastD_mem hl with h' | h'
              · rw [h']; exact hr
              · exact hloop _ h'
            obtain ⟨sol, ov, ht, hs', st, b, e, a1, a2, a3, a4⟩ := hsi
            simp only [List.mem_cons, List.not_mem_nil, or_false] at hj
            rcases hj with hj | hj | hj
            · refine ⟨s.retained.1, ov, ht, hs', st, b, ?_, a1, a2, Or.inr ⟨_, hgen⟩, a4⟩
              rw [hj, e]
            · refine ⟨s.retained.1, s.retained.2, ht, hs', st, b, ?_, a1, a2, Or.inr ⟨_, hgen⟩, Or.inr ⟨_, hgen⟩⟩
              rw [hj, e]
            · refine ⟨s.retained.1, s.retained.2, ht, hs', st, some (some s.bestStrategy), ?_, a1, a2, Or.inr ⟨_, hgen⟩, Or.inr ⟨_, hgen⟩⟩
              rw [hj]; unfold HSState.finish; rw [e]
  · rw [if_neg hw] at hj
    cases hm : i.multiHS h.env (h.mp A) sts h.schedule with
    | returned sol ov st =>
      rw [hm] at hj
      have hgen : Genuine A i sol ov := by
        unfold Inst.multiHS at hm
        split at hm
        · cases hm
        · split at hm
          · cases hm
          · rename_i chunks _ _ w hwi
            obtain ⟨w1, w2, w3, w4, _⟩ := workerInst_spec hv hwi
            obtain ⟨p, chunk, s, _, k2, k3, k4, _⟩ := mpFinish_returned w1 hv w2 w3 hm
            have hgen := singleHS_genuine w1 k2
            rw [k4]
            exact (Genuine.same hgen k3).congr w3.symm w2.symm w4.symm
      simp only [List.mem_cons, List.not_mem_nil, or_false] at hj
      rcases hj with hj | hj | hj
      · exact ⟨_, _, _, _, _, _, hj, .self hv, Or.inl rfl, Or.inr ⟨_, hgen⟩, Or.inl rfl⟩
      · exact ⟨_, _, _, _, _, _, hj, .self hv, Or.inl rfl, Or.inr ⟨_, hgen⟩, Or.inr ⟨_, hgen⟩⟩
      · exact ⟨_, _, _, _, _, _, hj, .self hv, Or.inl rfl, Or.inr ⟨_, hgen⟩, Or.inr ⟨_, hgen⟩⟩
    | raised e => rw [hm] at hj; cases hj
    | blocked => rw [hm] at hj; cases hj


/-! ### settings -/

theorem mid_validate (E : Env) (i : Inst) : ∀ j ∈ i.validateWrites E, SettingsFrame i j ∧
    (j.workers = i.workers ∨ j.workers.gtZero? = some true) ∧ (j.maxTime = i.maxTime ∨ 1 ≤ j.maxTime) := by
  intro j hj
  have hb := validateBase_frame i
  obtain ⟨h1, h2, h3, _⟩ := validateHyper_frame i
  have hfig := validateFigure_frame i.validateHyper.1 E
  unfold Inst.validateWrites at hj
  simp only [List.mem_append, List.mem_singleton] at hj
  rcases hj with hj | hj
  · rw [hj]
    refine ⟨?_, Or.inl ?_, Or.inl ?_⟩
    · unfold SettingsFrame; rw [hb]
    · rw [hb]
    · rw [hb]
  · cases hbe : i.validateBase.2 with
    | error e => rw [hbe] at hj; cases hj
    | ok u =>
      rw [hbe] at hj
      simp only [List.mem_append, List.mem_cons, List.not_mem_nil, or_false] at hj
      have hh : SettingsFrame i i.validateHyper.1 := by unfold SettingsFrame; rw [h1]
      rcases hj with (hj | hj) | hj
      · rw [hj]
        refine ⟨?_, Or.inl ?_, ?_⟩
        · unfold SettingsFrame; rw [hb]
        · rw [hb]
        · exact h3
      · rw [hj]; exact ⟨hh, h2, h3⟩
      · cases hhe : i.validateHyper.2 with
        | error e => rw [hhe] at hj; cases hj
        | ok u =>
          rw [hhe] at hj
          simp only [List.mem_append, List.mem_singleton] at hj
          rcases hj with hj | hj
          · have key : ∀ a b c d : Bool, SettingsFrame i { i.validateHyper.1 with plotlyInstalled := a, plotlyOk := b, kaleidoInstalled := c, kaleidoOk := d } ∧
                (({ i.validateHyper.1 with plotlyInstalled := a, plotlyOk := b, kaleidoInstalled := c, kaleidoOk := d } : Inst).workers = i.workers ∨ ({ i.validateHyper.1 with plotlyInstalled := a, plotlyOk := b, kaleidoInstalled := c, kaleidoOk := d } : Inst).workers.gtZero? = some true) ∧ (({ i.validateHyper.1 with plotlyInstalled := a, plotlyOk := b, kaleidoInstalled := c, kaleidoOk := d } : Inst).maxTime = i.maxTime ∨ 1 ≤ ({ i.validateHyper.1 with plotlyInstalled := a, plotlyOk := b, kaleidoInstalled := c, kaleidoOk := d } : Inst).maxTime) :=
              fun a b c d => ⟨hh.trans rfl, h2, h3⟩
            unfold Inst.versionWrites at hj
            simp only [List.mem_cons, List.not_mem_nil, or_false] at hj
            rcases hj with hj | hj | hj | hj | hj | hj | hj | hj <;> rw [hj] <;> exact key _ _ _ _
          · rw [hj]
            have hf : SettingsFrame i.validateHyper.1 (i.validateHyper.1.validateFigure E).1 := by
              unfold SettingsFrame; rw [hfig]
            refine ⟨hh.trans hf, ?_, ?_⟩
            · rw [hfig]; exact h2
            · rw [hfig]; exact h3

/-! ### what holds in every state -/

/-- what holds whenever a call may have been cut off -/
structure Sane (i : Inst) : Prop where
  valid : i.Valid
  strat : i.strategy.Nodup
  maxTime : 1 ≤ i.maxTime
  workers : i.workers.gtZero? = some true
  sol : i.solution = [] ∨ ∀ c ∈ PyDict.keys i.containers, c ∈ PyDict.keys i.solution

theorem Good.sane {A : Arith} {i : Inst} (h : Good A i) : Sane i := by
  refine ⟨h.valid, h.strat, h.maxTime, h.workers, ?_⟩
  rcases h.sol with h | h
  · exact Or.inl h.1
  · right; rw [h.facts.keysS]; exact fun _ h => h

theorem EditMid.sane {i j : Inst} (hs : Sane i) (h : EditMid i j) : Sane j := by
  have hv := h.valid hs.valid
  obtain ⟨cs, its, n, sol, ov, rfl, a1, a2, a3, a4, a5, a6⟩ := h
  refine ⟨hv, hs.strat, hs.maxTime, hs.workers, ?_⟩
  rcases a6 with h | ⟨h, h'⟩
  · exact Or.inl h
  · rcases hs.sol with g | g
    · left; exact h.trans g
    · right
      intro c hc
      show c ∈ PyDict.keys sol
      rw [h]; exact g c (h' c hc)

theorem SettingsFrame.sane {i j : Inst} (hs : Sane i) (h : SettingsFrame i j)
    (hw : j.workers = i.workers ∨ j.workers.gtZero? = some true) (ht : j.maxTime = i.maxTime ∨ 1 ≤ j.maxTime) : Sane j := by
  have hv := h.valid hs.valid
  refine ⟨hv, ?_, ?_, ?_, ?_⟩
  · rw [h]; exact hs.strat
  · rcases ht with h | h
    · rw [h]; exact hs.maxTime
    · exact h
  · rcases hw with h | h
    · rw [h]; exact hs.workers
    · exact h
  · rw [h]; exact hs.sol

theorem SearchMid.sane {A : Arith} {sts : List (List PClass)} {i j : Inst} (hs : Sane i) (hn : ∀ st ∈ sts, st.Nodup)
    (h : SearchMid A sts i j) : Sane j := by
  have hv := h.valid hs.valid
  obtain ⟨sol, ov, ht, hs', st, b, rfl, a1, a2, a3, a4⟩ := h
  refine ⟨hv, ?_, hs.maxTime, hs.workers, ?_⟩
  · rcases a2 with h | h
    · show st.Nodup; rw [h]; exact hs.strat
    · exact hn st h
  · rcases a3 with h | ⟨_, h⟩
    · show sol = [] ∨ _
      rw [h]; exact hs.sol
    · right; show ∀ c ∈ PyDict.keys i.containers, c ∈ PyDict.keys sol
      rw [h.facts.keysS]; exact fun _ h => h

theorem sane_mem_last {i : Inst} {l : List Inst} (hs : Sane i) (h : ∀ j ∈ l, Sane j) : Sane (l.getLastD i) := by
  rcases lastD_mem (rfl : l.getLastD i = _) with g | g
  · rw [g]; exact hs
  · exact h _ g

theorem writes_sane {A : Arith} {i : Inst} (hs : Sane i) (o : Op) : ∀ j ∈ writes A i o, Sane j := by
  have hv := hs.valid
  cases o with
  | assign k v => exact fun j hj => (mid_assign hv k v j hj).sane hs
  | setKey k id v => exact fun j hj => (mid_setKey hv k id v j hj).sane hs
  | delKey k key => exact fun j hj => (mid_delKey hv k key j hj).sane hs
  | setDim k id key v => exact fun j hj => (mid_setDim hv k id key v j hj).sane hs
  | popKey k key d => exact fun j hj => (mid_popKey hv k key j hj).sane hs
  | popItem k => exact fun j hj => (mid_popItem hv k j hj).sane hs
  | clear k => exact fun j hj => (mid_clear k _ hv j hj).sane hs
  | update k es => exact fun j hj => (mid_update k es hv j hj).sane hs
  | updateDim k id es => exact fun j hj => (mid_updateDim k id es hv j hj).sane hs
  | setDefault k key v => exact fun j hj => (mid_setDefault hv k key v j hj).sane hs
  | sortItems s => exact fun j hj => (mid_sort hv A s j hj).sane hs
  | orientItems o => exact fun j hj => (mid_orient hv o j hj).sane hs
  | solve seq => exact fun j hj => (searchMid_solve (sts := []) hv seq j hj).sane hs (by simp)
  | localSearch clock throttle =>
    exact fun j hj => ((mid_localSearch hv j hj).search (sts := []) hv).sane hs (by simp)
  | hypersearch h =>
    intro j hj
    simp only [writes, Inst.hypersearchWrites, List.mem_append] at hj
    rcases hj with hj | hj
    · exact (mid_sort hv A _ j hj).sane hs
    · have h1 := last_sort A h.sortingBy i
      have s1 := sane_mem_last hs (fun j hj => (mid_sort hv A h.sortingBy j hj).sane hs)
      rw [h1] at s1
      generalize i.sortItems A h.sortingBy = x at hj s1
      obtain ⟨k, r⟩ := x
      cases r with
      | error e => cases hj
      | ok u =>
        simp only [List.mem_append] at hj s1
        rcases hj with hj | hj
        · exact (mid_orient s1.valid _ j hj).sane s1
        · have h2 := last_orient h.orientation k
          have s2 := sane_mem_last s1 (fun j hj => (mid_orient s1.valid h.orientation j hj).sane s1)
          rw [h2] at s2
          generalize k.orientItems h.orientation = y at hj s2
          obtain ⟨l, r⟩ := y
          cases r with
          | error e => cases hj
          | ok u =>
            exact (mid_search s2.valid j hj).sane s2 (pool_nodup h.order h.orderPerm l.strip h.exhaustive).1
  | settings E v =>
    intro j hj
    have s0 : Sane { i with settings := v } :=
      ⟨⟨hv.conts, hv.items, hv.contsNe, hv.itemsNe, hv.strip, hv.height, hv.minPos⟩, hs.strat, hs.maxTime, hs.workers, hs.sol⟩
    simp only [writes, List.mem_cons] at hj
    rcases hj with hj | hj
    · rw [hj]; exact s0
    · obtain ⟨h1, h2, h3⟩ := mid_validate E _ j hj
      exact h1.sane s0 h2 h3
  | validate E =>
    intro j hj
    obtain ⟨h1, h2, h3⟩ := mid_validate E _ j hj
    exact h1.sane hs h2 h3
  | editSettings v =>
    intro j hj
    simp only [writes, List.mem_singleton] at hj
    rw [hj]
    exact ⟨⟨hv.conts, hv.items, hv.contsNe, hv.itemsNe, hv.strip, hv.height, hv.minPos⟩, hs.strat, hs.maxTime, hs.workers, hs.sol⟩
  | height v =>
    intro j hj
    simp only [writes, List.mem_singleton] at hj
    rw [hj]
    unfold Inst.assignHeight
    split
    · exact hs
    · rename_i n hn
      have hpos := atLeastOne?_pos hn
      have key : Sane { i with height := some n } :=
        ⟨⟨hv.conts, hv.items, hv.contsNe, hv.itemsNe, hv.strip, fun _ => ⟨n, rfl, hpos⟩, hv.minPos⟩, hs.strat, hs.maxTime, hs.workers, hs.sol⟩
      split
      · split
        · exact hs
        · exact key
      · exact key
  | minHeight v =>
    intro j hj
    simp only [writes, List.mem_singleton] at hj
    rw [hj]
    unfold Inst.assignMinHeight
    split
    · exact hs
    · rename_i n hn
      have hpos := atLeastOne?_pos hn
      split
      · exact hs
      · split
        · exact hs
        · refine ⟨⟨hv.conts, hv.items, hv.contsNe, hv.itemsNe, hv.strip, hv.height, ?_⟩, hs.strat, hs.maxTime, hs.workers, hs.sol⟩
          intro m hm
          simp only [Option.some.injEq] at hm
          omega
  | resetHeight =>
    intro j hj
    simp only [writes, Inst.resetHeightWrites] at hj
    split at hj
    · split at hj
      · rename_i c hc
        have hpos := hv.conts.2 _ (PyDict.find?_mem hc)
        have hp : 0 < c.w * maxRatio := Nat.mul_pos hpos.1 (by decide)
        simp only [List.mem_cons, List.not_mem_nil, or_false] at hj
        rcases hj with hj | hj <;> rw [hj]
        · exact ⟨⟨hv.conts, hv.items, hv.contsNe, hv.itemsNe, hv.strip, fun _ => ⟨_, rfl, hp⟩, hv.minPos⟩, hs.strat, hs.maxTime, hs.workers, hs.sol⟩
        · exact ⟨⟨hv.conts, hv.items, hv.contsNe, hv.itemsNe, hv.strip, fun _ => ⟨_, rfl, hp⟩, by simp⟩, hs.strat, hs.maxTime, hs.workers, hs.sol⟩
      · cases hj
    · cases hj
  | strategy v =>
    intro j hj
    simp only [writes, List.mem_singleton] at hj
    rw [hj]
    unfold Inst.assignStrategy
    split
    · exact hs
    · split
      · exact hs
      · rename_i cs hcs
        exact ⟨⟨hv.conts, hv.items, hv.contsNe, hv.itemsNe, hv.strip, hv.height, hv.minPos⟩,
          checkStrategy_nodup hcs List.nodup_nil, hs.maxTime, hs.workers, hs.sol⟩
  | delDim k id => intro j hj; cases hj
  | delAttr e => intro j hj; cases hj
  | log => intro j hj; cases hj
  | figure a b => intro j hj; cases hj

theorem cut_mem {A : Arith} {i : Inst} {o : Op} {n : Nat} : cut A i o n = i ∨ cut A i o n ∈ writes A i o := by
  rcases lastD_mem (rfl : ((writes A i o).take n).getLastD i = _) with h | h
  · exact Or.inl h
  · exact Or.inr (List.mem_of_mem_take h)

theorem cut_sane {A : Arith} {i : Inst} (hs : Sane i) (o : Op) (n : Nat) : Sane (cut A i o n) := by
  rcases cut_mem (A := A) (i := i) (o := o) (n := n) with h | h
  · rw [h]; exact hs
  · exact writes_sane hs o _ h

theorem reachCut_sane {A : Arith} {i : Inst} (h : ReachCut A i) : Sane i := by
  induction h with
  | new h => exact (mkInst_good (A := A) h).sane
  | cut o n _ ih => exact cut_sane ih o n

end HP
