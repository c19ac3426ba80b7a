import Verif.Props.Unvalidated
import Verif.Props.Team
/-
Property C127: searches by several workers come back.
-/
namespace HP
open Spec

/-- the arguments a worker is created with give the containers of the problem -/
theorem worker_containers {i : Inst} (hv : i.Valid) : ∃ c strip height, workerContainers i = .ok c ∧
    initContainers c.1 c.2 = .ok (strip, i.containers, height) := by
  by_cases hs : i.strip = true
  · obtain ⟨W, hW⟩ := hv.strip hs
    have hWp := (hv.conts.2 (stripId, ⟨W, stripInitHeight⟩) (by rw [hW]; simp)).1
    have hp : (PyVal.int (W : Int)).posInt? = some W := posInt?_nat hWp
    refine ⟨(.none, .int W), true, some (maxRatio * W), ?_, ?_⟩
    · unfold workerContainers
      rw [if_pos hs, hW]
      simp [PyDict.find?]
    · unfold initContainers
      simp only [PyVal.isNone, Bool.false_eq_true, if_false, hp, if_true]
      rw [hW]
  · refine ⟨_, false, none, by unfold workerContainers; rw [if_neg hs], ?_⟩
    unfold initContainers
    simp only [PyVal.isNone, if_true, buildStructure_encodeAll .containers hv.conts hv.contsNe]

/-- the settings a worker is created with: one worker, the rest as it is -/
theorem worker_settings (st : List (PyVal × PyVal)) : ∃ st', workerSettings (.dict st) = .ok (.dict st') ∧
    (∀ b t w, PlainSettings st b t w → PlainSettings st' b t (.int 1)) ∧
    ∀ E, FigureAccepted E st' ↔ FigureAccepted E st := by
  unfold workerSettings
  by_cases hw : (PyVal.get? st "workers_num").isSome = true
  · refine ⟨setEntry st "workers_num" (.int 1), by simp only [hw, if_true], ?_, ?_⟩
    · intro b t w ⟨h1, h2, _⟩
      refine ⟨?_, ?_, .inr ⟨get?_setEntry_self _ _ st, .inl ⟨1, rfl, by decide⟩⟩⟩
      · unfold RotationSetting Absent at *
        rw [get?_setEntry_ne (by decide)]
        exact h1
      · unfold TimeSetting at *
        rw [get?_setEntry_ne (by decide)]
        exact h2
    · intro E
      unfold FigureAccepted FigureSetting
      rw [get?_setEntry_ne (by decide)]
  · refine ⟨st, by simp only [hw, Bool.false_eq_true, if_false], ?_, fun E => Iff.rfl⟩
    intro b t w ⟨h1, h2, _⟩
    refine ⟨h1, h2, .inl ⟨.inl ?_, rfl⟩⟩
    simpa using hw

/-- a worker's object is created if and only if the figure settings are accepted -/
theorem worker_created {i : Inst} (hv : i.Valid) {st : List (PyVal × PyVal)} (hs : i.settings = .dict st)
    {b : Bool} {t : Int} {w : PyVal} (hp : PlainSettings st b t w) (E : Env) :
    (FigureAccepted E st → ∃ k, workerInst E i = .ok k) ∧
    (¬ FigureAccepted E st → ∃ m, workerInst E i = .error (.settingsError m)) := by
  obtain ⟨c, strip, height, hc1, hc2⟩ := worker_containers hv
  obtain ⟨st', hw1, hw2, hw3⟩ := worker_settings st
  have hi := buildStructure_encodeAll .items hv.items hv.itemsNe
  have hraw : (rawInst strip i.containers i.items height (.dict st')).settings = .dict st' := by
    cases st' <;> simp [rawInst, PyVal.truthy]
  have hmk : workerInst E i = Except.map (fun k : Inst => { k with minHeight := i.minHeight })
      (match Inst.validateSettings E (rawInst strip i.containers i.items height (.dict st')) with
      | (_, .error e) => Except.error e
      | (k, .ok ()) => Except.ok k) := by
    unfold workerInst
    simp only [bind, Except.bind, pure, Except.pure]
    rw [hs, hw1]
    simp only
    rw [hc1]
    simp only
    unfold mkInst
    rw [hc2]
    simp only
    rw [hi]
    simp only
    generalize Inst.validateSettings E (rawInst strip i.containers i.items height (.dict st')) = x
    obtain ⟨k, r⟩ := x
    cases r <;> rfl
  rw [hmk]
  rcases validateSettings_cases E hraw with ⟨h1, h2, _⟩ | ⟨⟨m, h1⟩, h2⟩
  · generalize Inst.validateSettings E (rawInst strip i.containers i.items height (.dict st')) = x at h1
    obtain ⟨k, r⟩ := x
    simp only at h1
    subst h1
    exact ⟨fun _ => ⟨_, rfl⟩, fun hn => absurd ((hw3 E).1 h2) hn⟩
  · generalize Inst.validateSettings E (rawInst strip i.containers i.items height (.dict st')) = x at h1
    obtain ⟨k, r⟩ := x
    simp only at h1
    subst h1
    refine ⟨fun hf => absurd ⟨⟨b, t, _, hw2 b t w hp⟩, (hw3 E).2 hf⟩ h2, fun _ => ⟨m, rfl⟩⟩

theorem rows_any (h : HSArgs) (strip : Bool) :
    [.B, .A, .C, .D, .A_, .B_] ++ [.A__, .B__, .F, .E] ∈ getStrategies h.order strip true :=
  (C28_strategies h.order strip h.orderPerm).2.2.2 [.B, .A, .C, .D, .A_, .B_] (by decide)

theorem length_le_flatten {α : Type} {l : List α} {ls : List (List α)} (h : l ∈ ls) : l.length ≤ ls.flatten.length := by
  obtain ⟨a, b, rfl⟩ := List.append_of_mem h
  simp only [List.flatten_append, List.flatten_cons, List.length_append]
  omega

/-- **C127**: several workers (an integer `n`, at least 2), settings that are accepted apart from the figure settings.
If the figure settings are accepted at the time of the search, none of the workers fails or is killed, their messages
fit into the pipe and each of them makes enough steps, then `hypersearch()` returns.  Missing: whatever happened to files
and packages since the settings were accepted (`C127_refuted`). -/
theorem C127_returns_partial (A : Arith) (hA : NonNeg A) (i : Inst) (hr : Reach A i) (st : List (PyVal × PyVal))
    (hset : i.settings = .dict st) (hplain : ∃ b t w, PlainSettings st b t w) (n : Int) (hw : i.workers = .int n)
    (hn : 2 ≤ n) (h : HSArgs) (hs : (step A i (.sortItems h.sortingBy)).2 = .ok) (hfig : FigureAccepted h.env st)
    (hforce : ∀ p, h.force p = false) (hfail : ∀ p, (p, MPEvent.raise) ∉ h.schedule ∧ ¬ Killed h.schedule p)
    (hfit : ∀ m, h.fits m = true)
    (hfair : ∀ p : Nat, (p : Int) < n →
      4 * (getStrategies h.order i.strip h.exhaustive).length + 5 ≤ h.schedule.count (p, .step)) :
    (step A i (.hypersearch h)).2 = .ok := by
  obtain ⟨b, t, w, hp⟩ := hplain
  obtain ⟨i0, h0⟩ : ∃ x, x = (step A (step A i (.sortItems h.sortingBy)).1 (.orientItems h.orientation)).1 := ⟨_, rfl⟩
  have hr1 : Reach A (step A i (.sortItems h.sortingBy)).1 := .step _ hr
  have hr0 : Reach A i0 := by rw [h0]; exact .step _ hr1
  obtain ⟨_, h2⟩ := step_hypersearch h hr hs
  rw [← h0] at h2
  have e1 : ∀ {a b : Inst}, b = a ∨ Edited a b → b.strip = a.strip ∧ b.settings = a.settings ∧ b.workers = a.workers := by
    intro a b hab
    rcases hab with rfl | ⟨cs, its, n, rfl, _⟩ <;> exact ⟨rfl, rfl, rfl⟩
  obtain ⟨a2, a3, a4⟩ := e1 (sortItems_edited hr.good.valid A h.sortingBy)
  obtain ⟨b2, b3, b4⟩ := e1 (orientItems_edited hr1.good.valid h.orientation)
  have hstrip : i0.strip = i.strip := by rw [h0]; exact b2.trans a2
  have hseti : i0.settings = .dict st := by rw [h0, ← hset]; exact b3.trans a3
  have hwork : i0.workers = .int n := by rw [h0, ← hw]; exact b4.trans a4
  have hv := hr0.good.valid
  obtain ⟨k, hk⟩ := (worker_created hv hseti hp h.env).1 hfig
  have hne : getStrategies h.order i.strip h.exhaustive ≠ [] := by
    cases hex : h.exhaustive with
    | true => exact List.ne_nil_of_mem (rows_any h i.strip)
    | false => simp [getStrategies, strategyPool]
  obtain ⟨chunks, hc⟩ := (C31_count (getStrategies h.order i.strip h.exhaustive) n (by omega)).1 hne
  have hcount := (C31_count (getStrategies h.order i.strip h.exhaustive) n (by omega)).2 chunks hc
  have hflat := (C31_partition _ _ _ hc).1
  have hc' : strategyChunks (getStrategies h.order i.strip h.exhaustive) i0.workers = .ok chunks := by rw [hwork]; exact hc
  have hend : AllEnded (h.mp A) k chunks h.schedule := by
    apply C57_ends _ _ _ _ hfit
    intro p chunk hpc
    have hlt := (List.getElem?_eq_some_iff.1 hpc).1
    have h3 := length_le_flatten (List.mem_of_getElem? hpc)
    rw [hflat] at h3
    have := hfair p (by omega)
    omega
  obtain ⟨sol, ov, str, hm⟩ := C32_returns h.env (h.mp A) _ h.schedule i0 k chunks hA hv hc' hk hend
    (fun p => (hfail p).2) ⟨0, List.length_pos_iff.2 (C31_partition _ _ _ hc).2.2,
      C33_none_raised _ _ _ _ hforce (fun p => (hfail p).1) 0⟩
  rw [h2]
  unfold Inst.search
  have hone : i0.workers.isOne = false := by
    rw [hwork]
    have : n ≠ 1 := by omega
    simp [PyVal.isOne, this]
  rw [if_neg (by rw [hone]; simp), hstrip, hm]

/-- **C127**, the other case: if the figure settings are not accepted at the time of the search, `hypersearch()` raises
SettingsError, whatever the processes would have done; the items are sorted and oriented, and nothing else has changed. -/
theorem C127_refused (A : Arith) (i : Inst) (hr : Reach A i) (st : List (PyVal × PyVal))
    (hset : i.settings = .dict st) (hplain : ∃ b t w, PlainSettings st b t w) (n : Int) (hw : i.workers = .int n)
    (hn : 2 ≤ n) (h : HSArgs) (hs : (step A i (.sortItems h.sortingBy)).2 = .ok) (hfig : ¬ FigureAccepted h.env st) :
    ∃ m, step A i (.hypersearch h) =
      ((step A (step A i (.sortItems h.sortingBy)).1 (.orientItems h.orientation)).1, .raised (.settingsError m)) := by
  obtain ⟨b, t, w, hp⟩ := hplain
  obtain ⟨i0, h0⟩ : ∃ x, x = (step A (step A i (.sortItems h.sortingBy)).1 (.orientItems h.orientation)).1 := ⟨_, rfl⟩
  have hr1 : Reach A (step A i (.sortItems h.sortingBy)).1 := .step _ hr
  have hr0 : Reach A i0 := by rw [h0]; exact .step _ hr1
  obtain ⟨_, h2⟩ := step_hypersearch h hr hs
  rw [← h0] at h2 ⊢
  have e1 : ∀ {a b : Inst}, b = a ∨ Edited a b → b.strip = a.strip ∧ b.settings = a.settings ∧ b.workers = a.workers := by
    intro a b hab
    rcases hab with rfl | ⟨cs, its, n, rfl, _⟩ <;> exact ⟨rfl, rfl, rfl⟩
  obtain ⟨a2, a3, a4⟩ := e1 (sortItems_edited hr.good.valid A h.sortingBy)
  obtain ⟨b2, b3, b4⟩ := e1 (orientItems_edited hr1.good.valid h.orientation)
  have hstrip : i0.strip = i.strip := by rw [h0]; exact b2.trans a2
  have hseti : i0.settings = .dict st := by rw [h0, ← hset]; exact b3.trans a3
  have hwork : i0.workers = .int n := by rw [h0, ← hw]; exact b4.trans a4
  obtain ⟨m, hk⟩ := (worker_created hr0.good.valid hseti hp h.env).2 hfig
  have hne : getStrategies h.order i.strip h.exhaustive ≠ [] := by
    cases hex : h.exhaustive with
    | true => exact List.ne_nil_of_mem (rows_any h i.strip)
    | false => simp [getStrategies, strategyPool]
  obtain ⟨chunks, hc⟩ := (C31_count (getStrategies h.order i.strip h.exhaustive) n (by omega)).1 hne
  have hone : i0.workers.isOne = false := by
    rw [hwork]
    have : n ≠ 1 := by omega
    simp [PyVal.isOne, this]
  refine ⟨m, ?_⟩
  rw [h2]
  unfold Inst.search
  rw [if_neg (by rw [hone]; simp), hstrip]
  unfold Inst.multiHS
  rw [hwork, hc]
  simp only
  rw [hk]

/-- the settings of a problem for two workers whose figures are to be written to the directory `/d` -/
def exportSettings : PyVal := .dict [(.str "workers_num", .int 2),
  (.str "figure", .dict [(.str "export", .dict [(.str "type", .str "html"), (.str "path", .str "/d")])])]

/-- C127 is false of the code: the settings are accepted; if the directory for the figures disappears before the search,
then `solve()` and `local_search()` work as ever, but `hypersearch()` by two workers raises SettingsError, because each
worker's object validates the settings again, including those for figures, which it does not draw. -/
theorem C127_refuted : ∃ i, mkInst plotlyEnv turnedArgs.1 turnedArgs.2.1 exportSettings .none = .ok i ∧
    i.workers = .int 2 ∧
    ∀ (A : Arith), Reach A i ∧ (step A i (.solve none)).2 = .ok ∧
      (∀ clock throttle, (step A i (.localSearch clock throttle)).2 = .ok) ∧
      ∀ h : HSArgs, (step A i (.sortItems h.sortingBy)).2 = .ok → h.env.pathExists "/d" = false →
        ∃ m, (step A i (.hypersearch h)).2 = .raised (.settingsError m) := by
  obtain ⟨i, hi⟩ : ∃ i, mkInst plotlyEnv turnedArgs.1 turnedArgs.2.1 exportSettings .none = .ok i := ⟨_, rfl⟩
  have hr : ∀ A, Reach A i := fun A => .new hi
  refine ⟨i, hi, ?_, fun A => ⟨hr A, ?_, ?_, ?_⟩⟩
  · injection hi with hi; subst hi; rfl
  · have hv := (hr A).good.valid
    obtain ⟨sol, ov, h⟩ := (C06_total A i.solveIn hv.solveIn none).1 (by intro s h; cases h)
    simp only [step, Inst.solve, h]; rfl
  · intro clock throttle
    obtain ⟨j, t, hls⟩ := C18_terminates A (fun k => clock (k + 1)) (clock 0) throttle i (hr A).good.valid
    simp only [step, hls]
  · intro h hs hd
    have hst : ∃ st ex, i.settings = .dict st ∧ PlainSettings st true 60 (.int 2) ∧
        PyVal.get? st "figure" = some (.dict [(.str "export", .dict ex)]) ∧ PyVal.get? ex "path" = some (.str "/d") := by
      injection hi with hi
      subst hi
      refine ⟨_, _, rfl, ⟨.inl ⟨.inl rfl, rfl⟩, .inl ⟨rfl, rfl⟩, .inr ⟨rfl, .inl ⟨2, rfl, by decide⟩⟩⟩, rfl, rfl⟩
    obtain ⟨st, ex, h1, h2, h3, h4⟩ := hst
    have hw : i.workers = .int 2 := by injection hi with hi; subst hi; rfl
    obtain ⟨m, e⟩ := C127_refused A i (hr A) st h1 ⟨_, _, _, h2⟩ 2 hw (by decide) h hs (by
      rintro (hf | ⟨fig, hf, hfig⟩)
      · rw [h3] at hf; cases hf
      · rw [h3] at hf
        injection hf with hf
        injection hf with hf
        subst hf
        rcases hfig with hfig | ⟨_, hx | ⟨ex', hx, ⟨⟨p, hp, hdir⟩, _⟩⟩, _⟩
        · cases hfig
        · cases hx
        · have e : ex' = ex := by
            have : PyVal.get? [((PyVal.str "export"), PyVal.dict ex)] "export" = some (.dict ex) := rfl
            rw [this] at hx
            injection hx with hx
            injection hx with hx
            exact hx.symm
          subst e
          rw [h4] at hp
          injection hp with hp
          injection hp with hp
          subst hp
          have := hdir.1
          rw [hd] at this
          cases this)
    exact ⟨m, by rw [e]⟩

/-- C127 is not vacuous: the same problem while the directory is there -/
example : ∃ i st, mkInst plotlyEnv turnedArgs.1 turnedArgs.2.1 exportSettings .none = .ok i ∧ i.workers = .int 2 ∧
    i.settings = .dict st ∧ PlainSettings st true 60 (.int 2) ∧ FigureAccepted plotlyEnv st ∧
    (step Arith.exact i (.sortItems (some (.str "area", true)))).2 = .ok ∧
    ∀ schedule : List (Nat × MPEvent), (∀ p, (p, MPEvent.raise) ∉ schedule ∧ ¬ Killed schedule p) →
      2885 ≤ schedule.count (0, .step) → 2885 ≤ schedule.count (1, .step) →
      (step Arith.exact i (.hypersearch { plainArgs true (fun _ => 0) with env := plotlyEnv, schedule := schedule })).2 = .ok := by
  obtain ⟨i, hi⟩ : ∃ i, mkInst plotlyEnv turnedArgs.1 turnedArgs.2.1 exportSettings .none = .ok i := ⟨_, rfl⟩
  have hr : Reach Arith.exact i := .new hi
  have hp : PlainSettings [(.str "workers_num", .int 2), (.str "figure", .dict [(.str "export",
      .dict [(.str "type", .str "html"), (.str "path", .str "/d"), (.str "file_name", .str "PlotlyGraph")])])] true 60 (.int 2) :=
    ⟨.inl ⟨.inl rfl, rfl⟩, .inl ⟨rfl, rfl⟩, .inr ⟨rfl, .inl ⟨2, rfl, by decide⟩⟩⟩
  have hf : FigureAccepted plotlyEnv [(.str "workers_num", .int 2), (.str "figure", .dict [(.str "export",
      .dict [(.str "type", .str "html"), (.str "path", .str "/d"), (.str "file_name", .str "PlotlyGraph")])])] :=
    .inr ⟨_, rfl, .inr ⟨⟨_, rfl, by decide⟩, .inr ⟨_, rfl, ⟨_, rfl, rfl, rfl⟩, .inr ⟨_, rfl, by decide⟩, .inl rfl⟩, .inl rfl⟩⟩
  have hsort : (step Arith.exact i (.sortItems (some (.str "area", true)))).2 = .ok := by
    obtain ⟨_, e, _⟩ := C50_sorted Arith.exact i hr "area" _ rfl true
    rw [e]
  have hw : i.workers = .int 2 := by injection hi with hi; subst hi; rfl
  have hset : i.settings = .dict [(.str "workers_num", .int 2), (.str "figure", .dict [(.str "export",
      .dict [(.str "type", .str "html"), (.str "path", .str "/d"), (.str "file_name", .str "PlotlyGraph")])])] := by
    injection hi with hi; subst hi; rfl
  have hstrip : i.strip = false := by injection hi with hi; subst hi; rfl
  refine ⟨i, _, hi, hw, hset, hp, hf, hsort, ?_⟩
  intro schedule h1 h2 h3
  apply C127_returns_partial Arith.exact nonNeg_exact i hr _ hset ⟨_, _, _, hp⟩ 2 hw (by decide) _ hsort hf
    (fun _ => rfl) h1 (fun _ => rfl)
  intro p hp2
  have hl : (getStrategies id false true).length = 720 := (C28_strategies id false (fun l _ => .refl l)).2.1
  show 4 * (getStrategies id i.strip true).length + 5 ≤ schedule.count (p, .step)
  rw [hstrip, hl]
  match p, hp2 with
  | 0, _ => exact h2
  | 1, _ => exact h3

end HP
