import Verif.Proofs.PointGen
import Verif.Props.Report
import Verif.Props.Settings
/-
C69: a `PointGenPack` object behaves as a `HyperPack` object for the calls it has.
-/
namespace HP
open Spec

theorem twin_asHyper (p : Inst) : Twin p p.asHyper :=
  ⟨rfl, rfl, rfl, rfl, rfl, rfl, rfl, rfl, rfl, rfl, rfl, ⟨rfl, rfl, rfl, rfl⟩, rfl, rfl, ⟨rfl, rfl⟩⟩

theorem Twin.eq {p h : Inst} (t : Twin p h) : h = p.asHyper := by
  obtain ⟨h1, h2, h3, h4, h5, h6, h7, h8, h9, h10, h11, ⟨h12, h13, h14, h15⟩, h16, h17, ⟨h18, h19⟩⟩ := t
  cases p; cases h
  simp only at *
  subst_vars
  rfl

/-- C69, the constructor: `PointGenPack(...)` raises exactly what `HyperPack(...)` raises for the same
arguments without `max_time_in_seconds` and `workers_num`, and otherwise creates the same object. -/
theorem C69_constructor (E : Env) (containers items settings stripWidth : PyVal) :
    (∀ e, pgMk E containers items settings stripWidth = .error e ↔
      mkInst E containers items settings.withoutSearch stripWidth = .error e) ∧
    (∀ p, pgMk E containers items settings stripWidth = .ok p →
      ∃ h, mkInst E containers items settings.withoutSearch stripWidth = .ok h ∧ Twin p h) := by
  have key : mkInst E containers items settings.withoutSearch stripWidth =
      (pgMk E containers items settings stripWidth).map Inst.asHyper := by
    unfold mkInst pgMk
    cases initContainers containers stripWidth with
    | error e => rfl
    | ok c =>
      obtain ⟨strip, cs, height⟩ := c
      simp only []
      cases (buildStructure .items items).2 with
      | error e => rfl
      | ok its =>
        simp only []
        have hraw : rawInst strip cs its height settings.withoutSearch =
            (rawInst strip cs its height settings).over
              (rawInst strip cs its height settings).settings.withoutSearch 0 .none := by
          have hs : (if settings.withoutSearch.truthy then settings.withoutSearch else .dict []) =
              (if settings.truthy then settings else .dict []).withoutSearch := by
            cases settings with
            | dict st =>
              cases st with
              | nil => rfl
              | cons e st =>
                have h1 : (PyVal.dict (e :: st)).truthy = true := rfl
                rw [if_pos h1]
                show (if (!(withoutSearch (e :: st)).isEmpty) = true then _ else _) = PyVal.dict (withoutSearch (e :: st))
                cases h : withoutSearch (e :: st) with
                | nil => rfl
                | cons a b => simp [PyVal.withoutSearch, h]
            | none => rfl
            | bool b => cases b <;> rfl
            | int n => by_cases h : (PyVal.int n).truthy = true <;> simp [PyVal.withoutSearch, h]; rfl
            | float q => by_cases h : (PyVal.float q).truthy = true <;> simp [PyVal.withoutSearch, h]; rfl
            | inf => rfl
            | ninf => rfl
            | nan => rfl
            | str a => by_cases h : (PyVal.str a).truthy = true <;> simp [PyVal.withoutSearch, h]; rfl
            | list l => by_cases h : (PyVal.list l).truthy = true <;> simp [PyVal.withoutSearch, h]; rfl
            | tuple l => by_cases h : (PyVal.tuple l).truthy = true <;> simp [PyVal.withoutSearch, h]; rfl
            | other n => rfl
          unfold rawInst Inst.over
          simp only [hs]
        rw [hraw]
        unfold Inst.validateSettings Inst.pgValidate
        rw [over_validateHyper]
        rcases (rawInst strip cs its height settings).validateBase with ⟨j, r⟩
        cases r with
        | error e => rfl
        | ok u =>
          simp only []
          rw [asHyper_validateFigure]
          rcases j.validateFigure E with ⟨k, r⟩
          cases r <;> rfl
  rw [key]
  constructor
  · intro e
    cases pgMk E containers items settings stripWidth <;> simp [Except.map]
  · intro p hp
    rw [hp]
    exact ⟨p.asHyper, rfl, twin_asHyper p⟩

theorem pgStep_asHyper (A : Arith) (p : Inst) (o : Op) (ho : o.hyperOnly = false) :
    step A p.asHyper o.withoutSearch = ((pgStep A p o).1.asHyper, (pgStep A p o).2) := by
  have plain : o.plain = true → o.withoutSearch = o → pgStep A p o = step A p o →
      step A p.asHyper o.withoutSearch = ((pgStep A p o).1.asHyper, (pgStep A p o).2) := by
    intro h1 h3 h4
    have h2 : (step A p o).1.settings = p.settings := by
      have h5 := over_step A p.settings p.maxTime p.workers p o h1
      have h6 : p.over p.settings p.maxTime p.workers = p := rfl
      rw [h6] at h5
      rw [h5]; rfl
    rw [h3, h4]
    unfold Inst.asHyper
    rw [over_step A _ _ _ p o h1, h2]
  cases o with
  | settings E v =>
    have := asHyper_validateSettings E { p with settings := v }
    show outcomeOf (Inst.validateSettings E { p.asHyper with settings := v.withoutSearch }) = _
    have h2 : ({ p.asHyper with settings := v.withoutSearch } : Inst) = Inst.asHyper { p with settings := v } := rfl
    rw [h2, this]; rfl
  | validate E =>
    show outcomeOf (Inst.validateSettings E p.asHyper) = _
    rw [asHyper_validateSettings]; rfl
  | editSettings v => rfl
  | figure a b =>
    show (p.asHyper, Outcome.of (p.asHyper.createFigure a b)) = _
    rw [asHyper_createFigure]; rfl
  | localSearch a b => cases ho
  | sortItems a => cases ho
  | orientItems a => cases ho
  | hypersearch a => cases ho
  | _ => exact plain rfl rfl rfl

/-- C69, one call: a call that `PointGenPack` has ends in the same way on twins and leaves twins; the
log and the figures are the same.  The other calls raise AttributeError and change nothing. -/
theorem C69_call (A : Arith) (p h : Inst) (t : Twin p h) (o : Op) :
    (o.hyperOnly = false → (pgStep A p o).2 = (step A h o.withoutSearch).2 ∧
      Twin (pgStep A p o).1 (step A h o.withoutSearch).1) ∧
    (o.hyperOnly = true → pgStep A p o = (p, .raised .attributeError)) ∧
    p.logSolution = h.logSolution ∧
    (∀ writes show_, p.createFigure writes show_ = h.createFigure writes show_) ∧
    p.calcObj A = h.calcObj A := by
  have := t.eq
  subst this
  refine ⟨?_, ?_, ?_, ?_, ?_⟩
  · intro ho
    rw [pgStep_asHyper A p o ho]
    exact ⟨rfl, twin_asHyper _⟩
  · intro ho
    cases o with
    | localSearch a b => rfl
    | sortItems a => rfl
    | orientItems a => rfl
    | hypersearch a => rfl
    | _ => cases ho
  · unfold Inst.asHyper; rw [over_logSolution]
  · intro a b; rw [asHyper_createFigure]
  · rfl

/-- C69, histories: whatever is called on a `PointGenPack` object, the calls it has end as on a
`HyperPack` object with the same history, and the objects are twins after it. -/
theorem C69_history (A : Arith) (p h : Inst) (t : Twin p h) (ops : List Op) :
    Twin (after (pgStep A) p ops) (after (step A) h (hyperHistory ops)) ∧
    outcomes (pgStep A) p (ops.filter (fun o => !o.hyperOnly)) =
      outcomes (step A) h (hyperHistory ops) := by
  induction ops generalizing p h with
  | nil => exact ⟨t, rfl⟩
  | cons o ops ih =>
    obtain ⟨h1, h2, _⟩ := C69_call A p h t o
    cases ho : o.hyperOnly with
    | false =>
      obtain ⟨h3, h4⟩ := h1 ho
      have hh : hyperHistory (o :: ops) = o.withoutSearch :: hyperHistory ops := by
        simp [hyperHistory, List.filter_cons, ho]
      have hf : (o :: ops).filter (fun o => !o.hyperOnly) = o :: ops.filter (fun o => !o.hyperOnly) := by
        simp [List.filter_cons, ho]
      obtain ⟨h5, h6⟩ := ih _ _ h4
      rw [hh, hf]
      refine ⟨h5, ?_⟩
      show _ :: _ = _ :: _
      rw [h3]
      congr 1
    | true =>
      have hh : hyperHistory (o :: ops) = hyperHistory ops := by simp [hyperHistory, List.filter_cons, ho]
      have hf : (o :: ops).filter (fun o => !o.hyperOnly) = ops.filter (fun o => !o.hyperOnly) := by
        simp [List.filter_cons, ho]
      rw [hh, hf]
      have : after (pgStep A) p (o :: ops) = after (pgStep A) p ops := by
        show after (pgStep A) (pgStep A p o).1 ops = _
        rw [h2 ho]
      rw [this]
      exact ih p h t

/-- every reachable `PointGenPack` object has a reachable `HyperPack` twin, so what is proved of
reachable `HyperPack` objects (C02-C13, C36-C46, C52-C54, C61-C68 for `solve`) holds of it -/
theorem C69_reach (A : Arith) (p : Inst) (hp : PGReach A p) : ∃ h, Reach A h ∧ Twin p h := by
  induction hp with
  | new hmk =>
    obtain ⟨h, h1, h2⟩ := (C69_constructor _ _ _ _ _).2 _ hmk
    exact ⟨h, .new h1, h2⟩
  | step o hp ih =>
    obtain ⟨h, h1, h2⟩ := ih
    obtain ⟨h3, h4, _⟩ := C69_call A _ h h2 o
    cases ho : o.hyperOnly with
    | false => exact ⟨_, .step _ h1, (h3 ho).2⟩
    | true => exact ⟨h, h1, by rw [h4 ho]; exact h2⟩

/-- C69, an instance of `C69_reach`: the result of a `PointGenPack` object is always empty or one for
the current items and containers (C43) -/
theorem C69_current (A : Arith) (p : Inst) (hp : PGReach A p) :
    (p.solution = [] ∧ p.objVals = []) ∨
    (p.solution.map (·.1) = p.containers.map (·.1) ∧ p.objVals.map (·.1) = p.containers.map (·.1) ∧
     (placedIds p.solution).Nodup ∧
     ∀ cid m, (cid, m) ∈ p.solution → ∃ c, (cid, c) ∈ p.containers ∧
       ∀ id r, (id, r) ∈ m → ∃ d, (id, d) ∈ p.items ∧ SizedAs true d r ∧
         r.x + r.w ≤ c.w ∧ (p.strip = false → r.y + r.l ≤ c.l)) := by
  obtain ⟨h, h1, h2⟩ := C69_reach A p hp
  rw [h2.solution, h2.objVals, h2.containers, h2.items, h2.strip]
  exact C43_current A h h1

/-- C69, settings: accepted exactly if `rotation` is a bool or missing and the figure settings are
accepted (C49) - whatever `max_time_in_seconds` and `workers_num` are - and then the rotation is
applied; every other value raises SettingsError; problem and result are kept. -/
theorem C69_settings (A : Arith) (p : Inst) (E : Env) (v : PyVal) :
    ((pgStep A p (.settings E v)).2 = .ok ↔
      ∃ st, v = .dict st ∧ (∃ b, RotationSetting st b) ∧ FigureAccepted E st) ∧
    ((pgStep A p (.settings E v)).2 ≠ .ok →
      ∃ m, (pgStep A p (.settings E v)).2 = .raised (.settingsError m)) ∧
    (∀ st b, v = .dict st → RotationSetting st b → (pgStep A p (.settings E v)).2 = .ok →
      (pgStep A p (.settings E v)).1.rotation = b) ∧
    (pgStep A p (.settings E v)).1.items = p.items ∧
    (pgStep A p (.settings E v)).1.containers = p.containers ∧
    (pgStep A p (.settings E v)).1.solution = p.solution ∧
    (pgStep A p (.settings E v)).1.objVals = p.objVals := by
  have hrot : ∀ st b, RotationSetting (withoutSearch st) b ↔ RotationSetting st b := by
    intro st b
    unfold RotationSetting Absent
    rw [get?_without st "rotation" (by decide) (by decide)]
  have hfig : ∀ st, FigureAccepted E (withoutSearch st) ↔ FigureAccepted E st := by
    intro st
    unfold FigureAccepted FigureSetting
    rw [get?_without st "figure" (by decide) (by decide)]
  have hplain : ∀ st b, RotationSetting st b → PlainSettings (withoutSearch st) b 60 (.int 1) := by
    intro st b hb
    refine ⟨(hrot st b).2 hb, Or.inl ⟨get?_search st _ (Or.inl rfl), rfl⟩, Or.inl ⟨Or.inl ?_, rfl⟩⟩
    exact get?_search st _ (Or.inr rfl)
  obtain ⟨h1, h2⟩ := (C69_call A p p.asHyper (twin_asHyper p) (.settings E v)).1 rfl
  obtain ⟨h3, h4⟩ := C47_accepts A p.asHyper E v.withoutSearch
  have hst : (Op.settings E v).withoutSearch = .settings E v.withoutSearch := rfl
  rw [hst] at h1 h2
  refine ⟨?_, ?_, ?_, ?_⟩
  · rw [h1, h3]
    constructor
    · rintro ⟨st, hv, ⟨b, t, w, hb⟩, hf⟩
      cases v with
      | dict st' =>
        have : withoutSearch st' = st := by injection hv
        subst this
        exact ⟨st', rfl, ⟨b, (hrot st' b).1 hb.1⟩, (hfig st').1 hf⟩
      | _ => cases hv
    · rintro ⟨st, rfl, ⟨b, hb⟩, hf⟩
      exact ⟨_, rfl, ⟨b, 60, .int 1, hplain st b hb⟩, (hfig st).2 hf⟩
  · intro hne
    rw [h1] at hne ⊢
    exact h4 hne
  · rintro st b rfl hb hok
    rw [h1] at hok
    rw [h2.rotation]
    exact (C47_applied A p.asHyper E (withoutSearch st) b 60 (.int 1) (hplain st b hb) hok).1
  · have hfr := (validateSettings_frame { p.asHyper with settings := v.withoutSearch } E).1
    rw [h2.items, h2.containers, h2.solution, h2.objVals]
    show (Inst.validateSettings E { p.asHyper with settings := v.withoutSearch }).1.items = _ ∧
      (Inst.validateSettings E { p.asHyper with settings := v.withoutSearch }).1.containers = _ ∧
      (Inst.validateSettings E { p.asHyper with settings := v.withoutSearch }).1.solution = _ ∧
      (Inst.validateSettings E { p.asHyper with settings := v.withoutSearch }).1.objVals = _
    rw [hfr]
    exact ⟨rfl, rfl, rfl, rfl⟩

/-- C69 on a concrete object: settings that `HyperPack` rejects, a solved problem, and a call that does
not exist -/
def pgSettings : PyVal := .dict [(.str "workers_num", .str "many"), (.str "rotation", .bool false)]

example : (mkInst bareEnv problemConts problemItems pgSettings .none).toOption = none ∧
    ∃ p, pgMk bareEnv problemConts problemItems pgSettings .none = .ok p ∧ p.rotation = false ∧
      PGReach Arith.exact p ∧ (pgStep Arith.exact p (.sortItems none)).2 = .raised .attributeError ∧
      (pgStep Arith.exact p (.solve none)).2 = .ok ∧
      (pgStep Arith.exact p (.solve none)).1.solution =
        [("c1", [("a", ⟨0, 0, 2, 3⟩), ("c", ⟨2, 0, 2, 2⟩)]), ("c2", [])] :=
  ⟨rfl, _, rfl, rfl, .new (E := bareEnv) (containers := problemConts) (items := problemItems)
    (settings := pgSettings) (stripWidth := .none) rfl, rfl, by decide +kernel, by decide +kernel⟩

end HP
