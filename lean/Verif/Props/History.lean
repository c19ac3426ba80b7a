import Verif.Proofs.Past
import Verif.Props.Frame
import Verif.Props.Unvalidated
import Verif.Props.Structures
/-
C114: what a call does depends on the data of the problem alone.  Solutions found before, the best strategy found before
and the heights of an earlier search have no influence on later calls, and a problem can be rebuilt from its data.
-/
namespace HP
open Spec

/-! ### specification -/

/-- all attributes are the same, except for what earlier calls found: solution, best strategy, heights -/
def Spec.SameInput (i k : Inst) : Prop :=
  ∀ a : Attr, a ≠ .result → a ≠ .bestStrategy → a ≠ .history → a.Same i k

/-- the calls that report the solution: `log_solution` and `create_figure` -/
def Spec.ReportsResult : Op → Prop
  | .log | .figure _ _ => True
  | _ => False

/-- the calls that search for a solution -/
def Spec.Solves : Op → Prop
  | .solve _ | .localSearch _ _ | .hypersearch _ => True
  | _ => False

/-! ### proofs -/

theorem Spec.SameInput.past {i k : Inst} (h : SameInput i k) :
    k = i.past k.solution k.objVals k.bestStrategy k.heights := by
  have h1 := h .mode nofun nofun nofun
  have h2 := h .items nofun nofun nofun
  have h3 := h .containers nofun nofun nofun
  have h4 := h .height nofun nofun nofun
  have h5 := h .minHeight nofun nofun nofun
  have h6 := h .settings nofun nofun nofun
  have h7 := h .options nofun nofun nofun
  have h8 := h .versions nofun nofun nofun
  have h9 := h .strategy nofun nofun nofun
  simp only [Attr.Same] at h1 h2 h3 h4 h5 h6 h7 h8 h9
  cases k
  simp_all [Inst.past]

theorem Spec.SameInput.of_past {i k : Inst} {s : Solution} {o : ObjVals} {b : Option (Option (List PClass))} {hs : List Nat}
    (h : k = i.past s o b hs) : SameInput i k := by
  subst h
  intro a h1 h2 h3
  cases a <;> simp_all [Attr.Same, Inst.past]

theorem Spec.SameInput.ex {i k : Inst} (h : SameInput i k) : ∃ s o b hs, k = i.past s o b hs := ⟨_, _, _, _, h.past⟩

theorem kin_outcome {i k : Inst} {r r' : Inst × Except PyErr Unit} (h : KinOut i k r r') :
    KinOut i k (outcomeOf r) (outcomeOf r') := ⟨h.1, congrArg Outcome.of h.2⟩

/-- a call of objects that differ in earlier results only -/
theorem kin_step (A : Arith) {i k : Inst} (h : ∃ s o b hs, k = i.past s o b hs) (o : Op) (ho : ¬ ReportsResult o) :
    KinOut i k (step A i o) (step A k o) ∧ (Solves o → (step A i o).2 = .ok →
      (step A k o).1.solution = (step A i o).1.solution ∧ (step A k o).1.objVals = (step A i o).1.objVals) := by
  have lift : ∀ {r r' : Inst × Except PyErr Unit}, KinOut i k r r' → ¬ Solves o →
      KinOut i k (outcomeOf r) (outcomeOf r') ∧ (Solves o → (outcomeOf r).2 = .ok →
        (outcomeOf r').1.solution = (outcomeOf r).1.solution ∧ (outcomeOf r').1.objVals = (outcomeOf r).1.objVals) :=
    fun h hn => ⟨kin_outcome h, fun h => absurd h hn⟩
  have hk := h
  cases o with
  | solve seq => exact ⟨(kin_solve A seq h).1, fun _ => (kin_solve A seq h).2⟩
  | localSearch clock throttle =>
    exact ⟨(kin_localSearch A clock throttle h).1, fun _ => (kin_localSearch A clock throttle h).2⟩
  | hypersearch a =>
    refine ⟨(kin_hypersearch A a h).1, fun _ ok => ?_⟩
    have := (kin_hypersearch A a h).2 ok
    exact ⟨this.1, this.2.1⟩
  | clear kk => exact lift (kin_clear kk (.refl hk)) id
  | update kk es => exact lift (kin_update kk es (.refl hk)) id
  | updateDim kk id' es => exact lift (kin_updateDim kk id' es (.refl hk)) id
  | validate E => exact lift (kin_validate E (.refl hk)) id
  | sortItems s => exact lift (kin_sortItems A s (.refl hk)) id
  | orientItems s => exact lift (kin_orientItems s (.refl hk)) id
  | log => exact absurd trivial ho
  | figure w s => exact absurd trivial ho
  | settings E v =>
    obtain ⟨s, o, b, hs, rfl⟩ := h
    refine lift ?_ id
    have h0 : Kin i (i.past s o b hs) { i with settings := v } ({ i with settings := v }.past s o b hs) :=
      ⟨⟨_, _, _, _, rfl⟩, .inr ⟨rfl, rfl, rfl, rfl⟩, .inr ⟨rfl, rfl⟩, .inr ⟨rfl, rfl⟩⟩
    exact kin_validate E h0
  | editSettings v =>
    obtain ⟨s, o, b, hs, rfl⟩ := h
    exact ⟨⟨⟨⟨s, o, b, hs, rfl⟩, .inr ⟨rfl, rfl, rfl, rfl⟩, .inr ⟨rfl, rfl⟩, .inr ⟨rfl, rfl⟩⟩, rfl⟩, nofun⟩
  | delAttr e => exact ⟨⟨.refl h, rfl⟩, nofun⟩
  | assign kk v => obtain ⟨s, o, b, hs, rfl⟩ := h; exact lift (past_assign s o b hs i kk v) id
  | setKey kk a v => obtain ⟨s, o, b, hs, rfl⟩ := h; exact lift (past_setKey s o b hs i kk a v) id
  | delKey kk a => obtain ⟨s, o, b, hs, rfl⟩ := h; exact lift (past_delKey s o b hs i kk a) id
  | setDim kk a c v => obtain ⟨s, o, b, hs, rfl⟩ := h; exact lift (past_setDim s o b hs i kk a c v) id
  | delDim kk a => obtain ⟨s, o, b, hs, rfl⟩ := h; exact lift (past_delDim s o b hs i kk a) id
  | popKey kk a d => obtain ⟨s, o, b, hs, rfl⟩ := h; exact lift (past_popKey s o b hs i kk a d) id
  | popItem kk => obtain ⟨s, o, b, hs, rfl⟩ := h; exact lift (past_popItem s o b hs i kk) id
  | setDefault kk a v => obtain ⟨s, o, b, hs, rfl⟩ := h; exact lift (past_setDefault s o b hs i kk a v) id
  | height v => obtain ⟨s, o, b, hs, rfl⟩ := h; exact lift (past_assignHeight s o b hs i v) id
  | minHeight v => obtain ⟨s, o, b, hs, rfl⟩ := h; exact lift (past_assignMinHeight s o b hs i v) id
  | resetHeight => obtain ⟨s, o, b, hs, rfl⟩ := h; exact lift (past_resetHeight s o b hs i) id
  | strategy v => obtain ⟨s, o, b, hs, rfl⟩ := h; exact lift (past_assignStrategy s o b hs i v) id

/-- C114, one call: two problems that differ only in what earlier calls found.  Any call but `log_solution` and
`create_figure` ends the same way for both; they still differ only in results, and every result is the same in both or what
it was before in both; after a successful search the solutions are the same. -/
theorem C114_step (A : Arith) (i k : Inst) (h : SameInput i k) (o : Op) (ho : ¬ ReportsResult o) :
    (step A k o).2 = (step A i o).2 ∧ SameInput (step A i o).1 (step A k o).1 ∧
    (∀ a : Attr, a.Same (step A i o).1 (step A k o).1 ∨ (a.Same i (step A i o).1 ∧ a.Same k (step A k o).1)) ∧
    (Solves o → (step A i o).2 = .ok → Attr.result.Same (step A i o).1 (step A k o).1) := by
  obtain ⟨⟨h1, h2⟩, h3⟩ := kin_step A h.ex o ho
  obtain ⟨s, o', b, hs, e⟩ := h1.same
  have hi : SameInput (step A i o).1 (step A k o).1 := .of_past e
  refine ⟨h2, hi, fun a => ?_, h3⟩
  by_cases e1 : a = .result
  · subst e1
    rcases h1.res with h | ⟨a, b, c, d⟩
    · exact .inl h
    · exact .inr ⟨⟨a, b⟩, c, d⟩
  · by_cases e2 : a = .bestStrategy
    · subst e2; exact h1.best
    · by_cases e3 : a = .history
      · subst e3; exact h1.heights
      · exact .inl (hi a e1 e2 e3)

theorem past_logContainers (b : Option (Option (List PClass))) (hs : List Nat) (i : Inst) (cs : PyDict String Dim) :
    logContainers { i with bestStrategy := b, heights := hs } cs = logContainers i cs := by
  induction cs with
  | nil => rfl
  | cons p cs ih =>
    obtain ⟨cid, c⟩ := p
    unfold logContainers
    rw [ih]; rfl

theorem past_drawAll (b : Option (Option (List PClass))) (hs : List Nat) (i : Inst)
    (writes : String → String → Bool) (ex : PyVal) (sh : Bool) (cs : PyDict String Dim) :
    drawAll writes { i with bestStrategy := b, heights := hs } ex sh cs = drawAll writes i ex sh cs := by
  induction cs with
  | nil => rfl
  | cons p cs ih =>
    obtain ⟨cid, c⟩ := p
    unfold drawAll
    rw [ih]; rfl

theorem reports_same {i k : Inst} (h : SameInput i k) (hr : Attr.result.Same i k) :
    k.logSolution = i.logSolution ∧ ∀ writes sh, k.createFigure writes sh = i.createFigure writes sh := by
  have e := h.past
  rw [hr.1, hr.2] at e
  have e' : k = { i with bestStrategy := k.bestStrategy, heights := k.heights } := e
  generalize k.bestStrategy = b at e'
  generalize k.heights = hs at e'
  subst e'
  constructor
  · unfold Inst.logSolution
    simp only [past_logContainers]
  · intro w sh
    unfold Inst.createFigure
    simp only [past_drawAll]

/-- C114, equal problems: if the solutions are the same too, all calls end the same way and the solutions stay the same;
the report and the figures are the same. -/
theorem C114_equal (A : Arith) (i k : Inst) (h : SameInput i k) (hr : Attr.result.Same i k) :
    (∀ o : Op, (step A k o).2 = (step A i o).2 ∧ SameInput (step A i o).1 (step A k o).1 ∧
      Attr.result.Same (step A i o).1 (step A k o).1) ∧
    k.logSolution = i.logSolution ∧ ∀ writes sh, k.createFigure writes sh = i.createFigure writes sh := by
  refine ⟨fun o => ?_, reports_same h hr⟩
  by_cases ho : ReportsResult o
  · cases o with
    | log =>
      refine ⟨?_, h, hr⟩
      show Outcome.of k.logSolution = Outcome.of i.logSolution
      rw [(reports_same h hr).1]
    | figure w s =>
      refine ⟨?_, h, hr⟩
      show Outcome.of (k.createFigure w s) = Outcome.of (i.createFigure w s)
      rw [(reports_same h hr).2]
    | _ => exact absurd ho id
  · obtain ⟨h1, h2, h3, _⟩ := C114_step A i k h o ho
    refine ⟨h1, h2, ?_⟩
    rcases h3 .result with h | ⟨ha, hb⟩
    · exact h
    · simp only [Attr.Same] at ha hb hr ⊢
      rw [ha.1, ha.2, hb.1, hb.2]; exact hr

/-- C114, histories: no sequence of calls without reports shows a difference between two problems that differ only in what
earlier calls found. -/
theorem C114_history (A : Arith) (ops : List Op) (hops : ∀ o ∈ ops, ¬ ReportsResult o) : ∀ (i k : Inst), SameInput i k →
    outcomes (step A) k ops = outcomes (step A) i ops ∧ SameInput (runOps A i ops) (runOps A k ops) := by
  induction ops with
  | nil => intro i k h; exact ⟨rfl, h⟩
  | cons o ops ih =>
    intro i k h
    obtain ⟨h1, h2, _⟩ := C114_step A i k h o (hops o (by simp))
    obtain ⟨h3, h4⟩ := ih (fun o ho => hops o (by simp [ho])) _ _ h2
    refine ⟨?_, h4⟩
    simp only [outcomes, h1, h3]

theorem equal_history (A : Arith) (ops : List Op) : ∀ (i k : Inst), SameInput i k → Attr.result.Same i k →
    outcomes (step A) k ops = outcomes (step A) i ops ∧ SameInput (runOps A i ops) (runOps A k ops) ∧
    Attr.result.Same (runOps A i ops) (runOps A k ops) := by
  induction ops with
  | nil => intro i k h hr; exact ⟨rfl, h, hr⟩
  | cons o ops ih =>
    intro i k h hr
    obtain ⟨h1, h2, h3⟩ := (C114_equal A i k h hr).1 o
    obtain ⟨h4, h5⟩ := ih _ _ h2 h3
    refine ⟨?_, h5⟩
    simp only [outcomes, h1, h4]

/-- C114, after a successful search (`solve`, `local_search`, `hypersearch`) of both nothing at all tells the problems
apart: every later history, with reports, has the same outcomes and solutions. -/
theorem C114_after (A : Arith) (i k : Inst) (h : SameInput i k) (o : Op) (hs : Solves o) (ok : (step A i o).2 = .ok)
    (ops : List Op) :
    (step A k o).2 = .ok ∧
    outcomes (step A) (step A k o).1 ops = outcomes (step A) (step A i o).1 ops ∧
    Attr.result.Same (runOps A (step A i o).1 ops) (runOps A (step A k o).1 ops) := by
  have ho : ¬ ReportsResult o := by cases o <;> first | exact absurd hs id | exact id
  obtain ⟨h1, h2, _, h3⟩ := C114_step A i k h o ho
  obtain ⟨h4, _, h5⟩ := equal_history A ops _ _ h2 (h3 hs ok)
  exact ⟨h1.trans ok, h4, h5⟩

/-! ### rebuilding a problem -/

/-- the calls that set height, minimum height and strategy to those of `i` -/
def Spec.restore (i : Inst) : List Op :=
  (i.height.toList.map fun h => .height (.int h)) ++ (i.minHeight.toList.map fun m => .minHeight (.int m)) ++
  [.strategy (.tuple (i.strategy.map fun c => .str c.name))]

/-- the arguments of the constructor that describe the containers of `i`: a dict, or the width of the strip -/
def Spec.DescribesContainers (i : Inst) (containers stripWidth : PyVal) : Prop :=
  if i.strip then containers = .none ∧ ∃ W : Nat, i.containers = [("strip-pack-container", ⟨W, stripInitHeight⟩)] ∧ stripWidth = .int W
  else IsSizes "W" "L" containers i.containers ∧ stripWidth = .none

section
variable (h m : Option Nat) (t : List PClass) (i : Inst)

/-- other heights and strategy -/
def Inst.bare (h m : Option Nat) (t : List PClass) (i : Inst) : Inst :=
  { i with height := h, minHeight := m, strategy := t }

theorem bare_validateBase : (i.bare h m t).validateBase = (i.validateBase.1.bare h m t, i.validateBase.2) := by
  unfold Inst.validateBase
  have hset : (i.bare h m t).settings = i.settings := rfl
  rw [hset]
  cases hd : i.settings.asDict? with
  | none => rfl
  | some st =>
    simp only []
    split
    · rfl
    · split
      · rfl
      · split <;> rfl

theorem bare_validateHyper : (i.bare h m t).validateHyper = (i.validateHyper.1.bare h m t, i.validateHyper.2) := by
  unfold Inst.validateHyper
  rw [bare_validateBase]
  rcases i.validateBase with ⟨j, r⟩
  cases r with
  | error e => rfl
  | ok u =>
    simp only []
    have hset : (j.bare h m t).settings = j.settings := rfl
    rw [hset]
    cases hd : j.settings.asDict? with
    | none => rfl
    | some st =>
      simp only []
      split
      · rfl
      · split
        · rfl
        · split
          · rfl
          · unfold Inst.validateWorkers
            simp only []
            split
            · rfl
            · split <;> rfl

theorem bare_checkExport (E : Env) (st fig : List (PyVal × PyVal)) :
    (i.bare h m t).checkExport E st fig = ((i.checkExport E st fig).1.bare h m t, (i.checkExport E st fig).2) := by
  unfold Inst.checkExport
  cases PyVal.get? fig "export" with
  | none => rfl
  | some v =>
    simp only []
    cases v.asDict? with
    | none => rfl
    | some ex =>
      simp only []
      cases checkExport1 E ex with
      | error e => rfl
      | ok html =>
        simp only []
        split
        · rfl
        · split
          · rfl
          · split <;> rfl

theorem bare_validateFigure (E : Env) :
    (i.bare h m t).validateFigure E = ((i.validateFigure E).1.bare h m t, (i.validateFigure E).2) := by
  unfold Inst.validateFigure
  have hc : (i.bare h m t).checkVersions E = (i.checkVersions E).bare h m t := rfl
  simp only [hc]
  generalize i.checkVersions E = j
  have hset : (j.bare h m t).settings = j.settings := rfl
  rw [hset]
  cases hd : j.settings.asDict? with
  | none => rfl
  | some st =>
    simp only []
    split
    · rename_i fig _
      have hp : (j.bare h m t).plotlyInstalled = j.plotlyInstalled := rfl
      have hq : (j.bare h m t).plotlyOk = j.plotlyOk := rfl
      rw [hp, hq, bare_checkExport]
      split
      · rfl
      · split
        · rfl
        · split
          · rfl
          · rcases j.checkExport E st fig with ⟨a, r⟩
            cases r <;> rfl
    · rfl

theorem bare_validate (E : Env) :
    (i.bare h m t).validateSettings E = ((i.validateSettings E).1.bare h m t, (i.validateSettings E).2) := by
  unfold Inst.validateSettings
  rw [bare_validateHyper]
  rcases i.validateHyper with ⟨j, r⟩
  cases r with
  | error e => rfl
  | ok u => exact bare_validateFigure h m t j E

end


/-- a height, once there is one, is positive -/
theorem Reach.heightPos {A : Arith} {i : Inst} (h : Reach A i) : ∀ n, i.height = some n → 0 < n := by
  induction h with
  | new h =>
    intro n hn
    have hg := (Reach.new (A := Arith.exact) h).good.valid
    revert h
    rename_i E c its st w j
    intro h
    by_cases hs : j.strip = true
    · obtain ⟨k, hk, hp⟩ := hg.height hs
      rw [hk] at hn; injection hn with hn; omega
    · exfalso
      unfold mkInst at h
      cases hc : initContainers c w with
      | error e => rw [hc] at h; cases h
      | ok r =>
        obtain ⟨strip, cs, h0⟩ := r
        rw [hc] at h
        simp only at h
        cases hb : (buildStructure .items its).2 with
        | error e => rw [hb] at h; cases h
        | ok d =>
          rw [hb] at h
          simp only at h
          have hf := (validateSettings_frame (rawInst strip cs d h0 st) E).1
          rcases hv : (rawInst strip cs d h0 st).validateSettings E with ⟨x, e | u⟩
          · rw [hv] at h; cases h
          · rw [hv] at h hf
            injection h with h
            subst h
            simp only at hf
            have e1 : x.strip = strip := by rw [hf]; rfl
            have e2 : x.height = h0 := by rw [hf]; rfl
            rw [e2] at hn
            rw [e1] at hs
            subst hn
            unfold initContainers at hc
            split at hc
            · split at hc
              · injection hc with hc
                simp at hc
              · cases hc
            · split at hc
              · cases hc
              · split at hc
                · injection hc with hc
                  injection hc with hc1 hc2
                  exact hs hc1.symm
                · cases hc
  | step o hr ih =>
    rename_i i
    intro n hn
    have hg := (Reach.step o hr).good.valid
    by_cases hs : (HP.step A i o).1.strip = true
    · obtain ⟨k, hk, hp⟩ := hg.height hs
      rw [hk] at hn; injection hn with hn; omega
    · have hm : Attr.mode.Same i (HP.step A i o).1 := by
        refine C95_frame A i hr o .mode ?_
        unfold mayChange
        cases o <;> simp [Attr.of] <;> (try split) <;> (try split) <;> (try split) <;> simp
      have hst : i.strip = false := by
        simp only [Attr.Same] at hm
        rw [hm] at hs; simpa using hs
      by_cases ho : ∃ v, o = .height v
      · obtain ⟨v, rfl⟩ := ho
        simp only [HP.step, outcomeOf, Inst.assignHeight] at hn
        split at hn
        · exact ih n hn
        · rename_i m hm
          have hmp : 0 < m := by
            unfold PyVal.atLeastOne? at hm
            split at hm
            · split at hm
              · cases hm
              · injection hm with hm; omega
            · cases hm
          split at hn
          · split at hn
            · exact ih n hn
            · injection hn with hn; omega
          · injection hn with hn; omega
      · have hh : Attr.height.Same i (HP.step A i o).1 := by
          refine C95_frame A i hr o .height ?_
          unfold mayChange
          cases o <;> simp [Attr.of, hst] <;> (try split) <;> simp_all
        simp only [Attr.Same] at hh
        rw [hh] at hn
        exact ih n hn

theorem isSizes_build {k : SKind} {v : PyVal} {d : PyDict String Dim} (h : IsSizes k.width k.length v d) (hd : ValidSizes d) :
    (buildStructure k v).2 = .ok d := by
  refine (buildStructure_iff k v d).2 ⟨d, h, ?_⟩
  rw [foldl_insert_nodup d [] (by simpa using hd.1), List.nil_append]

/-- the object that the constructor makes of the data of `i` -/
theorem rebuild_new {A : Arith} {i : Inst} (hr : Reach A i) {E : Env} (hf : step A i (.validate E) = (i, .ok))
    {c w its : PyVal} (hc : DescribesContainers i c w) (hi : IsSizes "w" "l" its i.items) :
    ∃ h0, (i.strip = false → h0 = none) ∧
      mkInst E c its i.settings w = .ok ((i.bare h0 none defaultStrategy).past [] [] none []) := by
  have hv := hr.good.valid
  have hval : i.validateSettings E = (i, .ok ()) := by
    simp only [step, outcomeOf] at hf
    rcases hx : i.validateSettings E with ⟨y, e | u⟩
    · rw [hx] at hf; cases hf
    · rw [hx] at hf; injection hf with hf; simp only at hf; rw [hf]
  obtain ⟨h0, h0n, hcs⟩ : ∃ h0, (i.strip = false → h0 = none) ∧
      initContainers c w = .ok (i.strip, i.containers, h0) := by
    unfold DescribesContainers at hc
    split at hc
    · rename_i hs
      obtain ⟨rfl, W, hW, rfl⟩ := hc
      have hp : 0 < W := by
        have := (hv.conts.2 _ (by rw [hW]; exact List.mem_singleton.2 rfl)).1
        exact this
      refine ⟨some (maxRatio * W), (fun h => by rw [hs] at h; cases h), ?_⟩
      unfold initContainers
      have : PyVal.posInt? (.int (W : Int)) = some W := by
        unfold PyVal.posInt?
        simp [PyVal.asInt?]
        omega
      simp only [PyVal.isNone, Bool.false_eq_true, if_false, this, if_true, hs, hW]
      rfl
    · rename_i hs
      obtain ⟨h1, rfl⟩ := hc
      refine ⟨none, fun _ => rfl, ?_⟩
      unfold initContainers
      simp only [PyVal.isNone, if_true, isSizes_build (k := .containers) h1 hv.conts]
      simp only [Bool.not_eq_true] at hs
      rw [hs]
  refine ⟨h0, h0n, ?_⟩
  obtain ⟨st, hst⟩ : ∃ st, i.settings = .dict st := by
    cases hd : i.settings.asDict? with
    | none =>
      unfold Inst.validateSettings Inst.validateHyper Inst.validateBase at hval
      simp only [hd] at hval
      injection hval with _ h; cases h
    | some st => exact ⟨st, asDict_eq.1 hd⟩
  have hset : (if i.settings.truthy then i.settings else .dict []) = i.settings := by
    rw [hst]
    cases st <;> rfl
  generalize hi0 : (i.bare h0 none defaultStrategy).past [] [] none [] = i0
  have hval0 : i0.validateSettings E = (i0, .ok ()) := by
    rw [← hi0, past_validate, bare_validate, hval]
  have hfr : SettingsFrame i0 (rawInst i.strip i.containers i.items h0 i.settings) := by
    unfold SettingsFrame rawInst
    rw [← hi0]
    simp only [Inst.past, Inst.bare, hr.num]
  have hcongr := assign_accepted_congr hfr E i.settings (by
    show (({ i0 with settings := i.settings } : Inst).validateSettings E).2 = _
    have : ({ i0 with settings := i.settings } : Inst) = i0 := by rw [← hi0]; rfl
    rw [this, hval0])
  have e1 : i0.assignSettings E i.settings = (i0, .ok ()) := by
    have : ({ i0 with settings := i.settings } : Inst) = i0 := by rw [← hi0]; rfl
    unfold Inst.assignSettings
    rw [this, hval0]
  have e2 : (rawInst i.strip i.containers i.items h0 i.settings).assignSettings E i.settings =
      (rawInst i.strip i.containers i.items h0 i.settings).validateSettings E := by
    unfold Inst.assignSettings
    congr 1
    unfold rawInst
    rw [hset]
  rw [e1, e2] at hcongr
  unfold mkInst
  simp only [hcs, isSizes_build (k := .items) hi hv.items, hcongr]

/-- C114, rebuilding: the data of a problem whose settings are in force (a validation changes nothing) is accepted by the
constructor; after its height, minimum height and strategy are set, which is accepted too, the new problem differs from the
old one at most in what earlier calls found. -/
theorem C114_rebuild (A : Arith) (i : Inst) (hr : Reach A i) (E : Env) (hf : step A i (.validate E) = (i, .ok))
    (containers items width : PyVal) (hc : DescribesContainers i containers width) (hi : IsSizes "w" "l" items i.items) :
    ∃ j, mkInst E containers items i.settings width = .ok j ∧ j.solution = [] ∧
      (∀ r ∈ outcomes (step A) j (restore i), r = .ok) ∧ SameInput i (runOps A j (restore i)) := by
  obtain ⟨h0, hn, hm⟩ := rebuild_new hr hf hc hi
  refine ⟨_, hm, rfl, ?_⟩
  have hg := hr.good
  have hpos := hr.heightPos
  have hstrat : ∀ j : Inst, j.assignStrategy (.tuple (i.strategy.map fun c => .str c.name)) =
      ({ j with strategy := i.strategy }, .ok ()) := by
    intro j
    unfold Inst.assignStrategy
    have key : ∀ (l seen : List PClass), (seen ++ l).Nodup →
        checkStrategy (l.map fun c => .str c.name) seen = .ok (seen ++ l) := by
      intro l
      induction l with
      | nil => intro seen _; simp [checkStrategy]
      | cons a l ih =>
        intro seen hnd
        have ha : a ∉ seen := by
          intro ha
          rw [List.nodup_append] at hnd
          exact hnd.2.2 a ha a (by simp) rfl
        simp only [List.map_cons, checkStrategy, PyVal.asStr?, (ofName?_iff a.name a).2 rfl, if_neg ha]
        rw [ih (seen ++ [a]) (by simpa using hnd)]
        simp
    simp only [PyVal.asTuple?, key i.strategy [] (by simpa using hg.strat), List.nil_append]
  have hint : ∀ n : Nat, 0 < n → PyVal.atLeastOne? (.int (n : Int)) = some n := by
    intro n hn
    unfold PyVal.atLeastOne?
    simp only [PyVal.asInt?]
    rw [if_neg (by omega)]
    simp
  have fin : ∀ (h : Option Nat) (m : Option Nat), h = i.height → m = i.minHeight → ∀ k : Inst,
      k = (i.bare h m i.strategy).past [] [] none [] → SameInput i k := by
    intro h m rfl rfl k hk
    exact .of_past hk
  cases hh : i.height with
  | none =>
    have hmn : i.minHeight = none := by
      cases hmm : i.minHeight with
      | none => rfl
      | some m =>
        have h1 := hg.minLe
        have h2 := hg.valid.minPos m hmm
        rw [hh, hmm] at h1
        simp at h1; omega
    have hst : i.strip = false := by
      cases hs : i.strip with
      | false => rfl
      | true => obtain ⟨k, hk, _⟩ := hg.valid.height hs; rw [hh] at hk; cases hk
    have := hn hst
    subst this
    simp only [restore, hh, hmn, Option.toList, List.map_nil, List.nil_append, outcomes, runOps, List.foldl_cons,
      List.foldl_nil, step, outcomeOf, hstrat]
    refine ⟨by simp [Outcome.of], fin none none hh.symm hmn.symm _ rfl⟩
  | some h =>
    have hp := hpos h hh
    have e1 : ∀ h0, ((i.bare h0 none defaultStrategy).past [] [] none []).assignHeight (.int (h : Int)) =
        ((i.bare (some h) none defaultStrategy).past [] [] none [], .ok ()) := by
      intro h0
      unfold Inst.assignHeight
      simp only [hint h hp]
      rfl
    cases hmm : i.minHeight with
    | none =>
      simp only [restore, hh, hmm, Option.toList, List.map_nil, List.map_cons, List.append_nil, List.cons_append,
        List.nil_append, outcomes, runOps, List.foldl_cons, List.foldl_nil, step, outcomeOf, hstrat, e1]
      refine ⟨by simp [Outcome.of], fin (some h) none hh.symm hmm.symm _ rfl⟩
    | some m =>
      have hmp := hg.valid.minPos m hmm
      have hle : m ≤ h := by have := hg.minLe; rw [hh, hmm] at this; exact this
      have e2 : ((i.bare (some h) none defaultStrategy).past [] [] none []).assignMinHeight (.int (m : Int)) =
          ((i.bare (some h) (some m) defaultStrategy).past [] [] none [], .ok ()) := by
        unfold Inst.assignMinHeight
        simp only [hint m hmp]
        show (if m > h then _ else _) = _
        rw [if_neg (by omega)]
        rfl
      simp only [restore, hh, hmm, Option.toList, List.map_nil, List.map_cons, List.cons_append,
        List.nil_append, outcomes, runOps, List.foldl_cons, List.foldl_nil, step, outcomeOf, hstrat, e1, e2]
      refine ⟨by simp [Outcome.of], fin (some h) (some m) hh.symm hmm.symm _ rfl⟩

/-! ### the hypotheses are met -/

/-- two containers and three items, without settings -/
def workedNew : Except PyErr Inst :=
  mkInst fullEnv (SKind.containers.encodeAll [("c", ⟨3, 2⟩), ("d", ⟨2, 2⟩)])
    (SKind.items.encodeAll [("x", ⟨1, 2⟩), ("y", ⟨2, 2⟩), ("z", ⟨1, 1⟩)]) .none .none

/-- a strip of width 3 -/
def workedStrip : Except PyErr Inst :=
  mkInst fullEnv .none (SKind.items.encodeAll [("x", ⟨1, 2⟩), ("y", ⟨2, 2⟩)]) .none (.int 3)

/-- a problem that was solved differs from the new one in the result only -/
example : ∃ i k, workedNew = .ok i ∧ k = (step Arith.exact i (.solve none)).1 ∧ SameInput i k ∧
    ¬ Attr.result.Same i k ∧ Solves (.solve none) ∧ (step Arith.exact i (.solve none)).2 = .ok := by
  refine ⟨_, _, rfl, rfl, ?_, ?_, trivial, by decide +kernel⟩
  · intro a h1 _ _
    exact C95_frame Arith.exact _ (.new (show workedNew = .ok _ from rfl)) _ a (by simpa [mayChange] using h1)
  · intro h
    exact absurd h.1 (by decide +kernel)

/-- `log_solution` does depend on the result: nothing is reported before the search -/
example : ∃ i, workedNew = .ok i ∧ i.logSolution = .ok none ∧
    ((step Arith.exact i (.solve none)).1.logSolution.toOption.bind id).isSome = true := by
  refine ⟨_, rfl, rfl, by decide +kernel⟩

/-- the data of a strip with other heights and another strategy, whose settings are in force -/
example : ∃ i j, workedStrip = .ok j ∧
    i = runOps Arith.exact j [.height (.int 9), .minHeight (.int 2), .strategy (.tuple [.str "B", .str "A"]), .solve none] ∧
    step Arith.exact i (.validate fullEnv) = (i, .ok) ∧ i.solution ≠ [] ∧
    DescribesContainers i .none (.int 3) ∧
    IsSizes "w" "l" (SKind.items.encodeAll [("x", ⟨1, 2⟩), ("y", ⟨2, 2⟩)]) i.items ∧
    (restore i).length = 3 := by
  refine ⟨_, _, rfl, rfl, rfl, by decide +kernel, ⟨rfl, 3, rfl, rfl⟩, ?_, rfl⟩
  exact ⟨_, rfl, by simp, .cons ⟨rfl, _, _, .inl rfl, ⟨by decide, .inl rfl⟩, ⟨by decide, .inl rfl⟩⟩
    (.cons ⟨rfl, _, _, .inl rfl, ⟨by decide, .inl rfl⟩, ⟨by decide, .inl rfl⟩⟩ .nil)⟩

end HP
