import Verif.Props.Settings
/-
Property C60: the constructor accepts exactly the documented arguments, and what it makes.
-/
namespace HP
open Spec

/-- the container arguments of the constructor: containers and no strip width, or a strip width
and no containers; `strip`, `cs`, `height`: kind of problem, its containers, height of the strip
container -/
def ContainerArgs (containers stripWidth : PyVal) (strip : Bool) (cs : List (String × Dim))
    (height : Option Nat) : Prop :=
  (stripWidth = .none ∧ IsSizes "W" "L" containers cs ∧ strip = false ∧ height = none) ∨
  (containers = .none ∧ ∃ W, IsPosInt stripWidth W ∧ strip = true ∧
    cs = [("strip-pack-container", ⟨W, 2 ^ 100⟩)] ∧ height = some (10 * W))

/-- the settings argument of the constructor: a value that counts as false (None, {}, 0, ...)
stands for no settings -/
def SettingsArg (E : Env) (settings : PyVal) (st : List (PyVal × PyVal)) : Prop :=
  (CountsFalse settings ∧ st = []) ∨
  (¬ CountsFalse settings ∧ settings = .dict st ∧ (∃ b t w, PlainSettings st b t w) ∧ FigureAccepted E st)

theorem truthy_false_iff {v : PyVal} : v.truthy = false ↔ CountsFalse v := by
  cases v <;> simp [PyVal.truthy, CountsFalse]

theorem truthy_iff {v : PyVal} : v.truthy = true ↔ ¬ CountsFalse v := by
  rw [← truthy_false_iff]; cases v.truthy <;> simp

theorem isNone_iff {v : PyVal} : v.isNone = true ↔ v = .none := by cases v <;> simp [PyVal.isNone]

theorem initContainers_iff (containers stripWidth : PyVal) (r : Bool × PyDict String Dim × Option Nat) :
    initContainers containers stripWidth = .ok r ↔
      ∃ cs, ContainerArgs containers stripWidth r.1 cs r.2.2 ∧
        r.2.1 = cs.foldl (fun acc s => PyDict.insert acc s.1 s.2) [] := by
  obtain ⟨strip, d, height⟩ := r
  unfold initContainers ContainerArgs
  by_cases hn : stripWidth.isNone = true
  · rw [if_pos hn]
    have hn' := isNone_iff.1 hn
    subst hn'
    have hno : ∀ W, ¬ IsPosInt PyVal.none W := by
      rintro W ⟨_, h | ⟨h, _⟩⟩ <;> cases h
    cases hb : (buildStructure .containers containers).2 with
    | error e =>
      simp only [reduceCtorEq, false_iff]
      rintro ⟨cs, ⟨_, h, _⟩ | ⟨_, W, h, _⟩, _⟩
      · have := (buildStructure_iff .containers containers _).2 ⟨cs, h, rfl⟩
        rw [hb] at this; cases this
      · exact hno W h
    | ok d' =>
      obtain ⟨cs, h1, h2⟩ := (buildStructure_iff .containers containers d').1 hb
      simp only [Except.ok.injEq, Prod.mk.injEq]
      constructor
      · rintro ⟨rfl, rfl, rfl⟩
        exact ⟨cs, Or.inl ⟨trivial, h1, rfl, rfl⟩, h2⟩
      · rintro ⟨cs', ⟨_, h3, rfl, rfl⟩ | ⟨_, W, h, _⟩, h4⟩
        · have := (buildStructure_iff .containers containers _).2 ⟨cs', h3, rfl⟩
          rw [hb] at this
          injection this with this
          exact ⟨rfl, by rw [this, h4], rfl⟩
        · exact absurd h (hno W)
  · rw [if_neg hn]
    have hn' : stripWidth ≠ .none := fun h => hn (isNone_iff.2 h)
    cases hp : stripWidth.posInt? with
    | none =>
      simp only [reduceCtorEq, false_iff]
      rintro ⟨cs, ⟨h, _⟩ | ⟨_, W, h, _⟩, _⟩
      · exact hn' h
      · rw [posInt?_iff.2 h] at hp; cases hp
    | some w =>
      have hw := posInt?_iff.1 hp
      simp only
      by_cases hc : containers.isNone = true
      · rw [if_pos hc]
        have hc' := isNone_iff.1 hc
        subst hc'
        simp only [Except.ok.injEq, Prod.mk.injEq]
        constructor
        · rintro ⟨rfl, rfl, rfl⟩
          exact ⟨_, Or.inr ⟨trivial, w, hw, rfl, rfl, rfl⟩, rfl⟩
        · rintro ⟨cs, ⟨h, _⟩ | ⟨_, W, h, rfl, rfl, rfl⟩, h4⟩
          · exact absurd h hn'
          · have := h.unique hw
            subst this
            exact ⟨rfl, h4.symm, rfl⟩
      · rw [if_neg hc]
        simp only [reduceCtorEq, false_iff]
        rintro ⟨cs, ⟨h, _⟩ | ⟨h, _⟩, _⟩
        · exact hn' h
        · exact hc (isNone_iff.2 h)

theorem rawInst_settings (strip : Bool) (cs its : PyDict String Dim) (height : Option Nat) (settings : PyVal)
    (E : Env) : (∃ st, (rawInst strip cs its height settings).settings = .dict st ∧
      ((∃ b t w, PlainSettings st b t w) ∧ FigureAccepted E st ↔ SettingsArg E settings st)) ∨
    ((∀ st, (rawInst strip cs its height settings).settings ≠ .dict st) ∧ ∀ st, ¬ SettingsArg E settings st) := by
  cases ht : settings.truthy with
  | false =>
    left
    refine ⟨[], by simp [rawInst, ht], ?_⟩
    constructor
    · intro _; exact Or.inl ⟨truthy_false_iff.1 ht, rfl⟩
    · intro _
      exact ⟨⟨true, 60, .int 1, Or.inl ⟨Or.inl rfl, rfl⟩, Or.inl ⟨rfl, rfl⟩, Or.inl ⟨Or.inl rfl, rfl⟩⟩, Or.inl rfl⟩
  | true =>
    have hs : (rawInst strip cs its height settings).settings = settings := by simp [rawInst, ht]
    by_cases hd : ∃ st, settings = .dict st
    · obtain ⟨st, rfl⟩ := hd
      left
      refine ⟨st, hs, ?_⟩
      constructor
      · intro h; exact Or.inr ⟨truthy_iff.1 ht, rfl, h⟩
      · rintro (⟨h, _⟩ | ⟨_, _, h⟩)
        · exact absurd h (truthy_iff.1 ht)
        · exact h
    · right
      refine ⟨fun st h => hd ⟨st, hs ▸ h⟩, ?_⟩
      rintro st (⟨h, _⟩ | ⟨_, h, _⟩)
      · exact absurd h (truthy_iff.1 ht)
      · exact hd ⟨st, h⟩

/-- C60: `HyperPack(containers=..., items=..., settings=..., strip_pack_width=...)` succeeds exactly
if there are containers and no strip width or a strip width (a positive integer) and no containers,
the items are sizes, and the settings are acceptable. -/
theorem C60_accepts (E : Env) (containers items settings stripWidth : PyVal) :
    (∃ i, mkInst E containers items settings stripWidth = .ok i) ↔
      (∃ strip cs height, ContainerArgs containers stripWidth strip cs height) ∧
      (∃ its, IsSizes "w" "l" items its) ∧ (∃ st, SettingsArg E settings st) := by
  unfold mkInst
  cases hc : initContainers containers stripWidth with
  | error e =>
    simp only [reduceCtorEq, exists_false, false_iff]
    rintro ⟨⟨strip, cs, height, h⟩, _⟩
    rw [(initContainers_iff containers stripWidth (strip, _, height)).2 ⟨cs, h, rfl⟩] at hc
    cases hc
  | ok r =>
    obtain ⟨strip, d, height⟩ := r
    obtain ⟨cs, h1, h2⟩ := (initContainers_iff _ _ _).1 hc
    simp only
    cases hi : (buildStructure .items items).2 with
    | error e =>
      simp only [reduceCtorEq, exists_false, false_iff]
      rintro ⟨_, ⟨its, h⟩, _⟩
      rw [(buildStructure_iff .items items _).2 ⟨its, h, rfl⟩] at hi
      cases hi
    | ok d' =>
      obtain ⟨its, h3, h4⟩ := (buildStructure_iff _ _ _).1 hi
      simp only
      have hl : (∃ strip cs height, ContainerArgs containers stripWidth strip cs height) ∧
          (∃ its, IsSizes "w" "l" items its) ∧ (∃ st, SettingsArg E settings st) ↔ ∃ st, SettingsArg E settings st :=
        ⟨fun h => h.2.2, fun h => ⟨⟨_, _, _, h1⟩, ⟨_, h3⟩, h⟩⟩
      rw [hl]
      rcases rawInst_settings strip d d' height settings E with ⟨st, hs, hiff⟩ | ⟨hs, hno⟩
      · rcases validateSettings_cases E hs with ⟨h5, h6, b, t, w, h7, _⟩ | ⟨⟨m, h5⟩, h6⟩
        · generalize Inst.validateSettings E (rawInst strip d d' height settings) = r at h5
          obtain ⟨j, e⟩ := r
          simp only at h5
          subst h5
          simp only [Except.ok.injEq, exists_eq', true_iff]
          exact ⟨st, hiff.1 ⟨⟨b, t, w, h7⟩, h6⟩⟩
        · generalize Inst.validateSettings E (rawInst strip d d' height settings) = r at h5
          obtain ⟨j, e⟩ := r
          simp only at h5
          subst h5
          simp only [reduceCtorEq, exists_false, false_iff]
          rintro ⟨st', h⟩
          have : st' = st := by
            rcases h with ⟨a, rfl⟩ | ⟨a, rfl, _⟩
            · simp [rawInst, truthy_false_iff.2 a] at hs; exact hs.symm
            · simp [rawInst, truthy_iff.2 a] at hs; exact hs
          subst this
          exact h6 (hiff.2 h)
      · have h5 : Inst.validateSettings E (rawInst strip d d' height settings) =
            (rawInst strip d d' height settings, .error (.settingsError "TYPE")) := by
          have : (rawInst strip d d' height settings).settings.asDict? = none := by
            cases hx : (rawInst strip d d' height settings).settings <;> simp [PyVal.asDict?]
            exact absurd hx (hs _)
          simp [Inst.validateSettings, Inst.validateHyper, Inst.validateBase, this, settingsErr]
        rw [h5]
        simp only [reduceCtorEq, exists_false, false_iff]
        rintro ⟨st, h⟩
        exact hno st h

/-- C60: the new object has the given items and containers (ids of a Python dict are different), the
settings applied with the documented defaults, the default strategy and no result. -/
theorem C60_state (E : Env) (containers items settings stripWidth : PyVal) (i : Inst)
    (h : mkInst E containers items settings stripWidth = .ok i)
    (strip : Bool) (cs its : List (String × Dim)) (height : Option Nat)
    (hc : ContainerArgs containers stripWidth strip cs height) (hi : IsSizes "w" "l" items its)
    (hcn : (cs.map (·.1)).Nodup) (hin : (its.map (·.1)).Nodup)
    (st : List (PyVal × PyVal)) (hs : SettingsArg E settings st) (b : Bool) (t : Int) (w : PyVal)
    (hp : PlainSettings st b t w) :
    i.strip = strip ∧ i.containers = cs ∧ i.items = its ∧ i.height = height ∧ i.minHeight = none ∧
    i.rotation = b ∧ i.maxTime = t ∧ i.workers = w ∧ i.solution = [] ∧ i.objVals = [] ∧
    i.bestStrategy = none ∧ i.containersNum = cs.length ∧
    i.strategy.map PClass.name = ["A", "B", "C", "D", "A_", "B_", "B__", "A__", "E", "F"] := by
  have hc' := (initContainers_iff containers stripWidth (strip, _, height)).2 ⟨cs, hc, rfl⟩
  have hi' := (buildStructure_iff .items items _).2 ⟨its, hi, rfl⟩
  rw [foldl_insert_nodup cs [] (by simpa using hcn), List.nil_append] at hc'
  rw [foldl_insert_nodup its [] (by simpa using hin), List.nil_append] at hi'
  unfold mkInst at h
  rw [hc'] at h
  simp only at h
  rw [hi'] at h
  simp only at h
  have hset : (rawInst strip cs its height settings).settings = .dict st := by
    rcases hs with ⟨a, rfl⟩ | ⟨a, rfl, _⟩
    · simp [rawInst, truthy_false_iff.2 a]
    · simp [rawInst, truthy_iff.2 a]
  have hfr := (validateSettings_frame (rawInst strip cs its height settings) E).1
  rcases validateSettings_cases E hset with ⟨h5, _, b', t', w', h3, e1, e2, e3⟩ | ⟨⟨m, h5⟩, _⟩
  · have hb : b' = b := h3.1.unique hp.1
    have ht : t' = t := by
      have a := (timeSetting_iff.1 h3.2.1).1
      rw [(timeSetting_iff.1 hp.2.1).1] at a
      injection a with a; exact a.symm
    have hw : w' = w := by
      have a := h3.2.2
      have b := hp.2.2
      unfold WorkersSetting Absent IsPositive at a b
      rcases a with ⟨a, rfl⟩ | ⟨a, a'⟩ <;> rcases b with ⟨b, rfl⟩ | ⟨b, b'⟩
      · rfl
      · rw [b] at a; rcases a with a | a <;> simp at a; subst a; simp at b'
      · rw [a] at b; rcases b with b | b <;> simp at b; subst b; simp at a'
      · rw [a] at b; simpa using b
    subst hb; subst ht; subst hw
    generalize Inst.validateSettings E (rawInst strip cs its height settings) = r at h h5 e1 e2 e3 hfr
    obtain ⟨j, e⟩ := r
    simp only at h5 e1 e2 e3 hfr
    subst h5
    simp only [Except.ok.injEq] at h
    subst h
    unfold SettingsFrame at hfr
    refine ⟨?_, ?_, ?_, ?_, ?_, e1, e2, e3, ?_, ?_, ?_, ?_, ?_⟩ <;> rw [hfr] <;> first | rfl | decide
  · generalize Inst.validateSettings E (rawInst strip cs its height settings) = r at h h5
    obtain ⟨j, e⟩ := r
    simp only at h5
    subst h5
    cases h

/-- C60 on a concrete problem, in both modes -/
example : ContainerArgs problemConts .none false [("c1", ⟨4, 3⟩), ("c2", ⟨2, 2⟩)] none ∧
    ContainerArgs .none (.int 4) true [("strip-pack-container", ⟨4, 2 ^ 100⟩)] (some 40) ∧
    IsSizes "w" "l" problemItems [("a", ⟨2, 3⟩), ("b", ⟨4, 1⟩), ("c", ⟨2, 2⟩)] ∧
    SettingsArg bareEnv .none [] ∧ SettingsArg bareEnv (.int 0) [] := by
  have h : ∀ n : Nat, 0 < n → IsPosInt (.int n) n := fun n h => ⟨h, Or.inl rfl⟩
  refine ⟨Or.inl ⟨rfl, ⟨_, rfl, by simp, ?_⟩, rfl, rfl⟩, Or.inr ⟨rfl, 4, h 4 (by omega), rfl, rfl, rfl⟩,
    ⟨_, rfl, by simp, ?_⟩, Or.inl ⟨Or.inl rfl, rfl⟩, Or.inl ⟨Or.inr (Or.inr (Or.inl rfl)), rfl⟩⟩
  · exact .cons ⟨rfl, _, _, Or.inl rfl, h 4 (by omega), h 3 (by omega)⟩
      (.cons ⟨rfl, _, _, Or.inr rfl, h 2 (by omega), h 2 (by omega)⟩ .nil)
  · exact .cons ⟨rfl, _, _, Or.inl rfl, h 2 (by omega), h 3 (by omega)⟩
      (.cons ⟨rfl, _, _, Or.inl rfl, h 4 (by omega), h 1 (by omega)⟩
        (.cons ⟨rfl, _, _, Or.inl rfl, h 2 (by omega), h 2 (by omega)⟩ .nil))

/-- rejected arguments: both containers and a strip width, neither, a strip width of 0, no items -/
example :
    (mkInst bareEnv problemConts problemItems .none (.int 4)).toOption = none ∧
    (mkInst bareEnv .none problemItems .none .none).toOption = none ∧
    (mkInst bareEnv .none problemItems .none (.int 0)).toOption = none ∧
    (mkInst bareEnv problemConts (.dict []) .none .none).toOption = none := ⟨rfl, rfl, rfl, rfl⟩

end HP
