import Verif.Props.Errors
import Verif.Props.Settings
import Verif.Props.Constructor
/-
Property C94, settings and constructor: the exception of rejected settings and arguments.
-/
namespace HP
open Spec

/-! ### chains of tests -/

/-- tests one after the other, each with the message of its SettingsError -/
def guards : List (Bool × String) → Except PyErr Unit
  | [] => .ok ()
  | (b, m) :: l => if b then settingsErr m else guards l

theorem guards_append : ∀ (l1 l2 : List (Bool × String)),
    guards (l1 ++ l2) = match guards l1 with | .ok () => guards l2 | .error e => .error e
  | [], l2 => rfl
  | (b, m) :: l1, l2 => by
    cases b with
    | true => rfl
    | false =>
      have := guards_append l1 l2
      simpa [guards] using this

/-- the tests are those conditions -/
def Tests (l : List (Bool × String)) (p : List (Prop × String)) : Prop :=
  List.Forall₂ (fun a b => (a.1 = true ↔ b.1) ∧ a.2 = b.2) l p

theorem firstOf_cons {c : Prop} {m' m : String} {p : List (Prop × String)} :
    FirstOf ((c, m') :: p) m ↔ (c ∧ m = m') ∨ (¬ c ∧ FirstOf p m) := by
  constructor
  · rintro ⟨pre, c', post, h, hc, hpre⟩
    cases pre with
    | nil =>
      simp only [List.nil_append, List.cons.injEq, Prod.mk.injEq] at h
      obtain ⟨⟨h1, h2⟩, _⟩ := h
      left; rw [h1]; exact ⟨hc, h2.symm⟩
    | cons x pre =>
      simp only [List.cons_append, List.cons.injEq] at h
      obtain ⟨rfl, rfl⟩ := h
      exact Or.inr ⟨hpre (c, m') (by simp), pre, c', post, rfl, hc, fun y hy => hpre y (by simp [hy])⟩
  · rintro (⟨h, rfl⟩ | ⟨h, pre, c', post, rfl, hc, hpre⟩)
    · exact ⟨[], c, p, rfl, h, by simp⟩
    · refine ⟨(c, m') :: pre, c', post, rfl, hc, ?_⟩
      intro y hy
      rcases List.mem_cons.1 hy with rfl | hy
      · exact h
      · exact hpre y hy

theorem tests_iff : ∀ {l : List (Bool × String)} {p : List (Prop × String)}, Tests l p → ∀ e,
    (guards l = .error e ↔ ∃ m, FirstOf p m ∧ e = .settingsError m)
  | [], p, h, e => by
    cases h
    simp only [guards, reduceCtorEq, false_iff]
    rintro ⟨m, ⟨pre, c, post, h, _⟩, _⟩
    simp at h
  | (b, m0) :: l, p, h, e => by
    cases h with
    | @cons _ y _ p h1 h2 =>
      obtain ⟨c, m1⟩ := y
      obtain ⟨hb, rfl⟩ := h1
      have ih := tests_iff h2 e
      simp only [firstOf_cons]
      cases b with
      | true =>
        have hc : c := hb.1 rfl
        simp only [guards, if_true, settingsErr, Except.error.injEq, hc, true_and, not_true_eq_false, false_and, or_false]
        constructor
        · rintro rfl; exact ⟨_, rfl, rfl⟩
        · rintro ⟨m, rfl, rfl⟩; rfl
      | false =>
        have hc : ¬ c := fun h => by have := hb.2 h; cases this
        simp only [guards, Bool.false_eq_true, if_false, hc, false_and, not_false_eq_true, true_and, false_or]
        exact ih

theorem Tests.append {l1 l2 : List (Bool × String)} {p1 p2 : List (Prop × String)} (h1 : Tests l1 p1)
    (h2 : Tests l2 p2) : Tests (l1 ++ l2) (p1 ++ p2) := by
  unfold Tests at *
  induction h1 with
  | nil => exact h2
  | cons h _ ih => exact .cons h ih

/-! ### the tests of the code as chains -/

/-- the export tests -/
def exportTests (E : Env) (i : Inst) (ex : List (PyVal × PyVal)) : List (Bool × String) :=
  let ty := PyVal.getD ex "type"
  let path := PyVal.getD ex "path"
  let fmt := PyVal.getD ex "format"
  let name := PyVal.getD ex "file_name"
  let image := !ty.eqStr "html"
  [ (ty.isNone, "FIGURE_EXPORT_TYPE_MISSING"),
    (!(ty.eqStr "html" || ty.eqStr "image"), "FIGURE_EXPORT_TYPE_VALUE"),
    (path.isNone, "FIGURE_EXPORT_PATH_MISSING"),
    (path.asStr?.isNone, "FIGURE_EXPORT_PATH_VALUE"),
    (!(path.asStr?.all E.pathExists), "FIGURE_EXPORT_PATH_NOT_EXISTS"),
    (!(path.asStr?.all E.pathIsDir), "FIGURE_EXPORT_PATH_NOT_DIRECTORY"),
    (fmt.isNone && image, "FIGURE_EXPORT_FORMAT_MISSING"),
    (image && fmt.asStr?.isNone, "FIGURE_EXPORT_FORMAT_TYPE"),
    (image && !(imageFormats.any (fun f => fmt.eqStr f)), "FIGURE_EXPORT_FORMAT_VALUE"),
    (!name.isNone && name.asStr?.isNone, "FIGURE_EXPORT_FILE_NAME_TYPE"),
    (!name.isNone && !(name.asStr?.all fileNameOk), "FIGURE_EXPORT_FILE_NAME_VALUE"),
    (image && !i.kaleidoInstalled, "FIGURE_EXPORT_KALEIDO_MISSING"),
    (image && !i.kaleidoOk, "FIGURE_EXPORT_KALEIDO_VERSION"),
    (image && badSide (PyVal.getD ex "width"), "FIGURE_EXPORT_WIDTH_VALUE"),
    (image && badSide (PyVal.getD ex "height"), "FIGURE_EXPORT_HEIGHT_VALUE") ]

theorem checkExport1_guards (E : Env) (ex : List (PyVal × PyVal)) (i : Inst) :
    guards ((exportTests E i ex).take 9) =
      match checkExport1 E ex with | .ok _ => .ok () | .error e => .error e := by
  unfold checkExport1 exportTests
  simp only [List.take, guards]
  generalize PyVal.getD ex "type" = ty
  generalize PyVal.getD ex "path" = path
  generalize PyVal.getD ex "format" = fmt
  cases h1 : ty.isNone with
  | true => rfl
  | false =>
    simp only [Bool.false_eq_true, if_false]
    cases h2 : (!(ty.eqStr "html" || ty.eqStr "image")) with
    | true => rfl
    | false =>
      simp only [Bool.false_eq_true, if_false]
      cases h3 : path.isNone with
      | true => rfl
      | false =>
        simp only [Bool.false_eq_true, if_false]
        cases h4 : path.asStr? with
        | none => rfl
        | some p =>
          simp only [Option.isNone_some, Bool.false_eq_true, if_false, Option.all_some]
          cases h5 : E.pathExists p with
          | false => rfl
          | true =>
            simp only [Bool.not_true, Bool.false_eq_true, if_false]
            rcases Bool.eq_false_or_eq_true (E.pathIsDir p) with h6 | h6
            · simp only [h6, Bool.not_true, Bool.false_eq_true, if_false]
              rcases Bool.eq_false_or_eq_true (ty.eqStr "html") with h7 | h7
              · simp [h7]
              · simp only [h7, Bool.not_false, Bool.and_true, Bool.true_and]
                rcases Bool.eq_false_or_eq_true fmt.isNone with h8 | h8
                · simp only [h8, if_true]; rfl
                · simp only [h8, Bool.false_eq_true, if_false]
                  rcases Bool.eq_false_or_eq_true fmt.asStr?.isNone with h9 | h9
                  · simp only [h9, if_true]; rfl
                  · simp only [h9, Bool.false_eq_true, if_false]
                    rcases Bool.eq_false_or_eq_true (imageFormats.any fun f => fmt.eqStr f) with h10 | h10
                    · simp [h10]
                    · simp only [h10, Bool.not_false, if_true]; rfl
            · simp only [h6, Bool.not_false, if_true]; rfl

theorem checkExport_guards (E : Env) (i : Inst) (st fig ex : List (PyVal × PyVal))
    (hx : PyVal.get? fig "export" = some (.dict ex)) :
    (i.checkExport E st fig).2 = guards (exportTests E i ex) := by
  have hsplit : exportTests E i ex = (exportTests E i ex).take 9 ++ (exportTests E i ex).drop 9 :=
    (List.take_append_drop 9 _).symm
  rw [hsplit, guards_append, checkExport1_guards]
  unfold Inst.checkExport
  rw [hx]
  simp only [PyVal.asDict?]
  cases h1 : checkExport1 E ex with
  | error e => rfl
  | ok html =>
    have hty : html = (PyVal.getD ex "type").eqStr "html" := by
      unfold checkExport1 at h1
      simp only at h1
      split at h1
      · cases h1
      · split at h1
        · cases h1
        · split at h1
          · cases h1
          · split at h1
            · cases h1
            · split at h1
              · cases h1
              · split at h1
                · cases h1
                · split at h1
                  · cases h1
                  · split at h1
                    · cases h1
                    · split at h1
                      · cases h1
                      · injection h1 with h1; exact h1.symm
    subst hty
    simp only
    unfold exportTests
    simp only [List.drop, guards]
    generalize PyVal.getD ex "file_name" = name
    have key : ∀ j : Inst, j.kaleidoInstalled = i.kaleidoInstalled → j.kaleidoOk = i.kaleidoOk →
        checkExport2 j ex ((PyVal.getD ex "type").eqStr "html") =
        guards ((exportTests E i ex).drop 11) := by
      intro j e1 e2
      unfold checkExport2 exportTests
      simp only [List.drop, guards]
      rw [e1, e2]
      cases (PyVal.getD ex "type").eqStr "html" with
      | true => simp
      | false => simp
    cases hn : name.isNone with
    | true =>
      simp only [if_true, Bool.not_true, Bool.false_and, Bool.false_eq_true, if_false]
      refine (key _ rfl rfl).trans ?_
      rfl
    | false =>
      simp only [Bool.false_eq_true, if_false, Bool.not_false, Bool.true_and]
      cases hs : name.asStr? with
      | none => rfl
      | some n =>
        simp only [Option.isNone_some, Bool.false_eq_true, if_false, Option.all_some]
        rcases Bool.eq_false_or_eq_true (fileNameOk n) with hf | hf
        · simp only [hf, Bool.not_true, Bool.false_eq_true, if_false]
          refine (key i rfl rfl).trans ?_
          rfl
        · simp only [hf, Bool.not_false, if_true]

/-- what the code knows about its surroundings -/
def Env.surroundings (E : Env) : Surroundings where
  pathExists p := E.pathExists p = true
  pathIsDir p := E.pathIsDir p = true
  plotlyInstalled := ∃ v, E.plotly = some v
  plotlyOk := ∃ v, E.plotly = some v ∧ versionOk v ["5", "14", "0"] ["6", "0", "0"] = true
  kaleidoInstalled := ∃ v, E.kaleido = some v
  kaleidoOk := ∃ v, E.kaleido = some v ∧ versionOk v ["0", "2", "1"] ["0", "3", "0"] = true
  nameOk n := ProperName n ∨ ∃ m, ProperName m ∧ n.toList = m.toList ++ ['\n']

theorem checkVersions_flags (E : Env) (i : Inst) :
    ((i.checkVersions E).plotlyInstalled = true ↔ E.surroundings.plotlyInstalled) ∧
    ((i.checkVersions E).plotlyOk = true ↔ E.surroundings.plotlyOk) ∧
    ((i.checkVersions E).kaleidoInstalled = true ↔ E.surroundings.kaleidoInstalled) ∧
    ((i.checkVersions E).kaleidoOk = true ↔ E.surroundings.kaleidoOk) := by
  unfold Inst.checkVersions Env.surroundings plotlyMin plotlyMax kaleidoMin kaleidoMax
  cases E.plotly <;> cases E.kaleido <;> simp

theorem not_iff_of {b : Bool} {p : Prop} (h : b = true ↔ p) : (!b) = true ↔ ¬ p := by
  rw [← h]; cases b <;> simp

theorem given_iff {st : List (PyVal × PyVal)} {key : String} {P : PyVal → Prop} :
    Given st key P ↔ (PyVal.getD st key).isNone = false ∧ P (PyVal.getD st key) := by
  unfold Given PyVal.getD
  cases h : PyVal.get? st key with
  | none => simp [PyVal.isNone]
  | some v => cases v <;> simp [PyVal.isNone]

/-- later tests are only reached if the earlier conditions do not hold -/
theorem guards_cons_congr {b b' : Bool} {m : String} {l l' : List (Bool × String)} (h1 : b = b')
    (h2 : b = false → guards l = guards l') : guards ((b, m) :: l) = guards ((b', m) :: l') := by
  subst h1
  cases b with
  | true => rfl
  | false => simpa [guards] using h2 rfl

theorem getD_str {ex : List (PyVal × PyVal)} {key s : String} :
    PyVal.getD ex key = .str s ↔ PyVal.get? ex key = some (.str s) := by
  unfold PyVal.getD
  cases PyVal.get? ex key <;> simp

theorem exportTests_tests (E : Env) (i : Inst) (ex : List (PyVal × PyVal)) :
    ∀ e, (guards (exportTests E (i.checkVersions E) ex) = .error e ↔
      ∃ m, FirstOf (exportFaults E.surroundings ex) m ∧ e = .settingsError m) := by
  obtain ⟨_, _, k1, k2⟩ := checkVersions_flags E i
  have hstr : ∀ key : String, (PyVal.getD ex key).asStr?.isNone = true ↔ ¬ IsStr (PyVal.getD ex key) := by
    intro key; unfold IsStr; cases PyVal.getD ex key <;> simp [PyVal.asStr?]
  have hall : ∀ (key : String) (f : String → Bool),
      (!((PyVal.getD ex key).asStr?.all f)) = true ↔ ∃ p, PyVal.get? ex key = some (.str p) ∧ ¬ f p = true := by
    intro key f
    simp only [← getD_str]
    cases PyVal.getD ex key <;> simp [PyVal.asStr?]
  have hname : ∀ n, (¬ fileNameOk n = true) ↔ ¬ E.surroundings.nameOk n := fun n => by rw [C49_name]; rfl
  have himg : ∀ t : Bool, ((!((PyVal.getD ex "type").eqStr "html")) = true) ↔ PyVal.get? ex "type" ≠ some (.str "html") := by
    intro _
    rw [Ne, ← getD_str]
    cases PyVal.getD ex "type" <;> simp [PyVal.eqStr]
  intro e
  by_cases hvalid : PyVal.get? ex "type" = some (.str "html") ∨ PyVal.get? ex "type" = some (.str "image")
  · -- a proper type: all tests are those conditions
    have hi : ((!((PyVal.getD ex "type").eqStr "html")) = true) ↔ PyVal.get? ex "type" = some (.str "image") := by
      rw [himg true]
      rcases hvalid with h | h <;> rw [h] <;> simp
    have hand : ∀ (b : Bool) (p : Prop), (b = true ↔ p) →
        (((!((PyVal.getD ex "type").eqStr "html")) && b) = true ↔ PyVal.get? ex "type" = some (.str "image") ∧ p) := by
      intro b p h; rw [Bool.and_eq_true, hi, h]
    have hgs : ∀ key : String, ((!(PyVal.getD ex key).isNone && (PyVal.getD ex key).asStr?.isNone) = true ↔
        Given ex key (¬ IsStr ·)) := by
      intro key
      rw [given_iff, Bool.and_eq_true, hstr]; simp
    have hside : ∀ key : String, (badSide (PyVal.getD ex key) = true ↔ Given ex key NotPosInt) := by
      intro key
      rw [given_iff, notPosInt_iff]
      unfold badSide; simp
    have t : Tests ([ ((PyVal.getD ex "type").isNone, "FIGURE_EXPORT_TYPE_MISSING"),
        (!((PyVal.getD ex "type").eqStr "html" || (PyVal.getD ex "type").eqStr "image"), "FIGURE_EXPORT_TYPE_VALUE"),
        ((PyVal.getD ex "path").isNone, "FIGURE_EXPORT_PATH_MISSING"),
        (!(PyVal.getD ex "path").isNone && (PyVal.getD ex "path").asStr?.isNone, "FIGURE_EXPORT_PATH_VALUE"),
        (!((PyVal.getD ex "path").asStr?.all E.pathExists), "FIGURE_EXPORT_PATH_NOT_EXISTS"),
        (!((PyVal.getD ex "path").asStr?.all E.pathIsDir), "FIGURE_EXPORT_PATH_NOT_DIRECTORY"),
        (!((PyVal.getD ex "type").eqStr "html") && (PyVal.getD ex "format").isNone, "FIGURE_EXPORT_FORMAT_MISSING"),
        (!((PyVal.getD ex "type").eqStr "html") && (!(PyVal.getD ex "format").isNone && (PyVal.getD ex "format").asStr?.isNone), "FIGURE_EXPORT_FORMAT_TYPE"),
        (!((PyVal.getD ex "type").eqStr "html") && !(imageFormats.any (fun f => (PyVal.getD ex "format").eqStr f)), "FIGURE_EXPORT_FORMAT_VALUE"),
        (!(PyVal.getD ex "file_name").isNone && (PyVal.getD ex "file_name").asStr?.isNone, "FIGURE_EXPORT_FILE_NAME_TYPE"),
        (!((PyVal.getD ex "file_name").asStr?.all fileNameOk), "FIGURE_EXPORT_FILE_NAME_VALUE"),
        (!((PyVal.getD ex "type").eqStr "html") && !(i.checkVersions E).kaleidoInstalled, "FIGURE_EXPORT_KALEIDO_MISSING"),
        (!((PyVal.getD ex "type").eqStr "html") && !(i.checkVersions E).kaleidoOk, "FIGURE_EXPORT_KALEIDO_VERSION"),
        (!((PyVal.getD ex "type").eqStr "html") && badSide (PyVal.getD ex "width"), "FIGURE_EXPORT_WIDTH_VALUE"),
        (!((PyVal.getD ex "type").eqStr "html") && badSide (PyVal.getD ex "height"), "FIGURE_EXPORT_HEIGHT_VALUE") ])
        (exportFaults E.surroundings ex) := by
      unfold Tests exportFaults
      refine .cons ⟨getD_absent, rfl⟩ (.cons ⟨?_, rfl⟩ (.cons ⟨getD_absent, rfl⟩ (.cons ⟨hgs _, rfl⟩
        (.cons ⟨hall _ _, rfl⟩ (.cons ⟨hall _ _, rfl⟩ (.cons ⟨hand _ _ getD_absent, rfl⟩
        (.cons ⟨hand _ _ (hgs _), rfl⟩ (.cons ⟨hand _ _ ?_, rfl⟩ (.cons ⟨hgs _, rfl⟩ (.cons ⟨?_, rfl⟩
        (.cons ⟨hand _ _ (not_iff_of k1), rfl⟩ (.cons ⟨hand _ _ (not_iff_of k2), rfl⟩
        (.cons ⟨hand _ _ (hside _), rfl⟩ (.cons ⟨hand _ _ (hside _), rfl⟩ .nil))))))))))))))
      · simp only [Ne, ← getD_str]
        cases PyVal.getD ex "type" <;> simp [PyVal.eqStr]
      · rw [Bool.not_eq_true', ← Bool.not_eq_true, mem_formats]
        simp only [ne_eq, ← getD_str]
        constructor
        · intro h f hf h'; exact h ⟨f, h', hf⟩
        · rintro h ⟨f, h', hf⟩; exact h f hf h'
      · refine (hall _ _).trans ?_
        exact exists_congr fun n => and_congr_right fun _ => hname n
    rw [← tests_iff t e]
    apply Eq.to_iff
    congr 1
    unfold exportTests
    simp only
    refine guards_cons_congr rfl (fun _ => guards_cons_congr rfl (fun _ => guards_cons_congr rfl (fun hpn =>
      guards_cons_congr ?_ (fun _ => guards_cons_congr rfl (fun _ => guards_cons_congr rfl (fun _ =>
      guards_cons_congr (Bool.and_comm _ _) (fun hfn => guards_cons_congr ?_ (fun _ => guards_cons_congr rfl (fun _ =>
      guards_cons_congr rfl (fun _ => guards_cons_congr ?_ (fun _ => rfl)))))))))))
    · rw [hpn]; rfl
    · revert hfn
      cases (PyVal.getD ex "format").isNone <;> cases (PyVal.getD ex "type").eqStr "html" <;> simp
    · cases PyVal.getD ex "file_name" <;> simp [PyVal.isNone, PyVal.asStr?]
  · -- no proper type: the first or the second test fails
    have h1 : PyVal.get? ex "type" ≠ some (.str "html") := fun h => hvalid (Or.inl h)
    have h2 : PyVal.get? ex "type" ≠ some (.str "image") := fun h => hvalid (Or.inr h)
    unfold exportTests exportFaults
    simp only [firstOf_cons]
    by_cases ha : Absent ex "type"
    · have := getD_absent.2 ha
      simp only [guards, this, if_true, ha, true_and, not_true_eq_false, false_and, or_false]
      constructor
      · intro h; injection h with h; exact ⟨_, rfl, h.symm⟩
      · rintro ⟨m, rfl, rfl⟩; rfl
    · have hn : (PyVal.getD ex "type").isNone = false := by
        cases h : (PyVal.getD ex "type").isNone with
        | false => rfl
        | true => exact absurd (getD_absent.1 h) ha
      have he : (!((PyVal.getD ex "type").eqStr "html" || (PyVal.getD ex "type").eqStr "image")) = true := by
        rw [← getD_str.ne] at h1
        rw [← getD_str.ne] at h2
        revert h1 h2
        cases PyVal.getD ex "type" with
        | str s => intro h1 h2; simp only [PyVal.str.injEq, ne_eq] at h1 h2; simp [PyVal.eqStr, h1, h2]
        | _ => simp [PyVal.eqStr]
      simp only [guards, hn, he, if_true, Bool.false_eq_true, if_false, ha, false_and, not_false_eq_true, true_and,
        false_or, ne_eq, h1, h2, and_self, not_true_eq_false, or_false]
      constructor
      · intro h; injection h with h; exact ⟨_, rfl, h.symm⟩
      · rintro ⟨m, rfl, rfl⟩; rfl

/-! ### the verdict of a list of conditions -/

/-- the result `r` is the verdict of the conditions `p` -/
def Says (r : Except PyErr Unit) (p : List (Prop × String)) : Prop :=
  match r with
  | .ok () => ∀ x ∈ p, ¬ x.1
  | .error e => ∃ m, FirstOf p m ∧ e = .settingsError m

theorem firstOf_nil {m : String} : ¬ FirstOf [] m := by
  rintro ⟨pre, c, post, h, _⟩
  simp at h

theorem exists_firstOf : ∀ {p : List (Prop × String)}, (∃ x ∈ p, x.1) → ∃ m, FirstOf p m
  | [], h => by obtain ⟨x, hx, _⟩ := h; cases hx
  | (c, m) :: p, h => by
    by_cases hc : c
    · exact ⟨m, firstOf_cons.2 (Or.inl ⟨hc, rfl⟩)⟩
    · obtain ⟨x, hx, hx'⟩ := h
      rcases List.mem_cons.1 hx with rfl | hx
      · exact absurd hx' hc
      · obtain ⟨m', h'⟩ := exists_firstOf ⟨x, hx, hx'⟩
        exact ⟨m', firstOf_cons.2 (Or.inr ⟨hc, h'⟩)⟩

theorem firstOf_unique : ∀ {p : List (Prop × String)} {m m' : String}, FirstOf p m → FirstOf p m' → m = m'
  | [], _, _, h, _ => absurd h firstOf_nil
  | (c, m0) :: p, m, m', h, h' => by
    rcases firstOf_cons.1 h with ⟨hc, rfl⟩ | ⟨hc, h⟩
    · rcases firstOf_cons.1 h' with ⟨_, rfl⟩ | ⟨hc', _⟩
      · rfl
      · exact absurd hc hc'
    · rcases firstOf_cons.1 h' with ⟨hc', _⟩ | ⟨_, h'⟩
      · exact absurd hc' hc
      · exact firstOf_unique h h'

theorem says_iff {r : Except PyErr Unit} {p : List (Prop × String)} :
    Says r p ↔ ∀ e, (r = .error e ↔ ∃ m, FirstOf p m ∧ e = .settingsError m) := by
  cases r with
  | ok _ =>
    constructor
    · intro h e
      simp only [reduceCtorEq, false_iff]
      rintro ⟨m, ⟨pre, c, post, rfl, hc, _⟩, _⟩
      exact h (c, m) (by simp) hc
    · intro h x hx hx'
      obtain ⟨m, hm⟩ := exists_firstOf ⟨x, hx, hx'⟩
      have := (h (.settingsError m)).2 ⟨m, hm, rfl⟩
      cases this
  | error e =>
    constructor
    · rintro ⟨m, hm, rfl⟩ e
      constructor
      · intro h; injection h with h; exact ⟨m, hm, h.symm⟩
      · rintro ⟨m', hm', rfl⟩; rw [firstOf_unique hm hm']
    · intro h
      exact (h e).1 rfl

theorem says_nil : Says (.ok ()) [] := by intro x hx; cases hx

/-- one more test in front -/
theorem Says.cons {r : Except PyErr Unit} {c : Prop} {m : String} {p : List (Prop × String)} (hc : ¬ c)
    (h : Says r p) : Says r ((c, m) :: p) := by
  cases r with
  | ok _ =>
    intro x hx
    rcases List.mem_cons.1 hx with rfl | hx
    · exact hc
    · exact h x hx
  | error e =>
    obtain ⟨m', h1, h2⟩ := h
    exact ⟨m', firstOf_cons.2 (Or.inr ⟨hc, h1⟩), h2⟩

theorem says_here {c : Prop} {m : String} {p : List (Prop × String)} (hc : c) :
    Says (settingsErr m) ((c, m) :: p) := ⟨m, firstOf_cons.2 (Or.inl ⟨hc, rfl⟩), rfl⟩

/-- the tests of the first list decide, unless none of them fails -/
theorem Says.append_ok {r : Except PyErr Unit} {p1 p2 : List (Prop × String)} (h1 : ∀ x ∈ p1, ¬ x.1)
    (h2 : Says r p2) : Says r (p1 ++ p2) := by
  induction p1 with
  | nil => exact h2
  | cons x p1 ih =>
    exact Says.cons (h1 x (by simp)) (ih (fun y hy => h1 y (by simp [hy])))

theorem Says.append_error {e : PyErr} {p1 p2 : List (Prop × String)} (h1 : Says (.error e) p1) :
    Says (.error e) (p1 ++ p2) := by
  obtain ⟨m, ⟨pre, c, post, rfl, hc, hpre⟩, rfl⟩ := h1
  exact ⟨m, ⟨pre, c, post ++ p2, by simp, hc, hpre⟩, rfl⟩

/-! ### figure settings -/

theorem checkExport_says (E : Env) (i : Inst) (st fig : List (PyVal × PyVal)) :
    Says ((i.checkVersions E).checkExport E st fig).2
      (match PyVal.get? fig "export" with
       | none => []
       | some (.dict ex) => exportFaults E.surroundings ex
       | some _ => [(True, "FIGURE_EXPORT_VALUE_TYPE")]) := by
  cases hx : PyVal.get? fig "export" with
  | none =>
    have : ((i.checkVersions E).checkExport E st fig).2 = .ok () := by
      unfold Inst.checkExport; rw [hx]
    rw [this]
    exact says_nil
  | some v =>
    cases v with
    | dict ex =>
      rw [checkExport_guards E _ st fig ex hx]
      exact says_iff.2 (exportTests_tests E i ex)
    | _ =>
      all_goals
        have : ((i.checkVersions E).checkExport E st fig).2 = settingsErr "FIGURE_EXPORT_VALUE_TYPE" := by
          unfold Inst.checkExport; rw [hx]; rfl
        rw [this]
        exact says_here trivial

theorem checkShow_says (fig : List (PyVal × PyVal)) :
    Says (checkShow fig) [ (∃ v, PyVal.get? fig "show" = some v ∧ ¬ IsBool v, "FIGURE_SHOW_VALUE") ] := by
  unfold checkShow IsBool
  cases h : PyVal.get? fig "show" with
  | none => exact Says.cons (by simp) says_nil
  | some v =>
    cases v with
    | bool b => exact Says.cons (by simp) says_nil
    | _ => exact says_here (by simp)

theorem validateFigure_says (E : Env) (i : Inst) (st : List (PyVal × PyVal)) (hs : i.settings = .dict st) :
    Says (i.validateFigure E).2
      (match PyVal.get? st "figure" with
       | none => []
       | some (.dict []) => []
       | some (.dict fig) => figureFaults E.surroundings fig
       | some _ => [(True, "FIGURE_KEY_TYPE")]) := by
  have hs' : (i.checkVersions E).settings = .dict st := by
    rw [← hs]; unfold Inst.checkVersions; cases E.plotly <;> cases E.kaleido <;> rfl
  obtain ⟨p1, p2, _, _⟩ := checkVersions_flags E i
  unfold Inst.validateFigure
  simp only [hs', PyVal.asDict?]
  cases hf : PyVal.get? st "figure" with
  | none => exact says_nil
  | some v =>
    cases v with
    | dict fig =>
      cases fig with
      | nil => exact says_nil
      | cons x fig =>
        simp only [Option.getD_some, List.isEmpty_cons, Bool.false_eq_true, if_false]
        unfold figureFaults
        simp only [List.append_assoc, List.cons_append, List.nil_append]
        rcases Bool.eq_false_or_eq_true (i.checkVersions E).plotlyInstalled with h1 | h1
        · refine Says.cons (not_not_intro (p1.1 h1)) ?_
          simp only [h1, Bool.not_true, Bool.false_eq_true, if_false]
          rcases Bool.eq_false_or_eq_true (i.checkVersions E).plotlyOk with h2 | h2
          · refine Says.cons (not_not_intro (p2.1 h2)) ?_
            simp only [h2, Bool.not_true, Bool.false_eq_true, if_false]
            have h3 := checkExport_says E i st (x :: fig)
            rcases h4 : (i.checkVersions E).checkExport E st (x :: fig) with ⟨j, r⟩
            rw [h4] at h3
            cases r with
            | error e => exact Says.append_error h3
            | ok _ => exact Says.append_ok h3 (checkShow_says _)
          · simp only [h2, Bool.not_false, if_true]
            refine says_here (fun h => ?_)
            have := p2.2 h; rw [h2] at this; cases this
        · simp only [h1, Bool.not_false, if_true]
          refine says_here (fun h => ?_)
          have := p1.2 h; rw [h1] at this; cases this
    | _ => exact says_here trivial

/-! ### all settings -/

theorem validateHyper_says (i : Inst) (st : List (PyVal × PyVal)) (hs : i.settings = .dict st) :
    Says i.validateHyper.2
      [ (Given st "rotation" (¬ IsBool ·), "ROTATION_TYPE"),
        (∃ t, PyVal.get? st "max_time_in_seconds" = some t ∧ ¬ IsInt t, "MAX_TIME_IN_SECONDS_TYPE"),
        ((∃ n : Int, PyVal.get? st "max_time_in_seconds" = some (.int n) ∧ n < 1) ∨
          PyVal.get? st "max_time_in_seconds" = some (.bool false), "MAX_TIME_IN_SECONDS_VALUE"),
        (Given st "workers_num" (¬ IsPositive ·), "WORKERS_NUM_VALUE") ] := by
  have hw : ∀ j : Inst, Says (Inst.validateWorkers st j).2
      [ (Given st "workers_num" (¬ IsPositive ·), "WORKERS_NUM_VALUE") ] := by
    intro j
    unfold Inst.validateWorkers
    simp only
    rcases Bool.eq_false_or_eq_true (PyVal.getD st "workers_num").isNone with h | h
    · simp only [h, if_true]
      refine Says.cons ?_ says_nil
      rw [given_iff, h]; simp
    · simp only [h, Bool.false_eq_true, if_false]
      cases h' : (PyVal.getD st "workers_num").gtZero? with
      | none =>
        refine says_here (given_iff.2 ⟨h, fun hp => ?_⟩)
        rw [gtZero?_iff.2 hp] at h'; cases h'
      | some b =>
        cases b with
        | true =>
          refine Says.cons ?_ says_nil
          rw [given_iff]
          rintro ⟨_, hp⟩
          exact hp (gtZero?_iff.1 h')
        | false =>
          refine says_here (given_iff.2 ⟨h, fun hp => ?_⟩)
          rw [gtZero?_iff.2 hp] at h'; cases h'
  have hrest : ∀ j : Inst, j.settings = .dict st → st ≠ [] →
      Says (match ((PyVal.get? st "max_time_in_seconds").getD (.int maxTimeDefault)).asInt? with
        | none => (j, settingsErr "MAX_TIME_IN_SECONDS_TYPE")
        | some t =>
          if t < 1 then (j, settingsErr "MAX_TIME_IN_SECONDS_VALUE")
          else Inst.validateWorkers st { j with maxTime := t }).2
      [ (∃ t, PyVal.get? st "max_time_in_seconds" = some t ∧ ¬ IsInt t, "MAX_TIME_IN_SECONDS_TYPE"),
        ((∃ n : Int, PyVal.get? st "max_time_in_seconds" = some (.int n) ∧ n < 1) ∨
          PyVal.get? st "max_time_in_seconds" = some (.bool false), "MAX_TIME_IN_SECONDS_VALUE"),
        (Given st "workers_num" (¬ IsPositive ·), "WORKERS_NUM_VALUE") ] := by
    intro j _ _
    cases ht : PyVal.get? st "max_time_in_seconds" with
    | none =>
      refine Says.cons (by simp) (Says.cons (by simp) ?_)
      exact hw _
    | some t =>
      cases t with
      | int n =>
        refine Says.cons (by simp [IsInt]) ?_
        simp only [Option.getD_some, PyVal.asInt?]
        by_cases hn : n < 1
        · rw [if_pos hn]
          exact says_here (Or.inl ⟨n, rfl, hn⟩)
        · rw [if_neg hn]
          refine Says.cons ?_ (hw _)
          rintro (⟨k, hk, hk'⟩ | h)
          · cases hk; exact hn hk'
          · cases h
      | bool b =>
        refine Says.cons (by simp [IsInt, IsBool]) ?_
        cases b with
        | true => exact Says.cons (by simp) (hw _)
        | false => exact says_here (Or.inr rfl)
      | _ => exact says_here (by simp [IsInt, IsBool])
  unfold Inst.validateHyper
  by_cases hst : st = []
  · subst hst
    have hb : i.validateBase = ({ i with rotation := rotationDefault }, .ok ()) := by
      unfold Inst.validateBase; rw [hs]; rfl
    rw [hb]
    simp only [hs, PyVal.asDict?, List.isEmpty_nil, if_true]
    have hg : ∀ key P, ¬ Given [] key P := by
      rintro key P ⟨v, h, _⟩
      cases h
    refine Says.cons (hg _ _) (Says.cons ?_ (Says.cons ?_ (Says.cons (hg _ _) says_nil)))
    · rintro ⟨t, h, _⟩; cases h
    · rintro (⟨n, h, _⟩ | h) <;> cases h
  · have he : st.isEmpty = false := by cases st with | nil => exact absurd rfl hst | cons _ _ => rfl
    have hb : ∃ j, i.validateBase = (j, if (PyVal.getD st "rotation").isNone || (PyVal.getD st "rotation").asBool?.isSome
        then .ok () else settingsErr "ROTATION_TYPE") ∧ j.settings = .dict st := by
      unfold Inst.validateBase
      rw [hs]
      simp only [PyVal.asDict?, he, Bool.false_eq_true, if_false]
      cases hr : PyVal.getD st "rotation" <;> simp [PyVal.isNone, PyVal.asBool?, hs]
    obtain ⟨j, hb, hj⟩ := hb
    rw [hb]
    rcases Bool.eq_false_or_eq_true ((PyVal.getD st "rotation").isNone || (PyVal.getD st "rotation").asBool?.isSome)
      with h | h
    · simp only [h, if_true]
      have hd : j.settings.asDict? = some st := by rw [hj]; rfl
      rw [hd]
      simp only [he, Bool.false_eq_true, if_false]
      refine Says.cons ?_ (hrest j hj hst)
      rw [given_iff]
      revert h
      cases PyVal.getD st "rotation" <;> simp [PyVal.isNone, PyVal.asBool?, IsBool]
    · simp only [h, Bool.false_eq_true, if_false]
      refine says_here ?_
      rw [given_iff]
      revert h
      cases PyVal.getD st "rotation" <;> simp [PyVal.isNone, PyVal.asBool?, IsBool]

theorem validateHyper_settings (i : Inst) : i.validateHyper.1.settings = i.settings := by
  have hb : i.validateBase.1.settings = i.settings := by
    unfold Inst.validateBase
    cases i.settings.asDict? with
    | none => rfl
    | some st =>
      simp only
      split
      · rfl
      · split
        · rfl
        · split <;> rfl
  unfold Inst.validateHyper
  rcases h : i.validateBase with ⟨j, r⟩
  rw [h] at hb
  cases r with
  | error e => exact hb
  | ok _ =>
    simp only
    cases j.settings.asDict? with
    | none => exact hb
    | some st =>
      simp only
      split
      · exact hb
      · split
        · exact hb
        · split
          · exact hb
          · unfold Inst.validateWorkers
            simp only
            split
            · exact hb
            · split <;> exact hb

theorem validateSettings_says (E : Env) (i : Inst) :
    Says (i.validateSettings E).2 (settingsFaults E.surroundings i.settings) := by
  unfold Inst.validateSettings
  cases hs : i.settings with
  | dict st =>
    have h1 := validateHyper_says i st hs
    have h2 := validateHyper_settings i
    rcases h : i.validateHyper with ⟨j, r⟩
    rw [h] at h1 h2
    cases r with
    | error e => exact Says.append_error h1
    | ok _ => exact Says.append_ok h1 (validateFigure_says E j st (h2.trans hs))
  | _ =>
    all_goals
      have : i.validateHyper.2 = settingsErr "TYPE" := by
        unfold Inst.validateHyper Inst.validateBase; rw [hs]; rfl
      rcases h : i.validateHyper with ⟨j, r⟩
      rw [h] at this
      simp only at this
      subst this
      exact says_here trivial

/-- Settings that are not accepted raise the SettingsError of the first failing test. -/
theorem C94_settings (A : Arith) (i : Inst) (E : Env) (v : PyVal) (e : PyErr) :
    (step A i (.settings E v)).2 = .raised e ↔
      ∃ m, FirstOf (settingsFaults E.surroundings v) m ∧ e = .settingsError m := by
  have h : (step A i (.settings E v)).2 = .raised e ↔
      (Inst.validateSettings E { i with settings := v }).2 = .error e := by
    show (outcomeOf (i.assignSettings E v)).2 = _ ↔ _
    unfold Inst.assignSettings
    rcases Inst.validateSettings E { i with settings := v } with ⟨j, r⟩
    cases r <;> simp [outcomeOf, Outcome.of]
  rw [h]
  exact says_iff.1 (validateSettings_says E { i with settings := v }) e

/-! ### the constructor -/

theorem initContainers_error (containers stripWidth : PyVal) (e : PyErr) :
    initContainers containers stripWidth = .error e ↔ ContainersFault containers stripWidth e := by
  unfold initContainers ContainersFault
  by_cases hn : stripWidth.isNone = true
  · have hn' := isNone_iff.1 hn
    subst hn'
    have hno : ∀ W, ¬ IsPosInt PyVal.none W := fun W h => by rw [← posInt?_iff] at h; cases h
    have hb : StructFault "W" "L" .containersError containers e ↔ (buildStructure .containers containers).2 = .error e :=
      (buildStructure_error .containers containers e).symm
    rw [if_pos hn, hb]
    simp only [true_and, ne_eq, not_true_eq_false, false_and, false_or, hno, exists_false, or_false]
    cases (buildStructure .containers containers).2 <;> simp
  · have hn' : stripWidth ≠ .none := fun h => hn (isNone_iff.2 h)
    rw [if_neg hn]
    simp only [hn', false_and, ne_eq, not_false_eq_true, true_and, false_or]
    cases hp : stripWidth.posInt? with
    | none =>
      have h1 := notPosInt_iff.2 hp
      have h2 : ¬ ∃ n, IsPosInt stripWidth n := fun ⟨n, h⟩ => h1 n h
      simp only [h1, true_and, h2, false_and, or_false, Except.error.injEq]
      exact eq_comm
    | some w =>
      have h1 : ¬ NotPosInt stripWidth := fun h => h w (posInt?_iff.1 hp)
      have h2 : ∃ n, IsPosInt stripWidth n := ⟨w, posInt?_iff.1 hp⟩
      simp only [h1, false_and, h2, true_and, false_or]
      by_cases hc : containers.isNone = true
      · rw [if_pos hc]; simp [isNone_iff.1 hc]
      · have hc' : containers ≠ .none := fun h => hc (isNone_iff.2 h)
        rw [if_neg hc]
        simp only [Except.error.injEq, hc', not_false_eq_true, true_and]
        exact eq_comm

/-- The constructor raises the exception of the first wrong argument: the strip width and the containers,
then the items, then the settings. Settings that count as false are the empty settings. -/
theorem C94_new (E : Env) (containers items settings stripWidth : PyVal) (e : PyErr) :
    mkInst E containers items settings stripWidth = .error e ↔
      ContainersFault containers stripWidth e ∨
      ((∀ e', ¬ ContainersFault containers stripWidth e') ∧ StructFault "w" "l" .itemsError items e) ∨
      ((∀ e', ¬ ContainersFault containers stripWidth e') ∧ (∀ e', ¬ StructFault "w" "l" .itemsError items e') ∧
        ¬ CountsFalse settings ∧
        ∃ m, FirstOf (settingsFaults E.surroundings settings) m ∧ e = .settingsError m) := by
  simp only [← initContainers_error]
  have hi : ∀ e, StructFault "w" "l" .itemsError items e ↔ (buildStructure .items items).2 = .error e :=
    fun e => (buildStructure_error .items items e).symm
  simp only [hi]
  unfold mkInst
  cases hc : initContainers containers stripWidth with
  | error e' =>
    simp only [Except.error.injEq, not_forall, not_not]
    constructor
    · intro h; exact Or.inl h
    · rintro (h | ⟨h, _⟩ | ⟨h, _⟩)
      · exact h
      · exact absurd rfl (h e')
      · exact absurd rfl (h e')
  | ok r =>
    obtain ⟨strip, cs, height⟩ := r
    simp only [reduceCtorEq, not_false_eq_true, implies_true, true_and, false_or]
    cases hb : (buildStructure .items items).2 with
    | error e' =>
      simp only [Except.error.injEq]
      constructor
      · intro h; exact Or.inl h
      · rintro (h | ⟨h, _⟩)
        · exact h
        · exact absurd rfl (h e')
    | ok its =>
      simp only [reduceCtorEq, not_false_eq_true, implies_true, true_and, false_or]
      have hsays := says_iff.1 (validateSettings_says E (rawInst strip cs its height settings)) e
      have h1 : ∀ q : Inst × Except PyErr Unit, (match q with
          | (_, .error e) => (.error e : Except PyErr Inst)
          | (i, .ok ()) => .ok i) = .error e ↔ q.2 = .error e := by
        rintro ⟨j, r⟩
        cases r <;> simp
      refine (h1 _).trans ?_
      rw [hsays]
      cases ht : settings.truthy with
      | true =>
        have : (rawInst strip cs its height settings).settings = settings := by simp [rawInst, ht]
        rw [this]
        simp only [truthy_iff.1 ht, not_false_eq_true, true_and]
      | false =>
        have : (rawInst strip cs its height settings).settings = .dict [] := by simp [rawInst, ht]
        rw [this]
        simp only [truthy_false_iff.1 ht, not_true_eq_false, false_and, iff_false]
        rintro ⟨m, ⟨pre, c, post, h, hc, _⟩, _⟩
        have hmem : (c, m) ∈ settingsFaults E.surroundings (.dict []) := by rw [h]; simp
        simp [settingsFaults, PyVal.get?, Given] at hmem
        rcases hmem with ⟨h, _⟩ | ⟨h, _⟩ | ⟨h, _⟩ | ⟨h, _⟩ <;> exact h hc

/-- Not vacuous: an image export with no format, to a directory that exists, raises FORMAT_MISSING, and an
older wrong setting hides it. -/
example (A : Arith) (i : Inst) :
    let E : Env := ⟨some ["5", "20", "0"], none, fun _ => true, fun _ => true⟩
    let fig : PyVal := .dict [(.str "export", .dict [(.str "type", .str "image"), (.str "path", .str ".")])]
    (step A i (.settings E (.dict [(.str "figure", fig)]))).2 =
        .raised (.settingsError "FIGURE_EXPORT_FORMAT_MISSING") ∧
    (step A i (.settings E (.dict [(.str "figure", fig), (.str "workers_num", .int 0)]))).2 =
        .raised (.settingsError "WORKERS_NUM_VALUE") := by
  refine ⟨?_, ?_⟩ <;> rfl

example (E : Env) : mkInst E .none (.dict []) (.list []) (.int 3) = .error (.itemsError "MISSING") ∧
    mkInst E (.dict []) (.dict []) (.list []) (.int 3) = .error (.containersError "STRIP_PACK_ONLY") ∧
    mkInst E (.dict []) (.dict []) (.list []) (.int 0) = .error (.dimensionsError "DIMENSION_VALUE") :=
  ⟨rfl, rfl, rfl⟩

end HP
