import Verif.Props.Files
import Verif.Proofs.Agree
/-
Property C93: what is stored of accepted settings, validating them again, and the files that
`create_figure` writes with them.
-/
namespace HP
open Spec

/-- the settings ask for an export (entries `ex`) of figures (entries `fig`) -/
def AsksExport (st fig ex : List (PyVal × PyVal)) : Prop :=
  PyVal.get? st "figure" = some (.dict fig) ∧ PyVal.get? fig "export" = some (.dict ex)

/-- the two dicts have the same values, apart from the key -/
def SameExcept (key : String) (a b : List (PyVal × PyVal)) : Prop :=
  ∀ k, k ≠ key → PyVal.get? b k = PyVal.get? a k

/-- the settings that are stored for the accepted settings `st`: an export without a file name gets
the file name "PlotlyGraph", everything else is stored as given -/
def StoredAs (st st' : List (PyVal × PyVal)) : Prop :=
  (∃ fig ex fig' ex', AsksExport st fig ex ∧ Absent ex "file_name" ∧ AsksExport st' fig' ex' ∧
    PyVal.get? ex' "file_name" = some (.str "PlotlyGraph") ∧
    SameExcept "figure" st st' ∧ SameExcept "export" fig fig' ∧ SameExcept "file_name" ex ex') ∨
  ((∀ fig ex, AsksExport st fig ex → ¬ Absent ex "file_name") ∧ st' = st)

theorem get?_setEntry_self (key : String) (v : PyVal) :
    ∀ st : List (PyVal × PyVal), PyVal.get? (setEntry st key v) key = some v
  | [] => by simp [setEntry, PyVal.get?, PyVal.eqStr]
  | (k, v') :: rest => by
    unfold setEntry
    by_cases h : k.eqStr key = true
    · rw [if_pos h]; simp [PyVal.get?, h]
    · rw [if_neg h]
      simp only [PyVal.get?, if_neg h]
      exact get?_setEntry_self key v rest

theorem checkExport_stored {E : Env} {i : Inst} {st fig : List (PyVal × PyVal)}
    (hs : i.settings = .dict st) (hf : PyVal.get? st "figure" = some (.dict fig))
    (ok : (i.checkExport E st fig).2 = .ok ()) :
    ∃ st', (i.checkExport E st fig).1 = { i with settings := .dict st' } ∧ StoredAs st st' := by
  have hself : i = { i with settings := .dict st } := by rw [← hs]
  unfold Inst.checkExport at ok ⊢
  cases hx : PyVal.get? fig "export" with
  | none =>
    refine ⟨st, hself, Or.inr ⟨?_, rfl⟩⟩
    rintro fig' ex ⟨h1, h2⟩
    rw [hf] at h1; injection h1 with h1; injection h1 with h1; subst h1
    rw [hx] at h2; cases h2
  | some v =>
    rw [hx] at ok
    simp only at ok ⊢
    cases hd : v.asDict? with
    | none => rw [hd] at ok; cases ok
    | some ex =>
      have hv := asDict_eq.1 hd
      subst hv
      rw [hd] at ok
      simp only at ok ⊢
      have huniq : ∀ fig' ex', AsksExport st fig' ex' → ex' = ex := by
        rintro fig' ex' ⟨h1, h2⟩
        rw [hf] at h1; injection h1 with h1; injection h1 with h1; subst h1
        rw [hx] at h2; injection h2 with h2; injection h2 with h2; exact h2.symm
      cases h1 : checkExport1 E ex with
      | error e => rw [h1] at ok; cases ok
      | ok html =>
        rw [h1] at ok
        simp only at ok ⊢
        by_cases hn : (PyVal.getD ex "file_name").isNone = true
        · rw [if_pos hn]
          refine ⟨setFileName st fig ex defaultFileName, rfl, Or.inl ?_⟩
          refine ⟨fig, ex, _, _, ⟨hf, hx⟩, getD_absent.1 hn,
            ⟨get?_setEntry_self _ _ _, get?_setEntry_self _ _ _⟩, get?_setEntry_self _ _ _, ?_, ?_, ?_⟩ <;>
          · intro k hk; exact get?_setEntry_ne (fun h => hk h.symm) _ _
        · rw [if_neg hn] at ok ⊢
          have hna : ¬ Absent ex "file_name" := fun h => hn (getD_absent.2 h)
          cases h2 : (PyVal.getD ex "file_name").asStr? with
          | none => rw [h2] at ok; cases ok
          | some n =>
            rw [h2] at ok
            simp only at ok ⊢
            by_cases h3 : (!fileNameOk n) = true
            · rw [if_pos h3] at ok; cases ok
            · rw [if_neg h3]
              exact ⟨st, hself, Or.inr ⟨fun fig' ex' h => huniq _ _ h ▸ hna, rfl⟩⟩

theorem validateFigure_stored {E : Env} {i : Inst} {st : List (PyVal × PyVal)} (hs : i.settings = .dict st)
    (ok : (i.validateFigure E).2 = .ok ()) :
    ∃ st', (i.validateFigure E).1 = { i.checkVersions E with settings := .dict st' } ∧ StoredAs st st' := by
  have hset : (i.checkVersions E).settings = .dict st := hs
  have hself : i.checkVersions E = { i.checkVersions E with settings := .dict st } := by rw [← hset]
  unfold Inst.validateFigure at ok ⊢
  simp only at ok ⊢
  rw [asDict_eq.2 hset] at ok ⊢
  simp only at ok ⊢
  cases hf : PyVal.get? st "figure" with
  | none =>
    refine ⟨st, by rw [← hself]; rfl, Or.inr ⟨?_, rfl⟩⟩
    rintro fig ex ⟨h1, _⟩
    rw [hf] at h1; cases h1
  | some v =>
    rw [hf] at ok
    simp only [Option.getD_some] at ok ⊢
    cases v with
    | dict fig =>
      simp only at ok ⊢
      by_cases he : fig.isEmpty = true
      · rw [if_pos he]
        have : fig = [] := List.isEmpty_iff.1 he
        subst this
        refine ⟨st, hself, Or.inr ⟨?_, rfl⟩⟩
        rintro fig ex ⟨h1, h2⟩
        rw [hf] at h1; injection h1 with h1; injection h1 with h1; subst h1
        simp [PyVal.get?] at h2
      · rw [if_neg he] at ok ⊢
        split at ok
        · cases ok
        · rename_i h1
          rw [if_neg h1]
          split at ok
          · cases ok
          · rename_i h2
            rw [if_neg h2]
            cases hc : (i.checkVersions E).checkExport E st fig with
            | mk j e =>
              cases e with
              | error e => rw [hc] at ok; cases ok
              | ok u =>
                obtain ⟨st', h3, h4⟩ := checkExport_stored hset hf (E := E) (by rw [hc])
                rw [hc] at h3
                exact ⟨st', h3, h4⟩
    | _ => cases ok

theorem validateSettings_stored {E : Env} {i : Inst} {st : List (PyVal × PyVal)} (hs : i.settings = .dict st)
    (ok : (i.validateSettings E).2 = .ok ()) :
    ∃ b t w st', PlainSettings st b t w ∧ StoredAs st st' ∧ FigureAccepted E st ∧
      (i.validateSettings E).1 =
        { i.checkVersions E with rotation := b, maxTime := t, workers := w, settings := .dict st' } := by
  unfold Inst.validateSettings at ok ⊢
  rcases validateHyper_cases hs with ⟨b, t, w, h1, h2, h3, h4⟩ | ⟨h1, j, m, h2⟩
  · rw [h4] at ok ⊢
    simp only at ok ⊢
    have hs' : ({ i with rotation := b, maxTime := t, workers := w } : Inst).settings = .dict st := hs
    obtain ⟨st', h5, h6⟩ := validateFigure_stored hs' ok
    rcases validateFigure_cases E hs' with ⟨_, h7⟩ | ⟨⟨m, h7⟩, _⟩
    · refine ⟨b, t, w, st', ⟨h1, h2, h3⟩, h6, h7, ?_⟩
      rw [h5]; rfl
    · rw [h7] at ok; cases ok
  · rw [h2] at ok; cases ok

theorem PlainSettings.congr {st st' : List (PyVal × PyVal)} (h : SameExcept "figure" st st') {b : Bool} {t : Int}
    {w : PyVal} (hp : PlainSettings st b t w) : PlainSettings st' b t w := by
  unfold PlainSettings RotationSetting TimeSetting WorkersSetting Absent at *
  rw [h "rotation" (by decide), h "max_time_in_seconds" (by decide), h "workers_num" (by decide)]
  exact hp

theorem plainSettings_unique {st : List (PyVal × PyVal)} {b b' : Bool} {t t' : Int} {w w' : PyVal}
    (h : PlainSettings st b t w) (h' : PlainSettings st b' t' w') : b = b' ∧ t = t' ∧ w = w' := by
  refine ⟨h.1.unique h'.1, ?_, ?_⟩
  · have a := (timeSetting_iff.1 h'.2.1).1
    rw [(timeSetting_iff.1 h.2.1).1] at a
    injection a
  · have a := h.2.2
    have b := h'.2.2
    unfold WorkersSetting Absent IsPositive at a b
    rcases a with ⟨a, rfl⟩ | ⟨a, a'⟩ <;> rcases b with ⟨b, rfl⟩ | ⟨b, b'⟩
    · rfl
    · rw [b] at a; rcases a with a | a <;> simp at a; subst a; simp at b'
    · rw [a] at b; rcases b with b | b <;> simp at b; subst b; simp at a'
    · rw [a] at b; simpa using b

theorem ExportSetting.congr {isDir : String → Prop} {K : Prop} {N : String → Prop} {ex ex' : List (PyVal × PyVal)}
    (h : SameExcept "file_name" ex ex') (hn : PyVal.get? ex' "file_name" = some (.str "PlotlyGraph"))
    (hN : N "PlotlyGraph") (he : ExportSetting isDir K N ex) : ExportSetting isDir K N ex' := by
  unfold ExportSetting SideSetting Absent at *
  rw [h "path" (by decide), h "type" (by decide), h "format" (by decide), h "width" (by decide),
    h "height" (by decide), hn]
  exact ⟨he.1, Or.inr ⟨_, rfl, hN⟩, he.2.2⟩

theorem StoredAs.stable {st st' : List (PyVal × PyVal)} (h : StoredAs st st') {st'' : List (PyVal × PyVal)}
    (h2 : StoredAs st' st'') : st'' = st' := by
  rcases h with ⟨fig, ex, fig', ex', _, _, h1, h3, _⟩ | ⟨h1, rfl⟩
  · rcases h2 with ⟨fig2, ex2, _, _, h4, h5, _⟩ | ⟨_, rfl⟩
    · obtain ⟨a, b⟩ := h4
      rw [h1.1] at a; injection a with a; injection a with a; subst a
      rw [h1.2] at b; injection b with b; injection b with b; subst b
      rcases h5 with h5 | h5 <;> · rw [h3] at h5; cases h5
    · rfl
  · rcases h2 with ⟨fig2, ex2, _, _, h4, h5, _⟩ | ⟨_, rfl⟩
    · exact absurd h5 (h1 _ _ h4)
    · rfl

theorem StoredAs.accepted {E : Env} {st st' : List (PyVal × PyVal)} (h : StoredAs st st') {b : Bool} {t : Int}
    {w : PyVal} (hp : PlainSettings st b t w) (hf : FigureAccepted E st) :
    PlainSettings st' b t w ∧ FigureAccepted E st' := by
  rcases h with ⟨fig, ex, fig', ex', h1, h2, h3, h4, h5, h6, h7⟩ | ⟨_, rfl⟩
  · refine ⟨PlainSettings.congr h5 hp, ?_⟩
    rcases hf with hf | ⟨fig2, a, hf⟩
    · rw [h1.1] at hf; cases hf
    · rw [h1.1] at a; injection a with a; injection a with a; subst a
      refine Or.inr ⟨fig', h3.1, ?_⟩
      rcases hf with rfl | ⟨hpl, he, hsh⟩
      · have := h1.2; simp [PyVal.get?] at this
      · refine Or.inr ⟨hpl, Or.inr ⟨ex', h3.2, ?_⟩, ?_⟩
        · rcases he with he | ⟨ex2, b, he⟩
          · rw [h1.2] at he; cases he
          · rw [h1.2] at b; injection b with b; injection b with b; subst b
            exact ExportSetting.congr h7 h4 (by decide +kernel) he
        · rw [h6 "show" (by decide)]; exact hsh
  · exact ⟨hp, hf⟩

/-- C93: accepted settings are stored as they were given, except that an export without a file name
gets the documented default name "PlotlyGraph". -/
theorem C93_stored (A : Arith) (i : Inst) (E : Env) (st : List (PyVal × PyVal))
    (hok : (step A i (.settings E (.dict st))).2 = .ok) :
    ∃ st', (step A i (.settings E (.dict st))).1.settings = .dict st' ∧ StoredAs st st' := by
  have hstep : step A i (.settings E (.dict st)) =
    outcomeOf (Inst.validateSettings E { i with settings := .dict st }) := rfl
  rw [hstep] at hok ⊢
  obtain ⟨b, t, w, st', h1, h2, _, h3⟩ := validateSettings_stored (i := { i with settings := .dict st }) rfl
    (outcome_ok.1 hok)
  refine ⟨st', ?_, h2⟩
  show (Inst.validateSettings E _).1.settings = _
  rw [h3]

/-- C93: after accepted settings, `validate_settings()` in the same environment succeeds and
changes nothing. -/
theorem C93_validate (A : Arith) (i : Inst) (E : Env) (v : PyVal)
    (hok : (step A i (.settings E v)).2 = .ok) :
    step A (step A i (.settings E v)).1 (.validate E) = ((step A i (.settings E v)).1, .ok) := by
  obtain ⟨st, rfl, _⟩ := (C47_accepts A i E v).1.1 hok
  have hstep : step A i (.settings E (.dict st)) =
    outcomeOf (Inst.validateSettings E { i with settings := .dict st }) := rfl
  rw [hstep] at hok ⊢
  obtain ⟨b, t, w, st', h1, h2, hfa, h3⟩ := validateSettings_stored (i := { i with settings := .dict st }) rfl
    (outcome_ok.1 hok)
  have hj : (outcomeOf (Inst.validateSettings E { i with settings := .dict st })).1 = _ := h3
  rw [hj]
  obtain ⟨hp', hf'⟩ := h2.accepted h1 hfa
  rcases validateSettings_cases E (i := { ({ i with settings := .dict st } : Inst).checkVersions E with
      rotation := b, maxTime := t, workers := w, settings := .dict st' }) rfl with ⟨a1, _⟩ | ⟨_, a1⟩
  · obtain ⟨b', t', w', st'', c1, c2, _, c3⟩ := validateSettings_stored rfl a1
    obtain ⟨rfl, rfl, rfl⟩ := plainSettings_unique hp' c1
    have := h2.stable c2
    subst this
    show ((Inst.validateSettings E _).1, Outcome.of (Inst.validateSettings E _).2) = _
    rw [a1, c3]
    rfl
  · exact absurd ⟨⟨b, t, w, hp'⟩, hf'⟩ a1

/-- the files an accepted export stands for: directory, name and ending -/
def ExportFiles (ex : List (PyVal × PyVal)) (dir name ext : String) : Prop :=
  PyVal.get? ex "path" = some (.str dir) ∧
  (PyVal.get? ex "file_name" = some (.str name) ∨ (Absent ex "file_name" ∧ name = "PlotlyGraph")) ∧
  ((PyVal.get? ex "type" = some (.str "html") ∧ ext = "html") ∨
   (PyVal.get? ex "type" = some (.str "image") ∧ PyVal.get? ex "format" = some (.str ext)))

/-- C93: after accepted settings that ask for an export, `create_figure()` is asked to write the
figure of the container `id` to `<path>/<file_name>__<id>.<html or the format>`, with the file name
"PlotlyGraph" if none was given; together with `C53_partial` this says which files it writes. -/
theorem C93_files (A : Arith) (i : Inst) (E : Env) (st fig ex : List (PyVal × PyVal))
    (hok : (step A i (.settings E (.dict st))).2 = .ok) (hx : AsksExport st fig ex) (show_ : Bool) :
    ∃ dir name ext fig', ExportFiles ex dir name ext ∧
      FigureAsked (step A i (.settings E (.dict st))).1 fig'
        (fun cid => some (dir, name ++ "__" ++ cid ++ "." ++ ext)) show_
        (show_ || (match PyVal.get? fig "show" with | some (.bool true) => true | _ => false)) := by
  have hstep : step A i (.settings E (.dict st)) =
    outcomeOf (Inst.validateSettings E { i with settings := .dict st }) := rfl
  rw [hstep] at hok ⊢
  obtain ⟨b, t, w, st', h1, h2, hfa, h3⟩ := validateSettings_stored (i := { i with settings := .dict st }) rfl
    (outcome_ok.1 hok)
  have hj : (outcomeOf (Inst.validateSettings E { i with settings := .dict st })).1 = _ := h3
  rw [hj]
  -- the figure settings are accepted
  rcases hfa with hfa | ⟨fig2, a, hfa⟩
  · rw [hx.1] at hfa; cases hfa
  rw [hx.1] at a; injection a with a; injection a with a; subst a
  rcases hfa with rfl | ⟨hpl, he, hsh⟩
  · have := hx.2; simp [PyVal.get?] at this
  rcases he with he | ⟨ex2, e1, he⟩
  · rw [hx.2] at he; cases he
  rw [hx.2] at e1; injection e1 with e1; injection e1 with e1; subst e1
  obtain ⟨⟨dir, hdir, _⟩, hname, htype⟩ := he
  have hty : ∃ ext, (PyVal.get? ex "type" = some (.str "html") ∧ ext = "html") ∨
      (PyVal.get? ex "type" = some (.str "image") ∧ PyVal.get? ex "format" = some (.str ext)) := by
    rcases htype with h | ⟨h, ⟨f, hf, _⟩, _⟩
    · exact ⟨_, Or.inl ⟨h, rfl⟩⟩
    · exact ⟨f, Or.inr ⟨h, hf⟩⟩
  obtain ⟨ext, hty⟩ := hty
  -- the stored export
  have hst : ∃ name fig' ex', (PyVal.get? ex "file_name" = some (.str name) ∨
        (Absent ex "file_name" ∧ name = "PlotlyGraph")) ∧ AsksExport st' fig' ex' ∧
      PyVal.get? ex' "file_name" = some (.str name) ∧ SameExcept "file_name" ex ex' ∧ SameExcept "export" fig fig' := by
    rcases h2 with ⟨fig3, ex3, fig', ex', g1, g2, g3, g4, _, g6, g7⟩ | ⟨g1, rfl⟩
    · obtain ⟨a, b⟩ := g1
      rw [hx.1] at a; injection a with a; injection a with a; subst a
      rw [hx.2] at b; injection b with b; injection b with b; subst b
      exact ⟨_, fig', ex', Or.inr ⟨g2, rfl⟩, g3, g4, g7, g6⟩
    · rcases hname with hn | ⟨n, hn, _⟩
      · exact absurd hn (g1 _ _ hx)
      · exact ⟨n, fig, ex, Or.inl hn, hx, hn, fun _ _ => rfl, fun _ _ => rfl⟩
  obtain ⟨name, fig', ex', hname', hx', hn', hsame, hsamef⟩ := hst
  refine ⟨dir, name, ext, fig', ⟨hdir, hname', hty⟩, ?_⟩
  refine ⟨(checkVersions_plotly E { i with settings := .dict st }).2 hpl, ⟨st', rfl, Or.inl hx'.1⟩, Or.inr ⟨ex', dir, name, ext, ?_, ?_, rfl⟩, ?_, ?_⟩
  · unfold PyVal.getD; rw [hx'.2]; rfl
  · refine ⟨by rw [hsame "path" (by decide)]; exact hdir, Or.inl hn', ?_⟩
    rw [hsame "type" (by decide), hsame "format" (by decide)]
    rcases hty with ⟨h, h'⟩ | h
    · exact Or.inl ⟨Or.inl h, h'⟩
    · exact Or.inr h
  · have hgs : PyVal.getD fig' "show" = PyVal.getD fig "show" := by
      unfold PyVal.getD; rw [hsamef "show" (by decide)]
    rw [hgs]
    unfold PyVal.getD
    rcases hsh with hsh | ⟨b, hsh⟩
    · rw [hsh]; simp [CountsFalse]
    · rw [hsh]; cases b <;> simp [CountsFalse]
  · right
    unfold PyVal.getD; rw [hx'.2]; simp

/-- C93 on a concrete value: an export to html without a file name -/
example : let st := [(PyVal.str "figure", PyVal.dict [(.str "export",
      .dict [(.str "type", .str "html"), (.str "path", .str "/tmp")])])]
    (step Arith.exact problem (.settings fullEnv (.dict st))).2 = .ok ∧
    AsksExport st [(.str "export", .dict [(.str "type", .str "html"), (.str "path", .str "/tmp")])]
      [(.str "type", .str "html"), (.str "path", .str "/tmp")] ∧
    ExportFiles [(.str "type", .str "html"), (.str "path", .str "/tmp")] "/tmp" "PlotlyGraph" "html" := by
  refine ⟨by decide +kernel, ⟨rfl, rfl⟩, rfl, Or.inr ⟨Or.inl rfl, rfl⟩, Or.inl ⟨rfl, rfl⟩⟩

end HP
