import Verif.Props.Structures
import Verif.SpecSettings
/-
C47 - C49: validation of the settings.
-/
namespace HP
open Spec

/-! ### single settings -/

theorem getD_absent {st : List (PyVal × PyVal)} {key : String} :
    (PyVal.getD st key).isNone = true ↔ Absent st key := by
  unfold PyVal.getD Absent
  cases h : PyVal.get? st key with
  | none => simp [PyVal.isNone]
  | some v => cases v <;> simp [PyVal.isNone]

theorem getD_some {st : List (PyVal × PyVal)} {key : String} (h : ¬ Absent st key) :
    PyVal.get? st key = some (PyVal.getD st key) ∧ PyVal.getD st key ≠ .none := by
  unfold Absent PyVal.getD at *
  cases hg : PyVal.get? st key with
  | none => exact absurd (Or.inl hg) h
  | some v => exact ⟨rfl, fun hv => h (Or.inr (by rw [hg]; simpa using hv))⟩

theorem asDict_eq {v : PyVal} {st : List (PyVal × PyVal)} : v.asDict? = some st ↔ v = .dict st := by
  cases v <;> simp [PyVal.asDict?]

theorem Spec.RotationSetting.unique {st : List (PyVal × PyVal)} {a b : Bool} (h1 : RotationSetting st a)
    (h2 : RotationSetting st b) : a = b := by
  unfold RotationSetting Absent at *
  rcases h1 with ⟨h, h1⟩ | h1 <;> rcases h2 with ⟨g, h2⟩ | h2
  · rw [h1, h2]
  · rw [h2] at h; simp at h
  · rw [h1] at g; simp at g
  · rw [h1] at h2; simpa using h2

theorem validateBase_cases {i : Inst} {st : List (PyVal × PyVal)} (h : i.settings = .dict st) :
    (∃ b, RotationSetting st b ∧ i.validateBase = ({ i with rotation := b }, .ok ())) ∨
    ((¬ ∃ b, RotationSetting st b) ∧ ∃ m, i.validateBase = (i, .error (.settingsError m))) := by
  unfold Inst.validateBase
  rw [asDict_eq.2 h]
  simp only
  by_cases he : st.isEmpty = true
  · rw [if_pos he]
    have : st = [] := List.isEmpty_iff.1 he
    subst this
    exact Or.inl ⟨true, Or.inl ⟨Or.inl rfl, rfl⟩, rfl⟩
  · rw [if_neg he]
    by_cases ha : Absent st "rotation"
    · rw [if_pos (getD_absent.2 ha)]
      exact Or.inl ⟨true, Or.inl ⟨ha, rfl⟩, rfl⟩
    · rw [if_neg (fun h => ha (getD_absent.1 h))]
      obtain ⟨h1, h2⟩ := getD_some ha
      cases hb : (PyVal.getD st "rotation").asBool? with
      | some b =>
        left
        refine ⟨b, Or.inr ?_, rfl⟩
        rw [h1]
        cases hv : PyVal.getD st "rotation" <;> rw [hv] at hb <;> simp_all [PyVal.asBool?]
      | none =>
        right
        refine ⟨?_, _, rfl⟩
        rintro ⟨b, ⟨h, _⟩ | h⟩
        · exact ha h
        · rw [h1] at h
          injection h with h
          rw [h] at hb; simp [PyVal.asBool?] at hb

theorem gtZero?_iff {v : PyVal} : v.gtZero? = some true ↔ IsPositive v := by
  unfold IsPositive
  cases v <;> simp [PyVal.gtZero?]

theorem validateWorkers_cases (i : Inst) (st : List (PyVal × PyVal)) :
    (∃ w, WorkersSetting st w ∧ i.validateWorkers st = ({ i with workers := w }, .ok ())) ∨
    ((¬ ∃ w, WorkersSetting st w) ∧ ∃ m, i.validateWorkers st = (i, .error (.settingsError m))) := by
  unfold Inst.validateWorkers
  simp only
  by_cases ha : Absent st "workers_num"
  · rw [if_pos (getD_absent.2 ha)]
    exact Or.inl ⟨_, Or.inl ⟨ha, rfl⟩, rfl⟩
  · rw [if_neg (fun h => ha (getD_absent.1 h))]
    obtain ⟨h1, h2⟩ := getD_some ha
    by_cases hp : (PyVal.getD st "workers_num").gtZero? = some true
    · rw [hp]
      exact Or.inl ⟨_, Or.inr ⟨h1, gtZero?_iff.1 hp⟩, rfl⟩
    · right
      constructor
      · rintro ⟨w, ⟨h, _⟩ | ⟨h, h'⟩⟩
        · exact ha h
        · rw [h1] at h
          injection h with h
          rw [← h] at h'
          exact hp (gtZero?_iff.2 h')
      · refine ⟨"WORKERS_NUM_VALUE", ?_⟩
        cases hg : (PyVal.getD st "workers_num").gtZero? with
        | none => rfl
        | some b =>
          cases b with
          | false => rfl
          | true => exact absurd hg hp

theorem timeSetting_iff {st : List (PyVal × PyVal)} {t : Int} :
    TimeSetting st t ↔
      ((PyVal.get? st "max_time_in_seconds").getD (.int maxTimeDefault)).asInt? = some t ∧ 1 ≤ t := by
  unfold TimeSetting
  cases h : PyVal.get? st "max_time_in_seconds" with
  | none => simp [PyVal.asInt?, maxTimeDefault]; omega
  | some v =>
    cases v with
    | bool b => cases b <;> simp [PyVal.asInt?] <;> omega
    | int n => simp [PyVal.asInt?]
    | _ => simp [PyVal.asInt?]

theorem validateHyper_cases {i : Inst} {st : List (PyVal × PyVal)} (h : i.settings = .dict st) :
    (∃ b t w, RotationSetting st b ∧ TimeSetting st t ∧ WorkersSetting st w ∧
      i.validateHyper = ({ i with rotation := b, maxTime := t, workers := w }, .ok ())) ∨
    (¬ (∃ b t w, RotationSetting st b ∧ TimeSetting st t ∧ WorkersSetting st w) ∧
      ∃ j m, i.validateHyper = (j, .error (.settingsError m))) := by
  unfold Inst.validateHyper
  rcases validateBase_cases h with ⟨b, h1, h2⟩ | ⟨h1, m, h2⟩
  · rw [h2]
    simp only
    rw [asDict_eq.2 h]
    simp only
    by_cases he : st.isEmpty = true
    · rw [if_pos he]
      have : st = [] := List.isEmpty_iff.1 he
      subst this
      exact Or.inl ⟨b, 60, .int 1, h1, Or.inl ⟨rfl, rfl⟩, Or.inl ⟨Or.inl rfl, rfl⟩, rfl⟩
    · rw [if_neg he]
      cases ht : ((PyVal.get? st "max_time_in_seconds").getD (.int maxTimeDefault)).asInt? with
      | none =>
        right
        refine ⟨?_, _, _, rfl⟩
        rintro ⟨_, t, _, _, h3, _⟩
        rw [timeSetting_iff, ht] at h3
        cases h3.1
      | some t =>
        simp only
        by_cases hlt : t < 1
        · rw [if_pos hlt]
          right
          refine ⟨?_, _, _, rfl⟩
          rintro ⟨_, t', _, _, h3, _⟩
          rw [timeSetting_iff, ht] at h3
          have := h3.1
          injection this with this
          omega
        · rw [if_neg hlt]
          have h3 : TimeSetting st t := timeSetting_iff.2 ⟨ht, by omega⟩
          rcases validateWorkers_cases { i with rotation := b, maxTime := t } st with ⟨w, h4, h5⟩ | ⟨h4, m, h5⟩
          · rw [h5]
            exact Or.inl ⟨b, t, w, h1, h3, h4, rfl⟩
          · rw [h5]
            right
            refine ⟨?_, _, _, rfl⟩
            rintro ⟨_, _, w, _, _, h6⟩
            exact h4 ⟨w, h6⟩
  · rw [h2]
    right
    refine ⟨?_, _, _, rfl⟩
    rintro ⟨b, _, _, h3, _⟩
    exact h1 ⟨b, h3⟩

/-! ### figure settings -/

theorem badSide_iff {ex : List (PyVal × PyVal)} {key : String} :
    badSide (PyVal.getD ex key) = true ↔ ¬ SideSetting ex key := by
  unfold badSide SideSetting
  by_cases ha : Absent ex key
  · simp [ha, getD_absent.2 ha]
  · obtain ⟨h1, h2⟩ := getD_some ha
    have hn : (PyVal.getD ex key).isNone = false := by
      cases h : (PyVal.getD ex key).isNone with
      | false => rfl
      | true => exact absurd (getD_absent.1 h) ha
    simp only [hn, Bool.not_false, Bool.true_and, ha, false_or, not_exists, not_and]
    rw [h1]
    constructor
    · intro h v n hv hp
      injection hv with hv
      subst hv
      rw [posInt?_iff.2 hp] at h
      cases h
    · intro h
      cases hp : (PyVal.getD ex key).posInt? with
      | none => rfl
      | some n => exact absurd (posInt?_iff.1 hp) (h _ n rfl)

theorem mem_formats {v : PyVal} : (imageFormats.any (fun f => v.eqStr f)) = true ↔
    ∃ f, v = .str f ∧ f ∈ ["pdf", "png", "jpeg", "webp", "svg"] := by
  rw [List.any_eq_true]
  constructor
  · rintro ⟨f, h1, h2⟩; exact ⟨f, eqStr_iff.1 h2, h1⟩
  · rintro ⟨f, rfl, h2⟩; exact ⟨f, h2, eqStr_iff.2 rfl⟩

theorem eqStr_get {st : List (PyVal × PyVal)} {key s : String} :
    (PyVal.getD st key).eqStr s = true ↔ PyVal.get? st key = some (.str s) := by
  rw [eqStr_iff]
  unfold PyVal.getD
  cases PyVal.get? st key with
  | none => simp
  | some v => simp

/-- the conditions checked before the file name -/
def Export1 (E : Env) (ex : List (PyVal × PyVal)) (html : Bool) : Prop :=
  (∃ p, PyVal.get? ex "path" = some (.str p) ∧ E.pathExists p = true ∧ E.pathIsDir p = true) ∧
  ((html = true ∧ PyVal.get? ex "type" = some (.str "html")) ∨
   (html = false ∧ PyVal.get? ex "type" = some (.str "image") ∧
    ∃ f, PyVal.get? ex "format" = some (.str f) ∧ f ∈ ["pdf", "png", "jpeg", "webp", "svg"]))

theorem checkExport1_cases (E : Env) (ex : List (PyVal × PyVal)) :
    (∃ html, checkExport1 E ex = .ok html ∧ Export1 E ex html) ∨
    ((∃ m, checkExport1 E ex = .error (.settingsError m)) ∧ ∀ html, ¬ Export1 E ex html) := by
  have noType : (∀ html, Export1 E ex html → PyVal.get? ex "type" = some (.str "html") ∨
      PyVal.get? ex "type" = some (.str "image")) := by
    rintro html ⟨_, ⟨_, h⟩ | ⟨_, h, _⟩⟩
    · exact Or.inl h
    · exact Or.inr h
  unfold checkExport1
  simp only [settingsErr]
  by_cases ht : Absent ex "type"
  · rw [if_pos (getD_absent.2 ht)]
    right
    refine ⟨⟨_, rfl⟩, ?_⟩
    intro html h
    unfold Absent at ht
    rcases noType html h with h | h <;> rw [h] at ht <;> simp at ht
  · rw [if_neg (fun h => ht (getD_absent.1 h))]
    by_cases hty : (!((PyVal.getD ex "type").eqStr "html" || (PyVal.getD ex "type").eqStr "image")) = true
    · rw [if_pos hty]
      right
      refine ⟨⟨_, rfl⟩, ?_⟩
      intro html h
      simp only [Bool.not_eq_true', Bool.or_eq_false_iff] at hty
      rcases noType html h with h | h <;> rw [← eqStr_get] at h
      · rw [h] at hty; cases hty.1
      · rw [h] at hty; cases hty.2
    · rw [if_neg hty]
      simp only [Bool.not_eq_true, Bool.not_eq_false', Bool.or_eq_true] at hty
      by_cases hpa : Absent ex "path"
      · rw [if_pos (getD_absent.2 hpa)]
        right
        refine ⟨⟨_, rfl⟩, ?_⟩
        rintro html ⟨⟨p, hp, _⟩, _⟩
        unfold Absent at hpa
        rw [hp] at hpa; simp at hpa
      · rw [if_neg (fun h => hpa (getD_absent.1 h))]
        obtain ⟨hp1, hp2⟩ := getD_some hpa
        cases hs : (PyVal.getD ex "path").asStr? with
        | none =>
          right
          refine ⟨⟨_, rfl⟩, ?_⟩
          rintro html ⟨⟨p, hp, _⟩, _⟩
          rw [hp1] at hp
          injection hp with hp
          rw [hp] at hs; cases hs
        | some p =>
          have hpath : PyVal.get? ex "path" = some (.str p) := by rw [hp1, asStr?_iff.1 hs]
          simp only
          have hno : ∀ (P : Prop), (E.pathExists p = true ∧ E.pathIsDir p = true → P) →
              ∀ html, Export1 E ex html → P := by
            rintro P hP html ⟨⟨p', h1, h2⟩, _⟩
            rw [hpath] at h1
            injection h1 with h1
            injection h1 with h1
            subst h1
            exact hP h2
          by_cases he : E.pathExists p = true
          · rw [if_neg (by simp [he])]
            by_cases hd : E.pathIsDir p = true
            · rw [if_neg (by simp [hd])]
              by_cases hh : (PyVal.getD ex "type").eqStr "html" = true
              · rw [hh]
                simp only [Bool.not_true, Bool.and_false, Bool.false_and, if_false, Bool.false_eq_true]
                left
                exact ⟨true, rfl, ⟨p, hpath, he, hd⟩, Or.inl ⟨rfl, eqStr_get.1 hh⟩⟩
              · have himg : (PyVal.getD ex "type").eqStr "image" = true := by
                  rcases hty with h | h
                  · exact absurd h hh
                  · exact h
                have hh' : (PyVal.getD ex "type").eqStr "html" = false := by simpa using hh
                rw [hh']
                simp only [Bool.not_false, Bool.and_true, Bool.true_and]
                have hfmt : ∀ html, Export1 E ex html →
                    ∃ f, PyVal.get? ex "format" = some (.str f) ∧ f ∈ ["pdf", "png", "jpeg", "webp", "svg"] := by
                  rintro html ⟨_, ⟨_, h⟩ | ⟨_, _, h⟩⟩
                  · rw [← eqStr_get] at h; exact absurd h hh
                  · exact h
                by_cases hf : Absent ex "format"
                · rw [if_pos (getD_absent.2 hf)]
                  right
                  refine ⟨⟨_, rfl⟩, ?_⟩
                  intro html h
                  obtain ⟨f, h1, _⟩ := hfmt html h
                  unfold Absent at hf
                  rw [h1] at hf; simp at hf
                · rw [if_neg (fun h => hf (getD_absent.1 h))]
                  obtain ⟨hf1, hf2⟩ := getD_some hf
                  by_cases hst : (PyVal.getD ex "format").asStr?.isNone = true
                  · rw [if_pos hst]
                    right
                    refine ⟨⟨_, rfl⟩, ?_⟩
                    intro html h
                    obtain ⟨f, h1, _⟩ := hfmt html h
                    rw [hf1] at h1
                    injection h1 with h1
                    rw [h1] at hst; cases hst
                  · rw [if_neg hst]
                    by_cases hmem : (imageFormats.any (fun f => (PyVal.getD ex "format").eqStr f)) = true
                    · rw [if_neg (by simp [hmem])]
                      left
                      obtain ⟨f, hf3, hf4⟩ := mem_formats.1 hmem
                      exact ⟨false, rfl, ⟨p, hpath, he, hd⟩,
                        Or.inr ⟨rfl, eqStr_get.1 himg, f, by rw [hf1, hf3], hf4⟩⟩
                    · rw [if_pos (by simpa using hmem)]
                      right
                      refine ⟨⟨_, rfl⟩, ?_⟩
                      intro html h
                      obtain ⟨f, h1, h2⟩ := hfmt html h
                      rw [hf1] at h1
                      injection h1 with h1
                      exact hmem (mem_formats.2 ⟨f, h1, h2⟩)
            · rw [if_pos (by simpa using hd)]
              right
              exact ⟨⟨_, rfl⟩, fun html h => hno False (fun x => hd x.2) html h⟩
          · rw [if_pos (by simpa using he)]
            right
            exact ⟨⟨_, rfl⟩, fun html h => hno False (fun x => he x.1) html h⟩

theorem checkExport2_cases (i : Inst) (ex : List (PyVal × PyVal)) (html : Bool) :
    (checkExport2 i ex html = .ok () ∧ (html = true ∨ ((i.kaleidoInstalled = true ∧ i.kaleidoOk = true) ∧
      SideSetting ex "width" ∧ SideSetting ex "height"))) ∨
    ((∃ m, checkExport2 i ex html = .error (.settingsError m)) ∧
      ¬ (html = true ∨ ((i.kaleidoInstalled = true ∧ i.kaleidoOk = true) ∧
      SideSetting ex "width" ∧ SideSetting ex "height"))) := by
  unfold checkExport2
  simp only [settingsErr]
  cases html with
  | true => left; simp
  | false =>
    simp only [Bool.false_eq_true, if_false, false_or]
    by_cases h1 : i.kaleidoInstalled = true
    · rw [if_neg (by simp [h1])]
      by_cases h2 : i.kaleidoOk = true
      · rw [if_neg (by simp [h2])]
        by_cases h3 : SideSetting ex "width"
        · rw [if_neg (fun h => badSide_iff.1 h h3)]
          by_cases h4 : SideSetting ex "height"
          · rw [if_neg (fun h => badSide_iff.1 h h4)]
            left; exact ⟨rfl, ⟨h1, h2⟩, h3, h4⟩
          · rw [if_pos (badSide_iff.2 h4)]
            right; exact ⟨⟨_, rfl⟩, fun h => h4 h.2.2⟩
        · rw [if_pos (badSide_iff.2 h3)]
          right; exact ⟨⟨_, rfl⟩, fun h => h3 h.2.1⟩
      · rw [if_pos (by simpa using h2)]
        right; exact ⟨⟨_, rfl⟩, fun h => h2 h.1.2⟩
    · rw [if_pos (by simpa using h1)]
      right; exact ⟨⟨_, rfl⟩, fun h => h1 h.1.1⟩

/-- the path exists and is a directory -/
def Env.dir (E : Env) (p : String) : Prop := E.pathExists p = true ∧ E.pathIsDir p = true

/-- the version tests as the code makes them -/
def Env.plotlyOk (E : Env) : Prop := ∃ v, E.plotly = some v ∧ versionOk v plotlyMin plotlyMax = true
def Env.kaleidoOk (E : Env) : Prop := ∃ v, E.kaleido = some v ∧ versionOk v kaleidoMin kaleidoMax = true

theorem checkVersions_plotly (E : Env) (i : Inst) :
    ((i.checkVersions E).plotlyInstalled = true ∧ (i.checkVersions E).plotlyOk = true) ↔ E.plotlyOk := by
  unfold Inst.checkVersions Env.plotlyOk
  cases E.plotly <;> simp

theorem checkVersions_kaleido (E : Env) (i : Inst) :
    ((i.checkVersions E).kaleidoInstalled = true ∧ (i.checkVersions E).kaleidoOk = true) ↔ E.kaleidoOk := by
  unfold Inst.checkVersions Env.kaleidoOk
  cases E.kaleido <;> simp

/-- the condition on the whole export settings -/
theorem exportSetting_iff (E : Env) (K : Prop) (ex : List (PyVal × PyVal)) :
    ExportSetting E.dir K (fun n => fileNameOk n = true) ex ↔
      ∃ html, Export1 E ex html ∧
        (Absent ex "file_name" ∨ ∃ n, PyVal.get? ex "file_name" = some (.str n) ∧ fileNameOk n = true) ∧
        (html = true ∨ (K ∧ SideSetting ex "width" ∧ SideSetting ex "height")) := by
  unfold ExportSetting Export1
  constructor
  · rintro ⟨h1, h2, h3 | ⟨h3, h4, h5, h6⟩⟩
    · exact ⟨true, ⟨h1, Or.inl ⟨rfl, h3⟩⟩, h2, Or.inl rfl⟩
    · exact ⟨false, ⟨h1, Or.inr ⟨rfl, h3, h4⟩⟩, h2, Or.inr ⟨h5, h6⟩⟩
  · rintro ⟨html, ⟨h1, h3⟩, h2, h4⟩
    refine ⟨h1, h2, ?_⟩
    rcases h3 with ⟨_, h⟩ | ⟨rfl, h, h'⟩
    · exact Or.inl h
    · rcases h4 with h4 | ⟨k, h5⟩
      · cases h4
      · exact Or.inr ⟨h, h', k, h5⟩

theorem checkExport_cases (E : Env) (i : Inst) (st fig : List (PyVal × PyVal)) (K : Prop)
    (hK : (i.kaleidoInstalled = true ∧ i.kaleidoOk = true) ↔ K) :
    let ok := PyVal.get? fig "export" = none ∨
        ∃ ex, PyVal.get? fig "export" = some (.dict ex) ∧
          ExportSetting E.dir K (fun n => fileNameOk n = true) ex
    ((i.checkExport E st fig).2 = .ok () ∧ ok) ∨
    ((∃ m, (i.checkExport E st fig).2 = .error (.settingsError m)) ∧ ¬ ok) := by
  intro ok
  unfold Inst.checkExport
  cases hx : PyVal.get? fig "export" with
  | none => left; exact ⟨rfl, Or.inl hx⟩
  | some v =>
    simp only
    cases hd : v.asDict? with
    | none =>
      right
      refine ⟨⟨_, rfl⟩, ?_⟩
      rintro (h | ⟨ex, h, _⟩)
      · rw [hx] at h; cases h
      · rw [hx] at h
        injection h with h
        rw [h] at hd; cases hd
    | some ex =>
      have hv := asDict_eq.1 hd
      subst hv
      have hok : ok ↔ ExportSetting E.dir K (fun n => fileNameOk n = true) ex := by
        constructor
        · rintro (h | ⟨ex', h, h'⟩)
          · rw [hx] at h; cases h
          · rw [hx] at h
            injection h with h
            injection h with h
            subst h; exact h'
        · intro h; exact Or.inr ⟨ex, hx, h⟩
      rw [hok, exportSetting_iff]
      simp only
      rcases checkExport1_cases E ex with ⟨html, h1, h2⟩ | ⟨⟨m, h1⟩, h2⟩
      · rw [h1]
        simp only
        have huniq : ∀ html', Export1 E ex html' → html' = html := by
          rintro html' ⟨_, h3⟩
          rcases h3 with ⟨rfl, h3⟩ | ⟨rfl, h3, _⟩ <;> rcases h2.2 with ⟨rfl, h4⟩ | ⟨rfl, h4, _⟩
          · rfl
          · rw [h3] at h4; simp at h4
          · rw [h3] at h4; simp at h4
          · rfl
        by_cases hn : Absent ex "file_name"
        · rw [if_pos (getD_absent.2 hn)]
          rcases checkExport2_cases { i with settings := .dict (setFileName st fig ex defaultFileName) } ex html
            with ⟨h3, h4⟩ | ⟨⟨m, h3⟩, h4⟩
          · left
            refine ⟨h3, html, h2, Or.inl hn, ?_⟩
            rcases h4 with h4 | ⟨h4, h5⟩
            · exact Or.inl h4
            · exact Or.inr ⟨hK.1 h4, h5⟩
          · right
            refine ⟨⟨m, h3⟩, ?_⟩
            rintro ⟨html', g1, _, g2⟩
            rw [huniq html' g1] at g2
            apply h4
            rcases g2 with g2 | ⟨g2, g3⟩
            · exact Or.inl g2
            · exact Or.inr ⟨hK.2 g2, g3⟩
        · rw [if_neg (fun h => hn (getD_absent.1 h))]
          obtain ⟨hn1, hn2⟩ := getD_some hn
          cases hs : (PyVal.getD ex "file_name").asStr? with
          | none =>
            right
            refine ⟨⟨_, rfl⟩, ?_⟩
            rintro ⟨_, _, g | ⟨n, g, _⟩, _⟩
            · exact hn g
            · rw [hn1] at g
              injection g with g
              rw [g] at hs; cases hs
          | some n =>
            have hname : PyVal.get? ex "file_name" = some (.str n) := by rw [hn1, asStr?_iff.1 hs]
            simp only
            by_cases hfo : fileNameOk n = true
            · rw [if_neg (by simp [hfo])]
              rcases checkExport2_cases i ex html with ⟨h3, h4⟩ | ⟨⟨m, h3⟩, h4⟩
              · left
                refine ⟨h3, html, h2, Or.inr ⟨n, hname, hfo⟩, ?_⟩
                rcases h4 with h4 | ⟨h4, h5⟩
                · exact Or.inl h4
                · exact Or.inr ⟨hK.1 h4, h5⟩
              · right
                refine ⟨⟨m, h3⟩, ?_⟩
                rintro ⟨html', g1, _, g2⟩
                rw [huniq html' g1] at g2
                apply h4
                rcases g2 with g2 | ⟨g2, g3⟩
                · exact Or.inl g2
                · exact Or.inr ⟨hK.2 g2, g3⟩
            · rw [if_pos (by simpa using hfo)]
              right
              refine ⟨⟨_, rfl⟩, ?_⟩
              rintro ⟨_, _, g | ⟨n', g, g'⟩, _⟩
              · exact hn g
              · rw [hname] at g
                injection g with g
                injection g with g
                subst g
                exact hfo g'
      · rw [h1]
        right
        refine ⟨⟨m, rfl⟩, ?_⟩
        rintro ⟨html, g, _⟩
        exact h2 html g

theorem checkShow_cases (fig : List (PyVal × PyVal)) :
    (checkShow fig = .ok () ∧ (PyVal.get? fig "show" = none ∨ ∃ b, PyVal.get? fig "show" = some (.bool b))) ∨
    ((∃ m, checkShow fig = .error (.settingsError m)) ∧
      ¬ (PyVal.get? fig "show" = none ∨ ∃ b, PyVal.get? fig "show" = some (.bool b))) := by
  unfold checkShow
  cases h : PyVal.get? fig "show" with
  | none => left; exact ⟨rfl, Or.inl rfl⟩
  | some v => cases v <;> simp [PyVal.asBool?, settingsErr]

/-- the figure settings accepted by the code -/
def FigureAccepted (E : Env) (st : List (PyVal × PyVal)) : Prop :=
  FigureSetting E.dir E.plotlyOk E.kaleidoOk (fun n => fileNameOk n = true) st

theorem validateFigure_cases {i : Inst} {st : List (PyVal × PyVal)} (E : Env) (h : i.settings = .dict st) :
    ((i.validateFigure E).2 = .ok () ∧ FigureAccepted E st) ∨
    ((∃ m, (i.validateFigure E).2 = .error (.settingsError m)) ∧ ¬ FigureAccepted E st) := by
  have hset : (i.checkVersions E).settings = .dict st := h
  have hp := checkVersions_plotly E i
  have hk := checkVersions_kaleido E i
  unfold Inst.validateFigure
  simp only
  rw [asDict_eq.2 hset]
  simp only
  unfold FigureAccepted FigureSetting
  cases hf : PyVal.get? st "figure" with
  | none =>
    left
    refine ⟨rfl, Or.inl rfl⟩
  | some v =>
    simp only [Option.getD_some]
    by_cases hdict : ∃ fig, v = .dict fig
    · obtain ⟨fig, rfl⟩ := hdict
      simp only
      by_cases he : fig.isEmpty = true
      · rw [if_pos he]
        left
        exact ⟨rfl, Or.inr ⟨fig, rfl, Or.inl (List.isEmpty_iff.1 he)⟩⟩
      · rw [if_neg he]
        have hfig : fig ≠ [] := fun h => he (List.isEmpty_iff.2 h)
        by_cases h1 : (i.checkVersions E).plotlyInstalled = true
        · rw [if_neg (by simp [h1])]
          by_cases h2 : (i.checkVersions E).plotlyOk = true
          · rw [if_neg (by simp [h2])]
            have hplot := hp.1 ⟨h1, h2⟩
            rcases checkExport_cases E (i.checkVersions E) st fig E.kaleidoOk hk with ⟨h3, h4⟩ | ⟨⟨m, h3⟩, h4⟩
            · cases hce : (i.checkVersions E).checkExport E st fig with
              | mk j r =>
                rw [hce] at h3
                simp only at h3
                subst h3
                simp only
                rcases checkShow_cases fig with ⟨h5, h6⟩ | ⟨⟨m, h5⟩, h6⟩
                · left
                  exact ⟨h5, Or.inr ⟨fig, rfl, Or.inr ⟨hplot, h4, h6⟩⟩⟩
                · right
                  refine ⟨⟨m, h5⟩, ?_⟩
                  rintro (g | ⟨fig', g, g'⟩)
                  · cases g
                  · injection g with g
                    injection g with g
                    subst g
                    rcases g' with g' | ⟨_, _, g'⟩
                    · exact hfig g'
                    · exact h6 g'
            · cases hce : (i.checkVersions E).checkExport E st fig with
              | mk j r =>
                rw [hce] at h3
                simp only at h3
                subst h3
                simp only
                right
                refine ⟨⟨m, rfl⟩, ?_⟩
                rintro (g | ⟨fig', g, g'⟩)
                · cases g
                · injection g with g
                  injection g with g
                  subst g
                  rcases g' with g' | ⟨_, g', _⟩
                  · exact hfig g'
                  · exact h4 g'
          · rw [if_pos (by simpa using h2)]
            right
            refine ⟨⟨_, rfl⟩, ?_⟩
            rintro (g | ⟨fig', g, g'⟩)
            · cases g
            · injection g with g
              injection g with g
              subst g
              rcases g' with g' | ⟨g', _⟩
              · exact hfig g'
              · exact h2 (hp.2 g').2
        · rw [if_pos (by simpa using h1)]
          right
          refine ⟨⟨_, rfl⟩, ?_⟩
          rintro (g | ⟨fig', g, g'⟩)
          · cases g
          · injection g with g
            injection g with g
            subst g
            rcases g' with g' | ⟨g', _⟩
            · exact hfig g'
            · exact h1 (hp.2 g').1
    · right
      constructor
      · cases v with
        | dict fig => exact absurd ⟨fig, rfl⟩ hdict
        | _ => exact ⟨_, rfl⟩
      · rintro (g | ⟨fig', g, _⟩)
        · cases g
        · injection g with g
          exact hdict ⟨fig', g⟩

/-! ### C47 -/

theorem validateSettings_cases {i : Inst} {st : List (PyVal × PyVal)} (E : Env) (h : i.settings = .dict st) :
    ((i.validateSettings E).2 = .ok () ∧ FigureAccepted E st ∧ ∃ b t w, PlainSettings st b t w ∧
      (i.validateSettings E).1.rotation = b ∧ (i.validateSettings E).1.maxTime = t ∧
      (i.validateSettings E).1.workers = w) ∨
    ((∃ m, (i.validateSettings E).2 = .error (.settingsError m)) ∧
      ¬ ((∃ b t w, PlainSettings st b t w) ∧ FigureAccepted E st)) := by
  unfold Inst.validateSettings
  rcases validateHyper_cases h with ⟨b, t, w, h1, h2, h3, h4⟩ | ⟨h1, j, m, h2⟩
  · rw [h4]
    simp only
    have hs : ({ i with rotation := b, maxTime := t, workers := w } : Inst).settings = .dict st := h
    have hfr := validateFigure_frame { i with rotation := b, maxTime := t, workers := w } E
    rcases validateFigure_cases E hs with ⟨h5, h6⟩ | ⟨⟨m, h5⟩, h6⟩
    · left
      refine ⟨h5, h6, b, t, w, ⟨h1, h2, h3⟩, ?_⟩
      rw [hfr]; exact ⟨rfl, rfl, rfl⟩
    · right
      exact ⟨⟨m, h5⟩, fun h => h6 h.2⟩
  · rw [h2]
    right
    exact ⟨⟨m, rfl⟩, fun ⟨⟨b, t, w, h⟩, _⟩ => h1 ⟨b, t, w, h⟩⟩

theorem validateSettings_notDict {i : Inst} (E : Env) (h : ∀ st, i.settings ≠ .dict st) :
    (i.validateSettings E).2 = .error (.settingsError "TYPE") := by
  have : i.settings.asDict? = none := by
    cases hd : i.settings.asDict? with
    | none => rfl
    | some st => exact absurd (asDict_eq.1 hd) (h st)
  simp [Inst.validateSettings, Inst.validateHyper, Inst.validateBase, this, settingsErr]

/-- C47: `problem.settings = v` is accepted exactly for dicts whose `rotation` is a bool,
`max_time_in_seconds` an integer of at least 1, `workers_num` a positive number (missing keys
allowed) and whose figure settings are accepted (see C49); every other value raises
SettingsError. -/
theorem C47_accepts (A : Arith) (i : Inst) (E : Env) (v : PyVal) :
    ((step A i (.settings E v)).2 = .ok ↔
      ∃ st, v = .dict st ∧ (∃ b t w, PlainSettings st b t w) ∧ FigureAccepted E st) ∧
    ((step A i (.settings E v)).2 ≠ .ok → ∃ m, (step A i (.settings E v)).2 = .raised (.settingsError m)) := by
  have hstep : step A i (.settings E v) = outcomeOf (Inst.validateSettings E { i with settings := v }) := rfl
  rw [hstep]
  by_cases hd : ∃ st, v = .dict st
  · obtain ⟨st, rfl⟩ := hd
    have hs : ({ i with settings := .dict st } : Inst).settings = .dict st := rfl
    rcases validateSettings_cases E hs with ⟨h1, h2, b, t, w, h3, _⟩ | ⟨⟨m, h1⟩, h2⟩
    · constructor
      · rw [outcome_ok, h1]
        simp only [true_iff]
        exact ⟨st, rfl, ⟨b, t, w, h3⟩, h2⟩
      · intro h; exact absurd (outcome_ok.2 h1) h
    · constructor
      · rw [outcome_ok, h1]
        simp only [reduceCtorEq, false_iff]
        rintro ⟨st', h, h'⟩
        injection h with h
        subst h
        exact h2 h'
      · intro _; exact ⟨m, outcome_raised.2 h1⟩
  · have hn : ∀ st, ({ i with settings := v } : Inst).settings ≠ .dict st := fun st h => hd ⟨st, h⟩
    have h1 := validateSettings_notDict E hn
    constructor
    · rw [outcome_ok, h1]
      simp only [reduceCtorEq, false_iff]
      rintro ⟨st, h, _⟩
      exact hd ⟨st, h⟩
    · intro _; exact ⟨_, outcome_raised.2 h1⟩

/-- C47: accepted settings are applied, with the documented defaults for missing keys (see
`PlainSettings`), and nothing of the problem or its result is changed. -/
theorem C47_applied (A : Arith) (i : Inst) (E : Env) (st : List (PyVal × PyVal)) (b : Bool) (t : Int)
    (w : PyVal) (h : PlainSettings st b t w) (hok : (step A i (.settings E (.dict st))).2 = .ok) :
    (step A i (.settings E (.dict st))).1.rotation = b ∧
    (step A i (.settings E (.dict st))).1.maxTime = t ∧
    (step A i (.settings E (.dict st))).1.workers = w ∧
    (step A i (.settings E (.dict st))).1.items = i.items ∧
    (step A i (.settings E (.dict st))).1.containers = i.containers ∧
    (step A i (.settings E (.dict st))).1.solution = i.solution ∧
    (step A i (.settings E (.dict st))).1.objVals = i.objVals ∧
    (step A i (.settings E (.dict st))).1.strategy = i.strategy ∧
    (step A i (.settings E (.dict st))).1.height = i.height ∧
    (step A i (.settings E (.dict st))).1.minHeight = i.minHeight := by
  have hs : ({ i with settings := .dict st } : Inst).settings = .dict st := rfl
  have hstep : step A i (.settings E (.dict st)) =
    outcomeOf (Inst.validateSettings E { i with settings := .dict st }) := rfl
  rw [hstep, outcome_ok] at hok
  have hfr := (validateSettings_frame { i with settings := .dict st } E).1
  rcases validateSettings_cases E hs with ⟨_, _, b', t', w', h3, e1, e2, e3⟩ | ⟨⟨m, h1⟩, _⟩
  · have hb : b' = b := h3.1.unique h.1
    have ht : t' = t := by
      have a := (timeSetting_iff.1 h3.2.1).1
      rw [(timeSetting_iff.1 h.2.1).1] at a
      injection a with a; exact a.symm
    have hw : w' = w := by
      have a := h3.2.2
      have b := h.2.2
      unfold WorkersSetting Absent IsPositive at a b
      rcases a with ⟨a, rfl⟩ | ⟨a, a'⟩ <;> rcases b with ⟨b, rfl⟩ | ⟨b, b'⟩
      · rfl
      · rw [b] at a; rcases a with a | a <;> simp at a; subst a; simp at b'
      · rw [a] at b; rcases b with b | b <;> simp at b; subst b; simp at a'
      · rw [a] at b; simpa using b
    rw [hstep]
    show (Inst.validateSettings E { i with settings := .dict st }).1.rotation = b ∧ _
    refine ⟨e1.trans hb, e2.trans ht, e3.trans hw, ?_⟩
    show (Inst.validateSettings E { i with settings := .dict st }).1.items = _ ∧
      (Inst.validateSettings E { i with settings := .dict st }).1.containers = _ ∧
      (Inst.validateSettings E { i with settings := .dict st }).1.solution = _ ∧
      (Inst.validateSettings E { i with settings := .dict st }).1.objVals = _ ∧
      (Inst.validateSettings E { i with settings := .dict st }).1.strategy = _ ∧
      (Inst.validateSettings E { i with settings := .dict st }).1.height = _ ∧
      (Inst.validateSettings E { i with settings := .dict st }).1.minHeight = _
    rw [hfr]
    exact ⟨rfl, rfl, rfl, rfl, rfl, rfl, rfl⟩
  · rw [h1] at hok; cases hok

/-- C47: in every reachable state, whatever settings were rejected, the time limit applied is at
least 1 and the number of workers applied is a positive number (the rotation setting is a bool by
its type). -/
theorem C47_legal (A : Arith) (i : Inst) (h : Reach A i) : 1 ≤ i.maxTime ∧ IsPositive i.workers :=
  ⟨h.good.maxTime, gtZero?_iff.1 h.good.workers⟩

/-- C47's hypotheses on a concrete value -/
example : PlainSettings [(.str "rotation", .bool false), (.str "workers_num", .int 4)] false 60 (.int 4) ∧
    (step Arith.exact problemSolved (.settings bareEnv
      (.dict [(.str "rotation", .bool false), (.str "workers_num", .int 4)]))).2 = .ok :=
  ⟨⟨Or.inr rfl, Or.inl ⟨rfl, rfl⟩, Or.inr ⟨rfl, Or.inl ⟨4, rfl, by omega⟩⟩⟩, rfl⟩

/-- rejected values of each kind -/
example : (step Arith.exact problem (.settings bareEnv (.list []))).2 = .raised (.settingsError "TYPE") ∧
    (step Arith.exact problem (.settings bareEnv (.dict [(.str "rotation", .int 1)]))).2 =
      .raised (.settingsError "ROTATION_TYPE") ∧
    (step Arith.exact problem (.settings bareEnv (.dict [(.str "max_time_in_seconds", .int 0)]))).2 =
      .raised (.settingsError "MAX_TIME_IN_SECONDS_VALUE") ∧
    (step Arith.exact problem (.settings bareEnv (.dict [(.str "workers_num", .str "2")]))).2 =
      .raised (.settingsError "WORKERS_NUM_VALUE") := ⟨rfl, rfl, rfl, rfl⟩

/-! ### C48 -/

/-- C48 is false of the code: `workers_num` 2.5, True and infinity are accepted, on every object. -/
theorem C48_refuted (A : Arith) (i : Inst) (E : Env) :
    (step A i (.settings E (.dict [(.str "workers_num", .float (5 / 2))]))).2 = .ok ∧
    (step A i (.settings E (.dict [(.str "workers_num", .inf)]))).2 = .ok ∧
    (step A i (.settings E (.dict [(.str "workers_num", .bool true)]))).2 = .ok := by
  refine ⟨?_, ?_, ?_⟩
  · rw [(C47_accepts A i E _).1]
    refine ⟨_, rfl, ⟨true, 60, .float (5 / 2), Or.inl ⟨Or.inl rfl, rfl⟩, Or.inl ⟨rfl, rfl⟩,
      Or.inr ⟨rfl, Or.inr (Or.inr (Or.inl ⟨5 / 2, rfl, by decide +kernel⟩))⟩⟩, Or.inl rfl⟩
  · rw [(C47_accepts A i E _).1]
    refine ⟨_, rfl, ⟨true, 60, .inf, Or.inl ⟨Or.inl rfl, rfl⟩, Or.inl ⟨rfl, rfl⟩,
      Or.inr ⟨rfl, Or.inr (Or.inr (Or.inr rfl))⟩⟩, Or.inl rfl⟩
  · rw [(C47_accepts A i E _).1]
    refine ⟨_, rfl, ⟨true, 60, .bool true, Or.inl ⟨Or.inl rfl, rfl⟩, Or.inl ⟨rfl, rfl⟩,
      Or.inr ⟨rfl, Or.inr (Or.inl rfl)⟩⟩, Or.inl rfl⟩

/-- C48, what holds: a `workers_num` that is not None and not a positive number is rejected with
SettingsError. -/
theorem C48_partial (A : Arith) (i : Inst) (E : Env) (st : List (PyVal × PyVal)) (v : PyVal)
    (hv : PyVal.get? st "workers_num" = some v) (hn : v ≠ .none) (hp : ¬ IsPositive v) :
    ∃ m, (step A i (.settings E (.dict st))).2 = .raised (.settingsError m) := by
  apply (C47_accepts A i E _).2
  rw [Ne, (C47_accepts A i E _).1]
  rintro ⟨st', h, ⟨b, t, w, _, _, h3⟩, _⟩
  injection h with h
  subst h
  unfold WorkersSetting Absent at h3
  rw [hv] at h3
  rcases h3 with ⟨h | h, _⟩ | ⟨h, h'⟩
  · cases h
  · injection h with h; exact hn h
  · injection h with h
    subst h; exact hp h'

example : ¬ IsPositive (.int 0) ∧ ¬ IsPositive (.str "2") := by
  constructor <;> simp [IsPositive]

/-- an infinite number of workers makes every hypersearch raise ValueError (`range` with step 0) -/
theorem C48_infinite (A : Arith) (i : Inst) (a : HSArgs) (hi : i.workers = .inf) :
    (i.search A a).2 = .raised .valueError := by
  unfold Inst.search
  rw [if_neg (by rw [hi]; decide)]
  unfold Inst.multiHS
  rw [hi]
  rfl

/-! ### C49 -/

theorem fileNameChar_iff (c : Char) : fileNameChar c = true ↔
    ('a' ≤ c ∧ c ≤ 'z') ∨ ('A' ≤ c ∧ c ≤ 'Z') ∨ ('0' ≤ c ∧ c ≤ '9') ∨ c = '_' ∨ c = '-' := by
  unfold fileNameChar
  simp only [Bool.or_eq_true, Bool.and_eq_true, decide_eq_true_eq, beq_iff_eq, or_assoc]

/-- C49, file names: accepted are the proper ones, and the proper ones followed by a newline. -/
theorem C49_name (n : String) :
    fileNameOk n = true ↔ ProperName n ∨ ∃ m, ProperName m ∧ n.toList = m.toList ++ ['\n'] := by
  have key : ∀ cs : List Char, (decide (1 ≤ cs.length) && decide (cs.length ≤ 45) && cs.all fileNameChar) = true ↔
      ProperName (String.ofList cs) := by
    intro cs
    unfold ProperName
    simp only [Bool.and_eq_true, decide_eq_true_eq, List.all_eq_true, String.toList_ofList]
    constructor
    · rintro ⟨⟨h1, h2⟩, h3⟩
      exact ⟨h1, h2, fun c hc => (fileNameChar_iff c).1 (h3 c hc)⟩
    · rintro ⟨h1, h2, h3⟩
      exact ⟨⟨h1, h2⟩, fun c hc => (fileNameChar_iff c).2 (h3 c hc)⟩
  unfold fileNameOk
  simp only
  by_cases hl : n.toList.getLast? = some '\n'
  · rw [if_pos hl, key]
    obtain ⟨pre, hpre⟩ := List.getLast?_eq_some_iff.1 hl
    rw [hpre, List.dropLast_concat]
    constructor
    · intro h; exact Or.inr ⟨_, h, by simp⟩
    · rintro (h | ⟨m, h1, h2⟩)
      · exfalso
        have := h.2.2 '\n' (by rw [hpre]; simp)
        revert this; decide
      · have : m.toList = pre := List.append_cancel_right h2.symm
        rw [← this]; simpa using h1
  · rw [if_neg hl, key, String.ofList_toList]
    constructor
    · intro h; exact Or.inl h
    · rintro (h | ⟨m, _, h2⟩)
      · exact h
      · exfalso; apply hl; rw [h2]; simp

/-- C49, what is accepted as figure settings, exactly: `FigureSetting` with the code's own tests of
the installed versions and of the file name.  Missing with respect to the property: versions are
compared as strings (`C49_plotly_partial`, `C49_refuted_version`), a file name may end in a newline
(`C49_name`, `C49_refuted_name`), and the sizes are not checked for html (`C49_refuted_html`). -/
theorem C49_partial (A : Arith) (i : Inst) (E : Env) (st : List (PyVal × PyVal)) (b : Bool) (t : Int)
    (w : PyVal) (h : PlainSettings st b t w) :
    (step A i (.settings E (.dict st))).2 = .ok ↔
      FigureSetting (fun p => E.pathExists p = true ∧ E.pathIsDir p = true)
        (∃ v, E.plotly = some v ∧ versionOk v ["5", "14", "0"] ["6", "0", "0"] = true)
        (∃ v, E.kaleido = some v ∧ versionOk v ["0", "2", "1"] ["0", "3", "0"] = true)
        (fun n => ProperName n ∨ ∃ m, ProperName m ∧ n.toList = m.toList ++ ['\n']) st := by
  rw [(C47_accepts A i E _).1]
  have hname : (fun n => fileNameOk n = true) =
      (fun n => ProperName n ∨ ∃ m, ProperName m ∧ n.toList = m.toList ++ ['\n']) := by
    funext n; exact propext (C49_name n)
  constructor
  · rintro ⟨st', h1, _, h2⟩
    injection h1 with h1
    subst h1
    unfold FigureAccepted at h2
    rw [hname] at h2
    exact h2
  · intro h2
    refine ⟨st, rfl, ⟨b, t, w, h⟩, ?_⟩
    unfold FigureAccepted
    rw [hname]
    exact h2

theorem strLt_eq {s t : String} {ds es : List Nat} (hs : Digits s ds) (ht : Digits t es) :
    strLt s t = ltNats (ds.map (· + 48)) (es.map (· + 48)) := by
  unfold strLt; rw [hs.2, ht.2]

theorem digits_inj {s t : String} {ds es : List Nat} (hs : Digits s ds) (ht : Digits t es) :
    s = t ↔ ds = es := by
  constructor
  · rintro rfl
    have := hs.2.symm.trans ht.2
    exact List.map_injective_iff.2 (fun a b h => by simpa using h) this
  · rintro rfl
    have := hs.2.trans ht.2.symm
    have : s.toList = t.toList := List.map_injective_iff.2
      (fun a b h => Char.ext (UInt32.toNat_inj.1 h)) this
    exact String.toList_inj.1 this

theorem ltNats_digits1 (a b : Nat) : ltNats [a + 48] [b + 48] = decide (a < b) := by
  unfold ltNats
  by_cases h : a < b
  · simp [h]
  · by_cases h2 : b < a <;> simp [h, h2, ltNats]

theorem ltNats_zero (z : Nat) (zs : List Nat) : ltNats ((z :: zs).map (· + 48)) [0 + 48] = false := by
  simp only [List.map_cons, ltNats]
  by_cases h : z = 0
  · subst h; simp; cases zs <;> rfl
  · rw [if_neg (by omega), if_pos (by omega)]

/-- C49, versions of plotly with a one digit major and a two digit minor number are tested
correctly. -/
theorem C49_plotly_partial (sx sy sz : String) (x y1 y2 z : Nat) (zs : List Nat)
    (hx : Digits sx [x]) (hy : Digits sy [y1, y2]) (hz : Digits sz (z :: zs)) :
    versionOk [sx, sy, sz] ["5", "14", "0"] ["6", "0", "0"] = true ↔
      ¬ VersionLt [x, 10 * y1 + y2, valueOf (z :: zs)] [5, 14, 0] ∧
      VersionLt [x, 10 * y1 + y2, valueOf (z :: zs)] [6, 0, 0] := by
  have d5 : Digits "5" [5] := ⟨by decide, by decide⟩
  have d6 : Digits "6" [6] := ⟨by decide, by decide⟩
  have d14 : Digits "14" [1, 4] := ⟨by decide, by decide⟩
  have d0 : Digits "0" [0] := ⟨by decide, by decide⟩
  have hy1 := hy.1 y1 (by simp)
  have hy2 := hy.1 y2 (by simp)
  have e1 : strLt sx "5" = decide (x < 5) := by rw [strLt_eq hx d5]; exact ltNats_digits1 x 5
  have e2 : strLt sx "6" = decide (x < 6) := by rw [strLt_eq hx d6]; exact ltNats_digits1 x 6
  have e3 : strLt sz "0" = false := by rw [strLt_eq hz d0]; exact ltNats_zero z zs
  have e4 : strLt sy "14" = decide (10 * y1 + y2 < 14) := by
    rw [strLt_eq hy d14]
    simp only [List.map_cons, List.map_nil, ltNats]
    by_cases a : y1 + 48 < 1 + 48
    · rw [if_pos a]; simp; omega
    · rw [if_neg a]
      by_cases b : 1 + 48 < y1 + 48
      · rw [if_pos b]; simp; omega
      · rw [if_neg b]
        by_cases c : y2 + 48 < 4 + 48
        · rw [if_pos c]; simp; omega
        · rw [if_neg c]
          by_cases d : 4 + 48 < y2 + 48
          · rw [if_pos d]; simp; omega
          · rw [if_neg d]; simp; omega
  have e5 : strLt sy "0" = false := by rw [strLt_eq hy d0]; exact ltNats_zero y1 [y2]
  have c1 : sx = "5" ↔ x = 5 := by rw [digits_inj hx d5]; simp
  have c2 : sx = "6" ↔ x = 6 := by rw [digits_inj hx d6]; simp
  have c3 : sy = "14" ↔ 10 * y1 + y2 = 14 := by rw [digits_inj hy d14]; simp; omega
  have c4 : sy ≠ "0" := by intro h; rw [digits_inj hy d0] at h; simp at h
  simp only [versionOk, tupleLt, List.take_succ_cons, List.take_zero, VersionLt, e1, e2, e3, e4, e5, c1, c2, c3,
    if_neg c4, Bool.and_eq_true, Bool.not_eq_true']
  by_cases a : x = 5
  · subst a
    by_cases b : 10 * y1 + y2 = 14
    · simp [b]
    · simp [b]
  · by_cases b : x = 6
    · subst b; simp
    · simp [a, b]

theorem ltNats_one (z : Nat) (zs : List Nat) (h0 : z ≠ 0 ∨ zs = []) :
    ltNats ((z :: zs).map (· + 48)) [1 + 48] = decide (z = 0) := by
  simp only [List.map_cons, ltNats]
  by_cases h : z = 0
  · subst h; simp
  · rw [if_neg (by omega)]
    by_cases h1 : 1 < z
    · rw [if_pos (by omega)]; simp [h]
    · rw [if_neg (by omega)]; cases zs <;> simp [h, ltNats]

theorem foldl_digits_ge (zs : List Nat) : ∀ a, a ≤ zs.foldl (fun a d => 10 * a + d) a := by
  induction zs with
  | nil => intro a; exact le_refl _
  | cons d zs ih => intro a; exact le_trans (by omega) (ih (10 * a + d))

/-- C49, versions of kaleido with a one digit major and a one digit minor number, and a patch number without leading
zeros, are tested correctly. -/
theorem C49_kaleido_partial (sx sy sz : String) (x y z : Nat) (zs : List Nat)
    (hx : Digits sx [x]) (hy : Digits sy [y]) (hz : Digits sz (z :: zs)) (h0 : z ≠ 0 ∨ zs = []) :
    versionOk [sx, sy, sz] ["0", "2", "1"] ["0", "3", "0"] = true ↔
      ¬ VersionLt [x, y, valueOf (z :: zs)] [0, 2, 1] ∧ VersionLt [x, y, valueOf (z :: zs)] [0, 3, 0] := by
  have d0 : Digits "0" [0] := ⟨by decide, by decide⟩
  have d1 : Digits "1" [1] := ⟨by decide, by decide⟩
  have d2 : Digits "2" [2] := ⟨by decide, by decide⟩
  have d3 : Digits "3" [3] := ⟨by decide, by decide⟩
  have hval : valueOf (z :: zs) = 0 ↔ z = 0 := by
    unfold valueOf
    simp only [List.foldl_cons, Nat.mul_zero, Nat.zero_add]
    constructor
    · intro h; have := foldl_digits_ge zs z; omega
    · rintro rfl
      rcases h0 with h | rfl
      · exact absurd rfl h
      · rfl
  have e1 : strLt sx "0" = false := by rw [strLt_eq hx d0]; exact ltNats_zero x []
  have e2 : strLt sy "2" = decide (y < 2) := by rw [strLt_eq hy d2]; exact ltNats_digits1 y 2
  have e3 : strLt sy "3" = decide (y < 3) := by rw [strLt_eq hy d3]; exact ltNats_digits1 y 3
  have e4 : strLt sz "0" = false := by rw [strLt_eq hz d0]; exact ltNats_zero z zs
  have e5 : strLt sz "1" = decide (z = 0) := by rw [strLt_eq hz d1]; exact ltNats_one z zs h0
  have c1 : sx = "0" ↔ x = 0 := by rw [digits_inj hx d0]; simp
  have c2 : sy = "2" ↔ y = 2 := by rw [digits_inj hy d2]; simp
  have c3 : sy = "3" ↔ y = 3 := by rw [digits_inj hy d3]; simp
  have c4 : sz = "1" → z ≠ 0 := by
    intro h hz0; rw [digits_inj hz d1] at h; rw [hz0] at h; simp at h
  simp only [versionOk, tupleLt, List.take_succ_cons, List.take_zero, VersionLt, e1, e2, e3, e4, e5, c1, c2, c3,
    Bool.and_eq_true, Bool.not_eq_true']
  by_cases a : x = 0
  · subst a
    by_cases b : y = 2
    · subst b
      by_cases c : sz = "1"
      · have := c4 c
        have hv : valueOf (z :: zs) ≠ 0 := fun h => this (hval.1 h)
        simp [c, Nat.lt_one_iff, hv]
      · simp [c, Nat.lt_one_iff, hval]
    · by_cases b3 : y = 3
      · subst b3; simp
      · simp [b, b3]
  · simp [a]

/-- C49 is false of the code: plotly 5.9.0 is accepted although 5.9.0 < 5.14.0, and 5.100.0 is
rejected although 5.14.0 <= 5.100.0 < 6.0.0; kaleido 0.20.0 is accepted although 0.3.0 <= 0.20.0. -/
theorem C49_refuted_version :
    (versionOk ["5", "9", "0"] ["5", "14", "0"] ["6", "0", "0"] = true ∧ VersionLt [5, 9, 0] [5, 14, 0]) ∧
    (versionOk ["5", "100", "0"] ["5", "14", "0"] ["6", "0", "0"] = false ∧
      ¬ VersionLt [5, 100, 0] [5, 14, 0] ∧ VersionLt [5, 100, 0] [6, 0, 0]) ∧
    (versionOk ["0", "20", "0"] ["0", "2", "1"] ["0", "3", "0"] = true ∧ ¬ VersionLt [0, 20, 0] [0, 3, 0]) := by
  refine ⟨⟨by decide +kernel, by decide⟩, by decide +kernel, by decide, by decide⟩

/-- an environment with plotly 5.18.0 and kaleido 0.2.1 in which every path is a directory -/
def fullEnv : Env := ⟨some ["5", "18", "0"], some ["0", "2", "1"], fun _ => true, fun _ => true⟩

/-- C49 is false of the code: a file name with a newline is accepted, for every object. -/
theorem C49_refuted_name (A : Arith) (i : Inst) :
    ¬ ProperName "plot\n" ∧
    (step A i (.settings fullEnv (.dict [(.str "figure", .dict [(.str "export",
      .dict [(.str "type", .str "html"), (.str "path", .str "/tmp"),
             (.str "file_name", .str "plot\n")])])]))).2 = .ok := by
  have hplot : ProperName "plot" := by unfold ProperName; decide
  constructor
  · intro h
    have := h.2.2 '\n' (by decide)
    revert this; decide
  · rw [C49_partial A i fullEnv _ true 60 (.int 1)
      ⟨Or.inl ⟨Or.inl rfl, rfl⟩, Or.inl ⟨rfl, rfl⟩, Or.inl ⟨Or.inl rfl, rfl⟩⟩]
    refine Or.inr ⟨_, rfl, Or.inr ⟨⟨_, rfl, by decide +kernel⟩, Or.inr ⟨_, rfl, ⟨"/tmp", rfl, rfl, rfl⟩,
      Or.inr ⟨_, rfl, Or.inr ⟨"plot", hplot, by decide⟩⟩, Or.inl rfl⟩, Or.inl rfl⟩⟩

/-- C49 is false of the code: for html the documentation announces a SettingsError for an invalid
`width`, but every value is accepted, on every object. -/
theorem C49_refuted_html (A : Arith) (i : Inst) (v : PyVal) :
    (step A i (.settings fullEnv (.dict [(.str "figure", .dict [(.str "export",
      .dict [(.str "type", .str "html"), (.str "path", .str "/tmp"), (.str "width", v)])])]))).2 = .ok := by
  rw [C49_partial A i fullEnv _ true 60 (.int 1)
    ⟨Or.inl ⟨Or.inl rfl, rfl⟩, Or.inl ⟨rfl, rfl⟩, Or.inl ⟨Or.inl rfl, rfl⟩⟩]
  refine Or.inr ⟨_, rfl, Or.inr ⟨⟨_, rfl, by decide +kernel⟩, Or.inr ⟨_, rfl, ⟨"/tmp", rfl, rfl, rfl⟩,
    Or.inl (Or.inl rfl), Or.inl rfl⟩, Or.inl rfl⟩⟩

end HP
