import Verif.Props.Report
/-
Property C54: the files of exported figures.
-/
namespace HP
open Spec

/-! ### paths -/

theorem split_mid (post : List Char) : ∃ b B, ∀ mid : List Char, '/' ∉ mid →
    (mid ++ post).splitOn '/' = (mid ++ b) :: B := by
  cases h : post.splitOn '/' with
  | nil => exact absurd h (List.splitOn_ne_nil _ _)
  | cons b B =>
    refine ⟨b, B, ?_⟩
    intro mid
    induction mid with
    | nil => intro _; simpa using h
    | cons c cs ih =>
      intro hc
      simp only [List.mem_cons, not_or] at hc
      rw [List.cons_append, List.splitOn_cons_eq_if_modifyHead, ih hc.2]
      have : (c == '/') = false := by simpa using fun h => hc.1 h.symm
      rw [this]
      rfl

theorem split_pre (pre : List Char) : ∃ A a, ∀ x y Y, x.splitOn '/' = y :: Y →
    (pre ++ x).splitOn '/' = A ++ (a ++ y) :: Y := by
  induction pre with
  | nil => exact ⟨[], [], fun x y Y h => by simpa using h⟩
  | cons c cs ih =>
    obtain ⟨A, a, ih⟩ := ih
    by_cases hc : (c == '/') = true
    · refine ⟨[] :: A, a, ?_⟩
      intro x y Y h
      rw [List.cons_append, List.splitOn_cons_eq_if_modifyHead, ih x y Y h, hc]
      rfl
    · have hc' : (c == '/') = false := by simpa using hc
      cases A with
      | nil =>
        refine ⟨[], c :: a, ?_⟩
        intro x y Y h
        rw [List.cons_append, List.splitOn_cons_eq_if_modifyHead, ih x y Y h, hc']
        rfl
      | cons A0 A =>
        refine ⟨(c :: A0) :: A, a, ?_⟩
        intro x y Y h
        rw [List.cons_append, List.splitOn_cons_eq_if_modifyHead, ih x y Y h, hc']
        rfl

/-- ids without `/` give different files, whatever the directory, the name and the ending -/
theorem filePath_inj {dir name ext c1 c2 : String} (h1 : '/' ∉ c1.toList) (h2 : '/' ∉ c2.toList)
    (h : filePath dir (name ++ "__" ++ c1 ++ ext) = filePath dir (name ++ "__" ++ c2 ++ ext)) : c1 = c2 := by
  obtain ⟨b, B, hb⟩ := split_mid ext.toList
  obtain ⟨A, a, ha⟩ := split_pre name.toList
  have key : ∀ c : String, '/' ∉ c.toList → pathParts (name ++ "__" ++ c ++ ext).toList =
      A.filter (fun p => !(p.isEmpty || p == ['.'])) ++ ([a ++ ('_' :: '_' :: c.toList ++ b)] ++
        B.filter (fun p => !(p.isEmpty || p == ['.']))) := by
    intro c hc
    have hm : '/' ∉ ('_' :: '_' :: c.toList) := by simp [hc]
    have e := ha _ _ _ (hb _ hm)
    have es : (name ++ "__" ++ c ++ ext).toList = name.toList ++ ('_' :: '_' :: c.toList ++ ext.toList) := by
      simp only [String.toList_append, List.append_assoc]
      rfl
    unfold pathParts
    rw [es, e, List.filter_append, List.filter_cons]
    congr 1
    have : (!((a ++ ('_' :: '_' :: c.toList ++ b)).isEmpty || a ++ ('_' :: '_' :: c.toList ++ b) == ['.'])) = true := by
      have hne : (a ++ ('_' :: '_' :: c.toList ++ b)).length ≠ 1 := by simp; omega
      have hd : a ++ ('_' :: '_' :: c.toList ++ b) ≠ ['.'] := by
        intro h; rw [h] at hne; simp at hne
      simp only [Bool.not_eq_true', Bool.or_eq_false_iff, beq_eq_false_iff_ne, ne_eq]
      exact ⟨by simp, hd⟩
    rw [if_pos this]
    rfl
  unfold filePath at h
  rw [key c1 h1, key c2 h2] at h
  have h := List.append_cancel_left (List.append_cancel_left h)
  have h := List.append_cancel_right h
  simp only [List.cons.injEq, and_true] at h
  have h := List.append_cancel_left h
  simp only [List.cons_append, List.cons.injEq, true_and] at h
  exact String.toList_inj.1 (List.append_cancel_right h)

theorem fileName_inj {name ext c1 c2 : String} (h : name ++ "__" ++ c1 ++ ext = name ++ "__" ++ c2 ++ ext) : c1 = c2 := by
  have h := congrArg String.toList h
  simp only [String.toList_append] at h
  exact String.toList_inj.1 (List.append_cancel_left (List.append_cancel_right h))

/-! ### C54 -/

/-- the directory, name and ending used for all containers -/
theorem exportOne_form (writes : String → String → Bool) (ex : PyVal) : ∃ dir name ext : String,
    ∀ cid d f, exportOne writes ex cid = .ok (some (d, f)) → d = dir ∧ f = name ++ "__" ++ cid ++ ext := by
  by_cases ht : ex.truthy = true
  · cases hex : ex with
    | dict d =>
      cases hp : PyVal.get? d "path" with
      | some v =>
        cases v with
        | str path =>
          by_cases hh : ((PyVal.get? d "type").getD (.str "html")).eqStr "html" = true
          · refine ⟨path, ((PyVal.get? d "file_name").getD (.str "")).text, ".html", ?_⟩
            intro cid d' f h
            simp only [exportOne, hex ▸ ht, exportFile, hp, hh, Bool.not_true, Bool.false_eq_true, if_false, if_true] at h
            split at h
            · cases h; exact ⟨rfl, rfl⟩
            · cases h
          · refine ⟨path, ((PyVal.get? d "file_name").getD (.str "")).text,
              "." ++ ((PyVal.get? d "format").getD .none).text, ?_⟩
            intro cid d' f h
            simp only [exportOne, hex ▸ ht, exportFile, hp, hh, Bool.not_true, Bool.false_eq_true, if_false] at h
            split at h
            · cases hf : PyVal.get? d "format" with
              | none => rw [hf] at h; cases h
              | some fmt =>
                rw [hf] at h
                simp only at h
                split at h
                · cases h
                  refine ⟨rfl, ?_⟩
                  simp only [Option.getD_some, String.append_assoc]
                · cases h
            · cases h
        | _ =>
          refine ⟨"", "", "", ?_⟩
          intro cid d' f h
          simp only [exportOne, hex ▸ ht, exportFile, hp, Bool.not_true, Bool.false_eq_true, if_false] at h
          cases h
      | none =>
        refine ⟨"", "", "", ?_⟩
        intro cid d' f h
        simp only [exportOne, hex ▸ ht, exportFile, hp, Bool.not_true, Bool.false_eq_true, if_false] at h
        cases h
    | _ =>
      refine ⟨"", "", "", ?_⟩
      intro cid d' f h
      simp only [exportOne, hex ▸ ht, Bool.not_true, Bool.false_eq_true, if_false] at h
      cases h
  · refine ⟨"", "", "", ?_⟩
    intro cid d f h
    have : ex.truthy = false := by simpa using ht
    simp only [exportOne, this, Bool.not_false, if_true] at h
    cases h

theorem drawAll_files {writes : String → String → Bool} {i : Inst} {ex : PyVal} {shown : Bool} :
    ∀ {cs : List (String × Dim)} {ds : List Drawn}, drawAll writes i ex shown cs = .ok ds →
      List.Forall₂ (fun c d => d.figure.title = c.1 ∧ exportOne writes ex c.1 = .ok d.file) cs ds
  | [], ds, h => by
    simp only [drawAll] at h
    cases h; exact .nil
  | (cid, c) :: cs, ds, h => by
    simp only [drawAll, bind, Except.bind, pure, Except.pure] at h
    cases hd : drawContainer i cid c with
    | error e => rw [hd] at h; cases h
    | ok fig =>
      cases he : exportOne writes ex cid with
      | error e => rw [hd, he] at h; cases h
      | ok f =>
        cases hr : drawAll writes i ex shown cs with
        | error e => rw [hd, he, hr] at h; cases h
        | ok rest =>
          rw [hd, he, hr] at h
          cases h
          refine .cons ⟨?_, he⟩ (drawAll_files hr)
          simp only [drawContainer, bind, Except.bind, pure, Except.pure] at hd
          split at hd
          · cases hd
          · split at hd
            · cases hd
            · split at hd
              · cases hd
              · cases hd; rfl

/-- the files of two figures are different -/
def DifferentFiles (a b : Drawn) : Prop :=
  ∀ p q, a.file = some p → b.file = some q →
    p ≠ q ∧ ('/' ∉ a.figure.title.toList → '/' ∉ b.figure.title.toList → filePath p.1 p.2 ≠ filePath q.1 q.2)

/-- C54: the figures of different containers are written under different names in every successful
`create_figure`, with any settings.  The names denote different files if the ids contain no `/`; with
`/` in ids they may not (C54_refuted): the missing part. -/
theorem C54_partial (A : Arith) (i : Inst) (h : Reach A i) (writes : String → String → Bool) (show_ : Bool)
    (ds : List Drawn) (hd : i.createFigure writes show_ = .ok ds) : ds.Pairwise DifferentFiles := by
  have hv := h.good.valid
  unfold Inst.createFigure at hd
  split at hd
  · cases hd; exact .nil
  · split at hd
    · cases hd
    · split at hd
      · cases hd
      · split at hd
        · cases hd
        · split at hd
          · dsimp only at hd
            split at hd
            · cases hd; exact .nil
            · rename_i fig _ _
              have hf := drawAll_files hd
              obtain ⟨dir, name, ext, hform⟩ := exportOne_form writes (PyVal.getD fig "export")
              have hn : (i.containers.map (·.1)).Nodup := hv.conts.1
              generalize i.containers = cs at hf hn
              clear hd
              induction hf with
              | nil => exact .nil
              | @cons c d cs ds hcd hrest ih =>
                rw [List.map_cons, List.nodup_cons] at hn
                refine .cons ?_ (ih hn.2)
                intro e he p q hp hq
                obtain ⟨c', hc', hce⟩ : ∃ c' ∈ cs, e.figure.title = c'.1 ∧
                    exportOne writes (PyVal.getD fig "export") c'.1 = .ok e.file := by
                  clear ih hn hcd
                  induction hrest with
                  | nil => simp at he
                  | @cons c1 d1 cs1 ds1 h1 _ ih =>
                    rcases List.mem_cons.1 he with rfl | he
                    · exact ⟨c1, by simp, h1⟩
                    · obtain ⟨c', h2, h3⟩ := ih he
                      exact ⟨c', by simp [h2], h3⟩
                have hne : c.1 ≠ c'.1 := by
                  intro h; exact hn.1 (h ▸ List.mem_map_of_mem hc')
                have h1 := hform c.1 p.1 p.2 (by rw [hcd.2, hp])
                have h2 := hform c'.1 q.1 q.2 (by rw [hce.2, hq])
                constructor
                · rintro rfl
                  exact hne (fileName_inj (h1.2.symm.trans h2.2))
                · intro s1 s2 heq
                  rw [hcd.1] at s1; rw [hce.1] at s2
                  rw [h1.1, h1.2, h2.1, h2.2] at heq
                  exact hne (filePath_inj s1 s2 heq)
          · cases hd

/-- containers "a/b" and "a//b", html export -/
def slashed : Inst := { rawInst false [("a/b", ⟨2, 2⟩), ("a//b", ⟨2, 2⟩)] [("x", ⟨1, 1⟩)] none
    (.dict [(.str "figure", .dict [(.str "export",
      .dict [(.str "type", .str "html"), (.str "path", .str "/tmp"), (.str "file_name", .str "plot")])])]) with
  rotation := true, maxTime := 60, workers := .int 1,
  plotlyInstalled := true, plotlyOk := true, kaleidoInstalled := true, kaleidoOk := true }

theorem slashed_reach (A : Arith) : Reach A slashed :=
  .new (show mkInst fullEnv (.dict [(.str "a/b", .dict [(.str "W", .int 2), (.str "L", .int 2)]),
      (.str "a//b", .dict [(.str "W", .int 2), (.str "L", .int 2)])])
    (.dict [(.str "x", .dict [(.str "w", .int 1), (.str "l", .int 1)])])
    (.dict [(.str "figure", .dict [(.str "export",
      .dict [(.str "type", .str "html"), (.str "path", .str "/tmp"), (.str "file_name", .str "plot")])])])
    .none = .ok slashed by rfl)

/-- C54 is false of the code: the figures of containers "a/b" and "a//b" go to the same file. -/
theorem C54_refuted : ∃ (i : Inst), Reach Arith.exact i ∧ ∃ d1 d2 p q,
    (i.createFigure (fun _ _ => true) false).toOption = some [d1, d2] ∧
    d1.figure.title ≠ d2.figure.title ∧ d1.file = some p ∧ d2.file = some q ∧
    filePath p.1 p.2 = filePath q.1 q.2 := by
  refine ⟨(step Arith.exact slashed (.solve none)).1, .step _ (slashed_reach _),
    ⟨⟨"a/b", 2, 2, [⟨0, 0, 1, 1, some "x", some 0⟩, ⟨0, 0, 2, 2, none, none⟩]⟩, some ("/tmp", "plot__a/b.html"), false⟩,
    ⟨⟨"a//b", 2, 2, [⟨0, 0, 2, 2, none, none⟩]⟩, some ("/tmp", "plot__a//b.html"), false⟩, _, _, ?_, ?_, rfl, rfl, ?_⟩
  · decide +kernel
  · decide
  · decide +kernel

/-- the export setting of `plotted` -/
def plottedExport : List (PyVal × PyVal) :=
  [(.str "type", .str "html"), (.str "path", .str "/tmp"), (.str "file_name", .str "plot")]

/-- two containers, three items, html export -/
def plotted : Inst := { rawInst false [("c1", ⟨4, 3⟩), ("c2", ⟨2, 2⟩)]
    [("a", ⟨2, 3⟩), ("b", ⟨4, 1⟩), ("c", ⟨2, 2⟩)] none
    (.dict [(.str "figure", .dict [(.str "export", .dict plottedExport)])]) with
  rotation := true, maxTime := 60, workers := .int 1,
  plotlyInstalled := true, plotlyOk := true, kaleidoInstalled := true, kaleidoOk := true }

/-- the same after `solve()` -/
def plottedSolved : Inst := { plotted with
  solution := [("c1", [("a", ⟨0, 0, 2, 3⟩), ("c", ⟨2, 0, 2, 2⟩)]), ("c2", [])],
  objVals := [("c1", 5 / 6), ("c2", 0)] }

theorem plottedSolved_reach : Reach Arith.exact plottedSolved := by
  have h0 : Reach Arith.exact plotted := .new (show mkInst fullEnv problemConts problemItems
    (.dict [(.str "figure", .dict [(.str "export", .dict plottedExport)])]) .none = .ok plotted by rfl)
  have h : HP.solve Arith.exact plotted.solveIn none = .ok (plottedSolved.solution, plottedSolved.objVals) := by
    decide +kernel
  have hst : step Arith.exact plotted (.solve none) = (plottedSolved, .ok) := by
    simp only [step, Inst.solve, bind, Except.bind, pure, Except.pure]
    rw [h]
    rfl
  have := Reach.step (.solve none) h0
  rw [hst] at this
  exact this

theorem plottedSolved_asked : FigureAsked plottedSolved [(.str "export", .dict plottedExport)]
    (fun cid => some ("/tmp", figureName "plot" cid "html")) false false where
  plotly := ⟨rfl, rfl⟩
  settings := ⟨_, rfl, Or.inl rfl⟩
  file := Or.inr ⟨plottedExport, "/tmp", "plot", "html", rfl, ⟨rfl, Or.inl rfl, Or.inl ⟨Or.inl rfl, rfl⟩⟩, rfl⟩
  display := by
    constructor
    · intro h; cases h
    · rintro (h | h)
      · exact h
      · exact absurd (Or.inl rfl) h
  asked := Or.inr (by intro h; cases h)

theorem plottedSolved_short (writes : String → String → Bool) (c : String × Dim)
    (_hc : c ∈ plottedSolved.containers)
    (hw : Written writes (some ("/tmp", figureName "plot" c.1 "html"))) :
    Drawable plottedSolved writes (fun cid => some ("/tmp", figureName "plot" cid "html")) c := by
  refine ⟨?_, hw⟩
  intro m hm
  simp only [plottedSolved, List.mem_cons, Prod.mk.injEq, List.not_mem_nil, or_false] at hm
  rcases hm with ⟨_, rfl⟩ | ⟨_, rfl⟩ <;> simp

/-- C53 on the same problem: the file of the second container cannot be written -/
example : step Arith.exact plottedSolved (.figure (fun _ f => f != "plot__c2.html") false) =
    (plottedSolved, .raised (.figureExportError "FIGURE_EXPORT")) := by
  refine (C53_partial Arith.exact _ plottedSolved_reach (by simp [plottedSolved]) _ _ _ _
      plottedSolved_asked _).2 ("c2", ⟨2, 2⟩) [] ⟨[("c1", ⟨4, 3⟩)], [], rfl, ?_, ?_⟩ (by simp [plottedSolved])
  · intro x hx
    simp only [List.mem_singleton] at hx
    subst hx
    refine plottedSolved_short _ _ (by decide) ?_
    intro d n h
    injection h with h; injection h with _ h
    subst h
    exact (by decide : (figureName "plot" "c1" "html" != "plot__c2.html") = true)
  · rintro ⟨_, h⟩
    exact absurd (h _ _ rfl) (by decide)

/-- C53, C54 on a concrete problem: two figures in two files -/
example : (∃ ds, plottedSolved.createFigure (fun _ _ => true) false = .ok ds ∧
      List.Forall₂ (DrawnOf plottedSolved false (fun cid => some ("/tmp", figureName "plot" cid "html")))
        plottedSolved.containers ds ∧ ds.Pairwise DifferentFiles) ∧
    ((plottedSolved.createFigure (fun _ _ => true) false).toOption.map (List.map (·.file))) =
      some [some ("/tmp", "plot__c1.html"), some ("/tmp", "plot__c2.html")] := by
  constructor
  · obtain ⟨ds, h1, h2⟩ := (C53_partial Arith.exact _ plottedSolved_reach (by simp [plottedSolved]) _ _ _ _
      plottedSolved_asked (fun _ _ => true)).1 (fun c hc => plottedSolved_short (fun _ _ => true) c hc (fun _ _ _ => rfl))
    exact ⟨ds, h1, h2, C54_partial Arith.exact _ plottedSolved_reach _ _ _ h1⟩
  · decide +kernel

end HP
