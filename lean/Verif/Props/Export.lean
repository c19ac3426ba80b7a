import Verif.Props.Files
import Verif.SpecExport
/-
Property C100: the effects of `create_figure` on files and browser, also when it stops half-way.
-/
namespace HP
open Spec

/-- the path of the file of a container -/
def pathOf (file : String → Option (String × String)) (cid : String) : Option (List (List Char)) :=
  (file cid).map (fun q => filePath q.1 q.2)

/-- the effects of the containers `done`: exported, and shown if that is asked -/
def DoneFor (i : Inst) (ex : PyVal) (file : String → Option (String × String)) (shown : Bool)
    (done : List (String × Dim)) (s s' : FigWorld) : Prop :=
  Exported (FigureOf i) ex (pathOf file) done s.disk s'.disk ∧
  ∃ figs, List.Forall₂ (FigureOf i) done figs ∧ s'.shown = s.shown ++ (if shown then figs else [])

/-- the file of a container can be written, or none is asked for -/
def CanWrite (io : FigIO) (file : String → Option (String × String)) (cid : String) : Prop :=
  ∀ d n, file cid = some (d, n) → io.write d n = none

/-- at most 1000 placed items in the container -/
def FewItems (i : Inst) (cid : String) : Prop := ∀ m, (cid, m) ∈ i.solution → m.length ≤ 1000

/-- nothing goes wrong with a container -/
def GoesWell (i : Inst) (io : FigIO) (file : String → Option (String × String)) (shown : Bool) (c : String × Dim) : Prop :=
  FewItems i c.1 ∧ CanWrite io file c.1 ∧ (shown = true → io.shows c.1 = true)

theorem imageSize_spec (ex : List (PyVal × PyVal)) (key : String) : ImageSize ex key (imageSize ex key) := by
  unfold imageSize
  cases h : PyVal.get? ex key with
  | none => exact Or.inr ⟨Or.inl h, rfl⟩
  | some v =>
    by_cases ht : v.truthy = true
    · simp only [ht, if_true]; exact Or.inl ⟨h, truthy_iff.1 ht⟩
    · simp only [ht, if_false]
      refine Or.inr ⟨Or.inr ⟨v, h, ?_⟩, rfl⟩
      by_cases hc : CountsFalse v
      · exact hc
      · exact absurd (truthy_iff.2 hc) ht

/-- what `exportOneDisk` does for an export that can be carried out -/
theorem exportOneDisk_eq {ex : PyVal} {file : String → Option (String × String)} (h : ExportCase ex file)
    (io : FigIO) (cid : String) (fig : Figure) (k : Disk) :
    (file cid = none → ex = .none ∧ exportOneDisk io ex cid fig k = (k, none)) ∧
    (∀ d n, file cid = some (d, n) → ∃ l c, ex = .dict l ∧ ContentOf l fig c ∧
      (∀ k', exportOneDisk io ex cid fig k' = match io.write d n with
        | none => (k'.set (filePath d n) c, none)
        | some rest => (k'.set (filePath d n) rest, some (.figureExportError "FIGURE_EXPORT")))) := by
  rcases h with ⟨rfl, rfl⟩ | ⟨d, dir, name, ext, rfl, ⟨h1, h2, h3⟩, rfl⟩
  · exact ⟨fun _ => ⟨rfl, rfl⟩, fun _ _ h => by cases h⟩
  · refine ⟨fun h => (by cases h), ?_⟩
    intro d' n hf
    injection hf with hf; injection hf with hf1 hf2
    subst hf1
    have hd : d ≠ [] := by rintro rfl; simp [PyVal.get?] at h1
    have ht : (PyVal.dict d).truthy = true := by cases d <;> simp_all [PyVal.truthy]
    have hn : ((PyVal.get? d "file_name").getD (.str "")).text = name := by
      rcases h2 with h2 | ⟨h2, rfl⟩ <;> rw [h2] <;> rfl
    rcases h3 with ⟨h3, rfl⟩ | ⟨h3, h4⟩
    · refine ⟨d, .page fig, rfl, Or.inl ⟨h3, rfl⟩, ?_⟩
      intro k'
      unfold exportOneDisk
      rw [ht]
      simp only [Bool.not_true, Bool.false_eq_true, if_false]
      unfold exportDisk
      simp only [h1, hn]
      have t1 : ((PyVal.get? d "type").getD (.str "html")).eqStr "html" = true := by
        rcases h3 with h3 | h3 <;> rw [h3] <;> rfl
      rw [t1]
      have e : name ++ "__" ++ cid ++ ".html" = n := by
        rw [← hf2]
        unfold figureName
        rw [show (".html" : String) = "." ++ "html" by decide, ← String.append_assoc]
      simp only [if_true, e, writeFigure]
      cases io.write dir n <;> rfl
    · refine ⟨d, .image fig ext (imageSize d "width") (imageSize d "height"), rfl,
        Or.inr ⟨h3, ext, _, _, h4, imageSize_spec _ _, imageSize_spec _ _, rfl⟩, ?_⟩
      intro k'
      unfold exportOneDisk
      rw [ht]
      simp only [Bool.not_true, Bool.false_eq_true, if_false]
      unfold exportDisk
      simp only [h1, hn]
      have t1 : ((PyVal.get? d "type").getD (.str "html")).eqStr "html" = false := by rw [h3]; rfl
      have t2 : ((PyVal.get? d "type").getD (.str "html")).eqStr "image" = true := by rw [h3]; rfl
      rw [t1, t2, h4]
      have e : name ++ "__" ++ cid ++ "." ++ (PyVal.str ext).text = n := hf2
      simp only [if_true, Bool.false_eq_true, if_false, e, writeFigure]
      cases io.write dir n <;> rfl

theorem exported_nil {F : String × Dim → Figure → Prop} {ex : PyVal} {path : String → Option (List (List Char))} (k : Disk) :
    Exported F ex path [] k k :=
  ⟨fun _ _ => rfl, by rintro p c ⟨a, b, h, _⟩; simp at h⟩

theorem exported_cons {F : String × Dim → Figure → Prop} {ex : PyVal} {path : String → Option (List (List Char))}
    {c : String × Dim} {cs : List (String × Dim)} {k k1 k2 : Disk} (h1 : Exported F ex path [c] k k1)
    (h2 : Exported F ex path cs k1 k2) : Exported F ex path (c :: cs) k k2 := by
  constructor
  · intro p hp
    rw [h2.1 p (fun x hx => hp x (by simp [hx])), h1.1 p (fun x hx => hp x (by simp_all))]
  · rintro p x ⟨a, b, heq, hx, hb⟩
    cases a with
    | nil =>
      simp only [List.nil_append, List.cons.injEq] at heq
      obtain ⟨rfl, rfl⟩ := heq
      rw [h2.1 p hb]
      exact h1.2 p c ⟨[], [], rfl, hx, by simp⟩
    | cons y a =>
      simp only [List.cons_append, List.cons.injEq] at heq
      obtain ⟨rfl, rfl⟩ := heq
      exact h2.2 p x ⟨a, b, rfl, hx, hb⟩

theorem exported_one {i : Inst} {ex : PyVal} {file : String → Option (String × String)} {c : String × Dim} {k : Disk}
    {fig : Figure} (hfig : FigureOf i c fig) {d n : String} (hf : file c.1 = some (d, n)) {l : List (PyVal × PyVal)}
    {ct : FileContent} (hex : ex = .dict l) (hct : ContentOf l fig ct) :
    Exported (FigureOf i) ex (pathOf file) [c] k (k.set (filePath d n) ct) := by
  have hp : pathOf file c.1 = some (filePath d n) := by unfold pathOf; rw [hf]; rfl
  constructor
  · intro p h
    have := h c (by simp)
    rw [hp] at this
    unfold Disk.set
    rw [if_neg (fun e => this (by rw [e]))]
  · rintro p x ⟨a, b, heq, hx, _⟩
    have hxc : x = c := by
      have : x ∈ [c] := by rw [heq]; simp
      simpa using this
    subst hxc
    rw [hp] at hx; injection hx with hx
    refine ⟨l, fig, hex, hfig, ?_⟩
    unfold Disk.set
    rw [if_pos hx.symm]; exact hct

theorem exported_none {i : Inst} {ex : PyVal} {file : String → Option (String × String)} {c : String × Dim} {k : Disk}
    (hf : file c.1 = none) : Exported (FigureOf i) ex (pathOf file) [c] k k := by
  have hp : pathOf file c.1 = none := by unfold pathOf; rw [hf]; rfl
  refine ⟨fun _ _ => rfl, ?_⟩
  rintro p x ⟨a, b, heq, hx, _⟩
  have hxc : x = c := by
    have : x ∈ [c] := by rw [heq]; simp
    simpa using this
  subst hxc
  rw [hp] at hx; cases hx

/-- the figure of a container of a reachable object, if there are few items -/
theorem drawContainer_ok {A : Arith} {i : Inst} (h : Reach A i) (hs : i.solution ≠ []) {c : String × Dim}
    (hc : c ∈ i.containers) :
    (FewItems i c.1 → ∃ fig, FigureOf i c fig ∧ drawContainer i c.1 c.2 = .ok fig) ∧
    (¬ FewItems i c.1 → drawContainer i c.1 c.2 = .error .indexError) := by
  have hv := h.good.valid
  obtain ⟨cid, c⟩ := c
  obtain ⟨m, hm, hd⟩ := drawContainer_eq h hs hc
  have huniq : ∀ m', (cid, m') ∈ i.solution → m' = m := by
    intro m' hm'
    rcases C43_current A i h with ⟨h0, _⟩ | ⟨h1, _, _, _⟩
    · exact absurd h0 hs
    · have hn : (PyDict.keys i.solution).Nodup := by
        show (i.solution.map (·.1)).Nodup
        rw [h1]; exact hv.conts.1
      have a := PyDict.find?_of_mem hn hm
      have b := PyDict.find?_of_mem hn hm'
      rw [a] at b; injection b with b; exact b.symm
  constructor
  · intro hf
    rw [if_pos (hf m hm)] at hd
    exact ⟨_, ⟨m, hm, rfl, rfl, rfl, rfl⟩, hd⟩
  · intro hf
    have : ¬ m.length ≤ 1000 := fun hl => hf (fun m' hm' => by rw [huniq m' hm']; exact hl)
    rw [if_neg this] at hd
    exact hd

/-- one container that goes well, and the rest -/
theorem drawAllDisk_cons {A : Arith} {i : Inst} (h : Reach A i) (hs : i.solution ≠ []) {ex : PyVal}
    {file : String → Option (String × String)} (hex : ExportCase ex file) (io : FigIO) (shown : Bool)
    {c : String × Dim} (hc : c ∈ i.containers) (cs : List (String × Dim)) (s : FigWorld) :
    (FewItems i c.1 → CanWrite io file c.1 →
      ∃ fig k, FigureOf i c fig ∧ Exported (FigureOf i) ex (pathOf file) [c] s.disk k ∧
        ((shown = true → io.shows c.1 = true) → drawAllDisk io i ex shown (c :: cs) s =
          drawAllDisk io i ex shown cs ⟨k, s.shown ++ (if shown then [fig] else [])⟩) ∧
        (shown = true → io.shows c.1 = false → drawAllDisk io i ex shown (c :: cs) s = (⟨k, s.shown⟩, .showFailed))) ∧
    (FewItems i c.1 → ∀ d n rest, file c.1 = some (d, n) → io.write d n = some rest →
      drawAllDisk io i ex shown (c :: cs) s =
        ({ s with disk := s.disk.set (filePath d n) rest }, .raised (.figureExportError "FIGURE_EXPORT"))) ∧
    (¬ FewItems i c.1 → drawAllDisk io i ex shown (c :: cs) s = (s, .raised .indexError)) := by
  obtain ⟨h1, h2⟩ := drawContainer_ok h hs hc
  refine ⟨?_, ?_, ?_⟩
  · intro hf hw
    obtain ⟨fig, hfig, hd⟩ := h1 hf
    obtain ⟨e1, e2⟩ := exportOneDisk_eq hex io c.1 fig s.disk
    have key : ∃ k, Exported (FigureOf i) ex (pathOf file) [c] s.disk k ∧ exportOneDisk io ex c.1 fig s.disk = (k, none) := by
      cases hfile : file c.1 with
      | none => exact ⟨s.disk, exported_none hfile, (e1 hfile).2⟩
      | some q =>
        obtain ⟨d, n⟩ := q
        obtain ⟨l, ct, g1, g2, g3⟩ := e2 d n hfile
        refine ⟨_, exported_one hfig hfile g1 g2, ?_⟩
        rw [g3, hw d n hfile]
    obtain ⟨k, hk, hexp⟩ := key
    refine ⟨fig, k, hfig, hk, ?_, ?_⟩
    · intro hsh
      obtain ⟨cid, cd⟩ := c
      conv => lhs; unfold drawAllDisk
      simp only at hd hexp
      rw [hd]
      simp only [hexp]
      cases shown with
      | false => simp
      | true =>
        have := hsh rfl
        simp only at this
        simp [this]
    · intro hsh hno
      obtain ⟨cid, cd⟩ := c
      conv => lhs; unfold drawAllDisk
      simp only at hd hexp hno
      rw [hd]
      simp [hexp, hsh, hno]
  · intro hf d n rest hfile hw
    obtain ⟨fig, hfig, hd⟩ := h1 hf
    obtain ⟨l, ct, g1, g2, g3⟩ := (exportOneDisk_eq hex io c.1 fig s.disk).2 d n hfile
    have hexp := g3 s.disk
    rw [hw] at hexp
    obtain ⟨cid, cd⟩ := c
    conv => lhs; unfold drawAllDisk
    simp only at hd hexp
    rw [hd]
    simp [hexp]
  · intro hf
    have hd := h2 hf
    obtain ⟨cid, cd⟩ := c
    conv => lhs; unfold drawAllDisk
    simp only at hd
    rw [hd]

/-- the containers `pre` go well: what is left to do starts from their effects -/
theorem drawAllDisk_append {A : Arith} {i : Inst} (h : Reach A i) (hs : i.solution ≠ []) {ex : PyVal}
    {file : String → Option (String × String)} (hex : ExportCase ex file) (io : FigIO) (shown : Bool)
    (post : List (String × Dim)) :
    ∀ (pre : List (String × Dim)), (∀ c ∈ pre, c ∈ i.containers) → (∀ c ∈ pre, GoesWell i io file shown c) →
      ∀ s, ∃ s', DoneFor i ex file shown pre s s' ∧
        drawAllDisk io i ex shown (pre ++ post) s = drawAllDisk io i ex shown post s'
  | [], _, _, s => ⟨s, ⟨exported_nil _, [], .nil, by simp⟩, rfl⟩
  | c :: pre, hsub, hg, s => by
    obtain ⟨g1, g2, g3⟩ := hg c (by simp)
    obtain ⟨fig, k, f1, f2, f3, _⟩ := (drawAllDisk_cons h hs hex io shown (hsub c (by simp)) (pre ++ post) s).1 g1 g2
    obtain ⟨s', ⟨d1, figs, d2, d3⟩, d4⟩ := drawAllDisk_append h hs hex io shown post pre
      (fun x hx => hsub x (by simp [hx])) (fun x hx => hg x (by simp [hx])) ⟨k, s.shown ++ (if shown then [fig] else [])⟩
    refine ⟨s', ⟨exported_cons f2 d1, fig :: figs, .cons f1 d2, ?_⟩, ?_⟩
    · rw [d3]; cases shown <;> simp
    · show drawAllDisk io i ex shown (c :: (pre ++ post)) s = _
      rw [f3 g3, d4]

theorem runFigure_asked {i : Inst} (hs : i.solution ≠ []) {fig : List (PyVal × PyVal)}
    {file : String → Option (String × String)} {show_ shown : Bool} (h : FigureAsked i fig file show_ shown)
    (io : FigIO) (s : FigWorld) :
    i.runFigure io show_ s = drawAllDisk io i (PyVal.getD fig "export") shown i.containers s := by
  obtain ⟨hp, ⟨st, hst, hfig⟩, hex, hsh, hreq⟩ := h
  have hsh : shown = ((PyVal.getD fig "show").truthy || show_) := by
    rw [Bool.eq_iff_iff, hsh, Bool.or_eq_true, truthy_iff, or_comm]
  unfold Inst.runFigure
  have hne : i.solution.isEmpty = false := by simpa using hs
  rw [hne, hp.1, hp.2, hst]
  simp only [Bool.false_eq_true, if_false, Bool.not_true, PyVal.asDict?]
  have hf : (PyVal.get? st "figure").getD (.dict []) = .dict fig := by
    rcases hfig with hf | ⟨hf, rfl⟩ <;> rw [hf] <;> rfl
  rw [hf]
  simp only
  rw [← hsh, if_neg]
  intro hcon
  simp only [Bool.and_eq_true, Bool.not_eq_true'] at hcon
  rcases hreq with hr | hr
  · rw [hr] at hcon; exact absurd hcon.1 (by simp)
  · exact hr (isNone_iff.1 hcon.2)

/-- C100: if every container goes well, `create_figure` succeeds; every file of a container then holds
the figure of that container (of the last one, if several have the same path), every other file is as
it was, and the figures of all containers, in their order, were shown if that was asked. -/
theorem C100_complete (A : Arith) (i : Inst) (h : Reach A i) (hs : i.solution ≠ [])
    (fig : List (PyVal × PyVal)) (file : String → Option (String × String)) (show_ shown : Bool)
    (ha : FigureAsked i fig file show_ shown) (io : FigIO) (s : FigWorld)
    (hw : ∀ c ∈ i.containers, GoesWell i io file shown c) :
    ∃ s', i.runFigure io show_ s = (s', .ok) ∧
      DoneFor i (PyVal.getD fig "export") file shown i.containers s s' := by
  obtain ⟨s', h1, h2⟩ := drawAllDisk_append h hs ha.file io shown [] i.containers (fun _ h => h) hw s
  refine ⟨s', ?_, h1⟩
  rw [runFigure_asked hs ha, ← List.append_nil i.containers, h2]
  rfl

/-- C100: `create_figure` stops at the first container that does not go well.  The containers before
it have their files and were shown, the containers after it were not touched; if it has more than 1000
items (IndexError) nothing was done for it, if its file could not be written (FigureExportError) it was
not shown and only its own file is damaged, and if it could not be shown its file was written. -/
theorem C100_stopped (A : Arith) (i : Inst) (h : Reach A i) (hs : i.solution ≠ [])
    (fig : List (PyVal × PyVal)) (file : String → Option (String × String)) (show_ shown : Bool)
    (ha : FigureAsked i fig file show_ shown) (io : FigIO) (s : FigWorld)
    (pre post : List (String × Dim)) (c : String × Dim) (hcs : i.containers = pre ++ c :: post)
    (hpre : ∀ x ∈ pre, GoesWell i io file shown x) :
    ∃ s1, DoneFor i (PyVal.getD fig "export") file shown pre s s1 ∧
      (¬ FewItems i c.1 → i.runFigure io show_ s = (s1, .raised .indexError)) ∧
      (FewItems i c.1 → ∀ d n rest, file c.1 = some (d, n) → io.write d n = some rest →
        i.runFigure io show_ s =
          (⟨s1.disk.set (filePath d n) rest, s1.shown⟩, .raised (.figureExportError "FIGURE_EXPORT"))) ∧
      (FewItems i c.1 → CanWrite io file c.1 → shown = true → io.shows c.1 = false →
        ∃ k, Exported (FigureOf i) (PyVal.getD fig "export") (pathOf file) [c] s1.disk k ∧
          i.runFigure io show_ s = (⟨k, s1.shown⟩, .showFailed)) := by
  have hsub : ∀ x ∈ pre, x ∈ i.containers := fun x hx => by rw [hcs]; simp [hx]
  have hc : c ∈ i.containers := by rw [hcs]; simp
  obtain ⟨s1, h1, h2⟩ := drawAllDisk_append h hs ha.file io shown (c :: post) pre hsub hpre s
  have hrun : i.runFigure io show_ s = drawAllDisk io i (PyVal.getD fig "export") shown (c :: post) s1 := by
    rw [runFigure_asked hs ha, hcs, h2]
  obtain ⟨g1, g2, g3⟩ := drawAllDisk_cons h hs ha.file io shown hc post s1
  refine ⟨s1, h1, ?_, ?_, ?_⟩
  · intro hf; rw [hrun, g3 hf]
  · intro hf d n rest e1 e2; rw [hrun, g2 hf d n rest e1 e2]
  · intro hf hw hsh hno
    obtain ⟨f, k, _, k1, _, k2⟩ := g1 hf hw
    exact ⟨k, k1, by rw [hrun, k2 hsh hno]⟩

theorem exportOneDisk_other {ex : PyVal} {file : String → Option (String × String)} (hex : ExportCase ex file)
    (io : FigIO) (cid : String) (fig : Figure) (k : Disk) (p : List (List Char)) (hp : pathOf file cid ≠ some p) :
    (exportOneDisk io ex cid fig k).1 p = k p := by
  obtain ⟨e1, e2⟩ := exportOneDisk_eq hex io cid fig k
  cases hf : file cid with
  | none => rw [(e1 hf).2]
  | some q =>
    obtain ⟨d, n⟩ := q
    obtain ⟨l, c, _, _, e3⟩ := e2 d n hf
    have hne : p ≠ filePath d n := by
      rintro rfl; exact hp (by unfold pathOf; rw [hf]; rfl)
    rw [e3]
    cases io.write d n <;> simp [Disk.set, hne]

theorem drawAllDisk_other {i : Inst} {ex : PyVal} {file : String → Option (String × String)} (hex : ExportCase ex file)
    (io : FigIO) (shown : Bool) (p : List (List Char)) :
    ∀ (cs : List (String × Dim)), (∀ c ∈ cs, pathOf file c.1 ≠ some p) →
      ∀ s, (drawAllDisk io i ex shown cs s).1.disk p = s.disk p
  | [], _, s => rfl
  | (cid, c) :: cs, hp, s => by
    have ih := drawAllDisk_other hex io shown p cs (fun x hx => hp x (by simp [hx])) (i := i)
    have ho := fun fig => exportOneDisk_other hex io cid fig s.disk p (hp (cid, c) (by simp))
    unfold drawAllDisk
    cases hd : drawContainer i cid c with
    | error e => rfl
    | ok fig =>
      have ho := ho fig
      simp only
      generalize exportOneDisk io ex cid fig s.disk = r at ho
      obtain ⟨k, e⟩ := r
      simp only at ho
      cases e with
      | some e => exact ho
      | none =>
        simp only
        cases shown with
        | false => simp only [Bool.false_eq_true, if_false]; rw [ih]; exact ho
        | true =>
          simp only [if_true]
          split
          · rw [ih]; exact ho
          · exact ho

/-- C100: whatever happens, a file that belongs to no container of the problem is not touched. -/
theorem C100_foreign (i : Inst) (fig : List (PyVal × PyVal)) (file : String → Option (String × String))
    (show_ shown : Bool) (ha : FigureAsked i fig file show_ shown) (io : FigIO) (s : FigWorld)
    (p : List (List Char)) (hp : ∀ c ∈ i.containers, pathOf file c.1 ≠ some p) :
    (i.runFigure io show_ s).1.disk p = s.disk p := by
  by_cases hs : i.solution = []
  · unfold Inst.runFigure; rw [hs]; rfl
  · rw [runFigure_asked hs ha]
    exact drawAllDisk_other ha.file io shown p i.containers hp s

theorem exportOneDisk_agree {ex : PyVal} {file : String → Option (String × String)} (hex : ExportCase ex file)
    (io : FigIO) (cid : String) (fig : Figure) (k k' : Disk) :
    (exportOneDisk io ex cid fig k).2 = (exportOneDisk io ex cid fig k').2 ∧
    ∀ p, (pathOf file cid ≠ some p → k p = k' p) →
      (exportOneDisk io ex cid fig k).1 p = (exportOneDisk io ex cid fig k').1 p := by
  obtain ⟨e1, e2⟩ := exportOneDisk_eq hex io cid fig k
  cases hf : file cid with
  | none =>
    have e1' := (exportOneDisk_eq hex io cid fig k').1 hf
    rw [(e1 hf).2, e1'.2]
    exact ⟨rfl, fun p hp => hp (by unfold pathOf; rw [hf]; simp)⟩
  | some q =>
    obtain ⟨d, n⟩ := q
    obtain ⟨l, c, _, _, e3⟩ := e2 d n hf
    rw [e3, e3]
    have hpath : pathOf file cid = some (filePath d n) := by unfold pathOf; rw [hf]; rfl
    cases io.write d n <;>
    · refine ⟨rfl, fun p hp => ?_⟩
      simp only [Disk.set]
      by_cases h : p = filePath d n
      · simp [h]
      · simp only [h, if_false]
        exact hp (by rw [hpath]; intro e; injection e with e; exact h e.symm)

theorem drawAllDisk_agree {i : Inst} {ex : PyVal} {file : String → Option (String × String)} (hex : ExportCase ex file)
    (io : FigIO) (shown : Bool) :
    ∀ (cs : List (String × Dim)) (s t : FigWorld),
      (∀ p, (∀ c ∈ cs, pathOf file c.1 ≠ some p) → s.disk p = t.disk p) →
      (drawAllDisk io i ex shown cs s).2 = (drawAllDisk io i ex shown cs t).2 ∧
      ((drawAllDisk io i ex shown cs s).2 = .ok →
        (drawAllDisk io i ex shown cs s).1.disk = (drawAllDisk io i ex shown cs t).1.disk)
  | [], s, t, h => ⟨rfl, fun _ => funext (fun p => h p (by simp))⟩
  | (cid, c) :: cs, s, t, h => by
    unfold drawAllDisk
    cases hd : drawContainer i cid c with
    | error e => exact ⟨rfl, fun hh => by cases hh⟩
    | ok fig =>
      obtain ⟨a1, a2⟩ := exportOneDisk_agree hex io cid fig s.disk t.disk
      have a3 : ∀ p, (∀ x ∈ cs, pathOf file x.1 ≠ some p) →
          (exportOneDisk io ex cid fig s.disk).1 p = (exportOneDisk io ex cid fig t.disk).1 p := by
        intro p hp
        refine a2 p (fun hne => h p ?_)
        intro x hx
        rcases List.mem_cons.1 hx with rfl | hx
        · exact hne
        · exact hp x hx
      clear a2
      simp only
      generalize exportOneDisk io ex cid fig s.disk = r at a1 a3
      generalize exportOneDisk io ex cid fig t.disk = r' at a1 a3
      obtain ⟨k, e⟩ := r
      obtain ⟨k', e'⟩ := r'
      simp only at a1 a3
      subst a1
      cases e with
      | some e => exact ⟨rfl, fun hh => by cases hh⟩
      | none =>
        simp only
        cases shown with
        | false =>
          simp only [Bool.false_eq_true, if_false]
          exact drawAllDisk_agree hex io false cs _ _ a3
        | true =>
          simp only [if_true]
          by_cases hsh : io.shows cid = true
          · simp only [hsh, if_true]
            exact drawAllDisk_agree hex io true cs _ _ a3
          · simp only [hsh]
            exact ⟨rfl, fun hh => by cases hh⟩

/-- C100: repeating is harmless.  Whatever a first call did, and wherever it stopped, a second call
ends as it would without the first one, and if it succeeds then all files are as if the first call had
never been made. -/
theorem C100_retry (i : Inst) (fig : List (PyVal × PyVal)) (file : String → Option (String × String))
    (show1 shown1 show2 shown2 : Bool) (ha1 : FigureAsked i fig file show1 shown1)
    (ha2 : FigureAsked i fig file show2 shown2) (io1 io2 : FigIO) (s : FigWorld) :
    let s1 := (i.runFigure io1 show1 s).1
    (i.runFigure io2 show2 s1).2 = (i.runFigure io2 show2 s).2 ∧
    ((i.runFigure io2 show2 s).2 = .ok → (i.runFigure io2 show2 s1).1.disk = (i.runFigure io2 show2 s).1.disk) := by
  intro s1
  by_cases hs : i.solution = []
  · have : ∀ io sh t, i.runFigure io sh t = (t, .ok) := by
      intro io sh t; unfold Inst.runFigure; rw [hs]; rfl
    simp only [s1, this, true_and]; intro _; trivial
  · have hag := drawAllDisk_agree (i := i) ha2.file io2 shown2 i.containers s s1 (by
      intro p hp
      exact (C100_foreign i fig file show1 shown1 ha1 io1 s p hp).symm)
    rw [runFigure_asked hs ha2, runFigure_asked hs ha2]
    exact ⟨hag.1.symm, fun h => (hag.2 h).symm⟩

/-- C100: the call succeeds exactly if every container goes well. -/
theorem C100_iff (A : Arith) (i : Inst) (h : Reach A i) (hs : i.solution ≠ [])
    (fig : List (PyVal × PyVal)) (file : String → Option (String × String)) (show_ shown : Bool)
    (ha : FigureAsked i fig file show_ shown) (io : FigIO) (s : FigWorld) :
    (i.runFigure io show_ s).2 = .ok ↔ ∀ c ∈ i.containers, GoesWell i io file shown c := by
  constructor
  · intro hok
    apply Classical.byContradiction
    intro hno
    have : ∃ pre c post, i.containers = pre ++ c :: post ∧ (∀ x ∈ pre, GoesWell i io file shown x) ∧
        ¬ GoesWell i io file shown c := by
      generalize i.containers = cs at hno
      induction cs with
      | nil => exact absurd (by simp) hno
      | cons c cs ih =>
        by_cases hc : GoesWell i io file shown c
        · obtain ⟨pre, x, post, e, a, b⟩ := ih (fun hh => hno (by
            intro y hy
            rcases List.mem_cons.1 hy with rfl | hy
            · exact hc
            · exact hh y hy))
          refine ⟨c :: pre, x, post, by rw [e]; rfl, ?_, b⟩
          intro y hy
          rcases List.mem_cons.1 hy with rfl | hy
          · exact hc
          · exact a y hy
        · exact ⟨[], c, cs, rfl, by simp, hc⟩
    obtain ⟨pre, c, post, e, a, b⟩ := this
    obtain ⟨s1, _, g1, g2, g3⟩ := C100_stopped A i h hs fig _ show_ shown ha io s pre post c e a
    by_cases hf : FewItems i c.1
    · by_cases hcw : CanWrite io file c.1
      · by_cases hsh : shown = true
        · cases hio : io.shows c.1 with
          | true => exact b ⟨hf, hcw, fun _ => hio⟩
          | false =>
            obtain ⟨k, _, hk⟩ := g3 hf hcw hsh hio
            rw [hk] at hok; cases hok
        · exact b ⟨hf, hcw, fun hh => absurd hh hsh⟩
      · apply hcw
        intro d n e
        cases hw : io.write d n with
        | none => rfl
        | some rest => rw [g2 hf _ _ rest e hw] at hok; cases hok
    · rw [g1 hf] at hok; cases hok
  · intro hall
    obtain ⟨s2, h1, _⟩ := C100_complete A i h hs fig _ show_ shown ha io s hall
    rw [h1]

/-- C100: if no id of a container contains a `/`, then after a successful call every container has its
own figure in its own file. -/
theorem C100_own (A : Arith) (i : Inst) (h : Reach A i) (hs : i.solution ≠ [])
    (fig d : List (PyVal × PyVal)) (dir name ext : String) (show_ shown : Bool)
    (ha : FigureAsked i fig (fun cid => some (dir, figureName name cid ext)) show_ shown)
    (hd : PyVal.getD fig "export" = .dict d) (io : FigIO) (s s' : FigWorld)
    (hok : i.runFigure io show_ s = (s', .ok)) (hslash : ∀ c ∈ i.containers, '/' ∉ c.1.toList) :
    ∀ c ∈ i.containers, ∃ f, FigureOf i c f ∧ ContentOf d f (s'.disk (filePath dir (figureName name c.1 ext))) := by
  have hv := h.good.valid
  have hall := (C100_iff A i h hs fig _ show_ shown ha io s).1 (by rw [hok])
  obtain ⟨s2, h1, h2, _⟩ := C100_complete A i h hs fig _ show_ shown ha io s hall
  rw [h1] at hok; injection hok with hok; subst hok
  intro c hc
  obtain ⟨a, b, hab⟩ := List.append_of_mem hc
  have hn : (i.containers.map (·.1)).Nodup := hv.conts.1
  obtain ⟨d', f, e1, e2, e3⟩ := h2.2 (filePath dir (figureName name c.1 ext)) c ⟨a, b, hab, rfl, by
    intro x hx he
    have he : filePath dir (figureName name x.1 ext) = filePath dir (figureName name c.1 ext) := by
      simpa [pathOf] using he
    have hxc : x ∈ i.containers := by rw [hab]; simp [hx]
    have : x.1 = c.1 := by
      refine filePath_inj (dir := dir) (name := name) (ext := "." ++ ext) (hslash x hxc) (hslash c hc) ?_
      unfold figureName at he
      simpa only [String.append_assoc] using he
    rw [hab, List.map_append, List.map_cons, List.nodup_append] at hn
    have := (List.nodup_cons.1 hn.2.1).1
    exact this (by rw [← ‹x.1 = c.1›]; exact List.mem_map_of_mem hx)⟩
  rw [hd] at e1; injection e1 with e1; subst e1
  exact ⟨f, e2, e3⟩

theorem writeFigure_plain (io : FigIO) (d n : String) (c : FileContent) (k : Disk) (b : Bool)
    (hb : (io.write d n).isNone = b) :
    (writeFigure io d n c k).2 = if b = true then none else some (.figureExportError "FIGURE_EXPORT") := by
  unfold writeFigure
  cases hw : io.write d n with
  | none => rw [hw] at hb; subst hb; rfl
  | some x => rw [hw] at hb; subst hb; rfl

theorem exportOneDisk_plain (io : FigIO) (ex : PyVal) (cid : String) (fig : Figure) (k : Disk) :
    (exportOneDisk io ex cid fig k).2 =
      match exportOne (fun d f => (io.write d f).isNone) ex cid with
      | .ok _ => none
      | .error e => some e := by
  unfold exportOneDisk exportOne
  by_cases ht : ex.truthy = true
  · rw [ht]
    simp only [Bool.not_true, Bool.false_eq_true, if_false]
    cases ex with
    | dict d =>
      simp only
      unfold exportDisk exportFile
      cases hp : PyVal.get? d "path" with
      | none => rfl
      | some v =>
        cases v with
        | str path =>
          simp only
          split
          · rw [writeFigure_plain io _ _ _ _ _ rfl]
            split <;> rfl
          · split
            · cases PyVal.get? d "format" with
              | none => rfl
              | some fmt =>
                simp only
                rw [writeFigure_plain io _ _ _ _ _ rfl]
                split <;> rfl
            · rfl
        | _ => rfl
    | _ => rfl
  · have : ex.truthy = false := by simpa using ht
    rw [this]
    rfl

theorem drawAllDisk_plain (io : FigIO) (hio : ∀ c, io.shows c = true) (i : Inst) (ex : PyVal) (shown : Bool) :
    ∀ (cs : List (String × Dim)) (s : FigWorld), (drawAllDisk io i ex shown cs s).2 =
      match drawAll (fun d f => (io.write d f).isNone) i ex shown cs with
      | .ok _ => .ok
      | .error e => .raised e
  | [], s => rfl
  | (cid, c) :: cs, s => by
    unfold drawAllDisk drawAll
    cases hd : drawContainer i cid c with
    | error e => rfl
    | ok fig =>
      have hp := exportOneDisk_plain io ex cid fig s.disk
      simp only [bind, Except.bind]
      generalize exportOneDisk io ex cid fig s.disk = r at hp
      obtain ⟨k, e⟩ := r
      cases he : exportOne (fun d f => (io.write d f).isNone) ex cid with
      | error e' =>
        rw [he] at hp
        simp only at hp
        subst hp
        rfl
      | ok f =>
        rw [he] at hp
        simp only at hp
        subst hp
        simp only [hio cid, if_true]
        have ih := drawAllDisk_plain io hio i ex shown cs
        cases shown
        all_goals
          simp only [Bool.false_eq_true, if_false, if_true]
          rw [ih]
          generalize drawAll _ i ex _ cs = q
          cases q <;> rfl

/-- C100: if showing never fails, the call ends as described by `createFigure` (C53, C54, C93). -/
theorem C100_agrees (A : Arith) (i : Inst) (io : FigIO) (hio : ∀ c, io.shows c = true) (show_ : Bool) (s : FigWorld) :
    step A i (.figure (fun d f => (io.write d f).isNone) show_) =
      (i, match (i.runFigure io show_ s).2 with
        | .raised e => .raised e
        | _ => .ok) := by
  show (i, Outcome.of (i.createFigure _ show_)) = _
  congr 1
  unfold Inst.createFigure Inst.runFigure
  split
  · rfl
  · split
    · rfl
    · split
      · rfl
      · cases hset : i.settings.asDict? with
        | none => rfl
        | some st =>
          simp only
          cases hfig : (PyVal.get? st "figure").getD (.dict []) with
          | dict fig =>
            dsimp only
            split
            · rfl
            · rw [drawAllDisk_plain io hio]
              generalize drawAll _ i _ _ i.containers = q
              cases q <;> rfl
          | _ => rfl

/-! ### concrete cases -/

/-- C100 on two containers with html export: the second file cannot be written, and is damaged; the
first one is written, nothing else changes -/
example : let io : FigIO := ⟨fun _ f => if f = "plot__c2.html" then some (.other 7) else none, fun _ => true⟩
    let r := plottedSolved.runFigure io false ⟨fun _ => .other 3, []⟩
    r.2 = .raised (.figureExportError "FIGURE_EXPORT") ∧
    r.1.disk ["tmp".toList, "plot__c1.html".toList] =
      .page ⟨"c1", 4, 3, [⟨0, 0, 2, 3, some "a", some 0⟩, ⟨2, 0, 4, 2, some "c", some 1⟩, ⟨0, 0, 4, 3, none, none⟩]⟩ ∧
    r.1.disk ["tmp".toList, "plot__c2.html".toList] = .other 7 ∧
    r.1.disk ["tmp".toList, "plot__c3.html".toList] = .other 3 := by
  refine ⟨by decide +kernel, rfl, rfl, rfl⟩

theorem plottedSolved_goesWell (io : FigIO) (shown : Bool) (hw : ∀ d n, io.write d n = none) (hsh : ∀ c, io.shows c = true)
    (c : String × Dim) : GoesWell plottedSolved io (fun cid => some ("/tmp", figureName "plot" cid "html")) shown c := by
  refine ⟨?_, fun d n _ => hw d n, fun _ => hsh _⟩
  intro m hm
  simp only [plottedSolved, List.mem_cons, Prod.mk.injEq, List.not_mem_nil, or_false] at hm
  rcases hm with ⟨_, rfl⟩ | ⟨_, rfl⟩ <;> simp

/-- the premises of `C100_complete`, `C100_own`, `C100_retry` are met by this problem -/
example : ∃ s', plottedSolved.runFigure ⟨fun _ _ => none, fun _ => true⟩ false ⟨fun _ => .missing, []⟩ = (s', .ok) ∧
    ∀ c ∈ plottedSolved.containers, ∃ f, FigureOf plottedSolved c f ∧
      ContentOf plottedExport f (s'.disk (filePath "/tmp" (figureName "plot" c.1 "html"))) := by
  obtain ⟨s', h1, _⟩ := C100_complete Arith.exact _ plottedSolved_reach (by simp [plottedSolved]) _ _ _ _
    plottedSolved_asked ⟨fun _ _ => none, fun _ => true⟩ ⟨fun _ => .missing, []⟩
    (fun c _ => plottedSolved_goesWell _ _ (fun _ _ => rfl) (fun _ => rfl) c)
  refine ⟨s', h1, ?_⟩
  exact C100_own Arith.exact _ plottedSolved_reach (by simp [plottedSolved]) _ plottedExport "/tmp" "plot" "html" _ _
    plottedSolved_asked rfl _ _ _ h1 (by decide)

end HP
