import Verif.Props.Constructor
import Verif.SpecReport
/-
Properties C52 (`log_solution`), C53, C54 (`create_figure`).
-/
namespace HP
open Spec

theorem itemsArea_eq (m : PyDict String Rect) : itemsArea m = totalArea (m.map (·.2)) := by
  unfold itemsArea totalArea area
  rw [List.map_map]; rfl

/-- the report of a container -/
def LogOf (i : Inst) (c : String × Dim) (e : ContLog) : Prop :=
  ∃ m, (c.1, m) ∈ i.solution ∧ e.id = c.1 ∧ e.width = c.2.w ∧
    e.length = reportLength i.strip i.minHeight c.2.l (m.map (·.2)) ∧
    e.itemsArea = totalArea (m.map (·.2)) ∧
    e.maxHeight = if i.strip then some (stackHeight (m.map (·.2))) else none

theorem getHeight_eq {i : Inst} {cid : String} {c : Dim} {m : PyDict String Rect} (hs : i.solution ≠ [])
    (hc : PyDict.find? i.containers cid = some c) (hm : PyDict.find? i.solution cid = some m) :
    i.getHeight cid = .ok (reportLength i.strip i.minHeight c.l (m.map (·.2))) := by
  unfold Inst.getHeight reportLength
  cases i.strip with
  | false =>
    simp only [Bool.false_eq_true, if_false, PyDict.getE_of_find? hc, bind, Except.bind, pure, Except.pure]
  | true =>
    rw [if_pos rfl, if_pos rfl, if_neg hs]
    simp only [PyDict.getE_of_find? hm, bind, Except.bind, pure, Except.pure, stackOf_eq]
    cases i.minHeight with
    | none => simp
    | some h => simp

/-- lookups in the solution of a reachable instance -/
theorem solution_find {A : Arith} {i : Inst} (h : Reach A i) (hs : i.solution ≠ []) {cid : String} {c : Dim}
    (hc : (cid, c) ∈ i.containers) : ∃ m, (cid, m) ∈ i.solution ∧ PyDict.find? i.solution cid = some m := by
  rcases C43_current A i h with ⟨h0, _⟩ | ⟨h1, _, _, _⟩
  · exact absurd h0 hs
  · have : cid ∈ PyDict.keys i.solution := by
      show cid ∈ i.solution.map (·.1)
      rw [h1]; exact List.mem_map_of_mem hc
    obtain ⟨m, hm⟩ := PyDict.find?_isSome_of_mem_keys this
    exact ⟨m, PyDict.find?_mem hm, hm⟩

theorem logContainers_ok {A : Arith} {i : Inst} (h : Reach A i) (hs : i.solution ≠ []) :
    ∀ cs : List (String × Dim), (∀ c ∈ cs, c ∈ i.containers) →
      (∀ c ∈ cs, ∀ m, (c.1, m) ∈ i.solution → 0 < reportLength i.strip i.minHeight c.2.l (m.map (·.2))) →
      ∃ l, logContainers i cs = .ok l ∧ List.Forall₂ (LogOf i) cs l
  | [], _, _ => ⟨[], rfl, .nil⟩
  | (cid, c) :: cs, hsub, hpos => by
    have hv := h.good.valid
    have hc := hsub (cid, c) (by simp)
    obtain ⟨m, hm, hf⟩ := solution_find h hs hc
    obtain ⟨l, h1, h2⟩ := logContainers_ok h hs cs (fun x hx => hsub x (by simp [hx]))
      (fun x hx => hpos x (by simp [hx]))
    have hl := hpos (cid, c) (by simp) m hm
    have hw : 0 < c.w := (hv.conts.2 _ hc).1
    refine ⟨⟨cid, c.w, reportLength i.strip i.minHeight c.l (m.map (·.2)), itemsArea m,
      if i.strip then some (stackOf m) else none⟩ :: l, ?_, .cons ?_ h2⟩
    · unfold logContainers
      simp only [getHeight_eq hs (PyDict.find?_of_mem hv.conts.1 hc) hf, PyDict.getE_of_find? hf, bind, Except.bind]
      rw [if_neg (Nat.mul_pos hw hl).ne', h1]
      rfl
    · exact ⟨m, hm, rfl, rfl, rfl, itemsArea_eq m, by rw [← stackOf_eq]⟩

theorem placed_remaining {A : Arith} {i : Inst} (h : Reach A i) :
    (placedIds i.solution).length + ((i.items.map (·.1)).filter (fun id => decide (id ∉ placedIds i.solution))).length =
      i.items.length := by
  have hv := h.good.valid
  have hp : ((i.items.map (·.1)).filter (fun id => decide (id ∈ placedIds i.solution))).Perm (placedIds i.solution) := by
    rcases C43_current A i h with ⟨h0, _⟩ | ⟨h1, _, h2, h3⟩
    · rw [h0]; simp [placedIds]
    · rw [List.perm_ext_iff_of_nodup (List.Nodup.filter _ hv.items.1) h2]
      intro id
      simp only [List.mem_filter, decide_eq_true_eq, and_iff_right_iff_imp]
      intro hid
      unfold placedIds at hid
      obtain ⟨c, hc, hid⟩ := List.mem_flatMap.1 hid
      obtain ⟨q, hq, rfl⟩ := List.mem_map.1 hid
      obtain ⟨_, _, hin⟩ := h3 c.1 c.2 hc
      obtain ⟨d, hd, _⟩ := hin q.1 q.2 hq
      exact List.mem_map_of_mem hd
  rw [← hp.length_eq]
  have := List.length_eq_length_filter_add (l := i.items.map (·.1)) (fun id => decide (id ∈ placedIds i.solution))
  rw [List.length_map] at this
  rw [this]
  congr 2
  apply List.filter_congr
  intro x _
  simp

theorem reach_stack_pos {A : Arith} {i : Inst} (h : Reach A i) {cid : String} {m : PyDict String Rect}
    (hm : (cid, m) ∈ i.solution) (hne : m ≠ []) : 0 < stackHeight (m.map (·.2)) := by
  have hv := h.good.valid
  rcases C43_current A i h with ⟨h0, _⟩ | ⟨h1, _, h2, h3⟩
  · rw [h0] at hm; simp at hm
  · obtain ⟨c, hc, hin⟩ := h3 cid m hm
    cases m with
    | nil => exact absurd rfl hne
    | cons q m =>
      obtain ⟨d, hd, hs, _⟩ := hin q.1 q.2 (by simp)
      have hp := hv.items.2 _ hd
      simp only [stackHeight, List.map_cons, List.foldr_cons]
      have : 0 < q.2.l := by rcases hs with ⟨_, e⟩ | ⟨_, _, e⟩ <;> rw [e] <;> [exact hp.2; exact hp.1]
      omega

/-! ### C52 -/

/-- C52, with the exact condition.  When there is a result, `log_solution()` reports the number of
placed items, all items, every container with its size, the area of its items (and in strip packing
the height of their stack), and as remaining exactly the items that are in no container; placed plus
remaining is the number of items.  But in strip packing without a minimum height it raises
ZeroDivisionError if nothing is placed: the missing part of the property. -/
theorem C52_partial (A : Arith) (i : Inst) (h : Reach A i) (hs : i.solution ≠ []) :
    (¬ (i.strip = true ∧ i.minHeight = none ∧ placedIds i.solution = []) →
      ∃ log, i.logSolution = .ok (some log) ∧
        log.total = i.items.length ∧ log.stored = (placedIds i.solution).length ∧
        log.remaining = (i.items.map (·.1)).filter (fun id => decide (id ∉ placedIds i.solution)) ∧
        log.stored + log.remaining.length = i.items.length ∧
        List.Forall₂ (LogOf i) i.containers log.containers) ∧
    (i.strip = true ∧ i.minHeight = none ∧ placedIds i.solution = [] →
      step A i .log = (i, .raised .zeroDivisionError)) := by
  have hv := h.good.valid
  have hne : i.solution.isEmpty = false := by simpa using hs
  have hlen : i.items.length ≠ 0 := fun h0 => hv.itemsNe (List.length_eq_zero_iff.1 h0)
  constructor
  · intro hcond
    have hpos : ∀ c ∈ i.containers, ∀ m, (c.1, m) ∈ i.solution →
        0 < reportLength i.strip i.minHeight c.2.l (m.map (·.2)) := by
      intro c hc m hm
      unfold reportLength
      split
      · rename_i hst
        cases hmin : i.minHeight with
        | some k => have := hv.minPos k hmin; simp; omega
        | none =>
          have hp : placedIds i.solution ≠ [] := fun h0 => hcond ⟨hst, hmin, h0⟩
          have hmne : m ≠ [] := by
            rintro rfl
            apply hp
            obtain ⟨W, hW⟩ := hv.strip hst
            rcases C43_current A i h with ⟨h0, _⟩ | ⟨h1, _, _, _⟩
            · exact absurd h0 hs
            · rw [hW] at h1
              obtain ⟨p, hsol⟩ := List.length_eq_one_iff.1 (by simpa using congrArg List.length h1)
              rw [hsol] at hm ⊢
              simp only [List.mem_singleton] at hm
              subst hm
              simp [placedIds]
          have := reach_stack_pos h hm hmne
          simp; omega
      · exact (hv.conts.2 c hc).2
    obtain ⟨l, h1, h2⟩ := logContainers_ok h hs i.containers (fun _ h => h) hpos
    have hrem : ((PyDict.keys i.items).filter (fun id => !(i.solution.flatMap (fun c => PyDict.keys c.2)).contains id)) =
        (i.items.map (·.1)).filter (fun id => decide (id ∉ placedIds i.solution)) := by
      apply List.filter_congr
      intro x _
      rw [List.contains_eq_mem]
      simp only [decide_not]
      rfl
    have hst : (i.solution.map (fun c => c.2.length)).sum = (placedIds i.solution).length := by
      unfold placedIds
      rw [List.length_flatMap]
      simp
    refine ⟨⟨(placedIds i.solution).length, i.items.length, l,
      (i.items.map (·.1)).filter (fun id => decide (id ∉ placedIds i.solution))⟩, ?_, rfl, rfl, rfl, ?_, h2⟩
    · unfold Inst.logSolution
      rw [hne]
      simp only [Bool.false_eq_true, if_false, hlen, h1, bind, Except.bind, pure, Except.pure, hst, hrem]
    · exact placed_remaining h
  · rintro ⟨hst, hmin, hpl⟩
    obtain ⟨W, hW⟩ := hv.strip hst
    obtain ⟨m, hm, hf⟩ := solution_find h hs (cid := stripId) (c := ⟨W, stripInitHeight⟩) (by rw [hW]; simp)
    have hm0 : m = [] := by
      cases m with
      | nil => rfl
      | cons q m =>
        exfalso
        have : q.1 ∈ placedIds i.solution := List.mem_flatMap.2 ⟨_, hm, by simp⟩
        rw [hpl] at this; simp at this
    have hlog : i.logSolution = .error .zeroDivisionError := by
      unfold Inst.logSolution
      rw [hne]
      simp only [Bool.false_eq_true, if_false, hlen]
      have hg := getHeight_eq hs (PyDict.find?_of_mem hv.conts.1 (show (stripId, (⟨W, stripInitHeight⟩ : Dim)) ∈ i.containers by rw [hW]; simp)) hf
      have : logContainers i i.containers = .error .zeroDivisionError := by
        rw [hW]
        unfold logContainers
        simp only [hg, PyDict.getE_of_find? hf, bind, Except.bind]
        rw [if_pos]
        subst hm0
        simp [reportLength, hst, hmin, stackHeight]
      rw [this]
      rfl
    show (i, Outcome.of i.logSolution) = _
    rw [hlog]; rfl

/-- without a result only a warning is logged -/
theorem C52_unsolved (i : Inst) (hs : i.solution = []) : i.logSolution = .ok none := by
  unfold Inst.logSolution; rw [hs]; rfl

/-- a strip packing problem whose only item is too wide for the strip -/
def tooWide : Inst := { rawInst true [(stripId, ⟨4, stripInitHeight⟩)] [("a", ⟨5, 5⟩)] (some 40) (.dict []) with
  rotation := true, maxTime := 60, workers := .int 1 }

theorem tooWide_reach (A : Arith) : Reach A tooWide :=
  .new (show mkInst bareEnv .none (.dict [(.str "a", .dict [(.str "w", .int 5), (.str "l", .int 5)])])
    .none (.int 4) = .ok tooWide by rfl)

/-- C52 is false of the code: after solving a strip packing problem in which no item fits,
`log_solution()` raises ZeroDivisionError. -/
theorem C52_refuted : ∃ (i : Inst), Reach Arith.exact i ∧
    (step Arith.exact i (.solve none)).2 = .ok ∧
    (step Arith.exact (step Arith.exact i (.solve none)).1 .log).2 = .raised .zeroDivisionError := by
  refine ⟨tooWide, tooWide_reach _, ?_, ?_⟩ <;> decide +kernel

/-- C52 on the solved problem: item "b" remains -/
example : problemSolved.solution ≠ [] ∧ problemSolved.strip = false ∧
    problemSolved.logSolution.toOption = some (some ⟨2, 3, [⟨"c1", 4, 3, 10, none⟩, ⟨"c2", 2, 2, 0, none⟩], ["b"]⟩) := by
  refine ⟨by decide, rfl, by decide +kernel⟩

/-! ### C53 -/

/-- the rectangles of a figure: one per placed item, in order, and the outline of the container -/
def figureShapes (m : List (String × Rect)) (W L : Nat) : List Shape :=
  m.mapIdx (fun k p => ⟨p.2.x, p.2.y, p.2.x + p.2.w, p.2.y + p.2.l, some p.1, some k⟩) ++
    [⟨0, 0, W, L, none, none⟩]

/-- the figure of a container -/
def FigureOf (i : Inst) (c : String × Dim) (f : Figure) : Prop :=
  ∃ m, (c.1, m) ∈ i.solution ∧ f.title = c.1 ∧ f.width = c.2.w ∧
    f.length = reportLength i.strip i.minHeight c.2.l (m.map (·.2)) ∧
    f.shapes = figureShapes m f.width f.length

theorem drawItems_eq : ∀ (m : List (String × Rect)) (n : Nat),
    drawItems n m = if n + m.length ≤ 1000 ∨ m = [] then
      .ok (m.mapIdx (fun k p => ⟨p.2.x, p.2.y, p.2.x + p.2.w, p.2.y + p.2.l, some p.1, some (n + k)⟩))
      else .error .indexError
  | [], n => by simp [drawItems]
  | (id, r) :: m, n => by
    unfold drawItems
    rw [drawItems_eq m (n + 1)]
    simp only [List.length_cons, reduceCtorEq, or_false]
    have hcn : colorsNum = 1000 := rfl
    by_cases h : n < colorsNum
    · rw [if_pos h]
      by_cases h2 : n + 1 + m.length ≤ 1000
      · rw [if_pos (Or.inl h2), if_pos (by omega)]
        simp only [bind, Except.bind, pure, Except.pure, List.mapIdx_cons, Nat.add_zero]
        have : (fun k (p : String × Rect) => (⟨p.2.x, p.2.y, p.2.x + p.2.w, p.2.y + p.2.l, some p.1, some (n + 1 + k)⟩ : Shape)) =
            (fun k (p : String × Rect) => ⟨p.2.x, p.2.y, p.2.x + p.2.w, p.2.y + p.2.l, some p.1, some (n + (k + 1))⟩) := by
          funext k p; simp [Nat.add_comm, Nat.add_left_comm]
        rw [this]
      · by_cases h3 : m = []
        · subst h3; simp at h2; omega
        · rw [if_neg (by simp [h2, h3]), if_neg (by omega)]
          rfl
    · rw [if_neg h, if_neg (by omega)]

theorem drawContainer_eq {A : Arith} {i : Inst} (h : Reach A i) (hs : i.solution ≠ []) {cid : String} {c : Dim}
    (hc : (cid, c) ∈ i.containers) : ∃ m, (cid, m) ∈ i.solution ∧
      drawContainer i cid c = if m.length ≤ 1000 then
        .ok ⟨cid, c.w, reportLength i.strip i.minHeight c.l (m.map (·.2)),
          figureShapes m c.w (reportLength i.strip i.minHeight c.l (m.map (·.2)))⟩ else .error .indexError := by
  have hv := h.good.valid
  obtain ⟨m, hm, hf⟩ := solution_find h hs hc
  refine ⟨m, hm, ?_⟩
  unfold drawContainer
  simp only [getHeight_eq hs (PyDict.find?_of_mem hv.conts.1 hc) hf, PyDict.getE_of_find? hf, bind, Except.bind]
  rw [drawItems_eq]
  simp only [Nat.zero_add]
  by_cases hl : m.length ≤ 1000
  · rw [if_pos (Or.inl hl), if_pos hl]; rfl
  · have : m ≠ [] := by rintro rfl; simp at hl
    rw [if_neg (by simp [hl, this]), if_neg hl]

/-- the export setting: none, or an export that can be carried out -/
def ExportCase (ex : PyVal) (file : String → Option (String × String)) : Prop :=
  (ex = .none ∧ file = fun _ => none) ∨
  ∃ d dir name ext, ex = .dict d ∧ ExportTo d dir name ext ∧
    file = fun cid => some (dir, figureName name cid ext)

/-- no file is asked for, or it can be written -/
def Written (writes : String → String → Bool) (f : Option (String × String)) : Prop :=
  ∀ d n, f = some (d, n) → writes d n = true

theorem exportOne_eq {ex : PyVal} {file : String → Option (String × String)} (h : ExportCase ex file)
    (writes : String → String → Bool) (cid : String) :
    (Written writes (file cid) → exportOne writes ex cid = .ok (file cid)) ∧
    (¬ Written writes (file cid) → exportOne writes ex cid = .error (.figureExportError "FIGURE_EXPORT")) := by
  rcases h with ⟨rfl, rfl⟩ | ⟨d, dir, name, ext, rfl, ⟨h1, h2, h3⟩, rfl⟩
  · exact ⟨fun _ => rfl, fun h => absurd (fun _ _ h => by cases h) h⟩
  · have hd : d ≠ [] := by rintro rfl; simp [PyVal.get?] at h1
    have ht : (PyVal.dict d).truthy = true := by cases d <;> simp_all [PyVal.truthy]
    have hn : ((PyVal.get? d "file_name").getD (.str "")).text = name := by
      rcases h2 with h2 | ⟨h2, rfl⟩ <;> rw [h2] <;> rfl
    have hwr : Written writes (some (dir, figureName name cid ext)) ↔
        writes dir (figureName name cid ext) = true := by
      constructor
      · intro h; exact h _ _ rfl
      · intro h a b e; injection e with e; injection e with e1 e2; subst e1; subst e2; exact h
    have key : exportOne writes (.dict d) cid =
        if writes dir (figureName name cid ext) then .ok (some (dir, figureName name cid ext))
        else .error (.figureExportError "FIGURE_EXPORT") := by
      unfold exportOne
      rw [ht]
      simp only [Bool.not_true, Bool.false_eq_true, if_false]
      unfold exportFile
      simp only [h1, hn]
      rcases h3 with ⟨h3, rfl⟩ | ⟨h3, h4⟩
      · have : ((PyVal.get? d "type").getD (.str "html")).eqStr "html" = true := by
          rcases h3 with h3 | h3 <;> rw [h3] <;> rfl
        rw [this]
        have e : name ++ "__" ++ cid ++ ".html" = figureName name cid "html" := by
          unfold figureName
          rw [show (".html" : String) = "." ++ "html" by decide, ← String.append_assoc]
        simp only [if_true, e]
      · have t1 : ((PyVal.get? d "type").getD (.str "html")).eqStr "html" = false := by rw [h3]; rfl
        have t2 : ((PyVal.get? d "type").getD (.str "html")).eqStr "image" = true := by rw [h3]; rfl
        rw [t1, t2, h4]
        rfl
    constructor
    · intro h; rw [key, if_pos (hwr.1 h)]
    · intro h; rw [key, if_neg (fun hh => h (hwr.2 hh))]

/-- what `create_figure` does for a container -/
def DrawnOf (i : Inst) (shown : Bool) (file : String → Option (String × String)) (c : String × Dim) (d : Drawn) : Prop :=
  FigureOf i c d.figure ∧ d.shown = shown ∧ d.file = file c.1

/-- a container that `create_figure` can draw: at most 1000 placed items, and a file that can be
written (or no file) -/
def Drawable (i : Inst) (writes : String → String → Bool) (file : String → Option (String × String))
    (c : String × Dim) : Prop :=
  (∀ m, (c.1, m) ∈ i.solution → m.length ≤ 1000) ∧ Written writes (file c.1)

/-- the container at which `create_figure` stops: all containers before it can be drawn -/
def FirstFailing (i : Inst) (writes : String → String → Bool) (file : String → Option (String × String))
    (cs : List (String × Dim)) (c : String × Dim) : Prop :=
  ∃ pre post, cs = pre ++ c :: post ∧ (∀ x ∈ pre, Drawable i writes file x) ∧ ¬ Drawable i writes file c

theorem drawAll_ok {A : Arith} {i : Inst} (h : Reach A i) (hs : i.solution ≠ []) {ex : PyVal}
    {file : String → Option (String × String)} (hex : ExportCase ex file)
    (writes : String → String → Bool) (shown : Bool) :
    ∀ cs : List (String × Dim), (∀ c ∈ cs, c ∈ i.containers) →
      ((∀ c ∈ cs, Drawable i writes file c) →
        ∃ ds, drawAll writes i ex shown cs = .ok ds ∧ List.Forall₂ (DrawnOf i shown file) cs ds) ∧
      (∀ c m, FirstFailing i writes file cs c → (c.1, m) ∈ i.solution →
        drawAll writes i ex shown cs =
          .error (if 1000 < m.length then .indexError else .figureExportError "FIGURE_EXPORT"))
  | [], _ => ⟨fun _ => ⟨[], rfl, .nil⟩, by rintro c m ⟨pre, post, h, _⟩; simp at h⟩
  | (cid, c) :: cs, hsub => by
    have hv := h.good.valid
    obtain ⟨ih1, ih2⟩ := drawAll_ok h hs hex writes shown cs (fun x hx => hsub x (by simp [hx]))
    obtain ⟨m, hm, hd⟩ := drawContainer_eq h hs (hsub (cid, c) (by simp))
    have huniq : ∀ m', (cid, m') ∈ i.solution → m' = m := by
      intro m' hm'
      rcases C43_current A i h with ⟨h0, _⟩ | ⟨h1, _, _, _⟩
      · exact absurd h0 hs
      · have hn : (PyDict.keys i.solution).Nodup := by
          show (i.solution.map (·.1)).Nodup
          rw [h1]; exact hv.conts.1
        have a := PyDict.find?_of_mem hn hm
        have b := PyDict.find?_of_mem hn hm'
        rw [a] at b; injection b with b; exact b.symm
    obtain ⟨e1, e2⟩ := exportOne_eq hex writes cid
    constructor
    · intro hl
      obtain ⟨ds, h1, h2⟩ := ih1 (fun x hx => hl x (by simp [hx]))
      have hlen := (hl (cid, c) (by simp)).1 m hm
      rw [if_pos hlen] at hd
      refine ⟨⟨⟨cid, c.w, reportLength i.strip i.minHeight c.l (m.map (·.2)),
        figureShapes m c.w (reportLength i.strip i.minHeight c.l (m.map (·.2)))⟩, file cid, shown⟩ :: ds, ?_, .cons ⟨⟨m, hm, rfl, rfl, rfl, rfl⟩, rfl, rfl⟩ h2⟩
      unfold drawAll
      rw [hd, e1 (hl (cid, c) (by simp)).2, h1]
      rfl
    · rintro x m' ⟨pre, post, heq, hpre, hno⟩ hm'
      unfold drawAll
      rw [hd]
      cases pre with
      | nil =>
        simp only [List.nil_append, List.cons.injEq] at heq
        obtain ⟨rfl, rfl⟩ := heq
        have := huniq m' hm'
        subst this
        by_cases hl : m'.length ≤ 1000
        · rw [if_pos hl, if_neg (by omega)]
          have hw : ¬ Written writes (file cid) := fun hw => hno ⟨fun m'' h'' => by rw [huniq m'' h'']; exact hl, hw⟩
          simp only [bind, Except.bind, e2 hw]
        · rw [if_neg hl, if_pos (by omega)]; rfl
      | cons y pre =>
        simp only [List.cons_append, List.cons.injEq] at heq
        obtain ⟨rfl, rfl⟩ := heq
        have hy := hpre (cid, c) (by simp)
        rw [if_pos (hy.1 m hm)]
        simp only [bind, Except.bind, e1 hy.2]
        rw [ih2 x m' ⟨pre, post, rfl, fun z hz => hpre z (by simp [hz]), hno⟩ hm']

theorem firstFailing_of {i : Inst} {writes : String → String → Bool} {file : String → Option (String × String)} :
    ∀ {cs : List (String × Dim)}, (¬ ∀ c ∈ cs, Drawable i writes file c) → ∃ c ∈ cs, FirstFailing i writes file cs c
  | [], h => absurd (by simp) h
  | c :: cs, h => by
    by_cases hc : Drawable i writes file c
    · have : ¬ ∀ x ∈ cs, Drawable i writes file x := fun hh => h (by
        intro x hx
        rcases List.mem_cons.1 hx with rfl | hx
        · exact hc
        · exact hh x hx)
      obtain ⟨x, hx, pre, post, heq, hpre, hno⟩ := firstFailing_of this
      refine ⟨x, by simp [hx], c :: pre, post, by rw [heq]; rfl, ?_, hno⟩
      intro z hz
      rcases List.mem_cons.1 hz with rfl | hz
      · exact hc
      · exact hpre z hz
    · exact ⟨c, by simp, [], cs, rfl, by simp, hc⟩

/-- the settings of a figure that is to be drawn: shown or exported -/
structure FigureAsked (i : Inst) (fig : List (PyVal × PyVal)) (file : String → Option (String × String))
    (show_ shown : Bool) : Prop where
  /-- plotly is usable -/
  plotly : i.plotlyInstalled = true ∧ i.plotlyOk = true
  settings : ∃ st, i.settings = .dict st ∧
    (PyVal.get? st "figure" = some (.dict fig) ∨ (PyVal.get? st "figure" = none ∧ fig = []))
  file : ExportCase (PyVal.getD fig "export") file
  /-- shown: the argument is True, or the setting counts as true -/
  display : shown = true ↔ show_ = true ∨ ¬ CountsFalse (PyVal.getD fig "show")
  asked : shown = true ∨ PyVal.getD fig "export" ≠ .none

theorem createFigure_asked {i : Inst} (hs : i.solution ≠ []) {fig : List (PyVal × PyVal)}
    {file : String → Option (String × String)} {show_ shown : Bool} (h : FigureAsked i fig file show_ shown)
    (writes : String → String → Bool) :
    i.createFigure writes show_ = drawAll writes i (PyVal.getD fig "export") shown i.containers := by
  obtain ⟨hp, ⟨st, hst, hfig⟩, hex, hsh, hreq⟩ := h
  have hsh : shown = ((PyVal.getD fig "show").truthy || show_) := by
    rw [Bool.eq_iff_iff, hsh, Bool.or_eq_true, truthy_iff, or_comm]
  unfold Inst.createFigure
  have hne : i.solution.isEmpty = false := by simpa using hs
  rw [hne, hp.1, hp.2, hst]
  simp only [Bool.false_eq_true, if_false, Bool.not_true, PyVal.asDict?]
  have hf : (PyVal.get? st "figure").getD (.dict []) = .dict fig := by
    rcases hfig with hf | ⟨hf, rfl⟩ <;> rw [hf] <;> rfl
  rw [hf]
  simp only
  rw [← hsh, if_neg]
  intro hcon
  simp only [Bool.and_eq_true, Bool.not_eq_true'] at hcon
  rcases hreq with hr | hr
  · rw [hr] at hcon; exact absurd hcon.1 (by simp)
  · exact hr (isNone_iff.1 hcon.2)

/-- C53, for containers with at most 1000 placed items: if there is a result, plotly is usable, and
the figures are to be shown or exported, then `create_figure` makes for every container, in order,
one figure with exactly one rectangle per placed item, from (Xo, Yo) to (Xo+w, Yo+l), and the outline
of the container, provided that the files can be written; it stops at the first container with more
than 1000 items (IndexError) or with a file that cannot be written (FigureExportError), and never
changes the problem.  Missing: with more than 1000 items in a container it raises IndexError. -/
theorem C53_partial (A : Arith) (i : Inst) (h : Reach A i) (hs : i.solution ≠ [])
    (fig : List (PyVal × PyVal)) (file : String → Option (String × String)) (show_ shown : Bool)
    (ha : FigureAsked i fig file show_ shown) (writes : String → String → Bool) :
    ((∀ c ∈ i.containers, Drawable i writes file c) →
      ∃ ds, i.createFigure writes show_ = .ok ds ∧ List.Forall₂ (DrawnOf i shown file) i.containers ds) ∧
    (∀ c m, FirstFailing i writes file i.containers c → (c.1, m) ∈ i.solution →
      step A i (.figure writes show_) =
        (i, .raised (if 1000 < m.length then .indexError else .figureExportError "FIGURE_EXPORT"))) := by
  obtain ⟨h1, h2⟩ := drawAll_ok h hs ha.file writes shown i.containers (fun _ h => h)
  constructor
  · intro hl
    rw [createFigure_asked hs ha]
    exact h1 hl
  · intro c m hf hm
    show (i, Outcome.of (i.createFigure writes show_)) = _
    rw [createFigure_asked hs ha, h2 c m hf hm]
    rfl

/-- C53: under the same premises `create_figure` succeeds exactly if every container can be drawn -/
theorem C53_iff_partial (A : Arith) (i : Inst) (h : Reach A i) (hs : i.solution ≠ [])
    (fig : List (PyVal × PyVal)) (file : String → Option (String × String)) (show_ shown : Bool)
    (ha : FigureAsked i fig file show_ shown) (writes : String → String → Bool) :
    (step A i (.figure writes show_)).2 = .ok ↔ ∀ c ∈ i.containers, Drawable i writes file c := by
  obtain ⟨h1, h2⟩ := C53_partial A i h hs fig file show_ shown ha writes
  constructor
  · intro hok
    by_cases hall : ∀ c ∈ i.containers, Drawable i writes file c
    · exact hall
    · exfalso
      obtain ⟨c, hc, hf⟩ := firstFailing_of hall
      obtain ⟨m, hm, _⟩ := solution_find h hs hc
      rw [h2 c m hf hm] at hok
      cases hok
  · intro hall
    obtain ⟨ds, hd, _⟩ := h1 hall
    show Outcome.of (i.createFigure writes show_) = _
    rw [hd]; rfl

end HP
