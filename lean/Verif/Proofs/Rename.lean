import Verif.Proofs.Solve
/-
Ids are only names: renaming the items and the containers renames the result.
-/
namespace HP

/-- the dict with renamed ids -/
def renKeys {α : Type} (f : String → String) (d : PyDict String α) : PyDict String α := d.map (fun p => (f p.1, p.2))

variable {f : String → String}

theorem find?_ren {α : Type} (hf : Function.Injective f) (k : String) : ∀ d : PyDict String α,
    PyDict.find? (renKeys f d) (f k) = PyDict.find? d k
  | [] => rfl
  | (a, b) :: d => by
    have ih := find?_ren hf k d
    unfold renKeys at ih ⊢
    simp only [List.map_cons, PyDict.find?, hf.eq_iff]
    split
    · rfl
    · exact ih

theorem erase_ren {α : Type} (hf : Function.Injective f) (k : String) : ∀ d : PyDict String α,
    PyDict.erase (renKeys f d) (f k) = renKeys f (PyDict.erase d k)
  | [] => rfl
  | (a, b) :: d => by
    have ih := erase_ren hf k d
    unfold renKeys at ih ⊢
    simp only [List.map_cons, PyDict.erase, hf.eq_iff]
    split
    · rfl
    · simp only [List.map_cons, ih]

theorem insert_ren {α : Type} (hf : Function.Injective f) (k : String) (v : α) : ∀ d : PyDict String α,
    PyDict.insert (renKeys f d) (f k) v = renKeys f (PyDict.insert d k v)
  | [] => rfl
  | (a, b) :: d => by
    have ih := insert_ren hf k v d
    unfold renKeys at ih ⊢
    simp only [List.map_cons, PyDict.insert, hf.eq_iff]
    split
    · rfl
    · simp only [List.map_cons, ih]

theorem getE_ren {α : Type} (hf : Function.Injective f) (d : PyDict String α) (k : String) :
    PyDict.getE (renKeys f d) (f k) = PyDict.getE d k := by
  unfold PyDict.getE; rw [find?_ren hf]

theorem remove_ren (hf : Function.Injective f) (ids : List String) (id : String) :
    pyRemove (ids.map f) (f id) = (pyRemove ids id).map (List.map f) := by
  unfold pyRemove
  have : f id ∈ ids.map f ↔ id ∈ ids := List.mem_map_of_injective hf
  by_cases h : id ∈ ids
  · rw [if_pos h, if_pos (this.2 h)]
    show _ = Except.ok (List.map f (ids.erase id))
    rw [List.map_erase hf]
  · rw [if_neg h, if_neg (fun h' => h (this.1 h'))]; rfl

theorem delE_ren {α : Type} (hf : Function.Injective f) (d : PyDict String α) (k : String) :
    PyDict.delE (renKeys f d) (f k) = (PyDict.delE d k).map (renKeys f) := by
  unfold PyDict.delE
  rw [find?_ren hf]
  split
  · simp only [Except.map, erase_ren hf]
  · rfl

theorem findFit_ren (hf : Function.Injective f) {rot : Bool} {W L x y : Nat} {g : Grid} {items : PyDict String Dim} :
    ∀ ids : List String, findFit rot W L x y g (renKeys f items) (ids.map f) =
      (findFit rot W L x y g items ids).map (Option.map (fun q => (f q.1, q.2)))
  | [] => rfl
  | id :: ids => by
    have ih := findFit_ren hf (rot := rot) (W := W) (L := L) (x := x) (y := y) (g := g) (items := items) ids
    simp only [List.map_cons, findFit, getE_ren hf, bind, Except.bind, pure, Except.pure]
    cases PyDict.getE items id with
    | error e => rfl
    | ok d =>
      simp only
      cases checkFitting W L x y d.w d.l g with
      | error e => rfl
      | ok c =>
        cases c with
        | true => rfl
        | false =>
          simp only [Bool.false_eq_true, if_false]
          cases rot with
          | false => simpa using ih
          | true =>
            simp only [if_true]
            cases checkFitting W L x y d.l d.w g with
            | error e => rfl
            | ok c2 =>
              cases c2 with
              | true => rfl
              | false => simpa using ih

/-- the state with renamed ids -/
def CState.ren (f : String → String) (s : CState) : CState :=
  { s with items := renKeys f s.items, ids := s.ids.map f, placed := s.placed.map (fun p => { p with id := f p.id }) }

theorem handlePoint_ren (hf : Function.Injective f) (P : CParams) (s : CState) (pt : Pt) :
    handlePoint P (s.ren f) pt = (handlePoint P s pt).map (CState.ren f) := by
  unfold handlePoint
  simp only [CState.ren, findFit_ren hf, bind, Except.bind, pure, Except.pure]
  cases findFit P.rot P.W P.L pt.x pt.y s.grid s.items s.ids with
  | error e => rfl
  | ok hit =>
    cases hit with
    | none => rfl
    | some q =>
      obtain ⟨id, d, rotated⟩ := q
      simp only [Except.map, Option.map_some]
      cases fillItem s.grid pt.x pt.y (if rotated = true then d.l else d.w) (if rotated = true then d.w else d.l) with
      | error e => rfl
      | ok g =>
        simp only [remove_ren hf]
        cases pyRemove s.ids id with
        | error e => rfl
        | ok ids =>
          simp only [Except.map, delE_ren hf]
          cases PyDict.delE s.items id with
          | error e => rfl
          | ok items =>
            simp only [Except.map]
            cases generatePoints P.ar g P.W P.L pt.x pt.y (if rotated = true then d.l else d.w) (if rotated = true then d.w else d.l) with
            | error e => rfl
            | ok gen => simp [CState.ren]

theorem constructLoop_ren (hf : Function.Injective f) (P : CParams) : ∀ (n : Nat) (s : CState),
    constructLoop P n (s.ren f) = (constructLoop P n s).map (CState.ren f)
  | 0, s => rfl
  | n + 1, s => by
    unfold constructLoop
    have hc : (s.ren f).cur = s.cur := rfl
    have ho : (s.ren f).obj = s.obj := rfl
    have hi : (s.ren f).ids = [] ↔ s.ids = [] := by simp [CState.ren]
    rw [hc, ho]
    cases s.cur with
    | none => rfl
    | some pt =>
      simp only [hi]
      split
      · rfl
      · have hst : constructStep P (s.ren f) pt = (constructStep P s pt).map (CState.ren f) := by
          unfold constructStep
          simp only [handlePoint_ren hf, bind, Except.bind, pure, Except.pure]
          cases handlePoint P s pt with
          | error e => rfl
          | ok s1 => rfl
        rw [hst]
        cases constructStep P s pt with
        | error e => rfl
        | ok s1 => exact constructLoop_ren hf P n s1

theorem construct_ren (hf : Function.Injective f) (P : CParams) (items : PyDict String Dim) :
    construct P (renKeys f items) =
      (construct P items).map (fun r => ⟨renKeys f r.items, r.obj, renKeys f r.solution⟩) := by
  unfold construct
  have h1 : constructFuel (renKeys f items) = constructFuel items := by
    unfold constructFuel renKeys; simp [Function.comp_def]
  have h2 : constructInit P (renKeys f items) = (constructInit P items).ren f := by
    unfold constructInit CState.ren renKeys PyDict.keys; simp
  rw [h1, h2, constructLoop_ren hf]
  cases constructLoop P (constructFuel items) (constructInit P items) with
  | error e => rfl
  | ok s =>
    simp only [Except.map, bind, Except.bind]
    unfold constructFinish
    simp only [CState.ren, List.map_map, Function.comp_def, bind, Except.bind, pure, Except.pure]
    by_cases hs : P.strip = true
    · rw [if_pos hs]
      split
      · rfl
      · simp [renKeys, Placed.rect]
    · rw [if_neg hs]
      simp [renKeys, Placed.rect]

/-- the renamed result of `solve` -/
def renResult (f g : String → String) (r : Solution × ObjVals) : Solution × ObjVals :=
  (r.1.map (fun c => (g c.1, c.2.map (fun q => (f q.1, q.2)))), r.2.map (fun c => (g c.1, c.2)))

theorem solveLoop_ren (hf : Function.Injective f) (g : String → String) (A : Arith) (p p' : SolveIn)
    (hp : ∀ c, p'.params A c = p.params A c) : ∀ (cs items : PyDict String Dim),
    solveLoop A p' (renKeys g cs) (renKeys f items) = (solveLoop A p cs items).map (renResult f g)
  | [], items => rfl
  | (cid, c) :: cs, items => by
    have hn : renKeys f items = [] ↔ items = [] := by simp [renKeys]
    show solveLoop A p' ((g cid, c) :: renKeys g cs) (renKeys f items) = _
    unfold solveLoop
    simp only [hn, hp, construct_ren hf, bind, Except.bind, pure, Except.pure]
    split
    · rw [solveLoop_ren hf g A p p' hp cs items]
      cases solveLoop A p cs items with
      | error e => rfl
      | ok r => rfl
    · cases construct (p.params A c) items with
      | error e => rfl
      | ok r =>
        simp only [Except.map]
        rw [solveLoop_ren hf g A p p' hp cs r.items]
        cases solveLoop A p cs r.items with
        | error e => rfl
        | ok r => rfl

theorem deepcopySeq_ren (hf : Function.Injective f) (items : PyDict String Dim) : ∀ (ids : List String) (acc),
    deepcopySeq (renKeys f items) (ids.map f) (renKeys f acc) = (deepcopySeq items ids acc).map (renKeys f)
  | [], acc => rfl
  | id :: ids, acc => by
    simp only [List.map_cons, deepcopySeq, getE_ren hf, bind, Except.bind]
    cases PyDict.getE items id with
    | error e => rfl
    | ok d =>
      simp only
      rw [insert_ren hf, deepcopySeq_ren hf items ids]

theorem solve_ren (hf : Function.Injective f) (g : String → String) (A : Arith) (p p' : SolveIn)
    (h : p' = { p with containers := renKeys g p.containers, items := renKeys f p.items }) (seq : Option (List String)) :
    solve A p' (seq.map (List.map f)) = (solve A p seq).map (renResult f g) := by
  have hp : ∀ c, p'.params A c = p.params A c := by intro c; rw [h]; rfl
  have hc : p'.containers = renKeys g p.containers := by rw [h]
  have hi : p'.items = renKeys f p.items := by rw [h]
  unfold solve
  simp only [bind, Except.bind]
  cases seq with
  | none => simp only [Option.map_none, hc, hi]; exact solveLoop_ren hf g A p p' hp _ _
  | some s =>
    simp only [Option.map_some, hc, hi]
    have := deepcopySeq_ren hf p.items s []
    simp only [renKeys, List.map_nil] at this
    simp only [renKeys]
    rw [this]
    cases deepcopySeq p.items s [] with
    | error e => rfl
    | ok d => exact solveLoop_ren hf g A p p' hp _ _

end HP
