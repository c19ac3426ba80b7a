import Verif.Props.Effort
import Verif.Props.Rounds
import Verif.Props.Metamorphic
import Verif.Proofs.Determinism
/-
Property C124: items of equal size are interchangeable.
-/
namespace HP
open Spec

/-! ### specification -/

/-- the id `a` for `b`, and `b` for `a` -/
def Spec.swapIds (a b id : String) : String := if id = a then b else if id = b then a else id

/-- the solution with the items `a` and `b` in each other's places -/
def Spec.swapIn (a b : String) (sol : List (String × List (String × Rect))) : List (String × List (String × Rect)) :=
  sol.map (fun c => (c.1, c.2.map (fun q => (swapIds a b q.1, q.2))))

/-! ### proofs -/

theorem swapIds_swapIds (a b x : String) : Spec.swapIds a b (Spec.swapIds a b x) = x := by
  unfold Spec.swapIds
  split <;> (try split) <;> simp_all

theorem swapIds_inj (a b : String) : Function.Injective (Spec.swapIds a b) :=
  Function.LeftInverse.injective (swapIds_swapIds a b)

/-- with the two ids exchanged the dict has the same entries, if both have the same value -/
theorem find?_swapIds {α : Type} {a b : String} {d : α} {its : PyDict String α} (ha : PyDict.find? its a = some d)
    (hb : PyDict.find? its b = some d) (k : String) :
    PyDict.find? (renKeys (Spec.swapIds a b) its) k = PyDict.find? its k := by
  have h := find?_ren (swapIds_inj a b) (Spec.swapIds a b k) its
  rw [swapIds_swapIds] at h
  rw [h]
  unfold Spec.swapIds
  split
  · rename_i e; rw [e, ha, hb]
  · split
    · rename_i e; rw [e, ha, hb]
    · rfl

theorem deepcopySeq_congr {its its' : PyDict String Dim} (h : ∀ k, PyDict.find? its k = PyDict.find? its' k) :
    ∀ (s : List String) (acc : PyDict String Dim), deepcopySeq its s acc = deepcopySeq its' s acc
  | [], _ => rfl
  | id :: ids, acc => by
    unfold deepcopySeq PyDict.getE
    rw [h id]
    cases PyDict.find? its' id with
    | none => rfl
    | some d => exact deepcopySeq_congr h ids _

/-- C124: if the items `a` and `b` have the same size, exchanging their ids in the sequence does nothing but exchange
them in the packing. -/
theorem C124_exchange (A : Arith) (p : SolveIn) (hv : ValidIn p) (a b : String) (d : Dim) (ha : (a, d) ∈ p.items)
    (hb : (b, d) ∈ p.items) (s : List String) :
    solve A p (some (s.map (Spec.swapIds a b))) =
      match solve A p (some s) with
      | .error e => .error e
      | .ok (sol, ov) => .ok (Spec.swapIn a b sol, ov) := by
  have ha' := PyDict.find?_of_mem hv.items.1 ha
  have hb' := PyDict.find?_of_mem hv.items.1 hb
  have h1 := C63_names A p (some s) (Spec.swapIds a b) id (swapIds_inj a b)
  have h2 : ∀ cs : List (String × Dim), cs.map (fun c => (id c.1, c.2)) = cs := by
    intro cs; induction cs with
    | nil => rfl
    | cons c cs ih => simp [ih]
  rw [h2] at h1
  have h3 : solve A { p with items := p.items.map (fun q => (Spec.swapIds a b q.1, q.2)) }
      (some (s.map (Spec.swapIds a b))) = solve A p (some (s.map (Spec.swapIds a b))) := by
    have h5 := deepcopySeq_congr (find?_swapIds ha' hb') (s.map (Spec.swapIds a b)) []
    show ((deepcopySeq (renKeys (Spec.swapIds a b) p.items) (s.map (Spec.swapIds a b)) []).bind
      (solveLoop A { p with items := renKeys (Spec.swapIds a b) p.items } p.containers)) = _
    rw [h5]
    unfold solve
    show _ = (deepcopySeq p.items (s.map (Spec.swapIds a b)) []).bind (solveLoop A p p.containers)
    cases deepcopySeq p.items (s.map (Spec.swapIds a b)) [] with
    | error e => rfl
    | ok its =>
      show solveLoop A { p with items := renKeys (Spec.swapIds a b) p.items } p.containers its = solveLoop A p p.containers its
      exact solveLoop_height A (p := { p with items := renKeys (Spec.swapIds a b) p.items }) (q := p) rfl rfl rfl
        (fun _ => rfl) p.containers its
  have h4 : (some s).map (List.map (Spec.swapIds a b)) = some (s.map (Spec.swapIds a b)) := rfl
  rw [h4, show ({ p with containers := p.containers, items := p.items.map (fun q => (Spec.swapIds a b q.1, q.2)) } : SolveIn) =
    { p with items := p.items.map (fun q => (Spec.swapIds a b q.1, q.2)) } from rfl, h3] at h1
  rw [h1]
  cases solve A p (some s) with
  | error e => rfl
  | ok r =>
    obtain ⟨sol, ov⟩ := r
    simp only [Spec.swapIn, id]
    congr 2
    exact h2' ov
where
  h2' (cs : ObjVals) : cs.map (fun c => (c.1, c.2)) = cs := by
    induction cs with
    | nil => rfl
    | cons c cs ih => simp [ih]

/-- C124: the same for the order of the dict: exchanging two items of equal size in `items` does nothing but exchange
them in the packing of `solve()`. -/
theorem C124_order (A : Arith) (p : SolveIn) (hv : ValidIn p) (a b : String) (d : Dim)
    (pre mid post : List (String × Dim)) (hp : p.items = pre ++ (a, d) :: mid ++ (b, d) :: post) :
    solve A { p with items := pre ++ (b, d) :: mid ++ (a, d) :: post } none =
      match solve A p none with
      | .error e => .error e
      | .ok (sol, ov) => .ok (Spec.swapIn a b sol, ov) := by
  have hnd := hv.items.1
  rw [hp] at hnd
  have hne : ∀ q ∈ pre ++ mid ++ post, Spec.swapIds a b q.1 = q.1 := by
    intro q hq
    simp only [List.map_append, List.map_cons, List.append_assoc, List.cons_append] at hnd
    have hq' : q.1 ∈ (pre ++ mid ++ post).map (·.1) := List.mem_map.2 ⟨q, hq, rfl⟩
    simp only [List.map_append] at hq'
    have h1 : q.1 ≠ a ∧ q.1 ≠ b := by
      have hperm : (pre.map (·.1) ++ a :: (mid.map (·.1) ++ b :: post.map (·.1))).Perm
          (a :: b :: (pre.map (·.1) ++ mid.map (·.1) ++ post.map (·.1))) := by
        refine (List.perm_middle).trans (List.Perm.cons _ ?_)
        rw [← List.append_assoc]
        exact List.perm_middle
      have := hperm.nodup_iff.1 hnd
      simp only [List.nodup_cons, List.mem_cons, not_or] at this
      exact ⟨fun e => this.1.2 (e ▸ hq'), fun e => this.2.1 (e ▸ hq')⟩
    unfold Spec.swapIds
    rw [if_neg h1.1, if_neg h1.2]
  have hfix : ∀ l : List (String × Dim), (∀ q ∈ l, q ∈ pre ++ mid ++ post) →
      l.map (fun q => (Spec.swapIds a b q.1, q.2)) = l := by
    intro l hl
    conv => rhs; rw [← List.map_id l]
    exact List.map_congr_left (fun q hq => by rw [hne q (hl q hq)]; rfl)
  have e : p.items.map (fun q => (Spec.swapIds a b q.1, q.2)) = pre ++ (b, d) :: mid ++ (a, d) :: post := by
    rw [hp]
    simp only [List.map_append, List.map_cons]
    rw [hfix pre (by intro q hq; simp [hq]), hfix mid (by intro q hq; simp [hq]), hfix post (by intro q hq; simp [hq])]
    have e1 : Spec.swapIds a b a = b := by simp [Spec.swapIds]
    have e2 : Spec.swapIds a b b = a := by
      unfold Spec.swapIds
      split
      · rename_i h; exact h
      · simp
    rw [e1, e2]
  have h2 : ∀ cs : List (String × Dim), cs.map (fun c => (id c.1, c.2)) = cs := by
    intro cs; induction cs with
    | nil => rfl
    | cons c cs ih => simp [ih]
  have h3 : ∀ cs : ObjVals, cs.map (fun c => (id c.1, c.2)) = cs := by
    intro cs; induction cs with
    | nil => rfl
    | cons c cs ih => simp [ih]
  have h1 := C63_names A p none (Spec.swapIds a b) id (swapIds_inj a b)
  rw [h2, e] at h1
  rw [show (none : Option (List String)).map (List.map (Spec.swapIds a b)) = none from rfl] at h1
  rw [show ({ p with items := pre ++ (b, d) :: mid ++ (a, d) :: post } : SolveIn) =
    { p with containers := p.containers, items := pre ++ (b, d) :: mid ++ (a, d) :: post } from rfl, h1]
  cases solve A p none with
  | error e => rfl
  | ok r =>
    obtain ⟨sol, ov⟩ := r
    simp only [h3]
    rfl

theorem exchangeAt_length' {α : Type} (xs : List α) (i j : Nat) : (exchangeAt xs i j).length = xs.length := by
  unfold exchangeAt
  split
  · simp
  · rfl

/-- exchanging two positions of a sequence without repetitions is exchanging the two ids -/
theorem neighbours_swap {xs y : List String} (hx : xs.Nodup) (h : y ∈ neighbours xs) :
    ∃ a b, a ∈ xs ∧ b ∈ xs ∧ y = xs.map (Spec.swapIds a b) := by
  rw [ALS.neighbours_eq] at h
  obtain ⟨⟨i, j⟩, hij, rfl⟩ := List.mem_map.1 h
  obtain ⟨h1, h2⟩ := mem_indexSwaps.1 hij
  have hi : i < xs.length := by omega
  refine ⟨xs[i], xs[j], List.getElem_mem _, List.getElem_mem _, ?_⟩
  simp only
  have e : exchangeAt xs i j = (xs.set i xs[j]).set j xs[i] := by
    unfold exchangeAt
    rw [List.getElem?_eq_getElem hi, List.getElem?_eq_getElem h2]
  apply List.ext_getElem
  · rw [exchangeAt_length', List.length_map]
  intro n hn1 hn2
  have hn : n < xs.length := by simpa using hn2
  have key : ∀ k (hk : k < xs.length), xs[n] = xs[k] ↔ n = k := fun k hk => hx.getElem_inj_iff
  simp only [e, List.getElem_set, List.getElem_map, Spec.swapIds, key i hi, key j h2]
  by_cases hni : n = i
  · subst hni
    rw [if_neg (by omega), if_pos rfl, if_pos rfl]
  · by_cases hnj : n = j
    · subst hnj
      rw [if_pos rfl, if_neg hni, if_pos rfl]
    · rw [if_neg (fun h => hnj h.symm), if_neg (fun h => hni h.symm), if_neg hni, if_neg hnj]

/-- C124: exchanging two items of equal size never improves a packing, so that no search ever moves to such a
neighbour: its values are those of the sequence itself. -/
theorem C124_value (A : Arith) (p : SolveIn) (hv : ValidIn p) (a b : String) (d : Dim) (ha : (a, d) ∈ p.items)
    (hb : (b, d) ∈ p.items) (s : List String) (sol sol' : Solution) (ov ov' : ObjVals)
    (h : solve A p (some s) = .ok (sol, ov)) (h' : solve A p (some (s.map (Spec.swapIds a b))) = .ok (sol', ov')) :
    ov' = ov ∧ sol' = Spec.swapIn a b sol := by
  rw [C124_exchange A p hv a b d ha hb s, h] at h'
  injection h' with h'
  simp only [Prod.mk.injEq] at h'
  exact ⟨h'.2.symm, h'.1.symm⟩

/-- C124: if all items have the same size, `local_search()` - bin or strip packing, any clock - returns the packing of
`solve()`, with the strip height as it was, after looking at the neighbours of one order; at all of them if the time
limit is not reached. -/
theorem C124_one_size (A : Arith) (clock : Nat → Rat) (start : Rat) (throttle : Bool) (i j : Inst)
    (t : LSState Inst (Solution × ObjVals)) (hv : i.Valid) (hn : i.containersNum = i.containers.length)
    (d : Dim) (hd : ∀ q ∈ i.items, q.2 = d) (h : i.localSearch A clock start throttle = .ok (j, t)) :
    ∃ first : Solution × ObjVals, solve A i.solveIn none = .ok first ∧
      SamePacking j.solution first.1 ∧ j.objVals = first.2 ∧ j.height.getD 0 = i.height.getD 0 ∧
      t.tick ≤ Spec.tried throttle i.items.length ∧
      ((∀ k, ¬ Late A clock start i k) → t.tick = Spec.tried throttle i.items.length) := by
  obtain ⟨first, z, g1, g2, g3, g4, g5⟩ := C106_climb A clock start throttle i j t hv hn h
  have hh : i.strip = true → 0 < i.height.getD 0 := by
    intro hst
    obtain ⟨k, hk, hp⟩ := hv.height hst
    rw [hk]; exact hp
  have hno : ∀ y r, y ∈ neighbours (i.items.map (·.1)) →
      (i.hill A clock start throttle).pack (i.height.getD 0) y r →
      ¬ (i.hill A clock start throttle).better r first := by
    intro y r hy hp hb
    obtain ⟨a, b, h1, h2, h3⟩ := neighbours_swap hv.items.1 hy
    obtain ⟨qa, m1, e1⟩ := List.mem_map.1 h1
    obtain ⟨qb, m2, e2⟩ := List.mem_map.1 h2
    have k1 : (a, d) ∈ i.items := by rw [← e1, ← hd qa m1]; exact m1
    have k2 : (b, d) ∈ i.items := by rw [← e2, ← hd qb m2]; exact m2
    subst h3
    have hp' : solve A (i.at (i.height.getD 0)) (some ((i.items.map (·.1)).map (Spec.swapIds a b))) = .ok (r.1, r.2) := hp
    obtain ⟨v1, _⟩ := C124_value A (i.at (i.height.getD 0)) (at_valid hv hh) a b d k1 k2 (i.items.map (·.1))
      first.1 r.1 first.2 r.2 (first_packs hv g1) hp'
    have := hb.1
    rw [v1] at this
    exact lt_irrefl _ this
  have hmem : ∀ y, y ∈ (neighbours (i.items.map (·.1))).take (i.hill A clock start throttle).limit →
      y ∈ neighbours (i.items.map (·.1)) := fun y hy => List.mem_of_mem_take hy
  have hlen : ((neighbours (i.items.map (·.1))).take (i.hill A clock start throttle).limit).length =
      Spec.tried throttle i.items.length := by
    rw [List.length_take, length_neighbours, List.length_map, tried_min A clock start throttle i]
  generalize hm : t.tick = m at g2
  have hheight : z.height = i.height.getD 0 → j.height.getD 0 = i.height.getD 0 := by
    intro e
    cases hst : i.strip with
    | true => rw [(g5 hst).1, e]; rfl
    | false =>
      have := (C17_frame _ _ _ _ _ _ _ hv h).2
      exact congrArg (·.getD 0) (this hst).1
  cases g2 with
  | rest e hr ht hp =>
    rename_i pre post
    have hl := congrArg List.length e
    rw [List.length_append] at hl
    simp only at hl
    rw [hlen] at hl
    refine ⟨first, g1, g3, g4, hheight rfl, by omega, ?_⟩
    intro hlate
    rcases hp with hp | ⟨_, hp⟩
    · subst hp; simp at hl; omega
    · exact absurd hp (hlate _)
  | last e _ _ hp hb _ => exact absurd hb (hno _ _ (hmem _ (by simp only at e; rw [e]; simp)) hp)
  | move e _ _ hp hb _ _ => exact absurd hb (hno _ _ (hmem _ (by simp only at e; rw [e]; simp)) hp)

/-- C124 for a problem reached by calls: if all items have the same size, `local_search()` returns, and the objective
values are those `solve()` would have left, with the same packing. -/
theorem C124_local_search (A : Arith) (i : Inst) (hr : Reach A i) (d : Dim) (hd : ∀ q ∈ i.items, q.2 = d)
    (clock : Nat → Rat) (throttle : Bool) :
    (step A i (.localSearch clock throttle)).2 = .ok ∧ (step A i (.solve none)).2 = .ok ∧
    (step A i (.localSearch clock throttle)).1.objVals = (step A i (.solve none)).1.objVals ∧
    SamePacking (step A i (.localSearch clock throttle)).1.solution (step A i (.solve none)).1.solution := by
  have hv := hr.good.valid
  obtain ⟨j, t, hls⟩ := C18_terminates A (fun k => clock (k + 1)) (clock 0) throttle i hv
  obtain ⟨first, g1, g3, g4, _⟩ := C124_one_size A _ _ throttle i j t hv hr.num d hd hls
  have e1 : step A i (.localSearch clock throttle) = (j, .ok) := by simp only [step, hls]
  have e2 : step A i (.solve none) = ({ i with solution := first.1, objVals := first.2 }, .ok) := by
    simp only [step, Inst.solve, g1]; rfl
  rw [e1, e2]
  exact ⟨rfl, rfl, g4, g3⟩

/-! ### not vacuous -/

/-- a 3 x 3 container, two items 2 x 2 of which only one fits, and an item 1 x 3 between them -/
def twins : SolveIn where
  containers := [("c", ⟨3, 3⟩)]
  items := [("a", ⟨2, 2⟩), ("x", ⟨1, 3⟩), ("b", ⟨2, 2⟩)]
  strategy := defaultStrategy
  rotation := false
  strip := false
  height := 0

theorem twins_valid : ValidIn twins where
  conts := by constructor <;> decide
  items := by constructor <;> decide
  height := by decide

/-- with `a` and `b` exchanged in the sequence, `b` is packed instead of `a`, in the same place -/
example : ValidIn twins ∧ ("a", ⟨2, 2⟩) ∈ twins.items ∧ ("b", ⟨2, 2⟩) ∈ twins.items ∧
    solve Arith.exact twins (some ["a", "x", "b"]) =
      .ok ([("c", [("a", ⟨0, 0, 2, 2⟩), ("x", ⟨2, 0, 1, 3⟩)])], [("c", 7 / 9)]) ∧
    ["a", "x", "b"].map (Spec.swapIds "a" "b") = ["b", "x", "a"] ∧
    solve Arith.exact twins (some ["b", "x", "a"]) =
      .ok ([("c", [("b", ⟨0, 0, 2, 2⟩), ("x", ⟨2, 0, 1, 3⟩)])], [("c", 7 / 9)]) := by
  have h : solve Arith.exact twins (some ["a", "x", "b"]) =
      .ok ([("c", [("a", ⟨0, 0, 2, 2⟩), ("x", ⟨2, 0, 1, 3⟩)])], [("c", 7 / 9)]) := by decide +kernel
  have hs : ["a", "x", "b"].map (Spec.swapIds "a" "b") = ["b", "x", "a"] := by decide
  refine ⟨twins_valid, by decide, by decide, h, hs, ?_⟩
  have e := C124_exchange Arith.exact twins twins_valid "a" "b" ⟨2, 2⟩ (by decide) (by decide) ["a", "x", "b"]
  rw [hs, h] at e
  rw [e]
  decide +kernel

/-- the same for the order of `items` -/
example : solve Arith.exact { twins with items := [("b", ⟨2, 2⟩), ("x", ⟨1, 3⟩), ("a", ⟨2, 2⟩)] } none =
    match solve Arith.exact twins none with
    | .error e => .error e
    | .ok (sol, ov) => .ok (Spec.swapIn "a" "b" sol, ov) :=
  C124_order Arith.exact twins twins_valid "a" "b" ⟨2, 2⟩ [] [("x", ⟨1, 3⟩)] [] rfl

/-- `HyperPack(containers={"c": 3 x 3}, items={"a": 2 x 1, "b": 2 x 1, "d": 2 x 1, "e": 2 x 1})` -/
def sameSizes : Inst := { rawInst false [("c", ⟨3, 3⟩)] [("a", ⟨2, 1⟩), ("b", ⟨2, 1⟩), ("d", ⟨2, 1⟩), ("e", ⟨2, 1⟩)] none (.dict []) with
  rotation := true, maxTime := 60, workers := .int 1 }

theorem sameSizes_reach (A : Arith) : Reach A sameSizes :=
  .new (E := bareEnv) (i := sameSizes)
    (containers := SKind.containers.encodeAll [("c", ⟨3, 3⟩)])
    (items := SKind.items.encodeAll [("a", ⟨2, 1⟩), ("b", ⟨2, 1⟩), ("d", ⟨2, 1⟩), ("e", ⟨2, 1⟩)]) (settings := .none)
    (stripWidth := .none) (by rfl)

/-- its local search leaves what `solve()` leaves, having evaluated all six exchanges -/
example : Reach Arith.exact sameSizes ∧ (∀ q ∈ sameSizes.items, q.2 = ⟨2, 1⟩) ∧
    (step Arith.exact sameSizes (.localSearch (fun _ => 0) true)).1.objVals =
      (step Arith.exact sameSizes (.solve none)).1.objVals ∧
    (step Arith.exact sameSizes (.solve none)).1.objVals = [("c", 8 / 9)] ∧
    ∃ j t, sameSizes.localSearch Arith.exact (fun _ => 0) 0 true = .ok (j, t) ∧ t.tick = 6 := by
  have hr := sameSizes_reach Arith.exact
  have hd : ∀ q ∈ sameSizes.items, q.2 = ⟨2, 1⟩ := by decide
  obtain ⟨j, t, hls⟩ := C18_terminates Arith.exact (fun _ => 0) 0 true sameSizes hr.good.valid
  obtain ⟨_, _, _, _, _, _, h⟩ := C124_one_size _ _ _ _ _ _ _ hr.good.valid hr.num _ hd hls
  refine ⟨hr, hd, (C124_local_search _ _ hr _ hd _ _).2.2.1, by decide +kernel, j, t, hls, ?_⟩
  rw [h (fun k => by unfold Late; exact fun hk => absurd hk (by show ¬ ((0 : Rat) - 0 ≥ ((60 : Int) : Rat)); norm_num))]
  decide

end HP
