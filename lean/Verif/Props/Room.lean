import Verif.Proofs.Top
import Verif.Props.Packing
import Verif.Props.Search
import Verif.Props.Structures
/-
Property theorems C65, C66: what is left over when there is room above the stack.

`solve A p seq` and `ValidIn p` as in Props/Packing.lean.
-/
namespace HP
open Spec

/-- the largest height an item can take: its length, or its longer side if it may be turned -/
def upright (rot : Bool) (d : Dim) : Nat := if rot then max d.w d.l else d.l

/-- what `_construct_solution` did for one container, seen from a left-over item -/
theorem leftover_container {A : Arith} {p : SolveIn} (hv : ValidIn p) {seq : Option (List String)}
    (hs : KnownSeq p seq) {sol : Solution} {ov : ObjVals} (h : solve A p seq = .ok (sol, ov))
    {id : String} {d : Dim} (hit : (id, d) ∈ solvedFor p.items seq) (hleft : id ∉ placedIds sol)
    {cid : String} {m : PyDict String Rect} (hm : (cid, m) ∈ sol) {c : Dim}
    (hc : (cid, c) ∈ p.containers) {v : Rat} (hvv : (cid, v) ∈ ov) :
    ∃ pool r, ValidSizes pool ∧ pool.Sublist (solvedFor p.items seq) ∧
      construct (p.params A c) pool = .ok r ∧ CFacts (p.params A c) pool r ∧ m = r.solution ∧
      v = r.obj ∧ (id, d) ∈ r.items := by
  obtain ⟨hval, rem, hch⟩ := solve_ok hv hs h
  obtain ⟨c', v', pool, h1, h2, h3, h4, h5⟩ := hch.mem cid m hm
  have hcc : c' = c := by
    have e1 := PyDict.find?_of_mem hv.conts.1 h1
    have e2 := PyDict.find?_of_mem hv.conts.1 hc
    rw [e1] at e2; injection e2
  subst hcc
  have hvv' : v' = v := by
    have hn : (PyDict.keys ov).Nodup := by rw [hch.keys.2]; exact hv.conts.1
    have e1 := PyDict.find?_of_mem hn h2
    have e2 := PyDict.find?_of_mem hn hvv
    rw [e1] at e2; injection e2
  subst hvv'
  have hrem : (id, d) ∈ rem := by
    have hk : id ∈ PyDict.keys rem := by
      have : id ∈ placedIds sol ++ PyDict.keys rem :=
        hch.perm.mem_iff.2 (List.mem_map.2 ⟨_, hit, rfl⟩)
      rcases List.mem_append.1 this with h | h
      · exact absurd h hleft
      · exact h
    obtain ⟨q, hq, hq1⟩ := List.mem_map.1 hk
    obtain ⟨qi, qd⟩ := q
    simp only at hq1; subst hq1
    have e1 := PyDict.find?_of_mem hval.1 (hch.sub.subset hq)
    have e2 := PyDict.find?_of_mem hval.1 hit
    rw [e1] at e2; injection e2 with e2; subst e2
    exact hq
  rcases h5 with ⟨rfl, rfl, rfl⟩ | ⟨_, r, hr, hf, rfl, rfl, hsub⟩
  · exfalso
    obtain ⟨prev, hp, s1, s2, e1, e2⟩ := h4
    have : id ∈ prev := by
      have := hp.mem_iff.2 (List.mem_map.2 ⟨_, hit, rfl⟩ : id ∈ PyDict.keys (solvedFor p.items seq))
      simpa [PyDict.keys] using this
    apply hleft
    rw [e1]
    rw [e2] at this
    unfold placedIds at this ⊢
    simp only [List.flatMap_append, List.mem_append]
    exact Or.inl this
  · exact ⟨pool, r, validSizes_sublist h3 hval, h3, hr, hf, rfl, rfl, hsub.subset hrem⟩

/-! ### C65 -/

/-- C65: under every strategy that has the classes A, A' and E, an item that `solve()` leaves
over does not fit, in any allowed orientation, into the empty space above the stack of any
container (in strip packing, or when the container is not reported as full). -/
theorem C65_above_stack (A : Arith) (p : SolveIn) (hv : ValidIn p) (seq : Option (List String))
    (hs : KnownSeq p seq) (sol : Solution) (ov : ObjVals) (h : solve A p seq = .ok (sol, ov))
    (hA : .A ∈ p.strategy) (hA_ : .A_ ∈ p.strategy) (hE : .E ∈ p.strategy)
    (id : String) (d : Dim) (hit : (id, d) ∈ solvedFor p.items seq) (hleft : id ∉ placedIds sol)
    (cid : String) (m : PyDict String Rect) (hm : (cid, m) ∈ sol) (c : Dim)
    (hc : (cid, c) ∈ p.containers) (v : Rat) (hvv : (cid, v) ∈ ov)
    (hfull : p.strip = true ∨ v < 1) :
    ¬ FitsEmpty c.w (lenOf p c - stackHeight (m.map (·.2))) p.rotation d := by
  obtain ⟨pool, r, hpool, _, hr, hf, rfl, rfl, hmem⟩ := leftover_container hv hs h hit hleft hm hc hvv
  have hcp := hv.conts.2 _ hc
  have hL : 0 < (p.params A c).L := by
    rw [params_L]; unfold lenOf; split
    · rename_i h; exact hv.height h
    · exact hcp.2
  exact (construct_top hpool hcp.1 hL hr).2 (by
    rcases hfull with h | h
    · exact Or.inl h
    · exact Or.inr (Rat.not_le.2 h)) hA hA_ hE _ hmem

/-- a left over item of `demo`: the stack of `c1` is 3 high, item `d` (5 x 2) does not fit above -/
example : ∃ sol ov, solve Arith.exact demo none = .ok (sol, ov) ∧
    ("d", (⟨5, 2⟩ : Dim)) ∈ solvedFor demo.items none ∧ "d" ∉ placedIds sol ∧
    ("c1", [("e", (⟨0, 0, 3, 3⟩ : Rect))]) ∈ sol ∧ ("c1", (9 / 16 : Rat)) ∈ ov ∧ (9 / 16 : Rat) < 1 ∧
    PClass.A ∈ demo.strategy ∧ PClass.A_ ∈ demo.strategy ∧ PClass.E ∈ demo.strategy ∧
    lenOf demo ⟨4, 4⟩ - stackHeight [(⟨0, 0, 3, 3⟩ : Rect)] = 1 :=
  ⟨_, _, demo_solve, by simp [solvedFor, demo], by decide, by simp, by simp, by decide +kernel,
    by decide, by decide, by decide, by decide⟩

/-- without the class A the property fails: the second item is left over although the container
is empty above the first one -/
theorem C65_needs_A : ∃ p : SolveIn, ValidIn p ∧ PClass.A_ ∈ p.strategy ∧ PClass.E ∈ p.strategy ∧
    solve Arith.exact p none = .ok ([("c0", [("a", ⟨0, 0, 3, 2⟩)])], [("c0", 2 / 3)]) ∧
    p.items = [("a", ⟨3, 2⟩), ("b", ⟨3, 1⟩)] ∧ p.containers = [("c0", ⟨3, 3⟩)] :=
  ⟨{ containers := [("c0", ⟨3, 3⟩)], items := [("a", ⟨3, 2⟩), ("b", ⟨3, 1⟩)],
     strategy := [.B, .C, .D, .A_, .B_, .E], rotation := false, strip := false, height := 0 },
   ⟨by constructor <;> decide, by constructor <;> decide, by decide⟩, by decide, by decide,
   by decide +kernel, rfl, rfl⟩

/-! ### C66 -/

theorem sum_map_le {α : Type} (f g : α → Nat) : ∀ l : List α, (∀ a ∈ l, f a ≤ g a) →
    (l.map f).sum ≤ (l.map g).sum
  | [], _ => Nat.le_refl _
  | a :: l, h => by
    simp only [List.map_cons, List.sum_cons]
    exact Nat.add_le_add (h a (by simp)) (sum_map_le f g l (fun b hb => h b (by simp [hb])))

/-- sum over a duplicate-free family of entries of a dict -/
theorem sum_subset_le {items : PyDict String Dim} (hn : (PyDict.keys items).Nodup) (f : Dim → Nat) :
    ∀ l : PyDict String Dim, (PyDict.keys l).Nodup → (∀ q ∈ l, q ∈ items) →
      (l.map (fun q => f q.2)).sum ≤ (items.map (fun q => f q.2)).sum
  | [], _, _ => by simp
  | q :: l, hnl, hsub => by
    obtain ⟨qi, qd⟩ := q
    have hmem : (qi, qd) ∈ items := hsub _ (by simp)
    have hp := PyDict.perm_erase (PyDict.find?_of_mem hn hmem)
    rw [sum_perm_eq (hp.map (fun q => f q.2))]
    simp only [List.map_cons, List.sum_cons]
    have hnl' : qi ∉ PyDict.keys l ∧ (PyDict.keys l).Nodup := by
      simpa [PyDict.keys] using hnl
    have := sum_subset_le (items := PyDict.erase items qi) (by
      rw [PyDict.keys_erase]; exact hn.erase _) f l hnl'.2 (by
        intro q' hq'
        have h1 := hsub q' (by simp [hq'])
        have h2 := hp.mem_iff.1 h1
        rcases List.mem_cons.1 h2 with e | e
        · exfalso
          apply hnl'.1
          exact List.mem_map.2 ⟨q', hq', by rw [e]⟩
        · exact e)
    omega

/-- the placed items with their declared sizes -/
theorem placed_upright {P : CParams} {pool : PyDict String Dim} {r : CResult} (hf : CFacts P pool r) :
    ∃ l : PyDict String Dim, PyDict.keys l = PyDict.keys r.solution ∧ (∀ q ∈ l, q ∈ pool) ∧
      ((rectsOf r.solution).map (·.l)).sum ≤ (l.map (fun q => upright P.rot q.2)).sum := by
  have hsz := hf.sized
  generalize r.solution = ss at hsz
  induction ss with
  | nil => exact ⟨[], rfl, by simp, by simp [rectsOf]⟩
  | cons q ss ih =>
    obtain ⟨l, e1, e2, e3⟩ := ih (fun q' hq' => hsz q' (by simp [hq']))
    obtain ⟨d', hd', hsd⟩ := hsz q (by simp)
    refine ⟨(q.1, d') :: l, by simp only [PyDict.keys, List.map_cons] at e1 ⊢; rw [e1], ?_, ?_⟩
    · intro q' hq'
      rcases List.mem_cons.1 hq' with rfl | hq'
      · exact hd'
      · exact e2 q' hq'
    · simp only [rectsOf, List.map_cons, List.sum_cons] at e3 ⊢
      have : q.2.l ≤ upright P.rot d' := by
        unfold upright
        rcases hsd with ⟨_, hl⟩ | ⟨hrot, _, hl⟩
        · rw [hl]; split <;> omega
        · rw [hl, if_pos hrot]; omega
      omega

/-- no stack is higher than all items of the pool piled up -/
theorem stack_le_pile {P : CParams} {pool : PyDict String Dim} (hg : ValidSizes pool) (hW : 0 < P.W)
    (hL : 0 < P.L) {r : CResult} (hr : construct P pool = .ok r) :
    stackHeight (r.solution.map (·.2)) ≤ (pool.map (fun q => upright P.rot q.2)).sum := by
  obtain ⟨r0, e0, hf⟩ := construct_facts (P := P) hg hW hL
  rw [hr] at e0
  injection e0 with e0
  subst e0
  obtain ⟨l, e1, e2, e3⟩ := placed_upright hf
  have h1 := (construct_top hg hW hL hr).1
  have hnd : (PyDict.keys r.solution ++ PyDict.keys r.items).Nodup := hf.perm.nodup_iff.2 hg.1
  have h2 := sum_subset_le hg.1 (upright P.rot) l (by rw [e1]; exact (List.nodup_append.1 hnd).1) e2
  have hrl : (rectsOf r.solution) = r.solution.map (·.2) := rfl
  rw [hrl] at h1 e3
  omega

/-- C66: if some container is higher than all items that were to be packed piled up on each
other, then every one of them that is not wider than this container (in an allowed orientation)
is placed, for every strategy with the classes A, A' and E (unless the container is reported as
full). -/
theorem C66_room (A : Arith) (p : SolveIn) (hv : ValidIn p) (seq : Option (List String))
    (hs : KnownSeq p seq) (sol : Solution) (ov : ObjVals) (h : solve A p seq = .ok (sol, ov))
    (hA : .A ∈ p.strategy) (hA_ : .A_ ∈ p.strategy) (hE : .E ∈ p.strategy)
    (cid : String) (c : Dim) (hc : (cid, c) ∈ p.containers) (v : Rat) (hvv : (cid, v) ∈ ov)
    (hfull : p.strip = true ∨ v < 1)
    (hroom : ((solvedFor p.items seq).map (fun q => upright p.rotation q.2)).sum ≤ lenOf p c)
    (id : String) (d : Dim) (hit : (id, d) ∈ solvedFor p.items seq)
    (hwide : d.w ≤ c.w ∨ (p.rotation = true ∧ d.l ≤ c.w)) : id ∈ placedIds sol := by
  by_contra hleft
  obtain ⟨hval, rem, hch⟩ := solve_ok hv hs h
  obtain ⟨m, hm⟩ : ∃ m, (cid, m) ∈ sol := by
    have : cid ∈ PyDict.keys sol := by rw [hch.keys.1]; exact List.mem_map.2 ⟨_, hc, rfl⟩
    obtain ⟨q, hq, e⟩ := List.mem_map.1 this
    exact ⟨q.2, by rw [← e]; exact hq⟩
  obtain ⟨pool, r, hpool, hps, hr, hf, rfl, rfl, hmem⟩ := leftover_container hv hs h hit hleft hm hc hvv
  have hno := C65_above_stack A p hv seq hs sol ov h hA hA_ hE id d hit hleft cid _ hm c hc _ hvv hfull
  have hcp := hv.conts.2 _ hc
  have hL : 0 < (p.params A c).L := by
    rw [params_L]; unfold lenOf; split
    · rename_i h; exact hv.height h
    · exact hcp.2
  have hst := (construct_top hpool hcp.1 hL hr).1
  obtain ⟨l, e1, e2, e3⟩ := placed_upright hf
  rw [show (p.params A c).rot = p.rotation from rfl] at e3
  have hnd : (PyDict.keys r.solution ++ PyDict.keys r.items).Nodup := hf.perm.nodup_iff.2 hpool.1
  have hid : id ∈ PyDict.keys r.items := List.mem_map.2 ⟨_, hmem, rfl⟩
  have hsum := sum_subset_le hval.1 (upright p.rotation) ((id, d) :: l) (by
      have : PyDict.keys ((id, d) :: l) = id :: PyDict.keys r.solution := by
        rw [← e1]; rfl
      rw [this]
      rw [List.nodup_append] at hnd
      exact List.nodup_cons.2 ⟨fun hm => (hnd.2.2 id hm id hid) rfl, hnd.1⟩)
    (by
      intro q hq
      rcases List.mem_cons.1 hq with rfl | hq
      · exact hit
      · exact hps.subset (e2 q hq))
  simp only [List.map_cons, List.sum_cons] at hsum
  have hrl : (rectsOf r.solution) = r.solution.map (·.2) := rfl
  rw [hrl] at hst e3
  have hu1 : d.l ≤ upright p.rotation d := by unfold upright; split <;> omega
  have hu2 : p.rotation = true → d.w ≤ upright p.rotation d := by
    intro hr; unfold upright; rw [if_pos hr]; omega
  apply hno
  unfold FitsEmpty
  rcases hwide with hw | ⟨hrot, hw⟩
  · left
    refine ⟨hw, ?_⟩
    show d.l ≤ _
    omega
  · right
    have := hu2 hrot
    refine ⟨hrot, hw, ?_⟩
    show d.w ≤ _
    omega

/-- C66 for an object: in strip packing, if all items are not wider than the strip (in an allowed
orientation) and the strip is at least as high as all items piled up, then `solve()` places every
item. -/
theorem C66_strip (A : Arith) (i : Inst) (hv : i.Valid) (hst : i.strip = true) (W h : Nat)
    (hW : i.containers.map (fun c => c.2.w) = [W]) (hh : i.height = some h)
    (hA : .A ∈ i.strategy) (hA_ : .A_ ∈ i.strategy) (hE : .E ∈ i.strategy)
    (hwide : ∀ q ∈ i.items, q.2.w ≤ W ∨ (i.rotation = true ∧ q.2.l ≤ W))
    (hroom : (i.items.map (fun q => upright i.rotation q.2)).sum ≤ h) :
    ∃ m ov, solve A i.solveIn none = .ok ([(stripId, m)], ov) ∧
      (m.map (·.1)).Perm (i.items.map (·.1)) := by
  obtain ⟨W', hc⟩ := hv.strip hst
  rw [hc] at hW
  simp at hW
  subst hW
  obtain ⟨sol, ov, hs⟩ := (C06_total A i.solveIn hv.solveIn none).1 (by intro s h; cases h)
  obtain ⟨hval, rem, hch⟩ := solve_ok hv.solveIn (by intro s h; cases h) hs
  have hk := hch.keys
  have hcc : i.solveIn.containers = [(stripId, ⟨W', stripInitHeight⟩)] := hc
  rw [hcc] at hk
  obtain ⟨m, rfl⟩ : ∃ m, sol = [(stripId, m)] := by
    match sol, hk.1 with
    | [(a, m)], e => simp [PyDict.keys] at e; subst e; exact ⟨m, rfl⟩
    | [], e => simp [PyDict.keys] at e
    | _ :: _ :: _, e => simp [PyDict.keys] at e
  obtain ⟨v, rfl⟩ : ∃ v, ov = [(stripId, v)] := by
    match ov, hk.2 with
    | [(a, m)], e => simp [PyDict.keys] at e; subst e; exact ⟨m, rfl⟩
    | [], e => simp [PyDict.keys] at e
    | _ :: _ :: _, e => simp [PyDict.keys] at e
  refine ⟨m, _, hs, ?_⟩
  have hlen : lenOf i.solveIn ⟨W', stripInitHeight⟩ = h := by
    unfold lenOf Inst.solveIn; simp [hst, hh]
  have hall : ∀ q ∈ i.items, q.1 ∈ placedIds [(stripId, m)] := by
    intro q hq
    exact C66_room A i.solveIn hv.solveIn none (by intro s h; cases h) _ _ hs hA hA_ hE stripId
      ⟨W', stripInitHeight⟩ (by rw [hcc]; simp) v (by simp) (Or.inl hst) (by rw [hlen]; exact hroom)
      q.1 q.2 hq (hwide q hq)
  have hpl : placedIds [(stripId, m)] = m.map (·.1) := by simp [placedIds]
  rw [hpl] at hall
  have hperm := hch.perm
  rw [hpl] at hperm
  have hsub : ∀ x ∈ m.map (·.1), x ∈ i.items.map (·.1) := by
    intro x hx
    exact hperm.mem_iff.1 (List.mem_append_left _ hx)
  have hn1 : (m.map (·.1)).Nodup := (List.nodup_append.1 (hperm.nodup_iff.2 hval.1)).1
  exact (List.perm_ext_iff_of_nodup hn1 hv.items.1).2 (fun x => ⟨hsub x, fun hx => by
    obtain ⟨q, hq, e⟩ := List.mem_map.1 hx
    rw [← e]; exact hall q hq⟩)

/-- C24 under the condition of C66: if the strip is at least as high as all items piled up and no
item is wider than the strip, `local_search()` returns a packing of all items. -/
theorem C66_local_search (A : Arith) (clock : Nat → Rat) (start : Rat) (throttle : Bool) (i j : Inst)
    (t : LSState Inst (Solution × ObjVals)) (hv : i.Valid) (hst : i.strip = true)
    (hmin : i.minHeight = none) (h : i.localSearch A clock start throttle = .ok (j, t)) (W H : Nat)
    (hW : i.containers.map (fun c => c.2.w) = [W]) (hh : i.height = some H)
    (hA : .A ∈ i.strategy) (hA_ : .A_ ∈ i.strategy) (hE : .E ∈ i.strategy)
    (hwide : ∀ q ∈ i.items, q.2.w ≤ W ∨ (i.rotation = true ∧ q.2.l ≤ W))
    (hroom : (i.items.map (fun q => upright i.rotation q.2)).sum ≤ H) :
    ∃ m, j.solution = [(stripId, m)] ∧ (m.map (·.1)).Perm (i.items.map (·.1)) := by
  obtain ⟨m, ov, h1, h2⟩ := C66_strip A i hv hst W H hW hh hA hA_ hE hwide hroom
  refine C24_partial A clock start throttle i j t hv hst hmin h (Or.inr ⟨m, ov, h1, ?_⟩)
  have := h2.length_eq
  simpa using this

/-- `lsStrip` with `container_height` 11: all items piled up reach 10 at most -/
def lsRoom : Inst := { lsStrip with height := some 11 }

theorem lsRoom_valid : lsRoom.Valid where
  conts := lsStrip_valid.conts
  items := lsStrip_valid.items
  contsNe := by decide
  itemsNe := by decide
  strip := by intro _; exact ⟨5, rfl⟩
  height := by intro _; exact ⟨11, rfl, by decide⟩
  minPos := by intro m h; cases h

/-- the hypotheses of C66_strip and C66_local_search hold of `lsRoom` -/
example : lsRoom.Valid ∧ lsRoom.strip = true ∧ lsRoom.minHeight = none ∧
    lsRoom.containers.map (fun c => c.2.w) = [5] ∧ lsRoom.height = some 11 ∧
    PClass.A ∈ lsRoom.strategy ∧ PClass.A_ ∈ lsRoom.strategy ∧ PClass.E ∈ lsRoom.strategy ∧
    (∀ q ∈ lsRoom.items, q.2.w ≤ 5 ∨ (lsRoom.rotation = true ∧ q.2.l ≤ 5)) ∧
    (lsRoom.items.map (fun q => upright lsRoom.rotation q.2)).sum ≤ 11 ∧
    (lsView (lsRoom.localSearch Arith.exact (fun _ => 0) 0 true)).isSome = true :=
  ⟨lsRoom_valid, rfl, rfl, rfl, rfl, by decide, by decide, by decide, by decide, by decide,
    by decide +kernel⟩

/-- a bin packing meeting the hypotheses of C66_room: the second container is high enough for all
items, though the first one takes some of them -/
def roomDemo : SolveIn where
  containers := [("c0", ⟨4, 4⟩), ("c1", ⟨4, 12⟩)]
  items := [("a", ⟨3, 2⟩), ("b", ⟨2, 3⟩), ("d", ⟨5, 2⟩), ("e", ⟨1, 1⟩)]
  strategy := [.A, .B, .C, .A_, .B_, .B__, .A__, .D, .F, .E]
  rotation := true
  strip := false
  height := 0

theorem roomDemo_valid : ValidIn roomDemo where
  conts := by constructor <;> decide
  items := by constructor <;> decide
  height := by intro h; cases h

theorem roomDemo_solve : solve Arith.exact roomDemo none = .ok
    ([("c0", [("a", ⟨0, 0, 3, 2⟩), ("b", ⟨0, 2, 3, 2⟩), ("e", ⟨3, 0, 1, 1⟩)]),
      ("c1", [("d", ⟨0, 0, 2, 5⟩)])], [("c0", 13 / 16), ("c1", 5 / 24)]) := by decide +kernel

example : ∃ sol ov, solve Arith.exact roomDemo none = .ok (sol, ov) ∧
    ("c1", (5 / 24 : Rat)) ∈ ov ∧ (5 / 24 : Rat) < 1 ∧
    ((solvedFor roomDemo.items none).map (fun q => upright roomDemo.rotation q.2)).sum
      ≤ lenOf roomDemo ⟨4, 12⟩ ∧
    (∀ q ∈ solvedFor roomDemo.items none, q.2.w ≤ 4 ∨ (roomDemo.rotation = true ∧ q.2.l ≤ 4)) :=
  ⟨_, _, roomDemo_solve, by simp, by decide +kernel, by decide, by decide⟩

end HP
