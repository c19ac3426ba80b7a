import Verif.Props.Metamorphic
import Verif.Props.Visited
/-
C102: no item skips a container (first fit over the containers).
-/
namespace HP
open Spec

/-- the problem with the containers up to and including one of them has the same solution up to it -/
theorem solve_truncated {A : Arith} {p : SolveIn} (hv : ValidIn p) {seq : Option (List String)}
    (hs : KnownSeq p seq) {sol : Solution} {ov : ObjVals} (h : solve A p seq = .ok (sol, ov))
    {before after : Solution} {cid : String} {m : PyDict String Rect}
    (hsplit : sol = before ++ (cid, m) :: after) :
    ∃ cs extra ov', p.containers = cs ++ extra ∧ ValidIn { p with containers := cs } ∧
      KnownSeq { p with containers := cs } seq ∧
      solve A { p with containers := cs } seq = .ok (before ++ [(cid, m)], ov') ∧
      (∃ ov'', ov = ov' ++ ov'') ∧ cid ∈ cs.map (·.1) := by
  have hcut : p.containers = p.containers.take (before.length + 1) ++
      p.containers.drop (before.length + 1) := (List.take_append_drop _ _).symm
  have hvs : ValidSizes (p.containers.take (before.length + 1)) :=
    ⟨hv.conts.1.sublist ((List.take_sublist _ _).map _),
      fun q hq => hv.conts.2 q (List.mem_of_mem_take hq)⟩
  have hv' : ValidIn { p with containers := p.containers.take (before.length + 1) } :=
    ⟨hvs, hv.items, hv.height⟩
  have hs' : KnownSeq { p with containers := p.containers.take (before.length + 1) } seq := hs
  obtain ⟨sol1, ov1, h1⟩ := (C06_total A _ hv' seq).1 hs'
  obtain ⟨sol2, ov2, h2, k2, _⟩ := C61_prefix A _ hv' seq sol1 ov1 h1
    (p.containers.drop (before.length + 1)) (by
      show ValidSizes (p.containers.take (before.length + 1) ++ p.containers.drop (before.length + 1))
      rw [← hcut]; exact hv.conts)
  have h2' : solve A p seq = .ok (sol1 ++ sol2, ov1 ++ ov2) := by
    have : ({ p with containers := p.containers.take (before.length + 1) ++
      p.containers.drop (before.length + 1) } : SolveIn) = p := by rw [← hcut]
    rw [← this]; exact h2
  rw [h] at h2'
  injection h2' with h2'
  injection h2' with e1 e2
  obtain ⟨kk, _⟩ := C04_once A p hv seq hs sol ov h
  obtain ⟨kk1, _⟩ := C04_once A _ hv' seq hs' sol1 ov1 h1
  have hl : sol.length = p.containers.length := by
    have := congrArg List.length kk; simpa using this
  have hl1 : sol1.length = before.length + 1 := by
    have := congrArg List.length kk1
    rw [hsplit] at hl
    simp at this hl
    omega
  have hsol1 : sol1 = before ++ [(cid, m)] := by
    have := congrArg (List.take (before.length + 1)) (hsplit.symm.trans e1)
    rw [← hl1, List.take_left] at this
    rw [← this, hl1]
    rw [show before ++ (cid, m) :: after = (before ++ [(cid, m)]) ++ after by simp]
    rw [show before.length + 1 = (before ++ [(cid, m)]).length by simp, List.take_left]
  refine ⟨_, _, ov1, hcut, hv', hs', by rw [← hsol1]; exact h1, ⟨ov2, e2⟩, ?_⟩
  have : ({ p with containers := p.containers.take (before.length + 1) } : SolveIn).containers.map (·.1) =
      sol1.map (·.1) := kk1.symm
  show cid ∈ (p.containers.take (before.length + 1)).map (·.1)
  rw [show (p.containers.take (before.length + 1)).map (·.1) = sol1.map (·.1) from this, hsol1]
  simp

/-- C102: an item that was to be packed and is neither in a container nor in one before it does not
fit, in any allowed orientation, into the final layout of that container at any point used while it
was filled.  It may be in a later container or nowhere (C12). -/
theorem C102_used_points (A : Arith) (p : SolveIn) (hv : ValidIn p) (seq : Option (List String))
    (hs : KnownSeq p seq) (sol : Solution) (ov : ObjVals) (h : solve A p seq = .ok (sol, ov))
    (before : Solution) (cid : String) (m : PyDict String Rect) (after : Solution)
    (hsplit : sol = before ++ (cid, m) :: after) (c : Dim) (hc : (cid, c) ∈ p.containers)
    (id : String) (d : Dim) (hit : (id, d) ∈ solvedFor p.items seq)
    (hb : id ∉ placedIds before) (hm : id ∉ m.map (·.1)) (pt : Pt)
    (hpt : pt ∈ pointsUsed A p c ((solvedFor p.items seq).filter (fun q => q.1 ∉ placedIds before))) :
    ¬ CanAdd c.w (lenOf p c) p.rotation (m.map (·.2)) d pt.x pt.y := by
  obtain ⟨cs, extra, ov', hcut, hv', hs', h', _, hin⟩ := solve_truncated hv hs h hsplit
  obtain ⟨q, hq, hqe⟩ := List.mem_map.1 hin
  have hqc : (cid, c) ∈ cs := by
    obtain ⟨i, dd⟩ := q
    simp only at hqe; subst hqe
    have e1 := PyDict.find?_of_mem hv.conts.1 hc
    have e2 := PyDict.find?_of_mem hv.conts.1
      (show (i, dd) ∈ p.containers by rw [hcut]; exact List.mem_append_left _ hq)
    rw [e1] at e2; injection e2 with e2
    rw [e2]; exact hq
  exact C12_used_points A { p with containers := cs } hv' seq hs' _ ov' h' before cid m [] rfl c hqc id d hit
    (by
      unfold placedIds at hb ⊢
      simp only [List.flatMap_append, List.mem_append, not_or]
      exact ⟨hb, by simpa using hm⟩) pt hpt

/-- C102: the same for points that are known from the layout: the bottom left corner; the top left
ends of the placed items if the strategy has the classes A and A''; their bottom right ends if it
has B and B''.  (In strip packing, or when the container is not reported as full.) -/
theorem C102_greedy (A : Arith) (p : SolveIn) (hv : ValidIn p) (seq : Option (List String))
    (hs : KnownSeq p seq) (sol : Solution) (ov : ObjVals) (h : solve A p seq = .ok (sol, ov))
    (before : Solution) (cid : String) (m : PyDict String Rect) (after : Solution)
    (hsplit : sol = before ++ (cid, m) :: after) (c : Dim) (hc : (cid, c) ∈ p.containers)
    (id : String) (d : Dim) (hit : (id, d) ∈ solvedFor p.items seq)
    (hb : id ∉ placedIds before) (hm : id ∉ m.map (·.1)) (v : Rat) (hvv : (cid, v) ∈ ov)
    (hfull : p.strip = true ∨ v < 1) :
    ¬ CanAdd c.w (lenOf p c) p.rotation (m.map (·.2)) d 0 0 ∧
    (.A ∈ p.strategy → .A__ ∈ p.strategy → ∀ q ∈ m,
      ¬ CanAdd c.w (lenOf p c) p.rotation (m.map (·.2)) d q.2.x (q.2.y + q.2.l)) ∧
    (.B ∈ p.strategy → .B__ ∈ p.strategy → ∀ q ∈ m,
      ¬ CanAdd c.w (lenOf p c) p.rotation (m.map (·.2)) d (q.2.x + q.2.w) q.2.y) := by
  obtain ⟨cs, extra, ov', hcut, hv', hs', h', ⟨ov'', hov⟩, hin⟩ := solve_truncated hv hs h hsplit
  obtain ⟨q, hq, hqe⟩ := List.mem_map.1 hin
  have hqc : (cid, c) ∈ cs := by
    obtain ⟨i, dd⟩ := q
    simp only at hqe; subst hqe
    have e1 := PyDict.find?_of_mem hv.conts.1 hc
    have e2 := PyDict.find?_of_mem hv.conts.1
      (show (i, dd) ∈ p.containers by rw [hcut]; exact List.mem_append_left _ hq)
    rw [e1] at e2; injection e2 with e2
    rw [e2]; exact hq
  have hv1 : (cid, v) ∈ ov' := by
    obtain ⟨_, k2, _⟩ := C04_once A _ hv' seq hs' _ ov' h'
    obtain ⟨_, k3, _⟩ := C04_once A p hv seq hs _ ov h
    have hin' : cid ∈ ov'.map (·.1) := by rw [k2]; exact hin
    obtain ⟨w, hw, hwe⟩ := List.mem_map.1 hin'
    obtain ⟨i, vv⟩ := w
    simp only at hwe; subst hwe
    have hn : (PyDict.keys ov).Nodup := by
      show (ov.map (·.1)).Nodup
      rw [k3]; exact hv.conts.1
    have e1 := PyDict.find?_of_mem hn hvv
    have e2 := PyDict.find?_of_mem hn (show (i, vv) ∈ ov by rw [hov]; exact List.mem_append_left _ hw)
    rw [e1] at e2; injection e2 with e2
    rw [e2]; exact hw
  exact C12_greedy A { p with containers := cs } hv' seq hs' _ ov' h' id d hit (by
      unfold placedIds at hb ⊢
      simp only [List.flatMap_append, List.mem_append, not_or]
      exact ⟨hb, by simpa using hm⟩) cid m (by simp) c hqc v hv1 hfull

/-- C102: an item in a later container does not fit a container that stays empty; so, if every item
fits every container, the containers are used in order without a gap. -/
theorem C102_in_order (A : Arith) (p : SolveIn) (hv : ValidIn p) (seq : Option (List String))
    (hs : KnownSeq p seq) (sol : Solution) (ov : ObjVals) (h : solve A p seq = .ok (sol, ov))
    (before : Solution) (cid : String) (after : Solution)
    (hsplit : sol = before ++ (cid, []) :: after) (c : Dim) (hc : (cid, c) ∈ p.containers) :
    (∀ id ∈ placedIds after, ∀ d, (id, d) ∈ p.items → ¬ FitsEmpty c.w (lenOf p c) p.rotation d) ∧
    ((∀ c' ∈ p.containers, ∀ q ∈ p.items, FitsEmpty c'.2.w (lenOf p c'.2) p.rotation q.2) →
      ∀ q ∈ after, q.2 = []) := by
  have first : ∀ id ∈ placedIds after, ∀ d, (id, d) ∈ p.items →
      ¬ FitsEmpty c.w (lenOf p c) p.rotation d := by
    intro id hid d hd hfit
    have h10 := C10_first_item A p hv seq hs sol ov h before cid [] after hsplit c hc
    obtain ⟨_, _, k3, k4⟩ := C04_once A p hv seq hs sol ov h
    have hps : placedIds sol = placedIds before ++ placedIds after := by
      rw [hsplit]; simp [placedIds]
    have hin : id ∈ placedIds sol := by rw [hps]; exact List.mem_append_right _ hid
    have hnb : id ∉ placedIds before := by
      intro hb
      rw [hps, List.nodup_append] at k3
      exact k3.2.2 _ hb _ hid rfl
    obtain ⟨q, hq, hqe⟩ := List.mem_map.1 (k4 id hin).1
    have hsub : ∀ q ∈ solvedFor p.items seq, q ∈ p.items := by
      intro q hq
      exact solvedFor_mem _ hq
    obtain ⟨qi, qd⟩ := q
    simp only at hqe; subst hqe
    have hqd : qd = d := by
      have e1 := PyDict.find?_of_mem hv.items.1 (hsub _ hq)
      have e2 := PyDict.find?_of_mem hv.items.1 hd
      rw [e1] at e2; injection e2
    subst hqd
    simp only [List.head?_nil] at h10
    have hnone := (Option.map_eq_none_iff.1 h10.symm)
    rw [List.find?_eq_none] at hnone
    exact hnone (qi, qd) (List.mem_filter.2 ⟨hq, by simpa using hnb⟩) (by simpa using hfit)
  refine ⟨first, ?_⟩
  intro hall q hq
  obtain ⟨ci, mm⟩ := q
  cases mm with
  | nil => rfl
  | cons e rest =>
    exfalso
    obtain ⟨id, r⟩ := e
    have hid : id ∈ placedIds after := by
      unfold placedIds
      exact List.mem_flatMap.2 ⟨_, hq, by simp⟩
    obtain ⟨d, hd, _⟩ := C05_sizes A p hv seq hs sol ov h ci ((id, r) :: rest)
      (by rw [hsplit]; simp [hq]) id r (by simp)
    exact first id hid d hd (hall _ hc _ hd)

/-- `e` (3 × 3) of the demo is in the second container: it meets the hypotheses for the first one, and
there are nine points used there -/
example : ValidIn demo ∧ (∃ ov, solve Arith.exact demo none = .ok
      ([] ++ ("c0", [("a", ⟨0, 0, 3, 2⟩), ("b", ⟨0, 2, 4, 2⟩), ("g", ⟨0, 4, 2, 1⟩), ("c", ⟨3, 0, 2, 2⟩)]) ::
        [("c1", [("e", ⟨0, 0, 3, 3⟩)])], ov)) ∧
    ("e", ⟨3, 3⟩) ∈ solvedFor demo.items none ∧
    (pointsUsed Arith.exact demo ⟨6, 5⟩ demo.items).length = 9 :=
  ⟨demo_valid, ⟨_, demo_solve⟩, by decide, by decide +kernel⟩

/-- a problem whose second container is too small for the item that the third one gets -/
def gapDemo : SolveIn := { demo with
  containers := [("c0", ⟨4, 4⟩), ("c1", ⟨2, 2⟩), ("c2", ⟨5, 3⟩)]
  items := [("a", ⟨4, 3⟩), ("b", ⟨3, 3⟩)] }

example : ValidIn gapDemo ∧ ∃ ov, solve Arith.exact gapDemo none = .ok
    ([("c0", [("a", ⟨0, 0, 4, 3⟩)])] ++ ("c1", []) :: [("c2", [("b", ⟨0, 0, 3, 3⟩)])], ov) :=
  ⟨⟨by constructor <;> decide, by constructor <;> decide, by decide⟩, _, by
    show solve Arith.exact gapDemo none = .ok (_, [("c0", 3/4), ("c1", 0), ("c2", 3/5)])
    decide +kernel⟩

end HP
