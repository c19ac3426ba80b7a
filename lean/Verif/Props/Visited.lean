import Verif.Props.Packing
import Verif.Proofs.Priority
/-
C12 in full: no left-over item fits at any point the construction has used.
C71: the order of the items is a priority order.
-/
namespace HP
open Spec

/-- The points at which the `while True` loop of the construction (mixins.py 400-524) tries to place
an item, in order: `current_point` at the start of every round.  A record of the run beside the
model of the loop (`constructLoop`), which it follows line by line. -/
def usedPoints (P : CParams) : Nat → CState → List Pt
  | 0, _ => []
  | fuel + 1, s =>
    match s.cur with
    | none => []
    | some pt =>
      if s.ids = [] ∨ s.obj ≥ 1 then []
      else pt :: (match constructStep P s pt with
        | .ok s' => usedPoints P fuel s'
        | .error _ => [])

/-- the points used while container `c` is filled from the items `pool` -/
def pointsUsed (A : Arith) (p : SolveIn) (c : Dim) (pool : List (String × Dim)) : List Pt :=
  usedPoints (p.params A c) (constructFuel pool) (constructInit (p.params A c) pool)

theorem usedPoints_dead (P : CParams) : ∀ (fuel : Nat) (s s' : CState), I0 P s →
    constructLoop P fuel s = .ok s' →
    (∀ q, Dead P s q → Dead P s' q) ∧ ∀ q ∈ usedPoints P fuel s, Dead P s' q
  | 0, s, s', _, h => by simp [constructLoop] at h
  | fuel + 1, s, s', hI, h => by
    unfold constructLoop at h
    unfold usedPoints
    cases hcur : s.cur with
    | none =>
      rw [hcur] at h; simp only at h
      injection h with h; subst h
      exact ⟨fun _ h => h, by simp⟩
    | some pt =>
      rw [hcur] at h; simp only at h ⊢
      by_cases hd : s.ids = [] ∨ s.obj ≥ 1
      · rw [if_pos hd] at h ⊢
        injection h with h; subst h
        exact ⟨fun _ h => h, by simp⟩
      · rw [if_neg hd] at h ⊢
        obtain ⟨s1, e1, r1, i1, _⟩ := constructStep_tot hI hcur
        rw [e1] at h ⊢
        simp only [bind, Except.bind] at h
        obtain ⟨ih1, ih2⟩ := usedPoints_dead P fuel s1 s' i1 h
        obtain ⟨s2, ha, rfl⟩ := r1
        obtain ⟨f1, f2, _, f4⟩ := afterPt_facts hI ha
        refine ⟨fun q hq => ih1 q (Dead.mono f1 f2 hq), ?_⟩
        intro q hq
        rcases List.mem_cons.1 hq with rfl | hq
        · exact ih1 _ f4
        · exact ih2 q hq

/-- the pool of a container is what the containers before it left over -/
theorem pool_of_split {A : Arith} {p : SolveIn} (hv : ValidIn p) {seq : Option (List String)}
    (hs : KnownSeq p seq) {sol : Solution} {ov : ObjVals} (h : solve A p seq = .ok (sol, ov))
    {before after : Solution} {cid : String} {m : PyDict String Rect}
    (hsplit : sol = before ++ (cid, m) :: after) {c : Dim} (hc : (cid, c) ∈ p.containers)
    {pool : PyDict String Dim}
    (hp : pool = (solvedFor p.items seq).filter (fun q => q.1 ∉ placedIds before)) :
    (pool = [] ∧ m = []) ∨
    (pool ≠ [] ∧ ∃ r, construct (p.params A c) pool = .ok r ∧ m = r.solution ∧
      ∀ q ∈ solvedFor p.items seq, q.1 ∉ placedIds sol → q ∈ r.items) := by
  obtain ⟨hval, rem, hch⟩ := solve_ok hv hs h
  obtain ⟨c', v, pool', h1, h2, h3, ⟨prev, h4, s1, s2, h6, h7⟩, h5⟩ := hch.mem cid m (by simp [hsplit])
  have hcc : c' = c := by
    have e1 := PyDict.find?_of_mem hv.conts.1 h1
    have e2 := PyDict.find?_of_mem hv.conts.1 hc
    rw [e1] at e2; injection e2
  subst hcc
  have hb : before = s1 := by
    have hn : (sol.map (·.1)).Nodup := by
      have := hch.keys.1; unfold PyDict.keys at this; rw [this]; exact hv.conts.1
    have key : ∀ (a b a' b' : Solution), (a.map (·.1) ++ cid :: b.map (·.1)).Nodup →
        a ++ (cid, m) :: b = a' ++ (cid, m) :: b' → a = a' := by
      intro a
      induction a with
      | nil =>
        intro b a' b' hn heq
        cases a' with
        | nil => rfl
        | cons x a' =>
          exfalso
          simp only [List.nil_append, List.cons_append, List.cons.injEq] at heq
          obtain ⟨_, heq⟩ := heq
          simp only [List.map_nil, List.nil_append, List.nodup_cons] at hn
          exact hn.1 (by rw [heq]; simp)
      | cons y a ih =>
        intro b a' b' hn heq
        cases a' with
        | nil =>
          exfalso
          simp only [List.nil_append, List.cons_append, List.cons.injEq] at heq
          obtain ⟨rfl, heq⟩ := heq
          simp at hn
        | cons x a' =>
          simp at heq
          obtain ⟨rfl, heq⟩ := heq
          simp only [List.map_cons, List.cons_append, List.nodup_cons] at hn
          rw [ih b a' b' hn.2 heq]
    apply key before after s1 s2
    · rw [hsplit] at hn; simpa using hn
    · rw [← hsplit, h6]
  subst hb
  have hpool : pool' = (solvedFor p.items seq).filter (fun q => q.1 ∉ placedIds before) := by
    apply sublist_eq_filter (·.1) h3 hval.1
    intro q hq
    rw [decide_eq_true_eq]
    have hn : (prev ++ PyDict.keys pool').Nodup := h4.nodup_iff.2 hval.1
    have hmem : q.1 ∈ prev ++ PyDict.keys pool' := h4.mem_iff.2 (List.mem_map.2 ⟨q, hq, rfl⟩)
    rw [← h7]
    rw [List.nodup_append] at hn
    constructor
    · intro hnp
      rcases List.mem_append.1 hmem with h | h
      · exact absurd h hnp
      · exact h
    · intro hin hp
      exact hn.2.2 _ hp _ hin rfl
  rw [← hpool] at hp
  subst hp
  rcases h5 with ⟨e1, e2, _⟩ | ⟨hne, r, hr, _, e2, _, hsub⟩
  · exact Or.inl ⟨e1, e2⟩
  · refine Or.inr ⟨hne, r, hr, e2, ?_⟩
    rintro ⟨id, d⟩ hit hleft
    have hk : id ∈ PyDict.keys rem := by
      have : id ∈ placedIds sol ++ PyDict.keys rem :=
        hch.perm.mem_iff.2 (List.mem_map.2 ⟨_, hit, rfl⟩)
      rcases List.mem_append.1 this with h | h
      · exact absurd h hleft
      · exact h
    obtain ⟨q, hq, hq1⟩ := List.mem_map.1 hk
    obtain ⟨qi, qd⟩ := q
    simp only at hq1; subst hq1
    have e1 := PyDict.find?_of_mem hval.1 (hch.sub.subset hq)
    have e2 := PyDict.find?_of_mem hval.1 hit
    rw [e1] at e2; injection e2 with e2; subst e2
    exact hsub.subset hq

theorem solvedFor_valid {A : Arith} {p : SolveIn} (hv : ValidIn p) {seq : Option (List String)}
    (hs : KnownSeq p seq) {sol : Solution} {ov : ObjVals} (h : solve A p seq = .ok (sol, ov)) :
    ValidSizes (solvedFor p.items seq) := (solve_ok hv hs h).1

theorem validSizes_filter {d : List (String × Dim)} (h : ValidSizes d) (f : String × Dim → Bool) :
    ValidSizes (d.filter f) :=
  ⟨h.1.sublist (List.filter_sublist.map _), fun p hp => h.2 p (List.mem_of_mem_filter hp)⟩

theorem lenOf_pos {p : SolveIn} (hv : ValidIn p) {A : Arith} {cid : String} {c : Dim}
    (hc : (cid, c) ∈ p.containers) : 0 < (p.params A c).W ∧ 0 < (p.params A c).L := by
  have h := hv.conts.2 _ hc
  refine ⟨h.1, ?_⟩
  unfold SolveIn.params
  simp only
  split
  · rename_i hs; exact hv.height hs
  · exact h.2

/-- C12: an item that was to be packed and is in no container does not fit, in any allowed
orientation, into the final layout of any container at any point used while that container was
filled (whether or not the container is full).  The points used are those of the run of the
construction on the items left over by the containers before. -/
theorem C12_used_points (A : Arith) (p : SolveIn) (hv : ValidIn p) (seq : Option (List String))
    (hs : KnownSeq p seq) (sol : Solution) (ov : ObjVals) (h : solve A p seq = .ok (sol, ov))
    (before : Solution) (cid : String) (m : PyDict String Rect) (after : Solution)
    (hsplit : sol = before ++ (cid, m) :: after) (c : Dim) (hc : (cid, c) ∈ p.containers)
    (id : String) (d : Dim) (hit : (id, d) ∈ solvedFor p.items seq) (hleft : id ∉ placedIds sol)
    (pt : Pt)
    (hpt : pt ∈ pointsUsed A p c ((solvedFor p.items seq).filter (fun q => q.1 ∉ placedIds before))) :
    ¬ CanAdd c.w (lenOf p c) p.rotation (m.map (·.2)) d pt.x pt.y := by
  have hval := validSizes_filter (solvedFor_valid hv hs h) (fun q => q.1 ∉ placedIds before)
  rcases pool_of_split hv hs h hsplit hc rfl with ⟨h1, _⟩ | ⟨_, r, hr, hm, hrem⟩
  · rw [h1] at hpt
    simp [pointsUsed, usedPoints, constructFuel, constructInit, PyDict.keys] at hpt
  · obtain ⟨hW, hL⟩ := lenOf_pos (A := A) hv hc
    obtain ⟨n, s, hrun, hI, hD, _, hcon⟩ := construct_total (P := p.params A c) hval hW hL
    obtain ⟨n', s', hloop, hrun', hI', hD', _⟩ := construct_run (P := p.params A c) hval hW hL
    have hcon' := hr
    unfold construct constructFinish at hcon'
    simp only [bind, Except.bind] at hcon'
    rw [hloop] at hcon'
    have hs' : r.items = s'.items ∧ r.solution = s'.placed.map (fun p => (p.id, p.rect)) := by
      simp only at hcon'
      split at hcon'
      · cases hcon'
      · injection hcon' with hcon'
        rw [← hcon']; exact ⟨rfl, rfl⟩
    have hdead := (usedPoints_dead _ _ _ _ (I0_init hval hW hL) hloop).2 pt hpt
    have hG := Run_GInv (GInv_init _ _) hrun'
    have := not_canAdd_of_dead hG hI'.pos hdead (id, d) (by rw [← hs'.1]; exact hrem _ hit hleft)
    rw [hm, hs'.2]
    simpa [Function.comp_def, SolveIn.params, lenOf] using this

/-- the run behind the solution of a container -/
theorem construct_state {P : CParams} {items : PyDict String Dim} (hg : ValidSizes items)
    (hW : 0 < P.W) (hL : 0 < P.L) {r : CResult} (hr : construct P items = .ok r) :
    ∃ n s, Run P (constructInit P items) n s ∧ I0 P s ∧
      r.solution = s.placed.map (fun p => (p.id, p.rect)) := by
  obtain ⟨n, s, hrun, hI, _, _, hcon⟩ := construct_total (P := P) hg hW hL
  rw [hcon] at hr; injection hr with hr
  exact ⟨n, s, hrun, hI, by rw [← hr]⟩

theorem before_filter {ids : List (String × Dim)} {f : String → Bool} {a b : String}
    (h : Earlier (ids.map (·.1)) a b) (ha : f a = true) (hb : f b = true) :
    Earlier ((ids.filter (fun q => f q.1)).map (·.1)) a b := by
  obtain ⟨x, y, z, e⟩ := h
  have : (ids.filter (fun q => f q.1)).map (·.1) = (ids.map (·.1)).filter f := by
    rw [List.filter_map]; rfl
  rw [this, e]
  refine ⟨x.filter f, y.filter f, z.filter f, ?_⟩
  simp [List.filter_append, List.filter_cons, ha, hb]

/-- C71: the order of the items (of the sequence) is a priority order.  When an item is put
somewhere, no item that comes before it in the order and was still available could have been put
there, in any allowed orientation; and the item is turned only if it could not be put there
unturned.  `earlier` are the items put into the container before. -/
theorem C71_priority (A : Arith) (p : SolveIn) (hv : ValidIn p) (seq : Option (List String))
    (hs : KnownSeq p seq) (sol : Solution) (ov : ObjVals) (h : solve A p seq = .ok (sol, ov))
    (before : Solution) (cid : String) (m : PyDict String Rect) (after : Solution)
    (hsplit : sol = before ++ (cid, m) :: after) (c : Dim) (hc : (cid, c) ∈ p.containers)
    (earlier : List (String × Rect)) (id : String) (r : Rect) (later : List (String × Rect))
    (hm : m = earlier ++ (id, r) :: later) :
    (∀ id' d', (id', d') ∈ solvedFor p.items seq →
      Earlier ((solvedFor p.items seq).map (·.1)) id' id →
      id' ∉ placedIds before → id' ∉ earlier.map (·.1) →
      ¬ CanAdd c.w (lenOf p c) p.rotation (earlier.map (·.2)) d' r.x r.y) ∧
    (∀ d, (id, d) ∈ p.items → ¬ (r.w = d.w ∧ r.l = d.l) →
      ¬ FreeFor c.w (lenOf p c) (earlier.map (·.2)) ⟨r.x, r.y, d.w, d.l⟩) := by
  have hall := solvedFor_valid hv hs h
  have hval := validSizes_filter hall (fun q => q.1 ∉ placedIds before)
  rcases pool_of_split hv hs h hsplit hc rfl with ⟨_, h2⟩ | ⟨_, cr, hr, hmr, _⟩
  · rw [h2] at hm; simp at hm
  obtain ⟨hW, hL⟩ := lenOf_pos (A := A) hv hc
  obtain ⟨n, s, hrun, hI, hsol⟩ := construct_state hval hW hL hr
  rw [hmr, hsol] at hm
  obtain ⟨pre, rest, e1, e2, e3⟩ := List.map_eq_append_iff.1 hm
  obtain ⟨q, post, e4, e5, e6⟩ := List.map_eq_cons_iff.1 e3
  have hpr := Run_prio hval hrun pre q post (by rw [e1, e4])
  have hG := Run_GInv (GInv_init _ _) hrun
  injection e5 with e5 e7
  have hids : pre.map (·.id) = earlier.map (·.1) := by rw [← e2]; simp
  have hrects : pre.map Placed.rect = earlier.map (·.2) := by rw [← e2]; simp
  have hx : r.x = q.x ∧ r.y = q.y := by rw [← e7]; exact ⟨rfl, rfl⟩
  have hmem : (q.id, q.dim) ∈ (solvedFor p.items seq).filter (fun q => q.1 ∉ placedIds before) :=
    hG.perm.mem_iff.1 (List.mem_append_left _ (List.mem_map.2 ⟨q, by rw [e1, e4]; simp, rfl⟩))
  constructor
  · intro id' d' hin hb hnb hne
    have hidf : id ∉ placedIds before := by
      have := List.of_mem_filter hmem
      rw [← e5]; simpa using this
    have := hpr.1 (id', d') (List.mem_filter.2 ⟨hin, by simpa using hnb⟩) (by
      rw [e5]
      exact before_filter (f := fun x => decide (x ∉ placedIds before)) hb (by simpa using hnb)
        (by simpa using hidf)) (by rw [hids]; exact hne)
    rw [hrects, ← hx.1, ← hx.2] at this
    exact this
  · intro d hd hne
    have hdim : q.dim = d := by
      have h1 : (id, q.dim) ∈ p.items := by
        have := (List.mem_filter.1 hmem).1
        rw [e5] at this
        exact solvedFor_mem _ this
      have f1 := PyDict.find?_of_mem hv.items.1 h1
      have f2 := PyDict.find?_of_mem hv.items.1 hd
      rw [f1] at f2; injection f2
    have hrot : q.rotated = true := by
      cases hq : q.rotated with
      | true => rfl
      | false =>
        exfalso; apply hne
        rw [← e7, ← hdim]
        unfold Placed.rect
        simp [hq]
    have := hpr.2 hrot
    rw [hrects, ← hx.1, ← hx.2, hdim] at this
    exact this

/-- C12 on `demo`: nine points are used in the first container and three in the second; `d` (5 × 2)
is left over and fits at none of them. -/
example : pointsUsed Arith.exact demo ⟨6, 5⟩ demo.items =
      [⟨0, 0⟩, ⟨0, 2⟩, ⟨0, 4⟩, ⟨3, 0⟩, ⟨2, 4⟩, ⟨5, 0⟩, ⟨4, 2⟩, ⟨4, 2⟩, ⟨4, 0⟩] ∧
    pointsUsed Arith.exact demo ⟨4, 4⟩ [("d", ⟨5, 2⟩), ("e", ⟨3, 3⟩), ("f", ⟨9, 9⟩)] =
      [⟨0, 0⟩, ⟨0, 3⟩, ⟨3, 0⟩] := by decide +kernel

example : ∀ pt ∈ pointsUsed Arith.exact demo ⟨4, 4⟩ [("d", ⟨5, 2⟩), ("e", ⟨3, 3⟩), ("f", ⟨9, 9⟩)],
    ¬ CanAdd 4 4 true [⟨0, 0, 3, 3⟩] ⟨5, 2⟩ pt.x pt.y := by
  intro pt hpt
  exact C12_used_points Arith.exact demo demo_valid none (by intro s h; cases h) _ _ demo_solve
    [("c0", [("a", ⟨0, 0, 3, 2⟩), ("b", ⟨0, 2, 4, 2⟩), ("g", ⟨0, 4, 2, 1⟩), ("c", ⟨3, 0, 2, 2⟩)])]
    "c1" [("e", ⟨0, 0, 3, 3⟩)] [] rfl ⟨4, 4⟩ (by simp [demo]) "d" ⟨5, 2⟩ (by simp [solvedFor, demo])
    (by decide) pt hpt

/-- C71 on `demo`: `g`, the last item, is the third to be placed, at (0, 4); so `c` (2 × 2), which
comes before it, could not be put there at that time; and `b` (2 × 4) was turned at (0, 2), so it
did not fit unturned. -/
example : ¬ CanAdd 6 5 true [⟨0, 0, 3, 2⟩, ⟨0, 2, 4, 2⟩] ⟨2, 2⟩ 0 4 ∧
    ¬ FreeFor 6 5 [⟨0, 0, 3, 2⟩] ⟨0, 2, 2, 4⟩ := by
  constructor
  · exact (C71_priority Arith.exact demo demo_valid none (by intro s h; cases h) _ _ demo_solve
      [] "c0" [("a", ⟨0, 0, 3, 2⟩), ("b", ⟨0, 2, 4, 2⟩), ("g", ⟨0, 4, 2, 1⟩), ("c", ⟨3, 0, 2, 2⟩)]
      [("c1", [("e", ⟨0, 0, 3, 3⟩)])] rfl ⟨6, 5⟩ (by simp [demo])
      [("a", ⟨0, 0, 3, 2⟩), ("b", ⟨0, 2, 4, 2⟩)] "g" ⟨0, 4, 2, 1⟩ [("c", ⟨3, 0, 2, 2⟩)] rfl).1
      "c" ⟨2, 2⟩ (by simp [solvedFor, demo]) ⟨["a", "b"], ["d", "e", "f"], [], rfl⟩ (by decide) (by decide)
  · exact (C71_priority Arith.exact demo demo_valid none (by intro s h; cases h) _ _ demo_solve
      [] "c0" [("a", ⟨0, 0, 3, 2⟩), ("b", ⟨0, 2, 4, 2⟩), ("g", ⟨0, 4, 2, 1⟩), ("c", ⟨3, 0, 2, 2⟩)]
      [("c1", [("e", ⟨0, 0, 3, 3⟩)])] rfl ⟨6, 5⟩ (by simp [demo])
      [("a", ⟨0, 0, 3, 2⟩)] "b" ⟨0, 2, 4, 2⟩ [("g", ⟨0, 4, 2, 1⟩), ("c", ⟨3, 0, 2, 2⟩)] rfl).2
      ⟨2, 4⟩ (by simp [demo]) (by decide)

end HP
