import Verif.Model.Objective
import Verif.Proofs.Prefix
import Verif.Proofs.Solve
/-
The objective of a subclass only decides when a container is closed.
-/
namespace HP
open Spec

/-- the same parameters, without a value of the container -/
def CParams.idle (P : CParams) : CParams := { P with ar := P.ar.idle }

/-- a state without its value -/
def CState.forget (s : CState) : CState := { s with obj := 0 }

theorem CState.forget_low (s : CState) : ¬ s.forget.obj ≥ 1 := by
  show ¬ ((0 : Rat) ≥ 1)
  decide

theorem genA_idle (A : Arith) (g : Grid) (W L Xo Yo l : Nat) : genA A.idle g W L Xo Yo l = genA A g W L Xo Yo l := rfl

theorem generatePoints_idle (A : Arith) (g : Grid) (W L Xo Yo w l : Nat) :
    generatePoints A.idle g W L Xo Yo w l = generatePoints A g W L Xo Yo w l := rfl

theorem ite00 (b : Bool) : (if b = true then (0 : Rat) else 0) = 0 := by cases b <;> rfl

theorem handlePointO_forget (V : Objective) (P : CParams) (s : CState) (pt : Pt) :
    (handlePointO V P s pt).map CState.forget = handlePoint P.idle s.forget pt := by
  unfold handlePointO handlePoint
  simp only [bind, Except.bind, pure, Except.pure, CParams.idle, CState.forget, generatePoints_idle]
  cases findFit P.rot P.W P.L pt.x pt.y s.grid s.items s.ids with
  | error e => rfl
  | ok hit =>
    simp only
    cases hit with
    | none => rfl
    | some x =>
      obtain ⟨id, d, ro⟩ := x
      simp only
      cases fillItem s.grid pt.x pt.y (if ro = true then d.l else d.w) (if ro = true then d.w else d.l) with
      | error e => rfl
      | ok g =>
        simp only
        cases pyRemove s.ids id with
        | error e => rfl
        | ok ids =>
          simp only
          cases PyDict.delE s.items id with
          | error e => rfl
          | ok items =>
            simp only
            cases generatePoints P.ar g P.W P.L pt.x pt.y (if ro = true then d.l else d.w) (if ro = true then d.w else d.l) with
            | error e => rfl
            | ok gen =>
              simp only [Except.map, Arith.idle]
              exact congrArg (fun o : Rat => (Except.ok ({ s with
                grid := g, ids := ids, items := items, obj := o,
                placed := s.placed ++ [⟨id, d, pt.x, pt.y, ro⟩], pools := s.pools.pushAll gen } : CState) : Except PyErr CState)) (ite00 P.strip).symm

theorem constructStepO_forget (V : Objective) (P : CParams) (s : CState) (pt : Pt) :
    (constructStepO V P s pt).map CState.forget = constructStep P.idle s.forget pt := by
  unfold constructStepO constructStep
  rw [← handlePointO_forget V P s pt]
  simp only [bind, Except.bind, pure, Except.pure]
  cases handlePointO V P s pt with
  | error e => rfl
  | ok s1 => rfl

theorem I0_forget {P : CParams} {s : CState} (h : I0 P s) : I0 P.idle s.forget := ⟨h.wf, h.ids, h.nodup, h.pos, h.supPools, h.supCur⟩

theorem I0_unforget {P : CParams} {s : CState} (h : I0 P.idle s.forget) : I0 P s := ⟨h.wf, h.ids, h.nodup, h.pos, h.supPools, h.supCur⟩

/-- one round and the value it adds -/
theorem constructStepO_value (V : Objective) (P : CParams) {s s' : CState} {pt : Pt} (h : constructStepO V P s pt = .ok s') :
    (s'.placed = s.placed ∧ s'.obj = s.obj) ∨
    ∃ q : Placed, s'.placed = s.placed ++ [q] ∧
      s'.obj = if P.strip then s.obj else P.ar.add s.obj (V q.rect.w q.rect.l P.W P.L q.rect.x q.rect.y s'.grid) := by
  unfold constructStepO handlePointO at h
  simp only [bind, Except.bind, pure, Except.pure] at h
  cases h1 : findFit P.rot P.W P.L pt.x pt.y s.grid s.items s.ids with
  | error e => rw [h1] at h; cases h
  | ok hit =>
    rw [h1] at h
    cases hit with
    | none =>
      simp only at h
      injection h with h
      subst h
      exact .inl ⟨rfl, rfl⟩
    | some x =>
      obtain ⟨id, d, ro⟩ := x
      simp only at h
      cases h2 : fillItem s.grid pt.x pt.y (if ro = true then d.l else d.w) (if ro = true then d.w else d.l) with
      | error e => rw [h2] at h; cases h
      | ok g =>
        rw [h2] at h
        simp only at h
        cases h3 : pyRemove s.ids id with
        | error e => rw [h3] at h; cases h
        | ok ids =>
          rw [h3] at h
          simp only at h
          cases h4 : PyDict.delE s.items id with
          | error e => rw [h4] at h; cases h
          | ok items =>
            rw [h4] at h
            simp only at h
            cases h5 : generatePoints P.ar g P.W P.L pt.x pt.y (if ro = true then d.l else d.w) (if ro = true then d.w else d.l) with
            | error e => rw [h5] at h; cases h
            | ok gen =>
              rw [h5] at h
              simp only at h
              injection h with h
              subst h
              exact .inr ⟨_, rfl, rfl⟩

/-- the values of placements added up in order, each with the cells of the container at that time -/
def addUp (V : Objective) (P : CParams) (l : List (Placed × Grid)) (start : Rat) : Rat :=
  l.foldl (fun a q => P.ar.add a (V q.1.rect.w q.1.rect.l P.W P.L q.1.rect.x q.1.rect.y q.2)) start

/-- how the value of the container came about -/
structure Added (V : Objective) (P : CParams) (s s' : CState) (l : List (Placed × Grid)) : Prop where
  placed : s'.placed = s.placed ++ l.map (·.1)
  obj : s'.obj = if P.strip then s.obj else addUp V P l s.obj
  low : P.strip = false → ∀ l1 l2, l = l1 ++ l2 → l2 ≠ [] → ¬ addUp V P l1 s.obj ≥ 1
  cells : ∀ l1 q l2, l = l1 ++ q :: l2 → ∀ y x, cell q.2 y x ≠ 0 ↔
    ∃ p ∈ s.placed ++ l1.map (·.1) ++ [q.1], Covers p.rect x y

/-- the loop with an objective runs as the loop without, up to where it stops -/
theorem constructLoopO_sim (V : Objective) (P : CParams) (items0 : PyDict String Dim) : ∀ (fuel : Nat) (s : CState), I0 P s →
    GInv P.idle items0 s.forget → measure s < fuel →
    ∃ n s' s'' ext l, constructLoopO V P fuel s = .ok s' ∧ constructLoop P.idle fuel s.forget = .ok s'' ∧
      Run P.idle s.forget n s'.forget ∧ s''.placed = s'.placed ++ ext ∧
      (¬ s'.obj ≥ 1 → s'' = s'.forget) ∧ Added V P s s' l
  | 0, _, _, _, h => by omega
  | fuel + 1, s, hI, hG, hm => by
    have hI' := I0_forget hI
    have hm' : measure s.forget < fuel + 1 := hm
    have stop : constructLoopO V P (fuel + 1) s = .ok s → (¬ s.obj ≥ 1 → constructLoop P.idle (fuel + 1) s.forget = .ok s.forget) →
        ∃ n s' s'' ext l, constructLoopO V P (fuel + 1) s = .ok s' ∧ constructLoop P.idle (fuel + 1) s.forget = .ok s'' ∧
          Run P.idle s.forget n s'.forget ∧ s''.placed = s'.placed ++ ext ∧
          (¬ s'.obj ≥ 1 → s'' = s'.forget) ∧ Added V P s s' l := by
      intro h1 h2
      obtain ⟨_, s'', e2, _, _, _, _⟩ := constructLoop_run P.idle (fuel + 1) s.forget hI' hm'
      obtain ⟨ext, he⟩ := constructLoop_grows P.idle e2
      refine ⟨0, s, s'', ext, [], h1, e2, .refl, he, ?_, ⟨by simp, by simp [addUp], ?_, ?_⟩⟩
      · intro hn
        have := h2 hn
        rw [e2] at this
        injection this
      · intro _ l1 l2 h hne
        have := List.append_eq_nil_iff.1 h.symm
        exact absurd this.2 hne
      · intro l1 q l2 h
        simp at h
    cases hcur : s.cur with
    | none =>
      apply stop
      · unfold constructLoopO; rw [hcur]
      · intro _
        unfold constructLoop
        have : s.forget.cur = none := hcur
        rw [this]
    | some pt =>
      by_cases hd : s.ids = [] ∨ s.obj ≥ 1
      · apply stop
        · unfold constructLoopO; rw [hcur]; simp only; rw [if_pos hd]
        · intro hn
          unfold constructLoop
          have h1 : s.forget.cur = some pt := hcur
          have h2 : s.forget.ids = [] ∨ s.forget.obj ≥ 1 := .inl (hd.resolve_right hn)
          rw [h1]; simp only; rw [if_pos h2]
      · have hcur' : s.forget.cur = some pt := hcur
        obtain ⟨f1, e1, r1, i1, m1⟩ := constructStep_tot hI' hcur'
        have hsim := constructStepO_forget V P s pt
        rw [e1] at hsim
        cases hstep : constructStepO V P s pt with
        | error e => rw [hstep] at hsim; cases hsim
        | ok s1 =>
          rw [hstep] at hsim
          injection hsim with hsim
          subst hsim
          have hG1 := StepRel_GInv hI' hcur' hG r1
          obtain ⟨n, s', s'', ext, l, a1, a2, a3, a4, a5, a6⟩ := constructLoopO_sim V P items0 fuel s1 (I0_unforget i1) hG1 (by
            have : measure s.forget = measure s := rfl
            have : measure s1.forget = measure s1 := rfl
            omega)
          have hval := constructStepO_value V P hstep
          have hnot : ¬ s.obj ≥ 1 := fun h => hd (.inr h)
          obtain ⟨l', hl'⟩ : ∃ l', Added V P s s' l' := by
            rcases hval with ⟨h, ho⟩ | ⟨q, h, ho⟩
            · refine ⟨l, ⟨by rw [a6.placed, h], by rw [a6.obj, ho], ?_, ?_⟩⟩
              · rw [← ho]; exact a6.low
              · rw [← h]; exact a6.cells
            · refine ⟨(q, s1.grid) :: l, ⟨by rw [a6.placed, h]; simp, ?_, ?_, ?_⟩⟩
              · rw [a6.obj, ho]
                cases P.strip <;> rfl
              · intro hs l1 l2 hl hne
                cases l1 with
                | nil => exact hnot
                | cons z l1 =>
                  simp only [List.cons_append, List.cons.injEq] at hl
                  obtain ⟨rfl, hl⟩ := hl
                  have := a6.low hs l1 l2 hl hne
                  rw [ho, if_neg (by simp [hs])] at this
                  exact this
              · intro l1 z l2 hl y x
                cases l1 with
                | nil =>
                  simp only [List.nil_append, List.cons.injEq] at hl
                  obtain ⟨rfl, _⟩ := hl
                  have := hG1.cov y x
                  simp only [CState.forget, h] at this
                  simpa using this
                | cons z' l1 =>
                  simp only [List.cons_append, List.cons.injEq] at hl
                  obtain ⟨rfl, hl⟩ := hl
                  have := a6.cells l1 z l2 hl y x
                  rw [h] at this
                  simpa using this
          refine ⟨n + 1, s', s'', ext, l', ?_, ?_, ?_, a4, a5, hl'⟩
          · unfold constructLoopO
            rw [hcur]; simp only; rw [if_neg hd]
            simp only [bind, Except.bind, hstep]; exact a1
          · unfold constructLoop
            rw [hcur']; simp only
            rw [if_neg (by
              rintro (h | h)
              · exact hd (.inl h)
              · exact s.forget_low h)]
            simp only [bind, Except.bind, e1]; exact a2
          · exact Run.cons hI' ⟨hcur', fun h => hd (.inl h), s.forget_low⟩ r1 i1 a3

/-- the values of the placements in a container of size `W × L` added up in order -/
def valueOf (V : Objective) (A : Arith) (W L : Nat) (l : List ((String × Rect) × Grid)) : Rat :=
  l.foldl (fun a q => A.add a (V q.1.2.w q.1.2.l W L q.1.2.x q.1.2.y q.2)) 0

/-- the result of a construction with an objective, next to that without -/
structure OFacts (V : Objective) (P : CParams) (items : PyDict String Dim) (r full : CResult) (ext : List (String × Rect)) : Prop where
  whole : full.solution = r.solution ++ ext
  perm : (PyDict.keys r.solution ++ PyDict.keys r.items).Perm (PyDict.keys items)
  sub : r.items.Sublist items
  stop : (P.strip = true ∨ ¬ r.obj ≥ 1) → ext = []
  value : P.strip = false → ∃ l : List ((String × Rect) × Grid), r.solution = l.map (·.1) ∧ r.obj = valueOf V P.ar P.W P.L l ∧
    (∀ l1 l2, l = l1 ++ l2 → l2 ≠ [] → valueOf V P.ar P.W P.L l1 < 1) ∧
    (∀ l1 q l2, l = l1 ++ q :: l2 → ∀ y x, cell q.2 y x ≠ 0 ↔ ∃ p ∈ l1.map (·.1) ++ [q.1], Covers p.2 x y)

theorem constructO_facts {V : Objective} {P : CParams} {items : PyDict String Dim} (hg : ValidSizes items)
    (hW : 0 < P.W) (hL : 0 < P.L) : ∃ r full ext, constructO V P items = .ok r ∧ construct P.idle items = .ok full ∧
      OFacts V P items r full ext := by
  obtain ⟨n, s, s'', ext, l, h1, h2, h3, h4, h7, h9⟩ := constructLoopO_sim V P items (constructFuel items)
    (constructInit P items) (I0_init hg hW hL) (GInv_init P.idle items) (by have := measure_init P items; omega)
  have hfin : ∀ (Q : CParams) (t : CState), Q.W = P.W → ∃ o, (Q.strip = false → o = t.obj) ∧ constructFinish Q t = .ok ⟨t.items, o, t.placed.map (fun p => (p.id, p.rect))⟩ := by
    intro Q t hQ
    unfold constructFinish
    simp only [bind, Except.bind]
    cases hs : Q.strip with
    | false => exact ⟨t.obj, fun _ => rfl, rfl⟩
    | true =>
      have : ¬ Q.W * topRow t.grid (Q.L - 1) = 0 := by
        have h6 := topRow_pos t.grid (Q.L - 1)
        rw [hQ]
        have := Nat.mul_pos hW h6
        omega
      simp only [if_true]
      rw [if_neg this]
      exact ⟨_, nofun, rfl⟩
  obtain ⟨o, ho, hf1⟩ := hfin P s rfl
  obtain ⟨o', ho', hf2⟩ := hfin P.idle s'' rfl
  have hG := Run_GInv (GInv_init P.idle items) h3
  refine ⟨⟨s.items, o, s.placed.map (fun p => (p.id, p.rect))⟩, ⟨s''.items, o', s''.placed.map (fun p => (p.id, p.rect))⟩,
    ext.map (fun p => (p.id, p.rect)), ?_, ?_, ⟨?_, ?_, ?_, ?_, ?_⟩⟩
  · unfold constructO
    simp only [bind, Except.bind]
    rw [h1]; exact hf1
  · unfold construct
    simp only [bind, Except.bind]
    have e : constructInit P.idle items = (constructInit P items).forget := rfl
    rw [e, h2]; exact hf2
  · simp only [h4, List.map_append]
  · have := hG.perm.map (·.1)
    simp only [CState.forget] at this
    simpa [PyDict.keys, Function.comp_def] using this
  · exact hG.sub
  · intro hst
    have : ¬ s.obj ≥ 1 := by
      cases hs : P.strip with
      | true => rw [h9.obj, if_pos hs]; show ¬ ((0 : Rat) ≥ 1); decide
      | false =>
        rcases hst with h | h
        · rw [hs] at h; cases h
        · simp only at h; rw [ho hs] at h; exact h
    have := h7 this
    subst this
    have : s.placed = s.placed ++ ext := h4
    have : ext = [] := by simpa using this
    rw [this]; rfl
  · intro hs
    have hm : ∀ l : List (Placed × Grid), addUp V P l 0 = valueOf V P.ar P.W P.L (l.map (fun q => ((q.1.id, q.1.rect), q.2))) := by
      intro l
      unfold addUp valueOf
      rw [List.foldl_map]
    have e' : (constructInit P items).obj = 0 := rfl
    have e'' : (constructInit P items).placed = [] := rfl
    refine ⟨l.map (fun q => ((q.1.id, q.1.rect), q.2)), ?_, ?_, ?_, ?_⟩
    · simp only [h9.placed, e'', List.nil_append, List.map_map]
      rfl
    · simp only
      rw [ho hs, h9.obj, if_neg (by simp [hs]), e', hm]
    · intro l1 l2 hl hne
      obtain ⟨m1, m2, e1, e2, e3⟩ := List.map_eq_append_iff.1 hl
      have := h9.low hs m1 m2 e1 (by rintro rfl; exact hne e3.symm)
      rw [e', hm, e2] at this
      exact Rat.not_le.1 this
    · intro l1 q l2 hl y x
      obtain ⟨m1, m2, e1, e2, e3⟩ := List.map_eq_append_iff.1 hl
      obtain ⟨z, m3, e4, e5, e6⟩ := List.map_eq_cons_iff.1 e3
      have := h9.cells m1 z m3 (by rw [e1, e4]) y x
      rw [← e5, ← e2]
      simp only [this, e'', List.nil_append, List.map_map]
      constructor
      · rintro ⟨p, hp, hc⟩
        refine ⟨(p.id, p.rect), ?_, hc⟩
        rcases List.mem_append.1 hp with h | h
        · obtain ⟨a, ha, rfl⟩ := List.mem_map.1 h
          exact List.mem_append_left _ (List.mem_map.2 ⟨a, ha, rfl⟩)
        · simp only [List.mem_singleton] at h
          subst h
          simp
      · rintro ⟨p, hp, hc⟩
        rcases List.mem_append.1 hp with h | h
        · obtain ⟨a, ha, rfl⟩ := List.mem_map.1 h
          exact ⟨a.1, List.mem_append_left _ (List.mem_map.2 ⟨a, ha, rfl⟩), hc⟩
        · simp only [List.mem_singleton] at h
          subst h
          exact ⟨z.1, by simp, hc⟩

/-- the containers one after the other -/
inductive ChainO (A : Arith) (V : Objective) (p : SolveIn) :
    PyDict String Dim → PyDict String Dim → Solution → ObjVals → Prop where
  | nil (items) : ChainO A V p [] items [] []
  | skip {cid c cs sol ov} : ChainO A V p cs [] sol ov →
      ChainO A V p ((cid, c) :: cs) [] ((cid, []) :: sol) ((cid, 0) :: ov)
  | cons {cid c cs items r full ext sol ov} : items ≠ [] → constructO V (p.params A c) items = .ok r →
      construct (p.params A c).idle items = .ok full → OFacts V (p.params A c) items r full ext →
      ChainO A V p cs r.items sol ov →
      ChainO A V p ((cid, c) :: cs) items ((cid, r.solution) :: sol) ((cid, r.obj) :: ov)

theorem solveLoopO_chain (A : Arith) (V : Objective) (p : SolveIn) (hh : p.strip = true → 0 < p.height) :
    ∀ (cs items : PyDict String Dim), (∀ c ∈ cs, 0 < c.2.w ∧ 0 < c.2.l) → ValidSizes items →
      ∃ sol ov, solveLoopO A V p cs items = .ok (sol, ov) ∧ ChainO A V p cs items sol ov
  | [], items, _, _ => ⟨[], [], rfl, .nil items⟩
  | (cid, c) :: cs, items, hcs, hi => by
    unfold solveLoopO
    by_cases h0 : items = []
    · subst h0
      obtain ⟨sol, ov, h1, h2⟩ := solveLoopO_chain A V p hh cs [] (fun c hc => hcs c (by simp [hc])) hi
      exact ⟨_, _, by rw [if_pos rfl]; simp only [bind, Except.bind]; rw [h1]; rfl, .skip h2⟩
    · rw [if_neg h0]
      have hc := hcs (cid, c) (by simp)
      obtain ⟨r, full, ext, hr, hfull, hf⟩ := constructO_facts (V := V) (P := p.params A c) hi hc.1 (by
        rw [params_L]; unfold lenOf; split
        · rename_i h; exact hh h
        · exact hc.2)
      obtain ⟨sol, ov, h1, h2⟩ := solveLoopO_chain A V p hh cs r.items
        (fun c hc => hcs c (by simp [hc])) (validSizes_sublist hf.sub hi)
      exact ⟨_, _, by simp only [bind, Except.bind]; rw [hr]; simp only; rw [h1]; rfl,
        .cons h0 hr hfull hf h2⟩

theorem solveO_chain {A : Arith} {V : Objective} {p : SolveIn} (hv : ValidIn p) {seq : Option (List String)}
    (hs : KnownSeq p seq) :
    ∃ sol ov, solveO A V p seq = .ok (sol, ov) ∧ ValidSizes (solvedFor p.items seq) ∧
      ChainO A V p p.containers (solvedFor p.items seq) sol ov := by
  obtain ⟨_, _, _, _, hval, _⟩ := solve_chain (A := A) hv hs
  obtain ⟨sol, ov, h1, h2⟩ := solveLoopO_chain A V p hv.height p.containers _ hv.conts.2 hval
  refine ⟨sol, ov, ?_, hval, h2⟩
  cases seq with
  | none => exact h1
  | some s =>
    unfold solveO
    simp only [bind, Except.bind]
    rw [deepcopySeq_reorder (hs s rfl)]; exact h1

theorem solveO_ok {A : Arith} {V : Objective} {p : SolveIn} (hv : ValidIn p) {seq : Option (List String)}
    (hs : KnownSeq p seq) {sol : Solution} {ov : ObjVals} (h : solveO A V p seq = .ok (sol, ov)) :
    ValidSizes (solvedFor p.items seq) ∧ ChainO A V p p.containers (solvedFor p.items seq) sol ov := by
  obtain ⟨sol', ov', h1, h2, h3⟩ := solveO_chain (A := A) (V := V) hv hs
  rw [h] at h1
  injection h1 with h1
  injection h1 with e1 e2
  subst e1; subst e2
  exact ⟨h2, h3⟩

theorem ChainO.keys {A V p cs items sol ov} (h : ChainO A V p cs items sol ov) :
    sol.map (·.1) = cs.map (·.1) ∧ ov.map (·.1) = cs.map (·.1) := by
  induction h with
  | nil => exact ⟨rfl, rfl⟩
  | skip _ ih => simp at ih ⊢; exact ih
  | cons _ _ _ _ _ ih => simp at ih ⊢; exact ih

theorem ChainO.perm {A V p cs items sol ov} (h : ChainO A V p cs items sol ov) :
    ∃ rem, (placedIds sol ++ rem).Perm (items.map (·.1)) := by
  induction h with
  | nil items => exact ⟨items.map (·.1), by simp [placedIds]⟩
  | skip _ ih => simpa [placedIds] using ih
  | cons _ _ _ hf _ ih =>
    obtain ⟨rem, ih⟩ := ih
    refine ⟨rem, ?_⟩
    simp only [placedIds, List.flatMap_cons] at ih ⊢
    rw [List.append_assoc]
    exact (ih.append_left _).trans hf.perm

/-- one container of the chain -/
theorem ChainO.split {A V p cs items sol ov} (h : ChainO A V p cs items sol ov) (hi : (items.map (·.1)).Nodup) :
    ∀ before cid m after, sol = before ++ (cid, m) :: after → ∃ c v pool, (cid, c) ∈ cs ∧ (cid, v) ∈ ov ∧
      pool = items.filter (fun q => q.1 ∉ placedIds before) ∧
      ((pool = [] ∧ m = [] ∧ v = 0) ∨ (pool ≠ [] ∧ ∃ r full ext, constructO V (p.params A c) pool = .ok r ∧
        construct (p.params A c).idle pool = .ok full ∧ OFacts V (p.params A c) pool r full ext ∧ m = r.solution ∧ v = r.obj)) := by
  induction h with
  | nil items => intro before cid m after h; simp at h
  | @skip cid' c cs sol ov _ ih =>
    intro before cid m after h
    cases before with
    | nil =>
      simp only [List.nil_append, List.cons.injEq, Prod.mk.injEq] at h
      obtain ⟨⟨rfl, rfl⟩, _⟩ := h
      exact ⟨c, 0, [], by simp, by simp, rfl, .inl ⟨rfl, rfl, rfl⟩⟩
    | cons x before =>
      simp only [List.cons_append, List.cons.injEq] at h
      obtain ⟨rfl, h⟩ := h
      obtain ⟨c', v, pool, h1, h2, h3, h4⟩ := ih (by simp) before cid m after h
      exact ⟨c', v, pool, by simp [h1], by simp [h2], by rw [h3]; rfl, h4⟩
  | @cons cid' c cs items r full ext sol ov h0 hr hfull hf _ ih =>
    intro before cid m after h
    cases before with
    | nil =>
      simp only [List.nil_append, List.cons.injEq, Prod.mk.injEq] at h
      obtain ⟨⟨rfl, rfl⟩, _⟩ := h
      exact ⟨c, r.obj, items, by simp, by simp, by simp [placedIds], .inr ⟨h0, r, full, ext, hr, hfull, hf, rfl, rfl⟩⟩
    | cons x before =>
      simp only [List.cons_append, List.cons.injEq] at h
      obtain ⟨rfl, h⟩ := h
      obtain ⟨c', v, pool, h1, h2, h3, h4⟩ := ih (hi.sublist (hf.sub.map _)) before cid m after h
      refine ⟨c', v, pool, by simp [h1], by simp [h2], ?_, h4⟩
      have hn : (PyDict.keys r.solution ++ PyDict.keys r.items).Nodup := hf.perm.nodup_iff.2 hi
      have hrest : r.items = items.filter (fun q => decide (q.1 ∉ r.solution.map (·.1))) := by
        refine sublist_eq_filter (·.1) hf.sub hi _ ?_
        intro a ha
        simp only [decide_eq_true_eq]
        have hin : a.1 ∈ PyDict.keys r.solution ++ PyDict.keys r.items := hf.perm.mem_iff.2 (List.mem_map_of_mem ha)
        constructor
        · intro hna
          rcases List.mem_append.1 hin with h | h
          · exact absurd h hna
          · exact h
        · intro h hna
          exact (List.nodup_append.1 hn).2.2 _ hna _ h rfl
      rw [h3]
      conv_lhs => rw [hrest]
      rw [List.filter_filter]
      refine List.filter_congr fun q _ => ?_
      have : q.1 ∈ placedIds ((cid', r.solution) :: before) ↔ q.1 ∈ r.solution.map (·.1) ∨ q.1 ∈ placedIds before := by
        simp [placedIds]
      simp only [this, not_or, Bool.decide_and]
      rw [Bool.and_comm]

end HP
