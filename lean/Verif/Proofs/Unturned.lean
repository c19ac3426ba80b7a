import Verif.Proofs.Solve
/-
Runs of the construction in which no item is turned.
-/
namespace HP
open Spec

theorem findFit_unturned (W L Xo Yo : Nat) (g : Grid) (items : PyDict String Dim) :
    ∀ (ids : List String) (hit : Option (String × Dim × Bool)),
      findFit true W L Xo Yo g items ids = .ok hit →
      (∀ id d b, hit = some (id, d, b) → (id, d) ∈ items ∧ (b = true → d.w ≠ d.l)) ∧
      ((∀ id d, hit ≠ some (id, d, true)) → findFit false W L Xo Yo g items ids = .ok hit)
  | [], hit, h => by
    unfold findFit at h ⊢
    injection h with h; subst h
    exact ⟨by intro id d b h; simp at h, fun _ => rfl⟩
  | id :: ids, hit, h => by
    unfold findFit at h ⊢
    have ih := findFit_unturned W L Xo Yo g items ids hit
    unfold PyDict.getE at h ⊢
    cases hd : PyDict.find? items id with
    | none => rw [hd] at h; cases h
    | some d =>
      have hmem := PyDict.find?_mem hd
      rw [hd] at h
      simp only [bind, Except.bind, Bool.false_eq_true, if_false] at h ⊢
      cases hc : checkFitting W L Xo Yo d.w d.l g with
      | error e => rw [hc] at h; cases h
      | ok check =>
        rw [hc] at h
        simp only at h ⊢
        cases check with
        | true =>
          simp only [if_true, pure, Except.pure] at h ⊢
          injection h with h; subst h
          refine ⟨?_, fun _ => rfl⟩
          intro id' d' b' e
          injection e with e; injection e with e1 e2; injection e2 with e2 e3
          subst e1; subst e2; subst e3
          exact ⟨hmem, by simp⟩
        | false =>
          simp only [Bool.false_eq_true, if_false, if_true] at h ⊢
          cases hc2 : checkFitting W L Xo Yo d.l d.w g with
          | error e => rw [hc2] at h; cases h
          | ok check2 =>
            rw [hc2] at h
            simp only at h
            cases check2 with
            | true =>
              simp only [if_true, pure, Except.pure] at h
              injection h with h; subst h
              refine ⟨?_, fun hno => absurd rfl (hno id d)⟩
              intro id' d' b' e
              injection e with e; injection e with e1 e2; injection e2 with e2 e3
              subst e1; subst e2; subst e3
              refine ⟨hmem, fun _ heq => ?_⟩
              rw [heq] at hc hc2
              rw [hc] at hc2
              injection hc2 with hc2
              exact absurd hc2 (by decide)
            | false =>
              simp only [Bool.false_eq_true, if_false] at h
              exact ih h

/-- what is known of the state: sizes come from `items0`, and squares are not turned -/
structure UInv (items0 : PyDict String Dim) (s : CState) : Prop where
  items : ∀ q ∈ s.items, q ∈ items0
  placed : ∀ p ∈ s.placed, (p.id, p.dim) ∈ items0 ∧ (p.rotated = true → p.dim.w ≠ p.dim.l)

theorem handlePoint_unturned {P : CParams} {items0 : PyDict String Dim} {s s' : CState} {pt : Pt}
    (hU : UInv items0 s) (hrot : P.rot = true) (h : handlePoint P s pt = .ok s') :
    UInv items0 s' ∧ (∃ ext, s'.placed = s.placed ++ ext) ∧
    ((∀ p ∈ s'.placed, p.rotated = false) → handlePoint { P with rot := false } s pt = .ok s') := by
  unfold handlePoint at h ⊢
  simp only [bind, Except.bind] at h ⊢
  rw [hrot] at h
  cases hf : findFit true P.W P.L pt.x pt.y s.grid s.items s.ids with
  | error e => rw [hf] at h; cases h
  | ok hit =>
    rw [hf] at h
    simp only at h
    obtain ⟨f1, f2⟩ := findFit_unturned _ _ _ _ _ _ _ _ hf
    cases hit with
    | none =>
      simp only [pure, Except.pure] at h
      injection h with h; subst h
      refine ⟨hU, ⟨[], by simp⟩, fun _ => ?_⟩
      rw [f2 (by simp)]; rfl
    | some hit =>
      obtain ⟨id, d, rotated⟩ := hit
      simp only at h
      obtain ⟨m1, m2⟩ := f1 id d rotated rfl
      cases hg : fillItem s.grid pt.x pt.y (if rotated then d.l else d.w) (if rotated then d.w else d.l) with
      | error e => rw [hg] at h; cases h
      | ok g =>
        rw [hg] at h; simp only at h
        cases hr : pyRemove s.ids id with
        | error e => rw [hr] at h; cases h
        | ok ids =>
          rw [hr] at h; simp only at h
          cases hde : PyDict.delE s.items id with
          | error e => rw [hde] at h; cases h
          | ok items =>
            rw [hde] at h; simp only at h
            cases hge : generatePoints P.ar g P.W P.L pt.x pt.y (if rotated then d.l else d.w)
                (if rotated then d.w else d.l) with
            | error e => rw [hge] at h; cases h
            | ok gen =>
              rw [hge] at h
              simp only [pure, Except.pure] at h
              injection h with h
              have hit : ∀ q ∈ items, q ∈ s.items := by
                unfold PyDict.delE at hde
                split at hde
                · injection hde with hde; subst hde; exact PyDict.erase_subset _ _
                · cases hde
              refine ⟨⟨?_, ?_⟩, ⟨[⟨id, d, pt.x, pt.y, rotated⟩], by rw [← h]⟩, ?_⟩
              · intro q hq
                rw [← h] at hq
                exact hU.items q (hit q hq)
              · intro p hp
                rw [← h] at hp
                rcases List.mem_append.1 hp with hp | hp
                · exact hU.placed p hp
                · have e := List.mem_singleton.1 hp
                  subst e
                  exact ⟨hU.items _ m1, m2⟩
              · intro hall
                have hr0 : rotated = false := by
                  have := hall ⟨id, d, pt.x, pt.y, rotated⟩ (by rw [← h]; simp)
                  exact this
                subst hr0
                rw [f2 (by simp)]
                simp only
                rw [hg]; simp only
                rw [hr]; simp only
                rw [hde]; simp only
                rw [hge]; simp only [pure, Except.pure]
                rw [← h]

theorem constructLoop_unturned {P : CParams} {items0 : PyDict String Dim} (hrot : P.rot = true) :
    ∀ (fuel : Nat) (s s' : CState), UInv items0 s → constructLoop P fuel s = .ok s' →
    UInv items0 s' ∧ (∃ ext, s'.placed = s.placed ++ ext) ∧
    ((∀ p ∈ s'.placed, p.rotated = false) → constructLoop { P with rot := false } fuel s = .ok s')
  | 0, s, s', _, h => by cases h
  | fuel + 1, s, s', hU, h => by
    unfold constructLoop at h ⊢
    cases hcur : s.cur with
    | none =>
      rw [hcur] at h; simp only at h ⊢
      injection h with h; subst h
      exact ⟨hU, ⟨[], by simp⟩, fun _ => rfl⟩
    | some pt =>
      rw [hcur] at h; simp only at h ⊢
      by_cases hd : s.ids = [] ∨ s.obj ≥ 1
      · rw [if_pos hd] at h ⊢
        injection h with h; subst h
        exact ⟨hU, ⟨[], by simp⟩, fun _ => rfl⟩
      · rw [if_neg hd] at h ⊢
        unfold constructStep at h ⊢
        simp only [bind, Except.bind] at h ⊢
        cases hh : handlePoint P s pt with
        | error e => rw [hh] at h; cases h
        | ok s1 =>
          rw [hh] at h
          simp only [pure, Except.pure] at h
          obtain ⟨u1, ⟨ext1, e1⟩, k1⟩ := handlePoint_unturned hU hrot hh
          obtain ⟨u2, ⟨ext2, e2⟩, k2⟩ := constructLoop_unturned (items0 := items0) hrot fuel
            { s1 with cur := (getCurrentPoint s1.pools P.strategy).1,
                      pools := (getCurrentPoint s1.pools P.strategy).2 } s' ⟨u1.items, u1.placed⟩ h
          simp only at e2
          refine ⟨u2, ⟨ext1 ++ ext2, by rw [e2, e1, List.append_assoc]⟩, ?_⟩
          intro hall
          rw [k1 (fun p hp => hall p (by rw [e2]; exact List.mem_append_left _ hp))]
          exact k2 hall

theorem construct_unturned {P : CParams} {items : PyDict String Dim} {r : CResult} (hrot : P.rot = true)
    (h : construct P items = .ok r)
    (hn : ∀ q ∈ r.solution, ∀ d, (q.1, d) ∈ items → q.2.w = d.w ∧ q.2.l = d.l) :
    construct { P with rot := false } items = .ok r := by
  unfold construct at h ⊢
  simp only [bind, Except.bind] at h ⊢
  cases hl : constructLoop P (constructFuel items) (constructInit P items) with
  | error e => rw [hl] at h; cases h
  | ok s =>
    rw [hl] at h; simp only at h
    obtain ⟨u, _, k⟩ := constructLoop_unturned (items0 := items) hrot _ _ _
      (⟨fun q hq => hq, by intro p hp; simp [constructInit] at hp⟩) hl
    have hsol : r.solution = s.placed.map (fun p => (p.id, p.rect)) := by
      unfold constructFinish at h
      simp only [bind, Except.bind, pure, Except.pure] at h
      split at h
      · cases h
      · injection h with h; rw [← h]
    have hall : ∀ p ∈ s.placed, p.rotated = false := by
      intro p hp
      obtain ⟨h1, h2⟩ := u.placed p hp
      have := hn (p.id, p.rect) (by rw [hsol]; exact List.mem_map.2 ⟨p, hp, rfl⟩) p.dim h1
      cases hr : p.rotated with
      | false => rfl
      | true =>
        simp only [Placed.rect, hr, if_true] at this
        exact absurd this.1.symm (h2 hr)
    have := k hall
    have e : constructInit { P with rot := false } items = constructInit P items := rfl
    rw [e, this]
    exact h

theorem construct_items_subset {P : CParams} {items : PyDict String Dim} {r : CResult} (hrot : P.rot = true)
    (h : construct P items = .ok r) : ∀ q ∈ r.items, q ∈ items := by
  unfold construct at h
  simp only [bind, Except.bind] at h
  cases hl : constructLoop P (constructFuel items) (constructInit P items) with
  | error e => rw [hl] at h; cases h
  | ok s =>
    rw [hl] at h; simp only at h
    obtain ⟨u, _, k⟩ := constructLoop_unturned (items0 := items) hrot _ _ _
      (⟨fun q hq => hq, by intro p hp; simp [constructInit] at hp⟩) hl
    unfold constructFinish at h
    simp only [bind, Except.bind, pure, Except.pure] at h
    split at h
    · cases h
    · injection h with h; rw [← h]; exact u.items

theorem solveLoop_unturned (A : Arith) (p : SolveIn) (hrot : p.rotation = true) :
    ∀ (cs items : PyDict String Dim) (sol : Solution) (ov : ObjVals),
      solveLoop A p cs items = .ok (sol, ov) →
      (∀ cid m, (cid, m) ∈ sol → ∀ q ∈ m, ∀ d, (q.1, d) ∈ items → q.2.w = d.w ∧ q.2.l = d.l) →
      solveLoop A { p with rotation := false } cs items = .ok (sol, ov)
  | [], items, sol, ov, h, _ => h
  | (cid, c) :: cs, items, sol, ov, h, hn => by
    unfold solveLoop at h ⊢
    by_cases hi : items = []
    · rw [if_pos hi] at h ⊢
      simp only [bind, Except.bind, pure, Except.pure] at h ⊢
      cases hl : solveLoop A p cs items with
      | error e => rw [hl] at h; cases h
      | ok so =>
        obtain ⟨so1, so2⟩ := so
        rw [hl] at h; simp only at h
        injection h with h; injection h with e1 e2
        subst e1; subst e2
        rw [solveLoop_unturned A p hrot cs items _ _ hl (fun cid m hm => hn cid m (by simp [hm]))]
    · rw [if_neg hi] at h ⊢
      simp only [bind, Except.bind, pure, Except.pure] at h ⊢
      cases hc : construct (p.params A c) items with
      | error e => rw [hc] at h; cases h
      | ok r =>
        rw [hc] at h; simp only at h
        cases hl : solveLoop A p cs r.items with
        | error e => rw [hl] at h; cases h
        | ok so =>
          obtain ⟨so1, so2⟩ := so
          rw [hl] at h; simp only at h
          injection h with h; injection h with e1 e2
          subst e1; subst e2
          have e : ({ p with rotation := false } : SolveIn).params A c = { p.params A c with rot := false } := rfl
          rw [e, construct_unturned hrot hc (hn cid r.solution (by simp))]
          simp only
          rw [solveLoop_unturned A p hrot cs r.items _ _ hl (fun cid m hm q hq d hd =>
            hn cid m (by simp [hm]) q hq d (construct_items_subset hrot hc _ hd))]

end HP
