import Verif.Proofs.Solve
/-
What the packing depends on: the order in which the items are offered matters only through
the comparisons that decide a placement.
-/
namespace HP
open Spec

/-- `o` is the order of the placements, `L` the order in which the items were offered, `L'` a new
order: an item offered before `x` in `L'` is placed before `x` or was offered before `x` in `L`. -/
def Compat (o L' L : List String) : Prop :=
  ∀ pre x post, o = pre ++ x :: post → ∀ y, [y, x].Sublist L' → y ∈ pre ∨ [y, x].Sublist L

/-! ### The search for a fitting item -/

theorem findFit_cons {rot : Bool} {W L x y : Nat} {g : Grid} {items : PyDict String Dim} (id : String) (ids : List String) :
    findFit rot W L x y g items (id :: ids) =
      (findFit rot W L x y g items [id]).bind (fun r => match r with
        | some h => .ok (some h)
        | none => findFit rot W L x y g items ids) := by
  have e1 : ∀ l, findFit rot W L x y g items (id :: l) = (do
      let d ← PyDict.getE items id
      let check ← checkFitting W L x y d.w d.l g
      if check then return some (id, d, false)
      else if rot then
        let check2 ← checkFitting W L x y d.l d.w g
        if check2 then return some (id, d, true)
        else findFit rot W L x y g items l
      else findFit rot W L x y g items l) := fun l => by rw [findFit]
  have e0 : findFit rot W L x y g items [] = .ok none := rfl
  rw [e1 ids, e1 [], e0]
  simp only [bind, Except.bind, pure, Except.pure]
  cases PyDict.getE items id with
  | error e => rfl
  | ok d =>
    simp only
    cases checkFitting W L x y d.w d.l g with
    | error e => rfl
    | ok c =>
      cases c with
      | true => rfl
      | false =>
        cases rot with
        | false => rfl
        | true =>
          simp only [Bool.false_eq_true, if_false, if_true]
          cases checkFitting W L x y d.l d.w g with
          | error e => rfl
          | ok c2 =>
            cases c2 with
            | true => rfl
            | false => rfl

theorem findFit_single_id {rot : Bool} {W L x y : Nat} {g : Grid} {items : PyDict String Dim} {id : String} {h}
    (hf : findFit rot W L x y g items [id] = .ok (some h)) : h.1 = id ∧ PyDict.find? items id = some h.2.1 := by
  unfold findFit at hf
  simp only [bind, Except.bind, pure, Except.pure] at hf
  cases hd : PyDict.getE items id with
  | error e => rw [hd] at hf; cases hf
  | ok d =>
    have hd' : PyDict.find? items id = some d := by
      unfold PyDict.getE at hd
      split at hd
      · rename_i h; cases hd; exact h
      · cases hd
    rw [hd] at hf
    simp only at hf
    cases hc : checkFitting W L x y d.w d.l g with
    | error e => rw [hc] at hf; cases hf
    | ok c =>
      rw [hc] at hf
      simp only at hf
      split at hf
      · cases hf; exact ⟨rfl, hd'⟩
      · split at hf
        · cases hc2 : checkFitting W L x y d.l d.w g with
          | error e => rw [hc2] at hf; cases hf
          | ok c2 =>
            rw [hc2] at hf
            simp only at hf
            split at hf
            · cases hf; exact ⟨rfl, hd'⟩
            · cases hf
        · cases hf

theorem findFit_none_iff {rot : Bool} {W L x y : Nat} {g : Grid} {items : PyDict String Dim} : ∀ {ids : List String},
    findFit rot W L x y g items ids = .ok none ↔ ∀ id ∈ ids, findFit rot W L x y g items [id] = .ok none
  | [] => by simp [findFit]
  | id :: ids => by
    rw [findFit_cons]
    cases h : findFit rot W L x y g items [id] with
    | error e => simp [Except.bind, h]
    | ok r =>
      cases r with
      | none => simp [Except.bind, h, findFit_none_iff (ids := ids)]
      | some q => simp [Except.bind, h]

theorem findFit_some_iff {rot : Bool} {W L x y : Nat} {g : Grid} {items : PyDict String Dim} {q} : ∀ {ids : List String},
    findFit rot W L x y g items ids = .ok (some q) ↔
      ∃ a b, ids = a ++ q.1 :: b ∧ (∀ id ∈ a, findFit rot W L x y g items [id] = .ok none) ∧
        findFit rot W L x y g items [q.1] = .ok (some q)
  | [] => by simp [findFit]
  | id :: ids => by
    rw [findFit_cons]
    cases h : findFit rot W L x y g items [id] with
    | error e =>
      simp only [Except.bind, reduceCtorEq, false_iff]
      rintro ⟨a, b, h1, h2, h3⟩
      cases a with
      | nil => simp only [List.nil_append, List.cons.injEq] at h1; rw [← h1.1, h] at h3; cases h3
      | cons c a => simp only [List.cons_append, List.cons.injEq] at h1; have := h2 c (by simp); rw [← h1.1, h] at this; cases this
    | ok r =>
      cases r with
      | none =>
        simp only [Except.bind]
        rw [findFit_some_iff (ids := ids)]
        constructor
        · rintro ⟨a, b, rfl, h2, h3⟩
          refine ⟨id :: a, b, rfl, ?_, h3⟩
          intro z hz
          rcases List.mem_cons.1 hz with rfl | hz
          · exact h
          · exact h2 z hz
        · rintro ⟨a, b, h1, h2, h3⟩
          cases a with
          | nil => simp only [List.nil_append, List.cons.injEq] at h1; rw [← h1.1, h] at h3; cases h3
          | cons c a =>
            simp only [List.cons_append, List.cons.injEq] at h1
            exact ⟨a, b, h1.2, fun z hz => h2 z (by simp [hz]), h3⟩
      | some p =>
        simp only [Except.bind, Except.ok.injEq, Option.some.injEq]
        constructor
        · rintro rfl
          have := (findFit_single_id h).1
          exact ⟨[], ids, by rw [this]; rfl, by simp, by rw [this]; exact h⟩
        · rintro ⟨a, b, h1, h2, h3⟩
          cases a with
          | nil =>
            simp only [List.nil_append, List.cons.injEq] at h1; rw [← h1.1, h] at h3
            injection h3 with h3; injection h3
          | cons c a => simp only [List.cons_append, List.cons.injEq] at h1; have := h2 c (by simp); rw [← h1.1, h] at this; cases this

theorem findFit_congr {rot : Bool} {W L x y : Nat} {g : Grid} {items items' : PyDict String Dim} {id : String}
    (h : PyDict.find? items' id = PyDict.find? items id) :
    findFit rot W L x y g items' [id] = findFit rot W L x y g items [id] := by
  unfold findFit
  have : PyDict.getE items' id = PyDict.getE items id := by unfold PyDict.getE; rw [h]
  rw [this]
  rfl

/-! ### Two runs side by side -/

/-- the state `s'` differs from `s` only in the items that are left and in their order -/
structure OrdSim (o : List String) (s s' : CState) : Prop where
  same : s' = { s with ids := s'.ids, items := s'.items }
  sub : ∀ y ∈ s'.ids, y ∈ s.ids ∧ PyDict.find? s'.items y = PyDict.find? s.items y
  nd : s.ids.Nodup
  nd' : s'.ids.Nodup
  mem : ∀ x ∈ o, x ∈ s'.ids
  comp : Compat o s'.ids s.ids
  ond : o.Nodup

theorem find?_erase_ne {α : Type} {x y : String} (h : y ≠ x) : ∀ d : PyDict String α,
    PyDict.find? (PyDict.erase d x) y = PyDict.find? d y
  | [] => rfl
  | (k, a) :: d => by
    have ih := find?_erase_ne h d
    unfold PyDict.erase
    by_cases hk : k = x
    · subst hk
      have : ¬ k = y := fun h' => h h'.symm
      simp [PyDict.find?, this]
    · simp only [hk, if_false]
      by_cases hy : k = y
      · simp [PyDict.find?, hy]
      · simp only [PyDict.find?, hy, if_false]; exact ih

theorem sublist_pair_erase {x y z : String} {L : List String} (hn : L.Nodup) (hy : y ≠ x) (hz : z ≠ x)
    (h : [y, z].Sublist L) : [y, z].Sublist (L.erase x) := by
  rw [hn.erase_eq_filter]
  have := h.filter (fun w => w != x)
  simpa [hy, hz] using this

/-- placing `x`: both runs place it, and what is left is related again -/
theorem OrdSim.hit {P : CParams} {s s' s1 : CState} {pt : Pt} {o : List String} {q}
    (hs : OrdSim (q.1 :: o) s s') (hf : findFit P.rot P.W P.L pt.x pt.y s.grid s.items s.ids = .ok (some q))
    (h : handlePoint P s pt = .ok s1) : ∃ s1', handlePoint P s' pt = .ok s1' ∧ OrdSim o s1 s1' := by
  obtain ⟨a, b, hab, hnone, hx⟩ := findFit_some_iff.1 hf
  have hxm : q.1 ∈ s'.ids := hs.mem _ (by simp)
  obtain ⟨a', b', hab'⟩ := List.append_of_mem hxm
  have hgrid : s'.grid = s.grid := by rw [hs.same]
  have hfit' : findFit P.rot P.W P.L pt.x pt.y s'.grid s'.items s'.ids = .ok (some q) := by
    rw [hgrid]
    refine findFit_some_iff.2 ⟨a', b', hab', ?_, ?_⟩
    · intro y hy
      have hys : y ∈ s'.ids := by rw [hab']; exact List.mem_append_left _ hy
      rw [findFit_congr (hs.sub y hys).2]
      apply hnone
      have hyx : [y, q.1].Sublist s'.ids := by
        rw [hab']
        exact (List.singleton_sublist.2 hy).append (List.singleton_sublist.2 (List.mem_cons_self))
      rcases hs.comp [] q.1 o rfl y hyx with hc | hc
      · simp at hc
      · have hn := hs.nd
        rw [hab] at hc hn
        have hne : y ≠ q.1 := by
          rintro rfl
          have := hs.nd'
          rw [hab'] at this
          exact (List.nodup_append.1 this).2.2 _ hy _ (List.mem_cons_self) rfl
        have hya : y ∈ a ++ q.1 :: b := hc.subset (by simp)
        rcases List.mem_append.1 hya with hya | hya
        · exact hya
        · exfalso
          rcases List.mem_cons.1 hya with hya | hya
          · exact hne hya
          · -- y after x: impossible
            have hperm : [y, q.1] = (a ++ q.1 :: b).filter (fun z => z = y ∨ z = q.1) := by
              have h1 := hc.filter (fun z => decide (z = y ∨ z = q.1))
              simp only [true_or, or_true, decide_true, List.filter_cons_of_pos, List.filter_nil] at h1
              refine h1.eq_of_length_le ?_
              have h2 : (List.filter (fun z => decide (z = y ∨ z = q.1)) (a ++ q.1 :: b)).Nodup := hn.filter _
              have h3 : List.filter (fun z => decide (z = y ∨ z = q.1)) (a ++ q.1 :: b) ⊆ [y, q.1] := by
                intro z hz
                have := (List.mem_filter.1 hz).2
                simpa using this
              exact (List.subperm_of_subset h2 h3).length_le
            rw [List.filter_append] at hperm
            have hya' : y ∉ a := fun h' => (List.nodup_append.1 hn).2.2 _ h' _ (List.mem_cons_of_mem _ hya) rfl
            have hxa' : q.1 ∉ a := fun h' => (List.nodup_append.1 hn).2.2 _ h' _ (List.mem_cons_self) rfl
            have he : List.filter (fun z => decide (z = y ∨ z = q.1)) a = [] := by
              rw [List.filter_eq_nil_iff]
              intro z hz
              simp only [decide_eq_true_eq, not_or]
              exact ⟨fun h' => hya' (h' ▸ hz), fun h' => hxa' (h' ▸ hz)⟩
            rw [he] at hperm
            simp only [List.nil_append, or_true, decide_true, List.filter_cons_of_pos, List.cons.injEq] at hperm
            exact hne hperm.1
    · rw [findFit_congr (hs.sub q.1 hxm).2]; exact hx
  obtain ⟨id, d, rotated⟩ := q
  simp only at hxm hs hx
  unfold handlePoint at h
  simp only [hf, bind, Except.bind, pure, Except.pure] at h
  cases h1 : fillItem s.grid pt.x pt.y (if rotated = true then d.l else d.w) (if rotated = true then d.w else d.l) with
  | error e => rw [h1] at h; cases h
  | ok g =>
    rw [h1] at h
    simp only at h
    cases h2 : pyRemove s.ids id with
    | error e => rw [h2] at h; cases h
    | ok ids =>
      rw [h2] at h
      simp only at h
      cases h3 : PyDict.delE s.items id with
      | error e => rw [h3] at h; cases h
      | ok items =>
        rw [h3] at h
        simp only at h
        cases h4 : generatePoints P.ar g P.W P.L pt.x pt.y (if rotated = true then d.l else d.w) (if rotated = true then d.w else d.l) with
        | error e => rw [h4] at h; cases h
        | ok gen =>
          rw [h4] at h
          simp only at h
          cases h
          have h2' : pyRemove s'.ids id = .ok (s'.ids.erase id) := by
            unfold pyRemove; rw [if_pos hxm]
          have hids : ids = s.ids.erase id := by
            unfold pyRemove at h2
            split at h2
            · cases h2; rfl
            · cases h2
          have h3' : PyDict.delE s'.items id = .ok (PyDict.erase s'.items id) := by
            unfold PyDict.delE at h3 ⊢
            rw [(hs.sub id hxm).2]
            split at h3
            · rfl
            · cases h3
          have hitems : items = PyDict.erase s.items id := by
            unfold PyDict.delE at h3
            split at h3
            · cases h3; rfl
            · cases h3
          have hne : ∀ y ∈ s'.ids.erase id, y ≠ id := by
            intro y hy
            rw [hs.nd'.mem_erase_iff] at hy
            exact hy.1
          have hobj : s'.obj = s.obj := by rw [hs.same]
          have hpl : s'.placed = s.placed := by rw [hs.same]
          have hpo : s'.pools = s.pools := by rw [hs.same]
          have hcu : s'.cur = s.cur := by rw [hs.same]
          refine ⟨{ s' with grid := g, ids := s'.ids.erase id, items := PyDict.erase s'.items id,
                            obj := if P.strip then s.obj else P.ar.add s.obj (P.ar.div ((if rotated = true then d.l else d.w) * (if rotated = true then d.w else d.l)) (P.W * P.L)),
                            placed := s.placed ++ [⟨id, d, pt.x, pt.y, rotated⟩],
                            pools := s.pools.pushAll gen }, ?_, ?_⟩
          · unfold handlePoint
            simp only [hfit', bind, Except.bind, pure, Except.pure]
            rw [hgrid, h1]
            simp only [h2', h3', h4, hobj, hpl, hpo]
          · subst hids; subst hitems
            refine ⟨?_, ?_, hs.nd.erase _, hs.nd'.erase _, ?_, ?_, (List.nodup_cons.1 hs.ond).2⟩
            · simp only [hcu]
            · intro y hy
              have hyne := hne y hy
              have hym : y ∈ s'.ids := List.mem_of_mem_erase hy
              refine ⟨(hs.nd.mem_erase_iff).2 ⟨hyne, (hs.sub y hym).1⟩, ?_⟩
              simp only
              rw [find?_erase_ne hyne, find?_erase_ne hyne, (hs.sub y hym).2]
            · intro z hz
              refine (hs.nd'.mem_erase_iff).2 ⟨?_, hs.mem z (by simp [hz])⟩
              intro hzi
              subst hzi
              exact (List.nodup_cons.1 hs.ond).1 hz
            · intro pre z post ho y hy
              have hyne : y ≠ id := hne y (hy.subset (by simp))
              have hzne : z ≠ id := hne z (hy.subset (by simp))
              rcases hs.comp (id :: pre) z post (by rw [ho]; rfl) y (hy.trans List.erase_sublist) with hc | hc
              · rcases List.mem_cons.1 hc with hc | hc
                · exact absurd hc hyne
                · exact Or.inl hc
              · exact Or.inr (sublist_pair_erase hs.nd hyne hzne hc)

theorem OrdSim.miss {P : CParams} {s s' : CState} {pt : Pt} {o : List String}
    (hs : OrdSim o s s') (hf : findFit P.rot P.W P.L pt.x pt.y s.grid s.items s.ids = .ok none) :
    handlePoint P s' pt = .ok s' := by
  have hgrid : s'.grid = s.grid := by rw [hs.same]
  have : findFit P.rot P.W P.L pt.x pt.y s'.grid s'.items s'.ids = .ok none := by
    rw [hgrid, findFit_none_iff]
    intro y hy
    rw [findFit_congr (hs.sub y hy).2]
    exact findFit_none_iff.1 hf y (hs.sub y hy).1
  unfold handlePoint
  simp only [this, bind, Except.bind, pure, Except.pure]

theorem handlePoint_cases {P : CParams} {s s1 : CState} {pt : Pt} (h : handlePoint P s pt = .ok s1) :
    (findFit P.rot P.W P.L pt.x pt.y s.grid s.items s.ids = .ok none ∧ s1 = s) ∨
    ∃ q, findFit P.rot P.W P.L pt.x pt.y s.grid s.items s.ids = .ok (some q) ∧
      s1.placed = s.placed ++ [⟨q.1, q.2.1, pt.x, pt.y, q.2.2⟩] := by
  unfold handlePoint at h
  cases hf : findFit P.rot P.W P.L pt.x pt.y s.grid s.items s.ids with
  | error e => simp only [hf, bind, Except.bind] at h; cases h
  | ok hit =>
    cases hit with
    | none =>
      simp only [hf, bind, Except.bind, pure, Except.pure] at h
      cases h; exact Or.inl ⟨rfl, rfl⟩
    | some q =>
      obtain ⟨id, d, rotated⟩ := q
      simp only [hf, bind, Except.bind, pure, Except.pure] at h
      refine Or.inr ⟨_, rfl, ?_⟩
      split at h
      · cases h
      · split at h
        · cases h
        · split at h
          · cases h
          · split at h
            · cases h
            · cases h; rfl

theorem constructLoop_sim (P : CParams) : ∀ (fuel : Nat) (s r : CState), constructLoop P fuel s = .ok r →
    ∃ ext, r.placed = s.placed ++ ext ∧ ∀ s', OrdSim (ext.map (·.id)) s s' → ∃ n r', constructLoop P n s' = .ok r' ∧
      r'.placed = r.placed ∧ r'.grid = r.grid ∧ r'.obj = r.obj
  | 0, s, r, h => by cases h
  | fuel + 1, s, r, h => by
    have stop : r = s → (∀ s', OrdSim [] s s' → (s'.cur = none ∨ s'.ids = [] ∨ s'.obj ≥ 1)) → 
        ∃ ext, r.placed = s.placed ++ ext ∧ ∀ s', OrdSim (ext.map (·.id)) s s' → ∃ n r', constructLoop P n s' = .ok r' ∧
          r'.placed = r.placed ∧ r'.grid = r.grid ∧ r'.obj = r.obj := by
      rintro rfl hst
      refine ⟨[], by simp, fun s' hs => ⟨1, s', ?_, by rw [hs.same], by rw [hs.same], by rw [hs.same]⟩⟩
      unfold constructLoop
      cases hc : s'.cur with
      | none => rfl
      | some pt =>
        simp only
        rw [if_pos]
        rcases hst s' hs with h' | h'
        · rw [hc] at h'; cases h'
        · exact h'
    unfold constructLoop at h
    cases hc : s.cur with
    | none =>
      rw [hc] at h
      cases h
      exact stop rfl (fun s' hs => Or.inl (by rw [hs.same]; exact hc))
    | some pt =>
      rw [hc] at h
      simp only at h
      split at h
      · rename_i hd
        cases h
        refine stop rfl (fun s' hs => Or.inr ?_)
        rcases hd with hd | hd
        · left
          rw [List.eq_nil_iff_forall_not_mem]
          intro y hy
          have := (hs.sub y hy).1
          rw [hd] at this; simp at this
        · right; rw [hs.same]; exact hd
      · rename_i hd
        cases hst : constructStep P s pt with
        | error e => simp only [hst, bind, Except.bind] at h; cases h
        | ok s1 =>
          simp only [hst, bind, Except.bind] at h
          obtain ⟨ext, he, ih⟩ := constructLoop_sim P fuel s1 r h
          unfold constructStep at hst
          cases hh : handlePoint P s pt with
          | error e => simp only [hh, bind, Except.bind] at hst; cases hst
          | ok s2 =>
            simp only [hh, bind, Except.bind, pure, Except.pure] at hst
            have hpl : s1.placed = s2.placed := by cases hst; rfl
            -- running the step on the other side
            have go : ∀ (s' s2' : CState), s'.cur = s.cur → s'.obj = s.obj → s'.ids ≠ [] →
                handlePoint P s' pt = .ok s2' → OrdSim (ext.map (·.id)) s2 s2' →
                ∃ n r', constructLoop P n s' = .ok r' ∧ r'.placed = r.placed ∧ r'.grid = r.grid ∧ r'.obj = r.obj := by
              intro s' s2' e1 e2 e3 e4 e5
              have hp2 : s2'.pools = s2.pools := by rw [e5.same]
              have hsim : OrdSim (ext.map (·.id)) s1
                  { s2' with cur := (getCurrentPoint s2'.pools P.strategy).1, pools := (getCurrentPoint s2'.pools P.strategy).2 } := by
                cases hst
                refine ⟨?_, e5.sub, e5.nd, e5.nd', e5.mem, e5.comp, e5.ond⟩
                rw [e5.same]
              obtain ⟨n, r', f1, f2⟩ := ih _ hsim
              refine ⟨n + 1, r', ?_, f2⟩
              unfold constructLoop
              rw [e1, hc]
              simp only
              rw [if_neg (by
                rintro (h' | h')
                · exact e3 h'
                · rw [e2] at h'; exact hd (Or.inr h'))]
              have : constructStep P s' pt = .ok { s2' with cur := (getCurrentPoint s2'.pools P.strategy).1, pools := (getCurrentPoint s2'.pools P.strategy).2 } := by
                unfold constructStep
                simp only [e4, bind, Except.bind, pure, Except.pure]
              rw [this]
              exact f1
            rcases handlePoint_cases hh with ⟨hf, rfl⟩ | ⟨q, hf, hq⟩
            · refine ⟨ext, by rw [he, hpl], ?_⟩
              intro s' hs
              by_cases hids : s'.ids = []
              · have hext : ext = [] := by
                  cases ext with
                  | nil => rfl
                  | cons p ext =>
                    exfalso
                    have := hs.mem p.id (by simp)
                    rw [hids] at this; simp at this
                subst hext
                have hsim1 : OrdSim [] s1 { s1 with ids := [], items := s'.items } :=
                  ⟨rfl, by simp, by cases hst; exact hs.nd, by simp, by simp,
                    by intro pre x post h'; simp at h', by simp⟩
                obtain ⟨n, r', f1, f2, f3, f4⟩ := ih _ hsim1
                have hr' : r' = { s1 with ids := [], items := s'.items } := by
                  cases n with
                  | zero => cases f1
                  | succ n =>
                    unfold constructLoop at f1
                    cases hcc : s1.cur with
                    | none => simp only [hcc] at f1; cases f1; rfl
                    | some p =>
                      simp only [hcc, true_or, if_true] at f1
                      cases f1; rfl
                have g1 : s1.grid = s2.grid ∧ s1.obj = s2.obj := by cases hst; exact ⟨rfl, rfl⟩
                refine ⟨1, s', ?_, ?_, ?_, ?_⟩
                · unfold constructLoop
                  have : s'.cur = some pt := by rw [hs.same]; exact hc
                  rw [this]
                  simp only [hids, true_or, if_true]
                · rw [← f2, hr']; rw [hs.same]; exact hpl.symm
                · rw [← f3, hr']; rw [hs.same]; exact g1.1.symm
                · rw [← f4, hr']; rw [hs.same]; exact g1.2.symm
              · exact go s' s' (by rw [hs.same]) (by rw [hs.same]) hids (hs.miss hf) hs
            · refine ⟨⟨q.1, q.2.1, pt.x, pt.y, q.2.2⟩ :: ext, by rw [he, hpl, hq]; simp, ?_⟩
              intro s' hs
              obtain ⟨s2', e4, e5⟩ := OrdSim.hit (q := q) (o := ext.map (fun p : Placed => p.id)) hs hf hh
              refine go s' s2' (by rw [hs.same]) (by rw [hs.same]) ?_ e4 e5
              intro h'
              have := hs.mem q.1 (by simp)
              rw [h'] at this; simp at this

theorem constructLoop_more (P : CParams) : ∀ (n m : Nat) (s r : CState), n ≤ m → constructLoop P n s = .ok r →
    constructLoop P m s = .ok r
  | 0, _, _, _, _, h => by cases h
  | n + 1, m, s, r, hm, h => by
    obtain ⟨m, rfl⟩ : ∃ k, m = k + 1 := ⟨m - 1, by omega⟩
    unfold constructLoop at h ⊢
    cases hc : s.cur with
    | none => rw [hc] at h; exact h
    | some pt =>
      rw [hc] at h
      simp only at h ⊢
      split at h
      · rename_i hd; rw [if_pos hd]; exact h
      · rename_i hd
        rw [if_neg hd]
        cases hst : constructStep P s pt with
        | error e => simp only [hst, bind, Except.bind] at h; cases h
        | ok s1 =>
          simp only [hst, bind, Except.bind] at h ⊢
          exact constructLoop_more P n m s1 r (by omega) h

/-- `_construct_solution` on a pool that is offered differently -/
theorem construct_sim {P : CParams} {items items' : PyDict String Dim} (hg : ValidSizes items) (hg' : ValidSizes items')
    (hW : 0 < P.W) (hL : 0 < P.L) {r : CResult} (h : construct P items = .ok r)
    (hsub : ∀ p ∈ items', p ∈ items) (hmem : ∀ x ∈ PyDict.keys r.solution, x ∈ PyDict.keys items')
    (hcomp : Compat (PyDict.keys r.solution) (PyDict.keys items') (PyDict.keys items)) :
    ∃ r', construct P items' = .ok r' ∧ r'.obj = r.obj ∧ r'.solution = r.solution := by
  obtain ⟨r0, hr0, hf0⟩ := construct_facts (P := P) hg hW hL
  rw [h] at hr0; injection hr0 with hr0; subst hr0
  have hond : (PyDict.keys r.solution).Nodup := (List.nodup_append.1 (hf0.perm.nodup_iff.2 hg.1)).1
  obtain ⟨rr, hrr, _⟩ := construct_facts (P := P) hg' hW hL
  unfold construct at h
  cases hl : constructLoop P (constructFuel items) (constructInit P items) with
  | error e => simp only [hl, bind, Except.bind] at h; cases h
  | ok s =>
    simp only [hl, bind, Except.bind] at h
    have hsol : r.solution = s.placed.map (fun p => (p.id, p.rect)) := by
      unfold constructFinish at h
      simp only [bind, Except.bind, pure, Except.pure] at h
      split at h
      · cases h
      · cases h; rfl
    obtain ⟨ext, he, hk⟩ := constructLoop_sim P _ _ _ hl
    have hext : ext.map (·.id) = PyDict.keys r.solution := by
      rw [hsol, he]
      simp [constructInit, PyDict.keys, Function.comp_def]
    have hsim : OrdSim (ext.map (·.id)) (constructInit P items) (constructInit P items') := by
      rw [hext]
      refine ⟨rfl, ?_, hg.1, hg'.1, hmem, hcomp, hond⟩
      intro y hy
      obtain ⟨d, hd⟩ := PyDict.find?_isSome_of_mem_keys hy
      have h1 := hsub _ (PyDict.find?_mem hd)
      refine ⟨List.mem_map.2 ⟨_, h1, rfl⟩, ?_⟩
      show PyDict.find? items' y = PyDict.find? items y
      rw [hd]
      exact (PyDict.find?_of_mem hg.1 h1).symm
    obtain ⟨n, r', e1, e2, e3, e4⟩ := hk _ hsim
    have hloop : constructLoop P (constructFuel items') (constructInit P items') = .ok r' := by
      cases hl' : constructLoop P (constructFuel items') (constructInit P items') with
      | error e =>
        unfold construct at hrr
        simp only [hl', bind, Except.bind] at hrr
        cases hrr
      | ok t =>
        have a := constructLoop_more P _ (max n (constructFuel items')) _ _ (by omega) e1
        have b := constructLoop_more P _ (max n (constructFuel items')) _ _ (by omega) hl'
        rw [a] at b; injection b with b; rw [b]
    have hfin : construct P items' = .ok ⟨r'.items, r.obj, r.solution⟩ := by
      unfold construct
      simp only [hloop, bind, Except.bind]
      unfold constructFinish at h ⊢
      simp only [bind, Except.bind, pure, Except.pure] at h ⊢
      rw [e2, e3, e4]
      split at h
      · cases h
      · cases h
        rfl
    exact ⟨_, hfin, rfl, rfl⟩

/-! ### All containers -/

theorem construct_nil (P : CParams) (hW : 0 < P.W) (hz : P.strip = true → ∀ n, 0 < n → P.ar.div 0 n = 0) :
    construct P [] = .ok ⟨[], 0, []⟩ := by
  unfold construct constructFuel
  simp only [List.map_nil, List.sum_nil, Nat.zero_add]
  have : constructLoop P 2 (constructInit P []) = .ok (constructInit P []) := by
    unfold constructLoop
    simp [constructInit, PyDict.keys]
  rw [this]
  simp only [bind, Except.bind]
  unfold constructFinish
  simp only [bind, Except.bind, pure, Except.pure]
  by_cases hs : P.strip = true
  · rw [if_pos hs]
    have hpos : 0 < P.W * topRow (constructInit P []).grid (P.L - 1) := Nat.mul_pos hW (topRow_pos _ _)
    rw [if_neg (by omega)]
    have := hz hs _ hpos
    simp only [constructInit, List.map_nil, List.sum_nil] at this ⊢
    rw [this]
  · rw [if_neg hs]
    rfl

theorem mem_of_key {d : PyDict String Dim} (hn : (PyDict.keys d).Nodup) {a : PyDict String Dim} (ha : a.Sublist d)
    {q : String × Dim} (hq : q ∈ d) (hk : q.1 ∈ PyDict.keys a) : q ∈ a := by
  obtain ⟨q', h1, h2⟩ := List.mem_map.1 hk
  have h3 := ha.subset h1
  have e1 := PyDict.find?_of_mem hn (k := q.1) (a := q.2) hq
  have e2 := PyDict.find?_of_mem hn (k := q'.1) (a := q'.2) h3
  rw [h2, e1] at e2
  injection e2 with e2
  have : q' = q := Prod.ext h2 e2.symm
  rw [← this]; exact h1

theorem sublist_pair_of_sublist {x y : String} {a L : List String} (hn : L.Nodup) (ha : a.Sublist L)
    (hx : x ∈ a) (hy : y ∈ a) (h : [y, x].Sublist L) : [y, x].Sublist a := by
  have e : a = L.filter (fun z => decide (z ∈ a)) :=
    sublist_eq_filter id ha (by simpa using hn) _ (by simp)
  rw [e]
  have := h.filter (fun z => decide (z ∈ a))
  simpa [hx, hy] using this

theorem chain_sim {A : Arith} {p : SolveIn} (hz : p.strip = true → ∀ n, 0 < n → A.div 0 n = 0)
    (hh : p.strip = true → 0 < p.height) {cs items : PyDict String Dim} {sol : Solution} {ov : ObjVals}
    {rem : PyDict String Dim} (h : Chain A p cs items sol ov rem) :
    (∀ c ∈ cs, 0 < c.2.w ∧ 0 < c.2.l) → ValidSizes items → ∀ items', ValidSizes items' → (∀ q ∈ items', q ∈ items) →
    (∀ x ∈ placedIds sol, x ∈ PyDict.keys items') →
    Compat (placedIds sol) (PyDict.keys items') (PyDict.keys items) → solveLoop A p cs items' = .ok (sol, ov) := by
  induction h with
  | nil => intro _ _ items' _ _ _ _; rfl
  | @skip cid c cs sol ov rem hch ih =>
    intro hcs hv items' hv' hsub hmem hcomp
    have h0 : items' = [] := by
      rw [List.eq_nil_iff_forall_not_mem]
      intro q hq
      have := hsub q hq
      simp at this
    subst h0
    have := ih (fun c hc => hcs c (by simp [hc])) hv [] hv' (by simp) (by simpa [placedIds] using hmem)
      (by intro pre x post _ y hy; simp [PyDict.keys] at hy)
    unfold solveLoop
    rw [if_pos rfl]
    simp only [bind, Except.bind, this]
    rfl
  | @cons cid c cs items r sol ov rem hne hr hf hch ih =>
    intro hcs hv items' hv' hsub hmem hcomp
    have hc := hcs (cid, c) (by simp)
    have hL : 0 < (p.params A c).L := by
      rw [params_L]; unfold lenOf; split
      · rename_i h; exact hh h
      · exact hc.2
    have ho : placedIds ((cid, r.solution) :: sol) = PyDict.keys r.solution ++ placedIds sol := by
      simp [placedIds, PyDict.keys]
    rw [ho] at hmem hcomp
    obtain ⟨r', hr', e1, e2⟩ := construct_sim (P := p.params A c) hv hv' hc.1 hL hr hsub
      (fun x hx => hmem x (List.mem_append_left _ hx)) (by
        intro pre x post h' y hy
        exact hcomp pre x (post ++ placedIds sol) (by rw [h']; simp) y hy)
    obtain ⟨r'', hr'', hf'⟩ := construct_facts (P := p.params A c) hv' hc.1 hL
    rw [hr'] at hr''; injection hr'' with hr''; subst hr''
    have hn' : (PyDict.keys r'.solution ++ PyDict.keys r'.items).Nodup := hf'.perm.nodup_iff.2 hv'.1
    have hn : (PyDict.keys r.solution ++ PyDict.keys r.items).Nodup := hf.perm.nodup_iff.2 hv.1
    rw [e2] at hn'
    have hnot : ∀ y ∈ PyDict.keys r'.items, y ∉ PyDict.keys r.solution := by
      intro y hy hy2
      exact (List.nodup_append.1 hn').2.2 _ hy2 _ hy rfl
    have hvr : ValidSizes r.items := validSizes_sublist hf.sub hv
    have hkey : ∀ y ∈ PyDict.keys r'.items, y ∈ PyDict.keys r.items := by
      intro y hy
      have h1 : y ∈ PyDict.keys items' := (hf'.sub.map _).subset hy
      obtain ⟨q, hq, rfl⟩ := List.mem_map.1 h1
      have h2 : q.1 ∈ PyDict.keys items := List.mem_map.2 ⟨q, hsub q hq, rfl⟩
      rcases List.mem_append.1 (hf.perm.mem_iff.2 h2) with h3 | h3
      · exact absurd h3 (hnot _ hy)
      · exact h3
    have hrest : solveLoop A p cs r'.items = .ok (sol, ov) := by
      refine ih (fun c hc => hcs c (by simp [hc])) hvr r'.items (validSizes_sublist hf'.sub hv') ?_ ?_ ?_
      · intro q hq
        refine mem_of_key hv.1 hf.sub (hsub q (hf'.sub.subset hq)) (hkey q.1 (List.mem_map.2 ⟨q, hq, rfl⟩))
      · intro x hx
        have h1 := hmem x (List.mem_append_right _ hx)
        rcases List.mem_append.1 (hf'.perm.mem_iff.2 h1) with h2 | h2
        · exfalso
          rw [e2] at h2
          have hp := hch.perm
          have h3 : x ∈ PyDict.keys r.items := hp.mem_iff.1 (List.mem_append_left _ hx)
          exact (List.nodup_append.1 hn).2.2 _ h2 _ h3 rfl
        · exact h2
      · intro pre x post h' y hy
        have hym : y ∈ PyDict.keys r'.items := hy.subset (by simp)
        have hxm : x ∈ PyDict.keys r'.items := hy.subset (by simp)
        rcases hcomp (PyDict.keys r.solution ++ pre) x post (by rw [h']; simp) y (hy.trans (hf'.sub.map _)) with h1 | h1
        · rcases List.mem_append.1 h1 with h1 | h1
          · exact absurd h1 (hnot _ hym)
          · exact Or.inl h1
        · exact Or.inr (sublist_pair_of_sublist hv.1 (hf.sub.map _) (hkey _ hxm) (hkey _ hym) h1)
    unfold solveLoop
    by_cases h0 : items' = []
    · rw [if_pos h0]
      subst h0
      have hnil := construct_nil (p.params A c) hc.1 hz
      rw [hr'] at hnil
      injection hnil with hnil
      rw [hnil] at e1 e2 hrest
      simp only at e1 e2 hrest
      simp only [bind, Except.bind, hrest, pure, Except.pure]
      rw [← e1, ← e2]
    · rw [if_neg h0]
      simp only [bind, Except.bind, hr', hrest, pure, Except.pure, e1, e2]

/-- `solve` on two pools of the same instance data -/
theorem solve_sim {A : Arith} {p p' : SolveIn} (hz : p.strip = true → ∀ n, 0 < n → A.div 0 n = 0) (hv : ValidIn p)
    {items' : PyDict String Dim} (hv' : ValidIn p') (hp : p' = { p with items := items' }) {seq seq' : Option (List String)}
    (hs : KnownSeq p seq) (hs' : KnownSeq p' seq') {sol : Solution} {ov : ObjVals} (h : solve A p seq = .ok (sol, ov))
    (hsub : ∀ q ∈ solvedFor items' seq', q ∈ solvedFor p.items seq)
    (hmem : ∀ x ∈ placedIds sol, x ∈ PyDict.keys (solvedFor items' seq'))
    (hcomp : Compat (placedIds sol) (PyDict.keys (solvedFor items' seq')) (PyDict.keys (solvedFor p.items seq))) :
    solve A p' seq' = .ok (sol, ov) := by
  obtain ⟨hvs, rem, hch⟩ := solve_ok hv hs h
  obtain ⟨sol', ov', rem', h1, hvs', hch'⟩ := solve_chain (A := A) hv' hs'
  have hit : p'.items = items' := by rw [hp]
  rw [hit] at hvs'
  have key := chain_sim hz hv.height hch hv.conts.2 hvs _ hvs' hsub hmem hcomp
  have hsolve : solve A p' seq' = solveLoop A p' p'.containers (solvedFor p'.items seq') := by
    cases seq' with
    | none => rfl
    | some s =>
      unfold solve
      simp only [bind, Except.bind]
      rw [deepcopySeq_reorder (hs' s rfl)]
      rfl
  have hloop : ∀ (cs d : PyDict String Dim), solveLoop A p' cs d = solveLoop A p cs d := by
    intro cs
    have hpar : ∀ c, p'.params A c = p.params A c := by intro c; rw [hp]; rfl
    induction cs with
    | nil => intro d; rfl
    | cons q cs ih =>
      intro d
      obtain ⟨cid, c⟩ := q
      unfold solveLoop
      simp only [hpar, ih]
  rw [hsolve, hloop, hit]
  rw [hp]
  exact key

end HP
