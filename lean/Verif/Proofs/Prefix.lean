import Verif.Proofs.Order
/-
Two runs of the construction side by side, up to some round: used for C103.
-/
namespace HP
open Spec

/-- the placements only grow -/
theorem constructLoop_grows (P : CParams) {fuel : Nat} {s r : CState} (h : constructLoop P fuel s = .ok r) :
    ∃ ext, r.placed = s.placed ++ ext := by
  obtain ⟨ext, he, _⟩ := constructLoop_sim P fuel s r h
  exact ⟨ext, he⟩

/-- the run of the loop on other items agrees with the first run as long as the first run places
items that both have, in a compatible order -/
theorem constructLoop_prefix (P : CParams) : ∀ (fuel : Nat) (s r : CState), constructLoop P fuel s = .ok r →
    ∀ (e1 e2 : List Placed), r.placed = s.placed ++ (e1 ++ e2) →
    ∀ s', OrdSim (e1.map (·.id)) s s' → ∀ n r', constructLoop P n s' = .ok r' →
      ∃ e2', r'.placed = s.placed ++ (e1 ++ e2')
  | 0, s, r, h => by cases h
  | fuel + 1, s, r, h => by
    intro e1 e2 hpl s' hs n r' h'
    have hsp : s'.placed = s.placed := by rw [hs.same]
    cases e1 with
    | nil =>
      obtain ⟨ext, he⟩ := constructLoop_grows P h'
      exact ⟨ext, by rw [he, hsp]; rfl⟩
    | cons a e1 =>
      have hne : s'.ids ≠ [] := by
        intro h0
        have := hs.mem a.id (by simp)
        rw [h0] at this; simp at this
      unfold constructLoop at h
      cases hc : s.cur with
      | none =>
        rw [hc] at h; cases h
        exfalso
        have := congrArg List.length hpl
        simp at this
      | some pt =>
        rw [hc] at h
        simp only at h
        split at h
        · cases h
          exfalso
          have := congrArg List.length hpl
          simp at this
        · rename_i hd
          cases n with
          | zero => cases h'
          | succ n =>
            unfold constructLoop at h'
            have hc' : s'.cur = some pt := by rw [hs.same]; exact hc
            rw [hc'] at h'
            simp only at h'
            rw [if_neg (by
              rintro (h0 | h0)
              · exact hne h0
              · apply hd; right; rw [hs.same] at h0; exact h0)] at h'
            cases hst : constructStep P s pt with
            | error e => simp only [hst, bind, Except.bind] at h; cases h
            | ok s1 =>
              simp only [hst, bind, Except.bind] at h
              unfold constructStep at hst
              cases hh : handlePoint P s pt with
              | error e => simp only [hh, bind, Except.bind] at hst; cases hst
              | ok s2 =>
                simp only [hh, bind, Except.bind, pure, Except.pure] at hst
                have hpl1 : s1.placed = s2.placed := by cases hst; rfl
                have go : ∀ (f : List Placed) (s2' : CState), handlePoint P s' pt = .ok s2' →
                    OrdSim (f.map (·.id)) s2 s2' → r.placed = s2.placed ++ (f ++ e2) →
                    ∃ e2', r'.placed = s2.placed ++ (f ++ e2') := by
                  intro f s2' e4 e5 e6
                  have hsim : OrdSim (f.map (·.id)) s1
                      { s2' with cur := (getCurrentPoint s2'.pools P.strategy).1, pools := (getCurrentPoint s2'.pools P.strategy).2 } := by
                    cases hst
                    refine ⟨?_, e5.sub, e5.nd, e5.nd', e5.mem, e5.comp, e5.ond⟩
                    rw [e5.same]
                  have : constructStep P s' pt = .ok { s2' with cur := (getCurrentPoint s2'.pools P.strategy).1, pools := (getCurrentPoint s2'.pools P.strategy).2 } := by
                    unfold constructStep
                    simp only [e4, bind, Except.bind, pure, Except.pure]
                  rw [this] at h'
                  rw [← hpl1] at e6 ⊢
                  exact constructLoop_prefix P fuel s1 r h f e2 e6 _ hsim n r' h'
                rcases handlePoint_cases hh with ⟨hf, rfl⟩ | ⟨q, hf, hq⟩
                · exact go (a :: e1) s' (hs.miss hf) hs hpl
                · obtain ⟨ext, he⟩ := constructLoop_grows P h
                  have e0 : ⟨q.1, q.2.1, pt.x, pt.y, q.2.2⟩ :: ext = a :: (e1 ++ e2) := by
                    have h1 := hpl
                    rw [he, hpl1, hq, List.append_assoc] at h1
                    exact List.append_cancel_left h1
                  injection e0 with e0 e00
                  have hida : a.id = q.1 := by rw [← e0]
                  have hs' : OrdSim (q.1 :: e1.map (fun p : Placed => p.id)) s s' := by
                    have := hs
                    rw [List.map_cons, hida] at this
                    exact this
                  obtain ⟨s2', e4, e5⟩ := OrdSim.hit (q := q) (o := e1.map (fun p : Placed => p.id)) hs' hf hh
                  obtain ⟨e2', h2⟩ := go e1 s2' e4 e5 (by rw [he, hpl1, e00])
                  exact ⟨e2', by rw [h2, hq, e0]; simp⟩

/-- `_construct_solution` on a pool from which some items are removed keeps the first placements, up
to the first removed item -/
theorem construct_prefix {P : CParams} {items items' : PyDict String Dim} (hg : ValidSizes items) (hg' : ValidSizes items')
    (hW : 0 < P.W) (hL : 0 < P.L) {r r' : CResult} (h : construct P items = .ok r) (h' : construct P items' = .ok r')
    (hsub : items'.Sublist items) {s1 s2 : PyDict String Rect} (hr : r.solution = s1 ++ s2)
    (hmem : ∀ x ∈ PyDict.keys s1, x ∈ PyDict.keys items') :
    ∃ s2', r'.solution = s1 ++ s2' := by
  obtain ⟨r0, hr0, hf0⟩ := construct_facts (P := P) hg hW hL
  rw [h] at hr0; injection hr0 with hr0; subst hr0
  have hond : (PyDict.keys r.solution).Nodup := (List.nodup_append.1 (hf0.perm.nodup_iff.2 hg.1)).1
  have fin : ∀ {its : PyDict String Dim} {r : CResult}, construct P its = .ok r →
      ∃ s, constructLoop P (constructFuel its) (constructInit P its) = .ok s ∧
        r.solution = s.placed.map (fun p => (p.id, p.rect)) := by
    intro its r h
    unfold construct at h
    cases hl : constructLoop P (constructFuel its) (constructInit P its) with
    | error e => simp only [hl, bind, Except.bind] at h; cases h
    | ok s =>
      simp only [hl, bind, Except.bind] at h
      refine ⟨s, rfl, ?_⟩
      unfold constructFinish at h
      simp only [bind, Except.bind, pure, Except.pure] at h
      split at h
      · cases h
      · cases h; rfl
  obtain ⟨s, hl, hsol⟩ := fin h
  obtain ⟨s', hl', hsol'⟩ := fin h'
  have hcut : s.placed.map (fun p => (p.id, p.rect)) = s1 ++ s2 := by rw [← hsol, hr]
  obtain ⟨l1, l2, hll, hl1, hl2⟩ := List.map_eq_append_iff.1 hcut
  have hids : l1.map (fun p : Placed => p.id) = PyDict.keys s1 := by
    rw [← hl1]; simp [PyDict.keys, Function.comp_def]
  have hsim : OrdSim (l1.map (fun p : Placed => p.id)) (constructInit P items) (constructInit P items') := by
    rw [hids]
    refine ⟨rfl, ?_, hg.1, hg'.1, hmem, ?_, ?_⟩
    · intro y hy
      obtain ⟨d, hd⟩ := PyDict.find?_isSome_of_mem_keys hy
      have h1 := hsub.subset (PyDict.find?_mem hd)
      refine ⟨List.mem_map.2 ⟨_, h1, rfl⟩, ?_⟩
      show PyDict.find? items' y = PyDict.find? items y
      rw [hd]
      exact (PyDict.find?_of_mem hg.1 h1).symm
    · intro pre x post _ y hy
      right
      exact hy.trans (hsub.map _)
    · rw [hr] at hond
      simp only [PyDict.keys, List.map_append] at hond ⊢
      exact (List.nodup_append.1 hond).1
  obtain ⟨e2', he⟩ := constructLoop_prefix P _ _ _ hl l1 l2
    (by rw [hll]; rfl) _ hsim _ _ hl'
  refine ⟨e2'.map (fun p => (p.id, p.rect)), ?_⟩
  rw [hsol', he]
  simp [constructInit, hl1]

end HP
