import Verif.Proofs.Workers
import Verif.SpecWorkers
import Verif.Proofs.Settings
import Verif.Proofs.Determinism
/-
Schedules of the multi process hypersearch: invariant of every run and what the parent finds.
-/
namespace HP
open Spec

theorem PhInv.sign {M p w chunk v0 e ph} (h0 : 0 ≤ v0) (h : PhInv M p w chunk v0 e ph) :
    ph = .failing ∨ ph = .dead none ∨ ((e = -1 ∨ 0 ≤ e) ∧ (e = -1 → ph.failed = true)) := by
  have hent : ∀ (v : WVars) (s : HSState), v.best = s.best → v0 ≤ s.best → 0 ≤ v.entry := by
    intro v s hs hg
    unfold WVars.entry
    split
    · exact le_refl _
    · rw [hs]; exact le_trans h0 hg
  have hpos : ∀ e : Rat, 0 ≤ e → ∀ q : Prop, (e = -1 ∨ 0 ≤ e) ∧ (e = -1 → q) := by
    intro e he q
    refine ⟨Or.inr he, ?_⟩
    intro h
    rw [h] at he
    exact absurd he (by norm_num)
  have hmsg : ∀ m, MsgOk M.ar (M.clock p) M.start M.throttle w chunk v0 m e →
      (e = -1 ∨ 0 ≤ e) ∧ (e = -1 → (m == failMsg) = true) := by
    intro m hm
    rcases hm with ⟨h1, h2⟩ | ⟨s, _, hi, _, _, _, ⟨_, h2, _⟩ | ⟨_, h2, h3⟩⟩
    · exact ⟨Or.inl h2, fun _ => by simp [h1]⟩
    · exact hpos e (by rw [h2]) _
    · exact hpos e (by rw [h2]; exact le_of_lt (lt_of_le_of_lt h0 h3)) _
  cases ph with
  | start => exact Or.inr (Or.inr (hpos e (by rw [show e = 0 from h]) _))
  | loop v rest =>
    obtain ⟨s, hs, hi, _, he⟩ := h
    exact Or.inr (Or.inr (hpos e (by rw [he]; exact hent _ s hs.best hi.ge) _))
  | searched v new st rest =>
    obtain ⟨s, t, hs, hi, _, _, _, _, he⟩ := h
    exact Or.inr (Or.inr (hpos e (by rw [he]; exact hent _ s hs.best hi.ge) _))
  | read v new opt st rest =>
    obtain ⟨s, t, hs, hi, _, _, _, _, he⟩ := h
    exact Or.inr (Or.inr (hpos e (by rw [he]; exact hent _ s hs.best hi.ge) _))
  | check v opt rest =>
    obtain ⟨s, hs, hi, _, he⟩ := h
    exact Or.inr (Or.inr (hpos e (by rw [he]; exact hent _ s hs.best hi.ge) _))
  | put v =>
    obtain ⟨s, hs, hi, _, he⟩ := h
    exact Or.inr (Or.inr (hpos e (by rw [he]; exact hent _ s hs.best hi.ge) _))
  | failing => exact Or.inl rfl
  | failPut => exact Or.inr (Or.inr ⟨Or.inl h, fun _ => rfl⟩)
  | buffered m => exact Or.inr (Or.inr (hmsg m h))
  | done m => exact Or.inr (Or.inr (hmsg m h))
  | dead m =>
    cases m with
    | none => exact Or.inr (Or.inl rfl)
    | some m => exact absurd h id

/-- failing is for good, and comes only from the start -/
theorem workerStep_failed {M : MPParams} {p : Nat} {w : Inst} (hv : w.Valid) {chunk : List (List PClass)}
    {v0 : Rat} (h0 : 0 ≤ v0) (hv0 : ∀ v, workerInit M w = .ok v → v.best = v0)
    {arr : List Rat} (hp : p < arr.length) {ph : Phase} {e : Rat} (he : arr[p]? = some e)
    (h : PhInv M p w chunk v0 e ph) :
    (workerStep M p w chunk ph arr).1.failed = true ↔
      ph.failed = true ∨ (ph = .start ∧ M.force p = true) := by
  obtain ⟨e', h1, h2, h3⟩ := workerStep_inv hv hv0 hp he h
  cases ph with
  | start =>
    by_cases hf : M.force p = true
    · simp [workerStep, hf, Phase.failed]
    · obtain ⟨s0, a1, a2, _⟩ := singleHS_init (A := M.ar) hv
      have hinit : workerInit M w = .ok ⟨s0.inst, s0.best, s0.retained, none, 0⟩ := by
        unfold workerInit
        simp only [bind, Except.bind, pure, Except.pure, a1, a2]
      simp [workerStep, hf, Phase.failed, hinit]
  | loop v rest =>
    cases rest with
    | nil => simp [workerStep, Phase.failed]
    | cons st rest =>
      have h3' := h3
      unfold workerStep at h3' ⊢
      simp only at h3' ⊢
      split at h3'
      · rename_i hx
        simp at h3'
      · rename_i hx
        simp [Phase.failed]
  | searched v new st rest =>
    have h3' := h3
    unfold workerStep at h3' ⊢
    simp only at h3' ⊢
    split at h3'
    · rename_i hx
      simp [Phase.failed]
    · rename_i hx
      simp at h3'
  | read v new opt st rest =>
    have h3' := h3
    unfold workerStep at h3' ⊢
    simp only at h3' ⊢
    split at h3'
    · rename_i hx
      split at h3'
      · simp at h3'
      · rename_i hy
        rw [if_pos hx]
        simp [Phase.failed, globalCheck, optimumObjVal]
    · rename_i hx
      rw [if_neg hx]
      simp [Phase.failed]
  | check v opt rest =>
    unfold workerStep
    simp only
    split <;> simp [Phase.failed]
  | put v =>
    obtain ⟨s, hs, hi, _, _⟩ := h
    have : v.best ≠ -1 := by
      intro hb
      have := le_trans h0 hi.ge
      rw [← hs.best, hb] at this
      exact absurd this (by norm_num)
    simp [workerStep, Phase.failed, failMsg, this]
  | failing => simp [workerStep, Phase.failed]
  | failPut => simp [workerStep, Phase.failed]
  | buffered m =>
    unfold workerStep
    simp only
    split <;> simp [Phase.failed]
  | done m => simp [workerStep, Phase.failed]
  | dead m => simp [workerStep, Phase.failed]

/-- the invariant of one worker after a schedule -/
structure WInv (M : MPParams) (w : Inst) (chunks : List (List (List PClass))) (v0 : Rat)
    (sch : List (Nat × MPEvent)) (p : Nat) (chunk : List (List PClass)) (ph : Phase) (e : Rat) : Prop where
  inv : PhInv M p w chunk v0 e ph
  sign : e = -1 ∨ 0 ≤ e
  neg : e = -1 → Raised M w chunks sch p
  failed : ph.failed = true → Raised M w chunks sch p
  raised : Raised M w chunks sch p → ph.failed = true ∨ ∃ m, ph = .dead m
  dead : ∀ m, ph = .dead m → Killed sch p

/-- the invariant of all workers after a schedule -/
structure RunInv (M : MPParams) (w : Inst) (chunks : List (List (List PClass))) (v0 : Rat)
    (sch : List (Nat × MPEvent)) (s : MPState) : Prop where
  phases : s.phases.length = chunks.length
  arr : s.arr.length = chunks.length
  each : ∀ p chunk ph e, chunks[p]? = some chunk → s.phases[p]? = some ph → s.arr[p]? = some e →
    WInv M w chunks v0 sch p chunk ph e

theorem mpRun_snoc (M : MPParams) (w : Inst) (chunks : List (List (List PClass)))
    (sch : List (Nat × MPEvent)) (ev : Nat × MPEvent) :
    mpRun M w chunks (sch ++ [ev]) = mpStep M w chunks (mpRun M w chunks sch) ev := by
  simp [mpRun]

theorem Spec.Raised.mono {M w chunks sch p} (h : Raised M w chunks sch p) (ev : Nat × MPEvent) :
    Raised M w chunks (sch ++ [ev]) p := by
  obtain ⟨b, k, a, ph, h1, h2⟩ := h
  exact ⟨b, k, a ++ [ev], ph, by rw [h1]; simp, h2⟩

/-- an exception of the longer schedule is one of the shorter, or happens at its end -/
theorem Spec.Raised.snoc {M w chunks sch p} {ev : Nat × MPEvent} (h : Raised M w chunks (sch ++ [ev]) p) :
    Raised M w chunks sch p ∨ ∃ ph, ev.1 = p ∧ (mpRun M w chunks sch).phases[p]? = some ph ∧
      ((ev.2 = .raise ∧ inTry ph = true) ∨ (ev.2 = .step ∧ ph = .start ∧ M.force p = true)) := by
  obtain ⟨b, k, a, ph, h1, h2⟩ := h
  rcases List.eq_nil_or_concat a with rfl | ⟨a', x, rfl⟩
  · obtain ⟨h3, h4⟩ := List.append_inj' h1 (by simp)
    simp only [List.cons.injEq, and_true] at h4
    subst h3 h4
    exact Or.inr ⟨ph, rfl, h2⟩
  · rw [List.concat_eq_append] at h1
    have : sch ++ [ev] = (b ++ (p, k) :: a') ++ [x] := by rw [h1]; simp
    obtain ⟨h3, _⟩ := List.append_inj' this (by simp)
    exact Or.inl ⟨b, k, a', ph, h3, h2⟩

theorem Spec.Killed.mono {sch : List (Nat × MPEvent)} {p : Nat} (h : Killed sch p) (ev : Nat × MPEvent) :
    Killed (sch ++ [ev]) p := by
  simp only [Killed, List.mem_append] at h ⊢
  exact Or.inl h

theorem raise_failed (ph : Phase) : ph.raise.failed = true ↔ ph.failed = true ∨ inTry ph = true := by
  cases ph <;> simp [Phase.raise, Phase.failed, inTry]

/-- every schedule keeps the invariant -/
theorem runInv {M : MPParams} {w : Inst} (hv : w.Valid) {v0 : Rat} (h0 : 0 ≤ v0)
    (hv0 : ∀ v, workerInit M w = .ok v → v.best = v0) (chunks : List (List (List PClass)))
    (sch : List (Nat × MPEvent)) : RunInv M w chunks v0 sch (mpRun M w chunks sch) := by
  induction sch using List.reverseRecOn with
  | nil =>
    refine ⟨by simp [mpRun], by simp [mpRun], ?_⟩
    intro p chunk ph e h1 h2 h3
    simp only [mpRun, List.foldl_nil, List.getElem?_map, h1, Option.map_some, Option.some.injEq] at h2 h3
    subst h2 h3
    refine ⟨rfl, Or.inr (le_refl _), fun h => absurd h (by norm_num), by simp [Phase.failed], ?_, by simp⟩
    rintro ⟨b, k, a, ph, h, _⟩
    simp at h
  | append_singleton sch ev ih =>
    rw [mpRun_snoc]
    set s := mpRun M w chunks sch with hs
    -- workers that the event does not concern
    have hother : ∀ p chunk ph e, ev.1 ≠ p → chunks[p]? = some chunk → s.phases[p]? = some ph →
        s.arr[p]? = some e → WInv M w chunks v0 (sch ++ [ev]) p chunk ph e := by
      intro p chunk ph e hne h1 h2 h3
      have hw := ih.each p chunk ph e h1 h2 h3
      refine ⟨hw.inv, hw.sign, fun h => (hw.neg h).mono ev, fun h => (hw.failed h).mono ev, ?_, ?_⟩
      · intro hr
        rcases hr.snoc with hr | ⟨_, h, _⟩
        · exact hw.raised hr
        · exact absurd h hne
      · intro m hm
        exact (hw.dead m hm).mono ev
    unfold mpStep
    cases hph : s.phases[ev.1]? with
    | none =>
      refine ⟨ih.phases, ih.arr, ?_⟩
      intro p chunk ph e h1 h2 h3
      refine hother p chunk ph e ?_ h1 h2 h3
      rintro rfl
      rw [hph] at h2; cases h2
    | some ph0 =>
      obtain ⟨hlt, _⟩ := List.getElem?_eq_some_iff.1 hph
      have hltc : ev.1 < chunks.length := by rw [← ih.phases]; exact hlt
      have hlta : ev.1 < s.arr.length := by rw [ih.arr]; exact hltc
      obtain ⟨c0, hc0⟩ : ∃ c, chunks[ev.1]? = some c := ⟨_, List.getElem?_eq_getElem hltc⟩
      obtain ⟨e0, he0⟩ : ∃ e, s.arr[ev.1]? = some e := ⟨_, List.getElem?_eq_getElem hlta⟩
      have hw0 := ih.each _ _ _ _ hc0 hph he0
      rw [hc0]
      simp only
      cases hk : ev.2 with
      | step =>
        simp only
        obtain ⟨e', g1, g2, _⟩ := workerStep_inv hv hv0 hlta he0 hw0.inv
        have hfl := workerStep_failed hv h0 hv0 hlta he0 hw0.inv
        set r := workerStep M ev.1 w c0 ph0 s.arr with hr
        refine ⟨by simp [ih.phases], by rw [g1]; simp [ih.arr], ?_⟩
        intro p chunk ph e h1 h2 h3
        by_cases hpe : ev.1 = p
        · subst hpe
          rw [hc0] at h1
          injection h1 with h1
          subst h1
          simp only [g1, List.getElem?_set, hlt, hlta, if_true, Option.some.injEq] at h2 h3
          subst h2 h3
          have hstart : r.1.failed = true → Raised M w chunks (sch ++ [ev]) ev.1 := by
            intro h
            rcases hfl.1 h with h | ⟨h, hf⟩
            · exact (hw0.failed h).mono ev
            · refine ⟨sch, .step, [], ph0, ?_, ?_, Or.inr ⟨rfl, h, hf⟩⟩
              · rw [← hk]
              · rw [← hs]; exact hph
          have hsgn : (e' = -1 ∨ 0 ≤ e') ∧ (e' = -1 → Raised M w chunks (sch ++ [ev]) ev.1) := by
            rcases g2.sign h0 with h | h | ⟨h, h'⟩
            · -- arrived in the handler
              have harr : r.2 = s.arr ∨ r.2 = s.arr.set ev.1 (-1) := by
                have h3' := (workerStep_inv hv hv0 hlta he0 hw0.inv)
                obtain ⟨_, _, _, h4⟩ := h3'
                rcases h4 (by rw [← hr]; exact h) with ⟨hp, hf⟩ | hp
                · left; rw [hr, hp]; simp [workerStep, hf]
                · rw [hr, hp] at h; simp [workerStep] at h
              have hR := hstart (by rw [h]; rfl)
              refine ⟨?_, fun _ => hR⟩
              rcases harr with ha | ha
              · have : e' = e0 := by
                  have := congrArg (fun l => l[ev.1]?) (g1.symm.trans ha)
                  simp only [List.getElem?_set, hlta, if_true, he0, Option.some.injEq] at this
                  exact this
                rw [this]; exact hw0.sign
              · left
                have := congrArg (fun l => l[ev.1]?) (g1.symm.trans ha)
                simp only [List.getElem?_set, hlta, if_true, Option.some.injEq] at this
                exact this
            · -- dead: nothing has changed
              have hd : ph0 = .dead none := by
                rw [hr] at h
                revert h
                cases ph0 <;> intro h
                case dead m => simpa [workerStep] using h
                all_goals
                  exfalso
                  revert h
                  unfold workerStep
                  simp only
                  repeat' split
                  all_goals simp
              have : e' = e0 := by
                have ha : r.2 = s.arr := by rw [hr, hd]; rfl
                have := congrArg (fun l => l[ev.1]?) (g1.symm.trans ha)
                simp only [List.getElem?_set, hlta, if_true, he0, Option.some.injEq] at this
                exact this
              rw [this]
              exact ⟨hw0.sign, fun h => (hw0.neg h).mono ev⟩
            · exact ⟨h, fun he => hstart (h' he)⟩
          refine ⟨g2, hsgn.1, hsgn.2, hstart, ?_, ?_⟩
          · intro hR
            rcases hR.snoc with hR | ⟨ph', _, h5, h6⟩
            · rcases hw0.raised hR with h | ⟨m, h⟩
              · exact Or.inl (hfl.2 (Or.inl h))
              · exact Or.inr ⟨m, by rw [hr, h]; rfl⟩
            · rw [← hs, hph] at h5
              injection h5 with h5
              subst h5
              rcases h6 with ⟨h6, _⟩ | ⟨_, h6, h7⟩
              · rw [hk] at h6; cases h6
              · exact Or.inl (hfl.2 (Or.inr ⟨h6, h7⟩))
          · intro m hm
            have hd : ph0 = .dead m := by
              rw [hr] at hm
              revert hm
              cases ph0 <;> intro h
              case dead m => simpa [workerStep] using h
              all_goals
                exfalso
                revert h
                unfold workerStep
                simp only
                repeat' split
                all_goals simp
            exact (hw0.dead m hd).mono ev
        · refine hother p chunk ph e hpe h1 ?_ ?_
          · simpa [List.getElem?_set, hpe] using h2
          · rw [g1] at h3; simpa [List.getElem?_set, hpe] using h3
      | raise =>
        simp only
        refine ⟨by simp [ih.phases], ih.arr, ?_⟩
        intro p chunk ph e h1 h2 h3
        by_cases hpe : ev.1 = p
        · subst hpe
          rw [hc0] at h1
          rw [he0] at h3
          injection h1 with h1
          injection h3 with h3
          subst h1 h3
          simp only [List.getElem?_set, hlt, if_true, Option.some.injEq] at h2
          subst h2
          have hinv : PhInv M ev.1 w c0 v0 e0 ph0.raise := by
            have := hw0.inv
            cases ph0 <;> first | trivial | exact this
          refine ⟨hinv, hw0.sign, fun h => (hw0.neg h).mono ev, ?_, ?_, ?_⟩
          · intro h
            rcases (raise_failed _).1 h with h | h
            · exact (hw0.failed h).mono ev
            · exact ⟨sch, .raise, [], ph0, by rw [← hk], by rw [← hs]; exact hph, Or.inl ⟨rfl, h⟩⟩
          · intro hR
            rcases hR.snoc with hR | ⟨ph', _, h5, h6⟩
            · rcases hw0.raised hR with h | ⟨m, h⟩
              · exact Or.inl ((raise_failed _).2 (Or.inl h))
              · exact Or.inr ⟨m, by rw [h]; rfl⟩
            · rw [← hs, hph] at h5
              injection h5 with h5
              subst h5
              rcases h6 with ⟨_, h6⟩ | ⟨h6, _⟩
              · exact Or.inl ((raise_failed _).2 (Or.inr h6))
              · rw [hk] at h6; cases h6
          · intro m hm
            have : ph0 = .dead m := by
              cases ph0 <;> simp_all [Phase.raise]
            exact (hw0.dead m this).mono ev
        · refine hother p chunk ph e hpe h1 ?_ h3
          simpa [List.getElem?_set, hpe] using h2
      | kill =>
        simp only
        refine ⟨by simp [ih.phases], ih.arr, ?_⟩
        intro p chunk ph e h1 h2 h3
        by_cases hpe : ev.1 = p
        · subst hpe
          rw [hc0] at h1
          rw [he0] at h3
          injection h1 with h1
          injection h3 with h3
          subst h1 h3
          simp only [List.getElem?_set, hlt, if_true, Option.some.injEq] at h2
          subst h2
          have hK : Killed (sch ++ [ev]) ev.1 := by
            simp only [Killed, List.mem_append, List.mem_singleton]
            right
            rw [← hk]
          have hinv : PhInv M ev.1 w c0 v0 e0 ph0.kill := by
            have := hw0.inv
            cases ph0 <;> first | trivial | exact this
          refine ⟨hinv, hw0.sign, fun h => (hw0.neg h).mono ev, ?_, ?_, fun _ _ => hK⟩
          swap
          · intro hR
            have hR' : Raised M w chunks sch ev.1 := by
              rcases hR.snoc with hR | ⟨_, _, _, ⟨h6, _⟩ | ⟨h6, _⟩⟩
              · exact hR
              · rw [hk] at h6; cases h6
              · rw [hk] at h6; cases h6
            rcases hw0.raised hR' with h | ⟨m, h⟩
            · cases ph0 <;> simp_all [Phase.kill, Phase.failed]
            · exact Or.inr ⟨m, by rw [h]; rfl⟩
          intro h
          have : ph0.failed = true := by
            cases ph0 <;> simp_all [Phase.kill, Phase.failed]
          exact (hw0.failed this).mono ev
        · refine hother p chunk ph e hpe h1 ?_ h3
          simpa [List.getElem?_set, hpe] using h2

/-! ### the parent -/

theorem foldl_max_spec : ∀ (l : List Rat) (x : Rat),
    (l.foldl max x = x ∨ l.foldl max x ∈ l) ∧ x ≤ l.foldl max x ∧ ∀ y ∈ l, y ≤ l.foldl max x
  | [], x => ⟨Or.inl rfl, le_refl _, by simp⟩
  | a :: l, x => by
    obtain ⟨h1, h2, h3⟩ := foldl_max_spec l (max x a)
    simp only [List.foldl_cons]
    refine ⟨?_, le_trans (le_max_left _ _) h2, ?_⟩
    · rcases h1 with h1 | h1
      · rw [h1]
        rcases max_choice x a with h | h
        · exact Or.inl h
        · exact Or.inr (by rw [h]; simp)
      · exact Or.inr (List.mem_cons_of_mem _ h1)
    · intro y hy
      rcases List.mem_cons.1 hy with rfl | hy
      · exact le_trans (le_max_right _ _) h2
      · exact h3 y hy

theorem arrayMax_spec {l : List Rat} {m : Rat} (h : arrayMax l = some m) : m ∈ l ∧ ∀ y ∈ l, y ≤ m := by
  cases l with
  | nil => cases h
  | cons a l =>
    simp only [arrayMax, Option.some.injEq] at h
    obtain ⟨h1, h2, h3⟩ := foldl_max_spec l a
    rw [h] at h1 h2 h3
    refine ⟨?_, ?_⟩
    · rcases h1 with h1 | h1
      · rw [h1]; simp
      · exact List.mem_cons_of_mem _ h1
    · intro y hy
      rcases List.mem_cons.1 hy with rfl | hy
      · exact h2
      · exact h3 y hy

theorem firstIdx_spec {m : Rat} : ∀ {l : List Rat}, m ∈ l → l[firstIdx m l]? = some m
  | [], h => by cases h
  | a :: l, h => by
    unfold firstIdx
    split
    · rename_i he; simp [he]
    · rename_i he
      simp only [List.getElem?_cons_succ]
      refine firstIdx_spec ?_
      rcases List.mem_cons.1 h with h | h
      · exact absurd h.symm he
      · exact h

theorem firstIdx_first {m : Rat} : ∀ {l : List Rat} {q : Nat}, q < firstIdx m l → l[q]? ≠ some m
  | [], q, h => by simp [firstIdx] at h
  | a :: l, q, h => by
    unfold firstIdx at h
    split at h
    · simp at h
    · rename_i he
      cases q with
      | zero => simpa using he
      | succ q =>
        rw [List.getElem?_cons_succ]
        exact firstIdx_first (by omega)

theorem allEnded_iff {M w chunks sch} :
    AllEnded M w chunks sch ↔ (mpRun M w chunks sch).phases.all Phase.ended = true := by
  unfold AllEnded
  rw [List.all_eq_true]
  constructor
  · intro h ph hph
    obtain ⟨p, hp, he⟩ := List.getElem_of_mem hph
    exact h p ph (by rw [List.getElem?_eq_getElem hp, he])
  · intro h p ph hp
    exact h ph (List.mem_of_getElem? hp)

/-- the three ways in which the parent ends once all workers have ended -/
theorem mpFinish_spec {M : MPParams} {w i : Inst} (hv : w.Valid) (hi : i.Valid)
    (hitems : w.items = i.items) (hconts : w.containers = i.containers) {v0 : Rat} (h0 : 0 ≤ v0)
    {chunks : List (List (List PClass))} (hne : chunks ≠ []) {sch : List (Nat × MPEvent)}
    (hrun : RunInv M w chunks v0 sch (mpRun M w chunks sch)) (hend : AllEnded M w chunks sch) :
    (mpFinish i (mpRun M w chunks sch) = .raised (.multiProcessError "ALL_PROCESSES_FAILED") ∧
      ∀ e ∈ (mpRun M w chunks sch).arr, e = -1) ∨
    (∃ (p : Nat) (chunk : List (List PClass)) (m : Msg) (e : Rat) (s : HSState) (sol : Solution), chunks[p]? = some chunk ∧
      (mpRun M w chunks sch).phases[p]? = some (.done m) ∧ (mpRun M w chunks sch).arr[p]? = some e ∧
      (∀ e' ∈ (mpRun M w chunks sch).arr, e' ≤ e) ∧ m ≠ failMsg ∧
      mpFinish i (mpRun M w chunks sch) = .returned sol m.ov m.strategy ∧ SamePacking sol m.sol ∧
      w.singleHS M.ar (M.clock p) M.start M.throttle chunk = .ok s ∧
      HSInv M.ar (M.clock p) M.start M.throttle w v0 s ∧ m.value = s.best ∧ m.sol = s.retained.1 ∧
      m.ov = s.retained.2 ∧
      ((m.strategy = none ∧ e = 0 ∧ s.best = v0) ∨
       (m.strategy = some s.bestStrategy ∧ e = s.best ∧ v0 < s.best)) ∧
      ∀ q, q < p → (mpRun M w chunks sch).arr[q]? ≠ some e) ∨
    (∃ (p : Nat) (e : Rat), (mpRun M w chunks sch).phases[p]? = some (Phase.dead none) ∧
      (mpRun M w chunks sch).arr[p]? = some e ∧ (∀ e' ∈ (mpRun M w chunks sch).arr, e' ≤ e) ∧ e ≠ -1 ∧
      mpFinish i (mpRun M w chunks sch) = .blocked) := by
  rw [allEnded_iff] at hend
  set r := mpRun M w chunks sch with hr
  have harr : r.arr ≠ [] := by
    intro h
    have := hrun.arr
    rw [h] at this
    simp at this
    exact hne (List.length_eq_zero_iff.1 this.symm)
  obtain ⟨mx, hmx⟩ : ∃ mx, arrayMax r.arr = some mx := by
    cases h : r.arr with
    | nil => exact absurd h harr
    | cons a l => exact ⟨_, rfl⟩
  obtain ⟨hmem, hle⟩ := arrayMax_spec hmx
  have hidx := firstIdx_spec hmem
  obtain ⟨hlt, _⟩ := List.getElem?_eq_some_iff.1 hidx
  rw [hrun.arr] at hlt
  obtain ⟨chunk, hchunk⟩ : ∃ c, chunks[firstIdx mx r.arr]? = some c := ⟨_, List.getElem?_eq_getElem hlt⟩
  obtain ⟨ph, hph⟩ : ∃ c, r.phases[firstIdx mx r.arr]? = some c :=
    ⟨_, List.getElem?_eq_getElem (by rw [hrun.phases]; exact hlt)⟩
  have hw := hrun.each _ _ _ _ hchunk hph hidx
  have hphe : ph.ended = true := List.all_eq_true.1 hend ph (List.mem_of_getElem? hph)
  have hfin : mpFinish i r = (if mx = -1 then .raised (.multiProcessError "ALL_PROCESSES_FAILED") else
      match ph.message with
      | none => .blocked
      | some msg =>
        match i.deepcopySolution msg.sol with
        | .error e => .raised e
        | .ok sol => .returned sol (copyObjVals msg.ov) msg.strategy) := by
    unfold mpFinish
    rw [hend, hmx]
    simp only [Bool.not_true, Bool.false_eq_true, if_false, hph, Option.bind_some]
    rfl
  by_cases hm : mx = -1
  · left
    rw [if_pos hm] at hfin
    refine ⟨hfin, ?_⟩
    intro e he
    obtain ⟨q, hq, hqe⟩ := List.getElem_of_mem he
    have hqc : q < chunks.length := by rw [← hrun.arr]; exact hq
    have hwq := hrun.each q _ _ e (List.getElem?_eq_getElem hqc)
      (List.getElem?_eq_getElem (by rw [hrun.phases]; exact hqc)) (by rw [List.getElem?_eq_getElem hq, hqe])
    rcases hwq.sign with h | h
    · exact h
    · have := le_trans h (hle e he)
      rw [hm] at this
      exact absurd this (by norm_num)
  · right
    rw [if_neg hm] at hfin
    cases ph with
    | dead mm =>
      cases mm with
      | some _ => exact absurd hw.inv id
      | none => exact Or.inr ⟨_, mx, hph, hidx, hle, hm, hfin⟩
    | done m =>
      left
      rcases (hw.inv : MsgOk _ _ _ _ _ _ _ _ _) with ⟨_, h2⟩ | ⟨s, g1, g2, g3, g4, g5, g6⟩
      · exact absurd h2 hm
      · obtain ⟨st, hst⟩ := g2.gen
        have hf := hst.facts hv
        rw [hitems, hconts] at hf
        obtain ⟨sol, k1, k2⟩ := deepcopy_same hi.conts.1 hi.items.1 hf
        have hcopy : i.deepcopySolution m.sol = .ok sol := by
          unfold Inst.deepcopySolution; rw [g4]; exact k1
        refine ⟨_, chunk, m, mx, s, sol, hchunk, hph, hidx, hle, ?_, ?_, by rw [g4]; exact k2, g1, g2, g3, g4, g5, g6,
          fun q hq => firstIdx_first hq⟩
        · intro hmf
          have h1 : m.value = -1 := by rw [hmf]; rfl
          have h2 := le_trans h0 g2.ge
          rw [← g3, h1] at h2
          exact absurd h2 (by norm_num)
        · rw [hfin]
          simp only [Phase.message, hcopy, copyObjVals_eq]
    | _ => cases hphe

/-- the value of the initial solution, the same for all workers -/
theorem workerInit_spec {M : MPParams} {w : Inst} (hA : NonNeg M.ar) (hv : w.Valid)
    (hn : w.containersNum = w.containers.length) :
    ∃ v0, 0 ≤ v0 ∧ (∀ v, workerInit M w = .ok v → v.best = v0) ∧
      ∃ sol0 ov0, solve M.ar w.solveIn none = .ok (sol0, ov0) ∧ v0 = overall M.ar (ov0.map (·.2)) := by
  obtain ⟨s0, a1, a2, _, _, ⟨sol0, ov0, a5, a6⟩, a7, _⟩ := singleHS_init (A := M.ar) hv
  refine ⟨s0.best, ?_, ?_, sol0, ov0, a5, by
    rw [a6]; exact Inst.worth_eq hn (solve_facts hv.solveIn (KnownSeq_none _) a5).keysO⟩
  · have := a7 (fun _ => 0) 0 true
    obtain ⟨st, hst⟩ := this.gen
    rw [this.best, Inst.worth_eq hn (hst.facts hv).keysO]
    exact (hst.genuine hv).nonneg hA
  · intro v hv'
    unfold workerInit at hv'
    simp only [bind, Except.bind, pure, Except.pure, a1, a2] at hv'
    injection hv' with hv'
    rw [← hv']

/-! ### without assumptions on rounding: what is returned was reported by a worker -/

theorem runPh {M : MPParams} {w : Inst} (hv : w.Valid) {v0 : Rat}
    (hv0 : ∀ v, workerInit M w = .ok v → v.best = v0) (chunks : List (List (List PClass)))
    (sch : List (Nat × MPEvent)) :
    (mpRun M w chunks sch).phases.length = chunks.length ∧
    (mpRun M w chunks sch).arr.length = chunks.length ∧
    ∀ (p : Nat) chunk ph e, chunks[p]? = some chunk → (mpRun M w chunks sch).phases[p]? = some ph →
      (mpRun M w chunks sch).arr[p]? = some e → PhInv M p w chunk v0 e ph := by
  induction sch using List.reverseRecOn with
  | nil =>
    refine ⟨by simp [mpRun], by simp [mpRun], ?_⟩
    intro p chunk ph e h1 h2 h3
    simp only [mpRun, List.foldl_nil, List.getElem?_map, h1, Option.map_some, Option.some.injEq] at h2 h3
    subst h2 h3
    rfl
  | append_singleton sch ev ih =>
    rw [mpRun_snoc]
    obtain ⟨l1, l2, ih⟩ := ih
    set s := mpRun M w chunks sch
    unfold mpStep
    cases hph : s.phases[ev.1]? with
    | none => exact ⟨l1, l2, ih⟩
    | some ph0 =>
      obtain ⟨hlt, _⟩ := List.getElem?_eq_some_iff.1 hph
      have hltc : ev.1 < chunks.length := by rw [← l1]; exact hlt
      have hlta : ev.1 < s.arr.length := by rw [l2]; exact hltc
      obtain ⟨c0, hc0⟩ : ∃ c, chunks[ev.1]? = some c := ⟨_, List.getElem?_eq_getElem hltc⟩
      obtain ⟨e0, he0⟩ : ∃ e, s.arr[ev.1]? = some e := ⟨_, List.getElem?_eq_getElem hlta⟩
      have hw0 := ih _ _ _ _ hc0 hph he0
      rw [hc0]
      simp only
      cases hk : ev.2 with
      | step =>
        simp only
        obtain ⟨e', g1, g2, _⟩ := workerStep_inv hv hv0 hlta he0 hw0
        refine ⟨by simp [l1], by rw [g1]; simp [l2], ?_⟩
        intro p chunk ph e h1 h2 h3
        by_cases hpe : ev.1 = p
        · subst hpe
          rw [hc0] at h1
          injection h1 with h1
          subst h1
          simp only [g1, List.getElem?_set, hlt, hlta, if_true, Option.some.injEq] at h2 h3
          subst h2 h3
          exact g2
        · refine ih p chunk ph e h1 ?_ ?_
          · simpa [List.getElem?_set, hpe] using h2
          · rw [g1] at h3; simpa [List.getElem?_set, hpe] using h3
      | raise =>
        simp only
        refine ⟨by simp [l1], l2, ?_⟩
        intro p chunk ph e h1 h2 h3
        by_cases hpe : ev.1 = p
        · subst hpe
          rw [hc0] at h1
          rw [he0] at h3
          injection h1 with h1
          injection h3 with h3
          subst h1 h3
          simp only [List.getElem?_set, hlt, if_true, Option.some.injEq] at h2
          subst h2
          cases ph0 <;> first | trivial | exact hw0
        · refine ih p chunk ph e h1 ?_ h3
          simpa [List.getElem?_set, hpe] using h2
      | kill =>
        simp only
        refine ⟨by simp [l1], l2, ?_⟩
        intro p chunk ph e h1 h2 h3
        by_cases hpe : ev.1 = p
        · subst hpe
          rw [hc0] at h1
          rw [he0] at h3
          injection h1 with h1
          injection h3 with h3
          subst h1 h3
          simp only [List.getElem?_set, hlt, if_true, Option.some.injEq] at h2
          subst h2
          cases ph0 <;> first | trivial | exact hw0
        · refine ih p chunk ph e h1 ?_ h3
          simpa [List.getElem?_set, hpe] using h2

/-- what `multiHS` returns is the result of a single process search over some chunk -/
theorem mpFinish_returned {M : MPParams} {w i : Inst} (hv : w.Valid) (hi : i.Valid)
    (hitems : w.items = i.items) (hconts : w.containers = i.containers)
    {chunks : List (List (List PClass))} {sch : List (Nat × MPEvent)} {sol : Solution} {ov : ObjVals}
    {st : Option (List PClass)} (h : mpFinish i (mpRun M w chunks sch) = .returned sol ov st) :
    ∃ (p : Nat) (chunk : List (List PClass)) (s : HSState), chunks[p]? = some chunk ∧
      w.singleHS M.ar (M.clock p) M.start M.throttle chunk = .ok s ∧
      SamePacking sol s.retained.1 ∧ ov = s.retained.2 ∧ (∀ x, st = some x → x = s.bestStrategy) := by
  obtain ⟨s0, a1, a2, _⟩ := singleHS_init (A := M.ar) hv
  have hinit : ∀ v, workerInit M w = .ok v → v.best = s0.best := by
    intro v hv'
    unfold workerInit at hv'
    simp only [bind, Except.bind, pure, Except.pure, a1, a2] at hv'
    injection hv' with hv'
    rw [← hv']
  obtain ⟨l1, l2, hrun⟩ := runPh hv hinit chunks sch
  set r := mpRun M w chunks sch
  unfold mpFinish at h
  split at h
  · cases h
  · split at h
    · cases h
    · rename_i mx hmx
      split at h
      · cases h
      · rename_i hm
        split at h
        · cases h
        · rename_i msg hmsg
          obtain ⟨hmem, hle⟩ := arrayMax_spec hmx
          have hidx := firstIdx_spec hmem
          obtain ⟨hlt, _⟩ := List.getElem?_eq_some_iff.1 hidx
          rw [l2] at hlt
          cases hph : r.phases[firstIdx mx r.arr]? with
          | none => rw [hph] at hmsg; cases hmsg
          | some ph =>
            rw [hph] at hmsg
            simp only [Option.bind_some] at hmsg
            have hw := hrun _ _ _ _ (List.getElem?_eq_getElem hlt) hph hidx
            cases ph with
            | done m =>
              simp only [Phase.message, Option.some.injEq] at hmsg
              subst hmsg
              rcases (hw : MsgOk _ _ _ _ _ _ _ _ _) with ⟨_, h2⟩ | ⟨s, g1, g2, g3, g4, g5, g6⟩
              · exact absurd h2 hm
              · obtain ⟨st', hst⟩ := g2.gen
                have hf := hst.facts hv
                rw [hitems, hconts] at hf
                obtain ⟨sol', k1, k2⟩ := deepcopy_same hi.conts.1 hi.items.1 hf
                have hcopy : i.deepcopySolution m.sol = .ok sol' := by
                  unfold Inst.deepcopySolution; rw [g4]; exact k1
                rw [hcopy] at h
                simp only [copyObjVals_eq, MPOutcome.returned.injEq] at h
                obtain ⟨h1, h2, h3⟩ := h
                refine ⟨_, _, s, List.getElem?_eq_getElem hlt, g1, by rw [← h1]; exact k2, by rw [← h2, g5], ?_⟩
                intro x hx
                rw [← h3] at hx
                rcases g6 with ⟨g6, _⟩ | ⟨g6, _⟩
                · rw [g6] at hx; cases hx
                · rw [g6] at hx; injection hx with hx; exact hx.symm
            | dead m =>
              cases m with
              | none => cases hmsg
              | some m => exact absurd hw id
            | _ => cases hmsg

/-! ### ending -/

/-- an upper bound for the number of steps a worker still makes -/
def Phase.rank (chunk : List (List PClass)) : Phase → Nat
  | .start => 4 * chunk.length + 5
  | .loop _ rest => 4 * rest.length + 4
  | .searched _ _ _ rest => 4 * rest.length + 7
  | .read _ _ _ _ rest => 4 * rest.length + 6
  | .check _ _ rest => 4 * rest.length + 5
  | .put _ => 3
  | .failing => 3
  | .failPut => 2
  | .buffered _ => 1
  | .done _ => 0
  | .dead _ => 0

theorem rank_zero {chunk : List (List PClass)} {ph : Phase} (h : ph.rank chunk = 0) : ph.ended = true := by
  cases ph <;> simp_all [Phase.rank, Phase.ended]

theorem rank_step {M : MPParams} (hfit : ∀ m, M.fits m = true) (p : Nat) (w : Inst)
    (chunk : List (List PClass)) (ph : Phase) (arr : List Rat) :
    (workerStep M p w chunk ph arr).1.rank chunk ≤ ph.rank chunk - 1 := by
  cases ph with
  | start =>
    unfold workerStep
    simp only
    split
    · simp [Phase.rank]
    · split <;> simp [Phase.rank]
  | loop v rest =>
    cases rest with
    | nil => simp [workerStep, Phase.rank]
    | cons st rest =>
      unfold workerStep
      simp only
      split
      · simp [Phase.rank]
      · simp only [Phase.rank, List.length_cons]; omega
  | searched v new st rest =>
    unfold workerStep
    simp only
    split <;> simp [Phase.rank]
  | read v new opt st rest =>
    unfold workerStep
    simp only
    split
    · split
      · simp [Phase.rank]
      · split <;> simp [Phase.rank]
    · simp [Phase.rank]
  | check v opt rest =>
    unfold workerStep
    simp only
    split <;> simp [Phase.rank]
  | put v => simp [workerStep, Phase.rank]
  | failing => simp [workerStep, Phase.rank]
  | failPut => simp [workerStep, Phase.rank]
  | buffered m => simp [workerStep, Phase.rank, hfit]
  | done m => simp [workerStep, Phase.rank]
  | dead m => simp [workerStep, Phase.rank]

theorem rank_raise (chunk : List (List PClass)) (ph : Phase) : ph.raise.rank chunk ≤ ph.rank chunk := by
  cases ph <;> simp [Phase.raise, Phase.rank]

theorem rank_kill (chunk : List (List PClass)) (ph : Phase) : ph.kill.rank chunk ≤ ph.rank chunk := by
  cases ph <;> simp [Phase.kill, Phase.rank]

theorem rank_run {M : MPParams} (hfit : ∀ m, M.fits m = true) (w : Inst)
    (chunks : List (List (List PClass))) (sch : List (Nat × MPEvent)) :
    (mpRun M w chunks sch).phases.length = chunks.length ∧
    ∀ (p : Nat) chunk ph, chunks[p]? = some chunk → (mpRun M w chunks sch).phases[p]? = some ph →
      ph.rank chunk ≤ 4 * chunk.length + 5 - sch.count (p, .step) := by
  induction sch using List.reverseRecOn with
  | nil =>
    refine ⟨by simp [mpRun], ?_⟩
    intro p chunk ph h1 h2
    simp only [mpRun, List.foldl_nil, List.getElem?_map, h1, Option.map_some, Option.some.injEq] at h2
    subst h2
    simp [Phase.rank]
  | append_singleton sch ev ih =>
    rw [mpRun_snoc]
    obtain ⟨l1, ih⟩ := ih
    set s := mpRun M w chunks sch
    have hcount : ∀ p, List.count (p, MPEvent.step) (sch ++ [ev]) =
        List.count (p, MPEvent.step) sch + (if ev = (p, .step) then 1 else 0) := by
      intro p
      rw [List.count_append, List.count_singleton]
      simp
    unfold mpStep
    cases hph : s.phases[ev.1]? with
    | none =>
      refine ⟨l1, ?_⟩
      intro p chunk ph h1 h2
      have := ih p chunk ph h1 h2
      rw [hcount]
      rw [if_neg]
      · exact this
      · rintro rfl
        rw [hph] at h2; cases h2
    | some ph0 =>
      obtain ⟨hlt, _⟩ := List.getElem?_eq_some_iff.1 hph
      have hltc : ev.1 < chunks.length := by rw [← l1]; exact hlt
      obtain ⟨c0, hc0⟩ : ∃ c, chunks[ev.1]? = some c := ⟨_, List.getElem?_eq_getElem hltc⟩
      have hw0 := ih _ _ _ hc0 hph
      rw [hc0]
      simp only
      have key : ∀ (ph1 : Phase) (n : Nat), ph1.rank c0 ≤ ph0.rank c0 - n →
          (ev.2 = .step → n = 1) →
          ∀ (p : Nat) chunk ph, chunks[p]? = some chunk → (s.phases.set ev.1 ph1)[p]? = some ph →
            ph.rank chunk ≤ 4 * chunk.length + 5 - (sch ++ [ev]).count (p, .step) := by
        intro ph1 n hr hn p chunk ph h1 h2
        rw [hcount]
        by_cases hpe : ev.1 = p
        · subst hpe
          rw [hc0] at h1
          injection h1 with h1
          subst h1
          simp only [List.getElem?_set, hlt, if_true, Option.some.injEq] at h2
          subst h2
          split
          · rename_i he
            have := hn (by rw [he])
            omega
          · omega
        · rw [if_neg (by intro h; exact hpe (by rw [h]))]
          refine ih p chunk ph h1 ?_
          simpa [List.getElem?_set, hpe] using h2
      cases hk : ev.2 with
      | step =>
        exact ⟨by simp [l1], key _ 1 (rank_step hfit _ _ _ _ _) (fun _ => rfl)⟩
      | raise =>
        exact ⟨by simp [l1], key _ 0 (rank_raise _ _) (fun h => by rw [hk] at h; cases h)⟩
      | kill =>
        exact ⟨by simp [l1], key _ 0 (rank_kill _ _) (fun h => by rw [hk] at h; cases h)⟩

end HP
