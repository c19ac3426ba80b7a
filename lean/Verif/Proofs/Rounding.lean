import Verif.Proofs.Solve
import Verif.Proofs.Height
/-
Two ways of rounding that agree on the 20% test and report a value of 1 only for full containers
lead to the same packing.
-/
namespace HP
open Spec

/-- the two arithmetics agree on which quotients `a / W` are at most 0.2 -/
def SameRatio (A B : Arith) (W : Nat) : Prop := ∀ a, A.ratioLe a W = B.ratioLe a W

theorem generatePoints_agree {A B : Arith} {W L : Nat} (hW : SameRatio A B W) (hL : SameRatio A B L)
    (g : Grid) (Xo Yo w l : Nat) : generatePoints A g W L Xo Yo w l = generatePoints B g W L Xo Yo w l := by
  have h1 : ∀ Xo Ay o, pointAE A W Xo Ay o = pointAE B W Xo Ay o := by
    intro Xo Ay o
    unfold pointAE
    cases o <;> simp only [hW _]
  have h2 : ∀ Yo Bx o, pointBF A L Yo Bx o = pointBF B L Yo Bx o := by
    intro Yo Bx o
    unfold pointBF
    cases o <;> simp only [hL _]
  unfold generatePoints genA genB
  simp only [h1, h2]

/-- states that differ in the value only -/
def SameBut (s t : CState) : Prop := t = { s with obj := t.obj }

theorem constructStep_agree {P Q : CParams} (hPQ : Q = { P with ar := Q.ar }) (hW : SameRatio P.ar Q.ar P.W)
    (hL : SameRatio P.ar Q.ar P.L) {s t s' : CState} {pt : Pt} (hst : SameBut s t)
    (h : constructStep P s pt = .ok s') : ∃ t', constructStep Q t pt = .ok t' ∧ SameBut s' t' := by
  have e1 : Q.rot = P.rot := by rw [hPQ]
  have e2 : Q.strip = P.strip := by rw [hPQ]
  have e3 : Q.W = P.W := by rw [hPQ]
  have e4 : Q.L = P.L := by rw [hPQ]
  have e5 : Q.strategy = P.strategy := by rw [hPQ]
  have hg := fun g Xo Yo w l => generatePoints_agree hW hL g Xo Yo w l
  unfold SameBut at hst
  rw [hst]
  unfold constructStep handlePoint at h ⊢
  simp only [e1, e2, e3, e4, e5, bind, Except.bind, pure, Except.pure, ← hg] at h ⊢
  cases h1 : findFit P.rot P.W P.L pt.x pt.y s.grid s.items s.ids with
  | error e => rw [h1] at h; cases h
  | ok r =>
    rw [h1] at h
    cases r with
    | none =>
      simp only at h ⊢
      injection h with h
      subst h
      exact ⟨_, rfl, rfl⟩
    | some x =>
      obtain ⟨id, d, ro⟩ := x
      simp only at h ⊢
      generalize (if ro = true then d.l else d.w) = w at *
      generalize (if ro = true then d.w else d.l) = l at *
      cases h2 : fillItem s.grid pt.x pt.y w l with
      | error e => rw [h2] at h; cases h
      | ok g =>
        rw [h2] at h
        simp only at h ⊢
        cases h3 : pyRemove s.ids id with
        | error e => rw [h3] at h; cases h
        | ok ids =>
          rw [h3] at h
          simp only at h ⊢
          cases h4 : PyDict.delE s.items id with
          | error e => rw [h4] at h; cases h
          | ok items =>
            rw [h4] at h
            simp only at h ⊢
            cases h5 : generatePoints P.ar g P.W P.L pt.x pt.y w l with
            | error e => rw [h5] at h; cases h
            | ok gen =>
              rw [h5] at h
              simp only at h ⊢
              injection h with h
              subst h
              exact ⟨_, rfl, rfl⟩

/-- a value of 1 or more means that the container is full (up to `n` items) -/
def Honest (P : CParams) (n : Nat) : Prop :=
  ∀ placed : List Placed, placed.length ≤ n → objFold P placed ≥ 1 →
    P.W * P.L ≤ totalArea (placed.map Placed.rect)

theorem placed_area_le {P : CParams} {items : PyDict String Dim} {s : CState} (h : GInv P items s)
    (hlow : ∀ p ∈ items, ¬ LowStrip P.rot p.2) : totalArea (s.placed.map Placed.rect) ≤ P.W * P.L := by
  apply totalArea_le
  · exact List.pairwise_map.2 (h.disj hlow)
  · intro r hr
    obtain ⟨p, hp, rfl⟩ := List.mem_map.1 hr
    exact h.inb p hp

/-- nothing is added to a full container -/
theorem full_stays {P : CParams} {items : PyDict String Dim} (hpos : PosDims items)
    (hlow : ∀ p ∈ items, ¬ LowStrip P.rot p.2) {s r : CState} (hI : I0 P s) (hG : GInv P items s)
    (hfull : P.W * P.L ≤ totalArea (s.placed.map Placed.rect)) {fuel : Nat} (hf : measure s < fuel)
    (h : constructLoop P fuel s = .ok r) : r.placed = s.placed ∧ r.items.Perm s.items ∧ r.items.Sublist items := by
  obtain ⟨n, r', h1, h2, _⟩ := constructLoop_run P fuel s hI hf
  rw [h] at h1
  injection h1 with h1
  subst h1
  have hG' := Run_GInv hG h2
  have hle := placed_area_le hG' hlow
  obtain ⟨ext, hext⟩ := constructLoop_placed P fuel s r h
  have hnil : ext = [] := by
    cases ext with
    | nil => rfl
    | cons p ps =>
      exfalso
      have hp : (p.id, p.dim) ∈ items := hG'.perm.mem_iff.1 (List.mem_append_left _
        (List.mem_map.2 ⟨p, by rw [← hext]; simp, rfl⟩))
      have hd := hpos _ hp
      have ha : 0 < area p.rect := by
        unfold area Placed.rect
        simp only
        split
        · exact Nat.mul_pos hd.2 hd.1
        · exact Nat.mul_pos hd.1 hd.2
      rw [← hext] at hle
      simp only [totalArea, List.map_append, List.map_cons, List.sum_append, List.sum_cons] at hle hfull
      omega
  rw [hnil, List.append_nil] at hext
  refine ⟨hext.symm, ?_, hG'.sub⟩
  have := hG'.perm.trans hG.perm.symm
  rw [← hext] at this
  exact (List.perm_append_left_iff _).1 this

theorem sublist_perm_eq {items a b : PyDict String Dim} (hnd : (PyDict.keys items).Nodup)
    (ha : a.Sublist items) (hb : b.Sublist items) (h : a.Perm b) : a = b := by
  have hn : items.Nodup := List.Nodup.of_map _ hnd
  induction items generalizing a b with
  | nil => rw [List.sublist_nil.1 ha, List.sublist_nil.1 hb]
  | cons x xs ih =>
    have hxs : (PyDict.keys xs).Nodup := by
      unfold PyDict.keys at hnd ⊢
      rw [List.map_cons] at hnd
      exact (List.nodup_cons.1 hnd).2
    have hx : x ∉ xs := (List.nodup_cons.1 hn).1
    have hn' := (List.nodup_cons.1 hn).2
    cases ha with
    | cons _ ha =>
      cases hb with
      | cons _ hb => exact ih hxs ha hb h hn'
      | cons_cons _ hb => exact absurd (ha.subset (h.mem_iff.2 (by simp))) hx
    | cons_cons _ ha =>
      cases hb with
      | cons _ hb => exact absurd (hb.subset (h.mem_iff.1 (by simp))) hx
      | cons_cons _ hb => rw [ih hxs ha hb ((List.perm_cons _).1 h) hn']

theorem loop_agree {P Q : CParams} (hPQ : Q = { P with ar := Q.ar }) (hW : SameRatio P.ar Q.ar P.W)
    (hL : SameRatio P.ar Q.ar P.L) {items : PyDict String Dim} (hg : GoodItems items)
    (hmode : P.strip = true ∨ ((∀ p ∈ items, ¬ LowStrip P.rot p.2) ∧ Honest P items.length ∧ Honest Q items.length)) :
    ∀ (fuel : Nat) (s t : CState), SameBut s t → I0 P s → I0 Q t → GInv P items s → GInv Q items t →
      measure s < fuel → ∀ r q, constructLoop P fuel s = .ok r → constructLoop Q fuel t = .ok q →
      r.placed = q.placed ∧ r.items = q.items ∧ (P.strip = true → r.grid = q.grid)
  | 0, _, _, _, _, _, _, _, h, _, _, _, _ => by omega
  | fuel + 1, s, t, hst, hIs, hIt, hGs, hGt, hm, r, q, hr, hq => by
    have e1 : Q.rot = P.rot := by rw [hPQ]
    have e2 : Q.strip = P.strip := by rw [hPQ]
    have e3 : Q.W = P.W := by rw [hPQ]
    have e4 : Q.L = P.L := by rw [hPQ]
    have t1 : t.cur = s.cur := by rw [hst]
    have t2 : t.ids = s.ids := by rw [hst]
    have t3 : t.placed = s.placed := by rw [hst]
    have t4 : t.items = s.items := by rw [hst]
    have t5 : t.grid = s.grid := by rw [hst]
    have hmt : measure t = measure s := by rw [hst]; rfl
    have hlen : s.placed.length ≤ items.length := by
      have := hGs.perm.length_eq
      simp only [List.length_append, List.length_map] at this
      omega
    cases hc : s.cur with
    | none =>
      unfold constructLoop at hr hq
      rw [hc] at hr
      rw [t1, hc] at hq
      cases hr; cases hq
      exact ⟨t3.symm, t4.symm, fun _ => t5.symm⟩
    | some pt =>
      by_cases hids : s.ids = []
      · unfold constructLoop at hr hq
        rw [hc] at hr
        rw [t1, hc] at hq
        simp only [hids, t2, true_or, if_true] at hr hq
        cases hr; cases hq
        exact ⟨t3.symm, t4.symm, fun _ => t5.symm⟩
      · by_cases hs1 : s.obj ≥ 1
        · -- P stops: the container is full
          have hstrip : P.strip = false := by
            cases hp : P.strip with
            | false => rfl
            | true =>
              have := hGs.obj
              rw [if_pos hp] at this
              rw [this] at hs1
              exact absurd hs1 (by decide)
          obtain ⟨hlow, hoP, _⟩ := hmode.resolve_left (by simp [hstrip])
          have hr' : r = s := by
            unfold constructLoop at hr
            rw [hc] at hr
            simp only [hs1, or_true, if_true] at hr
            cases hr; rfl
          have hfull : P.W * P.L ≤ totalArea (s.placed.map Placed.rect) := by
            refine hoP _ hlen ?_
            have := hGs.obj
            rw [if_neg (by simp [hstrip])] at this
            rw [← this]; exact hs1
          obtain ⟨a1, a2, a3⟩ := full_stays (P := Q) hg.2 (by rw [e1]; exact hlow) hIt hGt
            (by rw [e3, e4, t3]; exact hfull) (by omega) hq
          rw [hr']
          refine ⟨by rw [a1, t3], ?_, fun h => by rw [hstrip] at h; cases h⟩
          rw [t4] at a2
          exact sublist_perm_eq hg.1 hGs.sub a3 a2.symm
        · by_cases ht1 : t.obj ≥ 1
          · have hstrip : Q.strip = false := by
              cases hp : Q.strip with
              | false => rfl
              | true =>
                have := hGt.obj
                rw [if_pos hp] at this
                rw [this] at ht1
                exact absurd ht1 (by decide)
            have hstripP : P.strip = false := by rw [← e2]; exact hstrip
            obtain ⟨hlow, _, hoQ⟩ := hmode.resolve_left (by simp [hstripP])
            have hq' : q = t := by
              unfold constructLoop at hq
              rw [t1, hc] at hq
              simp only [ht1, or_true, if_true] at hq
              cases hq; rfl
            have hfull : Q.W * Q.L ≤ totalArea (t.placed.map Placed.rect) := by
              refine hoQ _ (by rw [t3]; exact hlen) ?_
              have := hGt.obj
              rw [if_neg (by simp [hstrip])] at this
              rw [← this]; exact ht1
            obtain ⟨a1, a2, a3⟩ := full_stays (P := P) hg.2 hlow hIs hGs
              (by rw [← e3, ← e4, ← t3]; exact hfull) (by omega) hr
            rw [hq']
            refine ⟨by rw [a1, t3], ?_, fun h => by rw [hstripP] at h; cases h⟩
            rw [← t4] at a2
            exact sublist_perm_eq hg.1 a3 hGt.sub a2
          · obtain ⟨s1, b1, b2, b3, b4⟩ := constructStep_tot hIs hc
            obtain ⟨u1, c1, c2⟩ := constructStep_agree hPQ hW hL hst b1
            obtain ⟨u1', d1, d2, d3, d4⟩ := constructStep_tot hIt (t1.trans hc)
            rw [c1] at d1
            injection d1 with d1
            subst d1
            unfold constructLoop at hr hq
            rw [hc] at hr
            rw [t1, hc] at hq
            simp only [hids, hs1, ht1, t2, or_self, if_false, bind, Except.bind, b1, c1] at hr hq
            exact loop_agree hPQ hW hL hg hmode fuel s1 u1 c2 b3 d3 (StepRel_GInv hIs hc hGs b2)
              (StepRel_GInv hIt (t1.trans hc) hGt d2) (by omega) r q hr hq

theorem constructFinish_ok {P : CParams} {s : CState} {r : CResult} (h : constructFinish P s = .ok r) :
    r.solution = s.placed.map (fun p => (p.id, p.rect)) ∧ r.items = s.items := by
  unfold constructFinish at h
  simp only [bind, Except.bind, pure, Except.pure] at h
  split at h
  · cases h
  · injection h with h; subst h; exact ⟨rfl, rfl⟩

/-- one container: the same packing and the same items left -/
theorem construct_agree {P Q : CParams} (hPQ : Q = { P with ar := Q.ar }) (hW : SameRatio P.ar Q.ar P.W)
    (hL : SameRatio P.ar Q.ar P.L) {items : PyDict String Dim} (hg : ValidSizes items)
    (hPW : 0 < P.W) (hPL : 0 < P.L)
    (hmode : P.strip = true ∨ ((∀ p ∈ items, ¬ LowStrip P.rot p.2) ∧ Honest P items.length ∧ Honest Q items.length))
    {r q : CResult} (hr : construct P items = .ok r) (hq : construct Q items = .ok q) :
    r.solution = q.solution ∧ r.items = q.items := by
  have e2 : Q.strip = P.strip := by rw [hPQ]
  have e3 : Q.W = P.W := by rw [hPQ]
  have e4 : Q.L = P.L := by rw [hPQ]
  have hin : constructInit Q items = constructInit P items := by
    unfold constructInit; rw [e3, e4]
  obtain ⟨n, s, h1, h2, h3, h4, h5⟩ := construct_run (P := P) hg hPW hPL
  obtain ⟨n', t, k1, k2, k3, k4, k5⟩ := construct_run (P := Q) hg (e3 ▸ hPW) (e4 ▸ hPL)
  have hm := measure_init P items
  obtain ⟨a1, a2, a3⟩ := loop_agree hPQ hW hL hg hmode _ _ _ (show SameBut (constructInit P items) (constructInit Q items) by
      rw [hin]; rfl) (I0_init hg hPW hPL) (I0_init hg (e3 ▸ hPW) (e4 ▸ hPL)) (GInv_init P items) (GInv_init Q items)
    (by omega) s t h1 k1
  unfold construct at hr hq
  simp only [bind, Except.bind, h1, k1] at hr hq
  obtain ⟨f1, f2⟩ := constructFinish_ok hr
  obtain ⟨f3, f4⟩ := constructFinish_ok hq
  rw [f1, f2, f3, f4, a1, a2]
  exact ⟨rfl, rfl⟩

end HP
