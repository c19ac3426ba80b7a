import Verif.Proofs.Points
import Verif.Proofs.Dict
/-
The construction loop as a relation (`StepRel`), totality of one round, the measure that
bounds the number of rounds, and the resulting run (`construct_run`).
-/
namespace HP

/-- effective width / length of an item of size `d`, rotated or not -/
def effW (d : Dim) (r : Bool) : Nat := if r then d.l else d.w
/-- see `effW` -/
def effL (d : Dim) (r : Bool) : Nat := if r then d.w else d.l

/-- the item passes the fitting test at `pt` in some allowed orientation -/
def FitsChk (P : CParams) (g : Grid) (pt : Pt) (d : Dim) : Prop :=
  CheckSpec g P.W P.L pt.x pt.y d.w d.l ∨ (P.rot = true ∧ CheckSpec g P.W P.L pt.x pt.y d.l d.w)

/-- all sizes in the pool are positive -/
def PosDims (items : PyDict String Dim) : Prop := ∀ p ∈ items, 0 < p.2.w ∧ 0 < p.2.l

theorem findFit_spec (P : CParams) {g : Grid} (h : WF g P.W P.L)
    {items : PyDict String Dim} (hpos : PosDims items) (pt : Pt) :
    ∀ ids : List String, (∀ id ∈ ids, ∃ d, PyDict.find? items id = some d) →
    ∃ r, findFit P.rot P.W P.L pt.x pt.y g items ids = .ok r ∧
      match r with
      | none => ∀ id ∈ ids, ∀ d, PyDict.find? items id = some d → ¬ FitsChk P g pt d
      | some (id, d, ro) =>
        PyDict.find? items id = some d ∧
        CheckSpec g P.W P.L pt.x pt.y (effW d ro) (effL d ro) ∧
        (ro = true → P.rot = true ∧ ¬ CheckSpec g P.W P.L pt.x pt.y d.w d.l) ∧
        ∃ pre post, ids = pre ++ id :: post ∧
          ∀ id' ∈ pre, ∀ d', PyDict.find? items id' = some d' → ¬ FitsChk P g pt d'
  | [], _ => ⟨none, rfl, by simp⟩
  | id :: ids, hids => by
    obtain ⟨d, hd⟩ := hids id (by simp)
    have hdpos := hpos _ (PyDict.find?_mem hd)
    obtain ⟨b1, hb1, hi1⟩ := checkFitting_eq h (Xo := pt.x) (Yo := pt.y) hdpos.1 hdpos.2
    obtain ⟨b2, hb2, hi2⟩ := checkFitting_eq h (Xo := pt.x) (Yo := pt.y) hdpos.2 hdpos.1
    obtain ⟨r, hr, hspec⟩ := findFit_spec P h hpos pt ids (fun i hi => hids i (by simp [hi]))
    have hrec : ¬ FitsChk P g pt d → ∃ r', findFit P.rot P.W P.L pt.x pt.y g items ids = .ok r' ∧
      match r' with
      | none => ∀ id' ∈ id :: ids, ∀ d, PyDict.find? items id' = some d → ¬ FitsChk P g pt d
      | some (id1, d, ro) =>
        PyDict.find? items id1 = some d ∧
        CheckSpec g P.W P.L pt.x pt.y (effW d ro) (effL d ro) ∧
        (ro = true → P.rot = true ∧ ¬ CheckSpec g P.W P.L pt.x pt.y d.w d.l) ∧
        ∃ pre post, id :: ids = pre ++ id1 :: post ∧
          ∀ id' ∈ pre, ∀ d', PyDict.find? items id' = some d' → ¬ FitsChk P g pt d' := by
      intro hnf
      refine ⟨r, hr, ?_⟩
      match r, hspec with
      | none, hspec =>
        intro id' hid' d' hd'
        rcases List.mem_cons.1 hid' with rfl | hid'
        · rw [hd] at hd'; injection hd' with hd'; subst hd'; exact hnf
        · exact hspec id' hid' d' hd'
      | some (id1, d1, ro), hspec =>
        obtain ⟨h1, h2, h3, pre, post, h4, h5⟩ := hspec
        refine ⟨h1, h2, h3, id :: pre, post, by rw [h4]; rfl, ?_⟩
        intro id' hid' d' hd'
        rcases List.mem_cons.1 hid' with rfl | hid'
        · rw [hd] at hd'; injection hd' with hd'; subst hd'; exact hnf
        · exact h5 id' hid' d' hd'
    unfold findFit
    simp only [bind, Except.bind]
    rw [PyDict.getE_of_find? hd]; simp only
    rw [hb1]; simp only
    cases b1 with
    | true =>
      refine ⟨some (id, d, false), rfl, hd, hi1.1 rfl, by simp, [], ids, rfl, by simp⟩
    | false =>
      have hn1 : ¬ CheckSpec g P.W P.L pt.x pt.y d.w d.l := fun hc => by
        have := hi1.2 hc; simp at this
      simp only [Bool.false_eq_true, if_false]
      by_cases hrot : P.rot = true
      · rw [if_pos hrot, hb2]; simp only
        cases b2 with
        | true =>
          exact ⟨some (id, d, true), rfl, hd, hi2.1 rfl, fun _ => ⟨hrot, hn1⟩, [], ids, rfl,
            by simp⟩
        | false =>
          exact hrec (by
            rintro (hc | ⟨_, hc⟩)
            · exact hn1 hc
            · have := hi2.2 hc; simp at this)
      · rw [if_neg hrot]
        exact hrec (by
          rintro (hc | ⟨hc, _⟩)
          · exact hn1 hc
          · exact hrot hc)

/-! ### Pools -/

/-- number of pending points -/
def Pools.size (p : Pools) : Nat :=
  p.A.length + p.B.length + p.C.length + p.D.length + p.A_.length + p.B_.length +
  p.A__.length + p.B__.length + p.E.length + p.F.length

theorem Pools.get_set_self (p : Pools) (c : PClass) (v) : (p.set c v).get c = v := by
  cases c <;> rfl

theorem Pools.get_set_ne (p : Pools) {c c' : PClass} (v) (h : c' ≠ c) :
    (p.set c v).get c' = p.get c' := by
  cases c <;> cases c' <;> first | rfl | exact absurd rfl h

theorem Pools.size_set (p : Pools) (c : PClass) (v) :
    (p.set c v).size + (p.get c).length = p.size + v.length := by
  cases c <;> simp [Pools.set, Pools.get, Pools.size] <;> omega

theorem Pools.size_pushAll (gen : GenPts) : ∀ p : Pools, (p.pushAll gen).size = p.size + gen.length := by
  induction gen with
  | nil => intro p; rfl
  | cons q gen ih =>
    intro p
    obtain ⟨c, pt⟩ := q
    unfold Pools.pushAll
    rw [ih]
    have := Pools.size_set p c (p.get c ++ [pt])
    simp at this ⊢
    omega

/-- the points of class `c` in the generated list, in order -/
theorem Pools.get_pushAll (gen : GenPts) (c : PClass) :
    ∀ p : Pools, (p.pushAll gen).get c = p.get c ++ (gen.filter (·.1 = c)).map (·.2) := by
  induction gen with
  | nil => intro p; simp [Pools.pushAll]
  | cons q gen ih =>
    intro p
    obtain ⟨c', pt⟩ := q
    unfold Pools.pushAll
    rw [ih]
    by_cases h : c' = c
    · subst h
      rw [Pools.get_set_self]
      simp
    · rw [Pools.get_set_ne _ _ (Ne.symm h)]
      simp [h]

theorem mem_pushAll {gen : GenPts} {p : Pools} {c : PClass} {pt : Pt}
    (h : pt ∈ (p.pushAll gen).get c) : pt ∈ p.get c ∨ (c, pt) ∈ gen := by
  rw [Pools.get_pushAll] at h
  rcases List.mem_append.1 h with h | h
  · exact Or.inl h
  · right
    simp only [List.mem_map, List.mem_filter, decide_eq_true_eq] at h
    obtain ⟨⟨c', pt'⟩, ⟨h1, h2⟩, h3⟩ := h
    simp only at h2 h3; subst h2; subst h3; exact h1

theorem mem_pushAll_of {gen : GenPts} {p : Pools} {c : PClass} {pt : Pt}
    (h : pt ∈ p.get c ∨ (c, pt) ∈ gen) : pt ∈ (p.pushAll gen).get c := by
  rw [Pools.get_pushAll]
  rcases h with h | h
  · exact List.mem_append_left _ h
  · apply List.mem_append_right
    simp only [List.mem_map, List.mem_filter, decide_eq_true_eq]
    exact ⟨(c, pt), ⟨h, rfl⟩, rfl⟩

/-- `_get_current_point`: either every class of the strategy is empty and nothing changes,
or the head of the first non-empty class of the strategy is taken. -/
theorem getCurrentPoint_spec (strategy : List PClass) (p : Pools) :
    (getCurrentPoint p strategy = (none, p) ∧ ∀ c ∈ strategy, p.get c = []) ∨
    ∃ pre c post pt rest, strategy = pre ++ c :: post ∧ (∀ c' ∈ pre, p.get c' = []) ∧
      p.get c = pt :: rest ∧ getCurrentPoint p strategy = (some pt, p.set c rest) := by
  induction strategy with
  | nil => exact Or.inl ⟨rfl, by simp⟩
  | cons c cs ih =>
    unfold getCurrentPoint
    cases hc : p.get c with
    | cons pt rest =>
      exact Or.inr ⟨[], c, cs, pt, rest, rfl, by simp, hc, by simp⟩
    | nil =>
      rcases ih with ⟨h1, h2⟩ | ⟨pre, c', post, pt, rest, h1, h2, h3, h4⟩
      · left
        refine ⟨by simpa using h1, ?_⟩
        intro c' hc'
        rcases List.mem_cons.1 hc' with rfl | hc'
        · exact hc
        · exact h2 c' hc'
      · right
        refine ⟨c :: pre, c', post, pt, rest, by rw [h1]; rfl, ?_, h3, by simpa using h4⟩
        intro c2 hc2
        rcases List.mem_cons.1 hc2 with rfl | hc2
        · exact hc
        · exact h2 c2 hc2

/-! ### One round -/

/-- the state after the point of this round was handled, before the next point is taken -/
def afterPt (P : CParams) (s : CState) (pt : Pt) (s1 : CState) : Prop :=
  (s1 = s ∧ ∀ p ∈ s.items, ¬ FitsChk P s.grid pt p.2) ∨
  ∃ (id : String) (d : Dim) (ro : Bool) (g : Grid) (gen : GenPts) (pre post : List String),
    PyDict.find? s.items id = some d ∧
    s.ids = pre ++ id :: post ∧
    (∀ id' ∈ pre, ∀ d', PyDict.find? s.items id' = some d' → ¬ FitsChk P s.grid pt d') ∧
    CheckSpec s.grid P.W P.L pt.x pt.y (effW d ro) (effL d ro) ∧
    (ro = true → P.rot = true ∧ ¬ CheckSpec s.grid P.W P.L pt.x pt.y d.w d.l) ∧
    fillItem s.grid pt.x pt.y (effW d ro) (effL d ro) = .ok g ∧
    generatePoints P.ar g P.W P.L pt.x pt.y (effW d ro) (effL d ro) = .ok gen ∧
    s1 = { s with
      grid := g, ids := s.ids.erase id, items := PyDict.erase s.items id,
      obj := if P.strip then s.obj
        else P.ar.add s.obj (P.ar.div (effW d ro * effL d ro) (P.W * P.L)),
      placed := s.placed ++ [⟨id, d, pt.x, pt.y, ro⟩],
      pools := s.pools.pushAll gen }

/-- one round of the loop as a relation -/
def StepRel (P : CParams) (s : CState) (pt : Pt) (s' : CState) : Prop :=
  ∃ s1, afterPt P s pt s1 ∧
    s' = { s1 with cur := (getCurrentPoint s1.pools P.strategy).1,
                   pools := (getCurrentPoint s1.pools P.strategy).2 }

/-- invariant needed for totality -/
structure I0 (P : CParams) (s : CState) : Prop where
  wf : WF s.grid P.W P.L
  ids : s.ids = PyDict.keys s.items
  nodup : (PyDict.keys s.items).Nodup
  pos : PosDims s.items
  supPools : ∀ c, ∀ pt ∈ s.pools.get c, SupPt s.grid P.W P.L pt
  supCur : ∀ pt, s.cur = some pt → SupPt s.grid P.W P.L pt

theorem SupPt.mono {g g' : Grid} {W L : Nat} {p : Pt}
    (hg : ∀ y x, cell g y x ≠ 0 → cell g' y x ≠ 0) (h : SupPt g W L p) : SupPt g' W L p := by
  obtain ⟨h1, h2, h3⟩ := h
  refine ⟨h1, h2, ?_⟩
  rcases h3 with h | h | h | h
  · exact Or.inl h
  · exact Or.inr (Or.inl h)
  · exact Or.inr (Or.inr (Or.inl (hg _ _ h)))
  · exact Or.inr (Or.inr (Or.inr (hg _ _ h)))

/-- rounds still possible: pending points (with the current one) plus the points the
remaining items can open -/
def measure (s : CState) : Nat :=
  s.pools.size + (if s.cur.isSome then 1 else 0) +
    (s.items.map (fun p => p.2.w + p.2.l + 5)).sum

theorem sum_perm_eq {l1 l2 : List Nat} (h : l1.Perm l2) : l1.sum = l2.sum := by
  induction h with
  | nil => rfl
  | cons x _ ih => simp [ih]
  | swap x y l => simp; omega
  | trans _ _ ih1 ih2 => exact ih1.trans ih2

theorem afterPt_tot {P : CParams} {s : CState} (hI : I0 P s) {pt : Pt}
    (hsup : SupPt s.grid P.W P.L pt) :
    ∃ s1, handlePoint P s pt = .ok s1 ∧ afterPt P s pt s1 ∧ I0 P { s1 with cur := none } ∧
      s1.pools.size + (s1.items.map (fun p => p.2.w + p.2.l + 5)).sum ≤
        s.pools.size + (s.items.map (fun p => p.2.w + p.2.l + 5)).sum := by
  obtain ⟨r, hr, hspec⟩ := findFit_spec P hI.wf hI.pos pt s.ids (by
    intro id hid; rw [hI.ids] at hid; exact PyDict.find?_isSome_of_mem_keys hid)
  match r, hr, hspec with
  | none, hr, hspec =>
    refine ⟨s, ?_, Or.inl ⟨rfl, ?_⟩, ?_, Nat.le_refl _⟩
    · unfold handlePoint
      simp only [bind, Except.bind]
      rw [hr]; rfl
    · intro p hp
      obtain ⟨id, d⟩ := p
      exact hspec id (by rw [hI.ids]; exact List.mem_map.2 ⟨_, hp, rfl⟩) d
        (PyDict.find?_of_mem hI.nodup hp)
    · exact ⟨hI.wf, hI.ids, hI.nodup, hI.pos, hI.supPools, by simp⟩
  | some (id, d, ro), hr, hspec =>
    obtain ⟨hd, hchk, hro, pre, post, hids, hpre⟩ := hspec
    have hdp := hI.pos _ (PyDict.find?_mem hd)
    have hw : 0 < effW d ro := by unfold effW; split; exact hdp.2; exact hdp.1
    have hl : 0 < effL d ro := by unfold effL; split; exact hdp.1; exact hdp.2
    obtain ⟨g, hg, hgwf, hgc⟩ := fillItem_eq hI.wf hw hl hchk.1 hchk.2.1
    have hfil : Filled g pt.x pt.y (effW d ro) (effL d ro) := by
      intro j i h1 h2 h3 h4
      rw [hgc, if_pos ⟨⟨h1, h2⟩, h3, h4⟩]
      exact markOf_ne_zero _ _ _ _ _ _
    have hmono : ∀ y x, cell s.grid y x ≠ 0 → cell g y x ≠ 0 := by
      intro y x hc
      rw [hgc]; split
      · exact markOf_ne_zero _ _ _ _ _ _
      · exact hc
    obtain ⟨gen, hgen, hgl, hgs, _, _, _⟩ := generatePoints_spec P.ar hgwf hw hl hchk.1 hchk.2.1 hfil
    have hmem : id ∈ s.ids := by rw [hids]; simp
    have hperm := PyDict.perm_erase hd
    refine ⟨_, ?_, Or.inr ⟨id, d, ro, g, gen, pre, post, hd, hids, hpre, hchk, hro, hg, hgen, rfl⟩,
      ?_, ?_⟩
    · unfold handlePoint
      simp only [bind, Except.bind]
      rw [hr]; simp only
      unfold effW effL at hg hgen
      rw [hg]; simp only
      rw [show pyRemove s.ids id = .ok (s.ids.erase id) by unfold pyRemove; rw [if_pos hmem]]
      simp only
      rw [PyDict.delE_of_find? hd]; simp only
      rw [hgen]; rfl
    · refine ⟨hgwf, ?_, ?_, ?_, ?_, by simp⟩
      · simp only; rw [PyDict.keys_erase, hI.ids]
      · simp only; rw [PyDict.keys_erase]; exact hI.nodup.erase _
      · intro p hp; exact hI.pos p (PyDict.erase_subset _ _ p hp)
      · intro c q hq
        rcases mem_pushAll hq with h | h
        · exact (hI.supPools c q h).mono hmono
        · exact hgs _ h
    · simp only
      rw [Pools.size_pushAll]
      have h1 := sum_perm_eq (hperm.map (fun p => p.2.w + p.2.l + 5))
      rw [h1]
      simp only [List.map_cons, List.sum_cons]
      have : effW d ro + effL d ro = d.w + d.l := by
        unfold effW effL; cases ro <;> simp; omega
      omega

theorem constructStep_tot {P : CParams} {s : CState} (hI : I0 P s) {pt : Pt}
    (hcur : s.cur = some pt) :
    ∃ s', constructStep P s pt = .ok s' ∧ StepRel P s pt s' ∧ I0 P s' ∧ measure s' < measure s := by
  obtain ⟨s1, hrun, haft, hI1, hm⟩ := afterPt_tot hI (hI.supCur pt hcur)
  refine ⟨{ s1 with cur := (getCurrentPoint s1.pools P.strategy).1,
                    pools := (getCurrentPoint s1.pools P.strategy).2 }, ?_, ⟨s1, haft, rfl⟩, ?_, ?_⟩
  · unfold constructStep
    simp only [bind, Except.bind]
    rw [hrun]; rfl
  · rcases getCurrentPoint_spec P.strategy s1.pools with ⟨h1, _⟩ | ⟨pre, c, post, q, rest, h1, h2, h3, h4⟩
    · refine ⟨hI1.wf, hI1.ids, hI1.nodup, hI1.pos, ?_, ?_⟩
      · rw [h1]; exact hI1.supPools
      · rw [h1]; simp
    · refine ⟨hI1.wf, hI1.ids, hI1.nodup, hI1.pos, ?_, ?_⟩
      · rw [h4]
        intro c' q' hq'
        by_cases hc : c' = c
        · subst hc
          simp only at hq'
          rw [Pools.get_set_self] at hq'
          exact hI1.supPools c' q' (by simp only; rw [h3]; exact List.mem_cons_of_mem _ hq')
        · simp only at hq'
          rw [Pools.get_set_ne _ _ hc] at hq'
          exact hI1.supPools c' q' hq'
      · rw [h4]
        intro q' hq'
        injection hq' with hq'; subst hq'
        exact hI1.supPools c q (by simp only; rw [h3]; simp)
  · unfold measure
    simp only [hcur, Option.isSome_some, if_true]
    rcases getCurrentPoint_spec P.strategy s1.pools with ⟨h1, _⟩ | ⟨pre, c, post, q, rest, h1, h2, h3, h4⟩
    · rw [h1]; simp; omega
    · rw [h4]
      have := Pools.size_set s1.pools c rest
      rw [h3] at this
      simp at this ⊢
      omega

/-! ### The run -/

/-- the loop condition of `while True` holds: another round is made -/
def Active (s : CState) (pt : Pt) : Prop := s.cur = some pt ∧ s.ids ≠ [] ∧ ¬ s.obj ≥ 1

/-- the loop ends in `s` -/
def Done (s : CState) : Prop := s.cur = none ∨ s.ids = [] ∨ s.obj ≥ 1

/-- states reachable by rounds of the loop, with the number of rounds -/
inductive Run (P : CParams) (s0 : CState) : Nat → CState → Prop where
  | refl : Run P s0 0 s0
  | step {n s pt s'} : Run P s0 n s → I0 P s → Active s pt → StepRel P s pt s' → I0 P s' →
      Run P s0 (n + 1) s'

theorem Run.cons {P : CParams} {s0 s1 s : CState} {pt : Pt} (h0 : I0 P s0) (ha : Active s0 pt)
    (hs : StepRel P s0 pt s1) (h1 : I0 P s1) {n : Nat} (h : Run P s1 n s) : Run P s0 (n + 1) s := by
  induction h with
  | refl => exact .step .refl h0 ha hs h1
  | step _ hI hA hS hI' ih => exact .step ih hI hA hS hI'

theorem constructLoop_run (P : CParams) : ∀ fuel s, I0 P s → measure s < fuel →
    ∃ n s', constructLoop P fuel s = .ok s' ∧ Run P s n s' ∧ I0 P s' ∧ Done s' ∧ n ≤ measure s
  | 0, _, _, h => by omega
  | fuel + 1, s, hI, hm => by
    unfold constructLoop
    cases hcur : s.cur with
    | none => exact ⟨0, s, rfl, .refl, hI, Or.inl hcur, by omega⟩
    | some pt =>
      simp only
      by_cases hd : s.ids = [] ∨ s.obj ≥ 1
      · rw [if_pos hd]
        exact ⟨0, s, rfl, .refl, hI, Or.inr hd, by omega⟩
      · rw [if_neg hd]
        obtain ⟨s1, e1, r1, i1, m1⟩ := constructStep_tot hI hcur
        obtain ⟨n, s', e2, r2, i2, d2, hn⟩ := constructLoop_run P fuel s1 i1 (by omega)
        refine ⟨n + 1, s', ?_, ?_, i2, d2, by omega⟩
        · simp only [bind, Except.bind]; rw [e1]; exact e2
        · exact Run.cons hI ⟨hcur, fun h => hd (Or.inl h), fun h => hd (Or.inr h)⟩ r1 i1 r2

/-- items a construction may be called with: different ids, positive sizes -/
def GoodItems (items : PyDict String Dim) : Prop := (PyDict.keys items).Nodup ∧ PosDims items

theorem I0_init {P : CParams} {items : PyDict String Dim} (h : GoodItems items) (hW : 0 < P.W)
    (hL : 0 < P.L) : I0 P (constructInit P items) where
  wf := WF_empty _ _
  ids := rfl
  nodup := h.1
  pos := h.2
  supPools := by intro c pt hp; cases c <;> simp [constructInit, Pools.get] at hp
  supCur := by
    intro pt hp
    injection hp with hp; subst hp
    exact ⟨hW, hL, Or.inl rfl⟩

theorem measure_init (P : CParams) (items : PyDict String Dim) :
    measure (constructInit P items) + 1 = constructFuel items := by
  unfold measure constructInit constructFuel Pools.size; simp; omega

/-- the loop of `_construct_solution` ends properly on every valid pool -/
theorem construct_run {P : CParams} {items : PyDict String Dim} (h : GoodItems items)
    (hW : 0 < P.W) (hL : 0 < P.L) :
    ∃ n s, constructLoop P (constructFuel items) (constructInit P items) = .ok s ∧
      Run P (constructInit P items) n s ∧ I0 P s ∧ Done s ∧ n < constructFuel items := by
  have hm := measure_init P items
  obtain ⟨n, s, h1, h2, h3, h4, h5⟩ := constructLoop_run P (constructFuel items)
    (constructInit P items) (I0_init h hW hL) (by omega)
  exact ⟨n, s, h1, h2, h3, h4, by omega⟩

theorem topRow_pos (g : Grid) : ∀ n, 0 < topRow g n
  | 0 => by simp [topRow]
  | n + 1 => by unfold topRow; split; omega; exact topRow_pos g n

/-- `_construct_solution` always returns -/
theorem construct_total {P : CParams} {items : PyDict String Dim} (h : GoodItems items)
    (hW : 0 < P.W) (hL : 0 < P.L) :
    ∃ n s, Run P (constructInit P items) n s ∧ I0 P s ∧ Done s ∧ n < constructFuel items ∧
      construct P items = .ok ⟨s.items,
        if P.strip then P.ar.div ((s.placed.map (fun p => p.dim.w * p.dim.l)).sum)
          (P.W * topRow s.grid (P.L - 1)) else s.obj,
        s.placed.map (fun p => (p.id, p.rect))⟩ := by
  obtain ⟨n, s, h1, h2, h3, h4, h5⟩ := construct_run h hW hL
  refine ⟨n, s, h2, h3, h4, h5, ?_⟩
  unfold construct constructFinish
  simp only [bind, Except.bind]
  rw [h1]; simp only
  cases hs : P.strip with
  | false => rfl
  | true =>
    have : ¬ P.W * topRow s.grid (P.L - 1) = 0 := by
      have h6 := topRow_pos s.grid (P.L - 1)
      have := Nat.mul_pos hW h6
      omega
    simp only [if_true]
    rw [if_neg this]; rfl

end HP
