import Verif.Proofs.Top
import Verif.Proofs.Order
/-
Strip packing with a lower container: the run with height `L'` follows the run with height `L`
as long as nothing is placed above `L'`.
-/
namespace HP
open Spec

/-- the two grids have the same cells (rows outside a grid count as free) -/
def SameCells (g g' : Grid) : Prop := ∀ y x, cell g' y x = cell g y x

theorem SameCells.row {g g' : Grid} {W L L' : Nat} (h : WF g W L) (h' : WF g' W L') (hL : L' ≤ L)
    (hs : SameCells g g') {y : Nat} (hy : y < L') : g'[y]? = g[y]? := by
  have e1 : y < g.length := by rw [h.1]; omega
  have e2 : y < g'.length := by rw [h'.1]; omega
  rw [List.getElem?_eq_getElem e1, List.getElem?_eq_getElem e2]
  have l1 := h.2 _ (List.getElem_mem e1)
  have l2 := h'.2 _ (List.getElem_mem e2)
  congr 1
  apply List.ext_getElem (by rw [l1, l2])
  intro x hx1 hx2
  have := hs y x
  unfold cell at this
  rw [List.getElem?_eq_getElem e1, List.getElem?_eq_getElem e2] at this
  simpa [hx1, hx2] using this

theorem SameCells.rd {g g' : Grid} {W L L' : Nat} (h : WF g W L) (h' : WF g' W L') (hL : L' ≤ L)
    (hs : SameCells g g') {y : Int} (hy0 : 0 ≤ y) (hy : y < L') (x : Int) :
    rd g' y x = rd g y x := by
  obtain ⟨k, rfl⟩ := Int.eq_ofNat_of_zero_le hy0
  have hk : k < L' := by omega
  have := hs.row h h' hL hk
  unfold HP.rd
  rw [pyGet_nat g k (by rw [h.1]; omega), pyGet_nat g' k (by rw [h'.1]; omega)]
  rw [List.getElem?_eq_getElem (by rw [h'.1]; omega), List.getElem?_eq_getElem (by rw [h.1]; omega)] at this
  injection this with this
  rw [this]

theorem checkSpec_height {g g' : Grid} {W L L' Xo Yo w l : Nat} (hL : L' ≤ L) (hs : SameCells g g') :
    CheckSpec g' W L' Xo Yo w l ↔ CheckSpec g W L Xo Yo w l ∧ Yo + l ≤ L' := by
  unfold CheckSpec
  simp only [hs _ _]
  constructor
  · rintro ⟨a, b, c⟩; exact ⟨⟨a, by omega, c⟩, b⟩
  · rintro ⟨⟨a, b, c⟩, d⟩; exact ⟨a, d, c⟩

theorem getE_mem {d : PyDict String Dim} {k : String} {a : Dim} (h : PyDict.getE d k = .ok a) : (k, a) ∈ d := by
  cases hf : PyDict.find? d k with
  | none => unfold PyDict.getE at h; rw [hf] at h; cases h
  | some b =>
    rw [PyDict.getE_of_find? hf] at h
    injection h with h
    subst h
    exact PyDict.find?_mem hf

theorem findFit_height {g g' : Grid} {W L L' : Nat} (h : WF g W L) (h' : WF g' W L') (hL : L' ≤ L)
    (hs : SameCells g g') {rot : Bool} {x y : Nat} {items : PyDict String Dim} (hpos : PosDims items) :
    ∀ (ids : List String) (r), findFit rot W L x y g items ids = .ok r →
      (∀ id d ro, r = some (id, d, ro) → y + effL d ro ≤ L') →
      findFit rot W L' x y g' items ids = .ok r
  | [], r, hf, _ => by unfold findFit at hf ⊢; exact hf
  | id :: ids, r, hf, hr => by
    unfold findFit at hf ⊢
    simp only [bind, Except.bind] at hf ⊢
    cases hd : PyDict.getE items id with
    | error e => rw [hd] at hf; cases hf
    | ok d =>
      rw [hd] at hf
      simp only at hf ⊢
      have hp := hpos (id, d) (getE_mem hd)
      obtain ⟨b1, e1, i1⟩ := checkFitting_eq h (Xo := x) (Yo := y) hp.1 hp.2
      obtain ⟨b2, e2, i2⟩ := checkFitting_eq h (Xo := x) (Yo := y) hp.2 hp.1
      obtain ⟨c1, f1, j1⟩ := checkFitting_eq h' (Xo := x) (Yo := y) hp.1 hp.2
      obtain ⟨c2, f2, j2⟩ := checkFitting_eq h' (Xo := x) (Yo := y) hp.2 hp.1
      rw [checkSpec_height hL hs] at j1 j2
      simp only at e1 e2 f1 f2
      rw [e1] at hf
      rw [f1]
      simp only [pure, Except.pure] at hf ⊢
      by_cases hb : b1 = true
      · rw [if_pos hb] at hf
        injection hf with hf
        have := hr id d false hf.symm
        rw [if_pos (j1.2 ⟨i1.1 hb, this⟩), hf]
      · rw [if_neg hb] at hf
        rw [if_neg (fun hc => hb (i1.2 (j1.1 hc).1))]
        by_cases hrot : rot = true
        · rw [if_pos hrot] at hf ⊢
          rw [e2] at hf
          rw [f2]
          simp only at hf ⊢
          by_cases hb2 : b2 = true
          · rw [if_pos hb2] at hf
            injection hf with hf
            have := hr id d true hf.symm
            rw [if_pos (j2.2 ⟨i2.1 hb2, this⟩), hf]
          · rw [if_neg hb2] at hf
            rw [if_neg (fun hc => hb2 (i2.2 (j2.1 hc).1))]
            exact findFit_height h h' hL hs hpos ids r hf hr
        · rw [if_neg hrot] at hf ⊢
          exact findFit_height h h' hL hs hpos ids r hf hr

/-! ### The generated points -/

theorem scanA_height {g g' : Grid} {Ay : Nat} (e1 : ∀ x, rd g' (Ay : Int) x = rd g Ay x)
    (e2 : ∀ x, rd g' ((Ay : Int) - 1) x = rd g ((Ay : Int) - 1) x) :
    ∀ n, scanA g' Ay n = scanA g Ay n
  | 0 => rfl
  | n + 1 => by
    unfold scanA
    rw [e1, e2, scanA_height e1 e2 n]

theorem genA_height (A : Arith) {g g' : Grid} {W L L' Xo Yo l : Nat} (hl : Yo + l < L') (hL : L' ≤ L)
    (e1 : ∀ x, rd g' ((Yo + l : Nat) : Int) x = rd g (Yo + l : Nat) x)
    (e2 : ∀ x, rd g' (((Yo + l : Nat) : Int) - 1) x = rd g (((Yo + l : Nat) : Int) - 1) x) :
    genA A g' W L' Xo Yo l = genA A g W L Xo Yo l := by
  unfold genA condA
  have d1 : (decide (Yo + l < L')) = true := decide_eq_true hl
  have d2 : (decide (Yo + l < L)) = true := decide_eq_true (by omega)
  have d3 : (decide (Yo + l ≥ L')) = false := decide_eq_false (by omega)
  have d4 : (decide (Yo + l ≥ L)) = false := decide_eq_false (by omega)
  simp only [e1, e2, scanA_height e1 e2, d1, d2, d3, d4]

theorem genA_high (A : Arith) {g : Grid} {W L Xo Yo l : Nat} (hl : L ≤ Yo + l) :
    genA A g W L Xo Yo l = .ok [] := by
  unfold genA condA
  have d1 : (decide (Yo + l < L)) = false := decide_eq_false (by omega)
  have d3 : (decide (Yo + l ≥ L)) = true := decide_eq_true (by omega)
  simp only [d1, d3]
  rfl

theorem genC_height {g g' : Grid} {L L' Xo Yo w l : Nat} (hl : Yo + l < L') (hL : L' ≤ L)
    (e1 : ∀ x, rd g' ((Yo + l : Nat) : Int) x = rd g (Yo + l : Nat) x) :
    genC g' L' Xo Yo w l = genC g L Xo Yo w l := by
  unfold genC
  simp only
  rw [if_pos hl, if_pos (by omega)]
  have : ∀ xs, scanC g' (Yo + l) xs = scanC g (Yo + l) xs := by
    intro xs
    induction xs with
    | nil => rfl
    | cons x xs ih => unfold scanC; rw [ih, e1, e1]
  exact this _

theorem genD_height {g g' : Grid} {W Xo Yo w l L' : Nat} (hl : Yo + l ≤ L')
    (e1 : ∀ y : Int, 0 ≤ y → y < L' → ∀ x, rd g' y x = rd g y x) :
    genD g' W Xo Yo w l = genD g W Xo Yo w l := by
  unfold genD
  simp only
  have : ∀ ys : List Nat, (∀ y ∈ ys, y + 1 < L') → scanD g' (Xo + w) ys = scanD g (Xo + w) ys := by
    intro ys
    induction ys with
    | nil => intro _; rfl
    | cons y ys ih =>
      intro hy
      have h0 := hy y (by simp)
      unfold scanD
      rw [ih (fun y hy' => hy y (by simp [hy'])), e1 _ (by omega) (by omega), e1 _ (by omega) (by omega)]
  rw [this _ (by intro y hy; rw [List.mem_range'_1] at hy; omega)]

theorem scanB_height {g g' : Grid} {Bx L' : Nat}
    (e1 : ∀ y : Int, 0 ≤ y → y < L' → ∀ x, rd g' y x = rd g y x) :
    ∀ n, n ≤ L' → scanB g' Bx n = scanB g Bx n
  | 0, _ => rfl
  | n + 1, h => by
    unfold scanB
    rw [e1 _ (by omega) (by omega), e1 _ (by omega) (by omega), scanB_height e1 n (by omega)]

/-- `genB` without the choice between B' and F -/
def genBcore (g : Grid) (W Xo Yo w : Nat) : Except PyErr (GenPts × Option Nat × GenPts) := do
  let Bx := Xo + w
  let bGen ← condB g W Yo Bx
  let ptsB : GenPts := if bGen then [(.B, ⟨Bx, Yo⟩)] else []
  let noAppend ← orP (.ok (decide (Bx ≥ W))) (testP (rd g Yo Bx) (· != 0))
  let prohibit ←
    (if noAppend then .ok false
     else orP (.ok (decide (Bx ≥ W))) (testP (rd g ((Yo : Int) - 1) Bx) in23))
  let scan ←
    andP (.ok (decide (Bx < W))) <| andP (.ok (decide (Yo > 0))) <|
    andP (.ok (!bGen)) <| andP (.ok (!prohibit)) <|
    andP (testP (rd g ((Yo : Int) - 1) ((Bx : Int) - 1)) (· == 0))
         (testP (rd g ((Yo : Int) - 1) Bx) (· == 0))
  let yPoint ← (if scan then scanB g Bx Yo else .ok none)
  let ptsB2 : GenPts := if !bGen && !noAppend then [(.B__, ⟨Bx, Yo⟩)] else []
  return (ptsB, yPoint, ptsB2)

theorem genB_core (A : Arith) (g : Grid) (W L Xo Yo w : Nat) : genB A g W L Xo Yo w =
    (do let t ← genBcore g W Xo Yo w
        return t.1 ++ pointBF A L Yo (Xo + w) t.2.1 ++ t.2.2) := by
  unfold genB genBcore
  simp only [bind_assoc, pure_bind]

theorem genBcore_zero {g : Grid} {W L Xo w : Nat} (h : WF g W L) (hL : 0 < L) :
    genBcore g W Xo 0 w = (do
      let bGen ← condB g W 0 (Xo + w)
      let noAppend ← orP (.ok (decide (Xo + w ≥ W))) (testP (rd g ((0 : Nat) : Int) ((Xo + w : Nat) : Int)) (· != 0))
      return (if bGen then [(.B, ⟨Xo + w, 0⟩)] else [], none,
        if !bGen && !noAppend then [(.B__, ⟨Xo + w, 0⟩)] else [])) := by
  unfold genBcore
  have hp : ∀ b : Bool, ∃ v, (if b = true then (.ok false : Except PyErr Bool)
     else orP (.ok (decide (Xo + w ≥ W))) (testP (rd g ((0 : Nat) - 1 : Int) ((Xo + w : Nat) : Int)) in23)) = .ok v := by
    intro b
    cases b with
    | true => exact ⟨false, rfl⟩
    | false =>
      simp only [Bool.false_eq_true, if_false]
      apply orP_tot ⟨_, rfl⟩
      intro hd
      injection hd with hd
      have := of_decide_eq_false hd
      exact testP_rd_tot h in23 (by omega) (by omega) (by omega) (by omega)
  simp only [bind, Except.bind, pure, Except.pure]
  cases condB g W 0 (Xo + w) with
  | error e => rfl
  | ok b =>
    simp only
    cases orP (.ok (decide (Xo + w ≥ W))) (testP (rd g ((0 : Nat) : Int) ((Xo + w : Nat) : Int)) (· != 0)) with
    | error e => rfl
    | ok n =>
      simp only
      obtain ⟨v, hv⟩ := hp n
      rw [hv]
      simp only
      have : ∀ (a b : Bool) (x : Except PyErr Bool), andP (.ok a) (andP (.ok false) x) = .ok false := by
        intro a b x; cases a <;> rfl
      rw [show decide (0 > 0) = false from rfl, this _ false]
      rfl

theorem genBcore_height {g g' : Grid} {W L L' Xo Yo w : Nat} (h : WF g W L)
    (h' : WF g' W L') (hX : Xo + w ≤ W) (hw : 0 < w) (hY : Yo < L') (hL : L' ≤ L)
    (e1 : ∀ y : Int, 0 ≤ y → y < L' → ∀ x, rd g' y x = rd g y x) :
    genBcore g' W Xo Yo w = genBcore g W Xo Yo w := by
  have er := e1 Yo (by omega) (by omega)
  by_cases h0 : Yo = 0
  · subst h0
    rw [genBcore_zero h (by omega), genBcore_zero h' (by omega), er]
    have hc : condB g' W 0 (Xo + w) = condB g W 0 (Xo + w) := by
      unfold condB
      rw [er]
      cases andP (.ok (decide (Xo + w < W))) (testP (rd g ((0 : Nat) : Int) ((Xo + w : Nat) : Int)) (· == 0)) with
      | error e => rfl
      | ok b => cases b <;> rfl
    rw [hc]
  · have er1 := e1 ((Yo : Int) - 1) (by omega) (by omega)
    unfold genBcore condB
    simp only [er, er1, scanB_height e1 Yo (by omega)]

/-- B points are the same up to the choice between B' and F -/
theorem genB_height (A : Arith) (S : List PClass) {g g' : Grid} {W L L' Xo Yo w : Nat} (h : WF g W L)
    (h' : WF g' W L') (hX : Xo + w ≤ W) (hw : 0 < w)
    (hY : Yo < L') (hL : L' ≤ L)
    (e1 : ∀ y : Int, 0 ≤ y → y < L' → ∀ x, rd g' y x = rd g y x)
    (hr : (PClass.B_ ∉ S ∧ PClass.F ∉ S) ∨ ∀ n, n ≤ Yo → A.ratioLe n L' = A.ratioLe n L)
    {pts : GenPts} (hg : genB A g W L Xo Yo w = .ok pts) :
    ∃ pts', genB A g' W L' Xo Yo w = .ok pts' ∧
      pts'.filter (fun q => decide (q.1 ∈ S)) = pts.filter (fun q => decide (q.1 ∈ S)) := by
  have hbf : ∀ o : Option Nat, (pointBF A L' Yo (Xo + w) o).filter (fun q => decide (q.1 ∈ S)) =
      (pointBF A L Yo (Xo + w) o).filter (fun q => decide (q.1 ∈ S)) := by
    intro o
    cases o with
    | none => rfl
    | some yp =>
      unfold pointBF
      rcases hr with ⟨h1, h2⟩ | hr
      · simp only
        split <;> split <;> simp [h1, h2]
      · simp only
        rw [hr _ (by omega)]
  rw [genB_core, genBcore_height h h' hX hw hY hL e1]
  rw [genB_core] at hg
  cases hc : genBcore g W Xo Yo w with
  | error e => rw [hc] at hg; cases hg
  | ok t =>
    rw [hc] at hg
    refine ⟨_, rfl, ?_⟩
    cases hg
    simp only [List.filter_append, hbf]

/-- points of a class of the strategy below `L'` -/
def keepPt (S : List PClass) (L' : Nat) (q : PClass × Pt) : Bool := decide (q.1 ∈ S) && decide (q.2.y < L')

theorem filter_keep_all {S : List PClass} {L' : Nat} {pts : GenPts} (h : ∀ q ∈ pts, q.2.y < L') :
    pts.filter (keepPt S L') = pts.filter (fun q => decide (q.1 ∈ S)) := by
  apply List.filter_congr
  intro q hq
  unfold keepPt
  rw [decide_eq_true (h q hq), Bool.and_true]

theorem filter_keep_none {S : List PClass} {L' : Nat} {pts : GenPts} (h : ∀ q ∈ pts, L' ≤ q.2.y) :
    pts.filter (keepPt S L') = [] := by
  rw [List.filter_eq_nil_iff]
  intro q hq
  unfold keepPt
  have := h q hq
  simp; intro _; omega

theorem generatePoints_height (A : Arith) (S : List PClass) {g g' : Grid} {W L L' Xo Yo w l : Nat}
    (h : WF g W L) (h' : WF g' W L') (hL : L' ≤ L) (hs : SameCells g g') (hX : Xo + w ≤ W) (hw : 0 < w)
    (hl : 0 < l) (hY : Yo + l ≤ L')
    (hr : (PClass.B_ ∉ S ∧ PClass.F ∉ S) ∨ ∀ n, n ≤ Yo → A.ratioLe n L' = A.ratioLe n L)
    {pts : GenPts} (hg : generatePoints A g W L Xo Yo w l = .ok pts) :
    ∃ pts', generatePoints A g' W L' Xo Yo w l = .ok pts' ∧
      pts'.filter (keepPt S L') = pts.filter (keepPt S L') := by
  have e1 : ∀ y : Int, 0 ≤ y → y < L' → ∀ x, rd g' y x = rd g y x :=
    fun y hy0 hy x => hs.rd h h' hL hy0 hy x
  unfold generatePoints at hg ⊢
  simp only [bind, Except.bind, pure, Except.pure] at hg ⊢
  cases ha : genA A g W L Xo Yo l with
  | error e => rw [ha] at hg; cases hg
  | ok a =>
    rw [ha] at hg
    simp only at hg
    cases hb : genB A g W L Xo Yo w with
    | error e => rw [hb] at hg; cases hg
    | ok b =>
      rw [hb] at hg
      simp only at hg
      cases hc : genC g L Xo Yo w l with
      | error e => rw [hc] at hg; cases hg
      | ok c =>
        rw [hc] at hg
        simp only at hg
        rw [← genD_height hY e1] at hg
        cases hd : genD g' W Xo Yo w l with
        | error e => rw [hd] at hg; cases hg
        | ok d =>
          rw [hd] at hg
          injection hg with hg
          obtain ⟨b', eb, fb⟩ := genB_height A S h h' hX hw (by omega) hL e1 hr hb
          have hby : ∀ q ∈ b, q.2.y < L' := by
            intro q hq
            have := genB_y hb q hq
            omega
          have hby' : ∀ q ∈ b', q.2.y < L' := by
            intro q hq
            have := genB_y eb q hq
            omega
          by_cases hlt : Yo + l < L'
          · have e2 := e1 ((Yo + l : Nat) : Int) (by omega) (by omega)
            have e3 := e1 (((Yo + l : Nat) : Int) - 1) (by omega) (by omega)
            rw [genA_height A hlt hL e2 e3, genC_height hlt hL e2, ha, hc, eb]
            refine ⟨_, rfl, ?_⟩
            rw [← hg]
            simp only [List.filter_append, filter_keep_all hby, filter_keep_all hby', fb]
          · have e2 : genA A g' W L' Xo Yo l = .ok [] := genA_high A (by omega)
            have e3 : genC g' L' Xo Yo w l = .ok [] := by
              unfold genC; simp only; rw [if_neg hlt]
            rw [e2, e3, eb]
            refine ⟨_, rfl, ?_⟩
            rw [← hg]
            have ka : a.filter (keepPt S L') = [] := filter_keep_none (by
              intro q hq; have := genA_y ha q hq; omega)
            have kc : c.filter (keepPt S L') = [] := filter_keep_none (by
              intro q hq
              unfold genC at hc
              simp only at hc
              split at hc
              · have := scanC_y hc q hq; omega
              · cases hc; cases hq)
            simp only [List.filter_append, filter_keep_all hby, filter_keep_all hby', fb, ka, kc, List.filter_nil]

/-! ### The loop -/

/-- the waiting points of the lower run are those of the higher run below `L'` -/
def PoolsRel (S : List PClass) (L' : Nat) (p p' : Pools) : Prop :=
  ∀ c ∈ S, p'.get c = (p.get c).filter (fun pt => decide (pt.y < L'))

/-- the states of the two runs correspond -/
structure HRel (P : CParams) (L' : Nat) (s s' : CState) : Prop where
  wf : WF s'.grid P.W L'
  cells : SameCells s.grid s'.grid
  items : s'.items = s.items
  ids : s'.ids = s.ids
  placed : s'.placed = s.placed
  obj : s'.obj = s.obj
  pools : PoolsRel P.strategy L' s.pools s'.pools

theorem PoolsRel.set {S : List PClass} {L' : Nat} {p p' : Pools} (h : PoolsRel S L' p p') (c : PClass)
    {v v' : List Pt} (hv : v' = v.filter (fun pt => decide (pt.y < L'))) :
    PoolsRel S L' (p.set c v) (p'.set c v') := by
  intro c' hc'
  by_cases e : c' = c
  · subst e; rw [Pools.get_set_self, Pools.get_set_self, hv]
  · rw [Pools.get_set_ne _ _ e, Pools.get_set_ne _ _ e]; exact h c' hc'

theorem PoolsRel.set_left {S : List PClass} {L' : Nat} {p p' : Pools} (h : PoolsRel S L' p p') {c : PClass}
    {pt : Pt} {v : List Pt} (hc : p.get c = pt :: v) (hy : L' ≤ pt.y) :
    PoolsRel S L' (p.set c v) p' := by
  intro c' hc'
  by_cases e : c' = c
  · subst e
    rw [Pools.get_set_self, h c' hc', hc, List.filter_cons_of_neg]
    simp; omega
  · rw [Pools.get_set_ne _ _ e]; exact h c' hc'

theorem PoolsRel.pushAll {S : List PClass} {L' : Nat} {p p' : Pools} (h : PoolsRel S L' p p')
    {gen gen' : GenPts} (hg : gen'.filter (keepPt S L') = gen.filter (keepPt S L'))
    (hy : ∀ q ∈ gen', q.2.y < L') : PoolsRel S L' (p.pushAll gen) (p'.pushAll gen') := by
  intro c hc
  rw [Pools.get_pushAll, Pools.get_pushAll, h c hc, List.filter_append]
  congr 1
  have hk : ∀ g : GenPts, ((g.filter (fun q => decide (q.1 = c))).map (·.2)).filter (fun pt => decide (pt.y < L')) =
      (((g.filter (keepPt S L')).filter (fun q => decide (q.1 = c))).map (·.2)) := by
    intro g
    rw [List.filter_map, List.filter_filter, List.filter_filter]
    congr 1
    apply List.filter_congr
    intro q _
    unfold keepPt
    by_cases e : q.1 = c
    · simp [e, hc]
    · simp [e]
  rw [hk, ← hg, ← hk]
  symm
  apply List.filter_eq_self.2
  intro pt hpt
  obtain ⟨q, hq, rfl⟩ := List.mem_map.1 hpt
  exact decide_eq_true (hy q (List.mem_filter.1 hq).1)

theorem getCurrentPoint_height {S : List PClass} {L' : Nat} {p p' : Pools} (h : PoolsRel S L' p p') :
    ∀ cs : List PClass, (∀ c ∈ cs, c ∈ S) →
    ((getCurrentPoint p cs).1 = none ∧ (getCurrentPoint p' cs).1 = none) ∨
    (∃ pt, pt.y < L' ∧ (getCurrentPoint p cs).1 = some pt ∧ (getCurrentPoint p' cs).1 = some pt ∧
      PoolsRel S L' (getCurrentPoint p cs).2 (getCurrentPoint p' cs).2) ∨
    (∃ pt, L' ≤ pt.y ∧ (getCurrentPoint p cs).1 = some pt ∧ PoolsRel S L' (getCurrentPoint p cs).2 p')
  | [], _ => Or.inl ⟨rfl, rfl⟩
  | c :: cs, hs => by
    unfold getCurrentPoint
    have hc := h c (hs c (by simp))
    cases e : p.get c with
    | nil =>
      rw [e] at hc
      simp only [List.filter_nil] at hc
      rw [hc]
      exact getCurrentPoint_height h cs (fun c' hc' => hs c' (by simp [hc']))
    | cons pt rest =>
      rw [e] at hc
      by_cases hy : pt.y < L'
      · rw [List.filter_cons_of_pos (by simpa using hy)] at hc
        rw [hc]
        exact Or.inr (Or.inl ⟨pt, hy, rfl, rfl, h.set c rfl⟩)
      · exact Or.inr (Or.inr ⟨pt, by omega, rfl, h.set_left e (by omega)⟩)

/-- the state at the head of the loop -/
def nextSt (S : List PClass) (s : CState) : CState :=
  { s with cur := (getCurrentPoint s.pools S).1, pools := (getCurrentPoint s.pools S).2 }

theorem handlePoint_height {P : CParams} {L' H : Nat} (hL : L' ≤ P.L) (hst : P.strip = true) (hH : H ≤ L')
    (hr : (PClass.B_ ∉ P.strategy ∧ PClass.F ∉ P.strategy) ∨ ∀ n, n < H → P.ar.ratioLe n L' = P.ar.ratioLe n P.L)
    {s s' s1 : CState} {pt : Pt} (hI : I0 P s) (hR : HRel P L' s s') (h : handlePoint P s pt = .ok s1)
    (hpl : ∀ p ∈ s1.placed, p.rect.y + p.rect.l ≤ H) :
    ∃ s1', handlePoint { P with L := L' } s' pt = .ok s1' ∧ HRel P L' s1 s1' := by
  have hq0 := handlePoint_cases h
  unfold handlePoint at h ⊢
  simp only [bind, Except.bind, pure, Except.pure] at h ⊢
  cases hf : findFit P.rot P.W P.L pt.x pt.y s.grid s.items s.ids with
  | error e => rw [hf] at h; cases h
  | ok r =>
    rw [hf] at h
    have hlow : ∀ id d ro, r = some (id, d, ro) → pt.y + effL d ro ≤ H := by
      rintro id d ro rfl
      rcases hq0 with ⟨h1, _⟩ | ⟨q, h1, h2⟩
      · rw [hf] at h1; cases h1
      · rw [hf] at h1
        cases h1
        exact hpl ⟨id, d, pt.x, pt.y, ro⟩ (by rw [h2]; simp)
    have hf' := findFit_height hI.wf hR.wf hL hR.cells hI.pos s.ids r hf
      (fun id d ro e => by have := hlow id d ro e; omega)
    rw [hR.items, hR.ids, hf']
    simp only at h ⊢
    cases r with
    | none =>
      simp only at h ⊢
      cases h
      exact ⟨s', rfl, hR⟩
    | some q =>
      obtain ⟨id, d, ro⟩ := q
      simp only at h ⊢
      obtain ⟨r', hr', hsp⟩ := findFit_spec P hI.wf hI.pos pt s.ids (by
        intro id hid
        rw [hI.ids] at hid
        obtain ⟨d, hd⟩ := PyDict.find?_isSome_of_mem_keys hid
        exact ⟨d, hd⟩)
      rw [hf] at hr'
      injection hr' with hr'
      subst hr'
      simp only at hsp
      obtain ⟨hfind, hchk, -⟩ := hsp
      have hp := hI.pos (id, d) (PyDict.find?_mem hfind)
      have hwpos : 0 < effW d ro := by unfold effW; split <;> [exact hp.2; exact hp.1]
      have hlpos : 0 < effL d ro := by unfold effL; split <;> [exact hp.1; exact hp.2]
      have hle := hlow id d ro rfl
      obtain ⟨g1, eg, wg, cg⟩ := fillItem_eq hI.wf hwpos hlpos hchk.1 hchk.2.1
      obtain ⟨g1', eg', wg', cg'⟩ := fillItem_eq hR.wf hwpos hlpos hchk.1 (show pt.y + effL d ro ≤ L' by omega)
      have hcells : SameCells g1 g1' := by
        intro y x
        rw [cg, cg', hR.cells]
      have eW : (if ro = true then d.l else d.w) = effW d ro := rfl
      have eL : (if ro = true then d.w else d.l) = effL d ro := rfl
      rw [eW, eL] at h ⊢
      rw [eg] at h
      rw [eg']
      simp only at h ⊢
      cases hrm : pyRemove s.ids id with
      | error e => rw [hrm] at h; cases h
      | ok ids1 =>
        rw [hrm] at h
        simp only at h ⊢
        cases hdl : PyDict.delE s.items id with
        | error e => rw [hdl] at h; cases h
        | ok items1 =>
          rw [hdl] at h
          simp only at h ⊢
          cases hgen : generatePoints P.ar g1 P.W P.L pt.x pt.y (effW d ro) (effL d ro) with
          | error e => rw [hgen] at h; cases h
          | ok gen =>
            rw [hgen] at h
            simp only at h
            obtain ⟨gen', eg2, fg⟩ := generatePoints_height P.ar P.strategy wg wg' hL hcells hchk.1 hwpos hlpos
              (show pt.y + effL d ro ≤ L' by omega) (by
                rcases hr with hr | hr
                · exact Or.inl hr
                · exact Or.inr (fun n hn => hr n (by omega))) hgen
            rw [eg2]
            refine ⟨_, rfl, ?_⟩
            injection h with h
            subst h
            refine ⟨wg', hcells, rfl, rfl, by simp [hR.placed], ?_, ?_⟩
            · simp [hst, hR.obj]
            · refine hR.pools.pushAll fg ?_
              obtain ⟨gen2, h1, -, h3, -⟩ := generatePoints_spec P.ar wg' hwpos hlpos hchk.1
                (show pt.y + effL d ro ≤ L' by omega) (by
                  intro y x hy1 hy2 hx1 hx2
                  rw [cg', if_pos (by omega)]
                  exact markOf_ne_zero _ _ _ _ _ _)
              rw [eg2] at h1
              injection h1 with h1
              subst h1
              intro q hq
              exact (h3 q hq).2.1

theorem handlePoint_placed {P : CParams} {s s1 : CState} {pt : Pt} (h : handlePoint P s pt = .ok s1) :
    s.placed <+: s1.placed := by
  rcases handlePoint_cases h with ⟨_, rfl⟩ | ⟨q, _, h2⟩
  · exact List.prefix_rfl
  · rw [h2]; exact List.prefix_append _ _

theorem constructLoop_placed (P : CParams) : ∀ (n : Nat) (s r : CState), constructLoop P n s = .ok r →
    s.placed <+: r.placed
  | 0, _, _, h => by cases h
  | n + 1, s, r, h => by
    unfold constructLoop at h
    cases hc : s.cur with
    | none => rw [hc] at h; cases h; exact List.prefix_rfl
    | some pt =>
      rw [hc] at h
      simp only at h
      split at h
      · cases h; exact List.prefix_rfl
      · unfold constructStep at h
        simp only [bind, Except.bind, pure, Except.pure] at h
        cases hh : handlePoint P s pt with
        | error e => rw [hh] at h; cases h
        | ok s1 =>
          rw [hh] at h
          simp only at h
          have := constructLoop_placed P n _ r h
          exact (handlePoint_placed hh).trans this

/-- correspondence at the head of the loop; either both runs are at the same point, or the higher
run is at a point above `L'` -/
def HeadRel (P : CParams) (L' : Nat) (t t' : CState) : Prop :=
  (HRel P L' t t' ∧ t'.cur = t.cur) ∨
  ∃ s', HRel P L' t s' ∧ t' = nextSt P.strategy s' ∧ ∃ pt, t.cur = some pt ∧ L' ≤ pt.y

theorem HRel.head {P : CParams} {L' : Nat} {s s' : CState} (h : HRel P L' s s') :
    HeadRel P L' (nextSt P.strategy s) (nextSt P.strategy s') := by
  rcases getCurrentPoint_height h.pools P.strategy (fun _ hc => hc) with ⟨h1, h2⟩ | ⟨pt, _, h1, h2, h3⟩ | ⟨pt, hy, h1, h2⟩
  · left
    refine ⟨⟨h.wf, h.cells, h.items, h.ids, h.placed, h.obj, ?_⟩, by rw [nextSt, nextSt, h1, h2]⟩
    have e1 : (getCurrentPoint s.pools P.strategy).2 = s.pools := by
      rcases getCurrentPoint_spec P.strategy s.pools with ⟨e, _⟩ | ⟨_, _, _, _, _, _, _, _, e⟩
      · rw [e]
      · rw [e] at h1; cases h1
    have e2 : (getCurrentPoint s'.pools P.strategy).2 = s'.pools := by
      rcases getCurrentPoint_spec P.strategy s'.pools with ⟨e, _⟩ | ⟨_, _, _, _, _, _, _, _, e⟩
      · rw [e]
      · rw [e] at h2; cases h2
    simp only [nextSt, e1, e2]
    exact h.pools
  · left
    exact ⟨⟨h.wf, h.cells, h.items, h.ids, h.placed, h.obj, h3⟩, by rw [nextSt, nextSt, h1, h2]⟩
  · right
    exact ⟨s', ⟨h.wf, h.cells, h.items, h.ids, h.placed, h.obj, h2⟩, rfl, pt, h1, hy⟩

theorem constructLoop_height {P : CParams} {L' H : Nat} (hL : L' ≤ P.L) (hst : P.strip = true) (hH : H ≤ L')
    (hr : (PClass.B_ ∉ P.strategy ∧ PClass.F ∉ P.strategy) ∨ ∀ n, n < H → P.ar.ratioLe n L' = P.ar.ratioLe n P.L) :
    ∀ (n : Nat) (t t' r : CState), I0 P t → HeadRel P L' t t' →
      constructLoop P n t = .ok r → (∀ p ∈ r.placed, 0 < p.rect.l ∧ p.rect.y + p.rect.l ≤ H) →
      ∃ r', constructLoop { P with L := L' } n t' = .ok r' ∧ r'.items = r.items ∧ r'.placed = r.placed
  | 0, _, _, _, _, _, h, _ => by cases h
  | n + 1, t, t', r, hI, hR, h, hpl => by
    unfold constructLoop at h
    rcases hR with ⟨hR, hcur⟩ | ⟨s', hR, rfl, pt, hpt, hhigh⟩
    · unfold constructLoop
      rw [hcur]
      cases hc : t.cur with
      | none =>
        rw [hc] at h
        cases h
        exact ⟨t', rfl, hR.items, hR.placed⟩
      | some pt =>
        rw [hc] at h
        simp only at h ⊢
        rw [hR.ids, hR.obj]
        split at h
        · rename_i hd
          rw [if_pos hd]
          cases h
          exact ⟨t', rfl, hR.items, hR.placed⟩
        · rename_i hd
          rw [if_neg hd]
          cases hs : constructStep P t pt with
          | error e => simp only [hs, bind, Except.bind] at h; cases h
          | ok t1 =>
            obtain ⟨t1', e1, r1, i1, m1⟩ := constructStep_tot hI hc
            rw [hs] at e1
            injection e1 with e1
            subst e1
            simp only [hs, bind, Except.bind] at h ⊢
            unfold constructStep at hs ⊢
            simp only [bind, Except.bind, pure, Except.pure] at hs ⊢
            cases hh : handlePoint P t pt with
            | error e => rw [hh] at hs; cases hs
            | ok s1 =>
              rw [hh] at hs
              injection hs with hs
              have hpre1 := constructLoop_placed P n t1 r h
              have hpl1 : ∀ p ∈ s1.placed, p.rect.y + p.rect.l ≤ H := by
                intro p hp
                refine (hpl p (hpre1.subset ?_)).2
                rw [← hs]; exact hp
              obtain ⟨s1', e2, R1⟩ := handlePoint_height hL hst hH hr hI hR hh hpl1
              rw [e2]
              refine constructLoop_height hL hst hH hr n t1 _ r i1 ?_ h hpl
              rw [← hs]
              exact R1.head
    · rw [hpt] at h
      simp only at h
      split at h
      · rename_i hd
        cases h
        refine ⟨nextSt P.strategy s', ?_, hR.items, hR.placed⟩
        unfold constructLoop
        cases hc : (nextSt P.strategy s').cur with
        | none => rfl
        | some pt' =>
          simp only
          rw [if_pos]
          rw [show (nextSt P.strategy s').ids = t.ids from hR.ids, show (nextSt P.strategy s').obj = t.obj from hR.obj]
          exact hd
      · rename_i hd
        cases hs : constructStep P t pt with
        | error e => simp only [hs, bind, Except.bind] at h; cases h
        | ok t1 =>
          obtain ⟨t1', e1, r1, i1, m1⟩ := constructStep_tot hI hpt
          rw [hs] at e1
          injection e1 with e1
          subst e1
          simp only [hs, bind, Except.bind] at h
          unfold constructStep at hs
          simp only [bind, Except.bind, pure, Except.pure] at hs
          cases hh : handlePoint P t pt with
          | error e => rw [hh] at hs; cases hs
          | ok s1 =>
            rw [hh] at hs
            injection hs with hs
            have hpre1 := constructLoop_placed P n t1 r h
            have hst1 : s1 = t := by
              rcases handlePoint_cases hh with ⟨_, e⟩ | ⟨q, _, e⟩
              · exact e
              · exfalso
                have := hpl ⟨q.1, q.2.1, pt.x, pt.y, q.2.2⟩ (hpre1.subset (by rw [← hs]; simp only; rw [e]; simp))
                simp only [Placed.rect] at this
                omega
            subst hst1
            obtain ⟨r', e3, e4, e5⟩ := constructLoop_height hL hst hH hr n t1 (nextSt P.strategy s') r i1 (by
              rw [← hs]
              exact hR.head) h hpl
            exact ⟨r', constructLoop_more _ n (n + 1) _ _ (by omega) e3, e4, e5⟩

theorem HRel_init (P : CParams) (L' : Nat) (items : PyDict String Dim) (hL0 : 0 < L') :
    HeadRel P L' (constructInit P items) (constructInit { P with L := L' } items) := by
  left
  refine ⟨⟨WF_empty _ _, ?_, rfl, rfl, rfl, rfl, ?_⟩, rfl⟩
  · intro y x
    simp only [constructInit]
    rw [cell_empty, cell_empty]
  · intro c hc
    simp only [constructInit]
    cases c <;> rfl

/-- the result of a strip construction does not change when the container is lowered to a height
that is not below the stack -/
theorem construct_height {P : CParams} {L' : Nat} {items : PyDict String Dim} (hg : ValidSizes items)
    (hW : 0 < P.W) (hL0 : 0 < L') (hL : L' ≤ P.L) (hst : P.strip = true) {r : CResult} (h : construct P items = .ok r)
    (hH : stackHeight (r.solution.map (·.2)) ≤ L')
    (hr : (PClass.B_ ∉ P.strategy ∧ PClass.F ∉ P.strategy) ∨
      ∀ n, n < stackHeight (r.solution.map (·.2)) → P.ar.ratioLe n L' = P.ar.ratioLe n P.L) :
    construct { P with L := L' } items = .ok r := by
  have hPL : 0 < P.L := by omega
  obtain ⟨k, s, hloop, -, hI, -, -⟩ := construct_run (P := P) hg hW hPL
  obtain ⟨r0, e0, F0⟩ := construct_facts (P := P) hg hW hPL
  rw [h] at e0
  injection e0 with e0
  subst e0
  obtain ⟨r2, e2, F2⟩ := construct_facts (P := { P with L := L' }) hg hW hL0
  have hfin : ∀ {Q : CParams} {q : CResult} {u : CState},
      constructLoop Q (constructFuel items) (constructInit Q items) = .ok u → construct Q items = .ok q →
      q.items = u.items ∧ q.solution = u.placed.map (fun p => (p.id, p.rect)) := by
    intro Q q u h1 h2
    unfold construct constructFinish at h2
    simp only [h1, bind, Except.bind, pure, Except.pure] at h2
    split at h2
    · cases h2
    · cases h2; exact ⟨rfl, rfl⟩
  obtain ⟨i1, s1⟩ := hfin hloop h
  have hpl : ∀ p ∈ s.placed, 0 < p.rect.l ∧ p.rect.y + p.rect.l ≤ stackHeight (r.solution.map (·.2)) := by
    intro p hp
    have hm : (p.id, p.rect) ∈ r.solution := by rw [s1]; exact List.mem_map.2 ⟨p, hp, rfl⟩
    refine ⟨?_, ?_⟩
    · obtain ⟨d, hd, hsz⟩ := F0.sized _ hm
      have hpd := hg.2 _ hd
      rcases hsz with ⟨_, e⟩ | ⟨_, _, e⟩
      · exact e ▸ hpd.2
      · exact e ▸ hpd.1
    · exact stackHeight_le.1 (Nat.le_refl _) p.rect (List.mem_map.2 ⟨_, hm, rfl⟩)
  obtain ⟨u, hu, hui, hup⟩ := constructLoop_height hL hst hH hr (constructFuel items) (constructInit P items)
    (constructInit { P with L := L' } items) s (I0_init hg hW hPL) (HRel_init P L' items hL0) hloop hpl
  obtain ⟨i2, s2⟩ := hfin hu e2
  rw [e2]
  have hsol : r2.solution = r.solution := by rw [s1, s2, hup]
  have hobj : r2.obj = r.obj := by
    rw [F0.objStrip hst, F2.objStrip hst, hsol]
  congr 1
  cases r2; cases r
  simp only at i1 i2 hsol hobj
  rw [i1, i2, hui] at *
  simp [hsol, hobj]

end HP
