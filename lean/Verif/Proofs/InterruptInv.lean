import Verif.Proofs.Interrupt
import Verif.SpecInterrupt
/-
What holds after every write of a call.
-/
namespace HP
open Spec

/-- `j` is `i` with other (valid) items and containers, and with the solution of `i` or none -/
def EditMid (i j : Inst) : Prop :=
  ∃ cs its n sol ov, j = { i with containers := cs, items := its, containersNum := n, solution := sol, objVals := ov } ∧
    ValidSizes cs ∧ cs ≠ [] ∧ ValidSizes its ∧ its ≠ [] ∧ (i.strip = true → cs = i.containers) ∧
    (sol = [] ∨ (sol = i.solution ∧ ∀ c ∈ PyDict.keys cs, c ∈ PyDict.keys i.containers))

theorem EditMid.refl {i : Inst} (hv : i.Valid) : EditMid i i :=
  ⟨_, _, _, _, _, rfl, hv.conts, hv.contsNe, hv.items, hv.itemsNe, fun _ => rfl, Or.inr ⟨rfl, fun _ h => h⟩⟩

theorem EditMid.trans {i j k : Inst} (h1 : EditMid i j) (h2 : EditMid j k) : EditMid i k := by
  obtain ⟨cs, its, n, sol, ov, rfl, a1, a2, a3, a4, a5, a6⟩ := h1
  obtain ⟨cs', its', n', sol', ov', rfl, b1, b2, b3, b4, b5, b6⟩ := h2
  refine ⟨_, _, _, _, _, rfl, b1, b2, b3, b4, fun hs => (b5 hs).trans (a5 hs), ?_⟩
  rcases b6 with h | ⟨h, h'⟩
  · exact Or.inl h
  · rcases a6 with g | ⟨g, g'⟩
    · left; rw [h]; exact g
    · exact Or.inr ⟨h.trans g, fun c hc => g' c (h' c hc)⟩

theorem EditMid.valid {i j : Inst} (hv : i.Valid) (h : EditMid i j) : j.Valid := by
  obtain ⟨cs, its, n, sol, ov, rfl, a1, a2, a3, a4, a5, _⟩ := h
  refine ⟨a1, a3, a2, a4, ?_, hv.height, hv.minPos⟩
  intro hs
  rw [a5 hs]
  exact hv.strip hs

theorem Edited.mid {i j : Inst} (h : Edited i j) : EditMid i j := by
  obtain ⟨cs, its, n, rfl, a1, a2, a3, a4, a5, _⟩ := h
  exact ⟨_, _, _, _, _, rfl, a1, a2, a3, a4, a5, Or.inl rfl⟩

theorem either_mid {i j : Inst} (hv : i.Valid) (h : j = i ∨ Edited i j) : EditMid i j := by
  rcases h with rfl | h
  · exact .refl hv
  · exact h.mid

theorem mid_append {i m : Inst} {a b : List Inst} (ha : ∀ j ∈ a, EditMid i j) (hm : EditMid i m)
    (hb : ∀ j ∈ b, EditMid m j) : ∀ j ∈ a ++ b, EditMid i j := by
  intro j hj
  rcases List.mem_append.1 hj with h | h
  · exact ha j h
  · exact hm.trans (hb j h)

theorem mid_reset {i : Inst} (hv : i.Valid) : ∀ j ∈ i.resetWrites, EditMid i j := by
  intro j hj
  simp only [Inst.resetWrites, List.mem_cons, List.not_mem_nil, or_false] at hj
  rcases hj with rfl | rfl
  · exact ⟨_, _, _, _, _, rfl, hv.conts, hv.contsNe, hv.items, hv.itemsNe, fun _ => rfl, Or.inr ⟨rfl, fun _ h => h⟩⟩
  · exact (Edited.resetSol hv).mid

theorem mid_resetAttrs {i : Inst} (hv : i.Valid) (k : SKind) : ∀ j ∈ i.resetAttrsWrites k, EditMid i j := by
  cases k with
  | items => exact mid_reset hv
  | containers =>
    intro j hj
    rcases List.mem_append.1 hj with h | h
    · exact mid_reset hv j h
    · simp only [List.mem_singleton] at h
      subst h
      exact ⟨_, _, _, _, _, rfl, hv.conts, hv.contsNe, hv.items, hv.itemsNe, fun _ => rfl, Or.inl rfl⟩

theorem mid_setData {i : Inst} (hv : i.Valid) (k : SKind) {d : PyDict String Dim} (hd : ValidSizes d)
    (hne : d ≠ []) (hk : k = .containers → i.strip = true → d = i.containers)
    (hc : k = .containers → i.solution = [] ∨ ∀ c ∈ PyDict.keys d, c ∈ PyDict.keys i.containers) :
    EditMid i (i.setData k d) := by
  cases k with
  | containers =>
    refine ⟨_, _, _, _, _, rfl, hd, hne, hv.items, hv.itemsNe, hk rfl, ?_⟩
    rcases hc rfl with h | h
    · exact Or.inl h
    · exact Or.inr ⟨rfl, h⟩
  | items =>
    exact ⟨_, _, _, _, _, rfl, hv.conts, hv.contsNe, hd, hne, fun _ => rfl, Or.inr ⟨rfl, fun _ h => h⟩⟩

theorem mid_assign {i : Inst} (hv : i.Valid) (k : SKind) (v : PyVal) : ∀ j ∈ i.assignWrites k v, EditMid i j := by
  unfold Inst.assignWrites
  split
  · intro j hj; cases hj
  · rename_i hns
    intro j hj
    rcases List.mem_append.1 hj with h | h
    · split at h
      · exact mid_reset hv j h
      · cases h
    · cases hb : (buildStructure k v).2 with
      | error e => rw [hb] at h; cases h
      | ok d =>
        obtain ⟨h1, h2, h3⟩ := buildStructure_valid hb
        rw [hb, h3] at h
        simp only [if_true] at h
        cases k with
        | items =>
          simp only [List.mem_singleton] at h
          subst h
          exact ⟨_, _, _, _, _, rfl, hv.conts, hv.contsNe, h1, h2, fun _ => rfl, Or.inl rfl⟩
        | containers =>
          have hs : i.strip = true → d = i.containers := by
            intro hs; exact absurd (by simp [hs]) hns
          simp only [List.mem_cons, List.not_mem_nil, or_false] at h
          rcases h with rfl | rfl
          · exact ⟨_, _, _, _, _, rfl, h1, h2, hv.items, hv.itemsNe, hs, Or.inl rfl⟩
          · exact ⟨_, _, _, _, _, rfl, h1, h2, hv.items, hv.itemsNe, hs, Or.inl rfl⟩

theorem mid_setKey {i : Inst} (hv : i.Valid) (k : SKind) (id v : PyVal) :
    ∀ j ∈ i.setKeyWrites k id v, EditMid i j := by
  unfold Inst.setKeyWrites
  split
  · intro j hj; cases hj
  · rename_i hns
    cases id.asStr? with
    | none => intro j hj; cases hj
    | some s =>
      cases hd : mkDims k v with
      | error e => intro j hj; cases hj
      | ok d =>
        simp only []
        have hr := (Edited.resetSol hv).mid
        have hvr := hr.valid hv
        have hm : EditMid i.resetSol (i.resetSol.setData k (PyDict.insert (i.data k) s d)) := by
          refine mid_setData hvr k (validSizes_insert (data_valid hv k) s (mkDims_pos hd)) (insert_ne_nil _ _ _) ?_
            (fun _ => Or.inl rfl)
          rintro rfl hs
          exact absurd (by rw [show i.strip = true from hs]; rfl) hns
        have hm' := hr.trans hm
        refine mid_append (m := i.resetSol.setData k (PyDict.insert (i.data k) s d)) ?_ hm'
          (mid_resetAttrs (hm'.valid hv) k)
        intro j hj
        rcases List.mem_append.1 hj with h | h
        · exact mid_reset hv j h
        · simp only [List.mem_singleton] at h
          subst h; exact hm'

theorem keys_erase_sub {d : PyDict String Dim} {s : String} : ∀ c ∈ PyDict.keys (PyDict.erase d s), c ∈ PyDict.keys d := by
  intro c hc
  rw [PyDict.keys_erase] at hc
  exact List.mem_of_mem_erase hc

theorem mid_delKey {i : Inst} (hv : i.Valid) (k : SKind) (key : PyVal) :
    ∀ j ∈ i.delKeyWrites k key, EditMid i j := by
  unfold Inst.delKeyWrites
  split
  · intro j hj; cases hj
  · rename_i hlen
    cases hl : lookupKey (i.data k) key with
    | error e => intro j hj; cases hj
    | ok p =>
      simp only []
      obtain ⟨s, x⟩ := p
      obtain ⟨_, hx⟩ := lookupKey_ok hl
      have hm : EditMid i (i.setData k (PyDict.erase (i.data k) s)) := by
        refine mid_setData hv k (validSizes_erase (data_valid hv k) s) ?_ ?_ ?_
        · exact length_erase_pos hx (by
            have := List.length_pos_iff.2 (data_ne hv k)
            omega)
        · rintro rfl hs
          obtain ⟨W, hW⟩ := hv.strip hs
          exact absurd (by show i.containers.length = 1; rw [hW]; rfl) hlen
        · rintro rfl
          exact Or.inr keys_erase_sub
      intro j hj
      rcases List.mem_cons.1 hj with rfl | h
      · exact hm
      · exact hm.trans (mid_resetAttrs (hm.valid hv) k j h)

theorem keys_insert_sub {d : PyDict String Dim} {s : String} {x y : Dim} (h : PyDict.find? d s = some y) :
    ∀ c ∈ PyDict.keys (PyDict.insert d s x), c ∈ PyDict.keys d := by
  intro c hc
  rwa [PyDict.keys_insert_mem _ _ _ (PyDict.mem_keys_of_find? h)] at hc

theorem mid_setDim {i : Inst} (hv : i.Valid) (k : SKind) (id key v : PyVal) :
    ∀ j ∈ i.setDimWrites k id key v, EditMid i j := by
  unfold Inst.setDimWrites
  cases hl : lookupKey (i.data k) id with
  | error e => intro j hj; cases hj
  | ok p =>
    obtain ⟨s, d⟩ := p
    obtain ⟨_, hx⟩ := lookupKey_ok hl
    have hpos := (data_valid hv k).2 _ (PyDict.find?_mem hx)
    have key : ¬ (k = .containers && i.strip) = true → ∀ x : Dim, 0 < x.w ∧ 0 < x.l →
        ∀ j ∈ i.setData k (PyDict.insert (i.data k) s x) :: (i.setData k (PyDict.insert (i.data k) s x)).resetWrites,
          EditMid i j := by
      intro hns x hx'
      have hm : EditMid i (i.setData k (PyDict.insert (i.data k) s x)) := by
        refine mid_setData hv k (validSizes_insert (data_valid hv k) s hx') (insert_ne_nil _ _ _) ?_ ?_
        · rintro rfl hs
          exact absurd (by simp [hs]) hns
        · rintro rfl
          exact Or.inr (keys_insert_sub hx)
      intro j hj
      rcases List.mem_cons.1 hj with rfl | h
      · exact hm
      · exact hm.trans (mid_reset (hm.valid hv) j h)
    simp only []
    split
    · intro j hj; cases hj
    · rename_i hns
      split
      · intro j hj; cases hj
      · split
        · cases hp : v.posInt? with
          | none => intro j hj; cases hj
          | some w => exact key hns _ ⟨posInt?_pos hp, hpos.2⟩
        · split
          · cases hp : v.posInt? with
            | none => intro j hj; cases hj
            | some w => exact key hns _ ⟨hpos.1, posInt?_pos hp⟩
          · intro j hj; cases hj

theorem mid_popKey {i : Inst} (hv : i.Valid) (k : SKind) (key : PyVal) :
    ∀ j ∈ i.popKeyWrites k key, EditMid i j := by
  unfold Inst.popKeyWrites
  split
  · intro j hj; cases hj
  · exact mid_delKey hv k key

theorem mid_popItem {i : Inst} (hv : i.Valid) (k : SKind) : ∀ j ∈ i.popItemWrites k, EditMid i j := by
  unfold Inst.popItemWrites
  split
  · intro j hj; cases hj
  · exact mid_delKey hv k _

theorem mid_clear (k : SKind) : ∀ (n : Nat) {i : Inst}, i.Valid → ∀ j ∈ Inst.clearLoopWrites k n i, EditMid i j
  | 0, _, _ => by intro j hj; cases hj
  | n + 1, i, hv => by
    have h := (popItem_spec hv k).either
    unfold Inst.clearLoopWrites
    generalize i.popItem k = x at h
    obtain ⟨m, r⟩ := x
    have hm := either_mid hv h
    refine mid_append (mid_popItem hv k) hm ?_
    cases r with
    | ok u => exact mid_clear k n (hm.valid hv)
    | error e => intro j hj; cases hj

theorem mid_update (k : SKind) : ∀ (es : List (PyVal × PyVal)) {i : Inst}, i.Valid →
    ∀ j ∈ Inst.updateWrites k es i, EditMid i j
  | [], _, _ => by intro j hj; cases hj
  | (id, v) :: rest, i, hv => by
    have h := (setKey_spec hv k id v).either
    unfold Inst.updateWrites
    generalize i.setKey k id v = x at h
    obtain ⟨m, r⟩ := x
    have hm := either_mid hv h
    refine mid_append (mid_setKey hv k id v) hm ?_
    cases r with
    | ok u => exact mid_update k rest (hm.valid hv)
    | error e => intro j hj; cases hj

theorem mid_updateDim (k : SKind) (id : PyVal) : ∀ (es : List (PyVal × PyVal)) {i : Inst}, i.Valid →
    ∀ j ∈ Inst.updateDimWrites k id es i, EditMid i j
  | [], _, _ => by intro j hj; cases hj
  | (key, v) :: rest, i, hv => by
    have h := (setDim_spec hv k id key v).either
    unfold Inst.updateDimWrites
    generalize i.setDim k id key v = x at h
    obtain ⟨m, r⟩ := x
    have hm := either_mid hv h
    refine mid_append (mid_setDim hv k id key v) hm ?_
    cases r with
    | ok u => exact mid_updateDim k id rest (hm.valid hv)
    | error e => intro j hj; cases hj

theorem mid_setDefault {i : Inst} (hv : i.Valid) (k : SKind) (key v : PyVal) :
    ∀ j ∈ i.setDefaultWrites k key v, EditMid i j := by
  unfold Inst.setDefaultWrites
  split
  · exact mid_setKey hv k key v
  · intro j hj; cases hj

theorem mid_sort {i : Inst} (hv : i.Valid) (A : Arith) (s : Option (PyVal × Bool)) :
    ∀ j ∈ i.sortWrites A s, EditMid i j := by
  unfold Inst.sortWrites
  split
  · intro j hj; cases hj
  · split
    · intro j hj; cases hj
    · exact mid_assign hv _ _

theorem mid_orientLoop (turn : Nat → Nat → Bool) : ∀ (ids : List String) {i : Inst}, i.Valid →
    ∀ j ∈ Inst.orientLoopWrites turn ids i, EditMid i j
  | [], _, _ => by intro j hj; cases hj
  | id :: ids, i, hv => by
    unfold Inst.orientLoopWrites
    cases PyDict.find? i.items id with
    | none => intro j hj; cases hj
    | some d =>
      simp only []
      split
      · have h := (setDim_spec hv .items (.str id) (.str "w") (.int d.l)).either
        have hw := mid_setDim hv .items (.str id) (.str "w") (.int d.l)
        generalize i.setDim .items (.str id) (.str "w") (.int d.l) = x at h
        obtain ⟨m, r⟩ := x
        have hm := either_mid hv h
        refine mid_append hw hm ?_
        cases r with
        | error e => intro j hj; cases hj
        | ok u =>
          have hvm := hm.valid hv
          have h := (setDim_spec hvm .items (.str id) (.str "l") (.int d.w)).either
          have hw := mid_setDim hvm .items (.str id) (.str "l") (.int d.w)
          simp only []
          generalize m.setDim .items (.str id) (.str "l") (.int d.w) = x at h
          obtain ⟨m2, r⟩ := x
          have hm2 := either_mid hvm h
          refine mid_append hw hm2 ?_
          cases r with
          | error e => intro j hj; cases hj
          | ok u => exact mid_orientLoop turn ids (hm2.valid hvm)
      · exact mid_orientLoop turn ids hv

theorem mid_orient {i : Inst} (hv : i.Valid) (o : PyVal) : ∀ j ∈ i.orientWrites o, EditMid i j := by
  unfold Inst.orientWrites
  split
  · intro j hj; cases hj
  · split
    · intro j hj; cases hj
    · split
      · exact mid_orientLoop _ _ hv
      · split
        · exact mid_orientLoop _ _ hv
        · intro j hj; cases hj

/-! ### calls that discard the solution before they change the data -/

/-- the solution is gone, or it is the one of `i` and so are items and containers -/
def CleanMid (i j : Inst) : Prop :=
  j.strip = i.strip ∧ (j.solution = [] ∨ (j.solution = i.solution ∧ j.containers = i.containers ∧ j.items = i.items))

theorem CleanMid.refl (i : Inst) : CleanMid i i := ⟨rfl, Or.inr ⟨rfl, rfl, rfl⟩⟩

theorem CleanMid.trans {i j k : Inst} (h1 : CleanMid i j) (h2 : CleanMid j k) : CleanMid i k := by
  refine ⟨h2.1.trans h1.1, ?_⟩
  rcases h2.2 with h | ⟨a, b, c⟩
  · exact Or.inl h
  · rcases h1.2 with h | ⟨a', b', c'⟩
    · left; rw [a]; exact h
    · exact Or.inr ⟨a.trans a', b.trans b', c.trans c'⟩

theorem clean_append {i m : Inst} {a b : List Inst} (ha : ∀ j ∈ a, CleanMid i j) (hm : CleanMid i m)
    (hb : ∀ j ∈ b, CleanMid m j) : ∀ j ∈ a ++ b, CleanMid i j := by
  intro j hj
  rcases List.mem_append.1 hj with h | h
  · exact ha j h
  · exact hm.trans (hb j h)

theorem lastD_mem {i j : Inst} {l : List Inst} (h : l.getLastD i = j) : j = i ∨ j ∈ l := by
  cases l with
  | nil => left; exact h.symm
  | cons x l =>
    right
    rw [← h, List.getLastD_eq_getLast?, List.getLast?_eq_some_getLast (List.cons_ne_nil x l)]
    exact List.getLast_mem _

theorem clean_last {i : Inst} {l : List Inst} (h : ∀ j ∈ l, CleanMid i j) : CleanMid i (l.getLastD i) := by
  rcases lastD_mem (rfl : l.getLastD i = _) with e | e
  · rw [e]; exact .refl i
  · exact h _ e

theorem clean_reset (i : Inst) : ∀ j ∈ i.resetWrites, CleanMid i j := by
  intro j hj
  simp only [Inst.resetWrites, List.mem_cons, List.not_mem_nil, or_false] at hj
  rcases hj with rfl | rfl
  · exact ⟨rfl, Or.inr ⟨rfl, rfl, rfl⟩⟩
  · exact ⟨rfl, Or.inl rfl⟩

theorem clean_resetAttrs (k : SKind) (i : Inst) : ∀ j ∈ i.resetAttrsWrites k, CleanMid i j := by
  cases k with
  | items => exact clean_reset i
  | containers =>
    intro j hj
    rcases List.mem_append.1 hj with h | h
    · exact clean_reset i j h
    · simp only [List.mem_singleton] at h
      subst h; exact ⟨rfl, Or.inl rfl⟩

theorem clean_assign (k : SKind) (v : PyVal) (i : Inst) : ∀ j ∈ i.assignWrites k v, CleanMid i j := by
  unfold Inst.assignWrites
  split
  · intro j hj; cases hj
  · intro j hj
    rcases List.mem_append.1 hj with h | h
    · split at h
      · exact clean_reset i j h
      · cases h
    · cases hb : (buildStructure k v).2 with
      | error e => rw [hb] at h; cases h
      | ok d =>
        obtain ⟨_, _, h3⟩ := buildStructure_valid hb
        rw [hb, h3] at h
        simp only [if_true] at h
        cases k with
        | items =>
          simp only [List.mem_singleton] at h
          subst h; exact ⟨rfl, Or.inl rfl⟩
        | containers =>
          simp only [List.mem_cons, List.not_mem_nil, or_false] at h
          rcases h with rfl | rfl <;> exact ⟨rfl, Or.inl rfl⟩

theorem clean_setKey (k : SKind) (id v : PyVal) (i : Inst) : ∀ j ∈ i.setKeyWrites k id v, CleanMid i j := by
  unfold Inst.setKeyWrites
  split
  · intro j hj; cases hj
  · cases id.asStr? with
    | none => intro j hj; cases hj
    | some s =>
      cases mkDims k v with
      | error e => intro j hj; cases hj
      | ok d =>
        simp only []
        have hm : CleanMid i (i.resetSol.setData k (PyDict.insert (i.data k) s d)) := by
          cases k <;> exact ⟨rfl, Or.inl rfl⟩
        refine clean_append (m := i.resetSol.setData k (PyDict.insert (i.data k) s d)) ?_ hm (clean_resetAttrs k _)
        intro j hj
        rcases List.mem_append.1 hj with h | h
        · exact clean_reset i j h
        · simp only [List.mem_singleton] at h
          subst h; exact hm

theorem clean_update (k : SKind) : ∀ (es : List (PyVal × PyVal)) (i : Inst),
    ∀ j ∈ Inst.updateWrites k es i, CleanMid i j
  | [], _ => by intro j hj; cases hj
  | (id, v) :: rest, i => by
    have hw := clean_setKey k id v i
    have hm : CleanMid i (i.setKey k id v).1 := by rw [← last_setKey]; exact clean_last hw
    unfold Inst.updateWrites
    generalize i.setKey k id v = x at hm
    obtain ⟨m, r⟩ := x
    refine clean_append hw hm ?_
    cases r with
    | ok u => exact clean_update k rest m
    | error e => intro j hj; cases hj

theorem clean_setDefault (k : SKind) (key v : PyVal) (i : Inst) : ∀ j ∈ i.setDefaultWrites k key v, CleanMid i j := by
  unfold Inst.setDefaultWrites
  split
  · exact clean_setKey k key v i
  · intro j hj; cases hj

theorem clean_sort (A : Arith) (s : Option (PyVal × Bool)) (i : Inst) : ∀ j ∈ i.sortWrites A s, CleanMid i j := by
  unfold Inst.sortWrites
  split
  · intro j hj; cases hj
  · split
    · intro j hj; cases hj
    · exact clean_assign _ _ i

/-! ### local search -/

section
variable {σ ρ : Type} {O : LSOps σ ρ} {P : σ → Prop} {S : List String → Prop}

/-- an invariant of the object during a local search -/
theorem lsScan_inv (C : LSParams) (maxN : Nat)
    (hswap : ∀ q q' i j, S q → swapSeq q i j = .ok q' → S q')
    (hev : ∀ q s s', S q → P s → O.evaluate q s = .ok s' → P s')
    (hex : ∀ s s' v b, P s → O.compare s v b = .ok true → O.extra s = .ok s' → P s') :
    ∀ (swaps : List (Nat × Nat)) (k : Nat) (s : LSState σ ρ), P s.obj → S s.node →
    ∀ r, lsScan O C maxN swaps k s = .ok r → P r.1.obj ∧ S r.1.node
  | [], k, s, hP, hS => by intro r h; injection h with h; subst h; exact ⟨hP, hS⟩
  | (i, j) :: swaps, k, s, hP, hS => by
    intro r h
    unfold lsScan at h
    simp only [bind, Except.bind, pure, Except.pure] at h
    cases hcur : swapSeq s.node i j with
    | error e => rw [hcur] at h; cases h
    | ok cur =>
      rw [hcur] at h
      simp only at h
      have hScur := hswap _ _ _ _ hS hcur
      cases hv : O.evaluate cur s.obj with
      | error e => rw [hv] at h; cases h
      | ok obj =>
        rw [hv] at h
        simp only at h
        have hPo := hev _ _ _ hScur hP hv
        cases hv2 : O.objVal obj with
        | error e => rw [hv2] at h; cases h
        | ok v =>
          rw [hv2] at h
          simp only at h
          cases hc : O.compare obj v s.best with
          | error e => rw [hc] at h; cases h
          | ok accept =>
            rw [hc] at h
            simp only at h
            cases accept with
            | true =>
              simp only [if_true] at h
              cases hg : O.getSol obj with
              | error e => rw [hg] at h; cases h
              | ok g =>
                rw [hg] at h
                simp only at h
                cases hx : O.extra obj with
                | error e => rw [hx] at h; cases h
                | ok obj' =>
                  rw [hx] at h
                  simp only [Bool.or_true, Bool.true_or, if_true] at h
                  injection h with h
                  subst h
                  exact ⟨hex _ _ _ _ hPo hc hx, hScur⟩
            | false =>
              simp only [Bool.false_eq_true, if_false, Bool.or_false, Bool.false_and] at h
              split at h
              · injection h with h; subst h; exact ⟨hPo, hS⟩
              · exact lsScan_inv C maxN hswap hev hex swaps (k + 1) _ (by exact hPo) (by exact hS) r h

theorem lsLoop_inv (C : LSParams) (maxN : Nat) (swaps : List (Nat × Nat))
    (hswap : ∀ q q' i j, S q → swapSeq q i j = .ok q' → S q')
    (hev : ∀ q s s', S q → P s → O.evaluate q s = .ok s' → P s')
    (hex : ∀ s s' v b, P s → O.compare s v b = .ok true → O.extra s = .ok s' → P s') :
    ∀ (fuel : Nat) (s : LSState σ ρ), P s.obj → S s.node →
    ∀ r, lsLoop O C maxN swaps fuel s = .ok r → P r.obj
  | 0, s, _, _ => by intro r h; cases h
  | fuel + 1, s, hP, hS => by
    intro r h
    unfold lsLoop at h
    simp only [bind, Except.bind, pure, Except.pure] at h
    cases hr : lsScan O C maxN swaps 0 s with
    | error e => rw [hr] at h; cases h
    | ok x =>
      rw [hr] at h
      simp only at h
      obtain ⟨h1, h2⟩ := lsScan_inv C maxN hswap hev hex swaps 0 s hP hS x hr
      split at h
      · exact lsLoop_inv C maxN swaps hswap hev hex fuel _ (by exact h1) (by exact h2) r h
      · injection h with h; subst h; exact h1

end

/-- a packing a local search from `i` evaluates -/
def Evaluated (A : Arith) (i : Inst) (sol : Solution) (ov : ObjVals) : Prop :=
  ∃ seq H, seq.Perm (PyDict.keys i.items) ∧ (i.strip = true → 0 < H ∧ H ≤ i.maxH) ∧
    (i.strip = false → H = i.height.getD 0) ∧ Packs A i H seq sol ov

/-- heights a local search from `i` uses -/
def HeightsOk (i : Inst) (h : Option Nat) (hs : List Nat) : Prop :=
  (i.strip = true → ∃ n, h = some n ∧ 0 < n ∧ n ≤ i.maxH) ∧ (i.strip = false → h = i.height ∧ hs = i.heights)

/-- a state during a local search from `i` -/
def LSMid (A : Arith) (i j : Inst) : Prop :=
  ∃ sol ov h hs, j = i.upd sol ov h hs ∧ HeightsOk i h hs ∧
    (sol = i.solution ∨ ∃ ov', FromStrategy A i i.strategy sol ov') ∧
    (ov = i.objVals ∨ ∃ sol', FromStrategy A i i.strategy sol' ov)

theorem Evaluated.from {A : Arith} {i : Inst} {sol : Solution} {ov : ObjVals} (h : Evaluated A i sol ov) :
    FromStrategy A i i.strategy sol ov := by
  obtain ⟨seq, H, h1, h2, h3, h4⟩ := h
  exact ⟨seq, H, sol, h1, fun hs => (h2 hs).1, h3, h4, .refl _⟩

theorem HeightsOk.self {i : Inst} (hv : i.Valid) : HeightsOk i i.height i.heights := by
  refine ⟨fun hs => ?_, fun _ => ⟨rfl, rfl⟩⟩
  obtain ⟨n, h1, h2⟩ := hv.height hs
  refine ⟨n, h1, h2, ?_⟩
  unfold Inst.maxH; rw [h1]; exact Nat.le_max_left _ _

theorem HeightsOk.packs {A : Arith} {i : Inst} {h : Option Nat} {hs : List Nat} (hh : HeightsOk i h hs)
    {seq : List String} (hp : seq.Perm (PyDict.keys i.items)) {sol : Solution} {ov : ObjVals}
    (hpk : Packs A i (h.getD 0) seq sol ov) : Evaluated A i sol ov := by
  refine ⟨seq, h.getD 0, hp, ?_, ?_, hpk⟩
  · intro hs
    obtain ⟨n, rfl, h1, h2⟩ := hh.1 hs
    exact ⟨h1, h2⟩
  · intro hs; rw [(hh.2 hs).1]

theorem HeightsOk.pos {i : Inst} {h : Option Nat} {hs : List Nat} (hh : HeightsOk i h hs) :
    i.strip = true → 0 < h.getD 0 := by
  intro hs
  obtain ⟨n, rfl, h1, h2⟩ := hh.1 hs
  exact h1

/-- the object of a traced local search from `i` -/
def TraceInv (A : Arith) (i : Inst) (s : Inst × List Inst) : Prop :=
  (∃ sol ov h hs, s.1 = i.upd sol ov h hs ∧ HeightsOk i h hs ∧ Evaluated A i sol ov) ∧ ∀ j ∈ s.2, LSMid A i j

/-- one `solve(sequence)` in a state of the search -/
theorem solve_mid {A : Arith} {i : Inst} (hv : i.Valid) {sol0 : Solution} {ov0 : ObjVals} {h : Option Nat}
    {hs : List Nat} (hh : HeightsOk i h hs)
    (h0 : ov0 = i.objVals ∨ ∃ sol', FromStrategy A i i.strategy sol' ov0) {seq : Option (List String)}
    (hp : (seq.getD (PyDict.keys i.items)).Perm (PyDict.keys i.items)) {k : Inst}
    (hk : (i.upd sol0 ov0 h hs).solve A seq = .ok k) :
    (∃ sol ov, k = i.upd sol ov h hs ∧ Evaluated A i sol ov) ∧
    ∀ j ∈ (i.upd sol0 ov0 h hs).solveWrites A seq, LSMid A i j := by
  have he : HP.solve A (i.upd sol0 ov0 h hs).solveIn seq =
      HP.solve A (i.solveIn.withH (h.getD 0)) (some (seq.getD (PyDict.keys i.items))) := by
    cases seq with
    | some q => rfl
    | none => exact solve_none_eq (p := i.solveIn.withH (h.getD 0)) hv.items.1
  have hk2 := hk
  unfold Inst.solve at hk
  simp only [bind, Except.bind, pure, Except.pure] at hk
  rw [he] at hk
  cases hr : HP.solve A (i.solveIn.withH (h.getD 0)) (some (seq.getD (PyDict.keys i.items))) with
  | error e => rw [hr] at hk; cases hk
  | ok x =>
    obtain ⟨sol, ov⟩ := x
    rw [hr] at hk
    injection hk with hk
    subst hk
    have hev : Evaluated A i sol ov := hh.packs hp hr
    refine ⟨⟨sol, ov, rfl, hev⟩, ?_⟩
    unfold Inst.solveWrites
    rw [hk2]
    intro j hj
    simp only [List.mem_cons, List.not_mem_nil, or_false] at hj
    rcases hj with rfl | rfl
    · exact ⟨sol, ov0, h, hs, rfl, hh, Or.inr ⟨_, hev.from⟩, h0⟩
    · exact ⟨sol, ov, h, hs, rfl, hh, Or.inr ⟨_, hev.from⟩, Or.inr ⟨_, hev.from⟩⟩

theorem swap_perm {q q' : List String} {a b : Nat} {l : List String} (h : q.Perm l) (hq : swapSeq q a b = .ok q') :
    q'.Perm l := by
  have hlen : a < q.length ∧ b < q.length := by
    unfold swapSeq at hq
    simp only [bind, Except.bind] at hq
    have get : ∀ {i : Nat} {x : String}, pyGet q (i : Int) = .ok x → i < q.length := by
      intro i x hx
      by_contra hle
      unfold pyGet at hx
      have h1 : pyIdx q.length (i : Int) = none := by
        unfold pyIdx
        rw [if_pos (by omega), if_neg (by omega)]
      rw [h1] at hx
      cases hx
    cases ha : pyGet q (a : Int) with
    | error e => rw [ha] at hq; cases hq
    | ok x =>
      rw [ha] at hq
      simp only at hq
      cases hb : pyGet q (b : Int) with
      | error e => rw [hb] at hq; cases hq
      | ok y => exact ⟨get ha, get hb⟩
  rw [swapSeq_eq hlen.1 hlen.2] at hq
  injection hq with hq
  subst hq
  exact (exchange_perm _ _ _).trans h

/-- an accepted node sets a height in the range of the search -/
theorem nextH_ok {A : Arith} {i : Inst} (hv : i.Valid) (hst : i.strip = true) {sol : Solution} {ov : ObjVals}
    (he : Evaluated A i sol ov) {v b : Rat} (hacc : Acc i sol v b) (h : Option Nat) :
    ∃ n, nextH i sol h = some n ∧ 0 < n ∧ n ≤ i.maxH := by
  obtain ⟨seq, H, h1, h2, _, h4⟩ := he
  obtain ⟨p1, p2⟩ := h2 hst
  refine ⟨max (stackOf (stripPart sol)) (i.minHeight.getD 0), by unfold nextH; rw [if_pos hst], ?_, ?_⟩
  · cases hm : i.minHeight with
    | none =>
      have := stack_pos hv hst p1 h1 h4 (hacc.2 hst hm)
      omega
    | some m =>
      have := hv.minPos m hm
      simp only [Option.getD_some]; omega
  · have := stack_le hv hst p1 h1 h4
    unfold Inst.maxH at p2 ⊢
    omega

theorem traced_evaluate {A : Arith} {i : Inst} (hv : i.Valid) (q : List String) (s s' : Inst × List Inst)
    (hq : q.Perm (PyDict.keys i.items)) (hP : TraceInv A i s) (h : (tracedOps A).evaluate q s = .ok s') :
    TraceInv A i s' := by
  obtain ⟨⟨sol, ov, ht, hs, e1, e2, e3⟩, e4⟩ := hP
  change (s.1.solve A (some q)).map _ = _ at h
  cases hi : s.1.solve A (some q) with
  | error e => rw [hi] at h; cases h
  | ok k =>
    rw [hi] at h
    injection h with h
    subst h
    rw [e1] at hi
    obtain ⟨⟨sol1, ov1, g1, g2⟩, g3⟩ := solve_mid hv e2 (Or.inr ⟨_, e3.from⟩) (by exact hq) hi
    refine ⟨⟨sol1, ov1, ht, hs, g1, e2, g2⟩, ?_⟩
    intro j hj
    rcases List.mem_append.1 hj with hj | hj
    · exact e4 j hj
    · rw [e1] at hj; exact g3 j hj

theorem traced_extra {A : Arith} {i : Inst} (hv : i.Valid) (s s' : Inst × List Inst) (v b : Rat)
    (hP : TraceInv A i s) (hc : (tracedOps A).compare s v b = .ok true)
    (h : (tracedOps A).extra s = .ok s') : TraceInv A i s' := by
  obtain ⟨⟨sol, ov, ht, hs, e1, e2, e3⟩, e4⟩ := hP
  obtain ⟨seq, H, hp, hH1, hH2, hpk⟩ := id e3
  have hf : SolFacts i.containers i.items sol ov := hpk.facts hv (fun hs => (hH1 hs).1) hp
  change s.1.extraNode.map _ = _ at h
  change s.1.compareNode v b = _ at hc
  cases hx : s.1.extraNode with
  | error e => rw [hx] at h; cases h
  | ok k =>
    rw [hx] at h
    injection h with h
    subst h
    cases hst : i.strip with
    | false =>
      have hs1 : s.1.strip = false := by rw [e1]; exact hst
      have hk : k = s.1 := by
        unfold Inst.extraNode at hx
        rw [hs1] at hx
        injection hx with hx
        exact hx.symm
      refine ⟨⟨sol, ov, ht, hs, by rw [← e1]; exact hk, e2, e3⟩, ?_⟩
      intro j hj
      rcases List.mem_append.1 hj with hj | hj
      · exact e4 j hj
      · unfold Inst.extraWrites at hj
        rw [hx, hs1] at hj
        cases hj
    | true =>
      obtain ⟨f1, _⟩ := find_strip hv hst hf
      have hne := solution_ne_nil hf hv.contsNe
      have hacc : Acc i sol v b := by
        rw [e1] at hc
        unfold Inst.compareNode at hc
        simp only [Inst.upd, hst, Bool.not_true, Bool.false_eq_true, if_false] at hc
        cases hm : i.minHeight with
        | some m =>
          rw [hm] at hc
          simp only [Except.ok.injEq, decide_eq_true_eq] at hc
          exact ⟨hc, fun _ h => by rw [hm] at h; cases h⟩
        | none =>
          rw [hm] at hc
          simp only [bind, Except.bind, pure, Except.pure] at hc
          rw [PyDict.getE_of_find? f1] at hc
          simp only [Except.ok.injEq, Bool.and_eq_true, decide_eq_true_eq] at hc
          exact ⟨hc.2, fun _ _ => hc.1⟩
      obtain ⟨n, n1, n2, n3⟩ := nextH_ok hv hst e3 hacc ht
      have hk : k = i.upd sol ov (nextH i sol ht) (hs ++ [(nextH i sol ht).getD 0]) := by
        rw [e1] at hx
        unfold Inst.extraNode at hx
        simp only [Inst.upd, hst, if_true, Inst.setHeight, bind, Except.bind, pure, Except.pure, hne, if_false] at hx
        rw [PyDict.getE_of_find? f1] at hx
        simp only [nextH, hst, if_true]
        cases hm : i.minHeight with
        | none =>
          rw [hm] at hx
          injection hx with hx
          rw [← hx]; simp [Inst.upd, hm, hst]
        | some m =>
          rw [hm] at hx
          injection hx with hx
          rw [← hx]; simp [Inst.upd, hm, hst]
      have hok : ∀ hs', HeightsOk i (nextH i sol ht) hs' :=
        fun hs' => ⟨fun _ => ⟨n, n1, n2, n3⟩, fun h => by rw [hst] at h; cases h⟩
      refine ⟨⟨sol, ov, _, _, hk, hok _, e3⟩, ?_⟩
      intro j hj
      rcases List.mem_append.1 hj with hj | hj
      · exact e4 j hj
      · unfold Inst.extraWrites at hj
        rw [hx] at hj
        have hs1 : s.1.strip = true := by rw [e1]; exact hst
        simp only at hj
        rw [if_pos hs1] at hj
        simp only [List.mem_cons, List.not_mem_nil, or_false] at hj
        rcases hj with rfl | rfl
        · refine ⟨sol, ov, nextH i sol ht, hs, ?_, hok _, Or.inr ⟨_, e3.from⟩, Or.inr ⟨_, e3.from⟩⟩
          rw [hk, e1]; rfl
        · exact ⟨sol, ov, _, _, hk, hok _, Or.inr ⟨_, e3.from⟩, Or.inr ⟨_, e3.from⟩⟩

theorem traced_init {A : Arith} {i : Inst} (hv : i.Valid) (r : (Inst × List Inst) × (Solution × ObjVals))
    (h : (tracedOps A).init (i, []) = .ok r) : TraceInv A i r.1 := by
  change (i.initSolution A).map _ = _ at h
  cases hi : i.initSolution A with
  | error e => rw [hi] at h; cases h
  | ok k =>
    rw [hi] at h
    injection h with h
    subst h
    unfold Inst.initSolution at hi
    simp only [bind, Except.bind, pure, Except.pure] at hi
    cases hs : i.solve A none with
    | error e => rw [hs] at hi; cases hi
    | ok x =>
      rw [hs] at hi
      simp only at hi
      cases hg : x.getSolution with
      | error e => rw [hg] at hi; cases hi
      | ok g =>
        rw [hg] at hi
        injection hi with hi
        subst hi
        obtain ⟨⟨sol1, ov1, g1, g2⟩, g3⟩ := solve_mid (A := A) (sol0 := i.solution) (ov0 := i.objVals)
          (seq := none) hv (HeightsOk.self hv) (Or.inl rfl) (.refl _) (by exact hs)
        refine ⟨⟨sol1, ov1, _, _, g1, HeightsOk.self hv, g2⟩, ?_⟩
        intro j hj
        exact g3 j hj

theorem traced_inv {A : Arith} {i : Inst} (hv : i.Valid) {C : LSParams} {fuel : Nat} {throttle : Bool}
    {s : LSState (Inst × List Inst) (Solution × ObjVals)}
    (h : lsRun (tracedOps A) C fuel (PyDict.keys i.items) throttle (i, []) = .ok s) : TraceInv A i s.obj := by
  unfold lsRun at h
  simp only [bind, Except.bind, pure, Except.pure] at h
  cases hr : (tracedOps A).init (i, []) with
  | error e => rw [hr] at h; cases h
  | ok r =>
    rw [hr] at h
    simp only at h
    have h0 := traced_init hv r hr
    cases hb : (tracedOps A).objVal r.1 with
    | error e => rw [hb] at h; cases h
    | ok best =>
      rw [hb] at h
      exact lsLoop_inv (P := TraceInv A i) (S := fun q => q.Perm (PyDict.keys i.items)) C _ _
        (fun q q' a b hq h => swap_perm hq h) (traced_evaluate hv) (traced_extra hv) _ _ (by exact h0)
        (by exact .refl _) s h

/-- every state during a local search -/
theorem mid_localSearch {A : Arith} {clock : Nat → Rat} {start : Rat} {throttle : Bool} {i : Inst} (hv : i.Valid) :
    ∀ j ∈ i.localSearchWrites A clock start throttle, LSMid A i j := by
  have lift : ∀ hs0 : List Nat, (i.strip = false → hs0 = i.heights) → ∀ j,
      LSMid A { i with heights := hs0 } j → LSMid A i j := by
    rintro hs0 h0 j ⟨sol, ov, h, hs, e1, e2, e3, e4⟩
    exact ⟨sol, ov, h, hs, e1, ⟨e2.1, fun hb => ⟨(e2.2 hb).1, (e2.2 hb).2.trans (h0 hb)⟩⟩, e3, e4⟩
  obtain ⟨r, t, hrun⟩ := C18_terminates A clock start throttle i hv
  have hret := C17_genuine A clock start throttle i r t hv hrun
  intro j hj
  unfold Inst.localSearchWrites at hj
  unfold Inst.localSearch at hrun
  simp only [bind, Except.bind, pure, Except.pure] at hj hrun
  have he : (if i.strip = true then { i with heights := [i.height.getD 0] } else i) =
      { i with heights := if i.strip = true then [i.height.getD 0] else i.heights } := by
    split <;> rfl
  rw [he] at hj hrun
  generalize hhs : (if i.strip = true then [i.height.getD 0] else i.heights) = hs0 at hj hrun
  have h0 : i.strip = false → hs0 = i.heights := by
    intro hb; rw [← hhs, hb]; rfl
  have hv' : ({ i with heights := hs0 } : Inst).Valid :=
    ⟨hv.conts, hv.items, hv.contsNe, hv.itemsNe, hv.strip, hv.height, hv.minPos⟩
  rw [traced_run] at hrun
  cases hs : lsRun (tracedOps A) ⟨A, clock, start, ({ i with heights := hs0 } : Inst).maxTime⟩
      (lsFuel { i with heights := hs0 }) (PyDict.keys ({ i with heights := hs0 } : Inst).items) throttle
      ({ i with heights := hs0 }, []) with
  | error e => rw [hs] at hj; cases hj
  | ok s =>
    rw [hs] at hj hrun
    obtain ⟨⟨sol, ov, h, hs', e1, e2, e3⟩, e4⟩ := traced_inv hv' hs
    simp only [Except.map] at hrun
    injection hrun with hrun
    injection hrun with hr1 hr2
    obtain ⟨seq, H, sol', k1, k2, k3, k4, k5⟩ := hret
    have hfrom : FromStrategy A i i.strategy s.retained.1 s.retained.2 := by
      have hr : r.solution = s.retained.1 ∧ r.objVals = s.retained.2 := by rw [← hr1]; exact ⟨rfl, rfl⟩
      rw [← hr.1, ← hr.2]
      exact ⟨seq, H, sol', k1, fun hs => (k2 hs).2, k3, k4, k5⟩
    simp only [List.mem_append, List.mem_cons, List.not_mem_nil, or_false] at hj
    rcases hj with (hj | hj) | hj | hj
    · split at hj
      · rename_i hst
        simp only [List.mem_singleton] at hj
        subst hj
        exact ⟨i.solution, i.objVals, i.height, hs0, rfl,
          ⟨(HeightsOk.self hv).1, fun hb => by rw [hb] at hst; cases hst⟩, Or.inl rfl, Or.inl rfl⟩
      · cases hj
    · exact lift hs0 h0 j (e4 j hj)
    · refine lift hs0 h0 j ⟨s.retained.1, ov, h, hs', ?_, e2, Or.inr ⟨_, hfrom⟩, Or.inr ⟨_, e3.from⟩⟩
      rw [hj, e1]; rfl
    · refine lift hs0 h0 j ⟨s.retained.1, s.retained.2, h, hs', ?_, e2, Or.inr ⟨_, hfrom⟩, Or.inr ⟨_, hfrom⟩⟩
      rw [hj, e1]; rfl

end HP
