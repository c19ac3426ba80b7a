import Verif.Proofs.Grid
/-
Lemmas about the generated potential points: no read fails, every generated point lies in
the container and is supported from below or from the left, and there are at most
`w + l + 2` of them.
-/
namespace HP

/-- A point that lies in the container and rests on the wall or on an occupied cell. -/
def SupPt (g : Grid) (W L : Nat) (p : Pt) : Prop :=
  p.x < W ∧ p.y < L ∧
  (p.x = 0 ∨ p.y = 0 ∨ cell g (p.y - 1) p.x ≠ 0 ∨ cell g p.y (p.x - 1) ≠ 0)

/-- all cells of the rectangle are occupied -/
def Filled (g : Grid) (Xo Yo w l : Nat) : Prop :=
  ∀ j i, Xo ≤ i → i < Xo + w → Yo ≤ j → j < Yo + l → cell g j i ≠ 0

theorem in23_ne {v : Nat} (h : in23 v = true) : v ≠ 0 := by
  unfold in23 at h; intro h0; subst h0; simp at h

theorem testP_rd_tot {g : Grid} {W L : Nat} (h : WF g W L) (p : Nat → Bool) {y x : Int}
    (hy0 : -(L : Int) ≤ y) (hy : y < L) (hx0 : -(W : Int) ≤ x) (hx : x < W) :
    ∃ b, testP (rd g y x) p = .ok b := by
  obtain ⟨v, hv⟩ := rd_tot h hy0 hy hx0 hx
  exact ⟨p v, by rw [hv]; rfl⟩

theorem andP_tot {a b : Except PyErr Bool} (ha : ∃ v, a = .ok v)
    (hb : a = .ok true → ∃ v, b = .ok v) : ∃ v, andP a b = .ok v := by
  obtain ⟨v, rfl⟩ := ha
  cases v with
  | false => exact ⟨false, rfl⟩
  | true => simpa using hb rfl

theorem orP_tot {a b : Except PyErr Bool} (ha : ∃ v, a = .ok v)
    (hb : a = .ok false → ∃ v, b = .ok v) : ∃ v, orP a b = .ok v := by
  obtain ⟨v, rfl⟩ := ha
  cases v with
  | true => exact ⟨true, rfl⟩
  | false => simpa using hb rfl

theorem andP_eq_true {a b : Except PyErr Bool} (h : andP a b = .ok true) :
    a = .ok true ∧ b = .ok true := by
  unfold andP at h; split at h <;> simp_all

theorem orP_eq_false {a b : Except PyErr Bool} (h : orP a b = .ok false) :
    a = .ok false ∧ b = .ok false := by
  unfold orP at h; split at h <;> simp_all

theorem scanA_spec {g : Grid} {W L : Nat} (h : WF g W L) {Ay : Nat} (hA : Ay < L) (hA0 : 0 < Ay) :
    ∀ n, n ≤ W → ∃ r, scanA g Ay n = .ok r ∧
      ∀ xp, r = some xp → xp ≤ n ∧ (xp = 0 ∨ cell g Ay (xp - 1) ≠ 0)
  | 0, _ => ⟨none, rfl, by simp⟩
  | x + 1, hn => by
    obtain ⟨r, hr, hspec⟩ := scanA_spec h hA hA0 x (by omega)
    have e : ((Ay : Int) - 1) = ((Ay - 1 : Nat) : Int) := by omega
    unfold scanA
    rw [e, rd_eq h hA (by omega), rd_eq h (by omega) (by omega)]
    simp only
    split
    · rename_i hc
      refine ⟨some x, rfl, ?_⟩
      intro xp hxp
      injection hxp with hxp; subst hxp
      simp at hc
      exact ⟨by omega, Or.inl hc.2⟩
    · split
      · exact ⟨r, hr, fun xp hxp => ⟨by have := hspec xp hxp; omega, (hspec xp hxp).2⟩⟩
      · split
        · rename_i hc
          refine ⟨some (x + 1), rfl, ?_⟩
          intro xp hxp
          injection hxp with hxp; subst hxp
          rw [Bool.and_eq_true] at hc
          exact ⟨by omega, Or.inr (in23_ne hc.1)⟩
        · split
          · rename_i hc
            refine ⟨some (x + 1), rfl, ?_⟩
            intro xp hxp
            injection hxp with hxp; subst hxp
            rw [Bool.and_eq_true] at hc
            exact ⟨by omega, Or.inr (in23_ne hc.1)⟩
          · exact ⟨r, hr, fun xp hxp => ⟨by have := hspec xp hxp; omega, (hspec xp hxp).2⟩⟩

theorem scanB_spec {g : Grid} {W L : Nat} (h : WF g W L) {Bx : Nat} (hB : Bx < W) (hB0 : 0 < Bx) :
    ∀ n, n ≤ L → ∃ r, scanB g Bx n = .ok r ∧
      ∀ yp, r = some yp → yp ≤ n ∧ (yp = 0 ∨ cell g (yp - 1) Bx ≠ 0)
  | 0, _ => ⟨none, rfl, by simp⟩
  | y + 1, hn => by
    obtain ⟨r, hr, hspec⟩ := scanB_spec h hB hB0 y (by omega)
    have e : ((Bx : Int) - 1) = ((Bx - 1 : Nat) : Int) := by omega
    unfold scanB
    rw [e, rd_eq h (by omega) hB, rd_eq h (by omega) (by omega)]
    simp only
    split
    · rename_i hc
      refine ⟨some y, rfl, ?_⟩
      intro yp hyp
      injection hyp with hyp; subst hyp
      simp at hc
      exact ⟨by omega, Or.inl hc.2⟩
    · split
      · exact ⟨r, hr, fun yp hyp => ⟨by have := hspec yp hyp; omega, (hspec yp hyp).2⟩⟩
      · split
        · rename_i hc
          refine ⟨some (y + 1), rfl, ?_⟩
          intro yp hyp
          injection hyp with hyp; subst hyp
          rw [Bool.and_eq_true] at hc
          exact ⟨by omega, Or.inr (in23_ne hc.1)⟩
        · split
          · rename_i hc
            refine ⟨some (y + 1), rfl, ?_⟩
            intro yp hyp
            injection hyp with hyp; subst hyp
            rw [Bool.and_eq_true] at hc
            exact ⟨by omega, Or.inr (in23_ne hc.1)⟩
          · split
            · exact ⟨none, rfl, by simp⟩
            · exact ⟨r, hr, fun yp hyp => ⟨by have := hspec yp hyp; omega, (hspec yp hyp).2⟩⟩

theorem condA_tot {g : Grid} {W L : Nat} (h : WF g W L) {Xo Ay : Nat} (hX : Xo < W)
    (hA : 0 < Ay) : ∃ b, condA g L Xo Ay = .ok b ∧ (b = true → Ay < L) := by
  have : ∃ b, condA g L Xo Ay = .ok b := by
    unfold condA
    refine andP_tot (andP_tot ⟨_, rfl⟩ ?_) ?_
    · intro hh; simp at hh
      exact testP_rd_tot h _ (by omega) (by omega) (by omega) (by omega)
    · intro hh
      have hAL := (andP_eq_true hh).1
      simp at hAL
      refine orP_tot ⟨_, rfl⟩ ?_
      intro _
      refine orP_tot (andP_tot ?_ ?_) ?_
      · exact testP_rd_tot h _ (by omega) (by omega) (by omega) (by omega)
      · intro _; exact testP_rd_tot h _ (by omega) (by omega) (by omega) (by omega)
      · intro _
        refine andP_tot ?_ ?_
        · exact testP_rd_tot h _ (by omega) (by omega) (by omega) (by omega)
        · intro _; exact testP_rd_tot h _ (by omega) (by omega) (by omega) (by omega)
  obtain ⟨b, hb⟩ := this
  refine ⟨b, hb, ?_⟩
  intro hbt; subst hbt
  unfold condA at hb
  have := (andP_eq_true (andP_eq_true hb).1).1
  simpa using this

theorem condB_tot {g : Grid} {W L : Nat} (h : WF g W L) {Yo Bx : Nat} (hY : Yo < L)
    (hB : 0 < Bx) : ∃ b, condB g W Yo Bx = .ok b ∧ (b = true → Bx < W) := by
  have : ∃ b, condB g W Yo Bx = .ok b := by
    unfold condB
    refine andP_tot (andP_tot ⟨_, rfl⟩ ?_) ?_
    · intro hh; simp at hh
      exact testP_rd_tot h _ (by omega) (by omega) (by omega) (by omega)
    · intro hh
      have hBW := (andP_eq_true hh).1
      simp at hBW
      refine orP_tot ⟨_, rfl⟩ ?_
      intro _
      refine orP_tot (andP_tot ?_ ?_) ?_
      · exact testP_rd_tot h _ (by omega) (by omega) (by omega) (by omega)
      · intro _; exact testP_rd_tot h _ (by omega) (by omega) (by omega) (by omega)
      · intro _
        refine andP_tot ?_ ?_
        · exact testP_rd_tot h _ (by omega) (by omega) (by omega) (by omega)
        · intro _; exact testP_rd_tot h _ (by omega) (by omega) (by omega) (by omega)
  obtain ⟨b, hb⟩ := this
  refine ⟨b, hb, ?_⟩
  intro hbt; subst hbt
  unfold condB at hb
  have := (andP_eq_true (andP_eq_true hb).1).1
  simpa using this

theorem genA_spec (A : Arith) {g : Grid} {W L : Nat} (h : WF g W L) {Xo Yo w l : Nat}
    (hw : 0 < w) (hl : 0 < l) (hX : Xo + w ≤ W) (hY : Yo + l ≤ L) (hf : Filled g Xo Yo w l) :
    ∃ pts, genA A g W L Xo Yo l = .ok pts ∧ pts.length ≤ 2 ∧ (∀ q ∈ pts, SupPt g W L q.2) ∧
      (Yo + l < L → cell g (Yo + l) Xo = 0 →
        (.A, ⟨Xo, Yo + l⟩) ∈ pts ∨ (.A__, ⟨Xo, Yo + l⟩) ∈ pts) ∧
      (∀ q ∈ pts, ((q.1 = .A ∨ q.1 = .A__) ∧ q.2 = ⟨Xo, Yo + l⟩) ∨ q.1 = .A_ ∨ q.1 = .E) := by
  obtain ⟨aG, ha, haL⟩ := condA_tot h (Xo := Xo) (Ay := Yo + l) (by omega) (by omega)
  obtain ⟨nA, hn⟩ : ∃ b, orP (.ok (decide (Yo + l ≥ L))) (testP (rd g ((Yo + l : Nat) : Int) Xo) (· != 0))
      = .ok b := by
    refine orP_tot ⟨_, rfl⟩ ?_
    intro hh; simp at hh
    exact testP_rd_tot h _ (by omega) (by omega) (by omega) (by omega)
  have hnL : nA = false → Yo + l < L := by
    intro hh; subst hh
    have := (orP_eq_false hn).1; simpa using this
  obtain ⟨pr, hp⟩ : ∃ b, (if nA then .ok false else orP (.ok (decide (Yo + l ≥ L)))
      (testP (rd g ((Yo + l : Nat) : Int) ((Xo : Int) - 1)) in23)) = Except.ok b := by
    cases nA with
    | true => exact ⟨false, rfl⟩
    | false =>
      have := hnL rfl
      refine orP_tot ⟨_, rfl⟩ ?_
      intro _
      exact testP_rd_tot h _ (by omega) (by omega) (by omega) (by omega)
  obtain ⟨sc, hs⟩ : ∃ b, (andP (.ok (decide (Yo + l < L))) <| andP (.ok (decide (Xo > 0))) <|
    andP (.ok (!aG)) <| andP (.ok (!pr)) <|
    andP (testP (rd g (((Yo + l : Nat) : Int) - 1) ((Xo : Int) - 1)) (· == 0))
         (testP (rd g ((Yo + l : Nat) : Int) ((Xo : Int) - 1)) (· == 0))) = Except.ok b := by
    refine andP_tot ⟨_, rfl⟩ ?_
    intro h1; simp at h1
    refine andP_tot ⟨_, rfl⟩ ?_
    intro h2; simp at h2
    refine andP_tot ⟨_, rfl⟩ ?_
    intro _
    refine andP_tot ⟨_, rfl⟩ ?_
    intro _
    refine andP_tot ?_ ?_
    · exact testP_rd_tot h _ (by omega) (by omega) (by omega) (by omega)
    · intro _; exact testP_rd_tot h _ (by omega) (by omega) (by omega) (by omega)
  have hsL : sc = true → Yo + l < L ∧ aG = false := by
    intro hh; subst hh
    have h1 := andP_eq_true hs
    have h2 := andP_eq_true (andP_eq_true h1.2).2
    have h3 := h2.1
    exact ⟨by simpa using h1.1, by simpa using h3⟩
  obtain ⟨xp, hx, hxs⟩ : ∃ r, (if sc then scanA g (Yo + l) Xo else .ok none) = Except.ok r ∧
      ∀ x, r = some x → (x ≤ Xo ∧ (x = 0 ∨ cell g (Yo + l) (x - 1) ≠ 0)) ∧
        Yo + l < L ∧ aG = false := by
    cases sc with
    | false => exact ⟨none, rfl, by simp⟩
    | true =>
      obtain ⟨r, hr, hspec⟩ := scanA_spec h (hsL rfl).1 (by omega) Xo (by omega)
      exact ⟨r, hr, fun x hx => ⟨hspec x hx, hsL rfl⟩⟩
  have supA : Yo + l < L → SupPt g W L ⟨Xo, Yo + l⟩ := by
    intro hL
    refine ⟨by simp; omega, hL, Or.inr (Or.inr (Or.inl ?_))⟩
    exact hf _ _ (by simp) (by simp; omega) (by simp; omega) (by simp; omega)
  refine ⟨(if aG then [(PClass.A, (⟨Xo, Yo + l⟩ : Pt))] else []) ++
    pointAE A W Xo (Yo + l) xp ++
    (if !aG && !nA then [(.A__, ⟨Xo, Yo + l⟩)] else []), ?_, ?_, ?_, ?_, ?_⟩
  · unfold genA
    simp only [bind, Except.bind]
    rw [ha]; simp only
    rw [hn]; simp only
    rw [hp]; simp only
    rw [hs]; simp only
    rw [hx]; simp only
    rfl
  · cases aG <;> cases nA <;> cases xp <;> simp [pointAE] <;> try (split <;> simp)
  · intro q hq
    simp only [List.mem_append] at hq
    rcases hq with (hq | hq) | hq
    · split at hq
      · rename_i hc
        simp at hq; subst hq
        exact supA (haL hc)
      · simp at hq
    · cases xp with
      | none => simp [pointAE, pointBF] at hq
      | some x =>
        have hh := hxs x rfl
        have : SupPt g W L ⟨x, Yo + l⟩ := by
          refine ⟨by simp; omega, hh.2.1, ?_⟩
          rcases hh.1.2 with h0 | h0
          · exact Or.inl h0
          · exact Or.inr (Or.inr (Or.inr h0))
        simp only [pointAE, pointBF] at hq
        split at hq <;> (simp at hq; subst hq; exact this)
    · split at hq
      · rename_i hc
        simp at hq; subst hq
        simp at hc
        exact supA (hnL hc.2)
      · simp at hq
  · intro h1 h2
    cases aG with
    | true => left; simp
    | false =>
      right
      have hnA : nA = false := by
        rw [rd_eq h h1 (by omega)] at hn
        simp [h2] at hn
        rw [← hn]; simp; omega
      simp [hnA]
  · intro q hq
    simp only [List.mem_append] at hq
    rcases hq with (hq | hq) | hq
    · split at hq
      · simp at hq; subst hq; simp
      · simp at hq
    · cases xp with
      | none => simp [pointAE] at hq
      | some x =>
        simp only [pointAE] at hq
        split at hq <;> (simp at hq; subst hq; simp)
    · split at hq
      · simp at hq; subst hq; simp
      · simp at hq

theorem genB_spec (A : Arith) {g : Grid} {W L : Nat} (h : WF g W L) {Xo Yo w l : Nat}
    (hw : 0 < w) (hl : 0 < l) (hX : Xo + w ≤ W) (hY : Yo + l ≤ L) (hf : Filled g Xo Yo w l) :
    ∃ pts, genB A g W L Xo Yo w = .ok pts ∧ pts.length ≤ 2 ∧ (∀ q ∈ pts, SupPt g W L q.2) ∧
      (Xo + w < W → cell g Yo (Xo + w) = 0 →
        (.B, ⟨Xo + w, Yo⟩) ∈ pts ∨ (.B__, ⟨Xo + w, Yo⟩) ∈ pts) ∧
      (∀ q ∈ pts, ((q.1 = .B ∨ q.1 = .B__) ∧ q.2 = ⟨Xo + w, Yo⟩) ∨ q.1 = .B_ ∨ q.1 = .F) := by
  obtain ⟨bG, hb, hbW⟩ := condB_tot h (Yo := Yo) (Bx := Xo + w) (by omega) (by omega)
  obtain ⟨nA, hn⟩ : ∃ b, orP (.ok (decide (Xo + w ≥ W))) (testP (rd g Yo ((Xo + w : Nat) : Int)) (· != 0))
      = .ok b := by
    refine orP_tot ⟨_, rfl⟩ ?_
    intro hh; simp at hh
    exact testP_rd_tot h _ (by omega) (by omega) (by omega) (by omega)
  have hnL : nA = false → Xo + w < W := by
    intro hh; subst hh
    have := (orP_eq_false hn).1; simpa using this
  obtain ⟨pr, hp⟩ : ∃ b, (if nA then .ok false else orP (.ok (decide (Xo + w ≥ W)))
      (testP (rd g ((Yo : Int) - 1) ((Xo + w : Nat) : Int)) in23)) = Except.ok b := by
    cases nA with
    | true => exact ⟨false, rfl⟩
    | false =>
      have := hnL rfl
      refine orP_tot ⟨_, rfl⟩ ?_
      intro _
      exact testP_rd_tot h _ (by omega) (by omega) (by omega) (by omega)
  obtain ⟨sc, hs⟩ : ∃ b, (andP (.ok (decide (Xo + w < W))) <| andP (.ok (decide (Yo > 0))) <|
    andP (.ok (!bG)) <| andP (.ok (!pr)) <|
    andP (testP (rd g ((Yo : Int) - 1) (((Xo + w : Nat) : Int) - 1)) (· == 0))
         (testP (rd g ((Yo : Int) - 1) ((Xo + w : Nat) : Int)) (· == 0))) = Except.ok b := by
    refine andP_tot ⟨_, rfl⟩ ?_
    intro h1; simp at h1
    refine andP_tot ⟨_, rfl⟩ ?_
    intro h2; simp at h2
    refine andP_tot ⟨_, rfl⟩ ?_
    intro _
    refine andP_tot ⟨_, rfl⟩ ?_
    intro _
    refine andP_tot ?_ ?_
    · exact testP_rd_tot h _ (by omega) (by omega) (by omega) (by omega)
    · intro _; exact testP_rd_tot h _ (by omega) (by omega) (by omega) (by omega)
  have hsL : sc = true → Xo + w < W ∧ bG = false := by
    intro hh; subst hh
    have h1 := andP_eq_true hs
    have h2 := andP_eq_true (andP_eq_true h1.2).2
    have h3 := h2.1
    exact ⟨by simpa using h1.1, by simpa using h3⟩
  obtain ⟨yp, hx, hxs⟩ : ∃ r, (if sc then scanB g (Xo + w) Yo else .ok none) = Except.ok r ∧
      ∀ x, r = some x → (x ≤ Yo ∧ (x = 0 ∨ cell g (x - 1) (Xo + w) ≠ 0)) ∧
        Xo + w < W ∧ bG = false := by
    cases sc with
    | false => exact ⟨none, rfl, by simp⟩
    | true =>
      obtain ⟨r, hr, hspec⟩ := scanB_spec h (hsL rfl).1 (by omega) Yo (by omega)
      exact ⟨r, hr, fun x hx => ⟨hspec x hx, hsL rfl⟩⟩
  have supB : Xo + w < W → SupPt g W L ⟨Xo + w, Yo⟩ := by
    intro hL
    refine ⟨hL, by simp; omega, Or.inr (Or.inr (Or.inr ?_))⟩
    exact hf _ _ (by simp; omega) (by simp; omega) (by simp) (by simp; omega)
  refine ⟨(if bG then [(PClass.B, (⟨Xo + w, Yo⟩ : Pt))] else []) ++
    pointBF A L Yo (Xo + w) yp ++
    (if !bG && !nA then [(.B__, ⟨Xo + w, Yo⟩)] else []), ?_, ?_, ?_, ?_, ?_⟩
  · unfold genB
    simp only [bind, Except.bind]
    rw [hb]; simp only
    rw [hn]; simp only
    rw [hp]; simp only
    rw [hs]; simp only
    rw [hx]; simp only
    rfl
  · cases bG <;> cases nA <;> cases yp <;> simp [pointBF] <;> try (split <;> simp)
  · intro q hq
    simp only [List.mem_append] at hq
    rcases hq with (hq | hq) | hq
    · split at hq
      · rename_i hc
        simp at hq; subst hq
        exact supB (hbW hc)
      · simp at hq
    · cases yp with
      | none => simp [pointAE, pointBF] at hq
      | some x =>
        have hh := hxs x rfl
        have : SupPt g W L ⟨Xo + w, x⟩ := by
          refine ⟨hh.2.1, by simp; omega, ?_⟩
          rcases hh.1.2 with h0 | h0
          · exact Or.inr (Or.inl h0)
          · exact Or.inr (Or.inr (Or.inl h0))
        simp only [pointAE, pointBF] at hq
        split at hq <;> (simp at hq; subst hq; exact this)
    · split at hq
      · rename_i hc
        simp at hq; subst hq
        simp at hc
        exact supB (hnL hc.2)
      · simp at hq
  · intro h1 h2
    cases bG with
    | true => left; simp
    | false =>
      right
      have hnA : nA = false := by
        rw [rd_eq h (by omega) h1] at hn
        simp [h2] at hn
        rw [← hn]; simp; omega
      simp [hnA]
  · intro q hq
    simp only [List.mem_append] at hq
    rcases hq with (hq | hq) | hq
    · split at hq
      · simp at hq; subst hq; simp
      · simp at hq
    · cases yp with
      | none => simp [pointBF] at hq
      | some x =>
        simp only [pointBF] at hq
        split at hq <;> (simp at hq; subst hq; simp)
    · split at hq
      · simp at hq; subst hq; simp
      · simp at hq

theorem scanC_spec {g : Grid} {W L : Nat} (h : WF g W L) {Ay : Nat} (hA : Ay < L) (hA0 : 0 < Ay) :
    ∀ xs : List Nat, (∀ x ∈ xs, x + 1 < W ∧ cell g (Ay - 1) (x + 1) ≠ 0) →
      ∃ pts, scanC g Ay xs = .ok pts ∧ pts.length ≤ xs.length ∧ ∀ q ∈ pts, q.1 = .C ∧ SupPt g W L q.2
  | [], _ => ⟨[], rfl, by simp, by simp⟩
  | x :: xs, hx => by
    obtain ⟨pts, hp, hlen, hsup⟩ := scanC_spec h hA hA0 xs (fun z hz => hx z (by simp [hz]))
    have hx0 := hx x (by simp)
    obtain ⟨b, hb⟩ : ∃ b, andP (testP (rd g Ay x) (· == 3))
        (testP (rd g Ay ((x : Int) + 1)) (· == 0)) = .ok b := by
      refine andP_tot ?_ ?_
      · exact testP_rd_tot h _ (by omega) (by omega) (by omega) (by omega)
      · intro _; exact testP_rd_tot h _ (by omega) (by omega) (by omega) (by omega)
    refine ⟨(if b then [(.C, ⟨x + 1, Ay⟩)] else []) ++ pts, ?_, ?_, ?_⟩
    · unfold scanC
      simp only [bind, Except.bind]
      rw [hb]; simp only
      rw [hp]; rfl
    · cases b <;> simp <;> omega
    · intro q hq
      rcases List.mem_append.1 hq with hq | hq
      · split at hq
        · simp at hq; subst hq
          exact ⟨rfl, hx0.1, hA, Or.inr (Or.inr (Or.inl hx0.2))⟩
        · simp at hq
      · exact hsup q hq

theorem scanD_spec {g : Grid} {W L : Nat} (h : WF g W L) {Bx : Nat} (hB : Bx < W) (hB0 : 0 < Bx) :
    ∀ ys : List Nat, (∀ y ∈ ys, y + 1 < L ∧ cell g (y + 1) (Bx - 1) ≠ 0) →
      ∃ pts, scanD g Bx ys = .ok pts ∧ pts.length ≤ ys.length ∧ ∀ q ∈ pts, q.1 = .D ∧ SupPt g W L q.2
  | [], _ => ⟨[], rfl, by simp, by simp⟩
  | y :: ys, hy => by
    obtain ⟨pts, hp, hlen, hsup⟩ := scanD_spec h hB hB0 ys (fun z hz => hy z (by simp [hz]))
    have hy0 := hy y (by simp)
    obtain ⟨b, hb⟩ : ∃ b, andP (testP (rd g y Bx) (· == 3))
        (testP (rd g ((y : Int) + 1) Bx) (· == 0)) = .ok b := by
      refine andP_tot ?_ ?_
      · exact testP_rd_tot h _ (by omega) (by omega) (by omega) (by omega)
      · intro _; exact testP_rd_tot h _ (by omega) (by omega) (by omega) (by omega)
    refine ⟨(if b then [(.D, ⟨Bx, y + 1⟩)] else []) ++ pts, ?_, ?_, ?_⟩
    · unfold scanD
      simp only [bind, Except.bind]
      rw [hb]; simp only
      rw [hp]; rfl
    · cases b <;> simp <;> omega
    · intro q hq
      rcases List.mem_append.1 hq with hq | hq
      · split at hq
        · simp at hq; subst hq
          exact ⟨rfl, hB, hy0.1, Or.inr (Or.inr (Or.inr hy0.2))⟩
        · simp at hq
      · exact hsup q hq

/-- `_generate_points` never fails on a filled rectangle; every point it opens is inside the
container and supported; it opens at most `w + l + 2` points. -/
theorem generatePoints_spec (A : Arith) {g : Grid} {W L : Nat} (h : WF g W L)
    {Xo Yo w l : Nat} (hw : 0 < w) (hl : 0 < l) (hX : Xo + w ≤ W) (hY : Yo + l ≤ L)
    (hf : Filled g Xo Yo w l) :
    ∃ pts, generatePoints A g W L Xo Yo w l = .ok pts ∧ pts.length ≤ w + l + 2 ∧
      (∀ q ∈ pts, SupPt g W L q.2) ∧
      (Yo + l < L → cell g (Yo + l) Xo = 0 →
        (.A, ⟨Xo, Yo + l⟩) ∈ pts ∨ (.A__, ⟨Xo, Yo + l⟩) ∈ pts) ∧
      (Xo + w < W → cell g Yo (Xo + w) = 0 →
        (.B, ⟨Xo + w, Yo⟩) ∈ pts ∨ (.B__, ⟨Xo + w, Yo⟩) ∈ pts) ∧
      (∀ q ∈ pts, (q.1 = .A ∨ q.1 = .A__ → q.2 = ⟨Xo, Yo + l⟩) ∧
        (q.1 = .B ∨ q.1 = .B__ → q.2 = ⟨Xo + w, Yo⟩)) := by
  obtain ⟨a, ha, la, sa, pa, ka⟩ := genA_spec A h hw hl hX hY hf
  obtain ⟨b, hb, lb, sb, pb, kb⟩ := genB_spec A h hw hl hX hY hf
  obtain ⟨c, hc, lc, sc⟩ : ∃ pts, genC g L Xo Yo w l = .ok pts ∧ pts.length ≤ w - 1 ∧
      ∀ q ∈ pts, q.1 = .C ∧ SupPt g W L q.2 := by
    unfold genC
    simp only
    by_cases hL : Yo + l < L
    · rw [if_pos hL]
      obtain ⟨pts, h1, h2, h3⟩ := scanC_spec h hL (by omega) (List.range' Xo (w - 1)) (by
        intro x hx
        rw [List.mem_range'_1] at hx
        exact ⟨by omega, hf _ _ (by omega) (by omega) (by omega) (by omega)⟩)
      exact ⟨pts, h1, by simpa using h2, h3⟩
    · rw [if_neg hL]; exact ⟨[], rfl, by simp, by simp⟩
  obtain ⟨d, hd, ld, sd⟩ : ∃ pts, genD g W Xo Yo w l = .ok pts ∧ pts.length ≤ l - 1 ∧
      ∀ q ∈ pts, q.1 = .D ∧ SupPt g W L q.2 := by
    unfold genD
    simp only
    by_cases hL : Xo + w < W
    · rw [if_pos hL]
      obtain ⟨pts, h1, h2, h3⟩ := scanD_spec h hL (by omega) (List.range' Yo (l - 1)) (by
        intro x hx
        rw [List.mem_range'_1] at hx
        exact ⟨by omega, hf _ _ (by omega) (by omega) (by omega) (by omega)⟩)
      exact ⟨pts, h1, by simpa using h2, h3⟩
    · rw [if_neg hL]; exact ⟨[], rfl, by simp, by simp⟩
  refine ⟨a ++ b ++ c ++ d, ?_, ?_, ?_, ?_, ?_, ?_⟩
  · unfold generatePoints
    simp only [bind, Except.bind]
    rw [ha]; simp only
    rw [hb]; simp only
    rw [hc]; simp only
    rw [hd]; rfl
  · simp only [List.length_append]; omega
  · intro q hq
    simp only [List.mem_append] at hq
    rcases hq with ((hq | hq) | hq) | hq
    · exact sa q hq
    · exact sb q hq
    · exact (sc q hq).2
    · exact (sd q hq).2
  · intro h1 h2
    rcases pa h1 h2 with hh | hh
    · left; simp [hh]
    · right; simp [hh]
  · intro h1 h2
    rcases pb h1 h2 with hh | hh
    · left; simp [hh]
    · right; simp [hh]
  · intro q hq
    simp only [List.mem_append] at hq
    rcases hq with ((hq | hq) | hq) | hq
    · rcases ka q hq with ⟨k1 | k1, k2⟩ | k1 | k1 <;> simp [k1, *]
    · rcases kb q hq with ⟨k1 | k1, k2⟩ | k1 | k1 <;> simp [k1, *]
    · have := (sc q hq).1; simp [this]
    · have := (sd q hq).1; simp [this]

end HP
