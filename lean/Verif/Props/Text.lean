import Verif.Model.Text
import Verif.SpecText
import Verif.Props.Report
import Verif.Props.Float
/-
Properties C84 (`str` of items and containers), C85 (text of `log_solution`), C86 (axes of figures).
-/
namespace HP
open Spec

theorem natText_eq (n : Nat) : natText n = (toString n).toList := by
  unfold natText
  rw [Nat.toString_eq_ofList_toDigits, String.toList_ofList]

theorem natText_digit {n : Nat} {c : Char} (h : c ∈ natText n) : c.isDigit = true :=
  Nat.isDigit_of_mem_toDigits (by decide) (by decide) h

theorem natText_oneLine (n : Nat) : OneLine (natText n) := by
  intro h
  exact absurd (natText_digit h) (by decide)

theorem natText_inj {n m : Nat} (h : natText n = natText m) : n = m := by
  have := congrArg (fun l => Nat.ofDigitChars 10 l 0) h
  simpa [natText] using this

theorem lines_append (a b : List Char) : lines (a ++ '\n' :: b) = lines a ++ lines b := by
  unfold lines
  exact List.splitOn_append_cons_self a b

theorem lines_one {a : List Char} (h : OneLine a) : lines a = [a] := List.splitOn_eq_singleton h

theorem OneLine.append {a b : List Char} (ha : OneLine a) (hb : OneLine b) : OneLine (a ++ b) := by
  unfold OneLine at *
  simp [ha, hb]

theorem lines_join : ∀ {ls : List (List Char)}, ls ≠ [] → lines (joinLines ls) = ls.flatMap lines
  | [], h => absurd rfl h
  | [l], _ => by simp [joinLines]
  | l :: l' :: ls, _ => by
    rw [joinLines, lines_append, lines_join (by simp), List.flatMap_cons (x := l)]
    simp

theorem itemEntry_lines (id : String) (d : Dim) (h : OneLine id.toList) :
    lines (itemEntry id d) = entryLines (id, d) := by
  have e : itemEntry id d = ("  - id: ".toList ++ id.toList) ++ '\n' :: (("    width: ".toList ++ natText d.w) ++
      '\n' :: (("    length: ".toList ++ natText d.l) ++ '\n' :: [])) := by
    unfold itemEntry
    simp
  rw [e, lines_append, lines_append, lines_append,
    lines_one (OneLine.append (by unfold OneLine; decide) h),
    lines_one (OneLine.append (by unfold OneLine; decide) (natText_oneLine _)),
    lines_one (OneLine.append (by unfold OneLine; decide) (natText_oneLine _))]
  simp [entryLines, lines, natText_eq, String.toList_append]

theorem stripEntry_lines (id : String) (d : Dim) (h : OneLine id.toList) :
    lines (stripEntry id d) = stripLines (id, d) := by
  have e : stripEntry id d = ("  - id: ".toList ++ id.toList) ++ '\n' :: (("    width: ".toList ++ natText d.w) ++
      '\n' :: []) := by
    unfold stripEntry
    simp
  rw [e, lines_append, lines_append,
    lines_one (OneLine.append (by unfold OneLine; decide) h),
    lines_one (OneLine.append (by unfold OneLine; decide) (natText_oneLine _))]
  simp [stripLines, lines, natText_eq, String.toList_append]

/-- C84 (items): if no id contains a line break, the lines of `str(items)` are the heading and, for
every item in order, its id, its width, its length and an empty line. -/
theorem C84_items (items : PyDict String Dim) (h : ∀ p ∈ items, OneLine p.1.toList) :
    lines (itemsText items) = "Items".toList :: items.flatMap entryLines := by
  unfold itemsText
  rw [lines_join (by simp), List.flatMap_cons, lines_one (by unfold OneLine; decide), List.flatMap_map]
  simp only [List.singleton_append, List.cons.injEq, true_and]
  apply List.flatMap_congr
  intro p hp
  exact itemEntry_lines p.1 p.2 (h p hp)

/-- C84 (containers): likewise; in strip packing the length is left out. -/
theorem C84_containers (strip : Bool) (conts : PyDict String Dim) (h : ∀ p ∈ conts, OneLine p.1.toList) :
    lines (containersText strip conts) =
      "Containers".toList :: conts.flatMap (if strip then stripLines else entryLines) := by
  unfold containersText
  rw [lines_join (by simp), List.flatMap_cons, lines_one (by unfold OneLine; decide), List.flatMap_map]
  simp only [List.singleton_append, List.cons.injEq, true_and]
  apply List.flatMap_congr
  intro p hp
  cases strip
  · exact itemEntry_lines p.1 p.2 (h p hp)
  · exact stripEntry_lines p.1 p.2 (h p hp)

theorem entryLines_inj {p q : String × Dim} (h : entryLines p = entryLines q) : p = q := by
  simp only [entryLines, List.cons.injEq, String.toList_append, List.append_cancel_left_eq, and_true] at h
  obtain ⟨h1, h2, h3⟩ := h
  rw [← natText_eq, ← natText_eq] at h2 h3
  obtain ⟨a, b, c⟩ := p
  obtain ⟨a', b', c'⟩ := q
  simp only at h1 h2 h3
  rw [String.toList_inj.1 h1, natText_inj h2, natText_inj h3]

theorem flatMap_entryLines_inj : ∀ {a b : List (String × Dim)}, a.flatMap entryLines = b.flatMap entryLines → a = b
  | [], [], _ => rfl
  | [], q :: b, h => by simp [entryLines] at h
  | p :: a, [], h => by simp [entryLines] at h
  | p :: a, q :: b, h => by
    rw [List.flatMap_cons, List.flatMap_cons] at h
    obtain ⟨h1, h2⟩ := List.append_inj h (by simp [entryLines])
    rw [entryLines_inj h1, flatMap_entryLines_inj h2]

/-- C84 (nothing is lost): two sets of items without line breaks in their ids print the same text
only if they are the same items, with the same sizes, in the same order. -/
theorem C84_faithful (a b : PyDict String Dim) (ha : ∀ p ∈ a, OneLine p.1.toList)
    (hb : ∀ p ∈ b, OneLine p.1.toList) (h : itemsText a = itemsText b) : a = b := by
  have := congrArg lines h
  rw [C84_items a ha, C84_items b hb, List.cons.injEq] at this
  exact flatMap_entryLines_inj this.2

/-- C84 (containers, bin packing) -/
theorem C84_faithful_containers (a b : PyDict String Dim) (ha : ∀ p ∈ a, OneLine p.1.toList)
    (hb : ∀ p ∈ b, OneLine p.1.toList) (h : containersText false a = containersText false b) : a = b := by
  have := congrArg lines h
  rw [C84_containers false a ha, C84_containers false b hb, List.cons.injEq] at this
  exact flatMap_entryLines_inj this.2

/-- with line breaks in ids this is false: one item can print like two -/
theorem C84_newline_refuted : ∃ a b : PyDict String Dim, a.length = 1 ∧ b.length = 2 ∧
    itemsText a = itemsText b :=
  ⟨[("a\n    width: 1\n    length: 2\n\n  - id: b", ⟨3, 4⟩)], [("a", ⟨1, 2⟩), ("b", ⟨3, 4⟩)], rfl, rfl, by decide +kernel⟩

example : (∀ p ∈ ([("a", ⟨1, 2⟩), ("b", ⟨3, 40⟩)] : PyDict String Dim), OneLine p.1.toList) ∧
    String.ofList (itemsText [("a", ⟨1, 2⟩), ("b", ⟨3, 40⟩)]) =
      "Items\n  - id: a\n    width: 1\n    length: 2\n\n  - id: b\n    width: 3\n    length: 40\n" := by
  refine ⟨by unfold OneLine; decide +kernel, by decide +kernel⟩

/-! ### C85 -/

theorem fixed4_oneLine (x : Rat) : OneLine (fixed4 x) := by
  unfold fixed4 OneLine
  simp only [List.mem_append, List.mem_cons, List.mem_replicate]
  rintro (h | h | ⟨_, h⟩ | h)
  · exact natText_oneLine _ h
  · exact absurd h (by decide)
  · exact absurd h (by decide)
  · exact natText_oneLine _ h

theorem fixed4_decimal {x : Rat} : Decimal4 (fixed4 x) (roundEven (x * 10000)).toNat := by
  generalize hn : (roundEven (x * 10000)).toNat = n
  unfold fixed4
  simp only [hn]
  refine ⟨_, by rw [natText_eq], ?_, ?_, ?_⟩
  · have hl : (natText (n % 10000)).length ≤ 4 := by
      unfold natText
      rw [Nat.length_toDigits_le_iff (by decide) (by decide)]
      omega
    simp only [List.length_append, List.length_replicate]
    omega
  · intro c hc
    rcases List.mem_append.1 hc with hc | hc
    · rw [(List.mem_replicate.1 hc).2]; decide
    · exact natText_digit hc
  · rw [Nat.ofDigitChars_append, Nat.ofDigitChars_replicate_zero, Nat.mul_zero]
    unfold natText
    exact Nat.ofDigitChars_ten_toDigits

/-- the percentage printed for a float within a relative error of `a / b` -/
theorem percent_near {v : Rat} {a b : Nat} (hb : 0 < b) (h : Near 2 v (100 * a / b)) : Percent (fixed4 v) a b := by
  set e : Rat := 100 * a / b with he
  have he0 : 0 ≤ e := h.1
  have hu : ulp = 1 / 2 ^ 53 := rfl
  have hlo : e - e / 2 ^ 52 ≤ v := by
    have := h.2.1
    have h1 : (1 - ulp) ^ 2 ≥ 1 - 1 / 2 ^ 52 := by rw [hu]; norm_num
    nlinarith
  have hhi : v ≤ e + e / 2 ^ 51 := by
    have := h.2.2
    have h1 : (1 + ulp) ^ 2 ≤ 1 + 1 / 2 ^ 51 := by rw [hu]; norm_num
    nlinarith
  have hv0 : 0 ≤ v := h.nonneg
  have hr := roundEven_err (v * 10000)
  rw [abs_le] at hr
  have hnn : 0 ≤ roundEven (v * 10000) := by
    by_contra hc
    have : roundEven (v * 10000) ≤ -1 := by omega
    have : ((roundEven (v * 10000) : Int) : Rat) ≤ -1 := by exact_mod_cast this
    linarith [hr.1]
  have hcast : (((roundEven (v * 10000)).toNat : Nat) : Rat) = (roundEven (v * 10000) : Rat) := by
    have := Int.toNat_of_nonneg hnn
    exact_mod_cast congrArg (fun z : Int => (z : Rat)) this
  refine ⟨_, fixed4_decimal, ?_, ?_⟩
  · rw [hcast, abs_le]
    constructor
    · have : e / 2 ^ 52 ≤ e / 2 ^ 51 := by
        apply div_le_div_of_nonneg_left he0 <;> norm_num
      linarith [hr.1]
    · linarith [hr.2]
  · intro hb2
    have hbq : (0 : Rat) < b := by exact_mod_cast hb
    have hb3 : (b : Rat) ≤ 1999998 := by exact_mod_cast (by omega : b ≤ 1999998)
    rw [← hcast] at hr
    generalize (roundEven (v * 10000)).toNat = n at *
    have heb : e * b = 100 * a := by rw [he]; field_simp
    constructor
    · constructor
      · intro hn
        subst hn
        push_cast at hr
        rcases Nat.lt_trichotomy a b with hab | hab | hab
        · exfalso
          have hab' : (a : Rat) ≤ b - 1 := by
            have : (a : Rat) + 1 ≤ b := by exact_mod_cast hab
            linarith
          have h1 : e * b ≤ 100 * b - 100 := by rw [heb]; linarith
          have h2 : e ≤ 100 - 100 / 1999998 := by
            by_contra hc
            rw [not_le] at hc
            have : (100 - 100 / 1999998) * (b : Rat) < e * b := by nlinarith
            nlinarith
          have h3 : e / 2 ^ 51 ≤ 100 / 2 ^ 51 := by
            apply div_le_div_of_nonneg_right _ (by norm_num)
            linarith [h2, (by norm_num : (0 : Rat) ≤ 100 / 1999998)]
          have h4 : v ≤ 100 - 100 / 1999998 + 100 / 2 ^ 51 := by linarith
          have h5 : (100 - 100 / 1999998 + 100 / 2 ^ 51 : Rat) * 10000 + 1 / 2 < 1000000 := by norm_num
          linarith [hr.2]
        · exact hab
        · exfalso
          have hab' : (b : Rat) + 1 ≤ a := by exact_mod_cast hab
          have h1 : 100 * b + 100 ≤ e * b := by rw [heb]; linarith
          have h2 : 100 + 100 / 1999998 ≤ e := by
            by_contra hc
            rw [not_le] at hc
            have : e * b < (100 + 100 / 1999998) * (b : Rat) := by nlinarith
            nlinarith
          have h4 : (100 + 100 / 1999998) * (1 - 1 / 2 ^ 52) ≤ v := by
            have : e - e / 2 ^ 52 = e * (1 - 1 / 2 ^ 52) := by ring
            rw [this] at hlo
            have h5 : (0 : Rat) ≤ 1 - 1 / 2 ^ 52 := by norm_num
            nlinarith
          have h5 : 1000000 + 1 / 2 < ((100 + 100 / 1999998) * (1 - 1 / 2 ^ 52) : Rat) * 10000 := by norm_num
          linarith [hr.1]
      · rintro rfl
        have h1 : e = 100 := by rw [he]; field_simp
        rw [h1] at hlo hhi
        have h2 : (999999 : Rat) < n := by
          have : (999999 + 1 / 2 : Rat) < (100 - 100 / 2 ^ 52) * 10000 := by norm_num
          linarith [hr.1]
        have h3 : (n : Rat) < 1000001 := by
          have : ((100 + 100 / 2 ^ 51) * 10000 : Rat) + 1 / 2 < 1000001 := by norm_num
          linarith [hr.2]
        have h2' : 999999 < n := by exact_mod_cast h2
        have h3' : n < 1000001 := by exact_mod_cast h3
        omega
    · constructor
      · intro hn
        subst hn
        push_cast at hr
        by_contra ha
        have ha' : (1 : Rat) ≤ a := by exact_mod_cast Nat.pos_of_ne_zero ha
        have h1 : 100 ≤ e * b := by rw [heb]; linarith
        have h2 : 100 / 1999998 ≤ e := by
          by_contra hc
          rw [not_le] at hc
          have : e * b < (100 / 1999998) * (b : Rat) := by nlinarith
          nlinarith
        have h4 : (100 / 1999998) * (1 - 1 / 2 ^ 52) ≤ v := by
          have : e - e / 2 ^ 52 = e * (1 - 1 / 2 ^ 52) := by ring
          rw [this] at hlo
          have h5 : (0 : Rat) ≤ 1 - 1 / 2 ^ 52 := by norm_num
          nlinarith
        have h5 : 1 / 2 < ((100 / 1999998) * (1 - 1 / 2 ^ 52) : Rat) * 10000 := by norm_num
        linarith [hr.1]
      · rintro rfl
        have h1 : e = 0 := by rw [he]; simp
        rw [h1] at hlo hhi
        have hv : v = 0 := by linarith
        rw [hv] at hr
        have : (n : Rat) < 1 := by linarith [hr.2]
        have : n < 1 := by exact_mod_cast this
        omega

theorem storedPercent_near (log : SolutionLog) (ht : 0 < log.total) :
    Near 2 (storedPercent rne log) (100 * log.stored / log.total) := by
  have h1 : Near 0 ((log.stored : Rat) / log.total) ((log.stored : Rat) / log.total) :=
    Near.exact (by positivity)
  have h2 := (Near.rnd rne_accurate h1).mul (Near.exact (by norm_num : (0 : Rat) ≤ 100))
  have h3 := Near.rnd rne_accurate h2
  have e : (log.stored : Rat) / log.total * 100 = 100 * log.stored / log.total := by ring
  rw [e] at h3
  exact h3

theorem utilPercent_near (c : ContLog) :
    Near 2 (utilPercent rne c) (100 * c.itemsArea / ((c.width * c.length : Nat) : Rat)) := by
  have h1 : Near 0 (((c.itemsArea * 100 : Nat) : Rat) / ((c.width * c.length : Nat) : Rat))
      (((c.itemsArea * 100 : Nat) : Rat) / ((c.width * c.length : Nat) : Rat)) := Near.exact (by positivity)
  have h2 := (Near.rnd rne_accurate h1).mono (show 0 + 1 ≤ 2 by omega)
  have e : ((c.itemsArea * 100 : Nat) : Rat) = 100 * (c.itemsArea : Rat) := by push_cast; ring
  rw [e] at h2
  unfold utilPercent
  rw [e]
  exact h2

/-- the lines reporting one container: id and size, utilization, and in strip packing the height of
the stack -/
def BlockOf (i : Inst) (c : String × Dim) (ls : List (List Char)) : Prop :=
  ∃ m Y, (c.1, m) ∈ i.solution ∧
    Percent Y (totalArea (m.map (·.2))) (c.2.w * reportLength i.strip i.minHeight c.2.l (m.map (·.2))) ∧
    ls = [("Container: " ++ c.1 ++ " " ++ toString c.2.w ++ "x" ++
        toString (reportLength i.strip i.minHeight c.2.l (m.map (·.2)))).toList,
      "\t[util%] : ".toList ++ Y ++ ['%']] ++
      (if i.strip then [("\t[max height] : " ++ toString (stackHeight (m.map (·.2)))).toList] else [])

theorem contLines_block {i : Inst} {c : String × Dim} {e : ContLog} (h : LogOf i c e) (hc : OneLine c.1.toList)
    (hpos : 0 < e.width * e.length) : BlockOf i c ((contLines rne e).flatMap lines) := by
  obtain ⟨m, hm, h1, h2, h3, h4, h5⟩ := h
  have hp := percent_near hpos (utilPercent_near e)
  rw [h4] at hp
  refine ⟨m, fixed4 (utilPercent rne e), hm, ?_, ?_⟩
  · rw [← h2, ← h3]; exact hp
  · unfold contLines
    rw [List.flatMap_append]
    have l1 : lines ("Container: ".toList ++ e.id.toList ++ ' ' :: (natText e.width ++ 'x' :: natText e.length)) =
        [("Container: " ++ c.1 ++ " " ++ toString c.2.w ++ "x" ++
          toString (reportLength i.strip i.minHeight c.2.l (m.map (·.2)))).toList] := by
      rw [lines_one]
      · rw [h1, h2, h3]
        simp [String.toList_append, natText_eq]
      · rw [h1]
        have a := natText_oneLine e.width
        have b := natText_oneLine e.length
        unfold OneLine at *
        simp only [List.mem_append, List.mem_cons, not_or]
        exact ⟨⟨by decide, hc⟩, by decide, a, by decide, b⟩
    have l2 : lines ("\t[util%] : ".toList ++ fixed4 (utilPercent rne e) ++ ['%']) =
        ["\t[util%] : ".toList ++ fixed4 (utilPercent rne e) ++ ['%']] :=
      lines_one (OneLine.append (OneLine.append (by unfold OneLine; decide) (fixed4_oneLine _)) (by unfold OneLine; decide))
    rw [List.flatMap_cons, l1, List.flatMap_cons, l2, List.flatMap_nil, h5]
    cases i.strip with
    | false => simp
    | true =>
      simp only [if_true, List.flatMap_cons, List.flatMap_nil, List.append_nil]
      rw [lines_one (OneLine.append (by unfold OneLine; decide) (natText_oneLine _))]
      simp [String.toList_append, natText_eq]

theorem listText_eq : ∀ xs : List (List Char), listText xs = '[' :: (List.intercalate ", ".toList xs ++ [']'])
  | [] => rfl
  | x :: xs => by
    have h : ∀ (ys : List (List Char)) (y : List Char),
        y ++ ys.flatMap (fun z => ", ".toList ++ z) = List.intercalate ", ".toList (y :: ys) := by
      intro ys
      induction ys with
      | nil => intro y; simp [List.intercalate]
      | cons z ys ih =>
        intro y
        rw [List.flatMap_cons, List.append_assoc, ih z]
        simp [List.intercalate, List.intersperse]
    unfold listText
    rw [← h xs x, List.append_assoc]

theorem listText_oneLine (xs : List (List Char)) (h : ∀ x ∈ xs, OneLine x) : OneLine (listText xs) := by
  cases xs with
  | nil => unfold OneLine; decide
  | cons x xs =>
    unfold listText
    have hx := h x (by simp)
    unfold OneLine at *
    simp only [List.mem_cons, List.mem_append, List.mem_flatMap, not_or, List.not_mem_nil, or_false]
    refine ⟨by decide, hx, ?_, by decide⟩
    rintro ⟨y, hy, hc | hc⟩
    · exact absurd hc (by decide)
    · exact h y (by simp [hy]) hc

/-- C85.  The text of `log_solution()` consists, for container ids without line breaks, of exactly these
lines: the heading after an empty line, the percentage of items stored, for every container in order its
size, its utilization (and in strip packing the height of the stack), an empty line, and the list of the
remaining items.  Both percentages are correctly rounded to four decimals in the sense of `Percent`:
below two million items (cells) 100.0000% is printed exactly if everything is stored (the items have the
area of the container). `repr` is Python's notation of a string, which has no line breaks. -/
theorem C85 (A : Arith) (i : Inst) (h : Reach A i) (hs : i.solution ≠ [])
    (hcond : ¬ (i.strip = true ∧ i.minHeight = none ∧ placedIds i.solution = []))
    (hids : ∀ c ∈ i.containers, OneLine c.1.toList)
    (repr : String → List Char) (hrepr : ∀ s, OneLine (repr s)) :
    ∃ text X blocks, i.logSolutionText rne repr = .ok (some text) ∧
      Percent X (placedIds i.solution).length i.items.length ∧
      List.Forall₂ (BlockOf i) i.containers blocks ∧
      lines text = [[], "Solution Log:".toList, "Percent total items stored : ".toList ++ X ++ ['%']] ++
        blocks.flatten ++
        [[], "Remaining items : [".toList ++ List.intercalate ", ".toList
          (((i.items.map (·.1)).filter (fun id => decide (id ∉ placedIds i.solution))).map repr) ++ [']']] := by
  have hv := h.good.valid
  obtain ⟨log, hlog, h1, h2, h3, h4, h5⟩ := (C52_partial A i h hs).1 hcond
  have htot : 0 < log.total := by
    rw [h1]; exact List.length_pos_iff.2 hv.itemsNe
  have hp := percent_near htot (storedPercent_near log htot)
  rw [h1, h2] at hp
  have hpos : ∀ e ∈ log.containers, 0 < e.width * e.length := by
    have : ∀ (cs : PyDict String Dim) (l : List ContLog), logContainers i cs = .ok l → ∀ e ∈ l, 0 < e.width * e.length := by
      intro cs
      induction cs with
      | nil => intro l hl; cases hl; simp
      | cons c cs ih =>
        obtain ⟨cid, c⟩ := c
        intro l hl
        unfold logContainers at hl
        simp only [bind, Except.bind] at hl
        split at hl
        · cases hl
        · split at hl
          · cases hl
          · split at hl
            · cases hl
            · rename_i hz
              split at hl
              · cases hl
              · rename_i r hr
                cases hl
                intro e he
                rcases List.mem_cons.1 he with rfl | he
                · exact Nat.pos_of_ne_zero hz
                · exact ih r hr e he
    have hl : ∃ l, logContainers i i.containers = .ok l ∧ l = log.containers := by
      unfold Inst.logSolution at hlog
      simp only [bind, Except.bind, pure, Except.pure] at hlog
      split at hlog
      · cases hlog
      · split at hlog
        · cases hlog
        · split at hlog
          · cases hlog
          · rename_i l hl
            injection hlog with hlog
            injection hlog with hlog
            exact ⟨l, hl, by rw [← hlog]⟩
    obtain ⟨l, hl, rfl⟩ := hl
    exact this _ _ hl
  refine ⟨logText rne repr log, fixed4 (storedPercent rne log), log.containers.map (fun e => (contLines rne e).flatMap lines), ?_, ?_, ?_, ?_⟩
  · unfold Inst.logSolutionText
    rw [hlog]; rfl
  · exact hp
  · rw [List.forall₂_map_right_iff]
    have : ∀ {cs : List (String × Dim)} {l : List ContLog}, List.Forall₂ (LogOf i) cs l →
        (∀ c ∈ cs, OneLine c.1.toList) → (∀ e ∈ l, 0 < e.width * e.length) →
        List.Forall₂ (fun a e => BlockOf i a ((contLines rne e).flatMap lines)) cs l := by
      intro cs l hl
      induction hl with
      | nil => intros; exact .nil
      | cons ha _ ih =>
        intro g1 g2
        exact .cons (contLines_block ha (g1 _ (by simp)) (g2 _ (by simp)))
          (ih (fun c hc => g1 c (by simp [hc])) (fun e he => g2 e (by simp [he])))
    exact this h5 hids hpos
  · unfold logText
    rw [lines_join (by simp), List.flatMap_append, List.flatMap_append]
    have l1 : List.flatMap lines ["\nSolution Log:".toList,
        "Percent total items stored : ".toList ++ fixed4 (storedPercent rne log) ++ ['%']] =
        [[], "Solution Log:".toList, "Percent total items stored : ".toList ++ fixed4 (storedPercent rne log) ++ ['%']] := by
      rw [List.flatMap_cons, List.flatMap_cons, List.flatMap_nil,
        lines_one (a := "Percent total items stored : ".toList ++ fixed4 (storedPercent rne log) ++ ['%'])
          (OneLine.append (OneLine.append (by unfold OneLine; decide) (fixed4_oneLine _)) (by unfold OneLine; decide))]
      have : lines "\nSolution Log:".toList = [[], "Solution Log:".toList] := by decide +kernel
      rw [this]; rfl
    have l2 : List.flatMap lines ["\nRemaining items : ".toList ++ listText (log.remaining.map repr)] =
        [[], "Remaining items : [".toList ++ List.intercalate ", ".toList
          (((i.items.map (·.1)).filter (fun id => decide (id ∉ placedIds i.solution))).map repr) ++ [']']] := by
      rw [List.flatMap_cons, List.flatMap_nil, List.append_nil]
      have e : "\nRemaining items : ".toList ++ listText (log.remaining.map repr) =
          [] ++ '\n' :: ("Remaining items : ".toList ++ listText (log.remaining.map repr)) := rfl
      rw [e, lines_append, lines_one (OneLine.append (by unfold OneLine; decide) (listText_oneLine _ ?_)),
        lines_one (by unfold OneLine; decide), listText_eq, h3]
      · simp
      · intro x hx
        obtain ⟨s, _, rfl⟩ := List.mem_map.1 hx
        exact hrepr s
    rw [l1, l2, List.flatMap_assoc, List.flatMap_def]

end HP
