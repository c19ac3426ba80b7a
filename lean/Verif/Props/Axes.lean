import Verif.Props.Text
import Verif.Props.Rounding
/-
Property C86: axes and ticks of the figures.
-/
namespace HP
open Spec

theorem ceil_iff {x : Rat} {z : Int} (h1 : (z : Rat) - 1 < x) (h2 : x ≤ z) : x.ceil = z := by
  have a : x ≤ (x.ceil : Rat) := Rat.le_ceil
  have b : (x.ceil : Rat) < x + 1 := Rat.ceil_lt
  have c : (z : Rat) < x.ceil + 1 := by linarith
  have d : (x.ceil : Rat) < z + 1 := by linarith
  have c' : z < x.ceil + 1 := by exact_mod_cast c
  have d' : x.ceil < z + 1 := by exact_mod_cast d
  omega

/-- below 2^53 the rounding of the division does not matter: the tick distance is the least integer
that is at least a twentieth of the size -/
theorem C86_tick (d : Nat) (hd : d < 2 ^ 53) :
    ∃ t : Nat, dtick rne d = t ∧ d ≤ 20 * t ∧ ∀ s : Nat, d ≤ 20 * s → t ≤ s := by
  refine ⟨(d + 19) / 20, ?_, by omega, by intro s hs; omega⟩
  unfold dtick
  obtain ⟨k, r, hr, rfl⟩ : ∃ k r, r < 20 ∧ d = 20 * k + r := ⟨d / 20, d % 20, Nat.mod_lt _ (by decide), by omega⟩
  have e : (((20 * k + r : Nat) : Rat) / 20) = k + (r : Rat) / 20 := by push_cast; field_simp
  by_cases h0 : r = 0
  · subst h0
    have e2 : (((20 * k + 0 : Nat) : Rat) / 20) = (k : Rat) := by push_cast; field_simp; simp
    rw [e2, rne_nat k (by omega), show (20 * k + 0 + 19) / 20 = k by omega]
    exact ceil_iff (by push_cast; linarith) (by push_cast; exact le_rfl)
  · rw [show (20 * k + r + 19) / 20 = k + 1 by omega]
    have hacc := rne_accurate (((20 * k + r : Nat) : Rat) / 20)
    have hx0 : (0 : Rat) ≤ ((20 * k + r : Nat) : Rat) / 20 := by positivity
    rw [abs_of_nonneg hx0, abs_le] at hacc
    have hlt : ((20 * k + r : Nat) : Rat) / 20 / 2 ^ 53 < 1 / 20 := by
      have : ((20 * k + r : Nat) : Rat) < 2 ^ 53 := by exact_mod_cast hd
      rw [div_div, div_lt_div_iff₀ (by norm_num) (by norm_num)]
      linarith
    have hr1 : (1 : Rat) ≤ r := by exact_mod_cast Nat.pos_of_ne_zero h0
    have hr2 : (r : Rat) ≤ 19 := by exact_mod_cast (by omega : r ≤ 19)
    rw [e] at hacc hlt ⊢
    apply ceil_iff
    · push_cast; linarith [hacc.1]
    · push_cast; linarith [hacc.2]

/-- for larger sizes rounding can make the distance too small -/
theorem C86_tick_huge : dtick rne (20 * 2 ^ 53 + 1) * 20 < 20 * 2 ^ 53 + 1 := by decide +kernel

/-- C86: in a figure made by `create_figure` (`FigureOf`, see C53) every rectangle lies within the
ranges of both axes, with a margin of two units on each side; the ticks start at 0, and, if the
container has an extent of at least one and less than 2^53 units, their distance is the least
positive integer for which twenty steps reach the end of the container. -/
theorem C86_axes (A : Arith) (i : Inst) (h : Reach A i) (c : String × Dim) (hc : c ∈ i.containers) (f : Figure)
    (hf : FigureOf i c f) :
    (∀ s ∈ f.shapes, (axes rne f).1.low + 2 ≤ s.x0 ∧ (s.x1 : Int) + 2 ≤ (axes rne f).1.high ∧
      (axes rne f).2.low + 2 ≤ s.y0 ∧ (s.y1 : Int) + 2 ≤ (axes rne f).2.high) ∧
    (axes rne f).1.tick0 = 0 ∧ (axes rne f).2.tick0 = 0 ∧
    (f.width < 2 ^ 53 → ∃ t : Nat, (axes rne f).1.dtick = t ∧ 0 < t ∧ f.width ≤ 20 * t ∧
      ∀ s : Nat, f.width ≤ 20 * s → t ≤ s) ∧
    (0 < f.length → f.length < 2 ^ 53 → ∃ t : Nat, (axes rne f).2.dtick = t ∧ 0 < t ∧ f.length ≤ 20 * t ∧
      ∀ s : Nat, f.length ≤ 20 * s → t ≤ s) := by
  have hv := h.good.valid
  obtain ⟨m, hm, h1, h2, h3, h4⟩ := hf
  refine ⟨?_, rfl, rfl, ?_, ?_⟩
  · intro s hs
    rw [h4] at hs
    unfold figureShapes at hs
    have hin : s.x1 ≤ f.width ∧ s.y1 ≤ f.length := by
      rcases List.mem_append.1 hs with hs | hs
      · obtain ⟨k, hk, rfl⟩ := List.mem_mapIdx.1 hs
        have hmem : m[k] ∈ m := List.getElem_mem hk
        rcases C43_current A i h with ⟨h0, _⟩ | ⟨_, _, _, h5⟩
        · rw [h0] at hm; simp at hm
        · obtain ⟨c', hc', h6⟩ := h5 c.1 m hm
          have hcc : c' = c.2 := by
            have a := PyDict.find?_of_mem hv.conts.1 hc'
            have b := PyDict.find?_of_mem hv.conts.1 (show (c.1, c.2) ∈ i.containers from hc)
            rw [a] at b; injection b
          obtain ⟨d, _, _, hx, hy⟩ := h6 m[k].1 m[k].2 hmem
          rw [hcc] at hx hy
          refine ⟨by simpa [h2] using hx, ?_⟩
          show m[k].2.y + m[k].2.l ≤ f.length
          rw [h3]
          unfold reportLength
          split
          · have := (stackHeight_le (rs := m.map (·.2)) (h := stackHeight (m.map (·.2)))).1 le_rfl m[k].2
              (List.mem_map_of_mem hmem)
            omega
          · rename_i hst
            exact hy (by simpa using hst)
      · rw [List.mem_singleton.1 hs]
        exact ⟨le_rfl, le_rfl⟩
    simp only [axes]
    omega
  · intro hw
    obtain ⟨t, a, b, e⟩ := C86_tick f.width hw
    have : 0 < c.2.w := (hv.conts.2 c hc).1
    exact ⟨t, a, by omega, b, e⟩
  · intro hl0 hl
    obtain ⟨t, a, b, e⟩ := C86_tick f.length hl
    exact ⟨t, a, by omega, b, e⟩

/-- C86 on the solved problem: its first container has a figure -/
example : FigureOf problemSolved ("c1", ⟨4, 3⟩) ⟨"c1", 4, 3, figureShapes ((PyDict.find? problemSolved.solution "c1").getD []) 4 3⟩ ∧
    axes rne ⟨"c1", 4, 3, []⟩ = (⟨-2, 6, 0, 1⟩, ⟨-2, 5, 0, 1⟩) ∧ dtick rne 41 = 3 := by
  refine ⟨⟨(PyDict.find? problemSolved.solution "c1").getD [], by decide +kernel, rfl, rfl, rfl, rfl⟩, by decide +kernel, by decide +kernel⟩

/-- C85 on the solved problem -/
example : problemSolved.solution ≠ [] ∧ (∀ c ∈ problemSolved.containers, OneLine c.1.toList) ∧
    (problemSolved.logSolutionText rne (fun s => '\'' :: (s.toList ++ ['\'']))).toOption.map (Option.map String.ofList) =
      some (some ("\nSolution Log:\nPercent total items stored : 66.6667%\nContainer: c1 4x3\n\t[util%] : 83.3333%\n" ++
        "Container: c2 2x2\n\t[util%] : 0.0000%\n\nRemaining items : ['b']")) := by
  refine ⟨by decide, by unfold OneLine; decide +kernel, by decide +kernel⟩

/-- with two million items, 100.0000% can be printed although one is missing -/
theorem C85_large_refuted : fixed4 (storedPercent rne ⟨2000000, 2000001, [], []⟩) = "100.0000".toList := by
  decide +kernel

end HP
