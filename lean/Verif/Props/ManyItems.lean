import Verif.Props.Items
import Verif.Props.Report
import Verif.Proofs.Column
/-
C53: a problem with more than 1000 items in one container.
-/
namespace HP
open Spec

theorem unitItems_length (n : Nat) : (unitItems n).length = n := by simp [unitItems]

theorem unitItems_unit (n : Nat) : ∀ p ∈ unitItems n, p.2 = (⟨1, 1⟩ : Dim) := by
  intro p hp
  obtain ⟨k, _, rfl⟩ := List.mem_map.1 hp
  rfl

theorem unitItems_valid (n : Nat) : ValidSizes (unitItems n) := by
  refine ⟨unitItems_nodup n, ?_⟩
  intro p hp
  rw [unitItems_unit n p hp]
  exact ⟨Nat.one_pos, Nat.one_pos⟩

/-- one container 1 x 1001 and one item, with plotly installed -/
def tower : Inst := { rawInst false [("c", ⟨1, 1001⟩)] [("a", ⟨1, 1⟩)] none (.dict []) with
  rotation := true, maxTime := 60, workers := .int 1,
  plotlyInstalled := true, plotlyOk := true, kaleidoInstalled := true, kaleidoOk := true }

theorem tower_reach : Reach Arith.exact tower := by
  have h1 : mkInst fullEnv (.dict [(.str "c", .dict [(.str "W", .int 1), (.str "L", .int 1001)])])
      (.dict [(.str "a", .dict [(.str "w", .int 1), (.str "l", .int 1)])]) .none .none =
      .ok tower := by
    rfl
  exact .new h1

/-- the same with 1001 items -/
def many (n : Nat) : Inst := { tower with items := unitItems n }

theorem many_reach (n : Nat) (hn : 0 < n) : Reach Arith.exact (many n) := by
  have hne : unitItems n ≠ [] := by
    intro h; have := unitItems_length n; rw [h] at this; simp at this; omega
  have he : (step Arith.exact tower (.assign .items (SKind.items.encodeAll (unitItems n)))).1 = many n := by
    show (tower.assign .items (SKind.items.encodeAll (unitItems n))).1 = _
    rw [assign_items_valid (unitItems_valid n) hne]
    rfl
  rw [← he]
  exact .step _ tower_reach

/-- C53 is false of the code: with 1001 items placed in one container, `create_figure(show=True)`
raises IndexError (there are 1000 colours). -/
theorem C53_refuted : ∃ i : Inst, Reach Arith.exact i ∧ i.solution ≠ [] ∧
    i.plotlyInstalled = true ∧ i.plotlyOk = true ∧
    ∀ writes, (step Arith.exact i (.figure writes true)).2 = .raised .indexError := by
  obtain ⟨n, hn⟩ : ∃ n, n = 1001 := ⟨_, rfl⟩
  obtain ⟨m, ov, hs, hl⟩ := column_solve (many n).solveIn "c" n _ rfl (by rw [hn]; rfl) rfl (unitItems_unit n)
    (unitItems_length n) (by omega)
  have hst : step Arith.exact (many n) (.solve none) =
      ({ many n with solution := [("c", m)], objVals := ov }, .ok) := by
    simp only [step, Inst.solve, bind, Except.bind, pure, Except.pure]
    rw [hs]
  have hr := Reach.step (.solve none) (many_reach n (by omega))
  rw [hst] at hr
  refine ⟨_, hr, by simp, rfl, rfl, ?_⟩
  intro writes
  have ha : FigureAsked { many n with solution := [("c", m)], objVals := ov } [] (fun _ => none) true true :=
    ⟨⟨rfl, rfl⟩, ⟨[], rfl, Or.inr ⟨rfl, rfl⟩⟩, Or.inl ⟨rfl, rfl⟩, by simp, Or.inl rfl⟩
  have := (C53_partial Arith.exact _ hr (by simp) [] _ true true ha writes).2 ("c", ⟨1, 1001⟩) m
    ⟨[], [], rfl, by simp, fun h => by have := h.1 m (by simp); omega⟩ (by simp)
  rw [this, if_pos (by omega)]

end HP
