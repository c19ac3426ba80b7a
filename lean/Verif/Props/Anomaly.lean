import Verif.Props.Removal
/-
C104: more room, smaller items or more freedom can make the result of solve() worse.
-/
namespace HP
open Spec

/-- a problem with one container of size `c` and the default strategy, for the counterexamples below -/
def oneBin (rot : Bool) (c : Dim) (items : PyDict String Dim) : SolveIn :=
  { containers := [("c", c)], items := items, strategy := defaultStrategy, rotation := rot, strip := false, height := 0 }

/-- C104 is false of the code.  A larger container: three items that all fit into 4 × 5 are not all
packed into 4 × 6. -/
theorem C104_refuted_larger :
    let items := [("i0", ⟨2, 3⟩), ("i1", ⟨2, 3⟩), ("i2", ⟨3, 2⟩)]
    ValidIn (oneBin false ⟨4, 5⟩ items) ∧ ValidIn (oneBin false ⟨4, 6⟩ items) ∧
    solve Arith.exact (oneBin false ⟨4, 5⟩ items) none =
      .ok ([("c", [("i0", ⟨0, 0, 2, 3⟩), ("i2", ⟨0, 3, 3, 2⟩), ("i1", ⟨2, 0, 2, 3⟩)])], [("c", 18/20)]) ∧
    solve Arith.exact (oneBin false ⟨4, 6⟩ items) none =
      .ok ([("c", [("i0", ⟨0, 0, 2, 3⟩), ("i1", ⟨0, 3, 2, 3⟩)])], [("c", 12/24)]) := by
  refine ⟨⟨by constructor <;> decide, by constructor <;> decide, by decide⟩,
    ⟨by constructor <;> decide, by constructor <;> decide, by decide⟩, ?_, ?_⟩ <;> decide +kernel

/-- Allowing rotation: the three items are all packed without rotation, but not with it. -/
theorem C104_refuted_rotation :
    let items := [("i0", ⟨1, 1⟩), ("i1", ⟨2, 4⟩), ("i2", ⟨2, 2⟩)]
    ValidIn (oneBin false ⟨5, 4⟩ items) ∧ ValidIn (oneBin true ⟨5, 4⟩ items) ∧
    solve Arith.exact (oneBin false ⟨5, 4⟩ items) none =
      .ok ([("c", [("i0", ⟨0, 0, 1, 1⟩), ("i2", ⟨0, 1, 2, 2⟩), ("i1", ⟨2, 0, 2, 4⟩)])], [("c", 13/20)]) ∧
    solve Arith.exact (oneBin true ⟨5, 4⟩ items) none =
      .ok ([("c", [("i0", ⟨0, 0, 1, 1⟩), ("i1", ⟨0, 1, 4, 2⟩)])], [("c", 9/20)]) := by
  refine ⟨⟨by constructor <;> decide, by constructor <;> decide, by decide⟩,
    ⟨by constructor <;> decide, by constructor <;> decide, by decide⟩, ?_, ?_⟩ <;> decide +kernel

/-- A smaller item: all four items are packed if `i0` is two wide; if it is only one wide, `i3` is not. -/
theorem C104_refuted_smaller :
    let items := fun w => [("i0", ⟨w, 2⟩), ("i1", ⟨2, 3⟩), ("i2", ⟨4, 3⟩), ("i3", ⟨4, 3⟩)]
    ValidIn (oneBin false ⟨6, 6⟩ (items 2)) ∧ ValidIn (oneBin false ⟨6, 6⟩ (items 1)) ∧
    solve Arith.exact (oneBin false ⟨6, 6⟩ (items 2)) none =
      .ok ([("c", [("i0", ⟨0, 0, 2, 2⟩), ("i1", ⟨0, 2, 2, 3⟩), ("i2", ⟨2, 0, 4, 3⟩), ("i3", ⟨2, 3, 4, 3⟩)])],
        [("c", 34/36)]) ∧
    solve Arith.exact (oneBin false ⟨6, 6⟩ (items 1)) none =
      .ok ([("c", [("i0", ⟨0, 0, 1, 2⟩), ("i1", ⟨0, 2, 2, 3⟩), ("i2", ⟨2, 2, 4, 3⟩)])], [("c", 20/36)]) := by
  refine ⟨⟨by constructor <;> decide, by constructor <;> decide, by decide⟩,
    ⟨by constructor <;> decide, by constructor <;> decide, by decide⟩, ?_, ?_⟩ <;> decide +kernel

/-- Fewer items: all four items are packed; without the unit square `i1` the item `i3` is not. -/
theorem C104_refuted_fewer :
    let items := [("i0", ⟨2, 3⟩), ("i1", ⟨1, 1⟩), ("i2", ⟨3, 3⟩), ("i3", ⟨4, 2⟩)]
    let fewer := [("i0", ⟨2, 3⟩), ("i2", ⟨3, 3⟩), ("i3", ⟨4, 2⟩)]
    ValidIn (oneBin false ⟨5, 6⟩ items) ∧ ValidIn (oneBin false ⟨5, 6⟩ fewer) ∧
    solve Arith.exact (oneBin false ⟨5, 6⟩ items) none =
      .ok ([("c", [("i0", ⟨0, 0, 2, 3⟩), ("i1", ⟨0, 3, 1, 1⟩), ("i3", ⟨0, 4, 4, 2⟩), ("i2", ⟨2, 0, 3, 3⟩)])],
        [("c", 24/30)]) ∧
    solve Arith.exact (oneBin false ⟨5, 6⟩ fewer) none =
      .ok ([("c", [("i0", ⟨0, 0, 2, 3⟩), ("i2", ⟨0, 3, 3, 3⟩)])], [("c", 15/30)]) := by
  refine ⟨⟨by constructor <;> decide, by constructor <;> decide, by decide⟩,
    ⟨by constructor <;> decide, by constructor <;> decide, by decide⟩, ?_, ?_⟩ <;> decide +kernel

/-- What is true: containers added behind the existing ones never cost an item: what was packed stays
packed, at the same place, and what is packed in addition is in the new containers. -/
theorem C104_containers_partial (A : Arith) (p : SolveIn) (hv : ValidIn p) (seq : Option (List String))
    (sol : Solution) (ov : ObjVals) (h : solve A p seq = .ok (sol, ov))
    (extra : List (String × Dim)) (he : ValidSizes (p.containers ++ extra)) :
    ∃ sol' ov', solve A { p with containers := p.containers ++ extra } seq = .ok (sol', ov') ∧
      placedIds sol <+: placedIds sol' := by
  obtain ⟨s', ov', h', _, _⟩ := C61_prefix A p hv seq sol ov h extra he
  exact ⟨_, _, h', by unfold placedIds; rw [List.flatMap_append]; exact List.prefix_append _ _⟩

end HP
