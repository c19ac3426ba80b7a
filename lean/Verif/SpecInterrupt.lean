import Verif.Spec
import Verif.Model.Interrupt
/-
Vocabulary of C99: what an object looks like after a call was cut off.
-/
namespace HP.Spec

/-- sizes as the constructor accepts them: at least one entry, different ids, positive sizes -/
def LegalSizes (d : PyDict String Dim) : Prop :=
  d ≠ [] ∧ (d.map (·.1)).Nodup ∧ ∀ id x, (id, x) ∈ d → 0 < x.w ∧ 0 < x.l

/-- `sol` packs the current items of the object in its current containers: same container ids, only
current items, each at most once, with its current size up to rotation and inside its container (a
strip is only limited by its width) -/
def PacksCurrent (i : Inst) (sol : Solution) : Prop :=
  sol.map (·.1) = i.containers.map (·.1) ∧ (placedIds sol).Nodup ∧
  ∀ cid m, (cid, m) ∈ sol → ∃ c, (cid, c) ∈ i.containers ∧
    ∀ id r, (id, r) ∈ m → ∃ d, (id, d) ∈ i.items ∧ SizedAs true d r ∧
      r.x + r.w ≤ c.w ∧ (i.strip = false → r.y + r.l ≤ c.l)

/-- calls that write a new size or remove an entry before they discard the solution -/
def EditsFirst : Op → Prop
  | .delKey _ _ | .setDim _ _ _ _ | .popKey _ _ _ | .popItem _ | .clear _ | .updateDim _ _ _ | .orientItems _ => True
  | .hypersearch h => h.orientation ≠ .none
  | _ => False

/-- calls that change one entry, or assign the whole -/
def OneEdit : Op → Prop
  | .assign _ _ | .setKey _ _ _ | .delKey _ _ | .setDim _ _ _ _ | .popKey _ _ _ | .popItem _ | .setDefault _ _ _
  | .sortItems _ => True
  | _ => False

/-- `orient_items("wide")` turns items that are longer than wide, `orient_items("long")` those that
are wider than long -/
def ToTurn (wide : Bool) (d : Dim) : Prop := if wide then d.w < d.l else d.l < d.w

instance (wide : Bool) (d : Dim) : Decidable (ToTurn wide d) := by unfold ToTurn; infer_instance

/-- the entry with its item turned, if it has to be -/
def turnedEntry (wide : Bool) (p : String × Dim) : String × Dim :=
  if ToTurn wide p.2 then (p.1, ⟨p.2.l, p.2.w⟩) else p

/-- instances that can be reached when only such calls are cut off that do not edit first -/
inductive CutSafely (A : Arith) : Inst → Prop where
  | new {E : Env} {containers items settings stripWidth : PyVal} {i : Inst} :
      mkInst E containers items settings stripWidth = .ok i → CutSafely A i
  | done {i : Inst} (o : Op) : CutSafely A i → CutSafely A (step A i o).1
  | cut {i : Inst} (o : Op) (n : Nat) : ¬ EditsFirst o → CutSafely A i → CutSafely A (cut A i o n)

end HP.Spec
