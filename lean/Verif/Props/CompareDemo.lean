import Verif.Props.HyperSearch
import Verif.Props.Structures
/-
C92: the problem for which `local_search` beats `hypersearch`.
-/
namespace HP

/-! ### the claim is false for other strategies -/

/-- `HyperPack(containers={"c": 4 × 3}, items={"a": 3 × 1, "b": 2 × 3, "d": 3 × 2})`, then
`problem.potential_points_strategy = ("B",)` -/
def narrowProblem : Inst := { rawInst false [("c", ⟨4, 3⟩)] [("a", ⟨3, 1⟩), ("b", ⟨2, 3⟩), ("d", ⟨3, 2⟩)] none (.dict []) with
  rotation := true, maxTime := 60, workers := .int 1, strategy := [.B] }

theorem narrowProblem_reach (A : Arith) : Reach A narrowProblem :=
  .step (.strategy (.tuple [.str "B"])) (.new (E := bareEnv) (i := { narrowProblem with strategy := defaultStrategy })
    (containers := SKind.containers.encodeAll [("c", ⟨4, 3⟩)])
    (items := SKind.items.encodeAll [("a", ⟨3, 1⟩), ("b", ⟨2, 3⟩), ("d", ⟨3, 2⟩)]) (settings := .none)
    (stripWidth := .none) (by rfl))

/-- the value of a local search under a strategy -/
def narrowValue (st : List PClass) : Option Rat :=
  match Inst.localSearch Arith.exact (fun _ => 0) 0 true { narrowProblem with strategy := st } with
  | .ok (j, _) => (j.calcObj Arith.exact).toOption
  | .error _ => none

/-- does every one of the strategies `40 k, ..., 40 k + 39` end with 3/4? -/
def narrowChunk (k : Nat) : Bool :=
  (((getStrategies id false true).drop (40 * k)).take 40).all (fun st => narrowValue st == some (3 / 4))

set_option maxRecDepth 100000

theorem narrow_0 : narrowChunk 0 = true := by decide +kernel
theorem narrow_1 : narrowChunk 1 = true := by decide +kernel
theorem narrow_2 : narrowChunk 2 = true := by decide +kernel
theorem narrow_3 : narrowChunk 3 = true := by decide +kernel
theorem narrow_4 : narrowChunk 4 = true := by decide +kernel
theorem narrow_5 : narrowChunk 5 = true := by decide +kernel
theorem narrow_6 : narrowChunk 6 = true := by decide +kernel
theorem narrow_7 : narrowChunk 7 = true := by decide +kernel
theorem narrow_8 : narrowChunk 8 = true := by decide +kernel
theorem narrow_9 : narrowChunk 9 = true := by decide +kernel
theorem narrow_10 : narrowChunk 10 = true := by decide +kernel
theorem narrow_11 : narrowChunk 11 = true := by decide +kernel
theorem narrow_12 : narrowChunk 12 = true := by decide +kernel
theorem narrow_13 : narrowChunk 13 = true := by decide +kernel
theorem narrow_14 : narrowChunk 14 = true := by decide +kernel
theorem narrow_15 : narrowChunk 15 = true := by decide +kernel
theorem narrow_16 : narrowChunk 16 = true := by decide +kernel
theorem narrow_17 : narrowChunk 17 = true := by decide +kernel


end HP
