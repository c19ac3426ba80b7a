import Verif.SpecHill
/-
Specification of what a hill climbing search reports about its nodes.  No reference to the model.
-/
namespace HP.Spec

/-- the report on one node: the value of the best sequence so far, after the neighbours of the node have been tried;
how many neighbours were tried; whether one of them was better; whether the time was up after the last of them -/
structure Report (V : Type) where
  value : V
  tried : Nat
  found : Bool
  late : Bool

/-- `HillReports K val n a m z reports`: the search that has done `n` evaluations and is at the node `a` ends at the node
`z` after `m` evaluations, and gives these reports, one per node.  (The rules are those of `Hill`.) -/
inductive HillReports {α R V : Type} (K : HillRules α R) (val : R → V) :
    Nat → HillNode α R → Nat → HillNode α R → List (Report V) → Prop where
  /-- no better neighbour among those tried, which are all there are to try, or the time is up after the last one -/
  | rest {n : Nat} {a : HillNode α R} {pre post : List (List α)} {late : Bool} :
      (neighbours a.seq).take K.limit = pre ++ post → Refused K a pre →
      (∀ k, k + 1 < pre.length → ¬ K.late (n + k)) →
      (late = true ↔ pre ≠ [] ∧ K.late (n + pre.length - 1)) → (post = [] ∨ late = true) →
      HillReports K val n a (n + pre.length) a [⟨val a.result, pre.length, false, late⟩]
  /-- a better neighbour is found, and the time is up -/
  | last {n : Nat} {a : HillNode α R} {pre post : List (List α)} {y : List α} {r : R} :
      (neighbours a.seq).take K.limit = pre ++ y :: post → Refused K a pre →
      (∀ k, k < pre.length → ¬ K.late (n + k)) →
      K.pack a.height y r → K.better r a.result → K.late (n + pre.length) →
      HillReports K val n a (n + pre.length + 1) (a.moved K y r) [⟨val r, pre.length + 1, true, true⟩]
  /-- a better neighbour is found, in time, and the search goes on from there -/
  | move {n m : Nat} {a z : HillNode α R} {pre post : List (List α)} {y : List α} {r : R} {reports : List (Report V)} :
      (neighbours a.seq).take K.limit = pre ++ y :: post → Refused K a pre →
      (∀ k, k < pre.length → ¬ K.late (n + k)) →
      K.pack a.height y r → K.better r a.result → ¬ K.late (n + pre.length) →
      HillReports K val (n + pre.length + 1) (a.moved K y r) m z reports →
      HillReports K val n a m z (⟨val r, pre.length + 1, true, false⟩ :: reports)

end HP.Spec
