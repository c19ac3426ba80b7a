/-
Specification of hill climbing by exchanging two elements of a sequence.  No reference to the model.
-/
namespace HP.Spec

/-- the sequence with the entries at positions `i` and `j` exchanged -/
def exchangeAt {α : Type} (xs : List α) (i j : Nat) : List α :=
  match xs[i]?, xs[j]? with
  | some a, some b => (xs.set i b).set j a
  | _, _ => xs

/-- all sequences that result from one exchange: positions `(0, 1), (0, 2), ..., (1, 2), ...` -/
def neighbours {α : Type} (xs : List α) : List (List α) :=
  (List.range xs.length).flatMap fun i =>
    (List.range' (i + 1) (xs.length - 1 - i)).map fun j => exchangeAt xs i j

/-- `y` is the first of the sequences that is better than the value `v` -/
def FirstBetter {α V : Type} (better : V → V → Prop) (f : List α → V) (v : V) (ys : List (List α)) (y : List α) :
    Prop :=
  ∃ pre post, ys = pre ++ y :: post ∧ (∀ u ∈ pre, ¬ better (f u) v) ∧ better (f y) v

/-- A climb from the sequence `x0` with value `v0` and solution `r0`, after a number of moves.  Each move goes
to the first better one among the first `limit` neighbours.  `f` gives the values and `g` the solutions of
sequences.  A value that is `top` ends the climb. -/
inductive Climb {α V ρ : Type} (better : V → V → Prop) (top : V → Prop) (f : List α → V) (g : List α → ρ)
    (limit : Nat) (x0 : List α) (v0 : V) (r0 : ρ) : Nat → List α → V → ρ → Prop where
  | start : Climb better top f g limit x0 v0 r0 0 x0 v0 r0
  | move {n x v r y} : Climb better top f g limit x0 v0 r0 n x v r → (n = 0 ∨ ¬ top v) →
      FirstBetter better f v ((neighbours x).take limit) y →
      Climb better top f g limit x0 v0 r0 (n + 1) y (f y) (g y)

end HP.Spec
