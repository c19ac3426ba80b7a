import Verif.SpecHill
/-
Specification of a search that runs one hill climbing search for every strategy of a list.  No reference to the model.
-/
namespace HP.Spec

/-- The rules of the search; `σ` are the strategies, `α` the items, `R` the results. -/
structure HyperRules (σ α R : Type) where
  /-- the sequence every climb starts from -/
  order : List α
  /-- the rules of the climb under a strategy, the clock having been read `n` times before -/
  climb : σ → Nat → HillRules α R
  /-- a new result replaces the best one so far -/
  better : R → R → Prop
  /-- `late n`: reading number `n` (from 0) of the clock, taken after a climb, shows that the time is up -/
  late : Nat → Prop

/-- where the search is between two climbs -/
structure HyperNode (σ R : Type) where
  /-- best result so far -/
  best : R
  /-- the strategy it was found with, if it was found by a climb -/
  winner : Option σ
  /-- the last strategy tried -/
  last : Option σ
  /-- the height in force, and the heights of the last climb -/
  height : Nat
  heights : List Nat
  /-- number of readings of the clock so far -/
  readings : Nat

/-- one strategy: a climb from the packing of the start sequence at the height in force; its result becomes the best
one if it is better; the height stays where the climb left it; then the clock is read once more -/
def Round {σ α R : Type} (K : HyperRules σ α R) (st : σ) (a b : HyperNode σ R) : Prop :=
  ∃ (r : R) (m : Nat) (z : HillNode α R),
    (K.climb st a.readings).pack a.height K.order r ∧
    Hill (K.climb st a.readings) 0 ⟨K.order, r, a.height, [a.height]⟩ m z ∧
    b.readings = a.readings + m + 1 ∧ b.height = z.height ∧ b.heights = z.heights ∧ b.last = some st ∧
    ((K.better z.result a.best ∧ b.best = z.result ∧ b.winner = some st) ∨
     (¬ K.better z.result a.best ∧ b.best = a.best ∧ b.winner = a.winner))

/-- the strategies in order, until a reading after a climb is late -/
inductive Hyper {σ α R : Type} (K : HyperRules σ α R) : List σ → HyperNode σ R → HyperNode σ R → Prop where
  | done {a} : Hyper K [] a a
  | stop {st rest a b} : Round K st a b → K.late (b.readings - 1) → Hyper K (st :: rest) a b
  | next {st rest a b c} : Round K st a b → ¬ K.late (b.readings - 1) → Hyper K rest b c → Hyper K (st :: rest) a c

/-- of `n` workers, `p` is the first of those that did not fail whose value is the greatest -/
def FirstBest (n : Nat) (failed : Nat → Prop) (value : Nat → Rat) (p : Nat) : Prop :=
  p < n ∧ ¬ failed p ∧ ∀ q, q < n → ¬ failed q → value q ≤ value p ∧ (q < p → value q < value p)

end HP.Spec
