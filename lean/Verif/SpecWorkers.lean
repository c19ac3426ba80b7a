import Verif.Model.MultiProcess
/-
Vocabulary for schedules of the multi process hypersearch.
-/
namespace HP.Spec

/-- the worker is still inside the `try` block of `run` -/
def inTry : Phase → Bool
  | .start => true
  | .loop .. => true
  | .searched .. => true
  | .read .. => true
  | .check .. => true
  | .put _ => true
  | _ => false

/-- in this schedule worker `p` raises an exception inside its `try` block: an event `raise` hits
it there, or it starts although told to fail (`_force_raise_error_index`) -/
def Raised (M : MPParams) (w : Inst) (chunks : List (List (List PClass)))
    (schedule : List (Nat × MPEvent)) (p : Nat) : Prop :=
  ∃ before ev after ph, schedule = before ++ (p, ev) :: after ∧
    (mpRun M w chunks before).phases[p]? = some ph ∧
    ((ev = .raise ∧ inTry ph = true) ∨ (ev = .step ∧ ph = .start ∧ M.force p = true))

/-- worker `p` is killed by an event of the schedule -/
def Killed (schedule : List (Nat × MPEvent)) (p : Nat) : Prop := (p, MPEvent.kill) ∈ schedule

/-- after the schedule every worker process has ended -/
def AllEnded (M : MPParams) (w : Inst) (chunks : List (List (List PClass)))
    (schedule : List (Nat × MPEvent)) : Prop :=
  ∀ (p : Nat) (ph : Phase), (mpRun M w chunks schedule).phases[p]? = some ph → ph.ended = true

end HP.Spec
