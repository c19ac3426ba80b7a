import Verif.Model.Construct
/-
Tests, not proofs: the repository's own point tests (tests/.../test_point_*.py) evaluated on the model of
`_construct_solution`, to check the model against the code's documented behaviour.  The properties do
not depend on this file.
-/
namespace HP.Conformance

/-- items named like in the tests -/
def items (l : List (Nat × Nat)) : PyDict String Dim := l.zipIdx.map fun (p, i) => (s!"i-{i}", ⟨p.1, p.2⟩)

/-- parameters of a test -/
def prm (c : Nat × Nat) (st : List PClass) : CParams := ⟨Arith.exact, false, false, c.1, c.2, st⟩

/-- the final state of the construction -/
def run (c : Nat × Nat) (its : List (Nat × Nat)) (st : List PClass) : Option CState :=
  (constructLoop (prm c st) 1000 (constructInit (prm c st) (items its))).toOption

/-- the items are at the expected points -/
def chkSol (s : CState) (sp : List Pt) : Bool :=
  sp.zipIdx.all fun (p, i) => s.placed.any fun q => q.id == s!"i-{i}" && q.x == p.x && q.y == p.y

/-- the point is pending at the end -/
def chkIn (c : Nat × Nat) (its : List (Nat × Nat)) (st : List PClass) (cl : PClass) (p : Pt) (sp : List Pt) : Bool :=
  match run c its st with
  | none => false
  | some s => ((s.pools.get cl |>.contains p) || s.cur == some p) && chkSol s sp

/-- the point is not pending at the end -/
def chkNot (c : Nat × Nat) (its : List (Nat × Nat)) (st : List PClass) (cl : PClass) (p : Pt) (sp : List Pt) : Bool :=
  match run c its st with
  | none => false
  | some s => !(s.pools.get cl |>.contains p) && chkSol s sp

/-- exactly these points are pending at the end -/
def chkEq (c : Nat × Nat) (its : List (Nat × Nat)) (st : List PClass) (cl : PClass) (p : List Pt) (sp : List Pt) : Bool :=
  match run c its st with
  | none => false
  | some s => (s.pools.get cl == p) && chkSol s sp

/-- the last item is at the point -/
def chkPlace (c : Nat × Nat) (its : List (Nat × Nat)) (st : List PClass) (p : Pt) : Bool :=
  match run c its st with
  | none => false
  | some s => s.placed.any fun q => q.id == s!"i-{its.length - 1}" && q.x == p.x && q.y == p.y


-- test_point_A.py, test_point_generation_A
example : chkIn (2, 4) [(1, 2)] [.B, .A__] .A ⟨0, 2⟩ [⟨0, 0⟩] = true := by decide +kernel
example : chkIn (2, 4) [(2, 1), (1, 1)] [.A, .A__] .A ⟨0, 2⟩ [⟨0, 0⟩, ⟨0, 1⟩] = true := by decide +kernel
example : chkIn (2, 4) [(1, 2), (1, 1)] [.B, .A__] .A ⟨1, 1⟩ [⟨0, 0⟩, ⟨1, 0⟩] = true := by decide +kernel
example : chkIn (2, 4) [(2, 1), (1, 3), (1, 1)] [.B, .A] .A ⟨1, 2⟩ [⟨0, 0⟩, ⟨0, 1⟩, ⟨1, 1⟩] = true := by decide +kernel
example : chkIn (2, 5) [(2, 1), (1, 1), (1, 3), (1, 3)] [.A, .B] .A ⟨1, 4⟩ [⟨0, 0⟩, ⟨0, 1⟩, ⟨0, 2⟩, ⟨1, 1⟩] = true := by decide +kernel
example : chkIn (3, 4) [(3, 1), (1, 2), (2, 1), (1, 2)] [.A, .F] .A ⟨2, 3⟩ [⟨0, 0⟩, ⟨0, 1⟩, ⟨0, 3⟩, ⟨2, 1⟩] = true := by decide +kernel
example : chkIn (3, 6) [(3, 1), (1, 1), (2, 1), (2, 2), (1, 1), (1, 3)] [.A, .B_] .A ⟨2, 4⟩ [⟨0, 0⟩, ⟨0, 1⟩, ⟨0, 2⟩, ⟨0, 3⟩, ⟨0, 5⟩, ⟨2, 1⟩] = true := by decide +kernel
example : chkIn (6, 8) [(2, 7), (3, 1), (1, 5), (1, 7)] [.A, .B] .A ⟨3, 7⟩ [⟨0, 0⟩, ⟨0, 7⟩, ⟨2, 0⟩, ⟨3, 0⟩] = true := by decide +kernel

-- test_point_A.py, test_point_generation_prohibited_A
example : chkNot (2, 4) [(2, 2), (2, 2)] [.A, .B] .A ⟨0, 4⟩ [⟨0, 0⟩, ⟨0, 2⟩] = true := by decide +kernel
example : chkNot (2, 4) [(1, 2), (1, 2)] [.B, .C] .A ⟨1, 2⟩ [⟨0, 0⟩, ⟨1, 0⟩] = true := by decide +kernel
example : chkNot (2, 4) [(1, 2), (1, 3)] [.B, .C] .A ⟨1, 3⟩ [⟨0, 0⟩, ⟨1, 0⟩] = true := by decide +kernel
example : chkNot (3, 5) [(3, 2), (1, 2), (3, 1), (1, 2)] [.A, .B] .A ⟨1, 4⟩ [⟨0, 0⟩, ⟨0, 2⟩, ⟨0, 4⟩, ⟨1, 2⟩] = true := by decide +kernel

-- test_point_A.py, test_placement_point_A
example : chkPlace (2, 4) [(1, 2), (1, 2)] [.A] ⟨0, 2⟩ = true := by decide +kernel

-- test_point_A_.py, test_point_generation_A_
example : chkIn (5, 5) [(1, 2), (1, 3)] [.B] .A_ ⟨0, 3⟩ [⟨0, 0⟩, ⟨1, 0⟩] = true := by decide +kernel
example : chkIn (5, 5) [(1, 4), (1, 2), (1, 3)] [.B] .A_ ⟨1, 3⟩ [⟨0, 0⟩, ⟨1, 0⟩, ⟨2, 0⟩] = true := by decide +kernel
example : chkIn (5, 7) [(1, 6), (1, 1), (1, 4), (1, 1), (1, 6)] [.A, .B] .A_ ⟨1, 6⟩ [⟨0, 0⟩, ⟨0, 6⟩, ⟨1, 0⟩, ⟨1, 4⟩, ⟨2, 0⟩] = true := by decide +kernel
example : chkIn (5, 7) [(1, 3), (1, 3), (2, 1), (1, 4), (1, 4), (1, 1), (1, 6)] [.A, .B] .A_ ⟨2, 6⟩ [⟨0, 0⟩, ⟨0, 3⟩, ⟨0, 6⟩, ⟨1, 0⟩, ⟨2, 0⟩, ⟨1, 4⟩, ⟨3, 0⟩] = true := by decide +kernel
example : chkIn (5, 7) [(1, 3), (1, 3), (3, 1), (1, 4), (2, 4), (1, 1), (1, 6)] [.A, .B] .A_ ⟨3, 6⟩ [⟨0, 0⟩, ⟨0, 3⟩, ⟨0, 6⟩, ⟨1, 0⟩, ⟨2, 0⟩, ⟨1, 4⟩, ⟨4, 0⟩] = true := by decide +kernel

-- test_point_A_.py, test_point_generation_prohibited_A_
example : chkNot (5, 5) [(1, 2), (1, 2)] [.B] .A_ ⟨1, 2⟩ [⟨0, 0⟩, ⟨1, 0⟩] = true := by decide +kernel
example : chkNot (6, 8) [(1, 7), (1, 6), (1, 3), (1, 3), (1, 5), (1, 7)] [.A, .B] .A_ ⟨1, 7⟩ [⟨0, 0⟩, ⟨1, 0⟩, ⟨2, 0⟩, ⟨2, 3⟩, ⟨3, 0⟩, ⟨4, 0⟩] = true := by decide +kernel
example : chkNot (6, 8) [(1, 8), (1, 6), (1, 3), (1, 3), (1, 5), (1, 7)] [.A, .B] .A_ ⟨1, 7⟩ [⟨0, 0⟩, ⟨1, 0⟩, ⟨2, 0⟩, ⟨2, 3⟩, ⟨3, 0⟩, ⟨4, 0⟩] = true := by decide +kernel
example : chkNot (6, 8) [(2, 7), (1, 1), (1, 5), (1, 7)] [.A, .B] .A_ ⟨2, 7⟩ [⟨0, 0⟩, ⟨0, 7⟩, ⟨2, 0⟩, ⟨3, 0⟩] = true := by decide +kernel
example : chkNot (6, 8) [(2, 7), (3, 1), (1, 5), (1, 7)] [.A, .B] .A_ ⟨3, 7⟩ [⟨0, 0⟩, ⟨0, 7⟩, ⟨2, 0⟩, ⟨3, 0⟩] = true := by decide +kernel

-- test_point_A_.py, test_point_generation_prohibited_A__due_to_A_gen
example : chkEq (2, 4) [(1, 2)] [.B, .A__] .A_ [] [⟨0, 0⟩] = true := by decide +kernel
example : chkEq (2, 4) [(2, 1), (1, 1)] [.A, .A__] .A_ [] [⟨0, 0⟩, ⟨0, 1⟩] = true := by decide +kernel
example : chkEq (2, 4) [(1, 2), (1, 1)] [.B, .A__] .A_ [] [⟨0, 0⟩, ⟨1, 0⟩] = true := by decide +kernel
example : chkEq (2, 4) [(2, 1), (1, 3), (1, 1)] [.B, .A] .A_ [] [⟨0, 0⟩, ⟨0, 1⟩, ⟨1, 1⟩] = true := by decide +kernel
example : chkEq (2, 5) [(2, 1), (1, 1), (1, 3), (1, 3)] [.A, .B] .A_ [] [⟨0, 0⟩, ⟨0, 1⟩, ⟨0, 2⟩, ⟨1, 1⟩] = true := by decide +kernel
example : chkEq (3, 4) [(3, 1), (1, 2), (2, 1), (1, 2)] [.A, .F] .A_ [] [⟨0, 0⟩, ⟨0, 1⟩, ⟨0, 3⟩, ⟨2, 1⟩] = true := by decide +kernel
example : chkEq (3, 6) [(3, 1), (1, 1), (2, 1), (2, 2), (1, 1), (1, 3)] [.A, .B_] .A_ [] [⟨0, 0⟩, ⟨0, 1⟩, ⟨0, 2⟩, ⟨0, 3⟩, ⟨0, 5⟩, ⟨2, 1⟩] = true := by decide +kernel
example : chkEq (6, 8) [(2, 7), (3, 1), (1, 5), (1, 7)] [.A, .B] .A_ [] [⟨0, 0⟩, ⟨0, 7⟩, ⟨2, 0⟩, ⟨3, 0⟩] = true := by decide +kernel

-- test_point_A_.py, test_placement_point_A_
example : chkPlace (5, 5) [(1, 2), (1, 3), (1, 3), (1, 3), (2, 1)] [.B, .A_] ⟨0, 3⟩ = true := by decide +kernel

-- test_point_A__.py, test_point_generation_A__
example : chkIn (2, 4) [(1, 2), (1, 3)] [.B, .A__] .A__ ⟨1, 3⟩ [⟨0, 0⟩] = true := by decide +kernel
example : chkIn (2, 4) [(1, 2), (1, 2)] [.B, .C] .A__ ⟨1, 2⟩ [⟨0, 0⟩, ⟨1, 0⟩] = true := by decide +kernel

-- test_point_A__.py, test_point_generation_prohibited_A__
example : chkNot (2, 4) [(2, 2), (2, 2)] [.A, .B] .A__ ⟨0, 4⟩ [⟨0, 0⟩, ⟨0, 2⟩] = true := by decide +kernel
example : chkNot (3, 5) [(3, 2), (1, 2), (3, 1), (1, 2)] [.A, .B] .A__ ⟨1, 4⟩ [⟨0, 0⟩, ⟨0, 2⟩, ⟨0, 4⟩, ⟨1, 2⟩] = true := by decide +kernel

-- test_point_A__.py, test_point_generation_prohibited_A___due_to_A_gen
example : chkNot (2, 4) [(1, 2)] [.B, .A__] .A__ ⟨0, 2⟩ [⟨0, 0⟩] = true := by decide +kernel
example : chkNot (2, 4) [(2, 1), (1, 1)] [.A, .A__] .A__ ⟨0, 2⟩ [⟨0, 0⟩, ⟨0, 1⟩] = true := by decide +kernel
example : chkNot (2, 4) [(1, 2), (1, 1)] [.B, .A__] .A__ ⟨1, 1⟩ [⟨0, 0⟩, ⟨1, 0⟩] = true := by decide +kernel
example : chkNot (2, 4) [(2, 1), (1, 3), (1, 1)] [.B, .A] .A__ ⟨1, 2⟩ [⟨0, 0⟩, ⟨0, 1⟩, ⟨1, 1⟩] = true := by decide +kernel
example : chkNot (2, 5) [(2, 1), (1, 1), (1, 3), (1, 3)] [.A, .B] .A__ ⟨1, 4⟩ [⟨0, 0⟩, ⟨0, 1⟩, ⟨0, 2⟩, ⟨1, 1⟩] = true := by decide +kernel
example : chkNot (3, 4) [(3, 1), (1, 2), (2, 1), (1, 2)] [.A, .F] .A__ ⟨2, 3⟩ [⟨0, 0⟩, ⟨0, 1⟩, ⟨0, 3⟩, ⟨2, 1⟩] = true := by decide +kernel
example : chkNot (3, 6) [(3, 1), (1, 1), (2, 1), (2, 2), (1, 1), (1, 3)] [.A, .B_] .A__ ⟨2, 4⟩ [⟨0, 0⟩, ⟨0, 1⟩, ⟨0, 2⟩, ⟨0, 3⟩, ⟨0, 5⟩, ⟨2, 1⟩] = true := by decide +kernel
example : chkNot (6, 8) [(2, 7), (3, 1), (1, 5), (1, 7)] [.A, .B] .A__ ⟨3, 7⟩ [⟨0, 0⟩, ⟨0, 7⟩, ⟨2, 0⟩, ⟨3, 0⟩] = true := by decide +kernel

-- test_point_A__.py, test_placement_point_A__
example : chkPlace (2, 4) [(1, 2), (1, 3), (1, 1)] [.B, .A__] ⟨1, 3⟩ = true := by decide +kernel

-- test_point_B.py, test_point_generation_B
example : chkIn (2, 4) [(1, 2)] [.B] .B ⟨1, 0⟩ [⟨0, 0⟩] = true := by decide +kernel
example : chkIn (3, 4) [(1, 2), (1, 2)] [.B] .B ⟨2, 0⟩ [⟨0, 0⟩, ⟨1, 0⟩] = true := by decide +kernel
example : chkIn (3, 4) [(3, 1), (1, 1)] [.A, .B] .B ⟨1, 1⟩ [⟨0, 0⟩, ⟨0, 1⟩] = true := by decide +kernel
example : chkIn (2, 4) [(1, 1), (1, 1), (1, 1)] [.B, .A] .B ⟨1, 1⟩ [⟨0, 0⟩, ⟨1, 0⟩, ⟨0, 1⟩] = true := by decide +kernel
example : chkIn (4, 4) [(1, 2), (1, 1), (2, 2), (3, 1)] [.B, .A] .B ⟨3, 2⟩ [⟨0, 0⟩, ⟨1, 0⟩, ⟨2, 0⟩, ⟨0, 2⟩] = true := by decide +kernel
example : chkIn (4, 4) [(1, 2), (1, 1), (2, 2), (2, 1)] [.B, .A] .B ⟨2, 2⟩ [⟨0, 0⟩, ⟨1, 0⟩, ⟨2, 0⟩, ⟨0, 2⟩] = true := by decide +kernel

-- test_point_B.py, test_point_generation_prohibited_B
example : chkNot (2, 4) [(1, 2), (1, 2)] [.B] .B ⟨2, 0⟩ [⟨0, 0⟩, ⟨1, 0⟩] = true := by decide +kernel
example : chkNot (2, 4) [(1, 1), (1, 1)] [.A] .B ⟨1, 1⟩ [⟨0, 0⟩, ⟨0, 1⟩] = true := by decide +kernel
example : chkNot (3, 4) [(1, 1), (2, 1)] [.A] .B ⟨2, 1⟩ [⟨0, 0⟩, ⟨0, 1⟩] = true := by decide +kernel
example : chkNot (3, 4) [(2, 1), (1, 3), (2, 1)] [.B, .A] .B ⟨2, 1⟩ [⟨0, 0⟩, ⟨2, 0⟩, ⟨0, 1⟩] = true := by decide +kernel

-- test_point_B.py, test_placement_point_B
example : chkPlace (3, 4) [(1, 2), (1, 2)] [.B] ⟨1, 0⟩ = true := by decide +kernel

-- test_point_B_.py, test_point_generation_B_
example : chkIn (3, 5) [(1, 1), (2, 1)] [.A] .B_ ⟨2, 0⟩ [⟨0, 0⟩, ⟨0, 1⟩] = true := by decide +kernel
example : chkIn (3, 5) [(3, 1), (1, 1), (2, 1)] [.A] .B_ ⟨2, 1⟩ [⟨0, 0⟩, ⟨0, 1⟩, ⟨0, 2⟩] = true := by decide +kernel
example : chkIn (8, 5) [(5, 1), (2, 1), (2, 1), (2, 1), (6, 1)] [.B, .A] .B_ ⟨6, 1⟩ [⟨0, 0⟩, ⟨5, 0⟩, ⟨0, 1⟩, ⟨2, 1⟩, ⟨0, 2⟩] = true := by decide +kernel
example : chkIn (8, 5) [(5, 1), (2, 1), (2, 1), (2, 1), (5, 1), (6, 1)] [.B, .A] .B_ ⟨5, 1⟩ [⟨0, 0⟩, ⟨5, 0⟩, ⟨0, 1⟩, ⟨2, 1⟩, ⟨0, 2⟩, ⟨0, 3⟩] = true := by decide +kernel

-- test_point_B_.py, test_point_generation_prohibited_B_
example : chkNot (5, 5) [(2, 1), (2, 1)] [.A] .B_ ⟨2, 1⟩ [⟨0, 0⟩, ⟨0, 1⟩] = true := by decide +kernel
example : chkNot (5, 5) [(1, 2), (1, 1), (3, 2), (2, 1)] [.B, .A] .B_ ⟨2, 2⟩ [⟨0, 0⟩, ⟨1, 0⟩, ⟨2, 0⟩, ⟨0, 2⟩] = true := by decide +kernel
example : chkNot (6, 5) [(5, 2), (1, 1), (2, 1), (2, 1), (5, 1)] [.B, .A] .B_ ⟨5, 2⟩ [⟨0, 0⟩, ⟨5, 0⟩, ⟨0, 2⟩, ⟨2, 2⟩, ⟨0, 3⟩] = true := by decide +kernel
example : chkNot (6, 5) [(5, 2), (1, 1), (2, 1), (2, 1), (5, 1)] [.B, .A] .B_ ⟨5, 1⟩ [⟨0, 0⟩, ⟨5, 0⟩, ⟨0, 2⟩, ⟨2, 2⟩, ⟨0, 3⟩] = true := by decide +kernel

-- test_point_B_.py, test_generation_prohibited_point_B__due_to_B_gen
example : chkEq (2, 4) [(1, 2)] [.B] .B_ [] [⟨0, 0⟩] = true := by decide +kernel
example : chkEq (3, 4) [(1, 2), (1, 2)] [.B] .B_ [] [⟨0, 0⟩, ⟨1, 0⟩] = true := by decide +kernel
example : chkEq (3, 4) [(3, 1), (1, 1)] [.A, .B] .B_ [] [⟨0, 0⟩, ⟨0, 1⟩] = true := by decide +kernel
example : chkEq (3, 4) [(3, 1), (1, 1), (1, 1)] [.B, .A] .B_ [] [⟨0, 0⟩, ⟨0, 1⟩, ⟨1, 1⟩] = true := by decide +kernel
example : chkEq (2, 4) [(1, 1), (1, 1), (1, 1)] [.B, .A] .B_ [] [⟨0, 0⟩, ⟨1, 0⟩, ⟨0, 1⟩] = true := by decide +kernel
example : chkEq (4, 4) [(1, 2), (1, 1), (2, 2), (3, 1)] [.B, .A] .B_ [] [⟨0, 0⟩, ⟨1, 0⟩, ⟨2, 0⟩, ⟨0, 2⟩] = true := by decide +kernel
example : chkEq (4, 4) [(1, 2), (1, 1), (2, 2), (2, 1)] [.B, .A] .B_ [] [⟨0, 0⟩, ⟨1, 0⟩, ⟨2, 0⟩, ⟨0, 2⟩] = true := by decide +kernel

-- test_point_B_.py, test_placement_point_B_
example : chkPlace (3, 2) [(1, 1), (2, 1), (1, 2)] [.A, .F] ⟨2, 0⟩ = true := by decide +kernel

-- test_point_B__.py, test_point_generation_B__
example : chkIn (2, 4) [(1, 1), (1, 1)] [.A] .B__ ⟨1, 1⟩ [⟨0, 0⟩, ⟨0, 1⟩] = true := by decide +kernel
example : chkIn (3, 4) [(1, 1), (2, 1)] [.A] .B__ ⟨2, 1⟩ [⟨0, 0⟩, ⟨0, 1⟩] = true := by decide +kernel

-- test_point_B__.py, test_point_generation_prohibited_B__
example : chkNot (2, 4) [(1, 2), (1, 2)] [.B] .B__ ⟨2, 0⟩ [⟨0, 0⟩, ⟨1, 0⟩] = true := by decide +kernel
example : chkNot (3, 4) [(2, 1), (1, 3), (2, 1)] [.B, .A] .B__ ⟨2, 1⟩ [⟨0, 0⟩, ⟨2, 0⟩, ⟨0, 1⟩] = true := by decide +kernel

-- test_point_B__.py, test_point_generation_prohibited_B___due_to_B_gen
example : chkNot (2, 4) [(1, 2)] [.B] .B__ ⟨1, 0⟩ [⟨0, 0⟩] = true := by decide +kernel
example : chkNot (3, 4) [(1, 2), (1, 2)] [.B] .B__ ⟨2, 0⟩ [⟨0, 0⟩, ⟨1, 0⟩] = true := by decide +kernel
example : chkNot (3, 4) [(3, 1), (1, 1)] [.A, .B] .B__ ⟨1, 1⟩ [⟨0, 0⟩, ⟨0, 1⟩] = true := by decide +kernel
example : chkNot (2, 4) [(1, 1), (1, 1), (1, 1)] [.B, .A] .B__ ⟨1, 1⟩ [⟨0, 0⟩, ⟨1, 0⟩, ⟨0, 1⟩] = true := by decide +kernel
example : chkNot (4, 4) [(1, 2), (1, 1), (2, 2), (3, 1)] [.B, .A] .B__ ⟨3, 2⟩ [⟨0, 0⟩, ⟨1, 0⟩, ⟨2, 0⟩, ⟨0, 2⟩] = true := by decide +kernel
example : chkNot (4, 4) [(1, 2), (1, 1), (2, 2), (2, 1)] [.B, .A] .B__ ⟨2, 2⟩ [⟨0, 0⟩, ⟨1, 0⟩, ⟨2, 0⟩, ⟨0, 2⟩] = true := by decide +kernel

-- test_point_B__.py, test_placement_point_B__
example : chkPlace (2, 2) [(1, 1), (1, 1), (1, 1)] [.A, .B__] ⟨1, 1⟩ = true := by decide +kernel

-- test_point_C.py, test_point_generation_C
example : chkIn (6, 8) [(2, 7), (3, 1), (2, 7)] [.A, .B] .C ⟨3, 7⟩ [⟨0, 0⟩, ⟨0, 7⟩, ⟨2, 0⟩] = true := by decide +kernel

-- test_point_C.py, test_point_generation_prohibited_C
example : chkNot (6, 8) [(2, 7), (3, 1), (3, 1), (2, 7)] [.A, .B__, .B] .C ⟨3, 7⟩ [⟨0, 0⟩, ⟨0, 7⟩, ⟨3, 7⟩, ⟨2, 0⟩] = true := by decide +kernel

-- test_point_C.py, test_placement_point_C
example : chkPlace (4, 8) [(2, 7), (3, 1), (2, 7), (1, 1)] [.C, .A, .B] ⟨3, 7⟩ = true := by decide +kernel

-- test_point_D.py, test_point_generation_D
example : chkIn (4, 8) [(2, 2), (2, 3), (2, 4)] [.B, .A] .D ⟨2, 3⟩ [⟨0, 0⟩, ⟨2, 0⟩, ⟨0, 2⟩] = true := by decide +kernel

-- test_point_D.py, test_point_generation_prohibited_D
example : chkNot (4, 8) [(2, 2), (2, 3), (2, 4), (2, 4)] [.B, .A__, .A] .D ⟨2, 3⟩ [⟨0, 0⟩, ⟨2, 0⟩, ⟨2, 3⟩, ⟨0, 2⟩] = true := by decide +kernel
example : chkNot (4, 8) [(2, 2), (2, 2), (2, 4)] [.B, .A] .D ⟨2, 2⟩ [⟨0, 0⟩, ⟨2, 0⟩, ⟨0, 2⟩] = true := by decide +kernel

-- test_point_D.py, test_placement_point_D
example : chkPlace (4, 8) [(2, 2), (2, 3), (2, 4), (2, 5)] [.D, .B, .A] ⟨2, 3⟩ = true := by decide +kernel

-- test_point_E.py, test_point_generation_E
example : chkIn (5, 5) [(1, 2), (1, 2), (1, 2), (1, 3)] [.B] .E ⟨0, 3⟩ [⟨0, 0⟩, ⟨1, 0⟩, ⟨2, 0⟩, ⟨3, 0⟩] = true := by decide +kernel
example : chkIn (5, 5) [(1, 4), (1, 2), (1, 1), (1, 1), (1, 3)] [.B] .E ⟨1, 3⟩ [⟨0, 0⟩, ⟨1, 0⟩, ⟨2, 0⟩, ⟨3, 0⟩, ⟨4, 0⟩] = true := by decide +kernel
example : chkIn (5, 7) [(1, 6), (1, 1), (1, 4), (1, 4), (1, 4), (1, 1), (1, 6)] [.A, .B] .E ⟨1, 6⟩ [⟨0, 0⟩, ⟨0, 6⟩, ⟨1, 0⟩, ⟨2, 0⟩, ⟨3, 0⟩, ⟨1, 4⟩, ⟨4, 0⟩] = true := by decide +kernel
example : chkIn (5, 7) [(1, 3), (1, 3), (1, 1), (1, 4), (1, 4), (1, 4), (1, 1), (1, 6)] [.A, .B] .E ⟨1, 6⟩ [⟨0, 0⟩, ⟨0, 3⟩, ⟨0, 6⟩, ⟨1, 0⟩, ⟨2, 0⟩, ⟨3, 0⟩, ⟨1, 4⟩, ⟨4, 0⟩] = true := by decide +kernel
example : chkIn (6, 7) [(1, 3), (1, 3), (2, 1), (1, 4), (1, 4), (1, 4), (1, 4), (1, 1), (1, 6)] [.A, .B] .E ⟨2, 6⟩ [⟨0, 0⟩, ⟨0, 3⟩, ⟨0, 6⟩, ⟨1, 0⟩, ⟨2, 0⟩, ⟨3, 0⟩, ⟨4, 0⟩, ⟨1, 4⟩, ⟨5, 0⟩] = true := by decide +kernel
example : chkIn (7, 7) [(1, 3), (1, 3), (3, 1), (1, 4), (2, 4), (1, 4), (1, 4), (1, 1), (1, 6)] [.A, .B] .E ⟨3, 6⟩ [⟨0, 0⟩, ⟨0, 3⟩, ⟨0, 6⟩, ⟨1, 0⟩, ⟨2, 0⟩, ⟨4, 0⟩, ⟨5, 0⟩, ⟨1, 4⟩, ⟨6, 0⟩] = true := by decide +kernel

-- test_point_E.py, test_point_generation_prohibited_E
example : chkNot (5, 5) [(1, 2), (1, 2)] [.B] .E ⟨1, 2⟩ [⟨0, 0⟩, ⟨1, 0⟩] = true := by decide +kernel
example : chkNot (6, 8) [(1, 7), (1, 6), (1, 3), (1, 3), (1, 5), (1, 7)] [.A, .B] .E ⟨1, 7⟩ [⟨0, 0⟩, ⟨1, 0⟩, ⟨2, 0⟩, ⟨2, 3⟩, ⟨3, 0⟩, ⟨4, 0⟩] = true := by decide +kernel

-- test_point_E.py, test_placement_point_E
example : chkPlace (4, 4) [(1, 2), (1, 2), (1, 2), (1, 3), (4, 1)] [.E, .B] ⟨0, 3⟩ = true := by decide +kernel

-- test_point_F.py, test_point_generation_F
example : chkIn (3, 5) [(1, 1), (1, 1), (1, 1), (2, 1)] [.A] .F ⟨2, 0⟩ [⟨0, 0⟩, ⟨0, 1⟩, ⟨0, 2⟩, ⟨0, 3⟩] = true := by decide +kernel
example : chkIn (3, 5) [(3, 1), (1, 1), (1, 1), (1, 1), (2, 1)] [.A] .F ⟨2, 1⟩ [⟨0, 0⟩, ⟨0, 1⟩, ⟨0, 2⟩, ⟨0, 3⟩, ⟨0, 4⟩] = true := by decide +kernel
example : chkIn (8, 6) [(6, 1), (2, 1), (2, 1), (2, 1), (5, 1), (5, 1), (6, 1), (7, 1)] [.B, .A] .F ⟨6, 1⟩ [⟨0, 0⟩, ⟨6, 0⟩, ⟨0, 1⟩, ⟨2, 1⟩, ⟨0, 2⟩, ⟨0, 3⟩] = true := by decide +kernel
example : chkIn (8, 6) [(6, 1), (2, 1), (2, 1), (2, 1), (5, 1), (5, 1), (6, 1), (7, 1)] [.B, .A] .F ⟨7, 1⟩ [⟨0, 0⟩, ⟨6, 0⟩, ⟨0, 1⟩, ⟨2, 1⟩, ⟨0, 2⟩, ⟨0, 3⟩] = true := by decide +kernel

-- test_point_F.py, test_point_generation_prohibited_F
example : chkNot (5, 5) [(2, 1), (2, 1)] [.A] .F ⟨2, 1⟩ [⟨0, 0⟩, ⟨0, 1⟩] = true := by decide +kernel
example : chkNot (6, 7) [(5, 2), (1, 1), (2, 1), (2, 1), (4, 1), (4, 1), (5, 1)] [.B, .A] .F ⟨5, 2⟩ [⟨0, 0⟩, ⟨5, 0⟩, ⟨0, 2⟩, ⟨2, 2⟩, ⟨0, 3⟩, ⟨0, 4⟩, ⟨0, 5⟩] = true := by decide +kernel
example : chkNot (6, 7) [(5, 2), (1, 1), (2, 1), (2, 1), (4, 1), (4, 1), (5, 1)] [.B, .A] .F ⟨5, 1⟩ [⟨0, 0⟩, ⟨5, 0⟩, ⟨0, 2⟩, ⟨2, 2⟩, ⟨0, 3⟩, ⟨0, 4⟩, ⟨0, 5⟩] = true := by decide +kernel

-- test_point_F.py, test_placement_point_F
example : chkPlace (3, 4) [(1, 1), (1, 1), (1, 1), (2, 1), (1, 4)] [.F, .A] ⟨2, 0⟩ = true := by decide +kernel

end HP.Conformance
