import Verif.Model.Objects
/-
A program with several problems.

Problems are independent Python objects, but a program can make them share things: the settings dict is
stored by reference (heuristics.py 205, 279-280), so two problems can be given the same dict, and `copy.copy`
of a problem (Python standard library: a new object with the same attributes) has the same `Items` and `Containers`
objects, which keep their reference to the original problem (`instance`, structures.py 41-76, 142-156).
Every structure object therefore has an owner here, and every problem the number of its settings dict.

Simplification: the dicts inside two different settings dicts (the values of "figure" and "export") are different objects.
-/
namespace HP

/-- a problem object: the objects `_items` and `_containers` refer to, the dict `_settings` refers to, and the
other attributes (the fields `items`, `containers` and `settings` of `inst` are not used) -/
structure Prob where
  its : Nat
  cont : Nat
  sref : Nat
  inst : Inst

/-- All objects of a program.  `owner` and `downer` are the attributes `instance` of structure and `Dimensions` objects. -/
structure Program where
  dims : Nat → DimObj
  nd : Nat
  structs : Nat → StructObj
  ns : Nat
  owner : Nat → Nat
  downer : Nat → Nat
  probs : Nat → Prob
  np : Nat
  sets : Nat → PyVal
  nset : Nat

/-- the objects before anything is created -/
def Program.empty : Program :=
  ⟨fun _ => ⟨.items, ⟨0, 0⟩⟩, 0, fun _ => ⟨.items, []⟩, 0, fun _ => 0, fun _ => 0,
   fun _ => ⟨0, 0, 0, rawInst false [] [] none .none⟩, 0, fun _ => .none, 0⟩

namespace Program

/-- the content of problem `p`'s settings, heuristics.py 274-276 -/
def settings (m : Program) (p : Nat) : PyVal := m.sets (m.probs p).sref

/-- problem `p` and the objects of the program -/
def world (m : Program) (p : Nat) : World :=
  ⟨m.dims, m.nd, m.structs, m.ns, (m.probs p).its, (m.probs p).cont,
   { (m.probs p).inst with settings := m.settings p }⟩

/-- problem `p` as its methods see it -/
def view (m : Program) (p : Nat) : Inst := (m.world p).view

/-- what a method of problem `p`, or of an object of problem `p`, has done: new objects belong to problem `p`;
changes of the settings are changes of the dict -/
def put (m : Program) (p : Nat) (w : World) : Program :=
  { m with
    dims := w.dims, nd := w.nd, structs := w.structs, ns := w.ns
    owner := fun r => if r < m.ns then m.owner r else p
    downer := fun n => if n < m.nd then m.downer n else p
    probs := fun q => if q = p then ⟨w.its, w.cont, (m.probs p).sref, w.inst⟩ else m.probs q
    sets := fun s => if s = (m.probs p).sref then w.inst.settings else m.sets s }

/-- `problem p`.settings = another dict (heuristics.py 278-280) -/
def newDict (m : Program) (p : Nat) (v : PyVal) : Program :=
  { m with
    probs := fun q => if q = p then { m.probs p with sref := m.nset } else m.probs q
    sets := fun s => if s = m.nset then v else m.sets s
    nset := m.nset + 1 }

/-- `problem p`.settings = `problem q`.settings: the dict becomes the settings of both -/
def sameDict (m : Program) (p q : Nat) : Program :=
  { m with probs := fun s => if s = p then { m.probs p with sref := (m.probs q).sref } else m.probs s }

/-- a method call on structure object `r`: it uses the problem the object was made for -/
def onStruct (m : Program) (r : Nat) (f : SMeth) : Program × Outcome :=
  let x := (m.world (m.owner r)).onStruct r f
  (m.put (m.owner r) x.1, x.2)

/-- a method call on `Dimensions` object `r` -/
def onDims (m : Program) (r : Nat) (f : DMeth) : Program × Outcome :=
  let x := (m.world (m.downer r)).onDims r f
  (m.put (m.downer r) x.1, x.2)

/-- a method call on `problem.items[id]` / `problem.containers[id]` -/
def onEntry (m : Program) (p : Nat) (k : SKind) (id : PyVal) (f : DMeth) : Program × Outcome :=
  match lookupKey ((m.world p).entries ((m.world p).ptr k)) id with
  | .error e => (m, .raised e)
  | .ok (_, r) => m.onDims r f

/-- the loops of `orient_items` of problem `p`, mixins.py 1009-1019: they assign to the entries of the
`Dimensions` objects in `_items` -/
def orientWith (m : Program) (p : Nat) (turn : Nat → Nat → Bool) : Program × Outcome :=
  let q := m.owner (m.probs p).its
  let w := { m.world q with its := (m.probs p).its }
  let x := w.orientLoop turn (PyDict.keys (w.entries w.its))
  (m.put q { x.1 with its := (m.probs q).its }, .of x.2)

/-- `orient_items(orientation)` of problem `p`, mixins.py 975-1019 -/
def orient (m : Program) (p : Nat) (orientation : PyVal) : Program × Outcome :=
  if orientation.isNone then (m, .ok)
  else if !(m.probs p).inst.rotation then (m, .ok)
  else if orientation.eqStr "wide" then m.orientWith p (fun x l => decide (l > x))
  else if orientation.eqStr "long" then m.orientWith p (fun x l => decide (l < x))
  else (m, .ok)

/-- a method of problem `p` that edits no structure object in place -/
def own (A : Arith) (m : Program) (p : Nat) (o : Op) : Program × Outcome :=
  let x := (m.world p).call A o
  (m.put p x.1, x.2)

/-- `hypersearch(...)` of problem `p`, heuristics.py 565-634 -/
def hypersearch (A : Arith) (m : Program) (p : Nat) (h : HSArgs) : Program × Outcome :=
  match m.own A p (.sortItems h.sortingBy) with
  | (m, .ok) =>
    match m.orient p h.orientation with
    | (m, .ok) =>
      let w := m.world p
      (m.put p { w with inst := (w.view.search A h).1 }, (w.view.search A h).2)
    | r => r
  | r => r

/-- the operations of `Model/Machine.lean` on problem `p`, on `problem.items`, `problem.containers` and on their
entries -/
def call (A : Arith) (m : Program) (p : Nat) : Op → Program × Outcome
  | .setKey k id v => m.onStruct ((m.world p).ptr k) (.setItem id v)
  | .delKey k key => m.onStruct ((m.world p).ptr k) (.delItem key)
  | .popKey k key d => m.onStruct ((m.world p).ptr k) (.pop key d)
  | .popItem k => m.onStruct ((m.world p).ptr k) .popitem
  | .clear k => m.onStruct ((m.world p).ptr k) .clear
  | .update k es => m.onStruct ((m.world p).ptr k) (.update es)
  | .setDefault k key v => m.onStruct ((m.world p).ptr k) (.setdefault key v)
  | .setDim k id key v => m.onEntry p k id (.setItem key v)
  | .delDim k id => m.onEntry p k id .delItem
  | .updateDim k id es => m.onEntry p k id (.update es)
  | .orientItems o => m.orient p o
  | .hypersearch h => m.hypersearch A p h
  | .settings E v => (m.newDict p v).own A p (.validate E)
  | o => m.own A p o

/-- a new problem with the attributes `i` and the settings dict `sref`: new structure objects, heuristics.py 36-44,
80-91 -/
def add (m : Program) (i : Inst) (sref : Nat) : Program :=
  let w := (World.build .containers i.containers ⟨m.dims, m.nd, m.structs, m.ns, 0, 0, i⟩).build .items i.items
  { m with
    dims := w.dims, nd := w.nd, structs := w.structs, ns := w.ns
    owner := fun r => if r < m.ns then m.owner r else m.np
    downer := fun n => if n < m.nd then m.downer n else m.np
    probs := fun q => if q = m.np then ⟨m.ns + 1, m.ns, sref, i⟩ else m.probs q
    np := m.np + 1 }

/-- a new settings dict -/
def addDict (m : Program) (v : PyVal) : Program :=
  { m with sets := fun s => if s = m.nset then v else m.sets s, nset := m.nset + 1 }

/-- `HyperPack(containers, items, settings, strip_pack_width=stripWidth)` with a dict of its own -/
def new (m : Program) (E : Env) (containers items settings stripWidth : PyVal) : Program × Outcome :=
  match mkInst E containers items settings stripWidth with
  | .error e => (m, .raised e)
  | .ok i => ((m.addDict i.settings).add i m.nset, .ok)

/-- what the constructor leaves in the given settings dict: `validate_settings` may write a file name
(mixins.py 775-779), also if it raises afterwards; cf. `mkInst` -/
def settingsAfter (E : Env) (containers items settings stripWidth : PyVal) : PyVal :=
  match initContainers containers stripWidth with
  | .error _ => settings
  | .ok (strip, cs, height) =>
    match (buildStructure .items items).2 with
    | .error _ => settings
    | .ok its => (Inst.validateSettings E (rawInst strip cs its height settings)).1.settings

/-- `HyperPack(containers, items, problem_q.settings, strip_pack_width=stripWidth)`: the dict is shared, unless it
is empty (`settings or {}`, heuristics.py 205) -/
def newWith (m : Program) (E : Env) (containers items : PyVal) (q : Nat) (stripWidth : PyVal) : Program × Outcome :=
  if (m.settings q).truthy then
    let m' := { m with sets := fun s =>
      if s = (m.probs q).sref then settingsAfter E containers items (m.settings q) stripWidth else m.sets s }
    match mkInst E containers items (m.settings q) stripWidth with
    | .error e => (m', .raised e)
    | .ok i => (m'.add i (m.probs q).sref, .ok)
  else m.new E containers items (m.settings q) stripWidth

/-- `copy.deepcopy(problem)`: everything the problem refers to is copied -/
def deepcopy (m : Program) (p : Nat) : Program := (m.addDict (m.settings p)).add (m.view p) m.nset

/-- `copy.copy(problem)`: a new object with the same attributes -/
def copy (m : Program) (p : Nat) : Program :=
  { m with probs := fun q => if q = m.np then m.probs p else m.probs q, np := m.np + 1 }

end Program

/-- what a program can do -/
inductive POp where
  /-- construct a problem -/
  | new (E : Env) (containers items settings stripWidth : PyVal)
  /-- construct a problem with the settings dict of problem `q` -/
  | newWith (E : Env) (containers items : PyVal) (q : Nat) (stripWidth : PyVal)
  /-- an operation on problem `p` -/
  | call (p : Nat) (o : Op)
  /-- `p.settings = q.settings` -/
  | share (E : Env) (p q : Nat)
  /-- methods and copies of structure objects that were kept -/
  | onStruct (r : Nat) (f : SMeth)
  | onDims (r : Nat) (f : DMeth)
  | copyStruct (r : Nat)
  | copyDims (r : Nat)
  /-- `copy.deepcopy(p)` and `copy.copy(p)` -/
  | deepcopy (p : Nat)
  | copy (p : Nat)

/-- the objects exist -/
def POp.Exists (m : Program) : POp → Prop
  | .new .. => True
  | .newWith _ _ _ q _ => q < m.np
  | .call p _ => p < m.np
  | .share _ p q => p < m.np ∧ q < m.np
  | .onStruct r _ => r < m.ns
  | .onDims r _ => r < m.nd
  | .copyStruct r => r < m.ns
  | .copyDims r => r < m.nd
  | .deepcopy p => p < m.np
  | .copy p => p < m.np

/-- one operation -/
def Program.step (A : Arith) (m : Program) : POp → Program × Outcome
  | .new E c i s w => m.new E c i s w
  | .newWith E c i q w => m.newWith E c i q w
  | .call p o => m.call A p o
  | .share E p q => (m.sameDict p q).own A p (.validate E)
  | .onStruct r f => m.onStruct r f
  | .onDims r f => m.onDims r f
  | .copyStruct r => (m.put (m.owner r) ((m.world (m.owner r)).shallowStruct r), .ok)
  | .copyDims r => (m.put (m.downer r) ((m.world (m.downer r)).shallowDim r), .ok)
  | .deepcopy p => (m.deepcopy p, .ok)
  | .copy p => (m.copy p, .ok)

/-- the programs without `copy.copy` of a problem -/
inductive PReach (A : Arith) : Program → Prop where
  | empty : PReach A Program.empty
  | step {m : Program} (o : POp) : PReach A m → o.Exists m → (∀ p, o ≠ .copy p) → PReach A (m.step A o).1

end HP
