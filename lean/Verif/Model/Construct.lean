import Verif.Types
import Verif.Model.Py
/-
Model of the point generation construction heuristic:
hyperpack/mixins.py, class PointGenerationMixin (lines 19-625).
-/
namespace HP

/-- The floating point operations the code performs, on rationals.  Every field may be any
function, i.e. any rounding; `Arith.exact` is exact arithmetic. -/
structure Arith where
  /-- `a / b` of two ints, mixins.py 20, 540 -/
  div : Nat → Nat → Rat
  /-- `obj_value + value`, mixins.py 490 and the final `+` of 1122 -/
  add : Rat → Rat → Rat
  /-- `sum([...])` of floats, mixins.py 1119, 1122 -/
  sum : List Rat → Rat
  /-- `0.7 * x`, mixins.py 1122 -/
  mul07 : Rat → Rat
  /-- `(a / b) <= 0.2`, mixins.py 190, 276 (RATIO_FOR_POINT_A_ / _B_ 37-38) -/
  ratioLe : Nat → Nat → Bool
  /-- `max(a, b) / min(a, b)` of two ints, mixins.py 1057 -/
  quot : Nat → Nat → Rat
  /-- `time() - start_time`, abstract.py 169, heuristics.py 487, processes.py 110 -/
  sub : Rat → Rat → Rat

/-- exact (unrounded) arithmetic -/
def Arith.exact : Arith where
  div a b := (a : Rat) / (b : Rat)
  add x y := x + y
  sum xs := xs.foldr (· + ·) 0
  mul07 x := (7 / 10 : Rat) * x
  ratioLe a b := decide (5 * a ≤ b)
  quot a b := (a : Rat) / (b : Rat)
  sub x y := x - y

/-- DEFAULT_POTENTIAL_POINTS_STRATEGY, mixins.py 40-51. -/
def defaultStrategy : List PClass :=
  [.A, .B, .C, .D, .A_, .B_, .B__, .A__, .E, .F]

/-- `container_coords`: list of rows (index y), each a list of cells (index x),
mixins.py 394.  Cell values: 0 free, 1 inside, 2 side, 3 corner of an item. -/
abbrev Grid := List (List Nat)

/-- `container_coords[y][x]` -/
def rd (g : Grid) (y x : Int) : Except PyErr Nat :=
  match pyGet g y with
  | .error e => .error e
  | .ok row => pyGet row x

/-- `v in (2, 3)` -/
def in23 (v : Nat) : Bool := v == 2 || v == 3

/-- `v in (0, 3)` -/
def in03 (v : Nat) : Bool := v == 0 || v == 3

/-- `any(container_coords[y][Xo : Xo + w])`, mixins.py 96. -/
def rowTaken (g : Grid) (y : Nat) (Xo w : Nat) : Except PyErr Bool :=
  match pyGet g y with
  | .error e => .error e
  | .ok row => .ok (((row.drop Xo).take w).any (· != 0))

/-- the loop of mixins.py 95-99 over the given rows -/
def rowsFree (g : Grid) (Xo w : Nat) : List Nat → Except PyErr Bool
  | [] => .ok true
  | y :: ys =>
    match rowTaken g y Xo w with
    | .error e => .error e
    | .ok true => .ok false
    | .ok false => rowsFree g Xo w ys

/-- `_check_fitting`, mixins.py 73-99. -/
def checkFitting (W L Xo Yo w l : Nat) (g : Grid) : Except PyErr Bool :=
  match
    orP (.ok (decide (Xo + w > W))) <|
    orP (.ok (decide (Yo + l > L))) <|
    orP (testP (rd g Yo Xo) (· != 0)) <|
    orP (testP (rd g Yo ((Xo : Int) + w - 1)) (· != 0)) <|
    orP (testP (rd g ((Yo : Int) + l - 1) Xo) (· != 0)) <|
        (testP (rd g ((Yo : Int) + l - 1) ((Xo : Int) + w - 1)) (· != 0)) with
  | .error e => .error e
  | .ok true => .ok false
  | .ok false => rowsFree g Xo w (List.range' Yo (l - 1))   -- range(Yo, Yo + l - 1)

/-- Potential points generated by one placement, in the order of the `append` calls.
The Python appends directly to the deques; here the appends are collected in a list and
applied by `Pools.pushAll`. -/
abbrev GenPts := List (PClass × Pt)

/-- The loop of mixins.py 165-187 (`for x in range(Xo - 1, -1, -1)`), started with the
number of columns still to inspect.  Both cells of the column are read up front; the
Python re-reads them lazily in the same column of the two valid rows `Ay`, `Ay - 1`. -/
def scanA (g : Grid) (Ay : Nat) : Nat → Except PyErr (Option Nat)
  | 0 => .ok none
  | x + 1 =>
    match rd g Ay x, rd g ((Ay : Int) - 1) x with
    | .ok up, .ok dn =>
      if up == 0 && dn == 0 && x == 0 then .ok (some x)         -- 167-173
      else if up == 0 && dn == 0 then scanA g Ay x              -- 174-176
      else if in23 up && in23 dn then .ok (some (x + 1))        -- 177-183
      else if in23 up && dn == 0 then .ok (some (x + 1))        -- 184-187
      else scanA g Ay x
    | .error e, _ => .error e
    | _, .error e => .error e

/-- A_gen, mixins.py 127-141. -/
def condA (g : Grid) (L Xo Ay : Nat) : Except PyErr Bool :=
  andP (andP (.ok (decide (Ay < L))) (testP (rd g Ay Xo) (· == 0))) <|
    orP (.ok (Xo == 0)) <|
    orP
      (andP (testP (rd g ((Ay : Int) - 1) ((Xo : Int) - 1)) in23)
            (testP (rd g Ay ((Xo : Int) - 1)) in23))
      (andP (testP (rd g ((Ay : Int) - 1) ((Xo : Int) - 1)) in03)
            (testP (rd g Ay ((Xo : Int) - 1)) (· == 3)))

/-- mixins.py 189-197: the point found by the scan is an A' point when it is within 20% of
the container's width, otherwise an E point. `abs(Xo - x_point) = Xo - x_point` here since
the scan only moves to the left. -/
def pointAE (A : Arith) (W Xo Ay : Nat) : Option Nat → GenPts
  | none => []
  | some xp => if A.ratioLe (Xo - xp) W then [(.A_, ⟨xp, Ay⟩)] else [(.E, ⟨xp, Ay⟩)]

/-- Points A, A', E, A'' : mixins.py 122-204. -/
def genA (A : Arith) (g : Grid) (W L Xo Yo l : Nat) : Except PyErr GenPts := do
  let Ay := Yo + l
  let aGen ← condA g L Xo Ay                                     -- 127-143
  let ptsA : GenPts := if aGen then [(.A, ⟨Xo, Ay⟩)] else []
  -- 147-151: append_A__ / prohibit_E_and_A_
  let noAppend ← orP (.ok (decide (Ay ≥ L))) (testP (rd g Ay Xo) (· != 0))
  let prohibit ←
    (if noAppend then .ok false
     else orP (.ok (decide (Ay ≥ L))) (testP (rd g Ay ((Xo : Int) - 1)) in23))
  -- 155-162
  let scan ←
    andP (.ok (decide (Ay < L))) <| andP (.ok (decide (Xo > 0))) <|
    andP (.ok (!aGen)) <| andP (.ok (!prohibit)) <|
    andP (testP (rd g ((Ay : Int) - 1) ((Xo : Int) - 1)) (· == 0))
         (testP (rd g Ay ((Xo : Int) - 1)) (· == 0))
  let xPoint ← (if scan then scanA g Ay Xo else .ok none)        -- 163-187
  let ptsAE := pointAE A W Xo Ay xPoint                          -- 189-197
  -- 201-204
  let ptsA2 : GenPts := if !aGen && !noAppend then [(.A__, ⟨Xo, Ay⟩)] else []
  return ptsA ++ ptsAE ++ ptsA2

/-- The loop of mixins.py 248-273 (`for y in range(Yo - 1, -1, -1)`); see `scanA`. -/
def scanB (g : Grid) (Bx : Nat) : Nat → Except PyErr (Option Nat)
  | 0 => .ok none
  | y + 1 =>
    match rd g y Bx, rd g y ((Bx : Int) - 1) with
    | .ok rt, .ok lf =>
      if rt == 0 && lf == 0 && y == 0 then .ok (some y)         -- 250-256
      else if rt == 0 && lf == 0 then scanB g Bx y              -- 257-259
      else if in23 rt && in23 lf then .ok (some (y + 1))        -- 260-266
      else if in23 rt && lf == 0 then .ok (some (y + 1))        -- 267-270
      else if in23 lf && rt == 0 then .ok none                  -- 271-273
      else scanB g Bx y
    | .error e, _ => .error e
    | _, .error e => .error e

/-- B_gen, mixins.py 212-224. -/
def condB (g : Grid) (W Yo Bx : Nat) : Except PyErr Bool :=
  andP (andP (.ok (decide (Bx < W))) (testP (rd g Yo Bx) (· == 0))) <|
    orP (.ok (Yo == 0)) <|
    orP
      (andP (testP (rd g ((Yo : Int) - 1) ((Bx : Int) - 1)) in23)
            (testP (rd g ((Yo : Int) - 1) Bx) in23))
      (andP (testP (rd g ((Yo : Int) - 1) ((Bx : Int) - 1)) in03)
            (testP (rd g ((Yo : Int) - 1) Bx) (· == 3)))

/-- mixins.py 275-283: B' point when within 20% of the container's length, else F. -/
def pointBF (A : Arith) (L Yo Bx : Nat) : Option Nat → GenPts
  | none => []
  | some yp => if A.ratioLe (Yo - yp) L then [(.B_, ⟨Bx, yp⟩)] else [(.F, ⟨Bx, yp⟩)]

/-- Points B, B', F, B'' : mixins.py 206-291. -/
def genB (A : Arith) (g : Grid) (W L Xo Yo w : Nat) : Except PyErr GenPts := do
  let Bx := Xo + w
  let bGen ← condB g W Yo Bx                                     -- 212-228
  let ptsB : GenPts := if bGen then [(.B, ⟨Bx, Yo⟩)] else []
  -- 230-234
  let noAppend ← orP (.ok (decide (Bx ≥ W))) (testP (rd g Yo Bx) (· != 0))
  let prohibit ←
    (if noAppend then .ok false
     else orP (.ok (decide (Bx ≥ W))) (testP (rd g ((Yo : Int) - 1) Bx) in23))
  -- 238-245
  let scan ←
    andP (.ok (decide (Bx < W))) <| andP (.ok (decide (Yo > 0))) <|
    andP (.ok (!bGen)) <| andP (.ok (!prohibit)) <|
    andP (testP (rd g ((Yo : Int) - 1) ((Bx : Int) - 1)) (· == 0))
         (testP (rd g ((Yo : Int) - 1) Bx) (· == 0))
  let yPoint ← (if scan then scanB g Bx Yo else .ok none)        -- 246-273
  let ptsBF := pointBF A L Yo Bx yPoint                          -- 275-283
  -- 288-291
  let ptsB2 : GenPts := if !bGen && !noAppend then [(.B__, ⟨Bx, Yo⟩)] else []
  return ptsB ++ ptsBF ++ ptsB2

/-- loop of mixins.py 296-300 over the given columns -/
def scanC (g : Grid) (Ay : Nat) : List Nat → Except PyErr GenPts
  | [] => .ok []
  | x :: xs => do
    let hit ← andP (testP (rd g Ay x) (· == 3)) (testP (rd g Ay ((x : Int) + 1)) (· == 0))
    let rest ← scanC g Ay xs
    return (if hit then [(.C, ⟨x + 1, Ay⟩)] else []) ++ rest

/-- C points, mixins.py 293-300 (`range(Xo, Bx - 1)` has `w - 1` elements). -/
def genC (g : Grid) (L Xo Yo w l : Nat) : Except PyErr GenPts :=
  let Ay := Yo + l
  if Ay < L then scanC g Ay (List.range' Xo (w - 1)) else .ok []

/-- loop of mixins.py 305-309 over the given rows -/
def scanD (g : Grid) (Bx : Nat) : List Nat → Except PyErr GenPts
  | [] => .ok []
  | y :: ys => do
    let hit ← andP (testP (rd g y Bx) (· == 3)) (testP (rd g ((y : Int) + 1) Bx) (· == 0))
    let rest ← scanD g Bx ys
    return (if hit then [(.D, ⟨Bx, y + 1⟩)] else []) ++ rest

/-- D points, mixins.py 302-309 (`range(Yo, Ay - 1)` has `l - 1` elements). -/
def genD (g : Grid) (W Xo Yo w l : Nat) : Except PyErr GenPts :=
  let Bx := Xo + w
  if Bx < W then scanD g Bx (List.range' Yo (l - 1)) else .ok []

/-- `_generate_points`, mixins.py 101-309 (without the debug logging). -/
def generatePoints (A : Arith) (g : Grid) (W L Xo Yo w l : Nat) : Except PyErr GenPts := do
  let a ← genA A g W L Xo Yo l
  let b ← genB A g W L Xo Yo w
  let c ← genC g L Xo Yo w l
  let d ← genD g W Xo Yo w l
  return a ++ b ++ c ++ d

/-- `potential_points`, mixins.py 324-337: one deque per class (the entry "O" is only
used for the initial point). -/
structure Pools where
  A : List Pt := []
  B : List Pt := []
  C : List Pt := []
  D : List Pt := []
  A_ : List Pt := []
  B_ : List Pt := []
  A__ : List Pt := []
  B__ : List Pt := []
  E : List Pt := []
  F : List Pt := []
  deriving DecidableEq, Repr

/-- `potential_points[pclass]` -/
def Pools.get (p : Pools) : PClass → List Pt
  | .A => p.A | .B => p.B | .C => p.C | .D => p.D | .A_ => p.A_ | .B_ => p.B_
  | .A__ => p.A__ | .B__ => p.B__ | .E => p.E | .F => p.F

/-- replace one deque -/
def Pools.set (p : Pools) (c : PClass) (v : List Pt) : Pools :=
  match c with
  | .A => { p with A := v } | .B => { p with B := v } | .C => { p with C := v }
  | .D => { p with D := v } | .A_ => { p with A_ := v } | .B_ => { p with B_ := v }
  | .A__ => { p with A__ := v } | .B__ => { p with B__ := v } | .E => { p with E := v }
  | .F => { p with F := v }

/-- the `append` calls of `_generate_points`, in order -/
def Pools.pushAll (p : Pools) : GenPts → Pools
  | [] => p
  | (c, pt) :: rest => (p.set c (p.get c ++ [pt])).pushAll rest

/-- `_get_current_point`, mixins.py 311-316: the oldest point of the first class in the
strategy with a pending point, and the pools without it. -/
def getCurrentPoint (p : Pools) : List PClass → Option Pt × Pools
  | [] => (none, p)
  | c :: cs =>
    match p.get c with
    | pt :: rest => (some pt, p.set c rest)
    | [] => getCurrentPoint p cs

/-- `row[a:b] = array("I", new)` for `0 ≤ a`: Python slice assignment with clipping. -/
def sliceAssign (row : List Nat) (a b : Nat) (new : List Nat) : List Nat :=
  row.take a ++ new ++ row.drop (max a b)

/-- `container_coords[y][a:b] = array("I", [v] * n)` -/
def setRowSlice (g : Grid) (y a b v n : Nat) : Except PyErr Grid :=
  match pyGet g y with
  | .error e => .error e
  | .ok row => pySet g y (sliceAssign row a b (List.replicate n v))

/-- `container_coords[y][x] = v` -/
def setCell (g : Grid) (y x : Int) (v : Nat) : Except PyErr Grid :=
  match pyGet g y with
  | .error e => .error e
  | .ok row =>
    match pySet row x v with
    | .error e => .error e
    | .ok row' => pySet g y row'

/-- mixins.py 451-452: interior rows -/
def fillInner (Xo w : Nat) : List Nat → Grid → Except PyErr Grid
  | [], g => .ok g
  | y :: ys, g =>
    match setRowSlice g y (Xo + 1) (Xo + w - 1) 1 (w - 2) with
    | .error e => .error e
    | .ok g' => fillInner Xo w ys g'

/-- mixins.py 466-469: vertical sides -/
def fillSides (Xo w : Nat) : List Nat → Grid → Except PyErr Grid
  | [], g => .ok g
  | y :: ys, g =>
    match setCell g y Xo 2 with
    | .error e => .error e
    | .ok g' =>
      match (if w > 1 then setCell g' y ((Xo : Int) + w - 1) 2 else .ok g') with
      | .error e => .error e
      | .ok g'' => fillSides Xo w ys g''

/-- Marking the cells of a placed item, mixins.py 444-482.
`range(y_start + 1, y_end)` is `Yo+1, …, Yo+l-2`, i.e. `l - 2` rows. -/
def fillItem (g : Grid) (Xo Yo w l : Nat) : Except PyErr Grid := do
  let inner := List.range' (Yo + 1) (l - 2)
  let g ← (if w > 2 ∧ l > 2 then fillInner Xo w inner g else .ok g)          -- 450-452
  let g ← (if w > 2 then setRowSlice g Yo (Xo + 1) (Xo + w - 1) 2 (w - 2) else .ok g) -- 455-458
  let g ← (if w > 2 ∧ l > 1 then                                             -- 459-462
      setRowSlice g (Yo + l - 1) (Xo + 1) (Xo + w - 1) 2 (w - 2) else .ok g)
  let g ← (if l > 2 then fillSides Xo w inner g else .ok g)                  -- 465-469
  let g ← setCell g Yo Xo 3                                                -- 472-482
  let g ← setCell g Yo ((Xo : Int) + w - 1) 3
  let g ← setCell g ((Yo : Int) + l - 1) Xo 3
  setCell g ((Yo : Int) + l - 1) ((Xo : Int) + w - 1) 3

/-- One entry of `current_solution` after `item.update(...)`, mixins.py 500-501:
the declared dimensions, the origin and whether the item was rotated. -/
structure Placed where
  id : String
  dim : Dim
  x : Nat
  y : Nat
  rotated : Bool
  deriving DecidableEq, Repr

/-- width and length as placed -/
def Placed.rect (p : Placed) : Rect :=
  ⟨p.x, p.y, if p.rotated then p.dim.l else p.dim.w, if p.rotated then p.dim.w else p.dim.l⟩

/-- The `for item_id in items_ids` search, mixins.py 411-427: first item of the sequence
that fits at `(Xo, Yo)`, with its dimensions and whether it had to be rotated. -/
def findFit (rot : Bool) (W L Xo Yo : Nat) (g : Grid) (items : PyDict String Dim) :
    List String → Except PyErr (Option (String × Dim × Bool))
  | [] => .ok none
  | id :: ids => do
    let d ← PyDict.getE items id
    let check ← checkFitting W L Xo Yo d.w d.l g
    if check then return some (id, d, false)
    else if rot then
      let check2 ← checkFitting W L Xo Yo d.l d.w g
      if check2 then return some (id, d, true)
      else findFit rot W L Xo Yo g items ids
    else findFit rot W L Xo Yo g items ids

/-- Local state of `_construct_solution`. -/
structure CState where
  grid : Grid
  items : PyDict String Dim
  ids : List String
  placed : List Placed
  obj : Rat
  pools : Pools
  cur : Option Pt
  deriving DecidableEq

/-- Parameters of `_construct_solution` that do not change during the run. -/
structure CParams where
  ar : Arith
  rot : Bool
  strip : Bool
  W : Nat
  L : Nat
  strategy : List PClass

/-- The item search and placement at point `pt`, mixins.py 407-517. -/
def handlePoint (P : CParams) (s : CState) (pt : Pt) : Except PyErr CState := do
  let hit ← findFit P.rot P.W P.L pt.x pt.y s.grid s.items s.ids
  match hit with
  | none => return s
  | some (id, d, rotated) =>
    let w := if rotated then d.l else d.w
    let l := if rotated then d.w else d.l
    let g ← fillItem s.grid pt.x pt.y w l
    let ids ← pyRemove s.ids id                                    -- 485
    let items ← PyDict.delE s.items id                             -- 486
    let obj :=                                                     -- 489-498
      if P.strip then s.obj else P.ar.add s.obj (P.ar.div (w * l) (P.W * P.L))
    let gen ← generatePoints P.ar g P.W P.L pt.x pt.y w l          -- 507-517
    return { s with grid := g, ids := ids, items := items, obj := obj,
                    placed := s.placed ++ [⟨id, d, pt.x, pt.y, rotated⟩],
                    pools := s.pools.pushAll gen }

/-- One round of the while loop at point `pt`, mixins.py 407-524. -/
def constructStep (P : CParams) (s : CState) (pt : Pt) : Except PyErr CState := do
  let s ← handlePoint P s pt
  let next := getCurrentPoint s.pools P.strategy                   -- 524
  return { s with cur := next.1, pools := next.2 }

/-- The `while True` loop, mixins.py 400-524, with fuel. -/
def constructLoop (P : CParams) : Nat → CState → Except PyErr CState
  | 0, _ => .error .outOfFuel
  | fuel + 1, s =>
    match s.cur with
    | none => .ok s
    | some pt =>
      if s.ids = [] ∨ s.obj ≥ 1 then .ok s
      else do constructLoop P fuel (← constructStep P s pt)

/-- A number of rounds that is proved sufficient: each placed item opens at most
`w + l + 4` points. -/
def constructFuel (items : PyDict String Dim) : Nat :=
  (items.map (fun p => p.2.w + p.2.l + 5)).sum + 2

/-- mixins.py 530-535: index of the highest occupied row (not below 1) -/
def topRow (g : Grid) : Nat → Nat
  | 0 => 1
  | y + 1 => if ((g[y + 1]?).getD []).any (· != 0) then y + 1 else topRow g y

/-- Result of `_construct_solution`: remaining items, objective value, solution. -/
structure CResult where
  items : PyDict String Dim
  obj : Rat
  solution : PyDict String Rect
  deriving DecidableEq

/-- initial state, mixins.py 379-397 with the initial points of 324-340 -/
def constructInit (P : CParams) (items : PyDict String Dim) : CState :=
  { grid := List.replicate P.L (List.replicate P.W 0)
    items := items
    ids := PyDict.keys items
    placed := []
    obj := 0
    pools := {}
    cur := some ⟨0, 0⟩ }

/-- mixins.py 529-553: objective in strip mode and the returned solution -/
def constructFinish (P : CParams) (s : CState) : Except PyErr CResult := do
  let obj ← (
    if P.strip then
      let h := topRow s.grid (P.L - 1)
      let area := (s.placed.map (fun p => p.dim.w * p.dim.l)).sum
      if P.W * h = 0 then .error .zeroDivisionError else .ok (P.ar.div area (P.W * h))
    else .ok s.obj)
  return ⟨s.items, obj, s.placed.map (fun p => (p.id, p.rect))⟩

/-- `_construct_solution`, mixins.py 342-553. -/
def construct (P : CParams) (items : PyDict String Dim) : Except PyErr CResult := do
  let s ← constructLoop P (constructFuel items) (constructInit P items)
  constructFinish P s

/-! ### `_solve` -/

/-- What `_solve` reads from the instance. -/
structure SolveIn where
  containers : PyDict String Dim
  items : PyDict String Dim
  strategy : List PClass
  rotation : Bool
  strip : Bool
  /-- `_container_height`, used when `strip` -/
  height : Nat

/-- the `solution` attribute -/
abbrev Solution := PyDict String (PyDict String Rect)
/-- the `obj_val_per_container` attribute -/
abbrev ObjVals := PyDict String Rat

/-- parameters for one container, mixins.py 318-322, 610-620 -/
def SolveIn.params (A : Arith) (p : SolveIn) (c : Dim) : CParams :=
  { ar := A, rot := p.rotation, strip := p.strip, W := c.w,
    L := if p.strip then p.height else c.l, strategy := p.strategy }

/-- loop over the containers, mixins.py 596-623 -/
def solveLoop (A : Arith) (p : SolveIn) :
    PyDict String Dim → PyDict String Dim → Except PyErr (Solution × ObjVals)
  | [], _ => .ok ([], [])
  | (cid, c) :: cs, items =>
    if items = [] then do
      let (sol, ov) ← solveLoop A p cs items
      return ((cid, []) :: sol, (cid, 0) :: ov)
    else do
      let r ← construct (p.params A c) items
      let (sol, ov) ← solveLoop A p cs r.items
      return ((cid, r.solution) :: sol, (cid, r.obj) :: ov)

/-- dict comprehension of `deepcopy(ids_sequence)`, structures.py 206-213: each id of the
sequence is looked up (KeyError) and inserted; a repeated id keeps its first position. -/
def deepcopySeq (items : PyDict String Dim) :
    List String → PyDict String Dim → Except PyErr (PyDict String Dim)
  | [], acc => .ok acc
  | id :: ids, acc => do
    let d ← PyDict.getE items id
    deepcopySeq items ids (PyDict.insert acc id d)

/-- `_solve(sequence)`, mixins.py 555-625. -/
def solve (A : Arith) (p : SolveIn) (sequence : Option (List String)) :
    Except PyErr (Solution × ObjVals) := do
  let items ← (match sequence with
    | none => Except.ok p.items
    | some s => deepcopySeq p.items s [])
  solveLoop A p p.containers items

end HP
