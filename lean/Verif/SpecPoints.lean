import Verif.Spec
import Verif.Model.Construct
/-
Specification of the point generation heuristic in terms of rectangles: no grid, no marks.  Of the
model only `Arith` (the rounding parameter) is used.
-/
namespace HP.Spec

/-- the unit cell `(x, y)` belongs to a rectangle of the layout -/
def Covered (layout : List Rect) (x y : Nat) : Prop := ∃ r ∈ layout, Covers r x y

/-- The point `p` lies above the rectangle `r`, where a point that starts at the top left corner of
`r` and moves to the left comes to rest: at a rectangle that it meets, or at the container's wall.
It must be able to begin the way (the cell left of `r` at its top is free as well), and at the wall
the cell below must be free. -/
def SlidesLeft (L : Nat) (layout : List Rect) (r : Rect) (p : Pt) : Prop :=
  p.y = r.y + r.l ∧ p.y < L ∧ p.x < r.x ∧
  (∀ x, p.x ≤ x → x < r.x → ¬ Covered layout x p.y) ∧
  ¬ Covered layout (r.x - 1) (p.y - 1) ∧
  (if p.x = 0 then ¬ Covered layout 0 (p.y - 1) else Covered layout (p.x - 1) p.y)

/-- The point `p` lies to the right of the rectangle `r`, where a point that starts at the bottom
right corner of `r` and falls down comes to rest: at a rectangle that it meets, or at the
container's bottom.  The cells to the left of its way must be free, too. -/
def SlidesDown (W : Nat) (layout : List Rect) (r : Rect) (p : Pt) : Prop :=
  p.x = r.x + r.w ∧ p.x < W ∧ p.y < r.y ∧
  (∀ y, p.y ≤ y → y < r.y → ¬ Covered layout p.x y ∧ ¬ Covered layout (p.x - 1) y) ∧
  (p.y = 0 ∨ Covered layout p.x (p.y - 1))

/-- the top left corner of `r` can be the origin of another item -/
def AboveFree (L : Nat) (layout : List Rect) (r : Rect) : Prop :=
  r.y + r.l < L ∧ ¬ Covered layout r.x (r.y + r.l)

/-- the bottom right corner of `r` can be the origin of another item -/
def RightFree (W : Nat) (layout : List Rect) (r : Rect) : Prop :=
  r.x + r.w < W ∧ ¬ Covered layout (r.x + r.w) r.y

/-- The points that the rectangle `r` spawns when it is put into a `W × L` container, by class;
`layout` contains `r`.  `near a b` is the test whether the distance `a` is at most 20% of `b`. -/
def Spawns (near : Nat → Nat → Bool) (W L : Nat) (layout : List Rect) (r : Rect) : PClass → Pt → Prop
  -- above the left end of `r`, with a wall or a rectangle to the left
  | .A, p => p = ⟨r.x, r.y + r.l⟩ ∧ AboveFree L layout r ∧
      (r.x = 0 ∨ Covered layout (r.x - 1) (r.y + r.l))
  -- above the left end of `r`, with free space to the left
  | .A__, p => p = ⟨r.x, r.y + r.l⟩ ∧ AboveFree L layout r ∧
      ¬ (r.x = 0 ∨ Covered layout (r.x - 1) (r.y + r.l))
  -- moved to the left from there, not far
  | .A_, p => SlidesLeft L layout r p ∧ near (r.x - p.x) W = true
  -- and far
  | .E, p => SlidesLeft L layout r p ∧ near (r.x - p.x) W = false
  -- to the right of the bottom of `r`, with the bottom or a rectangle below
  | .B, p => p = ⟨r.x + r.w, r.y⟩ ∧ RightFree W layout r ∧
      (r.y = 0 ∨ Covered layout (r.x + r.w) (r.y - 1))
  -- to the right of the bottom of `r`, with free space below
  | .B__, p => p = ⟨r.x + r.w, r.y⟩ ∧ RightFree W layout r ∧
      ¬ (r.y = 0 ∨ Covered layout (r.x + r.w) (r.y - 1))
  -- fallen down from there, not far
  | .B_, p => SlidesDown W layout r p ∧ near (r.y - p.y) L = true
  -- and far
  | .F, p => SlidesDown W layout r p ∧ near (r.y - p.y) L = false
  -- on top of `r`, at the right end of a rectangle that stands there
  | .C, p => p.y = r.y + r.l ∧ p.y < L ∧ r.x < p.x ∧ p.x < r.x + r.w ∧
      ¬ Covered layout p.x p.y ∧ Covered layout (p.x - 1) p.y
  -- on the right side of `r`, at the upper end of a rectangle that touches it there
  | .D, p => p.x = r.x + r.w ∧ p.x < W ∧ r.y < p.y ∧ p.y < r.y + r.l ∧
      ¬ Covered layout p.x p.y ∧ Covered layout p.x (p.y - 1)

/-- the list has exactly the points with the property, from the left to the right and from the
bottom to the top -/
def Lists (good : Pt → Prop) (l : List Pt) : Prop :=
  (∀ p, p ∈ l ↔ good p) ∧ l.Pairwise (fun p q => p.x + p.y < q.x + q.y)

/-! ### the heuristic for one container -/

/-- the container being filled: items placed so far in order, items left in order, and the pending
points of each class, oldest first -/
structure Filling where
  layout : List (String × Rect)
  items : List (String × Dim)
  pending : PClass → List Pt

/-- the rectangles -/
def Filling.rects (f : Filling) : List Rect := f.layout.map (·.2)

/-- what does not change while a container is filled -/
structure Setting where
  ar : Arith
  rotation : Bool
  strip : Bool
  W : Nat
  L : Nat
  strategy : List PClass

/-- bin packing stops when the reported utilization, the sum of the area fractions as computed,
reaches 1 -/
def Setting.full (S : Setting) (rs : List Rect) : Prop :=
  S.strip = false ∧ 1 ≤ rs.foldl (fun v r => S.ar.add v (S.ar.div (r.w * r.l) (S.W * S.L))) 0

/-- `(id, r)` is put at `pt`: the first item (in their order) that can be added there, unrotated if
possible -/
def FirstFit (S : Setting) (f : Filling) (pt : Pt) (id : String) (r : Rect)
    (rest : List (String × Dim)) : Prop :=
  ∃ pre d post, f.items = pre ++ (id, d) :: post ∧ rest = pre ++ post ∧
    (∀ q ∈ pre, ¬ CanAdd S.W S.L S.rotation f.rects q.2 pt.x pt.y) ∧
    FreeFor S.W S.L f.rects r ∧
    (r = ⟨pt.x, pt.y, d.w, d.l⟩ ∨
      (S.rotation = true ∧ r = ⟨pt.x, pt.y, d.l, d.w⟩ ∧ ¬ FreeFor S.W S.L f.rects ⟨pt.x, pt.y, d.w, d.l⟩))

/-- handling the point `pt`: if some item can be added there, it is placed and spawns its points,
which are queued; otherwise nothing happens -/
def Handles (S : Setting) (f : Filling) (pt : Pt) (f' : Filling) : Prop :=
  (f' = f ∧ ∀ q ∈ f.items, ¬ CanAdd S.W S.L S.rotation f.rects q.2 pt.x pt.y) ∨
  ∃ id r, FirstFit S f pt id r f'.items ∧ f'.layout = f.layout ++ [(id, r)] ∧
    ∀ c, ∃ new, f'.pending c = f.pending c ++ new ∧
      Lists (Spawns S.ar.ratioLe S.W S.L f'.rects r c) new

/-- the next point is the oldest pending one of the first class in the strategy that has one -/
def Takes (strategy : List PClass) (pending : PClass → List Pt) (next : Option Pt)
    (pending' : PClass → List Pt) : Prop :=
  (next = none ∧ (∀ c ∈ strategy, pending c = []) ∧ pending' = pending) ∨
  ∃ pre c post p, strategy = pre ++ c :: post ∧ (∀ c' ∈ pre, pending c' = []) ∧ next = some p ∧
    pending c = p :: pending' c ∧ ∀ c', c' ≠ c → pending' c' = pending c'

/-- filling goes on from the point `cur` until there is no point or no item left, or the container
is full -/
inductive Fills (S : Setting) : Option Pt → Filling → Filling → Prop where
  | stop {cur f} : cur = none ∨ f.items = [] ∨ S.full f.rects → Fills S cur f f
  | round {pt f f1 f2 next final} : f.items ≠ [] → ¬ S.full f.rects → Handles S f pt f1 →
      Takes S.strategy f1.pending next f2.pending → f2.layout = f1.layout → f2.items = f1.items →
      Fills S next f2 final → Fills S (some pt) f final

/-- filling an empty container with the items: the first point is the bottom left corner -/
def FillsContainer (S : Setting) (items : List (String × Dim)) (layout : List (String × Rect))
    (left : List (String × Dim)) : Prop :=
  ∃ f, Fills S (some ⟨0, 0⟩) ⟨[], items, fun _ => []⟩ f ∧ f.layout = layout ∧ f.items = left

/-- the containers are filled one after the other, each with the items left over by those before;
`S c` is the setting for a container of size `c` -/
inductive Packs (S : Dim → Setting) : List (String × Dim) → List (String × Dim) →
    List (String × List (String × Rect)) → Prop where
  | nil {items} : Packs S [] items []
  | cons {cid c cs items m left sol} : FillsContainer (S c) items m left → Packs S cs left sol →
      Packs S ((cid, c) :: cs) items ((cid, m) :: sol)

end HP.Spec
