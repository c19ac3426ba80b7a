import Verif.Model.Construct
/-
The floating point operations of the code as CPython performs them on IEEE 754 binary64 machines
(language semantics): exact result, rounded to 53 significant bits, ties to even.
Simplification: the exponent range is unbounded, i.e. neither overflow nor subnormal results; the
values of the code are quotients of areas and sums of those.
-/
namespace HP

/-- the nearest integer, ties to even -/
def roundEven (x : Rat) : Int :=
  let n := x.floor
  let r := x - n
  if r < 1 / 2 then n else if 1 / 2 < r then n + 1 else if n % 2 = 0 then n else n + 1

/-- `2 ** e` -/
def pow2 (e : Int) : Rat := if 0 ≤ e then ((2 ^ e.toNat : Nat) : Rat) else 1 / ((2 ^ (-e).toNat : Nat) : Rat)

/-- exponent of a number: `2 ** expo x <= abs(x) < 2 ** (expo x + 1)` -/
def expo (x : Rat) : Int :=
  let e : Int := (Nat.log2 x.num.natAbs : Int) - (Nat.log2 x.den : Int)
  if pow2 e ≤ (if x < 0 then -x else x) then e else e - 1

/-- rounding to binary64: 53 significant bits, ties to even -/
def rne (x : Rat) : Rat :=
  if x = 0 then 0 else
    let u := pow2 (expo x - 52)
    roundEven (x / u) * u

/-- The operations of the code (see `Arith`) when every float operation rounds by `rnd`: `a / b` of
two ints (correctly rounded in CPython), `+`, `-`, `*`; `sum` adds from the left, starting with the
int 0 (CPython up to 3.11); `0.7` and `0.2` are rounded constants. -/
def Arith.rounding (rnd : Rat → Rat) : Arith where
  div a b := rnd ((a : Rat) / (b : Rat))
  add x y := rnd (x + y)
  sum xs := xs.foldl (fun s x => rnd (s + x)) 0
  mul07 x := rnd (rnd (7 / 10) * x)
  ratioLe a b := decide (rnd ((a : Rat) / (b : Rat)) ≤ rnd (1 / 5))
  quot a b := rnd ((a : Rat) / (b : Rat))
  sub x y := rnd (x - y)

/-- binary64 arithmetic -/
def Arith.double : Arith := .rounding rne

end HP
