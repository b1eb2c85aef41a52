import Mathlib.Data.Nat.Sqrt
import Verif.Model.Base

/-! Model of src/prime.c -/
namespace Gaia

/-- prime.c:24-27: `for (int i = 3; i <= floor(sqrt((double)x)); i += 2) if (x % i == 0) return 0;`
then `return 1`. `fuel` bounds the number of iterations (every call below passes `x`, which is enough;
an exhausted loop would be reported as not prime). `floor(sqrt((double)x))` is the integer square root
(proved in `Gaia.C19_loop_bound` for any correctly rounded `sqrt` of IEEE doubles). -/
def isPrimeLoop (x : Nat) : (fuel i : Nat) → Bool
  | 0, _ => false
  | fuel + 1, i =>
    if i ≤ Nat.sqrt x then
      if x % i == 0 then false else isPrimeLoop x fuel (i + 2)
    else true

/-- prime.c:16-29 `is_prime` (for non-negative `x`, the only values that reach it). -/
def isPrime (x : Nat) : Bool :=
  if x < 2 then false
  else if x < 4 then true
  else if x % 2 == 0 then false
  else isPrimeLoop x x 3

/-- prime.c:42-44: `do { x++; } while (!is_prime(x));` with `int` overflow of `x++` made explicit. -/
def nextPrimeLoop : (fuel x : Nat) → Res Nat
  | 0, _ => .ub .infiniteLoop
  | fuel + 1, x =>
    if x + 1 > INT_MAX then .ub .signedOverflow
    else if isPrime (x + 1) then .ok (x + 1)
    else nextPrimeLoop fuel (x + 1)

/-- prime.c:38-46 `next_prime` (for non-negative `x`; `x + 2` iterations always suffice, see
`Gaia.nextPrime_spec`). -/
def nextPrime (x : Nat) : Res Nat := nextPrimeLoop (x + 2) x

end Gaia
