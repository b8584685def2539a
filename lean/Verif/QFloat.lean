import Verif.PyFloat
/-!
# A computable instance of `PyFloat` for concrete cases

`QF` is the rationals plus NaN.  It is used **only** in `example`s and witnesses, where a concrete case is evaluated by
the kernel (`decide +kernel`).  Operations that leave the rationals (`pow` with an
exponent that is not a natural number, `sqrt` except of 0 and 1, `log10`, ...) return NaN.
-/
namespace Csu
open PyFloat

/-- Rational numbers plus NaN. -/
inductive QF
  | nan | q (x : Rat)
  deriving DecidableEq, Repr

namespace QF
/-- lift a binary operation, propagating NaN -/
def lift2 (f : Rat → Rat → Rat) : QF → QF → QF
  | q a, q b => q (f a b)
  | _, _ => nan
/-- lift a unary operation, propagating NaN -/
def lift1 (f : Rat → Rat) : QF → QF
  | q a => q (f a)
  | _ => nan
/-- lift a comparison; false on NaN -/
def cmp (f : Rat → Rat → Bool) : QF → QF → Bool
  | q a, q b => f a b
  | _, _ => false

instance : PyFloat QF where
  lit := q
  nan := nan
  pi := q (355/113)
  add := lift2 (· + ·)
  sub := lift2 (· - ·)
  mul := lift2 (· * ·)
  div a b := match b with | q b => if b = 0 then nan else lift1 (· / b) a | nan => nan
  pow a b := match a, b with | q a, q b => if b.den = 1 ∧ 0 ≤ b.num then q (a ^ b.num.toNat) else nan | _, _ => nan
  neg := lift1 (- ·)
  abs := lift1 (fun x => if x < 0 then -x else x)
  sqrt a := if a = q 0 then q 0 else if a = q 1 then q 1 else nan
  log10 _ := nan
  ln _ := nan
  sin _ := nan
  cos _ := nan
  tan _ := nan
  asin _ := nan
  trunc := lift1 (fun x => (Int.tdiv x.num x.den : Int))
  f32 := id
  lt := cmp (fun a b => decide (a < b))
  le := cmp (fun a b => decide (a ≤ b))
  eq := cmp (fun a b => decide (a = b))
end QF
end Csu
