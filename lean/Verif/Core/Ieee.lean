import Verif.Core.Float
import Mathlib.Tactic.Linarith
import Mathlib.Tactic.NormNum
import Mathlib.Tactic.FieldSimp
import Mathlib.Tactic.Ring
import Mathlib.Tactic.Positivity
import Mathlib.Algebra.Order.Field.Power
import Mathlib.Data.Rat.Floor

/-! # IEEE-754 binary formats

The DIS codec keeps floating point fields as raw bits.  The C-DIS codec computes with them, so here raw bits are given
their IEEE-754 meaning.  Zero has no sign here (`-0.0` and `0.0` are both `num 0`): the code under study never
distinguishes them except by copying raw bits, which the model does too.  Overflow, gradual underflow, infinities and
NaN are modelled.  -/

namespace Verif

/-- A float datum: NaN, an infinity, or a rational number. -/
inductive Fl where
  | nan
  | inf (neg : Bool)
  | num (q : Rat)
  deriving Repr, DecidableEq

/-- An IEEE-754 interchange format: significand bits, exponent field bits, least and greatest exponent. -/
structure Fmt where
  p : Nat
  eb : Nat
  emin : Int
  emax : Int

/-- binary32 -/
def F32 : Fmt := ⟨24, 8, -126, 127⟩
/-- binary64 -/
def F64 : Fmt := ⟨53, 11, -1022, 1023⟩

/-- Exponent used to represent `q ≠ 0`. -/
def Fmt.exp (F : Fmt) (q : Rat) : Int := max (ratLog2 q.abs) F.emin
/-- Unit in the last place of `q`. -/
def Fmt.ulp (F : Fmt) (q : Rat) : Rat := (2 : Rat) ^ (F.exp q - (F.p - 1 : Int))

/-- Round to nearest, ties to even (IEEE-754 4.3.1). -/
def Fmt.round (F : Fmt) (q : Rat) : Fl :=
  if q = 0 then .num 0
  else
    let r := roundEven (q / F.ulp q) * F.ulp q
    if (2 : Rat) ^ (F.emax + 1) ≤ r.abs then .inf (decide (q < 0)) else .num r

/-- The datum that a bit pattern encodes (IEEE-754 3.4). -/
def Fl.ofBits (F : Fmt) (b : Nat) : Fl :=
  let frac := b % 2 ^ (F.p - 1)
  let E := b / 2 ^ (F.p - 1) % 2 ^ F.eb
  let s := b / 2 ^ (F.p - 1) / 2 ^ F.eb % 2 == 1
  if E = 2 ^ F.eb - 1 then (if frac = 0 then .inf s else .nan)
  else
    let m : Rat := if E = 0 then frac else 2 ^ (F.p - 1) + frac
    let e : Int := if E = 0 then F.emin else F.emin + (E - 1)
    .num ((if s then -1 else 1) * m * (2 : Rat) ^ (e - (F.p - 1 : Int)))

/-- The bit pattern of a datum of the format. -/
def Fl.toBits (F : Fmt) : Fl → Nat
  | .nan => (2 ^ F.eb - 1) * 2 ^ (F.p - 1) + 2 ^ (F.p - 2)
  | .inf s => (if s then 2 ^ F.eb * 2 ^ (F.p - 1) else 0) + (2 ^ F.eb - 1) * 2 ^ (F.p - 1)
  | .num q =>
    if q = 0 then 0
    else
      (if q < 0 then 2 ^ F.eb * 2 ^ (F.p - 1) else 0) + (F.exp q - F.emin).toNat * 2 ^ (F.p - 1)
        + (q.abs / F.ulp q).floor.toNat

/-- Multiplication. -/
def Fl.mul (F : Fmt) : Fl → Fl → Fl
  | .nan, _ => .nan
  | _, .nan => .nan
  | .inf a, .inf b => .inf (a != b)
  | .inf a, .num q => if q = 0 then .nan else .inf (a != decide (q < 0))
  | .num q, .inf a => if q = 0 then .nan else .inf (a != decide (q < 0))
  | .num a, .num b => F.round (a * b)

/-- Division.  Simplification: a finite number divided by zero has the sign of the dividend. -/
def Fl.div (F : Fmt) : Fl → Fl → Fl
  | .nan, _ => .nan
  | _, .nan => .nan
  | .inf _, .inf _ => .nan
  | .inf a, .num q => .inf (a != decide (q < 0))
  | .num _, .inf _ => .num 0
  | .num a, .num b => if b = 0 then (if a = 0 then .nan else .inf (decide (a < 0))) else F.round (a / b)

/-- Addition. -/
def Fl.add (F : Fmt) : Fl → Fl → Fl
  | .nan, _ => .nan
  | _, .nan => .nan
  | .inf a, .inf b => if a = b then .inf a else .nan
  | .inf a, .num _ => .inf a
  | .num _, .inf a => .inf a
  | .num a, .num b => F.round (a + b)

/-- Negation. -/
def Fl.neg : Fl → Fl
  | .nan => .nan
  | .inf a => .inf (!a)
  | .num q => .num (-q)

/-- Subtraction. -/
def Fl.sub (F : Fmt) (a b : Fl) : Fl := Fl.add F a b.neg

/-- Rust `%` on floats (C `fmod`): the remainder of truncated division, exact. -/
def Fl.rem : Fl → Fl → Fl
  | .num a, .num b => if b = 0 then .nan else .num (a - truncRat (a / b) * b)
  | .num a, .inf _ => .num a
  | _, _ => .nan

/-- Conversion between formats (`as f32`, `as f64`). -/
def Fl.conv (F : Fmt) : Fl → Fl
  | .num q => F.round q
  | x => x

/-- `a <= b` -/
def Fl.le : Fl → Fl → Bool
  | .nan, _ => false
  | _, .nan => false
  | .inf a, .inf b => a || !b
  | .inf a, .num _ => a
  | .num _, .inf b => !b
  | .num a, .num b => decide (a ≤ b)

/-- `a < b` -/
def Fl.lt (a b : Fl) : Bool := Fl.le a b && !Fl.le b a

/-- Rust `as iN`/`as uN`: truncate toward zero, saturate, NaN becomes 0. -/
def Fl.toInt (lo hi : Int) : Fl → Int
  | .nan => 0
  | .inf true => lo
  | .inf false => hi
  | .num q => castSat lo hi q

/-- `round()`: nearest integer, halves away from zero. -/
def roundAway (q : Rat) : Int := if q < 0 then -(-q + 1 / 2).floor else (q + 1 / 2).floor
/-- `f32::round` -/
def Fl.roundInt : Fl → Fl
  | .num q => .num (roundAway q)
  | x => x

end Verif
