import Verif.Core.Attr

/-! # IEEE-754 rounding, as far as the code under study needs it

Rust `f32`/`f64` values that the C-DIS code computes with are modelled by the rational number they denote; an
arithmetic operation is the exact operation followed by `rnd p`, round to nearest, ties to even, with `p` bits of
significand (`p = 24` for `f32`, 53 for `f64`).  Simplification: the exponent is unbounded, so there is no overflow
to infinity, no gradual underflow, and no NaN or negative zero. -/

namespace Verif

/-- `⌊log₂ a⌋` for `a > 0` (IEEE-754: the exponent of `a`). -/
def ratLog2 (a : Rat) : Int :=
  let k : Int := (Nat.log2 a.num.natAbs : Int) - Nat.log2 a.den
  if (2 : Rat) ^ k ≤ a then k else k - 1

/-- Nearest integer, ties to even. -/
def roundEven (x : Rat) : Int :=
  let f := x.floor
  let d := x - f
  if d < 1 / 2 then f else if 1 / 2 < d then f + 1 else if f % 2 = 0 then f else f + 1

/-- Round to `p` bits of significand (IEEE-754 roundTiesToEven, unbounded exponent). -/
def rnd (p : Nat) (x : Rat) : Rat :=
  if x = 0 then 0
  else
    let q : Rat := (2 : Rat) ^ (ratLog2 x.abs - (p - 1 : Int))
    roundEven (x / q) * q

/-- `f32` rounding. -/
abbrev f32 (x : Rat) : Rat := rnd 24 x
/-- `f64` rounding. -/
abbrev f64 (x : Rat) : Rat := rnd 53 x

/-- The fractional part is dropped (truncation toward zero). -/
def truncRat (x : Rat) : Int := if x < 0 then x.ceil else x.floor

/-- Rust `as iN`/`as uN` from a float: truncate toward zero and saturate at the bounds of the type. -/
def castSat (lo hi : Int) (x : Rat) : Int := max lo (min hi (truncRat x))
/-- `as i32` -/
abbrev asI32 (x : Rat) : Int := castSat (-2147483648) 2147483647 x
/-- `as i16` -/
abbrev asI16 (x : Rat) : Int := castSat (-32768) 32767 x

/-- `std::f32::consts::PI`, exactly. -/
def f32PI : Rat := 13176795 / 4194304

end Verif
