import Verif.Dis.EntityMgmt

/-!
# Text forms of entity and aggregate types, and DIS timestamps

A Rust `&str` is modelled as the list of its characters.
-/

namespace Verif.Dis

/-- decimal digit of a number below ten -/
def digitChar (d : Nat) : Char := Char.ofNat (48 + d)

/-- `Display` of an unsigned integer (core library): decimal digits without leading zeros -/
def decimal (n : Nat) : List Char :=
  if n < 10 then [digitChar n] else decimal (n / 10) ++ [digitChar (n % 10)]
termination_by n

/-- `char::to_digit(10)` (core library) -/
def toDigit (c : Char) : Option Nat := if 48 ≤ c.toNat ∧ c.toNat ≤ 57 then some (c.toNat - 48) else none

/-- `<uN as FromStr>::from_str` (core library), the loop: `checked_mul(10)` then `checked_add` -/
def parseDigits (max : Nat) : List Char → Nat → Option Nat
  | [], acc => some acc
  | c :: cs, acc =>
    match toDigit c with
    | none => none
    | some d =>
      if acc * 10 > max then none
      else if acc * 10 + d > max then none
      else parseDigits max cs (acc * 10 + d)
/-- `<uN as FromStr>::from_str` (core library): an empty string and a lone sign are errors, one leading `+` is skipped -/
def parseUnsigned (max : Nat) (s : List Char) : Option Nat :=
  match s with
  | [] => none
  | ['+'] => none
  | ['-'] => none
  | '+' :: rest => parseDigits max rest 0
  | s => parseDigits max s 0

/-- `str::split(':')` (core library) -/
def splitColon : List Char → List (List Char)
  | [] => [[]]
  | c :: cs =>
    if c = ':' then [] :: splitColon cs
    else match splitColon cs with
      | p :: ps => (c :: p) :: ps
      | [] => [[c]]

/-- model.rs:896-910 `impl Display for EntityType` -/
def EntityType.display (x : EntityType) : List Char :=
  decimal x.kind.toNat ++ ':' :: (decimal x.domain.toNat ++ ':' :: (decimal x.country.toNat ++ ':' :: (decimal x.category.toNat
    ++ ':' :: (decimal x.subcategory.toNat ++ ':' :: (decimal x.specific.toNat ++ ':' :: decimal x.extra.toNat)))))
/-- model.rs:912-963 `impl FromStr for EntityType`, and 965-979 `TryFrom` (all errors are `DisError::ParseError`) -/
def EntityType.fromStr (s : List Char) : Option EntityType :=
  match splitColon s with
  | [a, b, c, d, e, f, g] => do
    let a ← parseUnsigned 255 a
    let b ← parseUnsigned 255 b
    let c ← parseUnsigned 65535 c
    let d ← parseUnsigned 255 d
    let e ← parseUnsigned 255 e
    let f ← parseUnsigned 255 f
    let g ← parseUnsigned 255 g
    pure ⟨UInt8.ofNat a, UInt8.ofNat b, UInt16.ofNat c, UInt8.ofNat d, UInt8.ofNat e, UInt8.ofNat f, UInt8.ofNat g⟩
  | _ => none

/-- aggregate_state/model.rs:198-212 `impl Display for AggregateType` -/
def AggregateType.display (x : AggregateType) : List Char :=
  decimal x.aggregate_kind.toNat ++ ':' :: (decimal x.domain.toNat ++ ':' :: (decimal x.country.toNat ++ ':' :: (decimal x.category.toNat
    ++ ':' :: (decimal x.subcategory.toNat ++ ':' :: (decimal x.specific.toNat ++ ':' :: decimal x.extra.toNat)))))
/-- aggregate_state/model.rs:214-267 `impl FromStr for AggregateType`, and 269-283 `TryFrom` -/
def AggregateType.fromStr (s : List Char) : Option AggregateType :=
  match splitColon s with
  | [a, b, c, d, e, f, g] => do
    let a ← parseUnsigned 255 a
    let b ← parseUnsigned 255 b
    let c ← parseUnsigned 65535 c
    let d ← parseUnsigned 255 d
    let e ← parseUnsigned 255 e
    let f ← parseUnsigned 255 f
    let g ← parseUnsigned 255 g
    pure ⟨UInt8.ofNat a, UInt8.ofNat b, UInt16.ofNat c, UInt8.ofNat d, UInt8.ofNat e, UInt8.ofNat f, UInt8.ofNat g⟩
  | _ => none

/-- entity_state/model.rs:179-192 `impl FromStr for EntityMarking` and aggregate_state/model.rs:130-143 for
`AggregateMarking`: a string is its UTF-8 octets, `max` is 11 or 31, the character set is ASCII (1) -/
def markingFromStr (max : Nat) (s : Bytes) : Option (UInt8 × Bytes) := if s.length ≤ max then some (1, s) else none

/-! ## Timestamps -/

/-- model.rs:1110-1113 `DisTimeStamp`.  Simplification: the derived field `nanoseconds_past_the_hour`, which no conversion
back looks at, is left out here (`nanosOfUnits` in `Codec/Times.lean` is it). -/
inductive DisTimeStamp where
  | absolute (units_past_the_hour : UInt32)
  | relative (units_past_the_hour : UInt32)
  deriving Repr, DecidableEq

/-- model.rs:1163-1175 `impl From<u32> for DisTimeStamp` (and 1177-1181 from `TimeStamp`) -/
def DisTimeStamp.ofRaw (v : UInt32) : DisTimeStamp :=
  if v &&& 1 = 1 then .absolute (v >>> 1) else .relative (v >>> 1)
/-- model.rs:1087-1100 `impl From<DisTimeStamp> for TimeStamp` (and 1183-1187 for `u32`) -/
def DisTimeStamp.toRaw : DisTimeStamp → UInt32
  | .absolute u => (u <<< 1) ||| 1
  | .relative u => u <<< 1

/-- constants.rs:21 `TIME_UNITS_PER_HOUR: u32 = (2^31) - 1`, where `^` is exclusive or -/
def TIME_UNITS_PER_HOUR : Nat := (2 ^^^ 31) - 1
/-- model.rs:1116-1143, 1146-1153 `new_absolute_from_secs`, `new_relative_from_secs`: the units past the hour.
`seconds * 1_000_000` divided by `3_600_000_000 / TIME_UNITS_PER_HOUR`; simplification: exact division instead of `f32`; `timeOfSecs` in `Codec/Times.lean` is the same in
`f32`. -/
def unitsFromSecs (seconds : Nat) : Nat := seconds * 1000000 * TIME_UNITS_PER_HOUR / 3600000000

end Verif.Dis
