import Verif.Core.Bytes

/-!
# Generated enumerations and bit fields

The SISO-REF-010 file is not part of the repository, so the tables are parameters: this models the code that `build.rs`
generates for *every* table.  A variant is identified by its index in the table.
-/

namespace Verif.Dis

/-- dis-rs/build.rs:1105-1113 `size_to_type`: the number of bits of the integer type used for a declared size -/
def typeWidth (size : Nat) : Nat :=
  if size = 64 then 64 else if size = 32 then 32 else if size = 16 then 16 else 8

/-- dis-rs/build.rs:1115-1123 `discriminant_literal`: the value cast to the integer type -/
def literal (size value : Nat) : Nat := value % 2 ^ typeWidth size

/-- dis-rs/build.rs:250-275 `EnumItem` (without descriptions).  For a cross reference the referenced record is represented
by its raw value. -/
inductive EnumItem where
  | basic (value : Nat)
  | range (first last : Nat)
  | crossRef (value : Nat)
  deriving Repr, DecidableEq

/-- dis-rs/build.rs:241-248 `Enum` -/
structure EnumTable where
  size : Nat
  items : List EnumItem
  deriving Repr, DecidableEq

/-- dis-rs/build.rs:732-773 `quote_enum_decl_arms`: the variants of the generated enumeration -/
inductive Variant where
  | basic (index : Nat)
  | range (index : Nat) (value : Nat)
  | crossRef (index : Nat) (contained : Nat)
  | unspecified (value : Nat)
  deriving Repr, DecidableEq

/-- dis-rs/build.rs:790-828 `quote_enum_from_arms`: does the match arm of an item accept the value -/
def EnumItem.matches (size : Nat) (v : Nat) : EnumItem → Bool
  | .basic a => v == literal size a
  | .range a b => literal size a ≤ v && v ≤ literal size b
  | .crossRef a => v == literal size a

/-- dis-rs/build.rs:775-828: the arms are tried in the order of the table; a cross reference gives the default record
(whose raw value is 0), the last arm `Unspecified` -/
def fromArms (size : Nat) (v : Nat) : List EnumItem → Nat → Variant
  | [], _ => .unspecified v
  | it :: rest, i =>
    if it.matches size v then
      match it with
      | .basic _ => .basic i
      | .range _ _ => .range i v
      | .crossRef _ => .crossRef i 0
    else fromArms size v rest (i + 1)
/-- dis-rs/build.rs:775-788 `impl From<uN> for Enum` -/
def EnumTable.ofRaw (t : EnumTable) (v : Nat) : Variant := fromArms t.size v t.items 0

/-- dis-rs/build.rs:830-880 `impl From<Enum> for uN` -/
def EnumTable.toRaw (t : EnumTable) : Variant → Nat
  | .basic i => match t.items[i]? with
    | some (.basic a) => literal t.size a
    | _ => 0
  | .range _ v => v
  | .crossRef _ c => c
  | .unspecified v => v

/-- dis-rs/build.rs:285-293 `BitfieldItem`; a cross reference is to an enumeration -/
structure BitItem where
  position : Nat
  length : Nat
  xref : Option EnumTable
  deriving Repr, DecidableEq

/-- dis-rs/build.rs:277-283 `Bitfield` -/
structure BitTable where
  size : Nat
  fields : List BitItem
  deriving Repr, DecidableEq

/-- dis-rs/build.rs:980-994 `quote_bitfield_decl_fields`: a field is a flag or an enumeration -/
inductive FieldValue where
  | flag (b : Bool)
  | enum (x : Variant)
  deriving Repr, DecidableEq

/-- dis-rs/build.rs:1026, 1077 `data_size - field.length - field.bit_position` -/
def BitItem.shift (size : Nat) (f : BitItem) : Nat := size - f.length - f.position

/-- dis-rs/build.rs:1021-1043 `quote_bitfield_from_fields` -/
def BitItem.read (size w : Nat) (f : BitItem) : FieldValue :=
  let raw := (w >>> f.shift size) &&& (2 ^ f.length - 1)
  match f.xref with
  | some t => .enum (t.ofRaw (raw % 2 ^ typeWidth t.size))
  | none => .flag (raw != 0)
/-- dis-rs/build.rs:996-1019 `impl From<uN> for Bitfield` -/
def BitTable.ofRaw (t : BitTable) (w : Nat) : List FieldValue := t.fields.map (BitItem.read t.size w)

/-- dis-rs/build.rs:1069-1090 `quote_bitfield_into_fields` (the cast and the shift are within the integer type) -/
def BitItem.write (size : Nat) (f : BitItem) (v : FieldValue) : Nat :=
  let raw := match v, f.xref with
    | .enum x, some t => t.toRaw x
    | .flag b, _ => b.toNat
    | .enum _, none => 0
  ((raw % 2 ^ typeWidth size) <<< f.shift size) % 2 ^ typeWidth size
/-- dis-rs/build.rs:1045-1067 `impl From<Bitfield> for uN` -/
def writeFields (size : Nat) : List BitItem → List FieldValue → Nat
  | f :: fs, v :: vs => f.write size v ||| writeFields size fs vs
  | _, _ => 0
def BitTable.toRaw (t : BitTable) (x : List FieldValue) : Nat := writeFields t.size t.fields x

end Verif.Dis
