import Verif.Codec.Records

/-! # Timestamps in seconds and nanoseconds (dis-rs/src/common/model.rs:1110-1175, cdis-assemble/src/records/model.rs:68-144)

`DisTimeStamp` and `CdisTimeStamp` hold, beside the units past the hour, the nanoseconds past the hour as a `u32`; both can be made of a number of
seconds.  The two types differ in the number of units of an hour only. -/

namespace Verif.Codec

/-- dis-rs constants.rs:20, 22 and cdis-assemble constants.rs:35, 37 `NANOSECONDS_PER_TIME_UNIT`: `NANOSECONDS_PER_HOUR` is `3600 * 1e6 as u32` -/
def nanosPerUnit (unitsPerHour : Nat) : Fl := div32 (int32 3600000000) (int32 unitsPerHour)
/-- dis-rs common/model.rs:1158-1160 `dis_time_units_to_nanoseconds` and 1167, cdis-assemble records/model.rs:121-123 and 136 -/
def nanosOfUnits (unitsPerHour units : Nat) : Nat := (toU32 (mul32 (int32 units) (nanosPerUnit unitsPerHour))).toNat
/-- dis-rs common/model.rs:1154-1156 `nanoseconds_to_dis_time_units`, cdis-assemble records/model.rs:117-119 -/
def unitsOfNanos (unitsPerHour nanos : Nat) : Nat := (toU32 (div32 (int32 nanos) (nanosPerUnit unitsPerHour))).toNat
/-- dis-rs common/model.rs:1116-1132 `new_absolute_from_secs`, `new_relative_from_secs`, cdis-assemble records/model.rs:79-95: the units and the
nanoseconds past the hour; `none` when `seconds * 1_000_000` does not fit a `u32`, which is a panic where overflow is checked. -/
def timeOfSecs (unitsPerHour seconds : Nat) : Option (Nat × Nat) :=
  if seconds * 1000000 < 4294967296 then some (unitsOfNanos unitsPerHour (seconds * 1000000), seconds * 1000000) else none

end Verif.Codec
