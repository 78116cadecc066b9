import Verif.Core.IeeeLemmas
import Verif.Dis.Pdu
import Verif.Cdis.Pdu

/-! # Conversion of records between DIS and C-DIS (cdis-assemble/src/records/{codec,model}.rs)

`X.enc` is `Codec::encode` (DIS to C-DIS) and `X.dec` is `Codec::decode`.  DIS floats are raw bits; the arithmetic is
that of `Verif.Core.Ieee`. -/

namespace Verif.Codec

/-- What the model is parametrised by: the trigonometric coordinate conversions (dis-rs/src/utils.rs:21-78, which need
`sin`, `atan2`, ... from the platform's mathematics library) and the generated conversions of the frozen-behaviour bit field
(its flag positions come from SISO-REF-010, which is not part of the repository). -/
structure Env extends Dis.Env where
  /-- dis-rs/src/utils.rs:21-64 `ecef_to_geodetic_lla`: latitude, longitude (radians), altitude (metres), as `f64` -/
  toLla : Dis.Location → Fl × Fl × Fl
  /-- dis-rs/src/utils.rs:71-78 `geodetic_lla_to_ecef` -/
  toEcef : Fl → Fl → Fl → Dis.Location
  /-- `From<u8> for StopFreezeFrozenBehavior` (run simulation clock, transmit updates, process updates) -/
  frozenFlags : UInt8 → Bool × Bool × Bool
  /-- `From<StopFreezeFrozenBehavior> for u8` -/
  frozenByte : Bool × Bool × Bool → UInt8

/-! ## Floats -/

/-- The number that the raw bits of an `f32` field denote. -/
def v32 (b : UInt32) : Fl := Fl.ofBits F32 b.toNat
/-- The raw bits of an `f32` result. -/
def b32 (x : Fl) : UInt32 := UInt32.ofNat (Fl.toBits F32 x)
/-- The number that the raw bits of an `f64` field denote. -/
def v64 (b : UInt64) : Fl := Fl.ofBits F64 b.toNat
/-- The raw bits of an `f64` result. -/
def b64 (x : Fl) : UInt64 := UInt64.ofNat (Fl.toBits F64 x)
/-- `f32` product -/
def mul32 (a b : Fl) : Fl := Fl.mul F32 a b
/-- `f32` quotient -/
def div32 (a b : Fl) : Fl := Fl.div F32 a b
/-- an integer converted `as f32` -/
def int32 (n : Int) : Fl := F32.round n
/-- `as i16` -/
def toI16 (x : Fl) : Int := Fl.toInt (-32768) 32767 x
/-- `as u16` -/
def toU16 (x : Fl) : Int := Fl.toInt 0 65535 x
/-- `as u32` -/
def toU32 (x : Fl) : Int := Fl.toInt 0 4294967295 x
/-- `as i32` -/
def toI32 (x : Fl) : Int := Fl.toInt (-2147483648) 2147483647 x

/-- `std::f32::consts::PI` (bits 0x40490fdb) -/
def PI32 : Fl := .num (13176795 / 4194304)
/-- `std::f32::consts::FRAC_PI_2` -/
def FRAC_PI_2_32 : Fl := .num (13176795 / 8388608)
/-- `std::f64::consts::PI` (bits 0x400921fb54442d18) -/
def PI64 : Fl := .num (884279719003555 / 281474976710656)
/-- `std::f64::consts::FRAC_PI_2` -/
def FRAC_PI_2_64 : Fl := .num (884279719003555 / 562949953421312)

/-- An unsigned conversion of a raw signed 32-bit number. -/
def i32Of (b : UInt32) : Int := if b.toNat < 2147483648 then b.toNat else (b.toNat : Int) - 4294967296
/-- The raw bits of an `i32`. -/
def ofI32 (n : Int) : UInt32 := UInt32.ofNat (n % 4294967296).toNat

/-! ## Timestamps -/

/-- cdis-assemble constants.rs:36 `CDIS_TIME_UNITS_PER_HOUR = (2^25) - 1`: `^` is exclusive or in Rust, so 26. -/
def cdisUnitsPerHour : Nat := (2 ^^^ 25) - 1
/-- constants.rs:38 `DIS_TIME_UNITS_PER_HOUR = (2^31) - 1`, that is 28. -/
def disUnitsPerHour : Nat := (2 ^^^ 31) - 1

/-- records/model.rs:167-180 `From<DisTimeStamp> for CdisTimeStamp`, from the raw DIS timestamp (dis-rs
common/model.rs:1154-1166: least significant bit and the rest) -/
def timeEnc (raw : UInt32) : Cdis.CdisTimeStamp :=
  let k := div32 (int32 cdisUnitsPerHour) (int32 disUnitsPerHour)
  ⟨decide (raw.toNat % 2 = 1), (toU32 (mul32 (int32 (raw.toNat / 2 : Nat)) k).roundInt).toNat⟩
/-- records/model.rs:182-196 `From<CdisTimeStamp> for DisTimeStamp`, then dis-rs common/model.rs:1087-1098: `<< 1` drops
the bits that leave the word -/
def timeDec (t : Cdis.CdisTimeStamp) : UInt32 :=
  let k := div32 (int32 disUnitsPerHour) (int32 cdisUnitsPerHour)
  UInt32.ofNat (2 * (toU32 (mul32 (int32 t.units) k).roundInt).toNat + t.absolute.toNat)

/-- records/codec.rs:12-24.  The version is `SISO_023_2023` (1); the length is computed later. -/
def headerEnc (h : Dis.PduHeader) : Cdis.CdisHeader :=
  { protocol_version := 1, exercise_id := h.exercise_id.toNat, pdu_type := h.pdu_type.toNat,
    timestamp := (timeEnc h.time_stamp).raw % 4294967296, length := 0, pdu_status := h.pdu_status.getD {} }
/-- records/codec.rs:26-30; dis-rs common/model.rs `PduHeader::new_v7`: version 7, family from the type, length 0 until
the PDU is finalised. -/
def headerDec (h : Cdis.CdisHeader) : Dis.PduHeader :=
  { protocol_version := 7, exercise_id := UInt8.ofNat h.exercise_id, pdu_type := UInt8.ofNat h.pdu_type,
    protocol_family := Dis.familyOfType (UInt8.ofNat h.pdu_type),
    time_stamp := timeDec (Cdis.CdisTimeStamp.ofRaw h.timestamp), pdu_length := 0, pdu_status := some h.pdu_status,
    padding := 0 }

/-! ## Identifiers and types -/

/-- records/codec.rs:36-42 -/
def eidEnc (x : Dis.EntityId) : Cdis.EntityId :=
  ⟨x.simulation_address.site_id.toNat, x.simulation_address.application_id.toNat, x.entity_id.toNat⟩
/-- records/codec.rs:44-50 -/
def eidDec (x : Cdis.EntityId) : Dis.EntityId :=
  ⟨⟨UInt16.ofNat x.site, UInt16.ofNat x.application⟩, UInt16.ofNat x.entity⟩
/-- e.g. fire/codec.rs: an event id is encoded with the entity identifier record -/
def evidEnc (x : Dis.EventId) : Cdis.EntityId :=
  ⟨x.simulation_address.site_id.toNat, x.simulation_address.application_id.toNat, x.event_id.toNat⟩
def evidDec (x : Cdis.EntityId) : Dis.EventId :=
  ⟨⟨UInt16.ofNat x.site, UInt16.ofNat x.application⟩, UInt16.ofNat x.entity⟩
/-- records/codec.rs:56-66 -/
def etypeEnc (x : Dis.EntityType) : Cdis.EntityType :=
  ⟨x.kind.toNat, x.domain.toNat, x.country.toNat, x.category.toNat, x.subcategory.toNat, x.specific.toNat, x.extra.toNat⟩
/-- records/codec.rs:68-77 -/
def etypeDec (x : Cdis.EntityType) : Dis.EntityType :=
  ⟨UInt8.ofNat x.kind, UInt8.ofNat x.domain, UInt16.ofNat x.country, UInt8.ofNat x.category, UInt8.ofNat x.subcategory,
   UInt8.ofNat x.specific, UInt8.ofNat x.extra⟩

/-! ## Vectors and angles -/

/-- records/codec.rs:86-92, 164-170: a component in decimetres, truncated -/
def decEnc (b : UInt32) : Int := toI16 (mul32 (v32 b) (.num 10))
/-- records/codec.rs:94-99, 172-178 -/
def decDec (n : Int) : UInt32 := b32 (div32 (int32 n) (.num 10))
/-- records/codec.rs:86-92 `LinearVelocity` and 164-170 `LinearAcceleration` (`CONVERSION = DECIMETERS_IN_METER = 10`) -/
def linEnc (v : Dis.VectorF32) : Cdis.Vec3 := ⟨decEnc v.first, decEnc v.second, decEnc v.third⟩
def linDec (v : Cdis.Vec3) : Dis.VectorF32 := ⟨decDec v.x, decDec v.y, decDec v.z⟩

/-- records/codec.rs:110 `SCALING = 4095 / PI` -/
def orientScale : Fl := div32 (.num 4095) PI32
/-- `2.0 * PI` -/
def TWO_PI32 : Fl := mul32 (.num 2) PI32
/-- records/codec.rs:128-135 `normalize_radians_to_plusminus_pi` -/
def normalizeRadians (r : Fl) : Fl :=
  let r := r.rem TWO_PI32
  let r := (Fl.add F32 r TWO_PI32).rem TWO_PI32
  if Fl.lt PI32 r then Fl.sub F32 r TWO_PI32 else r
/-- records/codec.rs:114 -/
def angleEnc (b : UInt32) : Int := toI16 (mul32 (normalizeRadians (v32 b)) orientScale)
/-- records/codec.rs:122 -/
def angleDec (n : Int) : UInt32 := b32 (div32 (int32 n) orientScale)
/-- records/codec.rs:112-118 -/
def orientEnc (o : Dis.Orientation) : Cdis.Orientation := ⟨angleEnc o.psi, angleEnc o.theta, angleEnc o.phi⟩
/-- records/codec.rs:120-125 -/
def orientDec (o : Cdis.Orientation) : Dis.Orientation := ⟨angleDec o.psi, angleDec o.theta, angleDec o.phi⟩

/-- constants.rs:44 `RADIANS_SEC_TO_DEGREES_SEC = 180 / PI` -/
def radToDeg : Fl := div32 (.num 180) PI32
/-- records/codec.rs:189 `SCALING = ((2^11) - 1) / (4 * PI)`; the numerator is 8 because `^` is exclusive or. -/
def angVelScale : Fl := div32 (int32 ((2 ^^^ 11 : Nat) - 1 : Nat)) (mul32 (.num 4) PI32)
/-- records/codec.rs:195 -/
def angVelEnc1 (b : UInt32) : Int := toI16 (mul32 (mul32 (v32 b) radToDeg) angVelScale)
/-- records/codec.rs:203 -/
def angVelDec1 (n : Int) : UInt32 := b32 (div32 (div32 (int32 n) angVelScale) radToDeg)
/-- records/codec.rs:193-199 -/
def angVelEnc (v : Dis.VectorF32) : Cdis.Vec3 := ⟨angVelEnc1 v.first, angVelEnc1 v.second, angVelEnc1 v.third⟩
/-- records/codec.rs:201-207 -/
def angVelDec (v : Cdis.Vec3) : Dis.VectorF32 := ⟨angVelDec1 v.x, angVelDec1 v.y, angVelDec1 v.z⟩

/-- num_traits `i16::from_f32`: `None` for NaN and values that do not truncate into the range -/
def i16FromF32 : Fl → Option Int
  | .num q => if -32769 < q ∧ q < 32768 then some (truncRat q) else none
  | _ => none
/-- records/codec.rs:287-289 `f32_to_i16_without_overflow`; num_traits `is_positive` is true of NaN with a clear sign.
Simplification: every NaN counts as positive. -/
def i16Sat (x : Fl) : Int :=
  match i16FromF32 x with
  | some n => n
  | none => match x with
    | .num q => if q < 0 then -32768 else 32767
    | .inf neg => if neg then -32768 else 32767
    | .nan => 32767

/-- records/codec.rs:258-261: the component lies between `i16::MIN` and `i16::MAX` (in metres) -/
def inCmRange (b : UInt32) : Bool := Fl.le (.num (-32768)) (v32 b) && Fl.le (v32 b) (.num 32767)
/-- `UnitsMeters`: 0 centimetre, 1 metre; `UnitsDekameters`: 0 centimetre, 1 dekametre. -/
def CM : Nat := 0
def METER : Nat := 1
def DEKAMETER : Nat := 1
/-- records/codec.rs:257-284 `encode_entity_coordinate_vector` -/
def coordEnc (v : Dis.VectorF32) : Cdis.Vec3 × Nat :=
  if !inCmRange v.first || !inCmRange v.second || !inCmRange v.third then
    (⟨i16Sat (v32 v.first), i16Sat (v32 v.second), i16Sat (v32 v.third)⟩, METER)
  else
    (⟨i16Sat (mul32 (v32 v.first) (.num 100)), i16Sat (mul32 (v32 v.second) (.num 100)),
      i16Sat (mul32 (v32 v.third) (.num 100))⟩, CM)
/-- records/codec.rs:295-312 `decode_entity_coordinate_vector`, one component -/
def coordDec1 (units : Nat) (n : Int) : UInt32 :=
  if units = CM then b32 (div32 (int32 n) (.num 100)) else b32 (int32 n)
def coordDec (v : Cdis.Vec3) (units : Nat) : Dis.VectorF32 :=
  ⟨coordDec1 units v.x, coordDec1 units v.y, coordDec1 units v.z⟩

/-! ## World coordinates -/

/-- The C-DIS model keeps latitude and longitude as rational numbers.  Infinities and NaN are replaced by numbers
that `as i32` (records/writer.rs) maps to the same integer. -/
def Fl.toRat : Fl → Rat
  | .num q => q
  | .nan => 0
  | .inf neg => if neg then -1099511627776 else 1099511627776

/-- records/codec.rs:334 -/
def latScale64 : Fl := Fl.div F64 (Fl.sub F64 (.num 1073741824) (.num 1)) FRAC_PI_2_64
/-- records/codec.rs:336 -/
def lonScale64 : Fl := Fl.div F64 (Fl.sub F64 (.num 2147483648) (.num 1)) PI64
/-- records/codec.rs:362 -/
def latScale32 : Fl := div32 (Fl.sub F32 (.num 1073741824) (.num 1)) FRAC_PI_2_32
/-- records/codec.rs:363 -/
def lonScale32 : Fl := div32 (Fl.sub F32 (.num 2147483648) (.num 1)) PI32

/-- records/codec.rs:321-323 -/
def atCentre (l : Dis.Location) : Bool :=
  v64 l.x_coordinate == .num 0 && v64 l.y_coordinate == .num 0 && v64 l.z_coordinate == .num 0

/-- records/codec.rs:317-348 `encode_world_coordinates` -/
def worldEnc (env : Env) (l : Dis.Location) : Cdis.WorldCoordinates × Nat :=
  if atCentre l then (⟨0, 0, -8388608⟩, DEKAMETER)
  else
    let (lat, lon, alt) := env.toLla l
    let lat := Fl.mul F64 lat latScale64
    let lon := Fl.mul F64 lon lonScale64
    let altCm := Fl.mul F64 alt (.num 100)
    if Fl.le altCm (.num 8388608) then
      (⟨Fl.toRat (lat.conv F32), Fl.toRat (lon.conv F32), toI32 altCm⟩, CM)
    else
      (⟨Fl.toRat (lat.conv F32), Fl.toRat (lon.conv F32), toI32 (Fl.div F64 alt (.num 10))⟩, DEKAMETER)
/-- records/codec.rs:353-367 `decode_world_coordinates` -/
def worldDec (env : Env) (w : Cdis.WorldCoordinates) (units : Nat) : Dis.Location :=
  let alt := if units = CM then div32 (int32 w.altitude_msl) (.num 100) else mul32 (int32 w.altitude_msl) (.num 10)
  env.toEcef (div32 (.num w.latitude) latScale32) (div32 (.num w.longitude) lonScale32) alt

/-! ## Decimal floats -/

/-- The loop of every `from_float` (e.g. records/model.rs:1031-1045): divide by ten while the number exceeds the
largest mantissa and the exponent is at most the *number of bits* of the exponent field. -/
def decLoop (F : Fmt) (max : Fl) (bits : Nat) : Nat → Fl → Nat → Fl × Nat
  | 0, m, e => (m, e)
  | fuel + 1, m, e =>
    if Fl.lt max m && decide (e ≤ bits) then decLoop F max bits fuel (Fl.div F m (.num 10)) (e + 1) else (m, e)
/-- At most `bits + 1` divisions happen. -/
def fromFloat (F : Fmt) (mantissaBits expBits : Nat) (x : Fl) : Fl × Nat :=
  decLoop F (Fl.sub F (.num (2 ^ mantissaBits)) (.num 1)) expBits (expBits + 2) x 0
/-- `10f32.powf(e)`.  Simplification: taken to be correctly rounded (the platform's `powf` may be off by one unit in
the last place). -/
def pow10 (F : Fmt) (e : Int) : Fl := F.round ((10 : Rat) ^ e)
/-- e.g. records/model.rs:1047-1049 `to_float` -/
def toFloat (F : Fmt) (m e : Int) : Fl := Fl.mul F (F.round m) (pow10 F e)

/-- records/model.rs:1031-1049 `ParameterValueFloat` -/
def pvEnc (b : UInt32) : Cdis.ParameterValueFloat :=
  let (m, e) := fromFloat F32 15 3 (v32 b)
  ⟨toI32 m, e, none⟩
def pvDec (x : Cdis.ParameterValueFloat) : UInt32 := b32 (toFloat F32 x.mantissa x.exponent)
/-- records/model.rs:1289-1306 `FrequencyFloat`, transmitter/model.rs:198-215 `TransmitFrequencyBandwidthFloat` -/
def freqEnc (b : UInt32) : Cdis.DecFloat :=
  let (m, e) := fromFloat F32 17 4 (v32 b)
  ⟨(toU32 m).toNat, e⟩
def freqDec (x : Cdis.DecFloat) : UInt32 := b32 (toFloat F32 x.mantissa x.exponent)
/-- transmitter/model.rs:140-157 `TransmitterFrequencyFloat`; the DIS frequency is an integer number of hertz -/
def txFreqEnc (n : UInt64) : Cdis.DecFloat :=
  let (m, e) := fromFloat F64 24 4 (F64.round n.toNat)
  ⟨(toU32 m).toNat, e⟩
def txFreqDec (x : Cdis.DecFloat) : UInt64 :=
  UInt64.ofNat (Fl.toInt 0 18446744073709551615 (toFloat F64 x.mantissa x.exponent)).toNat
/-- detonation/model.rs:135-152 `ExplosiveForceFloat` -/
def forceEnc (b : UInt32) : Cdis.ExplosiveForceFloat :=
  let (m, e) := fromFloat F32 15 3 (v32 b)
  ⟨(toU16 m).toNat, e⟩
def forceDec (x : Cdis.ExplosiveForceFloat) : UInt32 := b32 (toFloat F32 x.mantissa x.exponent)
/-- electromagnetic_emission/model.rs:174-191 `PulseWidthFloat` -/
def pulseEnc (b : UInt32) : Cdis.PulseWidthFloat :=
  let (m, e) := fromFloat F32 14 3 (v32 b)
  ⟨(toU16 m).toNat, e⟩
def pulseDec (x : Cdis.PulseWidthFloat) : UInt32 := b32 (toFloat F32 x.mantissa x.exponent)

/-! ## Variable parameters -/

/-- records/codec.rs:369-511 (encode) -/
def vpEnc : Dis.VariableParameter → Cdis.VariableParameter
  | .articulated p => .articulated ⟨p.change_indicator.toNat, p.attachment_id.toNat, p.type_class.toNat, p.type_metric.toNat,
      pvEnc p.parameter_value⟩
  | .attached p => .attached ⟨p.detached_indicator.toNat, p.attachment_id.toNat, p.parameter_type.toNat,
      etypeEnc p.attached_part_type⟩
  | .separation p => .separation ⟨p.reason.toNat, p.pre_entity_indicator.toNat, eidEnc p.parent_entity_id,
      p.station_name.toNat, p.station_number.toNat⟩
  | .entityType p => .entityType ⟨p.change_indicator.toNat, etypeEnc p.entity_type⟩
  | .entityAssociation p => .association ⟨p.change_indicator.toNat, p.association_status.toNat, p.association_type.toNat,
      eidEnc p.entity_id, p.own_station_location.toNat, p.physical_connection_type.toNat, p.group_member_type.toNat,
      p.group_number.toNat⟩
  | .unspecified _ _ => .unspecified
/-- records/codec.rs:369-511 (decode) -/
def vpDec : Cdis.VariableParameter → Dis.VariableParameter
  | .articulated p => .articulated
      { change_indicator := UInt8.ofNat p.change_indicator, attachment_id := UInt16.ofNat p.attachment_id,
        type_class := UInt32.ofNat p.type_class, type_metric := UInt32.ofNat p.type_metric,
        parameter_value := pvDec p.parameter_value }
  | .attached p => .attached ⟨UInt8.ofNat p.detached_indicator, UInt16.ofNat p.attachment_id,
      UInt32.ofNat p.parameter_type, etypeDec p.attached_part_type⟩
  | .separation p => .separation ⟨UInt8.ofNat p.reason_for_separation, UInt8.ofNat p.pre_entity_indicator,
      eidDec p.parent_entity_id, UInt16.ofNat p.station_name, UInt16.ofNat p.station_number⟩
  | .entityType p => .entityType ⟨UInt8.ofNat p.change_indicator, etypeDec p.attached_part_type⟩
  | .association p => .entityAssociation ⟨UInt8.ofNat p.change_indicator, UInt8.ofNat p.association_status,
      UInt8.ofNat p.association_type, eidDec p.entity_id, UInt16.ofNat p.own_station_location,
      UInt8.ofNat p.physical_connection_type, UInt8.ofNat p.group_member_type, UInt16.ofNat p.group_number⟩
  | .unspecified => .unspecified 0 (List.replicate 15 0)

/-! ## Beam data -/

/-- records/codec.rs:516 `SCALING = ((2^12) - 1) / PI`; the numerator is 13 because `^` is exclusive or. -/
def beamScale : Fl := div32 (int32 ((2 ^^^ 12 : Nat) - 1 : Nat)) PI32
/-- records/codec.rs:517 `SCALING_2 = 1023 / 100` -/
def sweepScale : Fl := div32 (.num 1023) (.num 100)
/-- records/codec.rs:521 -/
def beamAngleEnc (b : UInt32) : Int := toI16 (mul32 (v32 b) beamScale).roundInt
/-- records/codec.rs:531 -/
def beamAngleDec (n : Int) : UInt32 := b32 (div32 (int32 n) beamScale)
/-- records/codec.rs:525 -/
def sweepEnc (b : UInt32) : Int := toU16 (mul32 (v32 b) sweepScale).roundInt
/-- records/codec.rs:535 -/
def sweepDec (n : Nat) : UInt32 := b32 (div32 (int32 n) sweepScale)
/-- records/codec.rs:519-527 -/
def beamEnc (x : Dis.BeamData) : Cdis.BeamData :=
  ⟨beamAngleEnc x.azimuth_center, beamAngleEnc x.azimuth_sweep, beamAngleEnc x.elevation_center,
   beamAngleEnc x.elevation_sweep, (sweepEnc x.sweep_sync).toNat⟩
/-- records/codec.rs:529-536 -/
def beamDec (x : Cdis.BeamData) : Dis.BeamData :=
  ⟨beamAngleDec x.az_center, beamAngleDec x.az_sweep, beamAngleDec x.el_center, beamAngleDec x.el_sweep,
   sweepDec x.sweep_sync⟩

/-! ## Encoding scheme, datums, clock times -/

/-- records/codec.rs:213-231 -/
def schemeEnc : Dis.EncodingScheme → Cdis.EncodingScheme
  | .encodedAudio c t => ⟨c.toNat, t.toNat⟩
  | .rawBinaryData c n => ⟨c.toNat, n.toNat % 256⟩
  | .applicationSpecificData c _ => ⟨c.toNat, 0⟩
  | .databaseIndex c _ _ _ => ⟨c.toNat, 0⟩
  | .unspecified c => ⟨c.toNat, 0⟩
/-- records/codec.rs:233-245; the variant is that of the class (see `Cdis.EncodingScheme`). -/
def schemeDec (x : Cdis.EncodingScheme) : Dis.EncodingScheme :=
  if x.encoding_class = 0 then .encodedAudio 0 (UInt16.ofNat x.value)
  else if x.encoding_class = 1 then .rawBinaryData 1 (UInt16.ofNat x.value)
  else .unspecified (UInt16.ofNat x.encoding_class)

/-- C-DIS uses the DIS datum records unchanged. -/
def fdEnc (x : Dis.FixedDatum) : Cdis.FixedDatum := ⟨x.datum_id.toNat, x.datum_value.toNat⟩
def fdDec (x : Cdis.FixedDatum) : Dis.FixedDatum := ⟨UInt32.ofNat x.datum_id, UInt32.ofNat x.datum_value⟩
def bytesEnc (l : Bytes) : List Nat := l.map UInt8.toNat
def bytesDec (l : List Nat) : Bytes := l.map UInt8.ofNat
def vdEnc (x : Dis.VariableDatum) : Cdis.VariableDatum := ⟨x.datum_id.toNat, bytesEnc x.datum_value⟩
def vdDec (x : Cdis.VariableDatum) : Dis.VariableDatum := ⟨UInt32.ofNat x.datum_id, bytesDec x.datum_value⟩
def datumsEnc (f : List Dis.FixedDatum) (v : List Dis.VariableDatum) : Cdis.Datums := ⟨f.map fdEnc, v.map vdEnc⟩
/-- C-DIS uses the DIS clock time record unchanged. -/
def clockEnc (x : Dis.ClockTime) : Cdis.ClockTime := ⟨i32Of x.hour, x.time_past_hour.toNat⟩
def clockDec (x : Cdis.ClockTime) : Dis.ClockTime := ⟨ofI32 x.hour, UInt32.ofNat x.time_past_hour⟩

end Verif.Codec
