import Verif.Core.Packed
import Verif.Dis.Emission
import Verif.Dis.EntityInfoLemmas

/-!
# IFF PDU (dis-rs/src/common/iff)

File names in the comments are relative to dis-rs/src/common/iff.  One-bit enumerations are kept as 0/1, other
enumerations as their raw value.
-/

set_option linter.unusedSimpArgs false

namespace Verif.Dis
open Verif.P

/-! ## Packed records: reader table, writer table, specification -/

/-- iff/model.rs:299-336: eight flags from the most significant bit down -/
def ChangeOptions.rd : List RField := [.bits 0x80 7, .bits 0x40 6, .bits 0x20 5, .bits 0x10 4, .bits 0x8 3, .bits 0x4 2, .bits 0x2 1, .bits 0x1 0]
/-- iff/model.rs:338-367 -/
def ChangeOptions.wr : List Nat := [7, 6, 5, 4, 3, 2, 1, 0]
/-- Specification of the record: (lowest bit, width) of each field. -/
def ChangeOptions.layout : Layout := [(7, 1), (6, 1), (5, 1), (4, 1), (3, 1), (2, 1), (1, 1), (0, 1)]
theorem ChangeOptions.run {v : Packed} (h : ChangeOptions.layout.Fits v) (r : Bytes) :
    (unpack8 ChangeOptions.rd).run (pack8 ChangeOptions.wr v ++ r) = .ok v r :=
  run_unpack8 ChangeOptions.layout r (by decide) (by decide) (by decide) h

/-- iff/model.rs:483-503: layers 1 to 7; bit 7 is not used -/
def InformationLayers.rd : List RField := [.bits 0x40 6, .bits 0x20 5, .bits 0x10 4, .bits 0x8 3, .bits 0x4 2, .bits 0x2 1, .bits 0x1 0]
/-- iff/model.rs:505-517 -/
def InformationLayers.wr : List Nat := [6, 5, 4, 3, 2, 1, 0]
/-- Specification of the record: (lowest bit, width) of each field. -/
def InformationLayers.layout : Layout := [(6, 1), (5, 1), (4, 1), (3, 1), (2, 1), (1, 1), (0, 1)]
theorem InformationLayers.run {v : Packed} (h : InformationLayers.layout.Fits v) (r : Bytes) :
    (unpack8 InformationLayers.rd).run (pack8 InformationLayers.wr v ++ r) = .ok v r :=
  run_unpack8 InformationLayers.layout r (by decide) (by decide) (by decide) h

/-- iff/model.rs:1518-1540: on/off, parameters 1 to 6 capable, operational status -/
def SystemStatus.rd : List RField := [.bits 0x80 7, .bits 0x40 6, .bits 0x20 5, .bits 0x10 4, .bits 0x8 3, .bits 0x4 2, .bits 0x2 1, .bits 0x1 0]
/-- iff/model.rs:1542-1560 -/
def SystemStatus.wr : List Nat := [7, 6, 5, 4, 3, 2, 1, 0]
/-- Specification of the record: (lowest bit, width) of each field. -/
def SystemStatus.layout : Layout := [(7, 1), (6, 1), (5, 1), (4, 1), (3, 1), (2, 1), (1, 1), (0, 1)]
theorem SystemStatus.run {v : Packed} (h : SystemStatus.layout.Fits v) (r : Bytes) :
    (unpack8 SystemStatus.rd).run (pack8 SystemStatus.wr v ++ r) = .ok v r :=
  run_unpack8 SystemStatus.layout r (by decide) (by decide) (by decide) h

/-- iff/model.rs:616-638: indicated air speed, mach number, ground speed, magnetic heading, track angle rate, true track angle, true airspeed, vertical rate; the reader computes the track angle rate from constants (line 622) -/
def DapSource.rd : List RField := [.bits 0x80 7, .bits 0x40 6, .bits 0x20 5, .bits 0x10 4, .const 1, .bits 0x4 2, .bits 0x2 1, .bits 0x1 0]
/-- iff/model.rs:640-660 -/
def DapSource.wr : List Nat := [7, 6, 5, 4, 3, 2, 1, 0]
/-- Specification of the record: (lowest bit, width) of each field. -/
def DapSource.layout : Layout := [(7, 1), (6, 1), (5, 1), (4, 1), (3, 1), (2, 1), (1, 1), (0, 1)]
theorem DapSource.run {v : Packed} (h : DapSource.layout.Fits v) (hc : v.getD 4 0 = 1) (r : Bytes) :
    (unpack8 DapSource.rd).run (pack8 DapSource.wr v ++ r) = .ok v r :=
  run_unpack8_const DapSource.layout 4 1 r (by decide) (by decide) (by decide) h (by decide) hc

/-- iff/model.rs:692-723: code elements D, C, B, A, on/off, damage, malfunction -/
def EnhancedMode1Code.rd : List RField := [.bits 0xe000 13, .bits 0x1c00 10, .bits 0x380 7, .bits 0x70 4, .bits 0x4 2, .bits 0x2 1, .bits 0x1 0]
/-- iff/model.rs:725-743 -/
def EnhancedMode1Code.wr : List Nat := [13, 10, 7, 4, 2, 1, 0]
/-- Specification of the record: (lowest bit, width) of each field. -/
def EnhancedMode1Code.layout : Layout := [(13, 3), (10, 3), (7, 3), (4, 3), (2, 1), (1, 1), (0, 1)]
theorem EnhancedMode1Code.run {v : Packed} (h : EnhancedMode1Code.layout.Fits v) (r : Bytes) :
    (unpack16 EnhancedMode1Code.rd).run (pack16 EnhancedMode1Code.wr v ++ r) = .ok v r :=
  run_unpack16 EnhancedMode1Code.layout r (by decide) (by decide) (by decide) h

/-- iff/model.rs:783-803: mission, message formats status, on/off, damage, malfunction -/
def Mode5InterrogatorStatus.rd : List RField := [.bits 0xe0 5, .bits 0x10 4, .bits 0x4 2, .bits 0x2 1, .bits 0x1 0]
/-- iff/model.rs:805-819 -/
def Mode5InterrogatorStatus.wr : List Nat := [5, 4, 2, 1, 0]
/-- Specification of the record: (lowest bit, width) of each field. -/
def Mode5InterrogatorStatus.layout : Layout := [(5, 3), (4, 1), (2, 1), (1, 1), (0, 1)]
theorem Mode5InterrogatorStatus.run {v : Packed} (h : Mode5InterrogatorStatus.layout.Fits v) (r : Bytes) :
    (unpack8 Mode5InterrogatorStatus.rd).run (pack8 Mode5InterrogatorStatus.wr v ++ r) = .ok v r :=
  run_unpack8 Mode5InterrogatorStatus.layout r (by decide) (by decide) (by decide) h

/-- iff/model.rs:868-938: formats 0 to 31 from the most significant bit down; the code shifts before masking with 1, which is the same -/
def Mode5MessageFormats.rd : List RField := [.bits 0x80000000 31, .bits 0x40000000 30, .bits 0x20000000 29, .bits 0x10000000 28, .bits 0x8000000 27, .bits 0x4000000 26, .bits 0x2000000 25, .bits 0x1000000 24, .bits 0x800000 23, .bits 0x400000 22, .bits 0x200000 21, .bits 0x100000 20, .bits 0x80000 19, .bits 0x40000 18, .bits 0x20000 17, .bits 0x10000 16, .bits 0x8000 15, .bits 0x4000 14, .bits 0x2000 13, .bits 0x1000 12, .bits 0x800 11, .bits 0x400 10, .bits 0x200 9, .bits 0x100 8, .bits 0x80 7, .bits 0x40 6, .bits 0x20 5, .bits 0x10 4, .bits 0x8 3, .bits 0x4 2, .bits 0x2 1, .bits 0x1 0]
/-- iff/model.rs:940-983 -/
def Mode5MessageFormats.wr : List Nat := [31, 30, 29, 28, 27, 26, 25, 24, 23, 22, 21, 20, 19, 18, 17, 16, 15, 14, 13, 12, 11, 10, 9, 8, 7, 6, 5, 4, 3, 2, 1, 0]
/-- Specification of the record: (lowest bit, width) of each field. -/
def Mode5MessageFormats.layout : Layout := [(31, 1), (30, 1), (29, 1), (28, 1), (27, 1), (26, 1), (25, 1), (24, 1), (23, 1), (22, 1), (21, 1), (20, 1), (19, 1), (18, 1), (17, 1), (16, 1), (15, 1), (14, 1), (13, 1), (12, 1), (11, 1), (10, 1), (9, 1), (8, 1), (7, 1), (6, 1), (5, 1), (4, 1), (3, 1), (2, 1), (1, 1), (0, 1)]
theorem Mode5MessageFormats.run {v : Packed} (h : Mode5MessageFormats.layout.Fits v) (r : Bytes) :
    (unpack32 Mode5MessageFormats.rd).run (pack32 Mode5MessageFormats.wr v ++ r) = .ok v r :=
  run_unpack32 Mode5MessageFormats.layout r (by decide) (by decide) (by decide) h

/-- iff/model.rs:1067-1080: squitter on/off, level 2 squitter, mission -/
def Mode5TransponderSupplementalData.rd : List RField := [.bits 0x80 7, .bits 0x40 6, .bits 0x38 3]
/-- iff/model.rs:1082-1092 -/
def Mode5TransponderSupplementalData.wr : List Nat := [7, 6, 3]
/-- Specification of the record: (lowest bit, width) of each field. -/
def Mode5TransponderSupplementalData.layout : Layout := [(7, 1), (6, 1), (3, 3)]
theorem Mode5TransponderSupplementalData.run {v : Packed} (h : Mode5TransponderSupplementalData.layout.Fits v) (r : Bytes) :
    (unpack8 Mode5TransponderSupplementalData.rd).run (pack8 Mode5TransponderSupplementalData.wr v ++ r) = .ok v r :=
  run_unpack8 Mode5TransponderSupplementalData.layout r (by decide) (by decide) (by decide) h

/-- iff/model.rs:1120-1159: reply, line test, antenna selection, crypto control, lat/lon/alt source, location errors, platform type, level selection, on/off, damage, malfunction -/
def Mode5TransponderStatus.rd : List RField := [.bits 0xf000 12, .bits 0x800 11, .bits 0x600 9, .bits 0x100 8, .bits 0x80 7, .bits 0x40 6, .bits 0x20 5, .bits 0x10 4, .bits 0x4 2, .bits 0x2 1, .bits 0x1 0]
/-- iff/model.rs:1161-1192 -/
def Mode5TransponderStatus.wr : List Nat := [12, 11, 9, 8, 7, 6, 5, 4, 2, 1, 0]
/-- Specification of the record: (lowest bit, width) of each field. -/
def Mode5TransponderStatus.layout : Layout := [(12, 4), (11, 1), (9, 2), (8, 1), (7, 1), (6, 1), (5, 1), (4, 1), (2, 1), (1, 1), (0, 1)]
theorem Mode5TransponderStatus.run {v : Packed} (h : Mode5TransponderStatus.layout.Fits v) (r : Bytes) :
    (unpack16 Mode5TransponderStatus.rd).run (pack16 Mode5TransponderStatus.wr v ++ r) = .ok v r :=
  run_unpack16 Mode5TransponderStatus.layout r (by decide) (by decide) (by decide) h

/-- iff/model.rs:1212-1225: altitude, resolution -/
def ModeSAltitude.rd : List RField := [.bits 0xffe0 5, .bits 0x10 4]
/-- iff/model.rs:1227-1234 -/
def ModeSAltitude.wr : List Nat := [5, 4]
/-- Specification of the record: (lowest bit, width) of each field. -/
def ModeSAltitude.layout : Layout := [(5, 11), (4, 1)]
theorem ModeSAltitude.run {v : Packed} (h : ModeSAltitude.layout.Fits v) (r : Bytes) :
    (unpack16 ModeSAltitude.rd).run (pack16 ModeSAltitude.wr v ++ r) = .ok v r :=
  run_unpack16 ModeSAltitude.layout r (by decide) (by decide) (by decide) h

/-- iff/model.rs:1272-1287: on/off, transmit state, damage, malfunction; the reader computes the malfunction status from constants (line 1278) -/
def ModeSInterrogatorStatus.rd : List RField := [.bits 0x80 7, .bits 0x70 4, .bits 0x8 3, .const 1]
/-- iff/model.rs:1289-1301 -/
def ModeSInterrogatorStatus.wr : List Nat := [7, 4, 3, 2]
/-- Specification of the record: (lowest bit, width) of each field. -/
def ModeSInterrogatorStatus.layout : Layout := [(7, 1), (4, 3), (3, 1), (2, 1)]
theorem ModeSInterrogatorStatus.run {v : Packed} (h : ModeSInterrogatorStatus.layout.Fits v) (hc : v.getD 3 0 = 1) (r : Bytes) :
    (unpack8 ModeSInterrogatorStatus.rd).run (pack8 ModeSInterrogatorStatus.wr v ++ r) = .ok v r :=
  run_unpack8_const ModeSInterrogatorStatus.layout 3 1 r (by decide) (by decide) (by decide) h (by decide) hc

/-- iff/model.rs:1323-1339: levels 1, 2 ELS, 2 EHS, 3, 4; the reader computes level 4 from constants (line 1329) -/
def ModeSLevelsPresent.rd : List RField := [.bits 0x40 6, .bits 0x20 5, .bits 0x10 4, .bits 0x8 3, .const 1]
/-- iff/model.rs:1341-1355 -/
def ModeSLevelsPresent.wr : List Nat := [6, 5, 4, 3, 2]
/-- Specification of the record: (lowest bit, width) of each field. -/
def ModeSLevelsPresent.layout : Layout := [(6, 1), (5, 1), (4, 1), (3, 1), (2, 1)]
theorem ModeSLevelsPresent.run {v : Packed} (h : ModeSLevelsPresent.layout.Fits v) (hc : v.getD 4 0 = 1) (r : Bytes) :
    (unpack8 ModeSLevelsPresent.rd).run (pack8 ModeSLevelsPresent.wr v ++ r) = .ok v r :=
  run_unpack8_const ModeSLevelsPresent.layout 4 1 r (by decide) (by decide) (by decide) h (by decide) hc

/-- iff/model.rs:1415-1455: squitter status, type, record source, airborne position, airborne velocity, surface position, identification, event driven, on/off, damage, malfunction -/
def ModeSTransponderStatus.rd : List RField := [.bits 0x8000 15, .bits 0x7000 12, .bits 0x800 11, .bits 0x400 10, .bits 0x200 9, .bits 0x100 8, .bits 0x80 7, .bits 0x40 6, .bits 0x4 2, .bits 0x2 1, .bits 0x1 0]
/-- iff/writer.rs:471-502 -/
def ModeSTransponderStatus.wr : List Nat := [15, 12, 11, 10, 9, 8, 7, 6, 2, 1, 0]
/-- Specification of the record: (lowest bit, width) of each field. -/
def ModeSTransponderStatus.layout : Layout := [(15, 1), (12, 3), (11, 1), (10, 1), (9, 1), (8, 1), (7, 1), (6, 1), (2, 1), (1, 1), (0, 1)]
theorem ModeSTransponderStatus.run {v : Packed} (h : ModeSTransponderStatus.layout.Fits v) (r : Bytes) :
    (unpack16 ModeSTransponderStatus.rd).run (pack16 ModeSTransponderStatus.wr v ++ r) = .ok v r :=
  run_unpack16 ModeSTransponderStatus.layout r (by decide) (by decide) (by decide) h

/-! ## Structures -/

/-- model.rs:575-580 -/
structure SystemId where
  system_type : UInt16
  system_name : UInt16
  system_mode : UInt8
  change_options : Packed
  deriving Repr, DecidableEq
/-- parser.rs:247-263, 136-140 -/
def SystemId.parse : BP SystemId := do
  let a ← be_u16
  let b ← be_u16
  let c ← be_u8
  let d ← unpack8 ChangeOptions.rd
  pure ⟨a, b, c, d⟩
/-- writer.rs:221-230 -/
def SystemId.ser (x : SystemId) : Bytes :=
  e16 x.system_type ++ e16 x.system_name ++ e8 x.system_mode ++ pack8 ChangeOptions.wr x.change_options

/-- model.rs:371-382 -/
structure FundamentalOperationalData where
  system_status : Packed
  data_field_1 : UInt8
  information_layers : Packed
  data_field_2 : UInt8
  parameter_1 : UInt16
  parameter_2 : UInt16
  parameter_3 : UInt16
  parameter_4 : UInt16
  parameter_5 : UInt16
  parameter_6 : UInt16
  deriving Repr, DecidableEq
/-- parser.rs:142-167 -/
def FundamentalOperationalData.parse : BP FundamentalOperationalData := do
  let a ← unpack8 SystemStatus.rd
  let b ← be_u8
  let c ← unpack8 InformationLayers.rd
  let d ← be_u8
  let p1 ← be_u16
  let p2 ← be_u16
  let p3 ← be_u16
  let p4 ← be_u16
  let p5 ← be_u16
  let p6 ← be_u16
  pure ⟨a, b, c, d, p1, p2, p3, p4, p5, p6⟩
/-- writer.rs:109-124 -/
def FundamentalOperationalData.ser (x : FundamentalOperationalData) : Bytes :=
  pack8 SystemStatus.wr x.system_status ++ e8 x.data_field_1 ++ pack8 InformationLayers.wr x.information_layers
    ++ e8 x.data_field_2 ++ e16 x.parameter_1 ++ e16 x.parameter_2 ++ e16 x.parameter_3 ++ e16 x.parameter_4
    ++ e16 x.parameter_5 ++ e16 x.parameter_6

/-- model.rs:539-543 -/
structure LayerHeader where
  layer_number : UInt8
  layer_specific_information : UInt8
  length : UInt16
  deriving Repr, DecidableEq
/-- parser.rs:221-232 -/
def LayerHeader.parse : BP LayerHeader := do
  let a ← be_u8
  let b ← be_u8
  let c ← be_u16
  pure ⟨a, b, c⟩
/-- writer.rs:201-209 -/
def LayerHeader.ser (x : LayerHeader) : Bytes := e8 x.layer_number ++ e8 x.layer_specific_information ++ e16 x.length

/-- model.rs:521-529 (`SystemSpecificData`, model.rs:557-561, is inlined as `part_1..3`) -/
structure IffFundamentalParameterData where
  erp : UInt32
  frequency : UInt32
  pgrf : UInt32
  pulse_width : UInt32
  burst_length : UInt32
  applicable_modes : UInt8
  part_1 : UInt8
  part_2 : UInt8
  part_3 : UInt8
  deriving Repr, DecidableEq
/-- parser.rs:199-219, 234-245 -/
def IffFundamentalParameterData.parse : BP IffFundamentalParameterData := do
  let a ← be_u32
  let b ← be_u32
  let c ← be_u32
  let d ← be_u32
  let e ← be_u32
  let f ← be_u8
  let p1 ← be_u8
  let p2 ← be_u8
  let p3 ← be_u8
  pure ⟨a, b, c, d, e, f, p1, p2, p3⟩
/-- writer.rs:187-199, 211-219 -/
def IffFundamentalParameterData.ser (x : IffFundamentalParameterData) : Bytes :=
  e32 x.erp ++ e32 x.frequency ++ e32 x.pgrf ++ e32 x.pulse_width ++ e32 x.burst_length ++ e8 x.applicable_modes
    ++ e8 x.part_1 ++ e8 x.part_2 ++ e8 x.part_3

/-- model.rs:82-88 -/
structure IffLayer2 where
  layer_header : LayerHeader
  beam_data : BeamData
  operational_parameter_1 : UInt8
  operational_parameter_2 : UInt8
  iff_fundamental_parameters : List IffFundamentalParameterData
  deriving Repr, DecidableEq
/-- parser.rs:59-76 -/
def IffLayer2.parse : BP IffLayer2 := do
  let a ← LayerHeader.parse
  let b ← BeamData.parse
  let c ← be_u8
  let d ← be_u8
  let n ← be_u16
  let e ← P.count IffFundamentalParameterData.parse n.toNat
  pure ⟨a, b, c, d, e⟩
/-- writer.rs:40-54 -/
def IffLayer2.ser (x : IffLayer2) : Bytes :=
  x.layer_header.ser ++ x.beam_data.ser ++ e8 x.operational_parameter_1 ++ e8 x.operational_parameter_2
    ++ e16 (UInt16.ofNat x.iff_fundamental_parameters.length)
    ++ serList IffFundamentalParameterData.ser x.iff_fundamental_parameters
/-- model.rs:107-112 -/
def IffLayer2.dataLen (x : IffLayer2) : Nat := 28 + 24 * x.iff_fundamental_parameters.length
/-- writer.rs:53 -/
def IffLayer2.cnt (x : IffLayer2) : Nat :=
  4 + x.beam_data.cnt + 4 + cntList (fun (_ : IffFundamentalParameterData) => 21 + 3) x.iff_fundamental_parameters

/-- model.rs:419-422 -/
structure IffDataRecord where
  record_type : UInt32
  record_specific_fields : Bytes
  deriving Repr, DecidableEq
/-- parser.rs:169-180 -/
def IffDataRecord.parse : BP IffDataRecord := do
  let t ← be_u32
  let n ← be_u16
  let f ← P.take (n.toNat - 6)
  pure ⟨t, f⟩
/-- writer.rs:153-167 -/
def IffDataRecord.ser (x : IffDataRecord) : Bytes :=
  let padded := lengthPaddedToNum (6 + x.record_specific_fields.length) 4
  e32 x.record_type ++ e16 (UInt16.ofNat padded.record_length) ++ x.record_specific_fields ++ zeros padded.padding_length
/-- model.rs:433-438, writer.rs:166 (both `as u16`) -/
def IffDataRecord.dataLen (x : IffDataRecord) : Nat :=
  (lengthPaddedToNum (6 + x.record_specific_fields.length) 4).record_length % 65536
/-- parser.rs:182-191 -/
def IffDataSpecification.parse : BP (List IffDataRecord) := do
  let n ← be_u16
  P.count IffDataRecord.parse n.toNat
/-- writer.rs:169-176 -/
def IffDataSpecification.ser (l : List IffDataRecord) : Bytes :=
  e16 (UInt16.ofNat l.length) ++ serList IffDataRecord.ser l
/-- model.rs:459-463, writer.rs:174 -/
def IffDataSpecification.dataLen (l : List IffDataRecord) : Nat := 2 + cntList IffDataRecord.dataLen l

/-- model.rs:747-751, 987-996 -/
inductive Mode5BasicData where
  | interrogator (status mode_5_message_formats_present : Packed) (interrogated_entity_id : EntityId)
  | transponder (status : Packed) (pin : UInt16) (mode_5_message_formats_present enhanced_mode_1 : Packed)
      (national_origin : UInt16) (supplemental_data : Packed) (navigation_source figure_of_merit : UInt8)
  deriving Repr, DecidableEq
/-- parser.rs:350-373, 375-385 -/
def Mode5BasicData.parseTransponder : BP Mode5BasicData := do
  let a ← unpack16 Mode5TransponderStatus.rd
  let b ← be_u16
  let c ← unpack32 Mode5MessageFormats.rd
  let d ← unpack16 EnhancedMode1Code.rd
  let e ← be_u16
  let f ← unpack8 Mode5TransponderSupplementalData.rd
  let g ← be_u8
  let h ← be_u8
  let _pad ← be_u8
  pure (.transponder a b c d e f g h)
/-- parser.rs:322-348 -/
def Mode5BasicData.parseInterrogator : BP Mode5BasicData := do
  let a ← unpack8 Mode5InterrogatorStatus.rd
  let _pad ← be_u8
  let _pad ← be_u16
  let b ← unpack32 Mode5MessageFormats.rd
  let c ← EntityId.parse
  let _pad ← be_u16
  pure (.interrogator a b c)
/-- `Mode5TransponderBasicData::default()` (derived; raw values 0) -/
def Mode5BasicData.default : Mode5BasicData :=
  .transponder (List.replicate 11 0) 0 (List.replicate 32 0) (List.replicate 7 0) 0 (List.replicate 3 0) 0 0
/-- parser.rs:293-320 and the `unwrap_or` at parser.rs:89 -/
def Mode5BasicData.parse : IffClass → BP Mode5BasicData
  | .transponder => Mode5BasicData.parseTransponder
  | .interrogator => Mode5BasicData.parseInterrogator
  | .undetermined => pure Mode5BasicData.default
/-- writer.rs:276-287, 307-321 -/
def Mode5BasicData.ser : Mode5BasicData → Bytes
  | .interrogator a b c => pack8 Mode5InterrogatorStatus.wr a ++ e8 0 ++ e16 0 ++ pack32 Mode5MessageFormats.wr b ++ c.ser ++ e16 0
  | .transponder a b c d e f g h => pack16 Mode5TransponderStatus.wr a ++ e16 b ++ pack32 Mode5MessageFormats.wr c
      ++ pack16 EnhancedMode1Code.wr d ++ e16 e ++ pack8 Mode5TransponderSupplementalData.wr f ++ e8 g ++ e8 h ++ e8 0
/-- writer.rs:285, 319 -/
def Mode5BasicData.cnt : Mode5BasicData → Nat
  | .interrogator .. => 16
  | .transponder .. => 2 + 4 + 2 + 1 + 7

/-- model.rs:124-129 -/
structure IffLayer3 where
  layer_header : LayerHeader
  reporting_simulation : SimulationAddress
  mode_5_basic_data : Mode5BasicData
  data_records : List IffDataRecord
  deriving Repr, DecidableEq
/-- parser.rs:78-95 -/
def IffLayer3.parse (c : IffClass) : BP IffLayer3 := do
  let a ← LayerHeader.parse
  let b ← SimulationAddress.parse
  let d ← Mode5BasicData.parse c
  let _pad ← be_u16
  let e ← IffDataSpecification.parse
  pure ⟨a, b, d, e⟩
/-- writer.rs:56-69 -/
def IffLayer3.ser (x : IffLayer3) : Bytes :=
  x.layer_header.ser ++ x.reporting_simulation.ser ++ x.mode_5_basic_data.ser ++ e16 0 ++ IffDataSpecification.ser x.data_records
/-- model.rs:147-150 -/
def IffLayer3.dataLen (x : IffLayer3) : Nat := 26 + IffDataSpecification.dataLen x.data_records
/-- writer.rs:67 -/
def IffLayer3.cnt (x : IffLayer3) : Nat :=
  4 + x.reporting_simulation.cnt + x.mode_5_basic_data.cnt + 2 + IffDataSpecification.dataLen x.data_records

/-- model.rs:1238-1241, 1367-1377; the identification string is kept as its UTF-8 octets -/
inductive ModeSBasicData where
  | interrogator (mode_s_interrogator_status mode_s_levels_present : Packed)
  | transponder (status levels_present : Packed) (aircraft_present_domain : UInt8) (aircraft_identification : Bytes)
      (aircraft_address : UInt32) (aircraft_identification_type : UInt8) (dap_source altitude : Packed)
      (capability_report : UInt8)
  deriving Repr, DecidableEq
/-- parser.rs:450-482, 484-488 -/
def ModeSBasicData.parseTransponder (env : Env) : BP ModeSBasicData := do
  let a ← unpack16 ModeSTransponderStatus.rd
  let b ← unpack8 ModeSLevelsPresent.rd
  let c ← be_u8
  let buf ← P.take 8
  let e ← be_u32
  let f ← be_u8
  let g ← unpack8 DapSource.rd
  let h ← unpack16 ModeSAltitude.rd
  let i ← be_u8
  pure (.transponder a b c (sanitizeMarking env buf) e f g h i)
/-- parser.rs:423-448 -/
def ModeSBasicData.parseInterrogator : BP ModeSBasicData := do
  let a ← unpack8 ModeSInterrogatorStatus.rd
  let _pad ← be_u8
  let b ← unpack8 ModeSLevelsPresent.rd
  let _pad ← P.take 21
  pure (.interrogator a b)
/-- `ModeSTransponderBasicData::default()` (derived; raw values 0, empty string) -/
def ModeSBasicData.default : ModeSBasicData :=
  .transponder (List.replicate 11 0) (List.replicate 5 0) 0 [] 0 0 (List.replicate 8 0) (List.replicate 2 0) 0
/-- parser.rs:394-421 and the `unwrap_or` at parser.rs:108 -/
def ModeSBasicData.parse (env : Env) : IffClass → BP ModeSBasicData
  | .transponder => ModeSBasicData.parseTransponder env
  | .interrogator => ModeSBasicData.parseInterrogator
  | .undetermined => pure ModeSBasicData.default
/-- writer.rs:459-469 `put_ascii_string_with_length(.., 8)` and the fallback at writer.rs:446-449 -/
def aircraftIdentificationSer (s : Bytes) : Bytes :=
  if s.length > 8 then zeros 8
  else if ¬ s.all (fun b => b.toNat < 128) then zeros 8
  else s ++ zeros (8 - s.length)
/-- writer.rs:393-403, 439-457 -/
def ModeSBasicData.ser : ModeSBasicData → Bytes
  | .interrogator a b => pack8 ModeSInterrogatorStatus.wr a ++ e8 0 ++ pack8 ModeSLevelsPresent.wr b ++ zeros 21
  | .transponder a b c d e f g h i => pack16 ModeSTransponderStatus.wr a ++ pack8 ModeSLevelsPresent.wr b ++ e8 c
      ++ aircraftIdentificationSer d ++ e32 e ++ e8 f ++ pack8 DapSource.wr g ++ pack16 ModeSAltitude.wr h ++ e8 i
/-- writer.rs:401, 455 -/
def ModeSBasicData.cnt : ModeSBasicData → Nat
  | .interrogator .. => 24
  | .transponder .. => 24

/-- model.rs:184-189 -/
structure IffLayer4 where
  layer_header : LayerHeader
  reporting_simulation : SimulationAddress
  mode_s_basic_data : ModeSBasicData
  data_records : List IffDataRecord
  deriving Repr, DecidableEq
/-- parser.rs:97-114 -/
def IffLayer4.parse (env : Env) (c : IffClass) : BP IffLayer4 := do
  let a ← LayerHeader.parse
  let b ← SimulationAddress.parse
  let d ← ModeSBasicData.parse env c
  let _pad ← be_u16
  let e ← IffDataSpecification.parse
  pure ⟨a, b, d, e⟩
/-- writer.rs:71-84 -/
def IffLayer4.ser (x : IffLayer4) : Bytes :=
  x.layer_header.ser ++ x.reporting_simulation.ser ++ x.mode_s_basic_data.ser ++ e16 0 ++ IffDataSpecification.ser x.data_records
/-- model.rs:207-210 -/
def IffLayer4.dataLen (x : IffLayer4) : Nat := 34 + IffDataSpecification.dataLen x.data_records
/-- writer.rs:82 -/
def IffLayer4.cnt (x : IffLayer4) : Nat :=
  4 + x.reporting_simulation.cnt + x.mode_s_basic_data.cnt + 2 + IffDataSpecification.dataLen x.data_records

/-- model.rs:244-250 -/
structure IffLayer5 where
  layer_header : LayerHeader
  reporting_simulation : SimulationAddress
  applicable_layers : Packed
  data_category : UInt8
  data_records : List IffDataRecord
  deriving Repr, DecidableEq
/-- parser.rs:116-134 -/
def IffLayer5.parse : BP IffLayer5 := do
  let a ← LayerHeader.parse
  let b ← SimulationAddress.parse
  let _pad ← be_u16
  let c ← unpack8 InformationLayers.rd
  let d ← be_u8
  let _pad ← be_u16
  let e ← IffDataSpecification.parse
  pure ⟨a, b, c, d, e⟩
/-- writer.rs:86-98 -/
def IffLayer5.ser (x : IffLayer5) : Bytes :=
  x.layer_header.ser ++ x.reporting_simulation.ser ++ e16 0 ++ pack8 InformationLayers.wr x.applicable_layers
    ++ e8 x.data_category ++ e16 0 ++ IffDataSpecification.ser x.data_records
/-- model.rs:269-272 -/
def IffLayer5.dataLen (x : IffLayer5) : Nat := 14 + IffDataSpecification.dataLen x.data_records
/-- writer.rs:96 -/
def IffLayer5.cnt (x : IffLayer5) : Nat :=
  4 + x.reporting_simulation.cnt + 2 + 1 + 3 + IffDataSpecification.dataLen x.data_records

/-- model.rs:16-29 -/
structure Iff where
  emitting_entity_id : EntityId
  event_id : EventId
  relative_antenna_location : VectorF32
  system_id : SystemId
  system_designator : UInt8
  system_specific_data : UInt8
  fundamental_operational_data : FundamentalOperationalData
  layer_2 : Option IffLayer2
  layer_3 : Option IffLayer3
  layer_4 : Option IffLayer4
  layer_5 : Option IffLayer5
  deriving Repr, DecidableEq

/-- parser.rs:24-45: a layer is parsed when its flag in the information layers is set. -/
def optionally {α : Type} (flag : Prop) [Decidable flag] (p : BP α) : BP (Option α) := if flag then do
    let a ← p
    pure (some a)
  else pure none
/-- information layers: the flag of layer `n` (layer 1 is the first field) -/
def layerPresent (f : FundamentalOperationalData) (n : Nat) : Prop := f.information_layers.getD (n - 1) 0 = 1
instance (f n) : Decidable (layerPresent f n) := by unfold layerPresent; infer_instance

/-- parser.rs:12-57 -/
def Iff.parse (env : Env) : BP Iff := do
  let a ← EntityId.parse
  let b ← EventId.parse
  let c ← VectorF32.parse
  let d ← SystemId.parse
  let e ← be_u8
  let f ← be_u8
  let g ← FundamentalOperationalData.parse
  let l2 ← optionally (layerPresent g 2) IffLayer2.parse
  let l3 ← optionally (layerPresent g 3) (IffLayer3.parse (env.iffClass d.system_type))
  let l4 ← optionally (layerPresent g 4) (IffLayer4.parse env (env.iffClass d.system_type))
  let l5 ← optionally (layerPresent g 5) IffLayer5.parse
  pure ⟨a, b, c, d, e, f, g, l2, l3, l4, l5⟩

/-- writer.rs:18-31: a layer is written when it is `Some` -/
def optSer {α : Type} (s : α → Bytes) : Option α → Bytes
  | some a => s a
  | none => []
/-- number of octets of an optional layer -/
def optLen {α : Type} (s : α → Nat) : Option α → Nat
  | some a => s a
  | none => 0

/-- writer.rs:8-38 -/
def Iff.ser (x : Iff) : Bytes :=
  x.emitting_entity_id.ser ++ x.event_id.ser ++ x.relative_antenna_location.ser ++ x.system_id.ser
    ++ e8 x.system_designator ++ e8 x.system_specific_data ++ x.fundamental_operational_data.ser
    ++ optSer IffLayer2.ser x.layer_2 ++ optSer IffLayer3.ser x.layer_3 ++ optSer IffLayer4.ser x.layer_4
    ++ optSer IffLayer5.ser x.layer_5
/-- model.rs:9 (`IFF_PDU_LAYER_1_DATA_LENGTH_OCTETS = 60`), 46-60 -/
def Iff.bodyLen (x : Iff) : Nat :=
  60 + optLen IffLayer2.dataLen x.layer_2 + optLen IffLayer3.dataLen x.layer_3 + optLen IffLayer4.dataLen x.layer_4
    + optLen IffLayer5.dataLen x.layer_5
/-- writer.rs:32-36 -/
def Iff.cnt (x : Iff) : Nat :=
  x.emitting_entity_id.cnt + x.event_id.cnt + x.relative_antenna_location.cnt + 6 + 2 + 16
    + optLen IffLayer2.cnt x.layer_2 + optLen IffLayer3.cnt x.layer_3 + optLen IffLayer4.cnt x.layer_4
    + optLen IffLayer5.cnt x.layer_5

/-! ## Specification -/

/-- A data record fills whole 32-bit words with its 6-octet header, and its length fits 16 bits. -/
def IffDataRecord.Wf (x : IffDataRecord) : Prop :=
  (6 + x.record_specific_fields.length) % 4 = 0 ∧ 6 + x.record_specific_fields.length < 65536
/-- A list of data records fits its 16-bit count. -/
def IffDataSpecification.Wf (l : List IffDataRecord) : Prop := l.length < 65536 ∧ ∀ x ∈ l, x.Wf
/-- The fields fit their bits and the kind of basic data is the one of the system type. -/
def Mode5BasicData.Wf (c : IffClass) : Mode5BasicData → Prop
  | .interrogator a b _ => c = .interrogator ∧ Mode5InterrogatorStatus.layout.Fits a ∧ Mode5MessageFormats.layout.Fits b
  | .transponder a _ b d _ f _ _ => c = .transponder ∧ Mode5TransponderStatus.layout.Fits a
      ∧ Mode5MessageFormats.layout.Fits b ∧ EnhancedMode1Code.layout.Fits d ∧ Mode5TransponderSupplementalData.layout.Fits f
/-- The fields fit their bits, the kind of basic data is the one of the system type and the identification is
at most eight ASCII characters ending in a letter or digit. -/
def ModeSBasicData.Wf (c : IffClass) : ModeSBasicData → Prop
  | .interrogator a b => c = .interrogator ∧ ModeSInterrogatorStatus.layout.Fits a ∧ ModeSLevelsPresent.layout.Fits b
  | .transponder a b _ d _ _ g h _ => c = .transponder ∧ ModeSTransponderStatus.layout.Fits a
      ∧ ModeSLevelsPresent.layout.Fits b ∧ DapSource.layout.Fits g ∧ ModeSAltitude.layout.Fits h
      ∧ d.length ≤ 8 ∧ (∀ x ∈ d, x.toNat < 128) ∧ (∀ x, d.getLast? = some x → isAlnum x = true)
/-- The only Mode S data the parser reads back: level 4 present, and malfunctioning (interrogator) or with the
track angle rate available (transponder), because the reader does not look at those bits. -/
def ModeSBasicData.Forced : ModeSBasicData → Prop
  | .interrogator a b => a.getD 3 0 = 1 ∧ b.getD 4 0 = 1
  | .transponder _ b _ _ _ _ g _ _ => b.getD 4 0 = 1 ∧ g.getD 4 0 = 1
structure IffLayer3.Wf (c : IffClass) (x : IffLayer3) : Prop where
  basic : x.mode_5_basic_data.Wf c
  records : IffDataSpecification.Wf x.data_records
structure IffLayer4.Wf (c : IffClass) (x : IffLayer4) : Prop where
  basic : x.mode_s_basic_data.Wf c
  records : IffDataSpecification.Wf x.data_records
structure IffLayer5.Wf (x : IffLayer5) : Prop where
  layers : InformationLayers.layout.Fits x.applicable_layers
  records : IffDataSpecification.Wf x.data_records
/-- The information layers announce exactly the layers present, and everything fits its field. -/
structure Iff.Wf (env : Env) (x : Iff) : Prop where
  options : ChangeOptions.layout.Fits x.system_id.change_options
  status : SystemStatus.layout.Fits x.fundamental_operational_data.system_status
  layers : InformationLayers.layout.Fits x.fundamental_operational_data.information_layers
  p2 : layerPresent x.fundamental_operational_data 2 ↔ x.layer_2 ≠ none
  p3 : layerPresent x.fundamental_operational_data 3 ↔ x.layer_3 ≠ none
  p4 : layerPresent x.fundamental_operational_data 4 ↔ x.layer_4 ≠ none
  p5 : layerPresent x.fundamental_operational_data 5 ↔ x.layer_5 ≠ none
  l2 : ∀ l, x.layer_2 = some l → l.iff_fundamental_parameters.length < 65536
  l3 : ∀ l, x.layer_3 = some l → l.Wf (env.iffClass x.system_id.system_type)
  l4 : ∀ l, x.layer_4 = some l → l.Wf (env.iffClass x.system_id.system_type)
  l5 : ∀ l, x.layer_5 = some l → l.Wf
/-- The Mode S layer, if any, has the bits the reader forces. -/
def Iff.Forced (x : Iff) : Prop := ∀ l, x.layer_4 = some l → l.mode_s_basic_data.Forced

/-! ## Lemmas -/

theorem SystemId.parse_ser {x : SystemId} (h : ChangeOptions.layout.Fits x.change_options) (r : Bytes) :
    SystemId.parse.run (x.ser ++ r) = .ok x r := by
  rtp [SystemId.parse, SystemId.ser, ChangeOptions.run h]
@[len] theorem SystemId.length_ser (x : SystemId) : x.ser.length = 6 := by lenp [SystemId.ser]
theorem FundamentalOperationalData.parse_ser {x : FundamentalOperationalData} (h : SystemStatus.layout.Fits x.system_status)
    (h2 : InformationLayers.layout.Fits x.information_layers) (r : Bytes) :
    FundamentalOperationalData.parse.run (x.ser ++ r) = .ok x r := by
  rtp [FundamentalOperationalData.parse, FundamentalOperationalData.ser, SystemStatus.run h, InformationLayers.run h2]
@[len] theorem FundamentalOperationalData.length_ser (x : FundamentalOperationalData) : x.ser.length = 16 := by
  lenp [FundamentalOperationalData.ser]
@[rt] theorem LayerHeader.parse_ser (r : Bytes) (x : LayerHeader) : LayerHeader.parse.run (x.ser ++ r) = .ok x r := by
  rtp [LayerHeader.parse, LayerHeader.ser]
@[len] theorem LayerHeader.length_ser (x : LayerHeader) : x.ser.length = 4 := by lenp [LayerHeader.ser]
@[rt] theorem IffFundamentalParameterData.parse_ser (r : Bytes) (x : IffFundamentalParameterData) :
    IffFundamentalParameterData.parse.run (x.ser ++ r) = .ok x r := by
  rtp [IffFundamentalParameterData.parse, IffFundamentalParameterData.ser]
@[len] theorem IffFundamentalParameterData.length_ser (x : IffFundamentalParameterData) : x.ser.length = 24 := by
  lenp [IffFundamentalParameterData.ser]
theorem IffLayer2.parse_ser {x : IffLayer2} (h : x.iff_fundamental_parameters.length < 65536) (r : Bytes) :
    IffLayer2.parse.run (x.ser ++ r) = .ok x r := by
  rtp [IffLayer2.parse, IffLayer2.ser,
    run_count16 x.iff_fundamental_parameters h fun x _ r => IffFundamentalParameterData.parse_ser r x]
theorem IffLayer2.length_ser (x : IffLayer2) : x.ser.length = x.dataLen := by
  lenp [IffLayer2.ser, IffLayer2.dataLen,
    length_serList_const x.iff_fundamental_parameters fun x _ => IffFundamentalParameterData.length_ser x]
theorem IffLayer2.cnt_eq (x : IffLayer2) : x.cnt = x.dataLen := by
  simp only [IffLayer2.cnt, IffLayer2.dataLen, BeamData.cnt,
    cntList_const (c := fun (_ : IffFundamentalParameterData) => 21 + 3) (k := 24) x.iff_fundamental_parameters fun _ _ => rfl]

theorem IffDataRecord.parse_ser {x : IffDataRecord} (h : x.Wf) (r : Bytes) :
    IffDataRecord.parse.run (x.ser ++ r) = .ok x r := by
  obtain ⟨h1, h2⟩ := h
  have e1 : (lengthPaddedToNum (6 + x.record_specific_fields.length) 4).record_length = 6 + x.record_specific_fields.length := by
    simp [lengthPaddedToNum, h1]
  simp only [IffDataRecord.parse, IffDataRecord.ser, lengthPadded_aligned h1, e1, zeros, List.replicate_zero, List.append_nil]
  rtp [toNat_u16_ofNat h2]
  rw [P.run_take _ _ _ (by omega)]
  rtp [IffDataRecord.mk.injEq]
theorem IffDataRecord.length_ser {x : IffDataRecord} (h : 6 + x.record_specific_fields.length < 65532) :
    x.ser.length = x.dataLen := by
  lenp [IffDataRecord.ser, IffDataRecord.dataLen]
  simp only [lengthPaddedToNum]
  split <;> omega
theorem IffDataSpecification.parse_ser {l : List IffDataRecord} (h : IffDataSpecification.Wf l) (r : Bytes) :
    IffDataSpecification.parse.run (IffDataSpecification.ser l ++ r) = .ok l r := by
  rtp [IffDataSpecification.parse, IffDataSpecification.ser, run_count16 l h.1 fun x hx r => IffDataRecord.parse_ser (h.2 x hx) r]
theorem IffDataRecord.length_ser' {x : IffDataRecord} (h : x.Wf) : x.ser.length = x.dataLen := by
  obtain ⟨h1, h2⟩ := h
  lenp [IffDataRecord.ser, IffDataRecord.dataLen]
  simp only [lengthPaddedToNum, h1, if_true]
  omega
theorem IffDataSpecification.length_ser {l : List IffDataRecord} (h : IffDataSpecification.Wf l) :
    (IffDataSpecification.ser l).length = IffDataSpecification.dataLen l := by
  lenp [IffDataSpecification.ser, IffDataSpecification.dataLen,
    length_serList_eq_cntList (c := IffDataRecord.dataLen) l fun x hx => IffDataRecord.length_ser' (h.2 x hx)]
theorem Mode5BasicData.parse_ser {c : IffClass} {x : Mode5BasicData} (h : x.Wf c) (r : Bytes) :
    (Mode5BasicData.parse c).run (x.ser ++ r) = .ok x r := by
  cases x with
  | interrogator a b e =>
    obtain ⟨rfl, h1, h2⟩ := h
    rtp [Mode5BasicData.parse, Mode5BasicData.parseInterrogator, Mode5BasicData.ser, Mode5InterrogatorStatus.run h1,
      Mode5MessageFormats.run h2]
  | transponder a p b d n f s m =>
    obtain ⟨rfl, h1, h2, h3, h4⟩ := h
    rtp [Mode5BasicData.parse, Mode5BasicData.parseTransponder, Mode5BasicData.ser, Mode5TransponderStatus.run h1,
      Mode5MessageFormats.run h2, EnhancedMode1Code.run h3, Mode5TransponderSupplementalData.run h4]
@[len] theorem Mode5BasicData.length_ser (x : Mode5BasicData) : x.ser.length = 16 := by
  cases x <;> lenp [Mode5BasicData.ser]
theorem Mode5BasicData.cnt_eq (x : Mode5BasicData) : x.cnt = 16 := by cases x <;> rfl

theorem aircraftIdentificationSer_length (s : Bytes) : (aircraftIdentificationSer s).length = 8 := by
  unfold aircraftIdentificationSer
  split
  · simp [zeros]
  · split
    · simp [zeros]
    · simp [zeros]; omega
theorem aircraftIdentificationSer_sanitize (env : Env) {s : Bytes} (h1 : s.length ≤ 8) (h2 : ∀ x ∈ s, x.toNat < 128)
    (h3 : ∀ x, s.getLast? = some x → isAlnum x = true) : sanitizeMarking env (aircraftIdentificationSer s) = s := by
  unfold aircraftIdentificationSer
  rw [if_neg (by omega), if_neg (by simp only [Decidable.not_not, List.all_eq_true, decide_eq_true_eq]; exact h2)]
  exact sanitize_padded env _ h2 h3 (by decide)
theorem ModeSBasicData.parse_ser (env : Env) {c : IffClass} {x : ModeSBasicData} (h : x.Wf c) (hf : x.Forced) (r : Bytes) :
    (ModeSBasicData.parse env c).run (x.ser ++ r) = .ok x r := by
  cases x with
  | interrogator a b =>
    obtain ⟨rfl, h1, h2⟩ := h
    rtp [ModeSBasicData.parse, ModeSBasicData.parseInterrogator, ModeSBasicData.ser, ModeSInterrogatorStatus.run h1 hf.1,
      ModeSLevelsPresent.run h2 hf.2]
  | transponder a b d i ad t g al cr =>
    obtain ⟨rfl, h1, h2, h3, h4, h5, h6, h7⟩ := h
    rtp [ModeSBasicData.parse, ModeSBasicData.parseTransponder, ModeSBasicData.ser, ModeSTransponderStatus.run h1,
      ModeSLevelsPresent.run h2 hf.1]
    rw [P.run_take _ _ 8 (aircraftIdentificationSer_length i)]
    rtp [DapSource.run h3 hf.2, ModeSAltitude.run h4, aircraftIdentificationSer_sanitize env h5 h6 h7]
/-- Octets really written for the basic data: 24 for an interrogator, but 21 for a transponder. -/
theorem ModeSBasicData.length_ser (x : ModeSBasicData) :
    x.ser.length = match x with | .interrogator .. => 24 | .transponder .. => 21 := by
  cases x <;> lenp [ModeSBasicData.ser, aircraftIdentificationSer_length]
theorem ModeSBasicData.cnt_eq (x : ModeSBasicData) : x.cnt = 24 := by cases x <;> rfl

theorem IffLayer3.parse_ser {c : IffClass} {x : IffLayer3} (h : x.Wf c) (r : Bytes) :
    (IffLayer3.parse c).run (x.ser ++ r) = .ok x r := by
  rtp [IffLayer3.parse, IffLayer3.ser, Mode5BasicData.parse_ser h.basic, IffDataSpecification.parse_ser h.records]
theorem IffLayer3.length_ser {c : IffClass} {x : IffLayer3} (h : x.Wf c) : x.ser.length = x.dataLen := by
  lenp [IffLayer3.ser, IffLayer3.dataLen, IffDataSpecification.length_ser h.records]
theorem IffLayer3.cnt_eq (x : IffLayer3) : x.cnt = x.dataLen := by
  simp only [IffLayer3.cnt, IffLayer3.dataLen, Mode5BasicData.cnt_eq, SimulationAddress.cnt]
theorem IffLayer4.parse_ser (env : Env) {c : IffClass} {x : IffLayer4} (h : x.Wf c) (hf : x.mode_s_basic_data.Forced) (r : Bytes) :
    (IffLayer4.parse env c).run (x.ser ++ r) = .ok x r := by
  rtp [IffLayer4.parse, IffLayer4.ser, ModeSBasicData.parse_ser env h.basic hf, IffDataSpecification.parse_ser h.records]
/-- Octets really written for layer 4. -/
theorem IffLayer4.length_ser {c : IffClass} {x : IffLayer4} (h : x.Wf c) :
    x.ser.length + (match x.mode_s_basic_data with | .interrogator .. => 0 | .transponder .. => 3) = x.dataLen := by
  lenp [IffLayer4.ser, IffLayer4.dataLen, IffDataSpecification.length_ser h.records, ModeSBasicData.length_ser]
  cases x.mode_s_basic_data <;> simp only <;> omega
theorem IffLayer4.cnt_eq (x : IffLayer4) : x.cnt = x.dataLen := by
  simp only [IffLayer4.cnt, IffLayer4.dataLen, ModeSBasicData.cnt_eq, SimulationAddress.cnt]
theorem IffLayer5.parse_ser {x : IffLayer5} (h : x.Wf) (r : Bytes) : IffLayer5.parse.run (x.ser ++ r) = .ok x r := by
  rtp [IffLayer5.parse, IffLayer5.ser, InformationLayers.run h.layers, IffDataSpecification.parse_ser h.records]
theorem IffLayer5.length_ser {x : IffLayer5} (h : x.Wf) : x.ser.length = x.dataLen := by
  lenp [IffLayer5.ser, IffLayer5.dataLen, IffDataSpecification.length_ser h.records]
theorem IffLayer5.cnt_eq (x : IffLayer5) : x.cnt = x.dataLen := by
  simp only [IffLayer5.cnt, IffLayer5.dataLen, SimulationAddress.cnt]

theorem run_optionally {α : Type} {flag : Prop} [Decidable flag] {p : BP α} {s : α → Bytes} {o : Option α}
    (hp : flag ↔ o ≠ none) (h : ∀ a, o = some a → ∀ r, p.run (s a ++ r) = .ok a r) (r : Bytes) :
    (optionally flag p).run (optSer s o ++ r) = .ok o r := by
  unfold optionally
  cases o with
  | none => rw [if_neg (by simpa using hp)]; rfl
  | some a =>
    rw [if_pos (hp.2 (by simp))]
    simp only [optSer, rt, h a rfl]

theorem Iff.parse_ser (env : Env) {x : Iff} (h : x.Wf env) (hf : x.Forced) (r : Bytes) :
    (Iff.parse env).run (x.ser ++ r) = .ok x r := by
  rtp [Iff.parse, Iff.ser, SystemId.parse_ser h.options, FundamentalOperationalData.parse_ser h.status h.layers,
    run_optionally h.p2 fun l hl r => IffLayer2.parse_ser (h.l2 l hl) r,
    run_optionally h.p3 fun l hl r => IffLayer3.parse_ser (h.l3 l hl) r,
    run_optionally h.p4 fun l hl r => IffLayer4.parse_ser env (h.l4 l hl) (hf l hl) r,
    run_optionally h.p5 fun l hl r => IffLayer5.parse_ser (h.l5 l hl) r]

/-- Octets the transponder basic data of layer 4 falls short of the length the code assumes. -/
def Iff.shortfall (x : Iff) : Nat :=
  match x.layer_4 with
  | some ⟨_, _, .transponder .., _⟩ => 3
  | _ => 0
/-- Octets really written: layer 1 has 48 of them, not 60. -/
theorem Iff.length_ser {env : Env} {x : Iff} (h : x.Wf env) : x.ser.length + 12 + x.shortfall = x.bodyLen := by
  obtain ⟨_, _, _, _, _, _, _, l2, l3, l4, l5⟩ := x
  have h3 := fun l hl => IffLayer3.length_ser (h.l3 l hl)
  have h4 := fun l hl => IffLayer4.length_ser (h.l4 l hl)
  have h5 := fun l hl => IffLayer5.length_ser (h.l5 l hl)
  simp only at h3 h4 h5
  have e2 : (optSer IffLayer2.ser l2).length = optLen IffLayer2.dataLen l2 := by
    cases l2 with | none => rfl | some a => exact IffLayer2.length_ser a
  have e3 : (optSer IffLayer3.ser l3).length = optLen IffLayer3.dataLen l3 := by
    cases l3 with | none => rfl | some a => exact h3 a rfl
  have e5 : (optSer IffLayer5.ser l5).length = optLen IffLayer5.dataLen l5 := by
    cases l5 with | none => rfl | some a => exact h5 a rfl
  lenp [Iff.ser, Iff.bodyLen, e2, e3, e5]
  cases l4 with
  | none => simp only [optSer, optLen, Iff.shortfall, List.length_nil]; omega
  | some a =>
    have := h4 a rfl
    obtain ⟨_, _, b, _⟩ := a
    cases b <;> simp only [optSer, optLen, Iff.shortfall] at this ⊢ <;> omega
theorem Iff.cnt_eq (x : Iff) : x.cnt + 12 = x.bodyLen := by
  obtain ⟨_, _, _, _, _, _, _, l2, l3, l4, l5⟩ := x
  simp only [Iff.cnt, Iff.bodyLen, EntityId.cnt, EventId.cnt, VectorF32.cnt, SimulationAddress.cnt]
  cases l2 <;> cases l3 <;> cases l4 <;> cases l5 <;>
    simp only [optLen, IffLayer2.cnt_eq, IffLayer3.cnt_eq, IffLayer4.cnt_eq, IffLayer5.cnt_eq] <;> omega

theorem Stable.optionally {α : Type} {flag : Prop} [Decidable flag] {p : BP α} [Stable p] : Stable (optionally flag p) := by
  unfold Dis.optionally; parser_ok
instance {α : Type} {flag : Prop} [Decidable flag] {p : BP α} [Stable p] : Stable (optionally flag p) := Stable.optionally
instance {α : Type} {flag : Prop} [Decidable flag] {p : BP α} [Safe p] : Safe (optionally flag p) := by
  unfold Dis.optionally; parser_ok

instance : Stable SystemId.parse := by unfold SystemId.parse; parser_ok
instance : Safe SystemId.parse := by unfold SystemId.parse; parser_ok
instance : Stable FundamentalOperationalData.parse := by unfold FundamentalOperationalData.parse; parser_ok
instance : Safe FundamentalOperationalData.parse := by unfold FundamentalOperationalData.parse; parser_ok
instance : Stable LayerHeader.parse := by unfold LayerHeader.parse; parser_ok
instance : Safe LayerHeader.parse := by unfold LayerHeader.parse; parser_ok
instance : Stable IffFundamentalParameterData.parse := by unfold IffFundamentalParameterData.parse; parser_ok
instance : Safe IffFundamentalParameterData.parse := by unfold IffFundamentalParameterData.parse; parser_ok
instance : Stable IffLayer2.parse := by unfold IffLayer2.parse; parser_ok
instance : Safe IffLayer2.parse := by unfold IffLayer2.parse; parser_ok
instance : Stable IffDataRecord.parse := by unfold IffDataRecord.parse; parser_ok
instance : Safe IffDataRecord.parse := by unfold IffDataRecord.parse; parser_ok
instance : Stable IffDataSpecification.parse := by unfold IffDataSpecification.parse; parser_ok
instance : Safe IffDataSpecification.parse := by unfold IffDataSpecification.parse; parser_ok
instance : Stable Mode5BasicData.parseTransponder := by unfold Mode5BasicData.parseTransponder; parser_ok
instance : Safe Mode5BasicData.parseTransponder := by unfold Mode5BasicData.parseTransponder; parser_ok
instance : Stable Mode5BasicData.parseInterrogator := by unfold Mode5BasicData.parseInterrogator; parser_ok
instance : Safe Mode5BasicData.parseInterrogator := by unfold Mode5BasicData.parseInterrogator; parser_ok
instance (c : IffClass) : Stable (Mode5BasicData.parse c) := by cases c <;> (simp only [Mode5BasicData.parse]; infer_instance)
instance (c : IffClass) : Safe (Mode5BasicData.parse c) := by cases c <;> (simp only [Mode5BasicData.parse]; infer_instance)
instance (c : IffClass) : Stable (IffLayer3.parse c) := by unfold IffLayer3.parse; parser_ok
instance (c : IffClass) : Safe (IffLayer3.parse c) := by unfold IffLayer3.parse; parser_ok
instance (env : Env) : Stable (ModeSBasicData.parseTransponder env) := by unfold ModeSBasicData.parseTransponder; parser_ok
instance (env : Env) : Safe (ModeSBasicData.parseTransponder env) := by unfold ModeSBasicData.parseTransponder; parser_ok
instance : Stable ModeSBasicData.parseInterrogator := by unfold ModeSBasicData.parseInterrogator; parser_ok
instance : Safe ModeSBasicData.parseInterrogator := by unfold ModeSBasicData.parseInterrogator; parser_ok
instance (env : Env) (c : IffClass) : Stable (ModeSBasicData.parse env c) := by cases c <;> (simp only [ModeSBasicData.parse]; infer_instance)
instance (env : Env) (c : IffClass) : Safe (ModeSBasicData.parse env c) := by cases c <;> (simp only [ModeSBasicData.parse]; infer_instance)
instance (env : Env) (c : IffClass) : Stable (IffLayer4.parse env c) := by unfold IffLayer4.parse; parser_ok
instance (env : Env) (c : IffClass) : Safe (IffLayer4.parse env c) := by unfold IffLayer4.parse; parser_ok
instance : Stable IffLayer5.parse := by unfold IffLayer5.parse; parser_ok
instance : Safe IffLayer5.parse := by unfold IffLayer5.parse; parser_ok
instance (env : Env) : Stable (Iff.parse env) := by unfold Iff.parse; parser_ok
instance (env : Env) : Safe (Iff.parse env) := by unfold Iff.parse; parser_ok

end Verif.Dis
