import Verif.Core.Bytes

/-!
# Common DIS records (dis-rs/src/common/{model,parser,writer}.rs)

Each record has
* a structure (fields as in `model.rs`; SISO enumerations are stored as their canonical raw value,
  floats as their bit pattern),
* `parse` — the nom parser of `parser.rs`,
* `ser` — the octets appended by the `Serialize` implementation of `writer.rs`,
* `cnt` — the `u16` that implementation returns (computed here in `Nat`, i.e. without wrap-around).
-/

namespace Verif.Dis

/-- Parsers over octets. -/
abbrev BP := P UInt8

/-- Octets appended for a list of records (`iter().map(|x| x.serialize(buf))`). -/
def serList {α : Type} (s : α → Bytes) (l : List α) : Bytes := l.flatMap s
/-- Sum of the returned counts (`.sum()`). -/
def cntList {α : Type} (c : α → Nat) (l : List α) : Nat := (l.map c).sum

/-! ## Padding (model.rs:1259-1296) -/

/-- dis-rs/src/common/model.rs:1259-1263 `PaddedRecordLengths`. -/
structure PaddedRecordLengths where
  data_length : Nat
  padding_length : Nat
  record_length : Nat
  deriving Repr, DecidableEq

/-- dis-rs/src/common/model.rs:1283-1296 `length_padded_to_num`.  (The `assert_eq!` in the code never
fires for `pad_to_num > 0`; see `Props`.) -/
def lengthPaddedToNum (data_length pad_to_num : Nat) : PaddedRecordLengths :=
  let data_remaining := data_length % pad_to_num
  let padding_num := if data_remaining = 0 then 0 else pad_to_num - data_remaining
  ⟨data_length, padding_num, data_length + padding_num⟩

/-! ## Identifiers and geometry -/

/-- model.rs:634-637 -/
structure SimulationAddress where
  site_id : UInt16
  application_id : UInt16
  deriving Repr, DecidableEq, Inhabited

/-- parser.rs:328-332 -/
def SimulationAddress.parse : BP SimulationAddress := do
  let site_id ← be_u16
  let application_id ← be_u16
  pure ⟨site_id, application_id⟩
/-- writer.rs:130-136 -/
def SimulationAddress.ser (x : SimulationAddress) : Bytes := e16 x.site_id ++ e16 x.application_id
/-- writer.rs:130-136 (returned count) -/
def SimulationAddress.cnt (_ : SimulationAddress) : Nat := 4

/-- model.rs:660-663 -/
structure EntityId where
  simulation_address : SimulationAddress
  entity_id : UInt16
  deriving Repr, DecidableEq, Inhabited

/-- parser.rs:334-341 -/
def EntityId.parse : BP EntityId := do
  let simulation_address ← SimulationAddress.parse
  let entity_id ← be_u16
  pure ⟨simulation_address, entity_id⟩
/-- writer.rs:122-128 -/
def EntityId.ser (x : EntityId) : Bytes := x.simulation_address.ser ++ e16 x.entity_id
/-- writer.rs:122-128 -/
def EntityId.cnt (x : EntityId) : Nat := x.simulation_address.cnt + 2

/-- model.rs:711-714 -/
structure EventId where
  simulation_address : SimulationAddress
  event_id : UInt16
  deriving Repr, DecidableEq, Inhabited

/-- parser.rs:410-421 -/
def EventId.parse : BP EventId := do
  let site_id ← be_u16
  let application_id ← be_u16
  let event_id ← be_u16
  pure ⟨⟨site_id, application_id⟩, event_id⟩
/-- writer.rs:138-144 -/
def EventId.ser (x : EventId) : Bytes := x.simulation_address.ser ++ e16 x.event_id
/-- writer.rs:138-144 -/
def EventId.cnt (x : EventId) : Nat := x.simulation_address.cnt + 2

/-- model.rs:744-748 -/
structure VectorF32 where
  first : UInt32
  second : UInt32
  third : UInt32
  deriving Repr, DecidableEq, Inhabited

/-- parser.rs:380-388 (`count(be_f32, 3)` written as three reads) -/
def VectorF32.parse : BP VectorF32 := do
  let a ← be_u32
  let b ← be_u32
  let c ← be_u32
  pure ⟨a, b, c⟩
/-- writer.rs:146-153 -/
def VectorF32.ser (x : VectorF32) : Bytes := e32 x.first ++ e32 x.second ++ e32 x.third
/-- writer.rs:146-153 -/
def VectorF32.cnt (_ : VectorF32) : Nat := 12

/-- model.rs:778-782 -/
structure Location where
  x_coordinate : UInt64
  y_coordinate : UInt64
  z_coordinate : UInt64
  deriving Repr, DecidableEq, Inhabited

/-- parser.rs:390-398 -/
def Location.parse : BP Location := do
  let a ← be_u64
  let b ← be_u64
  let c ← be_u64
  pure ⟨a, b, c⟩
/-- writer.rs:155-162 -/
def Location.ser (x : Location) : Bytes :=
  e64 x.x_coordinate ++ e64 x.y_coordinate ++ e64 x.z_coordinate
/-- writer.rs:155-162 -/
def Location.cnt (_ : Location) : Nat := 24

/-- model.rs:812-816 -/
structure Orientation where
  psi : UInt32
  theta : UInt32
  phi : UInt32
  deriving Repr, DecidableEq, Inhabited

/-- parser.rs:400-408 -/
def Orientation.parse : BP Orientation := do
  let a ← be_u32
  let b ← be_u32
  let c ← be_u32
  pure ⟨a, b, c⟩
/-- writer.rs:164-171 -/
def Orientation.ser (x : Orientation) : Bytes := e32 x.psi ++ e32 x.theta ++ e32 x.phi
/-- writer.rs:164-171 -/
def Orientation.cnt (_ : Orientation) : Nat := 12

/-- model.rs:845-853 -/
structure EntityType where
  kind : UInt8
  domain : UInt8
  country : UInt16
  category : UInt8
  subcategory : UInt8
  specific : UInt8
  extra : UInt8
  deriving Repr, DecidableEq, Inhabited

/-- parser.rs:343-378 -/
def EntityType.parse : BP EntityType := do
  let kind ← be_u8
  let domain ← be_u8
  let country ← be_u16
  let category ← be_u8
  let subcategory ← be_u8
  let specific ← be_u8
  let extra ← be_u8
  pure ⟨kind, domain, country, category, subcategory, specific, extra⟩
/-- entity_state/writer.rs:111-122 -/
def EntityType.ser (x : EntityType) : Bytes :=
  e8 x.kind ++ e8 x.domain ++ e16 x.country ++ e8 x.category ++ e8 x.subcategory
    ++ e8 x.specific ++ e8 x.extra
/-- entity_state/writer.rs:111-122 -/
def EntityType.cnt (_ : EntityType) : Nat := 8

/-! ## Descriptor records -/

/-- model.rs:1025-1030 -/
structure MunitionDescriptor where
  warhead : UInt16
  fuse : UInt16
  quantity : UInt16
  rate : UInt16
  deriving Repr, DecidableEq, Inhabited

/-- parser.rs:495-519 -/
def MunitionDescriptor.parse : BP MunitionDescriptor := do
  let warhead ← be_u16
  let fuse ← be_u16
  let quantity ← be_u16
  let rate ← be_u16
  pure ⟨warhead, fuse, quantity, rate⟩
/-- writer.rs:197-205 -/
def MunitionDescriptor.ser (x : MunitionDescriptor) : Bytes :=
  e16 x.warhead ++ e16 x.fuse ++ e16 x.quantity ++ e16 x.rate
/-- writer.rs:197-205 -/
def MunitionDescriptor.cnt (_ : MunitionDescriptor) : Nat := 8

/-- model.rs:983-990 -/
inductive DescriptorRecord where
  | munition (entity_type : EntityType) (munition : MunitionDescriptor)
  | expendable (entity_type : EntityType)
  | explosion (entity_type : EntityType) (explosive_material : UInt16) (explosive_force : UInt32)
  deriving Repr, DecidableEq

/-- parser.rs:423-453 `descriptor_record_fti`; `fti` is the raw FireTypeIndicator
(0 munition, 1 expendable, others unspecified). -/
def DescriptorRecord.parseFti (fti : UInt8) : BP DescriptorRecord := do
  let entity_type ← EntityType.parse
  if fti = 0 then
    let m ← MunitionDescriptor.parse
    pure (.munition entity_type m)
  else
    let _pad ← be_u64
    pure (.expendable entity_type)

/-- parser.rs:455-493 `descriptor_record_dti`; `dti` is the raw DetonationTypeIndicator
(0 munition, 1 expendable, 2 non-munition explosion, others unspecified). -/
def DescriptorRecord.parseDti (dti : UInt8) : BP DescriptorRecord := do
  let entity_type ← EntityType.parse
  if dti = 0 then
    let m ← MunitionDescriptor.parse
    pure (.munition entity_type m)
  else if dti = 2 then
    let material ← be_u16
    let force ← be_u32
    pure (.explosion entity_type material force)
  else
    let _pad ← be_u64
    pure (.expendable entity_type)

/-- writer.rs:173-195 -/
def DescriptorRecord.ser : DescriptorRecord → Bytes
  | .munition t m => t.ser ++ m.ser
  | .expendable t => t.ser ++ e64 0
  | .explosion t mat f => t.ser ++ e16 mat ++ e16 0 ++ e32 f
/-- writer.rs:173-195 -/
def DescriptorRecord.cnt : DescriptorRecord → Nat
  | .munition t m => t.cnt + m.cnt
  | .expendable t => t.cnt + 8
  | .explosion t _ _ => t.cnt + 8

/-- model.rs:1191-1194 (`hour: i32` by bit pattern) -/
structure ClockTime where
  hour : UInt32
  time_past_hour : UInt32
  deriving Repr, DecidableEq, Inhabited

/-- parser.rs:521-526 -/
def ClockTime.parse : BP ClockTime := do
  let hour ← be_u32
  let t ← be_u32
  pure ⟨hour, t⟩
/-- writer.rs:207-213 -/
def ClockTime.ser (x : ClockTime) : Bytes := e32 x.hour ++ e32 x.time_past_hour
/-- writer.rs:207-213 -/
def ClockTime.cnt (_ : ClockTime) : Nat := 8

/-! ## Datums -/

/-- model.rs:1226-1229 -/
structure FixedDatum where
  datum_id : UInt32
  datum_value : UInt32
  deriving Repr, DecidableEq, Inhabited

/-- parser.rs:540-548 -/
def FixedDatum.parse : BP FixedDatum := do
  let id ← be_u32
  let v ← be_u32
  pure ⟨id, v⟩
/-- writer.rs:215-222 -/
def FixedDatum.ser (x : FixedDatum) : Bytes := e32 x.datum_id ++ e32 x.datum_value
/-- writer.rs:215-222 -/
def FixedDatum.cnt (_ : FixedDatum) : Nat := 8

/-- model.rs:1242-1245 -/
structure VariableDatum where
  datum_id : UInt32
  datum_value : Bytes
  deriving Repr, DecidableEq, Inhabited

/-- parser.rs:550-569 -/
def VariableDatum.parse : BP VariableDatum := do
  let id ← be_u32
  let bits ← be_u32
  let padded := lengthPaddedToNum (bits.toNat / 8) 8
  let v ← P.take padded.data_length
  let _pad ← P.take padded.padding_length
  pure ⟨id, v⟩
/-- writer.rs:224-242: the padding length is computed in bits (to 64 bits) and then *multiplied* by 8. -/
def VariableDatum.ser (x : VariableDatum) : Bytes :=
  let data_length_bits := x.datum_value.length * 8
  let padded := lengthPaddedToNum data_length_bits 64
  let padding_length_bytes := padded.padding_length * 8
  e32 x.datum_id ++ e32 (UInt32.ofNat data_length_bits) ++ x.datum_value ++ zeros padding_length_bytes
/-- writer.rs:224-242: `8 + (record_length_bits as u16) / 8` -/
def VariableDatum.cnt (x : VariableDatum) : Nat :=
  8 + ((lengthPaddedToNum (x.datum_value.length * 8) 64).record_length % 65536) / 8

/-- model.rs:1207-1210 -/
structure DatumSpecification where
  fixed_datum_records : List FixedDatum
  variable_datum_records : List VariableDatum
  deriving Repr, DecidableEq

/-- parser.rs:528-538 -/
def DatumSpecification.parse : BP DatumSpecification := do
  let nf ← be_u32
  let nv ← be_u32
  let f ← P.count FixedDatum.parse nf.toNat
  let v ← P.count VariableDatum.parse nv.toNat
  pure ⟨f, v⟩

/-! ## Variable parameters -/

/-- model.rs:1310-1316 -/
structure ArticulatedPart where
  change_indicator : UInt8
  attachment_id : UInt16
  type_metric : UInt32
  type_class : UInt32
  parameter_value : UInt32
  deriving Repr, DecidableEq, Inhabited

/-- model.rs:1351-1356 -/
structure AttachedPart where
  detached_indicator : UInt8
  attachment_id : UInt16
  parameter_type : UInt32
  attached_part_type : EntityType
  deriving Repr, DecidableEq, Inhabited

/-- model.rs:1386-1392 -/
structure SeparationParameter where
  reason : UInt8
  pre_entity_indicator : UInt8
  parent_entity_id : EntityId
  station_name : UInt16
  station_number : UInt16
  deriving Repr, DecidableEq, Inhabited

/-- model.rs:1427-1430 -/
structure EntityTypeParameter where
  change_indicator : UInt8
  entity_type : EntityType
  deriving Repr, DecidableEq, Inhabited

/-- model.rs:1450-1459 -/
structure EntityAssociationParameter where
  change_indicator : UInt8
  association_status : UInt8
  association_type : UInt8
  entity_id : EntityId
  own_station_location : UInt16
  physical_connection_type : UInt8
  group_member_type : UInt8
  group_number : UInt16
  deriving Repr, DecidableEq, Inhabited

/-- model.rs:1299-1306; `unspecified` carries a 15-octet array (kept as a list; the length is part of
the well-formedness predicates). -/
inductive VariableParameter where
  | articulated (p : ArticulatedPart)
  | attached (p : AttachedPart)
  | separation (p : SeparationParameter)
  | entityType (p : EntityTypeParameter)
  | entityAssociation (p : EntityAssociationParameter)
  | unspecified (parameter_type : UInt8) (value : Bytes)
  deriving Repr, DecidableEq

/-- parser.rs:590-607 -/
def ArticulatedPart.parse : BP ArticulatedPart := do
  let change_indicator ← be_u8
  let attachment_id ← be_u16
  let parameter_type ← be_u32
  let type_metric := parameter_type &&& 0x1f
  let type_class := parameter_type - type_metric
  let value ← be_u32
  let _pad ← be_u32
  pure ⟨change_indicator, attachment_id, type_metric, type_class, value⟩
/-- writer.rs:276-288 -/
def ArticulatedPart.ser (x : ArticulatedPart) : Bytes :=
  e8 x.change_indicator ++ e16 x.attachment_id ++ e32 (x.type_class + x.type_metric)
    ++ e32 x.parameter_value ++ e32 0

/-- parser.rs:609-622 -/
def AttachedPart.parse : BP AttachedPart := do
  let detached_indicator ← be_u8
  let attachment_id ← be_u16
  let attached_part ← be_u32
  let entity_type ← EntityType.parse
  pure ⟨detached_indicator, attachment_id, attached_part, entity_type⟩
/-- writer.rs:290-299 -/
def AttachedPart.ser (x : AttachedPart) : Bytes :=
  e8 x.detached_indicator ++ e16 x.attachment_id ++ e32 x.parameter_type ++ x.attached_part_type.ser

/-- parser.rs:658-673 -/
def SeparationParameter.parse : BP SeparationParameter := do
  let reason ← be_u8
  let pre_entity_indicator ← be_u8
  let parent_entity_id ← EntityId.parse
  let _pad ← be_u16
  let station_name ← be_u16
  let station_number ← be_u16
  pure ⟨reason, pre_entity_indicator, parent_entity_id, station_name, station_number⟩
/-- writer.rs:301-313 -/
def SeparationParameter.ser (x : SeparationParameter) : Bytes :=
  e8 x.reason ++ e8 x.pre_entity_indicator ++ e8 0 ++ x.parent_entity_id.ser ++ e16 0
    ++ e16 x.station_name ++ e16 x.station_number

/-- parser.rs:646-656 -/
def EntityTypeParameter.parse : BP EntityTypeParameter := do
  let change_indicator ← be_u8
  let entity_type ← EntityType.parse
  let _pad16 ← be_u16
  let _pad32 ← be_u32
  pure ⟨change_indicator, entity_type⟩
/-- writer.rs:315-324 -/
def EntityTypeParameter.ser (x : EntityTypeParameter) : Bytes :=
  e8 x.change_indicator ++ x.entity_type.ser ++ e16 0 ++ e32 0

/-- parser.rs:624-644 -/
def EntityAssociationParameter.parse : BP EntityAssociationParameter := do
  let change_indicator ← be_u8
  let association_status ← be_u8
  let association_type ← be_u8
  let entity_id ← EntityId.parse
  let own_station_location ← be_u16
  let physical_connection_type ← be_u8
  let group_member_type ← be_u8
  let group_number ← be_u16
  pure ⟨change_indicator, association_status, association_type, entity_id, own_station_location,
    physical_connection_type, group_member_type, group_number⟩
/-- writer.rs:326-339 -/
def EntityAssociationParameter.ser (x : EntityAssociationParameter) : Bytes :=
  e8 x.change_indicator ++ e8 x.association_status ++ e8 x.association_type ++ x.entity_id.ser
    ++ e16 x.own_station_location ++ e8 x.physical_connection_type ++ e8 x.group_member_type
    ++ e16 x.group_number

/-- parser.rs:571-587; record types 0..4 as in SISO-REF-010 (articulated, attached, separation,
entity type, entity association). -/
def VariableParameter.parse : BP VariableParameter := do
  let t ← be_u8
  if t = 0 then do let p ← ArticulatedPart.parse; pure (.articulated p)
  else if t = 1 then do let p ← AttachedPart.parse; pure (.attached p)
  else if t = 2 then do let p ← SeparationParameter.parse; pure (.separation p)
  else if t = 3 then do let p ← EntityTypeParameter.parse; pure (.entityType p)
  else if t = 4 then do let p ← EntityAssociationParameter.parse; pure (.entityAssociation p)
  else do let bytes ← P.take 15; pure (.unspecified t bytes)

/-- writer.rs:244-274 -/
def VariableParameter.ser : VariableParameter → Bytes
  | .articulated p => e8 0 ++ p.ser
  | .attached p => e8 1 ++ p.ser
  | .separation p => e8 2 ++ p.ser
  | .entityType p => e8 3 ++ p.ser
  | .entityAssociation p => e8 4 ++ p.ser
  | .unspecified t v => e8 t ++ v
/-- writer.rs:244-339 (every inner writer returns 15) -/
def VariableParameter.cnt : VariableParameter → Nat
  | .articulated _ => 1 + 15
  | .attached _ => 1 + 15
  | .separation _ => 1 + 15
  | .entityType _ => 1 + 15
  | .entityAssociation _ => 1 + 15
  | .unspecified _ _ => 16

/-! ## Beam data, supply quantity -/

/-- model.rs:1509-1515 -/
structure BeamData where
  azimuth_center : UInt32
  azimuth_sweep : UInt32
  elevation_center : UInt32
  elevation_sweep : UInt32
  sweep_sync : UInt32
  deriving Repr, DecidableEq, Inhabited

/-- parser.rs:675-690 -/
def BeamData.parse : BP BeamData := do
  let a ← be_u32
  let b ← be_u32
  let c ← be_u32
  let d ← be_u32
  let e ← be_u32
  pure ⟨a, b, c, d, e⟩
/-- writer.rs:341-351 -/
def BeamData.ser (x : BeamData) : Bytes :=
  e32 x.azimuth_center ++ e32 x.azimuth_sweep ++ e32 x.elevation_center ++ e32 x.elevation_sweep
    ++ e32 x.sweep_sync
/-- writer.rs:341-351 -/
def BeamData.cnt (_ : BeamData) : Nat := 20

/-- model.rs:1552-1555 -/
structure SupplyQuantity where
  supply_type : EntityType
  quantity : UInt32
  deriving Repr, DecidableEq, Inhabited

/-- parser.rs:692-699 -/
def SupplyQuantity.parse : BP SupplyQuantity := do
  let t ← EntityType.parse
  let q ← be_u32
  pure ⟨t, q⟩
/-- writer.rs:353-360 -/
def SupplyQuantity.ser (x : SupplyQuantity) : Bytes := x.supply_type.ser ++ e32 x.quantity
/-- writer.rs:353-360 -/
def SupplyQuantity.cnt (x : SupplyQuantity) : Nat := x.supply_type.cnt + 4

/-! ## Record specifications -/

/-- model.rs:1591-1596 -/
structure RecordSet where
  record_id : UInt32
  record_serial_number : UInt32
  record_length_bytes : UInt16
  records : List Bytes
  deriving Repr, DecidableEq

/-- model.rs:1621-1627 `with_records`: the length of the first record, `as u16`. -/
def recordLengthOf (records : List Bytes) : UInt16 :=
  match records with
  | [] => 0
  | r :: _ => UInt16.ofNat r.length

/-- parser.rs:751-753 -/
def ceilBitsToBytes (bits : UInt16) : Nat := (bits.toNat + 7) / 8

/-- parser.rs:714-736.  `checked` says whether the build has integer overflow checks (`u16`
multiplication `record_length_bytes * record_count` panics); without checks it wraps modulo 2^16. -/
def RecordSet.parse (checked : Bool) : BP RecordSet := do
  let record_id ← be_u32
  let serial ← be_u32
  let _pad ← be_u32
  let bits ← be_u16
  let record_length_bytes := ceilBitsToBytes bits
  let record_count ← be_u16
  let records ← P.count (P.take record_length_bytes) record_count.toNat
  let product := record_length_bytes * record_count.toNat
  if checked && decide (65536 ≤ product) then P.panic
  else
    let padded := lengthPaddedToNum (product % 65536) 8
    let _pad ← P.take padded.padding_length
    pure ⟨record_id, serial, recordLengthOf records, records⟩

/-- parser.rs:702-707 -/
def RecordSpecification.parse (checked : Bool) : BP (List RecordSet) := do
  let n ← be_u32
  P.count (RecordSet.parse checked) n.toNat

/-- writer.rs:373-390 (`* 8` wraps in `u16`; a checked build would panic instead; excluded by the
well-formedness predicate) -/
def RecordSet.ser (x : RecordSet) : Bytes :=
  let records_bytes := (x.records.map List.length).sum % 65536
  e32 x.record_id ++ e32 x.record_serial_number ++ e32 0
    ++ e16 (x.record_length_bytes * 8) ++ e16 (UInt16.ofNat x.records.length)
    ++ x.records.flatMap id
    ++ zeros (lengthPaddedToNum records_bytes 8).padding_length
/-- writer.rs:373-390 -/
def RecordSet.cnt (x : RecordSet) : Nat :=
  let records_bytes := (x.records.map List.length).sum % 65536
  16 + records_bytes + (lengthPaddedToNum records_bytes 8).padding_length

/-- writer.rs:362-371 -/
def RecordSpecification.ser (l : List RecordSet) : Bytes :=
  e32 (UInt32.ofNat l.length) ++ serList RecordSet.ser l
/-- writer.rs:362-371 -/
def RecordSpecification.cnt (l : List RecordSet) : Nat := 4 + cntList RecordSet.cnt l

end Verif.Dis
