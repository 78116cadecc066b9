import Verif.Dis.Env

/-!
# Entity information / interaction PDUs

Entity State, Entity State Update, Attribute, Collision, Collision-Elastic.
For every PDU body: `parse` (parser.rs), `ser` and `cnt` (writer.rs: octets appended, value returned),
`bodyLen` (model.rs: `body_length`, computed in `Nat`).
-/

namespace Verif.Dis

/-! ## Appearance, capabilities, marking, dead reckoning -/

/-- entity_state/model.rs:72-87: the variant and its bits. -/
structure EntityAppearance where
  cls : EntityClass
  raw : UInt32
  deriving Repr, DecidableEq, Inhabited

/-- entity_state/model.rs:96-114 `from_bytes`: bitfield structures only keep the bits they have a field
for; `Unspecified` keeps all octets. -/
def EntityAppearance.fromBytes (env : Env) (raw : UInt32) (t : EntityType) : EntityAppearance :=
  match entityClass t with
  | .unspecified => ⟨.unspecified, raw⟩
  | c => ⟨c, raw &&& env.appearanceMask c⟩

/-- entity_state/parser.rs:63-69 -/
def EntityAppearance.parse (env : Env) (t : EntityType) : BP EntityAppearance := do
  let raw ← be_u32
  pure (EntityAppearance.fromBytes env raw t)
/-- entity_state/writer.rs:50-56 -/
def EntityAppearance.ser (x : EntityAppearance) : Bytes := e32 x.raw

/-- generated enum `EntityCapabilities` (variant and bits). -/
structure EntityCapabilities where
  cls : EntityClass
  raw : UInt32
  deriving Repr, DecidableEq, Inhabited

/-- v7/entity_state/mod.rs:8-26 `entity_capabilities_from_bytes` (note the first arm: entities of kind
Other always get `Unspecified(0)`) -/
def EntityCapabilities.fromBytes (env : Env) (raw : UInt32) (t : EntityType) : EntityCapabilities :=
  if t.kind = 0 then ⟨.unspecified, 0⟩
  else match entityClass t with
  | .unspecified => ⟨.unspecified, raw⟩
  | c => ⟨c, raw &&& env.capabilityMask c⟩

/-- v6/entity_state/model.rs `EntityCapabilities` -/
structure CapabilitiesV6 where
  ammunition_supply : Bool
  fuel_supply : Bool
  recovery : Bool
  repair : Bool
  deriving Repr, DecidableEq

/-- v6/entity_state/parser.rs `entity_capabilities`: the four most significant bits of the first octet,
then 3 octets of padding -/
def CapabilitiesV6.parse : BP CapabilitiesV6 := do
  let b ← be_u8
  let _pad ← P.take 3
  pure ⟨b &&& 0x80 != 0, b &&& 0x40 != 0, b &&& 0x20 != 0, b &&& 0x10 != 0⟩

/-- a flag at a bit position of a 32-bit word (`u32::from(flag) << pos`) -/
def flagBit (b : Bool) (v : UInt32) : UInt32 := if b then v else 0

/-- v6/entity_state/writer.rs `impl Serialize for EntityCapabilities` -/
def CapabilitiesV6.ser (x : CapabilitiesV6) : Bytes :=
  e32 (flagBit x.ammunition_supply 0x80000000 ||| flagBit x.fuel_supply 0x40000000
    ||| flagBit x.recovery 0x20000000 ||| flagBit x.repair 0x10000000)

/-- the four flags at bit positions 0..3 (counted from the most significant bit, build.rs:1021-1043) of
a version 7 capabilities record; the positions are those of SISO-REF-010 UID 55, 450-462 -/
def capabilityFlags (raw : UInt32) : CapabilitiesV6 :=
  ⟨raw &&& 0x80000000 != 0, raw &&& 0x40000000 != 0, raw &&& 0x20000000 != 0, raw &&& 0x10000000 != 0⟩

/-- entity_state/compatibility.rs:4-136 `From<EntityCapabilitiesV7> for EntityCapabilities` -/
def EntityCapabilities.toV6 (x : EntityCapabilities) : CapabilitiesV6 :=
  match x.cls with
  | .landPlatform | .airPlatform | .surfacePlatform | .subsurfacePlatform | .spacePlatform | .lifeForms =>
    capabilityFlags x.raw
  | .supply => { capabilityFlags x.raw with recovery := false, repair := false }
  | _ => ⟨false, false, false, false⟩

/-- entity_state/compatibility.rs:138-151 `From<EntityCapabilities> for EntityCapabilitiesV7`: always a
land platform -/
def EntityCapabilities.ofV6 (x : CapabilitiesV6) : EntityCapabilities :=
  ⟨.landPlatform, flagBit x.ammunition_supply 0x80000000 ||| flagBit x.fuel_supply 0x40000000
    ||| flagBit x.recovery 0x20000000 ||| flagBit x.repair 0x10000000⟩

/-- entity_state/parser.rs:26-34: version 7 reads the typed record, every other version the version 6
record -/
def EntityCapabilities.parse (env : Env) (ver : UInt8) (t : EntityType) : BP EntityCapabilities :=
  if ver = 7 then do
    let raw ← be_u32
    pure (EntityCapabilities.fromBytes env raw t)
  else do
    let c ← CapabilitiesV6.parse
    pure (EntityCapabilities.ofV6 c)

/-- entity_state/writer.rs:26-38 -/
def EntityCapabilities.ser (ver : UInt8) (x : EntityCapabilities) : Bytes :=
  match supportedVersion ver with
  | .v6 => x.toV6.ser
  | .v7 => e32 x.raw
  | .unsupported => e32 0

/-- entity_state/model.rs:143-146; the string is kept as its UTF-8 octets -/
structure EntityMarking where
  marking_character_set : UInt8
  marking_string : Bytes
  deriving Repr, DecidableEq

/-- ASCII `char::is_alphanumeric` -/
def isAlnum (b : UInt8) : Bool :=
  (48 ≤ b.toNat && b.toNat ≤ 57) || (65 ≤ b.toNat && b.toNat ≤ 90) || (97 ≤ b.toNat && b.toNat ≤ 122)

/-- common/parser.rs:741-746 `sanitize_marking`.  For ASCII input `trim_end` removes nothing that the
following `trim_end_matches(!is_alphanumeric)` would keep. -/
def sanitizeMarking (env : Env) (buf : Bytes) : Bytes :=
  if buf.all (fun b => b.toNat < 128) then (buf.reverse.dropWhile (fun b => !isAlnum b)).reverse
  else env.sanitizeNonAscii buf

/-- entity_state/parser.rs:75-87 -/
def EntityMarking.parse (env : Env) : BP EntityMarking := do
  let cs ← be_u8
  let buf ← P.take 11
  pure ⟨cs, sanitizeMarking env buf⟩
/-- entity_state/writer.rs:126-136.  `11 - len` underflows (panic in a checked build) for strings of
more than 11 octets; those are excluded by the well-formedness predicate. -/
def EntityMarking.ser (x : EntityMarking) : Bytes :=
  e8 x.marking_character_set ++ x.marking_string ++ List.replicate (11 - x.marking_string.length) 0x20

/-- entity_state/model.rs:227-231 (`None` carries a 15-octet array) -/
inductive DrOtherParameters where
  | none (bytes : Bytes)
  | euler (local_yaw local_pitch local_roll : UInt32)
  | quaternion (nil : UInt16) (x y z : UInt32)
  deriving Repr, DecidableEq

/-- entity_state/parser.rs:129-186 `dr_other_parameters`; `algorithm` is the raw
DeadReckoningAlgorithm (1 static, 2 FPW, 3 RPW, 4 RVW, 5 FVW, 6 FPB, 7 RPB, 8 RVB, 9 FVB). -/
def DrOtherParameters.parse (algorithm : UInt8) : BP DrOtherParameters :=
  let a := algorithm.toNat
  if a = 1 ∨ a = 2 ∨ a = 5 ∨ a = 6 ∨ a = 9 then do
    let _param_type ← be_u8
    let _unused ← be_u16
    let yaw ← be_u32
    let pitch ← be_u32
    let roll ← be_u32
    pure (.euler yaw pitch roll)
  else if a = 3 ∨ a = 4 ∨ a = 7 ∨ a = 8 then do
    let _param_type ← be_u8
    let nil ← be_u16
    let x ← be_u32
    let y ← be_u32
    let z ← be_u32
    pure (.quaternion nil x y z)
  else do
    let params ← P.take 15
    pure (.none params)

/-- entity_state/writer.rs:68-103 (`DrParametersType`: 1 local Euler angles, 2 world orientation
quaternion) -/
def DrOtherParameters.ser : DrOtherParameters → Bytes
  | .none bytes => bytes
  | .euler a b c => e8 1 ++ e16 0 ++ e32 a ++ e32 b ++ e32 c
  | .quaternion n x y z => e8 2 ++ e16 n ++ e32 x ++ e32 y ++ e32 z

/-- entity_state/model.rs:196-201 -/
structure DrParameters where
  algorithm : UInt8
  other_parameters : DrOtherParameters
  linear_acceleration : VectorF32
  angular_velocity : VectorF32
  deriving Repr, DecidableEq

/-- entity_state/parser.rs:89-127 -/
def DrParameters.parse : BP DrParameters := do
  let algorithm ← be_u8
  let other ← DrOtherParameters.parse algorithm
  let acceleration ← VectorF32.parse
  let velocity ← VectorF32.parse
  pure ⟨algorithm, other, acceleration, velocity⟩
/-- entity_state/writer.rs:58-66 -/
def DrParameters.ser (x : DrParameters) : Bytes :=
  e8 x.algorithm ++ x.other_parameters.ser ++ x.linear_acceleration.ser ++ x.angular_velocity.ser

/-! ## Entity State -/

/-- entity_state/model.rs:21-34 -/
structure EntityState where
  entity_id : EntityId
  force_id : UInt8
  entity_type : EntityType
  alternative_entity_type : EntityType
  entity_linear_velocity : VectorF32
  entity_location : Location
  entity_orientation : Orientation
  entity_appearance : EntityAppearance
  dead_reckoning_parameters : DrParameters
  entity_marking : EntityMarking
  entity_capabilities : EntityCapabilities
  variable_parameters : List VariableParameter
  deriving Repr, DecidableEq

/-- entity_state/parser.rs:12-56 -/
def EntityState.parse (env : Env) (ver : UInt8) : BP EntityState := do
  let entity_id ← EntityId.parse
  let force_id ← be_u8
  let n ← be_u8
  let entity_type ← EntityType.parse
  let alternative_entity_type ← EntityType.parse
  let velocity ← VectorF32.parse
  let location ← Location.parse
  let orientation ← Orientation.parse
  let appearance ← EntityAppearance.parse env entity_type
  let dr ← DrParameters.parse
  let marking ← EntityMarking.parse env
  let capabilities ← EntityCapabilities.parse env ver entity_type
  let vps ← P.count VariableParameter.parse n.toNat
  pure ⟨entity_id, force_id, entity_type, alternative_entity_type, velocity, location, orientation,
    appearance, dr, marking, capabilities, vps⟩

/-- entity_state/writer.rs:9-48 -/
def EntityState.ser (ver : UInt8) (x : EntityState) : Bytes :=
  x.entity_id.ser ++ e8 x.force_id ++ e8 (UInt8.ofNat x.variable_parameters.length)
    ++ x.entity_type.ser ++ x.alternative_entity_type.ser
    ++ x.entity_linear_velocity.ser ++ x.entity_location.ser ++ x.entity_orientation.ser
    ++ x.entity_appearance.ser ++ x.dead_reckoning_parameters.ser
    ++ x.entity_marking.ser ++ x.entity_capabilities.ser ver
    ++ serList VariableParameter.ser x.variable_parameters

/-- entity_state/writer.rs:44-46: the sum as written there: entity id 6, force id 1, 1, entity types
8 + 8, velocity 12, location 24, orientation 12, appearance 4, dead reckoning 40, capabilities 4,
`+ 40`, marking 12, `+ 4`, variable parameters. -/
def EntityState.cnt (x : EntityState) : Nat :=
  6 + 1 + 1 + 8 + 8 + 12 + 24 + 12 + 4 + 40 + 4 + 40 + 12 + 4
    + cntList VariableParameter.cnt x.variable_parameters

/-- entity_state/model.rs:51-53 -/
def EntityState.bodyLen (x : EntityState) : Nat := 132 + 16 * x.variable_parameters.length

/-! ## Entity State Update -/

/-- entity_state_update/model.rs:14-21 -/
structure EntityStateUpdate where
  entity_id : EntityId
  entity_linear_velocity : VectorF32
  entity_location : Location
  entity_orientation : Orientation
  entity_appearance : EntityAppearance
  variable_parameters : List VariableParameter
  deriving Repr, DecidableEq

/-- entity_state_update/parser.rs:10-33 (the appearance is read with kind Other) -/
def EntityStateUpdate.parse : BP EntityStateUpdate := do
  let entity_id ← EntityId.parse
  let _pad ← be_u8
  let n ← be_u8
  let velocity ← VectorF32.parse
  let location ← Location.parse
  let orientation ← Orientation.parse
  let raw ← be_u32
  let vps ← P.count VariableParameter.parse n.toNat
  pure ⟨entity_id, velocity, location, orientation, ⟨.unspecified, raw⟩, vps⟩

/-- entity_state_update/writer.rs:5-21 -/
def EntityStateUpdate.ser (x : EntityStateUpdate) : Bytes :=
  x.entity_id.ser ++ e8 0 ++ e8 (UInt8.ofNat x.variable_parameters.length)
    ++ x.entity_linear_velocity.ser ++ x.entity_location.ser ++ x.entity_orientation.ser
    ++ x.entity_appearance.ser ++ serList VariableParameter.ser x.variable_parameters
/-- entity_state_update/writer.rs:18-19 -/
def EntityStateUpdate.cnt (x : EntityStateUpdate) : Nat :=
  6 + 2 + 12 + 24 + 12 + 4 + cntList VariableParameter.cnt x.variable_parameters
/-- entity_state_update/model.rs:38-40 -/
def EntityStateUpdate.bodyLen (x : EntityStateUpdate) : Nat := 60 + 16 * x.variable_parameters.length

/-! ## Attribute -/

/-- attribute/model.rs:101-104 -/
structure AttributeRecord where
  record_type : UInt32
  specific_fields : Bytes
  deriving Repr, DecidableEq

/-- attribute/model.rs:64-67 -/
structure AttributeRecordSet where
  entity_id : EntityId
  attribute_records : List AttributeRecord
  deriving Repr, DecidableEq

/-- attribute/model.rs:14-21 -/
structure Attribute where
  originating_simulation_address : SimulationAddress
  record_pdu_type : UInt8
  record_protocol_version : UInt8
  master_attribute_record_type : UInt32
  action_code : UInt8
  attribute_record_sets : List AttributeRecordSet
  deriving Repr, DecidableEq

/-- attribute/parser.rs:47-56 (`saturating_sub`) -/
def AttributeRecord.parse : BP AttributeRecord := do
  let t ← be_u32
  let len ← be_u16
  let fields ← P.take (len.toNat - 6)
  pure ⟨t, fields⟩
/-- attribute/parser.rs:37-45 -/
def AttributeRecordSet.parse : BP AttributeRecordSet := do
  let id ← EntityId.parse
  let n ← be_u16
  let l ← P.count AttributeRecord.parse n.toNat
  pure ⟨id, l⟩
/-- attribute/parser.rs:10-35 -/
def Attribute.parse : BP Attribute := do
  let a ← SimulationAddress.parse
  let _pad ← be_u32
  let _pad ← be_u16
  let t ← be_u8
  let v ← be_u8
  let m ← be_u32
  let c ← be_u8
  let _pad ← be_u8
  let n ← be_u16
  let l ← P.count AttributeRecordSet.parse n.toNat
  pure ⟨a, t, v, m, c, l⟩

/-- attribute/writer.rs:37-51: the announced length includes the padding -/
def AttributeRecord.ser (x : AttributeRecord) : Bytes :=
  let padded := lengthPaddedToNum (6 + x.specific_fields.length) 8
  e32 x.record_type ++ e16 (UInt16.ofNat padded.record_length) ++ x.specific_fields
    ++ zeros padded.padding_length
/-- attribute/writer.rs:37-51 -/
def AttributeRecord.cnt (x : AttributeRecord) : Nat :=
  (lengthPaddedToNum (6 + x.specific_fields.length) 8).record_length % 65536
/-- attribute/writer.rs:26-35 -/
def AttributeRecordSet.ser (x : AttributeRecordSet) : Bytes :=
  x.entity_id.ser ++ e16 (UInt16.ofNat x.attribute_records.length)
    ++ serList AttributeRecord.ser x.attribute_records
/-- attribute/writer.rs:26-35 -/
def AttributeRecordSet.cnt (x : AttributeRecordSet) : Nat :=
  6 + 2 + cntList AttributeRecord.cnt x.attribute_records
/-- attribute/writer.rs:7-24 -/
def Attribute.ser (x : Attribute) : Bytes :=
  x.originating_simulation_address.ser ++ e32 0 ++ e16 0 ++ e8 x.record_pdu_type
    ++ e8 x.record_protocol_version ++ e32 x.master_attribute_record_type ++ e8 x.action_code ++ e8 0
    ++ e16 (UInt16.ofNat x.attribute_record_sets.length)
    ++ serList AttributeRecordSet.ser x.attribute_record_sets
/-- attribute/writer.rs:22 -/
def Attribute.cnt (x : Attribute) : Nat :=
  4 + 16 + cntList AttributeRecordSet.cnt x.attribute_record_sets
/-- attribute/model.rs:38-45: without the padding -/
def Attribute.bodyLen (x : Attribute) : Nat :=
  20 + (x.attribute_record_sets.map fun s =>
    8 + (s.attribute_records.map fun r => 6 + r.specific_fields.length).sum).sum

/-! ## Collision -/

/-- collision/model.rs:9-17 -/
structure Collision where
  issuing_entity_id : EntityId
  colliding_entity_id : EntityId
  event_id : EventId
  collision_type : UInt8
  velocity : VectorF32
  mass : UInt32
  location : VectorF32
  deriving Repr, DecidableEq

/-- collision/parser.rs:8-30 -/
def Collision.parse : BP Collision := do
  let a ← EntityId.parse
  let b ← EntityId.parse
  let e ← EventId.parse
  let t ← be_u8
  let _pad ← be_u8
  let v ← VectorF32.parse
  let m ← be_u32
  let l ← VectorF32.parse
  pure ⟨a, b, e, t, v, m, l⟩
/-- collision/writer.rs:5-20 -/
def Collision.ser (x : Collision) : Bytes :=
  x.issuing_entity_id.ser ++ x.colliding_entity_id.ser ++ x.event_id.ser ++ e8 x.collision_type ++ e8 0
    ++ x.velocity.ser ++ e32 x.mass ++ x.location.ser
/-- collision/writer.rs:16-18 -/
def Collision.cnt (_ : Collision) : Nat := 6 + 6 + 6 + 2 + 12 + 4 + 12
/-- collision/model.rs:6, 34-36 -/
def Collision.bodyLen (_ : Collision) : Nat := 60

/-! ## Collision-Elastic -/

/-- collision_elastic/model.rs:12-27 -/
structure CollisionElastic where
  issuing_entity_id : EntityId
  colliding_entity_id : EntityId
  event_id : EventId
  velocity : VectorF32
  mass : UInt32
  location : VectorF32
  intermediate_result_xx : UInt32
  intermediate_result_xy : UInt32
  intermediate_result_xz : UInt32
  intermediate_result_yy : UInt32
  intermediate_result_yz : UInt32
  intermediate_result_zz : UInt32
  unit_surface_normal : VectorF32
  coefficient_of_restitution : UInt32
  deriving Repr, DecidableEq

/-- collision_elastic/parser.rs:7-42 -/
def CollisionElastic.parse : BP CollisionElastic := do
  let a ← EntityId.parse
  let b ← EntityId.parse
  let e ← EventId.parse
  let _pad ← be_u16
  let v ← VectorF32.parse
  let m ← be_u32
  let l ← VectorF32.parse
  let xx ← be_u32
  let xy ← be_u32
  let xz ← be_u32
  let yy ← be_u32
  let yz ← be_u32
  let zz ← be_u32
  let n ← VectorF32.parse
  let c ← be_u32
  pure ⟨a, b, e, v, m, l, xx, xy, xz, yy, yz, zz, n, c⟩
/-- collision_elastic/writer.rs:5-29 -/
def CollisionElastic.ser (x : CollisionElastic) : Bytes :=
  x.issuing_entity_id.ser ++ x.colliding_entity_id.ser ++ x.event_id.ser ++ e16 0
    ++ x.velocity.ser ++ e32 x.mass ++ x.location.ser
    ++ e32 x.intermediate_result_xx ++ e32 x.intermediate_result_xy ++ e32 x.intermediate_result_xz
    ++ e32 x.intermediate_result_yy ++ e32 x.intermediate_result_yz ++ e32 x.intermediate_result_zz
    ++ x.unit_surface_normal.ser ++ e32 x.coefficient_of_restitution
/-- collision_elastic/writer.rs:23-27 -/
def CollisionElastic.cnt (_ : CollisionElastic) : Nat := 6 + 6 + 6 + 2 + 12 + 4 + 12 + 6 * 4 + 12 + 4
/-- collision_elastic/model.rs:6, 44-46 -/
def CollisionElastic.bodyLen (_ : CollisionElastic) : Nat := 88

end Verif.Dis
