import Verif.Dis.EntityInfoLemmas

/-! # Warfare PDUs: Fire, Detonation; and the Designator PDU -/

namespace Verif.Dis
open Verif.P

/-! ## Fire -/

/-- fire/model.rs:12-22 -/
structure Fire where
  firing_entity_id : EntityId
  target_entity_id : EntityId
  entity_id : EntityId
  event_id : EventId
  fire_mission_index : UInt32
  location_in_world : Location
  descriptor : DescriptorRecord
  velocity : VectorF32
  range : UInt32
  deriving Repr, DecidableEq

/-- fire/parser.rs:15-16: the indicator of the PDU status, munition (0) when absent -/
def headerFti (h : PduHeader) : UInt8 :=
  match h.pdu_status with
  | some s => s.fire_type_indicator.getD 0
  | none => 0
/-- detonation/parser.rs:12-13 -/
def headerDti (h : PduHeader) : UInt8 :=
  match h.pdu_status with
  | some s => s.detonation_type_indicator.getD 0
  | none => 0

/-- fire/parser.rs:9-41; `fti` is `headerFti header` -/
def Fire.parse (fti : UInt8) : BP Fire := do
  let firing ← EntityId.parse
  let target ← EntityId.parse
  let munition ← EntityId.parse
  let event ← EventId.parse
  let idx ← be_u32
  let loc ← Location.parse
  let desc ← DescriptorRecord.parseFti fti
  let vel ← VectorF32.parse
  let range ← be_u32
  pure ⟨firing, target, munition, event, idx, loc, desc, vel, range⟩
/-- fire/writer.rs:5-21 -/
def Fire.ser (x : Fire) : Bytes :=
  x.firing_entity_id.ser ++ x.target_entity_id.ser ++ x.entity_id.ser ++ x.event_id.ser
    ++ e32 x.fire_mission_index ++ x.location_in_world.ser ++ x.descriptor.ser ++ x.velocity.ser ++ e32 x.range
/-- fire/writer.rs:17-19 -/
def Fire.cnt (x : Fire) : Nat := 6 + 6 + 6 + 6 + 4 + 24 + x.descriptor.cnt + 12 + 4
/-- fire/model.rs:6, 39-41 -/
def Fire.bodyLen (_ : Fire) : Nat := 28

/-- The descriptor is the one the indicator calls for (a Fire PDU has no explosion descriptor). -/
def DescriptorRecord.MatchesFti : DescriptorRecord → UInt8 → Prop
  | .munition _ _, fti => fti = 0
  | .expendable _, fti => fti ≠ 0
  | .explosion _ _ _, _ => False

/-! ## Detonation -/

/-- detonation/model.rs:10-21 -/
structure Detonation where
  source_entity_id : EntityId
  target_entity_id : EntityId
  exploding_entity_id : EntityId
  event_id : EventId
  velocity : VectorF32
  location_in_world_coordinates : Location
  descriptor : DescriptorRecord
  location_in_entity_coordinates : VectorF32
  detonation_result : UInt8
  variable_parameters : List VariableParameter
  deriving Repr, DecidableEq

/-- detonation/parser.rs:10-44; `dti` is `headerDti header` -/
def Detonation.parse (dti : UInt8) : BP Detonation := do
  let source ← EntityId.parse
  let target ← EntityId.parse
  let exploding ← EntityId.parse
  let event ← EventId.parse
  let vel ← VectorF32.parse
  let loc ← Location.parse
  let desc ← DescriptorRecord.parseDti dti
  let eloc ← VectorF32.parse
  let res ← be_u8
  let n ← be_u8
  let _pad ← be_u16
  let vps ← P.count VariableParameter.parse n.toNat
  pure ⟨source, target, exploding, event, vel, loc, desc, eloc, res, vps⟩
/-- detonation/writer.rs:5-26 -/
def Detonation.ser (x : Detonation) : Bytes :=
  x.source_entity_id.ser ++ x.target_entity_id.ser ++ x.exploding_entity_id.ser ++ x.event_id.ser
    ++ x.velocity.ser ++ x.location_in_world_coordinates.ser ++ x.descriptor.ser
    ++ x.location_in_entity_coordinates.ser ++ e8 x.detonation_result
    ++ e8 (UInt8.ofNat x.variable_parameters.length) ++ e16 0
    ++ serList VariableParameter.ser x.variable_parameters
/-- detonation/writer.rs:22-24 -/
def Detonation.cnt (x : Detonation) : Nat :=
  6 + 6 + 6 + 6 + 12 + 24 + x.descriptor.cnt + 12 + 4 + cntList VariableParameter.cnt x.variable_parameters
/-- detonation/model.rs:7, 38-40 -/
def Detonation.bodyLen (x : Detonation) : Nat := 104 + 16 * x.variable_parameters.length

/-- The descriptor is the one the indicator calls for. -/
def DescriptorRecord.MatchesDti : DescriptorRecord → UInt8 → Prop
  | .munition _ _, dti => dti = 0
  | .expendable _, dti => dti ≠ 0 ∧ dti ≠ 2
  | .explosion _ _ _, dti => dti = 2
/-- The descriptor is not an explosion. -/
def DescriptorRecord.NotExplosion : DescriptorRecord → Prop
  | .explosion _ _ _ => False
  | _ => True

/-! ## Designator -/

/-- designator/model.rs:13-24 -/
structure Designator where
  designating_entity_id : EntityId
  system_name : UInt16
  designated_entity_id : EntityId
  code : UInt16
  power : UInt32
  wavelength : UInt32
  spot_wrt_designated_entity : VectorF32
  spot_location : Location
  dead_reckoning_algorithm : UInt8
  linear_acceleration : VectorF32
  deriving Repr, DecidableEq

/-- designator/parser.rs:8-39 -/
def Designator.parse : BP Designator := do
  let a ← EntityId.parse
  let name ← be_u16
  let b ← EntityId.parse
  let code ← be_u16
  let power ← be_u32
  let wavelength ← be_u32
  let spot ← VectorF32.parse
  let loc ← Location.parse
  let alg ← be_u8
  let _pad ← be_u8
  let _pad ← be_u16
  let acc ← VectorF32.parse
  pure ⟨a, name, b, code, power, wavelength, spot, loc, alg, acc⟩
/-- designator/writer.rs:5-25 -/
def Designator.ser (x : Designator) : Bytes :=
  x.designating_entity_id.ser ++ e16 x.system_name ++ x.designated_entity_id.ser ++ e16 x.code
    ++ e32 x.power ++ e32 x.wavelength ++ x.spot_wrt_designated_entity.ser ++ x.spot_location.ser
    ++ e8 x.dead_reckoning_algorithm ++ e8 0 ++ e16 0 ++ x.linear_acceleration.ser
/-- designator/writer.rs:20-23 -/
def Designator.cnt (_ : Designator) : Nat := 6 + 2 + 6 + 10 + 12 + 24 + 4 + 12
/-- designator/model.rs:7, 41-43 -/
def Designator.bodyLen (_ : Designator) : Nat := 76

/-! ## Lemmas -/

theorem Fire.parse_ser {x : Fire} {fti : UInt8} (h : x.descriptor.MatchesFti fti) (r : Bytes) :
    (Fire.parse fti).run (x.ser ++ r) = .ok x r := by
  obtain ⟨a, b, c, d, e, f, g, i, j⟩ := x
  cases g with
  | munition t m =>
    have h : fti = 0 := h
    subst h
    rtp [Fire.parse, Fire.ser, DescriptorRecord.parseFti_munition]
  | expendable t =>
    rtp [Fire.parse, Fire.ser, DescriptorRecord.parseFti_expendable t fti h]
  | explosion t m f => exact absurd h id
@[len] theorem Fire.length_ser (x : Fire) : x.ser.length = 84 := by lenp [Fire.ser]
theorem Fire.cnt_eq (x : Fire) : x.cnt = 84 := by simp [Fire.cnt, DescriptorRecord.cnt_eq]

theorem Detonation.parse_ser {x : Detonation} {dti : UInt8} (h : x.descriptor.MatchesDti dti)
    (he : x.descriptor.NotExplosion)
    (hv : VariableParameters.Wf x.variable_parameters) (hs : VariableParameters.NoSeparation x.variable_parameters)
    (r : Bytes) :
    (Detonation.parse dti).run (x.ser ++ r) = .ok x r := by
  obtain ⟨a, b, c, d, e, f, g, i, j, l⟩ := x
  simp only at hv hs
  cases g with
  | munition t m =>
    have h : dti = 0 := h
    subst h
    rtp [Detonation.parse, Detonation.ser, DescriptorRecord.parseDti_munition, run_vps hv hs]
  | expendable t =>
    rtp [Detonation.parse, Detonation.ser, DescriptorRecord.parseDti_expendable t dti h.1 h.2, run_vps hv hs]
  | explosion t m f => exact absurd he id
theorem Detonation.length_ser {x : Detonation} (hv : VariableParameters.Wf x.variable_parameters) :
    x.ser.length = 92 + 16 * x.variable_parameters.length := by
  lenp [Detonation.ser, length_vps hv]
theorem Detonation.cnt_eq (x : Detonation) : x.cnt = 92 + 16 * x.variable_parameters.length := by
  simp only [Detonation.cnt, DescriptorRecord.cnt_eq, cnt_vps]

@[rt] theorem Designator.parse_ser (x : Designator) (r : Bytes) : Designator.parse.run (x.ser ++ r) = .ok x r := by
  rtp [Designator.parse, Designator.ser]
@[len] theorem Designator.length_ser (x : Designator) : x.ser.length = 76 := by lenp [Designator.ser]

instance (f) : Stable (Fire.parse f) := by unfold Fire.parse; parser_ok
instance (f) : Safe (Fire.parse f) := by unfold Fire.parse; parser_ok
instance (f) : Stable (Detonation.parse f) := by unfold Detonation.parse; parser_ok
instance (f) : Safe (Detonation.parse f) := by unfold Detonation.parse; parser_ok
instance : Stable Designator.parse := by unfold Designator.parse; parser_ok
instance : Safe Designator.parse := by unfold Designator.parse; parser_ok

end Verif.Dis
