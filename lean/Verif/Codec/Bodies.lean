import Verif.Codec.Records

/-! # Conversion of the bodies that need no history (cdis-assemble/src/*/codec.rs)

`xEnc` is `X::encode`, `xDec` is `X::decode`. -/

namespace Verif.Codec

/-- `0` becomes absent (`if v.is_zero() { None } else { Some(v) }`) -/
def nz (n : Nat) : Option Nat := if n = 0 then none else some n

/-- num_traits `u32::from_f32` / `f32::to_u32` -/
def u32FromF32 : Fl → Option Nat
  | .num q => if -1 < q ∧ q < 4294967296 then some (truncRat q).toNat else none
  | _ => none
/-- num_traits `f32::to_u16` -/
def u16FromF32 : Fl → Option Nat
  | .num q => if -1 < q ∧ q < 65536 then some (truncRat q).toNat else none
  | _ => none
/-- num_traits `f32::to_u8` -/
def u8FromF32 : Fl → Option Nat
  | .num q => if -1 < q ∧ q < 256 then some (truncRat q).toNat else none
  | _ => none
/-- `f32::is_normal` -/
def isNormal : Fl → Bool
  | .num q => decide (q ≠ 0 ∧ (2 : Rat) ^ (-126 : Int) ≤ (if q < 0 then -q else q))
  | _ => false

/-! ## Fire -/

/-- fire/codec.rs:69-86 `encode_fire_descriptor` (entity type, warhead, fuze, quantity, rate); also
detonation/codec.rs:75-84 -/
def descriptorEnc : Dis.DescriptorRecord → Cdis.EntityType × Option Nat × Option Nat × Option Nat × Option Nat
  | .munition t m => (etypeEnc t, some m.warhead.toNat, some m.fuse.toNat,
      (nz m.quantity.toNat).map (min · 255), (nz m.rate.toNat).map (min · 255))
  | .expendable t => (etypeEnc t, none, none, none, none)
  | .explosion t _ _ => (etypeEnc t, none, none, none, none)
/-- fire/codec.rs:90-96, detonation/codec.rs:95-101 -/
def munitionDec (warhead fuze quantity rate : Option Nat) : Dis.MunitionDescriptor :=
  ⟨UInt16.ofNat (warhead.getD 0), UInt16.ofNat (fuze.getD 0), UInt16.ofNat (quantity.getD 0), UInt16.ofNat (rate.getD 0)⟩
/-- fire/codec.rs:13-45 -/
def fireEnc (env : Env) (x : Dis.Fire) : Cdis.Fire :=
  let (loc, units) := worldEnc env x.location_in_world
  let (t, warhead, fuze, quantity, rate) := descriptorEnc x.descriptor
  { units := units, firing_entity_id := eidEnc x.firing_entity_id, target_entity_id := eidEnc x.target_entity_id,
    munition_expandable_entity_id := eidEnc x.entity_id, event_id := evidEnc x.event_id,
    fire_mission_index := nz x.fire_mission_index.toNat, location_world_coordinates := loc, descriptor_entity_type := t,
    descriptor_warhead := warhead, descriptor_fuze := fuze, descriptor_quantity := quantity, descriptor_rate := rate,
    velocity := linEnc x.velocity, range := if isNormal (v32 x.range) then u32FromF32 (v32 x.range) else none }
/-- fire/codec.rs:88-105 -/
def fireDescriptorDec (x : Cdis.Fire) : Dis.DescriptorRecord :=
  if (etypeDec x.descriptor_entity_type).kind = 2 then .munition (etypeDec x.descriptor_entity_type)
    (munitionDec x.descriptor_warhead x.descriptor_fuze x.descriptor_quantity x.descriptor_rate)
  else if (etypeDec x.descriptor_entity_type).kind = 8 then .expendable (etypeDec x.descriptor_entity_type)
  else .munition (etypeDec x.descriptor_entity_type) ⟨0, 0, 0, 0⟩
/-- fire/codec.rs:47-66 -/
def fireDec (env : Env) (x : Cdis.Fire) : Dis.Fire :=
  { firing_entity_id := eidDec x.firing_entity_id, target_entity_id := eidDec x.target_entity_id,
    entity_id := eidDec x.munition_expandable_entity_id, event_id := evidDec x.event_id,
    fire_mission_index := UInt32.ofNat (x.fire_mission_index.getD 0),
    location_in_world := worldDec env x.location_world_coordinates x.units, descriptor := fireDescriptorDec x,
    velocity := linDec x.velocity, range := b32 (int32 (x.range.getD 0)) }

/-! ## Detonation -/

/-- detonation/codec.rs:13-53, 73-91 -/
def detonationEnc (env : Env) (x : Dis.Detonation) : Cdis.Detonation :=
  let (loc, unitsW) := worldEnc env x.location_in_world_coordinates
  let (ent, unitsE) := coordEnc x.location_in_entity_coordinates
  let (t, warhead, fuze, quantity, rate) := descriptorEnc x.descriptor
  { units_altitude := unitsW, units_entity := unitsE, source_entity_id := eidEnc x.source_entity_id,
    target_entity_id := eidEnc x.target_entity_id, exploding_entity_id := eidEnc x.exploding_entity_id,
    event_id := evidEnc x.event_id, entity_linear_velocity := linEnc x.velocity, location_in_world_coordinates := loc,
    descriptor_entity_type := t, descriptor_warhead := warhead, descriptor_fuze := fuze, descriptor_quantity := quantity,
    descriptor_rate := rate,
    descriptor_explosive_material := match x.descriptor with
      | .explosion _ m _ => some m.toNat
      | _ => none,
    descriptor_explosive_force := match x.descriptor with
      | .explosion _ _ f => some (forceEnc f)
      | _ => none,
    location_in_entity_coordinates := ent, detonation_results := x.detonation_result.toNat,
    variable_parameters := x.variable_parameters.map vpEnc }
/-- detonation/codec.rs:93-111 -/
def detonationDescriptorDec (x : Cdis.Detonation) : Dis.DescriptorRecord :=
  if (etypeDec x.descriptor_entity_type).kind = 2 then .munition (etypeDec x.descriptor_entity_type)
    (munitionDec x.descriptor_warhead x.descriptor_fuze x.descriptor_quantity x.descriptor_rate)
  else if (etypeDec x.descriptor_entity_type).kind = 8 then .expendable (etypeDec x.descriptor_entity_type)
  else .explosion (etypeDec x.descriptor_entity_type) (UInt16.ofNat (x.descriptor_explosive_material.getD 0))
    ((x.descriptor_explosive_force.map forceDec).getD 0)
/-- detonation/codec.rs:55-70 -/
def detonationDec (env : Env) (x : Cdis.Detonation) : Dis.Detonation :=
  { source_entity_id := eidDec x.source_entity_id, target_entity_id := eidDec x.target_entity_id,
    exploding_entity_id := eidDec x.exploding_entity_id, event_id := evidDec x.event_id,
    velocity := linDec x.entity_linear_velocity,
    location_in_world_coordinates := worldDec env x.location_in_world_coordinates x.units_altitude,
    descriptor := detonationDescriptorDec x,
    location_in_entity_coordinates := coordDec x.location_in_entity_coordinates x.units_entity,
    detonation_result := UInt8.ofNat x.detonation_results, variable_parameters := x.variable_parameters.map vpDec }

/-! ## Collision -/

/-- collision/codec.rs:50-59 `encode_collision_mass`; units 0 are grams, 1 kilograms -/
def massEnc (b : UInt32) : Nat × Nat :=
  if Fl.le (v32 b) (F32.round (65535 / 1000)) then ((u32FromF32 (mul32 (v32 b) (.num 1000))).getD 4294967295, 0)
  else ((u32FromF32 (v32 b)).getD 4294967295, 1)
/-- collision/codec.rs:61-67 -/
def massDec (mass units : Nat) : UInt32 :=
  if units = 0 then b32 (div32 (int32 mass) (.num 1000)) else b32 (int32 mass)
/-- collision/codec.rs:13-32 -/
def collisionEnc (x : Dis.Collision) : Cdis.Collision :=
  { units_location := (coordEnc x.location).2, units_mass := (massEnc x.mass).2,
    issuing_entity_id := eidEnc x.issuing_entity_id, colliding_entity_id := eidEnc x.colliding_entity_id,
    event_id := evidEnc x.event_id, collision_type := x.collision_type.toNat, velocity := linEnc x.velocity,
    mass := (massEnc x.mass).1, location := (coordEnc x.location).1 }
/-- collision/codec.rs:34-44 -/
def collisionDec (x : Cdis.Collision) : Dis.Collision :=
  { issuing_entity_id := eidDec x.issuing_entity_id, colliding_entity_id := eidDec x.colliding_entity_id,
    event_id := evidDec x.event_id, collision_type := UInt8.ofNat x.collision_type, velocity := linDec x.velocity,
    mass := massDec x.mass x.units_mass, location := coordDec x.location x.units_location }

/-! ## Simulation management -/

/-- create_entity/codec.rs:8-24 -/
def createEnc (x : Dis.CreateEntity) : Cdis.CreateRemove :=
  ⟨eidEnc x.originating_id, eidEnc x.receiving_id, x.request_id.toNat⟩
def createDec (x : Cdis.CreateRemove) : Dis.CreateEntity :=
  ⟨eidDec x.originating_id, eidDec x.receiving_id, UInt32.ofNat x.request_id⟩
/-- remove_entity/codec.rs:8-24 -/
def removeEnc (x : Dis.RemoveEntity) : Cdis.CreateRemove :=
  ⟨eidEnc x.originating_id, eidEnc x.receiving_id, x.request_id.toNat⟩
def removeDec (x : Cdis.CreateRemove) : Dis.RemoveEntity :=
  ⟨eidDec x.originating_id, eidDec x.receiving_id, UInt32.ofNat x.request_id⟩
/-- start_resume/codec.rs:8-28 -/
def startEnc (x : Dis.StartResume) : Cdis.StartResume :=
  ⟨eidEnc x.originating_id, eidEnc x.receiving_id, clockEnc x.real_world_time, clockEnc x.simulation_time,
   x.request_id.toNat⟩
def startDec (x : Cdis.StartResume) : Dis.StartResume :=
  ⟨eidDec x.originating_id, eidDec x.receiving_id, clockDec x.real_world_time, clockDec x.simulation_time,
   UInt32.ofNat x.request_id⟩
/-- stop_freeze/codec.rs:8-30.  The DIS model keeps the frozen behaviour as its octet; `env` gives the generated
conversions to and from the three flags. -/
def stopEnc (env : Env) (x : Dis.StopFreeze) : Cdis.StopFreeze :=
  let f := env.frozenFlags x.frozen_behavior
  ⟨eidEnc x.originating_id, eidEnc x.receiving_id, clockEnc x.real_world_time, x.reason.toNat, f.1, f.2.1, f.2.2,
   x.request_id.toNat⟩
def stopDec (env : Env) (x : Cdis.StopFreeze) : Dis.StopFreeze :=
  ⟨eidDec x.originating_id, eidDec x.receiving_id, clockDec x.real_world_time, UInt8.ofNat x.reason,
   env.frozenByte (x.run_simulation_clock, x.transmit_updates, x.process_updates), UInt32.ofNat x.request_id⟩
/-- acknowledge/codec.rs:8-28 -/
def ackEnc (x : Dis.Acknowledge) : Cdis.Acknowledge :=
  ⟨eidEnc x.originating_id, eidEnc x.receiving_id, x.acknowledge_flag.toNat, x.response_flag.toNat, x.request_id.toNat⟩
def ackDec (x : Cdis.Acknowledge) : Dis.Acknowledge :=
  ⟨eidDec x.originating_id, eidDec x.receiving_id, UInt16.ofNat x.acknowledge_flag, UInt16.ofNat x.response_flag,
   UInt32.ofNat x.request_id⟩
/-- action_request/codec.rs:10-32 -/
def actionEnc (x : Dis.ActionRequest) : Cdis.Action :=
  ⟨eidEnc x.originating_id, eidEnc x.receiving_id, x.request_id.toNat, x.action_id.toNat,
   datumsEnc x.fixed_datum_records x.variable_datum_records⟩
def actionDec (x : Cdis.Action) : Dis.ActionRequest :=
  ⟨eidDec x.originating_id, eidDec x.receiving_id, UInt32.ofNat x.request_id, UInt32.ofNat x.action_id,
   x.datums.fixed.map fdDec, x.datums.var.map vdDec⟩
/-- action_response/codec.rs:10-32 -/
def responseEnc (x : Dis.ActionResponse) : Cdis.Action :=
  ⟨eidEnc x.originating_id, eidEnc x.receiving_id, x.request_id.toNat, x.request_status.toNat,
   datumsEnc x.fixed_datum_records x.variable_datum_records⟩
def responseDec (x : Cdis.Action) : Dis.ActionResponse :=
  ⟨eidDec x.originating_id, eidDec x.receiving_id, UInt32.ofNat x.request_id, UInt32.ofNat x.action_id,
   x.datums.fixed.map fdDec, x.datums.var.map vdDec⟩
/-- data_query/codec.rs:9-33; line 23 goes through the raw C-DIS timestamp and back, which changes nothing but the bits
that `<< 1` drops -/
def queryEnc (x : Dis.DataQuery) : Cdis.DataQuery :=
  ⟨eidEnc x.originating_id, eidEnc x.receiving_id, x.request_id.toNat, timeEnc x.time_interval,
   x.fixed_datum_records.map UInt32.toNat, x.variable_datum_records.map UInt32.toNat⟩
def queryDec (x : Cdis.DataQuery) : Dis.DataQuery :=
  ⟨eidDec x.originating_id, eidDec x.receiving_id, UInt32.ofNat x.request_id,
   timeDec (Cdis.CdisTimeStamp.ofRaw (x.time_interval.raw % 4294967296)),
   x.fixed_datum_ids.map UInt32.ofNat, x.variable_datum_ids.map UInt32.ofNat⟩
/-- set_data/codec.rs:9-28 -/
def setDataEnc (x : Dis.SetData) : Cdis.DataBody :=
  ⟨eidEnc x.originating_id, eidEnc x.receiving_id, x.request_id.toNat,
   datumsEnc x.fixed_datum_records x.variable_datum_records⟩
def setDataDec (x : Cdis.DataBody) : Dis.SetData :=
  ⟨eidDec x.originating_id, eidDec x.receiving_id, UInt32.ofNat x.number, x.datums.fixed.map fdDec, x.datums.var.map vdDec⟩
/-- data/codec.rs:9-28 -/
def dataEnc (x : Dis.Data) : Cdis.DataBody :=
  ⟨eidEnc x.originating_id, eidEnc x.receiving_id, x.request_id.toNat,
   datumsEnc x.fixed_datum_records x.variable_datum_records⟩
def dataDec (x : Cdis.DataBody) : Dis.Data :=
  ⟨eidDec x.originating_id, eidDec x.receiving_id, UInt32.ofNat x.number, x.datums.fixed.map fdDec, x.datums.var.map vdDec⟩
/-- event_report/codec.rs:10-30 -/
def eventEnc (x : Dis.EventReport) : Cdis.DataBody :=
  ⟨eidEnc x.originating_id, eidEnc x.receiving_id, x.event_type.toNat,
   datumsEnc x.fixed_datum_records x.variable_datum_records⟩
def eventDec (x : Cdis.DataBody) : Dis.EventReport :=
  ⟨eidDec x.originating_id, eidDec x.receiving_id, UInt32.ofNat x.number, x.datums.fixed.map fdDec, x.datums.var.map vdDec⟩
/-- comment/codec.rs:8-24 -/
def commentEnc (x : Dis.Comment) : Cdis.Comment :=
  ⟨eidEnc x.originating_id, eidEnc x.receiving_id, datumsEnc [] x.variable_datum_records⟩
def commentDec (x : Cdis.Comment) : Dis.Comment :=
  ⟨eidDec x.originating_id, eidDec x.receiving_id, x.datums.var.map vdDec⟩

/-! ## Radio -/

/-- signal/codec.rs:10-27; tdl type: `SignalTdlType` as its number -/
def signalEnc (x : Dis.Signal) : Cdis.Signal :=
  let audio := match x.encoding_scheme with
    | .encodedAudio _ _ => true
    | _ => false
  { radio_reference_id := eidEnc x.radio_reference_id, radio_number := x.radio_number.toNat,
    encoding_scheme := schemeEnc x.encoding_scheme, tdl_type := x.tdl_type.toNat,
    sample_rate := if audio then some x.sample_rate.toNat else none,
    samples := if audio then some x.samples.toNat else none, data := bytesEnc x.data }
/-- signal/codec.rs:29-46 -/
def signalDec (x : Cdis.Signal) : Dis.Signal :=
  { radio_reference_id := eidDec x.radio_reference_id, radio_number := UInt16.ofNat x.radio_number,
    encoding_scheme := schemeDec x.encoding_scheme, tdl_type := UInt16.ofNat x.tdl_type,
    sample_rate := UInt32.ofNat (x.sample_rate.getD 0), samples := UInt16.ofNat (x.samples.getD 0), data := bytesDec x.data }
/-- receiver/codec.rs:9-19 -/
def receiverEnc (x : Dis.Receiver) : Cdis.Receiver :=
  { radio_reference_id := eidEnc x.radio_reference_id, radio_number := x.radio_number.toNat,
    receiver_state := x.receiver_state.toNat, received_power := (i16FromF32 (v32 x.received_power)).getD 0,
    transmitter_radio_reference_id := eidEnc x.transmitter_radio_reference_id,
    transmitter_radio_number := x.transmitter_radio_number.toNat }
/-- receiver/codec.rs:21-31 -/
def receiverDec (x : Cdis.Receiver) : Dis.Receiver :=
  { radio_reference_id := eidDec x.radio_reference_id, radio_number := UInt16.ofNat x.radio_number,
    receiver_state := UInt16.ofNat x.receiver_state, received_power := b32 (int32 x.received_power),
    transmitter_radio_reference_id := eidDec x.transmitter_radio_reference_id,
    transmitter_radio_number := UInt16.ofNat x.transmitter_radio_number }

end Verif.Codec
