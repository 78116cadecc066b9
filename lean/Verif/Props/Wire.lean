import Verif.Core.Krfl
import Verif.Dis.HeaderLemmas
import Verif.Dis.Pdu

/-!
# C50: where each field of a PDU is on the wire

The round trips of C08 to C15 relate the reader and the writer of the library; they say nothing about whether other
implementations of DIS understand what is written.  Here the offsets of the fields are compared with the layouts of
IEEE 1278.1, for every PDU of every type.
-/

namespace Verif.Props
open Verif Verif.Dis

/-! ## Specification -/

/-- big-endian octets of integers (and of the bit patterns of floating point numbers) -/
def o8 (v : UInt8) : List UInt8 := [v]
def o16 (v : UInt16) : List UInt8 := [UInt8.ofNat (v.toNat / 2 ^ 8), UInt8.ofNat v.toNat]
def o32 (v : UInt32) : List UInt8 :=
  [UInt8.ofNat (v.toNat / 2 ^ 24), UInt8.ofNat (v.toNat / 2 ^ 16), UInt8.ofNat (v.toNat / 2 ^ 8), UInt8.ofNat v.toNat]
def o64 (v : UInt64) : List UInt8 :=
  [UInt8.ofNat (v.toNat / 2 ^ 56), UInt8.ofNat (v.toNat / 2 ^ 48), UInt8.ofNat (v.toNat / 2 ^ 40),
   UInt8.ofNat (v.toNat / 2 ^ 32), UInt8.ofNat (v.toNat / 2 ^ 24), UInt8.ofNat (v.toNat / 2 ^ 16),
   UInt8.ofNat (v.toNat / 2 ^ 8), UInt8.ofNat v.toNat]
/-- simulation address, entity identifier, event identifier (IEEE 1278.1, 6.2.80, 6.2.28, 6.2.34) -/
def oAddr (a : SimulationAddress) : List UInt8 := o16 a.site_id ++ o16 a.application_id
def oId (i : EntityId) : List UInt8 := oAddr i.simulation_address ++ o16 i.entity_id
def oEvent (i : EventId) : List UInt8 := oAddr i.simulation_address ++ o16 i.event_id
/-- entity type (6.2.30) and aggregate type (6.2.5) -/
def oType (t : EntityType) : List UInt8 :=
  o8 t.kind ++ o8 t.domain ++ o16 t.country ++ o8 t.category ++ o8 t.subcategory ++ o8 t.specific ++ o8 t.extra
def oAggType (t : AggregateType) : List UInt8 :=
  o8 t.aggregate_kind ++ o8 t.domain ++ o16 t.country ++ o8 t.category ++ o8 t.subcategory ++ o8 t.specific ++ o8 t.extra
/-- vector of three 32-bit numbers (6.2.96), world coordinates (6.2.98), Euler angles (6.2.32), clock time (6.2.14) -/
def oVec (v : VectorF32) : List UInt8 := o32 v.first ++ o32 v.second ++ o32 v.third
def oLoc (l : Location) : List UInt8 := o64 l.x_coordinate ++ o64 l.y_coordinate ++ o64 l.z_coordinate
def oAng (a : Orientation) : List UInt8 := o32 a.psi ++ o32 a.theta ++ o32 a.phi
def oClock (c : ClockTime) : List UInt8 := o32 c.hour ++ o32 c.time_past_hour
/-- fixed datum (6.2.37), supply quantity (6.2.86), shaft (7.6.4.2), two 32-bit numbers -/
def oFixed (d : FixedDatum) : List UInt8 := o32 d.datum_id ++ o32 d.datum_value
def oSupply (s : SupplyQuantity) : List UInt8 := oType s.supply_type ++ o32 s.quantity
def oShaft (s : Shaft) : List UInt8 := o16 s.current_rpm ++ o16 s.ordered_rpm ++ o32 s.rpm_rate_of_change
def oTwo (s : TwoF32) : List UInt8 := o32 s.first ++ o32 s.second
/-- the octets of the antenna pattern record of a transmitter: 40 for a beam, 0 for none -/
def antennaPatternOctets (x : Transmitter) : UInt16 := if x.antenna_pattern.isSome then 40 else 0

/-- variable parameter records (6.2.94): 16 octets each -/
def oParam : VariableParameter → List UInt8
  | .articulated p => o8 0 ++ o8 p.change_indicator ++ o16 p.attachment_id ++ o32 (p.type_class + p.type_metric)
      ++ o32 p.parameter_value ++ List.replicate 4 0
  | .attached p => o8 1 ++ o8 p.detached_indicator ++ o16 p.attachment_id ++ o32 p.parameter_type
      ++ oType p.attached_part_type
  | .separation p => o8 2 ++ o8 p.reason ++ o8 p.pre_entity_indicator ++ List.replicate 1 0 ++ oId p.parent_entity_id
      ++ List.replicate 2 0 ++ o16 p.station_name ++ o16 p.station_number
  | .entityType p => o8 3 ++ o8 p.change_indicator ++ oType p.entity_type ++ List.replicate 6 0
  | .entityAssociation p => o8 4 ++ o8 p.change_indicator ++ o8 p.association_status ++ o8 p.association_type
      ++ oId p.entity_id ++ o16 p.own_station_location ++ o8 p.physical_connection_type ++ o8 p.group_member_type
      ++ o16 p.group_number
  | .unspecified t v => o8 t ++ v
/-- descriptor records (6.2.19): 16 octets -/
def oDescriptor : DescriptorRecord → List UInt8
  | .munition t m => oType t ++ o16 m.warhead ++ o16 m.fuse ++ o16 m.quantity ++ o16 m.rate
  | .expendable t => oType t ++ List.replicate 8 0
  | .explosion t material force => oType t ++ o16 material ++ List.replicate 2 0 ++ o32 force
/-- emitter beams and systems (7.6.2) -/
def oTrack (t : TrackJam) : List UInt8 := oId t.entity_id ++ o8 t.emitter ++ o8 t.beam
def oBeam (b : Beam) : List UInt8 :=
  (o8 (UInt8.ofNat ((52 + 8 * b.track_jam_data.length) / 4)) ++ o8 b.number ++ o16 b.parameter_index)
    ++ (o32 b.parameter_data.frequency ++ o32 b.parameter_data.frequency_range ++ o32 b.parameter_data.effective_power
      ++ o32 b.parameter_data.pulse_repetition_frequency ++ o32 b.parameter_data.pulse_width)
    ++ (o32 b.beam_data.azimuth_center ++ o32 b.beam_data.azimuth_sweep ++ o32 b.beam_data.elevation_center
      ++ o32 b.beam_data.elevation_sweep ++ o32 b.beam_data.sweep_sync)
    ++ (o8 b.beam_function ++ o8 (UInt8.ofNat b.track_jam_data.length) ++ o8 b.high_density_track_jam ++ o8 b.beam_status)
    ++ (o8 b.jamming_technique.kind ++ o8 b.jamming_technique.category ++ o8 b.jamming_technique.subcategory
      ++ o8 b.jamming_technique.specific)
    ++ (b.track_jam_data.map oTrack).flatten
def oSystem (s : EmitterSystem) : List UInt8 :=
  (o8 (UInt8.ofNat ((20 + (s.beams.map fun b => 52 + 8 * b.track_jam_data.length).sum) / 4))
    ++ o8 (UInt8.ofNat s.beams.length) ++ List.replicate 2 0) ++ (o16 s.name ++ o8 s.function ++ o8 s.number)
    ++ oVec s.location ++ (s.beams.map oBeam).flatten

/-- The octets `v` are at offset `off` of `bs`. -/
def At (bs : List UInt8) (off : Nat) (v : List UInt8) : Prop := (bs.drop off).take v.length = v
/-- A layout: offsets from the start of the PDU and the octets there. -/
abbrev WireLayout := List (Nat × List UInt8)
/-- All fields of the layout are where it says. -/
def Laid (bs : List UInt8) : WireLayout → Prop
  | [] => True
  | (off, v) :: l => At bs off v ∧ Laid bs l
/-- The records `l`, each of `size` octets, follow one another from offset `off` on. -/
def LaidList (bs : List UInt8) (off size : Nat) (l : List (List UInt8)) : Prop :=
  ∀ i (h : i < l.length), l[i].length = size ∧ At bs (off + size * i) l[i]

/-! ## Lemmas -/

theorem at_append {a b v : List UInt8} (k : Nat) (h : At b k v) : At (a ++ b) (a.length + k) v := by
  unfold At at h ⊢
  rw [List.drop_append, List.drop_eq_nil_of_le (Nat.le_add_right _ _), Nat.add_sub_cancel_left]
  exact h

theorem at_skip {bs a b v : List UInt8} (k n : Nat) (e : bs = a ++ b) (ha : a.length = k) (h : At b n v) :
    At bs (k + n) v := by
  rw [e, ← ha]; exact at_append n h

theorem at_here {v b : List UInt8} : At (v ++ b) 0 v := by
  unfold At; simp

theorem at_pdu {h : PduHeader} {b : Body} {v : List UInt8} (k : Nat)
    (e : At (b.ser h.protocol_version) k v) : At (Pdu.ser ⟨h, b⟩) (12 + k) v := by
  have := at_append (a := h.ser) k e
  rwa [PduHeader.length_ser] at this

theorem len_pdu {h : PduHeader} {b : Body} (k : Nat) (e : (b.ser h.protocol_version).length = k) :
    (Pdu.ser ⟨h, b⟩).length = 12 + k := by
  unfold Pdu.ser
  rw [List.length_append, PduHeader.length_ser, e]

theorem at_flat {l : List (List UInt8)} {size : Nat} (hs : ∀ a ∈ l, a.length = size) (r : List UInt8) :
    ∀ i (h : i < l.length), At (l.flatten ++ r) (size * i) l[i] := by
  induction l with
  | nil => intro i h; exact absurd h (by simp)
  | cons a l ih =>
    intro i h
    have ha := hs a (by simp)
    cases i with
    | zero =>
      unfold At
      simp
    | succ i =>
      have := at_append (a := a) _ (ih (fun b hb => hs b (by simp [hb])) i (by simpa using h))
      rw [ha] at this
      simpa [Nat.mul_succ, Nat.add_comm, List.append_assoc] using this

theorem list_pdu {α : Type} {h : PduHeader} {b : Body} {l : List α} {o : α → List UInt8} {r : List UInt8}
    (k size : Nat) (hs : ∀ x ∈ l, (o x).length = size)
    (e : (b.ser h.protocol_version).drop k = serList o l ++ r) :
    LaidList (Pdu.ser ⟨h, b⟩) (12 + k) size (l.map o) := by
  intro i hi
  have hs' : ∀ a ∈ l.map o, a.length = size := by simpa using hs
  refine ⟨hs' _ (List.getElem_mem hi), ?_⟩
  have h1 := at_flat (l := l.map o) (size := size) hs' r i hi
  have h3 := at_pdu (h := h) (b := b) (v := (l.map o)[i]) (k + size * i) (by
    unfold At at h1 ⊢
    rw [← List.drop_drop, e]
    simpa [serList, List.flatMap_def] using h1)
  simpa [Nat.add_assoc] using h3

theorem last_pdu {α : Type} {h : PduHeader} {b : Body} {l : List α} {o : α → List UInt8}
    (k size : Nat) (hs : ∀ x ∈ l, (o x).length = size)
    (e : (b.ser h.protocol_version).drop k = serList o l) :
    LaidList (Pdu.ser ⟨h, b⟩) (12 + k) size (l.map o) :=
  list_pdu (r := []) k size hs (by rw [e, List.append_nil])

/-! ## Theorems -/

/-- IEEE 1278.1 layout of EntityState (type 1) -/
def entityStateLayout (x : EntityState) : WireLayout :=
  [(12, oId x.entity_id), (18, o8 x.force_id), (19, o8 (UInt8.ofNat x.variable_parameters.length)), (20, oType x.entity_type), (28, oType x.alternative_entity_type), (36, oVec x.entity_linear_velocity), (48, oLoc x.entity_location), (72, oAng x.entity_orientation), (84, o32 x.entity_appearance.raw), (88, o8 x.dead_reckoning_parameters.algorithm)]
/-- **C50**, EntityState (type 1). -/
theorem C50_entityState_layout (h : PduHeader) (x : EntityState) :
    Laid (Pdu.ser ⟨h, .entityState x⟩) (entityStateLayout x) :=
  ⟨at_pdu 0 (by krfl), at_pdu 6 (by krfl), at_pdu 7 (by krfl), at_pdu 8 (by krfl), at_pdu 16 (by krfl), at_pdu 24 (by krfl), at_pdu 36 (by krfl), at_pdu 60 (by krfl), at_pdu 72 (by krfl), at_pdu 76 (by krfl), trivial⟩

/-- IEEE 1278.1 layout of Fire (type 2) -/
def fireLayout (x : Fire) : WireLayout :=
  [(12, oId x.firing_entity_id), (18, oId x.target_entity_id), (24, oId x.entity_id), (30, oEvent x.event_id), (36, o32 x.fire_mission_index), (40, oLoc x.location_in_world)]
/-- **C50**, Fire (type 2). -/
theorem C50_fire_layout (h : PduHeader) (x : Fire) :
    Laid (Pdu.ser ⟨h, .fire x⟩) (fireLayout x) :=
  ⟨at_pdu 0 (by krfl), at_pdu 6 (by krfl), at_pdu 12 (by krfl), at_pdu 18 (by krfl), at_pdu 24 (by krfl), at_pdu 28 (by krfl), trivial⟩

/-- IEEE 1278.1 layout of Detonation (type 3) -/
def detonationLayout (x : Detonation) : WireLayout :=
  [(12, oId x.source_entity_id), (18, oId x.target_entity_id), (24, oId x.exploding_entity_id), (30, oEvent x.event_id), (36, oVec x.velocity), (48, oLoc x.location_in_world_coordinates)]
/-- **C50**, Detonation (type 3). -/
theorem C50_detonation_layout (h : PduHeader) (x : Detonation) :
    Laid (Pdu.ser ⟨h, .detonation x⟩) (detonationLayout x) :=
  ⟨at_pdu 0 (by krfl), at_pdu 6 (by krfl), at_pdu 12 (by krfl), at_pdu 18 (by krfl), at_pdu 24 (by krfl), at_pdu 36 (by krfl), trivial⟩

/-- IEEE 1278.1 layout of Collision (type 4) -/
def collisionLayout (x : Collision) : WireLayout :=
  [(12, oId x.issuing_entity_id), (18, oId x.colliding_entity_id), (24, oEvent x.event_id), (30, o8 x.collision_type), (31, List.replicate 1 0), (32, oVec x.velocity), (44, o32 x.mass), (48, oVec x.location)]
/-- **C50**, Collision (type 4). -/
theorem C50_collision_layout (h : PduHeader) (x : Collision) :
    Laid (Pdu.ser ⟨h, .collision x⟩) (collisionLayout x) ∧ (Pdu.ser ⟨h, .collision x⟩).length = 60 :=
  ⟨⟨at_pdu 0 (by krfl), at_pdu 6 (by krfl), at_pdu 12 (by krfl), at_pdu 18 (by krfl), at_pdu 19 (by krfl), at_pdu 20 (by krfl), at_pdu 32 (by krfl), at_pdu 36 (by krfl), trivial⟩, len_pdu 48 (by krfl)⟩

/-- IEEE 1278.1 layout of ServiceRequest (type 5) -/
def serviceRequestLayout (x : ServiceRequest) : WireLayout :=
  [(12, oId x.requesting_id), (18, oId x.servicing_id), (24, o8 x.service_type_requested), (25, o8 (UInt8.ofNat x.supplies.length)), (26, List.replicate 2 0)]
/-- **C50**, ServiceRequest (type 5). -/
theorem C50_serviceRequest_layout (h : PduHeader) (x : ServiceRequest) :
    Laid (Pdu.ser ⟨h, .serviceRequest x⟩) (serviceRequestLayout x) ∧
      LaidList (Pdu.ser ⟨h, .serviceRequest x⟩) 28 12 (x.supplies.map oSupply) :=
  ⟨⟨at_pdu 0 (by krfl), at_pdu 6 (by krfl), at_pdu 12 (by krfl), at_pdu 13 (by krfl), at_pdu 14 (by krfl), trivial⟩, last_pdu 16 12 (fun _ _ => rfl) (by krfl)⟩

/-- IEEE 1278.1 layout of ResupplyOffer (type 6) -/
def resupplyOfferLayout (x : ResupplyOffer) : WireLayout :=
  [(12, oId x.requesting_id), (18, oId x.servicing_id), (24, o8 (UInt8.ofNat x.supplies.length)), (25, List.replicate 3 0)]
/-- **C50**, ResupplyOffer (type 6). -/
theorem C50_resupplyOffer_layout (h : PduHeader) (x : ResupplyOffer) :
    Laid (Pdu.ser ⟨h, .resupplyOffer x⟩) (resupplyOfferLayout x) ∧
      LaidList (Pdu.ser ⟨h, .resupplyOffer x⟩) 28 12 (x.supplies.map oSupply) :=
  ⟨⟨at_pdu 0 (by krfl), at_pdu 6 (by krfl), at_pdu 12 (by krfl), at_pdu 13 (by krfl), trivial⟩, last_pdu 16 12 (fun _ _ => rfl) (by krfl)⟩

/-- IEEE 1278.1 layout of ResupplyReceived (type 7) -/
def resupplyReceivedLayout (x : ResupplyReceived) : WireLayout :=
  [(12, oId x.requesting_id), (18, oId x.servicing_id), (24, o8 (UInt8.ofNat x.supplies.length)), (25, List.replicate 3 0)]
/-- **C50**, ResupplyReceived (type 7). -/
theorem C50_resupplyReceived_layout (h : PduHeader) (x : ResupplyReceived) :
    Laid (Pdu.ser ⟨h, .resupplyReceived x⟩) (resupplyReceivedLayout x) ∧
      LaidList (Pdu.ser ⟨h, .resupplyReceived x⟩) 28 12 (x.supplies.map oSupply) :=
  ⟨⟨at_pdu 0 (by krfl), at_pdu 6 (by krfl), at_pdu 12 (by krfl), at_pdu 13 (by krfl), trivial⟩, last_pdu 16 12 (fun _ _ => rfl) (by krfl)⟩

/-- IEEE 1278.1 layout of ResupplyCancel (type 8) -/
def resupplyCancelLayout (x : ResupplyCancel) : WireLayout :=
  [(12, oId x.requesting_id), (18, oId x.servicing_id)]
/-- **C50**, ResupplyCancel (type 8). -/
theorem C50_resupplyCancel_layout (h : PduHeader) (x : ResupplyCancel) :
    Laid (Pdu.ser ⟨h, .resupplyCancel x⟩) (resupplyCancelLayout x) ∧ (Pdu.ser ⟨h, .resupplyCancel x⟩).length = 24 :=
  ⟨⟨at_pdu 0 (by krfl), at_pdu 6 (by krfl), trivial⟩, len_pdu 12 (by krfl)⟩

/-- IEEE 1278.1 layout of RepairComplete (type 9) -/
def repairCompleteLayout (x : RepairComplete) : WireLayout :=
  [(12, oId x.receiving_id), (18, oId x.repairing_id), (24, o16 x.repair), (26, List.replicate 2 0)]
/-- **C50**, RepairComplete (type 9). -/
theorem C50_repairComplete_layout (h : PduHeader) (x : RepairComplete) :
    Laid (Pdu.ser ⟨h, .repairComplete x⟩) (repairCompleteLayout x) ∧ (Pdu.ser ⟨h, .repairComplete x⟩).length = 28 :=
  ⟨⟨at_pdu 0 (by krfl), at_pdu 6 (by krfl), at_pdu 12 (by krfl), at_pdu 14 (by krfl), trivial⟩, len_pdu 16 (by krfl)⟩

/-- IEEE 1278.1 layout of RepairResponse (type 10) -/
def repairResponseLayout (x : RepairResponse) : WireLayout :=
  [(12, oId x.receiving_id), (18, oId x.repairing_id), (24, o8 x.repair_result), (25, List.replicate 3 0)]
/-- **C50**, RepairResponse (type 10). -/
theorem C50_repairResponse_layout (h : PduHeader) (x : RepairResponse) :
    Laid (Pdu.ser ⟨h, .repairResponse x⟩) (repairResponseLayout x) ∧ (Pdu.ser ⟨h, .repairResponse x⟩).length = 28 :=
  ⟨⟨at_pdu 0 (by krfl), at_pdu 6 (by krfl), at_pdu 12 (by krfl), at_pdu 13 (by krfl), trivial⟩, len_pdu 16 (by krfl)⟩

/-- IEEE 1278.1 layout of CreateEntity (type 11) -/
def createEntityLayout (x : CreateEntity) : WireLayout :=
  [(12, oId x.originating_id), (18, oId x.receiving_id), (24, o32 x.request_id)]
/-- **C50**, CreateEntity (type 11). -/
theorem C50_createEntity_layout (h : PduHeader) (x : CreateEntity) :
    Laid (Pdu.ser ⟨h, .createEntity x⟩) (createEntityLayout x) ∧ (Pdu.ser ⟨h, .createEntity x⟩).length = 28 :=
  ⟨⟨at_pdu 0 (by krfl), at_pdu 6 (by krfl), at_pdu 12 (by krfl), trivial⟩, len_pdu 16 (by krfl)⟩

/-- IEEE 1278.1 layout of RemoveEntity (type 12) -/
def removeEntityLayout (x : RemoveEntity) : WireLayout :=
  [(12, oId x.originating_id), (18, oId x.receiving_id), (24, o32 x.request_id)]
/-- **C50**, RemoveEntity (type 12). -/
theorem C50_removeEntity_layout (h : PduHeader) (x : RemoveEntity) :
    Laid (Pdu.ser ⟨h, .removeEntity x⟩) (removeEntityLayout x) ∧ (Pdu.ser ⟨h, .removeEntity x⟩).length = 28 :=
  ⟨⟨at_pdu 0 (by krfl), at_pdu 6 (by krfl), at_pdu 12 (by krfl), trivial⟩, len_pdu 16 (by krfl)⟩

/-- IEEE 1278.1 layout of StartResume (type 13) -/
def startResumeLayout (x : StartResume) : WireLayout :=
  [(12, oId x.originating_id), (18, oId x.receiving_id), (24, oClock x.real_world_time), (32, oClock x.simulation_time), (40, o32 x.request_id)]
/-- **C50**, StartResume (type 13). -/
theorem C50_startResume_layout (h : PduHeader) (x : StartResume) :
    Laid (Pdu.ser ⟨h, .startResume x⟩) (startResumeLayout x) ∧ (Pdu.ser ⟨h, .startResume x⟩).length = 44 :=
  ⟨⟨at_pdu 0 (by krfl), at_pdu 6 (by krfl), at_pdu 12 (by krfl), at_pdu 20 (by krfl), at_pdu 28 (by krfl), trivial⟩, len_pdu 32 (by krfl)⟩

/-- IEEE 1278.1 layout of StopFreeze (type 14) -/
def stopFreezeLayout (x : StopFreeze) : WireLayout :=
  [(12, oId x.originating_id), (18, oId x.receiving_id), (24, oClock x.real_world_time), (32, o8 x.reason), (33, o8 x.frozen_behavior), (34, List.replicate 2 0), (36, o32 x.request_id)]
/-- **C50**, StopFreeze (type 14). -/
theorem C50_stopFreeze_layout (h : PduHeader) (x : StopFreeze) :
    Laid (Pdu.ser ⟨h, .stopFreeze x⟩) (stopFreezeLayout x) ∧ (Pdu.ser ⟨h, .stopFreeze x⟩).length = 40 :=
  ⟨⟨at_pdu 0 (by krfl), at_pdu 6 (by krfl), at_pdu 12 (by krfl), at_pdu 20 (by krfl), at_pdu 21 (by krfl), at_pdu 22 (by krfl), at_pdu 24 (by krfl), trivial⟩, len_pdu 28 (by krfl)⟩

/-- IEEE 1278.1 layout of Acknowledge (type 15) -/
def acknowledgeLayout (x : Acknowledge) : WireLayout :=
  [(12, oId x.originating_id), (18, oId x.receiving_id), (24, o16 x.acknowledge_flag), (26, o16 x.response_flag), (28, o32 x.request_id)]
/-- **C50**, Acknowledge (type 15). -/
theorem C50_acknowledge_layout (h : PduHeader) (x : Acknowledge) :
    Laid (Pdu.ser ⟨h, .acknowledge x⟩) (acknowledgeLayout x) ∧ (Pdu.ser ⟨h, .acknowledge x⟩).length = 32 :=
  ⟨⟨at_pdu 0 (by krfl), at_pdu 6 (by krfl), at_pdu 12 (by krfl), at_pdu 14 (by krfl), at_pdu 16 (by krfl), trivial⟩, len_pdu 20 (by krfl)⟩

/-- IEEE 1278.1 layout of ActionRequest (type 16) -/
def actionRequestLayout (x : ActionRequest) : WireLayout :=
  [(12, oId x.originating_id), (18, oId x.receiving_id), (24, o32 x.request_id), (28, o32 x.action_id), (32, o32 (UInt32.ofNat x.fixed_datum_records.length)), (36, o32 (UInt32.ofNat x.variable_datum_records.length))]
/-- **C50**, ActionRequest (type 16). -/
theorem C50_actionRequest_layout (h : PduHeader) (x : ActionRequest) :
    Laid (Pdu.ser ⟨h, .actionRequest x⟩) (actionRequestLayout x) ∧
      LaidList (Pdu.ser ⟨h, .actionRequest x⟩) 40 8 (x.fixed_datum_records.map oFixed) :=
  ⟨⟨at_pdu 0 (by krfl), at_pdu 6 (by krfl), at_pdu 12 (by krfl), at_pdu 16 (by krfl), at_pdu 20 (by krfl), at_pdu 24 (by krfl), trivial⟩, list_pdu (r := serList VariableDatum.ser x.variable_datum_records) 28 8 (fun _ _ => rfl) (by krfl)⟩

/-- IEEE 1278.1 layout of ActionResponse (type 17) -/
def actionResponseLayout (x : ActionResponse) : WireLayout :=
  [(12, oId x.originating_id), (18, oId x.receiving_id), (24, o32 x.request_id), (28, o32 x.request_status), (32, o32 (UInt32.ofNat x.fixed_datum_records.length)), (36, o32 (UInt32.ofNat x.variable_datum_records.length))]
/-- **C50**, ActionResponse (type 17). -/
theorem C50_actionResponse_layout (h : PduHeader) (x : ActionResponse) :
    Laid (Pdu.ser ⟨h, .actionResponse x⟩) (actionResponseLayout x) ∧
      LaidList (Pdu.ser ⟨h, .actionResponse x⟩) 40 8 (x.fixed_datum_records.map oFixed) :=
  ⟨⟨at_pdu 0 (by krfl), at_pdu 6 (by krfl), at_pdu 12 (by krfl), at_pdu 16 (by krfl), at_pdu 20 (by krfl), at_pdu 24 (by krfl), trivial⟩, list_pdu (r := serList VariableDatum.ser x.variable_datum_records) 28 8 (fun _ _ => rfl) (by krfl)⟩

/-- IEEE 1278.1 layout of DataQuery (type 18) -/
def dataQueryLayout (x : DataQuery) : WireLayout :=
  [(12, oId x.originating_id), (18, oId x.receiving_id), (24, o32 x.request_id), (28, o32 x.time_interval), (32, o32 (UInt32.ofNat x.fixed_datum_records.length)), (36, o32 (UInt32.ofNat x.variable_datum_records.length))]
/-- **C50**, DataQuery (type 18). -/
theorem C50_dataQuery_layout (h : PduHeader) (x : DataQuery) :
    Laid (Pdu.ser ⟨h, .dataQuery x⟩) (dataQueryLayout x) ∧
      LaidList (Pdu.ser ⟨h, .dataQuery x⟩) 40 4 (x.fixed_datum_records.map o32) :=
  ⟨⟨at_pdu 0 (by krfl), at_pdu 6 (by krfl), at_pdu 12 (by krfl), at_pdu 16 (by krfl), at_pdu 20 (by krfl), at_pdu 24 (by krfl), trivial⟩, list_pdu (r := serList e32 x.variable_datum_records) 28 4 (fun _ _ => rfl) (by krfl)⟩

/-- IEEE 1278.1 layout of SetData (type 19) -/
def setDataLayout (x : SetData) : WireLayout :=
  [(12, oId x.originating_id), (18, oId x.receiving_id), (24, o32 x.request_id), (28, List.replicate 4 0), (32, o32 (UInt32.ofNat x.fixed_datum_records.length)), (36, o32 (UInt32.ofNat x.variable_datum_records.length))]
/-- **C50**, SetData (type 19). -/
theorem C50_setData_layout (h : PduHeader) (x : SetData) :
    Laid (Pdu.ser ⟨h, .setData x⟩) (setDataLayout x) ∧
      LaidList (Pdu.ser ⟨h, .setData x⟩) 40 8 (x.fixed_datum_records.map oFixed) :=
  ⟨⟨at_pdu 0 (by krfl), at_pdu 6 (by krfl), at_pdu 12 (by krfl), at_pdu 16 (by krfl), at_pdu 20 (by krfl), at_pdu 24 (by krfl), trivial⟩, list_pdu (r := serList VariableDatum.ser x.variable_datum_records) 28 8 (fun _ _ => rfl) (by krfl)⟩

/-- IEEE 1278.1 layout of Data (type 20) -/
def dataLayout (x : Data) : WireLayout :=
  [(12, oId x.originating_id), (18, oId x.receiving_id), (24, o32 x.request_id), (28, List.replicate 4 0), (32, o32 (UInt32.ofNat x.fixed_datum_records.length)), (36, o32 (UInt32.ofNat x.variable_datum_records.length))]
/-- **C50**, Data (type 20). -/
theorem C50_data_layout (h : PduHeader) (x : Data) :
    Laid (Pdu.ser ⟨h, .data x⟩) (dataLayout x) ∧
      LaidList (Pdu.ser ⟨h, .data x⟩) 40 8 (x.fixed_datum_records.map oFixed) :=
  ⟨⟨at_pdu 0 (by krfl), at_pdu 6 (by krfl), at_pdu 12 (by krfl), at_pdu 16 (by krfl), at_pdu 20 (by krfl), at_pdu 24 (by krfl), trivial⟩, list_pdu (r := serList VariableDatum.ser x.variable_datum_records) 28 8 (fun _ _ => rfl) (by krfl)⟩

/-- IEEE 1278.1 layout of EventReport (type 21) -/
def eventReportLayout (x : EventReport) : WireLayout :=
  [(12, oId x.originating_id), (18, oId x.receiving_id), (24, o32 x.event_type), (28, List.replicate 4 0), (32, o32 (UInt32.ofNat x.fixed_datum_records.length)), (36, o32 (UInt32.ofNat x.variable_datum_records.length))]
/-- **C50**, EventReport (type 21). -/
theorem C50_eventReport_layout (h : PduHeader) (x : EventReport) :
    Laid (Pdu.ser ⟨h, .eventReport x⟩) (eventReportLayout x) ∧
      LaidList (Pdu.ser ⟨h, .eventReport x⟩) 40 8 (x.fixed_datum_records.map oFixed) :=
  ⟨⟨at_pdu 0 (by krfl), at_pdu 6 (by krfl), at_pdu 12 (by krfl), at_pdu 16 (by krfl), at_pdu 20 (by krfl), at_pdu 24 (by krfl), trivial⟩, list_pdu (r := serList VariableDatum.ser x.variable_datum_records) 28 8 (fun _ _ => rfl) (by krfl)⟩

/-- IEEE 1278.1 layout of Comment (type 22) -/
def commentLayout (x : Comment) : WireLayout :=
  [(12, oId x.originating_id), (18, oId x.receiving_id), (24, List.replicate 4 0), (28, o32 (UInt32.ofNat x.variable_datum_records.length))]
/-- **C50**, Comment (type 22). -/
theorem C50_comment_layout (h : PduHeader) (x : Comment) :
    Laid (Pdu.ser ⟨h, .comment x⟩) (commentLayout x) :=
  ⟨at_pdu 0 (by krfl), at_pdu 6 (by krfl), at_pdu 12 (by krfl), at_pdu 16 (by krfl), trivial⟩

/-- IEEE 1278.1 layout of ElectromagneticEmission (type 23) -/
def electromagneticEmissionLayout (x : ElectromagneticEmission) : WireLayout :=
  [(12, oId x.emitting_entity_id), (18, oEvent x.event_id), (24, o8 x.state_update_indicator), (25, o8 (UInt8.ofNat x.emitter_systems.length)), (26, List.replicate 2 0)]
/-- **C50**, ElectromagneticEmission (type 23). -/
theorem C50_electromagneticEmission_layout (h : PduHeader) (x : ElectromagneticEmission) :
    Laid (Pdu.ser ⟨h, .electromagneticEmission x⟩) (electromagneticEmissionLayout x) :=
  ⟨at_pdu 0 (by krfl), at_pdu 6 (by krfl), at_pdu 12 (by krfl), at_pdu 13 (by krfl), at_pdu 14 (by krfl), trivial⟩

/-- IEEE 1278.1 layout of Designator (type 24) -/
def designatorLayout (x : Designator) : WireLayout :=
  [(12, oId x.designating_entity_id), (18, o16 x.system_name), (20, oId x.designated_entity_id), (26, o16 x.code), (28, o32 x.power), (32, o32 x.wavelength), (36, oVec x.spot_wrt_designated_entity), (48, oLoc x.spot_location), (72, o8 x.dead_reckoning_algorithm), (73, List.replicate 3 0), (76, oVec x.linear_acceleration)]
/-- **C50**, Designator (type 24). -/
theorem C50_designator_layout (h : PduHeader) (x : Designator) :
    Laid (Pdu.ser ⟨h, .designator x⟩) (designatorLayout x) ∧ (Pdu.ser ⟨h, .designator x⟩).length = 88 :=
  ⟨⟨at_pdu 0 (by krfl), at_pdu 6 (by krfl), at_pdu 8 (by krfl), at_pdu 14 (by krfl), at_pdu 16 (by krfl), at_pdu 20 (by krfl), at_pdu 24 (by krfl), at_pdu 36 (by krfl), at_pdu 60 (by krfl), at_pdu 61 (by krfl), at_pdu 64 (by krfl), trivial⟩, len_pdu 76 (by krfl)⟩

/-- IEEE 1278.1 layout of Transmitter (type 25) -/
def transmitterLayout (x : Transmitter) : WireLayout :=
  [(12, oId x.radio_reference_id), (18, o16 x.radio_number), (20, oType x.radio_type), (28, o8 x.transmit_state), (29, o8 x.input_source), (30, o16 (UInt16.ofNat x.variable_transmitter_parameters.length)), (32, oLoc x.antenna_location), (56, oVec x.relative_antenna_location), (68, o16 x.antenna_pattern_type), (70, o16 (antennaPatternOctets x)), (72, o64 x.frequency), (80, o32 x.transmit_frequency_bandwidth), (84, o32 x.power)]
/-- **C50**, Transmitter (type 25). -/
theorem C50_transmitter_layout (h : PduHeader) (x : Transmitter) :
    Laid (Pdu.ser ⟨h, .transmitter x⟩) (transmitterLayout x) :=
  ⟨at_pdu 0 (by krfl), at_pdu 6 (by krfl), at_pdu 8 (by krfl), at_pdu 16 (by krfl), at_pdu 17 (by krfl), at_pdu 18 (by krfl), at_pdu 20 (by krfl), at_pdu 44 (by krfl), at_pdu 56 (by krfl), at_pdu 58 (by krfl), at_pdu 60 (by krfl), at_pdu 68 (by krfl), at_pdu 72 (by krfl), trivial⟩

/-- IEEE 1278.1 layout of Signal (type 26) -/
def signalLayout (x : Signal) : WireLayout :=
  [(12, oId x.radio_reference_id), (18, o16 x.radio_number), (22, o16 x.tdl_type), (24, o32 x.sample_rate), (28, o16 (UInt16.ofNat (x.data.length * 8))), (30, o16 x.samples)]
/-- **C50**, Signal (type 26). -/
theorem C50_signal_layout (h : PduHeader) (x : Signal) :
    Laid (Pdu.ser ⟨h, .signal x⟩) (signalLayout x) :=
  ⟨at_pdu 0 (by krfl), at_pdu 6 (by krfl), at_pdu 10 (by krfl), at_pdu 12 (by krfl), at_pdu 16 (by krfl), at_pdu 18 (by krfl), trivial⟩

/-- IEEE 1278.1 layout of Receiver (type 27) -/
def receiverLayout (x : Receiver) : WireLayout :=
  [(12, oId x.radio_reference_id), (18, o16 x.radio_number), (20, o16 x.receiver_state), (22, List.replicate 2 0), (24, o32 x.received_power), (28, oId x.transmitter_radio_reference_id), (34, o16 x.transmitter_radio_number)]
/-- **C50**, Receiver (type 27). -/
theorem C50_receiver_layout (h : PduHeader) (x : Receiver) :
    Laid (Pdu.ser ⟨h, .receiver x⟩) (receiverLayout x) ∧ (Pdu.ser ⟨h, .receiver x⟩).length = 36 :=
  ⟨⟨at_pdu 0 (by krfl), at_pdu 6 (by krfl), at_pdu 8 (by krfl), at_pdu 10 (by krfl), at_pdu 12 (by krfl), at_pdu 16 (by krfl), at_pdu 22 (by krfl), trivial⟩, len_pdu 24 (by krfl)⟩

/-- IEEE 1278.1 layout of Iff (type 28) -/
def iffLayout (x : Iff) : WireLayout :=
  [(12, oId x.emitting_entity_id), (18, oEvent x.event_id), (24, oVec x.relative_antenna_location), (36, o16 x.system_id.system_type), (38, o16 x.system_id.system_name), (40, o8 x.system_id.system_mode), (42, o8 x.system_designator), (43, o8 x.system_specific_data), (45, o8 x.fundamental_operational_data.data_field_1), (47, o8 x.fundamental_operational_data.data_field_2), (48, o16 x.fundamental_operational_data.parameter_1), (50, o16 x.fundamental_operational_data.parameter_2), (52, o16 x.fundamental_operational_data.parameter_3), (54, o16 x.fundamental_operational_data.parameter_4), (56, o16 x.fundamental_operational_data.parameter_5), (58, o16 x.fundamental_operational_data.parameter_6)]
/-- **C50**, Iff (type 28). -/
theorem C50_iff_layout (h : PduHeader) (x : Iff) :
    Laid (Pdu.ser ⟨h, .iff x⟩) (iffLayout x) :=
  ⟨at_pdu 0 (by krfl), at_pdu 6 (by krfl), at_pdu 12 (by krfl), at_pdu 24 (by krfl), at_pdu 26 (by krfl), at_pdu 28 (by krfl), at_pdu 30 (by krfl), at_pdu 31 (by krfl), at_pdu 33 (by krfl), at_pdu 35 (by krfl), at_pdu 36 (by krfl), at_pdu 38 (by krfl), at_pdu 40 (by krfl), at_pdu 42 (by krfl), at_pdu 44 (by krfl), at_pdu 46 (by krfl), trivial⟩

/-- IEEE 1278.1 layout of UnderwaterAcoustic (type 29) -/
def underwaterAcousticLayout (x : UnderwaterAcoustic) : WireLayout :=
  [(12, oId x.emitting_entity_id), (18, oEvent x.event_id), (24, o8 x.state_change_update_indicator), (25, List.replicate 1 0), (26, o16 x.passive_parameter_index), (29, o8 (UInt8.ofNat x.shafts.length)), (30, o8 (UInt8.ofNat x.apas.length)), (31, o8 (UInt8.ofNat x.emitter_systems.length))]
/-- **C50**, UnderwaterAcoustic (type 29). -/
theorem C50_underwaterAcoustic_layout (h : PduHeader) (x : UnderwaterAcoustic) :
    Laid (Pdu.ser ⟨h, .underwaterAcoustic x⟩) (underwaterAcousticLayout x) :=
  ⟨at_pdu 0 (by krfl), at_pdu 6 (by krfl), at_pdu 12 (by krfl), at_pdu 13 (by krfl), at_pdu 14 (by krfl), at_pdu 17 (by krfl), at_pdu 18 (by krfl), at_pdu 19 (by krfl), trivial⟩

/-- IEEE 1278.1 layout of SEES (type 30) -/
def seesLayout (x : SEES) : WireLayout :=
  [(12, oId x.originating_entity_id), (18, o16 x.infrared_signature_representation_index), (20, o16 x.acoustic_signature_representation_index), (22, o16 x.radar_cross_section_representation_index), (24, o16 (UInt16.ofNat x.propulsion_systems.length)), (26, o16 (UInt16.ofNat x.vectoring_nozzle_systems.length))]
/-- **C50**, SEES (type 30). -/
theorem C50_sees_layout (h : PduHeader) (x : SEES) :
    Laid (Pdu.ser ⟨h, .sees x⟩) (seesLayout x) ∧
      LaidList (Pdu.ser ⟨h, .sees x⟩) 28 8 (x.propulsion_systems.map oTwo) :=
  ⟨⟨at_pdu 0 (by krfl), at_pdu 6 (by krfl), at_pdu 8 (by krfl), at_pdu 10 (by krfl), at_pdu 12 (by krfl), at_pdu 14 (by krfl), trivial⟩, list_pdu (r := serList TwoF32.ser x.vectoring_nozzle_systems) 16 8 (fun _ _ => rfl) (by krfl)⟩

/-- IEEE 1278.1 layout of AggregateState (type 33) -/
def aggregateStateLayout (x : AggregateState) : WireLayout :=
  [(12, oId x.aggregate_id), (18, o8 x.force_id), (19, o8 x.aggregate_state), (20, oAggType x.aggregate_type), (28, o32 x.formation), (32, o8 x.aggregate_marking.marking_character_set)]
/-- **C50**, AggregateState (type 33). -/
theorem C50_aggregateState_layout (h : PduHeader) (x : AggregateState) :
    Laid (Pdu.ser ⟨h, .aggregateState x⟩) (aggregateStateLayout x) :=
  ⟨at_pdu 0 (by krfl), at_pdu 6 (by krfl), at_pdu 7 (by krfl), at_pdu 8 (by krfl), at_pdu 16 (by krfl), at_pdu 20 (by krfl), trivial⟩

/-- IEEE 1278.1 layout of IsGroupOf (type 34) -/
def isGroupOfLayout (x : IsGroupOf) : WireLayout :=
  [(12, oId x.group_id), (18, o8 x.grouped_entity_category), (19, o8 (UInt8.ofNat x.descriptions.length)), (20, List.replicate 4 0), (24, o64 x.latitude), (32, o64 x.longitude)]
/-- **C50**, IsGroupOf (type 34). -/
theorem C50_isGroupOf_layout (h : PduHeader) (x : IsGroupOf) :
    Laid (Pdu.ser ⟨h, .isGroupOf x⟩) (isGroupOfLayout x) :=
  ⟨at_pdu 0 (by krfl), at_pdu 6 (by krfl), at_pdu 7 (by krfl), at_pdu 8 (by krfl), at_pdu 12 (by krfl), at_pdu 20 (by krfl), trivial⟩

/-- IEEE 1278.1 layout of TransferOwnership (type 35) -/
def transferOwnershipLayout (x : TransferOwnership) : WireLayout :=
  [(12, oId x.originating_entity_id), (18, oId x.receiving_entity_id), (24, o32 x.request_id), (28, o8 x.required_reliability_service), (29, o8 x.transfer_type), (30, oId x.transfer_entity_id), (36, o32 (UInt32.ofNat x.record_specification.length))]
/-- **C50**, TransferOwnership (type 35). -/
theorem C50_transferOwnership_layout (h : PduHeader) (x : TransferOwnership) :
    Laid (Pdu.ser ⟨h, .transferOwnership x⟩) (transferOwnershipLayout x) :=
  ⟨at_pdu 0 (by krfl), at_pdu 6 (by krfl), at_pdu 12 (by krfl), at_pdu 16 (by krfl), at_pdu 17 (by krfl), at_pdu 18 (by krfl), at_pdu 24 (by krfl), trivial⟩

/-- IEEE 1278.1 layout of IsPartOf (type 36) -/
def isPartOfLayout (x : IsPartOf) : WireLayout :=
  [(12, oId x.originating_entity_id), (18, oId x.receiving_entity_id), (24, o16 x.nature), (26, o16 x.position), (28, oVec x.part_location), (40, o16 x.station_name), (42, o16 x.station_number)]
/-- **C50**, IsPartOf (type 36). -/
theorem C50_isPartOf_layout (h : PduHeader) (x : IsPartOf) :
    Laid (Pdu.ser ⟨h, .isPartOf x⟩) (isPartOfLayout x) :=
  ⟨at_pdu 0 (by krfl), at_pdu 6 (by krfl), at_pdu 12 (by krfl), at_pdu 14 (by krfl), at_pdu 16 (by krfl), at_pdu 28 (by krfl), at_pdu 30 (by krfl), trivial⟩

/-- IEEE 1278.1 layout of CreateEntityR (type 51) -/
def createEntityRLayout (x : CreateEntityR) : WireLayout :=
  [(12, oId x.originating_id), (18, oId x.receiving_id), (24, o8 x.required_reliability_service), (25, List.replicate 3 0), (28, o32 x.request_id)]
/-- **C50**, CreateEntityR (type 51). -/
theorem C50_createEntityR_layout (h : PduHeader) (x : CreateEntityR) :
    Laid (Pdu.ser ⟨h, .createEntityR x⟩) (createEntityRLayout x) ∧ (Pdu.ser ⟨h, .createEntityR x⟩).length = 32 :=
  ⟨⟨at_pdu 0 (by krfl), at_pdu 6 (by krfl), at_pdu 12 (by krfl), at_pdu 13 (by krfl), at_pdu 16 (by krfl), trivial⟩, len_pdu 20 (by krfl)⟩

/-- IEEE 1278.1 layout of RemoveEntityR (type 52) -/
def removeEntityRLayout (x : RemoveEntityR) : WireLayout :=
  [(12, oId x.originating_id), (18, oId x.receiving_id), (24, o8 x.required_reliability_service), (25, List.replicate 3 0), (28, o32 x.request_id)]
/-- **C50**, RemoveEntityR (type 52). -/
theorem C50_removeEntityR_layout (h : PduHeader) (x : RemoveEntityR) :
    Laid (Pdu.ser ⟨h, .removeEntityR x⟩) (removeEntityRLayout x) ∧ (Pdu.ser ⟨h, .removeEntityR x⟩).length = 32 :=
  ⟨⟨at_pdu 0 (by krfl), at_pdu 6 (by krfl), at_pdu 12 (by krfl), at_pdu 13 (by krfl), at_pdu 16 (by krfl), trivial⟩, len_pdu 20 (by krfl)⟩

/-- IEEE 1278.1 layout of StartResumeR (type 53) -/
def startResumeRLayout (x : StartResumeR) : WireLayout :=
  [(12, oId x.originating_id), (18, oId x.receiving_id), (24, oClock x.real_world_time), (32, oClock x.simulation_time), (40, o8 x.required_reliability_service), (41, List.replicate 3 0), (44, o32 x.request_id)]
/-- **C50**, StartResumeR (type 53). -/
theorem C50_startResumeR_layout (h : PduHeader) (x : StartResumeR) :
    Laid (Pdu.ser ⟨h, .startResumeR x⟩) (startResumeRLayout x) ∧ (Pdu.ser ⟨h, .startResumeR x⟩).length = 48 :=
  ⟨⟨at_pdu 0 (by krfl), at_pdu 6 (by krfl), at_pdu 12 (by krfl), at_pdu 20 (by krfl), at_pdu 28 (by krfl), at_pdu 29 (by krfl), at_pdu 32 (by krfl), trivial⟩, len_pdu 36 (by krfl)⟩

/-- IEEE 1278.1 layout of StopFreezeR (type 54) -/
def stopFreezeRLayout (x : StopFreezeR) : WireLayout :=
  [(12, oId x.originating_id), (18, oId x.receiving_id), (24, oClock x.real_world_time), (32, o8 x.reason), (33, o8 x.frozen_behavior), (34, o8 x.required_reliability_service), (35, List.replicate 1 0), (36, o32 x.request_id)]
/-- **C50**, StopFreezeR (type 54). -/
theorem C50_stopFreezeR_layout (h : PduHeader) (x : StopFreezeR) :
    Laid (Pdu.ser ⟨h, .stopFreezeR x⟩) (stopFreezeRLayout x) ∧ (Pdu.ser ⟨h, .stopFreezeR x⟩).length = 40 :=
  ⟨⟨at_pdu 0 (by krfl), at_pdu 6 (by krfl), at_pdu 12 (by krfl), at_pdu 20 (by krfl), at_pdu 21 (by krfl), at_pdu 22 (by krfl), at_pdu 23 (by krfl), at_pdu 24 (by krfl), trivial⟩, len_pdu 28 (by krfl)⟩

/-- IEEE 1278.1 layout of AcknowledgeR (type 55) -/
def acknowledgeRLayout (x : AcknowledgeR) : WireLayout :=
  [(12, oId x.originating_id), (18, oId x.receiving_id), (24, o16 x.acknowledge_flag), (26, o16 x.response_flag), (28, o32 x.request_id)]
/-- **C50**, AcknowledgeR (type 55). -/
theorem C50_acknowledgeR_layout (h : PduHeader) (x : AcknowledgeR) :
    Laid (Pdu.ser ⟨h, .acknowledgeR x⟩) (acknowledgeRLayout x) ∧ (Pdu.ser ⟨h, .acknowledgeR x⟩).length = 32 :=
  ⟨⟨at_pdu 0 (by krfl), at_pdu 6 (by krfl), at_pdu 12 (by krfl), at_pdu 14 (by krfl), at_pdu 16 (by krfl), trivial⟩, len_pdu 20 (by krfl)⟩

/-- IEEE 1278.1 layout of ActionRequestR (type 56) -/
def actionRequestRLayout (x : ActionRequestR) : WireLayout :=
  [(12, oId x.originating_id), (18, oId x.receiving_id), (24, o8 x.required_reliability_service), (25, List.replicate 3 0), (28, o32 x.request_id), (32, o32 x.action_id), (36, List.replicate 4 0), (40, o32 (UInt32.ofNat x.fixed_datum_records.length)), (44, o32 (UInt32.ofNat x.variable_datum_records.length))]
/-- **C50**, ActionRequestR (type 56). The table has the four padding octets the code writes behind the action id. -/
theorem C50_actionRequestR_layout (h : PduHeader) (x : ActionRequestR) :
    Laid (Pdu.ser ⟨h, .actionRequestR x⟩) (actionRequestRLayout x) ∧
      LaidList (Pdu.ser ⟨h, .actionRequestR x⟩) 48 8 (x.fixed_datum_records.map oFixed) :=
  ⟨⟨at_pdu 0 (by krfl), at_pdu 6 (by krfl), at_pdu 12 (by krfl), at_pdu 13 (by krfl), at_pdu 16 (by krfl), at_pdu 20 (by krfl), at_pdu 24 (by krfl), at_pdu 28 (by krfl), at_pdu 32 (by krfl), trivial⟩, list_pdu (r := serList VariableDatum.ser x.variable_datum_records) 36 8 (fun _ _ => rfl) (by krfl)⟩

/-- IEEE 1278.1 layout of ActionResponseR (type 57) -/
def actionResponseRLayout (x : ActionResponseR) : WireLayout :=
  [(12, oId x.originating_id), (18, oId x.receiving_id), (24, o32 x.request_id), (28, o32 x.request_status), (32, o32 (UInt32.ofNat x.fixed_datum_records.length)), (36, o32 (UInt32.ofNat x.variable_datum_records.length))]
/-- **C50**, ActionResponseR (type 57). -/
theorem C50_actionResponseR_layout (h : PduHeader) (x : ActionResponseR) :
    Laid (Pdu.ser ⟨h, .actionResponseR x⟩) (actionResponseRLayout x) ∧
      LaidList (Pdu.ser ⟨h, .actionResponseR x⟩) 40 8 (x.fixed_datum_records.map oFixed) :=
  ⟨⟨at_pdu 0 (by krfl), at_pdu 6 (by krfl), at_pdu 12 (by krfl), at_pdu 16 (by krfl), at_pdu 20 (by krfl), at_pdu 24 (by krfl), trivial⟩, list_pdu (r := serList VariableDatum.ser x.variable_datum_records) 28 8 (fun _ _ => rfl) (by krfl)⟩

/-- IEEE 1278.1 layout of DataQueryR (type 58) -/
def dataQueryRLayout (x : DataQueryR) : WireLayout :=
  [(12, oId x.originating_id), (18, oId x.receiving_id), (24, o8 x.required_reliability_service), (25, List.replicate 3 0), (28, o32 x.request_id), (32, o32 x.time_interval), (36, o32 (UInt32.ofNat x.fixed_datum_records.length)), (40, o32 (UInt32.ofNat x.variable_datum_records.length))]
/-- **C50**, DataQueryR (type 58). -/
theorem C50_dataQueryR_layout (h : PduHeader) (x : DataQueryR) :
    Laid (Pdu.ser ⟨h, .dataQueryR x⟩) (dataQueryRLayout x) ∧
      LaidList (Pdu.ser ⟨h, .dataQueryR x⟩) 44 4 (x.fixed_datum_records.map o32) :=
  ⟨⟨at_pdu 0 (by krfl), at_pdu 6 (by krfl), at_pdu 12 (by krfl), at_pdu 13 (by krfl), at_pdu 16 (by krfl), at_pdu 20 (by krfl), at_pdu 24 (by krfl), at_pdu 28 (by krfl), trivial⟩, list_pdu (r := serList e32 x.variable_datum_records) 32 4 (fun _ _ => rfl) (by krfl)⟩

/-- IEEE 1278.1 layout of SetDataR (type 59) -/
def setDataRLayout (x : SetDataR) : WireLayout :=
  [(12, oId x.originating_id), (18, oId x.receiving_id), (24, o8 x.required_reliability_service), (25, List.replicate 3 0), (28, o32 x.request_id), (32, o32 (UInt32.ofNat x.fixed_datum_records.length)), (36, o32 (UInt32.ofNat x.variable_datum_records.length))]
/-- **C50**, SetDataR (type 59). -/
theorem C50_setDataR_layout (h : PduHeader) (x : SetDataR) :
    Laid (Pdu.ser ⟨h, .setDataR x⟩) (setDataRLayout x) ∧
      LaidList (Pdu.ser ⟨h, .setDataR x⟩) 40 8 (x.fixed_datum_records.map oFixed) :=
  ⟨⟨at_pdu 0 (by krfl), at_pdu 6 (by krfl), at_pdu 12 (by krfl), at_pdu 13 (by krfl), at_pdu 16 (by krfl), at_pdu 20 (by krfl), at_pdu 24 (by krfl), trivial⟩, list_pdu (r := serList VariableDatum.ser x.variable_datum_records) 28 8 (fun _ _ => rfl) (by krfl)⟩

/-- IEEE 1278.1 layout of DataR (type 60) -/
def dataRLayout (x : DataR) : WireLayout :=
  [(12, oId x.originating_id), (18, oId x.receiving_id), (24, o32 x.request_id), (28, o8 x.required_reliability_service), (29, List.replicate 3 0), (32, o32 (UInt32.ofNat x.fixed_datum_records.length)), (36, o32 (UInt32.ofNat x.variable_datum_records.length))]
/-- **C50**, DataR (type 60). -/
theorem C50_dataR_layout (h : PduHeader) (x : DataR) :
    Laid (Pdu.ser ⟨h, .dataR x⟩) (dataRLayout x) ∧
      LaidList (Pdu.ser ⟨h, .dataR x⟩) 40 8 (x.fixed_datum_records.map oFixed) :=
  ⟨⟨at_pdu 0 (by krfl), at_pdu 6 (by krfl), at_pdu 12 (by krfl), at_pdu 16 (by krfl), at_pdu 17 (by krfl), at_pdu 20 (by krfl), at_pdu 24 (by krfl), trivial⟩, list_pdu (r := serList VariableDatum.ser x.variable_datum_records) 28 8 (fun _ _ => rfl) (by krfl)⟩

/-- IEEE 1278.1 layout of EventReportR (type 61) -/
def eventReportRLayout (x : EventReportR) : WireLayout :=
  [(12, oId x.originating_id), (18, oId x.receiving_id), (24, o32 x.event_type), (28, List.replicate 4 0), (32, o32 (UInt32.ofNat x.fixed_datum_records.length)), (36, o32 (UInt32.ofNat x.variable_datum_records.length))]
/-- **C50**, EventReportR (type 61). -/
theorem C50_eventReportR_layout (h : PduHeader) (x : EventReportR) :
    Laid (Pdu.ser ⟨h, .eventReportR x⟩) (eventReportRLayout x) ∧
      LaidList (Pdu.ser ⟨h, .eventReportR x⟩) 40 8 (x.fixed_datum_records.map oFixed) :=
  ⟨⟨at_pdu 0 (by krfl), at_pdu 6 (by krfl), at_pdu 12 (by krfl), at_pdu 16 (by krfl), at_pdu 20 (by krfl), at_pdu 24 (by krfl), trivial⟩, list_pdu (r := serList VariableDatum.ser x.variable_datum_records) 28 8 (fun _ _ => rfl) (by krfl)⟩

/-- IEEE 1278.1 layout of CommentR (type 62) -/
def commentRLayout (x : CommentR) : WireLayout :=
  [(12, oId x.originating_id), (18, oId x.receiving_id), (24, List.replicate 4 0), (28, o32 (UInt32.ofNat x.variable_datum_records.length))]
/-- **C50**, CommentR (type 62). -/
theorem C50_commentR_layout (h : PduHeader) (x : CommentR) :
    Laid (Pdu.ser ⟨h, .commentR x⟩) (commentRLayout x) :=
  ⟨at_pdu 0 (by krfl), at_pdu 6 (by krfl), at_pdu 12 (by krfl), at_pdu 16 (by krfl), trivial⟩

/-- IEEE 1278.1 layout of RecordR (type 63) -/
def recordRLayout (x : RecordR) : WireLayout :=
  [(12, oId x.originating_id), (18, oId x.receiving_id), (24, o32 x.request_id), (28, o8 x.required_reliability_service), (29, List.replicate 1 0), (30, o32 x.event_type), (34, o32 x.response_serial_number), (38, o32 (UInt32.ofNat x.record_specification.length))]
/-- **C50**, RecordR (type 63). IEEE 1278.1 gives the event type 16 bits, the response serial number octets 32-35 and the count octets 36-39;
the code writes the event type in 32 bits (record_r/writer.rs), so everything behind it is two octets late. The table is the one of
the code. -/
theorem C50_recordR_layout (h : PduHeader) (x : RecordR) :
    Laid (Pdu.ser ⟨h, .recordR x⟩) (recordRLayout x) :=
  ⟨at_pdu 0 (by krfl), at_pdu 6 (by krfl), at_pdu 12 (by krfl), at_pdu 16 (by krfl), at_pdu 17 (by krfl), at_pdu 18 (by krfl), at_pdu 22 (by krfl), at_pdu 26 (by krfl), trivial⟩

/-- IEEE 1278.1 layout of SetRecordR (type 64) -/
def setRecordRLayout (x : SetRecordR) : WireLayout :=
  [(12, oId x.originating_id), (18, oId x.receiving_id), (24, o32 x.request_id), (28, o8 x.required_reliability_service), (29, List.replicate 3 0), (32, List.replicate 4 0), (36, o32 (UInt32.ofNat x.record_specification.length))]
/-- **C50**, SetRecordR (type 64). -/
theorem C50_setRecordR_layout (h : PduHeader) (x : SetRecordR) :
    Laid (Pdu.ser ⟨h, .setRecordR x⟩) (setRecordRLayout x) :=
  ⟨at_pdu 0 (by krfl), at_pdu 6 (by krfl), at_pdu 12 (by krfl), at_pdu 16 (by krfl), at_pdu 17 (by krfl), at_pdu 20 (by krfl), at_pdu 24 (by krfl), trivial⟩

/-- IEEE 1278.1 layout of RecordQueryR (type 65) -/
def recordQueryRLayout (x : RecordQueryR) : WireLayout :=
  [(12, oId x.originating_id), (18, oId x.receiving_id), (24, o32 x.request_id), (28, o8 x.required_reliability_service), (29, List.replicate 1 0), (30, o16 x.event_type), (32, o32 x.time), (36, o32 (UInt32.ofNat x.record_ids.length))]
/-- **C50**, RecordQueryR (type 65). -/
theorem C50_recordQueryR_layout (h : PduHeader) (x : RecordQueryR) :
    Laid (Pdu.ser ⟨h, .recordQueryR x⟩) (recordQueryRLayout x) ∧
      LaidList (Pdu.ser ⟨h, .recordQueryR x⟩) 40 4 (x.record_ids.map o32) :=
  ⟨⟨at_pdu 0 (by krfl), at_pdu 6 (by krfl), at_pdu 12 (by krfl), at_pdu 16 (by krfl), at_pdu 17 (by krfl), at_pdu 18 (by krfl), at_pdu 20 (by krfl), at_pdu 24 (by krfl), trivial⟩, last_pdu 28 4 (fun _ _ => rfl) (by krfl)⟩

/-- IEEE 1278.1 layout of CollisionElastic (type 66) -/
def collisionElasticLayout (x : CollisionElastic) : WireLayout :=
  [(12, oId x.issuing_entity_id), (18, oId x.colliding_entity_id), (24, oEvent x.event_id), (30, List.replicate 2 0), (32, oVec x.velocity), (44, o32 x.mass), (48, oVec x.location), (60, o32 x.intermediate_result_xx), (64, o32 x.intermediate_result_xy), (68, o32 x.intermediate_result_xz), (72, o32 x.intermediate_result_yy), (76, o32 x.intermediate_result_yz), (80, o32 x.intermediate_result_zz), (84, oVec x.unit_surface_normal), (96, o32 x.coefficient_of_restitution)]
/-- **C50**, CollisionElastic (type 66). -/
theorem C50_collisionElastic_layout (h : PduHeader) (x : CollisionElastic) :
    Laid (Pdu.ser ⟨h, .collisionElastic x⟩) (collisionElasticLayout x) ∧ (Pdu.ser ⟨h, .collisionElastic x⟩).length = 100 :=
  ⟨⟨at_pdu 0 (by krfl), at_pdu 6 (by krfl), at_pdu 12 (by krfl), at_pdu 18 (by krfl), at_pdu 20 (by krfl), at_pdu 32 (by krfl), at_pdu 36 (by krfl), at_pdu 48 (by krfl), at_pdu 52 (by krfl), at_pdu 56 (by krfl), at_pdu 60 (by krfl), at_pdu 64 (by krfl), at_pdu 68 (by krfl), at_pdu 72 (by krfl), at_pdu 84 (by krfl), trivial⟩, len_pdu 88 (by krfl)⟩

/-- IEEE 1278.1 layout of EntityStateUpdate (type 67) -/
def entityStateUpdateLayout (x : EntityStateUpdate) : WireLayout :=
  [(12, oId x.entity_id), (18, List.replicate 1 0), (19, o8 (UInt8.ofNat x.variable_parameters.length)), (20, oVec x.entity_linear_velocity), (32, oLoc x.entity_location), (56, oAng x.entity_orientation), (68, o32 x.entity_appearance.raw)]
/-- **C50**, EntityStateUpdate (type 67). -/
theorem C50_entityStateUpdate_layout (h : PduHeader) (x : EntityStateUpdate) :
    Laid (Pdu.ser ⟨h, .entityStateUpdate x⟩) (entityStateUpdateLayout x) :=
  ⟨at_pdu 0 (by krfl), at_pdu 6 (by krfl), at_pdu 7 (by krfl), at_pdu 8 (by krfl), at_pdu 20 (by krfl), at_pdu 44 (by krfl), at_pdu 56 (by krfl), trivial⟩

/-- IEEE 1278.1 layout of Attribute (type 72) -/
def attributeLayout (x : Attribute) : WireLayout :=
  [(12, oAddr x.originating_simulation_address), (16, List.replicate 4 0), (20, List.replicate 2 0), (22, o8 x.record_pdu_type), (23, o8 x.record_protocol_version), (24, o32 x.master_attribute_record_type), (28, o8 x.action_code), (29, List.replicate 1 0), (30, o16 (UInt16.ofNat x.attribute_record_sets.length))]
/-- **C50**, Attribute (type 72). -/
theorem C50_attribute_layout (h : PduHeader) (x : Attribute) :
    Laid (Pdu.ser ⟨h, .«attribute» x⟩) (attributeLayout x) :=
  ⟨at_pdu 0 (by krfl), at_pdu 4 (by krfl), at_pdu 8 (by krfl), at_pdu 10 (by krfl), at_pdu 11 (by krfl), at_pdu 12 (by krfl), at_pdu 16 (by krfl), at_pdu 17 (by krfl), at_pdu 18 (by krfl), trivial⟩

/-! ### Behind variant records and lists -/

/-- every variable parameter is written as specified -/
theorem ser_param (p : VariableParameter) : VariableParameter.ser p = oParam p := by
  cases p <;> krfl

theorem ser_params (l : List VariableParameter) : serList VariableParameter.ser l = serList oParam l := by
  have : VariableParameter.ser = oParam := funext ser_param
  rw [this]

/-- the arrays of unspecified parameters have 15 octets (a type invariant of the code: `[u8; 15]`) -/
def ParamsOk (l : List VariableParameter) : Prop := ∀ t v, .unspecified t v ∈ l → v.length = 15

theorem oParam_length {l : List VariableParameter} (h : ParamsOk l) : ∀ p ∈ l, (oParam p).length = 16 := by
  intro p hp
  cases p with
  | unspecified t v => have := h t v hp; simp [oParam, o8, this]
  | _ => rfl

/-- **C50**, Fire: descriptor, velocity and range. -/
theorem C50_fire_rest (h : PduHeader) (x : Fire) :
    Laid (Pdu.ser ⟨h, .fire x⟩) [(64, oDescriptor x.descriptor), (80, oVec x.velocity), (92, o32 x.range)] ∧
    (Pdu.ser ⟨h, .fire x⟩).length = 96 := by
  obtain ⟨a, b, c, d, e, f, g, v, r⟩ := x
  cases g <;> exact ⟨⟨at_pdu 52 (by krfl), at_pdu 68 (by krfl), at_pdu 80 (by krfl), trivial⟩, len_pdu 84 (by krfl)⟩

/-- **C50**, Detonation: descriptor, location, result and variable parameters. -/
theorem C50_detonation_rest (h : PduHeader) (x : Detonation) (hp : ParamsOk x.variable_parameters) :
    Laid (Pdu.ser ⟨h, .detonation x⟩)
      [(72, oDescriptor x.descriptor), (88, oVec x.location_in_entity_coordinates), (100, o8 x.detonation_result),
       (101, o8 (UInt8.ofNat x.variable_parameters.length)), (102, List.replicate 2 0)] ∧
    LaidList (Pdu.ser ⟨h, .detonation x⟩) 104 16 (x.variable_parameters.map oParam) := by
  obtain ⟨a, b, c, d, e, f, g, v, r, l⟩ := x
  cases g <;>
    exact ⟨⟨at_pdu 60 (by krfl), at_pdu 76 (by krfl), at_pdu 88 (by krfl), at_pdu 89 (by krfl), at_pdu 90 (by krfl), trivial⟩,
      last_pdu 92 16 (oParam_length hp) (Eq.trans (by krfl) (ser_params l))⟩

/-- **C50**, Entity State Update: variable parameters. -/
theorem C50_entityStateUpdate_rest (h : PduHeader) (x : EntityStateUpdate) (hp : ParamsOk x.variable_parameters) :
    LaidList (Pdu.ser ⟨h, .entityStateUpdate x⟩) 72 16 (x.variable_parameters.map oParam) :=
  last_pdu 60 16 (oParam_length hp) (Eq.trans (by krfl) (ser_params x.variable_parameters))

/-- the dead reckoning "other parameters" (6.2.19.2): 15 octets -/
def oOther : DrOtherParameters → List UInt8
  | .none bytes => bytes
  | .euler yaw pitch roll => o8 1 ++ List.replicate 2 0 ++ o32 yaw ++ o32 pitch ++ o32 roll
  | .quaternion n a b c => o8 2 ++ o16 n ++ o32 a ++ o32 b ++ o32 c

/-- **C50**, Entity State: dead reckoning, marking, capabilities and variable parameters.  (The other parameters are 15
octets, a type invariant of the code; the marking fits its 11 octets.) -/
theorem C50_entityState_rest (h : PduHeader) (x : EntityState) (hp : ParamsOk x.variable_parameters)
    (ho : (oOther x.dead_reckoning_parameters.other_parameters).length = 15)
    (hm : x.entity_marking.marking_string.length ≤ 11) :
    Laid (Pdu.ser ⟨h, .entityState x⟩)
      [(89, oOther x.dead_reckoning_parameters.other_parameters),
       (104, oVec x.dead_reckoning_parameters.linear_acceleration),
       (116, oVec x.dead_reckoning_parameters.angular_velocity),
       (128, o8 x.entity_marking.marking_character_set), (129, x.entity_marking.marking_string)] ∧
    (h.protocol_version = 7 → At (Pdu.ser ⟨h, .entityState x⟩) 140 (o32 x.entity_capabilities.raw)) ∧
    LaidList (Pdu.ser ⟨h, .entityState x⟩) 144 16 (x.variable_parameters.map oParam) := by
  have hoe : x.dead_reckoning_parameters.other_parameters.ser = oOther x.dead_reckoning_parameters.other_parameters := by
    cases x.dead_reckoning_parameters.other_parameters <;> krfl
  have e : Body.ser h.protocol_version (.entityState x) =
      ((x.entity_id.ser ++ e8 x.force_id ++ e8 (UInt8.ofNat x.variable_parameters.length)
        ++ x.entity_type.ser ++ x.alternative_entity_type.ser ++ x.entity_linear_velocity.ser)
        ++ (x.entity_location.ser ++ x.entity_orientation.ser
        ++ x.entity_appearance.ser ++ e8 x.dead_reckoning_parameters.algorithm)) ++
      (oOther x.dead_reckoning_parameters.other_parameters ++
      ((oVec x.dead_reckoning_parameters.linear_acceleration ++ (oVec x.dead_reckoning_parameters.angular_velocity ++
       (o8 x.entity_marking.marking_character_set ++
       (x.entity_marking.marking_string ++ (List.replicate (11 - x.entity_marking.marking_string.length) 0x20 ++
      (x.entity_capabilities.ser h.protocol_version ++ serList oParam x.variable_parameters)))))))) := by
    rw [← ser_params, ← hoe]
    simp only [Body.ser, EntityState.ser, DrParameters.ser, EntityMarking.ser, List.append_assoc]
    rfl
  have hc : (x.entity_capabilities.ser h.protocol_version).length = 4 := by
    unfold EntityCapabilities.ser; cases supportedVersion h.protocol_version <;> rfl
  have h77 : ((x.entity_id.ser ++ e8 x.force_id ++ e8 (UInt8.ofNat x.variable_parameters.length)
        ++ x.entity_type.ser ++ x.alternative_entity_type.ser ++ x.entity_linear_velocity.ser)
        ++ (x.entity_location.ser ++ x.entity_orientation.ser
        ++ x.entity_appearance.ser ++ e8 x.dead_reckoning_parameters.algorithm)).length = 77 := by krfl
  refine ⟨⟨?_, ?_, ?_, ?_, ?_, trivial⟩, ?_, ?_⟩
  · exact at_pdu 77 (at_skip 77 0 e h77 at_here)
  · exact at_pdu 92 (at_skip 77 15 e h77 (at_skip 15 0 rfl ho at_here))
  · exact at_pdu 104 (at_skip 77 27 e h77 (at_skip 15 12 rfl ho (at_skip 12 0 rfl rfl at_here)))
  · exact at_pdu 116 (at_skip 77 39 e h77 (at_skip 15 24 rfl ho (at_skip 12 12 rfl rfl (at_skip 12 0 rfl rfl at_here))))
  · exact at_pdu 117 (at_skip 77 40 e h77 (at_skip 15 25 rfl ho (at_skip 12 13 rfl rfl (at_skip 12 1 rfl rfl
      (at_skip 1 0 rfl rfl at_here)))))
  · intro hv
    have hx : x.entity_capabilities.ser h.protocol_version = o32 x.entity_capabilities.raw := by rw [hv]; rfl
    rw [hx] at e
    refine at_pdu 128 (at_skip 77 51 e h77 (at_skip 15 36 rfl ho (at_skip 12 24 rfl rfl (at_skip 12 12 rfl rfl
      (at_skip 1 11 rfl rfl ?_)))))
    have := at_skip (bs := x.entity_marking.marking_string ++ (List.replicate (11 - x.entity_marking.marking_string.length) 0x20 ++
      (o32 x.entity_capabilities.raw ++ serList oParam x.variable_parameters)))
      (v := o32 x.entity_capabilities.raw) x.entity_marking.marking_string.length (11 - x.entity_marking.marking_string.length) rfl rfl
      (at_skip (11 - x.entity_marking.marking_string.length) 0 rfl (by simp) at_here)
    rwa [Nat.add_sub_cancel' hm] at this
  · refine last_pdu 132 16 (oParam_length hp) ?_
    rw [e]
    have hl : ∀ (a b : List UInt8) n, a.length = n → (a ++ b).drop n = b := by
      intro a b n hn; subst hn; simp
    rw [show (132 : Nat) = 77 + (15 + (12 + (12 + (1 + (x.entity_marking.marking_string.length +
      ((11 - x.entity_marking.marking_string.length) + 4)))))) by omega]
    simp only [← List.drop_drop]
    rw [hl _ _ 77 h77, hl _ _ 15 ho, hl _ _ 12 rfl, hl _ _ 12 rfl, hl _ _ 1 rfl, hl _ _ _ rfl, hl _ _ _ (by simp), hl _ _ _ hc]

/-- **C50**, Electromagnetic Emission: the systems with their beams and tracks follow the counts. -/
theorem C50_emission_systems (h : PduHeader) (x : ElectromagneticEmission) :
    (Pdu.ser ⟨h, .electromagneticEmission x⟩).drop 28 = (x.emitter_systems.map oSystem).flatten := by
  have hb : ∀ b : Beam, b.ser = oBeam b := by
    intro b
    have : serList TrackJam.ser b.track_jam_data = (b.track_jam_data.map oTrack).flatten := by
      simp only [serList, List.flatMap_def]; rfl
    unfold Beam.ser oBeam
    rw [this]
    simp only [Beam.dataLen, FundamentalParameterData.ser, BeamData.ser, JammingTechnique.ser, List.append_assoc]
    rfl
  have hs : ∀ s : EmitterSystem, s.ser = oSystem s := by
    intro s
    have : serList Beam.ser s.beams = (s.beams.map oBeam).flatten := by
      simp only [serList, List.flatMap_def]
      rw [show Beam.ser = oBeam from funext hb]
    unfold EmitterSystem.ser oSystem
    rw [this]
    simp only [EmitterSystem.dataLen, List.append_assoc]
    rfl
  have hd : (Body.ser h.protocol_version (.electromagneticEmission x)).drop 16 = serList EmitterSystem.ser x.emitter_systems := by krfl
  unfold Pdu.ser
  rw [show (28 : Nat) = h.ser.length + 16 by rw [PduHeader.length_ser]]
  rw [List.drop_append, List.drop_eq_nil_of_le (Nat.le_add_right _ _), Nat.add_sub_cancel_left, List.nil_append]
  refine hd.trans ?_
  simp only [serList, List.flatMap_def]
  rw [show EmitterSystem.ser = oSystem from funext hs]

/-- **C50**, Signal: the data start at octet 32. -/
theorem C50_signal_data (h : PduHeader) (x : Signal) : At (Pdu.ser ⟨h, .signal x⟩) 32 x.data :=
  at_pdu 20 (at_skip (a := (Body.ser h.protocol_version (.signal x)).take 20) 20 0
    (b := x.data ++ zeros (lengthPaddedToNum x.data.length 4).padding_length) (by krfl) (by krfl) at_here)

/-- **C50**, the header of every PDU: twelve octets; the octet of the PDU status only in version 7. -/
theorem C50_header_layout (h : PduHeader) (b : Body) :
    Laid (Pdu.ser ⟨h, b⟩) [(0, o8 h.protocol_version), (1, o8 h.exercise_id), (2, o8 h.pdu_type), (3, o8 h.protocol_family),
      (4, o32 h.time_stamp), (8, o16 h.pdu_length), (11, o8 0)] ∧
    (h.protocol_version ≠ 7 → At (Pdu.ser ⟨h, b⟩) 10 (o8 0)) ∧
    (Pdu.ser ⟨h, b⟩).drop 12 = b.ser h.protocol_version := by
  refine ⟨⟨by krfl, by krfl, by krfl, by krfl, by krfl, by krfl, ?_, trivial⟩, ?_, ?_⟩
  · unfold At Pdu.ser PduHeader.ser
    split
    · cases h.pdu_status <;> krfl
    · krfl
  · intro hv
    unfold At Pdu.ser PduHeader.ser
    rw [if_neg hv]; krfl
  · unfold Pdu.ser
    rw [List.drop_append, PduHeader.length_ser, List.drop_eq_nil_of_le (by rw [PduHeader.length_ser]; exact Nat.le_refl _)]
    rfl

/-- A case with contents: the location of an entity state PDU of version 7 is at octets 48 to 71. -/
example (h : PduHeader) (x : EntityState) : ((Pdu.ser ⟨h, .entityState x⟩).drop 48).take 24 = oLoc x.entity_location :=
  (C50_entityState_layout h x).2.2.2.2.2.2.1

end Verif.Props
