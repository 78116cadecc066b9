import Verif.Dis.Body

/-!
# Who a PDU is from and to

The `Interaction` trait (common/mod.rs:90-96) and its implementations.  File names are relative to dis-rs/src/common.
-/

namespace Verif.Dis

/-- electromagnetic_emission/model.rs:54-69 `receiver`: the first track/jam of the first beam of the first emitter system -/
def ElectromagneticEmission.receiver (x : ElectromagneticEmission) : Option EntityId :=
  match x.emitter_systems with
  | [] => none
  | s :: _ => match s.beams with
    | [] => none
    | b :: _ => match b.track_jam_data with
      | [] => none
      | t :: _ => some t.entity_id

/-- model.rs:393-470 `originator`, and the `originator` of every body: `<kind>/model.rs`, `impl Interaction` (e.g. fire/model.rs:48-56,
receiver/model.rs:42-50, repair_complete/model.rs:42-50, aggregate_state/model.rs:85-93, other/model.rs:44-58) -/
def Body.originator : Body → Option EntityId
  | .unsupported _ => none
  | .other x => x.originating_entity_id
  | .entityState x => some x.entity_id
  | .fire x => some x.firing_entity_id
  | .detonation x => some x.source_entity_id
  | .collision x => some x.issuing_entity_id
  | .serviceRequest x => some x.requesting_id
  | .resupplyOffer x => some x.requesting_id
  | .resupplyReceived x => some x.requesting_id
  | .resupplyCancel x => some x.requesting_id
  | .repairComplete x => some x.repairing_id
  | .repairResponse x => some x.repairing_id
  | .createEntity x => some x.originating_id
  | .removeEntity x => some x.originating_id
  | .startResume x => some x.originating_id
  | .stopFreeze x => some x.originating_id
  | .acknowledge x => some x.originating_id
  | .actionRequest x => some x.originating_id
  | .actionResponse x => some x.originating_id
  | .dataQuery x => some x.originating_id
  | .setData x => some x.originating_id
  | .data x => some x.originating_id
  | .eventReport x => some x.originating_id
  | .comment x => some x.originating_id
  | .electromagneticEmission x => some x.emitting_entity_id
  | .designator x => some x.designating_entity_id
  | .transmitter x => some x.radio_reference_id
  | .signal x => some x.radio_reference_id
  | .receiver x => some x.transmitter_radio_reference_id
  | .iff x => some x.emitting_entity_id
  | .underwaterAcoustic x => some x.emitting_entity_id
  | .sees x => some x.originating_entity_id
  | .aggregateState _ => none
  | .isGroupOf x => some x.group_id
  | .transferOwnership x => some x.originating_entity_id
  | .isPartOf x => some x.originating_entity_id
  | .createEntityR x => some x.originating_id
  | .removeEntityR x => some x.originating_id
  | .startResumeR x => some x.originating_id
  | .stopFreezeR x => some x.originating_id
  | .acknowledgeR x => some x.originating_id
  | .actionRequestR x => some x.originating_id
  | .actionResponseR x => some x.originating_id
  | .dataQueryR x => some x.originating_id
  | .setDataR x => some x.originating_id
  | .dataR x => some x.originating_id
  | .eventReportR x => some x.originating_id
  | .commentR x => some x.originating_id
  | .recordR x => some x.originating_id
  | .setRecordR x => some x.originating_id
  | .recordQueryR x => some x.originating_id
  | .collisionElastic x => some x.issuing_entity_id
  | .entityStateUpdate x => some x.entity_id
  | .«attribute» _ => none

/-- model.rs:472-548 `receiver`, and the `receiver` of every body (same places) -/
def Body.recipient : Body → Option EntityId
  | .unsupported _ => none
  | .other x => x.receiving_entity_id
  | .entityState _ => none
  | .fire x => some x.target_entity_id
  | .detonation x => some x.target_entity_id
  | .collision x => some x.colliding_entity_id
  | .serviceRequest x => some x.servicing_id
  | .resupplyOffer x => some x.servicing_id
  | .resupplyReceived x => some x.servicing_id
  | .resupplyCancel x => some x.servicing_id
  | .repairComplete x => some x.receiving_id
  | .repairResponse x => some x.receiving_id
  | .createEntity x => some x.receiving_id
  | .removeEntity x => some x.receiving_id
  | .startResume x => some x.receiving_id
  | .stopFreeze x => some x.receiving_id
  | .acknowledge x => some x.receiving_id
  | .actionRequest x => some x.receiving_id
  | .actionResponse x => some x.receiving_id
  | .dataQuery x => some x.receiving_id
  | .setData x => some x.receiving_id
  | .data x => some x.receiving_id
  | .eventReport x => some x.receiving_id
  | .comment x => some x.receiving_id
  | .electromagneticEmission x => x.receiver
  | .designator x => some x.designated_entity_id
  | .transmitter _ => none
  | .signal _ => none
  | .receiver x => some x.radio_reference_id
  | .iff _ => none
  | .underwaterAcoustic _ => none
  | .sees _ => none
  | .aggregateState _ => none
  | .isGroupOf _ => none
  | .transferOwnership x => some x.receiving_entity_id
  | .isPartOf x => some x.receiving_entity_id
  | .createEntityR x => some x.receiving_id
  | .removeEntityR x => some x.receiving_id
  | .startResumeR x => some x.receiving_id
  | .stopFreezeR x => some x.receiving_id
  | .acknowledgeR x => some x.receiving_id
  | .actionRequestR x => some x.receiving_id
  | .actionResponseR x => some x.receiving_id
  | .dataQueryR x => some x.receiving_id
  | .setDataR x => some x.receiving_id
  | .dataR x => some x.receiving_id
  | .eventReportR x => some x.receiving_id
  | .commentR x => some x.receiving_id
  | .recordR x => some x.receiving_id
  | .setRecordR x => some x.receiving_id
  | .recordQueryR x => some x.receiving_id
  | .collisionElastic x => some x.colliding_entity_id
  | .entityStateUpdate _ => none
  | .«attribute» _ => none

end Verif.Dis
