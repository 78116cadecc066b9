import Verif.Dis.Text
import Verif.Dis.Builders
import Verif.Conformance.Dis

/-!
# The `internal_consistency` tests of dis-rs, run on the model

Every PDU kind of dis-rs has one unit test that builds a PDU, writes it, reads it back and compares.  Each `example` repeats one of
them on the model, evaluated in Lean's kernel.  These are tests, not proofs: the theorems of C08-C15 say for which PDUs the
comparison holds, and these examples show that the model agrees with the repository's own tests where they overlap (for instance
the tests that write variable datums, where the writer's padding is wrong but falls after everything the reader looks at).  Enumerators are written as numbers; where the repository does not say which (the SISO
tables are external) some number is used, since neither the writer nor the reader looks at it.
-/

namespace Verif.Conformance
open Verif.P Verif.Dis Verif.Props

/-- `Pdu::finalize_from_parts(header, body, DisTimeStamp::new_absolute_from_secs(100))`, written and read back by `parse_pdu` -/
def consistent (h : PduHeader) (b : Body) : Bool :=
  let p := Pdu.finalizeFromParts h b (UInt32.ofNat (2 * unitsFromSecs 100 + 1))
  match (pdu sampleEnv).run p.ser with
  | .ok q _ => decide (q = p)
  | _ => false
/-- `EntityId::new` -/
def eid (a b c : UInt16) : EntityId := ⟨⟨a, b⟩, c⟩
/-- `VectorF32::new` -/
def vec (a b c : Rat) : VectorF32 := ⟨lit32 a, lit32 b, lit32 c⟩

/-- dis-rs/src/common/acknowledge/mod.rs:16 `acknowledge_internal_consistency` -/
example : consistent (.new_v6 1 15) (.acknowledge ⟨eid 10 10 10, eid 20 20 20, 1, 0, 5⟩) = true := by decide +kernel

/-- dis-rs/src/common/acknowledge_r/mod.rs:16 `acknowledge_r_internal_consistency` -/
example : consistent (.new_v6 1 55) (.acknowledgeR ⟨eid 10 10 10, eid 20 20 20, 3, 1, 5⟩) = true := by decide +kernel

/-- dis-rs/src/common/action_request/mod.rs:16 `action_request_internal_consistency` -/
example : consistent (.new_v6 1 16) (.actionRequest ⟨eid 10 10 10, eid 20 20 20, 5, 40, [⟨52340, 45⟩], [⟨52340, [1, 2, 3, 4, 5, 6, 7]⟩]⟩) = true := by decide +kernel

/-- dis-rs/src/common/action_request_r/mod.rs:16 `action_request_r_internal_consistency` -/
example : consistent (.new_v6 1 56) (.actionRequestR ⟨eid 10 10 10, eid 20 20 20, 1, 5, 40, [⟨52340, 45⟩], [⟨52340, [1, 2, 3, 4, 5, 6, 7]⟩]⟩) = true := by decide +kernel

/-- dis-rs/src/common/action_response/mod.rs:16 `action_response_internal_consistency` -/
example : consistent (.new_v6 1 17) (.actionResponse ⟨eid 10 10 10, eid 20 20 20, 5, 4, [⟨52340, 45⟩], [⟨52340, [1, 2, 3, 4, 5, 6, 7]⟩]⟩) = true := by decide +kernel

/-- dis-rs/src/common/action_response_r/mod.rs:16 `action_response_r_internal_consistency` -/
example : consistent (.new_v6 1 57) (.actionResponse ⟨eid 10 10 10, eid 20 20 20, 5, 4, [⟨52340, 45⟩], [⟨52340, [1, 2, 3, 4, 5, 6, 7]⟩]⟩) = true := by decide +kernel

/-- dis-rs/src/common/aggregate_state/mod.rs:20 `aggregate_state_internal_consistency` -/
example : consistent { PduHeader.new_v7 1 33 with pdu_status := some { lvc_indicator := some 0, coupled_extension_indicator := some 0 } } (.aggregateState ⟨eid 10 10 10, 1, 1, ⟨1, 2, 3, 4, 5, 6, 7⟩, 4, ⟨1, text "Squadron XYZ"⟩, vec 100 100 100, ⟨0, 0, 0⟩, ⟨lit64 1, lit64 2, lit64 3⟩, vec 20 20 0, [eid 20 20 20], [eid 30 30 30], [⟨0, ⟨1, 2, 3, 4, 5, 6, 7⟩⟩], [⟨1, ⟨1, 2, 10, 10, 10, 10, 10⟩, [⟨.airPlatform, 0⟩]⟩], [⟨240054, [250]⟩]⟩) = true := by decide +kernel

/-- dis-rs/src/common/attribute/mod.rs:16 `attribute_internal_consistency` -/
example : consistent (.new_v6 1 72) (.«attribute» ⟨⟨10, 10⟩, 72, 6, 0, 0, []⟩) = true := by decide +kernel

/-- dis-rs/src/common/collision/mod.rs:16 `collision_internal_consistency` -/
example : consistent (.new_v6 1 4) (.collision ⟨eid 10 10 10, eid 20 20 20, ⟨⟨10, 10⟩, 43⟩, 1, vec 0 0 0, 0, vec 0 0 0⟩) = true := by decide +kernel

/-- dis-rs/src/common/collision_elastic/mod.rs:16 `collision_elastic_internal_consistency` -/
example : consistent (.new_v6 1 66) (.collisionElastic ⟨eid 0 0 0, eid 0 0 0, ⟨⟨11, 11⟩, 11⟩, vec 0 0 0, lit32 88.4, vec 0 0 0, 0, 0, 0, 0, 0, 0, vec 0 0 0, lit32 6.43⟩) = true := by decide +kernel

/-- dis-rs/src/common/comment/mod.rs:16 `comment_internal_consistency` -/
example : consistent (.new_v6 1 22) (.comment ⟨eid 1 2 3, eid 4 5 6, [⟨34100, [12, 34]⟩]⟩) = true := by decide +kernel

/-- dis-rs/src/common/comment_r/mod.rs:16 `comment_r_internal_consistency` -/
example : consistent (.new_v6 1 62) (.commentR ⟨eid 1 2 3, eid 4 5 6, [⟨34100, [12, 34]⟩]⟩) = true := by decide +kernel

/-- dis-rs/src/common/create_entity/mod.rs:16 `create_entity_internal_consistency` -/
example : consistent (.new_v6 1 11) (.createEntity ⟨eid 10 10 10, eid 20 20 20, 30⟩) = true := by decide +kernel

/-- dis-rs/src/common/create_entity_r/mod.rs:16 `create_entity_r_internal_consistency` -/
example : consistent (.new_v6 1 51) (.createEntityR ⟨eid 10 10 10, eid 20 20 20, 0, 30⟩) = true := by decide +kernel

/-- dis-rs/src/common/data/mod.rs:16 `data_internal_consistency` -/
example : consistent (.new_v6 1 20) (.data ⟨eid 10 10 10, eid 20 20 20, 5, [⟨52340, 45⟩], [⟨52340, [1, 2, 3, 4, 5, 6, 7]⟩]⟩) = true := by decide +kernel

/-- dis-rs/src/common/data_query/mod.rs:16 `data_query_internal_consistency` -/
example : consistent (.new_v6 1 18) (.dataQuery ⟨eid 10 10 10, eid 20 20 20, 5, 0, [52340], [34100, 37000]⟩) = true := by decide +kernel

/-- dis-rs/src/common/data_query_r/mod.rs:16 `data_query_r_internal_consistency` -/
example : consistent (.new_v6 1 58) (.dataQueryR ⟨eid 10 10 10, eid 20 20 20, 0, 5, 0, [52340], [34100, 37000]⟩) = true := by decide +kernel

/-- dis-rs/src/common/data_r/mod.rs:16 `data_r_internal_consistency` -/
example : consistent (.new_v6 1 60) (.dataR ⟨eid 10 10 10, eid 20 20 20, 5, 0, [⟨52340, 45⟩], [⟨52340, [1, 2, 3, 4, 5, 6, 7]⟩]⟩) = true := by decide +kernel

/-- dis-rs/src/common/designator/mod.rs:16 `designator_internal_consistency` -/
example : consistent (.new_v6 1 24) (.designator ⟨eid 1 1 1, 0, eid 2 2 2, 0, lit32 45.5, 0, vec 0 0 0, ⟨0, 0, 0⟩, 2, vec 0 0 0⟩) = true := by decide +kernel

/-- dis-rs/src/common/detonation/mod.rs:16 `detonation_internal_consistency` -/
example : consistent (.new_v6 1 3) (.detonation ⟨eid 0 0 0, eid 0 0 0, eid 0 0 0, ⟨⟨0, 0⟩, 0⟩, vec 0 0 0, ⟨0, 0, 0⟩, .munition ⟨0, 0, 0, 0, 0, 0, 0⟩ ⟨0, 0, 0, 0⟩, vec 0 0 0, 0, []⟩) = true := by decide +kernel

/-- dis-rs/src/common/electromagnetic_emission/mod.rs:17 `electromagnetic_emission_internal_consistency` -/
example : consistent (.new_v6 1 23) (.electromagneticEmission ⟨eid 5 10 15, ⟨⟨5, 10⟩, 70⟩, 0, [⟨0, 0, 0, vec 0 0 0, []⟩]⟩) = true := by decide +kernel

/-- dis-rs/src/common/entity_state/mod.rs:16 `entity_state_internal_consistency` -/
example : consistent (.new_v6 1 1) (.entityState
      { entity_id := eid 500 900 14
        force_id := 1
        entity_type := ⟨1, 2, 153, 50, 4, 4, 0⟩
        alternative_entity_type := ⟨1, 2, 153, 50, 4, 4, 0⟩
        entity_linear_velocity := ⟨0, 0, 0⟩
        entity_location := ⟨0, 0, 0⟩
        entity_orientation := ⟨0, 0, 0⟩
        entity_appearance := ⟨.airPlatform, 0x04000000⟩
        dead_reckoning_parameters := ⟨4, .quaternion 0 0 0 0, ⟨0, 0, 0⟩, ⟨0, 0, 0⟩⟩
        entity_marking := ⟨1, text "EYE 10"⟩
        entity_capabilities := .ofV6 ⟨false, false, false, false⟩
        variable_parameters := [.articulated ⟨0, 0, 1, 3072, lit32 1⟩, .articulated ⟨0, 0, 11, 4096, lit32 2⟩,
          .articulated ⟨0, 0, 12, 4096, lit32 3⟩, .articulated ⟨0, 0, 13, 4416, lit32 4⟩] }) = true := by decide +kernel

/-- dis-rs/src/common/entity_state_update/mod.rs:17 `entity_state_update_internal_consistency` -/
example : consistent (.new_v6 1 67) (.entityStateUpdate ⟨eid 500 900 14, vec 10 10 10, ⟨lit64 4, lit64 5, lit64 6⟩, ⟨lit32 0.5, lit32 0.5, lit32 0.5⟩, ⟨.unspecified, 0⟩, []⟩) = true := by decide +kernel

/-- dis-rs/src/common/event_report/mod.rs:17 `event_report_internal_consistency` -/
example : consistent (.new_v6 1 21) (.eventReport ⟨eid 10 10 10, eid 20 20 20, 3, [⟨24010, 100⟩], [⟨11130, [1, 2, 3]⟩]⟩) = true := by decide +kernel

/-- dis-rs/src/common/event_report_r/mod.rs:17 `event_report_r_internal_consistency` -/
example : consistent (.new_v6 1 61) (.eventReportR ⟨eid 10 10 10, eid 20 20 20, 3, [⟨24010, 100⟩], [⟨11130, [1, 2, 3]⟩]⟩) = true := by decide +kernel

/-- dis-rs/src/common/fire/mod.rs:18 `fire_internal_consistency_v6` -/
example : consistent (.new_v6 1 2) (.fire ⟨eid 0 0 0, eid 0 0 0, eid 0 0 0, ⟨⟨0, 0⟩, 0⟩, 0, ⟨0, 0, 0⟩, .munition ⟨2, 0, 0, 0, 0, 0, 0⟩ ⟨4000, 1100, 10, 0⟩, vec 50 60 70, 0⟩) = true := by decide +kernel

/-- dis-rs/src/common/fire/mod.rs:52 `fire_internal_consistency_v7_expandable` -/
example : consistent { PduHeader.new_v7 1 2 with pdu_status := some { fire_type_indicator := some 1, lvc_indicator := some 0, coupled_extension_indicator := some 0 } } (.fire ⟨eid 0 0 0, eid 0 0 0, eid 0 0 0, ⟨⟨0, 0⟩, 0⟩, 0, ⟨0, 0, 0⟩, .expendable ⟨8, 0, 0, 0, 0, 0, 0⟩, vec 50 60 70, 0⟩) = true := by decide +kernel

/-- dis-rs/src/common/fire/mod.rs:84 `fire_internal_consistency_v7_munition` -/
example : consistent { PduHeader.new_v7 1 2 with pdu_status := some { fire_type_indicator := some 0, lvc_indicator := some 0, coupled_extension_indicator := some 0 } } (.fire ⟨eid 0 0 0, eid 0 0 0, eid 0 0 0, ⟨⟨0, 0⟩, 0⟩, 0, ⟨0, 0, 0⟩, .munition ⟨2, 0, 0, 0, 0, 0, 0⟩ ⟨4000, 1100, 10, 0⟩, vec 50 60 70, 0⟩) = true := by decide +kernel

/-- dis-rs/src/common/iff/mod.rs:17 `internal_consistency` -/
example : consistent { PduHeader.new_v7 1 28 with pdu_status := some { transferred_entity_indicator := some 0, lvc_indicator := some 0, coupled_extension_indicator := some 0, iff_simulation_mode := some 0, active_interrogation_indicator := some 0 } } (.iff ⟨eid 1 1 1, ⟨⟨15, 15⟩, 15⟩, vec 0 0 0, ⟨8, 0, 0, [0, 0, 0, 0, 0, 0, 0, 0]⟩, 0, 8, ⟨[0, 0, 0, 0, 0, 0, 0, 0], 0, [1, 1, 0, 0, 0, 0, 0], 0, 1, 2, 3, 4, 5, 6⟩, some ⟨⟨2, 0, 8⟩, ⟨0, 0, 0, 0, 0⟩, 0, 0, [⟨0, 0, 0, 0, 0, 0, 0, 0, 0⟩]⟩, none, none, none⟩) = true := by decide +kernel

/-- dis-rs/src/common/is_group_of/mod.rs:18 `is_group_of_internal_consistency` -/
example : consistent (.new_v6 1 34) (.isGroupOf ⟨eid 1 10 20, 8, lit64 1, lit64 1, [.enhancedFixedWingAircraft ⟨⟨30, ⟨0, 0, 0⟩, ⟨.airPlatform, 0⟩, ⟨0, 0, 0⟩, 0, 0, 0, 0⟩, 1, 2, 3, 4⟩]⟩) = true := by decide +kernel

/-- dis-rs/src/common/is_part_of/mod.rs:17 `is_part_of_internal_consistency` -/
example : consistent (.new_v6 1 36) (.isPartOf ⟨eid 10 10 10, eid 20 20 20, 5, 1, vec 1 2 3, 13, 44⟩) = true := by decide +kernel

/-- dis-rs/src/common/other/mod.rs:16 `other_internal_consistency` -/
example : consistent (.new_v6 1 0) (.other ⟨none, none, [0x10, 0x11, 0x12, 0x13, 0x14, 0x15]⟩) = true := by decide +kernel

/-- dis-rs/src/common/receiver/mod.rs:16 `receiver_internal_consistency` -/
example : consistent (.new_v6 1 27) (.receiver ⟨eid 0 0 0, 0, 0, 0, eid 0 0 0, 0⟩) = true := by decide +kernel

/-- dis-rs/src/common/record_query_r/mod.rs:17 `record_query_r_internal_consistency` -/
example : consistent (.new_v6 1 63) (.recordQueryR ⟨eid 10 10 10, eid 20 20 20, 15, 1, 0, 123456, [24005, 24008]⟩) = true := by decide +kernel

/-- dis-rs/src/common/record_r/mod.rs:16 `record_r_internal_consistency` -/
example : consistent (.new_v6 1 63) (.recordR ⟨eid 10 10 10, eid 20 20 20, 15, 1, 10001, 2132, [⟨240054, 12345, recordLengthOf [[1, 2, 3], [0x10, 0x20, 0x30]], [[1, 2, 3], [0x10, 0x20, 0x30]]⟩]⟩) = true := by decide +kernel

/-- dis-rs/src/common/remove_entity/mod.rs:17 `remove_entity_internal_consistency` -/
example : consistent (.new_v6 1 12) (.removeEntity ⟨eid 10 20 30, eid 40 50 60, 55⟩) = true := by decide +kernel

/-- dis-rs/src/common/remove_entity_r/mod.rs:17 `remove_entity_r_internal_consistency` -/
example : consistent (.new_v6 1 52) (.removeEntityR ⟨eid 10 20 30, eid 40 50 60, 0, 55⟩) = true := by decide +kernel

/-- dis-rs/src/common/repair_complete/mod.rs:16 `repair_complete_internal_consistency` -/
example : consistent (.new_v6 1 9) (.repairComplete ⟨eid 1 1 2, eid 9 1 1, 1010⟩) = true := by decide +kernel

/-- dis-rs/src/common/repair_response/mod.rs:16 `repair_response_internal_consistency` -/
example : consistent (.new_v6 1 10) (.repairResponse ⟨eid 1 1 2, eid 9 1 1, 1⟩) = true := by decide +kernel

/-- dis-rs/src/common/resupply_cancel/mod.rs:16 `resupply_cancel_internal_consistency` -/
example : consistent (.new_v6 1 8) (.resupplyCancel ⟨eid 1 1 2, eid 9 1 1⟩) = true := by decide +kernel

/-- dis-rs/src/common/resupply_offer/mod.rs:17 `resupply_offer_internal_consistency` -/
example : consistent (.new_v6 1 6) (.resupplyOffer ⟨eid 1 1 2, eid 9 1 1, [⟨⟨6, 0, 0, 0, 0, 0, 0⟩, lit32 678⟩]⟩) = true := by decide +kernel

/-- dis-rs/src/common/resupply_received/mod.rs:17 `resupply_received_internal_consistency` -/
example : consistent (.new_v6 1 7) (.resupplyReceived ⟨eid 1 1 2, eid 9 1 1, [⟨⟨6, 0, 0, 0, 0, 0, 0⟩, lit32 678⟩]⟩) = true := by decide +kernel

/-- dis-rs/src/common/sees/mod.rs:17 `sees_internal_consistency` -/
example : consistent (.new_v6 1 30) (.sees ⟨eid 10 10 10, 8, 4, 2, [⟨lit32 11, lit32 12000⟩], [⟨lit32 32.3, lit32 67.7⟩]⟩) = true := by decide +kernel

/-- dis-rs/src/common/service_request/mod.rs:17 `service_request_internal_consistency` -/
example : consistent (.new_v6 1 5) (.serviceRequest ⟨eid 1 1 2, eid 9 1 1, 4, [⟨⟨6, 0, 0, 0, 0, 0, 0⟩, lit32 678⟩]⟩) = true := by decide +kernel

/-- dis-rs/src/common/set_data/mod.rs:17 `set_data_internal_consistency` -/
example : consistent (.new_v6 1 19) (.setData ⟨eid 10 10 10, eid 20 20 20, 5, [⟨24010, 100⟩], [⟨11130, [1, 2, 3]⟩]⟩) = true := by decide +kernel

/-- dis-rs/src/common/set_data_r/mod.rs:17 `set_data_r_internal_consistency` -/
example : consistent (.new_v6 1 59) (.setDataR ⟨eid 10 10 10, eid 20 20 20, 1, 5, [⟨24010, 100⟩], [⟨11130, [1, 2, 3]⟩]⟩) = true := by decide +kernel

/-- dis-rs/src/common/set_record_r/mod.rs:17 `set_record_r_internal_consistency` -/
example : consistent (.new_v6 1 63) (.setRecordR ⟨eid 10 10 10, eid 20 20 20, 15, 0, [⟨240054, 12345, recordLengthOf [[1, 2, 3], [0x10, 0x20, 0x30]], [[1, 2, 3], [0x10, 0x20, 0x30]]⟩]⟩) = true := by decide +kernel

/-- dis-rs/src/common/signal/mod.rs:17 `signal_internal_consistency` -/
example : consistent (.new_v6 1 26) (.signal ⟨eid 10 10 123, 10, .encodedAudio 0 4, 0, 20000, 20, [0x10, 0x10, 0x10]⟩) = true := by decide +kernel

/-- dis-rs/src/common/start_resume/mod.rs:17 `start_resume_internal_consistency` -/
example : consistent (.new_v6 1 13) (.startResume ⟨eid 10 10 10, eid 20 20 20, ⟨10, 41⟩, ⟨1, 15⟩, 5⟩) = true := by decide +kernel

/-- dis-rs/src/common/start_resume_r/mod.rs:17 `start_resume_r_internal_consistency` -/
example : consistent (.new_v6 1 53) (.startResumeR ⟨eid 10 10 10, eid 20 20 20, ⟨10, 41⟩, ⟨1, 15⟩, 1, 5⟩) = true := by decide +kernel

/-- dis-rs/src/common/stop_freeze/mod.rs:17 `stop_freeze_internal_consistency` -/
example : consistent (.new_v6 1 14) (.stopFreeze ⟨eid 10 10 10, eid 20 20 20, ⟨12, 32⟩, 2, 0, 5⟩) = true := by decide +kernel

/-- dis-rs/src/common/stop_freeze_r/mod.rs:17 `stop_freeze_r_internal_consistency` -/
example : consistent (.new_v6 1 54) (.stopFreezeR ⟨eid 10 10 10, eid 20 20 20, ⟨12, 32⟩, 2, 0, 0, 5⟩) = true := by decide +kernel

/-- dis-rs/src/common/transfer_ownership/mod.rs:17 `transfer_ownership_internal_consistency` -/
example : consistent (.new_v6 1 35) (.transferOwnership ⟨eid 10 10 10, eid 20 20 20, 123, 1, 1, eid 30 30 30, [⟨0, 0, 0, []⟩]⟩) = true := by decide +kernel

/-- dis-rs/src/common/transmitter/mod.rs:18 `transmitter_internal_consistency_v6` -/
example : consistent (.new_v6 1 25) (.transmitter ⟨eid 0 0 0, 0, ⟨0, 0, 0, 0, 0, 0, 0⟩, 1, 0, ⟨0, 0, 0⟩, vec 0 0 0, 0, 10215, 0, lit32 45, ⟨[0, 0, 0], 0, 0, 0⟩, 0, [0, 0], none, none, []⟩) = true := by decide +kernel

/-- dis-rs/src/common/transmitter/mod.rs:49 `transmitter_internal_consistency_v7` -/
example : consistent { PduHeader.new_v7 1 25 with pdu_status := some { transferred_entity_indicator := some 0, lvc_indicator := some 0, coupled_extension_indicator := some 0, radio_attached_indicator := some 0 } } (.transmitter ⟨eid 0 0 0, 0, ⟨0, 0, 0, 0, 0, 0, 0⟩, 1, 0, ⟨0, 0, 0⟩, vec 0 0 0, 0, 10215, 0, lit32 45, ⟨[0, 0, 0], 0, 0, 0⟩, 0, [0, 0], none, none, [⟨34100, [0xFF, 0xEE]⟩]⟩) = true := by decide +kernel

/-- dis-rs/src/common/underwater_acoustic/mod.rs:17 `underwater_acoustic_internal_consistency` -/
example : consistent (.new_v6 1 29) (.underwaterAcoustic ⟨eid 10 10 10, ⟨⟨10, 10⟩, 38⟩, 0, 0, ⟨4, false⟩, [⟨150, 100, 4294967271⟩, ⟨50, 100, 25⟩], [⟨0, 0, 0⟩], [⟨⟨0, 0, 0⟩, vec 0 0 0, [⟨24, 1, ⟨0, 0, 0, 0, 0, 0⟩⟩]⟩]⟩) = true := by decide +kernel

end Verif.Conformance
