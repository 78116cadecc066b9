import Verif.Dis.EntityInfoLemmas
import Verif.Dis.HeaderLemmas
import Verif.Dis.Warfare
import Verif.Dis.Logistics
import Verif.Dis.SimanR
import Verif.Dis.Emission
import Verif.Dis.Iff
import Verif.Dis.Radio
import Verif.Dis.EntityMgmt

/-!
# PDU bodies, PDUs and packets

File names in the comments are relative to dis-rs/src/common.
-/

set_option linter.unusedSimpArgs false
set_option linter.unusedVariables false

namespace Verif.Dis
open Verif.P

/-- other/model.rs:13-18 -/
structure Other where
  originating_entity_id : Option EntityId
  receiving_entity_id : Option EntityId
  body : Bytes
  deriving Repr, DecidableEq

/-- other/parser.rs:11-111 for the types that `pdu_body` sends here (Other, Unspecified and the types it has no
parser for): no origin and no receiver is read, the body is the octets announced by the header. -/
def Other.parse (pdu_length : UInt16) : BP Other := do
  let b ← P.take (pdu_length.toNat - 12)
  pure ⟨none, none, b⟩
/-- other/writer.rs:9-12 -/
def Other.ser (x : Other) : Bytes := x.body
/-- other/model.rs:21-23 (before reduction to 16 bits) -/
def Other.bodyLen (x : Other) : Nat := x.body.length
/-- other/writer.rs:11 -/
def Other.cnt (x : Other) : Nat := x.body.length

/-- model.rs:158-233 `PduBody`; the variants without contents (IntercomSignal, MinefieldState, ...) are
`unsupported` with their PDU type. -/
inductive Body where
  | other (x : Other)
  | unsupported (type : UInt8)
  | entityState (x : EntityState)
  | fire (x : Fire)
  | detonation (x : Detonation)
  | collision (x : Collision)
  | serviceRequest (x : ServiceRequest)
  | resupplyOffer (x : ResupplyOffer)
  | resupplyReceived (x : ResupplyReceived)
  | resupplyCancel (x : ResupplyCancel)
  | repairComplete (x : RepairComplete)
  | repairResponse (x : RepairResponse)
  | createEntity (x : CreateEntity)
  | removeEntity (x : RemoveEntity)
  | startResume (x : StartResume)
  | stopFreeze (x : StopFreeze)
  | acknowledge (x : Acknowledge)
  | actionRequest (x : ActionRequest)
  | actionResponse (x : ActionResponse)
  | dataQuery (x : DataQuery)
  | setData (x : SetData)
  | data (x : Data)
  | eventReport (x : EventReport)
  | comment (x : Comment)
  | electromagneticEmission (x : ElectromagneticEmission)
  | designator (x : Designator)
  | transmitter (x : Transmitter)
  | signal (x : Signal)
  | receiver (x : Receiver)
  | iff (x : Iff)
  | underwaterAcoustic (x : UnderwaterAcoustic)
  | sees (x : SEES)
  | aggregateState (x : AggregateState)
  | isGroupOf (x : IsGroupOf)
  | transferOwnership (x : TransferOwnership)
  | isPartOf (x : IsPartOf)
  | createEntityR (x : CreateEntityR)
  | removeEntityR (x : RemoveEntityR)
  | startResumeR (x : StartResumeR)
  | stopFreezeR (x : StopFreezeR)
  | acknowledgeR (x : AcknowledgeR)
  | actionRequestR (x : ActionRequestR)
  | actionResponseR (x : ActionResponseR)
  | dataQueryR (x : DataQueryR)
  | setDataR (x : SetDataR)
  | dataR (x : DataR)
  | eventReportR (x : EventReportR)
  | commentR (x : CommentR)
  | recordR (x : RecordR)
  | setRecordR (x : SetRecordR)
  | recordQueryR (x : RecordQueryR)
  | collisionElastic (x : CollisionElastic)
  | entityStateUpdate (x : EntityStateUpdate)
  | «attribute» (x : Attribute)
  deriving Repr, DecidableEq

/-- The PDU types of the variants of `PduBody` without contents (model.rs:269-309). -/
def contentless : List UInt8 := [31, 32, 37, 38, 39, 40, 41, 42, 43, 44, 45, 46, 47, 48, 49, 50, 68, 69, 70, 71]

/-- model.rs:314-391 `PduBody::body_type` and the `body_type` of every body (raw SISO-REF-010 values) -/
def Body.pduType : Body → UInt8
  | .other _ => 0
  | .unsupported t => t
  | .entityState _ => 1
  | .fire _ => 2
  | .detonation _ => 3
  | .collision _ => 4
  | .serviceRequest _ => 5
  | .resupplyOffer _ => 6
  | .resupplyReceived _ => 7
  | .resupplyCancel _ => 8
  | .repairComplete _ => 9
  | .repairResponse _ => 10
  | .createEntity _ => 11
  | .removeEntity _ => 12
  | .startResume _ => 13
  | .stopFreeze _ => 14
  | .acknowledge _ => 15
  | .actionRequest _ => 16
  | .actionResponse _ => 17
  | .dataQuery _ => 18
  | .setData _ => 19
  | .data _ => 20
  | .eventReport _ => 21
  | .comment _ => 22
  | .electromagneticEmission _ => 23
  | .designator _ => 24
  | .transmitter _ => 25
  | .signal _ => 26
  | .receiver _ => 27
  | .iff _ => 28
  | .underwaterAcoustic _ => 29
  | .sees _ => 30
  | .aggregateState _ => 33
  | .isGroupOf _ => 34
  | .transferOwnership _ => 35
  | .isPartOf _ => 36
  | .createEntityR _ => 51
  | .removeEntityR _ => 52
  | .startResumeR _ => 53
  | .stopFreezeR _ => 54
  | .acknowledgeR _ => 55
  | .actionRequestR _ => 56
  | .actionResponseR _ => 57
  | .dataQueryR _ => 58
  | .setDataR _ => 59
  | .dataR _ => 60
  | .eventReportR _ => 61
  | .commentR _ => 62
  | .recordR _ => 63
  | .setRecordR _ => 64
  | .recordQueryR _ => 65
  | .collisionElastic _ => 66
  | .entityStateUpdate _ => 67
  | .«attribute» _ => 72

/-- model.rs:236-312 `PduBody::body_length` (before reduction to 16 bits) -/
def Body.bodyLen : Body → Nat
  | .other x => x.bodyLen
  | .unsupported _ => 0
  | .entityState x => x.bodyLen
  | .fire x => x.bodyLen
  | .detonation x => x.bodyLen
  | .collision x => x.bodyLen
  | .serviceRequest x => x.bodyLen
  | .resupplyOffer x => x.bodyLen
  | .resupplyReceived x => x.bodyLen
  | .resupplyCancel x => x.bodyLen
  | .repairComplete x => x.bodyLen
  | .repairResponse x => x.bodyLen
  | .createEntity x => x.bodyLen
  | .removeEntity x => x.bodyLen
  | .startResume x => x.bodyLen
  | .stopFreeze x => x.bodyLen
  | .acknowledge x => x.bodyLen
  | .actionRequest x => x.bodyLen
  | .actionResponse x => x.bodyLen
  | .dataQuery x => x.bodyLen
  | .setData x => x.bodyLen
  | .data x => x.bodyLen
  | .eventReport x => x.bodyLen
  | .comment x => x.bodyLen
  | .electromagneticEmission x => x.bodyLen
  | .designator x => x.bodyLen
  | .transmitter x => x.bodyLen
  | .signal x => x.bodyLen
  | .receiver x => x.bodyLen
  | .iff x => x.bodyLen
  | .underwaterAcoustic x => x.bodyLen
  | .sees x => x.bodyLen
  | .aggregateState x => x.bodyLen
  | .isGroupOf x => x.bodyLen
  | .transferOwnership x => x.bodyLen
  | .isPartOf x => x.bodyLen
  | .createEntityR x => x.bodyLen
  | .removeEntityR x => x.bodyLen
  | .startResumeR x => x.bodyLen
  | .stopFreezeR x => x.bodyLen
  | .acknowledgeR x => x.bodyLen
  | .actionRequestR x => x.bodyLen
  | .actionResponseR x => x.bodyLen
  | .dataQueryR x => x.bodyLen
  | .setDataR x => x.bodyLen
  | .dataR x => x.bodyLen
  | .eventReportR x => x.bodyLen
  | .commentR x => x.bodyLen
  | .recordR x => x.bodyLen
  | .setRecordR x => x.bodyLen
  | .recordQueryR x => x.bodyLen
  | .collisionElastic x => x.bodyLen
  | .entityStateUpdate x => x.bodyLen
  | .«attribute» x => x.bodyLen

/-- writer.rs:42-112: the octets written for a body; `ver` is the protocol version of the header -/
def Body.ser (ver : UInt8) : Body → Bytes
  | .other x => x.ser
  | .unsupported _ => []
  | .entityState x => x.ser ver
  | .fire x => x.ser
  | .detonation x => x.ser
  | .collision x => x.ser
  | .serviceRequest x => x.ser
  | .resupplyOffer x => x.ser
  | .resupplyReceived x => x.ser
  | .resupplyCancel x => x.ser
  | .repairComplete x => x.ser
  | .repairResponse x => x.ser
  | .createEntity x => x.ser
  | .removeEntity x => x.ser
  | .startResume x => x.ser
  | .stopFreeze x => x.ser
  | .acknowledge x => x.ser
  | .actionRequest x => x.ser
  | .actionResponse x => x.ser
  | .dataQuery x => x.ser
  | .setData x => x.ser
  | .data x => x.ser
  | .eventReport x => x.ser
  | .comment x => x.ser
  | .electromagneticEmission x => x.ser
  | .designator x => x.ser
  | .transmitter x => x.ser
  | .signal x => x.ser
  | .receiver x => x.ser
  | .iff x => x.ser
  | .underwaterAcoustic x => x.ser
  | .sees x => x.ser
  | .aggregateState x => x.ser
  | .isGroupOf x => x.ser
  | .transferOwnership x => x.ser
  | .isPartOf x => x.ser
  | .createEntityR x => x.ser
  | .removeEntityR x => x.ser
  | .startResumeR x => x.ser
  | .stopFreezeR x => x.ser
  | .acknowledgeR x => x.ser
  | .actionRequestR x => x.ser
  | .actionResponseR x => x.ser
  | .dataQueryR x => x.ser
  | .setDataR x => x.ser
  | .dataR x => x.ser
  | .eventReportR x => x.ser
  | .commentR x => x.ser
  | .recordR x => x.ser
  | .setRecordR x => x.ser
  | .recordQueryR x => x.ser
  | .collisionElastic x => x.ser
  | .entityStateUpdate x => x.ser
  | .«attribute» x => x.ser

/-- writer.rs:42-112: the count returned for a body (before reduction to 16 bits) -/
def Body.cnt : Body → Nat
  | .other x => x.cnt
  | .unsupported _ => 0
  | .entityState x => x.cnt
  | .fire x => x.cnt
  | .detonation x => x.cnt
  | .collision x => x.cnt
  | .serviceRequest x => x.cnt
  | .resupplyOffer x => x.cnt
  | .resupplyReceived x => x.cnt
  | .resupplyCancel x => x.cnt
  | .repairComplete x => x.cnt
  | .repairResponse x => x.cnt
  | .createEntity x => x.cnt
  | .removeEntity x => x.cnt
  | .startResume x => x.cnt
  | .stopFreeze x => x.cnt
  | .acknowledge x => x.cnt
  | .actionRequest x => x.cnt
  | .actionResponse x => x.cnt
  | .dataQuery x => x.cnt
  | .setData x => x.cnt
  | .data x => x.cnt
  | .eventReport x => x.cnt
  | .comment x => x.cnt
  | .electromagneticEmission x => x.cnt
  | .designator x => x.cnt
  | .transmitter x => x.cnt
  | .signal x => x.cnt
  | .receiver x => x.cnt
  | .iff x => x.cnt
  | .underwaterAcoustic x => x.cnt
  | .sees x => x.cnt
  | .aggregateState x => x.cnt
  | .isGroupOf x => x.cnt
  | .transferOwnership x => x.cnt
  | .isPartOf x => x.cnt
  | .createEntityR x => x.cnt
  | .removeEntityR x => x.cnt
  | .startResumeR x => x.cnt
  | .stopFreezeR x => x.cnt
  | .acknowledgeR x => x.cnt
  | .actionRequestR x => x.cnt
  | .actionResponseR x => x.cnt
  | .dataQueryR x => x.cnt
  | .setDataR x => x.cnt
  | .dataR x => x.cnt
  | .eventReportR x => x.cnt
  | .commentR x => x.cnt
  | .recordR x => x.cnt
  | .setRecordR x => x.cnt
  | .recordQueryR x => x.cnt
  | .collisionElastic x => x.cnt
  | .entityStateUpdate x => x.cnt
  | .«attribute» x => x.cnt

/-- action_response_r/parser.rs: the parsed fields are stored in an `ActionResponse`, not an `ActionResponseR` -/
def ActionResponseR.asActionResponse (x : ActionResponseR) : ActionResponse :=
  ⟨x.originating_id, x.receiving_id, x.request_id, x.request_status, x.fixed_datum_records, x.variable_datum_records⟩

/-- parser.rs:192-275 `pdu_body` -/
def parseBody (env : Env) (h : PduHeader) : BP Body :=
  if h.pdu_type = 1 then do let x ← EntityState.parse env h.protocol_version; pure (.entityState x)
  else if h.pdu_type = 2 then do let x ← Fire.parse (headerFti h); pure (.fire x)
  else if h.pdu_type = 3 then do let x ← Detonation.parse (headerDti h); pure (.detonation x)
  else if h.pdu_type = 4 then do let x ← Collision.parse; pure (.collision x)
  else if h.pdu_type = 5 then do let x ← ServiceRequest.parse; pure (.serviceRequest x)
  else if h.pdu_type = 6 then do let x ← ResupplyOffer.parse; pure (.resupplyOffer x)
  else if h.pdu_type = 7 then do let x ← ResupplyReceived.parse; pure (.resupplyReceived x)
  else if h.pdu_type = 8 then do let x ← ResupplyCancel.parse; pure (.resupplyCancel x)
  else if h.pdu_type = 9 then do let x ← RepairComplete.parse; pure (.repairComplete x)
  else if h.pdu_type = 10 then do let x ← RepairResponse.parse; pure (.repairResponse x)
  else if h.pdu_type = 11 then do let x ← CreateEntity.parse; pure (.createEntity x)
  else if h.pdu_type = 12 then do let x ← RemoveEntity.parse; pure (.removeEntity x)
  else if h.pdu_type = 13 then do let x ← StartResume.parse; pure (.startResume x)
  else if h.pdu_type = 14 then do let x ← StopFreeze.parse; pure (.stopFreeze x)
  else if h.pdu_type = 15 then do let x ← Acknowledge.parse; pure (.acknowledge x)
  else if h.pdu_type = 16 then do let x ← ActionRequest.parse; pure (.actionRequest x)
  else if h.pdu_type = 17 then do let x ← ActionResponse.parse; pure (.actionResponse x)
  else if h.pdu_type = 18 then do let x ← DataQuery.parse; pure (.dataQuery x)
  else if h.pdu_type = 19 then do let x ← SetData.parse; pure (.setData x)
  else if h.pdu_type = 20 then do let x ← Data.parse; pure (.data x)
  else if h.pdu_type = 21 then do let x ← EventReport.parse; pure (.eventReport x)
  else if h.pdu_type = 22 then do let x ← Comment.parse; pure (.comment x)
  else if h.pdu_type = 23 then do let x ← ElectromagneticEmission.parse; pure (.electromagneticEmission x)
  else if h.pdu_type = 24 then do let x ← Designator.parse; pure (.designator x)
  else if h.pdu_type = 25 then do let x ← Transmitter.parse env.checked h.protocol_version; pure (.transmitter x)
  else if h.pdu_type = 26 then do let x ← Signal.parse; pure (.signal x)
  else if h.pdu_type = 27 then do let x ← Receiver.parse; pure (.receiver x)
  else if h.pdu_type = 28 then do let x ← Iff.parse env; pure (.iff x)
  else if h.pdu_type = 29 then do let x ← UnderwaterAcoustic.parse; pure (.underwaterAcoustic x)
  else if h.pdu_type = 30 then do let x ← SEES.parse; pure (.sees x)
  else if h.pdu_type = 33 then do let x ← AggregateState.parse env; pure (.aggregateState x)
  else if h.pdu_type = 34 then do let x ← IsGroupOf.parse env; pure (.isGroupOf x)
  else if h.pdu_type = 35 then do let x ← TransferOwnership.parse env.checked; pure (.transferOwnership x)
  else if h.pdu_type = 36 then do let x ← IsPartOf.parse; pure (.isPartOf x)
  else if h.pdu_type = 51 then do let x ← CreateEntityR.parse; pure (.createEntityR x)
  else if h.pdu_type = 52 then do let x ← RemoveEntityR.parse; pure (.removeEntityR x)
  else if h.pdu_type = 53 then do let x ← StartResumeR.parse; pure (.startResumeR x)
  else if h.pdu_type = 54 then do let x ← StopFreezeR.parse; pure (.stopFreezeR x)
  else if h.pdu_type = 55 then do let x ← AcknowledgeR.parse; pure (.acknowledgeR x)
  else if h.pdu_type = 56 then do let x ← ActionRequestR.parse; pure (.actionRequestR x)
  else if h.pdu_type = 57 then do let x ← ActionResponseR.parse; pure (.actionResponse x.asActionResponse)
  else if h.pdu_type = 58 then do let x ← DataQueryR.parse; pure (.dataQueryR x)
  else if h.pdu_type = 59 then do let x ← SetDataR.parse; pure (.setDataR x)
  else if h.pdu_type = 60 then do let x ← DataR.parse; pure (.dataR x)
  else if h.pdu_type = 61 then do let x ← EventReportR.parse; pure (.eventReportR x)
  else if h.pdu_type = 62 then do let x ← CommentR.parse; pure (.commentR x)
  else if h.pdu_type = 63 then do let x ← RecordR.parse env.checked; pure (.recordR x)
  else if h.pdu_type = 64 then do let x ← SetRecordR.parse env.checked; pure (.setRecordR x)
  else if h.pdu_type = 65 then do let x ← RecordQueryR.parse; pure (.recordQueryR x)
  else if h.pdu_type = 66 then do let x ← CollisionElastic.parse; pure (.collisionElastic x)
  else if h.pdu_type = 67 then do let x ← EntityStateUpdate.parse; pure (.entityStateUpdate x)
  else if h.pdu_type = 72 then do let x ← Attribute.parse; pure (.«attribute» x)
  else do let x ← Other.parse h.pdu_length; pure (.other x)

/-! ## Specification -/

/-- The PDU types the library has a body for. -/
def supportedTypes : List UInt8 :=
  [1, 2, 3, 4, 5, 6, 7, 8, 9, 10, 11, 12, 13, 14, 15, 16, 17, 18, 19, 20, 21, 22, 23, 24, 25, 26, 27, 28, 29, 30, 33, 34, 35, 36, 51, 52, 53, 54, 55, 56, 57, 58, 59, 60, 61, 62, 63, 64, 65, 66, 67, 72]

/-- A body is representable in a PDU with header `h`: the header announces its type, and its fields fit their wire
format (cases that the codec gets wrong are excluded here and dealt with in separate theorems). -/
def Body.Wf (env : Env) (h : PduHeader) : Body → Prop
  | .other x => h.pdu_type ∉ supportedTypes ∧ x.originating_entity_id = none ∧ x.receiving_entity_id = none
      ∧ h.pdu_length.toNat = 12 + x.body.length
  | .unsupported _ => False
  | .entityState x => h.pdu_type = 1 ∧ (x.Wf env h.protocol_version ∧ VariableParameters.NoSeparation x.variable_parameters)
  | .fire x => h.pdu_type = 2 ∧ (x.descriptor.MatchesFti (headerFti h))
  | .detonation x => h.pdu_type = 3 ∧ (x.descriptor.MatchesDti (headerDti h) ∧ x.descriptor.NotExplosion ∧ VariableParameters.Wf x.variable_parameters
      ∧ VariableParameters.NoSeparation x.variable_parameters)
  | .collision x => h.pdu_type = 4
  | .serviceRequest x => h.pdu_type = 5 ∧ (x.Wf)
  | .resupplyOffer x => h.pdu_type = 6 ∧ (x.Wf)
  | .resupplyReceived x => h.pdu_type = 7 ∧ (x.Wf)
  | .resupplyCancel x => h.pdu_type = 8
  | .repairComplete x => h.pdu_type = 9
  | .repairResponse x => h.pdu_type = 10
  | .createEntity x => h.pdu_type = 11
  | .removeEntity x => h.pdu_type = 12
  | .startResume x => h.pdu_type = 13
  | .stopFreeze x => h.pdu_type = 14
  | .acknowledge x => h.pdu_type = 15
  | .actionRequest x => h.pdu_type = 16 ∧ (x.Wf)
  | .actionResponse x => h.pdu_type = 17 ∧ (x.Wf)
  | .dataQuery x => h.pdu_type = 18 ∧ (x.Wf)
  | .setData x => h.pdu_type = 19 ∧ (x.Wf)
  | .data x => h.pdu_type = 20 ∧ (x.Wf)
  | .eventReport x => h.pdu_type = 21 ∧ (x.Wf)
  | .comment x => h.pdu_type = 22 ∧ (x.Wf)
  | .electromagneticEmission x => h.pdu_type = 23 ∧ (x.Wf)
  | .designator x => h.pdu_type = 24
  | .transmitter x => h.pdu_type = 25 ∧ (x.Wf h.protocol_version)
  | .signal x => h.pdu_type = 26 ∧ (x.Wf ∧ x.data.length % 4 = 0)
  | .receiver x => h.pdu_type = 27
  | .iff x => h.pdu_type = 28 ∧ (x.Wf env ∧ x.Forced)
  | .underwaterAcoustic x => h.pdu_type = 29 ∧ (x.Wf ∧ ∀ a ∈ x.apas, a.Zero)
  | .sees x => h.pdu_type = 30 ∧ (x.Wf)
  | .aggregateState x => h.pdu_type = 33 ∧ (x.Wf env)
  | .isGroupOf x => h.pdu_type = 34 ∧ (x.Wf env)
  | .transferOwnership x => h.pdu_type = 35 ∧ (Records.Wf x.record_specification)
  | .isPartOf x => h.pdu_type = 36
  | .createEntityR x => h.pdu_type = 51
  | .removeEntityR x => h.pdu_type = 52
  | .startResumeR x => h.pdu_type = 53
  | .stopFreezeR x => h.pdu_type = 54
  | .acknowledgeR x => h.pdu_type = 55
  | .actionRequestR x => h.pdu_type = 56 ∧ (x.Wf)
  | .actionResponseR x => h.pdu_type = 57 ∧ (False)
  | .dataQueryR x => h.pdu_type = 58 ∧ (x.Wf)
  | .setDataR x => h.pdu_type = 59 ∧ (x.Wf)
  | .dataR x => h.pdu_type = 60 ∧ (x.Wf)
  | .eventReportR x => h.pdu_type = 61 ∧ (x.Wf)
  | .commentR x => h.pdu_type = 62 ∧ (x.Wf)
  | .recordR x => h.pdu_type = 63 ∧ (x.Wf)
  | .setRecordR x => h.pdu_type = 64 ∧ (x.Wf)
  | .recordQueryR x => h.pdu_type = 65 ∧ (x.Wf)
  | .collisionElastic x => h.pdu_type = 66
  | .entityStateUpdate x => h.pdu_type = 67 ∧ (x.Wf ∧ VariableParameters.NoSeparation x.variable_parameters)
  | .«attribute» x => h.pdu_type = 72 ∧ (x.Wf)

/-! ## Dispatch -/

theorem parseBody_entityState (env : Env) {h : PduHeader} (ht : h.pdu_type = 1) :
    parseBody env h = (do let x ← EntityState.parse env h.protocol_version; pure (.entityState x)) := by
  unfold parseBody
  simp (decide := true) only [ht, if_true, if_false]
theorem parseBody_fire (env : Env) {h : PduHeader} (ht : h.pdu_type = 2) :
    parseBody env h = (do let x ← Fire.parse (headerFti h); pure (.fire x)) := by
  unfold parseBody
  simp (decide := true) only [ht, if_true, if_false]
theorem parseBody_detonation (env : Env) {h : PduHeader} (ht : h.pdu_type = 3) :
    parseBody env h = (do let x ← Detonation.parse (headerDti h); pure (.detonation x)) := by
  unfold parseBody
  simp (decide := true) only [ht, if_true, if_false]
theorem parseBody_collision (env : Env) {h : PduHeader} (ht : h.pdu_type = 4) :
    parseBody env h = (do let x ← Collision.parse; pure (.collision x)) := by
  unfold parseBody
  simp (decide := true) only [ht, if_true, if_false]
theorem parseBody_serviceRequest (env : Env) {h : PduHeader} (ht : h.pdu_type = 5) :
    parseBody env h = (do let x ← ServiceRequest.parse; pure (.serviceRequest x)) := by
  unfold parseBody
  simp (decide := true) only [ht, if_true, if_false]
theorem parseBody_resupplyOffer (env : Env) {h : PduHeader} (ht : h.pdu_type = 6) :
    parseBody env h = (do let x ← ResupplyOffer.parse; pure (.resupplyOffer x)) := by
  unfold parseBody
  simp (decide := true) only [ht, if_true, if_false]
theorem parseBody_resupplyReceived (env : Env) {h : PduHeader} (ht : h.pdu_type = 7) :
    parseBody env h = (do let x ← ResupplyReceived.parse; pure (.resupplyReceived x)) := by
  unfold parseBody
  simp (decide := true) only [ht, if_true, if_false]
theorem parseBody_resupplyCancel (env : Env) {h : PduHeader} (ht : h.pdu_type = 8) :
    parseBody env h = (do let x ← ResupplyCancel.parse; pure (.resupplyCancel x)) := by
  unfold parseBody
  simp (decide := true) only [ht, if_true, if_false]
theorem parseBody_repairComplete (env : Env) {h : PduHeader} (ht : h.pdu_type = 9) :
    parseBody env h = (do let x ← RepairComplete.parse; pure (.repairComplete x)) := by
  unfold parseBody
  simp (decide := true) only [ht, if_true, if_false]
theorem parseBody_repairResponse (env : Env) {h : PduHeader} (ht : h.pdu_type = 10) :
    parseBody env h = (do let x ← RepairResponse.parse; pure (.repairResponse x)) := by
  unfold parseBody
  simp (decide := true) only [ht, if_true, if_false]
theorem parseBody_createEntity (env : Env) {h : PduHeader} (ht : h.pdu_type = 11) :
    parseBody env h = (do let x ← CreateEntity.parse; pure (.createEntity x)) := by
  unfold parseBody
  simp (decide := true) only [ht, if_true, if_false]
theorem parseBody_removeEntity (env : Env) {h : PduHeader} (ht : h.pdu_type = 12) :
    parseBody env h = (do let x ← RemoveEntity.parse; pure (.removeEntity x)) := by
  unfold parseBody
  simp (decide := true) only [ht, if_true, if_false]
theorem parseBody_startResume (env : Env) {h : PduHeader} (ht : h.pdu_type = 13) :
    parseBody env h = (do let x ← StartResume.parse; pure (.startResume x)) := by
  unfold parseBody
  simp (decide := true) only [ht, if_true, if_false]
theorem parseBody_stopFreeze (env : Env) {h : PduHeader} (ht : h.pdu_type = 14) :
    parseBody env h = (do let x ← StopFreeze.parse; pure (.stopFreeze x)) := by
  unfold parseBody
  simp (decide := true) only [ht, if_true, if_false]
theorem parseBody_acknowledge (env : Env) {h : PduHeader} (ht : h.pdu_type = 15) :
    parseBody env h = (do let x ← Acknowledge.parse; pure (.acknowledge x)) := by
  unfold parseBody
  simp (decide := true) only [ht, if_true, if_false]
theorem parseBody_actionRequest (env : Env) {h : PduHeader} (ht : h.pdu_type = 16) :
    parseBody env h = (do let x ← ActionRequest.parse; pure (.actionRequest x)) := by
  unfold parseBody
  simp (decide := true) only [ht, if_true, if_false]
theorem parseBody_actionResponse (env : Env) {h : PduHeader} (ht : h.pdu_type = 17) :
    parseBody env h = (do let x ← ActionResponse.parse; pure (.actionResponse x)) := by
  unfold parseBody
  simp (decide := true) only [ht, if_true, if_false]
theorem parseBody_dataQuery (env : Env) {h : PduHeader} (ht : h.pdu_type = 18) :
    parseBody env h = (do let x ← DataQuery.parse; pure (.dataQuery x)) := by
  unfold parseBody
  simp (decide := true) only [ht, if_true, if_false]
theorem parseBody_setData (env : Env) {h : PduHeader} (ht : h.pdu_type = 19) :
    parseBody env h = (do let x ← SetData.parse; pure (.setData x)) := by
  unfold parseBody
  simp (decide := true) only [ht, if_true, if_false]
theorem parseBody_data (env : Env) {h : PduHeader} (ht : h.pdu_type = 20) :
    parseBody env h = (do let x ← Data.parse; pure (.data x)) := by
  unfold parseBody
  simp (decide := true) only [ht, if_true, if_false]
theorem parseBody_eventReport (env : Env) {h : PduHeader} (ht : h.pdu_type = 21) :
    parseBody env h = (do let x ← EventReport.parse; pure (.eventReport x)) := by
  unfold parseBody
  simp (decide := true) only [ht, if_true, if_false]
theorem parseBody_comment (env : Env) {h : PduHeader} (ht : h.pdu_type = 22) :
    parseBody env h = (do let x ← Comment.parse; pure (.comment x)) := by
  unfold parseBody
  simp (decide := true) only [ht, if_true, if_false]
theorem parseBody_electromagneticEmission (env : Env) {h : PduHeader} (ht : h.pdu_type = 23) :
    parseBody env h = (do let x ← ElectromagneticEmission.parse; pure (.electromagneticEmission x)) := by
  unfold parseBody
  simp (decide := true) only [ht, if_true, if_false]
theorem parseBody_designator (env : Env) {h : PduHeader} (ht : h.pdu_type = 24) :
    parseBody env h = (do let x ← Designator.parse; pure (.designator x)) := by
  unfold parseBody
  simp (decide := true) only [ht, if_true, if_false]
theorem parseBody_transmitter (env : Env) {h : PduHeader} (ht : h.pdu_type = 25) :
    parseBody env h = (do let x ← Transmitter.parse env.checked h.protocol_version; pure (.transmitter x)) := by
  unfold parseBody
  simp (decide := true) only [ht, if_true, if_false]
theorem parseBody_signal (env : Env) {h : PduHeader} (ht : h.pdu_type = 26) :
    parseBody env h = (do let x ← Signal.parse; pure (.signal x)) := by
  unfold parseBody
  simp (decide := true) only [ht, if_true, if_false]
theorem parseBody_receiver (env : Env) {h : PduHeader} (ht : h.pdu_type = 27) :
    parseBody env h = (do let x ← Receiver.parse; pure (.receiver x)) := by
  unfold parseBody
  simp (decide := true) only [ht, if_true, if_false]
theorem parseBody_iff (env : Env) {h : PduHeader} (ht : h.pdu_type = 28) :
    parseBody env h = (do let x ← Iff.parse env; pure (.iff x)) := by
  unfold parseBody
  simp (decide := true) only [ht, if_true, if_false]
theorem parseBody_underwaterAcoustic (env : Env) {h : PduHeader} (ht : h.pdu_type = 29) :
    parseBody env h = (do let x ← UnderwaterAcoustic.parse; pure (.underwaterAcoustic x)) := by
  unfold parseBody
  simp (decide := true) only [ht, if_true, if_false]
theorem parseBody_sees (env : Env) {h : PduHeader} (ht : h.pdu_type = 30) :
    parseBody env h = (do let x ← SEES.parse; pure (.sees x)) := by
  unfold parseBody
  simp (decide := true) only [ht, if_true, if_false]
theorem parseBody_aggregateState (env : Env) {h : PduHeader} (ht : h.pdu_type = 33) :
    parseBody env h = (do let x ← AggregateState.parse env; pure (.aggregateState x)) := by
  unfold parseBody
  simp (decide := true) only [ht, if_true, if_false]
theorem parseBody_isGroupOf (env : Env) {h : PduHeader} (ht : h.pdu_type = 34) :
    parseBody env h = (do let x ← IsGroupOf.parse env; pure (.isGroupOf x)) := by
  unfold parseBody
  simp (decide := true) only [ht, if_true, if_false]
theorem parseBody_transferOwnership (env : Env) {h : PduHeader} (ht : h.pdu_type = 35) :
    parseBody env h = (do let x ← TransferOwnership.parse env.checked; pure (.transferOwnership x)) := by
  unfold parseBody
  simp (decide := true) only [ht, if_true, if_false]
theorem parseBody_isPartOf (env : Env) {h : PduHeader} (ht : h.pdu_type = 36) :
    parseBody env h = (do let x ← IsPartOf.parse; pure (.isPartOf x)) := by
  unfold parseBody
  simp (decide := true) only [ht, if_true, if_false]
theorem parseBody_createEntityR (env : Env) {h : PduHeader} (ht : h.pdu_type = 51) :
    parseBody env h = (do let x ← CreateEntityR.parse; pure (.createEntityR x)) := by
  unfold parseBody
  simp (decide := true) only [ht, if_true, if_false]
theorem parseBody_removeEntityR (env : Env) {h : PduHeader} (ht : h.pdu_type = 52) :
    parseBody env h = (do let x ← RemoveEntityR.parse; pure (.removeEntityR x)) := by
  unfold parseBody
  simp (decide := true) only [ht, if_true, if_false]
theorem parseBody_startResumeR (env : Env) {h : PduHeader} (ht : h.pdu_type = 53) :
    parseBody env h = (do let x ← StartResumeR.parse; pure (.startResumeR x)) := by
  unfold parseBody
  simp (decide := true) only [ht, if_true, if_false]
theorem parseBody_stopFreezeR (env : Env) {h : PduHeader} (ht : h.pdu_type = 54) :
    parseBody env h = (do let x ← StopFreezeR.parse; pure (.stopFreezeR x)) := by
  unfold parseBody
  simp (decide := true) only [ht, if_true, if_false]
theorem parseBody_acknowledgeR (env : Env) {h : PduHeader} (ht : h.pdu_type = 55) :
    parseBody env h = (do let x ← AcknowledgeR.parse; pure (.acknowledgeR x)) := by
  unfold parseBody
  simp (decide := true) only [ht, if_true, if_false]
theorem parseBody_actionRequestR (env : Env) {h : PduHeader} (ht : h.pdu_type = 56) :
    parseBody env h = (do let x ← ActionRequestR.parse; pure (.actionRequestR x)) := by
  unfold parseBody
  simp (decide := true) only [ht, if_true, if_false]
theorem parseBody_dataQueryR (env : Env) {h : PduHeader} (ht : h.pdu_type = 58) :
    parseBody env h = (do let x ← DataQueryR.parse; pure (.dataQueryR x)) := by
  unfold parseBody
  simp (decide := true) only [ht, if_true, if_false]
theorem parseBody_setDataR (env : Env) {h : PduHeader} (ht : h.pdu_type = 59) :
    parseBody env h = (do let x ← SetDataR.parse; pure (.setDataR x)) := by
  unfold parseBody
  simp (decide := true) only [ht, if_true, if_false]
theorem parseBody_dataR (env : Env) {h : PduHeader} (ht : h.pdu_type = 60) :
    parseBody env h = (do let x ← DataR.parse; pure (.dataR x)) := by
  unfold parseBody
  simp (decide := true) only [ht, if_true, if_false]
theorem parseBody_eventReportR (env : Env) {h : PduHeader} (ht : h.pdu_type = 61) :
    parseBody env h = (do let x ← EventReportR.parse; pure (.eventReportR x)) := by
  unfold parseBody
  simp (decide := true) only [ht, if_true, if_false]
theorem parseBody_commentR (env : Env) {h : PduHeader} (ht : h.pdu_type = 62) :
    parseBody env h = (do let x ← CommentR.parse; pure (.commentR x)) := by
  unfold parseBody
  simp (decide := true) only [ht, if_true, if_false]
theorem parseBody_recordR (env : Env) {h : PduHeader} (ht : h.pdu_type = 63) :
    parseBody env h = (do let x ← RecordR.parse env.checked; pure (.recordR x)) := by
  unfold parseBody
  simp (decide := true) only [ht, if_true, if_false]
theorem parseBody_setRecordR (env : Env) {h : PduHeader} (ht : h.pdu_type = 64) :
    parseBody env h = (do let x ← SetRecordR.parse env.checked; pure (.setRecordR x)) := by
  unfold parseBody
  simp (decide := true) only [ht, if_true, if_false]
theorem parseBody_recordQueryR (env : Env) {h : PduHeader} (ht : h.pdu_type = 65) :
    parseBody env h = (do let x ← RecordQueryR.parse; pure (.recordQueryR x)) := by
  unfold parseBody
  simp (decide := true) only [ht, if_true, if_false]
theorem parseBody_collisionElastic (env : Env) {h : PduHeader} (ht : h.pdu_type = 66) :
    parseBody env h = (do let x ← CollisionElastic.parse; pure (.collisionElastic x)) := by
  unfold parseBody
  simp (decide := true) only [ht, if_true, if_false]
theorem parseBody_entityStateUpdate (env : Env) {h : PduHeader} (ht : h.pdu_type = 67) :
    parseBody env h = (do let x ← EntityStateUpdate.parse; pure (.entityStateUpdate x)) := by
  unfold parseBody
  simp (decide := true) only [ht, if_true, if_false]
theorem parseBody_attribute (env : Env) {h : PduHeader} (ht : h.pdu_type = 72) :
    parseBody env h = (do let x ← Attribute.parse; pure (.«attribute» x)) := by
  unfold parseBody
  simp (decide := true) only [ht, if_true, if_false]
theorem parseBody_actionResponseR (env : Env) {h : PduHeader} (ht : h.pdu_type = 57) :
    parseBody env h = (do let x ← ActionResponseR.parse; pure (.actionResponse x.asActionResponse)) := by
  unfold parseBody
  simp (decide := true) only [ht, if_true, if_false]
theorem parseBody_other (env : Env) {h : PduHeader} (ht : h.pdu_type ∉ supportedTypes) :
    parseBody env h = (do let x ← Other.parse h.pdu_length; pure (.other x)) := by
  simp only [supportedTypes, List.mem_cons, List.not_mem_nil, not_or, not_false_eq_true, and_true] at ht
  unfold parseBody
  simp only [ht, if_false]

theorem Signal.parse_ser_aligned {x : Signal} (h : x.Wf) (ha : x.data.length % 4 = 0) (r : Bytes) :
    Signal.parse.run (x.ser ++ r) = .ok x r := by
  rw [Signal.parse_ser h, lengthPadded_aligned ha]; rfl
theorem Other.parse_ser {x : Other} {n : UInt16} (h1 : x.originating_entity_id = none) (h2 : x.receiving_entity_id = none)
    (hn : n.toNat = 12 + x.body.length) (r : Bytes) : (Other.parse n).run (x.ser ++ r) = .ok x r := by
  obtain ⟨a, b, c⟩ := x
  simp only at h1 h2 hn
  subst h1 h2
  simp only [Other.parse, Other.ser, P.run_bind]
  rw [P.run_take _ _ _ (by omega)]
  simp only [rt]

/-- Every well-formed body is read back from its own encoding, leaving what follows. -/
theorem parseBody_ser {env : Env} {h : PduHeader} {b : Body} (hb : b.Wf env h) (r : Bytes) :
    (parseBody env h).run (b.ser h.protocol_version ++ r) = .ok b r := by
  cases b with
  | other x =>
    obtain ⟨ht, h1, h2, h3⟩ := hb
    rw [parseBody_other env ht]
    simp only [Body.ser, rt, Other.parse_ser h1 h2 h3]
  | unsupported t => exact hb.elim
  | entityState x =>
    obtain ⟨ht, hw⟩ := hb
    rw [parseBody_entityState env ht]
    simp only [Body.ser, rt, EntityState.parse_ser hw.1 hw.2 r]
  | fire x =>
    obtain ⟨ht, hw⟩ := hb
    rw [parseBody_fire env ht]
    simp only [Body.ser, rt, Fire.parse_ser hw r]
  | detonation x =>
    obtain ⟨ht, hw⟩ := hb
    rw [parseBody_detonation env ht]
    simp only [Body.ser, rt, Detonation.parse_ser hw.1 hw.2.1 hw.2.2.1 hw.2.2.2 r]
  | collision x =>
    have ht := hb
    rw [parseBody_collision env ht]
    simp only [Body.ser, rt, Collision.parse_ser x r]
  | serviceRequest x =>
    obtain ⟨ht, hw⟩ := hb
    rw [parseBody_serviceRequest env ht]
    simp only [Body.ser, rt, ServiceRequest.parse_ser hw r]
  | resupplyOffer x =>
    obtain ⟨ht, hw⟩ := hb
    rw [parseBody_resupplyOffer env ht]
    simp only [Body.ser, rt, ResupplyOffer.parse_ser hw r]
  | resupplyReceived x =>
    obtain ⟨ht, hw⟩ := hb
    rw [parseBody_resupplyReceived env ht]
    simp only [Body.ser, rt, ResupplyReceived.parse_ser hw r]
  | resupplyCancel x =>
    have ht := hb
    rw [parseBody_resupplyCancel env ht]
    simp only [Body.ser, rt, ResupplyCancel.parse_ser x r]
  | repairComplete x =>
    have ht := hb
    rw [parseBody_repairComplete env ht]
    simp only [Body.ser, rt, RepairComplete.parse_ser x r]
  | repairResponse x =>
    have ht := hb
    rw [parseBody_repairResponse env ht]
    simp only [Body.ser, rt, RepairResponse.parse_ser x r]
  | createEntity x =>
    have ht := hb
    rw [parseBody_createEntity env ht]
    simp only [Body.ser, rt, CreateEntity.parse_ser x r]
  | removeEntity x =>
    have ht := hb
    rw [parseBody_removeEntity env ht]
    simp only [Body.ser, rt, RemoveEntity.parse_ser x r]
  | startResume x =>
    have ht := hb
    rw [parseBody_startResume env ht]
    simp only [Body.ser, rt, StartResume.parse_ser x r]
  | stopFreeze x =>
    have ht := hb
    rw [parseBody_stopFreeze env ht]
    simp only [Body.ser, rt, StopFreeze.parse_ser x r]
  | acknowledge x =>
    have ht := hb
    rw [parseBody_acknowledge env ht]
    simp only [Body.ser, rt, Acknowledge.parse_ser x r]
  | actionRequest x =>
    obtain ⟨ht, hw⟩ := hb
    rw [parseBody_actionRequest env ht]
    simp only [Body.ser, rt, ActionRequest.parse_ser hw r]
  | actionResponse x =>
    obtain ⟨ht, hw⟩ := hb
    rw [parseBody_actionResponse env ht]
    simp only [Body.ser, rt, ActionResponse.parse_ser hw r]
  | dataQuery x =>
    obtain ⟨ht, hw⟩ := hb
    rw [parseBody_dataQuery env ht]
    simp only [Body.ser, rt, DataQuery.parse_ser hw r]
  | setData x =>
    obtain ⟨ht, hw⟩ := hb
    rw [parseBody_setData env ht]
    simp only [Body.ser, rt, SetData.parse_ser hw r]
  | data x =>
    obtain ⟨ht, hw⟩ := hb
    rw [parseBody_data env ht]
    simp only [Body.ser, rt, Data.parse_ser hw r]
  | eventReport x =>
    obtain ⟨ht, hw⟩ := hb
    rw [parseBody_eventReport env ht]
    simp only [Body.ser, rt, EventReport.parse_ser hw r]
  | comment x =>
    obtain ⟨ht, hw⟩ := hb
    rw [parseBody_comment env ht]
    simp only [Body.ser, rt, Comment.parse_ser hw r]
  | electromagneticEmission x =>
    obtain ⟨ht, hw⟩ := hb
    rw [parseBody_electromagneticEmission env ht]
    simp only [Body.ser, rt, ElectromagneticEmission.parse_ser hw r]
  | designator x =>
    have ht := hb
    rw [parseBody_designator env ht]
    simp only [Body.ser, rt, Designator.parse_ser x r]
  | transmitter x =>
    obtain ⟨ht, hw⟩ := hb
    rw [parseBody_transmitter env ht]
    simp only [Body.ser, rt, Transmitter.parse_ser hw env.checked r]
  | signal x =>
    obtain ⟨ht, hw⟩ := hb
    rw [parseBody_signal env ht]
    simp only [Body.ser, rt, Signal.parse_ser_aligned hw.1 hw.2 r]
  | receiver x =>
    have ht := hb
    rw [parseBody_receiver env ht]
    simp only [Body.ser, rt, Receiver.parse_ser r x]
  | iff x =>
    obtain ⟨ht, hw⟩ := hb
    rw [parseBody_iff env ht]
    simp only [Body.ser, rt, Iff.parse_ser env hw.1 hw.2 r]
  | underwaterAcoustic x =>
    obtain ⟨ht, hw⟩ := hb
    rw [parseBody_underwaterAcoustic env ht]
    simp only [Body.ser, rt, UnderwaterAcoustic.parse_ser hw.1 hw.2 r]
  | sees x =>
    obtain ⟨ht, hw⟩ := hb
    rw [parseBody_sees env ht]
    simp only [Body.ser, rt, SEES.parse_ser hw r]
  | aggregateState x =>
    obtain ⟨ht, hw⟩ := hb
    rw [parseBody_aggregateState env ht]
    simp only [Body.ser, rt, AggregateState.parse_ser hw r]
  | isGroupOf x =>
    obtain ⟨ht, hw⟩ := hb
    rw [parseBody_isGroupOf env ht]
    simp only [Body.ser, rt, IsGroupOf.parse_ser hw r]
  | transferOwnership x =>
    obtain ⟨ht, hw⟩ := hb
    rw [parseBody_transferOwnership env ht]
    simp only [Body.ser, rt, TransferOwnership.parse_ser env.checked hw r]
  | isPartOf x =>
    have ht := hb
    rw [parseBody_isPartOf env ht]
    simp only [Body.ser, rt, IsPartOf.parse_ser r x]
  | createEntityR x =>
    have ht := hb
    rw [parseBody_createEntityR env ht]
    simp only [Body.ser, rt, CreateEntityR.parse_ser x r]
  | removeEntityR x =>
    have ht := hb
    rw [parseBody_removeEntityR env ht]
    simp only [Body.ser, rt, RemoveEntityR.parse_ser x r]
  | startResumeR x =>
    have ht := hb
    rw [parseBody_startResumeR env ht]
    simp only [Body.ser, rt, StartResumeR.parse_ser x r]
  | stopFreezeR x =>
    have ht := hb
    rw [parseBody_stopFreezeR env ht]
    simp only [Body.ser, rt, StopFreezeR.parse_ser x r]
  | acknowledgeR x =>
    have ht := hb
    rw [parseBody_acknowledgeR env ht]
    simp only [Body.ser, rt, AcknowledgeR.parse_ser x r]
  | actionRequestR x =>
    obtain ⟨ht, hw⟩ := hb
    rw [parseBody_actionRequestR env ht]
    simp only [Body.ser, rt, ActionRequestR.parse_ser hw r]
  | actionResponseR x => exact hb.2.elim
  | dataQueryR x =>
    obtain ⟨ht, hw⟩ := hb
    rw [parseBody_dataQueryR env ht]
    simp only [Body.ser, rt, DataQueryR.parse_ser hw r]
  | setDataR x =>
    obtain ⟨ht, hw⟩ := hb
    rw [parseBody_setDataR env ht]
    simp only [Body.ser, rt, SetDataR.parse_ser hw r]
  | dataR x =>
    obtain ⟨ht, hw⟩ := hb
    rw [parseBody_dataR env ht]
    simp only [Body.ser, rt, DataR.parse_ser hw r]
  | eventReportR x =>
    obtain ⟨ht, hw⟩ := hb
    rw [parseBody_eventReportR env ht]
    simp only [Body.ser, rt, EventReportR.parse_ser hw r]
  | commentR x =>
    obtain ⟨ht, hw⟩ := hb
    rw [parseBody_commentR env ht]
    simp only [Body.ser, rt, CommentR.parse_ser hw r]
  | recordR x =>
    obtain ⟨ht, hw⟩ := hb
    rw [parseBody_recordR env ht]
    simp only [Body.ser, rt, RecordR.parse_ser hw r]
  | setRecordR x =>
    obtain ⟨ht, hw⟩ := hb
    rw [parseBody_setRecordR env ht]
    simp only [Body.ser, rt, SetRecordR.parse_ser hw r]
  | recordQueryR x =>
    obtain ⟨ht, hw⟩ := hb
    rw [parseBody_recordQueryR env ht]
    simp only [Body.ser, rt, RecordQueryR.parse_ser hw r]
  | collisionElastic x =>
    have ht := hb
    rw [parseBody_collisionElastic env ht]
    simp only [Body.ser, rt, CollisionElastic.parse_ser x r]
  | entityStateUpdate x =>
    obtain ⟨ht, hw⟩ := hb
    rw [parseBody_entityStateUpdate env ht]
    simp only [Body.ser, rt, EntityStateUpdate.parse_ser hw.1 hw.2 r]
  | «attribute» x =>
    obtain ⟨ht, hw⟩ := hb
    rw [parseBody_attribute env ht]
    simp only [Body.ser, rt, Attribute.parse_ser hw r]

instance (n) : Stable (Other.parse n) := by unfold Other.parse; parser_ok
instance (n) : Safe (Other.parse n) := by unfold Other.parse; parser_ok
instance (env h) : Stable (parseBody env h) := by
  unfold parseBody
  parser_ok
/-- The body parsers never panic in a build without overflow checks, Signal PDUs aside. -/
theorem parseBody_safe {env : Env} (hc : env.checked = false) {h : PduHeader} (hs : h.pdu_type ≠ 26) : Safe (parseBody env h) := by
  have := AggregateState.safe hc
  unfold parseBody
  simp only [hc, hs, if_false]
  parser_ok

end Verif.Dis
