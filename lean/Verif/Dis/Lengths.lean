import Verif.Dis.Pdu

/-!
# Advertised length, octets written and returned count

`Body.bodyLen` is what the library announces in the header, `Body.ser` what it writes, `Body.cnt` what it returns.
-/

set_option linter.unusedSimpArgs false
set_option linter.unusedVariables false

namespace Verif.Dis
open Verif.P

/-- The lists of a body are no longer than the counts on the wire allow, datums and records fill whole words. -/
def Body.Sized (env : Env) (ver : UInt8) : Body → Prop
  | .entityState x => x.Wf env ver
  | .detonation x => VariableParameters.Wf x.variable_parameters
  | .entityStateUpdate x => x.Wf
  | .transmitter x => x.Wf ver
  | .signal x => x.data.length < 65532
  | .iff x => x.Wf env
  | .aggregateState x => x.Wf env
  | .transferOwnership x => Records.Wf x.record_specification
  | .recordR x => x.Wf
  | .setRecordR x => x.Wf
  | .attribute x => x.Wf
  | .actionRequest x => x.Wf
  | .actionResponse x => x.Wf
  | .setData x => x.Wf
  | .data x => x.Wf
  | .eventReport x => x.Wf
  | .comment x => x.Wf
  | .actionRequestR x => x.Wf
  | .actionResponseR x => x.Wf
  | .setDataR x => x.Wf
  | .dataR x => x.Wf
  | .eventReportR x => x.Wf
  | .commentR x => x.Wf
  | _ => True

/-- How much the announced length of a body exceeds the octets written. -/
def Body.lengthError : Body → Int
  | .fire _ => -56
  | .detonation _ => 12
  | .collision _ => 12
  | .serviceRequest _ => 12
  | .resupplyOffer _ => 12
  | .resupplyReceived _ => 12
  | .resupplyCancel _ => 12
  | .recordR _ => -2
  | .iff x => 12 + x.shortfall
  | .isPartOf _ => 8
  | .aggregateState x => -2 * x.silent_entity_systems.length
  | _ => 0

/-- How much the returned count of a body exceeds the octets written. -/
def Body.countError : Body → Int
  | .entityState _ => 44
  | .transmitter _ => 12
  | .recordR _ => -2
  | .iff x => x.shortfall
  | .isGroupOf _ => -8
  | .transferOwnership _ => -2
  | .aggregateState x => -2 * x.silent_entity_systems.length
  | _ => 0

/-- Variable datums are shorter than 8 KiB (their returned counts are computed in 16 bits from a bit length). -/
def Body.SmallDatums : Body → Prop
  | .actionRequest x => Datums.Small x.variable_datum_records
  | .actionResponse x => Datums.Small x.variable_datum_records
  | .setData x => Datums.Small x.variable_datum_records
  | .data x => Datums.Small x.variable_datum_records
  | .eventReport x => Datums.Small x.variable_datum_records
  | .comment x => Datums.Small x.variable_datum_records
  | .actionRequestR x => Datums.Small x.variable_datum_records
  | .actionResponseR x => Datums.Small x.variable_datum_records
  | .setDataR x => Datums.Small x.variable_datum_records
  | .dataR x => Datums.Small x.variable_datum_records
  | .eventReportR x => Datums.Small x.variable_datum_records
  | .commentR x => Datums.Small x.variable_datum_records
  | _ => True

theorem Body.bodyLen_eq {env : Env} {ver : UInt8} {b : Body} (h : b.Sized env ver) :
    (b.bodyLen : Int) = (b.ser ver).length + b.lengthError := by
  cases b with
  | other x => simp [Body.bodyLen, Body.ser, Other.bodyLen, Other.ser, Body.lengthError]
  | unsupported t => simp [Body.bodyLen, Body.ser, Body.lengthError]
  | entityState x =>
    have e := EntityState.length_ser (show EntityState.Wf env ver x from h)
    have e2 := EntityState.cnt_eq x
    simp only [Body.bodyLen, Body.ser, Body.lengthError]
    omega
  | fire x =>
    have e := Fire.length_ser x
    simp only [Body.bodyLen, Body.ser, Body.lengthError, Fire.bodyLen]
    omega
  | detonation x =>
    have e := Detonation.length_ser (show VariableParameters.Wf _ from h)
    have e2 := Detonation.cnt_eq x
    simp only [Body.bodyLen, Body.ser, Body.lengthError, Detonation.bodyLen, e]
    omega
  | collision x =>
    have e := Collision.length_ser x
    simp only [Body.bodyLen, Body.ser, Body.lengthError, Collision.bodyLen]
    omega
  | serviceRequest x =>
    have e := ServiceRequest.length_ser x
    have e2 := ServiceRequest.cnt_eq x
    simp only [Body.bodyLen, Body.ser, Body.lengthError, ServiceRequest.bodyLen]
    omega
  | resupplyOffer x =>
    have e := ResupplyOffer.length_ser x
    have e2 := ResupplyOffer.cnt_eq x
    simp only [Body.bodyLen, Body.ser, Body.lengthError, ResupplyOffer.bodyLen]
    omega
  | resupplyReceived x =>
    have e := ResupplyReceived.length_ser x
    have e2 := ResupplyReceived.cnt_eq x
    simp only [Body.bodyLen, Body.ser, Body.lengthError, ResupplyReceived.bodyLen]
    omega
  | resupplyCancel x =>
    have e := ResupplyCancel.length_ser x
    simp only [Body.bodyLen, Body.ser, Body.lengthError, ResupplyCancel.bodyLen]
    omega
  | repairComplete x =>
    have e := RepairComplete.length_ser x
    simp only [Body.bodyLen, Body.ser, Body.lengthError, RepairComplete.bodyLen]
    omega
  | repairResponse x =>
    have e := RepairResponse.length_ser x
    simp only [Body.bodyLen, Body.ser, Body.lengthError, RepairResponse.bodyLen]
    omega
  | createEntity x =>
    have e := CreateEntity.length_ser x
    simp only [Body.bodyLen, Body.ser, Body.lengthError, CreateEntity.bodyLen]
    omega
  | removeEntity x =>
    have e := RemoveEntity.length_ser x
    simp only [Body.bodyLen, Body.ser, Body.lengthError, RemoveEntity.bodyLen]
    omega
  | startResume x =>
    have e := StartResume.length_ser x
    simp only [Body.bodyLen, Body.ser, Body.lengthError, StartResume.bodyLen]
    omega
  | stopFreeze x =>
    have e := StopFreeze.length_ser x
    simp only [Body.bodyLen, Body.ser, Body.lengthError, StopFreeze.bodyLen]
    omega
  | acknowledge x =>
    have e := Acknowledge.length_ser x
    simp only [Body.bodyLen, Body.ser, Body.lengthError, Acknowledge.bodyLen]
    omega
  | actionRequest x =>
    have e := datumsLen_eq (show Datums.Wf _ _ from h)
    simp only [Body.bodyLen, Body.ser, Body.lengthError, ActionRequest.bodyLen, ActionRequest.length_ser]
    omega
  | actionResponse x =>
    have e := datumsLen_eq (show Datums.Wf _ _ from h)
    simp only [Body.bodyLen, Body.ser, Body.lengthError, ActionResponse.bodyLen, ActionResponse.length_ser]
    omega
  | dataQuery x =>
    have e := DataQuery.length_ser x
    simp only [Body.bodyLen, Body.ser, Body.lengthError, DataQuery.bodyLen, e]
    omega
  | setData x =>
    have e := datumsLen_eq (show Datums.Wf _ _ from h)
    simp only [Body.bodyLen, Body.ser, Body.lengthError, SetData.bodyLen, SetData.length_ser]
    omega
  | data x =>
    have e := datumsLen_eq (show Datums.Wf _ _ from h)
    simp only [Body.bodyLen, Body.ser, Body.lengthError, Data.bodyLen, Data.length_ser]
    omega
  | eventReport x =>
    have e := datumsLen_eq (show Datums.Wf _ _ from h)
    simp only [Body.bodyLen, Body.ser, Body.lengthError, EventReport.bodyLen, EventReport.length_ser]
    omega
  | comment x =>
    have e := datumsLen_eq (show Datums.Wf _ _ from h)
    simp only [serList_nil, List.nil_append] at e
    simp only [Body.bodyLen, Body.ser, Body.lengthError, Comment.bodyLen, Comment.length_ser]
    omega
  | electromagneticEmission x =>
    have e := ElectromagneticEmission.length_ser x
    have e2 := ElectromagneticEmission.cnt_eq x
    simp only [Body.bodyLen, Body.ser, Body.lengthError]
    omega
  | designator x =>
    have e := Designator.length_ser x
    simp only [Body.bodyLen, Body.ser, Body.lengthError, Designator.bodyLen]
    omega
  | transmitter x =>
    have e := Transmitter.length_ser (show Transmitter.Wf ver x from h)
    have e2 := Transmitter.cnt_eq x
    simp only [Body.bodyLen, Body.ser, Body.lengthError]
    omega
  | signal x =>
    have e := Signal.length_ser (show x.data.length < 65532 from h)
    have e2 := Signal.cnt_eq x
    simp only [Body.bodyLen, Body.ser, Body.lengthError]
    omega
  | receiver x =>
    have e := Receiver.length_ser x
    have e2 := Receiver.cnt_eq x
    simp only [Body.bodyLen, Body.ser, Body.lengthError]
    omega
  | iff x =>
    have e := Iff.length_ser (show Iff.Wf env x from h)
    have e2 := Iff.cnt_eq x
    simp only [Body.bodyLen, Body.ser, Body.lengthError]
    omega
  | underwaterAcoustic x =>
    have e := UnderwaterAcoustic.length_ser x
    have e2 : x.cnt = x.bodyLen := rfl
    simp only [Body.bodyLen, Body.ser, Body.lengthError]
    omega
  | sees x =>
    have e := SEES.length_ser x
    have e2 := SEES.cnt_eq x
    simp only [Body.bodyLen, Body.ser, Body.lengthError]
    omega
  | aggregateState x =>
    have e := AggregateState.length_ser (show AggregateState.Wf env x from h)
    have e2 : x.cnt = x.bodyLen := rfl
    simp only [Body.bodyLen, Body.ser, Body.lengthError]
    omega
  | isGroupOf x =>
    have e := IsGroupOf.length_ser x
    have e2 := IsGroupOf.cnt_eq x
    simp only [Body.bodyLen, Body.ser, Body.lengthError]
    omega
  | transferOwnership x =>
    have e := TransferOwnership.length_ser (show Records.Wf _ from h)
    have e2 := TransferOwnership.cnt_eq (show Records.Wf _ from h)
    simp only [Body.bodyLen, Body.ser, Body.lengthError]
    omega
  | isPartOf x =>
    have e := IsPartOf.length_ser x
    simp only [Body.bodyLen, Body.ser, Body.lengthError, IsPartOf.bodyLen]
    omega
  | createEntityR x =>
    have e := CreateEntityR.length_ser x
    simp only [Body.bodyLen, Body.ser, Body.lengthError, CreateEntityR.bodyLen]
    omega
  | removeEntityR x =>
    have e := RemoveEntityR.length_ser x
    simp only [Body.bodyLen, Body.ser, Body.lengthError, RemoveEntityR.bodyLen]
    omega
  | startResumeR x =>
    have e := StartResumeR.length_ser x
    simp only [Body.bodyLen, Body.ser, Body.lengthError, StartResumeR.bodyLen]
    omega
  | stopFreezeR x =>
    have e := StopFreezeR.length_ser x
    simp only [Body.bodyLen, Body.ser, Body.lengthError, StopFreezeR.bodyLen]
    omega
  | acknowledgeR x =>
    have e := AcknowledgeR.length_ser x
    simp only [Body.bodyLen, Body.ser, Body.lengthError, AcknowledgeR.bodyLen]
    omega
  | actionRequestR x =>
    have e := datumsLen_eq (show Datums.Wf _ _ from h)
    simp only [Body.bodyLen, Body.ser, Body.lengthError, ActionRequestR.bodyLen, ActionRequestR.length_ser]
    omega
  | actionResponseR x =>
    have e := datumsLen_eq (show Datums.Wf _ _ from h)
    simp only [Body.bodyLen, Body.ser, Body.lengthError, ActionResponseR.bodyLen, ActionResponseR.length_ser]
    omega
  | dataQueryR x =>
    have e := DataQueryR.length_ser x
    simp only [Body.bodyLen, Body.ser, Body.lengthError, DataQueryR.bodyLen, e]
    omega
  | setDataR x =>
    have e := datumsLen_eq (show Datums.Wf _ _ from h)
    simp only [Body.bodyLen, Body.ser, Body.lengthError, SetDataR.bodyLen, SetDataR.length_ser]
    omega
  | dataR x =>
    have e := datumsLen_eq (show Datums.Wf _ _ from h)
    simp only [Body.bodyLen, Body.ser, Body.lengthError, DataR.bodyLen, DataR.length_ser]
    omega
  | eventReportR x =>
    have e := datumsLen_eq (show Datums.Wf _ _ from h)
    simp only [Body.bodyLen, Body.ser, Body.lengthError, EventReportR.bodyLen, EventReportR.length_ser]
    omega
  | commentR x =>
    have e := datumsLen_eq (show Datums.Wf _ _ from h)
    simp only [serList_nil, List.nil_append] at e
    simp only [Body.bodyLen, Body.ser, Body.lengthError, CommentR.bodyLen, CommentR.length_ser]
    omega
  | recordR x =>
    have e := recordsLen_eq (show Records.Wf _ from h)
    simp only [Body.bodyLen, Body.ser, Body.lengthError, RecordR.bodyLen, RecordR.length_ser]
    omega
  | setRecordR x =>
    have e := recordsLen_eq (show Records.Wf _ from h)
    simp only [Body.bodyLen, Body.ser, Body.lengthError, SetRecordR.bodyLen, SetRecordR.length_ser]
    omega
  | recordQueryR x =>
    have e := RecordQueryR.length_ser x
    simp only [Body.bodyLen, Body.ser, Body.lengthError, RecordQueryR.bodyLen, e]
    omega
  | collisionElastic x =>
    have e := CollisionElastic.length_ser x
    simp only [Body.bodyLen, Body.ser, Body.lengthError, CollisionElastic.bodyLen]
    omega
  | entityStateUpdate x =>
    have e := EntityStateUpdate.length_ser (show EntityStateUpdate.Wf x from h)
    have e2 := EntityStateUpdate.cnt_eq x
    simp only [Body.bodyLen, Body.ser, Body.lengthError]
    omega
  | «attribute» x =>
    have e := Attribute.length_ser (show Attribute.Wf x from h)
    have e2 := Attribute.cnt_eq (show Attribute.Wf x from h)
    simp only [Body.bodyLen, Body.ser, Body.lengthError]
    omega

theorem Body.cnt_eq {env : Env} {ver : UInt8} {b : Body} (h : b.Sized env ver) (hs : b.SmallDatums) :
    (b.cnt : Int) = (b.ser ver).length + b.countError := by
  cases b with
  | other x => simp [Body.cnt, Body.ser, Other.cnt, Other.ser, Body.countError]
  | unsupported t => simp [Body.cnt, Body.ser, Body.countError]
  | entityState x =>
    have e := EntityState.length_ser (show EntityState.Wf env ver x from h)
    have e2 := EntityState.cnt_eq x
    simp only [Body.cnt, Body.ser, Body.countError]
    omega
  | fire x =>
    have e := Fire.cnt_eq x
    have e2 := Fire.length_ser x
    simp only [Body.cnt, Body.ser, Body.countError]
    omega
  | detonation x =>
    have e := Detonation.length_ser (show VariableParameters.Wf _ from h)
    have e2 := Detonation.cnt_eq x
    simp only [Body.cnt, Body.ser, Body.countError, e]
    omega
  | collision x =>
    have e := Collision.length_ser x
    simp only [Body.cnt, Body.ser, Body.countError, Collision.cnt]
    omega
  | serviceRequest x =>
    have e := ServiceRequest.length_ser x
    have e2 := ServiceRequest.cnt_eq x
    simp only [Body.cnt, Body.ser, Body.countError]
    omega
  | resupplyOffer x =>
    have e := ResupplyOffer.length_ser x
    have e2 := ResupplyOffer.cnt_eq x
    simp only [Body.cnt, Body.ser, Body.countError]
    omega
  | resupplyReceived x =>
    have e := ResupplyReceived.length_ser x
    have e2 := ResupplyReceived.cnt_eq x
    simp only [Body.cnt, Body.ser, Body.countError]
    omega
  | resupplyCancel x =>
    have e := ResupplyCancel.length_ser x
    simp only [Body.cnt, Body.ser, Body.countError, ResupplyCancel.cnt]
    omega
  | repairComplete x =>
    have e := RepairComplete.length_ser x
    simp only [Body.cnt, Body.ser, Body.countError, RepairComplete.cnt]
    omega
  | repairResponse x =>
    have e := RepairResponse.length_ser x
    simp only [Body.cnt, Body.ser, Body.countError, RepairResponse.cnt]
    omega
  | createEntity x =>
    have e := CreateEntity.length_ser x
    simp only [Body.cnt, Body.ser, Body.countError, CreateEntity.cnt]
    omega
  | removeEntity x =>
    have e := RemoveEntity.length_ser x
    simp only [Body.cnt, Body.ser, Body.countError, RemoveEntity.cnt]
    omega
  | startResume x =>
    have e := StartResume.length_ser x
    simp only [Body.cnt, Body.ser, Body.countError, StartResume.cnt]
    omega
  | stopFreeze x =>
    have e := StopFreeze.length_ser x
    simp only [Body.cnt, Body.ser, Body.countError, StopFreeze.cnt]
    omega
  | acknowledge x =>
    have e := Acknowledge.length_ser x
    simp only [Body.cnt, Body.ser, Body.countError, Acknowledge.cnt]
    omega
  | actionRequest x =>
    have e := datumsCnt_eq (show Datums.Wf _ _ from h) hs
    simp only [Body.cnt, Body.ser, Body.countError, ActionRequest.cnt, ActionRequest.length_ser]
    omega
  | actionResponse x =>
    have e := datumsCnt_eq (show Datums.Wf _ _ from h) hs
    simp only [Body.cnt, Body.ser, Body.countError, ActionResponse.cnt, ActionResponse.length_ser]
    omega
  | dataQuery x =>
    have e := DataQuery.length_ser x
    simp only [Body.cnt, Body.ser, Body.countError, DataQuery.cnt, e]
    omega
  | setData x =>
    have e := datumsCnt_eq (show Datums.Wf _ _ from h) hs
    simp only [Body.cnt, Body.ser, Body.countError, SetData.cnt, SetData.length_ser]
    omega
  | data x =>
    have e := datumsCnt_eq (show Datums.Wf _ _ from h) hs
    simp only [Body.cnt, Body.ser, Body.countError, Data.cnt, Data.length_ser]
    omega
  | eventReport x =>
    have e := datumsCnt_eq (show Datums.Wf _ _ from h) hs
    simp only [Body.cnt, Body.ser, Body.countError, EventReport.cnt, EventReport.length_ser]
    omega
  | comment x =>
    have e := datumsCnt_eq (show Datums.Wf _ _ from h) hs
    simp only [serList_nil, List.nil_append] at e
    simp only [Body.cnt, Body.ser, Body.countError, Comment.cnt, Comment.length_ser]
    omega
  | electromagneticEmission x =>
    have e := ElectromagneticEmission.length_ser x
    have e2 := ElectromagneticEmission.cnt_eq x
    simp only [Body.cnt, Body.ser, Body.countError]
    omega
  | designator x =>
    have e := Designator.length_ser x
    simp only [Body.cnt, Body.ser, Body.countError, Designator.cnt]
    omega
  | transmitter x =>
    have e := Transmitter.length_ser (show Transmitter.Wf ver x from h)
    have e2 := Transmitter.cnt_eq x
    simp only [Body.cnt, Body.ser, Body.countError]
    omega
  | signal x =>
    have e := Signal.length_ser (show x.data.length < 65532 from h)
    have e2 := Signal.cnt_eq x
    simp only [Body.cnt, Body.ser, Body.countError]
    omega
  | receiver x =>
    have e := Receiver.length_ser x
    have e2 := Receiver.cnt_eq x
    simp only [Body.cnt, Body.ser, Body.countError]
    omega
  | iff x =>
    have e := Iff.length_ser (show Iff.Wf env x from h)
    have e2 := Iff.cnt_eq x
    simp only [Body.cnt, Body.ser, Body.countError]
    omega
  | underwaterAcoustic x =>
    have e := UnderwaterAcoustic.length_ser x
    have e2 : x.cnt = x.bodyLen := rfl
    simp only [Body.cnt, Body.ser, Body.countError]
    omega
  | sees x =>
    have e := SEES.length_ser x
    have e2 := SEES.cnt_eq x
    simp only [Body.cnt, Body.ser, Body.countError]
    omega
  | aggregateState x =>
    have e := AggregateState.length_ser (show AggregateState.Wf env x from h)
    have e2 : x.cnt = x.bodyLen := rfl
    simp only [Body.cnt, Body.ser, Body.countError]
    omega
  | isGroupOf x =>
    have e := IsGroupOf.length_ser x
    have e2 := IsGroupOf.cnt_eq x
    simp only [Body.cnt, Body.ser, Body.countError]
    omega
  | transferOwnership x =>
    have e := TransferOwnership.length_ser (show Records.Wf _ from h)
    have e2 := TransferOwnership.cnt_eq (show Records.Wf _ from h)
    simp only [Body.cnt, Body.ser, Body.countError]
    omega
  | isPartOf x =>
    have e := IsPartOf.cnt_eq x
    have e2 := IsPartOf.length_ser x
    simp only [Body.cnt, Body.ser, Body.countError]
    omega
  | createEntityR x =>
    have e := CreateEntityR.length_ser x
    simp only [Body.cnt, Body.ser, Body.countError, CreateEntityR.cnt]
    omega
  | removeEntityR x =>
    have e := RemoveEntityR.length_ser x
    simp only [Body.cnt, Body.ser, Body.countError, RemoveEntityR.cnt]
    omega
  | startResumeR x =>
    have e := StartResumeR.length_ser x
    simp only [Body.cnt, Body.ser, Body.countError, StartResumeR.cnt]
    omega
  | stopFreezeR x =>
    have e := StopFreezeR.length_ser x
    simp only [Body.cnt, Body.ser, Body.countError, StopFreezeR.cnt]
    omega
  | acknowledgeR x =>
    have e := AcknowledgeR.length_ser x
    simp only [Body.cnt, Body.ser, Body.countError, AcknowledgeR.cnt]
    omega
  | actionRequestR x =>
    have e := datumsCnt_eq (show Datums.Wf _ _ from h) hs
    simp only [Body.cnt, Body.ser, Body.countError, ActionRequestR.cnt, ActionRequestR.length_ser]
    omega
  | actionResponseR x =>
    have e := datumsCnt_eq (show Datums.Wf _ _ from h) hs
    simp only [Body.cnt, Body.ser, Body.countError, ActionResponseR.cnt, ActionResponseR.length_ser]
    omega
  | dataQueryR x =>
    have e := DataQueryR.length_ser x
    simp only [Body.cnt, Body.ser, Body.countError, DataQueryR.cnt, e]
    omega
  | setDataR x =>
    have e := datumsCnt_eq (show Datums.Wf _ _ from h) hs
    simp only [Body.cnt, Body.ser, Body.countError, SetDataR.cnt, SetDataR.length_ser]
    omega
  | dataR x =>
    have e := datumsCnt_eq (show Datums.Wf _ _ from h) hs
    simp only [Body.cnt, Body.ser, Body.countError, DataR.cnt, DataR.length_ser]
    omega
  | eventReportR x =>
    have e := datumsCnt_eq (show Datums.Wf _ _ from h) hs
    simp only [Body.cnt, Body.ser, Body.countError, EventReportR.cnt, EventReportR.length_ser]
    omega
  | commentR x =>
    have e := datumsCnt_eq (show Datums.Wf _ _ from h) hs
    simp only [serList_nil, List.nil_append] at e
    simp only [Body.cnt, Body.ser, Body.countError, CommentR.cnt, CommentR.length_ser]
    omega
  | recordR x =>
    have e := RecordSpecification.cnt_eq (show Records.Wf _ from h).2
    simp only [Body.cnt, Body.ser, Body.countError, RecordR.cnt, RecordR.length_ser]
    omega
  | setRecordR x =>
    have e := RecordSpecification.cnt_eq (show Records.Wf _ from h).2
    simp only [Body.cnt, Body.ser, Body.countError, SetRecordR.cnt, SetRecordR.length_ser]
    omega
  | recordQueryR x =>
    have e := RecordQueryR.length_ser x
    simp only [Body.cnt, Body.ser, Body.countError, RecordQueryR.cnt, e]
    omega
  | collisionElastic x =>
    have e := CollisionElastic.length_ser x
    simp only [Body.cnt, Body.ser, Body.countError, CollisionElastic.cnt]
    omega
  | entityStateUpdate x =>
    have e := EntityStateUpdate.length_ser (show EntityStateUpdate.Wf x from h)
    have e2 := EntityStateUpdate.cnt_eq x
    simp only [Body.cnt, Body.ser, Body.countError]
    omega
  | «attribute» x =>
    have e := Attribute.length_ser (show Attribute.Wf x from h)
    have e2 := Attribute.cnt_eq (show Attribute.Wf x from h)
    simp only [Body.cnt, Body.ser, Body.countError]
    omega

end Verif.Dis
