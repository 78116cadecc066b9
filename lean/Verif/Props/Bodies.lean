import Verif.Props.Header
import Verif.Props.Records
import Verif.Dis.WfDec

/-!
# C08 to C15: every PDU body round trips (generated by a script from the constructors of `Body`)

The statements are about whole PDUs: header and body are written one after the other, and reading gives the PDU back and
leaves what follows untouched.
-/

set_option linter.unusedSimpArgs false

namespace Verif.Props
open Verif Verif.Dis Verif.P

/-! ## Specification -/

/-- The PDU with this header and body reads back as itself, whatever follows it. -/
def PduRoundTrips (env : Env) (h : PduHeader) (b : Body) : Prop :=
  ∀ rest, (pdu env).run (Pdu.ser ⟨h, b⟩ ++ rest) = .ok ⟨h, b⟩ rest

/-! ## Sample environment and headers, for the examples -/

/-- all appearance and capability bits are defined; IFF system types below 100 are transponders -/
def sampleEnv : Env where
  checked := true
  appearanceMask := fun _ => 0xFFFFFFFF
  capabilityMask := fun _ => 0xFFFFFFFF
  sanitizeNonAscii := id
  iffClass := fun t => if t.toNat < 100 then .transponder else .interrogator

/-- a version 7 header of a PDU type, with a status read from an octet -/
def sampleFor (t : UInt8) : PduHeader := ⟨7, 1, t, familyOfType t, 42, 0, some (parsePduStatusFields t 0x02), 0⟩
theorem sampleFor_wf (t : UInt8) : (sampleFor t).Wf := ⟨rfl, .inl ⟨rfl, _, rfl, C02_read_wf t 0x02⟩⟩

/-- checks the hypotheses of a theorem on a sample by evaluation -/
macro "wf_sample" : tactic => `(tactic| decide +kernel)

/-! ## C08 -/

/-- **C08**, EntityState (type 1).  Partial: separation records among the variable parameters are excluded (see C04). -/
theorem C08_entityState_round_trip_partial (env : Env) {h : PduHeader} (hh : h.Wf) (ht : h.pdu_type = 1) {x : EntityState} (hx : x.Wf env h.protocol_version ∧ VariableParameters.NoSeparation x.variable_parameters) :
    PduRoundTrips env h (.entityState x) :=
  fun rest => pdu_ser (p := ⟨h, .entityState x⟩) ⟨hh, ⟨ht, hx⟩⟩ rest
def sample_entityState : EntityState :=
  ⟨⟨⟨2, 3⟩, 4⟩, 5, ⟨1, 1, 225, 1, 1, 3, 0⟩, ⟨6, 7, 8, 9, 10, 11, 12⟩, ⟨13, 14, 15⟩, ⟨16, 17, 18⟩, ⟨19, 20, 21⟩, ⟨.landPlatform, 0x12345678⟩, ⟨2, .euler 1 2 3, ⟨4, 5, 6⟩, ⟨7, 8, 9⟩⟩, ⟨1, [84, 65, 78, 75, 49]⟩, ⟨.landPlatform, 0x0000000F⟩, [(.articulated ⟨3, 1, 13, 4096, 77⟩), (.articulated ⟨3, 1, 13, 4096, 77⟩)]⟩
theorem sample_entityState_ok : sample_entityState.Wf sampleEnv (sampleFor 1).protocol_version ∧ VariableParameters.NoSeparation sample_entityState.variable_parameters := by
  wf_sample
example : PduRoundTrips sampleEnv (sampleFor 1) (.entityState sample_entityState) :=
  C08_entityState_round_trip_partial sampleEnv (sampleFor_wf 1) rfl sample_entityState_ok

/-- **C08**, EntityStateUpdate (type 67).  Partial: separation records are excluded (see C04), and so is an appearance with a class (the PDU does not carry the entity type). -/
theorem C08_entityStateUpdate_round_trip_partial (env : Env) {h : PduHeader} (hh : h.Wf) (ht : h.pdu_type = 67) {x : EntityStateUpdate} (hx : x.Wf ∧ VariableParameters.NoSeparation x.variable_parameters) :
    PduRoundTrips env h (.entityStateUpdate x) :=
  fun rest => pdu_ser (p := ⟨h, .entityStateUpdate x⟩) ⟨hh, ⟨ht, hx⟩⟩ rest
def sample_entityStateUpdate : EntityStateUpdate :=
  ⟨⟨⟨2, 3⟩, 4⟩, ⟨5, 6, 7⟩, ⟨8, 9, 10⟩, ⟨11, 12, 13⟩, ⟨.unspecified, 0x12345678⟩, [(.articulated ⟨3, 1, 13, 4096, 77⟩), (.articulated ⟨3, 1, 13, 4096, 77⟩)]⟩
theorem sample_entityStateUpdate_ok : sample_entityStateUpdate.Wf ∧ VariableParameters.NoSeparation sample_entityStateUpdate.variable_parameters := by
  wf_sample
example : PduRoundTrips sampleEnv (sampleFor 67) (.entityStateUpdate sample_entityStateUpdate) :=
  C08_entityStateUpdate_round_trip_partial sampleEnv (sampleFor_wf 67) rfl sample_entityStateUpdate_ok

/-- **C08**, Collision (type 4). -/
theorem C08_collision_round_trip (env : Env) {h : PduHeader} (hh : h.Wf) (ht : h.pdu_type = 4) {x : Collision} :
    PduRoundTrips env h (.collision x) :=
  fun rest => pdu_ser (p := ⟨h, .collision x⟩) ⟨hh, ht⟩ rest
def sample_collision : Collision :=
  ⟨⟨⟨2, 3⟩, 4⟩, ⟨⟨5, 6⟩, 7⟩, ⟨⟨8, 9⟩, 10⟩, 11, ⟨12, 13, 14⟩, 15, ⟨16, 17, 18⟩⟩
example : PduRoundTrips sampleEnv (sampleFor 4) (.collision sample_collision) :=
  C08_collision_round_trip sampleEnv (sampleFor_wf 4) rfl

/-- **C08**, CollisionElastic (type 66). -/
theorem C08_collisionElastic_round_trip (env : Env) {h : PduHeader} (hh : h.Wf) (ht : h.pdu_type = 66) {x : CollisionElastic} :
    PduRoundTrips env h (.collisionElastic x) :=
  fun rest => pdu_ser (p := ⟨h, .collisionElastic x⟩) ⟨hh, ht⟩ rest
def sample_collisionElastic : CollisionElastic :=
  ⟨⟨⟨2, 3⟩, 4⟩, ⟨⟨5, 6⟩, 7⟩, ⟨⟨8, 9⟩, 10⟩, ⟨11, 12, 13⟩, 14, ⟨15, 16, 17⟩, 18, 19, 20, 21, 22, 23, ⟨24, 25, 26⟩, 27⟩
example : PduRoundTrips sampleEnv (sampleFor 66) (.collisionElastic sample_collisionElastic) :=
  C08_collisionElastic_round_trip sampleEnv (sampleFor_wf 66) rfl

/-- **C08**, Attribute (type 72).  Partial: records that need padding are excluded: the reader keeps their padding. -/
theorem C08_attribute_round_trip_partial (env : Env) {h : PduHeader} (hh : h.Wf) (ht : h.pdu_type = 72) {x : Attribute} (hx : x.Wf) :
    PduRoundTrips env h (.«attribute» x) :=
  fun rest => pdu_ser (p := ⟨h, .«attribute» x⟩) ⟨hh, ⟨ht, hx⟩⟩ rest
def sample_attribute : Attribute :=
  ⟨⟨2, 3⟩, 4, 5, 6, 7, [⟨⟨⟨8, 9⟩, 10⟩, [⟨5, [1, 2, 3, 4, 5, 6, 7, 8, 9, 10]⟩, ⟨5, [1, 2, 3, 4, 5, 6, 7, 8, 9, 10]⟩]⟩, ⟨⟨⟨11, 12⟩, 13⟩, [⟨5, [1, 2, 3, 4, 5, 6, 7, 8, 9, 10]⟩, ⟨5, [1, 2, 3, 4, 5, 6, 7, 8, 9, 10]⟩]⟩]⟩
theorem sample_attribute_ok : sample_attribute.Wf := by
  wf_sample
example : PduRoundTrips sampleEnv (sampleFor 72) (.«attribute» sample_attribute) :=
  C08_attribute_round_trip_partial sampleEnv (sampleFor_wf 72) rfl sample_attribute_ok

/-! ## C09 -/

/-- **C09**, Fire (type 2). -/
theorem C09_fire_round_trip (env : Env) {h : PduHeader} (hh : h.Wf) (ht : h.pdu_type = 2) {x : Fire} (hx : x.descriptor.MatchesFti (headerFti h)) :
    PduRoundTrips env h (.fire x) :=
  fun rest => pdu_ser (p := ⟨h, .fire x⟩) ⟨hh, ⟨ht, hx⟩⟩ rest
def sample_fire : Fire :=
  ⟨⟨⟨2, 3⟩, 4⟩, ⟨⟨5, 6⟩, 7⟩, ⟨⟨8, 9⟩, 10⟩, ⟨⟨11, 12⟩, 13⟩, 14, ⟨15, 16, 17⟩, (.munition ⟨2, 1, 225, 2, 3, 4, 5⟩ ⟨1, 2, 3, 4⟩), ⟨18, 19, 20⟩, 21⟩
theorem sample_fire_ok : sample_fire.descriptor.MatchesFti (headerFti (sampleFor 2)) := by
  wf_sample
example : PduRoundTrips sampleEnv (sampleFor 2) (.fire sample_fire) :=
  C09_fire_round_trip sampleEnv (sampleFor_wf 2) rfl sample_fire_ok

/-- **C09**, Detonation (type 3).  Partial: explosion descriptors and separation records are excluded. -/
theorem C09_detonation_round_trip_partial (env : Env) {h : PduHeader} (hh : h.Wf) (ht : h.pdu_type = 3) {x : Detonation} (hx : x.descriptor.MatchesDti (headerDti h) ∧ x.descriptor.NotExplosion ∧ VariableParameters.Wf x.variable_parameters
      ∧ VariableParameters.NoSeparation x.variable_parameters) :
    PduRoundTrips env h (.detonation x) :=
  fun rest => pdu_ser (p := ⟨h, .detonation x⟩) ⟨hh, ⟨ht, hx⟩⟩ rest
def sample_detonation : Detonation :=
  ⟨⟨⟨2, 3⟩, 4⟩, ⟨⟨5, 6⟩, 7⟩, ⟨⟨8, 9⟩, 10⟩, ⟨⟨11, 12⟩, 13⟩, ⟨14, 15, 16⟩, ⟨17, 18, 19⟩, (.munition ⟨2, 1, 225, 2, 3, 4, 5⟩ ⟨1, 2, 3, 4⟩), ⟨20, 21, 22⟩, 23, [(.articulated ⟨3, 1, 13, 4096, 77⟩), (.articulated ⟨3, 1, 13, 4096, 77⟩)]⟩
theorem sample_detonation_ok : sample_detonation.descriptor.MatchesDti (headerDti (sampleFor 3)) ∧ sample_detonation.descriptor.NotExplosion ∧ VariableParameters.Wf sample_detonation.variable_parameters
      ∧ VariableParameters.NoSeparation sample_detonation.variable_parameters := by
  wf_sample
example : PduRoundTrips sampleEnv (sampleFor 3) (.detonation sample_detonation) :=
  C09_detonation_round_trip_partial sampleEnv (sampleFor_wf 3) rfl sample_detonation_ok

/-! ## C10 -/

/-- **C10**, CreateEntity (type 11). -/
theorem C10_createEntity_round_trip (env : Env) {h : PduHeader} (hh : h.Wf) (ht : h.pdu_type = 11) {x : CreateEntity} :
    PduRoundTrips env h (.createEntity x) :=
  fun rest => pdu_ser (p := ⟨h, .createEntity x⟩) ⟨hh, ht⟩ rest
def sample_createEntity : CreateEntity :=
  ⟨⟨⟨2, 3⟩, 4⟩, ⟨⟨5, 6⟩, 7⟩, 8⟩
example : PduRoundTrips sampleEnv (sampleFor 11) (.createEntity sample_createEntity) :=
  C10_createEntity_round_trip sampleEnv (sampleFor_wf 11) rfl

/-- **C10**, RemoveEntity (type 12). -/
theorem C10_removeEntity_round_trip (env : Env) {h : PduHeader} (hh : h.Wf) (ht : h.pdu_type = 12) {x : RemoveEntity} :
    PduRoundTrips env h (.removeEntity x) :=
  fun rest => pdu_ser (p := ⟨h, .removeEntity x⟩) ⟨hh, ht⟩ rest
def sample_removeEntity : RemoveEntity :=
  ⟨⟨⟨2, 3⟩, 4⟩, ⟨⟨5, 6⟩, 7⟩, 8⟩
example : PduRoundTrips sampleEnv (sampleFor 12) (.removeEntity sample_removeEntity) :=
  C10_removeEntity_round_trip sampleEnv (sampleFor_wf 12) rfl

/-- **C10**, StartResume (type 13). -/
theorem C10_startResume_round_trip (env : Env) {h : PduHeader} (hh : h.Wf) (ht : h.pdu_type = 13) {x : StartResume} :
    PduRoundTrips env h (.startResume x) :=
  fun rest => pdu_ser (p := ⟨h, .startResume x⟩) ⟨hh, ht⟩ rest
def sample_startResume : StartResume :=
  ⟨⟨⟨2, 3⟩, 4⟩, ⟨⟨5, 6⟩, 7⟩, ⟨8, 9⟩, ⟨10, 11⟩, 12⟩
example : PduRoundTrips sampleEnv (sampleFor 13) (.startResume sample_startResume) :=
  C10_startResume_round_trip sampleEnv (sampleFor_wf 13) rfl

/-- **C10**, StopFreeze (type 14). -/
theorem C10_stopFreeze_round_trip (env : Env) {h : PduHeader} (hh : h.Wf) (ht : h.pdu_type = 14) {x : StopFreeze} :
    PduRoundTrips env h (.stopFreeze x) :=
  fun rest => pdu_ser (p := ⟨h, .stopFreeze x⟩) ⟨hh, ht⟩ rest
def sample_stopFreeze : StopFreeze :=
  ⟨⟨⟨2, 3⟩, 4⟩, ⟨⟨5, 6⟩, 7⟩, ⟨8, 9⟩, 10, 11, 12⟩
example : PduRoundTrips sampleEnv (sampleFor 14) (.stopFreeze sample_stopFreeze) :=
  C10_stopFreeze_round_trip sampleEnv (sampleFor_wf 14) rfl

/-- **C10**, Acknowledge (type 15). -/
theorem C10_acknowledge_round_trip (env : Env) {h : PduHeader} (hh : h.Wf) (ht : h.pdu_type = 15) {x : Acknowledge} :
    PduRoundTrips env h (.acknowledge x) :=
  fun rest => pdu_ser (p := ⟨h, .acknowledge x⟩) ⟨hh, ht⟩ rest
def sample_acknowledge : Acknowledge :=
  ⟨⟨⟨2, 3⟩, 4⟩, ⟨⟨5, 6⟩, 7⟩, 8, 9, 10⟩
example : PduRoundTrips sampleEnv (sampleFor 15) (.acknowledge sample_acknowledge) :=
  C10_acknowledge_round_trip sampleEnv (sampleFor_wf 15) rfl

/-- **C10**, ActionRequest (type 16).  Partial: variable datums that need padding are excluded (C05). -/
theorem C10_actionRequest_round_trip_partial (env : Env) {h : PduHeader} (hh : h.Wf) (ht : h.pdu_type = 16) {x : ActionRequest} (hx : x.Wf) :
    PduRoundTrips env h (.actionRequest x) :=
  fun rest => pdu_ser (p := ⟨h, .actionRequest x⟩) ⟨hh, ⟨ht, hx⟩⟩ rest
def sample_actionRequest : ActionRequest :=
  ⟨⟨⟨2, 3⟩, 4⟩, ⟨⟨5, 6⟩, 7⟩, 8, 9, [⟨10, 11⟩, ⟨12, 13⟩], [⟨24000, [1, 2, 3, 4, 5, 6, 7, 8]⟩, ⟨24000, [1, 2, 3, 4, 5, 6, 7, 8]⟩]⟩
theorem sample_actionRequest_ok : sample_actionRequest.Wf := by
  wf_sample
example : PduRoundTrips sampleEnv (sampleFor 16) (.actionRequest sample_actionRequest) :=
  C10_actionRequest_round_trip_partial sampleEnv (sampleFor_wf 16) rfl sample_actionRequest_ok

/-- **C10**, ActionResponse (type 17).  Partial: variable datums that need padding are excluded (C05). -/
theorem C10_actionResponse_round_trip_partial (env : Env) {h : PduHeader} (hh : h.Wf) (ht : h.pdu_type = 17) {x : ActionResponse} (hx : x.Wf) :
    PduRoundTrips env h (.actionResponse x) :=
  fun rest => pdu_ser (p := ⟨h, .actionResponse x⟩) ⟨hh, ⟨ht, hx⟩⟩ rest
def sample_actionResponse : ActionResponse :=
  ⟨⟨⟨2, 3⟩, 4⟩, ⟨⟨5, 6⟩, 7⟩, 8, 9, [⟨10, 11⟩, ⟨12, 13⟩], [⟨24000, [1, 2, 3, 4, 5, 6, 7, 8]⟩, ⟨24000, [1, 2, 3, 4, 5, 6, 7, 8]⟩]⟩
theorem sample_actionResponse_ok : sample_actionResponse.Wf := by
  wf_sample
example : PduRoundTrips sampleEnv (sampleFor 17) (.actionResponse sample_actionResponse) :=
  C10_actionResponse_round_trip_partial sampleEnv (sampleFor_wf 17) rfl sample_actionResponse_ok

/-- **C10**, DataQuery (type 18). -/
theorem C10_dataQuery_round_trip (env : Env) {h : PduHeader} (hh : h.Wf) (ht : h.pdu_type = 18) {x : DataQuery} (hx : x.Wf) :
    PduRoundTrips env h (.dataQuery x) :=
  fun rest => pdu_ser (p := ⟨h, .dataQuery x⟩) ⟨hh, ⟨ht, hx⟩⟩ rest
def sample_dataQuery : DataQuery :=
  ⟨⟨⟨2, 3⟩, 4⟩, ⟨⟨5, 6⟩, 7⟩, 8, 9, [10, 11], [12, 13]⟩
theorem sample_dataQuery_ok : sample_dataQuery.Wf := by
  wf_sample
example : PduRoundTrips sampleEnv (sampleFor 18) (.dataQuery sample_dataQuery) :=
  C10_dataQuery_round_trip sampleEnv (sampleFor_wf 18) rfl sample_dataQuery_ok

/-- **C10**, SetData (type 19).  Partial: variable datums that need padding are excluded (C05). -/
theorem C10_setData_round_trip_partial (env : Env) {h : PduHeader} (hh : h.Wf) (ht : h.pdu_type = 19) {x : SetData} (hx : x.Wf) :
    PduRoundTrips env h (.setData x) :=
  fun rest => pdu_ser (p := ⟨h, .setData x⟩) ⟨hh, ⟨ht, hx⟩⟩ rest
def sample_setData : SetData :=
  ⟨⟨⟨2, 3⟩, 4⟩, ⟨⟨5, 6⟩, 7⟩, 8, [⟨9, 10⟩, ⟨11, 12⟩], [⟨24000, [1, 2, 3, 4, 5, 6, 7, 8]⟩, ⟨24000, [1, 2, 3, 4, 5, 6, 7, 8]⟩]⟩
theorem sample_setData_ok : sample_setData.Wf := by
  wf_sample
example : PduRoundTrips sampleEnv (sampleFor 19) (.setData sample_setData) :=
  C10_setData_round_trip_partial sampleEnv (sampleFor_wf 19) rfl sample_setData_ok

/-- **C10**, Data (type 20).  Partial: variable datums that need padding are excluded (C05). -/
theorem C10_data_round_trip_partial (env : Env) {h : PduHeader} (hh : h.Wf) (ht : h.pdu_type = 20) {x : Data} (hx : x.Wf) :
    PduRoundTrips env h (.data x) :=
  fun rest => pdu_ser (p := ⟨h, .data x⟩) ⟨hh, ⟨ht, hx⟩⟩ rest
def sample_data : Data :=
  ⟨⟨⟨2, 3⟩, 4⟩, ⟨⟨5, 6⟩, 7⟩, 8, [⟨9, 10⟩, ⟨11, 12⟩], [⟨24000, [1, 2, 3, 4, 5, 6, 7, 8]⟩, ⟨24000, [1, 2, 3, 4, 5, 6, 7, 8]⟩]⟩
theorem sample_data_ok : sample_data.Wf := by
  wf_sample
example : PduRoundTrips sampleEnv (sampleFor 20) (.data sample_data) :=
  C10_data_round_trip_partial sampleEnv (sampleFor_wf 20) rfl sample_data_ok

/-- **C10**, EventReport (type 21).  Partial: variable datums that need padding are excluded (C05). -/
theorem C10_eventReport_round_trip_partial (env : Env) {h : PduHeader} (hh : h.Wf) (ht : h.pdu_type = 21) {x : EventReport} (hx : x.Wf) :
    PduRoundTrips env h (.eventReport x) :=
  fun rest => pdu_ser (p := ⟨h, .eventReport x⟩) ⟨hh, ⟨ht, hx⟩⟩ rest
def sample_eventReport : EventReport :=
  ⟨⟨⟨2, 3⟩, 4⟩, ⟨⟨5, 6⟩, 7⟩, 8, [⟨9, 10⟩, ⟨11, 12⟩], [⟨24000, [1, 2, 3, 4, 5, 6, 7, 8]⟩, ⟨24000, [1, 2, 3, 4, 5, 6, 7, 8]⟩]⟩
theorem sample_eventReport_ok : sample_eventReport.Wf := by
  wf_sample
example : PduRoundTrips sampleEnv (sampleFor 21) (.eventReport sample_eventReport) :=
  C10_eventReport_round_trip_partial sampleEnv (sampleFor_wf 21) rfl sample_eventReport_ok

/-- **C10**, Comment (type 22).  Partial: variable datums that need padding are excluded (C05). -/
theorem C10_comment_round_trip_partial (env : Env) {h : PduHeader} (hh : h.Wf) (ht : h.pdu_type = 22) {x : Comment} (hx : x.Wf) :
    PduRoundTrips env h (.comment x) :=
  fun rest => pdu_ser (p := ⟨h, .comment x⟩) ⟨hh, ⟨ht, hx⟩⟩ rest
def sample_comment : Comment :=
  ⟨⟨⟨2, 3⟩, 4⟩, ⟨⟨5, 6⟩, 7⟩, [⟨24000, [1, 2, 3, 4, 5, 6, 7, 8]⟩, ⟨24000, [1, 2, 3, 4, 5, 6, 7, 8]⟩]⟩
theorem sample_comment_ok : sample_comment.Wf := by
  wf_sample
example : PduRoundTrips sampleEnv (sampleFor 22) (.comment sample_comment) :=
  C10_comment_round_trip_partial sampleEnv (sampleFor_wf 22) rfl sample_comment_ok

/-! ## C11 -/

/-- **C11**, CreateEntityR (type 51). -/
theorem C11_createEntityR_round_trip (env : Env) {h : PduHeader} (hh : h.Wf) (ht : h.pdu_type = 51) {x : CreateEntityR} :
    PduRoundTrips env h (.createEntityR x) :=
  fun rest => pdu_ser (p := ⟨h, .createEntityR x⟩) ⟨hh, ht⟩ rest
def sample_createEntityR : CreateEntityR :=
  ⟨⟨⟨2, 3⟩, 4⟩, ⟨⟨5, 6⟩, 7⟩, 8, 9⟩
example : PduRoundTrips sampleEnv (sampleFor 51) (.createEntityR sample_createEntityR) :=
  C11_createEntityR_round_trip sampleEnv (sampleFor_wf 51) rfl

/-- **C11**, RemoveEntityR (type 52). -/
theorem C11_removeEntityR_round_trip (env : Env) {h : PduHeader} (hh : h.Wf) (ht : h.pdu_type = 52) {x : RemoveEntityR} :
    PduRoundTrips env h (.removeEntityR x) :=
  fun rest => pdu_ser (p := ⟨h, .removeEntityR x⟩) ⟨hh, ht⟩ rest
def sample_removeEntityR : RemoveEntityR :=
  ⟨⟨⟨2, 3⟩, 4⟩, ⟨⟨5, 6⟩, 7⟩, 8, 9⟩
example : PduRoundTrips sampleEnv (sampleFor 52) (.removeEntityR sample_removeEntityR) :=
  C11_removeEntityR_round_trip sampleEnv (sampleFor_wf 52) rfl

/-- **C11**, StartResumeR (type 53). -/
theorem C11_startResumeR_round_trip (env : Env) {h : PduHeader} (hh : h.Wf) (ht : h.pdu_type = 53) {x : StartResumeR} :
    PduRoundTrips env h (.startResumeR x) :=
  fun rest => pdu_ser (p := ⟨h, .startResumeR x⟩) ⟨hh, ht⟩ rest
def sample_startResumeR : StartResumeR :=
  ⟨⟨⟨2, 3⟩, 4⟩, ⟨⟨5, 6⟩, 7⟩, ⟨8, 9⟩, ⟨10, 11⟩, 12, 13⟩
example : PduRoundTrips sampleEnv (sampleFor 53) (.startResumeR sample_startResumeR) :=
  C11_startResumeR_round_trip sampleEnv (sampleFor_wf 53) rfl

/-- **C11**, StopFreezeR (type 54). -/
theorem C11_stopFreezeR_round_trip (env : Env) {h : PduHeader} (hh : h.Wf) (ht : h.pdu_type = 54) {x : StopFreezeR} :
    PduRoundTrips env h (.stopFreezeR x) :=
  fun rest => pdu_ser (p := ⟨h, .stopFreezeR x⟩) ⟨hh, ht⟩ rest
def sample_stopFreezeR : StopFreezeR :=
  ⟨⟨⟨2, 3⟩, 4⟩, ⟨⟨5, 6⟩, 7⟩, ⟨8, 9⟩, 10, 11, 12, 13⟩
example : PduRoundTrips sampleEnv (sampleFor 54) (.stopFreezeR sample_stopFreezeR) :=
  C11_stopFreezeR_round_trip sampleEnv (sampleFor_wf 54) rfl

/-- **C11**, AcknowledgeR (type 55). -/
theorem C11_acknowledgeR_round_trip (env : Env) {h : PduHeader} (hh : h.Wf) (ht : h.pdu_type = 55) {x : AcknowledgeR} :
    PduRoundTrips env h (.acknowledgeR x) :=
  fun rest => pdu_ser (p := ⟨h, .acknowledgeR x⟩) ⟨hh, ht⟩ rest
def sample_acknowledgeR : AcknowledgeR :=
  ⟨⟨⟨2, 3⟩, 4⟩, ⟨⟨5, 6⟩, 7⟩, 8, 9, 10⟩
example : PduRoundTrips sampleEnv (sampleFor 55) (.acknowledgeR sample_acknowledgeR) :=
  C11_acknowledgeR_round_trip sampleEnv (sampleFor_wf 55) rfl

/-- **C11**, ActionRequestR (type 56).  Partial: variable datums that need padding are excluded (C05). -/
theorem C11_actionRequestR_round_trip_partial (env : Env) {h : PduHeader} (hh : h.Wf) (ht : h.pdu_type = 56) {x : ActionRequestR} (hx : x.Wf) :
    PduRoundTrips env h (.actionRequestR x) :=
  fun rest => pdu_ser (p := ⟨h, .actionRequestR x⟩) ⟨hh, ⟨ht, hx⟩⟩ rest
def sample_actionRequestR : ActionRequestR :=
  ⟨⟨⟨2, 3⟩, 4⟩, ⟨⟨5, 6⟩, 7⟩, 8, 9, 10, [⟨11, 12⟩, ⟨13, 14⟩], [⟨24000, [1, 2, 3, 4, 5, 6, 7, 8]⟩, ⟨24000, [1, 2, 3, 4, 5, 6, 7, 8]⟩]⟩
theorem sample_actionRequestR_ok : sample_actionRequestR.Wf := by
  wf_sample
example : PduRoundTrips sampleEnv (sampleFor 56) (.actionRequestR sample_actionRequestR) :=
  C11_actionRequestR_round_trip_partial sampleEnv (sampleFor_wf 56) rfl sample_actionRequestR_ok

/-- **C11**, DataQueryR (type 58). -/
theorem C11_dataQueryR_round_trip (env : Env) {h : PduHeader} (hh : h.Wf) (ht : h.pdu_type = 58) {x : DataQueryR} (hx : x.Wf) :
    PduRoundTrips env h (.dataQueryR x) :=
  fun rest => pdu_ser (p := ⟨h, .dataQueryR x⟩) ⟨hh, ⟨ht, hx⟩⟩ rest
def sample_dataQueryR : DataQueryR :=
  ⟨⟨⟨2, 3⟩, 4⟩, ⟨⟨5, 6⟩, 7⟩, 8, 9, 10, [11, 12], [13, 14]⟩
theorem sample_dataQueryR_ok : sample_dataQueryR.Wf := by
  wf_sample
example : PduRoundTrips sampleEnv (sampleFor 58) (.dataQueryR sample_dataQueryR) :=
  C11_dataQueryR_round_trip sampleEnv (sampleFor_wf 58) rfl sample_dataQueryR_ok

/-- **C11**, SetDataR (type 59).  Partial: variable datums that need padding are excluded (C05). -/
theorem C11_setDataR_round_trip_partial (env : Env) {h : PduHeader} (hh : h.Wf) (ht : h.pdu_type = 59) {x : SetDataR} (hx : x.Wf) :
    PduRoundTrips env h (.setDataR x) :=
  fun rest => pdu_ser (p := ⟨h, .setDataR x⟩) ⟨hh, ⟨ht, hx⟩⟩ rest
def sample_setDataR : SetDataR :=
  ⟨⟨⟨2, 3⟩, 4⟩, ⟨⟨5, 6⟩, 7⟩, 8, 9, [⟨10, 11⟩, ⟨12, 13⟩], [⟨24000, [1, 2, 3, 4, 5, 6, 7, 8]⟩, ⟨24000, [1, 2, 3, 4, 5, 6, 7, 8]⟩]⟩
theorem sample_setDataR_ok : sample_setDataR.Wf := by
  wf_sample
example : PduRoundTrips sampleEnv (sampleFor 59) (.setDataR sample_setDataR) :=
  C11_setDataR_round_trip_partial sampleEnv (sampleFor_wf 59) rfl sample_setDataR_ok

/-- **C11**, DataR (type 60).  Partial: variable datums that need padding are excluded (C05). -/
theorem C11_dataR_round_trip_partial (env : Env) {h : PduHeader} (hh : h.Wf) (ht : h.pdu_type = 60) {x : DataR} (hx : x.Wf) :
    PduRoundTrips env h (.dataR x) :=
  fun rest => pdu_ser (p := ⟨h, .dataR x⟩) ⟨hh, ⟨ht, hx⟩⟩ rest
def sample_dataR : DataR :=
  ⟨⟨⟨2, 3⟩, 4⟩, ⟨⟨5, 6⟩, 7⟩, 8, 9, [⟨10, 11⟩, ⟨12, 13⟩], [⟨24000, [1, 2, 3, 4, 5, 6, 7, 8]⟩, ⟨24000, [1, 2, 3, 4, 5, 6, 7, 8]⟩]⟩
theorem sample_dataR_ok : sample_dataR.Wf := by
  wf_sample
example : PduRoundTrips sampleEnv (sampleFor 60) (.dataR sample_dataR) :=
  C11_dataR_round_trip_partial sampleEnv (sampleFor_wf 60) rfl sample_dataR_ok

/-- **C11**, EventReportR (type 61).  Partial: variable datums that need padding are excluded (C05). -/
theorem C11_eventReportR_round_trip_partial (env : Env) {h : PduHeader} (hh : h.Wf) (ht : h.pdu_type = 61) {x : EventReportR} (hx : x.Wf) :
    PduRoundTrips env h (.eventReportR x) :=
  fun rest => pdu_ser (p := ⟨h, .eventReportR x⟩) ⟨hh, ⟨ht, hx⟩⟩ rest
def sample_eventReportR : EventReportR :=
  ⟨⟨⟨2, 3⟩, 4⟩, ⟨⟨5, 6⟩, 7⟩, 8, [⟨9, 10⟩, ⟨11, 12⟩], [⟨24000, [1, 2, 3, 4, 5, 6, 7, 8]⟩, ⟨24000, [1, 2, 3, 4, 5, 6, 7, 8]⟩]⟩
theorem sample_eventReportR_ok : sample_eventReportR.Wf := by
  wf_sample
example : PduRoundTrips sampleEnv (sampleFor 61) (.eventReportR sample_eventReportR) :=
  C11_eventReportR_round_trip_partial sampleEnv (sampleFor_wf 61) rfl sample_eventReportR_ok

/-- **C11**, CommentR (type 62).  Partial: variable datums that need padding are excluded (C05). -/
theorem C11_commentR_round_trip_partial (env : Env) {h : PduHeader} (hh : h.Wf) (ht : h.pdu_type = 62) {x : CommentR} (hx : x.Wf) :
    PduRoundTrips env h (.commentR x) :=
  fun rest => pdu_ser (p := ⟨h, .commentR x⟩) ⟨hh, ⟨ht, hx⟩⟩ rest
def sample_commentR : CommentR :=
  ⟨⟨⟨2, 3⟩, 4⟩, ⟨⟨5, 6⟩, 7⟩, [⟨24000, [1, 2, 3, 4, 5, 6, 7, 8]⟩, ⟨24000, [1, 2, 3, 4, 5, 6, 7, 8]⟩]⟩
theorem sample_commentR_ok : sample_commentR.Wf := by
  wf_sample
example : PduRoundTrips sampleEnv (sampleFor 62) (.commentR sample_commentR) :=
  C11_commentR_round_trip_partial sampleEnv (sampleFor_wf 62) rfl sample_commentR_ok

/-- **C11**, RecordR (type 63). -/
theorem C11_recordR_round_trip (env : Env) {h : PduHeader} (hh : h.Wf) (ht : h.pdu_type = 63) {x : RecordR} (hx : x.Wf) :
    PduRoundTrips env h (.recordR x) :=
  fun rest => pdu_ser (p := ⟨h, .recordR x⟩) ⟨hh, ⟨ht, hx⟩⟩ rest
def sample_recordR : RecordR :=
  ⟨⟨⟨2, 3⟩, 4⟩, ⟨⟨5, 6⟩, 7⟩, 8, 9, 10, 11, [⟨1000, 7, 3, [[1, 2, 3], [4, 5, 6]]⟩, ⟨1000, 7, 3, [[1, 2, 3], [4, 5, 6]]⟩]⟩
theorem sample_recordR_ok : sample_recordR.Wf := by
  wf_sample
example : PduRoundTrips sampleEnv (sampleFor 63) (.recordR sample_recordR) :=
  C11_recordR_round_trip sampleEnv (sampleFor_wf 63) rfl sample_recordR_ok

/-- **C11**, SetRecordR (type 64). -/
theorem C11_setRecordR_round_trip (env : Env) {h : PduHeader} (hh : h.Wf) (ht : h.pdu_type = 64) {x : SetRecordR} (hx : x.Wf) :
    PduRoundTrips env h (.setRecordR x) :=
  fun rest => pdu_ser (p := ⟨h, .setRecordR x⟩) ⟨hh, ⟨ht, hx⟩⟩ rest
def sample_setRecordR : SetRecordR :=
  ⟨⟨⟨2, 3⟩, 4⟩, ⟨⟨5, 6⟩, 7⟩, 8, 9, [⟨1000, 7, 3, [[1, 2, 3], [4, 5, 6]]⟩, ⟨1000, 7, 3, [[1, 2, 3], [4, 5, 6]]⟩]⟩
theorem sample_setRecordR_ok : sample_setRecordR.Wf := by
  wf_sample
example : PduRoundTrips sampleEnv (sampleFor 64) (.setRecordR sample_setRecordR) :=
  C11_setRecordR_round_trip sampleEnv (sampleFor_wf 64) rfl sample_setRecordR_ok

/-- **C11**, RecordQueryR (type 65). -/
theorem C11_recordQueryR_round_trip (env : Env) {h : PduHeader} (hh : h.Wf) (ht : h.pdu_type = 65) {x : RecordQueryR} (hx : x.Wf) :
    PduRoundTrips env h (.recordQueryR x) :=
  fun rest => pdu_ser (p := ⟨h, .recordQueryR x⟩) ⟨hh, ⟨ht, hx⟩⟩ rest
def sample_recordQueryR : RecordQueryR :=
  ⟨⟨⟨2, 3⟩, 4⟩, ⟨⟨5, 6⟩, 7⟩, 8, 9, 10, 11, [12, 13]⟩
theorem sample_recordQueryR_ok : sample_recordQueryR.Wf := by
  wf_sample
example : PduRoundTrips sampleEnv (sampleFor 65) (.recordQueryR sample_recordQueryR) :=
  C11_recordQueryR_round_trip sampleEnv (sampleFor_wf 65) rfl sample_recordQueryR_ok

/-! ## C12 -/

/-- **C12**, ServiceRequest (type 5). -/
theorem C12_serviceRequest_round_trip (env : Env) {h : PduHeader} (hh : h.Wf) (ht : h.pdu_type = 5) {x : ServiceRequest} (hx : x.Wf) :
    PduRoundTrips env h (.serviceRequest x) :=
  fun rest => pdu_ser (p := ⟨h, .serviceRequest x⟩) ⟨hh, ⟨ht, hx⟩⟩ rest
def sample_serviceRequest : ServiceRequest :=
  ⟨⟨⟨2, 3⟩, 4⟩, ⟨⟨5, 6⟩, 7⟩, 8, [⟨⟨9, 10, 11, 12, 13, 14, 15⟩, 16⟩, ⟨⟨17, 18, 19, 20, 21, 22, 23⟩, 24⟩]⟩
theorem sample_serviceRequest_ok : sample_serviceRequest.Wf := by
  wf_sample
example : PduRoundTrips sampleEnv (sampleFor 5) (.serviceRequest sample_serviceRequest) :=
  C12_serviceRequest_round_trip sampleEnv (sampleFor_wf 5) rfl sample_serviceRequest_ok

/-- **C12**, ResupplyOffer (type 6). -/
theorem C12_resupplyOffer_round_trip (env : Env) {h : PduHeader} (hh : h.Wf) (ht : h.pdu_type = 6) {x : ResupplyOffer} (hx : x.Wf) :
    PduRoundTrips env h (.resupplyOffer x) :=
  fun rest => pdu_ser (p := ⟨h, .resupplyOffer x⟩) ⟨hh, ⟨ht, hx⟩⟩ rest
def sample_resupplyOffer : ResupplyOffer :=
  ⟨⟨⟨2, 3⟩, 4⟩, ⟨⟨5, 6⟩, 7⟩, [⟨⟨8, 9, 10, 11, 12, 13, 14⟩, 15⟩, ⟨⟨16, 17, 18, 19, 20, 21, 22⟩, 23⟩]⟩
theorem sample_resupplyOffer_ok : sample_resupplyOffer.Wf := by
  wf_sample
example : PduRoundTrips sampleEnv (sampleFor 6) (.resupplyOffer sample_resupplyOffer) :=
  C12_resupplyOffer_round_trip sampleEnv (sampleFor_wf 6) rfl sample_resupplyOffer_ok

/-- **C12**, ResupplyReceived (type 7). -/
theorem C12_resupplyReceived_round_trip (env : Env) {h : PduHeader} (hh : h.Wf) (ht : h.pdu_type = 7) {x : ResupplyReceived} (hx : x.Wf) :
    PduRoundTrips env h (.resupplyReceived x) :=
  fun rest => pdu_ser (p := ⟨h, .resupplyReceived x⟩) ⟨hh, ⟨ht, hx⟩⟩ rest
def sample_resupplyReceived : ResupplyReceived :=
  ⟨⟨⟨2, 3⟩, 4⟩, ⟨⟨5, 6⟩, 7⟩, [⟨⟨8, 9, 10, 11, 12, 13, 14⟩, 15⟩, ⟨⟨16, 17, 18, 19, 20, 21, 22⟩, 23⟩]⟩
theorem sample_resupplyReceived_ok : sample_resupplyReceived.Wf := by
  wf_sample
example : PduRoundTrips sampleEnv (sampleFor 7) (.resupplyReceived sample_resupplyReceived) :=
  C12_resupplyReceived_round_trip sampleEnv (sampleFor_wf 7) rfl sample_resupplyReceived_ok

/-- **C12**, ResupplyCancel (type 8). -/
theorem C12_resupplyCancel_round_trip (env : Env) {h : PduHeader} (hh : h.Wf) (ht : h.pdu_type = 8) {x : ResupplyCancel} :
    PduRoundTrips env h (.resupplyCancel x) :=
  fun rest => pdu_ser (p := ⟨h, .resupplyCancel x⟩) ⟨hh, ht⟩ rest
def sample_resupplyCancel : ResupplyCancel :=
  ⟨⟨⟨2, 3⟩, 4⟩, ⟨⟨5, 6⟩, 7⟩⟩
example : PduRoundTrips sampleEnv (sampleFor 8) (.resupplyCancel sample_resupplyCancel) :=
  C12_resupplyCancel_round_trip sampleEnv (sampleFor_wf 8) rfl

/-- **C12**, RepairComplete (type 9). -/
theorem C12_repairComplete_round_trip (env : Env) {h : PduHeader} (hh : h.Wf) (ht : h.pdu_type = 9) {x : RepairComplete} :
    PduRoundTrips env h (.repairComplete x) :=
  fun rest => pdu_ser (p := ⟨h, .repairComplete x⟩) ⟨hh, ht⟩ rest
def sample_repairComplete : RepairComplete :=
  ⟨⟨⟨2, 3⟩, 4⟩, ⟨⟨5, 6⟩, 7⟩, 8⟩
example : PduRoundTrips sampleEnv (sampleFor 9) (.repairComplete sample_repairComplete) :=
  C12_repairComplete_round_trip sampleEnv (sampleFor_wf 9) rfl

/-- **C12**, RepairResponse (type 10). -/
theorem C12_repairResponse_round_trip (env : Env) {h : PduHeader} (hh : h.Wf) (ht : h.pdu_type = 10) {x : RepairResponse} :
    PduRoundTrips env h (.repairResponse x) :=
  fun rest => pdu_ser (p := ⟨h, .repairResponse x⟩) ⟨hh, ht⟩ rest
def sample_repairResponse : RepairResponse :=
  ⟨⟨⟨2, 3⟩, 4⟩, ⟨⟨5, 6⟩, 7⟩, 8⟩
example : PduRoundTrips sampleEnv (sampleFor 10) (.repairResponse sample_repairResponse) :=
  C12_repairResponse_round_trip sampleEnv (sampleFor_wf 10) rfl

/-! ## C13 -/

/-- **C13**, ElectromagneticEmission (type 23). -/
theorem C13_electromagneticEmission_round_trip (env : Env) {h : PduHeader} (hh : h.Wf) (ht : h.pdu_type = 23) {x : ElectromagneticEmission} (hx : x.Wf) :
    PduRoundTrips env h (.electromagneticEmission x) :=
  fun rest => pdu_ser (p := ⟨h, .electromagneticEmission x⟩) ⟨hh, ⟨ht, hx⟩⟩ rest
def sample_electromagneticEmission : ElectromagneticEmission :=
  ⟨⟨⟨2, 3⟩, 4⟩, ⟨⟨5, 6⟩, 7⟩, 8, [⟨9, 10, 11, ⟨12, 13, 14⟩, [⟨15, 16, ⟨17, 18, 19, 20, 21⟩, ⟨22, 23, 24, 25, 26⟩, 27, 28, 29, ⟨30, 31, 32, 33⟩, [⟨⟨⟨34, 35⟩, 36⟩, 37, 38⟩, ⟨⟨⟨39, 40⟩, 41⟩, 42, 43⟩]⟩, ⟨44, 45, ⟨46, 47, 48, 49, 50⟩, ⟨51, 52, 53, 54, 55⟩, 56, 57, 58, ⟨59, 60, 61, 62⟩, [⟨⟨⟨63, 64⟩, 65⟩, 66, 67⟩, ⟨⟨⟨68, 69⟩, 70⟩, 71, 72⟩]⟩]⟩, ⟨73, 74, 75, ⟨76, 77, 78⟩, [⟨79, 80, ⟨81, 82, 83, 84, 85⟩, ⟨86, 87, 88, 89, 90⟩, 91, 92, 93, ⟨94, 95, 96, 97⟩, [⟨⟨⟨98, 99⟩, 100⟩, 101, 102⟩, ⟨⟨⟨103, 104⟩, 105⟩, 106, 107⟩]⟩, ⟨108, 109, ⟨110, 111, 112, 113, 114⟩, ⟨115, 116, 117, 118, 119⟩, 120, 121, 122, ⟨123, 124, 125, 126⟩, [⟨⟨⟨127, 128⟩, 129⟩, 130, 131⟩, ⟨⟨⟨132, 133⟩, 134⟩, 135, 136⟩]⟩]⟩]⟩
theorem sample_electromagneticEmission_ok : sample_electromagneticEmission.Wf := by
  wf_sample
example : PduRoundTrips sampleEnv (sampleFor 23) (.electromagneticEmission sample_electromagneticEmission) :=
  C13_electromagneticEmission_round_trip sampleEnv (sampleFor_wf 23) rfl sample_electromagneticEmission_ok

/-- **C13**, Designator (type 24). -/
theorem C13_designator_round_trip (env : Env) {h : PduHeader} (hh : h.Wf) (ht : h.pdu_type = 24) {x : Designator} :
    PduRoundTrips env h (.designator x) :=
  fun rest => pdu_ser (p := ⟨h, .designator x⟩) ⟨hh, ht⟩ rest
def sample_designator : Designator :=
  ⟨⟨⟨2, 3⟩, 4⟩, 5, ⟨⟨6, 7⟩, 8⟩, 9, 10, 11, ⟨12, 13, 14⟩, ⟨15, 16, 17⟩, 18, ⟨19, 20, 21⟩⟩
example : PduRoundTrips sampleEnv (sampleFor 24) (.designator sample_designator) :=
  C13_designator_round_trip sampleEnv (sampleFor_wf 24) rfl

/-- **C13**, Iff (type 28).  Partial: only Mode S data with the bits the reader forces. -/
theorem C13_iff_round_trip_partial (env : Env) {h : PduHeader} (hh : h.Wf) (ht : h.pdu_type = 28) {x : Iff} (hx : x.Wf env ∧ x.Forced) :
    PduRoundTrips env h (.iff x) :=
  fun rest => pdu_ser (p := ⟨h, .iff x⟩) ⟨hh, ⟨ht, hx⟩⟩ rest
def sample_iff : Iff :=
  ⟨⟨⟨2, 3⟩, 4⟩, ⟨⟨5, 6⟩, 7⟩, ⟨8, 9, 10⟩, ⟨11, 12, 13, [1, 0, 0, 0, 1, 0, 1, 0]⟩, 14, 15, ⟨[1, 0, 1, 0, 1, 0, 0, 0], 16, [1, 1, 1, 1, 1, 0, 0], 17, 18, 19, 20, 21, 22, 23⟩, (some ⟨⟨24, 25, 26⟩, ⟨27, 28, 29, 30, 31⟩, 32, 33, [⟨34, 35, 36, 37, 38, 39, 40, 41, 42⟩, ⟨43, 44, 45, 46, 47, 48, 49, 50, 51⟩]⟩), (some ⟨⟨52, 53, 54⟩, ⟨55, 56⟩, (.transponder [3, 1, 2, 0, 1, 0, 1, 0, 1, 0, 1] 77 (List.replicate 32 1) [7, 6, 5, 4, 1, 0, 1] 225 [1, 0, 5] 3 4), [⟨5, [1, 2]⟩, ⟨5, [1, 2]⟩]⟩), (some ⟨⟨57, 58, 59⟩, ⟨60, 61⟩, (.transponder [1, 5, 0, 1, 0, 1, 0, 1, 0, 1, 0] [1, 0, 1, 0, 1] 3 [75, 76, 77, 49] 99 1 [1, 0, 1, 0, 1, 0, 0, 1] [2000, 1] 4), [⟨5, [1, 2]⟩, ⟨5, [1, 2]⟩]⟩), (some ⟨⟨62, 63, 64⟩, ⟨65, 66⟩, [1, 1, 0, 0, 0, 0, 0], 67, [⟨5, [1, 2]⟩, ⟨5, [1, 2]⟩]⟩)⟩
theorem sample_iff_ok : sample_iff.Wf sampleEnv ∧ sample_iff.Forced := by
  wf_sample
example : PduRoundTrips sampleEnv (sampleFor 28) (.iff sample_iff) :=
  C13_iff_round_trip_partial sampleEnv (sampleFor_wf 28) rfl sample_iff_ok

/-- **C13**, UnderwaterAcoustic (type 29).  Partial: only passive activity records with zero parameter and status. -/
theorem C13_underwaterAcoustic_round_trip_partial (env : Env) {h : PduHeader} (hh : h.Wf) (ht : h.pdu_type = 29) {x : UnderwaterAcoustic} (hx : x.Wf ∧ ∀ a ∈ x.apas, a.Zero) :
    PduRoundTrips env h (.underwaterAcoustic x) :=
  fun rest => pdu_ser (p := ⟨h, .underwaterAcoustic x⟩) ⟨hh, ⟨ht, hx⟩⟩ rest
def sample_underwaterAcoustic : UnderwaterAcoustic :=
  ⟨⟨⟨2, 3⟩, 4⟩, ⟨⟨5, 6⟩, 7⟩, 8, 9, ⟨100, true⟩, [⟨10, 11, 12⟩, ⟨13, 14, 15⟩], [⟨0, 0, 9⟩, ⟨0, 0, 9⟩], [⟨⟨16, 17, 18⟩, ⟨19, 20, 21⟩, [⟨22, 23, ⟨24, 25, 26, 27, 28, 29⟩⟩, ⟨30, 31, ⟨32, 33, 34, 35, 36, 37⟩⟩]⟩, ⟨⟨38, 39, 40⟩, ⟨41, 42, 43⟩, [⟨44, 45, ⟨46, 47, 48, 49, 50, 51⟩⟩, ⟨52, 53, ⟨54, 55, 56, 57, 58, 59⟩⟩]⟩]⟩
theorem sample_underwaterAcoustic_ok : sample_underwaterAcoustic.Wf ∧ ∀ a ∈ sample_underwaterAcoustic.apas, a.Zero := by
  wf_sample
example : PduRoundTrips sampleEnv (sampleFor 29) (.underwaterAcoustic sample_underwaterAcoustic) :=
  C13_underwaterAcoustic_round_trip_partial sampleEnv (sampleFor_wf 29) rfl sample_underwaterAcoustic_ok

/-- **C13**, SEES (type 30). -/
theorem C13_sees_round_trip (env : Env) {h : PduHeader} (hh : h.Wf) (ht : h.pdu_type = 30) {x : SEES} (hx : x.Wf) :
    PduRoundTrips env h (.sees x) :=
  fun rest => pdu_ser (p := ⟨h, .sees x⟩) ⟨hh, ⟨ht, hx⟩⟩ rest
def sample_sees : SEES :=
  ⟨⟨⟨2, 3⟩, 4⟩, 5, 6, 7, [⟨8, 9⟩, ⟨10, 11⟩], [⟨12, 13⟩, ⟨14, 15⟩]⟩
theorem sample_sees_ok : sample_sees.Wf := by
  wf_sample
example : PduRoundTrips sampleEnv (sampleFor 30) (.sees sample_sees) :=
  C13_sees_round_trip sampleEnv (sampleFor_wf 30) rfl sample_sees_ok

/-! ## C14 -/

/-- **C14**, Transmitter (type 25). -/
theorem C14_transmitter_round_trip (env : Env) {h : PduHeader} (hh : h.Wf) (ht : h.pdu_type = 25) {x : Transmitter} (hx : x.Wf h.protocol_version) :
    PduRoundTrips env h (.transmitter x) :=
  fun rest => pdu_ser (p := ⟨h, .transmitter x⟩) ⟨hh, ⟨ht, hx⟩⟩ rest
def sample_transmitter : Transmitter :=
  ⟨⟨⟨2, 3⟩, 4⟩, 5, ⟨6, 7, 8, 9, 10, 11, 12⟩, 13, 14, ⟨15, 16, 17⟩, ⟨18, 19, 20⟩, 21, 22, 23, 24, ⟨[1, 0, 1], 4, 8, 25⟩, 26, [0x1234, 1], (some [1, 2, 3, 4, 5, 6, 7, 8]), (some ⟨⟨27, 28, 29⟩, 30, 31, 32, 33, 34, 35⟩), [⟨5, [1, 2]⟩, ⟨5, [1, 2]⟩]⟩
theorem sample_transmitter_ok : sample_transmitter.Wf (sampleFor 25).protocol_version := by
  wf_sample
example : PduRoundTrips sampleEnv (sampleFor 25) (.transmitter sample_transmitter) :=
  C14_transmitter_round_trip sampleEnv (sampleFor_wf 25) rfl sample_transmitter_ok

/-- **C14**, Signal (type 26).  Partial: only data filling whole 32-bit words. -/
theorem C14_signal_round_trip_partial (env : Env) {h : PduHeader} (hh : h.Wf) (ht : h.pdu_type = 26) {x : Signal} (hx : x.Wf ∧ x.data.length % 4 = 0) :
    PduRoundTrips env h (.signal x) :=
  fun rest => pdu_ser (p := ⟨h, .signal x⟩) ⟨hh, ⟨ht, hx⟩⟩ rest
def sample_signal : Signal :=
  ⟨⟨⟨2, 3⟩, 4⟩, 5, (.databaseIndex 3 0x01020304 0x05060708 0x090A0B0C), 6, 7, 8, [1, 2, 3, 4, 5, 6, 7, 8, 9, 10, 11, 12]⟩
theorem sample_signal_ok : sample_signal.Wf ∧ sample_signal.data.length % 4 = 0 := by
  wf_sample
example : PduRoundTrips sampleEnv (sampleFor 26) (.signal sample_signal) :=
  C14_signal_round_trip_partial sampleEnv (sampleFor_wf 26) rfl sample_signal_ok

/-- **C14**, Receiver (type 27). -/
theorem C14_receiver_round_trip (env : Env) {h : PduHeader} (hh : h.Wf) (ht : h.pdu_type = 27) {x : Receiver} :
    PduRoundTrips env h (.receiver x) :=
  fun rest => pdu_ser (p := ⟨h, .receiver x⟩) ⟨hh, ht⟩ rest
def sample_receiver : Receiver :=
  ⟨⟨⟨2, 3⟩, 4⟩, 5, 6, 7, ⟨⟨8, 9⟩, 10⟩, 11⟩
example : PduRoundTrips sampleEnv (sampleFor 27) (.receiver sample_receiver) :=
  C14_receiver_round_trip sampleEnv (sampleFor_wf 27) rfl

/-! ## C15 -/

/-- **C15**, AggregateState (type 33).  Partial: variable datums that need padding are excluded (C05). -/
theorem C15_aggregateState_round_trip_partial (env : Env) {h : PduHeader} (hh : h.Wf) (ht : h.pdu_type = 33) {x : AggregateState} (hx : x.Wf env) :
    PduRoundTrips env h (.aggregateState x) :=
  fun rest => pdu_ser (p := ⟨h, .aggregateState x⟩) ⟨hh, ⟨ht, hx⟩⟩ rest
def sample_aggregateState : AggregateState :=
  ⟨⟨⟨2, 3⟩, 4⟩, 5, 6, ⟨7, 8, 9, 10, 11, 12, 13⟩, 14, ⟨1, [65, 71, 71, 50]⟩, ⟨15, 16, 17⟩, ⟨18, 19, 20⟩, ⟨21, 22, 23⟩, ⟨24, 25, 26⟩, [⟨⟨27, 28⟩, 29⟩, ⟨⟨30, 31⟩, 32⟩], [⟨⟨33, 34⟩, 35⟩, ⟨⟨36, 37⟩, 38⟩], [⟨39, ⟨40, 41, 42, 43, 44, 45, 46⟩⟩, ⟨47, ⟨48, 49, 50, 51, 52, 53, 54⟩⟩], [⟨55, ⟨1, 1, 225, 1, 1, 3, 0⟩, [⟨.landPlatform, 0x12345678⟩, ⟨.landPlatform, 0x12345678⟩]⟩, ⟨56, ⟨1, 1, 225, 1, 1, 3, 0⟩, [⟨.landPlatform, 0x12345678⟩, ⟨.landPlatform, 0x12345678⟩]⟩], [⟨24000, [1, 2, 3, 4, 5, 6, 7, 8]⟩, ⟨24000, [1, 2, 3, 4, 5, 6, 7, 8]⟩]⟩
theorem sample_aggregateState_ok : sample_aggregateState.Wf sampleEnv := by
  wf_sample
example : PduRoundTrips sampleEnv (sampleFor 33) (.aggregateState sample_aggregateState) :=
  C15_aggregateState_round_trip_partial sampleEnv (sampleFor_wf 33) rfl sample_aggregateState_ok

/-- **C15**, IsGroupOf (type 34). -/
theorem C15_isGroupOf_round_trip (env : Env) {h : PduHeader} (hh : h.Wf) (ht : h.pdu_type = 34) {x : IsGroupOf} (hx : x.Wf env) :
    PduRoundTrips env h (.isGroupOf x) :=
  fun rest => pdu_ser (p := ⟨h, .isGroupOf x⟩) ⟨hh, ⟨ht, hx⟩⟩ rest
def sample_isGroupOf : IsGroupOf :=
  ⟨⟨⟨2, 3⟩, 4⟩, 5, 5, 6, [(.basicRotorWingAircraft ⟨2, ⟨3, 4, 5⟩, ⟨.airPlatform, 0x55⟩, ⟨6, 7, 8⟩, 9, 10, 11, 12, 13, 14, 15, 16⟩), (.basicRotorWingAircraft ⟨2, ⟨3, 4, 5⟩, ⟨.airPlatform, 0x55⟩, ⟨6, 7, 8⟩, 9, 10, 11, 12, 13, 14, 15, 16⟩)]⟩
theorem sample_isGroupOf_ok : sample_isGroupOf.Wf sampleEnv := by
  wf_sample
example : PduRoundTrips sampleEnv (sampleFor 34) (.isGroupOf sample_isGroupOf) :=
  C15_isGroupOf_round_trip sampleEnv (sampleFor_wf 34) rfl sample_isGroupOf_ok

/-- **C15**, TransferOwnership (type 35). -/
theorem C15_transferOwnership_round_trip (env : Env) {h : PduHeader} (hh : h.Wf) (ht : h.pdu_type = 35) {x : TransferOwnership} (hx : Records.Wf x.record_specification) :
    PduRoundTrips env h (.transferOwnership x) :=
  fun rest => pdu_ser (p := ⟨h, .transferOwnership x⟩) ⟨hh, ⟨ht, hx⟩⟩ rest
def sample_transferOwnership : TransferOwnership :=
  ⟨⟨⟨2, 3⟩, 4⟩, ⟨⟨5, 6⟩, 7⟩, 8, 9, 10, ⟨⟨11, 12⟩, 13⟩, [⟨1000, 7, 3, [[1, 2, 3], [4, 5, 6]]⟩, ⟨1000, 7, 3, [[1, 2, 3], [4, 5, 6]]⟩]⟩
theorem sample_transferOwnership_ok : Records.Wf sample_transferOwnership.record_specification := by
  wf_sample
example : PduRoundTrips sampleEnv (sampleFor 35) (.transferOwnership sample_transferOwnership) :=
  C15_transferOwnership_round_trip sampleEnv (sampleFor_wf 35) rfl sample_transferOwnership_ok

/-- **C15**, IsPartOf (type 36). -/
theorem C15_isPartOf_round_trip (env : Env) {h : PduHeader} (hh : h.Wf) (ht : h.pdu_type = 36) {x : IsPartOf} :
    PduRoundTrips env h (.isPartOf x) :=
  fun rest => pdu_ser (p := ⟨h, .isPartOf x⟩) ⟨hh, ht⟩ rest
def sample_isPartOf : IsPartOf :=
  ⟨⟨⟨2, 3⟩, 4⟩, ⟨⟨5, 6⟩, 7⟩, 8, 9, ⟨10, 11, 12⟩, 13, 14⟩
example : PduRoundTrips sampleEnv (sampleFor 36) (.isPartOf sample_isPartOf) :=
  C15_isPartOf_round_trip sampleEnv (sampleFor_wf 36) rfl

end Verif.Props
