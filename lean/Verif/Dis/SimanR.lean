import Verif.Dis.Siman

/-! # Simulation management with reliability PDUs -/

namespace Verif.Dis
open Verif.P

/-- The record part of `body_length`: record_r/model.rs:41-49 (the per-record and total lengths are
summed in `u16`). -/
def recordsLen (l : List RecordSet) : Nat :=
  (l.map fun s => 16 + (lengthPaddedToNum ((s.records.map List.length).sum % 65536) 8).record_length).sum

/-- Specification: the number of record sets fits its 32-bit field and each set is well formed. -/
def Records.Wf (l : List RecordSet) : Prop := l.length < 4294967296 ∧ ∀ s ∈ l, s.Wf

theorem recordsLen_eq {l : List RecordSet} (h : Records.Wf l) :
    (RecordSpecification.ser l).length = 4 + recordsLen l := by
  rw [← RecordSpecification.cnt_eq h.2]
  simp only [RecordSpecification.cnt, cntList, recordsLen]
  congr 2
  apply List.map_congr_left
  intro s _
  simp only [RecordSet.cnt, lengthPaddedToNum, Nat.add_assoc]

/-! ## CreateEntityR -/

/-- create_entity_r/model.rs:12-17 -/
structure CreateEntityR where
  originating_id : EntityId
  receiving_id : EntityId
  required_reliability_service : UInt8
  request_id : UInt32
  deriving Repr, DecidableEq

/-- create_entity_r/parser.rs:8-25 -/
def CreateEntityR.parse : BP CreateEntityR := do
  let originating_id ← EntityId.parse
  let receiving_id ← EntityId.parse
  let required_reliability_service ← be_u8
  let _pad ← be_u8
  let _pad ← be_u16
  let request_id ← be_u32
  pure ⟨originating_id, receiving_id, required_reliability_service, request_id⟩
/-- create_entity_r/writer.rs:5-16 -/
def CreateEntityR.ser (x : CreateEntityR) : Bytes :=
  x.originating_id.ser ++ x.receiving_id.ser ++ e8 x.required_reliability_service ++ e8 0 ++ e16 0
    ++ e32 x.request_id
/-- create_entity_r/writer.rs:5-16 (returned count) -/
def CreateEntityR.cnt (_ : CreateEntityR) : Nat := 6 + 6 + 8
/-- create_entity_r/model.rs:6, 34-36 -/
def CreateEntityR.bodyLen (_ : CreateEntityR) : Nat := 20

@[rt] theorem CreateEntityR.parse_ser (x : CreateEntityR) (r : Bytes) : CreateEntityR.parse.run (x.ser ++ r) = .ok x r := by
  rtp [CreateEntityR.parse, CreateEntityR.ser]
@[len] theorem CreateEntityR.length_ser (x : CreateEntityR) : x.ser.length = 20 := by lenp [CreateEntityR.ser]
instance : Stable CreateEntityR.parse := by unfold CreateEntityR.parse; parser_ok
instance : Safe CreateEntityR.parse := by unfold CreateEntityR.parse; parser_ok

/-! ## RemoveEntityR -/

/-- remove_entity_r/model.rs:12-17 -/
structure RemoveEntityR where
  originating_id : EntityId
  receiving_id : EntityId
  required_reliability_service : UInt8
  request_id : UInt32
  deriving Repr, DecidableEq

/-- remove_entity_r/parser.rs:8-25 -/
def RemoveEntityR.parse : BP RemoveEntityR := do
  let originating_id ← EntityId.parse
  let receiving_id ← EntityId.parse
  let required_reliability_service ← be_u8
  let _pad ← be_u8
  let _pad ← be_u16
  let request_id ← be_u32
  pure ⟨originating_id, receiving_id, required_reliability_service, request_id⟩
/-- remove_entity_r/writer.rs:5-16 -/
def RemoveEntityR.ser (x : RemoveEntityR) : Bytes :=
  x.originating_id.ser ++ x.receiving_id.ser ++ e8 x.required_reliability_service ++ e8 0 ++ e16 0
    ++ e32 x.request_id
/-- remove_entity_r/writer.rs:5-16 (returned count) -/
def RemoveEntityR.cnt (_ : RemoveEntityR) : Nat := 6 + 6 + 8
/-- remove_entity_r/model.rs:6, 34-36 -/
def RemoveEntityR.bodyLen (_ : RemoveEntityR) : Nat := 20

@[rt] theorem RemoveEntityR.parse_ser (x : RemoveEntityR) (r : Bytes) : RemoveEntityR.parse.run (x.ser ++ r) = .ok x r := by
  rtp [RemoveEntityR.parse, RemoveEntityR.ser]
@[len] theorem RemoveEntityR.length_ser (x : RemoveEntityR) : x.ser.length = 20 := by lenp [RemoveEntityR.ser]
instance : Stable RemoveEntityR.parse := by unfold RemoveEntityR.parse; parser_ok
instance : Safe RemoveEntityR.parse := by unfold RemoveEntityR.parse; parser_ok

/-! ## StartResumeR -/

/-- start_resume_r/model.rs:12-19 -/
structure StartResumeR where
  originating_id : EntityId
  receiving_id : EntityId
  real_world_time : ClockTime
  simulation_time : ClockTime
  required_reliability_service : UInt8
  request_id : UInt32
  deriving Repr, DecidableEq

/-- start_resume_r/parser.rs:8-29 -/
def StartResumeR.parse : BP StartResumeR := do
  let originating_id ← EntityId.parse
  let receiving_id ← EntityId.parse
  let real_world_time ← ClockTime.parse
  let simulation_time ← ClockTime.parse
  let required_reliability_service ← be_u8
  let _pad ← be_u8
  let _pad ← be_u16
  let request_id ← be_u32
  pure ⟨originating_id, receiving_id, real_world_time, simulation_time, required_reliability_service, request_id⟩
/-- start_resume_r/writer.rs:5-18 -/
def StartResumeR.ser (x : StartResumeR) : Bytes :=
  x.originating_id.ser ++ x.receiving_id.ser ++ x.real_world_time.ser ++ x.simulation_time.ser
    ++ e8 x.required_reliability_service ++ e8 0 ++ e16 0 ++ e32 x.request_id
/-- start_resume_r/writer.rs:5-18 (returned count) -/
def StartResumeR.cnt (_ : StartResumeR) : Nat := 6 + 6 + 8 + 8 + 8
/-- start_resume_r/model.rs:6, 36-38 -/
def StartResumeR.bodyLen (_ : StartResumeR) : Nat := 36

@[rt] theorem StartResumeR.parse_ser (x : StartResumeR) (r : Bytes) : StartResumeR.parse.run (x.ser ++ r) = .ok x r := by
  rtp [StartResumeR.parse, StartResumeR.ser]
@[len] theorem StartResumeR.length_ser (x : StartResumeR) : x.ser.length = 36 := by lenp [StartResumeR.ser]
instance : Stable StartResumeR.parse := by unfold StartResumeR.parse; parser_ok
instance : Safe StartResumeR.parse := by unfold StartResumeR.parse; parser_ok

/-! ## StopFreezeR -/

/-- stop_freeze_r/model.rs:12-20 -/
structure StopFreezeR where
  originating_id : EntityId
  receiving_id : EntityId
  real_world_time : ClockTime
  reason : UInt8
  frozen_behavior : UInt8
  required_reliability_service : UInt8
  request_id : UInt32
  deriving Repr, DecidableEq

/-- stop_freeze_r/parser.rs:8-33 -/
def StopFreezeR.parse : BP StopFreezeR := do
  let originating_id ← EntityId.parse
  let receiving_id ← EntityId.parse
  let real_world_time ← ClockTime.parse
  let reason ← be_u8
  let frozen_behavior ← be_u8
  let required_reliability_service ← be_u8
  let _pad ← be_u8
  let request_id ← be_u32
  pure ⟨originating_id, receiving_id, real_world_time, reason, frozen_behavior, required_reliability_service, request_id⟩
/-- stop_freeze_r/writer.rs:5-18 -/
def StopFreezeR.ser (x : StopFreezeR) : Bytes :=
  x.originating_id.ser ++ x.receiving_id.ser ++ x.real_world_time.ser ++ e8 x.reason
    ++ e8 x.frozen_behavior ++ e8 x.required_reliability_service ++ e8 0 ++ e32 x.request_id
/-- stop_freeze_r/writer.rs:5-18 (returned count) -/
def StopFreezeR.cnt (_ : StopFreezeR) : Nat := 6 + 6 + 8 + 8
/-- stop_freeze_r/model.rs:6, 37-39 -/
def StopFreezeR.bodyLen (_ : StopFreezeR) : Nat := 28

@[rt] theorem StopFreezeR.parse_ser (x : StopFreezeR) (r : Bytes) : StopFreezeR.parse.run (x.ser ++ r) = .ok x r := by
  rtp [StopFreezeR.parse, StopFreezeR.ser]
@[len] theorem StopFreezeR.length_ser (x : StopFreezeR) : x.ser.length = 28 := by lenp [StopFreezeR.ser]
instance : Stable StopFreezeR.parse := by unfold StopFreezeR.parse; parser_ok
instance : Safe StopFreezeR.parse := by unfold StopFreezeR.parse; parser_ok

/-! ## AcknowledgeR -/

/-- acknowledge_r/model.rs:12-18 -/
structure AcknowledgeR where
  originating_id : EntityId
  receiving_id : EntityId
  acknowledge_flag : UInt16
  response_flag : UInt16
  request_id : UInt32
  deriving Repr, DecidableEq

/-- acknowledge_r/parser.rs:8-27 -/
def AcknowledgeR.parse : BP AcknowledgeR := do
  let originating_id ← EntityId.parse
  let receiving_id ← EntityId.parse
  let acknowledge_flag ← be_u16
  let response_flag ← be_u16
  let request_id ← be_u32
  pure ⟨originating_id, receiving_id, acknowledge_flag, response_flag, request_id⟩
/-- acknowledge_r/writer.rs:5-15 -/
def AcknowledgeR.ser (x : AcknowledgeR) : Bytes :=
  x.originating_id.ser ++ x.receiving_id.ser ++ e16 x.acknowledge_flag ++ e16 x.response_flag
    ++ e32 x.request_id
/-- acknowledge_r/writer.rs:5-15 (returned count) -/
def AcknowledgeR.cnt (_ : AcknowledgeR) : Nat := 6 + 6 + 2 + 2 + 4
/-- acknowledge_r/model.rs:6, 35-37 -/
def AcknowledgeR.bodyLen (_ : AcknowledgeR) : Nat := 20

@[rt] theorem AcknowledgeR.parse_ser (x : AcknowledgeR) (r : Bytes) : AcknowledgeR.parse.run (x.ser ++ r) = .ok x r := by
  rtp [AcknowledgeR.parse, AcknowledgeR.ser]
@[len] theorem AcknowledgeR.length_ser (x : AcknowledgeR) : x.ser.length = 20 := by lenp [AcknowledgeR.ser]
instance : Stable AcknowledgeR.parse := by unfold AcknowledgeR.parse; parser_ok
instance : Safe AcknowledgeR.parse := by unfold AcknowledgeR.parse; parser_ok

/-! ## ActionRequestR -/

/-- action_request_r/model.rs:14-22 -/
structure ActionRequestR where
  originating_id : EntityId
  receiving_id : EntityId
  required_reliability_service : UInt8
  request_id : UInt32
  action_id : UInt32
  fixed_datum_records : List FixedDatum
  variable_datum_records : List VariableDatum
  deriving Repr, DecidableEq

/-- action_request_r/parser.rs:8-32 -/
def ActionRequestR.parse : BP ActionRequestR := do
  let originating_id ← EntityId.parse
  let receiving_id ← EntityId.parse
  let required_reliability_service ← be_u8
  let _pad ← be_u8
  let _pad ← be_u16
  let request_id ← be_u32
  let action_id ← be_u32
  let _pad ← be_u32
  let d ← DatumSpecification.parse
  pure ⟨originating_id, receiving_id, required_reliability_service, request_id, action_id, d.fixed_datum_records, d.variable_datum_records⟩
/-- action_request_r/writer.rs:5-24 -/
def ActionRequestR.ser (x : ActionRequestR) : Bytes :=
  x.originating_id.ser ++ x.receiving_id.ser ++ e8 x.required_reliability_service ++ e8 0 ++ e16 0
    ++ e32 x.request_id ++ e32 x.action_id ++ e32 0
    ++ e32 (UInt32.ofNat x.fixed_datum_records.length)
    ++ e32 (UInt32.ofNat x.variable_datum_records.length)
    ++ serList FixedDatum.ser x.fixed_datum_records
    ++ serList VariableDatum.ser x.variable_datum_records
/-- action_request_r/writer.rs:5-24 (returned count) -/
def ActionRequestR.cnt (x : ActionRequestR) : Nat := 6 + 6 + 24 + datumsCnt x.fixed_datum_records x.variable_datum_records
/-- action_request_r/model.rs:8, 39-48 -/
def ActionRequestR.bodyLen (x : ActionRequestR) : Nat := 36 + datumsLen x.fixed_datum_records x.variable_datum_records
/-- Counts fit their 32-bit fields and the records are well formed. -/
def ActionRequestR.Wf (x : ActionRequestR) : Prop := Datums.Wf x.fixed_datum_records x.variable_datum_records

theorem ActionRequestR.parse_ser {x : ActionRequestR} (h : x.Wf) (r : Bytes) : ActionRequestR.parse.run (x.ser ++ r) = .ok x r := by
  rtp [ActionRequestR.parse, ActionRequestR.ser, run_datums h]
theorem ActionRequestR.length_ser (x : ActionRequestR) : x.ser.length = 36 + ((serList FixedDatum.ser x.fixed_datum_records ++ serList VariableDatum.ser x.variable_datum_records).length) := by
  lenp [ActionRequestR.ser, length_ids]
  omega
instance : Stable ActionRequestR.parse := by unfold ActionRequestR.parse; parser_ok
instance : Safe ActionRequestR.parse := by unfold ActionRequestR.parse; parser_ok

/-! ## ActionResponseR -/

/-- action_response_r/model.rs:14-21 -/
structure ActionResponseR where
  originating_id : EntityId
  receiving_id : EntityId
  request_id : UInt32
  request_status : UInt32
  fixed_datum_records : List FixedDatum
  variable_datum_records : List VariableDatum
  deriving Repr, DecidableEq

/-- action_response_r/parser.rs:8-26; the code wraps the result as an `ActionResponse` body, see `Body.parse` -/
def ActionResponseR.parse : BP ActionResponseR := do
  let originating_id ← EntityId.parse
  let receiving_id ← EntityId.parse
  let request_id ← be_u32
  let request_status ← be_u32
  let d ← DatumSpecification.parse
  pure ⟨originating_id, receiving_id, request_id, request_status, d.fixed_datum_records, d.variable_datum_records⟩
/-- action_response_r/writer.rs:5-20 -/
def ActionResponseR.ser (x : ActionResponseR) : Bytes :=
  x.originating_id.ser ++ x.receiving_id.ser ++ e32 x.request_id ++ e32 x.request_status
    ++ e32 (UInt32.ofNat x.fixed_datum_records.length)
    ++ e32 (UInt32.ofNat x.variable_datum_records.length)
    ++ serList FixedDatum.ser x.fixed_datum_records
    ++ serList VariableDatum.ser x.variable_datum_records
/-- action_response_r/writer.rs:5-20 (returned count) -/
def ActionResponseR.cnt (x : ActionResponseR) : Nat := 6 + 6 + 16 + datumsCnt x.fixed_datum_records x.variable_datum_records
/-- action_response_r/model.rs:8, 38-47 -/
def ActionResponseR.bodyLen (x : ActionResponseR) : Nat := 28 + datumsLen x.fixed_datum_records x.variable_datum_records
/-- Counts fit their 32-bit fields and the records are well formed. -/
def ActionResponseR.Wf (x : ActionResponseR) : Prop := Datums.Wf x.fixed_datum_records x.variable_datum_records

theorem ActionResponseR.parse_ser {x : ActionResponseR} (h : x.Wf) (r : Bytes) : ActionResponseR.parse.run (x.ser ++ r) = .ok x r := by
  rtp [ActionResponseR.parse, ActionResponseR.ser, run_datums h]
theorem ActionResponseR.length_ser (x : ActionResponseR) : x.ser.length = 28 + ((serList FixedDatum.ser x.fixed_datum_records ++ serList VariableDatum.ser x.variable_datum_records).length) := by
  lenp [ActionResponseR.ser, length_ids]
  omega
instance : Stable ActionResponseR.parse := by unfold ActionResponseR.parse; parser_ok
instance : Safe ActionResponseR.parse := by unfold ActionResponseR.parse; parser_ok

/-! ## DataQueryR -/

/-- data_query_r/model.rs:13-21 -/
structure DataQueryR where
  originating_id : EntityId
  receiving_id : EntityId
  required_reliability_service : UInt8
  request_id : UInt32
  time_interval : UInt32
  fixed_datum_records : List UInt32
  variable_datum_records : List UInt32
  deriving Repr, DecidableEq

/-- data_query_r/parser.rs:9-37 -/
def DataQueryR.parse : BP DataQueryR := do
  let originating_id ← EntityId.parse
  let receiving_id ← EntityId.parse
  let required_reliability_service ← be_u8
  let _pad ← be_u8
  let _pad ← be_u16
  let request_id ← be_u32
  let time_interval ← be_u32
  let nf ← be_u32
  let nv ← be_u32
  let f ← P.count be_u32 nf.toNat
  let v ← P.count be_u32 nv.toNat
  pure ⟨originating_id, receiving_id, required_reliability_service, request_id, time_interval, f, v⟩
/-- data_query_r/writer.rs:5-23 -/
def DataQueryR.ser (x : DataQueryR) : Bytes :=
  x.originating_id.ser ++ x.receiving_id.ser ++ e8 x.required_reliability_service ++ e8 0 ++ e16 0
    ++ e32 x.request_id ++ e32 x.time_interval ++ e32 (UInt32.ofNat x.fixed_datum_records.length)
    ++ e32 (UInt32.ofNat x.variable_datum_records.length) ++ serList e32 x.fixed_datum_records
    ++ serList e32 x.variable_datum_records
/-- data_query_r/writer.rs:5-23 (returned count) -/
def DataQueryR.cnt (x : DataQueryR) : Nat := 6 + 6 + 20 + 4 * x.fixed_datum_records.length + 4 * x.variable_datum_records.length
/-- data_query_r/model.rs:7, 38-42 -/
def DataQueryR.bodyLen (x : DataQueryR) : Nat := 32 + 4 * x.fixed_datum_records.length + 4 * x.variable_datum_records.length
/-- Counts fit their 32-bit fields and the records are well formed. -/
def DataQueryR.Wf (x : DataQueryR) : Prop := x.fixed_datum_records.length < 4294967296 ∧ x.variable_datum_records.length < 4294967296

theorem DataQueryR.parse_ser {x : DataQueryR} (h : x.Wf) (r : Bytes) : DataQueryR.parse.run (x.ser ++ r) = .ok x r := by
  rtp [DataQueryR.parse, DataQueryR.ser, run_ids h.1, run_ids h.2]
theorem DataQueryR.length_ser (x : DataQueryR) : x.ser.length = 32 + (4 * x.fixed_datum_records.length + 4 * x.variable_datum_records.length) := by
  lenp [DataQueryR.ser, length_ids]
  omega
instance : Stable DataQueryR.parse := by unfold DataQueryR.parse; parser_ok
instance : Safe DataQueryR.parse := by unfold DataQueryR.parse; parser_ok

/-! ## SetDataR -/

/-- set_data_r/model.rs:13-20 -/
structure SetDataR where
  originating_id : EntityId
  receiving_id : EntityId
  required_reliability_service : UInt8
  request_id : UInt32
  fixed_datum_records : List FixedDatum
  variable_datum_records : List VariableDatum
  deriving Repr, DecidableEq

/-- set_data_r/parser.rs:8-28 -/
def SetDataR.parse : BP SetDataR := do
  let originating_id ← EntityId.parse
  let receiving_id ← EntityId.parse
  let required_reliability_service ← be_u8
  let _pad ← be_u8
  let _pad ← be_u16
  let request_id ← be_u32
  let d ← DatumSpecification.parse
  pure ⟨originating_id, receiving_id, required_reliability_service, request_id, d.fixed_datum_records, d.variable_datum_records⟩
/-- set_data_r/writer.rs:5-22 -/
def SetDataR.ser (x : SetDataR) : Bytes :=
  x.originating_id.ser ++ x.receiving_id.ser ++ e8 x.required_reliability_service ++ e8 0 ++ e16 0
    ++ e32 x.request_id ++ e32 (UInt32.ofNat x.fixed_datum_records.length)
    ++ e32 (UInt32.ofNat x.variable_datum_records.length)
    ++ serList FixedDatum.ser x.fixed_datum_records
    ++ serList VariableDatum.ser x.variable_datum_records
/-- set_data_r/writer.rs:5-22 (returned count) -/
def SetDataR.cnt (x : SetDataR) : Nat := 6 + 6 + 16 + datumsCnt x.fixed_datum_records x.variable_datum_records
/-- set_data_r/model.rs:7, 37-46 -/
def SetDataR.bodyLen (x : SetDataR) : Nat := 28 + datumsLen x.fixed_datum_records x.variable_datum_records
/-- Counts fit their 32-bit fields and the records are well formed. -/
def SetDataR.Wf (x : SetDataR) : Prop := Datums.Wf x.fixed_datum_records x.variable_datum_records

theorem SetDataR.parse_ser {x : SetDataR} (h : x.Wf) (r : Bytes) : SetDataR.parse.run (x.ser ++ r) = .ok x r := by
  rtp [SetDataR.parse, SetDataR.ser, run_datums h]
theorem SetDataR.length_ser (x : SetDataR) : x.ser.length = 28 + ((serList FixedDatum.ser x.fixed_datum_records ++ serList VariableDatum.ser x.variable_datum_records).length) := by
  lenp [SetDataR.ser, length_ids]
  omega
instance : Stable SetDataR.parse := by unfold SetDataR.parse; parser_ok
instance : Safe SetDataR.parse := by unfold SetDataR.parse; parser_ok

/-! ## DataR -/

/-- data_r/model.rs:13-20 -/
structure DataR where
  originating_id : EntityId
  receiving_id : EntityId
  request_id : UInt32
  required_reliability_service : UInt8
  fixed_datum_records : List FixedDatum
  variable_datum_records : List VariableDatum
  deriving Repr, DecidableEq

/-- data_r/parser.rs:8-28 -/
def DataR.parse : BP DataR := do
  let originating_id ← EntityId.parse
  let receiving_id ← EntityId.parse
  let request_id ← be_u32
  let required_reliability_service ← be_u8
  let _pad ← be_u8
  let _pad ← be_u16
  let d ← DatumSpecification.parse
  pure ⟨originating_id, receiving_id, request_id, required_reliability_service, d.fixed_datum_records, d.variable_datum_records⟩
/-- data_r/writer.rs:5-22 -/
def DataR.ser (x : DataR) : Bytes :=
  x.originating_id.ser ++ x.receiving_id.ser ++ e32 x.request_id
    ++ e8 x.required_reliability_service ++ e8 0 ++ e16 0
    ++ e32 (UInt32.ofNat x.fixed_datum_records.length)
    ++ e32 (UInt32.ofNat x.variable_datum_records.length)
    ++ serList FixedDatum.ser x.fixed_datum_records
    ++ serList VariableDatum.ser x.variable_datum_records
/-- data_r/writer.rs:5-22 (returned count) -/
def DataR.cnt (x : DataR) : Nat := 6 + 6 + 16 + datumsCnt x.fixed_datum_records x.variable_datum_records
/-- data_r/model.rs:7, 37-46 -/
def DataR.bodyLen (x : DataR) : Nat := 28 + datumsLen x.fixed_datum_records x.variable_datum_records
/-- Counts fit their 32-bit fields and the records are well formed. -/
def DataR.Wf (x : DataR) : Prop := Datums.Wf x.fixed_datum_records x.variable_datum_records

theorem DataR.parse_ser {x : DataR} (h : x.Wf) (r : Bytes) : DataR.parse.run (x.ser ++ r) = .ok x r := by
  rtp [DataR.parse, DataR.ser, run_datums h]
theorem DataR.length_ser (x : DataR) : x.ser.length = 28 + ((serList FixedDatum.ser x.fixed_datum_records ++ serList VariableDatum.ser x.variable_datum_records).length) := by
  lenp [DataR.ser, length_ids]
  omega
instance : Stable DataR.parse := by unfold DataR.parse; parser_ok
instance : Safe DataR.parse := by unfold DataR.parse; parser_ok

/-! ## EventReportR -/

/-- event_report_r/model.rs:14-20 -/
structure EventReportR where
  originating_id : EntityId
  receiving_id : EntityId
  event_type : UInt32
  fixed_datum_records : List FixedDatum
  variable_datum_records : List VariableDatum
  deriving Repr, DecidableEq

/-- event_report_r/parser.rs:8-25 -/
def EventReportR.parse : BP EventReportR := do
  let originating_id ← EntityId.parse
  let receiving_id ← EntityId.parse
  let event_type ← be_u32
  let _pad ← be_u32
  let d ← DatumSpecification.parse
  pure ⟨originating_id, receiving_id, event_type, d.fixed_datum_records, d.variable_datum_records⟩
/-- event_report_r/writer.rs:5-20 -/
def EventReportR.ser (x : EventReportR) : Bytes :=
  x.originating_id.ser ++ x.receiving_id.ser ++ e32 x.event_type ++ e32 0
    ++ e32 (UInt32.ofNat x.fixed_datum_records.length)
    ++ e32 (UInt32.ofNat x.variable_datum_records.length)
    ++ serList FixedDatum.ser x.fixed_datum_records
    ++ serList VariableDatum.ser x.variable_datum_records
/-- event_report_r/writer.rs:5-20 (returned count) -/
def EventReportR.cnt (x : EventReportR) : Nat := 6 + 6 + 16 + datumsCnt x.fixed_datum_records x.variable_datum_records
/-- event_report_r/model.rs:8, 37-46 -/
def EventReportR.bodyLen (x : EventReportR) : Nat := 28 + datumsLen x.fixed_datum_records x.variable_datum_records
/-- Counts fit their 32-bit fields and the records are well formed. -/
def EventReportR.Wf (x : EventReportR) : Prop := Datums.Wf x.fixed_datum_records x.variable_datum_records

theorem EventReportR.parse_ser {x : EventReportR} (h : x.Wf) (r : Bytes) : EventReportR.parse.run (x.ser ++ r) = .ok x r := by
  rtp [EventReportR.parse, EventReportR.ser, run_datums h]
theorem EventReportR.length_ser (x : EventReportR) : x.ser.length = 28 + ((serList FixedDatum.ser x.fixed_datum_records ++ serList VariableDatum.ser x.variable_datum_records).length) := by
  lenp [EventReportR.ser, length_ids]
  omega
instance : Stable EventReportR.parse := by unfold EventReportR.parse; parser_ok
instance : Safe EventReportR.parse := by unfold EventReportR.parse; parser_ok

/-! ## CommentR -/

/-- comment_r/model.rs:13-17 -/
structure CommentR where
  originating_id : EntityId
  receiving_id : EntityId
  variable_datum_records : List VariableDatum
  deriving Repr, DecidableEq

/-- comment_r/parser.rs:6-18; the fixed datums read by `datum_specification` are dropped -/
def CommentR.parse : BP CommentR := do
  let originating_id ← EntityId.parse
  let receiving_id ← EntityId.parse
  let d ← DatumSpecification.parse
  pure ⟨originating_id, receiving_id, d.variable_datum_records⟩
/-- comment_r/writer.rs:5-16 -/
def CommentR.ser (x : CommentR) : Bytes :=
  x.originating_id.ser ++ x.receiving_id.ser ++ e32 0
    ++ e32 (UInt32.ofNat x.variable_datum_records.length)
    ++ serList VariableDatum.ser x.variable_datum_records
/-- comment_r/writer.rs:5-16 (returned count) -/
def CommentR.cnt (x : CommentR) : Nat := 6 + 6 + 8 + datumsCnt [] x.variable_datum_records
/-- comment_r/model.rs:7, 34-42 -/
def CommentR.bodyLen (x : CommentR) : Nat := 20 + datumsLen [] x.variable_datum_records
/-- Counts fit their 32-bit fields and the records are well formed. -/
def CommentR.Wf (x : CommentR) : Prop := Datums.Wf [] x.variable_datum_records

theorem CommentR.parse_ser {x : CommentR} (h : x.Wf) (r : Bytes) : CommentR.parse.run (x.ser ++ r) = .ok x r := by
  have e := fun r => run_datums h r
  simp only [List.length_nil, UInt32.reduceOfNat, serList_nil, List.nil_append] at e
  rtp [CommentR.parse, CommentR.ser, e]
theorem CommentR.length_ser (x : CommentR) : x.ser.length = 20 + ((serList VariableDatum.ser x.variable_datum_records).length) := by
  lenp [CommentR.ser, length_ids]
instance : Stable CommentR.parse := by unfold CommentR.parse; parser_ok
instance : Safe CommentR.parse := by unfold CommentR.parse; parser_ok

/-! ## RecordR -/

/-- record_r/model.rs:14-22 -/
structure RecordR where
  originating_id : EntityId
  receiving_id : EntityId
  request_id : UInt32
  required_reliability_service : UInt8
  event_type : UInt32
  response_serial_number : UInt32
  record_specification : List RecordSet
  deriving Repr, DecidableEq

/-- record_r/parser.rs:8-31 -/
def RecordR.parse (checked : Bool) : BP RecordR := do
  let originating_id ← EntityId.parse
  let receiving_id ← EntityId.parse
  let request_id ← be_u32
  let required_reliability_service ← be_u8
  let _pad ← be_u8
  let event_type ← be_u32
  let response_serial_number ← be_u32
  let rs ← RecordSpecification.parse checked
  pure ⟨originating_id, receiving_id, request_id, required_reliability_service, event_type, response_serial_number, rs⟩
/-- record_r/writer.rs:5-18 -/
def RecordR.ser (x : RecordR) : Bytes :=
  x.originating_id.ser ++ x.receiving_id.ser ++ e32 x.request_id
    ++ e8 x.required_reliability_service ++ e8 0 ++ e32 x.event_type ++ e32 x.response_serial_number
    ++ RecordSpecification.ser x.record_specification
/-- record_r/writer.rs:5-18 (returned count) -/
def RecordR.cnt (x : RecordR) : Nat := 6 + 6 + 12 + RecordSpecification.cnt x.record_specification
/-- record_r/model.rs:8, 39-50 -/
def RecordR.bodyLen (x : RecordR) : Nat := 28 + recordsLen x.record_specification
/-- Counts fit their 32-bit fields and the records are well formed. -/
def RecordR.Wf (x : RecordR) : Prop := Records.Wf x.record_specification

theorem RecordR.parse_ser {checked : Bool} {x : RecordR} (h : x.Wf) (r : Bytes) : (RecordR.parse checked).run (x.ser ++ r) = .ok x r := by
  rtp [RecordR.parse, RecordR.ser, RecordSpecification.parse_ser checked h.1 h.2]
theorem RecordR.length_ser (x : RecordR) : x.ser.length = 26 + ((RecordSpecification.ser x.record_specification).length) := by
  lenp [RecordR.ser, length_ids]
instance (c) : Stable (RecordR.parse c) := by unfold RecordR.parse; parser_ok
instance : Safe (RecordR.parse false) := by unfold RecordR.parse; parser_ok

/-! ## SetRecordR -/

/-- set_record_r/model.rs:14-20 -/
structure SetRecordR where
  originating_id : EntityId
  receiving_id : EntityId
  request_id : UInt32
  required_reliability_service : UInt8
  record_specification : List RecordSet
  deriving Repr, DecidableEq

/-- set_record_r/parser.rs:8-28 -/
def SetRecordR.parse (checked : Bool) : BP SetRecordR := do
  let originating_id ← EntityId.parse
  let receiving_id ← EntityId.parse
  let request_id ← be_u32
  let required_reliability_service ← be_u8
  let _pad ← be_u8
  let _pad ← be_u16
  let _pad ← be_u32
  let rs ← RecordSpecification.parse checked
  pure ⟨originating_id, receiving_id, request_id, required_reliability_service, rs⟩
/-- set_record_r/writer.rs:5-18 -/
def SetRecordR.ser (x : SetRecordR) : Bytes :=
  x.originating_id.ser ++ x.receiving_id.ser ++ e32 x.request_id
    ++ e8 x.required_reliability_service ++ e8 0 ++ e16 0 ++ e32 0
    ++ RecordSpecification.ser x.record_specification
/-- set_record_r/writer.rs:5-18 (returned count) -/
def SetRecordR.cnt (x : SetRecordR) : Nat := 6 + 6 + 12 + RecordSpecification.cnt x.record_specification
/-- set_record_r/model.rs:8, 37-48 -/
def SetRecordR.bodyLen (x : SetRecordR) : Nat := 28 + recordsLen x.record_specification
/-- Counts fit their 32-bit fields and the records are well formed. -/
def SetRecordR.Wf (x : SetRecordR) : Prop := Records.Wf x.record_specification

theorem SetRecordR.parse_ser {checked : Bool} {x : SetRecordR} (h : x.Wf) (r : Bytes) : (SetRecordR.parse checked).run (x.ser ++ r) = .ok x r := by
  rtp [SetRecordR.parse, SetRecordR.ser, RecordSpecification.parse_ser checked h.1 h.2]
theorem SetRecordR.length_ser (x : SetRecordR) : x.ser.length = 24 + ((RecordSpecification.ser x.record_specification).length) := by
  lenp [SetRecordR.ser, length_ids]
instance (c) : Stable (SetRecordR.parse c) := by unfold SetRecordR.parse; parser_ok
instance : Safe (SetRecordR.parse false) := by unfold SetRecordR.parse; parser_ok

/-! ## RecordQueryR -/

/-- record_query_r/model.rs:14-22, 61-63 -/
structure RecordQueryR where
  originating_id : EntityId
  receiving_id : EntityId
  request_id : UInt32
  required_reliability_service : UInt8
  event_type : UInt16
  time : UInt32
  record_ids : List UInt32
  deriving Repr, DecidableEq

/-- record_query_r/parser.rs:10-42 (with `record_query_specification`) -/
def RecordQueryR.parse : BP RecordQueryR := do
  let originating_id ← EntityId.parse
  let receiving_id ← EntityId.parse
  let request_id ← be_u32
  let required_reliability_service ← be_u8
  let _pad ← be_u8
  let event_type ← be_u16
  let time ← be_u32
  let n ← be_u32
  let ids ← P.count be_u32 n.toNat
  pure ⟨originating_id, receiving_id, request_id, required_reliability_service, event_type, time, ids⟩
/-- record_query_r/writer.rs:6-32 -/
def RecordQueryR.ser (x : RecordQueryR) : Bytes :=
  x.originating_id.ser ++ x.receiving_id.ser ++ e32 x.request_id
    ++ e8 x.required_reliability_service ++ e8 0 ++ e16 x.event_type ++ e32 x.time
    ++ e32 (UInt32.ofNat x.record_ids.length) ++ serList e32 x.record_ids
/-- record_query_r/writer.rs:6-32 (returned count) -/
def RecordQueryR.cnt (x : RecordQueryR) : Nat := 6 + 6 + 12 + (4 + 4 * x.record_ids.length)
/-- record_query_r/model.rs:8, 39-42 -/
def RecordQueryR.bodyLen (x : RecordQueryR) : Nat := 28 + 4 * x.record_ids.length
/-- Counts fit their 32-bit fields and the records are well formed. -/
def RecordQueryR.Wf (x : RecordQueryR) : Prop := x.record_ids.length < 4294967296

theorem RecordQueryR.parse_ser {x : RecordQueryR} (h : x.Wf) (r : Bytes) : RecordQueryR.parse.run (x.ser ++ r) = .ok x r := by
  rtp [RecordQueryR.parse, RecordQueryR.ser, run_ids h]
theorem RecordQueryR.length_ser (x : RecordQueryR) : x.ser.length = 28 + (4 * x.record_ids.length) := by
  lenp [RecordQueryR.ser, length_ids]
instance : Stable RecordQueryR.parse := by unfold RecordQueryR.parse; parser_ok
instance : Safe RecordQueryR.parse := by unfold RecordQueryR.parse; parser_ok

end Verif.Dis
