import Verif.Dis.EntityInfoLemmas

/-! # Simulation management PDUs (regular: each body is two identifiers, fixed fields and datums) -/

namespace Verif.Dis
open Verif.P

/-- The sum returned by the writers for the datums, e.g. action_request/writer.rs:13-18. -/
def datumsCnt (f : List FixedDatum) (v : List VariableDatum) : Nat :=
  cntList FixedDatum.cnt f + cntList VariableDatum.cnt v
/-- The datum part of `body_length`, e.g. action_request/model.rs:38-46. -/
def datumsLen (f : List FixedDatum) (v : List VariableDatum) : Nat :=
  8 * f.length + (v.map fun d => (lengthPaddedToNum (8 + d.datum_value.length) 8).record_length).sum

/-- Specification: the counts fit 32-bit fields, the bit length of each variable datum fits its 32-bit
field, and each variable datum is a whole number of 8-octet words. -/
def Datums.Wf (f : List FixedDatum) (v : List VariableDatum) : Prop :=
  f.length < 4294967296 ∧ v.length < 4294967296 ∧ ∀ d ∈ v, d.Wf ∧ d.Aligned
/-- Specification: every variable datum is shorter than 8 KiB (so that its bit length fits 16 bits). -/
def Datums.Small (v : List VariableDatum) : Prop := ∀ d ∈ v, d.datum_value.length < 8192

theorem run_datums {f : List FixedDatum} {v : List VariableDatum} (h : Datums.Wf f v) (r : Bytes) :
    DatumSpecification.parse.run (e32 (UInt32.ofNat f.length) ++ (e32 (UInt32.ofNat v.length) ++
      (serList FixedDatum.ser f ++ (serList VariableDatum.ser v ++ r)))) = .ok ⟨f, v⟩ r := by
  rtp [DatumSpecification.parse]
  rw [run_countList f _ _ (toNat_u32_ofNat h.1) (fun x _ r => FixedDatum.parse_ser r x)]
  simp only [rt]
  rw [run_countList v _ _ (toNat_u32_ofNat h.2.1)
    (fun x hx r => VariableDatum.parse_ser (h.2.2 x hx).1 (h.2.2 x hx).2 r)]
  simp only [rt]

theorem run_ids {l : List UInt32} (h : l.length < 4294967296) (r : Bytes) :
    (P.count be_u32 (UInt32.ofNat l.length).toNat).run (serList e32 l ++ r) = .ok l r :=
  run_countList l r _ (toNat_u32_ofNat h) (fun x _ r => be_u32_e32 x r)
theorem length_ids (l : List UInt32) : (serList e32 l).length = 4 * l.length :=
  length_serList_const l fun x _ => length_e32 x
theorem serList_nil {α : Type} (s : α → Bytes) : serList s [] = [] := rfl

theorem datumsLen_eq {f : List FixedDatum} {v : List VariableDatum} (h : Datums.Wf f v) :
    (serList FixedDatum.ser f ++ serList VariableDatum.ser v).length = datumsLen f v := by
  rw [List.length_append, length_serList_const f fun x _ => FixedDatum.length_ser x]
  unfold datumsLen
  rw [length_serList_eq_cntList (c := fun d => (lengthPaddedToNum (8 + d.datum_value.length) 8).record_length) v]
  · rfl
  · intro x hx
    have ha := (h.2.2 x hx).2
    rw [VariableDatum.length_ser ha]
    unfold VariableDatum.Aligned at ha
    have : (8 + x.datum_value.length) % 8 = 0 := by omega
    simp [lengthPaddedToNum, this]

theorem datumsCnt_eq {f : List FixedDatum} {v : List VariableDatum} (h : Datums.Wf f v) (hs : Datums.Small v) :
    datumsCnt f v = (serList FixedDatum.ser f ++ serList VariableDatum.ser v).length := by
  rw [List.length_append, length_serList_const f fun x _ => FixedDatum.length_ser x]
  unfold datumsCnt
  rw [cntList_const (c := FixedDatum.cnt) f (k := 8) fun _ _ => rfl,
    length_serList_eq_cntList (c := VariableDatum.cnt) v fun x hx => (VariableDatum.cnt_eq (h.2.2 x hx).2 (hs x hx)).symm]

/-! ## CreateEntity -/

/-- create_entity/model.rs:12-16 -/
structure CreateEntity where
  originating_id : EntityId
  receiving_id : EntityId
  request_id : UInt32
  deriving Repr, DecidableEq

/-- create_entity/parser.rs:7-19 -/
def CreateEntity.parse : BP CreateEntity := do
  let originating_id ← EntityId.parse
  let receiving_id ← EntityId.parse
  let request_id ← be_u32
  pure ⟨originating_id, receiving_id, request_id⟩
/-- create_entity/writer.rs:5-13 -/
def CreateEntity.ser (x : CreateEntity) : Bytes :=
  x.originating_id.ser ++ x.receiving_id.ser ++ e32 x.request_id
/-- create_entity/writer.rs:5-13 (returned count) -/
def CreateEntity.cnt (_ : CreateEntity) : Nat := 6 + 6 + 4
/-- create_entity/model.rs:6, 33-35 -/
def CreateEntity.bodyLen (_ : CreateEntity) : Nat := 16

@[rt] theorem CreateEntity.parse_ser (x : CreateEntity) (r : Bytes) : CreateEntity.parse.run (x.ser ++ r) = .ok x r := by
  rtp [CreateEntity.parse, CreateEntity.ser]
@[len] theorem CreateEntity.length_ser (x : CreateEntity) : x.ser.length = 16 := by lenp [CreateEntity.ser]
instance : Stable CreateEntity.parse := by unfold CreateEntity.parse; parser_ok
instance : Safe CreateEntity.parse := by unfold CreateEntity.parse; parser_ok

/-! ## RemoveEntity -/

/-- remove_entity/model.rs:12-16 -/
structure RemoveEntity where
  originating_id : EntityId
  receiving_id : EntityId
  request_id : UInt32
  deriving Repr, DecidableEq

/-- remove_entity/parser.rs:7-19 -/
def RemoveEntity.parse : BP RemoveEntity := do
  let originating_id ← EntityId.parse
  let receiving_id ← EntityId.parse
  let request_id ← be_u32
  pure ⟨originating_id, receiving_id, request_id⟩
/-- remove_entity/writer.rs:5-13 -/
def RemoveEntity.ser (x : RemoveEntity) : Bytes :=
  x.originating_id.ser ++ x.receiving_id.ser ++ e32 x.request_id
/-- remove_entity/writer.rs:5-13 (returned count) -/
def RemoveEntity.cnt (_ : RemoveEntity) : Nat := 6 + 6 + 4
/-- remove_entity/model.rs:6, 33-35 -/
def RemoveEntity.bodyLen (_ : RemoveEntity) : Nat := 16

@[rt] theorem RemoveEntity.parse_ser (x : RemoveEntity) (r : Bytes) : RemoveEntity.parse.run (x.ser ++ r) = .ok x r := by
  rtp [RemoveEntity.parse, RemoveEntity.ser]
@[len] theorem RemoveEntity.length_ser (x : RemoveEntity) : x.ser.length = 16 := by lenp [RemoveEntity.ser]
instance : Stable RemoveEntity.parse := by unfold RemoveEntity.parse; parser_ok
instance : Safe RemoveEntity.parse := by unfold RemoveEntity.parse; parser_ok

/-! ## StartResume -/

/-- start_resume/model.rs:12-18 -/
structure StartResume where
  originating_id : EntityId
  receiving_id : EntityId
  real_world_time : ClockTime
  simulation_time : ClockTime
  request_id : UInt32
  deriving Repr, DecidableEq

/-- start_resume/parser.rs:7-23 -/
def StartResume.parse : BP StartResume := do
  let originating_id ← EntityId.parse
  let receiving_id ← EntityId.parse
  let real_world_time ← ClockTime.parse
  let simulation_time ← ClockTime.parse
  let request_id ← be_u32
  pure ⟨originating_id, receiving_id, real_world_time, simulation_time, request_id⟩
/-- start_resume/writer.rs:5-15 -/
def StartResume.ser (x : StartResume) : Bytes :=
  x.originating_id.ser ++ x.receiving_id.ser ++ x.real_world_time.ser ++ x.simulation_time.ser
    ++ e32 x.request_id
/-- start_resume/writer.rs:5-15 (returned count) -/
def StartResume.cnt (_ : StartResume) : Nat := 6 + 6 + 8 + 8 + 4
/-- start_resume/model.rs:6, 35-37 -/
def StartResume.bodyLen (_ : StartResume) : Nat := 32

@[rt] theorem StartResume.parse_ser (x : StartResume) (r : Bytes) : StartResume.parse.run (x.ser ++ r) = .ok x r := by
  rtp [StartResume.parse, StartResume.ser]
@[len] theorem StartResume.length_ser (x : StartResume) : x.ser.length = 32 := by lenp [StartResume.ser]
instance : Stable StartResume.parse := by unfold StartResume.parse; parser_ok
instance : Safe StartResume.parse := by unfold StartResume.parse; parser_ok

/-! ## StopFreeze -/

/-- stop_freeze/model.rs:12-19 -/
structure StopFreeze where
  originating_id : EntityId
  receiving_id : EntityId
  real_world_time : ClockTime
  reason : UInt8
  frozen_behavior : UInt8
  request_id : UInt32
  deriving Repr, DecidableEq

/-- stop_freeze/parser.rs:8-30 -/
def StopFreeze.parse : BP StopFreeze := do
  let originating_id ← EntityId.parse
  let receiving_id ← EntityId.parse
  let real_world_time ← ClockTime.parse
  let reason ← be_u8
  let frozen_behavior ← be_u8
  let _pad ← be_u16
  let request_id ← be_u32
  pure ⟨originating_id, receiving_id, real_world_time, reason, frozen_behavior, request_id⟩
/-- stop_freeze/writer.rs:5-17 -/
def StopFreeze.ser (x : StopFreeze) : Bytes :=
  x.originating_id.ser ++ x.receiving_id.ser ++ x.real_world_time.ser ++ e8 x.reason
    ++ e8 x.frozen_behavior ++ e16 0 ++ e32 x.request_id
/-- stop_freeze/writer.rs:5-17 (returned count) -/
def StopFreeze.cnt (_ : StopFreeze) : Nat := 6 + 6 + 8 + 8
/-- stop_freeze/model.rs:6, 36-38 -/
def StopFreeze.bodyLen (_ : StopFreeze) : Nat := 28

@[rt] theorem StopFreeze.parse_ser (x : StopFreeze) (r : Bytes) : StopFreeze.parse.run (x.ser ++ r) = .ok x r := by
  rtp [StopFreeze.parse, StopFreeze.ser]
@[len] theorem StopFreeze.length_ser (x : StopFreeze) : x.ser.length = 28 := by lenp [StopFreeze.ser]
instance : Stable StopFreeze.parse := by unfold StopFreeze.parse; parser_ok
instance : Safe StopFreeze.parse := by unfold StopFreeze.parse; parser_ok

/-! ## Acknowledge -/

/-- acknowledge/model.rs:12-18 -/
structure Acknowledge where
  originating_id : EntityId
  receiving_id : EntityId
  acknowledge_flag : UInt16
  response_flag : UInt16
  request_id : UInt32
  deriving Repr, DecidableEq

/-- acknowledge/parser.rs:8-27 -/
def Acknowledge.parse : BP Acknowledge := do
  let originating_id ← EntityId.parse
  let receiving_id ← EntityId.parse
  let acknowledge_flag ← be_u16
  let response_flag ← be_u16
  let request_id ← be_u32
  pure ⟨originating_id, receiving_id, acknowledge_flag, response_flag, request_id⟩
/-- acknowledge/writer.rs:5-15 -/
def Acknowledge.ser (x : Acknowledge) : Bytes :=
  x.originating_id.ser ++ x.receiving_id.ser ++ e16 x.acknowledge_flag ++ e16 x.response_flag
    ++ e32 x.request_id
/-- acknowledge/writer.rs:5-15 (returned count) -/
def Acknowledge.cnt (_ : Acknowledge) : Nat := 6 + 6 + 2 + 2 + 4
/-- acknowledge/model.rs:6, 35-37 -/
def Acknowledge.bodyLen (_ : Acknowledge) : Nat := 20

@[rt] theorem Acknowledge.parse_ser (x : Acknowledge) (r : Bytes) : Acknowledge.parse.run (x.ser ++ r) = .ok x r := by
  rtp [Acknowledge.parse, Acknowledge.ser]
@[len] theorem Acknowledge.length_ser (x : Acknowledge) : x.ser.length = 20 := by lenp [Acknowledge.ser]
instance : Stable Acknowledge.parse := by unfold Acknowledge.parse; parser_ok
instance : Safe Acknowledge.parse := by unfold Acknowledge.parse; parser_ok

/-! ## ActionRequest -/

/-- action_request/model.rs:14-21 -/
structure ActionRequest where
  originating_id : EntityId
  receiving_id : EntityId
  request_id : UInt32
  action_id : UInt32
  fixed_datum_records : List FixedDatum
  variable_datum_records : List VariableDatum
  deriving Repr, DecidableEq

/-- action_request/parser.rs:8-26 -/
def ActionRequest.parse : BP ActionRequest := do
  let originating_id ← EntityId.parse
  let receiving_id ← EntityId.parse
  let request_id ← be_u32
  let action_id ← be_u32
  let d ← DatumSpecification.parse
  pure ⟨originating_id, receiving_id, request_id, action_id, d.fixed_datum_records, d.variable_datum_records⟩
/-- action_request/writer.rs:5-20 -/
def ActionRequest.ser (x : ActionRequest) : Bytes :=
  x.originating_id.ser ++ x.receiving_id.ser ++ e32 x.request_id ++ e32 x.action_id
    ++ e32 (UInt32.ofNat x.fixed_datum_records.length)
    ++ e32 (UInt32.ofNat x.variable_datum_records.length)
    ++ serList FixedDatum.ser x.fixed_datum_records
    ++ serList VariableDatum.ser x.variable_datum_records
/-- action_request/writer.rs:5-20 (returned count) -/
def ActionRequest.cnt (x : ActionRequest) : Nat := 6 + 6 + 16 + datumsCnt x.fixed_datum_records x.variable_datum_records
/-- action_request/model.rs:8, 38-46 -/
def ActionRequest.bodyLen (x : ActionRequest) : Nat := 28 + datumsLen x.fixed_datum_records x.variable_datum_records
/-- Counts fit their 32-bit fields and the records are well formed. -/
def ActionRequest.Wf (x : ActionRequest) : Prop := Datums.Wf x.fixed_datum_records x.variable_datum_records

theorem ActionRequest.parse_ser {x : ActionRequest} (h : x.Wf) (r : Bytes) : ActionRequest.parse.run (x.ser ++ r) = .ok x r := by
  rtp [ActionRequest.parse, ActionRequest.ser, run_datums h]
theorem ActionRequest.length_ser (x : ActionRequest) : x.ser.length = 28 + ((serList FixedDatum.ser x.fixed_datum_records ++ serList VariableDatum.ser x.variable_datum_records).length) := by
  lenp [ActionRequest.ser, length_ids]
  omega
instance : Stable ActionRequest.parse := by unfold ActionRequest.parse; parser_ok
instance : Safe ActionRequest.parse := by unfold ActionRequest.parse; parser_ok

/-! ## ActionResponse -/

/-- action_response/model.rs:11-18 -/
structure ActionResponse where
  originating_id : EntityId
  receiving_id : EntityId
  request_id : UInt32
  request_status : UInt32
  fixed_datum_records : List FixedDatum
  variable_datum_records : List VariableDatum
  deriving Repr, DecidableEq

/-- action_response/parser.rs:8-26 -/
def ActionResponse.parse : BP ActionResponse := do
  let originating_id ← EntityId.parse
  let receiving_id ← EntityId.parse
  let request_id ← be_u32
  let request_status ← be_u32
  let d ← DatumSpecification.parse
  pure ⟨originating_id, receiving_id, request_id, request_status, d.fixed_datum_records, d.variable_datum_records⟩
/-- action_response/writer.rs:5-20 -/
def ActionResponse.ser (x : ActionResponse) : Bytes :=
  x.originating_id.ser ++ x.receiving_id.ser ++ e32 x.request_id ++ e32 x.request_status
    ++ e32 (UInt32.ofNat x.fixed_datum_records.length)
    ++ e32 (UInt32.ofNat x.variable_datum_records.length)
    ++ serList FixedDatum.ser x.fixed_datum_records
    ++ serList VariableDatum.ser x.variable_datum_records
/-- action_response/writer.rs:5-20 (returned count) -/
def ActionResponse.cnt (x : ActionResponse) : Nat := 6 + 6 + 16 + datumsCnt x.fixed_datum_records x.variable_datum_records
/-- action_response/model.rs:8, 35-43 -/
def ActionResponse.bodyLen (x : ActionResponse) : Nat := 28 + datumsLen x.fixed_datum_records x.variable_datum_records
/-- Counts fit their 32-bit fields and the records are well formed. -/
def ActionResponse.Wf (x : ActionResponse) : Prop := Datums.Wf x.fixed_datum_records x.variable_datum_records

theorem ActionResponse.parse_ser {x : ActionResponse} (h : x.Wf) (r : Bytes) : ActionResponse.parse.run (x.ser ++ r) = .ok x r := by
  rtp [ActionResponse.parse, ActionResponse.ser, run_datums h]
theorem ActionResponse.length_ser (x : ActionResponse) : x.ser.length = 28 + ((serList FixedDatum.ser x.fixed_datum_records ++ serList VariableDatum.ser x.variable_datum_records).length) := by
  lenp [ActionResponse.ser, length_ids]
  omega
instance : Stable ActionResponse.parse := by unfold ActionResponse.parse; parser_ok
instance : Safe ActionResponse.parse := by unfold ActionResponse.parse; parser_ok

/-! ## DataQuery -/

/-- data_query/model.rs:10-17 -/
structure DataQuery where
  originating_id : EntityId
  receiving_id : EntityId
  request_id : UInt32
  time_interval : UInt32
  fixed_datum_records : List UInt32
  variable_datum_records : List UInt32
  deriving Repr, DecidableEq

/-- data_query/parser.rs:9-32 -/
def DataQuery.parse : BP DataQuery := do
  let originating_id ← EntityId.parse
  let receiving_id ← EntityId.parse
  let request_id ← be_u32
  let time_interval ← be_u32
  let nf ← be_u32
  let nv ← be_u32
  let f ← P.count be_u32 nf.toNat
  let v ← P.count be_u32 nv.toNat
  pure ⟨originating_id, receiving_id, request_id, time_interval, f, v⟩
/-- data_query/writer.rs:5-20 -/
def DataQuery.ser (x : DataQuery) : Bytes :=
  x.originating_id.ser ++ x.receiving_id.ser ++ e32 x.request_id ++ e32 x.time_interval
    ++ e32 (UInt32.ofNat x.fixed_datum_records.length)
    ++ e32 (UInt32.ofNat x.variable_datum_records.length) ++ serList e32 x.fixed_datum_records
    ++ serList e32 x.variable_datum_records
/-- data_query/writer.rs:5-20 (returned count) -/
def DataQuery.cnt (x : DataQuery) : Nat := 6 + 6 + 16 + 4 * x.fixed_datum_records.length + 4 * x.variable_datum_records.length
/-- data_query/model.rs:7, 34-38 -/
def DataQuery.bodyLen (x : DataQuery) : Nat := 28 + 4 * x.fixed_datum_records.length + 4 * x.variable_datum_records.length
/-- Counts fit their 32-bit fields and the records are well formed. -/
def DataQuery.Wf (x : DataQuery) : Prop := x.fixed_datum_records.length < 4294967296 ∧ x.variable_datum_records.length < 4294967296

theorem DataQuery.parse_ser {x : DataQuery} (h : x.Wf) (r : Bytes) : DataQuery.parse.run (x.ser ++ r) = .ok x r := by
  rtp [DataQuery.parse, DataQuery.ser, run_ids h.1, run_ids h.2]
theorem DataQuery.length_ser (x : DataQuery) : x.ser.length = 28 + (4 * x.fixed_datum_records.length + 4 * x.variable_datum_records.length) := by
  lenp [DataQuery.ser, length_ids]
  omega
instance : Stable DataQuery.parse := by unfold DataQuery.parse; parser_ok
instance : Safe DataQuery.parse := by unfold DataQuery.parse; parser_ok

/-! ## SetData -/

/-- set_data/model.rs:13-19 -/
structure SetData where
  originating_id : EntityId
  receiving_id : EntityId
  request_id : UInt32
  fixed_datum_records : List FixedDatum
  variable_datum_records : List VariableDatum
  deriving Repr, DecidableEq

/-- set_data/parser.rs:7-23 -/
def SetData.parse : BP SetData := do
  let originating_id ← EntityId.parse
  let receiving_id ← EntityId.parse
  let request_id ← be_u32
  let _pad ← be_u32
  let d ← DatumSpecification.parse
  pure ⟨originating_id, receiving_id, request_id, d.fixed_datum_records, d.variable_datum_records⟩
/-- set_data/writer.rs:5-20 -/
def SetData.ser (x : SetData) : Bytes :=
  x.originating_id.ser ++ x.receiving_id.ser ++ e32 x.request_id ++ e32 0
    ++ e32 (UInt32.ofNat x.fixed_datum_records.length)
    ++ e32 (UInt32.ofNat x.variable_datum_records.length)
    ++ serList FixedDatum.ser x.fixed_datum_records
    ++ serList VariableDatum.ser x.variable_datum_records
/-- set_data/writer.rs:5-20 (returned count) -/
def SetData.cnt (x : SetData) : Nat := 6 + 6 + 16 + datumsCnt x.fixed_datum_records x.variable_datum_records
/-- set_data/model.rs:7, 36-44 -/
def SetData.bodyLen (x : SetData) : Nat := 28 + datumsLen x.fixed_datum_records x.variable_datum_records
/-- Counts fit their 32-bit fields and the records are well formed. -/
def SetData.Wf (x : SetData) : Prop := Datums.Wf x.fixed_datum_records x.variable_datum_records

theorem SetData.parse_ser {x : SetData} (h : x.Wf) (r : Bytes) : SetData.parse.run (x.ser ++ r) = .ok x r := by
  rtp [SetData.parse, SetData.ser, run_datums h]
theorem SetData.length_ser (x : SetData) : x.ser.length = 28 + ((serList FixedDatum.ser x.fixed_datum_records ++ serList VariableDatum.ser x.variable_datum_records).length) := by
  lenp [SetData.ser, length_ids]
  omega
instance : Stable SetData.parse := by unfold SetData.parse; parser_ok
instance : Safe SetData.parse := by unfold SetData.parse; parser_ok

/-! ## Data -/

/-- data/model.rs:10-16 -/
structure Data where
  originating_id : EntityId
  receiving_id : EntityId
  request_id : UInt32
  fixed_datum_records : List FixedDatum
  variable_datum_records : List VariableDatum
  deriving Repr, DecidableEq

/-- data/parser.rs:7-23 -/
def Data.parse : BP Data := do
  let originating_id ← EntityId.parse
  let receiving_id ← EntityId.parse
  let request_id ← be_u32
  let _pad ← be_u32
  let d ← DatumSpecification.parse
  pure ⟨originating_id, receiving_id, request_id, d.fixed_datum_records, d.variable_datum_records⟩
/-- data/writer.rs:5-20 -/
def Data.ser (x : Data) : Bytes :=
  x.originating_id.ser ++ x.receiving_id.ser ++ e32 x.request_id ++ e32 0
    ++ e32 (UInt32.ofNat x.fixed_datum_records.length)
    ++ e32 (UInt32.ofNat x.variable_datum_records.length)
    ++ serList FixedDatum.ser x.fixed_datum_records
    ++ serList VariableDatum.ser x.variable_datum_records
/-- data/writer.rs:5-20 (returned count) -/
def Data.cnt (x : Data) : Nat := 6 + 6 + 16 + datumsCnt x.fixed_datum_records x.variable_datum_records
/-- data/model.rs:7, 33-41 -/
def Data.bodyLen (x : Data) : Nat := 28 + datumsLen x.fixed_datum_records x.variable_datum_records
/-- Counts fit their 32-bit fields and the records are well formed. -/
def Data.Wf (x : Data) : Prop := Datums.Wf x.fixed_datum_records x.variable_datum_records

theorem Data.parse_ser {x : Data} (h : x.Wf) (r : Bytes) : Data.parse.run (x.ser ++ r) = .ok x r := by
  rtp [Data.parse, Data.ser, run_datums h]
theorem Data.length_ser (x : Data) : x.ser.length = 28 + ((serList FixedDatum.ser x.fixed_datum_records ++ serList VariableDatum.ser x.variable_datum_records).length) := by
  lenp [Data.ser, length_ids]
  omega
instance : Stable Data.parse := by unfold Data.parse; parser_ok
instance : Safe Data.parse := by unfold Data.parse; parser_ok

/-! ## EventReport -/

/-- event_report/model.rs:16-22 -/
structure EventReport where
  originating_id : EntityId
  receiving_id : EntityId
  event_type : UInt32
  fixed_datum_records : List FixedDatum
  variable_datum_records : List VariableDatum
  deriving Repr, DecidableEq

/-- event_report/parser.rs:8-25 -/
def EventReport.parse : BP EventReport := do
  let originating_id ← EntityId.parse
  let receiving_id ← EntityId.parse
  let event_type ← be_u32
  let _pad ← be_u32
  let d ← DatumSpecification.parse
  pure ⟨originating_id, receiving_id, event_type, d.fixed_datum_records, d.variable_datum_records⟩
/-- event_report/writer.rs:5-20 -/
def EventReport.ser (x : EventReport) : Bytes :=
  x.originating_id.ser ++ x.receiving_id.ser ++ e32 x.event_type ++ e32 0
    ++ e32 (UInt32.ofNat x.fixed_datum_records.length)
    ++ e32 (UInt32.ofNat x.variable_datum_records.length)
    ++ serList FixedDatum.ser x.fixed_datum_records
    ++ serList VariableDatum.ser x.variable_datum_records
/-- event_report/writer.rs:5-20 (returned count) -/
def EventReport.cnt (x : EventReport) : Nat := 6 + 6 + 16 + datumsCnt x.fixed_datum_records x.variable_datum_records
/-- event_report/model.rs:8, 39-47 -/
def EventReport.bodyLen (x : EventReport) : Nat := 28 + datumsLen x.fixed_datum_records x.variable_datum_records
/-- Counts fit their 32-bit fields and the records are well formed. -/
def EventReport.Wf (x : EventReport) : Prop := Datums.Wf x.fixed_datum_records x.variable_datum_records

theorem EventReport.parse_ser {x : EventReport} (h : x.Wf) (r : Bytes) : EventReport.parse.run (x.ser ++ r) = .ok x r := by
  rtp [EventReport.parse, EventReport.ser, run_datums h]
theorem EventReport.length_ser (x : EventReport) : x.ser.length = 28 + ((serList FixedDatum.ser x.fixed_datum_records ++ serList VariableDatum.ser x.variable_datum_records).length) := by
  lenp [EventReport.ser, length_ids]
  omega
instance : Stable EventReport.parse := by unfold EventReport.parse; parser_ok
instance : Safe EventReport.parse := by unfold EventReport.parse; parser_ok

/-! ## Comment -/

/-- comment/model.rs:13-17 -/
structure Comment where
  originating_id : EntityId
  receiving_id : EntityId
  variable_datum_records : List VariableDatum
  deriving Repr, DecidableEq

/-- comment/parser.rs:6-18; the fixed datums read by `datum_specification` are dropped -/
def Comment.parse : BP Comment := do
  let originating_id ← EntityId.parse
  let receiving_id ← EntityId.parse
  let d ← DatumSpecification.parse
  pure ⟨originating_id, receiving_id, d.variable_datum_records⟩
/-- comment/writer.rs:5-16 -/
def Comment.ser (x : Comment) : Bytes :=
  x.originating_id.ser ++ x.receiving_id.ser ++ e32 0
    ++ e32 (UInt32.ofNat x.variable_datum_records.length)
    ++ serList VariableDatum.ser x.variable_datum_records
/-- comment/writer.rs:5-16 (returned count) -/
def Comment.cnt (x : Comment) : Nat := 6 + 6 + 8 + datumsCnt [] x.variable_datum_records
/-- comment/model.rs:7, 34-41 -/
def Comment.bodyLen (x : Comment) : Nat := 20 + datumsLen [] x.variable_datum_records
/-- Counts fit their 32-bit fields and the records are well formed. -/
def Comment.Wf (x : Comment) : Prop := Datums.Wf [] x.variable_datum_records

theorem Comment.parse_ser {x : Comment} (h : x.Wf) (r : Bytes) : Comment.parse.run (x.ser ++ r) = .ok x r := by
  have e := fun r => run_datums h r
  simp only [List.length_nil, UInt32.reduceOfNat, serList_nil, List.nil_append] at e
  rtp [Comment.parse, Comment.ser, e]
theorem Comment.length_ser (x : Comment) : x.ser.length = 20 + ((serList VariableDatum.ser x.variable_datum_records).length) := by
  lenp [Comment.ser, length_ids]
instance : Stable Comment.parse := by unfold Comment.parse; parser_ok
instance : Safe Comment.parse := by unfold Comment.parse; parser_ok

end Verif.Dis
