import Verif.Dis.Pdu
/-! # Builders whose calls do more than set the named field

dis-rs/src/common/model.rs (`PduHeader`, `RecordSet`), dis-rs/src/v7/model.rs and builder.rs (`PduStatus`),
dis-rs/src/common/entity_state/builder.rs (`with_capabilities_flags`).  A chain of calls is a list, applied from left to right. -/
namespace Verif.Dis

/-! ## PDU status -/

/-- v7/model.rs:38-83: the calls of `PduStatus` (indicators as raw values) -/
inductive StatusCall where
  | with_transferred_entity_indicator (v : UInt8)
  | with_lvc_indicator (v : UInt8)
  | with_coupled_extension_indicator (v : UInt8)
  | with_fire_type_indicator (v : UInt8)
  | with_detonation_type_indicator (v : UInt8)
  | with_radio_attached_indicator (v : UInt8)
  | with_intercom_attached_indicator (v : UInt8)
  | with_iff_simulation_mode (v : UInt8)
  | with_active_interrogation_indicator (v : UInt8)
  deriving Repr, DecidableEq
/-- v7/model.rs:38-83 -/
def PduStatus.call (s : PduStatus) : StatusCall → PduStatus
  | .with_transferred_entity_indicator v => { s with transferred_entity_indicator := some v }
  | .with_lvc_indicator v => { s with lvc_indicator := some v }
  | .with_coupled_extension_indicator v => { s with coupled_extension_indicator := some v }
  | .with_fire_type_indicator v => { s with fire_type_indicator := some v }
  | .with_detonation_type_indicator v => { s with detonation_type_indicator := some v }
  | .with_radio_attached_indicator v => { s with radio_attached_indicator := some v }
  | .with_intercom_attached_indicator v => { s with intercom_attached_indicator := some v }
  | .with_iff_simulation_mode v => { s with iff_simulation_mode := some v }
  | .with_active_interrogation_indicator v => { s with active_interrogation_indicator := some v }
/-- v7/model.rs:20-35 `PduStatus::default()` and a chain of calls -/
def PduStatus.built (calls : List StatusCall) : PduStatus := calls.foldl PduStatus.call {}

/-! ## PDU header -/

/-- common/model.rs:135-155: the calls of `PduHeader`; a timestamp is given as its raw value (`Into<u32>`) -/
inductive HeaderCall where
  | with_pdu_type (t : UInt8)
  | with_time_stamp (ts : UInt32)
  | with_length (body_length : UInt16)
  | with_pdu_status (s : PduStatus)
/-- common/model.rs:113-125 `PduHeader::new` -/
def PduHeader.new (protocol_version exercise_id pdu_type : UInt8) : PduHeader :=
  ⟨protocol_version, exercise_id, pdu_type, familyOfType pdu_type, 0, 0, none, 0⟩
/-- common/model.rs:127-129 -/
def PduHeader.new_v6 (exercise_id pdu_type : UInt8) : PduHeader := .new 6 exercise_id pdu_type
/-- common/model.rs:131-133 -/
def PduHeader.new_v7 (exercise_id pdu_type : UInt8) : PduHeader := .new 7 exercise_id pdu_type
/-- common/model.rs:135-155.  `with_length` adds in `u16`; `none` is the overflow panic of a build with overflow checks, without them
the sum wraps. -/
def PduHeader.call (checked : Bool) (h : PduHeader) : HeaderCall → Option PduHeader
  | .with_pdu_type t => some { h with protocol_family := familyOfType t, pdu_type := t }
  | .with_time_stamp ts => some { h with time_stamp := ts }
  | .with_length n => if checked && decide (65536 ≤ 12 + n.toNat) then none else some { h with pdu_length := 12 + n }
  | .with_pdu_status s => some { h with pdu_status := some s }
/-- a chain of calls -/
def PduHeader.calls (checked : Bool) (h : PduHeader) (l : List HeaderCall) : Option PduHeader :=
  l.foldl (fun h c => h.bind (·.call checked c)) (some h)

/-! ## Record sets -/

/-- common/model.rs:1598-1628: the calls of `RecordSet` -/
inductive RecordSetCall where
  | with_record_id (id : UInt32)
  | with_record_serial_number (n : UInt32)
  | with_record (record : Bytes)
  | with_records (records : List Bytes)
/-- common/model.rs:1598-1628 (`with_records` through `recordLengthOf`) -/
def RecordSet.call (x : RecordSet) : RecordSetCall → RecordSet
  | .with_record_id id => { x with record_id := id }
  | .with_record_serial_number n => { x with record_serial_number := n }
  | .with_record r => { x with record_length_bytes := UInt16.ofNat r.length, records := x.records ++ [r] }
  | .with_records rs => { x with record_length_bytes := recordLengthOf rs, records := rs }
/-- `RecordSet::default()` and a chain of calls -/
def RecordSet.built (calls : List RecordSetCall) : RecordSet := calls.foldl RecordSet.call ⟨0, 0, 0, []⟩

/-! ## Capabilities -/

/-- common/entity_state/builder.rs:75-89 `with_capabilities_flags` -/
def EntityState.with_capabilities_flags (x : EntityState) (ammunition_supply fuel_supply recovery repair : Bool) : EntityState :=
  { x with entity_capabilities := EntityCapabilities.ofV6 ⟨ammunition_supply, fuel_supply, recovery, repair⟩ }

end Verif.Dis
