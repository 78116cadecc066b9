import Verif.Dis.RecordsLemmas

/-!
# PDU header and PDU status (dis-rs/src/common/{parser,writer}.rs, dis-rs/src/v7/*.rs)
-/

namespace Verif.Dis
open Verif.P

/-- dis-rs/src/v7/model.rs:7-17 `PduStatus`; every indicator is stored as its raw value. -/
structure PduStatus where
  transferred_entity_indicator : Option UInt8 := none
  lvc_indicator : Option UInt8 := none
  coupled_extension_indicator : Option UInt8 := none
  fire_type_indicator : Option UInt8 := none
  detonation_type_indicator : Option UInt8 := none
  radio_attached_indicator : Option UInt8 := none
  intercom_attached_indicator : Option UInt8 := none
  iff_simulation_mode : Option UInt8 := none
  active_interrogation_indicator : Option UInt8 := none
  deriving Repr, DecidableEq

/-- v7/parser.rs:63-66 `status_tei` (`BIT_7_IN_BYTE = 0x01`) -/
def statusTei (b : UInt8) : UInt8 := b &&& 0x01
/-- v7/parser.rs:68-71 `status_lvc` (`BITS_5_6_IN_BYTE = 0x06`) -/
def statusLvc (b : UInt8) : UInt8 := (b &&& 0x06) >>> 1
/-- v7/parser.rs:73-76 `status_cei` (`BIT_4_IN_BYTE = 0x08`) -/
def statusCei (b : UInt8) : UInt8 := (b &&& 0x08) >>> 3
/-- v7/parser.rs:78-81 `status_fti` (`BIT_3_IN_BYTE = 0x10`) -/
def statusFti (b : UInt8) : UInt8 := (b &&& 0x10) >>> 4
/-- v7/parser.rs:83-86 `status_dti` (`BITS_2_3_IN_BYTE = 0x30`) -/
def statusDti (b : UInt8) : UInt8 := (b &&& 0x30) >>> 4
/-- v7/parser.rs:88-91 `status_rai` -/
def statusRai (b : UInt8) : UInt8 := (b &&& 0x30) >>> 4
/-- v7/parser.rs:93-96 `status_iai` -/
def statusIai (b : UInt8) : UInt8 := (b &&& 0x30) >>> 4
/-- v7/parser.rs:98-101 `status_ism` -/
def statusIsm (b : UInt8) : UInt8 := (b &&& 0x10) >>> 4
/-- v7/parser.rs:103-106 `status_aii` (`BIT_2_IN_BYTE = 0x20`) -/
def statusAii (b : UInt8) : UInt8 := (b &&& 0x20) >>> 5

/-- v7/parser.rs:25-61 `parse_pdu_status_fields` (with the builders of v7/builder.rs inlined) -/
def parsePduStatusFields (pdu_type : UInt8) (b : UInt8) : PduStatus :=
  let tei := some (statusTei b)
  let lvc := some (statusLvc b)
  let cei := some (statusCei b)
  let fti := some (statusFti b)
  let dti := some (statusDti b)
  let rai := some (statusRai b)
  let iai := some (statusIai b)
  let ism := some (statusIsm b)
  let aii := some (statusAii b)
  let t := pdu_type.toNat
  if t = 1 then { coupled_extension_indicator := cei, lvc_indicator := lvc, transferred_entity_indicator := tei }
  else if t = 2 then { fire_type_indicator := fti, coupled_extension_indicator := cei, lvc_indicator := lvc }
  else if t = 3 then { detonation_type_indicator := dti, coupled_extension_indicator := cei, lvc_indicator := lvc }
  else if 4 ≤ t ∧ t ≤ 22 then { coupled_extension_indicator := cei, lvc_indicator := lvc }
  else if t = 23 then { coupled_extension_indicator := cei, lvc_indicator := lvc, transferred_entity_indicator := tei }
  else if t = 24 then { coupled_extension_indicator := cei, lvc_indicator := lvc, transferred_entity_indicator := tei }
  else if t = 25 ∨ t = 26 ∨ t = 27 then
    { radio_attached_indicator := rai, coupled_extension_indicator := cei, lvc_indicator := lvc, transferred_entity_indicator := tei }
  else if t = 28 then
    { active_interrogation_indicator := aii, iff_simulation_mode := ism, coupled_extension_indicator := cei, lvc_indicator := lvc, transferred_entity_indicator := tei }
  else if 29 ≤ t ∧ t ≤ 30 then { coupled_extension_indicator := cei, lvc_indicator := lvc }
  else if t = 31 ∨ t = 32 then
    { intercom_attached_indicator := iai, coupled_extension_indicator := cei, lvc_indicator := lvc, transferred_entity_indicator := tei }
  else if 33 ≤ t ∧ t ≤ 40 then { coupled_extension_indicator := cei, lvc_indicator := lvc }
  else if t = 41 then { coupled_extension_indicator := cei, lvc_indicator := lvc, transferred_entity_indicator := tei }
  else if 42 ≤ t ∧ t ≤ 66 then { coupled_extension_indicator := cei, lvc_indicator := lvc }
  else if t = 67 then { coupled_extension_indicator := cei, lvc_indicator := lvc, transferred_entity_indicator := tei }
  else if 68 ≤ t ∧ t ≤ 71 then { coupled_extension_indicator := cei, lvc_indicator := lvc }
  else if t = 72 then { lvc_indicator := lvc }
  else {}

/-- v7/writer.rs:7-66 `serialize_pdu_status` (with the `combine_*` helpers of lines 68-98 inlined) -/
def serializePduStatus (s : PduStatus) (pdu_type : UInt8) : UInt8 :=
  let tei : UInt8 := match s.transferred_entity_indicator with | some v => v | none => 0
  let lvc : UInt8 := match s.lvc_indicator with | some v => v <<< 1 | none => 0
  let cei : UInt8 := match s.coupled_extension_indicator with | some v => v <<< 3 | none => 0
  let fti : UInt8 := match s.fire_type_indicator with | some v => v <<< 4 | none => 0
  let dti : UInt8 := match s.detonation_type_indicator with | some v => v <<< 4 | none => 0
  let rai : UInt8 := match s.radio_attached_indicator with | some v => v <<< 4 | none => 0
  let iai : UInt8 := match s.intercom_attached_indicator with | some v => v <<< 4 | none => 0
  let ism : UInt8 := match s.iff_simulation_mode with | some v => v <<< 4 | none => 0
  let aii : UInt8 := match s.active_interrogation_indicator with | some v => v <<< 5 | none => 0
  let t := pdu_type.toNat
  if t = 1 then cei ||| lvc ||| tei
  else if t = 2 then fti ||| cei ||| lvc
  else if t = 3 then dti ||| cei ||| lvc
  else if 4 ≤ t ∧ t ≤ 22 then cei ||| lvc
  else if t = 23 then cei ||| lvc ||| tei
  else if t = 24 then cei ||| lvc ||| tei
  else if t = 25 ∨ t = 26 ∨ t = 27 then rai ||| cei ||| lvc ||| tei
  else if t = 28 then aii ||| ism ||| cei ||| lvc ||| tei
  else if 29 ≤ t ∧ t ≤ 30 then cei ||| lvc
  else if t = 31 ∨ t = 32 then iai ||| cei ||| lvc ||| tei
  else if 33 ≤ t ∧ t ≤ 40 then cei ||| lvc
  else if t = 41 then cei ||| lvc ||| tei
  else if 42 ≤ t ∧ t ≤ 66 then cei ||| lvc
  else if t = 67 then cei ||| lvc ||| tei
  else if 68 ≤ t ∧ t ≤ 71 then cei ||| lvc
  else if t = 72 then lvc
  else 0

/-- dis-rs/src/common/model.rs:101-110 `PduHeader` -/
structure PduHeader where
  protocol_version : UInt8
  exercise_id : UInt8
  pdu_type : UInt8
  protocol_family : UInt8
  time_stamp : UInt32
  pdu_length : UInt16
  pdu_status : Option PduStatus
  padding : UInt16
  deriving Repr, DecidableEq

/-- common/parser.rs:143-183 `pdu_header` -/
def PduHeader.parse : BP PduHeader := do
  let protocol_version ← be_u8
  let exercise_id ← be_u8
  let pdu_type ← be_u8
  let protocol_family ← be_u8
  let time_stamp ← be_u32
  let pdu_length ← be_u16
  if 1 ≤ protocol_version.toNat ∧ protocol_version.toNat ≤ 6 then
    let padding ← be_u16
    pure ⟨protocol_version, exercise_id, pdu_type, protocol_family, time_stamp, pdu_length, none, padding⟩
  else
    let status ← be_u8
    let padding ← be_u8
    pure ⟨protocol_version, exercise_id, pdu_type, protocol_family, time_stamp, pdu_length,
      some (parsePduStatusFields pdu_type status), padding.toUInt16⟩

/-- common/writer.rs:10-30 `impl Serialize for PduHeader` -/
def PduHeader.ser (h : PduHeader) : Bytes :=
  e8 h.protocol_version ++ e8 h.exercise_id ++ e8 h.pdu_type ++ e8 h.protocol_family
    ++ e32 h.time_stamp ++ e16 h.pdu_length
    ++ (if h.protocol_version = 7 then
          match h.pdu_status with
          | some s => e8 (serializePduStatus s h.pdu_type) ++ e8 0
          | none => e16 0
        else e16 0)
/-- common/writer.rs:28 -/
def PduHeader.cnt (_ : PduHeader) : Nat := 12

/-- common/model.rs:551-630 `From<PduType> for ProtocolFamily`, on raw values (SISO-REF-010 numbers of
PDU types and families).  `Unspecified(n)` maps to `ProtocolFamily::Unspecified(n)`. -/
def familyOfType (t : UInt8) : UInt8 :=
  let n := t.toNat
  if n = 0 then 0
  else if n = 1 then 1
  else if n = 2 ∨ n = 3 then 2
  else if n = 4 then 1
  else if 5 ≤ n ∧ n ≤ 10 then 3
  else if 11 ≤ n ∧ n ≤ 22 then 5
  else if n = 23 ∨ n = 24 then 6
  else if 25 ≤ n ∧ n ≤ 27 then 4
  else if 28 ≤ n ∧ n ≤ 30 then 6
  else if n = 31 ∨ n = 32 then 4
  else if 33 ≤ n ∧ n ≤ 36 then 7
  else if 37 ≤ n ∧ n ≤ 40 then 8
  else if 41 ≤ n ∧ n ≤ 45 then 9
  else if 46 ≤ n ∧ n ≤ 50 then 11
  else if 51 ≤ n ∧ n ≤ 65 then 10
  else if n = 66 ∨ n = 67 then 1
  else if n = 68 ∨ n = 69 then 2
  else if n = 70 ∨ n = 71 then 13
  else if n = 72 then 1
  else t

/-! ## Specification of the PDU status record (IEEE 1278.1-2012, 6.2.67, field use per PDU type)

Written independently of the codec: which indicators a PDU type carries and how wide they are. -/

/-- Transferred entity indicator (bit 0) is used by these PDU types. -/
def usesTei (t : Nat) : Prop := t ∈ [1, 23, 24, 25, 26, 27, 28, 31, 32, 41, 67]
/-- LVC indicator (bits 1-2): all the defined PDU types. -/
def usesLvc (t : Nat) : Prop := 1 ≤ t ∧ t ≤ 72
/-- Coupled extension indicator (bit 3): all but the Attribute PDU. -/
def usesCei (t : Nat) : Prop := 1 ≤ t ∧ t ≤ 71
/-- Fire type indicator (bit 4): Fire PDU. -/
def usesFti (t : Nat) : Prop := t = 2
/-- Detonation type indicator (bits 4-5): Detonation PDU. -/
def usesDti (t : Nat) : Prop := t = 3
/-- Radio attached indicator (bits 4-5): Transmitter, Signal and Receiver PDUs. -/
def usesRai (t : Nat) : Prop := t ∈ [25, 26, 27]
/-- Intercom attached indicator (bits 4-5): Intercom Signal and Control PDUs. -/
def usesIai (t : Nat) : Prop := t ∈ [31, 32]
/-- IFF simulation mode (bit 4): IFF PDU. -/
def usesIsm (t : Nat) : Prop := t = 28
/-- Active interrogation indicator (bit 5): IFF PDU. -/
def usesAii (t : Nat) : Prop := t = 28

instance (t : Nat) : Decidable (usesTei t) := by unfold usesTei; infer_instance
instance (t : Nat) : Decidable (usesLvc t) := by unfold usesLvc; infer_instance
instance (t : Nat) : Decidable (usesCei t) := by unfold usesCei; infer_instance
instance (t : Nat) : Decidable (usesFti t) := by unfold usesFti; infer_instance
instance (t : Nat) : Decidable (usesDti t) := by unfold usesDti; infer_instance
instance (t : Nat) : Decidable (usesRai t) := by unfold usesRai; infer_instance
instance (t : Nat) : Decidable (usesIai t) := by unfold usesIai; infer_instance
instance (t : Nat) : Decidable (usesIsm t) := by unfold usesIsm; infer_instance
instance (t : Nat) : Decidable (usesAii t) := by unfold usesAii; infer_instance

/-- An indicator is present exactly when the PDU type uses it, and then fits its `width` bits. -/
def indicatorOk (used : Prop) (width : Nat) (o : Option UInt8) : Prop :=
  (used ↔ o ≠ none) ∧ ∀ v, o = some v → v.toNat < 2 ^ width

/-- A status record is well formed for a PDU type when exactly the indicators defined for that type
are present and each fits its bit field. -/
structure PduStatus.Wf (s : PduStatus) (t : UInt8) : Prop where
  tei : indicatorOk (usesTei t.toNat) 1 s.transferred_entity_indicator
  lvc : indicatorOk (usesLvc t.toNat) 2 s.lvc_indicator
  cei : indicatorOk (usesCei t.toNat) 1 s.coupled_extension_indicator
  fti : indicatorOk (usesFti t.toNat) 1 s.fire_type_indicator
  dti : indicatorOk (usesDti t.toNat) 2 s.detonation_type_indicator
  rai : indicatorOk (usesRai t.toNat) 2 s.radio_attached_indicator
  iai : indicatorOk (usesIai t.toNat) 2 s.intercom_attached_indicator
  ism : indicatorOk (usesIsm t.toNat) 1 s.iff_simulation_mode
  aii : indicatorOk (usesAii t.toNat) 1 s.active_interrogation_indicator

/-- The octet the standard prescribes: the sum of the indicators at their bit positions. -/
def PduStatus.octet (s : PduStatus) : Nat :=
  (s.transferred_entity_indicator.elim 0 UInt8.toNat)
  + 2 * (s.lvc_indicator.elim 0 UInt8.toNat)
  + 8 * (s.coupled_extension_indicator.elim 0 UInt8.toNat)
  + 16 * (s.fire_type_indicator.elim 0 UInt8.toNat)
  + 16 * (s.detonation_type_indicator.elim 0 UInt8.toNat)
  + 16 * (s.radio_attached_indicator.elim 0 UInt8.toNat)
  + 16 * (s.intercom_attached_indicator.elim 0 UInt8.toNat)
  + 16 * (s.iff_simulation_mode.elim 0 UInt8.toNat)
  + 32 * (s.active_interrogation_indicator.elim 0 UInt8.toNat)

/-- The header fields of a version 7 PDU carry a well-formed status; versions 1 to 6 carry none. -/
def PduHeader.Wf (h : PduHeader) : Prop :=
  h.padding = 0 ∧
  ((h.protocol_version = 7 ∧ ∃ s, h.pdu_status = some s ∧ s.Wf h.pdu_type) ∨
   (1 ≤ h.protocol_version.toNat ∧ h.protocol_version.toNat ≤ 6 ∧ h.pdu_status = none))

end Verif.Dis
