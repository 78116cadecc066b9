import Verif.Dis.EntityInfoLemmas

/-! # Logistics PDUs -/

namespace Verif.Dis
open Verif.P

/-! ## Service Request -/

/-- service_request/model.rs:12-17 -/
structure ServiceRequest where
  requesting_id : EntityId
  servicing_id : EntityId
  service_type_requested : UInt8
  supplies : List SupplyQuantity
  deriving Repr, DecidableEq

/-- service_request/parser.rs:9-26 -/
def ServiceRequest.parse : BP ServiceRequest := do
  let a ← EntityId.parse
  let b ← EntityId.parse
  let t ← be_u8
  let n ← be_u8
  let _pad ← be_u16
  let l ← P.count SupplyQuantity.parse n.toNat
  pure ⟨a, b, t, l⟩
/-- service_request/writer.rs:5-16 -/
def ServiceRequest.ser (x : ServiceRequest) : Bytes :=
  x.requesting_id.ser ++ x.servicing_id.ser ++ e8 x.service_type_requested ++ e8 (UInt8.ofNat x.supplies.length)
    ++ e16 0 ++ serList SupplyQuantity.ser x.supplies
/-- service_request/writer.rs:14 -/
def ServiceRequest.cnt (x : ServiceRequest) : Nat := 6 + 6 + 4 + cntList SupplyQuantity.cnt x.supplies
/-- service_request/model.rs:6, 34-36 -/
def ServiceRequest.bodyLen (x : ServiceRequest) : Nat := 28 + x.supplies.length * 12

/-! ## Resupply Offer -/

/-- resupply_offer/model.rs:13-17 -/
structure ResupplyOffer where
  requesting_id : EntityId
  servicing_id : EntityId
  supplies : List SupplyQuantity
  deriving Repr, DecidableEq

/-- resupply_offer/parser.rs:8-23 -/
def ResupplyOffer.parse : BP ResupplyOffer := do
  let a ← EntityId.parse
  let b ← EntityId.parse
  let n ← be_u8
  let _pad ← be_u8
  let _pad ← be_u16
  let l ← P.count SupplyQuantity.parse n.toNat
  pure ⟨a, b, l⟩
/-- resupply_offer/writer.rs:5-16 -/
def ResupplyOffer.ser (x : ResupplyOffer) : Bytes :=
  x.requesting_id.ser ++ x.servicing_id.ser ++ e8 (UInt8.ofNat x.supplies.length) ++ e8 0
    ++ e16 0 ++ serList SupplyQuantity.ser x.supplies
/-- resupply_offer/writer.rs:14 -/
def ResupplyOffer.cnt (x : ResupplyOffer) : Nat := 6 + 6 + 4 + cntList SupplyQuantity.cnt x.supplies
/-- resupply_offer/model.rs:7, 34-36 -/
def ResupplyOffer.bodyLen (x : ResupplyOffer) : Nat := 28 + x.supplies.length * 12

/-! ## Resupply Received -/

/-- resupply_received/model.rs:13-17 -/
structure ResupplyReceived where
  requesting_id : EntityId
  servicing_id : EntityId
  supplies : List SupplyQuantity
  deriving Repr, DecidableEq

/-- resupply_received/parser.rs:8-23 -/
def ResupplyReceived.parse : BP ResupplyReceived := do
  let a ← EntityId.parse
  let b ← EntityId.parse
  let n ← be_u8
  let _pad ← be_u8
  let _pad ← be_u16
  let l ← P.count SupplyQuantity.parse n.toNat
  pure ⟨a, b, l⟩
/-- resupply_received/writer.rs:5-16 -/
def ResupplyReceived.ser (x : ResupplyReceived) : Bytes :=
  x.requesting_id.ser ++ x.servicing_id.ser ++ e8 (UInt8.ofNat x.supplies.length) ++ e8 0
    ++ e16 0 ++ serList SupplyQuantity.ser x.supplies
/-- resupply_received/writer.rs:14 -/
def ResupplyReceived.cnt (x : ResupplyReceived) : Nat := 6 + 6 + 4 + cntList SupplyQuantity.cnt x.supplies
/-- resupply_received/model.rs:7, 34-36 -/
def ResupplyReceived.bodyLen (x : ResupplyReceived) : Nat := 28 + x.supplies.length * 12

/-! ## Resupply Cancel -/

/-- resupply_cancel/model.rs:12-15 -/
structure ResupplyCancel where
  requesting_id : EntityId
  servicing_id : EntityId
  deriving Repr, DecidableEq

/-- resupply_cancel/parser.rs:6-16 -/
def ResupplyCancel.parse : BP ResupplyCancel := do
  let a ← EntityId.parse
  let b ← EntityId.parse
  pure ⟨a, b⟩
/-- resupply_cancel/writer.rs:5-12 -/
def ResupplyCancel.ser (x : ResupplyCancel) : Bytes := x.requesting_id.ser ++ x.servicing_id.ser
/-- resupply_cancel/writer.rs:10 -/
def ResupplyCancel.cnt (_ : ResupplyCancel) : Nat := 6 + 6
/-- resupply_cancel/model.rs:6, 32-34 -/
def ResupplyCancel.bodyLen (_ : ResupplyCancel) : Nat := 24

/-! ## Repair Complete, Repair Response -/

/-- repair_complete/model.rs:12-16 -/
structure RepairComplete where
  receiving_id : EntityId
  repairing_id : EntityId
  repair : UInt16
  deriving Repr, DecidableEq

/-- repair_complete/parser.rs:8-22 -/
def RepairComplete.parse : BP RepairComplete := do
  let a ← EntityId.parse
  let b ← EntityId.parse
  let c ← be_u16
  let _pad ← be_u16
  pure ⟨a, b, c⟩
/-- repair_complete/writer.rs:5-14 -/
def RepairComplete.ser (x : RepairComplete) : Bytes :=
  x.receiving_id.ser ++ x.repairing_id.ser ++ e16 x.repair ++ e16 0
/-- repair_complete/writer.rs:12 -/
def RepairComplete.cnt (_ : RepairComplete) : Nat := 6 + 6 + 4
/-- repair_complete/model.rs:6, 33-35 -/
def RepairComplete.bodyLen (_ : RepairComplete) : Nat := 16

/-- repair_response/model.rs:12-16 -/
structure RepairResponse where
  receiving_id : EntityId
  repairing_id : EntityId
  repair_result : UInt8
  deriving Repr, DecidableEq

/-- repair_response/parser.rs:8-23 -/
def RepairResponse.parse : BP RepairResponse := do
  let a ← EntityId.parse
  let b ← EntityId.parse
  let c ← be_u8
  let _pad ← be_u8
  let _pad ← be_u16
  pure ⟨a, b, c⟩
/-- repair_response/writer.rs:5-15 -/
def RepairResponse.ser (x : RepairResponse) : Bytes :=
  x.receiving_id.ser ++ x.repairing_id.ser ++ e8 x.repair_result ++ e8 0 ++ e16 0
/-- repair_response/writer.rs:13 -/
def RepairResponse.cnt (_ : RepairResponse) : Nat := 6 + 6 + 4
/-- repair_response/model.rs:6, 33-35 -/
def RepairResponse.bodyLen (_ : RepairResponse) : Nat := 16

/-- The supplies fit the 8-bit count. -/
def ServiceRequest.Wf (x : ServiceRequest) : Prop := x.supplies.length ≤ 255
def ResupplyOffer.Wf (x : ResupplyOffer) : Prop := x.supplies.length ≤ 255
def ResupplyReceived.Wf (x : ResupplyReceived) : Prop := x.supplies.length ≤ 255

/-! ## Lemmas -/

theorem run_supplies {l : List SupplyQuantity} (h : l.length ≤ 255) (r : Bytes) :
    (P.count SupplyQuantity.parse (UInt8.ofNat l.length).toNat).run (serList SupplyQuantity.ser l ++ r) = .ok l r :=
  run_countList l r _ (toNat_u8_ofNat (by omega)) (fun x _ r => SupplyQuantity.parse_ser r x)
@[len] theorem length_supplies (l : List SupplyQuantity) : (serList SupplyQuantity.ser l).length = 12 * l.length :=
  length_serList_const l fun x _ => SupplyQuantity.length_ser x
theorem cnt_supplies (l : List SupplyQuantity) : cntList SupplyQuantity.cnt l = 12 * l.length :=
  cntList_const l fun _ _ => rfl

theorem ServiceRequest.parse_ser {x : ServiceRequest} (h : x.Wf) (r : Bytes) :
    ServiceRequest.parse.run (x.ser ++ r) = .ok x r := by
  rtp [ServiceRequest.parse, ServiceRequest.ser, run_supplies h]
theorem ServiceRequest.length_ser (x : ServiceRequest) : x.ser.length = 16 + 12 * x.supplies.length := by
  lenp [ServiceRequest.ser]
theorem ServiceRequest.cnt_eq (x : ServiceRequest) : x.cnt = 16 + 12 * x.supplies.length := by
  simp only [ServiceRequest.cnt, cnt_supplies]
theorem ResupplyOffer.parse_ser {x : ResupplyOffer} (h : x.Wf) (r : Bytes) :
    ResupplyOffer.parse.run (x.ser ++ r) = .ok x r := by
  rtp [ResupplyOffer.parse, ResupplyOffer.ser, run_supplies h]
theorem ResupplyOffer.length_ser (x : ResupplyOffer) : x.ser.length = 16 + 12 * x.supplies.length := by
  lenp [ResupplyOffer.ser]
theorem ResupplyOffer.cnt_eq (x : ResupplyOffer) : x.cnt = 16 + 12 * x.supplies.length := by
  simp only [ResupplyOffer.cnt, cnt_supplies]
theorem ResupplyReceived.parse_ser {x : ResupplyReceived} (h : x.Wf) (r : Bytes) :
    ResupplyReceived.parse.run (x.ser ++ r) = .ok x r := by
  rtp [ResupplyReceived.parse, ResupplyReceived.ser, run_supplies h]
theorem ResupplyReceived.length_ser (x : ResupplyReceived) : x.ser.length = 16 + 12 * x.supplies.length := by
  lenp [ResupplyReceived.ser]
theorem ResupplyReceived.cnt_eq (x : ResupplyReceived) : x.cnt = 16 + 12 * x.supplies.length := by
  simp only [ResupplyReceived.cnt, cnt_supplies]
@[rt] theorem ResupplyCancel.parse_ser (x : ResupplyCancel) (r : Bytes) :
    ResupplyCancel.parse.run (x.ser ++ r) = .ok x r := by
  rtp [ResupplyCancel.parse, ResupplyCancel.ser]
@[len] theorem ResupplyCancel.length_ser (x : ResupplyCancel) : x.ser.length = 12 := by lenp [ResupplyCancel.ser]
@[rt] theorem RepairComplete.parse_ser (x : RepairComplete) (r : Bytes) :
    RepairComplete.parse.run (x.ser ++ r) = .ok x r := by
  rtp [RepairComplete.parse, RepairComplete.ser]
@[len] theorem RepairComplete.length_ser (x : RepairComplete) : x.ser.length = 16 := by lenp [RepairComplete.ser]
@[rt] theorem RepairResponse.parse_ser (x : RepairResponse) (r : Bytes) :
    RepairResponse.parse.run (x.ser ++ r) = .ok x r := by
  rtp [RepairResponse.parse, RepairResponse.ser]
@[len] theorem RepairResponse.length_ser (x : RepairResponse) : x.ser.length = 16 := by lenp [RepairResponse.ser]

instance : Stable ServiceRequest.parse := by unfold ServiceRequest.parse; parser_ok
instance : Safe ServiceRequest.parse := by unfold ServiceRequest.parse; parser_ok
instance : Stable ResupplyOffer.parse := by unfold ResupplyOffer.parse; parser_ok
instance : Safe ResupplyOffer.parse := by unfold ResupplyOffer.parse; parser_ok
instance : Stable ResupplyReceived.parse := by unfold ResupplyReceived.parse; parser_ok
instance : Safe ResupplyReceived.parse := by unfold ResupplyReceived.parse; parser_ok
instance : Stable ResupplyCancel.parse := by unfold ResupplyCancel.parse; parser_ok
instance : Safe ResupplyCancel.parse := by unfold ResupplyCancel.parse; parser_ok
instance : Stable RepairComplete.parse := by unfold RepairComplete.parse; parser_ok
instance : Safe RepairComplete.parse := by unfold RepairComplete.parse; parser_ok
instance : Stable RepairResponse.parse := by unfold RepairResponse.parse; parser_ok
instance : Safe RepairResponse.parse := by unfold RepairResponse.parse; parser_ok

end Verif.Dis
