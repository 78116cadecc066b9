import Verif.Dis.Interaction
import Verif.Dis.ReadsBodies2
import Verif.Props.Bodies
import Verif.Props.Through8

/-!
# C58: who a PDU is from and to

`Pdu::originator()` and `Pdu::receiver()` are how a caller filters and routes PDUs without looking at their kind.  The specification
below says, for each PDU type, which octets of the PDU hold the identifier of the entity (or simulation manager) that issues it and of
the one it is meant for, from IEEE 1278.1.
-/

set_option linter.unusedSimpArgs false

namespace Verif.Props
open Verif Verif.Dis Verif.P

/-! ## Specification -/

/-- the octet at a position -/
def octetAt (bs : Bytes) (n : Nat) : Nat := (bs.getD n 0).toNat
/-- the entity identifier (site, application, entity) in the six octets from a position -/
def idAt (bs : Bytes) (n : Nat) : EntityId :=
  ⟨⟨UInt16.ofNat (octetAt bs n * 256 + octetAt bs (n + 1)), UInt16.ofNat (octetAt bs (n + 2) * 256 + octetAt bs (n + 3))⟩,
    UInt16.ofNat (octetAt bs (n + 4) * 256 + octetAt bs (n + 5))⟩

/-- The PDU types whose first field is the identifier of a receiving entity and whose second is the one that issues the PDU: Resupply
Offer (the supplier offers) and Repair Complete (the repairing entity reports). -/
def secondIssues : List UInt8 := [6, 9]
/-- The PDU types with the issuer first and the addressee second: Fire, Detonation, Collision, Service Request, Resupply Received and
Cancel, Repair Response, simulation management with and without reliability, Transfer Ownership, Is Part Of, Collision Elastic. -/
def firstIssues : List UInt8 :=
  [2, 3, 4, 5, 7, 8, 10, 11, 12, 13, 14, 15, 16, 17, 18, 19, 20, 21, 22, 35, 36, 51, 52, 53, 54, 55, 56, 57, 58, 59, 60, 61, 62, 63,
   64, 65, 66]
/-- The PDU types with an issuer and no addressee: Entity State (and Update), Transmitter, Signal, Receiver, IFF, Underwater Acoustic,
Supplemental Emission, Aggregate State, Is Group Of. -/
def broadcast : List UInt8 := [1, 25, 26, 27, 28, 29, 30, 33, 34, 67]

/-- where the issuer's identifier is in a PDU of type `t` -/
def issuerOctet (t : UInt8) : Option Nat :=
  if t ∈ secondIssues then some 18 else if t ∈ firstIssues ∨ t ∈ broadcast ∨ t = 23 ∨ t = 24 then some 12 else none
/-- where the addressee's identifier is in a PDU of type `t`, other than Electromagnetic Emission -/
def addresseeOctet (t : UInt8) : Option Nat :=
  if t ∈ secondIssues then some 12 else if t ∈ firstIssues then some 18 else if t = 24 then some 20 else none
/-- Electromagnetic Emission: the first track of the first beam of the first emitter system, when there is one -/
def firstTrack (bs : Bytes) : Option EntityId :=
  if octetAt bs 25 = 0 ∨ octetAt bs 29 = 0 ∨ octetAt bs 93 = 0 then none else some (idAt bs 100)

/-! ## Proof tools -/

/-- whenever `p` succeeds, its input and its value satisfy `S` -/
def Yields {α : Type} (p : P UInt8 α) (S : Bytes → α → Prop) : Prop := ∀ bs a r, p.run bs = .ok a r → S bs a

theorem octetAt_cons (b : UInt8) (l : Bytes) (n : Nat) : octetAt (b :: l) (n + 1) = octetAt l n := by simp [octetAt]
theorem octetAt_append (c l : Bytes) (n : Nat) : octetAt (c ++ l) (c.length + n) = octetAt l n := by
  simp [octetAt, List.getD_eq_getElem?_getD, List.getElem?_append_right]
theorem idAt_append (c l : Bytes) (n : Nat) : idAt (c ++ l) (c.length + n) = idAt l n := by
  simp only [idAt, Nat.add_assoc, octetAt_append]
theorem idAt_skip {c : Bytes} {k : Nat} (h : c.length = k) (l : Bytes) (n : Nat) : idAt (c ++ l) (k + n) = idAt l n := by
  subst h; exact idAt_append c l n
theorem octetAt_skip {c : Bytes} {k : Nat} (h : c.length = k) (l : Bytes) (n : Nat) : octetAt (c ++ l) (k + n) = octetAt l n := by
  subst h; exact octetAt_append c l n
theorem word_of (v : UInt16) : UInt16.ofNat ((UInt8.ofNat (v.toNat / 2 ^ 8)).toNat * 256 + (UInt8.ofNat v.toNat).toNat) = v := by
  apply UInt16.toNat.inj
  have := v.toNat_lt
  simp only [UInt8.toNat_ofNat', UInt16.toNat_ofNat']
  omega
theorem idAt_ser (a : EntityId) (l : Bytes) : idAt (a.ser ++ l) 0 = a := by
  obtain ⟨⟨s, p⟩, e⟩ := a
  show (⟨⟨_, _⟩, _⟩ : EntityId) = _
  congr 1
  · congr 1
    · exact word_of s
    · exact word_of p
  · exact word_of e
theorem length_id (a : EntityId) : a.ser.length = 6 := rfl
theorem idAt_ser6 (a : EntityId) (l : Bytes) : idAt (a.ser ++ l) 6 = idAt l 0 := idAt_skip (length_id a) l 0

theorem takes_id : Takes EntityId.parse fun c x => c = x.ser := by
  unfold EntityId.parse
  refine Takes.bind (Q := fun c (x : SimulationAddress) => c = x.ser) ?_ fun c s hs => ?_
  · unfold SimulationAddress.parse
    refine Takes.bind Rd.spec fun _ a ha => Takes.bind Rd.spec fun _ b hb => Takes.pure ?_
    rw [ha, hb]; simp [SimulationAddress.ser]
  · refine Takes.bind Rd.spec fun _ b hb => Takes.pure ?_
    rw [hs, hb]; simp [EntityId.ser]

theorem Yields.bind {α β : Type} {m : P UInt8 α} {f : α → P UInt8 β} {Q : Bytes → α → Prop} {S : Bytes → β → Prop} (hm : Takes m Q)
    (h : ∀ c a, Q c a → Yields (f a) fun bs x => S (c ++ bs) x) : Yields (m >>= f) S := by
  intro bs x r e
  obtain ⟨a, mid, e1, e2⟩ := bind_ok e
  obtain ⟨c, rfl, hq⟩ := hm _ _ _ e1
  exact h c a hq _ _ _ e2
theorem Yields.id {β : Type} {f : EntityId → P UInt8 β} {S : Bytes → β → Prop} (h : ∀ a, Yields (f a) fun bs x => S (a.ser ++ bs) x) :
    Yields (EntityId.parse >>= f) S := Yields.bind takes_id fun c a e => by subst e; exact h a
theorem Yields.skip {α β : Type} {m : P UInt8 α} {f : α → P UInt8 β} {φ : β → Prop} (h : ∀ a, Yields (f a) fun _ x => φ x) :
    Yields (m >>= f) fun _ x => φ x := by
  intro bs x r e
  obtain ⟨a, mid, e1, e2⟩ := bind_ok e
  exact h a _ _ _ e2
theorem Yields.pure {α : Type} {a : α} {φ : α → Prop} (h : φ a) : Yields (Pure.pure a) fun _ x => φ x := by
  intro bs x r e
  simp only [P.run_pure, Res.ok.injEq] at e
  exact e.1 ▸ h
theorem Yields.fail {α : Type} {φ : α → Prop} : Yields (P.fail : P UInt8 α) fun _ x => φ x := by
  intro bs x r e; simp at e
theorem Yields.panic {α : Type} {φ : α → Prop} : Yields (P.panic : P UInt8 α) fun _ x => φ x := by
  intro bs x r e; simp [P.panic] at e

macro "yield_rest" : tactic => `(tactic| (repeat' first
  | exact Yields.pure ⟨rfl, rfl⟩
  | exact Yields.fail
  | exact Yields.panic
  | refine Yields.skip fun _ => ?_
  | split))
macro "two_ids" : tactic => `(tactic| (
  refine Yields.id fun a => Yields.id fun b => ?_
  simp only [idAt_ser, idAt_ser6]
  yield_rest))
macro "one_id" : tactic => `(tactic| (
  refine Yields.id fun a => ?_
  simp only [idAt_ser]
  yield_rest))

theorem ids_entityState (env : Env) (ver : UInt8) : Yields (EntityState.parse env ver) fun bs x =>
    Body.originator (.entityState x) = some (idAt bs 0) ∧ Body.recipient (.entityState x) = none := by
  unfold EntityState.parse; one_id
theorem ids_fire (k : UInt8)  : Yields (Fire.parse k) fun bs x =>
    Body.originator (.fire x) = some (idAt bs 0) ∧ Body.recipient (.fire x) = some (idAt bs 6) := by
  unfold Fire.parse; two_ids
theorem ids_detonation (k : UInt8)  : Yields (Detonation.parse k) fun bs x =>
    Body.originator (.detonation x) = some (idAt bs 0) ∧ Body.recipient (.detonation x) = some (idAt bs 6) := by
  unfold Detonation.parse; two_ids
theorem ids_collision  : Yields Collision.parse fun bs x =>
    Body.originator (.collision x) = some (idAt bs 0) ∧ Body.recipient (.collision x) = some (idAt bs 6) := by
  unfold Collision.parse; two_ids
theorem ids_serviceRequest  : Yields ServiceRequest.parse fun bs x =>
    Body.originator (.serviceRequest x) = some (idAt bs 0) ∧ Body.recipient (.serviceRequest x) = some (idAt bs 6) := by
  unfold ServiceRequest.parse; two_ids
theorem ids_resupplyOffer  : Yields ResupplyOffer.parse fun bs x =>
    Body.originator (.resupplyOffer x) = some (idAt bs 0) ∧ Body.recipient (.resupplyOffer x) = some (idAt bs 6) := by
  unfold ResupplyOffer.parse; two_ids
theorem ids_resupplyReceived  : Yields ResupplyReceived.parse fun bs x =>
    Body.originator (.resupplyReceived x) = some (idAt bs 0) ∧ Body.recipient (.resupplyReceived x) = some (idAt bs 6) := by
  unfold ResupplyReceived.parse; two_ids
theorem ids_resupplyCancel  : Yields ResupplyCancel.parse fun bs x =>
    Body.originator (.resupplyCancel x) = some (idAt bs 0) ∧ Body.recipient (.resupplyCancel x) = some (idAt bs 6) := by
  unfold ResupplyCancel.parse; two_ids
theorem ids_repairComplete  : Yields RepairComplete.parse fun bs x =>
    Body.originator (.repairComplete x) = some (idAt bs 6) ∧ Body.recipient (.repairComplete x) = some (idAt bs 0) := by
  unfold RepairComplete.parse; two_ids
theorem ids_repairResponse  : Yields RepairResponse.parse fun bs x =>
    Body.originator (.repairResponse x) = some (idAt bs 6) ∧ Body.recipient (.repairResponse x) = some (idAt bs 0) := by
  unfold RepairResponse.parse; two_ids
theorem ids_createEntity  : Yields CreateEntity.parse fun bs x =>
    Body.originator (.createEntity x) = some (idAt bs 0) ∧ Body.recipient (.createEntity x) = some (idAt bs 6) := by
  unfold CreateEntity.parse; two_ids
theorem ids_removeEntity  : Yields RemoveEntity.parse fun bs x =>
    Body.originator (.removeEntity x) = some (idAt bs 0) ∧ Body.recipient (.removeEntity x) = some (idAt bs 6) := by
  unfold RemoveEntity.parse; two_ids
theorem ids_startResume  : Yields StartResume.parse fun bs x =>
    Body.originator (.startResume x) = some (idAt bs 0) ∧ Body.recipient (.startResume x) = some (idAt bs 6) := by
  unfold StartResume.parse; two_ids
theorem ids_stopFreeze  : Yields StopFreeze.parse fun bs x =>
    Body.originator (.stopFreeze x) = some (idAt bs 0) ∧ Body.recipient (.stopFreeze x) = some (idAt bs 6) := by
  unfold StopFreeze.parse; two_ids
theorem ids_acknowledge  : Yields Acknowledge.parse fun bs x =>
    Body.originator (.acknowledge x) = some (idAt bs 0) ∧ Body.recipient (.acknowledge x) = some (idAt bs 6) := by
  unfold Acknowledge.parse; two_ids
theorem ids_actionRequest  : Yields ActionRequest.parse fun bs x =>
    Body.originator (.actionRequest x) = some (idAt bs 0) ∧ Body.recipient (.actionRequest x) = some (idAt bs 6) := by
  unfold ActionRequest.parse; two_ids
theorem ids_actionResponse  : Yields ActionResponse.parse fun bs x =>
    Body.originator (.actionResponse x) = some (idAt bs 0) ∧ Body.recipient (.actionResponse x) = some (idAt bs 6) := by
  unfold ActionResponse.parse; two_ids
theorem ids_dataQuery  : Yields DataQuery.parse fun bs x =>
    Body.originator (.dataQuery x) = some (idAt bs 0) ∧ Body.recipient (.dataQuery x) = some (idAt bs 6) := by
  unfold DataQuery.parse; two_ids
theorem ids_setData  : Yields SetData.parse fun bs x =>
    Body.originator (.setData x) = some (idAt bs 0) ∧ Body.recipient (.setData x) = some (idAt bs 6) := by
  unfold SetData.parse; two_ids
theorem ids_data  : Yields Data.parse fun bs x =>
    Body.originator (.data x) = some (idAt bs 0) ∧ Body.recipient (.data x) = some (idAt bs 6) := by
  unfold Data.parse; two_ids
theorem ids_eventReport  : Yields EventReport.parse fun bs x =>
    Body.originator (.eventReport x) = some (idAt bs 0) ∧ Body.recipient (.eventReport x) = some (idAt bs 6) := by
  unfold EventReport.parse; two_ids
theorem ids_comment  : Yields Comment.parse fun bs x =>
    Body.originator (.comment x) = some (idAt bs 0) ∧ Body.recipient (.comment x) = some (idAt bs 6) := by
  unfold Comment.parse; two_ids
theorem ids_transmitter (ch : Bool) (ver : UInt8) : Yields (Transmitter.parse ch ver) fun bs x =>
    Body.originator (.transmitter x) = some (idAt bs 0) ∧ Body.recipient (.transmitter x) = none := by
  unfold Transmitter.parse; one_id
theorem ids_signal  : Yields Signal.parse fun bs x =>
    Body.originator (.signal x) = some (idAt bs 0) ∧ Body.recipient (.signal x) = none := by
  unfold Signal.parse; one_id
theorem ids_iff (env : Env) : Yields (Iff.parse env) fun bs x =>
    Body.originator (.iff x) = some (idAt bs 0) ∧ Body.recipient (.iff x) = none := by
  unfold Iff.parse; one_id
theorem ids_underwaterAcoustic  : Yields UnderwaterAcoustic.parse fun bs x =>
    Body.originator (.underwaterAcoustic x) = some (idAt bs 0) ∧ Body.recipient (.underwaterAcoustic x) = none := by
  unfold UnderwaterAcoustic.parse; one_id
theorem ids_sees  : Yields SEES.parse fun bs x =>
    Body.originator (.sees x) = some (idAt bs 0) ∧ Body.recipient (.sees x) = none := by
  unfold SEES.parse; one_id
theorem ids_isGroupOf (env : Env) : Yields (IsGroupOf.parse env) fun bs x =>
    Body.originator (.isGroupOf x) = some (idAt bs 0) ∧ Body.recipient (.isGroupOf x) = none := by
  unfold IsGroupOf.parse; one_id
theorem ids_transferOwnership (ch : Bool) : Yields (TransferOwnership.parse ch) fun bs x =>
    Body.originator (.transferOwnership x) = some (idAt bs 0) ∧ Body.recipient (.transferOwnership x) = some (idAt bs 6) := by
  unfold TransferOwnership.parse; two_ids
theorem ids_isPartOf  : Yields IsPartOf.parse fun bs x =>
    Body.originator (.isPartOf x) = some (idAt bs 0) ∧ Body.recipient (.isPartOf x) = some (idAt bs 6) := by
  unfold IsPartOf.parse; two_ids
theorem ids_createEntityR  : Yields CreateEntityR.parse fun bs x =>
    Body.originator (.createEntityR x) = some (idAt bs 0) ∧ Body.recipient (.createEntityR x) = some (idAt bs 6) := by
  unfold CreateEntityR.parse; two_ids
theorem ids_removeEntityR  : Yields RemoveEntityR.parse fun bs x =>
    Body.originator (.removeEntityR x) = some (idAt bs 0) ∧ Body.recipient (.removeEntityR x) = some (idAt bs 6) := by
  unfold RemoveEntityR.parse; two_ids
theorem ids_startResumeR  : Yields StartResumeR.parse fun bs x =>
    Body.originator (.startResumeR x) = some (idAt bs 0) ∧ Body.recipient (.startResumeR x) = some (idAt bs 6) := by
  unfold StartResumeR.parse; two_ids
theorem ids_stopFreezeR  : Yields StopFreezeR.parse fun bs x =>
    Body.originator (.stopFreezeR x) = some (idAt bs 0) ∧ Body.recipient (.stopFreezeR x) = some (idAt bs 6) := by
  unfold StopFreezeR.parse; two_ids
theorem ids_acknowledgeR  : Yields AcknowledgeR.parse fun bs x =>
    Body.originator (.acknowledgeR x) = some (idAt bs 0) ∧ Body.recipient (.acknowledgeR x) = some (idAt bs 6) := by
  unfold AcknowledgeR.parse; two_ids
theorem ids_actionRequestR  : Yields ActionRequestR.parse fun bs x =>
    Body.originator (.actionRequestR x) = some (idAt bs 0) ∧ Body.recipient (.actionRequestR x) = some (idAt bs 6) := by
  unfold ActionRequestR.parse; two_ids
theorem ids_actionResponseR57  : Yields ActionResponseR.parse fun bs x =>
    Body.originator (.actionResponse x.asActionResponse) = some (idAt bs 0) ∧ Body.recipient (.actionResponse x.asActionResponse) = some (idAt bs 6) := by
  unfold ActionResponseR.parse; two_ids
theorem ids_dataQueryR  : Yields DataQueryR.parse fun bs x =>
    Body.originator (.dataQueryR x) = some (idAt bs 0) ∧ Body.recipient (.dataQueryR x) = some (idAt bs 6) := by
  unfold DataQueryR.parse; two_ids
theorem ids_setDataR  : Yields SetDataR.parse fun bs x =>
    Body.originator (.setDataR x) = some (idAt bs 0) ∧ Body.recipient (.setDataR x) = some (idAt bs 6) := by
  unfold SetDataR.parse; two_ids
theorem ids_dataR  : Yields DataR.parse fun bs x =>
    Body.originator (.dataR x) = some (idAt bs 0) ∧ Body.recipient (.dataR x) = some (idAt bs 6) := by
  unfold DataR.parse; two_ids
theorem ids_eventReportR  : Yields EventReportR.parse fun bs x =>
    Body.originator (.eventReportR x) = some (idAt bs 0) ∧ Body.recipient (.eventReportR x) = some (idAt bs 6) := by
  unfold EventReportR.parse; two_ids
theorem ids_commentR  : Yields CommentR.parse fun bs x =>
    Body.originator (.commentR x) = some (idAt bs 0) ∧ Body.recipient (.commentR x) = some (idAt bs 6) := by
  unfold CommentR.parse; two_ids
theorem ids_recordR (ch : Bool) : Yields (RecordR.parse ch) fun bs x =>
    Body.originator (.recordR x) = some (idAt bs 0) ∧ Body.recipient (.recordR x) = some (idAt bs 6) := by
  unfold RecordR.parse; two_ids
theorem ids_setRecordR (ch : Bool) : Yields (SetRecordR.parse ch) fun bs x =>
    Body.originator (.setRecordR x) = some (idAt bs 0) ∧ Body.recipient (.setRecordR x) = some (idAt bs 6) := by
  unfold SetRecordR.parse; two_ids
theorem ids_recordQueryR  : Yields RecordQueryR.parse fun bs x =>
    Body.originator (.recordQueryR x) = some (idAt bs 0) ∧ Body.recipient (.recordQueryR x) = some (idAt bs 6) := by
  unfold RecordQueryR.parse; two_ids
theorem ids_collisionElastic  : Yields CollisionElastic.parse fun bs x =>
    Body.originator (.collisionElastic x) = some (idAt bs 0) ∧ Body.recipient (.collisionElastic x) = some (idAt bs 6) := by
  unfold CollisionElastic.parse; two_ids
theorem ids_entityStateUpdate  : Yields EntityStateUpdate.parse fun bs x =>
    Body.originator (.entityStateUpdate x) = some (idAt bs 0) ∧ Body.recipient (.entityStateUpdate x) = none := by
  unfold EntityStateUpdate.parse; one_id

theorem ids_designator : Yields Designator.parse fun bs x =>
    Body.originator (.designator x) = some (idAt bs 0) ∧ Body.recipient (.designator x) = some (idAt bs 8) := by
  unfold Designator.parse
  refine Yields.id fun a => ?_
  simp only [idAt_ser, idAt_skip (length_id a) _ 2]
  refine Yields.bind Rd.spec fun c w hc => Yields.id fun b => ?_
  simp only [show ∀ l, idAt (c ++ l) 2 = idAt l 0 from fun l => idAt_skip (k := 2) (by rw [hc]; rfl) l 0, idAt_ser]
  yield_rest
theorem ids_receiver : Yields Receiver.parse fun bs x =>
    Body.originator (.receiver x) = some (idAt bs 16) ∧ Body.recipient (.receiver x) = some (idAt bs 0) := by
  unfold Receiver.parse
  refine Yields.id fun a => ?_
  simp only [idAt_ser, idAt_skip (length_id a) _ 10]
  refine Yields.bind Rd.spec fun c _ hc => ?_
  simp only [idAt_skip (show c.length = 2 by rw [hc]; rfl) _ 8]
  refine Yields.bind Rd.spec fun c _ hc => ?_
  simp only [idAt_skip (show c.length = 2 by rw [hc]; rfl) _ 6]
  refine Yields.bind Rd.spec fun c _ hc => ?_
  simp only [idAt_skip (show c.length = 2 by rw [hc]; rfl) _ 4]
  refine Yields.bind Rd.spec fun c _ hc => ?_
  simp only [idAt_skip (show c.length = 4 by rw [hc]; rfl) _ 0]
  refine Yields.id fun b => ?_
  simp only [idAt_ser]
  yield_rest

theorem Yields.count {α β : Type} {p : P UInt8 α} {f : List α → P UInt8 β} {n : Nat} {Q : Bytes → α → Prop} {S : Bytes → β → Prop}
    (hp : Yields p Q) (h0 : n = 0 → Yields (f []) S) (h1 : n ≠ 0 → ∀ bs a l, Q bs a → Yields (f (a :: l)) fun _ x => S bs x) :
    Yields (P.count p n >>= f) S := by
  intro bs x r e
  obtain ⟨l, mid, e1, e2⟩ := bind_ok e
  cases n with
  | zero =>
    unfold P.count at e1
    simp only [P.run_pure, Res.ok.injEq] at e1
    obtain ⟨rfl, rfl⟩ := e1
    exact h0 rfl _ _ _ e2
  | succ n =>
    unfold P.count at e1
    obtain ⟨a, m1, e3, e4⟩ := bind_ok e1
    obtain ⟨as, m2, e5, e6⟩ := bind_ok e4
    simp only [P.run_pure, Res.ok.injEq] at e6
    obtain ⟨rfl, rfl⟩ := e6
    exact h1 (by omega) bs a as (hp _ _ _ e3) _ _ _ e2
theorem ids_track : Yields TrackJam.parse fun bs x => x.entity_id = idAt bs 0 := by
  unfold TrackJam.parse
  refine Yields.id fun a => ?_
  simp only [idAt_ser]
  exact Yields.skip fun _ => Yields.skip fun _ => Yields.pure rfl

/-- the first track of a beam, when its reader is at the beam -/
theorem ids_beam : Yields Beam.parse fun bs x =>
    x.track_jam_data.head?.map TrackJam.entity_id = if octetAt bs 45 = 0 then none else some (idAt bs 52) := by
  unfold Beam.parse
  refine Yields.bind Rd.spec fun c _ hc => ?_
  simp only [idAt_skip (show c.length = 1 by rw [hc]; rfl) _ 51, octetAt_skip (show c.length = 1 by rw [hc]; rfl) _ 44]
  refine Yields.bind Rd.spec fun c _ hc => ?_
  simp only [idAt_skip (show c.length = 1 by rw [hc]; rfl) _ 50, octetAt_skip (show c.length = 1 by rw [hc]; rfl) _ 43]
  refine Yields.bind Rd.spec fun c _ hc => ?_
  simp only [idAt_skip (show c.length = 2 by rw [hc]; rfl) _ 48, octetAt_skip (show c.length = 2 by rw [hc]; rfl) _ 41]
  refine Yields.bind Rd.spec fun c _ hc => ?_
  simp only [idAt_skip (show c.length = 20 by rw [← hc.length]; rfl) _ 28, octetAt_skip (show c.length = 20 by rw [← hc.length]; rfl) _ 21]
  refine Yields.bind Rd.spec fun c _ hc => ?_
  simp only [idAt_skip (show c.length = 20 by rw [← hc.length]; rfl) _ 8, octetAt_skip (show c.length = 20 by rw [← hc.length]; rfl) _ 1]
  refine Yields.bind Rd.spec fun c _ hc => ?_
  simp only [idAt_skip (show c.length = 1 by rw [hc]; rfl) _ 7, octetAt_skip (show c.length = 1 by rw [hc]; rfl) _ 0]
  refine Yields.bind Rd.spec fun c n hc => ?_
  simp only [idAt_skip (show c.length = 1 by rw [hc]; rfl) _ 6]
  simp only [show ∀ l, octetAt (c ++ l) 0 = n.toNat from fun l => by rw [hc]; rfl]
  refine Yields.bind Rd.spec fun c _ hc => ?_
  simp only [idAt_skip (show c.length = 1 by rw [hc]; rfl) _ 5]
  refine Yields.bind Rd.spec fun c _ hc => ?_
  simp only [idAt_skip (show c.length = 1 by rw [hc]; rfl) _ 4]
  refine Yields.bind Rd.spec fun c _ hc => ?_
  simp only [idAt_skip (show c.length = 4 by rw [← hc.length]; rfl) _ 0]
  refine Yields.count ids_track (fun hn => ?_) fun hn cs t l ht => ?_
  · intro bs x r e
    simp only [P.run_pure, Res.ok.injEq] at e
    rw [← e.1]
    simp [hn]
  · exact Yields.pure (by simp [hn, ht])

/-- the first track of the first beam of an emitter system, when the reader is at the system -/
theorem ids_system : Yields EmitterSystem.parse fun bs x =>
    (x.beams.head?.bind fun b => b.track_jam_data.head?.map TrackJam.entity_id) =
      if octetAt bs 1 = 0 ∨ octetAt bs 65 = 0 then none else some (idAt bs 72) := by
  unfold EmitterSystem.parse
  refine Yields.bind Rd.spec fun c _ hc => ?_
  simp only [idAt_skip (show c.length = 1 by rw [hc]; rfl) _ 71, octetAt_skip (show c.length = 1 by rw [hc]; rfl) _ 64,
    octetAt_skip (show c.length = 1 by rw [hc]; rfl) _ 0]
  refine Yields.bind Rd.spec fun c n hc => ?_
  simp only [idAt_skip (show c.length = 1 by rw [hc]; rfl) _ 70, octetAt_skip (show c.length = 1 by rw [hc]; rfl) _ 63,
    show ∀ l, octetAt (c ++ l) 0 = n.toNat from fun l => by rw [hc]; rfl]
  refine Yields.bind Rd.spec fun c _ hc => ?_
  simp only [idAt_skip (show c.length = 2 by rw [hc]; rfl) _ 68, octetAt_skip (show c.length = 2 by rw [hc]; rfl) _ 61]
  refine Yields.bind Rd.spec fun c _ hc => ?_
  simp only [idAt_skip (show c.length = 2 by rw [hc]; rfl) _ 66, octetAt_skip (show c.length = 2 by rw [hc]; rfl) _ 59]
  refine Yields.bind Rd.spec fun c _ hc => ?_
  simp only [idAt_skip (show c.length = 1 by rw [hc]; rfl) _ 65, octetAt_skip (show c.length = 1 by rw [hc]; rfl) _ 58]
  refine Yields.bind Rd.spec fun c _ hc => ?_
  simp only [idAt_skip (show c.length = 1 by rw [hc]; rfl) _ 64, octetAt_skip (show c.length = 1 by rw [hc]; rfl) _ 57]
  refine Yields.bind Rd.spec fun c _ hc => ?_
  simp only [idAt_skip (show c.length = 12 by rw [← hc.length]; rfl) _ 52, octetAt_skip (show c.length = 12 by rw [← hc.length]; rfl) _ 45]
  refine Yields.count ids_beam (fun hn => ?_) fun hn cs t l ht => ?_
  · intro bs x r e
    simp only [P.run_pure, Res.ok.injEq] at e
    rw [← e.1]
    simp [hn]
  · exact Yields.pure (by simp [hn, ht])

/-- an Electromagnetic Emission body -/
theorem ids_emission : Yields ElectromagneticEmission.parse fun bs x =>
    Body.originator (.electromagneticEmission x) = some (idAt bs 0) ∧ Body.recipient (.electromagneticEmission x) =
      if octetAt bs 13 = 0 ∨ octetAt bs 17 = 0 ∨ octetAt bs 81 = 0 then none else some (idAt bs 88) := by
  unfold ElectromagneticEmission.parse
  refine Yields.id fun a => ?_
  simp only [idAt_ser, idAt_skip (length_id a) _ 82, octetAt_skip (length_id a) _ 7, octetAt_skip (length_id a) _ 11, octetAt_skip (length_id a) _ 75]
  refine Yields.bind Rd.spec fun c _ hc => ?_
  have hl : c.length = 6 := by rw [← hc.length]; rfl
  simp only [idAt_skip hl _ 76, octetAt_skip hl _ 1, octetAt_skip hl _ 5, octetAt_skip hl _ 69]
  refine Yields.bind Rd.spec fun c _ hc => ?_
  have hl : c.length = 1 := by rw [hc]; rfl
  simp only [idAt_skip hl _ 75, octetAt_skip hl _ 0, octetAt_skip hl _ 4, octetAt_skip hl _ 68]
  refine Yields.bind Rd.spec fun c n hc => ?_
  have hl : c.length = 1 := by rw [hc]; rfl
  simp only [idAt_skip hl _ 74, octetAt_skip hl _ 3, octetAt_skip hl _ 67, show ∀ l, octetAt (c ++ l) 0 = n.toNat from fun l => by rw [hc]; rfl]
  refine Yields.bind Rd.spec fun c _ hc => ?_
  have hl : c.length = 2 := by rw [hc]; rfl
  simp only [idAt_skip hl _ 72, octetAt_skip hl _ 1, octetAt_skip hl _ 65]
  have key : ∀ x : ElectromagneticEmission, x.receiver =
      x.emitter_systems.head?.bind fun s => s.beams.head?.bind fun b => b.track_jam_data.head?.map TrackJam.entity_id := by
    rintro ⟨a, b, c, _ | ⟨⟨_, _, _, _, _ | ⟨⟨_, _, _, _, _, _, _, _, _ | ⟨_, _⟩⟩, _⟩⟩, _⟩⟩ <;> rfl
  simp only [Body.recipient, key]
  refine Yields.count ids_system (fun hn => ?_) fun hn cs t l ht => ?_
  · intro bs x r e
    simp only [P.run_pure, Res.ok.injEq] at e
    rw [← e.1]
    simp [hn, Body.originator]
  · exact Yields.pure ⟨rfl, by simp [hn, ht]⟩


theorem Yields.ite {α : Type} {c : Prop} [Decidable c] {p q : P UInt8 α} {S : Bytes → α → Prop} (hp : c → Yields p S) (hq : ¬ c → Yields q S) :
    Yields (if c then p else q) S := by
  split
  · exact hp ‹_›
  · exact hq ‹_›
theorem Yields.map {α β : Type} {p : P UInt8 α} {f : α → β} {Q : Bytes → α → Prop} {S : Bytes → β → Prop} (hp : Yields p Q)
    (h : ∀ bs a, Q bs a → S bs (f a)) : Yields (p >>= fun a => Pure.pure (f a)) S := by
  intro bs x r e
  obtain ⟨a, mid, e1, e2⟩ := bind_ok e
  simp only [P.run_pure, Res.ok.injEq] at e2
  exact e2.1 ▸ h _ _ (hp _ _ _ e1)

/-- what the code reports, with positions counted from the end of the header -/
def sources (t : UInt8) (bs : Bytes) : Option EntityId × Option EntityId :=
  if t = 33 then (none, none)
  else if t = 27 then (some (idAt bs 16), some (idAt bs 0))
  else if t = 24 then (some (idAt bs 0), some (idAt bs 8))
  else if t = 23 then (some (idAt bs 0), if octetAt bs 13 = 0 ∨ octetAt bs 17 = 0 ∨ octetAt bs 81 = 0 then none else some (idAt bs 88))
  else if t = 9 ∨ t = 10 then (some (idAt bs 6), some (idAt bs 0))
  else if t = 6 ∨ t ∈ firstIssues then (some (idAt bs 0), some (idAt bs 6))
  else if t ∈ broadcast then (some (idAt bs 0), none)
  else (none, none)
theorem says_of {t : UInt8} {bs : Bytes} {b : Body} {p q : Option EntityId} (h1 : b.originator = p) (h2 : b.recipient = q)
    (h : sources t bs = (p, q) := by rfl) : (b.originator, b.recipient) = sources t bs := by rw [h1, h2, h]

theorem ids_body (env : Env) (h : PduHeader) : Yields (parseBody env h) fun bs b => (b.originator, b.recipient) = sources h.pdu_type bs := by
  unfold parseBody
  refine Yields.ite (fun ht => ?_) fun h1 => ?_
  · rw [ht]; exact Yields.map (ids_entityState _ _) fun bs x hx => says_of hx.1 hx.2
  refine Yields.ite (fun ht => ?_) fun h2 => ?_
  · rw [ht]; exact Yields.map (ids_fire _) fun bs x hx => says_of hx.1 hx.2
  refine Yields.ite (fun ht => ?_) fun h3 => ?_
  · rw [ht]; exact Yields.map (ids_detonation _) fun bs x hx => says_of hx.1 hx.2
  refine Yields.ite (fun ht => ?_) fun h4 => ?_
  · rw [ht]; exact Yields.map (ids_collision) fun bs x hx => says_of hx.1 hx.2
  refine Yields.ite (fun ht => ?_) fun h5 => ?_
  · rw [ht]; exact Yields.map (ids_serviceRequest) fun bs x hx => says_of hx.1 hx.2
  refine Yields.ite (fun ht => ?_) fun h6 => ?_
  · rw [ht]; exact Yields.map (ids_resupplyOffer) fun bs x hx => says_of hx.1 hx.2
  refine Yields.ite (fun ht => ?_) fun h7 => ?_
  · rw [ht]; exact Yields.map (ids_resupplyReceived) fun bs x hx => says_of hx.1 hx.2
  refine Yields.ite (fun ht => ?_) fun h8 => ?_
  · rw [ht]; exact Yields.map (ids_resupplyCancel) fun bs x hx => says_of hx.1 hx.2
  refine Yields.ite (fun ht => ?_) fun h9 => ?_
  · rw [ht]; exact Yields.map (ids_repairComplete) fun bs x hx => says_of hx.1 hx.2
  refine Yields.ite (fun ht => ?_) fun h10 => ?_
  · rw [ht]; exact Yields.map (ids_repairResponse) fun bs x hx => says_of hx.1 hx.2
  refine Yields.ite (fun ht => ?_) fun h11 => ?_
  · rw [ht]; exact Yields.map (ids_createEntity) fun bs x hx => says_of hx.1 hx.2
  refine Yields.ite (fun ht => ?_) fun h12 => ?_
  · rw [ht]; exact Yields.map (ids_removeEntity) fun bs x hx => says_of hx.1 hx.2
  refine Yields.ite (fun ht => ?_) fun h13 => ?_
  · rw [ht]; exact Yields.map (ids_startResume) fun bs x hx => says_of hx.1 hx.2
  refine Yields.ite (fun ht => ?_) fun h14 => ?_
  · rw [ht]; exact Yields.map (ids_stopFreeze) fun bs x hx => says_of hx.1 hx.2
  refine Yields.ite (fun ht => ?_) fun h15 => ?_
  · rw [ht]; exact Yields.map (ids_acknowledge) fun bs x hx => says_of hx.1 hx.2
  refine Yields.ite (fun ht => ?_) fun h16 => ?_
  · rw [ht]; exact Yields.map (ids_actionRequest) fun bs x hx => says_of hx.1 hx.2
  refine Yields.ite (fun ht => ?_) fun h17 => ?_
  · rw [ht]; exact Yields.map (ids_actionResponse) fun bs x hx => says_of hx.1 hx.2
  refine Yields.ite (fun ht => ?_) fun h18 => ?_
  · rw [ht]; exact Yields.map (ids_dataQuery) fun bs x hx => says_of hx.1 hx.2
  refine Yields.ite (fun ht => ?_) fun h19 => ?_
  · rw [ht]; exact Yields.map (ids_setData) fun bs x hx => says_of hx.1 hx.2
  refine Yields.ite (fun ht => ?_) fun h20 => ?_
  · rw [ht]; exact Yields.map (ids_data) fun bs x hx => says_of hx.1 hx.2
  refine Yields.ite (fun ht => ?_) fun h21 => ?_
  · rw [ht]; exact Yields.map (ids_eventReport) fun bs x hx => says_of hx.1 hx.2
  refine Yields.ite (fun ht => ?_) fun h22 => ?_
  · rw [ht]; exact Yields.map (ids_comment) fun bs x hx => says_of hx.1 hx.2
  refine Yields.ite (fun ht => ?_) fun h23 => ?_
  · rw [ht]; exact Yields.map (ids_emission) fun bs x hx => says_of hx.1 hx.2
  refine Yields.ite (fun ht => ?_) fun h24 => ?_
  · rw [ht]; exact Yields.map (ids_designator) fun bs x hx => says_of hx.1 hx.2
  refine Yields.ite (fun ht => ?_) fun h25 => ?_
  · rw [ht]; exact Yields.map (ids_transmitter _ _) fun bs x hx => says_of hx.1 hx.2
  refine Yields.ite (fun ht => ?_) fun h26 => ?_
  · rw [ht]; exact Yields.map (ids_signal) fun bs x hx => says_of hx.1 hx.2
  refine Yields.ite (fun ht => ?_) fun h27 => ?_
  · rw [ht]; exact Yields.map (ids_receiver) fun bs x hx => says_of hx.1 hx.2
  refine Yields.ite (fun ht => ?_) fun h28 => ?_
  · rw [ht]; exact Yields.map (ids_iff _) fun bs x hx => says_of hx.1 hx.2
  refine Yields.ite (fun ht => ?_) fun h29 => ?_
  · rw [ht]; exact Yields.map (ids_underwaterAcoustic) fun bs x hx => says_of hx.1 hx.2
  refine Yields.ite (fun ht => ?_) fun h30 => ?_
  · rw [ht]; exact Yields.map (ids_sees) fun bs x hx => says_of hx.1 hx.2
  refine Yields.ite (fun ht => ?_) fun h33 => ?_
  · rw [ht]; exact Yields.map (Q := fun _ _ => True) (fun _ _ _ _ => trivial) fun bs x _ => says_of rfl rfl
  refine Yields.ite (fun ht => ?_) fun h34 => ?_
  · rw [ht]; exact Yields.map (ids_isGroupOf _) fun bs x hx => says_of hx.1 hx.2
  refine Yields.ite (fun ht => ?_) fun h35 => ?_
  · rw [ht]; exact Yields.map (ids_transferOwnership _) fun bs x hx => says_of hx.1 hx.2
  refine Yields.ite (fun ht => ?_) fun h36 => ?_
  · rw [ht]; exact Yields.map (ids_isPartOf) fun bs x hx => says_of hx.1 hx.2
  refine Yields.ite (fun ht => ?_) fun h51 => ?_
  · rw [ht]; exact Yields.map (ids_createEntityR) fun bs x hx => says_of hx.1 hx.2
  refine Yields.ite (fun ht => ?_) fun h52 => ?_
  · rw [ht]; exact Yields.map (ids_removeEntityR) fun bs x hx => says_of hx.1 hx.2
  refine Yields.ite (fun ht => ?_) fun h53 => ?_
  · rw [ht]; exact Yields.map (ids_startResumeR) fun bs x hx => says_of hx.1 hx.2
  refine Yields.ite (fun ht => ?_) fun h54 => ?_
  · rw [ht]; exact Yields.map (ids_stopFreezeR) fun bs x hx => says_of hx.1 hx.2
  refine Yields.ite (fun ht => ?_) fun h55 => ?_
  · rw [ht]; exact Yields.map (ids_acknowledgeR) fun bs x hx => says_of hx.1 hx.2
  refine Yields.ite (fun ht => ?_) fun h56 => ?_
  · rw [ht]; exact Yields.map (ids_actionRequestR) fun bs x hx => says_of hx.1 hx.2
  refine Yields.ite (fun ht => ?_) fun h57 => ?_
  · rw [ht]; exact Yields.map (ids_actionResponseR57) fun bs x hx => says_of hx.1 hx.2
  refine Yields.ite (fun ht => ?_) fun h58 => ?_
  · rw [ht]; exact Yields.map (ids_dataQueryR) fun bs x hx => says_of hx.1 hx.2
  refine Yields.ite (fun ht => ?_) fun h59 => ?_
  · rw [ht]; exact Yields.map (ids_setDataR) fun bs x hx => says_of hx.1 hx.2
  refine Yields.ite (fun ht => ?_) fun h60 => ?_
  · rw [ht]; exact Yields.map (ids_dataR) fun bs x hx => says_of hx.1 hx.2
  refine Yields.ite (fun ht => ?_) fun h61 => ?_
  · rw [ht]; exact Yields.map (ids_eventReportR) fun bs x hx => says_of hx.1 hx.2
  refine Yields.ite (fun ht => ?_) fun h62 => ?_
  · rw [ht]; exact Yields.map (ids_commentR) fun bs x hx => says_of hx.1 hx.2
  refine Yields.ite (fun ht => ?_) fun h63 => ?_
  · rw [ht]; exact Yields.map (ids_recordR _) fun bs x hx => says_of hx.1 hx.2
  refine Yields.ite (fun ht => ?_) fun h64 => ?_
  · rw [ht]; exact Yields.map (ids_setRecordR _) fun bs x hx => says_of hx.1 hx.2
  refine Yields.ite (fun ht => ?_) fun h65 => ?_
  · rw [ht]; exact Yields.map (ids_recordQueryR) fun bs x hx => says_of hx.1 hx.2
  refine Yields.ite (fun ht => ?_) fun h66 => ?_
  · rw [ht]; exact Yields.map (ids_collisionElastic) fun bs x hx => says_of hx.1 hx.2
  refine Yields.ite (fun ht => ?_) fun h67 => ?_
  · rw [ht]; exact Yields.map (ids_entityStateUpdate) fun bs x hx => says_of hx.1 hx.2
  refine Yields.ite (fun ht => ?_) fun h72 => ?_
  · rw [ht]; exact Yields.map (Q := fun _ _ => True) (fun _ _ _ _ => trivial) fun bs x _ => says_of rfl rfl
  have hs : ∀ bs, sources h.pdu_type bs = (none, none) := by
    intro bs
    simp only [sources, firstIssues, broadcast, List.mem_cons, List.not_mem_nil, or_false, *, if_false]
  simp only [hs]
  unfold Other.parse
  refine Yields.map (Q := fun _ x => x.originating_entity_id = none ∧ x.receiving_entity_id = none) ?_ fun bs x hx => ?_
  · exact Yields.skip fun _ => Yields.pure ⟨rfl, rfl⟩
  · exact Prod.ext hx.1 hx.2

theorem ids_pdu {env : Env} {bs r : Bytes} {p : Pdu} (h : (pdu env).run bs = .ok p r) :
    ∃ hd mid, bs = hd ++ mid ∧ hd.length = 12 ∧ (p.body.originator, p.body.recipient) = sources p.header.pdu_type mid := by
  obtain ⟨mid, h1, h2⟩ := pdu_split h
  obtain ⟨hd, h3, -⟩ := Stable.spec _ _ _ h1
  have hl := PduHeader.parse_exact.spec _ _ _ h1
  refine ⟨hd, mid, h3, ?_, ids_body env _ _ _ _ h2⟩
  rw [h3, List.length_append] at hl
  omega

/-! ## C58 -/

/-- **C58.** Reading: for every octet string a PDU is read from, and every PDU type except Resupply Offer, Repair Response, Receiver and
Aggregate State, `originator()` is the identifier of the issuer of the PDU, and `receiver()` the identifier of its addressee, as they
stand in the octets; both are absent for the types that carry none (and for the types the library does not know). -/
theorem C58_read_partial {env : Env} {bs r : Bytes} {p : Pdu} (h : (pdu env).run bs = .ok p r)
    (ht : p.header.pdu_type ∉ ([6, 10, 27, 33] : List UInt8)) :
    p.body.originator = (issuerOctet p.header.pdu_type).map (idAt bs) ∧
    p.body.recipient = if p.header.pdu_type = 23 then firstTrack bs else (addresseeOctet p.header.pdu_type).map (idAt bs) := by
  obtain ⟨hd, mid, rfl, hl, hs⟩ := ids_pdu h
  generalize p.header.pdu_type = t at *
  have h1 := congrArg Prod.fst hs
  have h2 := congrArg Prod.snd hs
  simp only at h1 h2
  rw [h1, h2]
  clear hs h1 h2 h
  have e1 := idAt_skip hl mid 0
  have e2 := idAt_skip hl mid 6
  have e3 := idAt_skip hl mid 8
  have e4 := idAt_skip hl mid 88
  have o1 := octetAt_skip hl mid 13
  have o2 := octetAt_skip hl mid 17
  have o3 := octetAt_skip hl mid 81
  simp only [Nat.reduceAdd] at e1 e2 e3 e4 o1 o2 o3
  simp only [List.mem_cons, List.not_mem_nil, or_false, not_or] at ht
  obtain ⟨t1, t2, t3, t4⟩ := ht
  simp only [sources, issuerOctet, addresseeOctet, firstTrack, secondIssues, t1, t2, t3, t4, if_false, false_or, or_false, List.mem_cons, List.not_mem_nil]
  by_cases c24 : t = 24
  · subst c24; simp [firstIssues, broadcast, e1, e3]
  by_cases c23 : t = 23
  · subst c23; simp [firstIssues, broadcast, e1, e4, o1, o2, o3]
  by_cases c9 : t = 9
  · subst c9; simp [firstIssues, broadcast, e1, e2]
  by_cases cf : t ∈ firstIssues
  · simp [c24, c23, c9, cf, e1, e2]
  by_cases cb : t ∈ broadcast
  · simp [c24, c23, c9, cf, cb, e1, e2]
  · simp [c24, c23, c9, cf, cb]

example : ∃ p r, (pdu sampleEnv).run (Pdu.ser ⟨sampleFor 2, .fire sample_fire⟩ ++ [1, 2, 3]) = .ok p r ∧
    p.header.pdu_type ∉ ([6, 10, 27, 33] : List UInt8) ∧ p.body.originator = some sample_fire.firing_entity_id ∧
    p.body.originator ≠ p.body.recipient :=
  ⟨_, _, pdu_ser (env := sampleEnv) (p := ⟨sampleFor 2, .fire sample_fire⟩) ⟨sampleFor_wf 2, ⟨rfl, by decide +kernel⟩⟩ _, by decide, rfl, by decide⟩

/-- **C58.** Writing: whatever a PDU that fits its format reports as its originator and receiver is what stands in the octets written. -/
theorem C58_written_partial {env : Env} {h : PduHeader} {b : Body} (hp : Pdu.Wf env ⟨h, b⟩)
    (ht : h.pdu_type ∉ ([6, 10, 27, 33] : List UInt8)) :
    b.originator = (issuerOctet h.pdu_type).map (idAt (Pdu.ser ⟨h, b⟩)) ∧
    b.recipient = if h.pdu_type = 23 then firstTrack (Pdu.ser ⟨h, b⟩) else (addresseeOctet h.pdu_type).map (idAt (Pdu.ser ⟨h, b⟩)) := by
  have := pdu_ser hp []
  rw [List.append_nil] at this
  exact C58_read_partial this ht

/-- **C58**, violated for Resupply Offer and Repair Response, whatever the octets: the offering supplier, and the entity that confirms a
repair, are reported as the receiver, and the entity they address as the originator. -/
theorem C58_swapped_violated {env : Env} {bs r : Bytes} {p : Pdu} (h : (pdu env).run bs = .ok p r)
    (ht : p.header.pdu_type = 6 ∨ p.header.pdu_type = 10) :
    p.body.originator = (addresseeOctet p.header.pdu_type).map (idAt bs) ∧
    p.body.recipient = (issuerOctet p.header.pdu_type).map (idAt bs) := by
  obtain ⟨hd, mid, rfl, hl, hs⟩ := ids_pdu h
  have h1 := congrArg Prod.fst hs
  have h2 := congrArg Prod.snd hs
  have e1 := idAt_skip hl mid 0
  have e2 := idAt_skip hl mid 6
  simp only [Nat.reduceAdd] at e1 e2
  simp only at h1 h2
  rw [h1, h2]
  rcases ht with ht | ht <;> rw [ht] <;> constructor
  · exact congrArg some e1.symm
  · exact congrArg some e2.symm
  · exact congrArg some e2.symm
  · exact congrArg some e1.symm
/-- **C58**, violated for Receiver PDUs, whatever the octets: they are issued by the radio at octets 12 to 17; the transmitter it listens
to is reported as the originator, and the issuer as the receiver. -/
theorem C58_receiver_violated {env : Env} {bs r : Bytes} {p : Pdu} (h : (pdu env).run bs = .ok p r) (ht : p.header.pdu_type = 27) :
    p.body.originator = some (idAt bs 28) ∧ p.body.recipient = some (idAt bs 12) := by
  obtain ⟨hd, mid, rfl, hl, hs⟩ := ids_pdu h
  have h1 := congrArg Prod.fst hs
  have h2 := congrArg Prod.snd hs
  have e1 := idAt_skip hl mid 0
  have e2 := idAt_skip hl mid 16
  simp only [Nat.reduceAdd] at e1 e2
  simp only at h1 h2
  rw [h1, h2, ht]
  exact ⟨congrArg some e2.symm, congrArg some e1.symm⟩
/-- **C58**, violated for Aggregate State PDUs, whatever the octets: no originator is reported, though octets 12 to 17 identify the
aggregate. -/
theorem C58_aggregate_violated {env : Env} {bs r : Bytes} {p : Pdu} (h : (pdu env).run bs = .ok p r) (ht : p.header.pdu_type = 33) :
    p.body.originator = none ∧ issuerOctet 33 = some 12 := by
  obtain ⟨hd, mid, rfl, hl, hs⟩ := ids_pdu h
  have h1 := congrArg Prod.fst hs
  simp only at h1
  rw [h1, ht]
  exact ⟨rfl, rfl⟩
/-- the four violations are not vacuous -/
example : ∃ p r, (pdu sampleEnv).run (Pdu.ser ⟨sampleFor 6, .resupplyOffer sample_resupplyOffer⟩) = .ok p r ∧ p.header.pdu_type = 6 :=
  ⟨_, _, by simpa using pdu_ser (env := sampleEnv) (p := ⟨sampleFor 6, .resupplyOffer sample_resupplyOffer⟩) ⟨sampleFor_wf 6, ⟨rfl, sample_resupplyOffer_ok⟩⟩ [], rfl⟩
example : ∃ p r, (pdu sampleEnv).run (Pdu.ser ⟨sampleFor 10, .repairResponse sample_repairResponse⟩) = .ok p r ∧ p.header.pdu_type = 10 :=
  ⟨_, _, by simpa using pdu_ser (env := sampleEnv) (p := ⟨sampleFor 10, .repairResponse sample_repairResponse⟩) ⟨sampleFor_wf 10, rfl⟩ [], rfl⟩
example : ∃ p r, (pdu sampleEnv).run (Pdu.ser ⟨sampleFor 27, .receiver sample_receiver⟩) = .ok p r ∧ p.header.pdu_type = 27 :=
  ⟨_, _, by simpa using pdu_ser (env := sampleEnv) (p := ⟨sampleFor 27, .receiver sample_receiver⟩) ⟨sampleFor_wf 27, rfl⟩ [], rfl⟩
example : ∃ p r, (pdu sampleEnv).run (Pdu.ser ⟨sampleFor 33, .aggregateState sample_aggregateState⟩) = .ok p r ∧ p.header.pdu_type = 33 :=
  ⟨_, _, by simpa using pdu_ser (env := sampleEnv) (p := ⟨sampleFor 33, .aggregateState sample_aggregateState⟩) ⟨sampleFor_wf 33, ⟨rfl, sample_aggregateState_ok⟩⟩ [], rfl⟩

/-- **C58.** Through the C-DIS gateway: a sequence of PDUs that C-DIS can carry comes out as a sequence with the same originators and
receivers, whatever the state of the encoder and the decoder. -/
theorem C58_through {env : Codec.Env} {o : Codec.Options} (o' : Codec.Options) {hist : List (Nat × Dis.Pdu)} (hn : hist ≠ [])
    (h : ∀ e ∈ hist, PduFits env o e.2) (s : Codec.EncState) (d : Codec.DecState) :
    ∃ out s', Codec.encStream env o s hist = some (out, s') ∧
      (Cdis.parsePackets env.toEnv (packBits (out.flatMap Cdis.CdisPdu.ser))).map (fun cs =>
          (Codec.decStream env o' d cs).1.map fun q => (q.body.originator, q.body.recipient)) =
        some (hist.map fun e => (e.2.body.originator, e.2.body.recipient)) := by
  obtain ⟨out, s', h1, h2⟩ := C57_packet o' hn h s d
  refine ⟨out, s', h1, ?_⟩
  have h3 := congrArg (Option.map (List.map fun q : Pdu => (q.body.originator, q.body.recipient))) h2
  rw [Option.map_map, Option.map_some, List.map_map] at h3
  refine Eq.trans h3 (congrArg some (List.map_congr_left fun e _ => ?_))
  simp only [Function.comp, received]
  cases e.2.body <;> rfl

/-- seventeen PDUs of all kinds -/
example (s : Codec.EncState) (d : Codec.DecState) := C58_through { update_mode := .partial } (hist := sent) (by simp [sent]) sent_fits s d

end Verif.Props
