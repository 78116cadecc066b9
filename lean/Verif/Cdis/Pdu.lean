import Verif.Cdis.Iff

/-! # C-DIS PDUs and packets (cdis-assemble/src/{lib,parsing,writing}.rs) -/

namespace Verif.Cdis
open Verif.P

/-- lib.rs:126-150 `CdisBody`.  Bodies with the same fields share a structure (see Siman.lean). -/
inductive CdisBody where
  | unsupported
  | entityState (b : EntityState)
  | fire (b : Fire)
  | detonation (b : Detonation)
  | collision (b : Collision)
  | createEntity (b : CreateRemove)
  | removeEntity (b : CreateRemove)
  | startResume (b : StartResume)
  | stopFreeze (b : StopFreeze)
  | acknowledge (b : Acknowledge)
  | actionRequest (b : Action)
  | actionResponse (b : Action)
  | dataQuery (b : DataQuery)
  | setData (b : DataBody)
  | data (b : DataBody)
  | eventReport (b : DataBody)
  | comment (b : Comment)
  | electromagneticEmission (b : ElectromagneticEmission)
  | designator (b : Designator)
  | transmitter (b : Transmitter)
  | signal (b : Signal)
  | receiver (b : Receiver)
  | iff (b : Iff)
  deriving Repr, DecidableEq

/-- writing.rs:34-65 -/
def CdisBody.ser : CdisBody → Bits
  | .unsupported => []
  | .entityState b => b.ser
  | .fire b => b.ser
  | .detonation b => b.ser
  | .collision b => b.ser
  | .createEntity b => b.ser
  | .removeEntity b => b.ser
  | .startResume b => b.ser
  | .stopFreeze b => b.ser
  | .acknowledge b => b.ser
  | .actionRequest b => b.ser
  | .actionResponse b => b.ser
  | .dataQuery b => b.ser
  | .setData b => b.ser
  | .data b => b.ser
  | .eventReport b => b.ser
  | .comment b => b.ser
  | .electromagneticEmission b => b.ser
  | .designator b => b.ser
  | .transmitter b => b.ser
  | .signal b => b.ser
  | .receiver b => b.ser
  | .iff b => b.ser

/-- lib.rs:153-179 `body_length` -/
def CdisBody.lenBits : CdisBody → Nat
  | .unsupported => 0
  | .entityState b => b.lenBits
  | .fire b => b.lenBits
  | .detonation b => b.lenBits
  | .collision b => b.lenBits
  | .createEntity b => b.lenBits
  | .removeEntity b => b.lenBits
  | .startResume b => b.lenBits
  | .stopFreeze b => b.lenBits
  | .acknowledge b => b.lenBits
  | .actionRequest b => b.lenBits
  | .actionResponse b => b.lenBits
  | .dataQuery b => b.lenBits
  | .setData b => b.lenBits
  | .data b => b.lenBits
  | .eventReport b => b.lenBits
  | .comment b => b.lenBits
  | .electromagneticEmission b => b.lenBits
  | .designator b => b.lenBits
  | .transmitter b => b.lenBits
  | .signal b => b.lenBits
  | .receiver b => b.lenBits
  | .iff b => b.lenBits

/-- A parser with its result wrapped. -/
def mapP {α β : Type} (f : α → β) (p : BitP α) : BitP β := do
  let x ← p
  pure (f x)
instance {α β : Type} (f : α → β) (p : BitP α) [P.Stable p] : P.Stable (mapP f p) := by unfold mapP; parser_ok
instance {α β : Type} (f : α → β) (p : BitP α) [P.Safe p] : P.Safe (mapP f p) := by unfold mapP; parser_ok
theorem mapP_run {α β : Type} (f : α → β) (p : BitP α) {b r : Bits} {x : α} (h : p.run b = .ok x r) :
    (mapP f p).run b = .ok (f x) r := by simp only [mapP, rt, h]

/-- parsing.rs:59-92 `cdis_body`: the PDU type of the header selects the parser; every other type gives an unsupported
body and consumes nothing. -/
def CdisBody.parse (env : Dis.Env) (type : Nat) : BitP CdisBody :=
  match type with
  | 1 => mapP .entityState EntityState.parse
  | 2 => mapP .fire Fire.parse
  | 3 => mapP .detonation Detonation.parse
  | 4 => mapP .collision Collision.parse
  | 11 => mapP .createEntity CreateRemove.parse
  | 12 => mapP .removeEntity CreateRemove.parse
  | 13 => mapP .startResume StartResume.parse
  | 14 => mapP .stopFreeze StopFreeze.parse
  | 15 => mapP .acknowledge Acknowledge.parse
  | 16 => mapP .actionRequest Action.parse
  | 17 => mapP .actionResponse Action.parse
  | 18 => mapP .dataQuery DataQuery.parse
  | 19 => mapP .setData DataBody.parse
  | 20 => mapP .data DataBody.parse
  | 21 => mapP .eventReport DataBody.parse
  | 22 => mapP .comment Comment.parse
  | 23 => mapP .electromagneticEmission ElectromagneticEmission.parse
  | 24 => mapP .designator Designator.parse
  | 25 => mapP .transmitter Transmitter.parse
  | 26 => mapP .signal Signal.parse
  | 27 => mapP .receiver Receiver.parse
  | 28 => mapP .iff (Iff.parse env)
  | _ => pure .unsupported

/-- lib.rs:260-287 `is_supported`, 295-329 `is_implemented` -/
def isSupported (type : Nat) : Bool := (1 ≤ type && type ≤ 4) || (11 ≤ type && type ≤ 28)

/-- The body fits its fields, and the header's PDU type selects its parser. -/
def CdisBody.Wf (env : Dis.Env) (type : Nat) : CdisBody → Prop
  | .unsupported => isSupported type = false
  | .entityState b => type = 1 ∧ b.Wf
  | .fire b => type = 2 ∧ b.Wf
  | .detonation b => type = 3 ∧ b.Wf
  | .collision b => type = 4 ∧ b.Wf
  | .createEntity b => type = 11 ∧ b.Wf
  | .removeEntity b => type = 12 ∧ b.Wf
  | .startResume b => type = 13 ∧ b.Wf
  | .stopFreeze b => type = 14 ∧ b.Wf
  | .acknowledge b => type = 15 ∧ b.Wf
  | .actionRequest b => type = 16 ∧ b.Wf
  | .actionResponse b => type = 17 ∧ b.Wf
  | .dataQuery b => type = 18 ∧ b.Wf
  | .setData b => type = 19 ∧ b.Wf
  | .data b => type = 20 ∧ b.Wf
  | .eventReport b => type = 21 ∧ b.Wf
  | .comment b => type = 22 ∧ b.Wf
  | .electromagneticEmission b => type = 23 ∧ b.Wf
  | .designator b => type = 24 ∧ b.Wf
  | .transmitter b => type = 25 ∧ b.Wf
  | .signal b => type = 26 ∧ b.Wf
  | .receiver b => type = 27 ∧ b.Wf
  | .iff b => type = 28 ∧ b.Wf env

/-- The body that arrives. -/
def CdisBody.wire : CdisBody → CdisBody
  | .entityState b => .entityState b.wire
  | .fire b => .fire b.wire
  | .detonation b => .detonation b.wire
  | .collision b => .collision b.wire
  | .electromagneticEmission b => .electromagneticEmission b.wire
  | .designator b => .designator b.wire
  | .transmitter b => .transmitter b.wire
  | .iff b => .iff b.wire
  | b => b

theorem CdisBody.parse_unsupported {env : Dis.Env} {t : Nat} (h : isSupported t = false) :
    CdisBody.parse env t = pure .unsupported := by
  unfold CdisBody.parse
  split <;> first | rfl | (exact absurd h (by decide))

theorem CdisBody.run {env : Dis.Env} {t : Nat} {b : CdisBody} (h : b.Wf env t) (r : Bits) :
    (CdisBody.parse env t).run (b.ser ++ r) = .ok b.wire r := by
  cases b
  case unsupported => rw [CdisBody.parse_unsupported h]; rfl
  all_goals
    obtain ⟨rfl, h⟩ := h
    apply mapP_run
  · exact EntityState.run h r
  · exact Fire.run h r
  · exact Detonation.run h r
  · exact Collision.run h r
  · exact CreateRemove.run h r
  · exact CreateRemove.run h r
  · exact StartResume.run h r
  · exact StopFreeze.run h r
  · exact Acknowledge.run h r
  · exact Action.run h r
  · exact Action.run h r
  · exact DataQuery.run h r
  · exact DataBody.run h r
  · exact DataBody.run h r
  · exact DataBody.run h r
  · exact Comment.run h r
  · exact ElectromagneticEmission.run h r
  · exact Designator.run h r
  · exact Transmitter.run h r
  · exact Signal.run h r
  · exact Receiver.run h r
  · exact Iff.run h r

instance (env : Dis.Env) (t : Nat) : P.Stable (CdisBody.parse env t) := by
  unfold CdisBody.parse
  split <;> infer_instance
instance (env : Dis.Env) (t : Nat) : P.Safe (CdisBody.parse env t) := by
  unfold CdisBody.parse
  split <;> infer_instance

/-- lib.rs:87-90 -/
structure CdisPdu where
  header : CdisHeader
  body : CdisBody
  deriving Repr, DecidableEq

/-- writing.rs:24-32 -/
def CdisPdu.ser (p : CdisPdu) : Bits := p.header.ser ++ p.body.ser
/-- parsing.rs:49-57 `cdis_pdu` -/
def CdisPdu.parse (env : Dis.Env) : BitP CdisPdu := do
  let header ← CdisHeader.parse
  let body ← CdisBody.parse env header.pdu_type
  pure ⟨header, body⟩
/-- lib.rs:108-111 `pdu_length` -/
def CdisPdu.lenBits (p : CdisPdu) : Nat := p.header.lenBits + p.body.lenBits
/-- lib.rs:93-105 `finalize_from_parts`; the cast to `u16` is `% 65536`. -/
def CdisPdu.finalize (h : CdisHeader) (b : CdisBody) (time : Option Nat) : CdisPdu :=
  { header := { h with timestamp := time.getD h.timestamp, length := (h.lenBits + b.lenBits) % 65536 }, body := b }
/-- The header fits, its PDU type is that of the body, and the body fits. -/
def CdisPdu.Wf (env : Dis.Env) (p : CdisPdu) : Prop := p.header.Wf ∧ p.body.Wf env p.header.pdu_type
/-- The PDU that arrives. -/
def CdisPdu.wire (p : CdisPdu) : CdisPdu := { p with body := p.body.wire }

theorem CdisPdu.run {env : Dis.Env} {p : CdisPdu} (h : p.Wf env) (r : Bits) :
    (CdisPdu.parse env).run (p.ser ++ r) = .ok p.wire r := by
  simp only [CdisPdu.parse, CdisPdu.ser, List.append_assoc, rt, CdisHeader.run h.1, CdisBody.run h.2, CdisPdu.wire]
instance (env : Dis.Env) : P.Stable (CdisPdu.parse env) := by unfold CdisPdu.parse; parser_ok
instance (env : Dis.Env) : P.Safe (CdisPdu.parse env) := by unfold CdisPdu.parse; parser_ok

/-- Octets as the bits the parser reads: the input `(bytes, 0)` (parsing.rs:41, 94), most significant bit first. -/
def bitsOf (bs : Bytes) : Bits := bs.flatMap fun b => wU 8 b.toNat

/-- parsing.rs:36-47 `parse`: `many1(cdis_pdu)`, the remaining input dropped. -/
def parseBits (env : Dis.Env) (bits : Bits) : Res Bool (List CdisPdu) := (P.many1 (CdisPdu.parse env)).run bits
def parsePackets (env : Dis.Env) (bs : Bytes) : Option (List CdisPdu) :=
  match parseBits env (bitsOf bs) with
  | .ok ps _ => some ps
  | _ => none

end Verif.Cdis
