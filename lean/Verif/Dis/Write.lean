import Verif.Dis.Pdu
import Verif.Dis.Utf8

/-!
# Writing a PDU, with the writers that may not come to an end

The writers of the two markings subtract the length of the text from the size of the field.  `Pdu.serialize` (Dis/Pdu.lean) is the writer
for texts that fit; here is what happens for the others.  A build without overflow checks is modelled: the subtraction wraps around, and
the loop then has about 2^64 octets to append.  (A build with overflow checks panics at the subtraction.)
File names in the comments are relative to dis-rs/src/common.
-/

namespace Verif.Dis

/-- aggregate_state/writer.rs:69 and entity_state/writer.rs:129: `width - len` of type `usize` -/
def numPad (width len : Nat) : UInt64 := UInt64.ofNat width - UInt64.ofNat len
/-- entity_state/writer.rs:133, aggregate_state/writer.rs:73: the loop that appends the padding.  `none`: the octets do not fit a `BytesMut`,
which like every Rust allocation holds at most `isize::MAX` = 2^63 - 1 octets; the process is aborted. -/
def padding (width len : Nat) : Option Bytes :=
  if (numPad width len).toNat < 2 ^ 63 then some (List.replicate (numPad width len).toNat 0x20) else none

/-- entity_state/writer.rs:126-136 -/
def EntityMarking.write (x : EntityMarking) : Option Bytes :=
  (padding 11 x.marking_string.length).map fun pad => e8 x.marking_character_set ++ x.marking_string ++ pad
/-- aggregate_state/writer.rs:66-78 -/
def AggregateMarking.write (x : AggregateMarking) : Option Bytes :=
  (padding 31 x.marking_string.length).map fun pad => e8 x.marking_character_set ++ x.marking_string ++ pad

/-- entity_state/writer.rs:9-48 -/
def EntityState.write (ver : UInt8) (x : EntityState) : Option Bytes :=
  x.entity_marking.write.map fun marking =>
    x.entity_id.ser ++ e8 x.force_id ++ e8 (UInt8.ofNat x.variable_parameters.length)
      ++ x.entity_type.ser ++ x.alternative_entity_type.ser
      ++ x.entity_linear_velocity.ser ++ x.entity_location.ser ++ x.entity_orientation.ser
      ++ x.entity_appearance.ser ++ x.dead_reckoning_parameters.ser
      ++ marking ++ x.entity_capabilities.ser ver
      ++ serList VariableParameter.ser x.variable_parameters
/-- aggregate_state/writer.rs:6-51 -/
def AggregateState.write (x : AggregateState) : Option Bytes :=
  x.aggregate_marking.write.map fun marking =>
    (x.aggregate_id.ser ++ e8 x.force_id ++ e8 x.aggregate_state ++ x.aggregate_type.ser ++ e32 x.formation
      ++ marking ++ x.dimensions.ser) ++ ((x.orientation.ser ++ x.center_of_mass.ser ++ x.velocity.ser
      ++ e16 (UInt16.ofNat x.aggregates.length) ++ e16 (UInt16.ofNat x.entities.length)
      ++ e16 (UInt16.ofNat x.silent_aggregate_systems.length) ++ e16 (UInt16.ofNat x.silent_entity_systems.length))
      ++ ((serList EntityId.ser x.aggregates ++ serList EntityId.ser x.entities
      ++ zeros (aggregatePadding x.aggregates.length x.entities.length))
      ++ (serList SilentAggregateSystem.ser x.silent_aggregate_systems ++ serList SilentEntitySystem.ser x.silent_entity_systems
      ++ e32 (UInt32.ofNat x.variable_datums.length) ++ serList VariableDatum.ser x.variable_datums)))

/-- writer.rs:42-112; no other body has a writer that can fail to come to an end. -/
def Body.write (ver : UInt8) : Body → Option Bytes
  | .entityState x => x.write ver
  | .aggregateState x => x.write
  | b => some (b.ser ver)

/-- What becomes of a call of `Pdu::serialize`: `Ok(count)` with the new contents of the buffer, `Err(InsufficientBufferSize(..))`, or
no return. -/
inductive Written where
  | ok (contents : Bytes) (count : UInt16)
  | insufficient (length : UInt16) (capacity : Nat)
  | aborted
  deriving DecidableEq

/-- writer.rs:36-114 `Pdu::serialize` -/
def Pdu.write (p : Pdu) (buf : Bytes) (capacity : Nat) : Written :=
  if p.pduLength.toNat > capacity then .insufficient p.pduLength capacity
  else match p.body.write p.header.protocol_version with
    | some body => .ok (buf ++ (p.header.ser ++ body)) (UInt16.ofNat (p.header.cnt + p.body.cnt))
    | none => .aborted

end Verif.Dis
