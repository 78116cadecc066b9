import Verif.Codec.Pdu
import Verif.Dis.Pdu
import Verif.Props.CdisPdu

/-! # The gateway's encoder and decoder (cdis-gateway/src/codec.rs)

A run of one of these functions yields the events it sends, in order, and its result; `none` is a panic (the events sent
before it are kept).  Here the event channel accepts every event; `Gateway/System.lean` has the bounded channel. -/

namespace Verif.Gateway
open Verif.Codec

/-- cdis-gateway/src/main.rs:88-103 `Event`; PDU types are their numbers. -/
inductive Event where
  | receivedBytesDis (n : Nat)
  | receivedBytesCDis (n : Nat)
  | receivedDis (type size : Nat)
  | receivedCDis (type size : Nat)
  | encodedPdu (type size : Nat)
  | decodedPdu (type size : Nat)
  | rejectedUnsupportedDisPdu (type size : Nat)
  | rejectedUnsupportedCDisPdu (type size : Nat)
  | unimplementedEncodedPdu (type size : Nat)
  | unimplementedDecodedPdu (type size : Nat)
  | sentDis (n : Nat)
  | sentCDis (n : Nat)
  deriving Repr, DecidableEq

/-- cdis-assemble/src/lib.rs:295-329 `is_implemented` (the same types as `is_supported`, 260-287) -/
def isImplemented (type : Nat) : Bool := (1 ≤ type && type ≤ 4) || (11 ≤ type && type ≤ 28)

/-- `div_ceil(8)` -/
def octets (bits : Nat) : Nat := (bits + 7) / 8

/-! ## Encoder -/

/-- codec.rs:14-19 `Encoder`; the buffer holds 8 × 11200 bits (cdis-assemble/src/writing.rs:9). -/
structure Encoder where
  state : EncState := {}
  buffer : Cdis.Bits := List.replicate 89600 false

/-- codec.rs:73-97 `encode_pdus`; each PDU comes with the time at which it is encoded.  The iterator is lazy: a PDU goes
through all stages before the next one is looked at. -/
def encodePdus (env : Env) (o : Options) : EncState → List (Nat × Dis.Pdu) → List Event × Option (List Cdis.CdisPdu × EncState)
  | s, [] => ([], some ([], s))
  | s, (now, p) :: rest =>
    let t := p.header.pdu_type.toNat
    let n := p.header.pdu_length.toNat
    if Cdis.isSupported t then
      if isImplemented t then
        match pduEnc env o now s p with
        | none => ([.receivedDis t n], none)
        | some (c, _, s') =>
          let q := encodePdus env o s' rest
          (.receivedDis t n :: .encodedPdu c.header.pdu_type (octets c.header.length) :: q.1,
           q.2.map fun r => (c :: r.1, r.2))
      else
        let q := encodePdus env o s rest
        (.unimplementedEncodedPdu t n :: q.1, q.2)
    else
      let q := encodePdus env o s rest
      (.rejectedUnsupportedDisPdu t n :: q.1, q.2)

/-- cdis-assemble/src/writing.rs:73-77: bits stored at the cursor; out of range is a panic.  The code stores field by
field; here a PDU at a time. -/
def storeAt (buf : Cdis.Bits) (cursor : Nat) (bits : Cdis.Bits) : Option Cdis.Bits :=
  if cursor + bits.length ≤ buf.length then some (buf.take cursor ++ (bits ++ buf.drop (cursor + bits.length))) else none
/-- codec.rs:46-50: the PDUs stored one after the other. -/
def storeAll : Cdis.Bits → Nat → List Cdis.CdisPdu → Option Cdis.Bits
  | buf, _, [] => some buf
  | buf, cursor, p :: rest => (storeAt buf cursor p.ser).bind fun b => storeAll b (cursor + p.ser.length) rest

/-- codec.rs:45-56 `writing`: the buffer is not cleared first. -/
def encWriting (e : Encoder) (ps : List Cdis.CdisPdu) : List Event × Option (Bytes × Encoder) :=
  match storeAll e.buffer 0 ps with
  | none => ([], none)
  | some buf =>
    let n := octets (ps.map Cdis.CdisPdu.lenBits).sum
    if 8 * n ≤ buf.length then ([.sentCDis n], some (Props.packBits (buf.take (8 * n)), { e with buffer := buf }))
    else ([], none)

/-- The PDUs of a packet, each with the time at which it is encoded. -/
def stamp (clock : Nat → Nat) (ps : List Dis.Pdu) : List (Nat × Dis.Pdu) := ps.zipIdx.map fun x => (clock x.2, x.1)

/-- codec.rs:58-71 `encode_buffer`; `clock i` is the time at which PDU `i` of the packet is encoded. -/
def encodeBuffer (env : Env) (o : Options) (clock : Nat → Nat) (e : Encoder) (bs : Bytes) : List Event × Option (Bytes × Encoder) :=
  match Dis.parse env.toEnv bs with
  | .panic => ([.receivedBytesDis bs.length], none)
  | .error =>
    let w := encWriting e []
    (.receivedBytesDis bs.length :: w.1, w.2)
  | .ok ps =>
    let q := encodePdus env o e.state (stamp clock ps)
    match q.2 with
    | none => (.receivedBytesDis bs.length :: q.1, none)
    | some (cs, s) =>
      let w := encWriting { e with state := s } cs
      (.receivedBytesDis bs.length :: (q.1 ++ w.1), w.2)

/-! ## Decoder -/

/-- codec.rs:164-187 `decode_pdus`; what the filter drops are the implemented types. -/
def decodePdus (env : Env) (o : Options) : DecState → List Cdis.CdisPdu → List Event × (List Dis.Pdu × DecState)
  | s, [] => ([], ([], s))
  | s, c :: rest =>
    if isImplemented c.header.pdu_type then
      let q := decodePdus env o s rest
      (.unimplementedDecodedPdu c.header.pdu_type (octets c.header.length) :: q.1, q.2)
    else
      let r := pduDec env o s c
      let q := decodePdus env o r.2.2 rest
      (.receivedCDis c.header.pdu_type (octets c.header.length)
        :: .decodedPdu r.1.header.pdu_type.toNat r.1.header.pdu_length.toNat :: q.1, (r.1 :: q.2.1, q.2.2))

/-- codec.rs:137-140: the PDUs appended to the buffer.  `BytesMut` grows when needed: `grow n` is the capacity it then
takes for contents of `n` octets.  A PDU that does not fit the capacity is a panic (`unwrap`). -/
def appendAll (grow : Nat → Nat) : Bytes → Nat → List Dis.Pdu → Option (Bytes × Nat)
  | buf, _, [] => some (buf, 0)
  | buf, capacity, p :: rest =>
    match p.serialize buf capacity with
    | .error _ => none
    | .ok (buf', n) =>
      (appendAll grow buf' (if buf'.length ≤ capacity then capacity else max buf'.length (grow buf'.length)) rest).map
        fun r => (r.1, n.toNat + r.2)

/-- codec.rs:132-146 `writing`: a new buffer of 1400 octets; the event carries the sum of the returned counts, the result
is the whole buffer. -/
def decWriting (grow : Nat → Nat) (ps : List Dis.Pdu) : List Event × Option Bytes :=
  match appendAll grow [] 1400 ps with
  | none => ([], none)
  | some (buf, n) => ([.sentDis n], some buf)

/-- codec.rs:148-162 `decode_buffer`; the parser does not panic (C47). -/
def decodeBuffer (env : Env) (o : Options) (grow : Nat → Nat) (s : DecState) (bs : Bytes) : List Event × Option (Bytes × DecState) :=
  match Cdis.parsePackets env.toEnv bs with
  | none =>
    let w := decWriting grow []
    (.receivedBytesCDis bs.length :: w.1, w.2.map fun b => (b, s))
  | some cs =>
    let q := decodePdus env o s cs
    let w := decWriting grow q.2.1
    (.receivedBytesCDis bs.length :: (q.1 ++ w.1), w.2.map fun b => (b, q.2.2))

end Verif.Gateway
