import Verif.Gateway.Codec

/-! # The gateway's statistics (cdis-gateway/src/stats.rs)

Counters are `u64` with wrapping addition (release profile). -/

namespace Verif.Gateway
open Verif.Codec

/-- stats.rs:16-30 `SocketStats` -/
structure SocketStats where
  bytes_sent : UInt64 := 0
  bytes_received : UInt64 := 0
  packets_sent : UInt64 := 0
  packets_received : UInt64 := 0
  bytes_received_interval : UInt64 := 0
  packets_received_interval : UInt64 := 0
  bytes_sent_interval : UInt64 := 0
  packets_sent_interval : UInt64 := 0
  bytes_received_latest_aggregate : UInt64 := 0
  packets_received_latest_aggregate : UInt64 := 0
  bytes_sent_latest_aggregate : UInt64 := 0
  packets_sent_latest_aggregate : UInt64 := 0
  deriving Repr, DecidableEq

/-- stats.rs:33-38 -/
def SocketStats.receive (s : SocketStats) (bytes packets : UInt64) : SocketStats :=
  { s with bytes_received := s.bytes_received + bytes, packets_received := s.packets_received + packets,
           bytes_received_interval := s.bytes_received_interval + bytes,
           packets_received_interval := s.packets_received_interval + packets }
/-- stats.rs:40-45 -/
def SocketStats.sent (s : SocketStats) (bytes packets : UInt64) : SocketStats :=
  { s with bytes_sent := s.bytes_sent + bytes, packets_sent := s.packets_sent + packets,
           bytes_sent_interval := s.bytes_sent_interval + bytes,
           packets_sent_interval := s.packets_sent_interval + packets }
/-- stats.rs:47-59 -/
def SocketStats.aggregate (s : SocketStats) : SocketStats :=
  { s with bytes_received_latest_aggregate := s.bytes_received_interval, bytes_received_interval := 0,
           packets_received_latest_aggregate := s.packets_received_interval, packets_received_interval := 0,
           bytes_sent_latest_aggregate := s.bytes_sent_interval, bytes_sent_interval := 0,
           packets_sent_latest_aggregate := s.packets_sent_interval, packets_sent_interval := 0 }

/-- `HashMap<PduType, (u64, u64)>` as its entries, one for each key -/
abbrev Counts := List (Nat × UInt64 × UInt64)
/-- `get` -/
def Counts.get (m : Counts) (t : Nat) : Option (UInt64 × UInt64) := m.lookup t
/-- stats.rs:103-108 (and 111-116, 119-124, 127-132): `entry(..).and_modify(..).or_insert(..)` -/
def Counts.bump : Counts → Nat → UInt64 → Counts
  | [], t, size => [(t, 1, size)]
  | (t', n, b) :: m, t, size => if t' = t then (t', n + 1, b + size) :: m else (t', n, b) :: Counts.bump m t size
/-- `values().map(|stat| stat.1).sum()` -/
def Counts.bytes (m : Counts) : UInt64 := (m.map fun e => e.2.2).sum

/-- stats.rs:63-70 `CodecStats` -/
structure CodecStats where
  received_count : Counts := []
  codec_count : Counts := []
  rejected_count : UInt64 := 0
  unimplemented_count : UInt64 := 0
  unimplemented_bytes : UInt64 := 0
  compression_rate_total : Fl := .num 0

/-- stats.rs:73-81; a sum of `u64` is a normal `f64` exactly when it is not zero. -/
def CodecStats.aggregate (s : CodecStats) : CodecStats :=
  if s.received_count.bytes = 0 then s
  else { s with compression_rate_total := Fl.mul F64 (Fl.div F64 (F64.round s.codec_count.bytes.toNat)
          (F64.round s.received_count.bytes.toNat)) (.num 100) }

/-- stats.rs:85-90 `GatewayStats` -/
structure GatewayStats where
  dis : SocketStats := {}
  cdis : SocketStats := {}
  encoder : CodecStats := {}
  decoder : CodecStats := {}

/-- stats.rs:93-155 `handle_event` -/
def GatewayStats.handle (g : GatewayStats) : Event → GatewayStats
  | .receivedBytesDis n => { g with dis := g.dis.receive (.ofNat n) 1 }
  | .receivedBytesCDis n => { g with cdis := g.cdis.receive (.ofNat n) 1 }
  | .receivedDis t n => { g with encoder := { g.encoder with received_count := g.encoder.received_count.bump t (.ofNat n) } }
  | .receivedCDis t n => { g with decoder := { g.decoder with received_count := g.decoder.received_count.bump t (.ofNat n) } }
  | .encodedPdu t n => { g with encoder := { g.encoder with codec_count := g.encoder.codec_count.bump t (.ofNat n) } }
  | .decodedPdu t n => { g with decoder := { g.decoder with codec_count := g.decoder.codec_count.bump t (.ofNat n) } }
  | .rejectedUnsupportedDisPdu _ _ => { g with encoder := { g.encoder with rejected_count := g.encoder.rejected_count + 1 } }
  | .rejectedUnsupportedCDisPdu _ _ => { g with decoder := { g.decoder with rejected_count := g.decoder.rejected_count + 1 } }
  | .sentDis n => { g with dis := g.dis.sent (.ofNat n) 1 }
  | .sentCDis n => { g with cdis := g.cdis.sent (.ofNat n) 1 }
  | .unimplementedEncodedPdu _ n =>
    { g with encoder := { g.encoder with unimplemented_count := g.encoder.unimplemented_count + 1,
                                         unimplemented_bytes := g.encoder.unimplemented_bytes + .ofNat n } }
  | .unimplementedDecodedPdu _ n =>
    { g with decoder := { g.decoder with unimplemented_count := g.decoder.unimplemented_count + 1,
                                         unimplemented_bytes := g.decoder.unimplemented_bytes + .ofNat n } }

/-- What the statistics task reacts to (stats.rs:168-197): an event, or the tick of the timer of one second. -/
inductive Act where
  | event (e : Event)
  | tick
  deriving Repr, DecidableEq
/-- stats.rs:170-175 and 185-189 -/
def GatewayStats.step (g : GatewayStats) : Act → GatewayStats
  | .event e => g.handle e
  | .tick => { dis := g.dis.aggregate, cdis := g.cdis.aggregate, encoder := g.encoder.aggregate, decoder := g.decoder.aggregate }
/-- The statistics after a history. -/
def GatewayStats.run (g : GatewayStats) (h : List Act) : GatewayStats := h.foldl GatewayStats.step g

end Verif.Gateway
