import Verif.Gateway.Stats

/-! # The gateway's web page (cdis-gateway/src/site.rs and cdis-gateway/templates)

The page has four panels: the two sockets, the encoder and the decoder.  Each browser has a connection over which the panels
are replaced as the statistics task publishes its counters.  HTTP, the browser and the layout of the page are left out: a panel
is modelled as its figures, each under its caption. -/

namespace Verif.Gateway
open Verif.Codec

/-- A panel: captions and the text shown for each. -/
abbrev Panel := List (String × String)

/-- `saturating_sub` of `u64` -/
def saturatingSub (a b : UInt64) : UInt64 := if a < b then 0 else a - b

/-- `values().map(|val| val.0).sum::<u64>()` -/
def Counts.total (m : Counts) : UInt64 := (m.map fun e => e.2.1).sum

/-- site.rs:378-380 `count_for_pdu_type` -/
def countForPduType (s : CodecStats) (t : Nat) : UInt64 := ((s.received_count.get t).getD (0, 0)).1

/-- site.rs:348-374 `CodecStatsValues` -/
structure CodecStatsValues where
  received_count : UInt64
  es_count : UInt64
  fire_count : UInt64
  detonation_count : UInt64
  collision_count : UInt64
  create_entity_count : UInt64
  remove_entity_count : UInt64
  start_resume_count : UInt64
  stop_freeze_count : UInt64
  acknowledge_count : UInt64
  action_request_count : UInt64
  action_response_count : UInt64
  data_query_count : UInt64
  set_data_count : UInt64
  data_count : UInt64
  event_report_count : UInt64
  comment_count : UInt64
  ee_count : UInt64
  designator_count : UInt64
  transmitter_count : UInt64
  signal_count : UInt64
  receiver_count : UInt64
  iff_count : UInt64
  rejected_count : UInt64
  unimplemented_count : UInt64
  compression_rate_total : String

/-- site.rs:376-417 `From<&CodecStats> for CodecStatsValues`; `two` is `format!("{0:.2}", _)`.  PDU types are their numbers
(`enumerations`). -/
def CodecStatsValues.of (two : Fl → String) (s : CodecStats) : CodecStatsValues where
  received_count := saturatingSub s.received_count.total s.rejected_count
  es_count := countForPduType s 1
  fire_count := countForPduType s 2
  detonation_count := countForPduType s 3
  collision_count := countForPduType s 4
  create_entity_count := countForPduType s 11
  remove_entity_count := countForPduType s 12
  start_resume_count := countForPduType s 13
  stop_freeze_count := countForPduType s 14
  acknowledge_count := countForPduType s 15
  action_request_count := countForPduType s 16
  action_response_count := countForPduType s 17
  data_query_count := countForPduType s 18
  set_data_count := countForPduType s 19
  data_count := countForPduType s 20
  event_report_count := countForPduType s 21
  comment_count := countForPduType s 22
  ee_count := countForPduType s 23
  designator_count := countForPduType s 24
  transmitter_count := countForPduType s 25
  signal_count := countForPduType s 26
  receiver_count := countForPduType s 27
  iff_count := countForPduType s 28
  rejected_count := s.rejected_count
  unimplemented_count := s.unimplemented_count
  compression_rate_total := if s.compression_rate_total = .nan then "0.0" else two s.compression_rate_total

/-- templates/codec_stats.html; the captions of the figures for PDU types are those of the tooltips. -/
def CodecStatsValues.render (v : CodecStatsValues) : Panel := [
  ("PDUs encoded", toString v.received_count),
  ("PDUs rejected", toString v.rejected_count),
  ("Compression rate", v.compression_rate_total ++ " %"),
  ("Entity State", toString v.es_count),
  ("Fire", toString v.fire_count),
  ("Detonation", toString v.detonation_count),
  ("Collision", toString v.collision_count),
  ("Create Entity", toString v.create_entity_count),
  ("Remove Entity", toString v.remove_entity_count),
  ("Start / Resume", toString v.start_resume_count),
  ("Stop / Freeze", toString v.stop_freeze_count),
  ("Acknowledge", toString v.acknowledge_count),
  ("Action Request", toString v.action_request_count),
  ("Action Response", toString v.action_response_count),
  ("Data Query", toString v.data_query_count),
  ("Set Data", toString v.set_data_count),
  ("Data", toString v.data_count),
  ("Event Report", toString v.event_report_count),
  ("Comment", toString v.comment_count),
  ("Electromagnetic Emission", toString v.ee_count),
  ("Designator", toString v.designator_count),
  ("Transmitter", toString v.transmitter_count),
  ("Signal", toString v.signal_count),
  ("Receiver", toString v.receiver_count),
  ("Identification Friend or Foe", toString v.iff_count),
  ("Unimplemented", toString v.unimplemented_count)]

/-- site.rs:287-311 `SocketStatsValues`, and templates/socket_stats.html.  `size` is the `Display` of `ByteSize`.  The lines
about the configuration of the socket are left out. -/
def SocketStats.render (size : UInt64 → String) (s : SocketStats) : Panel := [
  ("bytes received", size s.bytes_received),
  ("bytes received /sec", size s.bytes_received_latest_aggregate),
  ("packets received", toString s.packets_received),
  ("packets received /sec", toString s.packets_received_latest_aggregate),
  ("bytes sent", size s.bytes_sent),
  ("bytes sent /sec", size s.bytes_sent_latest_aggregate),
  ("packets sent", toString s.packets_sent),
  ("packets sent /sec", toString s.packets_sent_latest_aggregate)]

/-! ## The connection of a browser -/

/-- stats.rs:8-14 `SseStat` -/
inductive SseStat where
  | disSocket (s : SocketStats)
  | cdisSocket (s : SocketStats)
  | encoder (s : CodecStats)
  | decoder (s : CodecStats)

/-- How numbers are written: `ByteSize` and `{:.2}`. -/
structure Format where
  size : UInt64 → String
  two : Fl → String

/-- What a browser is sent: the message of the start, or a panel, with the name of the place it goes to. -/
structure Frame where
  event : String
  panel : Panel
  deriving DecidableEq

/-- site.rs:111 -/
def Frame.connected : Frame := ⟨"status", [("", "SSE connected")]⟩
/-- site.rs:117-143: the titles (`name`) of the panels are left out. -/
def SseStat.frame (f : Format) : SseStat → Frame
  | .disSocket s => ⟨"dis_socket", s.render f.size⟩
  | .cdisSocket s => ⟨"cdis_socket", s.render f.size⟩
  | .encoder s => ⟨"encoder", (CodecStatsValues.of f.two s).render⟩
  | .decoder s => ⟨"decoder", (CodecStatsValues.of f.two s).render⟩

/-- main.rs:30 `STATS_CHANNEL_BUFFER_SIZE` is 50; a tokio broadcast channel rounds its capacity up to a power of two. -/
def statsCapacity : Nat := 64

/-- stats.rs:177-183: what one tick of the emit timer publishes, in order. -/
def GatewayStats.snapshot (g : GatewayStats) : List SseStat :=
  [.disSocket g.dis, .cdisSocket g.cdis, .encoder g.encoder, .decoder g.decoder]

/-- The statistics task and the connection of one browser.  `sent` is all that was published since the browser subscribed,
`next` the position of its receiver in it, `pending` what the emit timer has still to publish, `shown` what was sent to the
browser.  For the specification only: `skipped` counts what it missed, `handled` is what the statistics task has handled since
then, and `moments` what it had handled at each tick of the emit timer. -/
structure Feed where
  stats : GatewayStats := {}
  pending : List SseStat := []
  sent : List SseStat := []
  next : Nat := 0
  skipped : Nat := 0
  handled : List Act := []
  moments : List (List Act) := []
  shown : List Frame := [.connected]
  open_ : Bool := true

/-- What happens, one thing after the other, to the statistics task and the connection. -/
inductive FeedAct where
  | stat (a : Act)
  | emit
  | publish
  | receive
  | quit
  deriving Repr, DecidableEq

/-- stats.rs:168-198 and site.rs:113-158.  The statistics task does nothing else while it publishes.  An act that cannot happen
changes nothing. -/
def Feed.step (fmt : Format) (f : Feed) : FeedAct → Feed
  | .stat a => if f.pending.isEmpty then { f with stats := f.stats.step a, handled := f.handled ++ [a] } else f
  | .emit => if f.pending.isEmpty then { f with pending := f.stats.snapshot, moments := f.moments ++ [f.handled] } else f
  | .publish => match f.pending with
    | [] => f
    | x :: rest => { f with pending := rest, sent := f.sent ++ [x] }
  | .receive =>
    if f.open_ then
      if statsCapacity < f.sent.length - f.next then
        -- `Err(Lagged)`: the receiver is moved to the oldest value kept; the handler shows nothing
        { f with next := f.sent.length - statsCapacity, skipped := f.skipped + (f.sent.length - statsCapacity - f.next) }
      else match f.sent[f.next]? with
        | none => f
        | some x => { f with next := f.next + 1, shown := f.shown ++ [x.frame fmt] }
    else f
  | .quit => { f with open_ := false }

/-- The connection after a history, from the moment the browser subscribed, with the statistics as they were then. -/
def Feed.run (fmt : Format) (f : Feed) (h : List FeedAct) : Feed := h.foldl (Feed.step fmt) f

end Verif.Gateway
