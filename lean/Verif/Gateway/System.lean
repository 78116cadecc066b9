import Verif.Gateway.Stats

/-! # The gateway as concurrent tasks (cdis-gateway/src/main.rs)

Two lanes (DIS to C-DIS with the encoder, C-DIS to DIS with the decoder), each a socket reader, a codec task and a socket
writer joined by channels of 20 packets; one statistics task that reads the events of both codecs from a channel of 50.
Every action below is one step of one task; a run is any interleaving of them (the runtime is multi-threaded).  Awaiting a
full channel is a step that is not enabled.  Dropped receivers are tasks that have ended.  Not modelled: the web site task
(beyond the Quit command that it sends), timers of the statistics task (`Gateway/Stats.lean` has them), socket options. -/

namespace Verif.Gateway
open Verif.Codec

/-- main.rs:27 `DATA_CHANNEL_BUFFER_SIZE` -/
def dataCapacity : Nat := 20
/-- main.rs:29 `EVENT_CHANNEL_BUFFER_SIZE` -/
def eventCapacity : Nat := 50
/-- main.rs:31 `READER_SOCKET_BUFFER_SIZE_BYTES` -/
def readerBuffer : Nat := 1500

/-- `encode_buffer` or `decode_buffer`: from the times at which PDUs are handled, the state and a packet to the events sent
and the result, `none` for a panic. -/
abbrev Machine (σ : Type) := (Nat → Nat) → σ → Bytes → List Event × Option (Bytes × σ)

/-- main.rs:255-311 `reader_socket`: at `select!`, sending a packet to the codec, or returned. -/
inductive ReaderTask where
  | waiting
  | holding (b : Bytes)
  | stopped
/-- main.rs:382-409 `encoder`, 413-442 `decoder`: at `select!`; inside `encode_buffer` with the events still to send and the
result; sending the packet to the writer; returned; panicked. -/
inductive CodecTask (σ : Type) where
  | idle (s : σ)
  | busy (es : List Event) (r : Option (Bytes × σ))
  | sending (out : Bytes) (s : σ)
  | stopped
  | panicked
/-- main.rs:315-379 `writer_socket`: at `select!`, in `send_to`, or returned. -/
inductive WriterTask where
  | waiting
  | holding (b : Bytes)
  | stopped

/-- The reader, codec and writer of a flow, their channels, and what passed the sockets: the datagrams accepted and those put
on the network. -/
structure Lane (σ : Type) where
  reader : ReaderTask := .waiting
  inq : List Bytes := []
  codec : CodecTask σ
  outq : List Bytes := []
  writer : WriterTask := .waiting
  received : List Bytes := []
  sent : List Bytes := []

/-- A receiver has been dropped. -/
def CodecTask.gone {σ : Type} : CodecTask σ → Bool
  | .stopped => true
  | .panicked => true
  | _ => false
def WriterTask.gone : WriterTask → Bool
  | .stopped => true
  | _ => false

/-- What a step of a lane does to the rest: nothing, an event put in the channel, an event refused by the channel. -/
inductive Effect where
  | silent
  | emits (e : Event)
  | refused
  deriving DecidableEq

/-- The steps of the gateway itself; datagrams arriving; and the disturbances: a socket fails, or the Quit command. -/
inductive Kind where
  | work
  | input
  | disturbance
  deriving DecidableEq

variable {σ : Type}
/-- A step of a lane; `quit` says that the Quit command has been broadcast. -/
inductive Lane.Step (m : Machine σ) (quit : Bool) : Kind → Effect → Lane σ → Lane σ → Prop
  /-- main.rs:280-284: a datagram from another address; what exceeds the buffer is cut off by the socket. -/
  | arrive (l : Lane σ) (d : Bytes) : l.reader = .waiting →
      Step m quit .input .silent l { l with reader := .holding (d.take readerBuffer), received := l.received ++ [d.take readerBuffer] }
  /-- main.rs:285: a datagram from the address of the socket itself is blocked. -/
  | arriveOwn (l : Lane σ) (d : Bytes) : l.reader = .waiting → Step m quit .input .silent l l
  /-- main.rs:301-304: the socket fails. -/
  | readFails (l : Lane σ) : l.reader = .waiting → Step m quit .disturbance .silent l { l with reader := .stopped }
  /-- main.rs:305-308 -/
  | readerQuits (l : Lane σ) : l.reader = .waiting → quit = true → Step m quit .disturbance .silent l { l with reader := .stopped }
  /-- main.rs:295: the packet goes into the channel, when there is room. -/
  | forward (l : Lane σ) (b : Bytes) : l.reader = .holding b → l.inq.length < dataCapacity → l.codec.gone = false →
      Step m quit .work .silent l { l with reader := .waiting, inq := l.inq ++ [b] }
  /-- main.rs:295-298: the codec has gone. -/
  | forwardFails (l : Lane σ) (b : Bytes) : l.reader = .holding b → l.codec.gone = true →
      Step m quit .work .silent l { l with reader := .stopped }
  /-- main.rs:400-402 (432-434): the next packet. -/
  | take (l : Lane σ) (s : σ) (b : Bytes) (rest : List Bytes) (clock : Nat → Nat) : l.codec = .idle s → l.inq = b :: rest →
      Step m quit .work .silent l { l with inq := rest, codec := .busy (m clock s b).1 (m clock s b).2 }
  /-- codec.rs `try_send`: the event is put in the channel. -/
  | emit (l : Lane σ) (e : Event) (es : List Event) (r : Option (Bytes × σ)) : l.codec = .busy (e :: es) r →
      Step m quit .work (.emits e) l { l with codec := .busy es r }
  /-- codec.rs `try_send(..).expect(..)`: the channel is full or its receiver has gone. -/
  | emitFails (l : Lane σ) (e : Event) (es : List Event) (r : Option (Bytes × σ)) : l.codec = .busy (e :: es) r →
      Step m quit .work .refused l { l with codec := .panicked }
  /-- The end of `encode_buffer`. -/
  | done (l : Lane σ) (out : Bytes) (s : σ) : l.codec = .busy [] (some (out, s)) →
      Step m quit .work .silent l { l with codec := .sending out s }
  /-- A panic in `encode_buffer`. -/
  | crash (l : Lane σ) : l.codec = .busy [] none → Step m quit .work .silent l { l with codec := .panicked }
  /-- main.rs:403 (435): the result goes into the channel, when there is room. -/
  | hand (l : Lane σ) (out : Bytes) (s : σ) : l.codec = .sending out s → l.outq.length < dataCapacity → l.writer.gone = false →
      Step m quit .work .silent l { l with codec := .idle s, outq := l.outq ++ [out] }
  /-- main.rs:403 (435), `expect`: the writer has gone. -/
  | handFails (l : Lane σ) (out : Bytes) (s : σ) : l.codec = .sending out s → l.writer.gone = true →
      Step m quit .work .silent l { l with codec := .panicked }
  /-- main.rs:389-399 (421-431) -/
  | codecQuits (l : Lane σ) (s : σ) : l.codec = .idle s → quit = true → Step m quit .disturbance .silent l { l with codec := .stopped }
  /-- main.rs:342-344 -/
  | pick (l : Lane σ) (b : Bytes) (rest : List Bytes) : l.writer = .waiting → l.outq = b :: rest →
      Step m quit .work .silent l { l with writer := .holding b, outq := rest }
  /-- main.rs:345-346: the datagram is on the network. -/
  | send (l : Lane σ) (b : Bytes) : l.writer = .holding b →
      Step m quit .work .silent l { l with writer := .waiting, sent := l.sent ++ [b] }
  /-- main.rs:347, 371: the socket fails. -/
  | sendFails (l : Lane σ) (b : Bytes) : l.writer = .holding b → Step m quit .disturbance .silent l { l with writer := .stopped }
  /-- main.rs:350-352, 372: the channel is empty and the codec has gone. -/
  | writerEnds (l : Lane σ) : l.writer = .waiting → l.outq = [] → l.codec.gone = true →
      Step m quit .work .silent l { l with writer := .stopped }
  /-- main.rs:329-340, 373-376 -/
  | writerQuits (l : Lane σ) : l.writer = .waiting → quit = true → Step m quit .disturbance .silent l { l with writer := .stopped }

/-- The two lanes. -/
inductive Side where
  | enc
  | dec
  deriving DecidableEq

/-- The whole gateway.  Each event in the channel carries its lane, which only the specification looks at. -/
structure System (σ τ : Type) where
  enc : Lane σ
  dec : Lane τ
  events : List (Side × Event) := []
  handled : List (Side × Event) := []
  listening : Bool := true
  quit : Bool := false
  ended : Bool := false

variable {τ : Type}
/-- What the event channel does: it takes an event when it has room and its receiver is there, and refuses it otherwise. -/
def System.channel (g : System σ τ) (side : Side) : Effect → Option (List (Side × Event))
  | .silent => some g.events
  | .emits e => if g.listening && decide (g.events.length < eventCapacity) then some (g.events ++ [(side, e)]) else none
  | .refused => if g.listening && decide (g.events.length < eventCapacity) then none else some g.events

/-- A step of the gateway. -/
inductive System.Step (me : Machine σ) (md : Machine τ) : Kind → System σ τ → System σ τ → Prop
  | encoder (g : System σ τ) (k : Kind) (f : Effect) (l : Lane σ) (q : List (Side × Event)) : g.ended = false →
      Lane.Step me g.quit k f g.enc l → g.channel .enc f = some q → Step me md k g { g with enc := l, events := q }
  | decoder (g : System σ τ) (k : Kind) (f : Effect) (l : Lane τ) (q : List (Side × Event)) : g.ended = false →
      Lane.Step md g.quit k f g.dec l → g.channel .dec f = some q → Step me md k g { g with dec := l, events := q }
  /-- stats.rs:181-185: the statistics task handles an event. -/
  | handle (g : System σ τ) (x : Side × Event) (rest : List (Side × Event)) : g.ended = false → g.listening = true →
      g.events = x :: rest → Step me md .work g { g with events := rest, handled := g.handled ++ [x] }
  /-- stats.rs:186-194 -/
  | statsQuits (g : System σ τ) : g.ended = false → g.listening = true → g.quit = true →
      Step me md .disturbance g { g with listening := false }
  /-- site.rs:69, 100: the Quit command. -/
  | command (g : System σ τ) : g.ended = false → Step me md .disturbance g { g with quit := true }
  /-- main.rs:155-176 and 57-58: a task has panicked, `try_join!` returns and the program ends. -/
  | exit (g : System σ τ) : g.ended = false → g.enc.codec = .panicked ∨ g.dec.codec = .panicked →
      Step me md .work g { g with ended := true }

/-- main.rs:132-153: the start. -/
def System.start (s : σ) (t : τ) : System σ τ := { enc := { codec := .idle s }, dec := { codec := .idle t } }

/-- What can be reached from a state by any number of steps, of any kind and in any order. -/
inductive System.Reach (me : Machine σ) (md : Machine τ) (g : System σ τ) : System σ τ → Prop
  | here : Reach me md g g
  | step {a b : System σ τ} {k : Kind} : Reach me md g a → System.Step me md k a b → Reach me md g b

/-- The encoder and the decoder as machines. -/
def encMachine (env : Env) (o : Options) : Machine Encoder := fun clock e b => encodeBuffer env o clock e b
def decMachine (env : Env) (o : Options) (grow : Nat → Nat) : Machine DecState := fun _ s b => decodeBuffer env o grow s b

end Verif.Gateway
