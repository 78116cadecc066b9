import Verif.Gateway.Config

/-! # The gateway's sockets (cdis-gateway/src/main.rs:182-300)

What the gateway asks of the operating system is modelled from the code.  What the operating system does with it is a small
specification of its own (`Os`, `Sock.source`, `Sock.hears`, `Os.resolve`), which is trusted: it is the behaviour of UDP sockets
on Linux (`udp(7)`, `ip(7)`). -/

namespace Verif.Gateway
open Verif.Codec

/-- `std::net::IpAddr` -/
inductive Ip where
  | v4 (a : UInt32)
  | v6 (a : BitVec 128)
  deriving DecidableEq
/-- `0.0.0.0` or `::` -/
def Ip.Unspecified (x : Ip) : Prop := x = .v4 0 ∨ x = .v6 0
instance (x : Ip) : Decidable x.Unspecified := by unfold Ip.Unspecified; infer_instance
/-- `224.0.0.0/4` or `ff00::/8` -/
def Ip.Multicast : Ip → Prop
  | .v4 a => 0xE0000000 ≤ a.toNat ∧ a.toNat < 0xF0000000
  | .v6 a => 2 ^ 120 * 255 ≤ a.toNat
instance (x : Ip) : Decidable x.Multicast := by cases x <;> unfold Ip.Multicast <;> infer_instance
/-- `is_ipv4` -/
def Ip.isV4 : Ip → Bool
  | .v4 _ => true
  | .v6 _ => false
/-- `std::net::SocketAddr` (the flow label and the scope of IPv6 are left out) -/
structure SocketAddr where
  ip : Ip
  port : UInt16
  deriving DecidableEq

/-- The host the gateway runs on. -/
structure Os where
  /-- the addresses of its interfaces -/
  ips : List Ip
  loopback : Ip
  /-- the address of the interface through which packets for a destination leave -/
  route : Ip → Ip
  /-- whether `bind` to an address succeeds -/
  canBind : SocketAddr → Bool
  loopback_here : loopback ∈ ips
  route_here : ∀ d, route d ∈ ips
  specific : ∀ x ∈ ips, ¬ x.Unspecified ∧ ¬ x.Multicast
  /-- `bind` gives EADDRNOTAVAIL for an address that is not one of the host's -/
  bind_here : ∀ a, canBind a = true → a.ip.Unspecified ∨ a.ip ∈ ips
/-- IP_ADD_MEMBERSHIP: EINVAL for what is not a group, ENODEV for an interface that the host does not have. -/
def Os.canJoinV4 (os : Os) (group interface : Ip) : Bool := decide (group.Multicast ∧ (interface.Unspecified ∨ interface ∈ os.ips))
/-- IPV6_ADD_MEMBERSHIP with interface 0: EINVAL for what is not a group. -/
def Os.canJoinV6 (group : Ip) : Bool := decide group.Multicast

/-- What the calls of the gateway leave behind: the address it is bound to, the groups it is a member of, and the time to live
if it was set. -/
structure Sock where
  bound : Option SocketAddr := none
  groups : List Ip := []
  broadcast : Bool := false
  ttl : Option Nat := none

/-- main.rs:182-251 `create_udp_socket`; `none` is a panic.  Setting an option succeeds; a failing `bind` is logged (IPv4) or
a panic (IPv6).  In the modes that bind, the order of the calls is immaterial here. -/
def createUdpSocket (os : Os) (ep : UdpEndpoint SocketAddr) : Option Sock :=
  match ep.address.ip.isV4, ep.mode with
  | true, .uniCast => some { bound := if os.canBind ep.interface then some ep.interface else none }
  | true, .broadCast => some { bound := if os.canBind ep.interface then some ep.interface else none, broadcast := true, ttl := some 1 }
  | true, .multiCast =>
    if ep.interface.ip.isV4 then
      if os.canJoinV4 ep.address.ip ep.interface.ip then some { groups := [ep.address.ip] } else none
    else some {}
  | false, .uniCast => if os.canBind ep.interface then some { bound := some ep.interface } else none
  | false, .broadCast => if os.canBind ep.interface then some { bound := some ep.interface, broadcast := true, ttl := some 1 } else none
  | false, .multiCast =>
    if ep.interface.ip.isV4 then some {}
    else if Os.canJoinV6 ep.address.ip then some { groups := [ep.address.ip] } else none

/-- The name of a socket (`local_addr`): the address it was bound to; a socket that was not bound gets a port of the
system's choice, `auto`, with the first packet it sends (`none` before that). -/
def Sock.name (s : Sock) (auto : Option UInt16) : Option SocketAddr := s.bound.or (auto.map fun p => ⟨.v4 0, p⟩)
/-- The address that a packet of a socket comes from, as its receivers see it. -/
def Sock.source (os : Os) (name : SocketAddr) (dst : SocketAddr) : SocketAddr :=
  if name.ip.Unspecified then ⟨os.route dst.ip, name.port⟩ else name
/-- Where a packet goes: what is sent to the unspecified address goes to this host. -/
def Os.resolve (os : Os) (dst : SocketAddr) : SocketAddr := if dst.ip.Unspecified then ⟨os.loopback, dst.port⟩ else dst
/-- A socket gets the packets that reach its host with its port, and with its address unless that is the unspecified one. -/
def Sock.hears (name : Option SocketAddr) (dst : SocketAddr) : Prop :=
  ∃ a, name = some a ∧ a.port = dst.port ∧ (a.ip.Unspecified ∨ a.ip = dst.ip)
/-- A packet for an address of the host stays on the host. -/
def Os.Stays (os : Os) (dst : SocketAddr) : Prop := (os.resolve dst).ip ∈ os.ips

/-- main.rs:280-287: whether `reader_socket` passes a packet from `source` on; a socket without a name is `0.0.0.0:0` for
`local_addr`. -/
def accepts (name : Option SocketAddr) (source : SocketAddr) : Bool := decide (name.getD ⟨.v4 0, 0⟩ ≠ source)

/-! ## A gateway that hears itself -/

/-- A gateway each of whose sockets receives what it sends (main.rs:253-440): the datagrams on their way to the encoder and
to the decoder, and the number of datagrams that have come from elsewhere.  The limits of the channels are left out. -/
structure Echo where
  enc : Encoder := {}
  dec : DecState := {}
  toEnc : List Bytes := []
  toDec : List Bytes := []
  arrived : Nat := 0

/-- A datagram from elsewhere, or the encoder or the decoder takes one and sends one: main.rs:383-440, one datagram out
for each datagram in; a reader keeps at most 1500 octets (main.rs:31, 262). -/
inductive Echo.Step (env : Env) (o o' : Options) (grow : Nat → Nat) : Echo → Echo → Prop
  | dis (g : Echo) (b : Bytes) : Step env o o' grow g { g with toEnc := g.toEnc ++ [b.take 1500], arrived := g.arrived + 1 }
  | cdis (g : Echo) (b : Bytes) : Step env o o' grow g { g with toDec := g.toDec ++ [b.take 1500], arrived := g.arrived + 1 }
  | encode (g : Echo) (clock : Nat → Nat) {b out : Bytes} {rest : List Bytes} {ev : List Event} {e : Encoder} :
      g.toEnc = b :: rest → encodeBuffer env o clock g.enc b = (ev, some (out, e)) →
      Step env o o' grow g { g with enc := e, toEnc := rest, toDec := g.toDec ++ [out.take 1500] }
  | decode (g : Echo) {b out : Bytes} {rest : List Bytes} {ev : List Event} {s : DecState} :
      g.toDec = b :: rest → decodeBuffer env o' grow g.dec b = (ev, some (out, s)) →
      Step env o o' grow g { g with dec := s, toDec := rest, toEnc := g.toEnc ++ [out.take 1500] }
/-- Any number of steps. -/
inductive Echo.Reach (env : Env) (o o' : Options) (grow : Nat → Nat) (start : Echo) : Echo → Prop
  | refl : Reach env o o' grow start start
  | step {a b : Echo} : Reach env o o' grow start a → Echo.Step env o o' grow a b → Reach env o o' grow start b

end Verif.Gateway
