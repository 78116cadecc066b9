import Verif.Gateway.Socket
import Verif.Props.GatewayWhole
import Verif.Props.GatewayConfig

/-! # C74: the sockets of the gateway -/

set_option linter.unusedSimpArgs false

namespace Verif.Props
open Verif.Gateway Verif.Codec

/-- An endpoint in a mode that binds, with an interface that the system lets it bind to. -/
structure Bound (os : Os) (ep : UdpEndpoint SocketAddr) (s : Sock) : Prop where
  created : createUdpSocket os ep = some s
  mode : ep.mode ≠ .multiCast
  free : os.canBind ep.interface = true

theorem Bound.bound {os : Os} {ep : UdpEndpoint SocketAddr} {s : Sock} (h : Bound os ep s) : s.bound = some ep.interface := by
  obtain ⟨h1, h2, h3⟩ := h
  unfold createUdpSocket at h1
  rw [h3] at h1
  cases hm : ep.mode <;> cases hv : ep.address.ip.isV4 <;> rw [hm] at h1 <;> try rw [hv] at h1
  all_goals first
    | exact absurd hm h2
    | (simp only [if_true, Option.some.injEq] at h1; subst h1; rfl)
theorem Bound.name {os : Os} {ep : UdpEndpoint SocketAddr} {s : Sock} (h : Bound os ep s) (auto : Option UInt16) :
    s.name auto = some ep.interface := by
  unfold Sock.name
  rw [h.bound]
  rfl

/-- **C74.** With a unicast or broadcast endpoint whose interface is a specific address, the gateway receives every datagram
that is sent to that address and port, passes on every one of another sender, and never one of its own. -/
theorem C74_specific {os : Os} {ep : UdpEndpoint SocketAddr} {s : Sock} (h : Bound os ep s) (hs : ¬ ep.interface.ip.Unspecified)
    (auto : Option UInt16) :
    Sock.hears (s.name auto) ep.interface
    ∧ (∀ source, accepts (s.name auto) source = true ↔ source ≠ ep.interface)
    ∧ ∀ dst, accepts (s.name auto) (Sock.source os ep.interface dst) = false := by
  rw [h.name]
  refine ⟨⟨_, rfl, rfl, .inr rfl⟩, fun source => ?_, fun dst => ?_⟩
  · simp only [accepts, Option.getD_some, decide_eq_true_eq]
    exact ne_comm
  · simp [accepts, Sock.source, if_neg hs]

/-- **C74, violated.** With the unspecified address as interface, which is the usual way to listen on all interfaces, the
gateway receives every datagram that it sends, and passes it on as if it came from elsewhere, with `block_own_socket` too. -/
theorem C74_own_violated {os : Os} {ep : UdpEndpoint SocketAddr} {s : Sock} (h : Bound os ep s) (hs : ep.interface.ip.Unspecified)
    (ha : ep.address = ep.interface) (auto : Option UInt16) :
    Sock.hears (s.name auto) (os.resolve ep.address)
    ∧ accepts (s.name auto) (Sock.source os ep.interface (os.resolve ep.address)) = true := by
  rw [h.name, ha]
  constructor
  · refine ⟨_, rfl, ?_, .inl hs⟩
    unfold Os.resolve
    rw [if_pos hs]
  · simp only [accepts, Option.getD_some, decide_eq_true_eq, Sock.source, if_pos hs]
    intro e
    have e2 : ep.interface.ip = os.route (os.resolve ep.interface).ip := congrArg SocketAddr.ip e
    exact (os.specific _ (os.route_here (os.resolve ep.interface).ip)).1 (e2 ▸ hs)

/-- **C74, violated.** Whatever remote address is configured, in the modes that bind no datagram of the gateway ever leaves
the host. -/
theorem C74_nobody_violated {os : Os} {env : ConfigEnv SocketAddr} (hl : LowerOk env.lower) {spec : ConfigSpec} {c : Config SocketAddr}
    (hc : config env spec = .ok c) {d s : Sock} (hd : Bound os c.dis_socket d) (hs : Bound os c.cdis_socket s) :
    os.Stays c.dis_socket.address ∧ os.Stays c.cdis_socket.address := by
  obtain ⟨h1, h2, -⟩ := C45_address_violated hl spec c hc
  have key : ∀ a, os.canBind a = true → os.Stays a := by
    intro a ha
    unfold Os.Stays Os.resolve
    split
    · exact os.loopback_here
    · rename_i hn
      exact (os.bind_here a ha).resolve_left hn
  rw [h1, h2]
  exact ⟨key _ hd.free, key _ hs.free⟩

/-- **C74, violated.** In broadcast mode with a specific interface the gateway does not receive broadcast datagrams, nor any
other datagram that is not addressed to that interface. -/
theorem C74_broadcast_violated {os : Os} {ep : UdpEndpoint SocketAddr} {s : Sock} (h : Bound os ep s) (hs : ¬ ep.interface.ip.Unspecified)
    (auto : Option UInt16) (dst : SocketAddr) (hd : dst.ip ≠ ep.interface.ip) : ¬ Sock.hears (s.name auto) dst := by
  rw [h.name]
  rintro ⟨a, ha, -, h1 | h1⟩
  · cases ha; exact hs h1
  · cases ha; exact hd h1.symm

/-- **C74, violated.** No configuration with an IPv4 endpoint in multicast mode works: the gateway ends when it makes the
socket. -/
theorem C74_multicast_violated (os : Os) {env : ConfigEnv SocketAddr} (hl : LowerOk env.lower) {spec : ConfigSpec} {c : Config SocketAddr}
    (hc : config env spec = .ok c) :
    (c.dis_socket.mode = .multiCast → c.dis_socket.interface.ip.isV4 = true → createUdpSocket os c.dis_socket = none)
    ∧ (c.cdis_socket.mode = .multiCast → c.cdis_socket.interface.ip.isV4 = true → createUdpSocket os c.cdis_socket = none) := by
  obtain ⟨h1, h2, -⟩ := C45_address_violated hl spec c hc
  have key : ∀ ep : UdpEndpoint SocketAddr, ep.address = ep.interface → ep.mode = .multiCast → ep.interface.ip.isV4 = true →
      createUdpSocket os ep = none := by
    intro ep ha hm hv
    unfold createUdpSocket
    rw [ha, hv, hm]
    simp only [if_true]
    rw [if_neg]
    simp only [Os.canJoinV4, decide_eq_true_eq, not_and, not_or]
    intro hmc
    refine ⟨fun hu => ?_, fun hi => (os.specific _ hi).2 hmc⟩
    rcases hu with hu | hu <;> rw [hu] at hmc hv
    · revert hmc; decide
    · cases hv
  exact ⟨key _ h1, key _ h2⟩
/-- **C74, violated.** In multicast mode (which for IPv6 does come up) the socket is never bound: nothing that is sent to the
group with the configured port is received, before the first datagram that the gateway sends nor, unless the system happens to
choose that port, after it. -/
theorem C74_multicast6_violated {os : Os} {ep : UdpEndpoint SocketAddr} {s : Sock} (h : createUdpSocket os ep = some s)
    (hm : ep.mode = .multiCast) (auto : Option UInt16) (dst : SocketAddr) (hp : auto ≠ some dst.port) : ¬ Sock.hears (s.name auto) dst := by
  have hb : s.bound = none := by
    unfold createUdpSocket at h
    rw [hm] at h
    cases hv : ep.address.ip.isV4 <;> rw [hv] at h <;> simp only at h <;> split at h <;> (try split at h) <;>
      first
        | (cases h; done)
        | (simp only [Option.some.injEq] at h; subst h; rfl)
  unfold Sock.name
  rw [hb]
  rintro ⟨a, ha, h1, -⟩
  cases auto with
  | none => cases ha
  | some p =>
    simp only [Option.map_some, Option.none_or, Option.some.injEq] at ha
    subst ha
    exact hp (congrArg some h1)

/-- **C74, violated.** The remote address, the time to live and the choice whether to block own datagrams have no effect: the
sockets, and the address that the gateway sends to, are the same whatever is configured for them. -/
theorem C74_settings_violated (os : Os) {env : ConfigEnv SocketAddr} (spec : EndPointSpec) (uri : String) (ttl : Option UInt16) (block : Option Bool) :
    (match udpEndpoint env spec, udpEndpoint env { spec with uri := uri, ttl := ttl, block_own_socket := block } with
      | .ok a, .ok b => createUdpSocket os a = createUdpSocket os b ∧ a.address = b.address
      | .err a, .err b => a = b
      | .panic, .panic => True
      | _, _ => False) := by
  unfold udpEndpoint
  simp only
  cases (spec.mode.map (udpMode env)).getD (.ok .uniCast) with
  | err e => simp [Conf.bind]
  | panic => simp [Conf.bind]
  | ok m =>
    simp only [Conf.bind]
    cases env.parseAddr spec.interface with
    | none => trivial
    | some a => exact ⟨rfl, rfl⟩

/-! ## A gateway that hears itself -/

/-- What the decoder sends, as far as a reader keeps it: headers of PDUs without contents, the last one perhaps cut off. -/
def Hollow (b : Bytes) : Prop := ∃ (hs : List Cdis.CdisHeader) (tail : Bytes), b = (hs.flatMap fun h => (emptyOther h).ser) ++ tail ∧ tail.length < 12

theorem hollow_take : ∀ (hs : List Cdis.CdisHeader) (n : Nat), Hollow ((hs.flatMap fun h => (emptyOther h).ser).take n) := by
  intro hs
  induction hs with
  | nil => intro n; exact ⟨[], [], by simp, by decide⟩
  | cons h hs ih =>
    intro n
    rw [List.flatMap_cons, List.take_append, emptyOther_length]
    by_cases hn : n < 12
    · refine ⟨[], (emptyOther h).ser.take n, ?_, by rw [List.length_take]; omega⟩
      rw [show n - 12 = 0 by omega]
      simp
    · obtain ⟨hs', tail, e, ht⟩ := ih (n - 12)
      refine ⟨h :: hs', tail, ?_, ht⟩
      rw [e, List.take_of_length_le (by rw [emptyOther_length]; omega), List.flatMap_cons, List.append_assoc]

theorem hollow_header {b0 b1 b3 b4 b5 b6 b7 b10 b11 : UInt8} (r : Bytes) (env : Dis.Env) :
    ∃ p, (Dis.pdu env).run (b0 :: b1 :: 0 :: b3 :: b4 :: b5 :: b6 :: b7 :: 0 :: 12 :: b10 :: b11 :: r) = .ok p r ∧ p.header.pdu_type = 0 := by
  obtain ⟨hd, h1, h2, h3⟩ : ∃ hd, Dis.PduHeader.parse.run (b0 :: b1 :: 0 :: b3 :: b4 :: b5 :: b6 :: b7 :: 0 :: 12 :: b10 :: b11 :: r) = .ok hd r
      ∧ hd.pdu_type = 0 ∧ hd.pdu_length = 12 := by
    simp only [Dis.PduHeader.parse, be_u8, be_u16, be_u32, P.run_bind, Res.andThen]
    split
    · simp [P.run_bind, Res.andThen]
    · simp [P.run_bind, Res.andThen]
  refine ⟨⟨hd, .other ⟨none, none, []⟩⟩, ?_, h2⟩
  unfold Dis.pdu
  rw [P.run_bind, h1]
  simp only [Res.andThen]
  rw [Dis.parseBody_other env (by rw [h2]; decide), h3]
  rfl
theorem emptyOther_reads (env : Dis.Env) (h : Cdis.CdisHeader) (r : Bytes) :
    ∃ p, (Dis.pdu env).run ((emptyOther h).ser ++ r) = .ok p r ∧ p.header.pdu_type = 0 := by
  obtain ⟨b4, b5, b6, b7, b10, e⟩ : ∃ b4 b5 b6 b7 b10, (emptyOther h).ser = [7, UInt8.ofNat h.exercise_id, 0, 0, b4, b5, b6, b7, 0, 12, b10, 0] := by
    have h12 : e16 12 = [0, 12] := by decide
    simp only [Dis.Pdu.ser, emptyOther, Dis.PduHeader.ser, headerDec, Dis.Body.ser, Dis.Other.ser, e8, e32, h12, if_true, List.append_nil,
      List.cons_append, List.nil_append]
    exact ⟨_, _, _, _, _, rfl⟩
  rw [e]
  exact hollow_header r env

theorem hollow_reads (env : Dis.Env) (hs : List Cdis.CdisHeader) (tail : Bytes) :
    ∃ ps, Dis.Reads env ((hs.flatMap fun h => (emptyOther h).ser) ++ tail) ps tail ∧ ps.length = hs.length ∧ ∀ p ∈ ps, p.header.pdu_type = 0 := by
  induction hs with
  | nil => exact ⟨[], .nil _, rfl, by simp⟩
  | cons h hs ih =>
    obtain ⟨ps, h1, h2, h3⟩ := ih
    obtain ⟨p, hp, h0⟩ := emptyOther_reads env h ((hs.flatMap fun h => (emptyOther h).ser) ++ tail)
    rw [List.flatMap_cons, List.append_assoc]
    refine ⟨p :: ps, .cons hp h1, by simp [h2], ?_⟩
    intro q hq
    rcases List.mem_cons.1 hq with rfl | hq
    · exact h0
    · exact h3 q hq
theorem encodePdus_hollow (env : Codec.Env) (o : Options) (s : EncState) : ∀ ps : List (Nat × Dis.Pdu),
    (∀ p ∈ ps, p.2.header.pdu_type = 0) → (encodePdus env o s ps).2 = some ([], s) := by
  intro ps
  induction ps with
  | nil => intro _; rfl
  | cons p ps ih =>
    intro h
    obtain ⟨now, p⟩ := p
    have h0 : p.header.pdu_type = 0 := h (now, p) (by simp)
    have hs : ¬ Cdis.isSupported p.header.pdu_type.toNat = true := by rw [h0]; decide
    simp only [encodePdus, if_neg hs]
    exact ih fun q hq => h q (by simp [hq])
theorem encWriting_nil (e : Encoder) : (encWriting e []).2 = some ([], e) := by
  simp [encWriting, storeAll, octets, packBits]
theorem hollow_encode (env : Codec.Env) (o : Options) (clock : Nat → Nat) (e : Encoder) {b : Bytes} (h : Hollow b) :
    (encodeBuffer env o clock e b).2 = some ([], e) := by
  obtain ⟨hs, tail, rfl, ht⟩ := h
  obtain ⟨ps, h1, h2, h3⟩ := hollow_reads env.toEnv hs tail
  unfold encodeBuffer
  have hsh := Dis.pdu_short (env := env.toEnv) ht
  by_cases hn : ps = []
  · subst hn
    have hp : Dis.parse env.toEnv ((hs.flatMap fun h => (emptyOther h).ser) ++ tail) = .error := by
      have h0 : hs = [] := List.length_eq_zero_iff.1 h2.symm
      subst h0
      simp only [Dis.parse, Dis.parsePackets, P.many1, List.flatMap_nil, List.nil_append, hsh]
    rw [hp]
    exact encWriting_nil e
  · have hp : Dis.parse env.toEnv ((hs.flatMap fun h => (emptyOther h).ser) ++ tail) = .ok ps := by
      unfold Dis.parse
      rw [(Dis.parsePackets_iff _ _ ps tail).2 ⟨h1, hn, hsh⟩]
    rw [hp]
    have he := encodePdus_hollow env o e.state (stamp clock ps) (by
      intro q hq
      simp only [stamp, List.mem_map] at hq
      obtain ⟨x, hx, rfl⟩ := hq
      exact h3 _ (List.fst_mem_of_mem_zipIdx hx))
    simp only [he]
    exact encWriting_nil e
theorem hollow_decode (env : Codec.Env) (o : Options) (grow : Nat → Nat) (s : DecState) (b : Bytes) :
    ∃ ev out, decodeBuffer env o grow s b = (ev, some (out, s)) ∧ Hollow (out.take 1500) := by
  obtain ⟨out, mid, h, hm⟩ := C43_packet_violated env o grow s b
  refine ⟨_, out, h, ?_⟩
  cases hp : Cdis.parsePackets env.toEnv b with
  | none => rw [hp] at hm; obtain ⟨rfl, -⟩ := hm; exact ⟨[], [], rfl, by decide⟩
  | some cs =>
    rw [hp] at hm
    obtain ⟨rfl, -⟩ := hm
    have := hollow_take ((cs.filter fun c => decide (¬ Carried c.header.pdu_type)).map (·.header)) 1500
    rwa [List.flatMap_map] at this

/-- **C74, violated.** In a gateway that hears itself every datagram from elsewhere stays for ever: in every run the number of
datagrams that are on their way is the number of datagrams that have ever come from elsewhere. -/
theorem C74_echo_violated {env : Codec.Env} {o o' : Options} {grow : Nat → Nat} {g : Echo} (h : Echo.Reach env o o' grow {} g) :
    g.toEnc.length + g.toDec.length = g.arrived := by
  induction h with
  | refl => rfl
  | step _ hs ih =>
    cases hs with
    | dis b => simp only [List.length_append, List.length_cons, List.length_nil]; omega
    | cdis b => simp only [List.length_append, List.length_cons, List.length_nil]; omega
    | encode clock h1 h2 => rw [h1] at ih; simp only [List.length_append, List.length_cons, List.length_nil] at ih ⊢; omega
    | decode h1 h2 => rw [h1] at ih; simp only [List.length_append, List.length_cons, List.length_nil] at ih ⊢; omega

/-- There is something on the way, and on the DIS side only what the decoder sent. -/
def Echo.Busy (g : Echo) : Prop := g.toEnc ++ g.toDec ≠ [] ∧ ∀ b ∈ g.toEnc, Hollow b
theorem Echo.busy_step (env : Codec.Env) (o o' : Options) (grow : Nat → Nat) (clock : Nat → Nat) {x : Echo} (h : Echo.Busy x) :
    ∃ y, Echo.Step env o o' grow x y ∧ Echo.Busy y ∧ y.arrived = x.arrived := by
  obtain ⟨h1, h2⟩ := h
  cases ht : x.toEnc with
  | cons b rest =>
    have hb := hollow_encode env o clock x.enc (h2 b (by simp [ht]))
    exact ⟨_, .encode x clock ht (Prod.ext rfl hb), ⟨by simp, fun c hc => h2 c (by rw [ht]; simp [hc])⟩, rfl⟩
  | nil =>
    cases hc : x.toDec with
    | nil => rw [ht, hc] at h1; exact absurd rfl h1
    | cons b rest =>
      obtain ⟨ev, out, h3, h4⟩ := hollow_decode env o' grow x.dec b
      refine ⟨_, .decode x hc h3, ⟨by simp, ?_⟩, rfl⟩
      intro c hcm
      simp only [ht, List.nil_append, List.mem_singleton] at hcm
      rw [hcm]; exact h4
theorem Echo.busy_keeps {env : Codec.Env} {o o' : Options} {grow : Nat → Nat} {x y : Echo} (h : Echo.Busy x) (hs : Echo.Step env o o' grow x y)
    (ha : y.arrived = x.arrived) : Echo.Busy y ∧ y.enc = x.enc ∧ y.dec = x.dec := by
  obtain ⟨h1, h2⟩ := h
  cases hs with
  | dis b => simp at ha
  | cdis b => simp at ha
  | @encode clock b out rest ev e ht hb =>
    have hh := hollow_encode env o clock x.enc (h2 b (by simp [ht]))
    rw [hb] at hh
    simp only [Option.some.injEq, Prod.mk.injEq] at hh
    exact ⟨⟨by simp, fun c hc => h2 c (by rw [ht]; simp [hc])⟩, hh.2, rfl⟩
  | @decode b out rest ev s ht hb =>
    obtain ⟨ev', out', h3, h4⟩ := hollow_decode env o' grow x.dec b
    rw [hb] at h3
    simp only [Option.some.injEq, Prod.mk.injEq] at h3
    obtain ⟨-, rfl, rfl⟩ := h3
    refine ⟨⟨by simp, ?_⟩, rfl, rfl⟩
    intro c hc
    rcases List.mem_append.1 hc with hc | hc
    · exact h2 c hc
    · rw [List.mem_singleton.1 hc]; exact h4
theorem Echo.arrived_step {env : Codec.Env} {o o' : Options} {grow : Nat → Nat} {x y : Echo} (hs : Echo.Step env o o' grow x y) :
    x.arrived ≤ y.arrived := by
  cases hs <;> simp
theorem Echo.arrived_le {env : Codec.Env} {o o' : Options} {grow : Nat → Nat} {x y : Echo} (h : Echo.Reach env o o' grow x y) :
    x.arrived ≤ y.arrived := by
  induction h with
  | refl => exact Nat.le_refl _
  | step _ hs ih => exact Nat.le_trans ih (Echo.arrived_step hs)

/-- **C74, violated.** It never comes to rest: once a datagram is on its way (any datagram that came on the C-DIS side, or that
the encoder has dealt with), then, although nothing more comes from elsewhere and whatever the order in which the tasks run,
there is always another datagram to deal with, and none of them changes what the gateway knows. -/
theorem C74_restless_violated {env : Codec.Env} {o o' : Options} {grow : Nat → Nat} {x y : Echo} (hx : x.toEnc = []) (hd : x.toDec ≠ [])
    (h : Echo.Reach env o o' grow x y) (ha : y.arrived = x.arrived) (clock : Nat → Nat) :
    (∃ z, Echo.Step env o o' grow y z ∧ z.arrived = x.arrived) ∧ y.enc = x.enc ∧ y.dec = x.dec := by
  have hb : Echo.Busy x := ⟨by simp [hx, hd], by simp [hx]⟩
  have key : Echo.Busy y ∧ y.enc = x.enc ∧ y.dec = x.dec := by
    clear clock
    induction h with
    | refl => exact ⟨hb, rfl, rfl⟩
    | @step a c hr hs ih =>
      have h1 := Echo.arrived_le hr
      have h2 := Echo.arrived_step hs
      obtain ⟨i1, i2, i3⟩ := ih (by omega)
      obtain ⟨j1, j2, j3⟩ := Echo.busy_keeps i1 hs (by omega)
      exact ⟨j1, j2.trans i2, j3.trans i3⟩
  obtain ⟨z, h1, -, h3⟩ := Echo.busy_step env o o' grow clock key.1
  exact ⟨⟨z, h1, h3.trans ha⟩, key.2⟩

/-! ## Concrete cases -/

/-- A host with one network interface, 192.168.178.11. -/
def sampleOs : Os :=
  { ips := [.v4 0x7F000001, .v4 0xC0A8B20B], loopback := .v4 0x7F000001, route := fun _ => .v4 0xC0A8B20B,
    canBind := fun a => decide (a.ip = .v4 0 ∨ a.ip = .v4 0x7F000001 ∨ a.ip = .v4 0xC0A8B20B)
    loopback_here := by decide
    route_here := fun _ => by decide
    specific := by decide
    bind_here := by
      intro a h
      simp only [decide_eq_true_eq] at h
      rcases h with h | h | h
      · exact .inl (.inl h)
      · exact .inr (by rw [h]; decide)
      · exact .inr (by rw [h]; decide) }
/-- The socket addresses of the examples. -/
def sampleAddr : String → Option SocketAddr
  | "192.168.178.11:3000" => some ⟨.v4 0xC0A8B20B, 3000⟩
  | "192.168.178.11:3001" => some ⟨.v4 0xC0A8B20B, 3001⟩
  | "0.0.0.0:3000" => some ⟨.v4 0, 3000⟩
  | "239.1.2.3:3001" => some ⟨.v4 0xEF010203, 3001⟩
  | _ => none

/-- The sample configuration that comes with the gateway (cdis-gateway/config/sample_config.toml, broadcast): it starts, both
sockets are bound, it hears neither the DIS broadcasts (192.168.178.255) nor does anything it sends leave the host. -/
theorem C74_sample : ∃ c d s, config ⟨sampleAddr, sampleLower⟩
      { dis := { uri := "192.168.178.255:3000", interface := "192.168.178.11:3000", mode := some "broadcast", ttl := some 1 },
        cdis := { uri := "192.168.178.255:3001", interface := "192.168.178.11:3001", mode := some "broadcast", ttl := some 1 } } = .ok c
    ∧ Bound sampleOs c.dis_socket d ∧ Bound sampleOs c.cdis_socket s
    ∧ ¬ Sock.hears (d.name none) ⟨.v4 0xC0A8B2FF, 3000⟩ ∧ sampleOs.Stays c.dis_socket.address := by
  refine ⟨_, _, _, rfl, ⟨rfl, by decide, by decide⟩, ⟨rfl, by decide, by decide⟩, ?_, by unfold Os.Stays; decide⟩
  exact C74_broadcast_violated (os := sampleOs) (ep := ⟨.broadCast, ⟨.v4 0xC0A8B20B, 3000⟩, ⟨.v4 0xC0A8B20B, 3000⟩, 1, true⟩) ⟨rfl, by decide, by decide⟩ (by decide) none _ (by decide)
/-- The hypotheses of `C74_own_violated` and of `C74_multicast_violated` are met. -/
theorem C74_witness : (∃ ep s, udpEndpoint ⟨sampleAddr, sampleLower⟩ { uri := "192.168.178.255:3000", interface := "0.0.0.0:3000" } = .ok ep
      ∧ Bound sampleOs ep s ∧ ep.interface.ip.Unspecified ∧ ep.address = ep.interface ∧ ep.block_own_socket = true)
    ∧ ∃ ep, udpEndpoint ⟨sampleAddr, sampleLower⟩ { uri := "239.1.2.3:3001", interface := "239.1.2.3:3001", mode := some "multicast" } = .ok ep
      ∧ ep.mode = .multiCast ∧ createUdpSocket sampleOs ep = none :=
  ⟨⟨_, _, rfl, ⟨rfl, by decide, by decide⟩, by decide, rfl, rfl⟩, ⟨_, rfl, rfl, by decide⟩⟩

end Verif.Props
