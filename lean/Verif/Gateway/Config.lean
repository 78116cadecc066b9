import Verif.Gateway.Codec

/-! # The gateway's configuration (cdis-gateway/src/config.rs)

The TOML parser (which yields a `ConfigSpec`) and the parser of socket addresses are parameters. -/

namespace Verif.Gateway
open Verif.Codec

/-- What the standard library supplies. -/
structure ConfigEnv (Addr : Type) where
  /-- `str::parse::<SocketAddr>`; `none` is an error -/
  parseAddr : String → Option Addr
  /-- the lower case of a character (`str::to_lowercase` works character by character, except for the two forms of a
  small sigma, neither of which is ASCII) -/
  lower : Char → List Char

/-- `str::to_lowercase` -/
def ConfigEnv.toLowercase {Addr : Type} (env : ConfigEnv Addr) (s : String) : String := String.ofList (s.toList.flatMap env.lower)

/-- config.rs:385-389 `ConfigError` -/
inductive ConfigError where
  | gatewayMode
  | udpMode
  | optimizationMode
  deriving Repr, DecidableEq

/-- config.rs:158-163 `UdpMode` -/
inductive UdpMode where
  | uniCast
  | broadCast
  | multiCast
  deriving Repr, DecidableEq

/-- An `Ok`, an `Err` or a panic. -/
inductive Conf (α : Type) where
  | ok (a : α)
  | err (e : ConfigError)
  | panic
  deriving DecidableEq
/-- The operator `?`. -/
def Conf.bind {α β : Type} : Conf α → (α → Conf β) → Conf β
  | .ok a, f => f a
  | .err e, _ => .err e
  | .panic, _ => .panic

/-- config.rs:78-85 -/
def gatewayMode {Addr : Type} (env : ConfigEnv Addr) (s : String) : Conf UpdateMode :=
  let l := env.toLowercase s
  if l = "full_update" then .ok .full else if l = "partial_update" then .ok .partial else .err .gatewayMode
/-- config.rs:104-110 -/
def optimization {Addr : Type} (env : ConfigEnv Addr) (s : String) : Conf OptimizeMode :=
  let l := env.toLowercase s
  if l = "bandwidth" then .ok .bandwidth else if l = "completeness" then .ok .completeness else .err .optimizationMode
/-- config.rs:168-176 -/
def udpMode {Addr : Type} (env : ConfigEnv Addr) (s : String) : Conf UdpMode :=
  let l := env.toLowercase s
  if l = "unicast" then .ok .uniCast else if l = "broadcast" then .ok .broadCast
  else if l = "multicast" then .ok .multiCast else .err .udpMode

/-- config.rs:340-346 `EndPointSpec` -/
structure EndPointSpec where
  uri : String
  interface : String
  mode : Option String := none
  ttl : Option UInt16 := none
  block_own_socket : Option Bool := none
/-- config.rs:123-129 `UdpEndpoint` -/
structure UdpEndpoint (Addr : Type) where
  mode : UdpMode
  interface : Addr
  address : Addr
  ttl : UInt16
  block_own_socket : Bool
/-- config.rs:134-154: both addresses are parsed from `interface`, and a failure is a panic. -/
def udpEndpoint {Addr : Type} (env : ConfigEnv Addr) (s : EndPointSpec) : Conf (UdpEndpoint Addr) :=
  ((s.mode.map (udpMode env)).getD (.ok .uniCast)).bind fun mode =>
    match env.parseAddr s.interface with
    | none => .panic
    | some interface =>
      match env.parseAddr s.interface with
      | none => .panic
      | some address => .ok ⟨mode, interface, address, s.ttl.getD 1, s.block_own_socket.getD true⟩

/-- config.rs:359-381 `FederationSpec` (the prefixes `hbt_espdu_kind_`, `hbt_espdu_platform_`, `hbt_pdu_` are left out) -/
structure FederationSpec where
  mplier : Option Fl := none
  cultural_feature : Option Fl := none
  environmental : Option Fl := none
  expendable : Option Fl := none
  life_form : Option Fl := none
  munition : Option Fl := none
  radio : Option Fl := none
  sensor : Option Fl := none
  supply : Option Fl := none
  air : Option Fl := none
  land : Option Fl := none
  space : Option Fl := none
  subsurface : Option Fl := none
  surface : Option Fl := none
  designator : Option Fl := none
  ee : Option Fl := none
  iff : Option Fl := none
  transmitter : Option Fl := none
  emitter : Option Fl := none
  stationary : Option Fl := none
  timeout_mplier : Option Fl := none
/-- The parameters of dis-rs/src/variable_parameters.rs that the gateway sets: those that the codec reads, and three others. -/
structure FederationParameters where
  heartbeats : Heartbeats := {}
  emitter : Fl := .num 5
  stationary : Fl := .num 1
  timeout_mplier : Fl := F32.round (24 / 10)
/-- config.rs:187-252 `set_federation_parameters` -/
def setFederationParameters : Option FederationSpec → FederationParameters
  | none => {}
  | some s =>
    { heartbeats :=
        { cultural_feature := s.cultural_feature.getD (.num 5),
          environmental := s.environmental.getD (.num 5),
          expendable := s.expendable.getD (.num 5),
          life_form := s.life_form.getD (.num 5),
          munition := s.munition.getD (.num 5),
          radio := s.radio.getD (.num 5),
          sensor := s.sensor.getD (.num 5),
          supply := s.supply.getD (.num 5),
          air := s.air.getD (.num 5),
          land := s.land.getD (.num 5),
          space := s.space.getD (.num 5),
          subsurface := s.subsurface.getD (.num 5),
          surface := s.surface.getD (.num 5),
          designator := s.designator.getD (.num 5),
          ee := s.ee.getD (.num 5),
          iff := s.iff.getD (.num 10),
          transmitter := s.transmitter.getD (.num 2) }
      emitter := s.emitter.getD (.num 5), stationary := s.stationary.getD (.num 1),
      timeout_mplier := s.timeout_mplier.getD (F32.round (24 / 10)) }

/-- config.rs:323-327 `MetaData`, with the defaults of 329-337 -/
structure MetaData where
  name : String := "Unnamed configuration"
  author : String := "Unknown author"
  version : String := "Not versioned"
  deriving DecidableEq
/-- config.rs:311-320 `ConfigSpec`; `site` is its port, `encoder` its `optimization`; `block_host` is not read. -/
structure ConfigSpec where
  metadata : Option MetaData := none
  update_mode : Option String := none
  block_host : Option Bool := none
  dis : EndPointSpec
  cdis : EndPointSpec
  site : Option UInt16 := none
  encoder : Option (Option String) := none
  federation : Option FederationSpec := none
/-- config.rs:17-26 `Config` -/
structure Config (Addr : Type) where
  dis_socket : UdpEndpoint Addr
  cdis_socket : UdpEndpoint Addr
  mode : UpdateMode
  site_host : UInt16
  federation_parameters : FederationParameters
  hbt_cdis_full_update_mplier : Fl
  optimization : OptimizeMode
  metaData : MetaData

/-- config.rs:31-68 `Config::try_from` -/
def config {Addr : Type} (env : ConfigEnv Addr) (s : ConfigSpec) : Conf (Config Addr) :=
  ((s.update_mode.map (gatewayMode env)).getD (.ok .full)).bind fun mode =>
  (udpEndpoint env s.dis).bind fun dis_socket =>
  (udpEndpoint env s.cdis).bind fun cdis_socket =>
  (match s.encoder with
    | some (some val) => optimization env val
    | _ => .ok .completeness).bind fun opt =>
  .ok { dis_socket, cdis_socket, mode, site_host := s.site.getD 8080,
        federation_parameters := setFederationParameters s.federation,
        hbt_cdis_full_update_mplier := (s.federation.bind (·.mplier)).getD (F32.round (24 / 10)),
        optimization := opt, metaData := s.metadata.getD {} }

/-- cdis-gateway/src/codec.rs:22-32 and 108-117: the options of the encoder and of the decoder. -/
def Config.options {Addr : Type} (c : Config Addr) : Options :=
  { update_mode := match c.mode with | .full => .full | .partial => .partial, optimize_mode := c.optimization,
    heartbeats := c.federation_parameters.heartbeats, mplier := c.hbt_cdis_full_update_mplier }

end Verif.Gateway
