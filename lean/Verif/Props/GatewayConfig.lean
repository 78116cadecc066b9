import Verif.Gateway.Config

/-! # C45: configuration -/

namespace Verif.Props
open Verif.Gateway Verif.Codec

/-! ## Specification -/

/-- What is used of the Unicode tables behind `to_lowercase`: ASCII characters have their ASCII lower case; the lower case of
every other character contains a character that is not ASCII, except for the Kelvin sign, whose lower case is `k`. -/
structure LowerOk (lower : Char → List Char) : Prop where
  ascii : ∀ c : Char, c.toNat < 128 → lower c = [c.toLower]
  kelvin : lower (Char.ofNat 0x212A) = ['k']
  other : ∀ c : Char, 128 ≤ c.toNat → c ≠ Char.ofNat 0x212A → ∃ d ∈ lower c, 128 ≤ d.toNat

/-- The string is the name, up to the case of ASCII letters. -/
def IsName (s name : String) : Prop := s.toList.map Char.toLower = name.toList
instance (s name : String) : Decidable (IsName s name) := inferInstanceAs (Decidable (_ = _))

/-! ## Lemmas -/

theorem lowercase_iff {Addr : Type} {env : ConfigEnv Addr} (h : LowerOk env.lower) (s name : String)
    (ha : ∀ c ∈ name.toList, c.toNat < 128 ∧ c ≠ 'k') : env.toLowercase s = name ↔ IsName s name := by
  have key : ∀ l : List Char, (∀ c ∈ l.flatMap env.lower, c.toNat < 128 ∧ c ≠ 'k') → l.flatMap env.lower = l.map Char.toLower := by
    intro l
    induction l with
    | nil => intro _; rfl
    | cons c l ih =>
      intro hl
      simp only [List.flatMap_cons, List.mem_append] at hl
      have hc : c.toNat < 128 := by
        by_contra hn
        by_cases hk : c = Char.ofNat 0x212A
        · have := hl 'k' (.inl (by rw [hk, h.kelvin]; simp))
          exact this.2 rfl
        · obtain ⟨d, hd, hd'⟩ := h.other c (by omega) hk
          have := hl d (.inl hd)
          omega
      rw [List.flatMap_cons, h.ascii c hc, List.map_cons, ih fun d hd => hl d (.inr hd)]
      rfl
  unfold ConfigEnv.toLowercase IsName
  constructor
  · intro e
    have e' : s.toList.flatMap env.lower = name.toList := by rw [← e, String.toList_ofList]
    rw [← key _ (by rw [e']; exact ha), e']
  · intro e
    have hl : ∀ c : Char, 128 ≤ c.toNat → c.toLower = c := by
      intro c hc
      unfold Char.toLower
      rw [dif_neg]
      intro hx
      have h1 : c.val ≤ 'Z'.val := hx.2
      have h2 : c.toNat ≤ 90 := UInt32.le_iff_toNat_le.1 h1
      omega
    have hs : ∀ c ∈ s.toList, c.toNat < 128 := by
      intro c hc
      by_contra hn
      have hm : c.toLower ∈ name.toList := by rw [← e]; exact List.mem_map_of_mem hc
      rw [hl c (by omega)] at hm
      exact hn (ha c hm).1
    have e' : s.toList.flatMap env.lower = s.toList.map Char.toLower := by
      have : ∀ l : List Char, (∀ c ∈ l, c.toNat < 128) → l.flatMap env.lower = l.map Char.toLower := by
        intro l
        induction l with
        | nil => intro _; rfl
        | cons c l ih => intro hl; rw [List.flatMap_cons, h.ascii c (hl c (by simp)), List.map_cons, ih fun d hd => hl d (by simp [hd])]; rfl
      exact this _ hs
    rw [e', e, String.ofList_toList]

/-! ## Theorems -/

/-- **C45.** The update mode: exactly the two names, in any case, are accepted. -/
theorem C45_update_mode {Addr : Type} {env : ConfigEnv Addr} (h : LowerOk env.lower) (s : String) :
    gatewayMode env s = if IsName s "full_update" then .ok .full else if IsName s "partial_update" then .ok .partial
      else .err .gatewayMode := by
  simp only [gatewayMode, lowercase_iff h s "full_update" (by decide), lowercase_iff h s "partial_update" (by decide)]
/-- **C45.** The optimization. -/
theorem C45_optimization {Addr : Type} {env : ConfigEnv Addr} (h : LowerOk env.lower) (s : String) :
    optimization env s = if IsName s "bandwidth" then .ok .bandwidth else if IsName s "completeness" then .ok .completeness
      else .err .optimizationMode := by
  simp only [optimization, lowercase_iff h s "bandwidth" (by decide), lowercase_iff h s "completeness" (by decide)]
/-- **C45.** The mode of an endpoint. -/
theorem C45_udp_mode {Addr : Type} {env : ConfigEnv Addr} (h : LowerOk env.lower) (s : String) :
    udpMode env s = if IsName s "unicast" then .ok .uniCast else if IsName s "broadcast" then .ok .broadCast
      else if IsName s "multicast" then .ok .multiCast else .err .udpMode := by
  simp only [udpMode, lowercase_iff h s "unicast" (by decide), lowercase_iff h s "broadcast" (by decide),
    lowercase_iff h s "multicast" (by decide)]

/-- An optional setting: absent, or one of the accepted names. -/
def Setting (v : Option String) (default : String) (name : String) : Prop :=
  match v with
  | none => name = default
  | some s => IsName s name

/-- `Endpoint parse spec ep`: the endpoint that a specification describes: the mode by its name (unicast if it is left out),
both addresses from the interface, a time to live of 1 and blocking of the own socket unless given. -/
def Endpoint {Addr : Type} (parse : String → Option Addr) (spec : EndPointSpec) (ep : UdpEndpoint Addr) : Prop :=
  Setting spec.mode "unicast" (match ep.mode with | .uniCast => "unicast" | .broadCast => "broadcast" | .multiCast => "multicast")
  ∧ parse spec.interface = some ep.interface ∧ parse spec.interface = some ep.address
  ∧ ep.ttl = spec.ttl.getD 1 ∧ ep.block_own_socket = spec.block_own_socket.getD true

theorem isName_unique {s a b : String} (ha : IsName s a) (hb : IsName s b) : a = b := by
  unfold IsName at *
  rw [ha] at hb
  exact String.toList_injective hb

theorem C45_endpoint {Addr : Type} {env : ConfigEnv Addr} (h : LowerOk env.lower) (spec : EndPointSpec) (ep : UdpEndpoint Addr) :
    udpEndpoint env spec = .ok ep ↔ Endpoint env.parseAddr spec ep := by
  obtain ⟨uri, intf, mode, ttl, block⟩ := spec
  obtain ⟨m, i, a, t, b⟩ := ep
  have hm : (mode.map (udpMode env)).getD (.ok .uniCast) = .ok m ↔
      Setting mode "unicast" (match m with | .uniCast => "unicast" | .broadCast => "broadcast" | .multiCast => "multicast") := by
    cases mode with
    | none => cases m <;> simp [Setting]
    | some s =>
      simp only [Option.map_some, Option.getD_some, C45_udp_mode h, Setting]
      by_cases h1 : IsName s "unicast"
      · rw [if_pos h1]
        cases m <;> simp [h1]
        · intro h2; exact absurd (isName_unique h1 h2) (by decide)
        · intro h2; exact absurd (isName_unique h1 h2) (by decide)
      · by_cases h2 : IsName s "broadcast"
        · rw [if_neg h1, if_pos h2]
          cases m <;> simp [h1, h2]
          · intro h3; exact absurd (isName_unique h2 h3) (by decide)
        · by_cases h3 : IsName s "multicast"
          · rw [if_neg h1, if_neg h2, if_pos h3]
            cases m <;> simp [h1, h2, h3]
          · rw [if_neg h1, if_neg h2, if_neg h3]
            cases m <;> simp [h1, h2, h3]
  unfold udpEndpoint Endpoint
  dsimp only
  rw [← hm]
  cases hx : (mode.map (udpMode env)).getD (.ok .uniCast) with
  | err e => simp [Conf.bind]
  | panic => simp [Conf.bind]
  | ok m' =>
    simp only [Conf.bind, Conf.ok.injEq]
    cases hp : env.parseAddr intf with
    | none => simp
    | some x =>
      simp only [Conf.ok.injEq, UdpEndpoint.mk.injEq, Option.some.injEq]
      constructor <;> (rintro ⟨rfl, rfl, e, rfl, rfl⟩; subst e; simp)

/-- The configuration that a specification describes. -/
structure Describes {Addr : Type} (parse : String → Option Addr) (s : ConfigSpec) (c : Config Addr) : Prop where
  mode : Setting s.update_mode "full_update" (match c.mode with | .full => "full_update" | .partial => "partial_update")
  dis : Endpoint parse s.dis c.dis_socket
  cdis : Endpoint parse s.cdis c.cdis_socket
  site : c.site_host = s.site.getD 8080
  federation : c.federation_parameters = setFederationParameters s.federation
  mplier : c.hbt_cdis_full_update_mplier = (s.federation.bind (·.mplier)).getD (F32.round (24 / 10))
  optimization : Setting s.encoder.join "completeness"
    (match c.optimization with | .completeness => "completeness" | .bandwidth => "bandwidth")
  metaData : c.metaData = s.metadata.getD {}

/-- **C45.** A configuration is accepted exactly when it describes one, and then that one is used. -/
theorem C45_config {Addr : Type} {env : ConfigEnv Addr} (h : LowerOk env.lower) (s : ConfigSpec) (c : Config Addr) :
    config env s = .ok c ↔ Describes env.parseAddr s c := by
  have hm : ∀ m, (s.update_mode.map (gatewayMode env)).getD (.ok .full) = .ok m ↔
      Setting s.update_mode "full_update" (match m with | .full => "full_update" | .partial => "partial_update") := by
    intro m
    cases s.update_mode with
    | none => cases m <;> simp [Setting]
    | some v =>
      simp only [Option.map_some, Option.getD_some, C45_update_mode h, Setting]
      by_cases h1 : IsName v "full_update"
      · rw [if_pos h1]
        cases m <;> simp [h1]
        · intro h2; exact absurd (isName_unique h1 h2) (by decide)
      · by_cases h2 : IsName v "partial_update"
        · rw [if_neg h1, if_pos h2]; cases m <;> simp [h1, h2]
        · rw [if_neg h1, if_neg h2]; cases m <;> simp [h1, h2]
  have ho : ∀ m, (match s.encoder with
      | some (some val) => optimization env val
      | _ => .ok .completeness) = .ok m ↔ Setting s.encoder.join "completeness"
      (match m with | .completeness => "completeness" | .bandwidth => "bandwidth") := by
    intro m
    rcases s.encoder with _ | _ | v
    · cases m <;> simp [Setting]
    · cases m <;> simp [Setting]
    · simp only [Option.join_some, C45_optimization h, Setting]
      by_cases h1 : IsName v "bandwidth"
      · rw [if_pos h1]
        cases m <;> simp [h1]
        · intro h2; exact absurd (isName_unique h1 h2) (by decide)
      · by_cases h2 : IsName v "completeness"
        · rw [if_neg h1, if_pos h2]; cases m <;> simp [h1, h2]
        · rw [if_neg h1, if_neg h2]; cases m <;> simp [h1, h2]
  have bind_ok : ∀ {α β : Type} (x : Conf α) (f : α → Conf β) (b : β), x.bind f = .ok b ↔ ∃ a, x = .ok a ∧ f a = .ok b := by
    intro α β x f b
    cases x <;> simp [Conf.bind]
  unfold config
  simp only [bind_ok, hm, C45_endpoint h, Conf.ok.injEq]
  constructor
  · rintro ⟨m, h1, d, h2, cd, h3, op, h4, rfl⟩
    exact ⟨h1, h2, h3, rfl, rfl, rfl, (ho _).1 h4, rfl⟩
  · intro hd
    refine ⟨c.mode, hd.mode, c.dis_socket, hd.dis, c.cdis_socket, hd.cdis, c.optimization, (ho _).2 hd.optimization, ?_⟩
    obtain ⟨-, -, -, e1, e2, e3, -, e4⟩ := hd
    cases c
    simp only at e1 e2 e3 e4
    simp only [e1, e2, e3, e4]

/-- **C45, violated.** The configured remote address plays no role: the address that packets are sent to is the gateway's
own interface. -/
theorem C45_address_violated {Addr : Type} {env : ConfigEnv Addr} (h : LowerOk env.lower) (s : ConfigSpec) (c : Config Addr)
    (hc : config env s = .ok c) :
    c.dis_socket.address = c.dis_socket.interface ∧ c.cdis_socket.address = c.cdis_socket.interface
    ∧ ∀ u u', config env { s with dis := { s.dis with uri := u }, cdis := { s.cdis with uri := u' } } = .ok c := by
  have hd := (C45_config h s c).1 hc
  refine ⟨?_, ?_, fun u u' => hc⟩
  · have := hd.dis.2.1.symm.trans hd.dis.2.2.1
    exact (Option.some.inj this).symm
  · have := hd.cdis.2.1.symm.trans hd.cdis.2.2.1
    exact (Option.some.inj this).symm
/-- **C45, violated.** An interface that is not a socket address ends the program instead of being rejected. -/
theorem C45_bad_interface_panics_violated {Addr : Type} {env : ConfigEnv Addr} (s : ConfigSpec) (hm : s.update_mode = none)
    (hd : s.dis.mode = none) (hi : env.parseAddr s.dis.interface = none) : config env s = .panic := by
  unfold config udpEndpoint
  rw [hm, hd, hi]
  rfl
/-- **C45.** A name that is not known is rejected with the error that says which setting is wrong. -/
theorem C45_errors {Addr : Type} {env : ConfigEnv Addr} (h : LowerOk env.lower) (s : ConfigSpec) :
    (∀ m, s.update_mode = some m → ¬ IsName m "full_update" → ¬ IsName m "partial_update" → config env s = .err .gatewayMode)
    ∧ (s.update_mode = none → ∀ m, s.dis.mode = some m → ¬ IsName m "unicast" → ¬ IsName m "broadcast" → ¬ IsName m "multicast" →
        config env s = .err .udpMode) := by
  constructor
  · intro m e h1 h2
    unfold config
    rw [e, Option.map_some, Option.getD_some, C45_update_mode h, if_neg h1, if_neg h2]
    rfl
  · intro e0 m e h1 h2 h3
    unfold config udpEndpoint
    rw [e0, e, Option.map_some, Option.getD_some, C45_udp_mode h, if_neg h1, if_neg h2, if_neg h3]
    rfl
/-- **C45.** The codec runs with the configured mode, optimization and multiplier, and with every configured heartbeat
period; those left out have their defaults (5 s, IFF 10 s, Transmitter 2 s). -/
theorem C45_options {Addr : Type} (c : Config Addr) : c.options.update_mode = c.mode ∧ c.options.optimize_mode = c.optimization
    ∧ c.options.mplier = c.hbt_cdis_full_update_mplier ∧ c.options.heartbeats = c.federation_parameters.heartbeats := by
  refine ⟨?_, rfl, rfl, rfl⟩
  unfold Config.options
  cases c.mode <;> rfl
theorem C45_heartbeats (f : FederationSpec) :
    (setFederationParameters none).heartbeats = {} ∧
    let p := (setFederationParameters (some f)).heartbeats
    p.cultural_feature = f.cultural_feature.getD (.num 5) ∧ p.environmental = f.environmental.getD (.num 5) ∧
    p.expendable = f.expendable.getD (.num 5) ∧ p.life_form = f.life_form.getD (.num 5) ∧ p.munition = f.munition.getD (.num 5) ∧
    p.radio = f.radio.getD (.num 5) ∧ p.sensor = f.sensor.getD (.num 5) ∧ p.supply = f.supply.getD (.num 5) ∧
    p.air = f.air.getD (.num 5) ∧ p.land = f.land.getD (.num 5) ∧ p.space = f.space.getD (.num 5) ∧
    p.subsurface = f.subsurface.getD (.num 5) ∧ p.surface = f.surface.getD (.num 5) ∧ p.designator = f.designator.getD (.num 5) ∧
    p.ee = f.ee.getD (.num 5) ∧ p.iff = f.iff.getD (.num 10) ∧ p.transmitter = f.transmitter.getD (.num 2) :=
  ⟨rfl, rfl, rfl, rfl, rfl, rfl, rfl, rfl, rfl, rfl, rfl, rfl, rfl, rfl, rfl, rfl, rfl, rfl⟩

/-- The hypotheses can be met: a table of lower cases, and a specification with most settings given. -/
def sampleLower (c : Char) : List Char := if c.toNat < 128 then [c.toLower] else if c = Char.ofNat 0x212A then ['k'] else [c]
theorem sampleLower_ok : LowerOk sampleLower := by
  refine ⟨fun c h => if_pos h, rfl, fun c h hk => ⟨c, ?_, h⟩⟩
  unfold sampleLower
  rw [if_neg (by omega), if_neg hk]
  simp
theorem C45_witness : ∃ c, config (Addr := String) ⟨some, sampleLower⟩
    { update_mode := some "Partial_Update", dis := { uri := "a", interface := "b", mode := some "BROADCAST" },
      cdis := { uri := "c", interface := "d", ttl := some 4 }, encoder := some (some "bandWidth") } = .ok c
    ∧ c.mode = .partial ∧ c.dis_socket.mode = .broadCast ∧ c.cdis_socket.ttl = 4 ∧ c.optimization = .bandwidth
    ∧ c.dis_socket.address = "b" := ⟨_, rfl, rfl, rfl, rfl, rfl, rfl⟩

end Verif.Props
