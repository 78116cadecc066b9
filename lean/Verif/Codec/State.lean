import Verif.Codec.Bodies
import Verif.Dis.Utf8

/-! # Conversion of the bodies that have a history (cdis-assemble/src/{entity_state,designator,transmitter,iff,
electromagnetic_emission}/codec.rs)

`HashMap`s are functions to `Option`.  `Instant::now()` is a parameter `now` (nanoseconds since an arbitrary origin).
Simplification: one PDU sees one reading of the clock (the code reads it when it compares and again when it stores). -/

namespace Verif.Codec

/-! ## Options, clock, maps -/

/-- codec.rs:90-95 `CodecUpdateMode` -/
inductive UpdateMode where
  | full
  | «partial»
  deriving Repr, DecidableEq
/-- codec.rs:97-102 `CodecOptimizeMode` -/
inductive OptimizeMode where
  | bandwidth
  | completeness
  deriving Repr, DecidableEq
/-- The fields of dis-rs/src/variable_parameters.rs:35-63 that the codec reads (`f32` seconds). -/
structure Heartbeats where
  cultural_feature : Fl := .num 5
  environmental : Fl := .num 5
  expendable : Fl := .num 5
  life_form : Fl := .num 5
  munition : Fl := .num 5
  radio : Fl := .num 5
  sensor : Fl := .num 5
  supply : Fl := .num 5
  air : Fl := .num 5
  land : Fl := .num 5
  space : Fl := .num 5
  subsurface : Fl := .num 5
  surface : Fl := .num 5
  designator : Fl := .num 5
  ee : Fl := .num 5
  iff : Fl := .num 10
  transmitter : Fl := .num 2
  deriving DecidableEq
/-- codec.rs:104-109 `CodecOptions`; the defaults are those of `new_full_update` (112-119). -/
structure Options where
  update_mode : UpdateMode := .full
  optimize_mode : OptimizeMode := .completeness
  heartbeats : Heartbeats := {}
  mplier : Fl := F32.round (24 / 10)
  deriving DecidableEq

/-- codec.rs:148-156 `CodecStateResult` -/
inductive StateResult where
  | unaffected
  | entityState
  | ee
  | designator
  | transmitter
  | iff
  deriving Repr, DecidableEq

/-- A `HashMap`. -/
abbrev Map (K V : Type) := K → Option V
/-- `insert` -/
def Map.set {K V : Type} [DecidableEq K] (m : Map K V) (k : K) (v : V) : Map K V := fun k' => if k' = k then some v else m k'

/-- `heartbeat.elapsed().as_secs_f32()` (`elapsed` saturates at zero): seconds `as f32` plus nanoseconds `as f32` divided by
`1e9` -/
def elapsed (now heartbeat : Nat) : Fl :=
  Fl.add F32 (int32 ((now - heartbeat) / 1000000000 : Nat)) (div32 (int32 ((now - heartbeat) % 1000000000 : Nat)) (.num 1000000000))
/-- e.g. designator/codec.rs:222-225: `elapsed > hbt * mplier` -/
def timedOut (hbt mplier : Fl) (now heartbeat : Nat) : Bool := Fl.lt (mul32 hbt mplier) (elapsed now heartbeat)

/-- `a == b` on `f32` -/
def feq (a b : UInt32) : Bool := v32 a != .nan && v32 a == v32 b
/-- derived `PartialEq` of `VectorF32` -/
def veq (a b : Dis.VectorF32) : Bool := feq a.first b.first && feq a.second b.second && feq a.third b.third
/-- default values of DIS records -/
def zeroVec : Dis.VectorF32 := ⟨0, 0, 0⟩
def zeroId : Dis.EntityId := ⟨⟨0, 0⟩, 0⟩
def zeroType : Dis.EntityType := ⟨0, 0, 0, 0, 0, 0, 0⟩
def zeroLoc : Dis.Location := ⟨0, 0, 0⟩
def zeroOrient : Dis.Orientation := ⟨0, 0, 0⟩
/-- `WorldCoordinates::default()` -/
def zeroWorld : Cdis.WorldCoordinates := ⟨0, 0, 0⟩

/-! ## Entity State -/

/-- entity_state/codec.rs:66-74 `DecoderStateEntityState`; the heartbeat, which nothing reads, is left out. -/
structure EsState where
  force_id : UInt8
  entity_type : Dis.EntityType
  entity_location : Dis.Location
  entity_orientation : Dis.Orientation
  entity_appearance : Dis.EntityAppearance
  entity_marking : Dis.EntityMarking
  deriving Repr, DecidableEq
/-- entity_state/codec.rs:77-87 -/
def EsState.of (x : Dis.EntityState) : EsState :=
  ⟨x.force_id, x.entity_type, x.entity_location, x.entity_orientation, x.entity_appearance, x.entity_marking⟩

/-- entity_state/codec.rs:326-347 -/
def esHeartbeat (o : Options) (t : Dis.EntityType) : Fl :=
  let h := o.heartbeats
  if t.kind = 5 then h.cultural_feature else if t.kind = 4 then h.environmental else if t.kind = 8 then h.expendable
  else if t.kind = 3 then h.life_form else if t.kind = 2 then h.munition else if t.kind = 7 then h.radio
  else if t.kind = 9 then h.sensor else if t.kind = 6 then h.supply
  else if t.kind = 1 then
    if t.domain = 2 then h.air else if t.domain = 1 then h.land else if t.domain = 5 then h.space
    else if t.domain = 4 then h.subsurface else if t.domain = 3 then h.surface else h.air
  else h.air

/-- The marking, the octets of a `String` in the DIS model, as a list of characters (on the octets of a `String` decoding loses
nothing, `Dis.lossy_octets`). -/
def markingChars (b : Bytes) : List Char := Dis.fromUtf8Lossy b
/-- The octets of a `String`. -/
def charsOctets (l : List Char) : Bytes := Dis.textOctets l

theorem markingChars_ascii {b : Bytes} (h : ∀ x ∈ b, x.toNat < 128) : markingChars b = b.map fun x => Char.ofNat x.toNat :=
  Dis.lossy_ascii h

/-- Big-endian number of a list of octets. -/
def fromBe (l : Bytes) : Nat := l.foldl (fun a b => a * 256 + b.toNat) 0
/-- The last `k` octets of a big-endian number. -/
def toBe : Nat → Nat → Bytes
  | 0, _ => []
  | k + 1, n => UInt8.ofNat (n / 256 ^ k) :: toBe k n
/-- entity_state/model.rs:136-146: a zero octet and the first 15 serialised octets as a `u128` -/
def drOtherEnc (x : Dis.DrOtherParameters) : Nat := fromBe ((0 :: x.ser).take 16)
/-- entity_state/model.rs:116-127 -/
def drOtherDec (n : Nat) (algorithm : UInt8) : Dis.DrOtherParameters :=
  match (Dis.DrOtherParameters.parse algorithm).run (toBe 15 n) with
  | .ok x _ => x
  | _ => .none (List.replicate 15 0)

/-- entity_state/codec.rs:299-309 -/
def drAccEnc (algorithm : UInt8) (v : Dis.VectorF32) : Option Cdis.Vec3 :=
  if algorithm = 4 ∨ algorithm = 5 ∨ algorithm = 8 ∨ algorithm = 9 then some (linEnc v) else none

/-- entity_state/codec.rs:105-169; `st` is the heartbeat stored for the entity.  `none` is the panic of
`CdisEntityMarking::new` (see `Cdis.Marking.new`). -/
def esEnc (env : Env) (o : Options) (now : Nat) (st : Option Nat) (x : Dis.EntityState) :
    Option (Cdis.EntityState × StateResult) :=
  let alg := x.dead_reckoning_parameters.algorithm
  let common : Cdis.EntityState :=
    { units := DEKAMETER, full_update_flag := false, entity_id := eidEnc x.entity_id, force_id := none, entity_type := none,
      alternate_entity_type := if x.alternative_entity_type = zeroType then none else some (etypeEnc x.alternative_entity_type),
      entity_linear_velocity := if alg = 0 ∨ alg = 1 then none else some (linEnc x.entity_linear_velocity),
      entity_location := none, entity_orientation := none, entity_appearance := none, dr_algorithm := alg.toNat,
      dr_params_other := if alg = 0 then none else nz (drOtherEnc x.dead_reckoning_parameters.other_parameters),
      dr_params_entity_linear_acceleration := drAccEnc alg x.dead_reckoning_parameters.linear_acceleration,
      dr_params_entity_angular_velocity :=
        if alg = 3 ∨ alg = 4 ∨ alg = 7 ∨ alg = 8 then some (angVelEnc x.dead_reckoning_parameters.angular_velocity) else none,
      entity_marking := none,
      capabilities := if o.optimize_mode = .completeness then nz x.entity_capabilities.raw.toNat else none,
      variable_parameters := x.variable_parameters.map vpEnc }
  if o.update_mode = .partial ∧ st.any (fun hb => !timedOut (esHeartbeat o x.entity_type) o.mplier now hb) = true then
    some (common, .unaffected)
  else
    (Cdis.Marking.new (markingChars x.entity_marking.marking_string)).map fun marking =>
      ({ common with
          units := (worldEnc env x.entity_location).2, full_update_flag := true, force_id := some x.force_id.toNat,
          entity_type := some (etypeEnc x.entity_type), entity_location := some (worldEnc env x.entity_location).1,
          entity_orientation := some (orientEnc x.entity_orientation),
          entity_appearance := some x.entity_appearance.raw.toNat, entity_marking := some marking },
       if o.update_mode = .partial then .entityState else .unaffected)

/-- `EntityMarking::default()` (dis-rs entity_state/model.rs:170-177): "Marking" in ASCII -/
def defaultMarking : Dis.EntityMarking := ⟨1, [77, 97, 114, 107, 105, 110, 103]⟩
/-- What stands for an absent field when there is no state (entity_state/codec.rs:183-230; the enumerations' defaults are 0,
the appearance's is `Unspecified(0)`). -/
def defaultEs : EsState := ⟨0, zeroType, zeroLoc, zeroOrient, ⟨.unspecified, 0⟩, defaultMarking⟩

/-- entity_state/codec.rs:171-260 -/
def esDec (env : Env) (o : Options) (st : Option EsState) (x : Cdis.EntityState) : Dis.EntityState × StateResult :=
  let fallback : EsState :=
    if o.update_mode = .partial ∧ x.full_update_flag = false then st.getD defaultEs else defaultEs
  let entity_type := (x.entity_type.map etypeDec).getD fallback.entity_type
  let alg := UInt8.ofNat x.dr_algorithm
  ({ entity_id := eidDec x.entity_id,
     force_id := (x.force_id.map UInt8.ofNat).getD fallback.force_id,
     entity_type := entity_type,
     alternative_entity_type := (x.alternate_entity_type.map etypeDec).getD zeroType,
     entity_linear_velocity := (x.entity_linear_velocity.map linDec).getD zeroVec,
     entity_location := (x.entity_location.map (worldDec env · x.units)).getD fallback.entity_location,
     entity_orientation := (x.entity_orientation.map orientDec).getD fallback.entity_orientation,
     entity_appearance := (x.entity_appearance.map fun raw =>
       Dis.EntityAppearance.fromBytes env.toEnv (UInt32.ofNat raw) entity_type).getD fallback.entity_appearance,
     dead_reckoning_parameters :=
       { algorithm := alg, other_parameters := (x.dr_params_other.map (drOtherDec · alg)).getD (.none (List.replicate 15 0)),
         linear_acceleration := (x.dr_params_entity_linear_acceleration.map linDec).getD zeroVec,
         angular_velocity := (x.dr_params_entity_angular_velocity.map angVelDec).getD zeroVec },
     entity_marking := (x.entity_marking.map fun m => (⟨1, charsOctets m.marking⟩ : Dis.EntityMarking)).getD fallback.entity_marking,
     entity_capabilities := Dis.EntityCapabilities.fromBytes env.toEnv (UInt32.ofNat (x.capabilities.getD 0)) entity_type,
     variable_parameters := x.variable_parameters.map vpDec },
   if o.update_mode = .partial ∧ x.full_update_flag = true then .entityState else .unaffected)

/-- entity_state/codec.rs:38-46: an existing state keeps its marking -/
def esStore (st : Option EsState) (x : Dis.EntityState) : EsState :=
  match st with
  | some s => { EsState.of x with entity_marking := s.entity_marking }
  | none => EsState.of x

/-! ## Designator -/

/-- designator/codec.rs:69-76 -/
structure DesState where
  code_name : UInt16
  designator_code : UInt16
  designator_power : UInt32
  designator_wavelength : UInt32
  designator_spot_location : Dis.Location
  deriving Repr, DecidableEq
/-- designator/codec.rs:79-88 (also 41-48: everything is refreshed) -/
def DesState.of (x : Dis.Designator) : DesState := ⟨x.system_name, x.code, x.power, x.wavelength, x.spot_location⟩

/-- designator/codec.rs:105-167 -/
def desEnc (env : Env) (o : Options) (now : Nat) (st : Option Nat) (x : Dis.Designator) : Cdis.Designator × StateResult :=
  let spot := !veq x.spot_wrt_designated_entity zeroVec
  let common : Cdis.Designator :=
    { units_location := if spot then (coordEnc x.spot_wrt_designated_entity).2 else CM, units_altitude := DEKAMETER,
      full_update_flag := false, designating_entity_id := eidEnc x.designating_entity_id, code_name := none,
      designated_entity_id := if x.designated_entity_id = zeroId then none else some (eidEnc x.designated_entity_id),
      designator_code := none, designator_power := none, designator_wavelength := none,
      spot_wrt_designated_entity := if spot then some (coordEnc x.spot_wrt_designated_entity).1 else none,
      designator_spot_location := none, dr_algorithm := some x.dead_reckoning_algorithm.toNat,
      dr_entity_linear_acceleration := drAccEnc x.dead_reckoning_algorithm x.linear_acceleration }
  if o.update_mode = .partial ∧ st.any (fun hb => !timedOut o.heartbeats.designator o.mplier now hb) = true then
    (common, .unaffected)
  else
    ({ common with
        units_altitude := (worldEnc env x.spot_location).2, full_update_flag := true, code_name := some x.system_name.toNat,
        designator_code := some x.code.toNat, designator_power := some ((u32FromF32 (v32 x.power)).getD 0),
        designator_wavelength := some ((u32FromF32 (v32 x.wavelength)).getD 0),
        designator_spot_location := some (worldEnc env x.spot_location).1 }, .designator)

/-- designator/codec.rs:169-219; the options are ignored -/
def desDec (env : Env) (st : Option DesState) (x : Cdis.Designator) : Dis.Designator × StateResult :=
  let fallback : DesState :=
    if x.full_update_flag then ⟨0, 0, 0, 0, worldDec env zeroWorld x.units_altitude⟩ else st.getD ⟨0, 0, 0, 0, zeroLoc⟩
  let num (n : Nat) : UInt32 := b32 (int32 n)
  ({ designating_entity_id := eidDec x.designating_entity_id,
     system_name := (x.code_name.map UInt16.ofNat).getD fallback.code_name,
     designated_entity_id := (x.designated_entity_id.map eidDec).getD zeroId,
     code := (x.designator_code.map UInt16.ofNat).getD fallback.designator_code,
     power := (x.designator_power.map num).getD fallback.designator_power,
     wavelength := (x.designator_wavelength.map num).getD fallback.designator_wavelength,
     spot_wrt_designated_entity := coordDec (x.spot_wrt_designated_entity.getD ⟨0, 0, 0⟩) x.units_location,
     spot_location := (x.designator_spot_location.map (worldDec env · x.units_altitude)).getD fallback.designator_spot_location,
     dead_reckoning_algorithm := UInt8.ofNat (x.dr_algorithm.getD 0),
     linear_acceleration := linDec (x.dr_entity_linear_acceleration.getD ⟨0, 0, 0⟩) },
   if x.full_update_flag then .designator else .unaffected)

/-! ## Transmitter -/

/-- transmitter/codec.rs:230-238 -/
structure TxState where
  radio_type : Dis.EntityType
  antenna_location : Dis.Location
  frequency : UInt64
  transmit_frequency_bandwidth : UInt32
  power : UInt32
  modulation_type : Dis.ModulationType
  deriving Repr, DecidableEq
/-- transmitter/codec.rs:241-251 (also 37-45) -/
def TxState.of (x : Dis.Transmitter) : TxState :=
  ⟨x.radio_type, x.antenna_location, x.frequency, x.transmit_frequency_bandwidth, x.power, x.modulation_type⟩

/-- transmitter/model.rs:244-257, 272-279 -/
def modTypeEnc (x : Dis.ModulationType) : Cdis.ModulationType :=
  ⟨pack Dis.SpreadSpectrum.wr x.spread_spectrum / 4096, x.major.toNat % 256,
   (if x.major = 0 then 0 else x.detail.toNat) % 256, x.radio_system.toNat % 256⟩
/-- transmitter/model.rs:259-267, 281-287; an unknown major modulation becomes `Unspecified` -/
def modTypeDec (x : Cdis.ModulationType) : Dis.ModulationType :=
  let s := unpack Dis.SpreadSpectrum.rd (x.spread_spectrum * 4096 % 65536)
  let rs := UInt16.ofNat x.radio_system
  if x.major_modulation = 0 then ⟨s, 0, 0, rs⟩
  else if x.major_modulation ≤ 8 then ⟨s, UInt16.ofNat x.major_modulation, UInt16.ofNat x.detail, rs⟩
  else ⟨s, 9, UInt16.ofNat x.detail, rs⟩
/-- `ModulationType::default()` on the DIS side and what decodes from the C-DIS default -/
def defaultModType : Dis.ModulationType := ⟨[0, 0, 0], 0, 0, 0⟩

/-- transmitter/codec.rs:279-287: an angle times `4095 / PI`, `as i16` -/
def patAngleEnc (b : UInt32) : Int := toI16 (mul32 (v32 b) orientScale)
/-- transmitter/codec.rs:294-303 -/
def patAngleDec (n : Int) : UInt32 := b32 (div32 (int32 n) orientScale)
/-- transmitter/codec.rs:277-289 -/
def patternEnc (x : Dis.BeamAntennaPattern) : Cdis.BeamAntennaPattern :=
  ⟨patAngleEnc x.beam_direction.psi, patAngleEnc x.beam_direction.theta, patAngleEnc x.beam_direction.phi,
   patAngleEnc x.azimuth_beamwidth, patAngleEnc x.elevation_beamwidth, x.reference_system.toNat, toI16 (v32 x.e_z),
   toI16 (v32 x.e_x), patAngleEnc x.phase⟩
/-- transmitter/codec.rs:291-304 -/
def patternDec (x : Cdis.BeamAntennaPattern) : Dis.BeamAntennaPattern :=
  ⟨⟨patAngleDec x.psi, patAngleDec x.theta, patAngleDec x.phi⟩, patAngleDec x.az_beamwidth, patAngleDec x.el_beamwidth,
   UInt8.ofNat x.reference_system, b32 (int32 x.e_z), b32 (int32 x.e_x), patAngleDec x.phase⟩
def zeroPattern : Dis.BeamAntennaPattern := ⟨zeroOrient, 0, 0, 0, 0, 0, 0⟩

/-- transmitter/codec.rs:53-128 -/
def txEnc (env : Env) (o : Options) (now : Nat) (st : Option Nat) (x : Dis.Transmitter) : Cdis.Transmitter × StateResult :=
  let common : Cdis.Transmitter :=
    { units_altitude := DEKAMETER, units_relative := CM, full_update_flag := false,
      radio_reference_id := eidEnc x.radio_reference_id, radio_number := x.radio_number.toNat, radio_type := none,
      transmit_state := x.transmit_state.toNat, input_source := x.input_source.toNat, antenna_location := none,
      relative_antenna_location := none,
      antenna_pattern_type := x.antenna_pattern.map fun _ => x.antenna_pattern_type.toNat,
      frequency := none, transmit_frequency_bandwidth := none, power := none, modulation_type := none,
      crypto_system := nz x.crypto_system.toNat,
      crypto_key_id := if x.crypto_system = 0 then none else some (pack Dis.CryptoKeyId.wr x.crypto_key_id),
      modulation_parameters := bytesEnc (x.modulation_parameters.getD []),
      antenna_pattern := x.antenna_pattern.map patternEnc,
      variable_transmitter_parameters := x.variable_transmitter_parameters.map fun p => ⟨p.record_type.toNat, bytesEnc p.fields⟩ }
  if o.update_mode = .partial ∧ st.any (fun hb => !timedOut o.heartbeats.transmitter o.mplier now hb) = true then
    (common, .unaffected)
  else
    ({ common with
        units_altitude := (worldEnc env x.antenna_location).2, units_relative := (coordEnc x.relative_antenna_location).2,
        full_update_flag := true, radio_type := some (etypeEnc x.radio_type),
        antenna_location := some (worldEnc env x.antenna_location).1,
        relative_antenna_location := some (coordEnc x.relative_antenna_location).1,
        frequency := some (txFreqEnc x.frequency), transmit_frequency_bandwidth := some (freqEnc x.transmit_frequency_bandwidth),
        power := some (Fl.toInt 0 255 (v32 x.power)).toNat, modulation_type := some (modTypeEnc x.modulation_type) },
     .transmitter)

/-- transmitter/codec.rs:130-213 -/
def txDec (env : Env) (o : Options) (st : Option TxState) (x : Cdis.Transmitter) : Dis.Transmitter × StateResult :=
  let useState : Prop := o.update_mode = .partial ∧ x.full_update_flag = false
  let fallback : TxState :=
    if useState then st.getD ⟨zeroType, zeroLoc, 0, 0, 0, defaultModType⟩
    else ⟨zeroType, worldDec env zeroWorld x.units_altitude, 0, 0, 0, defaultModType⟩
  let relative := (x.relative_antenna_location.map (coordDec · x.units_relative)).getD
    (if useState then zeroVec else coordDec ⟨0, 0, 0⟩ x.units_relative)
  ({ radio_reference_id := eidDec x.radio_reference_id, radio_number := UInt16.ofNat x.radio_number,
     radio_type := (x.radio_type.map etypeDec).getD fallback.radio_type,
     transmit_state := UInt8.ofNat x.transmit_state, input_source := UInt8.ofNat x.input_source,
     antenna_location := (x.antenna_location.map (worldDec env · x.units_altitude)).getD fallback.antenna_location,
     relative_antenna_location := relative,
     antenna_pattern_type := UInt16.ofNat (x.antenna_pattern_type.getD 0),
     frequency := (x.frequency.map txFreqDec).getD fallback.frequency,
     transmit_frequency_bandwidth := (x.transmit_frequency_bandwidth.map freqDec).getD fallback.transmit_frequency_bandwidth,
     power := (x.power.map fun p => b32 (int32 p)).getD fallback.power,
     modulation_type := (x.modulation_type.map modTypeDec).getD fallback.modulation_type,
     crypto_system := UInt16.ofNat (x.crypto_system.getD 0),
     crypto_key_id := unpack Dis.CryptoKeyId.rd (x.crypto_key_id.getD 0),
     modulation_parameters := some (bytesDec x.modulation_parameters),
     antenna_pattern := some ((x.antenna_pattern.map patternDec).getD zeroPattern),
     variable_transmitter_parameters := x.variable_transmitter_parameters.map fun p => ⟨UInt32.ofNat p.record_type, bytesDec p.fields⟩ },
   if o.update_mode = .partial ∧ x.full_update_flag = true then .transmitter else .unaffected)

/-! ## IFF -/

/-- iff/codec.rs:150: the DIS record; C-DIS uses it unchanged -/
def sysIdEnc (x : Dis.SystemId) : Cdis.SystemId :=
  ⟨x.system_type.toNat, x.system_name.toNat, x.system_mode.toNat, pack Dis.ChangeOptions.wr x.change_options⟩
def sysIdDec (x : Cdis.SystemId) : Dis.SystemId :=
  ⟨UInt16.ofNat x.system_type, UInt16.ofNat x.system_name, UInt8.ofNat x.system_mode, unpack Dis.ChangeOptions.rd x.change_options⟩
def defaultSysId : Dis.SystemId := ⟨0, 0, 0, [0, 0, 0, 0, 0, 0, 0, 0]⟩

/-- iff/codec.rs:118-131 -/
def opDataEnc (x : Dis.FundamentalOperationalData) : Cdis.OperationalData :=
  ⟨pack Dis.SystemStatus.wr x.system_status, nz x.data_field_1.toNat, pack Dis.InformationLayers.wr x.information_layers,
   nz x.data_field_2.toNat, nz x.parameter_1.toNat, nz x.parameter_2.toNat, nz x.parameter_3.toNat, nz x.parameter_4.toNat,
   nz x.parameter_5.toNat, nz x.parameter_6.toNat⟩
/-- iff/codec.rs:133-146: `with_parameter_1` is called six times, so parameter 1 is the sixth and the others stay 0 -/
def opDataDec (x : Cdis.OperationalData) : Dis.FundamentalOperationalData :=
  ⟨unpack Dis.SystemStatus.rd x.system_status, UInt8.ofNat (x.data_field_1.getD 0),
   unpack Dis.InformationLayers.rd x.information_layers, UInt8.ofNat (x.data_field_2.getD 0),
   UInt16.ofNat (x.parameter_6.getD 0), 0, 0, 0, 0, 0⟩

/-- iff/codec.rs:359-385 -/
def iffParamEnc (x : Dis.IffFundamentalParameterData) : Cdis.IffFundamentalParameterData :=
  ⟨(u8FromF32 (v32 x.erp)).getD 0, freqEnc x.frequency, (u16FromF32 (v32 x.pgrf)).getD 0,
   (u16FromF32 (v32 x.pulse_width)).getD 0, (u16FromF32 (v32 x.burst_length)).getD 0, x.applicable_modes.toNat,
   x.part_1.toNat, x.part_2.toNat, x.part_3.toNat⟩
def iffParamDec (x : Cdis.IffFundamentalParameterData) : Dis.IffFundamentalParameterData :=
  ⟨b32 (int32 x.erp), freqDec x.frequency, b32 (int32 x.pgrf), b32 (int32 x.pulse_width), b32 (int32 x.burst_length),
   UInt8.ofNat x.applicable_modes, UInt8.ofNat x.specific_1, UInt8.ofNat x.specific_2, UInt8.ofNat x.specific_3⟩

/-- records/codec.rs:138-144 -/
def layerHeaderEnc (h : Dis.LayerHeader) (bits : Nat) : Cdis.LayerHeader :=
  ⟨h.layer_number.toNat, h.layer_specific_information.toNat, bits % 65536⟩
/-- records/codec.rs:147-153 -/
def layerHeaderDec (h : Cdis.LayerHeader) (octets : Nat) : Dis.LayerHeader :=
  ⟨UInt8.ofNat h.layer_number, UInt8.ofNat h.layer_specific_information, UInt16.ofNat octets⟩
def iffRecEnc (x : Dis.IffDataRecord) : Cdis.IffDataRecord := ⟨x.record_type.toNat, bytesEnc x.record_specific_fields⟩
def iffRecDec (x : Cdis.IffDataRecord) : Dis.IffDataRecord := ⟨UInt32.ofNat x.record_type, bytesDec x.fields⟩

/-- iff/codec.rs:230-245 -/
def layer2Enc (x : Dis.IffLayer2) : Cdis.IffLayer2 :=
  let l : Cdis.IffLayer2 := ⟨⟨0, 0, 0⟩, beamEnc x.beam_data, x.operational_parameter_1.toNat, x.operational_parameter_2.toNat,
    x.iff_fundamental_parameters.map iffParamEnc⟩
  { l with layer_header := layerHeaderEnc x.layer_header l.lenBits }
/-- iff/codec.rs:247-258 -/
def layer2Dec (x : Cdis.IffLayer2) : Dis.IffLayer2 :=
  let l : Dis.IffLayer2 := ⟨⟨0, 0, 0⟩, beamDec x.beam_data, UInt8.ofNat x.operational_parameter_1,
    UInt8.ofNat x.operational_parameter_2, x.params.map iffParamDec⟩
  { l with layer_header := layerHeaderDec x.layer_header l.dataLen }

/-- iff/codec.rs:387-412 -/
def mode5Enc : Dis.Mode5BasicData → Cdis.Mode5BasicData
  | .interrogator s f e => .interrogator (pack Dis.Mode5InterrogatorStatus.wr s) (pack Dis.Mode5MessageFormats.wr f) (eidEnc e)
  | .transponder s pin f m o d n q => .transponder (pack Dis.Mode5TransponderStatus.wr s) pin.toNat
      (pack Dis.Mode5MessageFormats.wr f) (pack Dis.EnhancedMode1Code.wr m) o.toNat
      (pack Dis.Mode5TransponderSupplementalData.wr d) n.toNat q.toNat
/-- iff/codec.rs:414-436: the navigation source is not set (line 431 sets the national origin again) -/
def mode5Dec : Cdis.Mode5BasicData → Dis.Mode5BasicData
  | .interrogator s f e => .interrogator (unpack Dis.Mode5InterrogatorStatus.rd s) (unpack Dis.Mode5MessageFormats.rd f) (eidDec e)
  | .transponder s pin f m o d _ q => .transponder (unpack Dis.Mode5TransponderStatus.rd s) (UInt16.ofNat pin)
      (unpack Dis.Mode5MessageFormats.rd f) (unpack Dis.EnhancedMode1Code.rd m) (UInt16.ofNat o)
      (unpack Dis.Mode5TransponderSupplementalData.rd d) 0 (UInt8.ofNat q)
/-- iff/codec.rs:439-463: C-DIS uses the DIS records -/
def modeSEnc : Dis.ModeSBasicData → Cdis.ModeSBasicData
  | .interrogator s l => .interrogator (pack Dis.ModeSInterrogatorStatus.wr s) (pack Dis.ModeSLevelsPresent.wr l)
  | .transponder s l d i a t p h c => .transponder (pack Dis.ModeSTransponderStatus.wr s) (pack Dis.ModeSLevelsPresent.wr l)
      d.toNat i a.toNat t.toNat (pack Dis.DapSource.wr p) (pack Dis.ModeSAltitude.wr h) c.toNat
def modeSDec : Cdis.ModeSBasicData → Dis.ModeSBasicData
  | .interrogator s l => .interrogator (unpack Dis.ModeSInterrogatorStatus.rd s) (unpack Dis.ModeSLevelsPresent.rd l)
  | .transponder s l d i a t p h c => .transponder (unpack Dis.ModeSTransponderStatus.rd s) (unpack Dis.ModeSLevelsPresent.rd l)
      (UInt8.ofNat d) i (UInt32.ofNat a) (UInt8.ofNat t) (unpack Dis.DapSource.rd p) (unpack Dis.ModeSAltitude.rd h) (UInt8.ofNat c)

/-- iff/codec.rs:261-291 -/
def layer3Enc (x : Dis.IffLayer3) : Cdis.IffLayer3 :=
  let l : Cdis.IffLayer3 := ⟨⟨0, 0, 0⟩, x.reporting_simulation.site_id.toNat, x.reporting_simulation.application_id.toNat,
    mode5Enc x.mode_5_basic_data, x.data_records.map iffRecEnc⟩
  { l with layer_header := layerHeaderEnc x.layer_header l.lenBits }
def layer3Dec (x : Cdis.IffLayer3) : Dis.IffLayer3 :=
  let l : Dis.IffLayer3 := ⟨⟨0, 0, 0⟩, ⟨UInt16.ofNat x.site, UInt16.ofNat x.application⟩, mode5Dec x.mode_5_basic_data,
    x.records.map iffRecDec⟩
  { l with layer_header := layerHeaderDec x.layer_header l.dataLen }
/-- iff/codec.rs:293-323 -/
def layer4Enc (x : Dis.IffLayer4) : Cdis.IffLayer4 :=
  let l : Cdis.IffLayer4 := ⟨⟨0, 0, 0⟩, x.reporting_simulation.site_id.toNat, x.reporting_simulation.application_id.toNat,
    modeSEnc x.mode_s_basic_data, x.data_records.map iffRecEnc⟩
  { l with layer_header := layerHeaderEnc x.layer_header l.lenBits }
def layer4Dec (x : Cdis.IffLayer4) : Dis.IffLayer4 :=
  let l : Dis.IffLayer4 := ⟨⟨0, 0, 0⟩, ⟨UInt16.ofNat x.site, UInt16.ofNat x.application⟩, modeSDec x.mode_s_basic_data,
    x.records.map iffRecDec⟩
  { l with layer_header := layerHeaderDec x.layer_header l.dataLen }
/-- iff/codec.rs:325-357 -/
def layer5Enc (x : Dis.IffLayer5) : Cdis.IffLayer5 :=
  let l : Cdis.IffLayer5 := ⟨⟨0, 0, 0⟩, x.reporting_simulation.site_id.toNat, x.reporting_simulation.application_id.toNat,
    pack Dis.InformationLayers.wr x.applicable_layers, x.data_category.toNat, x.data_records.map iffRecEnc⟩
  { l with layer_header := layerHeaderEnc x.layer_header l.lenBits }
def layer5Dec (x : Cdis.IffLayer5) : Dis.IffLayer5 :=
  let l : Dis.IffLayer5 := ⟨⟨0, 0, 0⟩, ⟨UInt16.ofNat x.site, UInt16.ofNat x.application⟩,
    unpack Dis.InformationLayers.rd x.applicable_layers, UInt8.ofNat x.data_category, x.records.map iffRecDec⟩
  { l with layer_header := layerHeaderDec x.layer_header l.dataLen }

/-- `is_zero` of `f32` -/
def isZero32 (b : UInt32) : Bool := v32 b == .num 0
/-- iff/codec.rs:148-184; the full update flag is always false -/
def iffEnc (o : Options) (now : Nat) (st : Option Nat) (x : Dis.Iff) : Cdis.Iff × StateResult :=
  let omitted : Bool := decide (o.update_mode = .partial) && st.any (fun hb => !timedOut o.heartbeats.iff o.mplier now hb)
  let zero := isZero32 x.relative_antenna_location.first && isZero32 x.relative_antenna_location.second
    && isZero32 x.relative_antenna_location.third
  ({ relative_antenna_location_units := if zero then CM else (coordEnc x.relative_antenna_location).2,
     full_update_flag := false, emitting_entity_id := eidEnc x.emitting_entity_id,
     event_id := if x.event_id.event_id = 0 ∧ x.event_id.simulation_address.application_id = 0
       ∧ x.event_id.simulation_address.site_id = 0 then none else some (evidEnc x.event_id),
     relative_antenna_location := if zero then none else some (coordEnc x.relative_antenna_location).1,
     system_id := if omitted then none else some (sysIdEnc x.system_id),
     system_designator := x.system_designator.toNat, system_specific_data := nz x.system_specific_data.toNat,
     operational := opDataEnc x.fundamental_operational_data, layer_2 := x.layer_2.map layer2Enc,
     layer_3 := x.layer_3.map layer3Enc, layer_4 := x.layer_4.map layer4Enc, layer_5 := x.layer_5.map layer5Enc },
   if omitted then .unaffected else .iff)

/-- iff/codec.rs:186-227; the state is the stored system id -/
def iffDec (o : Options) (st : Option Dis.SystemId) (x : Cdis.Iff) : Dis.Iff × StateResult :=
  let fallback := if o.update_mode = .partial ∧ x.full_update_flag = false then st.getD defaultSysId else defaultSysId
  ({ emitting_entity_id := eidDec x.emitting_entity_id, event_id := (x.event_id.map evidDec).getD ⟨⟨0, 0⟩, 0⟩,
     relative_antenna_location :=
       (x.relative_antenna_location.map (coordDec · x.relative_antenna_location_units)).getD zeroVec,
     system_id := (x.system_id.map sysIdDec).getD fallback, system_designator := UInt8.ofNat x.system_designator,
     system_specific_data := UInt8.ofNat (x.system_specific_data.getD 0),
     fundamental_operational_data := opDataDec x.operational, layer_2 := x.layer_2.map layer2Dec,
     layer_3 := x.layer_3.map layer3Dec, layer_4 := x.layer_4.map layer4Dec, layer_5 := x.layer_5.map layer5Dec },
   if o.update_mode = .partial ∧ x.full_update_flag = true then .iff else .unaffected)

end Verif.Codec
