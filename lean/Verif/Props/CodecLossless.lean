import Verif.Props.CodecEmission

/-! # C52: what is kept on the way through C-DIS

`oneShot env o b` is what a fresh encoder and decoder make of a body.  For every kind that C-DIS carries the theorems
say which fields come back: all those not named behind `with`.  The functions that stand for the named ones are the
quantisers whose errors are bounded in C41. -/

namespace Verif.Props
open Verif.Codec

/-! ## The quantities that C-DIS stores with less precision -/

/-- velocities and accelerations: decimetres (C41_linear) -/
def linQ (v : Dis.VectorF32) : Dis.VectorF32 := linDec (linEnc v)
/-- angular velocities (C41_angular_velocity) -/
def angVelQ (v : Dis.VectorF32) : Dis.VectorF32 := angVelDec (angVelEnc v)
/-- locations in the world (C41_world) -/
def worldQ (env : Env) (l : Dis.Location) : Dis.Location := worldDec env (worldEnc env l).1 (worldEnc env l).2
/-- locations relative to an entity (C41_coordinates) -/
def coordQ (v : Dis.VectorF32) : Dis.VectorF32 := coordDec (coordEnc v).1 (coordEnc v).2
/-- orientations (C41_orientation) -/
def orientQ (v : Dis.Orientation) : Dis.Orientation := orientDec (orientEnc v)
/-- a number kept as a whole number of its units; 0 if it is not in the range of `u32` -/
def wholeQ (b : UInt32) : UInt32 := b32 (int32 ((u32FromF32 (v32 b)).getD 0))
/-- the range of a Fire PDU: whole metres; 0 if it is not a normal number in the range of `u32` -/
def rangeQ (b : UInt32) : UInt32 := if isNormal (v32 b) then wholeQ b else 0
/-- the mass of a Collision PDU (C52_mass_grams, C52_mass_kilograms, C52_mass_negative_violated) -/
def massQ (b : UInt32) : UInt32 := massDec (massEnc b).1 (massEnc b).2
/-- a timestamp (C53) -/
def timeQ (t : UInt32) : UInt32 := timeDec (Cdis.CdisTimeStamp.ofRaw ((timeEnc t).raw % 4294967296))
/-- the value of an articulated part (C41_parameter_value) -/
def pvQ (b : UInt32) : UInt32 := pvDec (pvEnc b)

/-- the value of an articulated part has less precision; a variable parameter of a type that is not
known loses type and contents -/
def vpQ : Dis.VariableParameter → Dis.VariableParameter
  | .articulated p => .articulated { p with parameter_value := pvQ p.parameter_value }
  | .unspecified _ _ => .unspecified 0 (List.replicate 15 0)
  | p => p

/-- the descriptor of a Fire PDU: quantity and rate are cut at 255; a descriptor whose entity type is neither a munition nor an
expendable becomes a munition without details -/
def fireDescQ : Dis.DescriptorRecord → Dis.DescriptorRecord
  | .munition t m =>
    if t.kind = 2 then .munition t { m with quantity := min m.quantity 255, rate := min m.rate 255 }
    else if t.kind = 8 then .expendable t else .munition t ⟨0, 0, 0, 0⟩
  | .expendable t | .explosion t _ _ =>
    if t.kind = 8 then .expendable t else .munition t ⟨0, 0, 0, 0⟩

/-- the descriptor of a Detonation PDU -/
def detonationDescQ : Dis.DescriptorRecord → Dis.DescriptorRecord
  | .munition t m =>
    if t.kind = 2 then .munition t { m with quantity := min m.quantity 255, rate := min m.rate 255 }
    else if t.kind = 8 then .expendable t else .explosion t 0 0
  | .expendable t =>
    if t.kind = 2 then .munition t ⟨0, 0, 0, 0⟩ else if t.kind = 8 then .expendable t else .explosion t 0 0
  | .explosion t m f =>
    if t.kind = 2 then .munition t ⟨0, 0, 0, 0⟩ else if t.kind = 8 then .expendable t
    else .explosion t m (forceDec (forceEnc f))

/-! ## Records that are kept -/

@[simp] theorem etype_rt (e : Dis.EntityType) : etypeDec (etypeEnc e) = e := by
  obtain ⟨a, b, c, d, e, f, g⟩ := e
  simp [etypeDec, etypeEnc]
theorem i32_rt (b : UInt32) : ofI32 (i32Of b) = b := by
  have := b.toNat_lt
  unfold ofI32 i32Of
  apply UInt32.toNat_inj.1
  rw [UInt32.toNat_ofNat']
  split <;> omega
@[simp] theorem clock_rt (x : Dis.ClockTime) : clockDec (clockEnc x) = x := by
  obtain ⟨a, b⟩ := x
  simp [clockDec, clockEnc, i32_rt]
@[simp] theorem fd_rt (x : Dis.FixedDatum) : fdDec (fdEnc x) = x := by
  obtain ⟨a, b⟩ := x
  simp [fdDec, fdEnc]
@[simp] theorem bytes_rt (l : Bytes) : bytesDec (bytesEnc l) = l := by
  simp [bytesDec, bytesEnc, List.map_map, Function.comp_def]
@[simp] theorem vd_rt (x : Dis.VariableDatum) : vdDec (vdEnc x) = x := by
  obtain ⟨a, b⟩ := x
  simp [vdDec, vdEnc]
@[simp] theorem datums_rt (f : List Dis.FixedDatum) (v : List Dis.VariableDatum) :
    (datumsEnc f v).fixed.map fdDec = f ∧ (datumsEnc f v).var.map vdDec = v := by
  simp [datumsEnc, List.map_map, Function.comp_def]

/-! ## Simulation management -/

/-- **C52.** Create, Remove, Start/Resume, Acknowledge, Action Request and Response, Set Data, Data, Event Report and
Comment come back unchanged. -/
theorem C52_siman (env : Env) (o : Options) :
    (∀ x, oneShot env o (.createEntity x) = some (.createEntity x)) ∧
    (∀ x, oneShot env o (.removeEntity x) = some (.removeEntity x)) ∧
    (∀ x, oneShot env o (.startResume x) = some (.startResume x)) ∧
    (∀ x, oneShot env o (.acknowledge x) = some (.acknowledge x)) ∧
    (∀ x, oneShot env o (.actionRequest x) = some (.actionRequest x)) ∧
    (∀ x, oneShot env o (.actionResponse x) = some (.actionResponse x)) ∧
    (∀ x, oneShot env o (.setData x) = some (.setData x)) ∧
    (∀ x, oneShot env o (.data x) = some (.data x)) ∧
    (∀ x, oneShot env o (.eventReport x) = some (.eventReport x)) ∧
    (∀ x, oneShot env o (.comment x) = some (.comment x)) := by
  refine ⟨?_, ?_, ?_, ?_, ?_, ?_, ?_, ?_, ?_, ?_⟩ <;> intro x <;>
    simp [oneShot, bodyEnc, bodyDec, createEnc, createDec, removeEnc, removeDec, startEnc, startDec, ackEnc, ackDec, actionEnc,
      actionDec, responseEnc, responseDec, setDataEnc, setDataDec, dataEnc, dataDec, eventEnc, eventDec, commentEnc, commentDec,
      eid_rt]

/-- **C52.** Stop/Freeze: the frozen behaviour goes through its three flags; Data Query: the time interval is treated as a
timestamp. -/
theorem C52_siman_rest (env : Env) (o : Options) :
    (∀ x, oneShot env o (.stopFreeze x) =
      some (.stopFreeze { x with frozen_behavior := env.frozenByte (env.frozenFlags x.frozen_behavior) })) ∧
    (∀ x, oneShot env o (.dataQuery x) = some (.dataQuery { x with time_interval := timeQ x.time_interval })) := by
  refine ⟨?_, ?_⟩ <;> intro x <;>
    simp [oneShot, bodyEnc, bodyDec, stopEnc, stopDec, queryEnc, queryDec, eid_rt, timeQ, List.map_map, Function.comp_def]

/-! ## Warfare -/

theorem min255 (n : UInt16) : UInt16.ofNat (((nz n.toNat).map (min · 255)).getD 0) = min n 255 := by
  have := n.toNat_lt
  apply UInt16.toNat_inj.1
  have h1 : (min n 255).toNat = min n.toNat 255 := by
    show (if n ≤ 255 then n else 255).toNat = _
    have : n ≤ 255 ↔ n.toNat ≤ 255 := Iff.rfl
    split
    · rename_i h; rw [this] at h; omega
    · rename_i h; rw [this] at h
      show 255 = _
      omega
  rw [h1, UInt16.toNat_ofNat']
  unfold nz
  split
  · rename_i h; rw [h]; rfl
  · simp only [Option.map_some, Option.getD_some]; omega

theorem whole_nz (b : UInt32) :
    b32 (int32 (((if isNormal (v32 b) then u32FromF32 (v32 b) else none) : Option Nat).getD 0 : Nat)) = rangeQ b := by
  unfold rangeQ wholeQ
  split
  · rfl
  · exact (by decide +kernel : b32 (int32 ((0 : Nat) : Int)) = 0)

theorem nz_getD (n : Nat) : (nz n).getD 0 = n := by
  unfold nz; split <;> simp_all

/-- **C52.** Fire. -/
theorem C52_fire (env : Env) (o : Options) (x : Dis.Fire) :
    oneShot env o (.fire x) = some (.fire { x with
      location_in_world := worldQ env x.location_in_world, descriptor := fireDescQ x.descriptor,
      velocity := linQ x.velocity, range := rangeQ x.range }) := by
  have hd : fireDescriptorDec (fireEnc env x) = fireDescQ x.descriptor := by
    unfold fireDescriptorDec fireEnc
    cases x.descriptor with
    | munition t m =>
      simp only [descriptorEnc, etype_rt, fireDescQ, munitionDec, min255, Option.getD_some, UInt16.ofNat_toNat]
    | expendable t =>
      simp only [descriptorEnc, etype_rt, fireDescQ, munitionDec, Option.getD_none]
      split
      · rename_i h; rw [if_neg (by rw [h]; decide)]; rfl
      · rfl
    | explosion t a b =>
      simp only [descriptorEnc, etype_rt, fireDescQ, munitionDec, Option.getD_none]
      split
      · rename_i h; rw [if_neg (by rw [h]; decide)]; rfl
      · rfl
  have he : fireDec env (fireEnc env x) = { x with
      location_in_world := worldQ env x.location_in_world, descriptor := fireDescQ x.descriptor,
      velocity := linQ x.velocity, range := rangeQ x.range } := by
    unfold fireDec
    rw [hd]
    have hr := whole_nz x.range
    simp only [fireEnc, eid_rt, evid_rt, nz_getD, UInt32.ofNat_toNat, worldQ, linQ, hr]
  simp only [oneShot, bodyEnc, bodyDec, Option.map_some, he]

@[simp] theorem vp_rt (p : Dis.VariableParameter) : vpDec (vpEnc p) = vpQ p := by
  cases p <;> simp [vpDec, vpEnc, vpQ, pvQ, eid_rt]

/-- **C52.** Detonation. -/
theorem C52_detonation (env : Env) (o : Options) (x : Dis.Detonation) :
    oneShot env o (.detonation x) = some (.detonation { x with
      velocity := linQ x.velocity, location_in_world_coordinates := worldQ env x.location_in_world_coordinates,
      descriptor := detonationDescQ x.descriptor, location_in_entity_coordinates := coordQ x.location_in_entity_coordinates,
      variable_parameters := x.variable_parameters.map vpQ }) := by
  have hd : detonationDescriptorDec (detonationEnc env x) = detonationDescQ x.descriptor := by
    unfold detonationDescriptorDec detonationEnc
    cases x.descriptor with
    | munition t m =>
      simp only [descriptorEnc, etype_rt, detonationDescQ, munitionDec, min255, Option.getD_some, UInt16.ofNat_toNat,
        Option.getD_none, Option.map_none]
      rfl
    | expendable t =>
      simp only [descriptorEnc, etype_rt, detonationDescQ, munitionDec, Option.getD_none, Option.map_none]
      rfl
    | explosion t a b =>
      simp only [descriptorEnc, etype_rt, detonationDescQ, munitionDec, Option.getD_none, Option.map_some, Option.getD_some,
        UInt16.ofNat_toNat]
      rfl
  have he : detonationDec env (detonationEnc env x) = { x with
      velocity := linQ x.velocity, location_in_world_coordinates := worldQ env x.location_in_world_coordinates,
      descriptor := detonationDescQ x.descriptor, location_in_entity_coordinates := coordQ x.location_in_entity_coordinates,
      variable_parameters := x.variable_parameters.map vpQ } := by
    unfold detonationDec
    rw [hd]
    simp only [detonationEnc, eid_rt, evid_rt, worldQ, linQ, coordQ, UInt8.ofNat_toNat, List.map_map, Function.comp_def, vp_rt]
  simp only [oneShot, bodyEnc, bodyDec, Option.map_some, he]

/-- **C52.** Collision. -/
theorem C52_collision (env : Env) (o : Options) (x : Dis.Collision) :
    oneShot env o (.collision x) = some (.collision { x with
      velocity := linQ x.velocity, mass := massQ x.mass, location := coordQ x.location }) := by
  simp [oneShot, bodyEnc, bodyDec, collisionEnc, collisionDec, eid_rt, evid_rt, linQ, massQ, coordQ]

/-! ## Radio -/

/-- audio: unchanged; raw data: the number of messages modulo 256; of the other classes only the class is left -/
def schemeQ : Dis.EncodingScheme → Dis.EncodingScheme
  | .encodedAudio c t => if c = 0 then .encodedAudio 0 t else if c = 1 then .rawBinaryData 1 t else .unspecified c
  | .rawBinaryData c n => if c = 0 then .encodedAudio 0 (n % 256) else if c = 1 then .rawBinaryData 1 (n % 256) else .unspecified c
  | .applicationSpecificData c _ | .databaseIndex c _ _ _ | .unspecified c =>
    if c = 0 then .encodedAudio 0 0 else if c = 1 then .rawBinaryData 1 0 else .unspecified c

/-- does the signal carry audio? -/
def isAudio : Dis.EncodingScheme → Bool
  | .encodedAudio _ _ => true
  | _ => false

theorem scheme_rt (s : Dis.EncodingScheme) : schemeDec (schemeEnc s) = schemeQ s := by
  have h0 (c : UInt16) : (c.toNat = 0) = (c = 0) := by
    apply propext; rw [← UInt16.toNat_inj]; rfl
  have h1 (c : UInt16) : (c.toNat = 1) = (c = 1) := by
    apply propext; rw [← UInt16.toNat_inj]; rfl
  have hm (n : UInt16) : UInt16.ofNat (n.toNat % 256) = n % 256 := by
    apply UInt16.toNat_inj.1
    rw [UInt16.toNat_mod, UInt16.toNat_ofNat']
    show _ = n.toNat % 256
    omega
  cases s <;> simp only [schemeDec, schemeEnc, schemeQ, h0, h1, hm, UInt16.ofNat_toNat] <;> rfl

/-- **C52.** Signal: sample rate and number of samples are carried for audio only. -/
theorem C52_signal (env : Env) (o : Options) (x : Dis.Signal) :
    oneShot env o (.signal x) = some (.signal { x with
      encoding_scheme := schemeQ x.encoding_scheme,
      sample_rate := if isAudio x.encoding_scheme then x.sample_rate else 0,
      samples := if isAudio x.encoding_scheme then x.samples else 0 }) := by
  have hs := scheme_rt x.encoding_scheme
  have : signalDec (signalEnc x) = { x with
      encoding_scheme := schemeQ x.encoding_scheme,
      sample_rate := if isAudio x.encoding_scheme then x.sample_rate else 0,
      samples := if isAudio x.encoding_scheme then x.samples else 0 } := by
    unfold signalDec signalEnc
    simp only [hs, eid_rt, UInt16.ofNat_toNat, bytes_rt]
    cases x.encoding_scheme <;> simp [isAudio]
  simp only [oneShot, bodyEnc, bodyDec, Option.map_some, this]

/-- the received power: truncated to a whole number; 0 outside the range of `i16` -/
def powerQ (b : UInt32) : UInt32 := b32 (int32 ((i16FromF32 (v32 b)).getD 0))

/-- **C52.** Receiver. -/
theorem C52_receiver (env : Env) (o : Options) (x : Dis.Receiver) :
    oneShot env o (.receiver x) = some (.receiver { x with received_power := powerQ x.received_power }) := by
  simp [oneShot, bodyEnc, bodyDec, receiverEnc, receiverDec, eid_rt, powerQ]

/-! ## Designator -/

/-- the acceleration is carried for the dead reckoning algorithms that use one: 4, 5, 8 and 9 -/
def accQ (algorithm : UInt8) (v : Dis.VectorF32) : Dis.VectorF32 :=
  if algorithm = 4 ∨ algorithm = 5 ∨ algorithm = 8 ∨ algorithm = 9 then linQ v else zeroVec

theorem lin_zero : linDec ⟨0, 0, 0⟩ = zeroVec := by decide +kernel
theorem coordDec_zero : coordDec ⟨0, 0, 0⟩ CM = zeroVec := by decide +kernel
/-- the zero vector, of whatever signs, is among those that arrive exactly -/
theorem coordQ_zero {v : Dis.VectorF32} (h1 : v32 v.first = .num 0) (h2 : v32 v.second = .num 0) (h3 : v32 v.third = .num 0) :
    coordQ v = zeroVec := by
  unfold coordQ coordEnc inCmRange
  rw [h1, h2, h3]
  decide +kernel
theorem veq_coordQ (v : Dis.VectorF32) : (if veq v zeroVec then zeroVec else coordQ v) = coordQ v := by
  split
  · rename_i h
    simp only [veq, feq, Bool.and_eq_true, bne_iff_ne, beq_iff_eq] at h
    have hz : v32 0 = .num 0 := by decide +kernel
    simp only [zeroVec, hz] at h
    exact (coordQ_zero h.1.1.2 h.1.2.2 h.2.2).symm
  · rfl
theorem isZero_coordQ (v : Dis.VectorF32) :
    (if isZero32 v.first && isZero32 v.second && isZero32 v.third then zeroVec else coordQ v) = coordQ v := by
  split
  · rename_i h
    simp only [isZero32, Bool.and_eq_true, beq_iff_eq] at h
    exact (coordQ_zero h.1.1 h.1.2 h.2).symm
  · rfl

/-- **C52.** Designator: power and wavelength become whole numbers. -/
theorem C52_designator (env : Env) (o : Options) (x : Dis.Designator) :
    oneShot env o (.designator x) = some (.designator { x with
      power := wholeQ x.power, wavelength := wholeQ x.wavelength,
      spot_wrt_designated_entity := coordQ x.spot_wrt_designated_entity,
      spot_location := worldQ env x.spot_location,
      linear_acceleration := accQ x.dead_reckoning_algorithm x.linear_acceleration }) := by
  have hid : ((if x.designated_entity_id = zeroId then none else some (eidEnc x.designated_entity_id)).map eidDec).getD zeroId =
      x.designated_entity_id := by
    split
    · rename_i h; rw [h]; rfl
    · simp [eid_rt]
  have hacc : linDec ((drAccEnc x.dead_reckoning_algorithm x.linear_acceleration).getD ⟨0, 0, 0⟩) =
      accQ x.dead_reckoning_algorithm x.linear_acceleration := by
    unfold drAccEnc accQ
    split
    · rfl
    · exact lin_zero
  have hspot : coordDec ((if (!veq x.spot_wrt_designated_entity zeroVec) = true then
      some (coordEnc x.spot_wrt_designated_entity).1 else none).getD ⟨0, 0, 0⟩)
      (if (!veq x.spot_wrt_designated_entity zeroVec) = true then (coordEnc x.spot_wrt_designated_entity).2 else CM) =
      coordQ x.spot_wrt_designated_entity := by
    rw [← veq_coordQ x.spot_wrt_designated_entity]
    cases veq x.spot_wrt_designated_entity zeroVec
    · rfl
    · exact coordDec_zero
  simp only [oneShot, bodyEnc, bodyDec, desEncodeBody, desDecodeBody, desEnc, desDec, Option.map_some, reduceCtorEq, false_and,
    if_false, if_true, eid_rt, hid, hacc, hspot, Option.getD_some, UInt16.ofNat_toNat, UInt8.ofNat_toNat, wholeQ, worldQ]

/-! ## Transmitter -/

/-- the power: a whole number from 0 to 255 -/
def txPowerQ (b : UInt32) : UInt32 := b32 (int32 ((Fl.toInt 0 255 (v32 b)).toNat : Nat))
/-- frequency and bandwidth (C41_transmit_frequency, C41_frequency) -/
def txFreqQ (n : UInt64) : UInt64 := txFreqDec (txFreqEnc n)
def bandwidthQ (b : UInt32) : UInt32 := freqDec (freqEnc b)
def patternQ (p : Dis.BeamAntennaPattern) : Dis.BeamAntennaPattern :=
  { p with beam_direction := ⟨patAngleDec (patAngleEnc p.beam_direction.psi), patAngleDec (patAngleEnc p.beam_direction.theta),
             patAngleDec (patAngleEnc p.beam_direction.phi)⟩
           azimuth_beamwidth := patAngleDec (patAngleEnc p.azimuth_beamwidth)
           elevation_beamwidth := patAngleDec (patAngleEnc p.elevation_beamwidth)
           e_z := b32 (int32 (toI16 (v32 p.e_z))), e_x := b32 (int32 (toI16 (v32 p.e_x)))
           phase := patAngleDec (patAngleEnc p.phase) }
theorem pattern_rt (p : Dis.BeamAntennaPattern) : patternDec (patternEnc p) = patternQ p := by
  simp [patternDec, patternEnc, patternQ]

/-- **C52.** Transmitter: an antenna pattern and modulation parameters come back even if there were none; without a pattern the
pattern type is 0; without a crypto system the key is 0. -/
theorem C52_transmitter (env : Env) (o : Options) (x : Dis.Transmitter) :
    oneShot env o (.transmitter x) = some (.transmitter { x with
      antenna_location := worldQ env x.antenna_location, relative_antenna_location := coordQ x.relative_antenna_location,
      antenna_pattern_type := if x.antenna_pattern.isSome then x.antenna_pattern_type else 0,
      frequency := txFreqQ x.frequency, transmit_frequency_bandwidth := bandwidthQ x.transmit_frequency_bandwidth,
      power := txPowerQ x.power, modulation_type := modTypeDec (modTypeEnc x.modulation_type),
      crypto_key_id := unpack Dis.CryptoKeyId.rd (if x.crypto_system = 0 then 0 else pack Dis.CryptoKeyId.wr x.crypto_key_id),
      modulation_parameters := some (x.modulation_parameters.getD []),
      antenna_pattern := some ((x.antenna_pattern.map patternQ).getD ⟨⟨0, 0, 0⟩, 0, 0, 0, 0, 0, 0⟩) }) := by
  have hv : (x.variable_transmitter_parameters.map fun p => (⟨p.record_type.toNat, bytesEnc p.fields⟩ : Cdis.VTP)).map
      (fun p => (⟨UInt32.ofNat p.record_type, bytesDec p.fields⟩ : Dis.VariableTransmitterParameter)) = x.variable_transmitter_parameters := by
    rw [List.map_map]
    conv => rhs; rw [← List.map_id x.variable_transmitter_parameters]
    apply List.map_congr_left
    intro p _
    simp
  have hp : ((x.antenna_pattern.map patternEnc).map patternDec) = x.antenna_pattern.map patternQ := by
    cases x.antenna_pattern <;> simp [pattern_rt]
  have ht : UInt16.ofNat ((x.antenna_pattern.map fun _ => x.antenna_pattern_type.toNat).getD 0) =
      if x.antenna_pattern.isSome then x.antenna_pattern_type else 0 := by
    cases x.antenna_pattern <;> simp
  have hk : (if x.crypto_system = 0 then none else some (pack Dis.CryptoKeyId.wr x.crypto_key_id)).getD 0 =
      if x.crypto_system = 0 then 0 else pack Dis.CryptoKeyId.wr x.crypto_key_id := by split <;> rfl
  simp only [oneShot, bodyEnc, bodyDec, txEncodeBody, txDecodeBody, txEnc, txDec, Option.map_some, reduceCtorEq, false_and,
    if_false, eid_rt, hv, hp, ht, hk, etype_rt, bytes_rt, nz_getD, Option.getD_some, UInt16.ofNat_toNat, UInt8.ofNat_toNat, worldQ, coordQ,
    txFreqQ, bandwidthQ, txPowerQ]
  rfl

/-- A modulation type whose numbers are below 256, with a known major modulation and the detail 0 if there is none, comes back. -/
theorem C52_modulation {x : Dis.ModulationType} (h : Dis.SpreadSpectrum.layout.Fits x.spread_spectrum)
    (hm : x.major.toNat ≤ 8) (h0 : x.major = 0 → x.detail = 0) (hd : x.detail.toNat < 256) (hr : x.radio_system.toNat < 256) :
    modTypeDec (modTypeEnc x) = x := by
  obtain ⟨s, m, d, r⟩ := x
  dsimp only at h hm h0 hd hr
  have h1 : (m.toNat = 0) = (m = 0) := by apply propext; rw [← UInt16.toNat_inj]; rfl
  have hs : unpack Dis.SpreadSpectrum.rd (pack Dis.SpreadSpectrum.wr s / 4096 * 4096 % 65536) = s := by
    match s, h with
    | [a, b, c], ⟨ha, hb, hc, _⟩ =>
      have ha' : a < 2 := ha
      have hb' : b < 2 := hb
      have hc' : c < 2 := hc
      rcases (by omega : a = 0 ∨ a = 1) with rfl | rfl <;> rcases (by omega : b = 0 ∨ b = 1) with rfl | rfl <;>
        rcases (by omega : c = 0 ∨ c = 1) with rfl | rfl <;> decide
  have e1 : m.toNat % 256 = m.toNat := Nat.mod_eq_of_lt (by omega)
  have e3 : r.toNat % 256 = r.toNat := Nat.mod_eq_of_lt hr
  by_cases hz : m = 0
  · subst hz
    have hd0 := h0 rfl
    subst hd0
    unfold modTypeDec modTypeEnc
    simp only [hs, e3, UInt16.ofNat_toNat]
    rfl
  · have e2 : d.toNat % 256 = d.toNat := Nat.mod_eq_of_lt hd
    unfold modTypeDec modTypeEnc
    simp only [hs, e1, e2, e3, if_neg hz, h1, hm, UInt16.ofNat_toNat, if_true]

/-- A crypto key comes back if there is a crypto system. -/
theorem C52_crypto_key {v : Packed} (h : Dis.CryptoKeyId.layout.Fits v) :
    unpack Dis.CryptoKeyId.rd (pack Dis.CryptoKeyId.wr v) = v :=
  unpack_pack (L := Dis.CryptoKeyId.layout) (t := 16) (by decide) h

/-! ## IFF -/

/-- power, frequency, repetition rate, pulse width and burst length -/
def iffParamQ (x : Dis.IffFundamentalParameterData) : Dis.IffFundamentalParameterData :=
  { x with erp := b32 (int32 ((u8FromF32 (v32 x.erp)).getD 0 : Nat)), frequency := freqDec (freqEnc x.frequency),
           pgrf := b32 (int32 ((u16FromF32 (v32 x.pgrf)).getD 0 : Nat)),
           pulse_width := b32 (int32 ((u16FromF32 (v32 x.pulse_width)).getD 0 : Nat)),
           burst_length := b32 (int32 ((u16FromF32 (v32 x.burst_length)).getD 0 : Nat)) }
/-- the beam and the parameters; the length in the header is computed -/
def layer2Q (x : Dis.IffLayer2) : Dis.IffLayer2 :=
  { x with layer_header := { x.layer_header with length := UInt16.ofNat x.dataLen }, beam_data := beamDec (beamEnc x.beam_data)
           iff_fundamental_parameters := x.iff_fundamental_parameters.map iffParamQ }
/-- the navigation source of a transponder becomes 0 -/
def mode5Q : Dis.Mode5BasicData → Dis.Mode5BasicData
  | .transponder s pin f m o d _ q => .transponder s pin f m o d 0 q
  | x => x
def layer3Q (x : Dis.IffLayer3) : Dis.IffLayer3 :=
  { x with layer_header := { x.layer_header with length := UInt16.ofNat x.dataLen }, mode_5_basic_data := mode5Q x.mode_5_basic_data }
def layer4Q (x : Dis.IffLayer4) : Dis.IffLayer4 :=
  { x with layer_header := { x.layer_header with length := UInt16.ofNat x.dataLen } }
def layer5Q (x : Dis.IffLayer5) : Dis.IffLayer5 :=
  { x with layer_header := { x.layer_header with length := UInt16.ofNat x.dataLen } }
/-- five of the six parameters are lost, and the sixth takes the place of the first -/
def operationalQ (x : Dis.FundamentalOperationalData) : Dis.FundamentalOperationalData :=
  { x with parameter_1 := x.parameter_6, parameter_2 := 0, parameter_3 := 0, parameter_4 := 0, parameter_5 := 0, parameter_6 := 0 }

theorem iffRecs_rt (l : List Dis.IffDataRecord) : (l.map iffRecEnc).map iffRecDec = l := by
  rw [List.map_map]
  conv => rhs; rw [← List.map_id l]
  apply List.map_congr_left
  intro p _
  simp [iffRecDec, iffRecEnc]

theorem layer2_rt (x : Dis.IffLayer2) : layer2Dec (layer2Enc x) = layer2Q x := by
  have hp : (x.iff_fundamental_parameters.map iffParamEnc).map iffParamDec = x.iff_fundamental_parameters.map iffParamQ := by
    rw [List.map_map]
    apply List.map_congr_left
    intro p _
    simp [iffParamDec, iffParamEnc, iffParamQ]
  unfold layer2Dec layer2Enc layer2Q
  simp only [layerHeaderDec, layerHeaderEnc, hp, UInt8.ofNat_toNat, Dis.IffLayer2.dataLen, List.length_map]

theorem layer3_rt {c : Dis.IffClass} {x : Dis.IffLayer3} (h : x.Wf c) : layer3Dec (layer3Enc x) = layer3Q x := by
  have hm : mode5Dec (mode5Enc x.mode_5_basic_data) = mode5Q x.mode_5_basic_data := by
    have hb := h.basic
    revert hb
    cases x.mode_5_basic_data with
    | interrogator s f e =>
      rintro ⟨_, h1, h2⟩
      simp only [mode5Dec, mode5Enc, mode5Q, eid_rt]
      congr 1
      · exact unpack_pack (L := Dis.Mode5InterrogatorStatus.layout) (t := 8) (by decide) h1
      · exact unpack_pack (L := Dis.Mode5MessageFormats.layout) (t := 32) (by decide) h2
    | transponder s pin f m o d n q =>
      rintro ⟨_, h1, h2, h3, h4⟩
      simp only [mode5Dec, mode5Enc, mode5Q, UInt16.ofNat_toNat, UInt8.ofNat_toNat]
      congr 1
      · exact unpack_pack (L := Dis.Mode5TransponderStatus.layout) (t := 16) (by decide) h1
      · exact unpack_pack (L := Dis.Mode5MessageFormats.layout) (t := 32) (by decide) h2
      · exact unpack_pack (L := Dis.EnhancedMode1Code.layout) (t := 16) (by decide) h3
      · exact unpack_pack (L := Dis.Mode5TransponderSupplementalData.layout) (t := 8) (by decide) h4
  unfold layer3Dec layer3Enc layer3Q
  simp only [layerHeaderDec, layerHeaderEnc, hm, UInt8.ofNat_toNat, UInt16.ofNat_toNat, Dis.IffLayer3.dataLen, iffRecs_rt]

theorem unpack_const {L : Layout} {R : List RField} {W : List Nat} {t i : Nat} {v : Packed} (hR : R = L.reader.set i (.const 1))
    (hW : W = L.writer) (ho : L.Ordered t) (h : L.Fits v) (hi : i < L.length) (hc : v.getD i 0 = 1) : unpack R (pack W v) = v := by
  rw [hR, hW, unpack_set, unpack_pack ho h]
  exact set_of_getD hc (by rw [h.length]; exact hi)

theorem layer4_rt {c : Dis.IffClass} {x : Dis.IffLayer4} (h : x.Wf c) (hf : x.mode_s_basic_data.Forced) :
    layer4Dec (layer4Enc x) = layer4Q x := by
  have hm : modeSDec (modeSEnc x.mode_s_basic_data) = x.mode_s_basic_data := by
    have hb := h.basic
    revert hb hf
    cases x.mode_s_basic_data with
    | interrogator s f =>
      rintro ⟨f1, f2⟩ ⟨_, h1, h2⟩
      simp only [modeSDec, modeSEnc]
      congr 1
      · exact unpack_const (L := Dis.ModeSInterrogatorStatus.layout) (t := 8) (by decide) (by decide) (by decide) h1 (by decide) f1
      · exact unpack_const (L := Dis.ModeSLevelsPresent.layout) (t := 8) (by decide) (by decide) (by decide) h2 (by decide) f2
    | transponder s l d i a t p g c =>
      rintro ⟨f1, f2⟩ ⟨_, h1, h2, h3, h4, _⟩
      simp only [modeSDec, modeSEnc, UInt8.ofNat_toNat, UInt32.ofNat_toNat]
      congr 1
      · exact unpack_pack (L := Dis.ModeSTransponderStatus.layout) (t := 16) (by decide) h1
      · exact unpack_const (L := Dis.ModeSLevelsPresent.layout) (t := 8) (by decide) (by decide) (by decide) h2 (by decide) f1
      · exact unpack_const (L := Dis.DapSource.layout) (t := 8) (by decide) (by decide) (by decide) h3 (by decide) f2
      · exact unpack_pack (L := Dis.ModeSAltitude.layout) (t := 16) (by decide) h4
  unfold layer4Dec layer4Enc layer4Q
  simp only [layerHeaderDec, layerHeaderEnc, hm, UInt8.ofNat_toNat, UInt16.ofNat_toNat, Dis.IffLayer4.dataLen, iffRecs_rt]

theorem layer5_rt {x : Dis.IffLayer5} (h : x.Wf) : layer5Dec (layer5Enc x) = layer5Q x := by
  have hl : unpack Dis.InformationLayers.rd (pack Dis.InformationLayers.wr x.applicable_layers) = x.applicable_layers :=
    unpack_pack (L := Dis.InformationLayers.layout) (t := 8) (by decide) h.layers
  unfold layer5Dec layer5Enc layer5Q
  simp only [layerHeaderDec, layerHeaderEnc, hl, UInt8.ofNat_toNat, UInt16.ofNat_toNat, Dis.IffLayer5.dataLen, iffRecs_rt]

theorem map_rt {A B : Type} {e : A → B} {d : B → A} {q : A → A} {x : Option A} (h : ∀ l, x = some l → d (e l) = q l) :
    (x.map e).map d = x.map q := by
  cases x with
  | none => rfl
  | some l => simp [h l rfl]

/-- **C52.** IFF, for PDUs whose bit fields fit (all that the reader returns do). -/
theorem C52_iff {env : Env} (o : Options) {x : Dis.Iff} (h : x.Wf env.toEnv) (hf : x.Forced) :
    oneShot env o (.iff x) = some (.iff { x with
      relative_antenna_location := coordQ x.relative_antenna_location
      fundamental_operational_data := operationalQ x.fundamental_operational_data
      layer_2 := x.layer_2.map layer2Q, layer_3 := x.layer_3.map layer3Q
      layer_4 := x.layer_4.map layer4Q, layer_5 := x.layer_5.map layer5Q }) := by
  have hs : sysIdDec (sysIdEnc x.system_id) = x.system_id := by
    have := unpack_pack (L := Dis.ChangeOptions.layout) (t := 8) (by decide) h.options
    unfold sysIdDec sysIdEnc
    simp only [UInt16.ofNat_toNat, UInt8.ofNat_toNat]
    rw [show unpack Dis.ChangeOptions.rd (pack Dis.ChangeOptions.wr x.system_id.change_options) = _ from this]
  have ho : opDataDec (opDataEnc x.fundamental_operational_data) = operationalQ x.fundamental_operational_data := by
    have h1 := unpack_pack (L := Dis.SystemStatus.layout) (t := 8) (by decide) h.status
    have h2 := unpack_pack (L := Dis.InformationLayers.layout) (t := 8) (by decide) h.layers
    unfold opDataDec opDataEnc operationalQ
    simp only [nz_getD, UInt16.ofNat_toNat, UInt8.ofNat_toNat]
    rw [show unpack Dis.SystemStatus.rd (pack Dis.SystemStatus.wr x.fundamental_operational_data.system_status) = _ from h1,
      show unpack Dis.InformationLayers.rd (pack Dis.InformationLayers.wr x.fundamental_operational_data.information_layers) = _ from h2]
  rw [← isZero_coordQ x.relative_antenna_location]
  have he : ((if x.event_id.event_id = 0 ∧ x.event_id.simulation_address.application_id = 0
       ∧ x.event_id.simulation_address.site_id = 0 then none else some (evidEnc x.event_id)).map evidDec).getD ⟨⟨0, 0⟩, 0⟩ = x.event_id := by
    split
    · rename_i hz
      have : ∀ e : Dis.EventId, e.event_id = 0 ∧ e.simulation_address.application_id = 0 ∧ e.simulation_address.site_id = 0 →
          (⟨⟨0, 0⟩, 0⟩ : Dis.EventId) = e := by
        rintro ⟨⟨a, b⟩, c⟩ ⟨h1, h2, h3⟩
        dsimp only at h1 h2 h3
        rw [h1, h2, h3]
      exact this _ hz
    · simp [evid_rt]
  simp only [oneShot, bodyEnc, bodyDec, iffEncodeBody, iffDecodeBody, iffEnc, iffDec, Option.map_some, reduceCtorEq, decide_false,
    Bool.false_and, Bool.false_eq_true, if_false, eid_rt, Option.getD_some, hs, ho, he, nz_getD, UInt8.ofNat_toNat,
    map_rt (fun l _ => layer2_rt l), map_rt (fun l hl => layer3_rt (h.l3 l hl)), map_rt (fun l hl => layer4_rt (h.l4 l hl) (hf l hl)),
    map_rt (fun l hl => layer5_rt (h.l5 l hl))]
  congr 3
  split <;> rfl

/-! ## Entity State -/

/-- the other parameters are lost for algorithm 0 and when all their octets are zero -/
def otherQ (alg : UInt8) (p : Dis.DrOtherParameters) : Dis.DrOtherParameters :=
  if alg = 0 ∨ ∀ b ∈ p.ser, b = 0 then .none (List.replicate 15 0) else p

theorem fromBe_fold (a : Nat) (l : Bytes) : l.foldl (fun a b => a * 256 + b.toNat) a = a * 256 ^ l.length + fromBe l := by
  induction l generalizing a with
  | nil => simp [fromBe]
  | cons b l ih =>
    unfold fromBe
    rw [List.foldl_cons, List.foldl_cons, ih, ih (0 * 256 + b.toNat), List.length_cons]
    ring
theorem fromBe_cons (b : UInt8) (l : Bytes) : fromBe (b :: l) = b.toNat * 256 ^ l.length + fromBe l := by
  have := fromBe_fold (0 * 256 + b.toNat) l
  unfold fromBe
  rw [List.foldl_cons, this]
  simp [fromBe]
theorem fromBe_lt (l : Bytes) : fromBe l < 256 ^ l.length := by
  induction l with
  | nil => decide
  | cons b l ih =>
    rw [fromBe_cons, List.length_cons, pow_succ]
    have := b.toNat_lt
    nlinarith [Nat.pow_pos (n := l.length) (show 0 < 256 by decide)]
theorem toBe_fromBe (a : Nat) (l : Bytes) : toBe l.length (a * 256 ^ l.length + fromBe l) = l := by
  induction l generalizing a with
  | nil => rfl
  | cons b l ih =>
    have hlt := fromBe_lt l
    have e : a * 256 ^ (b :: l).length + fromBe (b :: l) = (a * 256 + b.toNat) * 256 ^ l.length + fromBe l := by
      rw [fromBe_cons, List.length_cons, pow_succ]; ring
    rw [e, List.length_cons]
    unfold toBe
    rw [ih, Nat.add_comm, Nat.add_mul_div_right _ _ (by positivity), Nat.div_eq_of_lt hlt]
    congr 1
    apply UInt8.toNat_inj.1
    have := b.toNat_lt
    rw [UInt8.toNat_ofNat']
    omega
theorem fromBe_zero (l : Bytes) : fromBe l = 0 ↔ ∀ b ∈ l, b = 0 := by
  induction l with
  | nil => simp [fromBe]
  | cons b l ih =>
    rw [fromBe_cons, List.forall_mem_cons, ← ih, ← UInt8.toNat_inj]
    have : 0 < 256 ^ l.length := by positivity
    constructor
    · intro h
      have h2 : fromBe l = 0 := by omega
      refine ⟨?_, h2⟩
      rw [h2, Nat.add_zero, Nat.mul_eq_zero] at h
      rcases h with h | h
      · exact h
      · omega
    · rintro ⟨h1, h2⟩
      rw [show b.toNat = 0 from h1, h2]; omega

theorem drOther_rt {x : Dis.DrParameters} (h : x.Wf) :
    drOtherDec (drOtherEnc x.other_parameters) x.algorithm = x.other_parameters ∧
      (drOtherEnc x.other_parameters = 0 ↔ ∀ b ∈ x.other_parameters.ser, b = 0) := by
  have hl : x.other_parameters.ser.length = 15 := by
    have := Dis.DrParameters.length_ser h
    unfold Dis.DrParameters.ser at this
    simp only [List.length_append, len] at this
    omega
  have ht : (0 :: x.other_parameters.ser).take 16 = 0 :: x.other_parameters.ser :=
    List.take_of_length_le (by rw [List.length_cons]; omega)
  have he : drOtherEnc x.other_parameters = fromBe x.other_parameters.ser := by
    unfold drOtherEnc
    rw [ht, fromBe_cons]
    simp
  have hp : (Dis.DrOtherParameters.parse x.algorithm).run x.other_parameters.ser = .ok x.other_parameters [] := by
    have hr : ∀ r, (Dis.DrOtherParameters.parse x.algorithm).run (x.other_parameters.ser ++ r) = .ok x.other_parameters r := by
      intro r
      obtain ⟨alg, p, a, v⟩ := x
      cases p with
      | none b =>
        obtain ⟨h1, h2⟩ := h
        have e1 : ¬(alg.toNat = 1 ∨ alg.toNat = 2 ∨ alg.toNat = 5 ∨ alg.toNat = 6 ∨ alg.toNat = 9) := by dsimp only at h1; omega
        have e2 : ¬(alg.toNat = 3 ∨ alg.toNat = 4 ∨ alg.toNat = 7 ∨ alg.toNat = 8) := by dsimp only at h1; omega
        rtp [Dis.DrOtherParameters.parse, Dis.DrOtherParameters.ser, e1, e2, if_false]
        rw [P.run_take _ _ _ h2]; simp only [rt]
      | euler p q s =>
        simp only [Dis.DrParameters.Wf, List.mem_cons, List.not_mem_nil, or_false] at h
        rtp [Dis.DrOtherParameters.parse, Dis.DrOtherParameters.ser, h, if_true]
      | quaternion n p q s =>
        simp only [Dis.DrParameters.Wf, List.mem_cons, List.not_mem_nil, or_false] at h
        have e1 : ¬(alg.toNat = 1 ∨ alg.toNat = 2 ∨ alg.toNat = 5 ∨ alg.toNat = 6 ∨ alg.toNat = 9) := by omega
        rtp [Dis.DrOtherParameters.parse, Dis.DrOtherParameters.ser, h, e1, if_false, if_true]
    have := hr []
    rwa [List.append_nil] at this
  refine ⟨?_, by rw [he, fromBe_zero]⟩
  unfold drOtherDec
  have hb := toBe_fromBe 0 x.other_parameters.ser
  rw [hl, Nat.zero_mul, Nat.zero_add] at hb
  rw [he, hb, hp]

theorem ascii_chars : ∀ n < 128, String.utf8EncodeChar (Char.ofNat n) = [UInt8.ofNat n] ∧ (Char.ofNat n).utf8Size = 1 := by
  decide +kernel

theorem marking_rt {b : Bytes} (hl : b.length ≤ 11) (ha : ∀ c ∈ b, c.toNat < 128) :
    ∃ m, Cdis.Marking.new (markingChars b) = some m ∧ charsOctets m.marking = b := by
  have e : markingChars b = b.map fun c => Char.ofNat c.toNat := markingChars_ascii ha
  have hs : ∀ c ∈ b.map (fun c => Char.ofNat c.toNat), c.utf8Size = 1 := by
    intro c hc
    obtain ⟨x, hx, rfl⟩ := List.mem_map.1 hc
    exact (ascii_chars _ (ha x hx)).2
  refine ⟨⟨Cdis.checkEnc (markingChars b), markingChars b⟩, ?_, ?_⟩
  · unfold Cdis.Marking.new
    rw [e, Cdis.utf8Len_ascii hs, if_neg (by rw [List.length_map]; omega)]
    rfl
  · unfold charsOctets Dis.textOctets
    rw [e]
    clear e hs hl
    induction b with
    | nil => rfl
    | cons c b ih =>
      rw [List.map_cons, List.flatMap_cons, ih fun x hx => ha x (by simp [hx]), (ascii_chars _ (ha c (by simp))).1]
      simp

/-- **C52.** Entity State, for PDUs the reader can return (version 7): force, types, appearance and text of the marking are kept, the
capabilities only with the setting "completeness". -/
theorem C52_entity_state {env : Env} (o : Options) {x : Dis.EntityState} (h : x.Wf env.toEnv 7) :
    oneShot env o (.entityState x) = some (.entityState { x with
      entity_linear_velocity :=
        if x.dead_reckoning_parameters.algorithm = 0 ∨ x.dead_reckoning_parameters.algorithm = 1 then zeroVec
        else linQ x.entity_linear_velocity
      entity_location := worldQ env x.entity_location, entity_orientation := orientQ x.entity_orientation
      dead_reckoning_parameters :=
        { x.dead_reckoning_parameters with
          other_parameters := otherQ x.dead_reckoning_parameters.algorithm x.dead_reckoning_parameters.other_parameters
          linear_acceleration := accQ x.dead_reckoning_parameters.algorithm x.dead_reckoning_parameters.linear_acceleration
          angular_velocity := if x.dead_reckoning_parameters.algorithm ∈ [3, 4, 7, 8]
            then angVelQ x.dead_reckoning_parameters.angular_velocity else zeroVec }
      entity_marking := { x.entity_marking with marking_character_set := 1 }
      entity_capabilities := if o.optimize_mode = .completeness then x.entity_capabilities
        else { x.entity_capabilities with raw := 0 }
      variable_parameters := x.variable_parameters.map vpQ }) := by
  obtain ⟨m, hm, hc⟩ := marking_rt h.marking.1 h.marking.2.1
  have hv : (x.variable_parameters.map vpEnc).map vpDec = x.variable_parameters.map vpQ := by
    simp [List.map_map, Function.comp_def]
  have ha : ((if x.alternative_entity_type = zeroType then none else some (etypeEnc x.alternative_entity_type)).map etypeDec).getD zeroType =
      x.alternative_entity_type := by
    split
    · rename_i h; rw [h]; rfl
    · simp
  have hlin : ((if x.dead_reckoning_parameters.algorithm = 0 ∨ x.dead_reckoning_parameters.algorithm = 1 then none
      else some (linEnc x.entity_linear_velocity)).map linDec).getD zeroVec =
      if x.dead_reckoning_parameters.algorithm = 0 ∨ x.dead_reckoning_parameters.algorithm = 1 then zeroVec
        else linQ x.entity_linear_velocity := by split <;> rfl
  have happ := Dis.EntityAppearance.fromBytes_eq h.appearance
  have hoth : ((if x.dead_reckoning_parameters.algorithm = 0 then none
        else nz (drOtherEnc x.dead_reckoning_parameters.other_parameters)).map
          (drOtherDec · x.dead_reckoning_parameters.algorithm)).getD (.none (List.replicate 15 0)) =
      otherQ x.dead_reckoning_parameters.algorithm x.dead_reckoning_parameters.other_parameters := by
    obtain ⟨h1, h2⟩ := drOther_rt h.dr
    unfold otherQ
    split
    · rename_i hz; rw [if_pos (Or.inl hz)]; rfl
    · rename_i hz
      unfold nz
      split
      · rename_i h0; rw [if_pos (Or.inr (h2.1 h0))]; rfl
      · rename_i h0; rw [if_neg (by rintro (h | h); exacts [hz h, h0 (h2.2 h)])]; exact h1
  have hacc : ((drAccEnc x.dead_reckoning_parameters.algorithm x.dead_reckoning_parameters.linear_acceleration).map linDec).getD zeroVec =
      accQ x.dead_reckoning_parameters.algorithm x.dead_reckoning_parameters.linear_acceleration := by
    unfold drAccEnc accQ
    split <;> rfl
  have hang : ((if x.dead_reckoning_parameters.algorithm = 3 ∨ x.dead_reckoning_parameters.algorithm = 4 ∨
        x.dead_reckoning_parameters.algorithm = 7 ∨ x.dead_reckoning_parameters.algorithm = 8
        then some (angVelEnc x.dead_reckoning_parameters.angular_velocity) else none).map angVelDec).getD zeroVec =
      if x.dead_reckoning_parameters.algorithm ∈ [3, 4, 7, 8]
            then angVelQ x.dead_reckoning_parameters.angular_velocity else zeroVec := by
    simp only [List.mem_cons, List.not_mem_nil, or_false]
    split <;> rfl
  have hcap : Dis.EntityCapabilities.fromBytes env.toEnv (UInt32.ofNat ((if o.optimize_mode = .completeness
        then nz x.entity_capabilities.raw.toNat else none).getD 0)) x.entity_type =
      if o.optimize_mode = .completeness then x.entity_capabilities else { x.entity_capabilities with raw := 0 } := by
    have hw := h.capabilities
    have hd : UInt32.ofNat ((if o.optimize_mode = .completeness then nz x.entity_capabilities.raw.toNat else none).getD 0) =
        if o.optimize_mode = .completeness then x.entity_capabilities.raw else 0 := by
      split
      · simp [nz_getD]
      · rfl
    rw [hd]
    rcases hw with ⟨_, hk, hx⟩ | ⟨_, hk, h1, h2⟩ | ⟨h6, _⟩
    · unfold Dis.EntityCapabilities.fromBytes
      rw [if_pos hk, hx]
      split <;> rfl
    · split
      · exact Dis.EntityCapabilities.fromBytes_eq hk h1 h2
      · exact Dis.EntityCapabilities.fromBytes_eq (x := { x.entity_capabilities with raw := 0 }) hk h1
          (fun _ => by simp)
    · exact absurd h6 (by decide)
  simp only [oneShot, bodyEnc, bodyDec, esEncodeBody, esDecodeBody, esEnc, esDec, Option.map_some, reduceCtorEq, false_and, if_false, hm,
    eid_rt, etype_rt, Option.getD_some, UInt8.ofNat_toNat, UInt32.ofNat_toNat, ha, hlin, happ, hoth, hacc, hang, hcap, hv, hc, worldQ, orientQ]

end Verif.Props
