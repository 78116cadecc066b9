import Verif.Conformance.Dis
import Verif.Codec.Pdu
import Verif.Props.CodecEncode

/-!
# The unit tests of the conversion between DIS and C-DIS, run on the model

These are tests, not proofs: each `example` repeats a `#[test]` of cdis-assemble (named above it) and evaluates the model on it
in Lean's kernel.  The geodetic conversion is a parameter of the codec model, so `testEnv` answers the positions that the tests
use with what `ecef_to_geodetic_lla` computes for them in double precision (the position 20 km from the centre of the Earth gives
NaN, which is why the tests see dekametres there); the values of the enumerations are those of SISO-REF-010.
-/

namespace Verif.Conformance
open Verif.P Verif.Codec Verif.Props

private def loc (x y z : Rat) : Dis.Location := ⟨lit64 x, lit64 y, lit64 z⟩
private def vec (x y z : Rat) : Dis.VectorF32 := ⟨lit32 x, lit32 y, lit32 z⟩
private def pi32 : UInt32 := b32 PI32

/-- The geodetic conversion at the positions of the tests; the way back keeps its arguments, for the tests to look at. -/
def testEnv : Codec.Env :=
  { codecEnv with
    toLla := fun l =>
      if l = loc 3919999 342955 5002819 then
        (F64.round 0.9075712084717039, F64.round 0.08726634271806634, F64.round 19.878645223940723)
      else if l = loc 20000 20000 20000 then (.nan, F64.round 0.7853981633974483, .nan)
      else if l = loc 0 0 20000 then (F64.round 1.5707963267948966, .num 0, F64.round (-6336752.3142451905))
      else if l = loc 0 0 5000000 then (F64.round 1.5707963267948966, .num 0, F64.round (-1356752.3142451905))
      else (.num 0, .num 0, .num 0)
    toEcef := fun lat lon alt => ⟨b64 lat, b64 lon, b64 alt⟩ }

private def near (b : UInt64) (q eps : Rat) : Bool :=
  match v64 b with
  | .num x => decide (q - eps < x ∧ x < q + eps)
  | _ => false
private def within32 (lo hi : Rat) (b : UInt32) : Bool :=
  match v32 b with
  | .num x => decide (lo ≤ x ∧ x < hi)
  | _ => false

/-! ## records/codec.rs -/

/-- records/codec.rs:515 `test_normalize_radians_to_plusminus_pi` -/
example : normalizeRadians PI32 = F32.round 3.1415925 := by decide +kernel
example : normalizeRadians (PI32.neg) = PI32 := by decide +kernel
example : normalizeRadians (mul32 (.num (1 / 2)) PI32) = F32.round 1.5707965 := by decide +kernel
example : normalizeRadians (mul32 (.num (7 / 2)) PI32) = F32.round (-1.570796) := by decide +kernel

/-- records/codec.rs:537 `cdis_header_decode` -/
example : (headerDec ⟨1, 5, 15, 20000, 140, {}⟩).protocol_version = 7 ∧ (headerDec ⟨1, 5, 15, 20000, 140, {}⟩).exercise_id = 5 ∧
    (headerDec ⟨1, 5, 15, 20000, 140, {}⟩).pdu_type = 15 ∧
    ((headerDec ⟨1, 5, 15, 20000, 140, {}⟩).pdu_status.map (·.fire_type_indicator)) = some none := by decide +kernel

/-- records/codec.rs:560 `linear_velocity_encode` and `linear_velocity_decode` -/
example : linEnc (vec 11.1 (-22.2) 33.3) = ⟨111, -222, 333⟩ := by decide +kernel
example : linDec ⟨111, -222, 333⟩ = vec 11.1 (-22.2) 33.3 := by decide +kernel
/-- records/codec.rs `linear_acceleration_encode` and `linear_acceleration_decode` -/
example : linEnc (vec 1 (-819.2) 0) = ⟨10, -8192, 0⟩ := by decide +kernel
example : linDec ⟨10, -8192, 0⟩ = vec 1 (-819.2) 0 := by decide +kernel

/-- the test's `(x as f32 * ANGULAR_VELOCITY_SCALE) as i16` -/
private def scaled (n : Int) : Int := toI16 (mul32 (int32 n) angVelScale)
private def spin : Dis.VectorF32 := ⟨lit32 1, b32 (mul32 (.num 4) PI32), b32 PI32.neg⟩
/-- records/codec.rs `angular_velocity_encode` -/
example : angVelEnc spin = ⟨scaled 57, scaled 720, scaled (-180)⟩ := by decide +kernel
example : within32 0.95 1 (angVelDec (angVelEnc spin)).first = true ∧
    within32 12.5 12.6 (angVelDec (angVelEnc spin)).second = true ∧
    within32 (-3.14) (-3.11) (angVelDec (angVelEnc spin)).third = true := by decide +kernel
/-- records/codec.rs `angular_velocity_decode` -/
example : within32 0.95 1 (angVelDec ⟨scaled 57, scaled 720, scaled (-180)⟩).first = true ∧
    within32 12.5 12.6 (angVelDec ⟨scaled 57, scaled 720, scaled (-180)⟩).second = true ∧
    within32 (-3.14) (-3.11) (angVelDec ⟨scaled 57, scaled 720, scaled (-180)⟩).third = true := by decide +kernel

/-- records/codec.rs `entity_location_encode`: the scaled latitude and longitude as `f32` literals -/
example : worldEnc testEnv (loc 3919999 342955 5002819) =
    (⟨Codec.Fl.toRat (F32.round 620384200), Codec.Fl.toRat (F32.round 59652240), 1987⟩, CM) := by decide +kernel
/-- records/codec.rs `entity_location_decode`, up to the geodetic conversion: 52° N, 5° E, 19.87 m -/
example : near (worldDec testEnv ⟨620384200, 59652240, 1987⟩ CM).x_coordinate 0.9075712 0.000001 = true ∧
    near (worldDec testEnv ⟨620384200, 59652240, 1987⟩ CM).y_coordinate 0.0872663 0.000001 = true ∧
    near (worldDec testEnv ⟨620384200, 59652240, 1987⟩ CM).z_coordinate 19.87 0.00001 = true := by decide +kernel
/-- records/codec.rs `entity_location_center_of_earth` -/
example : worldEnc testEnv (loc 0 0 0) = (⟨0, 0, -8388608⟩, DEKAMETER) := by decide +kernel

/-- records/codec.rs `entity_orientation_dis_to_cdis` -/
example : orientEnc ⟨pi32, 0, 0⟩ = ⟨4094, 0, 0⟩ := by decide +kernel
example : orientDec ⟨4094, 0, 0⟩ = ⟨lit32 3.1408255, 0, 0⟩ := by decide +kernel
example : mul32 (v32 (orientDec ⟨1, 4095, -4096⟩).psi) (F32.round 57.2957795130823208767981548141051703) = F32.round 0.04395604 := by
  decide +kernel

/-! ## codec.rs -/

private def fullMode : Options := {}
private def partialMode : Options := { update_mode := .partial }
private def v7 (t : UInt8) : Dis.PduHeader := ⟨7, 7, t, 0, 0, 0, some {}, 0⟩
private def airNld : Dis.EntityType := ⟨1, 2, 153, 0, 0, 0, 0⟩
private def stillness : Dis.DrParameters := ⟨0, .none (List.replicate 15 0), ⟨0, 0, 0⟩, ⟨0, 0, 0⟩⟩
private def esTest : Dis.EntityState :=
  { entity_id := ⟨⟨7, 127⟩, 255⟩, force_id := 25, entity_type := airNld, alternative_entity_type := ⟨0, 0, 0, 0, 0, 0, 0⟩,
    entity_linear_velocity := vec 0 0 0, entity_location := loc 0 0 0, entity_orientation := ⟨0, 0, 0⟩,
    entity_appearance := ⟨.unspecified, 0⟩, dead_reckoning_parameters := stillness, entity_marking := ⟨1, text "TEST"⟩,
    entity_capabilities := ⟨.unspecified, 0⟩, variable_parameters := [] }
private def esPdu : Dis.Pdu := Dis.Pdu.finalizeFromParts (v7 1) (.entityState esTest) 1000

/-- codec.rs:318 `cdis_pdu_entity_state_body_encode` -/
example : (match pduEnc testEnv fullMode 0 {} esPdu with
    | some (⟨h, .entityState es⟩, r, _) => decide (r = .unaffected ∧ h.exercise_id = 7 ∧ h.pdu_type = 1 ∧ h.protocol_version = 1 ∧
        es.force_id = some 25 ∧ es.entity_id = ⟨7, 127, 255⟩ ∧ es.entity_type = some ⟨1, 2, 153, 0, 0, 0, 0⟩ ∧
        es.entity_marking.map (·.marking) = some "TEST".toList)
    | _ => false) = true := by decide +kernel

private def cdisEs : Cdis.EntityState :=
  { units := 1, full_update_flag := true, entity_id := ⟨10, 10, 10⟩, force_id := some 1,
    entity_type := some ⟨1, 2, 153, 0, 0, 0, 0⟩, alternate_entity_type := none, entity_linear_velocity := some ⟨5, 5, -5⟩,
    entity_location := some ⟨52, 5, 1000⟩, entity_orientation := some ⟨4, 3, 2⟩, entity_appearance := none, dr_algorithm := 2,
    dr_params_other := none, dr_params_entity_linear_acceleration := none, dr_params_entity_angular_velocity := none,
    entity_marking := some ⟨.five, "TEST".toList⟩, capabilities := some 0xABC00000, variable_parameters := [] }
/-- codec.rs:363 `cdis_pdu_entity_state_body_decode`: of the capabilities, ammunition supply and recovery -/
example : (match pduDec testEnv fullMode {} (Cdis.CdisPdu.finalize ⟨1, 8, 1, 0, 0, {}⟩ (.entityState cdisEs) (some 20000)) with
    | (⟨h, .entityState es⟩, r, _) => decide (r = .unaffected ∧ h.exercise_id = 8 ∧ h.pdu_type = 1 ∧ h.protocol_version = 7 ∧
        es.force_id = 1 ∧ es.entity_id = ⟨⟨10, 10⟩, 10⟩ ∧ es.entity_type = airNld ∧ es.entity_marking.marking_string = text "TEST" ∧
        es.entity_capabilities.cls = .airPlatform ∧ es.entity_capabilities.raw.toNat / 2 ^ 28 = 10)
    | _ => false) = true := by decide +kernel

/-! ## collision/codec.rs -/

private def crash (mass : Rat) : Dis.Collision :=
  ⟨⟨⟨20, 20⟩, 20⟩, ⟨⟨10, 10⟩, 500⟩, ⟨⟨10, 10⟩, 1⟩, 0, vec 0 0 0, lit32 mass, vec 0 0 0⟩
/-- collision/codec.rs `collision_body_encode_mass_grams` -/
example : (match bodyEnc testEnv fullMode 0 {} (.collision (crash 60.001)) with
    | some (.collision c, r, _) => decide (r = .unaffected ∧ c.mass = 60001)
    | _ => false) = true := by decide +kernel
/-- collision/codec.rs `collision_body_decode_mass_grams` -/
example : (match bodyDec testEnv fullMode {} (.collision ⟨0, 0, ⟨0, 0, 0⟩, ⟨0, 0, 0⟩, ⟨0, 0, 0⟩, 0, ⟨0, 0, 0⟩, 60001, ⟨0, 0, 0⟩⟩) with
    | (.collision c, r, _) => decide (r = .unaffected ∧ c.mass = lit32 60.001)
    | _ => false) = true := by decide +kernel

/-! ## fire/codec.rs -/

private def shot (d : Dis.DescriptorRecord) (range : Rat) : Dis.Body :=
  .fire ⟨⟨⟨10, 10⟩, 10⟩, ⟨⟨20, 20⟩, 20⟩, ⟨⟨10, 10⟩, 500⟩, ⟨⟨10, 10⟩, 1⟩, 0, loc 20000 20000 20000, d, vec 0 0 0, lit32 range⟩
/-- fire/codec.rs `fire_body_encode_munition` -/
example : (match bodyEnc testEnv partialMode 0 {} (shot (.munition ⟨2, 2, 0, 0, 0, 0, 0⟩ ⟨4002, 8110, 1, 1⟩) 10000) with
    | some (.fire f, r, _) => decide (r = .unaffected ∧ f.units = DEKAMETER ∧ f.firing_entity_id = ⟨10, 10, 10⟩ ∧
        f.target_entity_id = ⟨20, 20, 20⟩ ∧ f.munition_expandable_entity_id = ⟨10, 10, 500⟩ ∧ f.event_id = ⟨10, 10, 1⟩ ∧
        f.descriptor_entity_type = ⟨2, 2, 0, 0, 0, 0, 0⟩ ∧ f.descriptor_warhead = some 4002 ∧ f.descriptor_fuze = some 8110 ∧
        f.descriptor_quantity = some 1 ∧ f.descriptor_rate = some 1 ∧ f.range = some 10000)
    | _ => false) = true := by decide +kernel
/-- fire/codec.rs `fire_body_encode_munition_no_qnt_rt` -/
example : (match bodyEnc testEnv partialMode 0 {} (shot (.munition ⟨2, 2, 0, 0, 0, 0, 0⟩ ⟨4002, 8110, 0, 0⟩) 0) with
    | some (.fire f, r, _) => decide (r = .unaffected ∧ f.units = DEKAMETER ∧ f.descriptor_entity_type = ⟨2, 2, 0, 0, 0, 0, 0⟩ ∧
        f.descriptor_warhead = some 4002 ∧ f.descriptor_fuze = some 8110 ∧ f.descriptor_quantity = none ∧ f.descriptor_rate = none)
    | _ => false) = true := by decide +kernel
/-- fire/codec.rs `fire_body_encode_expandable` -/
example : (match bodyEnc testEnv partialMode 0 {} (shot (.expendable ⟨8, 2, 0, 0, 0, 0, 0⟩) 10000) with
    | some (.fire f, r, _) => decide (r = .unaffected ∧ f.units = DEKAMETER ∧ f.descriptor_entity_type = ⟨8, 2, 0, 0, 0, 0, 0⟩ ∧
        f.descriptor_warhead = none ∧ f.descriptor_fuze = none ∧ f.descriptor_quantity = none ∧ f.descriptor_rate = none ∧
        f.range = some 10000)
    | _ => false) = true := by decide +kernel
private def cdisFire (kind rate : Nat) : Cdis.CdisBody :=
  .fire ⟨1, ⟨10, 10, 10⟩, ⟨20, 20, 20⟩, ⟨10, 10, 500⟩, ⟨10, 10, 1⟩, some 100, ⟨620384200, 59652240, 1987⟩, ⟨kind, 2, 0, 0, 0, 0, 0⟩,
    some 4002, some 8110, some 1, some rate, ⟨100, 100, 0⟩, some 10000⟩
/-- fire/codec.rs `fire_body_decode_munition` -/
example : (match bodyDec testEnv fullMode {} (cdisFire 2 0) with
    | (.fire f, r, _) => decide (r = .unaffected ∧ f.firing_entity_id = ⟨⟨10, 10⟩, 10⟩ ∧ f.target_entity_id = ⟨⟨20, 20⟩, 20⟩ ∧
        f.entity_id = ⟨⟨10, 10⟩, 500⟩ ∧ f.event_id = ⟨⟨10, 10⟩, 1⟩ ∧ f.fire_mission_index = 100 ∧
        f.descriptor = .munition ⟨2, 2, 0, 0, 0, 0, 0⟩ ⟨4002, 8110, 1, 0⟩)
    | _ => false) = true := by decide +kernel
/-- fire/codec.rs `fire_body_decode_expandable` -/
example : (match bodyDec testEnv fullMode {} (cdisFire 8 1) with
    | (.fire f, r, _) => decide (r = .unaffected ∧ f.fire_mission_index = 100 ∧ f.descriptor = .expendable ⟨8, 2, 0, 0, 0, 0, 0⟩)
    | _ => false) = true := by decide +kernel

/-! ## detonation/codec.rs -/

private def boom (x : Rat) : Dis.Body :=
  .detonation ⟨⟨⟨10, 10⟩, 10⟩, ⟨⟨20, 20⟩, 20⟩, ⟨⟨10, 10⟩, 500⟩, ⟨⟨10, 10⟩, 1⟩, vec 10 10 10, loc 20000 20000 20000,
    .explosion ⟨2, 1, 0, 0, 0, 0, 0⟩ 10 (lit32 20), vec x 0 0, 5, []⟩
/-- detonation/codec.rs `detonation_body_encode_units_centimeters` -/
example : (match bodyEnc testEnv partialMode 0 {} (boom 50) with
    | some (.detonation d, r, _) => decide (r = .unaffected ∧ d.units_altitude = DEKAMETER ∧ d.units_entity = CM ∧ d.detonation_results = 5)
    | _ => false) = true := by decide +kernel
/-- detonation/codec.rs `detonation_body_encode_units_meters` -/
example : (match bodyEnc testEnv partialMode 0 {} (boom 33000) with
    | some (.detonation d, r, _) => decide (r = .unaffected ∧ d.units_altitude = DEKAMETER ∧ d.units_entity = METER)
    | _ => false) = true := by decide +kernel
private def cdisBoom (units : Nat) : Cdis.CdisBody :=
  .detonation ⟨1, units, ⟨10, 10, 10⟩, ⟨20, 20, 20⟩, ⟨10, 10, 500⟩, ⟨10, 10, 1⟩, ⟨1, 1, 1⟩, ⟨620384200, 59652240, 1987⟩,
    ⟨2, 2, 0, 0, 0, 0, 0⟩, some 4002, some 8110, some 1, some 0, none, none, ⟨10, 10, 10⟩, 5, []⟩
/-- detonation/codec.rs `detonation_body_decode_units_centimeters` -/
example : (match bodyDec testEnv fullMode {} (cdisBoom CM) with
    | (.detonation d, r, _) => decide (r = .unaffected ∧ d.source_entity_id = ⟨⟨10, 10⟩, 10⟩ ∧ d.target_entity_id = ⟨⟨20, 20⟩, 20⟩ ∧
        d.exploding_entity_id = ⟨⟨10, 10⟩, 500⟩ ∧ d.event_id = ⟨⟨10, 10⟩, 1⟩ ∧
        d.descriptor = .munition ⟨2, 2, 0, 0, 0, 0, 0⟩ ⟨4002, 8110, 1, 0⟩ ∧ d.location_in_entity_coordinates = vec 0.1 0.1 0.1)
    | _ => false) = true := by decide +kernel
/-- detonation/codec.rs `detonation_body_decode_units_meters` -/
example : (match bodyDec testEnv fullMode {} (cdisBoom METER) with
    | (.detonation d, r, _) => decide (r = .unaffected ∧ d.location_in_entity_coordinates = vec 10 10 10)
    | _ => false) = true := by decide +kernel

/-! ## entity_state/codec.rs -/

private def basicEs : Dis.EntityState :=
  { entity_id := ⟨⟨1, 1⟩, 1⟩, force_id := 1, entity_type := airNld, alternative_entity_type := ⟨0, 0, 0, 0, 0, 0, 0⟩,
    entity_linear_velocity := vec 0 0 0, entity_location := loc 0 0 0, entity_orientation := ⟨lit32 10, lit32 20, lit32 30⟩,
    entity_appearance := ⟨.airPlatform, 0⟩, dead_reckoning_parameters := stillness, entity_marking := ⟨1, text "Encode01"⟩,
    entity_capabilities := ⟨.unspecified, 0⟩, variable_parameters := [] }
private def isFull (e : Cdis.EntityState) : Bool :=
  decide (e.full_update_flag = true ∧ e.force_id = some 1 ∧ e.entity_type.map (·.domain) = some 2 ∧
    e.entity_type.map (·.country) = some 153 ∧ e.alternate_entity_type = none ∧ e.entity_orientation.isSome = true ∧
    e.entity_marking.map (·.marking) = some "Encode01".toList)
/-- entity_state/codec.rs `entity_state_body_encode_full_update` -/
example : (match bodyEnc testEnv fullMode 0 {} (.entityState basicEs) with
    | some (.entityState e, r, _) => decide (r = .unaffected ∧ isFull e = true ∧ e.dr_algorithm = 0 ∧ e.dr_params_other = none)
    | _ => false) = true := by decide +kernel
/-- entity_state/codec.rs `entity_state_body_encode_partial_update_first_occurrence` -/
example : (match bodyEnc testEnv partialMode 0 {} (.entityState basicEs) with
    | some (.entityState e, r, s) => decide (r = .entityState ∧ (s.es ⟨⟨1, 1⟩, 1⟩).isSome = true ∧ isFull e = true)
    | _ => false) = true := by decide +kernel
/-- entity_state/codec.rs `entity_state_body_encode_partial_update_second_occurrence` (a microsecond later) -/
example : (match bodyEnc testEnv partialMode 0 {} (.entityState basicEs) with
    | some (_, _, s) => (match bodyEnc testEnv partialMode 1000 s (.entityState basicEs) with
      | some (.entityState e, r, _) => decide (r = .unaffected ∧ e.entity_id = ⟨1, 1, 1⟩ ∧ e.full_update_flag = false ∧
          e.force_id = none ∧ e.entity_type = none ∧ e.alternate_entity_type = none ∧ e.entity_orientation = none ∧
          e.entity_marking = none)
      | _ => false)
    | _ => false) = true := by decide +kernel
/-- entity_state/codec.rs `entity_state_body_encode_dr_non_static` -/
example : (match bodyEnc testEnv fullMode 0 {} (.entityState { basicEs with
      dead_reckoning_parameters := ⟨5, .euler (lit32 1) (lit32 1) (lit32 1), ⟨0, 0, 0⟩, ⟨0, 0, 0⟩⟩ }) with
    | some (.entityState e, r, _) => decide (r = .unaffected ∧ isFull e = true ∧ e.dr_algorithm = 5 ∧ e.dr_params_other.isSome = true)
    | _ => false) = true := by decide +kernel
/-- entity_state/codec.rs `entity_state_body_encode_use_guise` -/
example : (match bodyEnc testEnv partialMode 0 {} (.entityState { basicEs with alternative_entity_type := ⟨3, 1, 225, 0, 0, 0, 0⟩ }) with
    | some (.entityState e, _, _) => decide (e.alternate_entity_type = some ⟨3, 1, 225, 0, 0, 0, 0⟩)
    | _ => false) = true := by decide +kernel
/-- entity_state/codec.rs `entity_state_body_encode_with_variable_parameters` (PrimaryTurretNumber1 is 4096, Azimuth 11) -/
example : (match bodyEnc testEnv fullMode 0 {} (.entityState { basicEs with
      variable_parameters := [.articulated ⟨0, 1, 11, 4096, lit32 45⟩] }) with
    | some (.entityState e, r, _) => decide (r = .unaffected) && (match e.variable_parameters with
      | [.articulated a] => decide (a.change_indicator = 0 ∧ a.attachment_id = 1 ∧ a.type_class = 4096 ∧ a.type_metric = 11 ∧
          pvDec a.parameter_value = lit32 45)
      | _ => false)
    | _ => false) = true := by decide +kernel
private def fullEs : Cdis.EntityState :=
  { units := 1, full_update_flag := true, entity_id := ⟨10, 10, 10⟩, force_id := some 1, entity_type := some ⟨1, 1, 1, 1, 1, 1, 1⟩,
    alternate_entity_type := some ⟨2, 2, 2, 2, 2, 2, 2⟩, entity_linear_velocity := some ⟨10, 10, 10⟩,
    entity_location := some ⟨52, 5, 1000⟩, entity_orientation := some ⟨1, 1, 1⟩, entity_appearance := some 0x1F00, dr_algorithm := 4,
    dr_params_other := some 0, dr_params_entity_linear_acceleration := some ⟨10, 10, 10⟩,
    dr_params_entity_angular_velocity := some ⟨1, 2, 3⟩, entity_marking := some ⟨.five, "CDIS01".toList⟩, capabilities := none,
    variable_parameters := [] }
private def isWhole (e : Dis.EntityState) : Bool :=
  decide (e.entity_id = ⟨⟨10, 10⟩, 10⟩ ∧ e.entity_type = ⟨1, 1, 1, 1, 1, 1, 1⟩ ∧ e.alternative_entity_type = ⟨2, 2, 2, 2, 2, 2, 2⟩ ∧
    e.force_id = 1)
/-- entity_state/codec.rs `entity_state_body_decode_full_update` -/
example : (match bodyDec testEnv fullMode {} (.entityState fullEs) with
    | (.entityState e, r, _) => decide (r = .unaffected) && isWhole e
    | _ => false) = true := by decide +kernel
/-- entity_state/codec.rs `entity_state_body_decode_with_variable_parameters` -/
example : (match bodyDec testEnv fullMode {} (.entityState { fullEs with
      variable_parameters := [.articulated ⟨0, 1, 4096, 11, pvEnc (lit32 45)⟩] }) with
    | (.entityState e, r, _) => decide (r = .unaffected ∧ e.variable_parameters = [.articulated ⟨0, 1, 11, 4096, lit32 45⟩])
    | _ => false) = true := by decide +kernel
/-- entity_state/codec.rs `entity_state_body_decode_partial_update_full_flag` -/
example : (match bodyDec testEnv partialMode {} (.entityState fullEs) with
    | (.entityState e, r, _) => decide (r = .entityState) && isWhole e
    | _ => false) = true := by decide +kernel
private def partialEs : Cdis.EntityState :=
  { fullEs with full_update_flag := false, force_id := none, entity_type := none, alternate_entity_type := none,
                entity_location := none, entity_orientation := none, entity_marking := none }
/-- entity_state/codec.rs `entity_state_body_decode_partial_update_no_state` -/
example : (match bodyDec testEnv fullMode {} (.entityState partialEs) with
    | (.entityState e, r, _) => decide (r = .unaffected ∧ e.entity_id = ⟨⟨10, 10⟩, 10⟩ ∧ e.entity_type = ⟨0, 0, 0, 0, 0, 0, 0⟩ ∧
        e.alternative_entity_type = ⟨0, 0, 0, 0, 0, 0, 0⟩ ∧ e.force_id = 0)
    | _ => false) = true := by decide +kernel
/-- entity_state/codec.rs `entity_state_body_decode_partial_update_with_state` -/
example : (match bodyDec testEnv partialMode
      { es := fun k => if k = ⟨⟨10, 10⟩, 10⟩ then
          some ⟨25, ⟨1, 2, 3, 4, 5, 6, 7⟩, loc 20000 20000 20000, ⟨lit32 10, lit32 10, lit32 10⟩, ⟨.unspecified, 0⟩, ⟨1, text "STATE15"⟩⟩
          else none }
      (.entityState { partialEs with entity_appearance := none }) with
    | (.entityState e, r, _) => decide (r = .unaffected ∧ e.entity_id = ⟨⟨10, 10⟩, 10⟩ ∧ e.entity_type = ⟨1, 2, 3, 4, 5, 6, 7⟩ ∧
        e.force_id = 25 ∧ e.entity_marking.marking_string = text "STATE15")
    | _ => false) = true := by decide +kernel

/-! ## electromagnetic_emission/codec.rs -/

private def quietBeam : Dis.Beam := ⟨0, 0, ⟨0, 0, 0, 0, 0⟩, ⟨0, 0, 0, 0, 0⟩, 0, 0, 0, ⟨0, 0, 0, 0⟩, []⟩
private def emitters (l : List (List Dis.Beam)) : Dis.ElectromagneticEmission :=
  ⟨⟨⟨0, 0⟩, 0⟩, ⟨⟨0, 0⟩, 0⟩, 0, l.map fun bs => ⟨0, 0, 0, vec 0 0 0, bs⟩⟩
private def param1 : Dis.FundamentalParameterData := ⟨lit32 12.3, lit32 1.23, lit32 1, lit32 1, lit32 123.1⟩
private def param3 : Dis.FundamentalParameterData := ⟨lit32 23.4, lit32 2.34, lit32 2, lit32 2, lit32 234.5⟩
/-- evaluates the sorting and deduplication of a list of concrete numbers (`mergeSort` does not reduce in the kernel) -/
macro "sorts" : tactic => `(tactic|
  simp [sortDedup, List.mergeSort, List.MergeSort.Internal.splitInTwo, List.merge, dedup, lexLe, FundamentalParameter.key,
    BeamData.key, SiteAppPair.key, svint13Code])

private def paramTest : Dis.ElectromagneticEmission :=
  emitters [[{ quietBeam with parameter_data := param1 }, { quietBeam with parameter_data := param1 }],
    [{ quietBeam with parameter_data := param3 }]]
/-- electromagnetic_emission/codec.rs `fundamental_params_list` -/
example : (paramsFull paramTest).map (·.frequency) = [freqEnc (lit32 12.3), freqEnc (lit32 23.4)] := by
  have h : ((allBeams paramTest).map fun p => paramEnc p.2.parameter_data) =
      [paramEnc param1, paramEnc param1, paramEnc param3] := rfl
  have h1 : paramEnc param1 = ⟨⟨12, 0⟩, ⟨1, 0⟩, 1, 1, ⟨123, 0⟩⟩ := by decide +kernel
  have h3 : paramEnc param3 = ⟨⟨23, 0⟩, ⟨2, 0⟩, 2, 2, ⟨234, 0⟩⟩ := by decide +kernel
  have f1 : freqEnc (lit32 12.3) = ⟨12, 0⟩ := by decide +kernel
  have f3 : freqEnc (lit32 23.4) = ⟨23, 0⟩ := by decide +kernel
  rw [paramsFull, h, h1, h3, f1, f3]
  sorts
private def sweep1 : Dis.BeamData := ⟨lit32 0, lit32 20, lit32 0, lit32 20, lit32 50⟩
private def sweep2 : Dis.BeamData := ⟨lit32 20, lit32 30, lit32 10, lit32 30, lit32 10⟩
private def sweepTest : Dis.ElectromagneticEmission :=
  emitters [[{ quietBeam with beam_data := sweep1 }, { quietBeam with beam_data := sweep2 }],
    [{ quietBeam with beam_data := sweep1 }]]
/-- electromagnetic_emission/codec.rs `beam_data_list` -/
example : (beamsFull sweepTest).map (fun b => (b.az_center, b.sweep_sync)) = [(0, 511), (83, 102)] := by
  have h : ((allBeams sweepTest).map fun p => beamEnc p.2.beam_data) = [beamEnc sweep1, beamEnc sweep2, beamEnc sweep1] := rfl
  have h1 : beamEnc sweep1 = ⟨0, 83, 0, 83, 511⟩ := by decide +kernel
  have h2 : beamEnc sweep2 = ⟨83, 124, 41, 124, 102⟩ := by decide +kernel
  rw [beamsFull, h, h1, h2]
  sorts
private def trackTest : Dis.ElectromagneticEmission :=
  emitters [[{ quietBeam with track_jam_data := [⟨⟨⟨1, 1⟩, 1⟩, 0, 0⟩, ⟨⟨⟨1, 1⟩, 2⟩, 0, 0⟩] },
    { quietBeam with track_jam_data := [⟨⟨⟨2, 2⟩, 2⟩, 0, 0⟩] }], [{ quietBeam with track_jam_data := [⟨⟨⟨3, 3⟩, 3⟩, 0, 0⟩] }]]
/-- electromagnetic_emission/codec.rs `site_app_pairs_list` -/
example : pairsOf trackTest = [⟨1, 1⟩, ⟨2, 2⟩, ⟨3, 3⟩] := by
  have h : ((allBeams trackTest).flatMap fun p => p.2.track_jam_data.map fun t => pairEnc t.entity_id.simulation_address) =
      [⟨1, 1⟩, ⟨1, 1⟩, ⟨2, 2⟩, ⟨3, 3⟩] := rfl
  rw [pairsOf, h]
  sorts
/-- electromagnetic_emission/codec.rs `encode_decode_beam_data` -/
example : (beamEnc ⟨lit32 0, lit32 20, lit32 0, lit32 15, lit32 100⟩).sweep_sync = 1023 ∧
    (beamDec (beamEnc ⟨lit32 0, lit32 20, lit32 0, lit32 15, lit32 100⟩)).azimuth_center = 0 ∧
    (beamDec (beamEnc ⟨lit32 0, lit32 20, lit32 0, lit32 15, lit32 100⟩)).elevation_center = 0 ∧
    within32 99.99 100.01 (beamDec (beamEnc ⟨lit32 0, lit32 20, lit32 0, lit32 15, lit32 100⟩)).sweep_sync = true := by decide +kernel

private def emission : Dis.ElectromagneticEmission :=
  ⟨⟨⟨1, 1⟩, 1⟩, ⟨⟨1, 1⟩, 100⟩, 0,
   [⟨5505, 102, 20, vec 1 2 3, [{ quietBeam with
      number := 1, beam_function := 3, parameter_index := 1, track_jam_data := [⟨⟨⟨1, 2⟩, 3⟩, 0, 0⟩] }]⟩]⟩
private def systemFull : Cdis.EmitterSystem :=
  ⟨some 5505, some 102, 20, some ⟨1, 2, 3⟩, [⟨1, 1, some 0, some 0, 3, 0, true, some 0, some 0, some 0, some 0, [⟨0, 3, some 0, some 0⟩]⟩]⟩
private def systemPartial : Cdis.EmitterSystem :=
  ⟨none, none, 20, none, [⟨1, 1, none, none, 3, 0, true, none, none, none, none, [⟨0, 3, none, none⟩]⟩]⟩
/-- electromagnetic_emission/codec.rs `encode_body_full_update` -/
example : (eeEnc fullMode 0 (some (.of 0 emission)) emission).2 = .unaffected ∧
    (eeEnc fullMode 0 (some (.of 0 emission)) emission).1.full_update_flag = true ∧
    (eeEnc fullMode 0 (some (.of 0 emission)) emission).1.emitting_id = ⟨1, 1, 1⟩ ∧
    (eeEnc fullMode 0 (some (.of 0 emission)) emission).1.emitter_systems = [systemFull] := by decide +kernel
/-- electromagnetic_emission/codec.rs `encode_body_partial_update_partial_update_flag_without_state` -/
example : (eeEnc partialMode 0 none emission).2 = .ee ∧ (eeEnc partialMode 0 none emission).1.full_update_flag = true ∧
    (eeEnc partialMode 0 none emission).1.emitter_systems = [systemFull] := by decide +kernel
/-- electromagnetic_emission/codec.rs `encode_body_partial_update_partial_update_flag_with_state` -/
example : (eeEnc partialMode 1000 (some (.of 0 emission)) emission).2 = .unaffected ∧
    (eeEnc partialMode 1000 (some (.of 0 emission)) emission).1.full_update_flag = false ∧
    (eeEnc partialMode 1000 (some (.of 0 emission)) emission).1.emitter_systems = [systemPartial] := by decide +kernel
private def cdisEmission (full : Bool) (s : Cdis.EmitterSystem) : Cdis.ElectromagneticEmission :=
  ⟨full, ⟨1, 1, 1⟩, ⟨1, 1, 100⟩, 0, [defaultParam], [defaultBeamData], [⟨1, 2⟩], [s]⟩
private def emitterOut : Dis.EmitterSystem :=
  ⟨5505, 102, 20, vec 1 2 3, [{ quietBeam with
      number := 1, beam_function := 3, parameter_index := 1, track_jam_data := [⟨⟨⟨1, 2⟩, 3⟩, 0, 0⟩] }]⟩
/-- electromagnetic_emission/codec.rs `decode_body_full_update` -/
example : eeDec fullMode none (cdisEmission true systemFull) =
    (⟨⟨⟨1, 1⟩, 1⟩, ⟨⟨1, 1⟩, 100⟩, 0, [emitterOut]⟩, .unaffected) := by decide +kernel
/-- electromagnetic_emission/codec.rs `decode_body_partial_update_full_update_flag_without_state` -/
example : eeDec partialMode none (cdisEmission true systemFull) =
    (⟨⟨⟨1, 1⟩, 1⟩, ⟨⟨1, 1⟩, 100⟩, 0, [emitterOut]⟩, .ee) := by decide +kernel
/-- electromagnetic_emission/codec.rs `decode_body_partial_update_partial_update_flag_with_state` -/
example : eeDec partialMode (some (.of emission)) (cdisEmission false { systemFull with name := none, function := none }) =
    (⟨⟨⟨1, 1⟩, 1⟩, ⟨⟨1, 1⟩, 100⟩, 0, [emitterOut]⟩, .unaffected) := by decide +kernel
/-- electromagnetic_emission/codec.rs `decode_body_partial_update_partial_update_flag_without_state` -/
example : eeDec partialMode none (cdisEmission false { systemFull with name := none, function := none }) =
    (⟨⟨⟨1, 1⟩, 1⟩, ⟨⟨1, 1⟩, 100⟩, 0, [{ emitterOut with name := 0, function := 0 }]⟩, .unaffected) := by decide +kernel

/-! ## tests/codec_tests.rs -/

/-- Encode and decode with a fresh encoder and a fresh decoder; what comes out. -/
private def consistent (o : Options) (t : UInt8) (b : Dis.Body) (status : Dis.PduStatus) (same : Dis.Body → Bool) : Bool :=
  match pduEnc testEnv o 0 {} (Dis.Pdu.finalizeFromParts { v7 t with pdu_status := some status } b 0) with
  | some (c, _, _) =>
    decide ((pduDec testEnv o {} c).1.header = (Dis.Pdu.finalizeFromParts { v7 t with pdu_status := some status } b 0).header)
      && same (pduDec testEnv o {} c).1.body
  | none => false
private def one : Dis.EntityId := ⟨⟨1, 1⟩, 1⟩
private def two : Dis.EntityId := ⟨⟨2, 2⟩, 2⟩
private def fixedDatums : List Dis.FixedDatum := [⟨610026, 10⟩]
private def variableDatums : List Dis.VariableDatum := [⟨26000, [1, 2, 3]⟩]
private def whole (t : UInt8) (b : Dis.Body) : Bool := consistent fullMode t b {} fun c => decide (c = b)

/-- tests/codec_tests.rs:19 `encode_dis_to_cdis_entity_state_full_mode`: written and read -/
example : (match pduEnc testEnv fullMode 0 {} esPdu with
    | some (c, _, _) => (match (Cdis.CdisPdu.parse testEnv.toEnv).run c.ser with
      | .ok ⟨_, .entityState es⟩ _ => decide (es.entity_id = ⟨7, 127, 255⟩ ∧ es.entity_type.map (·.country) = some 153 ∧
          es.entity_marking.map (·.marking) = some "TEST".toList)
      | _ => false)
    | none => false) = true := by decide +kernel
/-- tests/codec_tests.rs:55 `decode_cdis_to_dis_entity_state_full_mode`: decoded, written and read -/
example : (match Dis.parse testEnv.toEnv (pduDec testEnv fullMode {} (Cdis.CdisPdu.finalize ⟨1, 7, 1, 968, 0, {}⟩
      (.entityState { cdisEs with full_update_flag := false, entity_type := some ⟨1, 2, 1, 1, 1, 1, 1⟩ }) none)).1.ser with
    | .ok [⟨h, .entityState es⟩] => decide (h.exercise_id = 7 ∧ h.protocol_version = 7 ∧ es.entity_id = ⟨⟨10, 10⟩, 10⟩ ∧
        es.force_id = 1 ∧ es.entity_type = ⟨1, 2, 1, 1, 1, 1, 1⟩ ∧ es.entity_marking.marking_string = text "TEST")
    | _ => false) = true := by decide +kernel
/-- `codec_consistency_entity_state_full_mode` (all but the position, whose conversion is a parameter) -/
example : consistent fullMode 1 (.entityState { esTest with
      entity_location := loc 0 0 5000000, entity_appearance := ⟨.airPlatform, 0⟩, entity_capabilities := ⟨.airPlatform, 0⟩ }) {}
    (fun
      | .entityState e => decide (e.entity_id = esTest.entity_id ∧ e.entity_type = airNld ∧ e.force_id = 25 ∧
          e.entity_appearance = ⟨.airPlatform, 0⟩ ∧ e.entity_marking = esTest.entity_marking ∧ e.entity_capabilities = ⟨.airPlatform, 0⟩)
      | _ => false) = true := by decide +kernel
/-- `codec_consistency_fire` -/
example : consistent fullMode 2 (.fire ⟨⟨⟨10, 10⟩, 10⟩, ⟨⟨20, 20⟩, 20⟩, ⟨⟨10, 10⟩, 500⟩, ⟨⟨10, 10⟩, 1⟩, 0, loc 0 0 20000,
      .munition ⟨2, 2, 0, 0, 0, 0, 0⟩ ⟨4002, 8110, 1, 1⟩, vec 0 0 0, lit32 10000⟩) { fire_type_indicator := some 0 }
    (fun
      | .fire f => decide ({ f with location_in_world := loc 0 0 20000 } = ⟨⟨⟨10, 10⟩, 10⟩, ⟨⟨20, 20⟩, 20⟩, ⟨⟨10, 10⟩, 500⟩, ⟨⟨10, 10⟩, 1⟩, 0,
          loc 0 0 20000, .munition ⟨2, 2, 0, 0, 0, 0, 0⟩ ⟨4002, 8110, 1, 1⟩, vec 0 0 0, lit32 10000⟩)
      | _ => false) = true := by decide +kernel
/-- `codec_consistency_detonation` -/
example : consistent fullMode 3 (.detonation ⟨one, ⟨⟨2, 2⟩, 1⟩, ⟨⟨1, 1⟩, 100⟩, ⟨⟨1, 1⟩, 1⟩, vec 10 10 10, loc 0 0 20000,
      .explosion ⟨0, 1, 0, 0, 0, 0, 0⟩ 10 (lit32 200), vec 10 10 0, 5, []⟩) {}
    (fun
      | .detonation d => decide ({ d with location_in_world_coordinates := loc 0 0 20000 } = ⟨one, ⟨⟨2, 2⟩, 1⟩, ⟨⟨1, 1⟩, 100⟩, ⟨⟨1, 1⟩, 1⟩,
          vec 10 10 10, loc 0 0 20000, .explosion ⟨0, 1, 0, 0, 0, 0, 0⟩ 10 (lit32 200), vec 10 10 0, 5, []⟩)
      | _ => false) = true := by decide +kernel
/-- `codec_consistency_collision` -/
example : whole 4 (.collision ⟨one, ⟨⟨2, 2⟩, 1⟩, ⟨⟨1, 1⟩, 1⟩, 0, vec 10 0 0, lit32 1000, vec 1 1 1⟩) = true := by decide +kernel
/-- `codec_consistency_create_entity`, `codec_consistency_remove_entity` -/
example : whole 11 (.createEntity ⟨one, two, 1⟩) = true := by decide +kernel
example : whole 12 (.removeEntity ⟨one, two, 1⟩) = true := by decide +kernel
/-- `codec_consistency_start_resume`, `codec_consistency_stop_freeze`, `codec_consistency_acknowledge` -/
example : whole 12 (.startResume ⟨one, two, ⟨10, 30⟩, ⟨0, 14⟩, 1⟩) = true := by decide +kernel
example : whole 12 (.stopFreeze ⟨one, two, ⟨10, 30⟩, 2, 5, 1⟩) = true := by decide +kernel
example : whole 15 (.acknowledge ⟨one, two, 3, 1, 1⟩) = true := by decide +kernel
/-- `codec_consistency_action_request`, `codec_consistency_action_response` -/
example : whole 16 (.actionRequest ⟨one, two, 1, 16, fixedDatums, variableDatums⟩) = true := by decide +kernel
example : whole 17 (.actionResponse ⟨one, two, 1, 1, fixedDatums, variableDatums⟩) = true := by decide +kernel
/-- `codec_consistency_data_query`, `codec_consistency_set_data`, `codec_consistency_data` -/
example : whole 18 (.dataQuery ⟨one, two, 1, 2000, [610026], [26000]⟩) = true := by decide +kernel
example : whole 19 (.setData ⟨one, two, 1, fixedDatums, variableDatums⟩) = true := by decide +kernel
example : whole 20 (.data ⟨one, two, 1, fixedDatums, variableDatums⟩) = true := by decide +kernel
/-- `codec_consistency_event_report`, `codec_consistency_comment` -/
example : whole 21 (.eventReport ⟨one, two, 2, fixedDatums, variableDatums⟩) = true := by decide +kernel
example : whole 22 (.comment ⟨one, two, variableDatums⟩) = true := by decide +kernel
/-- `codec_consistency_electromagnetic_emission_full_mode`, `codec_consistency_electromagnetic_emission_partial_mode` -/
example : whole 23 (.electromagneticEmission emission) = true := by decide +kernel
example : consistent partialMode 23 (.electromagneticEmission emission) {} (fun c => decide (c = .electromagneticEmission emission)) = true := by
  decide +kernel
/-- `codec_consistency_designator_full_mode` (all but the position) -/
example : consistent fullMode 24 (.designator ⟨⟨⟨10, 10⟩, 10⟩, 1, ⟨⟨20, 20⟩, 20⟩, 0, lit32 12, lit32 15, vec 10 10 0, loc 0 0 5000000, 2, vec 0 0 0⟩) {}
    (fun
      | .designator d => decide (d.designating_entity_id = ⟨⟨10, 10⟩, 10⟩ ∧ d.designated_entity_id = ⟨⟨20, 20⟩, 20⟩ ∧ d.system_name = 1 ∧
          d.power = lit32 12 ∧ d.wavelength = lit32 15 ∧ d.linear_acceleration = vec 0 0 0)
      | _ => false) = true := by decide +kernel
/-- `codec_consistency_signal`, `codec_consistency_receiver` -/
example : whole 26 (.signal ⟨one, 20, .encodedAudio 0 1, 0, 480, 150, [1, 2, 3]⟩) = true := by decide +kernel
example : whole 27 (.receiver ⟨one, 20, 2, lit32 (-90), two, 10⟩) = true := by decide +kernel

private def radio (crypto : UInt16) : Dis.Transmitter :=
  { radio_reference_id := ⟨⟨10, 10⟩, 10⟩, radio_number := 1, radio_type := ⟨1, 2, 3, 4, 5, 6, 7⟩, transmit_state := 2, input_source := 1,
    antenna_location := loc 0 0 5000000, relative_antenna_location := vec 1 1 0, antenna_pattern_type := 1, frequency := 1234000000,
    transmit_frequency_bandwidth := lit32 20, power := lit32 12, modulation_type := ⟨[0, 0, 0], 0, 0, 8⟩, crypto_system := crypto,
    crypto_key_id := [0, 0], modulation_parameters := none,
    antenna_pattern := some ⟨⟨0, 0, 0⟩, 0, 0, 0, lit32 10, lit32 20, 0⟩, variable_transmitter_parameters := [] }
private def sameRadio (crypto : UInt16) : Dis.Body → Bool
  | .transmitter x => decide (x.radio_reference_id = ⟨⟨10, 10⟩, 10⟩ ∧ x.transmit_state = 2 ∧ x.modulation_type = ⟨[0, 0, 0], 0, 0, 8⟩ ∧
      x.antenna_pattern = (radio crypto).antenna_pattern ∧ x.power = lit32 12 ∧ x.crypto_system = crypto ∧
      x.relative_antenna_location = vec 1 1 0)
  | _ => false
/-- `codec_consistency_transmitter_full_mode`, `codec_consistency_transmitter_partial_mode` -/
example : consistent fullMode 25 (.transmitter (radio 0)) {} (sameRadio 0) = true := by decide +kernel
example : consistent partialMode 25 (.transmitter (radio 10)) {} (sameRadio 10) = true := by decide +kernel

end Verif.Conformance
