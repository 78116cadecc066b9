import Verif.Dis.SimanR
import Verif.Dis.EntityInfoLemmas

/-!
# Entity management PDUs: IsGroupOf, IsPartOf, AggregateState, TransferOwnership

File names in the comments are relative to dis-rs/src/common.
-/

set_option linter.unusedSimpArgs false

namespace Verif.Dis
open Verif.P

/-! ## IsGroupOf -/

/-- is_group_of/model.rs:115-120 -/
structure GEDEntityLocation where
  x_offset : UInt16
  y_offset : UInt16
  z_offset : UInt16
  deriving Repr, DecidableEq
/-- is_group_of/parser.rs:286-296 -/
def GEDEntityLocation.parse : BP GEDEntityLocation := do
  let a ← be_u16
  let b ← be_u16
  let c ← be_u16
  pure ⟨a, b, c⟩
/-- is_group_of/writer.rs:46-54 -/
def GEDEntityLocation.ser (x : GEDEntityLocation) : Bytes := e16 x.x_offset ++ e16 x.y_offset ++ e16 x.z_offset
@[rt] theorem GEDEntityLocation.parse_ser (r : Bytes) (x : GEDEntityLocation) : GEDEntityLocation.parse.run (x.ser ++ r) = .ok x r := by
  rtp [GEDEntityLocation.parse, GEDEntityLocation.ser]
@[len] theorem GEDEntityLocation.length_ser (x : GEDEntityLocation) : x.ser.length = 6 := by lenp [GEDEntityLocation.ser]
instance : Stable GEDEntityLocation.parse := by unfold GEDEntityLocation.parse; parser_ok
instance : Safe GEDEntityLocation.parse := by unfold GEDEntityLocation.parse; parser_ok

/-- is_group_of/model.rs:129-134 -/
structure GEDEntityOrientation where
  psi : UInt8
  theta : UInt8
  phi : UInt8
  deriving Repr, DecidableEq
/-- is_group_of/parser.rs:298-308 -/
def GEDEntityOrientation.parse : BP GEDEntityOrientation := do
  let a ← be_u8
  let b ← be_u8
  let c ← be_u8
  pure ⟨a, b, c⟩
/-- is_group_of/writer.rs:56-64 -/
def GEDEntityOrientation.ser (x : GEDEntityOrientation) : Bytes := e8 x.psi ++ e8 x.theta ++ e8 x.phi
@[rt] theorem GEDEntityOrientation.parse_ser (r : Bytes) (x : GEDEntityOrientation) : GEDEntityOrientation.parse.run (x.ser ++ r) = .ok x r := by
  rtp [GEDEntityOrientation.parse, GEDEntityOrientation.ser]
@[len] theorem GEDEntityOrientation.length_ser (x : GEDEntityOrientation) : x.ser.length = 3 := by lenp [GEDEntityOrientation.ser]
instance : Stable GEDEntityOrientation.parse := by unfold GEDEntityOrientation.parse; parser_ok
instance : Safe GEDEntityOrientation.parse := by unfold GEDEntityOrientation.parse; parser_ok

/-- the entity type the GED parsers make up for land vehicles and soldiers (e.g. is_group_of/parser.rs:72-75) -/
def landPlatformType : EntityType := ⟨1, 1, 0, 0, 0, 0, 0⟩
/-- the entity type the GED parsers make up for aircraft (e.g. is_group_of/parser.rs:168-171) -/
def airPlatformType : EntityType := ⟨1, 2, 0, 0, 0, 0, 0⟩

/-- is_group_of/model.rs:143-153 basic ground combat vehicle -/
structure GEDRecord1 where
  entity_id : UInt16
  location : GEDEntityLocation
  appearance : EntityAppearance
  orientation : GEDEntityOrientation
  speed : UInt8
  turret_azimuth : UInt8
  gun_elevation : UInt8
  turret_slew_rate : UInt8
  gun_elevation_rate : UInt8
  deriving Repr, DecidableEq
/-- is_group_of/parser.rs:69-96 -/
def GEDRecord1.parse (env : Env) : BP GEDRecord1 := do
  let a ← be_u16
  let b ← GEDEntityLocation.parse
  let c ← EntityAppearance.parse env landPlatformType
  let d ← GEDEntityOrientation.parse
  let v0 ← be_u8
  let v1 ← be_u8
  let v2 ← be_u8
  let v3 ← be_u8
  let v4 ← be_u8
  pure ⟨a, b, c, d, v0, v1, v2, v3, v4⟩
/-- is_group_of/writer.rs:66-80 -/
def GEDRecord1.ser (x : GEDRecord1) : Bytes :=
  e16 x.entity_id ++ x.location.ser ++ x.appearance.ser ++ x.orientation.ser ++ e8 x.speed ++ e8 x.turret_azimuth ++ e8 x.gun_elevation ++ e8 x.turret_slew_rate ++ e8 x.gun_elevation_rate
theorem GEDRecord1.parse_ser {env : Env} {x : GEDRecord1} (h : x.appearance.Wf env landPlatformType) (r : Bytes) :
    (GEDRecord1.parse env).run (x.ser ++ r) = .ok x r := by
  rtp [GEDRecord1.parse, GEDRecord1.ser, EntityAppearance.parse_ser h]
@[len] theorem GEDRecord1.length_ser (x : GEDRecord1) : x.ser.length = 20 := by lenp [GEDRecord1.ser]
instance (env) : Stable (GEDRecord1.parse env) := by unfold GEDRecord1.parse; parser_ok
instance (env) : Safe (GEDRecord1.parse env) := by unfold GEDRecord1.parse; parser_ok

/-- is_group_of/model.rs:165-171 enhanced ground combat vehicle -/
structure GEDRecord2 where
  basic_ground_combat_vehicle : GEDRecord1
  fuel_status : UInt8
  ground_maintenance_status : UInt8
  primary_ammunition : UInt8
  secondary_ammunition : UInt8
  deriving Repr, DecidableEq
/-- is_group_of/parser.rs:98-115 -/
def GEDRecord2.parse (env : Env) : BP GEDRecord2 := do
  let b ← GEDRecord1.parse env
  let v0 ← be_u8
  let v1 ← be_u8
  let v2 ← be_u8
  let v3 ← be_u8
  pure ⟨b, v0, v1, v2, v3⟩
/-- is_group_of/writer.rs:82-92 -/
def GEDRecord2.ser (x : GEDRecord2) : Bytes :=
  x.basic_ground_combat_vehicle.ser ++ e8 x.fuel_status ++ e8 x.ground_maintenance_status ++ e8 x.primary_ammunition ++ e8 x.secondary_ammunition
theorem GEDRecord2.parse_ser {env : Env} {x : GEDRecord2} (h : x.basic_ground_combat_vehicle.appearance.Wf env landPlatformType) (r : Bytes) :
    (GEDRecord2.parse env).run (x.ser ++ r) = .ok x r := by
  rtp [GEDRecord2.parse, GEDRecord2.ser, GEDRecord1.parse_ser h]
@[len] theorem GEDRecord2.length_ser (x : GEDRecord2) : x.ser.length = 24 := by lenp [GEDRecord2.ser]
instance (env) : Stable (GEDRecord2.parse env) := by unfold GEDRecord2.parse; parser_ok
instance (env) : Safe (GEDRecord2.parse env) := by unfold GEDRecord2.parse; parser_ok

/-- is_group_of/model.rs:182-192 basic ground combat soldier -/
structure GEDRecord3 where
  entity_id : UInt16
  location : GEDEntityLocation
  appearance : EntityAppearance
  orientation : GEDEntityOrientation
  speed : UInt8
  head_azimuth : UInt8
  head_elevation : UInt8
  head_scan_rate : UInt8
  head_elevation_rate : UInt8
  deriving Repr, DecidableEq
/-- is_group_of/parser.rs:117-144 -/
def GEDRecord3.parse (env : Env) : BP GEDRecord3 := do
  let a ← be_u16
  let b ← GEDEntityLocation.parse
  let c ← EntityAppearance.parse env landPlatformType
  let d ← GEDEntityOrientation.parse
  let v0 ← be_u8
  let v1 ← be_u8
  let v2 ← be_u8
  let v3 ← be_u8
  let v4 ← be_u8
  pure ⟨a, b, c, d, v0, v1, v2, v3, v4⟩
/-- is_group_of/writer.rs:94-108 -/
def GEDRecord3.ser (x : GEDRecord3) : Bytes :=
  e16 x.entity_id ++ x.location.ser ++ x.appearance.ser ++ x.orientation.ser ++ e8 x.speed ++ e8 x.head_azimuth ++ e8 x.head_elevation ++ e8 x.head_scan_rate ++ e8 x.head_elevation_rate
theorem GEDRecord3.parse_ser {env : Env} {x : GEDRecord3} (h : x.appearance.Wf env landPlatformType) (r : Bytes) :
    (GEDRecord3.parse env).run (x.ser ++ r) = .ok x r := by
  rtp [GEDRecord3.parse, GEDRecord3.ser, EntityAppearance.parse_ser h]
@[len] theorem GEDRecord3.length_ser (x : GEDRecord3) : x.ser.length = 20 := by lenp [GEDRecord3.ser]
instance (env) : Stable (GEDRecord3.parse env) := by unfold GEDRecord3.parse; parser_ok
instance (env) : Safe (GEDRecord3.parse env) := by unfold GEDRecord3.parse; parser_ok

/-- is_group_of/model.rs:204-210 enhanced ground combat soldier -/
structure GEDRecord4 where
  basic_ground_combat_soldier : GEDRecord3
  water_status : UInt8
  reset_status : UInt8
  primary_ammunition : UInt8
  secondary_ammunition : UInt8
  deriving Repr, DecidableEq
/-- is_group_of/parser.rs:146-163 -/
def GEDRecord4.parse (env : Env) : BP GEDRecord4 := do
  let b ← GEDRecord3.parse env
  let v0 ← be_u8
  let v1 ← be_u8
  let v2 ← be_u8
  let v3 ← be_u8
  pure ⟨b, v0, v1, v2, v3⟩
/-- is_group_of/writer.rs:110-120 -/
def GEDRecord4.ser (x : GEDRecord4) : Bytes :=
  x.basic_ground_combat_soldier.ser ++ e8 x.water_status ++ e8 x.reset_status ++ e8 x.primary_ammunition ++ e8 x.secondary_ammunition
theorem GEDRecord4.parse_ser {env : Env} {x : GEDRecord4} (h : x.basic_ground_combat_soldier.appearance.Wf env landPlatformType) (r : Bytes) :
    (GEDRecord4.parse env).run (x.ser ++ r) = .ok x r := by
  rtp [GEDRecord4.parse, GEDRecord4.ser, GEDRecord3.parse_ser h]
@[len] theorem GEDRecord4.length_ser (x : GEDRecord4) : x.ser.length = 24 := by lenp [GEDRecord4.ser]
instance (env) : Stable (GEDRecord4.parse env) := by unfold GEDRecord4.parse; parser_ok
instance (env) : Safe (GEDRecord4.parse env) := by unfold GEDRecord4.parse; parser_ok

/-- is_group_of/model.rs:221-234 basic rotor wing aircraft -/
structure GEDRecord5 where
  entity_id : UInt16
  location : GEDEntityLocation
  appearance : EntityAppearance
  orientation : GEDEntityOrientation
  fuel_status : UInt8
  movement_horizontal_deviation : UInt8
  movement_vertical_deviation : UInt8
  movement_speed : UInt16
  turret_azimuth : UInt8
  gun_elevation : UInt8
  turret_scan_rate : UInt8
  gun_elevation_rate : UInt8
  deriving Repr, DecidableEq
/-- is_group_of/parser.rs:165-198 -/
def GEDRecord5.parse (env : Env) : BP GEDRecord5 := do
  let a ← be_u16
  let b ← GEDEntityLocation.parse
  let c ← EntityAppearance.parse env airPlatformType
  let d ← GEDEntityOrientation.parse
  let v0 ← be_u8
  let v1 ← be_u8
  let v2 ← be_u8
  let v3 ← be_u16
  let v4 ← be_u8
  let v5 ← be_u8
  let v6 ← be_u8
  let v7 ← be_u8
  pure ⟨a, b, c, d, v0, v1, v2, v3, v4, v5, v6, v7⟩
/-- is_group_of/writer.rs:122-139 -/
def GEDRecord5.ser (x : GEDRecord5) : Bytes :=
  e16 x.entity_id ++ x.location.ser ++ x.appearance.ser ++ x.orientation.ser ++ e8 x.fuel_status ++ e8 x.movement_horizontal_deviation ++ e8 x.movement_vertical_deviation ++ e16 x.movement_speed ++ e8 x.turret_azimuth ++ e8 x.gun_elevation ++ e8 x.turret_scan_rate ++ e8 x.gun_elevation_rate
theorem GEDRecord5.parse_ser {env : Env} {x : GEDRecord5} (h : x.appearance.Wf env airPlatformType) (r : Bytes) :
    (GEDRecord5.parse env).run (x.ser ++ r) = .ok x r := by
  rtp [GEDRecord5.parse, GEDRecord5.ser, EntityAppearance.parse_ser h]
@[len] theorem GEDRecord5.length_ser (x : GEDRecord5) : x.ser.length = 24 := by lenp [GEDRecord5.ser]
instance (env) : Stable (GEDRecord5.parse env) := by unfold GEDRecord5.parse; parser_ok
instance (env) : Safe (GEDRecord5.parse env) := by unfold GEDRecord5.parse; parser_ok

/-- is_group_of/model.rs:246-252 enhanced rotor wing aircraft -/
structure GEDRecord6 where
  basic_rotor_wing_aircraft : GEDRecord5
  supplemental_fuel_status : UInt8
  air_maintenance_status : UInt8
  primary_ammunition : UInt8
  secondary_ammunition : UInt8
  deriving Repr, DecidableEq
/-- is_group_of/parser.rs:200-217 -/
def GEDRecord6.parse (env : Env) : BP GEDRecord6 := do
  let b ← GEDRecord5.parse env
  let v0 ← be_u8
  let v1 ← be_u8
  let v2 ← be_u8
  let v3 ← be_u8
  pure ⟨b, v0, v1, v2, v3⟩
/-- is_group_of/writer.rs:141-151 -/
def GEDRecord6.ser (x : GEDRecord6) : Bytes :=
  x.basic_rotor_wing_aircraft.ser ++ e8 x.supplemental_fuel_status ++ e8 x.air_maintenance_status ++ e8 x.primary_ammunition ++ e8 x.secondary_ammunition
theorem GEDRecord6.parse_ser {env : Env} {x : GEDRecord6} (h : x.basic_rotor_wing_aircraft.appearance.Wf env airPlatformType) (r : Bytes) :
    (GEDRecord6.parse env).run (x.ser ++ r) = .ok x r := by
  rtp [GEDRecord6.parse, GEDRecord6.ser, GEDRecord5.parse_ser h]
@[len] theorem GEDRecord6.length_ser (x : GEDRecord6) : x.ser.length = 28 := by lenp [GEDRecord6.ser]
instance (env) : Stable (GEDRecord6.parse env) := by unfold GEDRecord6.parse; parser_ok
instance (env) : Safe (GEDRecord6.parse env) := by unfold GEDRecord6.parse; parser_ok

/-- is_group_of/model.rs:263-272 basic fixed wing aircraft -/
structure GEDRecord7 where
  entity_id : UInt16
  location : GEDEntityLocation
  appearance : EntityAppearance
  orientation : GEDEntityOrientation
  fuel_status : UInt8
  movement_horizontal_deviation : UInt8
  movement_vertical_deviation : UInt8
  movement_speed : UInt16
  deriving Repr, DecidableEq
/-- is_group_of/parser.rs:219-244 -/
def GEDRecord7.parse (env : Env) : BP GEDRecord7 := do
  let a ← be_u16
  let b ← GEDEntityLocation.parse
  let c ← EntityAppearance.parse env airPlatformType
  let d ← GEDEntityOrientation.parse
  let v0 ← be_u8
  let v1 ← be_u8
  let v2 ← be_u8
  let v3 ← be_u16
  pure ⟨a, b, c, d, v0, v1, v2, v3⟩
/-- is_group_of/writer.rs:153-166 -/
def GEDRecord7.ser (x : GEDRecord7) : Bytes :=
  e16 x.entity_id ++ x.location.ser ++ x.appearance.ser ++ x.orientation.ser ++ e8 x.fuel_status ++ e8 x.movement_horizontal_deviation ++ e8 x.movement_vertical_deviation ++ e16 x.movement_speed
theorem GEDRecord7.parse_ser {env : Env} {x : GEDRecord7} (h : x.appearance.Wf env airPlatformType) (r : Bytes) :
    (GEDRecord7.parse env).run (x.ser ++ r) = .ok x r := by
  rtp [GEDRecord7.parse, GEDRecord7.ser, EntityAppearance.parse_ser h]
@[len] theorem GEDRecord7.length_ser (x : GEDRecord7) : x.ser.length = 20 := by lenp [GEDRecord7.ser]
instance (env) : Stable (GEDRecord7.parse env) := by unfold GEDRecord7.parse; parser_ok
instance (env) : Safe (GEDRecord7.parse env) := by unfold GEDRecord7.parse; parser_ok

/-- is_group_of/model.rs:284-290 enhanced fixed wing aircraft -/
structure GEDRecord8 where
  basic_fixed_wing_aircraft : GEDRecord7
  supplemental_fuel_status : UInt8
  air_maintenance_status : UInt8
  primary_ammunition : UInt8
  secondary_ammunition : UInt8
  deriving Repr, DecidableEq
/-- is_group_of/parser.rs:246-263 -/
def GEDRecord8.parse (env : Env) : BP GEDRecord8 := do
  let b ← GEDRecord7.parse env
  let v0 ← be_u8
  let v1 ← be_u8
  let v2 ← be_u8
  let v3 ← be_u8
  pure ⟨b, v0, v1, v2, v3⟩
/-- is_group_of/writer.rs:168-178 -/
def GEDRecord8.ser (x : GEDRecord8) : Bytes :=
  x.basic_fixed_wing_aircraft.ser ++ e8 x.supplemental_fuel_status ++ e8 x.air_maintenance_status ++ e8 x.primary_ammunition ++ e8 x.secondary_ammunition
theorem GEDRecord8.parse_ser {env : Env} {x : GEDRecord8} (h : x.basic_fixed_wing_aircraft.appearance.Wf env airPlatformType) (r : Bytes) :
    (GEDRecord8.parse env).run (x.ser ++ r) = .ok x r := by
  rtp [GEDRecord8.parse, GEDRecord8.ser, GEDRecord7.parse_ser h]
@[len] theorem GEDRecord8.length_ser (x : GEDRecord8) : x.ser.length = 24 := by lenp [GEDRecord8.ser]
instance (env) : Stable (GEDRecord8.parse env) := by unfold GEDRecord8.parse; parser_ok
instance (env) : Safe (GEDRecord8.parse env) := by unfold GEDRecord8.parse; parser_ok

/-- is_group_of/model.rs:301-307 ground logistics vehicle -/
structure GEDRecord9 where
  entity_id : UInt16
  location : GEDEntityLocation
  appearance : EntityAppearance
  orientation : GEDEntityOrientation
  speed : UInt16
  deriving Repr, DecidableEq
/-- is_group_of/parser.rs:265-284 -/
def GEDRecord9.parse (env : Env) : BP GEDRecord9 := do
  let a ← be_u16
  let b ← GEDEntityLocation.parse
  let c ← EntityAppearance.parse env landPlatformType
  let d ← GEDEntityOrientation.parse
  let v0 ← be_u16
  pure ⟨a, b, c, d, v0⟩
/-- is_group_of/writer.rs:180-190 -/
def GEDRecord9.ser (x : GEDRecord9) : Bytes :=
  e16 x.entity_id ++ x.location.ser ++ x.appearance.ser ++ x.orientation.ser ++ e16 x.speed
theorem GEDRecord9.parse_ser {env : Env} {x : GEDRecord9} (h : x.appearance.Wf env landPlatformType) (r : Bytes) :
    (GEDRecord9.parse env).run (x.ser ++ r) = .ok x r := by
  rtp [GEDRecord9.parse, GEDRecord9.ser, EntityAppearance.parse_ser h]
@[len] theorem GEDRecord9.length_ser (x : GEDRecord9) : x.ser.length = 17 := by lenp [GEDRecord9.ser]
instance (env) : Stable (GEDRecord9.parse env) := by unfold GEDRecord9.parse; parser_ok
instance (env) : Safe (GEDRecord9.parse env) := by unfold GEDRecord9.parse; parser_ok

/-- is_group_of/model.rs:83-96 -/
inductive GroupEntityDescription where
  | undefined
  | basicGroundCombatVehicle (r : GEDRecord1)
  | enhancedGroundCombatVehicle (r : GEDRecord2)
  | basicGroundCombatSoldier (r : GEDRecord3)
  | enhancedGroundCombatSoldier (r : GEDRecord4)
  | basicRotorWingAircraft (r : GEDRecord5)
  | enhancedRotorWingAircraft (r : GEDRecord6)
  | basicFixedWingAircraft (r : GEDRecord7)
  | enhancedFixedWingAircraft (r : GEDRecord8)
  | groundLogisticsVehicle (r : GEDRecord9)
  deriving Repr, DecidableEq
/-- is_group_of/parser.rs:38-67, by the raw grouped entity category (SISO-REF-010 UID 213) -/
def GroupEntityDescription.parse (env : Env) (category : UInt8) : BP GroupEntityDescription :=
  if category = 1 then do
    let x ← GEDRecord1.parse env
    pure (.basicGroundCombatVehicle x)
  else if category = 2 then do
    let x ← GEDRecord2.parse env
    pure (.enhancedGroundCombatVehicle x)
  else if category = 3 then do
    let x ← GEDRecord3.parse env
    pure (.basicGroundCombatSoldier x)
  else if category = 4 then do
    let x ← GEDRecord4.parse env
    pure (.enhancedGroundCombatSoldier x)
  else if category = 5 then do
    let x ← GEDRecord5.parse env
    pure (.basicRotorWingAircraft x)
  else if category = 6 then do
    let x ← GEDRecord6.parse env
    pure (.enhancedRotorWingAircraft x)
  else if category = 7 then do
    let x ← GEDRecord7.parse env
    pure (.basicFixedWingAircraft x)
  else if category = 8 then do
    let x ← GEDRecord8.parse env
    pure (.enhancedFixedWingAircraft x)
  else if category = 9 then do
    let x ← GEDRecord9.parse env
    pure (.groundLogisticsVehicle x)
  else pure .undefined
/-- is_group_of/writer.rs:29-44 -/
def GroupEntityDescription.ser : GroupEntityDescription → Bytes
  | .undefined => []
  | .basicGroundCombatVehicle x => x.ser
  | .enhancedGroundCombatVehicle x => x.ser
  | .basicGroundCombatSoldier x => x.ser
  | .enhancedGroundCombatSoldier x => x.ser
  | .basicRotorWingAircraft x => x.ser
  | .enhancedRotorWingAircraft x => x.ser
  | .basicFixedWingAircraft x => x.ser
  | .enhancedFixedWingAircraft x => x.ser
  | .groundLogisticsVehicle x => x.ser
/-- is_group_of/model.rs:98-113 and the `record_length` of the records -/
def GroupEntityDescription.recordLen : GroupEntityDescription → Nat
  | .undefined => 0
  | .basicGroundCombatVehicle _ => 20
  | .enhancedGroundCombatVehicle _ => 24
  | .basicGroundCombatSoldier _ => 20
  | .enhancedGroundCombatSoldier _ => 24
  | .basicRotorWingAircraft _ => 24
  | .enhancedRotorWingAircraft _ => 28
  | .basicFixedWingAircraft _ => 20
  | .enhancedFixedWingAircraft _ => 24
  | .groundLogisticsVehicle _ => 17
/-- Specification: the description is the one of the grouped entity category, and the appearance is one of a land
(resp. air) platform. -/
def GroupEntityDescription.Wf (env : Env) (category : UInt8) : GroupEntityDescription → Prop
  | .undefined => category = 0 ∨ 9 < category.toNat
  | .basicGroundCombatVehicle x => category = 1 ∧ x.appearance.Wf env landPlatformType
  | .enhancedGroundCombatVehicle x => category = 2 ∧ x.basic_ground_combat_vehicle.appearance.Wf env landPlatformType
  | .basicGroundCombatSoldier x => category = 3 ∧ x.appearance.Wf env landPlatformType
  | .enhancedGroundCombatSoldier x => category = 4 ∧ x.basic_ground_combat_soldier.appearance.Wf env landPlatformType
  | .basicRotorWingAircraft x => category = 5 ∧ x.appearance.Wf env airPlatformType
  | .enhancedRotorWingAircraft x => category = 6 ∧ x.basic_rotor_wing_aircraft.appearance.Wf env airPlatformType
  | .basicFixedWingAircraft x => category = 7 ∧ x.appearance.Wf env airPlatformType
  | .enhancedFixedWingAircraft x => category = 8 ∧ x.basic_fixed_wing_aircraft.appearance.Wf env airPlatformType
  | .groundLogisticsVehicle x => category = 9 ∧ x.appearance.Wf env landPlatformType
theorem GroupEntityDescription.parse_ser {env : Env} {c : UInt8} {x : GroupEntityDescription} (h : x.Wf env c) (r : Bytes) :
    (GroupEntityDescription.parse env c).run (x.ser ++ r) = .ok x r := by
  cases x with
  | undefined =>
    have e : ∀ k : UInt8, 1 ≤ k.toNat → k.toNat ≤ 9 → c ≠ k := by
      intro k h1 h2 hk
      subst hk
      rcases h with h | h
      · rw [h] at h1; exact absurd h1 (by decide)
      · omega
    simp only [GroupEntityDescription.parse, GroupEntityDescription.ser, List.nil_append, e 1 (by decide) (by decide),
      e 2 (by decide) (by decide), e 3 (by decide) (by decide), e 4 (by decide) (by decide), e 5 (by decide) (by decide),
      e 6 (by decide) (by decide), e 7 (by decide) (by decide), e 8 (by decide) (by decide), e 9 (by decide) (by decide),
      if_false, rt]
  | basicGroundCombatVehicle x =>
    obtain ⟨rfl, h⟩ := h
    unfold GroupEntityDescription.parse GroupEntityDescription.ser
    simp (decide := true) only [if_true, if_false, rt, GEDRecord1.parse_ser h]
  | enhancedGroundCombatVehicle x =>
    obtain ⟨rfl, h⟩ := h
    unfold GroupEntityDescription.parse GroupEntityDescription.ser
    simp (decide := true) only [if_true, if_false, rt, GEDRecord2.parse_ser h]
  | basicGroundCombatSoldier x =>
    obtain ⟨rfl, h⟩ := h
    unfold GroupEntityDescription.parse GroupEntityDescription.ser
    simp (decide := true) only [if_true, if_false, rt, GEDRecord3.parse_ser h]
  | enhancedGroundCombatSoldier x =>
    obtain ⟨rfl, h⟩ := h
    unfold GroupEntityDescription.parse GroupEntityDescription.ser
    simp (decide := true) only [if_true, if_false, rt, GEDRecord4.parse_ser h]
  | basicRotorWingAircraft x =>
    obtain ⟨rfl, h⟩ := h
    unfold GroupEntityDescription.parse GroupEntityDescription.ser
    simp (decide := true) only [if_true, if_false, rt, GEDRecord5.parse_ser h]
  | enhancedRotorWingAircraft x =>
    obtain ⟨rfl, h⟩ := h
    unfold GroupEntityDescription.parse GroupEntityDescription.ser
    simp (decide := true) only [if_true, if_false, rt, GEDRecord6.parse_ser h]
  | basicFixedWingAircraft x =>
    obtain ⟨rfl, h⟩ := h
    unfold GroupEntityDescription.parse GroupEntityDescription.ser
    simp (decide := true) only [if_true, if_false, rt, GEDRecord7.parse_ser h]
  | enhancedFixedWingAircraft x =>
    obtain ⟨rfl, h⟩ := h
    unfold GroupEntityDescription.parse GroupEntityDescription.ser
    simp (decide := true) only [if_true, if_false, rt, GEDRecord8.parse_ser h]
  | groundLogisticsVehicle x =>
    obtain ⟨rfl, h⟩ := h
    unfold GroupEntityDescription.parse GroupEntityDescription.ser
    simp (decide := true) only [if_true, if_false, rt, GEDRecord9.parse_ser h]
theorem GroupEntityDescription.length_ser (x : GroupEntityDescription) : x.ser.length = x.recordLen := by
  cases x
  · rfl
  all_goals simp only [GroupEntityDescription.ser, GroupEntityDescription.recordLen, len]
instance (env c) : Stable (GroupEntityDescription.parse env c) := by unfold GroupEntityDescription.parse; parser_ok
instance (env c) : Safe (GroupEntityDescription.parse env c) := by unfold GroupEntityDescription.parse; parser_ok

/-- is_group_of/model.rs:16-22, 62-66 -/
structure IsGroupOf where
  group_id : EntityId
  grouped_entity_category : UInt8
  latitude : UInt64
  longitude : UInt64
  descriptions : List GroupEntityDescription
  deriving Repr, DecidableEq
/-- is_group_of/parser.rs:10-36 -/
def IsGroupOf.parse (env : Env) : BP IsGroupOf := do
  let a ← EntityId.parse
  let c ← be_u8
  let n ← be_u8
  let _pad ← be_u32
  let lat ← be_u64
  let lon ← be_u64
  let d ← P.count (GroupEntityDescription.parse env c) n.toNat
  pure ⟨a, c, lat, lon, d⟩
/-- is_group_of/writer.rs:5-27 -/
def IsGroupOf.ser (x : IsGroupOf) : Bytes :=
  x.group_id.ser ++ e8 x.grouped_entity_category ++ e8 (UInt8.ofNat x.descriptions.length) ++ e32 0 ++ e64 x.latitude
    ++ e64 x.longitude ++ serList GroupEntityDescription.ser x.descriptions
/-- is_group_of/model.rs:7, 39-45 -/
def IsGroupOf.bodyLen (x : IsGroupOf) : Nat := 28 + cntList GroupEntityDescription.recordLen x.descriptions
/-- is_group_of/writer.rs:16, 20-26 (the reference point is counted as 8 octets) -/
def IsGroupOf.cnt (x : IsGroupOf) : Nat :=
  x.group_id.cnt + 8 + cntList GroupEntityDescription.recordLen x.descriptions + 6
/-- Specification: at most 255 descriptions, all of the PDU's category. -/
structure IsGroupOf.Wf (env : Env) (x : IsGroupOf) : Prop where
  count : x.descriptions.length < 256
  descriptions : ∀ d ∈ x.descriptions, d.Wf env x.grouped_entity_category
theorem IsGroupOf.parse_ser {env : Env} {x : IsGroupOf} (h : x.Wf env) (r : Bytes) :
    (IsGroupOf.parse env).run (x.ser ++ r) = .ok x r := by
  have hn := toNat_u8_ofNat h.count
  generalize hg : UInt8.ofNat x.descriptions.length = n8 at hn
  have hv := run_countList (p := GroupEntityDescription.parse env x.grouped_entity_category) (s := GroupEntityDescription.ser)
    x.descriptions r _ rfl (fun d hd r => GroupEntityDescription.parse_ser (h.descriptions d hd) r)
  rtp [IsGroupOf.parse, IsGroupOf.ser, hg, hn, hv]
theorem IsGroupOf.length_ser (x : IsGroupOf) : x.ser.length = x.bodyLen := by
  lenp [IsGroupOf.ser, IsGroupOf.bodyLen, length_serList_eq_cntList (c := GroupEntityDescription.recordLen)
    x.descriptions fun p _ => GroupEntityDescription.length_ser p]
theorem IsGroupOf.cnt_eq (x : IsGroupOf) : x.cnt + 8 = x.bodyLen := by
  simp only [IsGroupOf.cnt, IsGroupOf.bodyLen, EntityId.cnt, SimulationAddress.cnt]; omega
instance (env) : Stable (IsGroupOf.parse env) := by unfold IsGroupOf.parse; parser_ok
instance (env) : Safe (IsGroupOf.parse env) := by unfold IsGroupOf.parse; parser_ok

/-! ## IsPartOf -/

/-- is_part_of/model.rs:12-18, 58-61, 83-86 -/
structure IsPartOf where
  originating_entity_id : EntityId
  receiving_entity_id : EntityId
  nature : UInt16
  position : UInt16
  part_location : VectorF32
  station_name : UInt16
  station_number : UInt16
  deriving Repr, DecidableEq
/-- is_part_of/parser.rs:8-44 -/
def IsPartOf.parse : BP IsPartOf := do
  let a ← EntityId.parse
  let b ← EntityId.parse
  let c ← be_u16
  let d ← be_u16
  let e ← VectorF32.parse
  let f ← be_u16
  let g ← be_u16
  pure ⟨a, b, c, d, e, f, g⟩
/-- is_part_of/writer.rs:5-33 -/
def IsPartOf.ser (x : IsPartOf) : Bytes :=
  x.originating_entity_id.ser ++ x.receiving_entity_id.ser ++ e16 x.nature ++ e16 x.position ++ x.part_location.ser
    ++ e16 x.station_name ++ e16 x.station_number
/-- is_part_of/model.rs:6, 35-37 -/
def IsPartOf.bodyLen (_ : IsPartOf) : Nat := 40
/-- is_part_of/writer.rs:5-33 -/
def IsPartOf.cnt (x : IsPartOf) : Nat :=
  x.originating_entity_id.cnt + x.receiving_entity_id.cnt + 4 + x.part_location.cnt + 4
@[rt] theorem IsPartOf.parse_ser (r : Bytes) (x : IsPartOf) : IsPartOf.parse.run (x.ser ++ r) = .ok x r := by
  rtp [IsPartOf.parse, IsPartOf.ser]
@[len] theorem IsPartOf.length_ser (x : IsPartOf) : x.ser.length = 32 := by lenp [IsPartOf.ser]
theorem IsPartOf.cnt_eq (x : IsPartOf) : x.cnt = x.ser.length := by rw [IsPartOf.length_ser]; rfl
instance : Stable IsPartOf.parse := by unfold IsPartOf.parse; parser_ok
instance : Safe IsPartOf.parse := by unfold IsPartOf.parse; parser_ok

/-! ## TransferOwnership -/

/-- transfer_ownership/model.rs:13-21 -/
structure TransferOwnership where
  originating_entity_id : EntityId
  receiving_entity_id : EntityId
  request_id : UInt32
  required_reliability_service : UInt8
  transfer_type : UInt8
  transfer_entity_id : EntityId
  record_specification : List RecordSet
  deriving Repr, DecidableEq
/-- transfer_ownership/parser.rs:8-29 -/
def TransferOwnership.parse (checked : Bool) : BP TransferOwnership := do
  let a ← EntityId.parse
  let b ← EntityId.parse
  let c ← be_u32
  let d ← be_u8
  let e ← be_u8
  let f ← EntityId.parse
  let g ← RecordSpecification.parse checked
  pure ⟨a, b, c, d, e, f, g⟩
/-- transfer_ownership/writer.rs:5-17 -/
def TransferOwnership.ser (x : TransferOwnership) : Bytes :=
  x.originating_entity_id.ser ++ x.receiving_entity_id.ser ++ e32 x.request_id ++ e8 x.required_reliability_service
    ++ e8 x.transfer_type ++ x.transfer_entity_id.ser ++ RecordSpecification.ser x.record_specification
/-- transfer_ownership/model.rs:7, 38-49 -/
def TransferOwnership.bodyLen (x : TransferOwnership) : Nat := 28 + recordsLen x.record_specification
/-- transfer_ownership/writer.rs:15 -/
def TransferOwnership.cnt (x : TransferOwnership) : Nat :=
  x.originating_entity_id.cnt + x.receiving_entity_id.cnt + 4 + x.transfer_entity_id.cnt
    + RecordSpecification.cnt x.record_specification
theorem TransferOwnership.parse_ser (checked : Bool) {x : TransferOwnership} (h : Records.Wf x.record_specification) (r : Bytes) :
    (TransferOwnership.parse checked).run (x.ser ++ r) = .ok x r := by
  rtp [TransferOwnership.parse, TransferOwnership.ser, RecordSpecification.parse_ser checked h.1 h.2]
theorem TransferOwnership.length_ser {x : TransferOwnership} (h : Records.Wf x.record_specification) : x.ser.length = x.bodyLen := by
  have := recordsLen_eq h
  lenp [TransferOwnership.ser, TransferOwnership.bodyLen]
  omega
theorem TransferOwnership.cnt_eq {x : TransferOwnership} (h : Records.Wf x.record_specification) : x.cnt + 2 = x.ser.length := by
  lenp [TransferOwnership.ser, TransferOwnership.cnt, EntityId.cnt, SimulationAddress.cnt, RecordSpecification.cnt_eq h.2]
  omega
instance (c) : Stable (TransferOwnership.parse c) := by unfold TransferOwnership.parse; parser_ok
instance : Safe (TransferOwnership.parse false) := by unfold TransferOwnership.parse; parser_ok

/-! ## AggregateState -/

/-- aggregate_state/model.rs:194-203 -/
structure AggregateType where
  aggregate_kind : UInt8
  domain : UInt8
  country : UInt16
  category : UInt8
  subcategory : UInt8
  specific : UInt8
  extra : UInt8
  deriving Repr, DecidableEq
/-- aggregate_state/parser.rs:63-88 -/
def AggregateType.parse : BP AggregateType := do
  let a ← be_u8
  let b ← be_u8
  let c ← be_u16
  let d ← be_u8
  let e ← be_u8
  let f ← be_u8
  let g ← be_u8
  pure ⟨a, b, c, d, e, f, g⟩
/-- aggregate_state/writer.rs:53-65 -/
def AggregateType.ser (x : AggregateType) : Bytes :=
  e8 x.aggregate_kind ++ e8 x.domain ++ e16 x.country ++ e8 x.category ++ e8 x.subcategory ++ e8 x.specific ++ e8 x.extra
@[rt] theorem AggregateType.parse_ser (r : Bytes) (x : AggregateType) : AggregateType.parse.run (x.ser ++ r) = .ok x r := by
  rtp [AggregateType.parse, AggregateType.ser]
@[len] theorem AggregateType.length_ser (x : AggregateType) : x.ser.length = 8 := by lenp [AggregateType.ser]
instance : Stable AggregateType.parse := by unfold AggregateType.parse; parser_ok
instance : Safe AggregateType.parse := by unfold AggregateType.parse; parser_ok

/-- aggregate_state/model.rs:95-100; the string is kept as its UTF-8 octets -/
structure AggregateMarking where
  marking_character_set : UInt8
  marking_string : Bytes
  deriving Repr, DecidableEq
/-- aggregate_state/parser.rs:90-102 -/
def AggregateMarking.parse (env : Env) : BP AggregateMarking := do
  let cs ← be_u8
  let buf ← P.take 31
  pure ⟨cs, sanitizeMarking env buf⟩
/-- aggregate_state/writer.rs:67-78.  `31 - len` underflows (panic in a checked build) for longer strings, which
the well-formedness predicate excludes. -/
def AggregateMarking.ser (x : AggregateMarking) : Bytes :=
  e8 x.marking_character_set ++ x.marking_string ++ List.replicate (31 - x.marking_string.length) 0x20
/-- Specification: at most 31 ASCII characters, not ending in a blank or punctuation. -/
def AggregateMarking.Wf (x : AggregateMarking) : Prop :=
  x.marking_string.length ≤ 31 ∧ (∀ b ∈ x.marking_string, b.toNat < 128) ∧
  (∀ b, x.marking_string.getLast? = some b → isAlnum b = true)
theorem AggregateMarking.parse_ser {env : Env} {x : AggregateMarking} (h : x.Wf) (r : Bytes) :
    (AggregateMarking.parse env).run (x.ser ++ r) = .ok x r := by
  obtain ⟨h1, h2, h3⟩ := h
  rtp [AggregateMarking.parse, AggregateMarking.ser]
  rw [← List.append_assoc, P.run_take _ _ 31 (by simp only [List.length_append, List.length_replicate]; omega)]
  simp only [sanitize_padded env _ h2 h3 (c := 0x20) (by decide), rt]
theorem AggregateMarking.length_ser {x : AggregateMarking} (h : x.Wf) : x.ser.length = 32 := by
  have := h.1
  lenp [AggregateMarking.ser, List.length_replicate]; omega
instance (env) : Stable (AggregateMarking.parse env) := by unfold AggregateMarking.parse; parser_ok
instance (env) : Safe (AggregateMarking.parse env) := by unfold AggregateMarking.parse; parser_ok

/-- aggregate_state/model.rs:287-291 -/
structure SilentAggregateSystem where
  number_of_aggregates : UInt16
  aggregate_type : AggregateType
  deriving Repr, DecidableEq
/-- aggregate_state/parser.rs:104-112 -/
def SilentAggregateSystem.parse : BP SilentAggregateSystem := do
  let a ← be_u16
  let _pad ← be_u16
  let b ← AggregateType.parse
  pure ⟨a, b⟩
/-- aggregate_state/writer.rs:80-88 -/
def SilentAggregateSystem.ser (x : SilentAggregateSystem) : Bytes := e16 x.number_of_aggregates ++ e16 0 ++ x.aggregate_type.ser
@[rt] theorem SilentAggregateSystem.parse_ser (r : Bytes) (x : SilentAggregateSystem) :
    SilentAggregateSystem.parse.run (x.ser ++ r) = .ok x r := by
  rtp [SilentAggregateSystem.parse, SilentAggregateSystem.ser]
@[len] theorem SilentAggregateSystem.length_ser (x : SilentAggregateSystem) : x.ser.length = 12 := by lenp [SilentAggregateSystem.ser]
instance : Stable SilentAggregateSystem.parse := by unfold SilentAggregateSystem.parse; parser_ok
instance : Safe SilentAggregateSystem.parse := by unfold SilentAggregateSystem.parse; parser_ok

/-- aggregate_state/model.rs:310-315 -/
structure SilentEntitySystem where
  number_of_entities : UInt16
  entity_type : EntityType
  appearances : List EntityAppearance
  deriving Repr, DecidableEq
/-- aggregate_state/parser.rs:114-122 -/
def SilentEntitySystem.parse (env : Env) : BP SilentEntitySystem := do
  let a ← be_u16
  let n ← be_u16
  let t ← EntityType.parse
  let l ← P.count (EntityAppearance.parse env t) n.toNat
  pure ⟨a, t, l⟩
/-- aggregate_state/writer.rs:90-100 -/
def SilentEntitySystem.ser (x : SilentEntitySystem) : Bytes :=
  e16 x.number_of_entities ++ e16 (UInt16.ofNat x.appearances.length) ++ x.entity_type.ser
    ++ serList EntityAppearance.ser x.appearances
/-- aggregate_state/model.rs:334-342 (2 octets short of the encoding) -/
def SilentEntitySystem.recordLen (x : SilentEntitySystem) : Nat := 2 + 8 + 4 * x.appearances.length
/-- Specification: the appearances are those of the entity type and their number fits. -/
structure SilentEntitySystem.Wf (env : Env) (x : SilentEntitySystem) : Prop where
  count : x.appearances.length < 65536
  appearances : ∀ a ∈ x.appearances, a.Wf env x.entity_type
theorem SilentEntitySystem.parse_ser {env : Env} {x : SilentEntitySystem} (h : x.Wf env) (r : Bytes) :
    (SilentEntitySystem.parse env).run (x.ser ++ r) = .ok x r := by
  have hn := toNat_u16_ofNat h.count
  generalize hg : UInt16.ofNat x.appearances.length = n16 at hn
  have hv := run_countList (p := EntityAppearance.parse env x.entity_type) (s := EntityAppearance.ser)
    x.appearances r _ rfl (fun d hd r => EntityAppearance.parse_ser (h.appearances d hd) r)
  rtp [SilentEntitySystem.parse, SilentEntitySystem.ser, hg, hn, hv]
theorem SilentEntitySystem.length_ser (x : SilentEntitySystem) : x.ser.length = x.recordLen + 2 := by
  lenp [SilentEntitySystem.ser, SilentEntitySystem.recordLen, length_serList_const x.appearances fun a _ => EntityAppearance.length_ser a]
  omega
instance (env) : Stable (SilentEntitySystem.parse env) := by unfold SilentEntitySystem.parse; parser_ok
instance (env) : Safe (SilentEntitySystem.parse env) := by unfold SilentEntitySystem.parse; parser_ok

/-- aggregate_state/model.rs:17-33 -/
structure AggregateState where
  aggregate_id : EntityId
  force_id : UInt8
  aggregate_state : UInt8
  aggregate_type : AggregateType
  formation : UInt32
  aggregate_marking : AggregateMarking
  dimensions : VectorF32
  orientation : Orientation
  center_of_mass : Location
  velocity : VectorF32
  aggregates : List EntityId
  entities : List EntityId
  silent_aggregate_systems : List SilentAggregateSystem
  silent_entity_systems : List SilentEntitySystem
  variable_datums : List VariableDatum
  deriving Repr, DecidableEq

/-- aggregate_state/model.rs:55-61 `aggregate_state_intermediate_length_padding` without the padding, and before
the arithmetic is reduced to 16 bits (65536 is a multiple of 4, so the padding is not affected by the reduction) -/
def aggregateIntermediate (a e : Nat) : Nat := 124 + 6 * a + 6 * e
/-- aggregate_state/model.rs:59: the remainder, not the complement to four octets -/
def aggregatePadding (a e : Nat) : Nat := aggregateIntermediate a e % 4

/-- aggregate_state/parser.rs:11-61.  The 16-bit sum of the intermediate length overflows for more than 10901
identifiers, which panics in a build with overflow checks. -/
def AggregateState.parse (env : Env) : BP AggregateState := do
  let a ← EntityId.parse
  let b ← be_u8
  let c ← be_u8
  let d ← AggregateType.parse
  let e ← be_u32
  let f ← AggregateMarking.parse env
  let g ← VectorF32.parse
  let h ← Orientation.parse
  let i ← Location.parse
  let j ← VectorF32.parse
  let na ← be_u16
  let ne ← be_u16
  let nsa ← be_u16
  let nse ← be_u16
  let ag ← P.count EntityId.parse na.toNat
  let en ← P.count EntityId.parse ne.toNat
  if 65536 ≤ aggregateIntermediate ag.length en.length ∧ env.checked = true then P.panic
  else do
    let _pad ← P.take (aggregatePadding ag.length en.length)
    let sa ← P.count SilentAggregateSystem.parse nsa.toNat
    let se ← P.count (SilentEntitySystem.parse env) nse.toNat
    let n ← be_u32
    let v ← P.count VariableDatum.parse n.toNat
    pure ⟨a, b, c, d, e, f, g, h, i, j, ag, en, sa, se, v⟩
/-- aggregate_state/writer.rs:6-51 -/
def AggregateState.ser (x : AggregateState) : Bytes :=
  (x.aggregate_id.ser ++ e8 x.force_id ++ e8 x.aggregate_state ++ x.aggregate_type.ser ++ e32 x.formation
    ++ x.aggregate_marking.ser ++ x.dimensions.ser) ++ ((x.orientation.ser ++ x.center_of_mass.ser ++ x.velocity.ser
    ++ e16 (UInt16.ofNat x.aggregates.length) ++ e16 (UInt16.ofNat x.entities.length)
    ++ e16 (UInt16.ofNat x.silent_aggregate_systems.length) ++ e16 (UInt16.ofNat x.silent_entity_systems.length))
    ++ ((serList EntityId.ser x.aggregates ++ serList EntityId.ser x.entities
    ++ zeros (aggregatePadding x.aggregates.length x.entities.length))
    ++ (serList SilentAggregateSystem.ser x.silent_aggregate_systems ++ serList SilentEntitySystem.ser x.silent_entity_systems
    ++ e32 (UInt32.ofNat x.variable_datums.length) ++ serList VariableDatum.ser x.variable_datums)))
/-- aggregate_state/model.rs:63-79 (before reduction to 16 bits) -/
def AggregateState.bodyLen (x : AggregateState) : Nat :=
  aggregateIntermediate x.aggregates.length x.entities.length + aggregatePadding x.aggregates.length x.entities.length
    + 12 * x.silent_aggregate_systems.length + cntList SilentEntitySystem.recordLen x.silent_entity_systems
    + cntList (fun d => (lengthPaddedToNum (8 + d.datum_value.length) 8).record_length) x.variable_datums
/-- aggregate_state/writer.rs:49 -/
def AggregateState.cnt (x : AggregateState) : Nat := x.bodyLen

/-- Specification: counts fit, at most 10901 identifiers, records are well-formed, datums are whole 64-bit words. -/
structure AggregateState.Wf (env : Env) (x : AggregateState) : Prop where
  marking : x.aggregate_marking.Wf
  ids : x.aggregates.length + x.entities.length ≤ 10901
  silentAggregates : x.silent_aggregate_systems.length < 65536
  silentEntities : x.silent_entity_systems.length < 65536
  systems : ∀ s ∈ x.silent_entity_systems, s.Wf env
  datums : Datums.Wf [] x.variable_datums

theorem AggregateState.parse_ser {env : Env} {x : AggregateState} (h : x.Wf env) (r : Bytes) :
    (AggregateState.parse env).run (x.ser ++ r) = .ok x r := by
  have hi := h.ids
  have h1 := toNat_u16_ofNat (n := x.aggregates.length) (by omega)
  have h2 := toNat_u16_ofNat (n := x.entities.length) (by omega)
  have h3 := toNat_u16_ofNat h.silentAggregates
  have h4 := toNat_u16_ofNat h.silentEntities
  have h5 := toNat_u32_ofNat h.datums.2.1
  generalize g1 : UInt16.ofNat x.aggregates.length = n1 at h1
  generalize g2 : UInt16.ofNat x.entities.length = n2 at h2
  generalize g3 : UInt16.ofNat x.silent_aggregate_systems.length = n3 at h3
  generalize g4 : UInt16.ofNat x.silent_entity_systems.length = n4 at h4
  generalize g5 : UInt32.ofNat x.variable_datums.length = n5 at h5
  have r1 := fun r => run_countList (p := EntityId.parse) (s := EntityId.ser) x.aggregates r _ rfl (fun d _ r => EntityId.parse_ser r d)
  have r2 := fun r => run_countList (p := EntityId.parse) (s := EntityId.ser) x.entities r _ rfl (fun d _ r => EntityId.parse_ser r d)
  have r3 := fun r => run_countList (p := SilentAggregateSystem.parse) (s := SilentAggregateSystem.ser)
    x.silent_aggregate_systems r _ rfl (fun d _ r => SilentAggregateSystem.parse_ser r d)
  have r4 := fun r => run_countList (p := SilentEntitySystem.parse env) (s := SilentEntitySystem.ser)
    x.silent_entity_systems r _ rfl (fun d hd r => SilentEntitySystem.parse_ser (h.systems d hd) r)
  have r5 := fun r => run_countList (p := VariableDatum.parse) (s := VariableDatum.ser)
    x.variable_datums r _ rfl (fun d hd r => VariableDatum.parse_ser (h.datums.2.2 d hd).1 (h.datums.2.2 d hd).2 r)
  have hp : ∀ r, (P.take (aggregatePadding x.aggregates.length x.entities.length)).run
      (zeros (aggregatePadding x.aggregates.length x.entities.length) ++ r) =
      .ok (zeros (aggregatePadding x.aggregates.length x.entities.length)) r :=
    fun r => P.run_take _ _ _ (by simp [zeros])
  rtp [AggregateState.parse, AggregateState.ser, AggregateMarking.parse_ser h.marking, g1, g2, g3, g4, g5, h1, h2, h3, h4, r1, r2]
  rw [if_neg (by simp only [aggregateIntermediate]; omega)]
  rtp [hp, r3, r4, r5, h5]
/-- The encoding is longer than announced by two octets for every silent entity system. -/
theorem AggregateState.length_ser {env : Env} {x : AggregateState} (h : x.Wf env) :
    x.ser.length = x.bodyLen + 2 * x.silent_entity_systems.length := by
  have e1 := datumsLen_eq h.datums
  have e2 : (serList SilentEntitySystem.ser x.silent_entity_systems).length
      = cntList SilentEntitySystem.recordLen x.silent_entity_systems + 2 * x.silent_entity_systems.length := by
    generalize x.silent_entity_systems = l
    induction l with
    | nil => rfl
    | cons a l ih =>
      simp only [serList, cntList, List.flatMap_cons, List.map_cons, List.sum_cons, List.length_append, List.length_cons,
        SilentEntitySystem.length_ser] at ih ⊢
      omega
  lenp [AggregateState.ser, AggregateState.bodyLen, AggregateMarking.length_ser h.marking, zeros, List.length_replicate, e2,
    length_serList_const x.aggregates fun a _ => EntityId.length_ser a,
    length_serList_const x.entities fun a _ => EntityId.length_ser a,
    length_serList_const x.silent_aggregate_systems fun a _ => SilentAggregateSystem.length_ser a]
  have e3 : (serList VariableDatum.ser x.variable_datums).length
      = cntList (fun d => (lengthPaddedToNum (8 + d.datum_value.length) 8).record_length) x.variable_datums := by
    rw [List.length_append] at e1
    simpa [datumsLen, cntList, serList] using e1
  rw [e3]
  simp only [aggregateIntermediate]
  omega
instance (env) : Stable (AggregateState.parse env) := by unfold AggregateState.parse; parser_ok
theorem AggregateState.safe {env : Env} (h : env.checked = false) : Safe (AggregateState.parse env) := by
  unfold AggregateState.parse
  simp only [h, Bool.false_eq_true, and_false, if_false]
  parser_ok

end Verif.Dis
