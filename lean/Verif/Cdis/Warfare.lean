import Verif.Cdis.Siman

/-! # C-DIS Entity State, Fire, Detonation and Collision bodies

World coordinates are rescaled between writing and reading (`WorldCoordinates.wire`), so the round trips below say
exactly what arrives: the body that was written with its world location replaced by `wire` of it. -/

namespace Verif.Cdis
open Verif.P

/-! ## Optional fields of the common kinds -/

section
variable (r : Bits)
theorem rWhen_u (n : Nat) (o : Option Nat) (h : OptAll (· < 2 ^ n) o) :
    (rWhen o.isSome (rU n)).run (wOpt (wU n) o ++ r) = .ok o r :=
  rWhen_run (fun x h r => rU_run n x r h) o h r
theorem rWhen_s (n : Nat) (o : Option Int) (h : OptAll (InS n) o) :
    (rWhen o.isSome (rS n)).run (wOpt (wS n) o ++ r) = .ok o r :=
  rWhen_run (fun x h r => rS_run n x r h) o h r
theorem rWhen_uv8 (o : Option Nat) (h : OptAll (· < 256) o) :
    (rWhen o.isSome rUV8).run (wOpt wUV8 o ++ r) = .ok o r :=
  rWhen_run (fun x h r => rUV8_run x r h) o h r
theorem rWhen_uv16 (o : Option Nat) (h : OptAll (· < 65536) o) :
    (rWhen o.isSome uv16.parse).run (wOpt uv16.ser o ++ r) = .ok o r :=
  rWhen_run (fun x h r => rUV16_run x r h) o h r
theorem rWhen_uv32 (o : Option Nat) (h : OptAll (· < 4294967296) o) :
    (rWhen o.isSome uv32.parse).run (wOpt uv32.ser o ++ r) = .ok o r :=
  rWhen_run (fun x h r => rUV32_run x r h) o h r
theorem rWhen_entityId (o : Option EntityId) (h : OptAll EntityId.Wf o) :
    (rWhen o.isSome EntityId.parse).run (wOpt EntityId.ser o ++ r) = .ok o r :=
  rWhen_run (fun _ h r => EntityId.run h r) o h r
theorem rWhen_entityType (o : Option EntityType) (h : OptAll EntityType.Wf o) :
    (rWhen o.isSome EntityType.parse).run (wOpt EntityType.ser o ++ r) = .ok o r :=
  rWhen_run (fun _ h r => EntityType.run h r) o h r
theorem rWhen_vec16 (o : Option Vec3) (h : OptAll (Vec3.In 16) o) :
    (rWhen o.isSome (Vec3.parse sv16)).run (wOpt (Vec3.ser sv16) o ++ r) = .ok o r :=
  rWhen_run (fun _ h r => Vec3.run16 h r) o h r
theorem rWhen_vec14 (o : Option Vec3) (h : OptAll (Vec3.In 14) o) :
    (rWhen o.isSome (Vec3.parse sv14)).run (wOpt (Vec3.ser sv14) o ++ r) = .ok o r :=
  rWhen_run (fun _ h r => Vec3.run14 h r) o h r
theorem rWhen_vec12 (o : Option Vec3) (h : OptAll (Vec3.In 12) o) :
    (rWhen o.isSome (Vec3.parse sv12)).run (wOpt (Vec3.ser sv12) o ++ r) = .ok o r :=
  rWhen_run (fun _ h r => Vec3.run12 h r) o h r
theorem rWhen_orientation (o : Option Orientation) (h : OptAll Orientation.Wf o) :
    (rWhen o.isSome Orientation.parse).run (wOpt Orientation.ser o ++ r) = .ok o r :=
  rWhen_run (fun _ h r => Orientation.run h r) o h r
theorem rWhen_marking (o : Option Marking) (h : OptAll Marking.Wf o) :
    (rWhen o.isSome Marking.parse).run (wOpt Marking.ser o ++ r) = .ok o r :=
  rWhen_run (fun _ h r => Marking.run h r) o h r
end

/-- A field that is changed on its way. -/
theorem rWhen_run_map {α : Type} {p : BitP α} {w : α → Bits} {q : α → Prop} {f : α → α}
    (hp : ∀ x, q x → ∀ r, p.run (w x ++ r) = .ok (f x) r) (o : Option α) (h : OptAll q o) (r : Bits) :
    (rWhen o.isSome p).run (wOpt w o ++ r) = .ok (o.map f) r := by
  cases o with
  | none => simp [rWhen, wOpt]
  | some x => simp [rWhen, wOpt, hp x h]

/-- What arrives when world coordinates are written and read. -/
def WorldCoordinates.wire (v : WorldCoordinates) : WorldCoordinates :=
  ⟨f32 (f32 (asI32 v.latitude) / latScale), f32 (f32 (asI32 v.longitude) / lonScale), v.altitude_msl⟩
/-- The coordinates that fit their fields on the wire. -/
def WorldCoordinates.Fits (v : WorldCoordinates) : Prop := InS 31 (asI32 v.latitude) ∧ In24 v.altitude_msl
instance (v : WorldCoordinates) : Decidable v.Fits := inferInstanceAs (Decidable (_ ∧ _))
theorem WorldCoordinates.run_wire {v : WorldCoordinates} (h : v.Fits) (r : Bits) :
    WorldCoordinates.parse.run (v.ser ++ r) = .ok v.wire r := WorldCoordinates.run_raw h.1 h.2 r
theorem rWhen_world (o : Option WorldCoordinates) (h : OptAll WorldCoordinates.Fits o) (r : Bits) :
    (rWhen o.isSome WorldCoordinates.parse).run (wOpt WorldCoordinates.ser o ++ r)
      = .ok (o.map WorldCoordinates.wire) r :=
  rWhen_run_map (fun _ h r => WorldCoordinates.run_wire h r) o h r

attribute [rt high] rWhen_u rWhen_s rWhen_uv8 rWhen_uv16 rWhen_uv32 rWhen_entityId rWhen_entityType rWhen_vec16
  rWhen_vec14 rWhen_vec12 rWhen_orientation rWhen_marking rWhen_world WorldCoordinates.run_wire

theorem length_wOpt_all {α : Type} {w : α → Bits} {l : α → Nat} {q : α → Prop} (h : ∀ x, q x → (w x).length = l x)
    {o : Option α} (ho : OptAll q o) : (wOpt w o).length = lOpt l o := by
  cases o with
  | none => rfl
  | some x => exact h x ho
theorem length_wOpt_u (n : Nat) (o : Option Nat) : (wOpt (wU n) o).length = lOpt (fun _ => n) o :=
  length_wOpt (fun x => length_wU n x) o
theorem length_wOpt_uv8 (o : Option Nat) : (wOpt wUV8 o).length = lOpt lUV8 o := length_wOpt length_wUV8 o
theorem length_wOpt_uv4 (t : UV4) (o : Option Nat) : (wOpt t.ser o).length = lOpt t.lenBits o :=
  length_wOpt (fun x => t.length_ser x) o
theorem length_wOpt_entityId (o : Option EntityId) : (wOpt EntityId.ser o).length = lOpt EntityId.lenBits o :=
  length_wOpt EntityId.length_ser o
theorem length_wOpt_entityType (o : Option EntityType) : (wOpt EntityType.ser o).length = lOpt EntityType.lenBits o :=
  length_wOpt EntityType.length_ser o
theorem length_wOpt_vec16 (o : Option Vec3) : (wOpt (Vec3.ser sv16) o).length = lOpt (Vec3.lenBits sv16) o :=
  length_wOpt Vec3.length16 o
theorem length_wOpt_vec14 (o : Option Vec3) : (wOpt (Vec3.ser sv14) o).length = lOpt (Vec3.lenBits sv14) o :=
  length_wOpt Vec3.length14 o
theorem length_wOpt_vec12 (o : Option Vec3) : (wOpt (Vec3.ser sv12) o).length = lOpt (Vec3.lenBits sv12) o :=
  length_wOpt Vec3.length12 o
theorem length_wOpt_orientation (o : Option Orientation) :
    (wOpt Orientation.ser o).length = lOpt Orientation.lenBits o := length_wOpt Orientation.length_ser o
theorem length_wOpt_world (o : Option WorldCoordinates) :
    (wOpt WorldCoordinates.ser o).length = lOpt WorldCoordinates.lenBits o := length_wOpt WorldCoordinates.length_ser o
attribute [len] length_wOpt_u length_wOpt_uv8 length_wOpt_uv4 length_wOpt_entityId length_wOpt_entityType
  length_wOpt_vec16 length_wOpt_vec14 length_wOpt_vec12 length_wOpt_orientation length_wOpt_world
  WorldCoordinates.length_ser EntityId.length_ser EntityType.length_ser Orientation.length_ser Vec3.length16
  Vec3.length14 Vec3.length12

theorem bne_toNat_run (b : Bool) : (b.toNat != 0) = b := by cases b <;> rfl

/-! ## Entity State -/

/-- entity_state/model.rs:11-29 -/
structure EntityState where
  units : Nat
  full_update_flag : Bool
  entity_id : EntityId
  force_id : Option Nat
  entity_type : Option EntityType
  alternate_entity_type : Option EntityType
  entity_linear_velocity : Option Vec3
  entity_location : Option WorldCoordinates
  entity_orientation : Option Orientation
  entity_appearance : Option Nat
  dr_algorithm : Nat
  dr_params_other : Option Nat
  dr_params_entity_linear_acceleration : Option Vec3
  dr_params_entity_angular_velocity : Option Vec3
  entity_marking : Option Marking
  capabilities : Option Nat
  variable_parameters : List VariableParameter
  deriving Repr, DecidableEq
/-- entity_state/model.rs:36-50, with the bits of 147-163 -/
def EntityState.fp (v : EntityState) : Nat :=
  flag v.force_id.isSome (bit 12) ||| flag (!v.variable_parameters.isEmpty) (bit 11)
    ||| flag v.entity_type.isSome (bit 10) ||| flag v.alternate_entity_type.isSome (bit 9)
    ||| flag v.entity_linear_velocity.isSome (bit 8) ||| flag v.entity_location.isSome (bit 7)
    ||| flag v.entity_orientation.isSome (bit 6) ||| flag v.entity_appearance.isSome (bit 5)
    ||| flag v.dr_params_other.isSome (bit 4) ||| flag v.dr_params_entity_linear_acceleration.isSome (bit 3)
    ||| flag v.dr_params_entity_angular_velocity.isSome (bit 2) ||| flag v.entity_marking.isSome (bit 1)
    ||| flag v.capabilities.isSome (bit 0)
/-- entity_state/writer.rs:7-42 -/
def EntityState.ser (v : EntityState) : Bits :=
  (wU 13 v.fp ++ wU 1 v.units ++ wU 1 v.full_update_flag.toNat ++ v.entity_id.ser ++ wOpt wUV8 v.force_id
    ++ wCountOpt v.variable_parameters)
  ++ (wOpt EntityType.ser v.entity_type ++ wOpt EntityType.ser v.alternate_entity_type
    ++ wOpt (Vec3.ser sv16) v.entity_linear_velocity ++ wOpt WorldCoordinates.ser v.entity_location
    ++ wOpt Orientation.ser v.entity_orientation ++ wOpt (wU 32) v.entity_appearance)
  ++ (wU 4 v.dr_algorithm ++ wOpt (wU 120) v.dr_params_other
    ++ wOpt (Vec3.ser sv14) v.dr_params_entity_linear_acceleration
    ++ wOpt (Vec3.ser sv12) v.dr_params_entity_angular_velocity)
  ++ (wOpt Marking.ser v.entity_marking ++ wOpt wUV32 v.capabilities
    ++ v.variable_parameters.flatMap VariableParameter.ser)
/-- entity_state/parser.rs:14-87 -/
def EntityState.parse : BitP EntityState := do
  let fp ← rU 13
  let units ← rU 1
  let full ← rU 1
  let entity_id ← EntityId.parse
  let force_id ← rWhen (has fp (bit 12)) rUV8
  let n ← rCountOpt (has fp (bit 11))
  let entity_type ← rWhen (has fp (bit 10)) EntityType.parse
  let alternate_entity_type ← rWhen (has fp (bit 9)) EntityType.parse
  let entity_linear_velocity ← rWhen (has fp (bit 8)) (Vec3.parse sv16)
  let entity_location ← rWhen (has fp (bit 7)) WorldCoordinates.parse
  let entity_orientation ← rWhen (has fp (bit 6)) Orientation.parse
  let entity_appearance ← rWhen (has fp (bit 5)) (rU 32)
  let dr_algorithm ← rU 4
  let dr_params_other ← rWhen (has fp (bit 4)) (rU 120)
  let acceleration ← rWhen (has fp (bit 3)) (Vec3.parse sv14)
  let angular_velocity ← rWhen (has fp (bit 2)) (Vec3.parse sv12)
  let entity_marking ← rWhen (has fp (bit 1)) Marking.parse
  let capabilities ← rWhen (has fp (bit 0)) rUV32
  let variable_parameters ← P.count VariableParameter.parse n
  pure ⟨units, full != 0, entity_id, force_id, entity_type, alternate_entity_type, entity_linear_velocity,
    entity_location, entity_orientation, entity_appearance, dr_algorithm, dr_params_other, acceleration,
    angular_velocity, entity_marking, capabilities, variable_parameters⟩
/-- entity_state/model.rs:52-71 -/
def EntityState.lenBits (v : EntityState) : Nat :=
  13 + 5 + 1 + v.entity_id.lenBits + lOpt lUV8 v.force_id + countOptBits v.variable_parameters
    + lOpt EntityType.lenBits v.entity_type + lOpt EntityType.lenBits v.alternate_entity_type
    + lOpt (Vec3.lenBits sv16) v.entity_linear_velocity + lOpt WorldCoordinates.lenBits v.entity_location
    + lOpt Orientation.lenBits v.entity_orientation + lOpt (fun _ => 32) v.entity_appearance
    + lOpt (fun _ => 120) v.dr_params_other + lOpt (Vec3.lenBits sv14) v.dr_params_entity_linear_acceleration
    + lOpt (Vec3.lenBits sv12) v.dr_params_entity_angular_velocity + lOpt Marking.lenBits v.entity_marking
    + lOpt uv32.lenBits v.capabilities + (v.variable_parameters.map VariableParameter.lenBits).sum
/-- Every field fits its field on the wire. -/
def EntityState.Wf (v : EntityState) : Prop :=
  v.units < 2 ^ 1 ∧ v.entity_id.Wf ∧ OptAll (· < 256) v.force_id ∧ OptAll EntityType.Wf v.entity_type
  ∧ OptAll EntityType.Wf v.alternate_entity_type ∧ OptAll (Vec3.In 16) v.entity_linear_velocity
  ∧ OptAll WorldCoordinates.Fits v.entity_location ∧ OptAll Orientation.Wf v.entity_orientation
  ∧ OptAll (· < 2 ^ 32) v.entity_appearance ∧ v.dr_algorithm < 2 ^ 4 ∧ OptAll (· < 2 ^ 120) v.dr_params_other
  ∧ OptAll (Vec3.In 14) v.dr_params_entity_linear_acceleration
  ∧ OptAll (Vec3.In 12) v.dr_params_entity_angular_velocity ∧ OptAll Marking.Wf v.entity_marking
  ∧ OptAll (· < 4294967296) v.capabilities ∧ v.variable_parameters.length < 256
  ∧ ∀ p ∈ v.variable_parameters, p.Wf
/-- What arrives. -/
def EntityState.wire (v : EntityState) : EntityState :=
  { v with entity_location := v.entity_location.map WorldCoordinates.wire }

theorem EntityState.fp_lt (v : EntityState) : v.fp < 2 ^ 13 := by unfold EntityState.fp; flag_bound
theorem EntityState.run {v : EntityState} (h : v.Wf) (r : Bits) : EntityState.parse.run (v.ser ++ r) = .ok v.wire r := by
  obtain ⟨h1, h2, h3, h4, h5, h6, h7, h8, h9, h10, h11, h12, h13, h14, h15, h16, h17⟩ := h
  have hf := v.fp_lt
  have f12 : has v.fp (bit 12) = v.force_id.isSome := by unfold EntityState.fp; flag_bits
  have f11 : has v.fp (bit 11) = !v.variable_parameters.isEmpty := by unfold EntityState.fp; flag_bits
  have f10 : has v.fp (bit 10) = v.entity_type.isSome := by unfold EntityState.fp; flag_bits
  have f9 : has v.fp (bit 9) = v.alternate_entity_type.isSome := by unfold EntityState.fp; flag_bits
  have f8 : has v.fp (bit 8) = v.entity_linear_velocity.isSome := by unfold EntityState.fp; flag_bits
  have f7 : has v.fp (bit 7) = v.entity_location.isSome := by unfold EntityState.fp; flag_bits
  have f6 : has v.fp (bit 6) = v.entity_orientation.isSome := by unfold EntityState.fp; flag_bits
  have f5 : has v.fp (bit 5) = v.entity_appearance.isSome := by unfold EntityState.fp; flag_bits
  have f4 : has v.fp (bit 4) = v.dr_params_other.isSome := by unfold EntityState.fp; flag_bits
  have f3 : has v.fp (bit 3) = v.dr_params_entity_linear_acceleration.isSome := by unfold EntityState.fp; flag_bits
  have f2 : has v.fp (bit 2) = v.dr_params_entity_angular_velocity.isSome := by unfold EntityState.fp; flag_bits
  have f1 : has v.fp (bit 1) = v.entity_marking.isSome := by unfold EntityState.fp; flag_bits
  have f0 : has v.fp (bit 0) = v.capabilities.isSome := by unfold EntityState.fp; flag_bits
  simp only [EntityState.parse, EntityState.ser, List.append_assoc, rt, hf, f12, f11, f10, f9, f8, f7, f6, f5, f4, f3, f2,
    f1, f0, h1, h2, h3, h4, h5, h6, h7, h8, h9, h10, h11, h12, h13, h14, h15, toNat_lt_pow, toNat_bne,
    rCountOpt_run _ h16, run_count v.variable_parameters _ fun x hx r => VariableParameter.run (h17 x hx) r,
    EntityState.wire]
theorem EntityState.length_ser {v : EntityState} (h : v.Wf) : v.ser.length = v.lenBits := by
  obtain ⟨h1, h2, h3, h4, h5, h6, h7, h8, h9, h10, h11, h12, h13, h14, h15, h16, h17⟩ := h
  have hm : (wOpt Marking.ser v.entity_marking).length = lOpt Marking.lenBits v.entity_marking :=
    length_wOpt_all (fun x hx => Marking.length_ser hx.2.1) h14
  simp only [EntityState.ser, EntityState.lenBits, len, length_wCountOpt, hm,
    length_flatMap_sum (l := VariableParameter.lenBits) (fun x hx => VariableParameter.length_ser hx) v.variable_parameters h17]
  omega
instance : P.Stable EntityState.parse := by unfold EntityState.parse; parser_ok
instance : P.Safe EntityState.parse := by unfold EntityState.parse; parser_ok

/-! ## Fire -/

/-- fire/model.rs:7-22 -/
structure Fire where
  units : Nat
  firing_entity_id : EntityId
  target_entity_id : EntityId
  munition_expandable_entity_id : EntityId
  event_id : EntityId
  fire_mission_index : Option Nat
  location_world_coordinates : WorldCoordinates
  descriptor_entity_type : EntityType
  descriptor_warhead : Option Nat
  descriptor_fuze : Option Nat
  descriptor_quantity : Option Nat
  descriptor_rate : Option Nat
  velocity : Vec3
  range : Option Nat
  deriving Repr, DecidableEq
/-- fire/model.rs:29-34, bits of 69-76 -/
def Fire.fp (v : Fire) : Nat :=
  flag v.fire_mission_index.isSome (bit 3) ||| flag (v.descriptor_warhead.isSome && v.descriptor_fuze.isSome) (bit 2)
    ||| flag (v.descriptor_quantity.isSome && v.descriptor_rate.isSome) (bit 1) ||| flag v.range.isSome (bit 0)
/-- fire/writer.rs:6-35 -/
def Fire.ser (v : Fire) : Bits :=
  (wU 4 v.fp ++ wU 1 v.units ++ v.firing_entity_id.ser ++ v.target_entity_id.ser ++ v.munition_expandable_entity_id.ser
    ++ v.event_id.ser)
  ++ (wOpt wUV32 v.fire_mission_index ++ v.location_world_coordinates.ser ++ v.descriptor_entity_type.ser
    ++ wOpt (wU 16) v.descriptor_warhead ++ wOpt (wU 16) v.descriptor_fuze)
  ++ (wOpt (wU 8) v.descriptor_quantity ++ wOpt (wU 8) v.descriptor_rate ++ v.velocity.ser sv16 ++ wOpt wUV32 v.range)
/-- fire/parser.rs:12-57 -/
def Fire.parse : BitP Fire := do
  let fp ← rU 4
  let units ← rU 1
  let firing_entity_id ← EntityId.parse
  let target_entity_id ← EntityId.parse
  let munition_expandable_entity_id ← EntityId.parse
  let event_id ← EntityId.parse
  let fire_mission_index ← rWhen (has fp (bit 3)) rUV32
  let location_world_coordinates ← WorldCoordinates.parse
  let descriptor_entity_type ← EntityType.parse
  let descriptor_warhead ← rWhen (has fp (bit 2)) (rU 16)
  let descriptor_fuze ← rWhen (has fp (bit 2)) (rU 16)
  let descriptor_quantity ← rWhen (has fp (bit 1)) (rU 8)
  let descriptor_rate ← rWhen (has fp (bit 1)) (rU 8)
  let velocity ← Vec3.parse sv16
  let range ← rWhen (has fp (bit 0)) rUV32
  pure ⟨units, firing_entity_id, target_entity_id, munition_expandable_entity_id, event_id, fire_mission_index,
    location_world_coordinates, descriptor_entity_type, descriptor_warhead, descriptor_fuze, descriptor_quantity,
    descriptor_rate, velocity, range⟩
/-- fire/model.rs:36-52 -/
def Fire.lenBits (v : Fire) : Nat :=
  4 + 1 + v.firing_entity_id.lenBits + v.target_entity_id.lenBits + v.munition_expandable_entity_id.lenBits
    + v.event_id.lenBits + lOpt uv32.lenBits v.fire_mission_index + v.location_world_coordinates.lenBits
    + v.descriptor_entity_type.lenBits + lOpt (fun _ => 16) v.descriptor_warhead + lOpt (fun _ => 16) v.descriptor_fuze
    + lOpt (fun _ => 8) v.descriptor_quantity + lOpt (fun _ => 8) v.descriptor_rate + v.velocity.lenBits sv16
    + lOpt uv32.lenBits v.range
/-- Every field fits; warhead and fuze are present together, quantity and rate too. -/
def Fire.Wf (v : Fire) : Prop :=
  v.units < 2 ^ 1 ∧ v.firing_entity_id.Wf ∧ v.target_entity_id.Wf ∧ v.munition_expandable_entity_id.Wf ∧ v.event_id.Wf
  ∧ OptAll (· < 4294967296) v.fire_mission_index ∧ v.location_world_coordinates.Fits ∧ v.descriptor_entity_type.Wf
  ∧ OptAll (· < 2 ^ 16) v.descriptor_warhead ∧ OptAll (· < 2 ^ 16) v.descriptor_fuze
  ∧ OptAll (· < 2 ^ 8) v.descriptor_quantity ∧ OptAll (· < 2 ^ 8) v.descriptor_rate ∧ v.velocity.In 16
  ∧ OptAll (· < 4294967296) v.range ∧ v.descriptor_warhead.isSome = v.descriptor_fuze.isSome
  ∧ v.descriptor_quantity.isSome = v.descriptor_rate.isSome
/-- What arrives. -/
def Fire.wire (v : Fire) : Fire := { v with location_world_coordinates := v.location_world_coordinates.wire }
theorem Fire.fp_lt (v : Fire) : v.fp < 2 ^ 4 := by unfold Fire.fp; flag_bound
theorem Fire.run {v : Fire} (h : v.Wf) (r : Bits) : Fire.parse.run (v.ser ++ r) = .ok v.wire r := by
  obtain ⟨h1, h2, h3, h4, h5, h6, h7, h8, h9, h10, h11, h12, h13, h14, e1, e2⟩ := h
  have hf := v.fp_lt
  have f3 : has v.fp (bit 3) = v.fire_mission_index.isSome := by unfold Fire.fp; flag_bits
  have f2 : has v.fp (bit 2) = (v.descriptor_warhead.isSome && v.descriptor_fuze.isSome) := by unfold Fire.fp; flag_bits
  have f1 : has v.fp (bit 1) = (v.descriptor_quantity.isSome && v.descriptor_rate.isSome) := by
    unfold Fire.fp; flag_bits
  have f0 : has v.fp (bit 0) = v.range.isSome := by unfold Fire.fp; flag_bits
  have g1 : (v.descriptor_warhead.isSome && v.descriptor_fuze.isSome) = v.descriptor_warhead.isSome := by
    rw [← e1, Bool.and_self]
  have g2 : (v.descriptor_quantity.isSome && v.descriptor_rate.isSome) = v.descriptor_quantity.isSome := by
    rw [← e2, Bool.and_self]
  have q1 : ∀ r, (rWhen v.descriptor_warhead.isSome (rU 16)).run (wOpt (wU 16) v.descriptor_fuze ++ r)
      = .ok v.descriptor_fuze r := fun r => by rw [e1]; exact rWhen_u r 16 _ h10
  have q2 : ∀ r, (rWhen v.descriptor_quantity.isSome (rU 8)).run (wOpt (wU 8) v.descriptor_rate ++ r)
      = .ok v.descriptor_rate r := fun r => by rw [e2]; exact rWhen_u r 8 _ h12
  simp only [Fire.parse, Fire.ser, List.append_assoc, rt, hf, f3, f2, f1, f0, g1, g2, q1, q2, h1, h2, h3, h4, h5, h6, h7,
    h8, h9, h11, h14, Fire.wire, Vec3.run16 h13]
theorem Fire.length_ser (v : Fire) : v.ser.length = v.lenBits := by
  simp only [Fire.ser, Fire.lenBits, len]
  omega
instance : P.Stable Fire.parse := by unfold Fire.parse; parser_ok
instance : P.Safe Fire.parse := by unfold Fire.parse; parser_ok

/-! ## Detonation -/

/-- detonation/model.rs:110-113 `ExplosiveForceFloat` -/
structure ExplosiveForceFloat where
  mantissa : Nat
  exponent : Int
  deriving Repr, DecidableEq
/-- detonation/model.rs:166-171 -/
def ExplosiveForceFloat.ser (v : ExplosiveForceFloat) : Bits := wU 15 v.mantissa ++ wS 3 v.exponent
/-- detonation/model.rs:154-163 -/
def ExplosiveForceFloat.parse : BitP ExplosiveForceFloat := do
  let mantissa ← rU 15
  let exponent ← rS 3
  pure ⟨mantissa, exponent⟩
def ExplosiveForceFloat.Wf (v : ExplosiveForceFloat) : Prop := v.mantissa < 2 ^ 15 ∧ InS 3 v.exponent
instance (v : ExplosiveForceFloat) : Decidable v.Wf := inferInstanceAs (Decidable (_ ∧ _))
theorem ExplosiveForceFloat.run {v : ExplosiveForceFloat} (h : v.Wf) (r : Bits) :
    ExplosiveForceFloat.parse.run (v.ser ++ r) = .ok v r := by
  obtain ⟨h1, h2⟩ := h
  simp only [ExplosiveForceFloat.parse, ExplosiveForceFloat.ser, List.append_assoc, rt, *]
theorem ExplosiveForceFloat.length_ser (v : ExplosiveForceFloat) : v.ser.length = 18 := by
  simp only [ExplosiveForceFloat.ser, List.length_append, length_wU, length_wS _ (by decide : 0 < 3)]
instance : P.Stable ExplosiveForceFloat.parse := by unfold ExplosiveForceFloat.parse; parser_ok
instance : P.Safe ExplosiveForceFloat.parse := by unfold ExplosiveForceFloat.parse; parser_ok
theorem rWhen_force (o : Option ExplosiveForceFloat) (h : OptAll ExplosiveForceFloat.Wf o) (r : Bits) :
    (rWhen o.isSome ExplosiveForceFloat.parse).run (wOpt ExplosiveForceFloat.ser o ++ r) = .ok o r :=
  rWhen_run (fun _ h r => ExplosiveForceFloat.run h r) o h r
theorem length_wOpt_force (o : Option ExplosiveForceFloat) :
    (wOpt ExplosiveForceFloat.ser o).length = lOpt (fun _ => 18) o := length_wOpt ExplosiveForceFloat.length_ser o

/-- detonation/model.rs:11-29, 91-94 (the two units) -/
structure Detonation where
  units_altitude : Nat
  units_entity : Nat
  source_entity_id : EntityId
  target_entity_id : EntityId
  exploding_entity_id : EntityId
  event_id : EntityId
  entity_linear_velocity : Vec3
  location_in_world_coordinates : WorldCoordinates
  descriptor_entity_type : EntityType
  descriptor_warhead : Option Nat
  descriptor_fuze : Option Nat
  descriptor_quantity : Option Nat
  descriptor_rate : Option Nat
  descriptor_explosive_material : Option Nat
  descriptor_explosive_force : Option ExplosiveForceFloat
  location_in_entity_coordinates : Vec3
  detonation_results : Nat
  variable_parameters : List VariableParameter
  deriving Repr, DecidableEq
/-- detonation/model.rs:36-41, bits of 81-88 -/
def Detonation.fp (v : Detonation) : Nat :=
  flag (v.descriptor_warhead.isSome && v.descriptor_fuze.isSome) (bit 3)
    ||| flag (v.descriptor_quantity.isSome && v.descriptor_rate.isSome) (bit 2)
    ||| flag (v.descriptor_explosive_material.isSome && v.descriptor_explosive_force.isSome) (bit 1)
    ||| flag (!v.variable_parameters.isEmpty) (bit 0)
/-- The eight-bit count of a list that is not empty. -/
def wCount8Opt {α : Type} (l : List α) : Bits := if l.isEmpty then [] else wU 8 l.length
/-- An eight-bit count, present when `c`. -/
def rCount8Opt (c : Bool) : BitP Nat := do
  let n ← rWhen c (rU 8)
  pure (n.getD 0)
instance (c : Bool) : P.Stable (rCount8Opt c) := by unfold rCount8Opt; parser_ok
instance (c : Bool) : P.Safe (rCount8Opt c) := by unfold rCount8Opt; parser_ok
theorem rCount8Opt_run {α : Type} (l : List α) (h : l.length < 256) (r : Bits) :
    (rCount8Opt !l.isEmpty).run (wCount8Opt l ++ r) = .ok l.length r := by
  cases l with
  | nil => simp [rCount8Opt, rWhen, wCount8Opt]
  | cons x xs =>
    simp only [List.isEmpty_cons, Bool.not_false, rCount8Opt, rWhen, wCount8Opt, Bool.false_eq_true, if_false, if_true,
      rt, rU_run 8 _ _ h, Option.getD_some]
/-- detonation/writer.rs:7-47 -/
def Detonation.ser (v : Detonation) : Bits :=
  (wU 4 v.fp ++ wU 1 v.units_altitude ++ wU 1 v.units_entity ++ v.source_entity_id.ser ++ v.target_entity_id.ser
    ++ v.exploding_entity_id.ser ++ v.event_id.ser)
  ++ (v.entity_linear_velocity.ser sv16 ++ v.location_in_world_coordinates.ser ++ v.descriptor_entity_type.ser
    ++ wOpt (wU 16) v.descriptor_warhead ++ wOpt (wU 16) v.descriptor_fuze ++ wOpt (wU 8) v.descriptor_quantity
    ++ wOpt (wU 8) v.descriptor_rate)
  ++ (wOpt wUV16 v.descriptor_explosive_material ++ wOpt ExplosiveForceFloat.ser v.descriptor_explosive_force
    ++ v.location_in_entity_coordinates.ser sv16 ++ wUV8 v.detonation_results ++ wCount8Opt v.variable_parameters
    ++ v.variable_parameters.flatMap VariableParameter.ser)
/-- detonation/parser.rs:12-70; the units are read together and taken apart (model.rs:96-105). -/
def Detonation.parse : BitP Detonation := do
  let fp ← rU 4
  let units ← rU 2
  let source_entity_id ← EntityId.parse
  let target_entity_id ← EntityId.parse
  let exploding_entity_id ← EntityId.parse
  let event_id ← EntityId.parse
  let entity_linear_velocity ← Vec3.parse sv16
  let location_in_world_coordinates ← WorldCoordinates.parse
  let descriptor_entity_type ← EntityType.parse
  let descriptor_warhead ← rWhen (has fp (bit 3)) (rU 16)
  let descriptor_fuze ← rWhen (has fp (bit 3)) (rU 16)
  let descriptor_quantity ← rWhen (has fp (bit 2)) (rU 8)
  let descriptor_rate ← rWhen (has fp (bit 2)) (rU 8)
  let material ← rWhen (has fp (bit 1)) rUV16
  let force ← rWhen (has fp (bit 1)) ExplosiveForceFloat.parse
  let location_in_entity_coordinates ← Vec3.parse sv16
  let detonation_results ← rUV8
  let n ← rCount8Opt (has fp (bit 0))
  let variable_parameters ← P.count VariableParameter.parse n
  pure ⟨(units &&& 2) >>> 1, units &&& 1, source_entity_id, target_entity_id, exploding_entity_id, event_id,
    entity_linear_velocity, location_in_world_coordinates, descriptor_entity_type, descriptor_warhead,
    descriptor_fuze, descriptor_quantity, descriptor_rate, material, force, location_in_entity_coordinates,
    detonation_results, variable_parameters⟩
/-- detonation/model.rs:43-64 -/
def Detonation.lenBits (v : Detonation) : Nat :=
  4 + 2 + v.source_entity_id.lenBits + v.target_entity_id.lenBits + v.exploding_entity_id.lenBits + v.event_id.lenBits
    + v.entity_linear_velocity.lenBits sv16 + v.location_in_world_coordinates.lenBits
    + v.descriptor_entity_type.lenBits + lOpt (fun _ => 16) v.descriptor_warhead + lOpt (fun _ => 16) v.descriptor_fuze
    + lOpt (fun _ => 8) v.descriptor_quantity + lOpt (fun _ => 8) v.descriptor_rate
    + lOpt uv16.lenBits v.descriptor_explosive_material + lOpt (fun _ => 18) v.descriptor_explosive_force
    + v.location_in_entity_coordinates.lenBits sv16 + lUV8 v.detonation_results
    + (if v.variable_parameters.isEmpty then 0
       else 8 + (v.variable_parameters.map VariableParameter.lenBits).sum)
/-- Every field fits; the paired descriptor fields are present together. -/
def Detonation.Wf (v : Detonation) : Prop :=
  v.units_altitude < 2 ∧ v.units_entity < 2 ∧ v.source_entity_id.Wf ∧ v.target_entity_id.Wf
  ∧ v.exploding_entity_id.Wf ∧ v.event_id.Wf ∧ v.entity_linear_velocity.In 16 ∧ v.location_in_world_coordinates.Fits
  ∧ v.descriptor_entity_type.Wf ∧ OptAll (· < 2 ^ 16) v.descriptor_warhead ∧ OptAll (· < 2 ^ 16) v.descriptor_fuze
  ∧ OptAll (· < 2 ^ 8) v.descriptor_quantity ∧ OptAll (· < 2 ^ 8) v.descriptor_rate
  ∧ OptAll (· < 65536) v.descriptor_explosive_material ∧ OptAll ExplosiveForceFloat.Wf v.descriptor_explosive_force
  ∧ v.location_in_entity_coordinates.In 16 ∧ v.detonation_results < 256 ∧ v.variable_parameters.length < 256
  ∧ (∀ p ∈ v.variable_parameters, p.Wf) ∧ v.descriptor_warhead.isSome = v.descriptor_fuze.isSome
  ∧ v.descriptor_quantity.isSome = v.descriptor_rate.isSome
  ∧ v.descriptor_explosive_material.isSome = v.descriptor_explosive_force.isSome
/-- What arrives. -/
def Detonation.wire (v : Detonation) : Detonation :=
  { v with location_in_world_coordinates := v.location_in_world_coordinates.wire }

/-- Two single bits read as a number of two bits. -/
theorem rU2_run (a b : Nat) (ha : a < 2) (hb : b < 2) (r : Bits) :
    (rU 2).run (wU 1 a ++ (wU 1 b ++ r)) = .ok (2 * a + b) r := by
  have e : wU 1 a ++ (wU 1 b ++ r) = wU 2 (2 * a + b) ++ r := by
    have h1 : a = 0 ∨ a = 1 := by omega
    have h2 : b = 0 ∨ b = 1 := by omega
    rcases h1 with rfl | rfl <;> rcases h2 with rfl | rfl <;> rfl
  rw [e]; exact rU_run 2 _ r (by omega)
theorem units_hi {a b : Nat} (ha : a < 2) (hb : b < 2) : ((2 * a + b) &&& 2) >>> 1 = a := by
  have h1 : a = 0 ∨ a = 1 := by omega
  have h2 : b = 0 ∨ b = 1 := by omega
  rcases h1 with rfl | rfl <;> rcases h2 with rfl | rfl <;> rfl
theorem units_lo {a b : Nat} (ha : a < 2) (hb : b < 2) : (2 * a + b) &&& 1 = b := by
  have h1 : a = 0 ∨ a = 1 := by omega
  have h2 : b = 0 ∨ b = 1 := by omega
  rcases h1 with rfl | rfl <;> rcases h2 with rfl | rfl <;> rfl

theorem Detonation.fp_lt (v : Detonation) : v.fp < 2 ^ 4 := by unfold Detonation.fp; flag_bound
theorem Detonation.run {v : Detonation} (h : v.Wf) (r : Bits) : Detonation.parse.run (v.ser ++ r) = .ok v.wire r := by
  obtain ⟨u1, u2, h2, h3, h4, h5, h6, h7, h8, h9, h10, h11, h12, h13, h14, h15, h16, h17, h18, e1, e2, e3⟩ := h
  have hf := v.fp_lt
  have f3 : has v.fp (bit 3) = (v.descriptor_warhead.isSome && v.descriptor_fuze.isSome) := by
    unfold Detonation.fp; flag_bits
  have f2 : has v.fp (bit 2) = (v.descriptor_quantity.isSome && v.descriptor_rate.isSome) := by
    unfold Detonation.fp; flag_bits
  have f1 : has v.fp (bit 1) = (v.descriptor_explosive_material.isSome && v.descriptor_explosive_force.isSome) := by
    unfold Detonation.fp; flag_bits
  have f0 : has v.fp (bit 0) = !v.variable_parameters.isEmpty := by unfold Detonation.fp; flag_bits
  have g1 : (v.descriptor_warhead.isSome && v.descriptor_fuze.isSome) = v.descriptor_warhead.isSome := by
    rw [← e1, Bool.and_self]
  have g2 : (v.descriptor_quantity.isSome && v.descriptor_rate.isSome) = v.descriptor_quantity.isSome := by
    rw [← e2, Bool.and_self]
  have g3 : (v.descriptor_explosive_material.isSome && v.descriptor_explosive_force.isSome)
      = v.descriptor_explosive_material.isSome := by rw [← e3, Bool.and_self]
  have q1 : ∀ r, (rWhen v.descriptor_warhead.isSome (rU 16)).run (wOpt (wU 16) v.descriptor_fuze ++ r)
      = .ok v.descriptor_fuze r := fun r => by rw [e1]; exact rWhen_u r 16 _ h10
  have q2 : ∀ r, (rWhen v.descriptor_quantity.isSome (rU 8)).run (wOpt (wU 8) v.descriptor_rate ++ r)
      = .ok v.descriptor_rate r := fun r => by rw [e2]; exact rWhen_u r 8 _ h12
  have q3 : ∀ r, (rWhen v.descriptor_explosive_material.isSome ExplosiveForceFloat.parse).run
      (wOpt ExplosiveForceFloat.ser v.descriptor_explosive_force ++ r)
      = .ok v.descriptor_explosive_force r := fun r => by rw [e3]; exact rWhen_force _ h14 r
  simp only [Detonation.parse, Detonation.ser, List.append_assoc, rt, hf, f3, f2, f1, f0, g1, g2, g3, q1, q2, q3,
    rU2_run _ _ u1 u2, units_hi u1 u2, units_lo u1 u2, h2, h3, h4, h5, h7, h8, h9, h11, h13, h16,
    Vec3.run16 h6, Vec3.run16 h15, rCount8Opt_run _ h17,
    run_count v.variable_parameters _ fun x hx r => VariableParameter.run (h18 x hx) r, Detonation.wire]
theorem Detonation.length_ser {v : Detonation} (h : v.Wf) : v.ser.length = v.lenBits := by
  obtain ⟨u1, u2, h2, h3, h4, h5, h6, h7, h8, h9, h10, h11, h12, h13, h14, h15, h16, h17, h18, e1, e2, e3⟩ := h
  have hc : (wCount8Opt v.variable_parameters).length + (v.variable_parameters.flatMap VariableParameter.ser).length
      = if v.variable_parameters.isEmpty then 0 else 8 + (v.variable_parameters.map VariableParameter.lenBits).sum := by
    rw [length_flatMap_sum (l := VariableParameter.lenBits) (fun x hx => VariableParameter.length_ser hx) v.variable_parameters h18]
    cases v.variable_parameters <;> simp [wCount8Opt]
  simp only [Detonation.ser, Detonation.lenBits, len, length_wOpt_force, ← hc]
  omega
instance : P.Stable Detonation.parse := by unfold Detonation.parse; parser_ok
instance : P.Safe Detonation.parse := by unfold Detonation.parse; parser_ok

/-! ## Collision -/

/-- collision/model.rs:7-16, 54-60 (the two units) -/
structure Collision where
  units_location : Nat
  units_mass : Nat
  issuing_entity_id : EntityId
  colliding_entity_id : EntityId
  event_id : EntityId
  collision_type : Nat
  velocity : Vec3
  mass : Nat
  location : Vec3
  deriving Repr, DecidableEq
/-- collision/writer.rs:7-30: only an elastic collision (1) is written as 1. -/
def Collision.ser (v : Collision) : Bits :=
  wU 1 v.units_location ++ wU 1 v.units_mass ++ v.issuing_entity_id.ser ++ v.colliding_entity_id.ser ++ v.event_id.ser
    ++ wU 1 (if v.collision_type = 1 then 1 else 0) ++ v.velocity.ser sv16 ++ wUV32 v.mass ++ v.location.ser sv16
/-- collision/parser.rs:11-36 -/
def Collision.parse : BitP Collision := do
  let units ← rU 2
  let issuing_entity_id ← EntityId.parse
  let colliding_entity_id ← EntityId.parse
  let event_id ← EntityId.parse
  let collision_type ← rU 1
  let velocity ← Vec3.parse sv16
  let mass ← rUV32
  let location ← Vec3.parse sv16
  pure ⟨(units &&& 2) >>> 1, units &&& 1, issuing_entity_id, colliding_entity_id, event_id, collision_type, velocity,
    mass, location⟩
/-- collision/model.rs:27-36 -/
def Collision.lenBits (v : Collision) : Nat :=
  3 + v.issuing_entity_id.lenBits + v.colliding_entity_id.lenBits + v.event_id.lenBits + v.velocity.lenBits sv16
    + uv32.lenBits v.mass + v.location.lenBits sv16
def Collision.Wf (v : Collision) : Prop :=
  v.units_location < 2 ∧ v.units_mass < 2 ∧ v.issuing_entity_id.Wf ∧ v.colliding_entity_id.Wf ∧ v.event_id.Wf
  ∧ v.velocity.In 16 ∧ v.mass < 4294967296 ∧ v.location.In 16
/-- What arrives: collision types other than elastic become inelastic. -/
def Collision.wire (v : Collision) : Collision := { v with collision_type := if v.collision_type = 1 then 1 else 0 }
theorem Collision.run {v : Collision} (h : v.Wf) (r : Bits) : Collision.parse.run (v.ser ++ r) = .ok v.wire r := by
  obtain ⟨u1, u2, h2, h3, h4, h5, h6, h7⟩ := h
  have hc : (if v.collision_type = 1 then 1 else 0 : Nat) < 2 ^ 1 := by split <;> decide
  generalize hg : (if v.collision_type = 1 then 1 else 0 : Nat) = c at hc
  simp only [Collision.parse, Collision.ser, List.append_assoc, rt, rU2_run _ _ u1 u2, units_hi u1 u2, units_lo u1 u2,
    h2, h3, h4, h6, hg, hc, Vec3.run16 h5, Vec3.run16 h7, Collision.wire]
theorem Collision.length_ser (v : Collision) : v.ser.length = v.lenBits := by
  simp only [Collision.ser, Collision.lenBits, len]
  omega
instance : P.Stable Collision.parse := by unfold Collision.parse; parser_ok
instance : P.Safe Collision.parse := by unfold Collision.parse; parser_ok

end Verif.Cdis
