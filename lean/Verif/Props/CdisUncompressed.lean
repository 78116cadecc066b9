import Verif.Props.Through3
/-! # C33: variable parameters sent uncompressed

C-DIS lets a sender put the DIS variable parameter record itself, its 128 bits, behind a zero bit.  This code never sends that form but
reads it.  The statements take the octets of the record from the DIS writer. -/
namespace Verif.Props
open Verif.Codec Verif.Cdis

theorem wU_split (m n v : Nat) : wU (m + n) v = wU m (v / 2 ^ n) ++ wU n v := by
  induction m with
  | zero => simp [wU]
  | succ m ih =>
    rw [show m + 1 + n = (m + n) + 1 by omega, wU, wU, ih, Nat.testBit_div_two_pow]
    rfl
theorem bits_append (a b : Bytes) : bitsOf (a ++ b) = bitsOf a ++ bitsOf b := by simp [bitsOf]
theorem bits_e8 (v : UInt8) : bitsOf (e8 v) = wU 8 v.toNat := by simp [bitsOf, e8]
theorem wU8_of (n : Nat) : wU 8 (UInt8.ofNat n).toNat = wU 8 n := by
  rw [wU_mod 8 (UInt8.ofNat n).toNat, wU_mod 8 n]
  simp
theorem bits_e16 (v : UInt16) : bitsOf (e16 v) = wU 16 v.toNat := by
  simp only [bitsOf, e16, List.flatMap_cons, List.flatMap_nil, List.append_nil, wU8_of]
  exact (wU_split 8 8 _).symm
theorem bits_e32 (v : UInt32) : bitsOf (e32 v) = wU 32 v.toNat := by
  simp only [bitsOf, e32, List.flatMap_cons, List.flatMap_nil, List.append_nil, wU8_of]
  rw [show (32 : Nat) = 8 + (8 + (8 + 8)) by rfl, wU_split 8 (8 + (8 + 8)), wU_split 8 (8 + 8), wU_split 8 8]
  rfl

theorem flag_zero (r : Cdis.Bits) : false :: r = wU 1 0 ++ r := rfl

/-- the record as a sender puts it that does not compress -/
def uncompressed (x : Dis.VariableParameter) : Cdis.Bits := false :: bitsOf x.ser

/-- the variable parameters with a known layout; for the articulated part the low five bits of the parameter type are the metric -/
def KnownParameter : Dis.VariableParameter → Prop
  | .articulated p => p.type_metric < 32 ∧ p.type_class % 32 = 0
  | .unspecified _ _ => False
  | _ => True

theorem eid_uncompressed (x : Dis.EntityId) (r : Cdis.Bits) :
    EntityId.parseUncompressed.run (bitsOf x.ser ++ r) = .ok (eidEnc x) r := by
  simp only [EntityId.parseUncompressed, Dis.EntityId.ser, Dis.SimulationAddress.ser, bits_append, bits_e16, List.append_assoc, rt,
    x.simulation_address.site_id.toNat_lt, x.simulation_address.application_id.toNat_lt, x.entity_id.toNat_lt]
  rfl
theorem etype_uncompressed (x : Dis.EntityType) (r : Cdis.Bits) :
    EntityType.parseUncompressed.run (bitsOf x.ser ++ r) = .ok (etypeEnc x) r := by
  simp only [EntityType.parseUncompressed, Dis.EntityType.ser, bits_append, bits_e16, bits_e8, List.append_assoc, rt,
    x.kind.toNat_lt, x.domain.toNat_lt, x.country.toNat_lt, x.category.toNat_lt, x.subcategory.toNat_lt, x.specific.toNat_lt, x.extra.toNat_lt]
  rfl

/-- **C33.** An uncompressed variable parameter of any kind but the articulated part is read, all of its 129 bits, as what it is. -/
theorem C33_uncompressed {x : Dis.VariableParameter} (h : KnownParameter x) (ha : ∀ p, x ≠ .articulated p) :
    ∃ w, vpDec w = x ∧ ∀ rest, VariableParameter.parse.run (uncompressed x ++ rest) = .ok w rest := by
  cases x with
  | articulated p => exact absurd rfl (ha p)
  | unspecified t b => exact h.elim
  | attached p =>
    refine ⟨.attached ⟨p.detached_indicator.toNat, p.attachment_id.toNat, p.parameter_type.toNat, etypeEnc p.attached_part_type⟩, ?_, fun rest => ?_⟩
    · simp [vpDec, etype_rt]
    · simp only [uncompressed, Dis.VariableParameter.ser, Dis.AttachedPart.ser, bits_append, bits_e8, bits_e16, bits_e32, flag_zero,
        List.append_assoc, VariableParameter.parse, AttachedPartVP.parse, rt, etype_uncompressed, p.detached_indicator.toNat_lt,
        p.attachment_id.toNat_lt, p.parameter_type.toNat_lt]
      simp [rt, etype_uncompressed, p.detached_indicator.toNat_lt,
        p.attachment_id.toNat_lt, p.parameter_type.toNat_lt]
  | separation p =>
    refine ⟨.separation ⟨p.reason.toNat, p.pre_entity_indicator.toNat, eidEnc p.parent_entity_id, p.station_name.toNat, p.station_number.toNat⟩, ?_, fun rest => ?_⟩
    · simp [vpDec, etype_rt, eid_rt]
    · simp only [uncompressed, Dis.VariableParameter.ser, Dis.SeparationParameter.ser, bits_append, bits_e8, bits_e16, bits_e32, flag_zero,
        List.append_assoc, VariableParameter.parse, EntitySeparationVP.parse, rt]
      simp [rt, etype_uncompressed, eid_uncompressed, p.reason.toNat_lt, p.pre_entity_indicator.toNat_lt, p.station_name.toNat_lt, p.station_number.toNat_lt]
  | entityType p =>
    refine ⟨.entityType ⟨p.change_indicator.toNat, etypeEnc p.entity_type⟩, ?_, fun rest => ?_⟩
    · simp [vpDec, etype_rt, eid_rt]
    · simp only [uncompressed, Dis.VariableParameter.ser, Dis.EntityTypeParameter.ser, bits_append, bits_e8, bits_e16, bits_e32, flag_zero,
        List.append_assoc, VariableParameter.parse, EntityTypeVP.parse, rt]
      simp [rt, etype_uncompressed, eid_uncompressed, p.change_indicator.toNat_lt]
  | entityAssociation p =>
    refine ⟨.association ⟨p.change_indicator.toNat, p.association_status.toNat, p.association_type.toNat, eidEnc p.entity_id, p.own_station_location.toNat, p.physical_connection_type.toNat, p.group_member_type.toNat, p.group_number.toNat⟩, ?_, fun rest => ?_⟩
    · simp [vpDec, etype_rt, eid_rt]
    · simp only [uncompressed, Dis.VariableParameter.ser, Dis.EntityAssociationParameter.ser, bits_append, bits_e8, bits_e16, bits_e32, flag_zero,
        List.append_assoc, VariableParameter.parse, EntityAssociationVP.parse, rt]
      simp [rt, etype_uncompressed, eid_uncompressed, p.change_indicator.toNat_lt, p.association_status.toNat_lt, p.association_type.toNat_lt, p.own_station_location.toNat_lt, p.physical_connection_type.toNat_lt, p.group_member_type.toNat_lt, p.group_number.toNat_lt]

/-- **C33**, violated: of an uncompressed articulated part the last 32 bits are left in front of whatever follows, and the value, whatever
it was, is decoded as zero; the rest of it arrives. -/
theorem C33_uncompressed_articulated_violated {p : Dis.ArticulatedPart} (h : KnownParameter (.articulated p)) :
    ∃ w, vpDec w = .articulated { p with parameter_value := 0 } ∧
      ∀ rest, VariableParameter.parse.run (uncompressed (.articulated p) ++ rest) = .ok w (List.replicate 32 false ++ rest) := by
  obtain ⟨h1, h2⟩ := h
  have h1 : p.type_metric.toNat < 32 := h1
  have h2 : p.type_class.toNat % 32 = 0 := by
    have := congrArg UInt32.toNat h2
    simpa using this
  have hlt := p.type_class.toNat_lt
  have hs : (p.type_class + p.type_metric).toNat = p.type_class.toNat + p.type_metric.toNat := by
    rw [UInt32.toNat_add]
    omega
  have hm : (p.type_class.toNat + p.type_metric.toNat) &&& 31 = p.type_metric.toNat := by
    rw [Nat.and_two_pow_sub_one_eq_mod _ 5]
    omega
  refine ⟨.articulated ⟨p.change_indicator.toNat, p.attachment_id.toNat, p.type_class.toNat, p.type_metric.toNat,
    ⟨0, 0, some p.parameter_value.toNat⟩⟩, ?_, fun rest => ?_⟩
  · have : pvDec ⟨0, 0, some p.parameter_value.toNat⟩ = 0 := by
      show b32 (toFloat F32 0 0) = 0
      decide +kernel
    simp [vpDec, this]
  · simp only [uncompressed, Dis.VariableParameter.ser, Dis.ArticulatedPart.ser, bits_append, bits_e8, bits_e16, bits_e32, flag_zero,
      List.append_assoc, VariableParameter.parse, ArticulatedPartVP.parse, rt]
    have hlt2 : p.type_class.toNat + p.type_metric.toNat < 2 ^ 32 := by omega
    simp [rt, p.change_indicator.toNat_lt, p.attachment_id.toNat_lt, hs, hlt2, p.parameter_value.toNat_lt, hm]
    rw [show (p.type_class.toNat + p.type_metric.toNat) % 4294967296 = _ from Nat.mod_eq_of_lt hlt2, hm]
    exact ⟨⟨by omega, rfl⟩, rfl⟩

/-- a turret, and a weapon station -/
example : KnownParameter (.articulated ⟨3, 1, 13, 4096, 0x3F800000⟩) ∧ KnownParameter (.attached ⟨1, 2, 896, ⟨2, 1, 225, 2, 3, 4, 5⟩⟩) := by
  unfold KnownParameter
  decide

end Verif.Props
