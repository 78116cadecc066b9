import Verif.Dis.RecordsWf

/-! Read-after-write, length, stability and safety lemmas for the common records. -/

namespace Verif.Dis
open Verif.P

macro "rtp" "[" ids:Lean.Parser.Tactic.simpLemma,* "]" : tactic =>
  `(tactic| simp only [$ids,*, List.append_assoc, rt])
macro "lenp" "[" ids:Lean.Parser.Tactic.simpLemma,* "]" : tactic =>
  `(tactic| simp only [$ids,*, List.length_append, List.length_nil, List.length_cons, len])

section
variable (r : Bytes)

@[rt] theorem SimulationAddress.parse_ser (x : SimulationAddress) : SimulationAddress.parse.run (x.ser ++ r) = .ok x r := by
  rtp [SimulationAddress.parse, SimulationAddress.ser]
@[rt] theorem EntityId.parse_ser (x : EntityId) : EntityId.parse.run (x.ser ++ r) = .ok x r := by
  rtp [EntityId.parse, EntityId.ser]
@[rt] theorem EventId.parse_ser (x : EventId) : EventId.parse.run (x.ser ++ r) = .ok x r := by
  rtp [EventId.parse, EventId.ser, SimulationAddress.ser]
@[rt] theorem VectorF32.parse_ser (x : VectorF32) : VectorF32.parse.run (x.ser ++ r) = .ok x r := by
  rtp [VectorF32.parse, VectorF32.ser]
@[rt] theorem Location.parse_ser (x : Location) : Location.parse.run (x.ser ++ r) = .ok x r := by
  rtp [Location.parse, Location.ser]
@[rt] theorem Orientation.parse_ser (x : Orientation) : Orientation.parse.run (x.ser ++ r) = .ok x r := by
  rtp [Orientation.parse, Orientation.ser]
@[rt] theorem EntityType.parse_ser (x : EntityType) : EntityType.parse.run (x.ser ++ r) = .ok x r := by
  rtp [EntityType.parse, EntityType.ser]
@[rt] theorem MunitionDescriptor.parse_ser (x : MunitionDescriptor) : MunitionDescriptor.parse.run (x.ser ++ r) = .ok x r := by
  rtp [MunitionDescriptor.parse, MunitionDescriptor.ser]
@[rt] theorem ClockTime.parse_ser (x : ClockTime) : ClockTime.parse.run (x.ser ++ r) = .ok x r := by
  rtp [ClockTime.parse, ClockTime.ser]
@[rt] theorem FixedDatum.parse_ser (x : FixedDatum) : FixedDatum.parse.run (x.ser ++ r) = .ok x r := by
  rtp [FixedDatum.parse, FixedDatum.ser]
@[rt] theorem BeamData.parse_ser (x : BeamData) : BeamData.parse.run (x.ser ++ r) = .ok x r := by
  rtp [BeamData.parse, BeamData.ser]
@[rt] theorem SupplyQuantity.parse_ser (x : SupplyQuantity) : SupplyQuantity.parse.run (x.ser ++ r) = .ok x r := by
  rtp [SupplyQuantity.parse, SupplyQuantity.ser]
@[rt] theorem AttachedPart.parse_ser (x : AttachedPart) : AttachedPart.parse.run (x.ser ++ r) = .ok x r := by
  rtp [AttachedPart.parse, AttachedPart.ser]
@[rt] theorem EntityTypeParameter.parse_ser (x : EntityTypeParameter) : EntityTypeParameter.parse.run (x.ser ++ r) = .ok x r := by
  rtp [EntityTypeParameter.parse, EntityTypeParameter.ser]
@[rt] theorem EntityAssociationParameter.parse_ser (x : EntityAssociationParameter) : EntityAssociationParameter.parse.run (x.ser ++ r) = .ok x r := by
  rtp [EntityAssociationParameter.parse, EntityAssociationParameter.ser]
end

@[len] theorem SimulationAddress.length_ser (x : SimulationAddress) : x.ser.length = 4 := by lenp [SimulationAddress.ser]
@[len] theorem EntityId.length_ser (x : EntityId) : x.ser.length = 6 := by lenp [EntityId.ser]
@[len] theorem EventId.length_ser (x : EventId) : x.ser.length = 6 := by lenp [EventId.ser]
@[len] theorem VectorF32.length_ser (x : VectorF32) : x.ser.length = 12 := by lenp [VectorF32.ser]
@[len] theorem Location.length_ser (x : Location) : x.ser.length = 24 := by lenp [Location.ser]
@[len] theorem Orientation.length_ser (x : Orientation) : x.ser.length = 12 := by lenp [Orientation.ser]
@[len] theorem EntityType.length_ser (x : EntityType) : x.ser.length = 8 := by lenp [EntityType.ser]
@[len] theorem MunitionDescriptor.length_ser (x : MunitionDescriptor) : x.ser.length = 8 := by lenp [MunitionDescriptor.ser]
@[len] theorem ClockTime.length_ser (x : ClockTime) : x.ser.length = 8 := by lenp [ClockTime.ser]
@[len] theorem FixedDatum.length_ser (x : FixedDatum) : x.ser.length = 8 := by lenp [FixedDatum.ser]
@[len] theorem BeamData.length_ser (x : BeamData) : x.ser.length = 20 := by lenp [BeamData.ser]
@[len] theorem SupplyQuantity.length_ser (x : SupplyQuantity) : x.ser.length = 12 := by lenp [SupplyQuantity.ser]
@[len] theorem ArticulatedPart.length_ser (x : ArticulatedPart) : x.ser.length = 15 := by lenp [ArticulatedPart.ser]
@[len] theorem AttachedPart.length_ser (x : AttachedPart) : x.ser.length = 15 := by lenp [AttachedPart.ser]
@[len] theorem SeparationParameter.length_ser (x : SeparationParameter) : x.ser.length = 15 := by lenp [SeparationParameter.ser]
@[len] theorem EntityTypeParameter.length_ser (x : EntityTypeParameter) : x.ser.length = 15 := by lenp [EntityTypeParameter.ser]
@[len] theorem EntityAssociationParameter.length_ser (x : EntityAssociationParameter) : x.ser.length = 15 := by lenp [EntityAssociationParameter.ser]
@[len] theorem DescriptorRecord.length_ser (x : DescriptorRecord) : x.ser.length = 16 := by
  cases x <;> lenp [DescriptorRecord.ser]
theorem DescriptorRecord.cnt_eq (x : DescriptorRecord) : x.cnt = 16 := by cases x <;> rfl

theorem VariableParameter.length_ser {x : VariableParameter} (h : x.Wf) : x.ser.length = 16 := by
  cases x <;> lenp [VariableParameter.ser]
  simp only [VariableParameter.Wf] at h; omega
theorem VariableParameter.cnt_eq (x : VariableParameter) : x.cnt = 16 := by cases x <;> rfl

/-! ### Lists -/

theorem length_flatMap_const {α : Type} {s : α → Bytes} {k : Nat} (l : List α)
    (h : ∀ x ∈ l, (s x).length = k) : (l.flatMap s).length = k * l.length := by
  induction l with
  | nil => simp
  | cons x xs ih =>
    rw [List.flatMap_cons, List.length_append, h x (by simp), ih fun y hy => h y (by simp [hy]),
      List.length_cons, Nat.mul_succ]; omega

theorem length_serList_const {α : Type} {s : α → Bytes} {k : Nat} (l : List α)
    (h : ∀ x ∈ l, (s x).length = k) : (serList s l).length = k * l.length :=
  length_flatMap_const l h

theorem length_serList_eq_cntList {α : Type} {s : α → Bytes} {c : α → Nat} (l : List α)
    (h : ∀ x ∈ l, (s x).length = c x) : (serList s l).length = cntList c l := by
  unfold serList cntList
  induction l with
  | nil => rfl
  | cons x xs ih =>
    rw [List.flatMap_cons, List.length_append, h x (by simp), ih fun y hy => h y (by simp [hy])]
    simp

theorem cntList_const {α : Type} {c : α → Nat} {k : Nat} (l : List α) (h : ∀ x ∈ l, c x = k) :
    cntList c l = k * l.length := by
  unfold cntList
  induction l with
  | nil => rfl
  | cons x xs ih =>
    simp only [List.map_cons, List.sum_cons, List.length_cons, h x (by simp)]
    rw [ih fun y hy => h y (by simp [hy]), Nat.mul_succ]; omega

theorem run_countList {α : Type} {p : BP α} {s : α → Bytes} (l : List α) (r : Bytes) (n : Nat)
    (hn : n = l.length) (h : ∀ x ∈ l, ∀ r, p.run (s x ++ r) = .ok x r) :
    (P.count p n).run (serList s l ++ r) = .ok l r := P.run_count' l r n hn h

/-! ### Descriptor records -/

/-- the wire form is selected by the fire type indicator -/
theorem DescriptorRecord.parseFti_munition (t : EntityType) (m : MunitionDescriptor) (r : Bytes) :
    (DescriptorRecord.parseFti 0).run ((DescriptorRecord.munition t m).ser ++ r) = .ok (.munition t m) r := by
  rtp [DescriptorRecord.parseFti, DescriptorRecord.ser, if_true]
theorem DescriptorRecord.parseFti_expendable (t : EntityType) (fti : UInt8) (h : fti ≠ 0) (r : Bytes) :
    (DescriptorRecord.parseFti fti).run ((DescriptorRecord.expendable t).ser ++ r) = .ok (.expendable t) r := by
  rtp [DescriptorRecord.parseFti, DescriptorRecord.ser, if_neg h]
theorem DescriptorRecord.parseDti_munition (t : EntityType) (m : MunitionDescriptor) (r : Bytes) :
    (DescriptorRecord.parseDti 0).run ((DescriptorRecord.munition t m).ser ++ r) = .ok (.munition t m) r := by
  rtp [DescriptorRecord.parseDti, DescriptorRecord.ser, if_true]
theorem DescriptorRecord.parseDti_expendable (t : EntityType) (dti : UInt8) (h : dti ≠ 0) (h2 : dti ≠ 2) (r : Bytes) :
    (DescriptorRecord.parseDti dti).run ((DescriptorRecord.expendable t).ser ++ r) = .ok (.expendable t) r := by
  rtp [DescriptorRecord.parseDti, DescriptorRecord.ser, if_neg h, if_neg h2]

/-! ### Articulated parts and variable parameters -/

theorem articulated_split (c m : UInt32) (hm : m.toNat < 32) (hc : c.toNat % 32 = 0) :
    (c + m) &&& 0x1f = m ∧ (c + m) - ((c + m) &&& 0x1f) = c := by
  have h1 : (c + m) &&& 0x1f = m := by
    apply UInt32.toNat.inj
    have hc' := c.toNat_lt
    rw [UInt32.toNat_and, UInt32.toNat_add]
    have e : UInt32.toNat 0x1f = 2 ^ 5 - 1 := rfl
    rw [e, Nat.and_two_pow_sub_one_eq_mod]
    omega
  refine ⟨h1, ?_⟩
  rw [h1]; exact UInt32.add_sub_cancel _ _

theorem ArticulatedPart.parse_ser {x : ArticulatedPart} (h : x.Wf) (r : Bytes) :
    ArticulatedPart.parse.run (x.ser ++ r) = .ok x r := by
  obtain ⟨h1, h2⟩ := articulated_split x.type_class x.type_metric h.1 h.2
  rw [h1] at h2
  rtp [ArticulatedPart.parse, ArticulatedPart.ser, h2, h1]

theorem VariableParameter.parse_ser {x : VariableParameter} (h : x.Wf) (hs : x.NotSeparation) (r : Bytes) :
    VariableParameter.parse.run (x.ser ++ r) = .ok x r := by
  have ne : ∀ (a b : UInt8), a.toNat ≠ b.toNat → a ≠ b := fun a b hab e => hab (by rw [e])
  cases x with
  | articulated p => rtp [VariableParameter.parse, VariableParameter.ser, if_true, ArticulatedPart.parse_ser h]
  | attached p => rtp [VariableParameter.parse, VariableParameter.ser]; simp (decide := true) only [if_true, if_false, rt]
  | separation p => exact absurd hs id
  | entityType p => rtp [VariableParameter.parse, VariableParameter.ser]; simp (decide := true) only [if_true, if_false, rt]
  | entityAssociation p => rtp [VariableParameter.parse, VariableParameter.ser]; simp (decide := true) only [if_true, if_false, rt]
  | unspecified t v =>
    obtain ⟨ht, hv⟩ := h
    have h0 : t ≠ 0 := ne _ _ (by simp; omega)
    have h1 : t ≠ 1 := ne _ _ (by simp; omega)
    have h2 : t ≠ 2 := ne _ _ (by simp; omega)
    have h3 : t ≠ 3 := ne _ _ (by simp; omega)
    have h4 : t ≠ 4 := ne _ _ (by simp; omega)
    rtp [VariableParameter.parse, VariableParameter.ser, h0, h1, h2, h3, h4, if_false]
    rw [P.run_take _ _ _ hv]; rfl

/-! ### Variable datums -/

theorem lengthPadded_aligned {n k : Nat} (h : n % k = 0) : (lengthPaddedToNum n k).padding_length = 0 := by
  simp [lengthPaddedToNum, h]

@[rt] theorem lengthPadded_data (n k : Nat) : (lengthPaddedToNum n k).data_length = n := id rfl

theorem VariableDatum.ser_aligned {x : VariableDatum} (h : x.Aligned) :
    x.ser = e32 x.datum_id ++ e32 (UInt32.ofNat (x.datum_value.length * 8)) ++ x.datum_value := by
  unfold VariableDatum.Aligned at h
  have : (x.datum_value.length * 8) % 64 = 0 := by omega
  simp [VariableDatum.ser, lengthPadded_aligned this, zeros]

theorem VariableDatum.parse_ser {x : VariableDatum} (h : x.Wf) (ha : x.Aligned) (r : Bytes) :
    VariableDatum.parse.run (x.ser ++ r) = .ok x r := by
  rw [VariableDatum.ser_aligned ha]
  unfold VariableDatum.Wf at h
  unfold VariableDatum.Aligned at ha
  have e0 := toNat_u32_ofNat h
  generalize UInt32.ofNat (x.datum_value.length * 8) = bits at e0 ⊢
  have e1 : bits.toNat / 8 = x.datum_value.length := by omega
  rtp [VariableDatum.parse, e1, lengthPadded_aligned ha]
  rw [P.run_take _ _ _ rfl]
  simp only [rt]

theorem VariableDatum.length_ser {x : VariableDatum} (ha : x.Aligned) : x.ser.length = 8 + x.datum_value.length := by
  rw [VariableDatum.ser_aligned ha]; lenp [length_e8]

theorem VariableDatum.cnt_eq {x : VariableDatum} (ha : x.Aligned) (hs : x.datum_value.length < 8192) :
    x.cnt = x.ser.length := by
  rw [VariableDatum.length_ser ha]
  unfold VariableDatum.Aligned at ha
  have : (x.datum_value.length * 8) % 64 = 0 := by omega
  simp only [VariableDatum.cnt, lengthPaddedToNum, this, if_true]; omega

/-! ### Record sets -/

theorem RecordSet.sum_length {x : RecordSet} (h : x.Wf) :
    (x.records.map List.length).sum = x.record_length_bytes.toNat * x.records.length := by
  have h1 := h.1
  generalize x.records = l at *
  generalize x.record_length_bytes.toNat = k at *
  clear h
  induction l with
  | nil => simp
  | cons a t ih =>
    simp only [List.map_cons, List.sum_cons, List.length_cons]
    rw [ih (fun y hy => h1 y (by simp [hy])), h1 a (by simp), Nat.mul_succ]; omega

theorem RecordSet.recordLengthOf_eq {x : RecordSet} (h : x.Wf) :
    recordLengthOf x.records = x.record_length_bytes := by
  obtain ⟨h1, h2, h3, _, _⟩ := h
  unfold recordLengthOf
  split
  · next he => exact (h2 he).symm
  · next a t he =>
    rw [h1 a (by rw [he]; simp)]
    simp

theorem RecordSet.parse_ser {x : RecordSet} (checked : Bool) (h : x.Wf) (r : Bytes) :
    (RecordSet.parse checked).run (x.ser ++ r) = .ok x r := by
  obtain ⟨h1, h2, h3, h4, h5⟩ := id h
  have hbits : (x.record_length_bytes * 8).toNat = x.record_length_bytes.toNat * 8 := by
    rw [UInt16.toNat_mul]; simp; omega
  have hceil : ceilBitsToBytes (x.record_length_bytes * 8) = x.record_length_bytes.toNat := by
    unfold ceilBitsToBytes; rw [hbits]; omega
  rtp [RecordSet.parse, RecordSet.ser, hceil, toNat_u16_ofNat h4, RecordSet.sum_length h]
  rw [P.run_count' (s := id) x.records _ _ rfl (fun y hy r => P.run_take y r _ (h1 y hy))]
  have hp : ¬ (65536 ≤ x.record_length_bytes.toNat * x.records.length) := by omega
  simp only [rt, hp, decide_false, Bool.and_false, Bool.false_eq_true, if_false, RecordSet.recordLengthOf_eq h]

theorem RecordSet.cnt_eq {x : RecordSet} : ∀ (_ : x.Wf), x.cnt = x.ser.length := by
  intro h
  have h5 := h.2.2.2.2
  lenp [RecordSet.cnt, RecordSet.ser]
  rw [length_flatMap_const (s := id) (k := x.record_length_bytes.toNat) x.records h.1]
  have := RecordSet.sum_length h
  rw [this, Nat.mod_eq_of_lt h5]

theorem RecordSpecification.parse_ser (checked : Bool) {l : List RecordSet} (hl : l.length < 4294967296)
    (h : ∀ x ∈ l, x.Wf) (r : Bytes) :
    (RecordSpecification.parse checked).run (RecordSpecification.ser l ++ r) = .ok l r := by
  rtp [RecordSpecification.parse, RecordSpecification.ser]
  exact run_countList l r _ (toNat_u32_ofNat hl) (fun x hx r => RecordSet.parse_ser checked (h x hx) r)

theorem RecordSpecification.cnt_eq {l : List RecordSet} (h : ∀ x ∈ l, x.Wf) :
    RecordSpecification.cnt l = (RecordSpecification.ser l).length := by
  lenp [RecordSpecification.cnt, RecordSpecification.ser]
  rw [length_serList_eq_cntList (c := RecordSet.cnt) l fun x hx => (RecordSet.cnt_eq (h x hx)).symm]

/-! ### Stability and safety -/

instance : Stable SimulationAddress.parse := by unfold SimulationAddress.parse; parser_ok
instance : Stable EntityId.parse := by unfold EntityId.parse; parser_ok
instance : Stable EventId.parse := by unfold EventId.parse; parser_ok
instance : Stable VectorF32.parse := by unfold VectorF32.parse; parser_ok
instance : Stable Location.parse := by unfold Location.parse; parser_ok
instance : Stable Orientation.parse := by unfold Orientation.parse; parser_ok
instance : Stable EntityType.parse := by unfold EntityType.parse; parser_ok
instance : Stable MunitionDescriptor.parse := by unfold MunitionDescriptor.parse; parser_ok
instance (f) : Stable (DescriptorRecord.parseFti f) := by unfold DescriptorRecord.parseFti; parser_ok
instance (f) : Stable (DescriptorRecord.parseDti f) := by unfold DescriptorRecord.parseDti; parser_ok
instance : Stable ClockTime.parse := by unfold ClockTime.parse; parser_ok
instance : Stable FixedDatum.parse := by unfold FixedDatum.parse; parser_ok
instance : Stable VariableDatum.parse := by unfold VariableDatum.parse; parser_ok
instance : Stable DatumSpecification.parse := by unfold DatumSpecification.parse; parser_ok
instance : Stable ArticulatedPart.parse := by unfold ArticulatedPart.parse; parser_ok
instance : Stable AttachedPart.parse := by unfold AttachedPart.parse; parser_ok
instance : Stable SeparationParameter.parse := by unfold SeparationParameter.parse; parser_ok
instance : Stable EntityTypeParameter.parse := by unfold EntityTypeParameter.parse; parser_ok
instance : Stable EntityAssociationParameter.parse := by unfold EntityAssociationParameter.parse; parser_ok
instance : Stable VariableParameter.parse := by unfold VariableParameter.parse; parser_ok
instance : Stable BeamData.parse := by unfold BeamData.parse; parser_ok
instance : Stable SupplyQuantity.parse := by unfold SupplyQuantity.parse; parser_ok
instance (c) : Stable (RecordSet.parse c) := by unfold RecordSet.parse; parser_ok
instance (c) : Stable (RecordSpecification.parse c) := by unfold RecordSpecification.parse; parser_ok

instance : Safe SimulationAddress.parse := by unfold SimulationAddress.parse; parser_ok
instance : Safe EntityId.parse := by unfold EntityId.parse; parser_ok
instance : Safe EventId.parse := by unfold EventId.parse; parser_ok
instance : Safe VectorF32.parse := by unfold VectorF32.parse; parser_ok
instance : Safe Location.parse := by unfold Location.parse; parser_ok
instance : Safe Orientation.parse := by unfold Orientation.parse; parser_ok
instance : Safe EntityType.parse := by unfold EntityType.parse; parser_ok
instance : Safe MunitionDescriptor.parse := by unfold MunitionDescriptor.parse; parser_ok
instance (f) : Safe (DescriptorRecord.parseFti f) := by unfold DescriptorRecord.parseFti; parser_ok
instance (f) : Safe (DescriptorRecord.parseDti f) := by unfold DescriptorRecord.parseDti; parser_ok
instance : Safe ClockTime.parse := by unfold ClockTime.parse; parser_ok
instance : Safe FixedDatum.parse := by unfold FixedDatum.parse; parser_ok
instance : Safe VariableDatum.parse := by unfold VariableDatum.parse; parser_ok
instance : Safe DatumSpecification.parse := by unfold DatumSpecification.parse; parser_ok
instance : Safe ArticulatedPart.parse := by unfold ArticulatedPart.parse; parser_ok
instance : Safe AttachedPart.parse := by unfold AttachedPart.parse; parser_ok
instance : Safe SeparationParameter.parse := by unfold SeparationParameter.parse; parser_ok
instance : Safe EntityTypeParameter.parse := by unfold EntityTypeParameter.parse; parser_ok
instance : Safe EntityAssociationParameter.parse := by unfold EntityAssociationParameter.parse; parser_ok
instance : Safe VariableParameter.parse := by unfold VariableParameter.parse; parser_ok
instance : Safe BeamData.parse := by unfold BeamData.parse; parser_ok
instance : Safe SupplyQuantity.parse := by unfold SupplyQuantity.parse; parser_ok
/-- without overflow checks the record set parser cannot panic -/
instance : Safe (RecordSet.parse false) := by
  unfold RecordSet.parse; simp only [Bool.false_and, Bool.false_eq_true, if_false]; parser_ok
instance : Safe (RecordSpecification.parse false) := by unfold RecordSpecification.parse; parser_ok

end Verif.Dis
