import Verif.Dis.EntityInfo

/-! # Well-formedness of entity information PDU bodies (specification side) -/

namespace Verif.Dis

/-- The appearance variant is the one of the entity type, and only uses bits the variant has fields for. -/
def EntityAppearance.Wf (env : Env) (t : EntityType) (x : EntityAppearance) : Prop :=
  x.cls = entityClass t ∧ (x.cls ≠ .unspecified → x.raw &&& env.appearanceMask x.cls = x.raw)

/-- The capabilities are expressible in the protocol version of the PDU: version 7 has a typed record
(nothing for entities of kind Other), version 6 the four flags of a land platform. -/
def EntityCapabilities.Wf (env : Env) (ver : UInt8) (t : EntityType) (x : EntityCapabilities) : Prop :=
  (ver = 7 ∧ t.kind = 0 ∧ x = ⟨.unspecified, 0⟩) ∨
  (ver = 7 ∧ t.kind ≠ 0 ∧ x.cls = entityClass t ∧
    (x.cls ≠ .unspecified → x.raw &&& env.capabilityMask x.cls = x.raw)) ∨
  (ver = 6 ∧ x.cls = .landPlatform ∧ x.raw &&& 0xf0000000 = x.raw)

/-- At most 11 ASCII characters, not ending in a blank or punctuation. -/
def EntityMarking.Wf (x : EntityMarking) : Prop :=
  x.marking_string.length ≤ 11 ∧ (∀ b ∈ x.marking_string, b.toNat < 128) ∧
  (∀ b, x.marking_string.getLast? = some b → isAlnum b = true)

/-- The kind of the other parameters is the one the dead reckoning algorithm calls for. -/
def DrParameters.Wf (x : DrParameters) : Prop :=
  match x.other_parameters with
  | .euler _ _ _ => x.algorithm.toNat ∈ [1, 2, 5, 6, 9]
  | .quaternion _ _ _ _ => x.algorithm.toNat ∈ [3, 4, 7, 8]
  | .none bytes => (x.algorithm.toNat = 0 ∨ 9 < x.algorithm.toNat) ∧ bytes.length = 15

/-- Variable parameters that fit the 8-bit count and the 16-octet record. -/
def VariableParameters.Wf (l : List VariableParameter) : Prop :=
  l.length ≤ 255 ∧ ∀ p ∈ l, p.Wf

/-- ... without separation records. -/
def VariableParameters.NoSeparation (l : List VariableParameter) : Prop := ∀ p ∈ l, p.NotSeparation

structure EntityState.Wf (env : Env) (ver : UInt8) (x : EntityState) : Prop where
  appearance : x.entity_appearance.Wf env x.entity_type
  dr : x.dead_reckoning_parameters.Wf
  marking : x.entity_marking.Wf
  capabilities : x.entity_capabilities.Wf env ver x.entity_type
  vps : VariableParameters.Wf x.variable_parameters

/-- The Entity State Update PDU does not carry the entity type, so its appearance is untyped. -/
structure EntityStateUpdate.Wf (x : EntityStateUpdate) : Prop where
  appearance : x.entity_appearance.cls = .unspecified
  vps : VariableParameters.Wf x.variable_parameters

/-- Attribute records are a whole number of 8-octet words and all counts fit their fields. -/
def AttributeRecord.Wf (x : AttributeRecord) : Prop :=
  (6 + x.specific_fields.length) % 8 = 0 ∧ 6 + x.specific_fields.length < 65536
def AttributeRecordSet.Wf (x : AttributeRecordSet) : Prop :=
  x.attribute_records.length < 65536 ∧ ∀ r ∈ x.attribute_records, r.Wf
def Attribute.Wf (x : Attribute) : Prop :=
  x.attribute_record_sets.length < 65536 ∧ ∀ s ∈ x.attribute_record_sets, s.Wf

end Verif.Dis
