import Verif.Dis.Records

/-!
# Well-formedness of record values (specification side)

These predicates describe which record values can be put on the wire at all: list lengths fit their
count fields and enumeration values are canonical.  They are used as hypotheses of the round trip
theorems and are independent of how the codecs work.
-/

namespace Verif.Dis

/-- The type metric occupies the five low bits of the combined 32-bit parameter type, the type class
the others. -/
def ArticulatedPart.Wf (x : ArticulatedPart) : Prop :=
  x.type_metric.toNat < 32 ∧ x.type_class.toNat % 32 = 0
instance (x : ArticulatedPart) : Decidable x.Wf := by unfold ArticulatedPart.Wf; infer_instance

/-- Values for which the 16-octet variable parameter record is defined. -/
def VariableParameter.Wf : VariableParameter → Prop
  | .articulated p => p.Wf
  | .unspecified t v => 5 ≤ t.toNat ∧ v.length = 15
  | _ => True
instance (x : VariableParameter) : Decidable x.Wf := by
  cases x <;> unfold VariableParameter.Wf <;> infer_instance

/-- The value is not a separation record. -/
def VariableParameter.NotSeparation : VariableParameter → Prop
  | .separation _ => False
  | _ => True
instance (x : VariableParameter) : Decidable x.NotSeparation := by
  cases x <;> unfold VariableParameter.NotSeparation <;> infer_instance

/-- The bit length fits the 32-bit length field. -/
def VariableDatum.Wf (x : VariableDatum) : Prop := x.datum_value.length * 8 < 4294967296
instance (x : VariableDatum) : Decidable x.Wf := by unfold VariableDatum.Wf; infer_instance

/-- The data is a whole number of 8-octet words. -/
def VariableDatum.Aligned (x : VariableDatum) : Prop := x.datum_value.length % 8 = 0
instance (x : VariableDatum) : Decidable x.Aligned := by unfold VariableDatum.Aligned; infer_instance

/-- All records in a set have the announced length, and the lengths fit their 16-bit fields. -/
def RecordSet.Wf (x : RecordSet) : Prop :=
  (∀ r ∈ x.records, r.length = x.record_length_bytes.toNat) ∧
  (x.records = [] → x.record_length_bytes = 0) ∧
  x.record_length_bytes.toNat * 8 < 65536 ∧
  x.records.length < 65536 ∧
  x.record_length_bytes.toNat * x.records.length < 65536
instance (x : RecordSet) : Decidable x.Wf := by unfold RecordSet.Wf; infer_instance

end Verif.Dis
