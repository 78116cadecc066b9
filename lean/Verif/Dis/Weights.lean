import Verif.Dis.ReadsMgmt
import Verif.Dis.Utf8
import Verif.Props.Writing
import Verif.Cdis.Sizes

/-! # How many octets a value was read from

Lower bounds on the octets a reader takes for a value, found by instance search.  No model content. -/

namespace Verif.Dis

/-- a value is read from at least `w` of it octets -/
class Eats {α : Type} (p : BP α) (w : outParam (α → Nat)) : Prop where
  spec : Takes p fun c a => w a ≤ c.length

instance (priority := low) {α : Type} {p : BP α} {Q : Bytes → α → Prop} [h : Rd p Q] : Eats p (fun _ => 0) := ⟨h.spec.mono fun _ _ _ => Nat.zero_le _⟩
instance : Eats be_u8 (fun _ => 1) := ⟨Rd.spec.mono (by rintro _ _ rfl; exact Nat.le_refl _)⟩
instance : Eats be_u16 (fun _ => 2) := ⟨Rd.spec.mono (by rintro _ _ rfl; exact Nat.le_refl _)⟩
instance : Eats be_u32 (fun _ => 4) := ⟨Rd.spec.mono (by rintro _ _ rfl; exact Nat.le_refl _)⟩
instance : Eats be_u64 (fun _ => 8) := ⟨Rd.spec.mono (by rintro _ _ rfl; exact Nat.le_refl _)⟩
instance (n : Nat) : Eats (P.take n : BP Bytes) (fun l => l.length) := ⟨Rd.spec.mono (by rintro _ _ ⟨rfl, -⟩; exact Nat.le_refl _)⟩
instance {α : Type} {p : BP α} {w : α → Nat} [h : Eats p w] (n : Nat) : Eats (P.count p n) (fun l => (l.map w).sum) := ⟨by
  refine (takes_count h.spec n).mono ?_
  rintro k l ⟨-, ks, rfl, h3⟩
  induction h3 with
  | nil => exact Nat.le_refl _
  | cons hq _ ih => simp only [List.map_cons, List.sum_cons, List.flatten_cons, List.length_append]; omega⟩
instance {α : Type} (flag : Prop) [Decidable flag] {p : BP α} {w : α → Nat} [h : Eats p w] : Eats (optionally flag p) (fun o => o.elim 0 w) := ⟨by
  unfold optionally
  refine Takes.ite (fun _ => ?_) fun _ => Takes.pure (Nat.zero_le _)
  refine Takes.bind h.spec fun c x hx => Takes.pure ?_
  rw [List.append_nil]; exact hx⟩

/-- of lists of datums -/
abbrev datumWeight (f : List FixedDatum) (v : List VariableDatum) : Nat := (f.map fun _ => 8).sum + (v.map fun x => 8 + x.datum_value.length).sum
/-- read through and add up -/
macro "eats" : tactic => `(tactic| (
  repeat (refine Takes.bind Eats.spec fun _ _ _ => ?_)
  refine Takes.pure ?_
  simp only [datumWeight, List.length_append, List.length_nil] at *
  omega))

instance : Eats EntityId.parse (fun _ => 6) := ⟨Rd.spec.mono fun c x h => by have := h.length; simp only [EntityId.ser, SimulationAddress.ser, List.length_append, length_e16] at this; omega⟩
instance : Eats EntityType.parse (fun _ => 8) := ⟨by unfold EntityType.parse; eats⟩
instance : Eats ArticulatedPart.parse (fun _ => 15) := ⟨by unfold ArticulatedPart.parse; eats⟩
instance : Eats AttachedPart.parse (fun _ => 15) := ⟨by unfold AttachedPart.parse; eats⟩
instance : Eats SeparationParameter.parse (fun _ => 14) := ⟨by unfold SeparationParameter.parse; eats⟩
instance : Eats EntityTypeParameter.parse (fun _ => 15) := ⟨by unfold EntityTypeParameter.parse; eats⟩
instance : Eats EntityAssociationParameter.parse (fun _ => 15) := ⟨by unfold EntityAssociationParameter.parse; eats⟩
theorem take_exact (n : Nat) : Takes (P.take n : BP Bytes) fun c _ => n ≤ c.length := Rd.spec.mono (by rintro _ _ ⟨rfl, h⟩; omega)
instance : Eats VariableParameter.parse (fun _ => 15) := ⟨by
  unfold VariableParameter.parse
  refine Takes.bind Eats.spec fun _ _ _ => ?_
  refine Takes.ite (fun _ => by eats) fun _ => ?_
  refine Takes.ite (fun _ => by eats) fun _ => ?_
  refine Takes.ite (fun _ => by eats) fun _ => ?_
  refine Takes.ite (fun _ => by eats) fun _ => ?_
  refine Takes.ite (fun _ => by eats) fun _ => ?_
  refine Takes.bind (take_exact 15) fun _ _ _ => Takes.pure ?_
  simp only [List.length_append, List.length_nil] at *; omega⟩
instance : Eats FixedDatum.parse (fun _ => 8) := ⟨by unfold FixedDatum.parse; eats⟩
instance : Eats VariableDatum.parse (fun x => 8 + x.datum_value.length) := ⟨by unfold VariableDatum.parse; eats⟩
instance : Eats DatumSpecification.parse (fun x => datumWeight x.fixed_datum_records x.variable_datum_records) := ⟨by
  unfold DatumSpecification.parse; eats⟩
instance : Eats ActionRequest.parse (fun x => datumWeight x.fixed_datum_records x.variable_datum_records) := ⟨by unfold ActionRequest.parse; eats⟩
instance : Eats ActionResponse.parse (fun x => datumWeight x.fixed_datum_records x.variable_datum_records) := ⟨by unfold ActionResponse.parse; eats⟩
instance : Eats ActionResponseR.parse (fun x => datumWeight x.fixed_datum_records x.variable_datum_records) := ⟨by unfold ActionResponseR.parse; eats⟩
instance : Eats SetData.parse (fun x => datumWeight x.fixed_datum_records x.variable_datum_records) := ⟨by unfold SetData.parse; eats⟩
instance : Eats Data.parse (fun x => datumWeight x.fixed_datum_records x.variable_datum_records) := ⟨by unfold Data.parse; eats⟩
instance : Eats EventReport.parse (fun x => datumWeight x.fixed_datum_records x.variable_datum_records) := ⟨by unfold EventReport.parse; eats⟩
instance : Eats Comment.parse (fun x => datumWeight [] x.variable_datum_records) := ⟨by
  unfold Comment.parse
  refine Takes.bind Eats.spec fun _ _ _ => ?_
  refine Takes.bind Eats.spec fun _ _ _ => ?_
  refine Takes.bind Eats.spec fun _ _ h => Takes.pure ?_
  simp only [datumWeight, List.map_nil, List.sum_nil, List.length_append, List.length_nil] at *
  omega⟩
instance : Eats DataQuery.parse (fun x => (x.fixed_datum_records.map fun _ => 4).sum + (x.variable_datum_records.map fun _ => 4).sum) := ⟨by
  unfold DataQuery.parse; eats⟩
instance : Eats TrackJam.parse (fun _ => 8) := ⟨by unfold TrackJam.parse; eats⟩
instance : Eats FundamentalParameterData.parse (fun _ => 20) := ⟨by unfold FundamentalParameterData.parse; eats⟩
instance : Eats BeamData.parse (fun _ => 20) := ⟨by unfold BeamData.parse; eats⟩
instance : Eats JammingTechnique.parse (fun _ => 4) := ⟨by unfold JammingTechnique.parse; eats⟩
instance : Eats Beam.parse (fun x => 52 + (x.track_jam_data.map fun _ => 8).sum) := ⟨by unfold Beam.parse; eats⟩
instance : Eats EmitterSystem.parse (fun x => 8 + (x.beams.map fun b => 52 + (b.track_jam_data.map fun _ => 8).sum).sum) := ⟨by
  unfold EmitterSystem.parse; eats⟩
instance : Eats ElectromagneticEmission.parse (fun x =>
    (x.emitter_systems.map fun s => 8 + (s.beams.map fun b => 52 + (b.track_jam_data.map fun _ => 8).sum).sum).sum) := ⟨by
  unfold ElectromagneticEmission.parse; eats⟩
instance (dti : UInt8) : Eats (Detonation.parse dti) (fun x => (x.variable_parameters.map fun _ => 15).sum) := ⟨by unfold Detonation.parse; eats⟩
instance : Eats DrParameters.parse (fun _ => 40) := ⟨Rd.spec.mono fun _ _ h => by have := h.1; omega⟩
instance (env : Env) (ver : UInt8) : Eats (EntityState.parse env ver) (fun x => 40 + (x.variable_parameters.map fun _ => 15).sum) := ⟨by
  unfold EntityState.parse; eats⟩
instance (checked : Bool) : Eats (VariableTransmitterParameter.parse checked) (fun x => 6 + x.fields.length) := ⟨by
  unfold VariableTransmitterParameter.parse
  refine Takes.bind Eats.spec fun _ _ _ => ?_
  refine Takes.bind Eats.spec fun _ _ _ => ?_
  exact Takes.ite (fun _ => Takes.panic) fun _ => by eats⟩
instance (checked : Bool) (ver : UInt8) : Eats (Transmitter.parse checked ver) (fun x => x.modulation_parameters.elim 0 (fun (l : List UInt8) => l.length) +
    (x.variable_transmitter_parameters.map fun p => 6 + p.fields.length).sum) := ⟨by unfold Transmitter.parse; eats⟩
instance : Eats Signal.parse (fun x => x.data.length) := ⟨by unfold Signal.parse; eats⟩
instance : Eats IffDataRecord.parse (fun x => 6 + x.record_specific_fields.length) := ⟨by unfold IffDataRecord.parse; eats⟩
instance : Eats IffDataSpecification.parse (fun l => (l.map fun x => 6 + x.record_specific_fields.length).sum) := ⟨by
  unfold IffDataSpecification.parse
  refine Takes.bind Eats.spec fun _ _ _ => ?_
  refine Takes.mono Eats.spec fun _ _ h => ?_
  simp only [List.length_append] at *; omega⟩
instance : Eats IffFundamentalParameterData.parse (fun _ => 24) := ⟨by unfold IffFundamentalParameterData.parse; eats⟩
instance : Eats IffLayer2.parse (fun x => (x.iff_fundamental_parameters.map fun _ => 24).sum) := ⟨by unfold IffLayer2.parse; eats⟩
instance (k : IffClass) : Eats (IffLayer3.parse k) (fun x => (x.data_records.map fun r => 6 + r.record_specific_fields.length).sum) := ⟨by
  unfold IffLayer3.parse; eats⟩
instance : Eats IffLayer5.parse (fun x => (x.data_records.map fun r => 6 + r.record_specific_fields.length).sum) := ⟨by
  unfold IffLayer5.parse; eats⟩
/-- the length of the aircraft identification of Mode S data -/
def ModeSBasicData.idLength : ModeSBasicData → Nat
  | .interrogator .. => 0
  | .transponder _ _ _ d _ _ _ _ _ => d.length
theorem eats_modeS {alnum : Char → Bool} {env : Env} (hs : Sanitizes alnum env) (k : IffClass) :
    Takes (ModeSBasicData.parse env k) fun c x => x.idLength ≤ c.length + 3 := by
  cases k with
  | transponder =>
    show Takes (ModeSBasicData.parseTransponder env) _
    unfold ModeSBasicData.parseTransponder
    refine Takes.bind Rd.spec fun _ _ h1 => ?_
    refine Takes.bind Rd.spec fun _ _ h2 => ?_
    refine Takes.bind Eats.spec fun _ _ _ => ?_
    refine Takes.bind Rd.spec fun buf _ h3 => ?_
    refine Takes.bind Eats.spec fun _ _ _ => ?_
    refine Takes.bind Eats.spec fun _ _ _ => ?_
    refine Takes.bind Rd.spec fun _ _ h4 => ?_
    refine Takes.bind Rd.spec fun _ _ h5 => ?_
    refine Takes.bind Eats.spec fun _ _ _ => Takes.pure ?_
    have e1 := h1.1.length; have e2 := h2.1; have e4 := h4.1; have e5 := h5.1.length
    obtain ⟨rfl, e3⟩ := h3
    have := Props.sanitize_bound alnum buf
    unfold ModeSBasicData.idLength
    rw [sanitize_eq hs]
    simp only [length_pack16, List.length_append, List.length_nil] at *
    omega
  | interrogator =>
    show Takes ModeSBasicData.parseInterrogator _
    unfold ModeSBasicData.parseInterrogator
    refine Takes.bind Eats.spec fun _ _ _ => ?_
    refine Takes.bind Eats.spec fun _ _ _ => ?_
    refine Takes.bind Eats.spec fun _ _ _ => ?_
    refine Takes.bind Eats.spec fun _ _ _ => Takes.pure ?_
    exact Nat.zero_le _
  | undetermined => exact Takes.pure (Nat.zero_le _)
instance : Eats LayerHeader.parse (fun _ => 4) := ⟨by unfold LayerHeader.parse; eats⟩
theorem eats_layer4 {alnum : Char → Bool} {env : Env} (hs : Sanitizes alnum env) (k : IffClass) : Takes (IffLayer4.parse env k)
    fun c x => x.mode_s_basic_data.idLength + (x.data_records.map fun r => 6 + r.record_specific_fields.length).sum ≤ c.length := by
  unfold IffLayer4.parse
  refine Takes.bind Eats.spec fun _ _ _ => ?_
  refine Takes.bind Eats.spec fun _ _ _ => ?_
  refine Takes.bind (eats_modeS hs k) fun _ _ _ => ?_
  eats
/-- the octets of an IFF body of no fixed size -/
def Iff.weight (x : Iff) : Nat :=
  x.layer_2.elim 0 (fun x => (x.iff_fundamental_parameters.map fun _ => 24).sum)
  + x.layer_3.elim 0 (fun x => (x.data_records.map fun r => 6 + r.record_specific_fields.length).sum)
  + x.layer_4.elim 0 (fun x => x.mode_s_basic_data.idLength + (x.data_records.map fun r => 6 + r.record_specific_fields.length).sum)
  + x.layer_5.elim 0 (fun x => (x.data_records.map fun r => 6 + r.record_specific_fields.length).sum)
instance : Eats EventId.parse (fun _ => 6) := ⟨by unfold EventId.parse; eats⟩
instance : Eats VectorF32.parse (fun _ => 12) := ⟨by unfold VectorF32.parse; eats⟩
instance : Eats FundamentalOperationalData.parse (fun _ => 14) := ⟨by unfold FundamentalOperationalData.parse; eats⟩
theorem eats_iff {alnum : Char → Bool} {env : Env} (hs : Sanitizes alnum env) : Takes (Iff.parse env) fun c x => 40 + x.weight ≤ c.length := by
  unfold Iff.parse
  refine Takes.bind Eats.spec fun _ _ _ => ?_
  refine Takes.bind Eats.spec fun _ _ _ => ?_
  refine Takes.bind Eats.spec fun _ _ _ => ?_
  refine Takes.bind Eats.spec fun _ d _ => ?_
  have : Eats (IffLayer4.parse env (env.iffClass d.system_type)) _ := ⟨eats_layer4 hs _⟩
  repeat (refine Takes.bind Eats.spec fun _ _ _ => ?_)
  refine Takes.pure ?_
  simp only [Iff.weight, List.length_append, List.length_nil] at *
  omega

/-- octets that a body of this kind was read from at least -/
def Body.weight : Body → Nat
  | .entityState x => 40 + (x.variable_parameters.map fun _ => 15).sum
  | .detonation x => (x.variable_parameters.map fun _ => 15).sum
  | .actionRequest x => datumWeight x.fixed_datum_records x.variable_datum_records
  | .actionResponse x => datumWeight x.fixed_datum_records x.variable_datum_records
  | .setData x => datumWeight x.fixed_datum_records x.variable_datum_records
  | .data x => datumWeight x.fixed_datum_records x.variable_datum_records
  | .eventReport x => datumWeight x.fixed_datum_records x.variable_datum_records
  | .comment x => datumWeight [] x.variable_datum_records
  | .dataQuery x => (x.fixed_datum_records.map fun _ => 4).sum + (x.variable_datum_records.map fun _ => 4).sum
  | .electromagneticEmission x =>
      (x.emitter_systems.map fun s => 8 + (s.beams.map fun b => 52 + (b.track_jam_data.map fun _ => 8).sum).sum).sum
  | .transmitter x => x.modulation_parameters.elim 0 (fun (l : List UInt8) => l.length) + (x.variable_transmitter_parameters.map fun p => 6 + p.fields.length).sum
  | .signal x => x.data.length
  | .iff x => 40 + x.weight
  | _ => 0
theorem eats_body {alnum : Char → Bool} {env : Env} (hs : Sanitizes alnum env) (h : PduHeader) : Takes (parseBody env h) fun c b => b.weight ≤ c.length := by
  have : Eats (Iff.parse env) _ := ⟨eats_iff hs⟩
  unfold parseBody
  repeat (refine Takes.ite (fun _ => Takes.bind Eats.spec fun _ _ h => Takes.pure (by rw [List.append_nil]; exact h)) fun _ => ?_)
  exact Takes.bind Eats.spec fun _ _ _ => Takes.pure (Nat.zero_le _)
end Verif.Dis
