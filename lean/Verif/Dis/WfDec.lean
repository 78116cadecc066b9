import Verif.Dis.Pdu

/-!
# The well-formedness predicates are decidable

So that a caller could check them, and so that the examples can be checked by evaluation.
-/

set_option linter.unusedVariables false

namespace Verif.Dis

instance decAllSome {α : Type} (o : Option α) (p : α → Prop) [DecidablePred p] : Decidable (∀ a, o = some a → p a) :=
  match o with
  | none => isTrue (fun a h => by cases h)
  | some b => if h : p b then isTrue (fun a e => by cases e; exact h) else isFalse (fun f => h (f b rfl))

instance (l data : Bytes) : Decidable (∃ rest, data = l ++ rest) :=
  decidable_of_iff (l <+: data) ⟨fun ⟨t, h⟩ => ⟨t, h.symm⟩, fun ⟨t, h⟩ => ⟨t, h.symm⟩⟩

instance (env : Env) (t : EntityType) (x : EntityAppearance) : Decidable (EntityAppearance.Wf env t x) := by unfold EntityAppearance.Wf; infer_instance
instance (env : Env) (ver : UInt8) (t : EntityType) (x : EntityCapabilities) : Decidable (EntityCapabilities.Wf env ver t x) := by unfold EntityCapabilities.Wf; infer_instance
instance (x : EntityMarking) : Decidable (EntityMarking.Wf x) := by unfold EntityMarking.Wf; infer_instance
instance (x : DrParameters) : Decidable (DrParameters.Wf x) := by unfold DrParameters.Wf; split <;> infer_instance
instance (l : List VariableParameter) : Decidable (VariableParameters.Wf l) := by unfold VariableParameters.Wf; infer_instance
instance (l : List VariableParameter) : Decidable (VariableParameters.NoSeparation l) := by unfold VariableParameters.NoSeparation; infer_instance
instance (env : Env) (ver : UInt8) (x : EntityState) : Decidable (EntityState.Wf env ver x) :=
  decidable_of_iff ((x.entity_appearance.Wf env x.entity_type) ∧ (x.dead_reckoning_parameters.Wf) ∧ (x.entity_marking.Wf) ∧ (x.entity_capabilities.Wf env ver x.entity_type) ∧ (VariableParameters.Wf x.variable_parameters))
    ⟨fun ⟨a0, a1, a2, a3, a4⟩ => ⟨a0, a1, a2, a3, a4⟩, fun ⟨a0, a1, a2, a3, a4⟩ => ⟨a0, a1, a2, a3, a4⟩⟩
instance (x : EntityStateUpdate) : Decidable (EntityStateUpdate.Wf x) :=
  decidable_of_iff ((x.entity_appearance.cls = .unspecified) ∧ (VariableParameters.Wf x.variable_parameters))
    ⟨fun ⟨a0, a1⟩ => ⟨a0, a1⟩, fun ⟨a0, a1⟩ => ⟨a0, a1⟩⟩
instance (x : AttributeRecord) : Decidable (AttributeRecord.Wf x) := by unfold AttributeRecord.Wf; infer_instance
instance (x : AttributeRecordSet) : Decidable (AttributeRecordSet.Wf x) := by unfold AttributeRecordSet.Wf; infer_instance
instance (x : Attribute) : Decidable (Attribute.Wf x) := by unfold Attribute.Wf; infer_instance
instance (x : DescriptorRecord) (y : UInt8) : Decidable (DescriptorRecord.MatchesFti  x y) := by
  cases x <;> unfold DescriptorRecord.MatchesFti <;> infer_instance
instance (x : DescriptorRecord) (y : UInt8) : Decidable (DescriptorRecord.MatchesDti  x y) := by
  cases x <;> unfold DescriptorRecord.MatchesDti <;> infer_instance
instance (x : DescriptorRecord) : Decidable (DescriptorRecord.NotExplosion  x) := by
  cases x <;> unfold DescriptorRecord.NotExplosion <;> infer_instance
instance (x : ServiceRequest) : Decidable (ServiceRequest.Wf x) := by unfold ServiceRequest.Wf; infer_instance
instance (x : ResupplyOffer) : Decidable (ResupplyOffer.Wf x) := by unfold ResupplyOffer.Wf; infer_instance
instance (x : ResupplyReceived) : Decidable (ResupplyReceived.Wf x) := by unfold ResupplyReceived.Wf; infer_instance
instance (f : List FixedDatum) (v : List VariableDatum) : Decidable (Datums.Wf f v) := by unfold Datums.Wf; infer_instance
instance (v : List VariableDatum) : Decidable (Datums.Small v) := by unfold Datums.Small; infer_instance
instance (x : ActionRequest) : Decidable (ActionRequest.Wf x) := by unfold ActionRequest.Wf; infer_instance
instance (x : ActionResponse) : Decidable (ActionResponse.Wf x) := by unfold ActionResponse.Wf; infer_instance
instance (x : DataQuery) : Decidable (DataQuery.Wf x) := by unfold DataQuery.Wf; infer_instance
instance (x : SetData) : Decidable (SetData.Wf x) := by unfold SetData.Wf; infer_instance
instance (x : Data) : Decidable (Data.Wf x) := by unfold Data.Wf; infer_instance
instance (x : EventReport) : Decidable (EventReport.Wf x) := by unfold EventReport.Wf; infer_instance
instance (x : Comment) : Decidable (Comment.Wf x) := by unfold Comment.Wf; infer_instance
instance (l : List RecordSet) : Decidable (Records.Wf l) := by unfold Records.Wf; infer_instance
instance (x : ActionRequestR) : Decidable (ActionRequestR.Wf x) := by unfold ActionRequestR.Wf; infer_instance
instance (x : ActionResponseR) : Decidable (ActionResponseR.Wf x) := by unfold ActionResponseR.Wf; infer_instance
instance (x : DataQueryR) : Decidable (DataQueryR.Wf x) := by unfold DataQueryR.Wf; infer_instance
instance (x : SetDataR) : Decidable (SetDataR.Wf x) := by unfold SetDataR.Wf; infer_instance
instance (x : DataR) : Decidable (DataR.Wf x) := by unfold DataR.Wf; infer_instance
instance (x : EventReportR) : Decidable (EventReportR.Wf x) := by unfold EventReportR.Wf; infer_instance
instance (x : CommentR) : Decidable (CommentR.Wf x) := by unfold CommentR.Wf; infer_instance
instance (x : RecordR) : Decidable (RecordR.Wf x) := by unfold RecordR.Wf; infer_instance
instance (x : SetRecordR) : Decidable (SetRecordR.Wf x) := by unfold SetRecordR.Wf; infer_instance
instance (x : RecordQueryR) : Decidable (RecordQueryR.Wf x) := by unfold RecordQueryR.Wf; infer_instance
instance (x : Beam) : Decidable (Beam.Wf x) := by unfold Beam.Wf; infer_instance
instance (x : EmitterSystem) : Decidable (EmitterSystem.Wf x) := by unfold EmitterSystem.Wf; infer_instance
instance (x : ElectromagneticEmission) : Decidable (ElectromagneticEmission.Wf x) := by unfold ElectromagneticEmission.Wf; infer_instance
instance (x : SEES) : Decidable (SEES.Wf x) := by unfold SEES.Wf; infer_instance
instance (x : UAEmitterSystem) : Decidable (UAEmitterSystem.Wf x) := by unfold UAEmitterSystem.Wf; infer_instance
instance (x : UnderwaterAcoustic) : Decidable (UnderwaterAcoustic.Wf x) :=
  decidable_of_iff ((x.propulsion_plant_configuration.configuration.toNat < 128) ∧ (x.shafts.length ≤ 255) ∧ (x.apas.length ≤ 255) ∧ (x.emitter_systems.length ≤ 255) ∧ (∀ s ∈ x.emitter_systems, s.Wf))
    ⟨fun ⟨a0, a1, a2, a3, a4⟩ => ⟨a0, a1, a2, a3, a4⟩, fun ⟨a0, a1, a2, a3, a4⟩ => ⟨a0, a1, a2, a3, a4⟩⟩
instance (x : APA) : Decidable (APA.Wf x) := by unfold APA.Wf; infer_instance
instance (x : APA) : Decidable (APA.Zero x) := by unfold APA.Zero; infer_instance
instance (x : IffDataRecord) : Decidable (IffDataRecord.Wf x) := by unfold IffDataRecord.Wf; infer_instance
instance (l : List IffDataRecord) : Decidable (IffDataSpecification.Wf l) := by unfold IffDataSpecification.Wf; infer_instance
instance (c : IffClass) (x : Mode5BasicData) : Decidable (Mode5BasicData.Wf c x) := by
  cases x <;> unfold Mode5BasicData.Wf <;> infer_instance
instance (c : IffClass) (x : ModeSBasicData) : Decidable (ModeSBasicData.Wf c x) := by
  cases x <;> unfold ModeSBasicData.Wf <;> infer_instance
instance (x : ModeSBasicData) : Decidable (ModeSBasicData.Forced  x) := by
  cases x <;> unfold ModeSBasicData.Forced <;> infer_instance
instance (c : IffClass) (x : IffLayer3) : Decidable (IffLayer3.Wf c x) :=
  decidable_of_iff ((x.mode_5_basic_data.Wf c) ∧ (IffDataSpecification.Wf x.data_records))
    ⟨fun ⟨a0, a1⟩ => ⟨a0, a1⟩, fun ⟨a0, a1⟩ => ⟨a0, a1⟩⟩
instance (c : IffClass) (x : IffLayer4) : Decidable (IffLayer4.Wf c x) :=
  decidable_of_iff ((x.mode_s_basic_data.Wf c) ∧ (IffDataSpecification.Wf x.data_records))
    ⟨fun ⟨a0, a1⟩ => ⟨a0, a1⟩, fun ⟨a0, a1⟩ => ⟨a0, a1⟩⟩
instance (x : IffLayer5) : Decidable (IffLayer5.Wf x) :=
  decidable_of_iff ((InformationLayers.layout.Fits x.applicable_layers) ∧ (IffDataSpecification.Wf x.data_records))
    ⟨fun ⟨a0, a1⟩ => ⟨a0, a1⟩, fun ⟨a0, a1⟩ => ⟨a0, a1⟩⟩
instance (env : Env) (x : Iff) : Decidable (Iff.Wf env x) :=
  decidable_of_iff ((ChangeOptions.layout.Fits x.system_id.change_options) ∧ (SystemStatus.layout.Fits x.fundamental_operational_data.system_status) ∧ (InformationLayers.layout.Fits x.fundamental_operational_data.information_layers) ∧ (layerPresent x.fundamental_operational_data 2 ↔ x.layer_2 ≠ none) ∧ (layerPresent x.fundamental_operational_data 3 ↔ x.layer_3 ≠ none) ∧ (layerPresent x.fundamental_operational_data 4 ↔ x.layer_4 ≠ none) ∧ (layerPresent x.fundamental_operational_data 5 ↔ x.layer_5 ≠ none) ∧ (∀ l, x.layer_2 = some l → l.iff_fundamental_parameters.length < 65536) ∧ (∀ l, x.layer_3 = some l → l.Wf (env.iffClass x.system_id.system_type)) ∧ (∀ l, x.layer_4 = some l → l.Wf (env.iffClass x.system_id.system_type)) ∧ (∀ l, x.layer_5 = some l → l.Wf))
    ⟨fun ⟨a0, a1, a2, a3, a4, a5, a6, a7, a8, a9, a10⟩ => ⟨a0, a1, a2, a3, a4, a5, a6, a7, a8, a9, a10⟩, fun ⟨a0, a1, a2, a3, a4, a5, a6, a7, a8, a9, a10⟩ => ⟨a0, a1, a2, a3, a4, a5, a6, a7, a8, a9, a10⟩⟩
instance (x : Iff) : Decidable (Iff.Forced x) := by unfold Iff.Forced; infer_instance
instance (x : VariableTransmitterParameter) : Decidable (VariableTransmitterParameter.Wf x) := by unfold VariableTransmitterParameter.Wf; infer_instance
instance (ver : UInt8) (x : Transmitter) : Decidable (Transmitter.Wf ver x) :=
  decidable_of_iff ((SpreadSpectrum.layout.Fits x.modulation_type.spread_spectrum) ∧ (x.modulation_type.major.toNat ≤ 9) ∧ (x.modulation_type.major = 0 → x.modulation_type.detail = 0) ∧ (CryptoKeyId.layout.Fits x.crypto_key_id) ∧ (∀ m, x.modulation_parameters = some m → 0 < m.length ∧ m.length ≤ 255) ∧ (ver = 7 ∨ x.variable_transmitter_parameters = []) ∧ (x.variable_transmitter_parameters.length < 65536) ∧ (∀ p ∈ x.variable_transmitter_parameters, p.Wf))
    ⟨fun ⟨a0, a1, a2, a3, a4, a5, a6, a7⟩ => ⟨a0, a1, a2, a3, a4, a5, a6, a7⟩, fun ⟨a0, a1, a2, a3, a4, a5, a6, a7⟩ => ⟨a0, a1, a2, a3, a4, a5, a6, a7⟩⟩
instance (data : Bytes) (x : EncodingScheme) : Decidable (EncodingScheme.Wf data x) := by
  cases x <;> unfold EncodingScheme.Wf <;> infer_instance
instance (x : Signal) : Decidable (Signal.Wf x) :=
  decidable_of_iff ((x.encoding_scheme.Wf x.data) ∧ (x.data.length < 8192))
    ⟨fun ⟨a0, a1⟩ => ⟨a0, a1⟩, fun ⟨a0, a1⟩ => ⟨a0, a1⟩⟩
instance (env : Env) (category : UInt8) (x : GroupEntityDescription) : Decidable (GroupEntityDescription.Wf env category x) := by
  cases x <;> unfold GroupEntityDescription.Wf <;> infer_instance
instance (env : Env) (x : IsGroupOf) : Decidable (IsGroupOf.Wf env x) :=
  decidable_of_iff ((x.descriptions.length < 256) ∧ (∀ d ∈ x.descriptions, d.Wf env x.grouped_entity_category))
    ⟨fun ⟨a0, a1⟩ => ⟨a0, a1⟩, fun ⟨a0, a1⟩ => ⟨a0, a1⟩⟩
instance (x : AggregateMarking) : Decidable (AggregateMarking.Wf x) := by unfold AggregateMarking.Wf; infer_instance
instance (env : Env) (x : SilentEntitySystem) : Decidable (SilentEntitySystem.Wf env x) :=
  decidable_of_iff ((x.appearances.length < 65536) ∧ (∀ a ∈ x.appearances, a.Wf env x.entity_type))
    ⟨fun ⟨a0, a1⟩ => ⟨a0, a1⟩, fun ⟨a0, a1⟩ => ⟨a0, a1⟩⟩
instance (env : Env) (x : AggregateState) : Decidable (AggregateState.Wf env x) :=
  decidable_of_iff ((x.aggregate_marking.Wf) ∧ (x.aggregates.length + x.entities.length ≤ 10901) ∧ (x.silent_aggregate_systems.length < 65536) ∧ (x.silent_entity_systems.length < 65536) ∧ (∀ s ∈ x.silent_entity_systems, s.Wf env) ∧ (Datums.Wf [] x.variable_datums))
    ⟨fun ⟨a0, a1, a2, a3, a4, a5⟩ => ⟨a0, a1, a2, a3, a4, a5⟩, fun ⟨a0, a1, a2, a3, a4, a5⟩ => ⟨a0, a1, a2, a3, a4, a5⟩⟩

end Verif.Dis
