import Verif.Dis.Weights

/-! # How many octets a PDU was read from

The lower bounds of `Weights`, with the fields of fixed size added: all octets that a reader takes.  No model content. -/

namespace Verif.Dis

instance (R : List RField) : Eats (unpack8 R) (fun _ => 1) := ⟨by unfold unpack8; eats⟩
instance (R : List RField) : Eats (unpack16 R) (fun _ => 2) := ⟨by unfold unpack16; eats⟩
instance (R : List RField) : Eats (unpack32 R) (fun _ => 4) := ⟨by unfold unpack32; eats⟩
instance : Eats SimulationAddress.parse (fun _ => 4) := ⟨by unfold SimulationAddress.parse; eats⟩
instance : Eats Location.parse (fun _ => 24) := ⟨by unfold Location.parse; eats⟩
instance : Eats Orientation.parse (fun _ => 12) := ⟨by unfold Orientation.parse; eats⟩
instance : Eats MunitionDescriptor.parse (fun _ => 8) := ⟨by unfold MunitionDescriptor.parse; eats⟩
instance : Eats ClockTime.parse (fun _ => 8) := ⟨by unfold ClockTime.parse; eats⟩
instance (fti : UInt8) : Eats (DescriptorRecord.parseFti fti) (fun _ => 16) := ⟨by
  unfold DescriptorRecord.parseFti
  refine Takes.bind Eats.spec fun _ _ _ => ?_
  exact Takes.ite (fun _ => by eats) fun _ => by eats⟩
instance (dti : UInt8) : Eats (DescriptorRecord.parseDti dti) (fun _ => 14) := ⟨by
  unfold DescriptorRecord.parseDti
  refine Takes.bind Eats.spec fun _ _ _ => ?_
  refine Takes.ite (fun _ => by eats) fun _ => ?_
  exact Takes.ite (fun _ => by eats) fun _ => by eats⟩
instance (env : Env) (t : EntityType) : Eats (EntityAppearance.parse env t) (fun _ => 4) := ⟨by unfold EntityAppearance.parse; eats⟩
instance : Eats CapabilitiesV6.parse (fun _ => 4) := ⟨by
  unfold CapabilitiesV6.parse
  refine Takes.bind Eats.spec fun _ _ _ => ?_
  refine Takes.bind (take_exact 3) fun _ _ _ => Takes.pure ?_
  simp only [List.length_append, List.length_nil] at *; omega⟩
instance (env : Env) (ver : UInt8) (t : EntityType) : Eats (EntityCapabilities.parse env ver t) (fun _ => 4) := ⟨by
  unfold EntityCapabilities.parse
  exact Takes.ite (fun _ => by eats) fun _ => by eats⟩
instance (env : Env) : Eats (EntityMarking.parse env) (fun _ => 12) := ⟨by
  unfold EntityMarking.parse
  refine Takes.bind Eats.spec fun _ _ _ => ?_
  refine Takes.bind (take_exact 11) fun _ _ _ => Takes.pure ?_
  simp only [List.length_append, List.length_nil] at *; omega⟩
instance (env : Env) (ver : UInt8) : Eats (EntityState.parse env ver) (fun x => 132 + (x.variable_parameters.map fun _ => 15).sum) := ⟨by
  unfold EntityState.parse; eats⟩
instance (fti : UInt8) : Eats (Fire.parse fti) (fun _ => 84) := ⟨by unfold Fire.parse; eats⟩
instance (dti : UInt8) : Eats (Detonation.parse dti) (fun x => 90 + (x.variable_parameters.map fun _ => 15).sum) := ⟨by unfold Detonation.parse; eats⟩
instance : Eats Collision.parse (fun _ => 48) := ⟨by unfold Collision.parse; eats⟩
instance : Eats CreateEntity.parse (fun _ => 16) := ⟨by unfold CreateEntity.parse; eats⟩
instance : Eats RemoveEntity.parse (fun _ => 16) := ⟨by unfold RemoveEntity.parse; eats⟩
instance : Eats StartResume.parse (fun _ => 32) := ⟨by unfold StartResume.parse; eats⟩
instance : Eats StopFreeze.parse (fun _ => 28) := ⟨by unfold StopFreeze.parse; eats⟩
instance : Eats Acknowledge.parse (fun _ => 20) := ⟨by unfold Acknowledge.parse; eats⟩
instance : Eats DatumSpecification.parse (fun x => 8 + datumWeight x.fixed_datum_records x.variable_datum_records) := ⟨by
  unfold DatumSpecification.parse; eats⟩
instance : Eats ActionRequest.parse (fun x => 28 + datumWeight x.fixed_datum_records x.variable_datum_records) := ⟨by unfold ActionRequest.parse; eats⟩
instance : Eats ActionResponse.parse (fun x => 28 + datumWeight x.fixed_datum_records x.variable_datum_records) := ⟨by unfold ActionResponse.parse; eats⟩
instance : Eats ActionResponseR.parse (fun x => 28 + datumWeight x.fixed_datum_records x.variable_datum_records) := ⟨by unfold ActionResponseR.parse; eats⟩
instance : Eats SetData.parse (fun x => 28 + datumWeight x.fixed_datum_records x.variable_datum_records) := ⟨by unfold SetData.parse; eats⟩
instance : Eats Data.parse (fun x => 28 + datumWeight x.fixed_datum_records x.variable_datum_records) := ⟨by unfold Data.parse; eats⟩
instance : Eats EventReport.parse (fun x => 28 + datumWeight x.fixed_datum_records x.variable_datum_records) := ⟨by unfold EventReport.parse; eats⟩
instance : Eats Comment.parse (fun x => 20 + datumWeight [] x.variable_datum_records) := ⟨by
  unfold Comment.parse
  refine Takes.bind Eats.spec fun _ _ _ => ?_
  refine Takes.bind Eats.spec fun _ _ _ => ?_
  refine Takes.bind Eats.spec fun _ _ h => Takes.pure ?_
  simp only [datumWeight, List.map_nil, List.sum_nil, List.length_append, List.length_nil] at *
  omega⟩
instance : Eats DataQuery.parse (fun x => 28 + (x.fixed_datum_records.map fun _ => 4).sum + (x.variable_datum_records.map fun _ => 4).sum) := ⟨by
  unfold DataQuery.parse; eats⟩
instance : Eats EmitterSystem.parse (fun x => 20 + (x.beams.map fun b => 52 + (b.track_jam_data.map fun _ => 8).sum).sum) := ⟨by
  unfold EmitterSystem.parse; eats⟩
instance : Eats ElectromagneticEmission.parse (fun x => 16 +
    (x.emitter_systems.map fun s => 20 + (s.beams.map fun b => 52 + (b.track_jam_data.map fun _ => 8).sum).sum).sum) := ⟨by
  unfold ElectromagneticEmission.parse; eats⟩
instance : Eats Designator.parse (fun _ => 76) := ⟨by unfold Designator.parse; eats⟩
instance : Eats ModulationType.parse (fun _ => 8) := ⟨by unfold ModulationType.parse; eats⟩
instance : Eats BeamAntennaPattern.parse (fun _ => 40) := ⟨by unfold BeamAntennaPattern.parse; eats⟩
instance (checked : Bool) (ver : UInt8) : Eats (Transmitter.parse checked ver) (fun x => 92 + x.modulation_parameters.elim 0 (fun (l : List UInt8) => l.length) +
    x.antenna_pattern.elim 0 (fun _ => 40) + (x.variable_transmitter_parameters.map fun p => 6 + p.fields.length).sum) := ⟨by unfold Transmitter.parse; eats⟩
instance : Eats Signal.parse (fun x => 20 + x.data.length) := ⟨by unfold Signal.parse; eats⟩
instance : Eats Receiver.parse (fun _ => 24) := ⟨by unfold Receiver.parse; eats⟩
instance : Eats SystemId.parse (fun _ => 6) := ⟨by unfold SystemId.parse; eats⟩
instance : Eats FundamentalOperationalData.parse (fun _ => 16) := ⟨by unfold FundamentalOperationalData.parse; eats⟩
instance : Eats IffDataSpecification.parse (fun l => 2 + (l.map fun x => 6 + x.record_specific_fields.length).sum) := ⟨by
  unfold IffDataSpecification.parse
  refine Takes.bind Eats.spec fun _ _ _ => ?_
  refine Takes.mono Eats.spec fun _ _ h => ?_
  simp only [List.length_append] at *; omega⟩
instance : Eats IffLayer2.parse (fun x => 28 + (x.iff_fundamental_parameters.map fun _ => 24).sum) := ⟨by unfold IffLayer2.parse; eats⟩
instance : Eats IffLayer5.parse (fun x => 16 + (x.data_records.map fun r => 6 + r.record_specific_fields.length).sum) := ⟨by
  unfold IffLayer5.parse; eats⟩
/-- the octets of the basic data of layer 3: none of them are read for a system type that is neither a transponder nor an interrogator -/
def mode5Octets : IffClass → Nat
  | .undetermined => 0
  | _ => 16
/-- the octets of the basic data of layer 4 -/
def modeSOctets : IffClass → Nat
  | .undetermined => 0
  | .interrogator => 24
  | .transponder => 21
instance (k : IffClass) : Eats (Mode5BasicData.parse k) (fun _ => mode5Octets k) := ⟨by
  cases k with
  | transponder => show Takes Mode5BasicData.parseTransponder _; unfold Mode5BasicData.parseTransponder mode5Octets; eats
  | interrogator => show Takes Mode5BasicData.parseInterrogator _; unfold Mode5BasicData.parseInterrogator mode5Octets; eats
  | undetermined => exact Takes.pure (Nat.zero_le _)⟩
instance (env : Env) (k : IffClass) : Eats (ModeSBasicData.parse env k) (fun _ => modeSOctets k) := ⟨by
  cases k with
  | transponder =>
    show Takes (ModeSBasicData.parseTransponder env) _
    unfold ModeSBasicData.parseTransponder modeSOctets
    refine Takes.bind Eats.spec fun _ _ _ => ?_
    refine Takes.bind Eats.spec fun _ _ _ => ?_
    refine Takes.bind Eats.spec fun _ _ _ => ?_
    refine Takes.bind (take_exact 8) fun _ _ _ => ?_
    eats
  | interrogator =>
    show Takes ModeSBasicData.parseInterrogator _
    unfold ModeSBasicData.parseInterrogator modeSOctets
    refine Takes.bind Eats.spec fun _ _ _ => ?_
    refine Takes.bind Eats.spec fun _ _ _ => ?_
    refine Takes.bind Eats.spec fun _ _ _ => ?_
    refine Takes.bind (take_exact 21) fun _ _ _ => Takes.pure ?_
    simp only [List.length_append, List.length_nil] at *; omega
  | undetermined => exact Takes.pure (Nat.zero_le _)⟩
instance (k : IffClass) : Eats (IffLayer3.parse k) (fun x => 12 + mode5Octets k + (x.data_records.map fun r => 6 + r.record_specific_fields.length).sum) := ⟨by
  unfold IffLayer3.parse; eats⟩
instance (env : Env) (k : IffClass) : Eats (IffLayer4.parse env k) (fun x => 12 + modeSOctets k + (x.data_records.map fun r => 6 + r.record_specific_fields.length).sum) := ⟨by
  unfold IffLayer4.parse; eats⟩
/-- all octets of an IFF body -/
def Iff.octets (env : Env) (x : Iff) : Nat :=
  48 + x.layer_2.elim 0 (fun x => 28 + (x.iff_fundamental_parameters.map fun _ => 24).sum)
  + x.layer_3.elim 0 (fun y => 12 + mode5Octets (env.iffClass x.system_id.system_type) + (y.data_records.map fun r => 6 + r.record_specific_fields.length).sum)
  + x.layer_4.elim 0 (fun y => 12 + modeSOctets (env.iffClass x.system_id.system_type) + (y.data_records.map fun r => 6 + r.record_specific_fields.length).sum)
  + x.layer_5.elim 0 (fun x => 16 + (x.data_records.map fun r => 6 + r.record_specific_fields.length).sum)
instance (env : Env) : Eats (Iff.parse env) (fun x => x.octets env) := ⟨by
  unfold Iff.parse
  repeat (refine Takes.bind Eats.spec fun _ _ _ => ?_)
  refine Takes.pure ?_
  simp only [Iff.octets, List.length_append, List.length_nil] at *
  omega⟩

/-- the octets that a body was read from; nothing is claimed of the kinds that C-DIS does not carry -/
def Body.octets (env : Env) : Body → Nat
  | .entityState x => 132 + (x.variable_parameters.map fun _ => 15).sum
  | .fire _ => 84
  | .detonation x => 90 + (x.variable_parameters.map fun _ => 15).sum
  | .collision _ => 48
  | .createEntity _ => 16
  | .removeEntity _ => 16
  | .startResume _ => 32
  | .stopFreeze _ => 28
  | .acknowledge _ => 20
  | .actionRequest x => 28 + datumWeight x.fixed_datum_records x.variable_datum_records
  | .actionResponse x => 28 + datumWeight x.fixed_datum_records x.variable_datum_records
  | .setData x => 28 + datumWeight x.fixed_datum_records x.variable_datum_records
  | .data x => 28 + datumWeight x.fixed_datum_records x.variable_datum_records
  | .eventReport x => 28 + datumWeight x.fixed_datum_records x.variable_datum_records
  | .comment x => 20 + datumWeight [] x.variable_datum_records
  | .dataQuery x => 28 + (x.fixed_datum_records.map fun _ => 4).sum + (x.variable_datum_records.map fun _ => 4).sum
  | .electromagneticEmission x =>
      16 + (x.emitter_systems.map fun s => 20 + (s.beams.map fun b => 52 + (b.track_jam_data.map fun _ => 8).sum).sum).sum
  | .designator _ => 76
  | .transmitter x => 92 + x.modulation_parameters.elim 0 (fun (l : List UInt8) => l.length) + x.antenna_pattern.elim 0 (fun _ => 40)
      + (x.variable_transmitter_parameters.map fun p => 6 + p.fields.length).sum
  | .signal x => 20 + x.data.length
  | .receiver _ => 24
  | .iff x => x.octets env
  | _ => 0
theorem eats_octets (env : Env) (h : PduHeader) : Takes (parseBody env h) fun c b => b.octets env ≤ c.length := by
  unfold parseBody
  repeat (refine Takes.ite (fun _ => Takes.bind Eats.spec fun _ _ h => Takes.pure (by first | exact Nat.zero_le _ | (rw [List.append_nil]; exact h))) fun _ => ?_)
  exact Takes.bind Eats.spec fun _ _ _ => Takes.pure (Nat.zero_le _)
end Verif.Dis
