import Verif.Props.CdisRecords

/-! # C31: the length a C-DIS record, body or PDU announces, against the bits written

`lenBits` models `record_length`, `body_length` and `pdu_length`; `ser` is the list of the bits written. -/

namespace Verif.Props
open Verif.Cdis

/-! ## Records -/

/-- Every one of these records writes exactly the number of bits it reports, whatever its fields hold. -/
theorem C31_records :
    (∀ v : CdisHeader, v.ser.length = v.lenBits) ∧ (∀ v : EntityId, v.ser.length = v.lenBits)
    ∧ (∀ v : EntityType, v.ser.length = v.lenBits) ∧ (∀ v : Orientation, v.ser.length = v.lenBits)
    ∧ (∀ v : WorldCoordinates, v.ser.length = v.lenBits)
    ∧ (∀ v : Vec3, (v.ser sv12).length = v.lenBits sv12 ∧ (v.ser sv14).length = v.lenBits sv14
        ∧ (v.ser sv16).length = v.lenBits sv16)
    ∧ (∀ v : VariableDatum, v.ser.length = v.lenBits) ∧ (∀ v : EncodingScheme, v.ser.length = v.lenBits)
    ∧ (∀ v : VTP, v.ser.length = v.lenBits) ∧ (∀ v : FundamentalParameter, v.ser.length = v.lenBits)
    ∧ (∀ v : SiteAppPair, v.ser.length = v.lenBits) ∧ (∀ v : TrackJam, v.ser.length = v.lenBits)
    ∧ (∀ v : IffDataRecord, v.ser.length = v.lenBits) ∧ (∀ v : OperationalData, v.ser.length = v.lenBits)
    ∧ (∀ v : Mode5BasicData, v.ser.length = v.lenBits) ∧ (∀ v : ModeSBasicData, v.ser.length = v.lenBits) :=
  ⟨CdisHeader.length_ser, EntityId.length_ser, EntityType.length_ser, Orientation.length_ser, WorldCoordinates.length_ser,
    fun v => ⟨v.length12, v.length14, v.length16⟩, VariableDatum.length_ser, EncodingScheme.length_ser, VTP.length_ser,
    FundamentalParameter.length_ser, SiteAppPair.length_ser, TrackJam.length_ser, IffDataRecord.length_ser,
    OperationalData.length_ser, Mode5BasicData.length_ser, ModeSBasicData.length_ser⟩
/-- The records of fixed size. -/
theorem C31_fixed_records :
    (∀ v : FixedDatum, v.ser.length = 64) ∧ (∀ v : ClockTime, v.ser.length = 64) ∧ (∀ v : SystemId, v.ser.length = 20)
    ∧ (∀ v : BeamAntennaPattern, v.ser.length = 112) ∧ (∀ v : ModulationType, v.ser.length = 16)
    ∧ (∀ v : ExplosiveForceFloat, v.ser.length = 18) ∧ (∀ v : IffFundamentalParameterData, v.ser.length = 86) :=
  ⟨FixedDatum.length_ser, ClockTime.length_ser, SystemId.length_ser, BeamAntennaPattern.length_ser,
    ModulationType.length_ser, ExplosiveForceFloat.length_ser, IffFundamentalParameterData.length_ser⟩
/-- The remaining records, for ASCII markings and valid variable parameters. -/
theorem C31_checked_records : (∀ v : Marking, (∀ c ∈ v.marking, c.utf8Size = 1) → v.ser.length = v.lenBits)
    ∧ (∀ v : VariableParameter, v.Wf → v.ser.length = v.lenBits) :=
  ⟨fun _ h => Marking.length_ser h, fun _ h => VariableParameter.length_ser h⟩

/-! ## Beam data -/

/-- The four angles of the beam take the same number of bits. -/
def SameSize (b : BeamData) : Prop := sv13.lenBits b.az_sweep = sv13.lenBits b.az_center
  ∧ sv13.lenBits b.el_center = sv13.lenBits b.az_center ∧ sv13.lenBits b.el_sweep = sv13.lenBits b.az_center
theorem sameSize_wire {b : BeamData} (h : SameSize b) : b.wire.lenBits = b.lenBits := by
  obtain ⟨h1, h2, h3⟩ := h
  simp only [BeamData.wire, BeamData.lenBits, h1, h2, h3]
/-- Beam data report the right length when the four angles take equally many bits (the writer writes the azimuth centre
four times). -/
theorem C31_beam_data_partial {b : BeamData} (h : SameSize b) : b.ser.length = b.lenBits := by
  rw [BeamData.length_ser, sameSize_wire h]
/-- In general the reported length can be too small and too large. -/
theorem C31_beam_data_violated : (∃ b : BeamData, b.lenBits < b.ser.length) ∧ ∃ b : BeamData, b.ser.length < b.lenBits :=
  ⟨⟨⟨4095, 0, 0, 0, 0⟩, by decide +kernel⟩, ⟨⟨0, 4095, 0, 0, 0⟩, by decide +kernel⟩⟩

/-! ## Bodies -/

/-- The bits an emitter beam announces without writing them: five for each absent index. -/
def beamUnwritten (v : EmitterBeam) : Nat :=
  (if v.fundamental_params_index.isSome then 0 else 5) + (if v.beam_data_index.isSome then 0 else 5)
/-- Those of an emitter system: its number, name and function when only one of them is given, and those of its beams. -/
def systemUnwritten (v : EmitterSystem) : Nat :=
  lUV8 v.number + (if v.name.isSome && v.function.isSome then 0 else (if v.name.isSome then 16 else 0)
    + (if v.function.isSome then 8 else 0)) + (v.emitter_beams.map beamUnwritten).sum
/-- Those of the lists of datums: five for each empty list. -/
def emptyUnwritten {α β : Type} (f : List α) (v : List β) : Nat :=
  (if f.isEmpty then 5 else 0) + (if v.isEmpty then 5 else 0)
/-- The bits each body announces without writing them. -/
def unwritten : CdisBody → Nat
  | .actionRequest b | .actionResponse b => emptyUnwritten b.datums.fixed b.datums.var
  | .dataQuery b => emptyUnwritten b.fixed_datum_ids b.variable_datum_ids
  | .setData b | .data b | .eventReport b => emptyUnwritten b.datums.fixed b.datums.var
  | .comment b => emptyUnwritten b.datums.fixed b.datums.var
  | .electromagneticEmission b => 1 + (b.emitter_systems.map systemUnwritten).sum
  | .transmitter b => (if b.antenna_pattern_type.isSome then 0 else 3) + (if b.antenna_pattern.isSome then 0 else 10)
      + (if b.power.isSome then 0 else 8) + (if b.crypto_system.isSome then 0 else 4)
      + (if b.crypto_key_id.isSome then 0 else 16) + (if b.modulation_parameters.isEmpty then 8 else 0)
  | .signal _ => 2
  | .iff b => lOpt (fun x => if x.records.isEmpty then 5 else 0) b.layer_4
      + lOpt (fun x => if x.records.isEmpty then 5 else 0) b.layer_5
  | _ => 0
/-- The fields whose number of bits depends on validity fit, and the angles of every beam take the same number of bits. -/
def Sized : CdisBody → Prop
  | .entityState b => b.Wf
  | .detonation b => b.Wf
  | .actionRequest b | .actionResponse b => b.datums.fixed.length < 256 ∧ b.datums.var.length < 256
  | .dataQuery b => b.fixed_datum_ids.length < 256 ∧ b.variable_datum_ids.length < 256
  | .setData b | .data b | .eventReport b => b.datums.fixed.length < 256 ∧ b.datums.var.length < 256
  | .comment b => b.datums.fixed.length < 256 ∧ b.datums.var.length < 256
  | .electromagneticEmission b => ∀ x ∈ b.beam_data, SameSize x
  | .iff b => ∀ x, b.layer_2 = some x → SameSize x.beam_data
  | _ => True

theorem length_flatMap_excess {α : Type} {w : α → Bits} {l u : α → Nat} (h : ∀ x, (w x).length + u x = l x) (xs : List α) :
    (xs.flatMap w).length + (xs.map u).sum = (xs.map l).sum := by
  induction xs with
  | nil => rfl
  | cons x xs ih =>
    have := h x
    simp only [List.flatMap_cons, List.length_append, List.map_cons, List.sum_cons]
    omega
theorem system_excess (v : EmitterSystem) : v.ser.length + systemUnwritten v = v.lenBits := by
  have hb := length_flatMap_excess (u := beamUnwritten) EmitterBeam.length_excess v.emitter_beams
  have hd : (if v.hasDetails then wOpt (wU 16) v.name ++ wOpt (wU 8) v.function else []).length
      + (if v.name.isSome && v.function.isSome then 0 else (if v.name.isSome then 16 else 0)
        + (if v.function.isSome then 8 else 0)) = lOpt (fun _ => 16) v.name + lOpt (fun _ => 8) v.function := by
    unfold EmitterSystem.hasDetails
    cases v.name <;> cases v.function <;> simp [lOpt, wOpt]
  simp only [EmitterSystem.ser, EmitterSystem.lenBits, systemUnwritten, len]
  omega
theorem emission_excess {v : ElectromagneticEmission} (h : ∀ x ∈ v.beam_data, SameSize x) :
    v.ser.length + (1 + (v.emitter_systems.map systemUnwritten).sum) = v.lenBits := by
  have hb : (v.beam_data.flatMap BeamData.ser).length = (v.beam_data.map BeamData.lenBits).sum :=
    length_flatMap_sum (fun x hx => C31_beam_data_partial hx) v.beam_data h
  have hf := length_flatMap_sum (l := FundamentalParameter.lenBits) (q := fun _ => True)
    (fun x _ => FundamentalParameter.length_ser x) v.fundamental_params (fun _ _ => trivial)
  have hp := length_flatMap_sum (l := SiteAppPair.lenBits) (q := fun _ => True)
    (fun x _ => SiteAppPair.length_ser x) v.site_app_pairs (fun _ _ => trivial)
  have hs := length_flatMap_excess system_excess v.emitter_systems
  simp only [ElectromagneticEmission.ser, ElectromagneticEmission.lenBits, len, hb, hf, hp, wCount8]
  omega
theorem iff_excess {v : Iff} (h : ∀ x, v.layer_2 = some x → SameSize x.beam_data) :
    v.ser.length + (lOpt (fun x => if x.records.isEmpty then 5 else 0) v.layer_4
      + lOpt (fun x => if x.records.isEmpty then 5 else 0) v.layer_5) = v.lenBits := by
  have e := Iff.length_excess v
  have l2 : lOpt IffLayer2.lenBits (v.layer_2.map IffLayer2.wire) = lOpt IffLayer2.lenBits v.layer_2 := by
    cases hv : v.layer_2 with
    | none => rfl
    | some x =>
      have := sameSize_wire (h x hv)
      show IffLayer2.lenBits (IffLayer2.wire x) = IffLayer2.lenBits x
      simp only [IffLayer2.wire, IffLayer2.lenBits] at *
      omega
  have l3 : lOpt IffLayer3.lenBits (v.layer_3.map IffLayer3.wire) = lOpt IffLayer3.lenBits v.layer_3 := by
    cases v.layer_3 <;> rfl
  have l4 : lOpt IffLayer4.lenBits (v.layer_4.map IffLayer4.wire) = lOpt IffLayer4.lenBits v.layer_4 := by
    cases v.layer_4 <;> rfl
  have l5 : lOpt IffLayer5.lenBits (v.layer_5.map IffLayer5.wire) = lOpt IffLayer5.lenBits v.layer_5 := by
    cases v.layer_5 <;> rfl
  have w : v.wire.lenBits = v.lenBits := by
    simp only [Iff.wire, Iff.lenBits, l2, l3, l4, l5]
  omega

/-- The length of every body is the number of bits written plus exactly the bits listed in `unwritten`. -/
theorem C31_body_length {b : CdisBody} (h : Sized b) : b.ser.length + unwritten b = b.lenBits := by
  cases b <;> simp only [CdisBody.ser, CdisBody.lenBits, unwritten, Nat.add_zero, emptyUnwritten, ← Nat.add_assoc]
  case unsupported => rfl
  case entityState b => exact EntityState.length_ser h
  case fire b => exact Fire.length_ser b
  case detonation b => exact Detonation.length_ser h
  case collision b => exact Collision.length_ser b
  case createEntity b => exact CreateRemove.length_ser b
  case removeEntity b => exact CreateRemove.length_ser b
  case startResume b => exact StartResume.length_ser b
  case stopFreeze b => exact StopFreeze.length_ser b
  case acknowledge b => exact Acknowledge.length_ser b
  case actionRequest b => exact Action.length_excess h.1 h.2
  case actionResponse b => exact Action.length_excess h.1 h.2
  case dataQuery b => exact DataQuery.length_excess h.1 h.2
  case setData b => exact DataBody.length_excess h.1 h.2
  case data b => exact DataBody.length_excess h.1 h.2
  case eventReport b => exact DataBody.length_excess h.1 h.2
  case comment b => exact Comment.length_excess h.1 h.2
  case electromagneticEmission b => exact (Nat.add_assoc ..).trans (emission_excess h)
  case designator b => exact Designator.length_ser b
  case transmitter b => have := Transmitter.length_excess b; omega
  case signal b => exact Signal.length_excess b
  case receiver b => exact Receiver.length_ser b
  case iff b => exact (Nat.add_assoc ..).trans (iff_excess h)

/-- The bodies for which the announced length is right: those that announce nothing they do not write. -/
theorem C31_exact_bodies {b : CdisBody} (h : Sized b) (hu : unwritten b = 0) : b.ser.length = b.lenBits := by
  have := C31_body_length h; omega
/-- The length of a Signal or Electromagnetic Emission body is never right. -/
theorem C31_never_right : (∀ b : Signal, (CdisBody.signal b).ser.length ≠ (CdisBody.signal b).lenBits)
    ∧ ∀ b : ElectromagneticEmission, (∀ x ∈ b.beam_data, SameSize x) →
      (CdisBody.electromagneticEmission b).ser.length < (CdisBody.electromagneticEmission b).lenBits := by
  refine ⟨fun b => ?_, fun b h => ?_⟩
  · have := C31_body_length (b := .signal b) trivial
    simp only [unwritten] at this; omega
  · have := C31_body_length (b := .electromagneticEmission b) h
    simp only [unwritten] at this; omega

/-! ## PDUs -/

/-- Finalizing puts the number of bits the PDU takes, plus the unwritten ones, into the header, as long as it fits the
16 bits of the field in memory, and replaces the time if one is given. -/
theorem C31_finalize {h : CdisHeader} {b : CdisBody} (hb : Sized b) (time : Option Nat)
    (hl : h.ser.length + b.ser.length + unwritten b < 65536) :
    (CdisPdu.finalize h b time).header.length = (CdisPdu.finalize h b time).ser.length + unwritten b
    ∧ (CdisPdu.finalize h b time).header.timestamp = time.getD h.timestamp
    ∧ (CdisPdu.finalize h b time).body = b := by
  refine ⟨?_, rfl, rfl⟩
  have e := C31_body_length hb
  have s : (CdisPdu.finalize h b time).ser.length = h.ser.length + b.ser.length := by
    simp only [CdisPdu.ser, List.length_append, CdisHeader.length_ser]
    rfl
  rw [s]
  have g : h.ser.length = h.lenBits := CdisHeader.length_ser h
  show (h.lenBits + b.lenBits) % 65536 = _
  rw [Nat.mod_eq_of_lt (by omega)]
  omega
/-- A body that announces too much is sent with a header length larger than the PDU: any Signal PDU of up to a thousand
octets. -/
theorem C31_signal_pdu_violated (h : CdisHeader) (b : Signal) (time : Option Nat)
    (hl : h.ser.length + b.ser.length < 65534) :
    (CdisPdu.finalize h (.signal b) time).header.length = (CdisPdu.finalize h (.signal b) time).ser.length + 2 :=
  (C31_finalize (b := .signal b) trivial time (by simp only [unwritten, CdisBody.ser]; omega)).1

/-- Bodies that meet the hypotheses: an empty Action Request (ten bits unwritten), an Electromagnetic Emission with one
system (its number and the extra bit unwritten), and a Receiver body (none). -/
example : unwritten (.actionRequest ⟨⟨1, 2, 3⟩, ⟨4, 5, 6⟩, 7, 8, ⟨[], []⟩⟩) = 10
    ∧ unwritten (.electromagneticEmission ⟨true, ⟨1, 2, 3⟩, ⟨1, 2, 4⟩, 0, [], [⟨100, 100, 100, 100, 5⟩], [],
        [⟨some 1, some 2, 7, none, []⟩]⟩) = 6
    ∧ Sized (.electromagneticEmission ⟨true, ⟨1, 2, 3⟩, ⟨1, 2, 4⟩, 0, [], [⟨100, 100, 100, 100, 5⟩], [],
        [⟨some 1, some 2, 7, none, []⟩]⟩) := by
  refine ⟨by decide +kernel, by decide +kernel, ?_⟩
  intro x hx
  simp only [List.mem_singleton] at hx
  subst hx
  exact ⟨rfl, rfl, rfl⟩

end Verif.Props
