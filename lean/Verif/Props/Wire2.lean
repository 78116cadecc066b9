import Verif.Props.Wire
import Verif.Props.Bodies
/-! # C50, continued: the lists and records behind the fixed fields

For every PDU kind with records of variable size: all octets from the first record to the end of the PDU. -/
namespace Verif.Props
open Verif Verif.Dis

/-! ## Specification -/

/-- the octets to add to `n` octets to fill whole units of `k` octets -/
def padTo (k n : Nat) : Nat := (k - n % k) % k
/-- `n` zero octets -/
def oPad (n : Nat) : List UInt8 := List.replicate n 0
/-- the records of a list, one after another -/
def oList {α : Type} (o : α → List UInt8) (l : List α) : List UInt8 := (l.map o).flatten
/-- a record that may be absent -/
def oOpt {α : Type} (o : α → List UInt8) : Option α → List UInt8
  | some a => o a
  | none => []
/-- the word of a record of bit fields: each value at the lowest bit of its field -/
def bitWord (L : Layout) (v : Packed) : Nat := ((L.zip v).map fun f => f.2 * 2 ^ f.1.1).sum
/-- variable datum (6.2.93): identifier, length in bits, value, padding to 64 bits -/
def oDatum (d : VariableDatum) : List UInt8 :=
  o32 d.datum_id ++ o32 (UInt32.ofNat (8 * d.datum_value.length)) ++ d.datum_value ++ oPad (padTo 8 d.datum_value.length)
/-- record set (6.2.73): identifier, serial number, padding, length of a record in bits, number, records, padding to 64 bits -/
def oRecordSet (r : RecordSet) : List UInt8 :=
  o32 r.record_id ++ o32 r.record_serial_number ++ oPad 4 ++ o16 (r.record_length_bytes * 8) ++ o16 (UInt16.ofNat r.records.length)
    ++ r.records.flatten ++ oPad (padTo 8 r.records.flatten.length)
/-- attribute record sets (7.2.6): records padded to 64 bits; the length includes the six octets before the fields and the padding -/
def oAttributeRecord (r : AttributeRecord) : List UInt8 :=
  o32 r.record_type ++ o16 (UInt16.ofNat (6 + r.specific_fields.length + padTo 8 (6 + r.specific_fields.length)))
    ++ r.specific_fields ++ oPad (padTo 8 (6 + r.specific_fields.length))
def oAttributeSet (s : AttributeRecordSet) : List UInt8 :=
  oId s.entity_id ++ o16 (UInt16.ofNat s.attribute_records.length) ++ oList oAttributeRecord s.attribute_records
/-- variable transmitter parameters (6.2.95): as attribute records -/
def oTransmitterParameter (r : VariableTransmitterParameter) : List UInt8 :=
  o32 r.record_type ++ o16 (UInt16.ofNat (6 + r.fields.length + padTo 8 (6 + r.fields.length))) ++ r.fields
    ++ oPad (padTo 8 (6 + r.fields.length))
/-- beam antenna pattern (6.2.8): 40 octets -/
def oPattern (p : BeamAntennaPattern) : List UInt8 :=
  oAng p.beam_direction ++ o32 p.azimuth_beamwidth ++ o32 p.elevation_beamwidth ++ o8 p.reference_system ++ oPad 3
    ++ o32 p.e_z ++ o32 p.e_x ++ o32 p.phase ++ oPad 4
/-- silent aggregates and entities (6.2.79, 6.2.80) -/
def oSilentAggregate (s : SilentAggregateSystem) : List UInt8 := o16 s.number_of_aggregates ++ oPad 2 ++ oAggType s.aggregate_type
def oSilentEntity (s : SilentEntitySystem) : List UInt8 :=
  o16 s.number_of_entities ++ o16 (UInt16.ofNat s.appearances.length) ++ oType s.entity_type ++ oList (fun a => o32 a.raw) s.appearances
/-- grouped entity descriptions (6.2.42) -/
def oGedHead (id : UInt16) (l : GEDEntityLocation) (a : EntityAppearance) (r : GEDEntityOrientation) : List UInt8 :=
  o16 id ++ (o16 l.x_offset ++ o16 l.y_offset ++ o16 l.z_offset) ++ o32 a.raw ++ (o8 r.psi ++ o8 r.theta ++ o8 r.phi)
def oGed1 (x : GEDRecord1) : List UInt8 :=
  oGedHead x.entity_id x.location x.appearance x.orientation ++ o8 x.speed ++ o8 x.turret_azimuth ++ o8 x.gun_elevation
    ++ o8 x.turret_slew_rate ++ o8 x.gun_elevation_rate
def oGed3 (x : GEDRecord3) : List UInt8 :=
  oGedHead x.entity_id x.location x.appearance x.orientation ++ o8 x.speed ++ o8 x.head_azimuth ++ o8 x.head_elevation
    ++ o8 x.head_scan_rate ++ o8 x.head_elevation_rate
def oGed5 (x : GEDRecord5) : List UInt8 :=
  oGedHead x.entity_id x.location x.appearance x.orientation ++ o8 x.fuel_status ++ o8 x.movement_horizontal_deviation
    ++ o8 x.movement_vertical_deviation ++ o16 x.movement_speed ++ o8 x.turret_azimuth ++ o8 x.gun_elevation ++ o8 x.turret_scan_rate
    ++ o8 x.gun_elevation_rate
def oGed7 (x : GEDRecord7) : List UInt8 :=
  oGedHead x.entity_id x.location x.appearance x.orientation ++ o8 x.fuel_status ++ o8 x.movement_horizontal_deviation
    ++ o8 x.movement_vertical_deviation ++ o16 x.movement_speed
def oFour (a b c d : UInt8) : List UInt8 := o8 a ++ o8 b ++ o8 c ++ o8 d
def oGed : GroupEntityDescription → List UInt8
  | .undefined => []
  | .basicGroundCombatVehicle x => oGed1 x
  | .enhancedGroundCombatVehicle x =>
    oGed1 x.basic_ground_combat_vehicle ++ oFour x.fuel_status x.ground_maintenance_status x.primary_ammunition x.secondary_ammunition
  | .basicGroundCombatSoldier x => oGed3 x
  | .enhancedGroundCombatSoldier x =>
    oGed3 x.basic_ground_combat_soldier ++ oFour x.water_status x.reset_status x.primary_ammunition x.secondary_ammunition
  | .basicRotorWingAircraft x => oGed5 x
  | .enhancedRotorWingAircraft x =>
    oGed5 x.basic_rotor_wing_aircraft ++ oFour x.supplemental_fuel_status x.air_maintenance_status x.primary_ammunition x.secondary_ammunition
  | .basicFixedWingAircraft x => oGed7 x
  | .enhancedFixedWingAircraft x =>
    oGed7 x.basic_fixed_wing_aircraft ++ oFour x.supplemental_fuel_status x.air_maintenance_status x.primary_ammunition x.secondary_ammunition
  | .groundLogisticsVehicle x => oGedHead x.entity_id x.location x.appearance x.orientation ++ o16 x.speed
/-- additional passive activity (7.6.4): parameter in the upper fourteen bits, status in the lower two -/
def oApa (a : APA) : List UInt8 := o16 ((a.parameter <<< 2) ||| a.status.toUInt16) ++ o16 a.value
/-- acoustic emitter systems (7.6.4); `len` is the octet for the length of the data -/
def oUaBeam (b : UABeam) : List UInt8 :=
  o8 b.beam_data_length ++ o8 b.beam_id_number ++ oPad 2 ++ o16 b.fundamental_parameters.active_emission_parameter_index
    ++ o16 b.fundamental_parameters.scan_pattern ++ o32 b.fundamental_parameters.beam_center_azimuth
    ++ o32 b.fundamental_parameters.azimuthal_beamwidth ++ o32 b.fundamental_parameters.beam_center_depression_elevation
    ++ o32 b.fundamental_parameters.depression_elevation_beamwidth
def oUaSystem (len : Nat → UInt8) (s : UAEmitterSystem) : List UInt8 :=
  o8 (len (20 + 24 * s.beams.length)) ++ o8 (UInt8.ofNat s.beams.length) ++ oPad 2 ++ o16 s.acoustic_emitter_system.acoustic_system_name
    ++ o8 s.acoustic_emitter_system.function ++ o8 s.acoustic_emitter_system.acoustic_id_number ++ oVec s.location ++ oList oUaBeam s.beams
/-- the length in 32-bit words, as in the standard -/
def inWords (n : Nat) : UInt8 := UInt8.ofNat (n / 4)
/-- the length in octets, as the code writes it -/
def inOctets (n : Nat) : UInt8 := UInt8.ofNat n

/-- IFF layers (7.6.5) -/
def oLayerHeader (x : LayerHeader) : List UInt8 := o8 x.layer_number ++ o8 x.layer_specific_information ++ o16 x.length
def oBeamData (x : BeamData) : List UInt8 :=
  o32 x.azimuth_center ++ o32 x.azimuth_sweep ++ o32 x.elevation_center ++ o32 x.elevation_sweep ++ o32 x.sweep_sync
def oIffParameters (x : IffFundamentalParameterData) : List UInt8 :=
  o32 x.erp ++ o32 x.frequency ++ o32 x.pgrf ++ o32 x.pulse_width ++ o32 x.burst_length ++ o8 x.applicable_modes
    ++ (o8 x.part_1 ++ o8 x.part_2 ++ o8 x.part_3)
/-- IFF data records (6.2.46): padded to 32 bits -/
def oIffRecord (r : IffDataRecord) : List UInt8 :=
  o32 r.record_type ++ o16 (UInt16.ofNat (6 + r.record_specific_fields.length + padTo 4 (6 + r.record_specific_fields.length)))
    ++ r.record_specific_fields ++ oPad (padTo 4 (6 + r.record_specific_fields.length))
def oIffRecords (l : List IffDataRecord) : List UInt8 := o16 (UInt16.ofNat l.length) ++ oList oIffRecord l
def oLayer2 (x : IffLayer2) : List UInt8 :=
  oLayerHeader x.layer_header ++ oBeamData x.beam_data ++ o8 x.operational_parameter_1 ++ o8 x.operational_parameter_2
    ++ o16 (UInt16.ofNat x.iff_fundamental_parameters.length) ++ oList oIffParameters x.iff_fundamental_parameters
/-- Mode 5 basic data: 16 octets -/
def oMode5 : Mode5BasicData → List UInt8
  | .interrogator status formats id =>
    o8 (UInt8.ofNat (bitWord Mode5InterrogatorStatus.layout status)) ++ oPad 3
      ++ o32 (UInt32.ofNat (bitWord Mode5MessageFormats.layout formats)) ++ oId id ++ oPad 2
  | .transponder status pin formats mode1 origin supplemental nav fom =>
    o16 (UInt16.ofNat (bitWord Mode5TransponderStatus.layout status)) ++ o16 pin
      ++ o32 (UInt32.ofNat (bitWord Mode5MessageFormats.layout formats)) ++ o16 (UInt16.ofNat (bitWord EnhancedMode1Code.layout mode1))
      ++ o16 origin ++ o8 (UInt8.ofNat (bitWord Mode5TransponderSupplementalData.layout supplemental)) ++ o8 nav ++ o8 fom ++ oPad 1
def oLayer3 (x : IffLayer3) : List UInt8 :=
  oLayerHeader x.layer_header ++ oAddr x.reporting_simulation ++ oMode5 x.mode_5_basic_data ++ oPad 2 ++ oIffRecords x.data_records
/-- Mode S basic data; the standard has 24 octets in both cases, `pad` is the padding at the end of the transponder's -/
def oModeS (pad : Nat) : ModeSBasicData → List UInt8
  | .interrogator status levels =>
    o8 (UInt8.ofNat (bitWord ModeSInterrogatorStatus.layout status)) ++ oPad 1
      ++ o8 (UInt8.ofNat (bitWord ModeSLevelsPresent.layout levels)) ++ oPad 21
  | .transponder status levels domain ident address identType dap altitude capability =>
    o16 (UInt16.ofNat (bitWord ModeSTransponderStatus.layout status)) ++ o8 (UInt8.ofNat (bitWord ModeSLevelsPresent.layout levels))
      ++ o8 domain ++ (ident ++ oPad (8 - ident.length)) ++ o32 address ++ o8 identType
      ++ o8 (UInt8.ofNat (bitWord DapSource.layout dap)) ++ o16 (UInt16.ofNat (bitWord ModeSAltitude.layout altitude)) ++ o8 capability ++ oPad pad
def oLayer4 (pad : Nat) (x : IffLayer4) : List UInt8 :=
  oLayerHeader x.layer_header ++ oAddr x.reporting_simulation ++ oModeS pad x.mode_s_basic_data ++ oPad 2 ++ oIffRecords x.data_records
def oLayer5 (x : IffLayer5) : List UInt8 :=
  oLayerHeader x.layer_header ++ oAddr x.reporting_simulation ++ oPad 2 ++ o8 (UInt8.ofNat (bitWord InformationLayers.layout x.applicable_layers))
    ++ o8 x.data_category ++ oPad 2 ++ oIffRecords x.data_records

/-! ## Lemmas -/

theorem tail_pdu {h : PduHeader} {b : Body} {v : List UInt8} (k : Nat) (e : (b.ser h.protocol_version).drop k = v) :
    (Pdu.ser ⟨h, b⟩).drop (12 + k) = v := by
  unfold Pdu.ser
  rw [List.drop_append, List.drop_eq_nil_of_le (by rw [PduHeader.length_ser]; omega), PduHeader.length_ser,
    Nat.add_sub_cancel_left, List.nil_append]
  exact e

theorem serList_o {α : Type} {s o : α → List UInt8} (l : List α) (h : ∀ x ∈ l, s x = o x) : serList s l = oList o l := by
  unfold serList oList
  induction l with
  | nil => rfl
  | cons a l ih =>
    rw [List.flatMap_cons, List.map_cons, List.flatten_cons, h a (by simp), ih fun x hx => h x (by simp [hx])]

theorem zeros_o (n : Nat) : zeros n = oPad n := rfl

theorem pad_eq (n k : Nat) (hk : 0 < k) : (lengthPaddedToNum n k).padding_length = padTo k n := by
  unfold lengthPaddedToNum padTo
  dsimp only
  split
  · rename_i h; rw [h, Nat.sub_zero, Nat.mod_self]
  · rename_i h
    have := Nat.mod_lt n hk
    rw [Nat.mod_eq_of_lt (a := k - n % k) (by omega)]

theorem rec_eq (n k : Nat) (hk : 0 < k) : (lengthPaddedToNum n k).record_length = n + padTo k n := by
  rw [← pad_eq n k hk]; rfl

theorem pack_word : ∀ {L : Layout} {t : Nat} {v : Packed}, L.Ordered t → L.Fits v → pack L.writer v = bitWord L v
  | [], _, [], _, _ => rfl
  | (s, n) :: L, t, x :: v, ho, hf => by
    have ih := pack_word ho.2 hf.2
    have hl := pack_lt ho.2 hf.2
    show (x <<< s) ||| pack (Layout.writer L) v = _
    rw [← Nat.shiftLeft_add_eq_or_of_lt hl, ih, Nat.shiftLeft_eq]
    rfl

theorem datum_eq (d : VariableDatum) (h : d.datum_value.length % 8 = 0) : d.ser = oDatum d := by
  have h1 : padTo 8 d.datum_value.length = 0 := by unfold padTo; omega
  have h2 : (lengthPaddedToNum (d.datum_value.length * 8) 64).padding_length = 0 := by
    rw [pad_eq _ _ (by decide)]; unfold padTo; omega
  unfold VariableDatum.ser oDatum
  dsimp only
  rw [h1, h2, Nat.mul_comm]
  rfl

theorem datum_len (d : VariableDatum) : d.ser.length = (oDatum d).length + 63 * padTo 8 d.datum_value.length := by
  have h2 : (lengthPaddedToNum (d.datum_value.length * 8) 64).padding_length = 8 * padTo 8 d.datum_value.length := by
    rw [pad_eq _ _ (by decide)]; unfold padTo; omega
  unfold VariableDatum.ser oDatum
  dsimp only
  rw [h2]
  simp only [List.length_append, oPad, zeros, List.length_replicate]
  show 4 + 4 + _ + _ = 4 + 4 + _ + _ + _
  omega

/-- datums are written as specified exactly if they all fill 64-bit words -/
theorem datums_iff (l : List VariableDatum) : serList VariableDatum.ser l = oList oDatum l ↔ ∀ d ∈ l, d.datum_value.length % 8 = 0 := by
  constructor
  · intro h
    have hl : ∀ l : List VariableDatum, (serList VariableDatum.ser l).length =
        (oList oDatum l).length + (l.map fun d => 63 * padTo 8 d.datum_value.length).sum := by
      intro l
      induction l with
      | nil => rfl
      | cons d l ih =>
        have e1 : serList VariableDatum.ser (d :: l) = d.ser ++ serList VariableDatum.ser l := rfl
        have e2 : oList oDatum (d :: l) = oDatum d ++ oList oDatum l := rfl
        rw [e1, e2, List.length_append, List.length_append, ih, datum_len, List.map_cons, List.sum_cons]
        omega
    have h0 := hl l
    rw [h] at h0
    have h0 : (l.map fun d => 63 * padTo 8 d.datum_value.length).sum = 0 := by omega
    intro d hd
    have : 63 * padTo 8 d.datum_value.length = 0 := by
      have : ∀ l : List VariableDatum, (l.map fun d => 63 * padTo 8 d.datum_value.length).sum = 0 → ∀ d ∈ l, 63 * padTo 8 d.datum_value.length = 0 := by
        intro l
        induction l with
        | nil => intro _ d hd; simp at hd
        | cons a l ih =>
          intro h d hd
          rw [List.map_cons, List.sum_cons] at h
          rcases List.mem_cons.1 hd with rfl | hd
          · omega
          · exact ih (by omega) d hd
      exact this l h0 d hd
    unfold padTo at this
    omega
  · intro h
    exact serList_o l fun d hd => datum_eq d (h d hd)

theorem tail_datums {h : PduHeader} {b : Body} {f : List FixedDatum} {l : List VariableDatum} (k : Nat)
    (e : (b.ser h.protocol_version).drop k = serList FixedDatum.ser f ++ serList VariableDatum.ser l) :
    (Pdu.ser ⟨h, b⟩).drop (12 + k) = oList oFixed f ++ oList oDatum l ↔ ∀ d ∈ l, d.datum_value.length % 8 = 0 := by
  rw [tail_pdu k e, serList_o (s := FixedDatum.ser) (o := oFixed) f (fun _ _ => rfl), ← datums_iff]
  exact ⟨fun h => List.append_cancel_left h, fun h => by rw [h]⟩

theorem tail_only_datums {h : PduHeader} {b : Body} {l : List VariableDatum} (k : Nat)
    (e : (b.ser h.protocol_version).drop k = serList VariableDatum.ser l) :
    (Pdu.ser ⟨h, b⟩).drop (12 + k) = oList oDatum l ↔ ∀ d ∈ l, d.datum_value.length % 8 = 0 := by
  rw [tail_pdu k e, ← datums_iff]

theorem recordSet_eq (r : RecordSet) : r.ser = oRecordSet r := by
  have e : r.records.flatMap id = r.records.flatten := by simp
  have hl : (r.records.map List.length).sum = r.records.flatten.length := by rw [List.length_flatten]
  have hp : (lengthPaddedToNum ((r.records.map List.length).sum % 65536) 8).padding_length = padTo 8 r.records.flatten.length := by
    rw [pad_eq _ _ (by decide), hl]; unfold padTo; omega
  unfold RecordSet.ser oRecordSet
  dsimp only
  rw [hp, e]
  rfl

theorem tail_records {h : PduHeader} {b : Body} {l : List RecordSet} (k : Nat)
    (e : (b.ser h.protocol_version).drop k = serList RecordSet.ser l) : (Pdu.ser ⟨h, b⟩).drop (12 + k) = oList oRecordSet l := by
  rw [tail_pdu k e]
  exact serList_o l fun r _ => recordSet_eq r

/-! ## Theorems -/

/-- **C50**: the datums of the simulation management PDUs are where the standard has them exactly if every variable datum fills 64-bit
words (the padding of the others is 64 times too long: writer.rs:224-242). -/
theorem C50_actionRequest_datums (h : PduHeader) (x : ActionRequest) :
    (Pdu.ser ⟨h, .actionRequest x⟩).drop 40 = oList oFixed x.fixed_datum_records ++ oList oDatum x.variable_datum_records ↔
      ∀ d ∈ x.variable_datum_records, d.datum_value.length % 8 = 0 := tail_datums 28 (by krfl)
theorem C50_actionResponse_datums (h : PduHeader) (x : ActionResponse) :
    (Pdu.ser ⟨h, .actionResponse x⟩).drop 40 = oList oFixed x.fixed_datum_records ++ oList oDatum x.variable_datum_records ↔
      ∀ d ∈ x.variable_datum_records, d.datum_value.length % 8 = 0 := tail_datums 28 (by krfl)
theorem C50_setData_datums (h : PduHeader) (x : SetData) :
    (Pdu.ser ⟨h, .setData x⟩).drop 40 = oList oFixed x.fixed_datum_records ++ oList oDatum x.variable_datum_records ↔
      ∀ d ∈ x.variable_datum_records, d.datum_value.length % 8 = 0 := tail_datums 28 (by krfl)
theorem C50_data_datums (h : PduHeader) (x : Data) :
    (Pdu.ser ⟨h, .data x⟩).drop 40 = oList oFixed x.fixed_datum_records ++ oList oDatum x.variable_datum_records ↔
      ∀ d ∈ x.variable_datum_records, d.datum_value.length % 8 = 0 := tail_datums 28 (by krfl)
theorem C50_eventReport_datums (h : PduHeader) (x : EventReport) :
    (Pdu.ser ⟨h, .eventReport x⟩).drop 40 = oList oFixed x.fixed_datum_records ++ oList oDatum x.variable_datum_records ↔
      ∀ d ∈ x.variable_datum_records, d.datum_value.length % 8 = 0 := tail_datums 28 (by krfl)
theorem C50_comment_datums (h : PduHeader) (x : Comment) :
    (Pdu.ser ⟨h, .comment x⟩).drop 32 = oList oDatum x.variable_datum_records ↔
      ∀ d ∈ x.variable_datum_records, d.datum_value.length % 8 = 0 := tail_only_datums 20 (by krfl)
theorem C50_actionRequestR_datums (h : PduHeader) (x : ActionRequestR) :
    (Pdu.ser ⟨h, .actionRequestR x⟩).drop 48 = oList oFixed x.fixed_datum_records ++ oList oDatum x.variable_datum_records ↔
      ∀ d ∈ x.variable_datum_records, d.datum_value.length % 8 = 0 := tail_datums 36 (by krfl)
theorem C50_actionResponseR_datums (h : PduHeader) (x : ActionResponseR) :
    (Pdu.ser ⟨h, .actionResponseR x⟩).drop 40 = oList oFixed x.fixed_datum_records ++ oList oDatum x.variable_datum_records ↔
      ∀ d ∈ x.variable_datum_records, d.datum_value.length % 8 = 0 := tail_datums 28 (by krfl)
theorem C50_setDataR_datums (h : PduHeader) (x : SetDataR) :
    (Pdu.ser ⟨h, .setDataR x⟩).drop 40 = oList oFixed x.fixed_datum_records ++ oList oDatum x.variable_datum_records ↔
      ∀ d ∈ x.variable_datum_records, d.datum_value.length % 8 = 0 := tail_datums 28 (by krfl)
theorem C50_dataR_datums (h : PduHeader) (x : DataR) :
    (Pdu.ser ⟨h, .dataR x⟩).drop 40 = oList oFixed x.fixed_datum_records ++ oList oDatum x.variable_datum_records ↔
      ∀ d ∈ x.variable_datum_records, d.datum_value.length % 8 = 0 := tail_datums 28 (by krfl)
theorem C50_eventReportR_datums (h : PduHeader) (x : EventReportR) :
    (Pdu.ser ⟨h, .eventReportR x⟩).drop 40 = oList oFixed x.fixed_datum_records ++ oList oDatum x.variable_datum_records ↔
      ∀ d ∈ x.variable_datum_records, d.datum_value.length % 8 = 0 := tail_datums 28 (by krfl)
theorem C50_commentR_datums (h : PduHeader) (x : CommentR) :
    (Pdu.ser ⟨h, .commentR x⟩).drop 32 = oList oDatum x.variable_datum_records ↔
      ∀ d ∈ x.variable_datum_records, d.datum_value.length % 8 = 0 := tail_only_datums 20 (by krfl)

/-- **C50**: the datum identifiers of the queries follow one another to the end of the PDU. -/
theorem C50_dataQuery_rest (h : PduHeader) (x : DataQuery) :
    (Pdu.ser ⟨h, .dataQuery x⟩).drop 40 = oList o32 x.fixed_datum_records ++ oList o32 x.variable_datum_records := by
  rw [← serList_o (s := e32) (o := o32) x.fixed_datum_records (fun _ _ => rfl),
    ← serList_o (s := e32) (o := o32) x.variable_datum_records (fun _ _ => rfl)]
  exact tail_pdu 28 (by krfl)
theorem C50_dataQueryR_rest (h : PduHeader) (x : DataQueryR) :
    (Pdu.ser ⟨h, .dataQueryR x⟩).drop 44 = oList o32 x.fixed_datum_records ++ oList o32 x.variable_datum_records := by
  rw [← serList_o (s := e32) (o := o32) x.fixed_datum_records (fun _ _ => rfl),
    ← serList_o (s := e32) (o := o32) x.variable_datum_records (fun _ _ => rfl)]
  exact tail_pdu 32 (by krfl)

/-- **C50**: the record sets follow the count to the end of the PDU. -/
theorem C50_transferOwnership_records (h : PduHeader) (x : TransferOwnership) :
    (Pdu.ser ⟨h, .transferOwnership x⟩).drop 40 = oList oRecordSet x.record_specification := tail_records 28 (by krfl)
theorem C50_setRecordR_records (h : PduHeader) (x : SetRecordR) :
    (Pdu.ser ⟨h, .setRecordR x⟩).drop 40 = oList oRecordSet x.record_specification := tail_records 28 (by krfl)
/-- (two octets late, see `C50_recordR_layout`) -/
theorem C50_recordR_records (h : PduHeader) (x : RecordR) :
    (Pdu.ser ⟨h, .recordR x⟩).drop 42 = oList oRecordSet x.record_specification := tail_records 30 (by krfl)

/-- **C50**, Attribute: the record sets. -/
theorem C50_attribute_records (h : PduHeader) (x : Attribute) :
    (Pdu.ser ⟨h, .«attribute» x⟩).drop 32 = oList oAttributeSet x.attribute_record_sets := by
  rw [← serList_o (s := AttributeRecordSet.ser) (o := oAttributeSet)]
  · exact tail_pdu 20 (by krfl)
  · intro s _
    have : ∀ r : AttributeRecord, r.ser = oAttributeRecord r := by
      intro r
      unfold AttributeRecord.ser oAttributeRecord
      dsimp only
      rw [pad_eq _ _ (by decide), rec_eq _ _ (by decide)]
      rfl
    unfold AttributeRecordSet.ser oAttributeSet
    rw [serList_o s.attribute_records fun r _ => this r]
    rfl

/-- **C50**, SEES: propulsion and nozzle systems. -/
theorem C50_sees_rest (h : PduHeader) (x : SEES) :
    (Pdu.ser ⟨h, .sees x⟩).drop 28 = oList oTwo x.propulsion_systems ++ oList oTwo x.vectoring_nozzle_systems := by
  rw [← serList_o (s := TwoF32.ser) (o := oTwo) x.propulsion_systems (fun _ _ => rfl),
    ← serList_o (s := TwoF32.ser) (o := oTwo) x.vectoring_nozzle_systems (fun _ _ => rfl)]
  exact tail_pdu 16 (by krfl)

/-- **C50**, Signal: encoding scheme, and the data padded to 32 bits end the PDU. -/
theorem C50_signal_rest (h : PduHeader) (x : Signal) :
    (Pdu.ser ⟨h, .signal x⟩).drop 32 = x.data ++ oPad (padTo 4 x.data.length) := by
  rw [← pad_eq _ _ (by decide)]
  exact tail_pdu 20 (by krfl)

/-- **C50**, Is Group Of: the descriptions. -/
theorem C50_isGroupOf_rest (h : PduHeader) (x : IsGroupOf) : (Pdu.ser ⟨h, .isGroupOf x⟩).drop 40 = oList oGed x.descriptions := by
  rw [← serList_o (s := GroupEntityDescription.ser) (o := oGed)]
  · exact tail_pdu 28 (by krfl)
  · intro d _
    cases d <;> krfl

/-- **C50**, Transmitter: modulation, crypto fields, modulation parameters, antenna pattern and variable parameters. -/
theorem C50_transmitter_rest (h : PduHeader) (x : Transmitter) (hs : SpreadSpectrum.layout.Fits x.modulation_type.spread_spectrum)
    (hd : x.modulation_type.major = 0 → x.modulation_type.detail = 0) (hc : CryptoKeyId.layout.Fits x.crypto_key_id) :
    (Pdu.ser ⟨h, .transmitter x⟩).drop 88 =
      (o16 (UInt16.ofNat (bitWord [(15, 1), (14, 1), (13, 1)] x.modulation_type.spread_spectrum)) ++ o16 x.modulation_type.major
        ++ o16 x.modulation_type.detail ++ o16 x.modulation_type.radio_system)
      ++ o16 x.crypto_system ++ o16 (UInt16.ofNat (bitWord [(1, 15), (0, 1)] x.crypto_key_id))
      ++ o8 (UInt8.ofNat ((x.modulation_parameters.map List.length).getD 0)) ++ oPad 3
      ++ oOpt id x.modulation_parameters ++ oOpt oPattern x.antenna_pattern
      ++ oList oTransmitterParameter x.variable_transmitter_parameters := by
  have hv : ∀ r : VariableTransmitterParameter, r.ser = oTransmitterParameter r := by
    intro r
    unfold VariableTransmitterParameter.ser oTransmitterParameter
    dsimp only
    rw [pad_eq _ _ (by decide), rec_eq _ _ (by decide)]
    rfl
  have h1 : pack SpreadSpectrum.wr x.modulation_type.spread_spectrum = bitWord [(15, 1), (14, 1), (13, 1)] x.modulation_type.spread_spectrum :=
    pack_word (L := SpreadSpectrum.layout) (t := 16) (by decide) hs
  have h2 : pack CryptoKeyId.wr x.crypto_key_id = bitWord [(1, 15), (0, 1)] x.crypto_key_id :=
    pack_word (L := CryptoKeyId.layout) (t := 16) (by decide) hc
  have h3 : (if x.modulation_type.major = 0 then 0 else x.modulation_type.detail) = x.modulation_type.detail := by
    split
    · rename_i h; rw [hd h]
    · rfl
  rw [← serList_o x.variable_transmitter_parameters fun r _ => hv r, ← h1, ← h2, ← h3]
  refine (tail_pdu 76 (by krfl)).trans (b := x.modulation_type.ser ++ e16 x.crypto_system ++ pack16 CryptoKeyId.wr x.crypto_key_id
    ++ (e8 (modulationLength x.modulation_parameters) ++ e8 0 ++ e16 0
    ++ optSer id x.modulation_parameters ++ optSer BeamAntennaPattern.ser x.antenna_pattern
    ++ serList VariableTransmitterParameter.ser x.variable_transmitter_parameters)) ?_
  cases x.modulation_parameters <;> cases x.antenna_pattern <;> krfl

/-- **C50**, Aggregate State: everything behind the character set of the marking (31 octets, filled with blanks). The datums at the end
are as specified exactly if they fill 64-bit words. -/
theorem C50_aggregateState_rest (h : PduHeader) (x : AggregateState) :
    (Pdu.ser ⟨h, .aggregateState x⟩).drop 33 =
      (x.aggregate_marking.marking_string ++ List.replicate (31 - x.aggregate_marking.marking_string.length) 0x20)
      ++ (oVec x.dimensions ++ oAng x.orientation ++ oLoc x.center_of_mass ++ oVec x.velocity)
      ++ (o16 (UInt16.ofNat x.aggregates.length) ++ o16 (UInt16.ofNat x.entities.length)
        ++ o16 (UInt16.ofNat x.silent_aggregate_systems.length) ++ o16 (UInt16.ofNat x.silent_entity_systems.length))
      ++ oList oId x.aggregates ++ oList oId x.entities ++ oPad (padTo 4 (6 * (x.aggregates.length + x.entities.length)))
      ++ oList oSilentAggregate x.silent_aggregate_systems ++ oList oSilentEntity x.silent_entity_systems
      ++ o32 (UInt32.ofNat x.variable_datums.length) ++ oList oDatum x.variable_datums ↔
    ∀ d ∈ x.variable_datums, d.datum_value.length % 8 = 0 := by
  have hp : aggregatePadding x.aggregates.length x.entities.length = padTo 4 (6 * (x.aggregates.length + x.entities.length)) := by
    unfold aggregatePadding aggregateIntermediate padTo; omega
  have hse : ∀ s : SilentEntitySystem, s.ser = oSilentEntity s := by
    intro s
    unfold SilentEntitySystem.ser oSilentEntity
    rw [serList_o (s := EntityAppearance.ser) (o := fun a => o32 a.raw) s.appearances (fun _ _ => rfl)]
    rfl
  rw [← serList_o (s := EntityId.ser) (o := oId) x.aggregates (fun _ _ => rfl), ← serList_o (s := EntityId.ser) (o := oId) x.entities (fun _ _ => rfl),
    ← serList_o (s := SilentAggregateSystem.ser) (o := oSilentAggregate) x.silent_aggregate_systems (fun _ _ => rfl),
    ← serList_o x.silent_entity_systems fun s _ => hse s, ← hp, ← datums_iff]
  have e : (Pdu.ser ⟨h, .aggregateState x⟩).drop 33 =
      ((x.aggregate_marking.marking_string ++ List.replicate (31 - x.aggregate_marking.marking_string.length) 0x20)
      ++ (oVec x.dimensions ++ oAng x.orientation ++ oLoc x.center_of_mass ++ oVec x.velocity)
      ++ (o16 (UInt16.ofNat x.aggregates.length) ++ o16 (UInt16.ofNat x.entities.length)
        ++ o16 (UInt16.ofNat x.silent_aggregate_systems.length) ++ o16 (UInt16.ofNat x.silent_entity_systems.length))
      ++ serList EntityId.ser x.aggregates ++ serList EntityId.ser x.entities ++ oPad (aggregatePadding x.aggregates.length x.entities.length)
      ++ serList SilentAggregateSystem.ser x.silent_aggregate_systems ++ serList SilentEntitySystem.ser x.silent_entity_systems
      ++ o32 (UInt32.ofNat x.variable_datums.length)) ++ serList VariableDatum.ser x.variable_datums := by
    refine (tail_pdu 21 (by krfl)).trans (b := x.aggregate_marking.marking_string ++ List.replicate (31 - x.aggregate_marking.marking_string.length) 0x20
      ++ x.dimensions.ser ++ ((x.orientation.ser ++ x.center_of_mass.ser ++ x.velocity.ser
    ++ e16 (UInt16.ofNat x.aggregates.length) ++ e16 (UInt16.ofNat x.entities.length)
    ++ e16 (UInt16.ofNat x.silent_aggregate_systems.length) ++ e16 (UInt16.ofNat x.silent_entity_systems.length))
    ++ ((serList EntityId.ser x.aggregates ++ serList EntityId.ser x.entities
    ++ zeros (aggregatePadding x.aggregates.length x.entities.length))
    ++ (serList SilentAggregateSystem.ser x.silent_aggregate_systems ++ serList SilentEntitySystem.ser x.silent_entity_systems
    ++ e32 (UInt32.ofNat x.variable_datums.length) ++ serList VariableDatum.ser x.variable_datums)))) ?_
    simp only [List.append_assoc, zeros_o]
    rfl
  rw [e]
  exact ⟨fun h => List.append_cancel_left h, fun h => by rw [h]⟩

theorem apa_iff (l : List APA) : serList APA.ser l = oList oApa l ↔ ∀ a ∈ l, a.parameter <<< 2 = a.status.toUInt16 := by
  have one : ∀ a : APA, a.ser = oApa a ↔ a.parameter <<< 2 = a.status.toUInt16 := by
    intro a
    have h16 : ∀ v w : UInt16, o16 v = o16 w → v = w := by
      intro v w h
      have hv := v.toNat_lt
      have hw := w.toNat_lt
      injection h with h1 h2
      injection h2 with h2
      have h1 := congrArg UInt8.toNat h1
      have h2 := congrArg UInt8.toNat h2
      simp only [UInt8.toNat_ofNat'] at h1 h2
      apply UInt16.toNat.inj
      omega
    have hb : ∀ v w : UInt16, v &&& w = v ||| w ↔ v = w := by
      intro v w
      constructor
      · intro h
        have h' : v.toNat &&& w.toNat = v.toNat ||| w.toNat := by rw [← UInt16.toNat_and, ← UInt16.toNat_or, h]
        apply UInt16.toNat.inj
        apply Nat.eq_of_testBit_eq
        intro i
        have := congrArg (·.testBit i) h'
        simp only [Nat.testBit_and, Nat.testBit_or] at this
        cases hv : v.toNat.testBit i <;> cases hw : w.toNat.testBit i <;> simp_all
      · rintro rfl; simp
    constructor
    · intro h
      have h : o16 ((a.parameter <<< 2) &&& a.status.toUInt16) ++ o16 a.value = o16 ((a.parameter <<< 2) ||| a.status.toUInt16) ++ o16 a.value := h
      exact (hb _ _).1 (h16 _ _ (List.append_cancel_right h))
    · intro h
      show o16 ((a.parameter <<< 2) &&& a.status.toUInt16) ++ o16 a.value = o16 ((a.parameter <<< 2) ||| a.status.toUInt16) ++ o16 a.value
      rw [(hb _ _).2 h]
  induction l with
  | nil => exact ⟨fun _ => by simp, fun _ => rfl⟩
  | cons a l ih =>
    have e1 : serList APA.ser (a :: l) = a.ser ++ serList APA.ser l := rfl
    have e2 : oList oApa (a :: l) = oApa a ++ oList oApa l := rfl
    rw [e1, e2]
    constructor
    · intro h
      have := List.append_inj h rfl
      intro b hb
      rcases List.mem_cons.1 hb with rfl | hb
      · exact (one b).1 this.1
      · exact ih.1 this.2 b hb
    · intro h
      rw [(one a).2 (h a (by simp)), ih.2 fun b hb => h b (by simp [hb])]

theorem uaSystem_eq (s : UAEmitterSystem) : s.ser = oUaSystem inOctets s := by
  have hb : ∀ b : UABeam, b.ser = oUaBeam b := fun b => by krfl
  have hl : s.recordLen = 20 + 24 * s.beams.length := by
    unfold UAEmitterSystem.recordLen
    congr 1
    induction s.beams with
    | nil => rfl
    | cons a l ih => rw [List.map_cons, List.sum_cons, ih, List.length_cons]; omega
  unfold UAEmitterSystem.ser oUaSystem inOctets
  rw [hl, serList_o s.beams fun b _ => hb b]
  simp only [AcousticEmitterSystem.ser, List.append_assoc]
  rfl

/-- **C50**, Underwater Acoustic: propulsion plant configuration, shafts, passive activities and emitter systems, exactly as the code
writes them: the length of a system is in octets. -/
theorem C50_underwaterAcoustic_rest (h : PduHeader) (x : UnderwaterAcoustic) :
    (Pdu.ser ⟨h, .underwaterAcoustic x⟩).drop 32 = oList oShaft x.shafts ++ oList oApa x.apas ++ oList (oUaSystem inOctets) x.emitter_systems ↔
      ∀ a ∈ x.apas, a.parameter <<< 2 = a.status.toUInt16 := by
  rw [← apa_iff, ← serList_o (s := Shaft.ser) (o := oShaft) x.shafts (fun _ _ => rfl), ← serList_o x.emitter_systems fun s _ => uaSystem_eq s]
  rw [show (Pdu.ser ⟨h, .underwaterAcoustic x⟩).drop 32 =
    serList Shaft.ser x.shafts ++ serList APA.ser x.apas ++ serList UAEmitterSystem.ser x.emitter_systems from tail_pdu 20 (by krfl)]
  exact ⟨fun h => List.append_cancel_left (List.append_cancel_right h), fun h => by rw [h]⟩

/-- **C50 violated.** IEEE 1278.1 has the length of an acoustic emitter system in 32-bit words (like that of an emitter system of the
Electromagnetic Emission PDU, which the code writes in words): the octet is wrong for every system. -/
theorem C50_acoustic_length_violated (s : UAEmitterSystem) : s.ser.head? ≠ some (inWords (20 + 24 * s.beams.length)) := by
  rw [uaSystem_eq]
  intro h
  have h : some (inOctets (20 + 24 * s.beams.length)) = some (inWords (20 + 24 * s.beams.length)) := h
  have h := congrArg UInt8.toNat (Option.some.inj h)
  unfold inOctets inWords at h
  simp only [UInt8.toNat_ofNat'] at h
  omega

/-- **C50**, Underwater Acoustic: the octet of the propulsion plant configuration. -/
theorem C50_propulsion_octet (h : PduHeader) (x : UnderwaterAcoustic) (hc : x.propulsion_plant_configuration.configuration < 128) :
    At (Pdu.ser ⟨h, .underwaterAcoustic x⟩) 28 (o8 (UInt8.ofNat (2 * x.propulsion_plant_configuration.configuration.toNat
      + x.propulsion_plant_configuration.hull_mounted_masker.toNat))) := by
  have e : UInt8.ofNat (2 * x.propulsion_plant_configuration.configuration.toNat + x.propulsion_plant_configuration.hull_mounted_masker.toNat) =
      ((x.propulsion_plant_configuration.configuration <<< 1) ||| (if x.propulsion_plant_configuration.hull_mounted_masker then 1 else 0)) := by
    generalize x.propulsion_plant_configuration = pc at hc ⊢
    obtain ⟨c, m⟩ := pc
    have hb : c.toNat < 128 := hc
    apply UInt8.toNat.inj
    cases m
    · simp [UInt8.toNat_shiftLeft, Nat.shiftLeft_eq, Nat.mul_comm]
    · have := Nat.shiftLeft_add_eq_or_of_lt (b := 1) (i := 1) (by decide) c.toNat
      simp [UInt8.toNat_shiftLeft, UInt8.toNat_or]
      rw [Nat.mod_eq_of_lt (a := c.toNat <<< 1) (by rw [Nat.shiftLeft_eq]; omega), ← this, Nat.shiftLeft_eq]
      omega
  rw [e]
  exact at_pdu 16 (by krfl)

/-- the encoding scheme word of a signal (7.7.3): class in the upper two bits, encoding type or number of messages below -/
def schemeWord : EncodingScheme → Nat
  | .encodedAudio c t => c.toNat * 2 ^ 14 + t.toNat
  | .rawBinaryData c n => c.toNat * 2 ^ 14 + n.toNat
  | .applicationSpecificData c _ => c.toNat * 2 ^ 14
  | .databaseIndex c _ _ _ => c.toNat * 2 ^ 14
  | .unspecified c => c.toNat * 2 ^ 14
/-- the class fits two bits, the value below fourteen -/
def SchemeFits : EncodingScheme → Prop
  | .encodedAudio c t => c < 4 ∧ t < 16384
  | .rawBinaryData c n => c < 4 ∧ n < 16384
  | .applicationSpecificData c _ => c < 4
  | .databaseIndex c _ _ _ => c < 4
  | .unspecified c => c < 4
theorem scheme_word {s : EncodingScheme} (h : SchemeFits s) : s.word = UInt16.ofNat (schemeWord s) := by
  have two : ∀ c t : UInt16, c < 4 → t < 16384 → (c <<< 14) ||| t = UInt16.ofNat (c.toNat * 2 ^ 14 + t.toNat) := by
    intro c t hc ht
    have hc : c.toNat < 4 := hc
    have ht : t.toNat < 2 ^ 14 := ht
    apply UInt16.toNat.inj
    rw [UInt16.toNat_or, UInt16.toNat_shiftLeft, UInt16.toNat_ofNat']
    show (c.toNat <<< 14) % 2 ^ 16 ||| t.toNat = _
    rw [Nat.mod_eq_of_lt (a := c.toNat <<< 14) (by rw [Nat.shiftLeft_eq]; omega), ← Nat.shiftLeft_add_eq_or_of_lt ht, Nat.shiftLeft_eq,
      Nat.mod_eq_of_lt (by omega)]
  have one : ∀ c : UInt16, c < 4 → c <<< 14 = UInt16.ofNat (c.toNat * 2 ^ 14) := by
    intro c hc
    have := two c 0 hc (by decide)
    rw [UInt16.or_zero] at this
    rw [this]; simp
  cases s with
  | encodedAudio c t => exact two c t h.1 h.2
  | rawBinaryData c t => exact two c t h.1 h.2
  | applicationSpecificData c _ => exact one c h
  | databaseIndex c _ _ _ => exact one c h
  | unspecified c => exact one c h
/-- **C50**, Signal: the encoding scheme is at octet 20. -/
theorem C50_signal_scheme (h : PduHeader) (x : Signal) (hs : SchemeFits x.encoding_scheme) :
    At (Pdu.ser ⟨h, .signal x⟩) 20 (o16 (UInt16.ofNat (schemeWord x.encoding_scheme))) := by
  rw [← scheme_word hs]
  exact at_pdu 8 (by krfl)

/-! ### IFF -/

/-- the bit fields of an IFF PDU fit, identifications are ASCII of at most eight octets (otherwise the code writes zeros) -/
def Mode5BitsFit : Mode5BasicData → Prop
  | .interrogator a b _ => Mode5InterrogatorStatus.layout.Fits a ∧ Mode5MessageFormats.layout.Fits b
  | .transponder a _ b d _ f _ _ => Mode5TransponderStatus.layout.Fits a
      ∧ Mode5MessageFormats.layout.Fits b ∧ EnhancedMode1Code.layout.Fits d ∧ Mode5TransponderSupplementalData.layout.Fits f
def ModeSBitsFit : ModeSBasicData → Prop
  | .interrogator a b => ModeSInterrogatorStatus.layout.Fits a ∧ ModeSLevelsPresent.layout.Fits b
  | .transponder a b _ d _ _ g h _ => ModeSTransponderStatus.layout.Fits a ∧ ModeSLevelsPresent.layout.Fits b
      ∧ DapSource.layout.Fits g ∧ ModeSAltitude.layout.Fits h ∧ d.length ≤ 8 ∧ ∀ b ∈ d, b.toNat < 128
structure LayersFit (x : Iff) : Prop where
  options : ChangeOptions.layout.Fits x.system_id.change_options
  status : SystemStatus.layout.Fits x.fundamental_operational_data.system_status
  layers : InformationLayers.layout.Fits x.fundamental_operational_data.information_layers
  layer3 : ∀ l, x.layer_3 = some l → Mode5BitsFit l.mode_5_basic_data
  layer4 : ∀ l, x.layer_4 = some l → ModeSBitsFit l.mode_s_basic_data
  layer5 : ∀ l, x.layer_5 = some l → InformationLayers.layout.Fits l.applicable_layers

theorem iffRecords_eq (l : List IffDataRecord) : IffDataSpecification.ser l = oIffRecords l := by
  have hr : ∀ r : IffDataRecord, r.ser = oIffRecord r := by
    intro r
    unfold IffDataRecord.ser oIffRecord
    dsimp only
    rw [pad_eq _ _ (by decide), rec_eq _ _ (by decide)]
    rfl
  unfold IffDataSpecification.ser oIffRecords
  rw [serList_o l fun r _ => hr r]
  rfl
theorem layer2_eq (x : IffLayer2) : x.ser = oLayer2 x := by
  unfold IffLayer2.ser oLayer2
  rw [serList_o (s := IffFundamentalParameterData.ser) (o := oIffParameters) x.iff_fundamental_parameters (fun _ _ => by krfl)]
  rfl
theorem mode5_eq {x : Mode5BasicData} (h : Mode5BitsFit x) : x.ser = oMode5 x := by
  cases x with
  | interrogator a b c =>
    obtain ⟨h1, h2⟩ := h
    have e1 : pack Mode5InterrogatorStatus.wr a = _ := pack_word (L := Mode5InterrogatorStatus.layout) (t := 8) (by decide) h1
    have e2 : pack Mode5MessageFormats.wr b = _ := pack_word (L := Mode5MessageFormats.layout) (t := 32) (by decide) h2
    unfold Mode5BasicData.ser oMode5
    dsimp only
    unfold pack8 pack32
    rw [e1, e2]
    rfl
  | transponder a p b d n f g m =>
    obtain ⟨h1, h2, h3, h4⟩ := h
    have e1 : pack Mode5TransponderStatus.wr a = _ := pack_word (L := Mode5TransponderStatus.layout) (t := 16) (by decide) h1
    have e2 : pack Mode5MessageFormats.wr b = _ := pack_word (L := Mode5MessageFormats.layout) (t := 32) (by decide) h2
    have e3 : pack EnhancedMode1Code.wr d = _ := pack_word (L := EnhancedMode1Code.layout) (t := 16) (by decide) h3
    have e4 : pack Mode5TransponderSupplementalData.wr f = _ := pack_word (L := Mode5TransponderSupplementalData.layout) (t := 8) (by decide) h4
    unfold Mode5BasicData.ser oMode5
    dsimp only
    unfold pack8 pack16 pack32
    rw [e1, e2, e3, e4]
    rfl
theorem modeS_eq {x : ModeSBasicData} (h : ModeSBitsFit x) : x.ser = oModeS 0 x := by
  cases x with
  | interrogator a b =>
    obtain ⟨h1, h2⟩ := h
    have e1 : pack ModeSInterrogatorStatus.wr a = _ := pack_word (L := ModeSInterrogatorStatus.layout) (t := 8) (by decide) h1
    have e2 : pack ModeSLevelsPresent.wr b = _ := pack_word (L := ModeSLevelsPresent.layout) (t := 8) (by decide) h2
    unfold ModeSBasicData.ser oModeS
    dsimp only
    unfold pack8
    rw [e1, e2]
    rfl
  | transponder a b c d e f g m i =>
    obtain ⟨h1, h2, h3, h4, h5, h6⟩ := h
    have e1 : pack ModeSTransponderStatus.wr a = _ := pack_word (L := ModeSTransponderStatus.layout) (t := 16) (by decide) h1
    have e2 : pack ModeSLevelsPresent.wr b = _ := pack_word (L := ModeSLevelsPresent.layout) (t := 8) (by decide) h2
    have e3 : pack DapSource.wr g = _ := pack_word (L := DapSource.layout) (t := 8) (by decide) h3
    have e4 : pack ModeSAltitude.wr m = _ := pack_word (L := ModeSAltitude.layout) (t := 16) (by decide) h4
    have e5 : aircraftIdentificationSer d = d ++ oPad (8 - d.length) := by
      unfold aircraftIdentificationSer
      rw [if_neg (by omega), if_neg (by simpa using h6)]
      rfl
    unfold ModeSBasicData.ser oModeS
    dsimp only
    unfold pack8 pack16
    rw [e1, e2, e3, e4, e5]
    simp only [oPad, List.replicate_zero, List.append_nil]
    rfl
theorem layer3_eq {x : IffLayer3} (h : Mode5BitsFit x.mode_5_basic_data) : x.ser = oLayer3 x := by
  unfold IffLayer3.ser oLayer3
  rw [mode5_eq h, iffRecords_eq]
  rfl
theorem layer4_eq {x : IffLayer4} (h : ModeSBitsFit x.mode_s_basic_data) : x.ser = oLayer4 0 x := by
  unfold IffLayer4.ser oLayer4
  rw [modeS_eq h, iffRecords_eq]
  rfl
theorem layer5_eq {x : IffLayer5} (h : InformationLayers.layout.Fits x.applicable_layers) : x.ser = oLayer5 x := by
  have e1 : pack InformationLayers.wr x.applicable_layers = _ := pack_word (L := InformationLayers.layout) (t := 8) (by decide) h
  unfold IffLayer5.ser oLayer5
  unfold pack8
  rw [e1, iffRecords_eq]
  rfl
theorem opt_eq {α : Type} {s o : α → List UInt8} {v : Option α} (h : ∀ x, v = some x → s x = o x) : optSer s v = oOpt o v := by
  cases v with
  | none => rfl
  | some a => exact h a rfl

/-- **C50**, IFF: the octets of bit fields, and the layers. -/
theorem C50_iff_rest (h : PduHeader) (x : Iff) (hx : LayersFit x) :
    Laid (Pdu.ser ⟨h, .iff x⟩)
      [(41, o8 (UInt8.ofNat (bitWord [(7, 1), (6, 1), (5, 1), (4, 1), (3, 1), (2, 1), (1, 1), (0, 1)] x.system_id.change_options))),
       (44, o8 (UInt8.ofNat (bitWord [(7, 1), (6, 1), (5, 1), (4, 1), (3, 1), (2, 1), (1, 1), (0, 1)] x.fundamental_operational_data.system_status))),
       (46, o8 (UInt8.ofNat (bitWord [(6, 1), (5, 1), (4, 1), (3, 1), (2, 1), (1, 1), (0, 1)] x.fundamental_operational_data.information_layers)))] ∧
    (Pdu.ser ⟨h, .iff x⟩).drop 60 =
      oOpt oLayer2 x.layer_2 ++ oOpt oLayer3 x.layer_3 ++ oOpt (oLayer4 0) x.layer_4 ++ oOpt oLayer5 x.layer_5 := by
  have e1 : pack ChangeOptions.wr x.system_id.change_options = _ := pack_word (L := ChangeOptions.layout) (t := 8) (by decide) hx.options
  have e2 : pack SystemStatus.wr x.fundamental_operational_data.system_status = _ :=
    pack_word (L := SystemStatus.layout) (t := 8) (by decide) hx.status
  have e3 : pack InformationLayers.wr x.fundamental_operational_data.information_layers = _ :=
    pack_word (L := InformationLayers.layout) (t := 8) (by decide) hx.layers
  refine ⟨⟨?_, ?_, ?_, trivial⟩, ?_⟩
  · have : At (Pdu.ser ⟨h, .iff x⟩) 41 (o8 (UInt8.ofNat (pack ChangeOptions.wr x.system_id.change_options))) := at_pdu 29 (by krfl)
    rwa [e1] at this
  · have : At (Pdu.ser ⟨h, .iff x⟩) 44 (o8 (UInt8.ofNat (pack SystemStatus.wr x.fundamental_operational_data.system_status))) := at_pdu 32 (by krfl)
    rwa [e2] at this
  · have : At (Pdu.ser ⟨h, .iff x⟩) 46 (o8 (UInt8.ofNat (pack InformationLayers.wr x.fundamental_operational_data.information_layers))) := at_pdu 34 (by krfl)
    rwa [e3] at this
  · rw [← opt_eq (s := IffLayer2.ser) (o := oLayer2) (v := x.layer_2) fun l _ => layer2_eq l,
      ← opt_eq (s := IffLayer3.ser) (o := oLayer3) (v := x.layer_3) fun l hl => layer3_eq (hx.layer3 l hl),
      ← opt_eq (s := IffLayer4.ser) (o := oLayer4 0) (v := x.layer_4) fun l hl => layer4_eq (hx.layer4 l hl),
      ← opt_eq (s := IffLayer5.ser) (o := oLayer5) (v := x.layer_5) fun l hl => layer5_eq (hx.layer5 l hl)]
    exact tail_pdu 48 (by krfl)

/-- the basic data of Mode S have 24 octets in the standard -/
theorem modeS_size {m : ModeSBasicData} (h : ModeSBitsFit m) : (oModeS 3 m).length = 24 := by
  cases m with
  | interrogator => rfl
  | transponder a b c d e f g m i =>
    obtain ⟨-, -, -, -, h5, -⟩ := h
    simp only [oModeS, oPad, List.length_append, List.length_replicate]
    show 2 + 1 + 1 + (d.length + (8 - d.length)) + 4 + 1 + 1 + 2 + 1 + 3 = 24
    omega
/-- **C50 violated.** The basic data of a Mode S transponder are 24 octets in IEEE 1278.1 (`modeS_size`), like those of an interrogator; the
code leaves the three octets of padding at the end out, so the data records behind them are three octets early - in every such PDU. -/
theorem C50_mode_s_violated (h : PduHeader) (x : Iff) (hx : LayersFit x) {l : IffLayer4} (hl : x.layer_4 = some l)
    {a b : Packed} {c : UInt8} {d : Bytes} {e : UInt32} {f : UInt8} {g k : Packed} {i : UInt8}
    (ht : l.mode_s_basic_data = .transponder a b c d e f g k i) :
    (Pdu.ser ⟨h, .iff x⟩).drop 60 ≠
      oOpt oLayer2 x.layer_2 ++ oOpt oLayer3 x.layer_3 ++ oOpt (oLayer4 3) x.layer_4 ++ oOpt oLayer5 x.layer_5 := by
  intro e
  rw [(C50_iff_rest h x hx).2, hl] at e
  have e := congrArg List.length e
  simp only [List.length_append, oOpt, oLayer4, ht, oModeS, oPad, List.length_replicate] at e
  omega

/-- an IFF PDU with all layers -/
example (h : PduHeader) := C50_iff_rest h sample_iff ⟨by decide, by decide, by decide,
  by intro l hl; cases hl; unfold Mode5BitsFit; decide, by intro l hl; cases hl; unfold ModeSBitsFit; decide, by intro l hl; cases hl; decide⟩
/-- a transmitter with modulation parameters, an antenna pattern and variable parameters -/
example (h : PduHeader) := C50_transmitter_rest h sample_transmitter (by decide) (by decide) (by decide)
/-- a comment with a datum of three octets -/
example (h : PduHeader) : (Pdu.ser ⟨h, .comment ⟨⟨⟨1, 2⟩, 3⟩, ⟨⟨1, 2⟩, 4⟩, [⟨7, [1, 2, 3]⟩]⟩⟩).drop 32 ≠ oList oDatum [⟨7, [1, 2, 3]⟩] :=
  fun e => absurd ((C50_comment_datums h _).1 e ⟨7, [1, 2, 3]⟩ (by decide)) (by decide)

end Verif.Props
