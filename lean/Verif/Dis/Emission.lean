import Verif.Dis.EntityInfoLemmas

/-! # Distributed emission regeneration PDUs: Electromagnetic Emission, SEES, Underwater Acoustic -/

namespace Verif.Dis
open Verif.P

/-! ## Electromagnetic Emission -/

/-- electromagnetic_emission/model.rs:303-307 -/
structure TrackJam where
  entity_id : EntityId
  emitter : UInt8
  beam : UInt8
  deriving Repr, DecidableEq

/-- electromagnetic_emission/parser.rs:111-122 -/
def TrackJam.parse : BP TrackJam := do
  let a ← EntityId.parse
  let b ← be_u8
  let c ← be_u8
  pure ⟨a, b, c⟩
/-- electromagnetic_emission/writer.rs:84-92 -/
def TrackJam.ser (x : TrackJam) : Bytes := x.entity_id.ser ++ e8 x.emitter ++ e8 x.beam
/-- electromagnetic_emission/writer.rs:84-92 -/
def TrackJam.cnt (_ : TrackJam) : Nat := 6 + 2

/-- electromagnetic_emission/model.rs:263-268 -/
structure JammingTechnique where
  kind : UInt8
  category : UInt8
  subcategory : UInt8
  specific : UInt8
  deriving Repr, DecidableEq

/-- electromagnetic_emission/parser.rs:96-109 -/
def JammingTechnique.parse : BP JammingTechnique := do
  let a ← be_u8
  let b ← be_u8
  let c ← be_u8
  let d ← be_u8
  pure ⟨a, b, c, d⟩
/-- electromagnetic_emission/writer.rs:73-82 -/
def JammingTechnique.ser (x : JammingTechnique) : Bytes :=
  e8 x.kind ++ e8 x.category ++ e8 x.subcategory ++ e8 x.specific

/-- electromagnetic_emission/model.rs:216-222 -/
structure FundamentalParameterData where
  frequency : UInt32
  frequency_range : UInt32
  effective_power : UInt32
  pulse_repetition_frequency : UInt32
  pulse_width : UInt32
  deriving Repr, DecidableEq

/-- electromagnetic_emission/parser.rs:79-94 -/
def FundamentalParameterData.parse : BP FundamentalParameterData := do
  let a ← be_u32
  let b ← be_u32
  let c ← be_u32
  let d ← be_u32
  let e ← be_u32
  pure ⟨a, b, c, d, e⟩
/-- electromagnetic_emission/writer.rs:61-71 -/
def FundamentalParameterData.ser (x : FundamentalParameterData) : Bytes :=
  e32 x.frequency ++ e32 x.frequency_range ++ e32 x.effective_power ++ e32 x.pulse_repetition_frequency
    ++ e32 x.pulse_width

/-- electromagnetic_emission/model.rs:132-142 -/
structure Beam where
  number : UInt8
  parameter_index : UInt16
  parameter_data : FundamentalParameterData
  beam_data : BeamData
  beam_function : UInt8
  high_density_track_jam : UInt8
  beam_status : UInt8
  jamming_technique : JammingTechnique
  track_jam_data : List TrackJam
  deriving Repr, DecidableEq

/-- electromagnetic_emission/model.rs:209-211 -/
def Beam.dataLen (x : Beam) : Nat := 52 + 8 * x.track_jam_data.length

/-- electromagnetic_emission/parser.rs:52-77 -/
def Beam.parse : BP Beam := do
  let _len ← be_u8
  let number ← be_u8
  let idx ← be_u16
  let fpd ← FundamentalParameterData.parse
  let bd ← BeamData.parse
  let fn ← be_u8
  let n ← be_u8
  let hd ← be_u8
  let st ← be_u8
  let jt ← JammingTechnique.parse
  let tj ← P.count TrackJam.parse n.toNat
  pure ⟨number, idx, fpd, bd, fn, hd, st, jt, tj⟩
/-- electromagnetic_emission/writer.rs:39-59; the length field counts 4-octet words, `as u8` -/
def Beam.ser (x : Beam) : Bytes :=
  e8 (UInt8.ofNat (x.dataLen / 4)) ++ e8 x.number ++ e16 x.parameter_index ++ x.parameter_data.ser ++ x.beam_data.ser
    ++ e8 x.beam_function ++ e8 (UInt8.ofNat x.track_jam_data.length) ++ e8 x.high_density_track_jam
    ++ e8 x.beam_status ++ x.jamming_technique.ser ++ serList TrackJam.ser x.track_jam_data
/-- electromagnetic_emission/writer.rs:57 -/
def Beam.cnt (x : Beam) : Nat := 8 + 20 + 20 + 4 + cntList TrackJam.cnt x.track_jam_data

/-- electromagnetic_emission/model.rs:68-74 -/
structure EmitterSystem where
  name : UInt16
  function : UInt8
  number : UInt8
  location : VectorF32
  beams : List Beam
  deriving Repr, DecidableEq

/-- electromagnetic_emission/model.rs:123-128 -/
def EmitterSystem.dataLen (x : EmitterSystem) : Nat := 20 + (x.beams.map Beam.dataLen).sum

/-- electromagnetic_emission/parser.rs:31-50 -/
def EmitterSystem.parse : BP EmitterSystem := do
  let _len ← be_u8
  let n ← be_u8
  let _pad ← be_u16
  let name ← be_u16
  let fn ← be_u8
  let num ← be_u8
  let loc ← VectorF32.parse
  let beams ← P.count Beam.parse n.toNat
  pure ⟨name, fn, num, loc, beams⟩
/-- electromagnetic_emission/writer.rs:20-37 -/
def EmitterSystem.ser (x : EmitterSystem) : Bytes :=
  e8 (UInt8.ofNat (x.dataLen / 4)) ++ e8 (UInt8.ofNat x.beams.length) ++ e16 0 ++ e16 x.name ++ e8 x.function
    ++ e8 x.number ++ x.location.ser ++ serList Beam.ser x.beams
/-- electromagnetic_emission/writer.rs:35 -/
def EmitterSystem.cnt (x : EmitterSystem) : Nat := 8 + 12 + cntList Beam.cnt x.beams

/-- electromagnetic_emission/model.rs:15-20 -/
structure ElectromagneticEmission where
  emitting_entity_id : EntityId
  event_id : EventId
  state_update_indicator : UInt8
  emitter_systems : List EmitterSystem
  deriving Repr, DecidableEq

/-- electromagnetic_emission/parser.rs:10-29 -/
def ElectromagneticEmission.parse : BP ElectromagneticEmission := do
  let a ← EntityId.parse
  let b ← EventId.parse
  let c ← be_u8
  let n ← be_u8
  let _pad ← be_u16
  let l ← P.count EmitterSystem.parse n.toNat
  pure ⟨a, b, c, l⟩
/-- electromagnetic_emission/writer.rs:5-18 -/
def ElectromagneticEmission.ser (x : ElectromagneticEmission) : Bytes :=
  x.emitting_entity_id.ser ++ x.event_id.ser ++ e8 x.state_update_indicator
    ++ e8 (UInt8.ofNat x.emitter_systems.length) ++ e16 0 ++ serList EmitterSystem.ser x.emitter_systems
/-- electromagnetic_emission/writer.rs:16 -/
def ElectromagneticEmission.cnt (x : ElectromagneticEmission) : Nat :=
  6 + 6 + 4 + cntList EmitterSystem.cnt x.emitter_systems
/-- electromagnetic_emission/model.rs:6-9, 37-42 -/
def ElectromagneticEmission.bodyLen (x : ElectromagneticEmission) : Nat :=
  16 + (x.emitter_systems.map EmitterSystem.dataLen).sum

/-- Specification: systems, beams and targets fit their 8-bit counts. -/
def Beam.Wf (x : Beam) : Prop := x.track_jam_data.length ≤ 255
def EmitterSystem.Wf (x : EmitterSystem) : Prop := x.beams.length ≤ 255 ∧ ∀ b ∈ x.beams, b.Wf
def ElectromagneticEmission.Wf (x : ElectromagneticEmission) : Prop :=
  x.emitter_systems.length ≤ 255 ∧ ∀ s ∈ x.emitter_systems, s.Wf

/-! ## Supplemental Emission / Entity State -/

/-- sees/model.rs:60-63 (propulsion: power setting, engine rpm) and 79-82 (vectoring nozzle: horizontal,
vertical deflection): two floats each -/
structure TwoF32 where
  first : UInt32
  second : UInt32
  deriving Repr, DecidableEq

/-- sees/parser.rs:31-38 and 40-47 -/
def TwoF32.parse : BP TwoF32 := do
  let a ← be_u32
  let b ← be_u32
  pure ⟨a, b⟩
/-- sees/writer.rs:25-32 and 34-41 -/
def TwoF32.ser (x : TwoF32) : Bytes := e32 x.first ++ e32 x.second
/-- sees/writer.rs:30, 39 -/
def TwoF32.cnt (_ : TwoF32) : Nat := 8

/-- sees/model.rs:13-20 -/
structure SEES where
  originating_entity_id : EntityId
  infrared_signature_representation_index : UInt16
  acoustic_signature_representation_index : UInt16
  radar_cross_section_representation_index : UInt16
  propulsion_systems : List TwoF32
  vectoring_nozzle_systems : List TwoF32
  deriving Repr, DecidableEq

/-- sees/parser.rs:8-29 -/
def SEES.parse : BP SEES := do
  let a ← EntityId.parse
  let ir ← be_u16
  let ac ← be_u16
  let rcs ← be_u16
  let np ← be_u16
  let nv ← be_u16
  let p ← P.count TwoF32.parse np.toNat
  let v ← P.count TwoF32.parse nv.toNat
  pure ⟨a, ir, ac, rcs, p, v⟩
/-- sees/writer.rs:5-23 -/
def SEES.ser (x : SEES) : Bytes :=
  x.originating_entity_id.ser ++ e16 x.infrared_signature_representation_index
    ++ e16 x.acoustic_signature_representation_index ++ e16 x.radar_cross_section_representation_index
    ++ e16 (UInt16.ofNat x.propulsion_systems.length) ++ e16 (UInt16.ofNat x.vectoring_nozzle_systems.length)
    ++ serList TwoF32.ser x.propulsion_systems ++ serList TwoF32.ser x.vectoring_nozzle_systems
/-- sees/writer.rs:21 -/
def SEES.cnt (x : SEES) : Nat :=
  6 + 10 + cntList TwoF32.cnt x.propulsion_systems + cntList TwoF32.cnt x.vectoring_nozzle_systems
/-- sees/model.rs:6-7, 37-41 -/
def SEES.bodyLen (x : SEES) : Nat := 16 + 8 * x.propulsion_systems.length + 8 * x.vectoring_nozzle_systems.length

/-- Specification: the lists fit their 16-bit counts. -/
def SEES.Wf (x : SEES) : Prop := x.propulsion_systems.length < 65536 ∧ x.vectoring_nozzle_systems.length < 65536

/-! ## Underwater Acoustic -/

/-- underwater_acoustic/model.rs:63-66 (`configuration` raw 7-bit enumeration) -/
structure PropulsionPlantConfiguration where
  configuration : UInt8
  hull_mounted_masker : Bool
  deriving Repr, DecidableEq

/-- underwater_acoustic/parser.rs:41-50 -/
def PropulsionPlantConfiguration.parse : BP PropulsionPlantConfiguration := do
  let field ← be_u8
  pure ⟨field >>> 1, field &&& 1 != 0⟩
/-- underwater_acoustic/writer.rs:35-44 -/
def PropulsionPlantConfiguration.ser (x : PropulsionPlantConfiguration) : Bytes :=
  e8 ((x.configuration <<< 1) ||| (if x.hull_mounted_masker then 1 else 0))

/-- underwater_acoustic/model.rs:88-92 (signed fields by bit pattern) -/
structure Shaft where
  current_rpm : UInt16
  ordered_rpm : UInt16
  rpm_rate_of_change : UInt32
  deriving Repr, DecidableEq

/-- underwater_acoustic/parser.rs:52-61 -/
def Shaft.parse : BP Shaft := do
  let a ← be_u16
  let b ← be_u16
  let c ← be_u32
  pure ⟨a, b, c⟩
/-- underwater_acoustic/writer.rs:46-54 -/
def Shaft.ser (x : Shaft) : Bytes := e16 x.current_rpm ++ e16 x.ordered_rpm ++ e32 x.rpm_rate_of_change

/-- underwater_acoustic/model.rs:119-123 -/
structure APA where
  parameter : UInt16
  status : UInt8
  value : UInt16
  deriving Repr, DecidableEq

/-- underwater_acoustic/parser.rs:63-76 -/
def APA.parse : BP APA := do
  let idx ← be_u16
  let v ← be_u16
  pure ⟨idx >>> 2, (idx &&& 3).toUInt8, v⟩
/-- underwater_acoustic/writer.rs:56-66: the code combines the two parts with `&` -/
def APA.ser (x : APA) : Bytes := e16 ((x.parameter <<< 2) &&& x.status.toUInt16) ++ e16 x.value

/-- underwater_acoustic/model.rs:242-249 -/
structure UAFundamentalParameterData where
  active_emission_parameter_index : UInt16
  scan_pattern : UInt16
  beam_center_azimuth : UInt32
  azimuthal_beamwidth : UInt32
  beam_center_depression_elevation : UInt32
  depression_elevation_beamwidth : UInt32
  deriving Repr, DecidableEq

/-- underwater_acoustic/parser.rs:117-134 -/
def UAFundamentalParameterData.parse : BP UAFundamentalParameterData := do
  let a ← be_u16
  let b ← be_u16
  let c ← be_u32
  let d ← be_u32
  let e ← be_u32
  let f ← be_u32
  pure ⟨a, b, c, d, e, f⟩
/-- underwater_acoustic/writer.rs:103-114 -/
def UAFundamentalParameterData.ser (x : UAFundamentalParameterData) : Bytes :=
  e16 x.active_emission_parameter_index ++ e16 x.scan_pattern ++ e32 x.beam_center_azimuth
    ++ e32 x.azimuthal_beamwidth ++ e32 x.beam_center_depression_elevation ++ e32 x.depression_elevation_beamwidth

/-- underwater_acoustic/model.rs:213-217 -/
structure UABeam where
  beam_data_length : UInt8
  beam_id_number : UInt8
  fundamental_parameters : UAFundamentalParameterData
  deriving Repr, DecidableEq

/-- underwater_acoustic/parser.rs:105-115 -/
def UABeam.parse : BP UABeam := do
  let a ← be_u8
  let b ← be_u8
  let _pad ← be_u16
  let c ← UAFundamentalParameterData.parse
  pure ⟨a, b, c⟩
/-- underwater_acoustic/writer.rs:92-101 -/
def UABeam.ser (x : UABeam) : Bytes :=
  e8 x.beam_data_length ++ e8 x.beam_id_number ++ e16 0 ++ x.fundamental_parameters.ser

/-- underwater_acoustic/model.rs:182-186 -/
structure AcousticEmitterSystem where
  acoustic_system_name : UInt16
  function : UInt8
  acoustic_id_number : UInt8
  deriving Repr, DecidableEq

/-- underwater_acoustic/parser.rs:92-103 -/
def AcousticEmitterSystem.parse : BP AcousticEmitterSystem := do
  let a ← be_u16
  let b ← be_u8
  let c ← be_u8
  pure ⟨a, b, c⟩
/-- underwater_acoustic/writer.rs:82-90 -/
def AcousticEmitterSystem.ser (x : AcousticEmitterSystem) : Bytes :=
  e16 x.acoustic_system_name ++ e8 x.function ++ e8 x.acoustic_id_number

/-- underwater_acoustic/model.rs:147-151 -/
structure UAEmitterSystem where
  acoustic_emitter_system : AcousticEmitterSystem
  location : VectorF32
  beams : List UABeam
  deriving Repr, DecidableEq

/-- underwater_acoustic/model.rs:174-177, 235-237, 281-283 -/
def UAEmitterSystem.recordLen (x : UAEmitterSystem) : Nat := 20 + (x.beams.map fun _ => 4 + 20).sum

/-- underwater_acoustic/parser.rs:78-90 -/
def UAEmitterSystem.parse : BP UAEmitterSystem := do
  let _len ← be_u8
  let n ← be_u8
  let _pad ← be_u16
  let a ← AcousticEmitterSystem.parse
  let b ← VectorF32.parse
  let c ← P.count UABeam.parse n.toNat
  pure ⟨a, b, c⟩
/-- underwater_acoustic/writer.rs:68-80; the length octet is the number of octets `as u8` -/
def UAEmitterSystem.ser (x : UAEmitterSystem) : Bytes :=
  e8 (UInt8.ofNat x.recordLen) ++ e8 (UInt8.ofNat x.beams.length) ++ e16 0 ++ x.acoustic_emitter_system.ser
    ++ x.location.ser ++ serList UABeam.ser x.beams

/-- underwater_acoustic/model.rs:13-22 -/
structure UnderwaterAcoustic where
  emitting_entity_id : EntityId
  event_id : EventId
  state_change_update_indicator : UInt8
  passive_parameter_index : UInt16
  propulsion_plant_configuration : PropulsionPlantConfiguration
  shafts : List Shaft
  apas : List APA
  emitter_systems : List UAEmitterSystem
  deriving Repr, DecidableEq

/-- underwater_acoustic/parser.rs:10-39 -/
def UnderwaterAcoustic.parse : BP UnderwaterAcoustic := do
  let a ← EntityId.parse
  let b ← EventId.parse
  let c ← be_u8
  let _pad ← be_u8
  let d ← be_u16
  let e ← PropulsionPlantConfiguration.parse
  let ns ← be_u8
  let na ← be_u8
  let ne ← be_u8
  let s ← P.count Shaft.parse ns.toNat
  let ap ← P.count APA.parse na.toNat
  let es ← P.count UAEmitterSystem.parse ne.toNat
  pure ⟨a, b, c, d, e, s, ap, es⟩
/-- underwater_acoustic/writer.rs:6-33 -/
def UnderwaterAcoustic.ser (x : UnderwaterAcoustic) : Bytes :=
  x.emitting_entity_id.ser ++ x.event_id.ser ++ e8 x.state_change_update_indicator ++ e8 0
    ++ e16 x.passive_parameter_index ++ x.propulsion_plant_configuration.ser
    ++ e8 (UInt8.ofNat x.shafts.length) ++ e8 (UInt8.ofNat x.apas.length) ++ e8 (UInt8.ofNat x.emitter_systems.length)
    ++ serList Shaft.ser x.shafts ++ serList APA.ser x.apas ++ serList UAEmitterSystem.ser x.emitter_systems
/-- underwater_acoustic/model.rs:7, 39-44 -/
def UnderwaterAcoustic.bodyLen (x : UnderwaterAcoustic) : Nat :=
  20 + (x.shafts.map fun _ => 8).sum + (x.apas.map fun _ => 4).sum + (x.emitter_systems.map UAEmitterSystem.recordLen).sum
/-- underwater_acoustic/writer.rs:31 (the writer returns `body_length()`) -/
def UnderwaterAcoustic.cnt (x : UnderwaterAcoustic) : Nat := x.bodyLen

/-- Specification: the lists fit their 8-bit counts, the propulsion plant configuration its seven bits. -/
def UAEmitterSystem.Wf (x : UAEmitterSystem) : Prop := x.beams.length ≤ 255
structure UnderwaterAcoustic.Wf (x : UnderwaterAcoustic) : Prop where
  config : x.propulsion_plant_configuration.configuration.toNat < 128
  shafts : x.shafts.length ≤ 255
  apas : x.apas.length ≤ 255
  systems : x.emitter_systems.length ≤ 255
  beams : ∀ s ∈ x.emitter_systems, s.Wf
/-- Specification: an additional passive activity record has a 14-bit parameter and a 2-bit status. -/
def APA.Wf (x : APA) : Prop := x.parameter.toNat < 16384 ∧ x.status.toNat < 4
/-- The only records the writer preserves: it always writes a zero parameter index (see `Props`). -/
def APA.Zero (x : APA) : Prop := x.parameter = 0 ∧ x.status = 0

/-! ## Lemmas -/

section
variable (r : Bytes)
@[rt] theorem TrackJam.parse_ser (x : TrackJam) : TrackJam.parse.run (x.ser ++ r) = .ok x r := by
  rtp [TrackJam.parse, TrackJam.ser]
@[rt] theorem JammingTechnique.parse_ser (x : JammingTechnique) : JammingTechnique.parse.run (x.ser ++ r) = .ok x r := by
  rtp [JammingTechnique.parse, JammingTechnique.ser]
@[rt] theorem FundamentalParameterData.parse_ser (x : FundamentalParameterData) : FundamentalParameterData.parse.run (x.ser ++ r) = .ok x r := by
  rtp [FundamentalParameterData.parse, FundamentalParameterData.ser]
@[rt] theorem TwoF32.parse_ser (x : TwoF32) : TwoF32.parse.run (x.ser ++ r) = .ok x r := by
  rtp [TwoF32.parse, TwoF32.ser]
@[rt] theorem Shaft.parse_ser (x : Shaft) : Shaft.parse.run (x.ser ++ r) = .ok x r := by
  rtp [Shaft.parse, Shaft.ser]
@[rt] theorem UAFundamentalParameterData.parse_ser (x : UAFundamentalParameterData) : UAFundamentalParameterData.parse.run (x.ser ++ r) = .ok x r := by
  rtp [UAFundamentalParameterData.parse, UAFundamentalParameterData.ser]
@[rt] theorem UABeam.parse_ser (x : UABeam) : UABeam.parse.run (x.ser ++ r) = .ok x r := by
  rtp [UABeam.parse, UABeam.ser]
@[rt] theorem AcousticEmitterSystem.parse_ser (x : AcousticEmitterSystem) : AcousticEmitterSystem.parse.run (x.ser ++ r) = .ok x r := by
  rtp [AcousticEmitterSystem.parse, AcousticEmitterSystem.ser]
end

@[len] theorem TrackJam.length_ser (x : TrackJam) : x.ser.length = 8 := by lenp [TrackJam.ser]
@[len] theorem JammingTechnique.length_ser (x : JammingTechnique) : x.ser.length = 4 := by lenp [JammingTechnique.ser]
@[len] theorem FundamentalParameterData.length_ser (x : FundamentalParameterData) : x.ser.length = 20 := by lenp [FundamentalParameterData.ser]
@[len] theorem TwoF32.length_ser (x : TwoF32) : x.ser.length = 8 := by lenp [TwoF32.ser]
@[len] theorem PropulsionPlantConfiguration.length_ser (x : PropulsionPlantConfiguration) : x.ser.length = 1 := by lenp [PropulsionPlantConfiguration.ser]
@[len] theorem Shaft.length_ser (x : Shaft) : x.ser.length = 8 := by lenp [Shaft.ser]
@[len] theorem APA.length_ser (x : APA) : x.ser.length = 4 := by lenp [APA.ser]
@[len] theorem UAFundamentalParameterData.length_ser (x : UAFundamentalParameterData) : x.ser.length = 20 := by lenp [UAFundamentalParameterData.ser]
@[len] theorem UABeam.length_ser (x : UABeam) : x.ser.length = 24 := by lenp [UABeam.ser]
@[len] theorem AcousticEmitterSystem.length_ser (x : AcousticEmitterSystem) : x.ser.length = 4 := by lenp [AcousticEmitterSystem.ser]

theorem run_count8 {α : Type} {p : BP α} {s : α → Bytes} (l : List α) (hl : l.length ≤ 255)
    (h : ∀ x ∈ l, ∀ r, p.run (s x ++ r) = .ok x r) (r : Bytes) :
    (P.count p (UInt8.ofNat l.length).toNat).run (serList s l ++ r) = .ok l r :=
  run_countList l r _ (toNat_u8_ofNat (by omega)) h
theorem run_count16 {α : Type} {p : BP α} {s : α → Bytes} (l : List α) (hl : l.length < 65536)
    (h : ∀ x ∈ l, ∀ r, p.run (s x ++ r) = .ok x r) (r : Bytes) :
    (P.count p (UInt16.ofNat l.length).toNat).run (serList s l ++ r) = .ok l r :=
  run_countList l r _ (toNat_u16_ofNat (by omega)) h
theorem run_count32 {α : Type} {p : BP α} {s : α → Bytes} (l : List α) (hl : l.length < 4294967296)
    (h : ∀ x ∈ l, ∀ r, p.run (s x ++ r) = .ok x r) (r : Bytes) :
    (P.count p (UInt32.ofNat l.length).toNat).run (serList s l ++ r) = .ok l r :=
  run_countList l r _ (toNat_u32_ofNat (by omega)) h

theorem Beam.parse_ser {x : Beam} (h : x.Wf) (r : Bytes) : Beam.parse.run (x.ser ++ r) = .ok x r := by
  rtp [Beam.parse, Beam.ser, run_count8 x.track_jam_data h fun x _ r => TrackJam.parse_ser r x]
theorem Beam.length_ser (x : Beam) : x.ser.length = x.dataLen := by
  lenp [Beam.ser, Beam.dataLen, length_serList_const x.track_jam_data fun x _ => TrackJam.length_ser x]
theorem Beam.cnt_eq (x : Beam) : x.cnt = x.dataLen := by
  simp only [Beam.cnt, Beam.dataLen, cntList_const (c := TrackJam.cnt) (k := 8) x.track_jam_data fun _ _ => rfl]
theorem EmitterSystem.parse_ser {x : EmitterSystem} (h : x.Wf) (r : Bytes) :
    EmitterSystem.parse.run (x.ser ++ r) = .ok x r := by
  rtp [EmitterSystem.parse, EmitterSystem.ser, run_count8 x.beams h.1 fun x hx r => Beam.parse_ser (h.2 x hx) r]
theorem EmitterSystem.length_ser (x : EmitterSystem) : x.ser.length = x.dataLen := by
  lenp [EmitterSystem.ser, EmitterSystem.dataLen,
    length_serList_eq_cntList (c := Beam.dataLen) x.beams fun x _ => Beam.length_ser x]
  rfl
theorem EmitterSystem.cnt_eq (x : EmitterSystem) : x.cnt = x.dataLen := by
  simp only [EmitterSystem.cnt, EmitterSystem.dataLen, cntList]
  congr 2; apply List.map_congr_left; intro b _; exact Beam.cnt_eq b
theorem ElectromagneticEmission.parse_ser {x : ElectromagneticEmission} (h : x.Wf) (r : Bytes) :
    ElectromagneticEmission.parse.run (x.ser ++ r) = .ok x r := by
  rtp [ElectromagneticEmission.parse, ElectromagneticEmission.ser,
    run_count8 x.emitter_systems h.1 fun x hx r => EmitterSystem.parse_ser (h.2 x hx) r]
theorem ElectromagneticEmission.length_ser (x : ElectromagneticEmission) : x.ser.length = x.bodyLen := by
  lenp [ElectromagneticEmission.ser, ElectromagneticEmission.bodyLen,
    length_serList_eq_cntList (c := EmitterSystem.dataLen) x.emitter_systems fun x _ => EmitterSystem.length_ser x]
  rfl
theorem ElectromagneticEmission.cnt_eq (x : ElectromagneticEmission) : x.cnt = x.bodyLen := by
  simp only [ElectromagneticEmission.cnt, ElectromagneticEmission.bodyLen, cntList]
  congr 2; apply List.map_congr_left; intro b _; exact EmitterSystem.cnt_eq b

theorem SEES.parse_ser {x : SEES} (h : x.Wf) (r : Bytes) : SEES.parse.run (x.ser ++ r) = .ok x r := by
  rtp [SEES.parse, SEES.ser, run_count16 x.propulsion_systems h.1 fun x _ r => TwoF32.parse_ser r x,
    run_count16 x.vectoring_nozzle_systems h.2 fun x _ r => TwoF32.parse_ser r x]
theorem SEES.length_ser (x : SEES) : x.ser.length = x.bodyLen := by
  lenp [SEES.ser, SEES.bodyLen, length_serList_const x.propulsion_systems fun x _ => TwoF32.length_ser x,
    length_serList_const x.vectoring_nozzle_systems fun x _ => TwoF32.length_ser x]
theorem SEES.cnt_eq (x : SEES) : x.cnt = x.bodyLen := by
  simp only [SEES.cnt, SEES.bodyLen, cntList_const (c := TwoF32.cnt) (k := 8) x.propulsion_systems fun _ _ => rfl,
    cntList_const (c := TwoF32.cnt) (k := 8) x.vectoring_nozzle_systems fun _ _ => rfl]

theorem ppc_bits (c : UInt8) (h : c.toNat < 128) (b : Bool) :
    ((c <<< 1) ||| (if b then 1 else 0)) >>> 1 = c ∧ (((c <<< 1) ||| (if b then 1 else 0)) &&& 1 != 0) = b := by
  have : ∀ n : Fin 128, ∀ b : Bool,
    ((UInt8.ofNat n.val <<< 1) ||| (if b then 1 else 0)) >>> 1 = UInt8.ofNat n.val ∧
      (((UInt8.ofNat n.val <<< 1) ||| (if b then 1 else 0)) &&& 1 != 0) = b := by decide
  have h2 := this ⟨c.toNat, h⟩ b
  simpa only [UInt8.ofNat_toNat] using h2
theorem PropulsionPlantConfiguration.parse_ser {x : PropulsionPlantConfiguration} (h : x.configuration.toNat < 128) (r : Bytes) :
    PropulsionPlantConfiguration.parse.run (x.ser ++ r) = .ok x r := by
  rtp [PropulsionPlantConfiguration.parse, PropulsionPlantConfiguration.ser, (ppc_bits _ h _).1, (ppc_bits _ h _).2]
theorem APA.parse_ser {x : APA} (h : x.Zero) (r : Bytes) : APA.parse.run (x.ser ++ r) = .ok x r := by
  obtain ⟨p, s, v⟩ := x
  obtain ⟨h1, h2⟩ := h
  simp only at h1 h2
  subst h1 h2
  rtp [APA.parse, APA.ser]
  rfl
theorem UAEmitterSystem.parse_ser {x : UAEmitterSystem} (h : x.Wf) (r : Bytes) :
    UAEmitterSystem.parse.run (x.ser ++ r) = .ok x r := by
  rtp [UAEmitterSystem.parse, UAEmitterSystem.ser, run_count8 x.beams h fun x _ r => UABeam.parse_ser r x]
theorem sum_map_const {α : Type} (l : List α) (k : Nat) : (l.map fun _ => k).sum = k * l.length := by
  induction l with
  | nil => rfl
  | cons x xs ih => simp only [List.map_cons, List.sum_cons, ih, List.length_cons, Nat.mul_succ]; omega
theorem UAEmitterSystem.length_ser (x : UAEmitterSystem) : x.ser.length = x.recordLen := by
  lenp [UAEmitterSystem.ser, UAEmitterSystem.recordLen, length_serList_const x.beams fun x _ => UABeam.length_ser x,
    sum_map_const]
theorem UnderwaterAcoustic.parse_ser {x : UnderwaterAcoustic} (h : x.Wf) (ha : ∀ a ∈ x.apas, a.Zero) (r : Bytes) :
    UnderwaterAcoustic.parse.run (x.ser ++ r) = .ok x r := by
  rtp [UnderwaterAcoustic.parse, UnderwaterAcoustic.ser, PropulsionPlantConfiguration.parse_ser h.config,
    run_count8 x.shafts h.shafts fun x _ r => Shaft.parse_ser r x,
    run_count8 x.apas h.apas fun x hx r => APA.parse_ser (ha x hx) r,
    run_count8 x.emitter_systems h.systems fun x hx r => UAEmitterSystem.parse_ser (h.beams x hx) r]
theorem UnderwaterAcoustic.length_ser (x : UnderwaterAcoustic) : x.ser.length = x.bodyLen := by
  lenp [UnderwaterAcoustic.ser, UnderwaterAcoustic.bodyLen, sum_map_const,
    length_serList_const x.shafts fun x _ => Shaft.length_ser x, length_serList_const x.apas fun x _ => APA.length_ser x,
    length_serList_eq_cntList (c := UAEmitterSystem.recordLen) x.emitter_systems fun x _ => UAEmitterSystem.length_ser x]
  rfl

instance : Stable TrackJam.parse := by unfold TrackJam.parse; parser_ok
instance : Safe TrackJam.parse := by unfold TrackJam.parse; parser_ok
instance : Stable JammingTechnique.parse := by unfold JammingTechnique.parse; parser_ok
instance : Safe JammingTechnique.parse := by unfold JammingTechnique.parse; parser_ok
instance : Stable FundamentalParameterData.parse := by unfold FundamentalParameterData.parse; parser_ok
instance : Safe FundamentalParameterData.parse := by unfold FundamentalParameterData.parse; parser_ok
instance : Stable Beam.parse := by unfold Beam.parse; parser_ok
instance : Safe Beam.parse := by unfold Beam.parse; parser_ok
instance : Stable EmitterSystem.parse := by unfold EmitterSystem.parse; parser_ok
instance : Safe EmitterSystem.parse := by unfold EmitterSystem.parse; parser_ok
instance : Stable ElectromagneticEmission.parse := by unfold ElectromagneticEmission.parse; parser_ok
instance : Safe ElectromagneticEmission.parse := by unfold ElectromagneticEmission.parse; parser_ok
instance : Stable TwoF32.parse := by unfold TwoF32.parse; parser_ok
instance : Safe TwoF32.parse := by unfold TwoF32.parse; parser_ok
instance : Stable SEES.parse := by unfold SEES.parse; parser_ok
instance : Safe SEES.parse := by unfold SEES.parse; parser_ok
instance : Stable PropulsionPlantConfiguration.parse := by unfold PropulsionPlantConfiguration.parse; parser_ok
instance : Safe PropulsionPlantConfiguration.parse := by unfold PropulsionPlantConfiguration.parse; parser_ok
instance : Stable Shaft.parse := by unfold Shaft.parse; parser_ok
instance : Safe Shaft.parse := by unfold Shaft.parse; parser_ok
instance : Stable APA.parse := by unfold APA.parse; parser_ok
instance : Safe APA.parse := by unfold APA.parse; parser_ok
instance : Stable UAFundamentalParameterData.parse := by unfold UAFundamentalParameterData.parse; parser_ok
instance : Safe UAFundamentalParameterData.parse := by unfold UAFundamentalParameterData.parse; parser_ok
instance : Stable UABeam.parse := by unfold UABeam.parse; parser_ok
instance : Safe UABeam.parse := by unfold UABeam.parse; parser_ok
instance : Stable AcousticEmitterSystem.parse := by unfold AcousticEmitterSystem.parse; parser_ok
instance : Safe AcousticEmitterSystem.parse := by unfold AcousticEmitterSystem.parse; parser_ok
instance : Stable UAEmitterSystem.parse := by unfold UAEmitterSystem.parse; parser_ok
instance : Safe UAEmitterSystem.parse := by unfold UAEmitterSystem.parse; parser_ok
instance : Stable UnderwaterAcoustic.parse := by unfold UnderwaterAcoustic.parse; parser_ok
instance : Safe UnderwaterAcoustic.parse := by unfold UnderwaterAcoustic.parse; parser_ok

end Verif.Dis
