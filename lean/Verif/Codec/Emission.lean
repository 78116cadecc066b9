import Verif.Codec.State

/-! # Conversion of the Electromagnetic Emission PDU (cdis-assemble/src/electromagnetic_emission/codec.rs) -/

namespace Verif.Codec

/-! ## Order of the lists -/

/-- Lexicographic order, the order of `#[derive(Ord)]` on the fields in turn. -/
def lexLe : List Int → List Int → Bool
  | [], _ => true
  | _ :: _, [] => false
  | a :: as, b :: bs => decide (a < b) || (decide (a = b) && lexLe as bs)
/-- `Vec::dedup`: consecutive equal elements are merged -/
def dedup {α : Type} [DecidableEq α] : List α → List α
  | [] => []
  | [a] => [a]
  | a :: b :: l => if a = b then dedup (b :: l) else a :: dedup (b :: l)
/-- `sort()` then `dedup()` (e.g. 317-318) by the keys -/
def sortDedup {α : Type} [DecidableEq α] (key : α → List Int) (l : List α) : List α :=
  dedup (l.mergeSort fun a b => lexLe (key a) (key b))

/-- electromagnetic_emission/model.rs:57-64 `FundamentalParameter`, derived order (the bit size of a `UVINT16` grows with its
value, so the order of `prf` is that of the values) -/
def FundamentalParameter.key (x : Cdis.FundamentalParameter) : List Int :=
  [x.frequency.mantissa, x.frequency.exponent, x.frequency_range.mantissa, x.frequency_range.exponent, x.erp, x.prf,
   x.pulse_width.mantissa, x.pulse_width.exponent]
/-- types/model.rs: the bit size of an `SVINT13`, compared before its value -/
def svint13Code (n : Int) : Int :=
  if -16 ≤ n ∧ n ≤ 15 then 0 else if -64 ≤ n ∧ n ≤ 63 then 1 else if -512 ≤ n ∧ n ≤ 511 then 2 else 3
/-- records/model.rs `BeamData`, derived order -/
def BeamData.key (x : Cdis.BeamData) : List Int :=
  [svint13Code x.az_center, x.az_center, svint13Code x.az_sweep, x.az_sweep, svint13Code x.el_center, x.el_center,
   svint13Code x.el_sweep, x.el_sweep, x.sweep_sync]
/-- dis-rs common/model.rs `SimulationAddress`, derived order (site, application) -/
def SiteAppPair.key (x : Cdis.SiteAppPair) : List Int := [x.site, x.application]

/-! ## State -/

/-- electromagnetic_emission/codec.rs:103-108 -/
structure EeEncState where
  heartbeat : Nat
  params : Map (UInt8 × UInt8) Dis.FundamentalParameterData
  beams : Map (UInt8 × UInt8) Dis.BeamData
/-- electromagnetic_emission/codec.rs:182-187 -/
structure EeFields where
  name : UInt16
  function : UInt8
  location : Dis.VectorF32
  deriving Repr, DecidableEq
/-- electromagnetic_emission/codec.rs:145-151, without the heartbeat, which nothing reads -/
structure EeDecState where
  params : Map (UInt8 × UInt8) Dis.FundamentalParameterData
  beams : Map (UInt8 × UInt8) Dis.BeamData
  systems : Map UInt8 EeFields

/-- Every beam with the number of its system, in order. -/
def allBeams (x : Dis.ElectromagneticEmission) : List (UInt8 × Dis.Beam) :=
  x.emitter_systems.flatMap fun s => s.beams.map fun b => (s.number, b)
/-- electromagnetic_emission/codec.rs:42-49 -/
def setParams (x : Dis.ElectromagneticEmission) : Map (UInt8 × UInt8) Dis.FundamentalParameterData :=
  (allBeams x).foldl (fun m p => m.set (p.1, p.2.number) p.2.parameter_data) fun _ => none
/-- electromagnetic_emission/codec.rs:51-58 -/
def setBeams (x : Dis.ElectromagneticEmission) : Map (UInt8 × UInt8) Dis.BeamData :=
  (allBeams x).foldl (fun m p => m.set (p.1, p.2.number) p.2.beam_data) fun _ => none
/-- electromagnetic_emission/codec.rs:60-69 -/
def setSystems (x : Dis.ElectromagneticEmission) : Map UInt8 EeFields :=
  x.emitter_systems.foldl (fun m s => m.set s.number ⟨s.name, s.function, s.location⟩) fun _ => none
/-- electromagnetic_emission/codec.rs:29-37, 110-122 -/
def EeEncState.of (now : Nat) (x : Dis.ElectromagneticEmission) : EeEncState := ⟨now, setParams x, setBeams x⟩
/-- electromagnetic_emission/codec.rs:79-86, 153-169 -/
def EeDecState.of (x : Dis.ElectromagneticEmission) : EeDecState := ⟨setParams x, setBeams x, setSystems x⟩

/-! ## Parameters -/

/-- electromagnetic_emission/codec.rs:708-716 -/
def paramEnc (x : Dis.FundamentalParameterData) : Cdis.FundamentalParameter :=
  ⟨freqEnc x.frequency, freqEnc x.frequency_range, (u8FromF32 (v32 x.effective_power)).getD 0,
   (u16FromF32 (v32 x.pulse_repetition_frequency)).getD 0, pulseEnc x.pulse_width⟩
/-- electromagnetic_emission/codec.rs:718-725 -/
def paramDec (x : Cdis.FundamentalParameter) : Dis.FundamentalParameterData :=
  ⟨freqDec x.frequency, freqDec x.frequency_range, b32 (int32 x.erp), b32 (int32 x.prf), pulseDec x.pulse_width⟩
/-- `FundamentalParameter::default()` -/
def defaultParam : Cdis.FundamentalParameter := ⟨⟨0, 0⟩, ⟨0, 0⟩, 0, 0, ⟨0, 0⟩⟩
/-- `FundamentalParameterData::default()` -/
def zeroParam : Dis.FundamentalParameterData := ⟨0, 0, 0, 0, 0⟩
/-- `BeamData::default()` of C-DIS and of DIS -/
def defaultBeamData : Cdis.BeamData := ⟨0, 0, 0, 0, 0⟩
def zeroBeamData : Dis.BeamData := ⟨0, 0, 0, 0, 0⟩
/-- derived `PartialEq` of DIS `FundamentalParameterData` -/
def paramEq (a b : Dis.FundamentalParameterData) : Bool :=
  feq a.frequency b.frequency && feq a.frequency_range b.frequency_range && feq a.effective_power b.effective_power
  && feq a.pulse_repetition_frequency b.pulse_repetition_frequency && feq a.pulse_width b.pulse_width
/-- derived `PartialEq` of DIS `BeamData` -/
def beamDataEq (a b : Dis.BeamData) : Bool :=
  feq a.azimuth_center b.azimuth_center && feq a.azimuth_sweep b.azimuth_sweep && feq a.elevation_center b.elevation_center
  && feq a.elevation_sweep b.elevation_sweep && feq a.sweep_sync b.sweep_sync

/-! ## Lists -/

/-- electromagnetic_emission/codec.rs:310-321 -/
def paramsFull (x : Dis.ElectromagneticEmission) : List Cdis.FundamentalParameter :=
  sortDedup FundamentalParameter.key ((allBeams x).map fun p => paramEnc p.2.parameter_data)
/-- electromagnetic_emission/codec.rs:323-339: a beam without stored parameters is left out -/
def paramsPartial (st : EeEncState) (x : Dis.ElectromagneticEmission) : List Cdis.FundamentalParameter :=
  sortDedup FundamentalParameter.key (((allBeams x).filter fun p =>
    (st.params (p.1, p.2.number)).any fun s => !paramEq s p.2.parameter_data).map fun p => paramEnc p.2.parameter_data)
/-- electromagnetic_emission/codec.rs:348-358 -/
def beamsFull (x : Dis.ElectromagneticEmission) : List Cdis.BeamData :=
  sortDedup BeamData.key ((allBeams x).map fun p => beamEnc p.2.beam_data)
/-- electromagnetic_emission/codec.rs:360-376 -/
def beamsPartial (st : EeEncState) (x : Dis.ElectromagneticEmission) : List Cdis.BeamData :=
  sortDedup BeamData.key (((allBeams x).filter fun p =>
    (st.beams (p.1, p.2.number)).any fun s => !beamDataEq s p.2.beam_data).map fun p => beamEnc p.2.beam_data)
def pairEnc (x : Dis.SimulationAddress) : Cdis.SiteAppPair := ⟨x.site_id.toNat, x.application_id.toNat⟩
/-- electromagnetic_emission/codec.rs:385-402.  Simplification: converted before sorting; the conversion keeps the order. -/
def pairsOf (x : Dis.ElectromagneticEmission) : List Cdis.SiteAppPair :=
  sortDedup SiteAppPair.key ((allBeams x).flatMap fun p => p.2.track_jam_data.map fun t => pairEnc t.entity_id.simulation_address)

/-! ## Beams and systems -/

/-- electromagnetic_emission/codec.rs:653-678 -/
def trackJamEnc (full : Bool) (pairs : List Cdis.SiteAppPair) (t : Dis.TrackJam) : Cdis.TrackJam :=
  ⟨((pairs.idxOf? (pairEnc t.entity_id.simulation_address)).getD 0) % 256, t.entity_id.entity_id.toNat,
   if full then some t.emitter.toNat else none, if full then some t.beam.toNat else none⟩
/-- electromagnetic_emission/codec.rs:680-702 -/
def trackJamDec (pairs : List Cdis.SiteAppPair) (t : Cdis.TrackJam) : Dis.TrackJam :=
  ⟨⟨(pairs[t.site_app_pair_index]?.map fun a => (⟨UInt16.ofNat a.site, UInt16.ofNat a.application⟩ : Dis.SimulationAddress)).getD
      ⟨0, 0⟩, UInt16.ofNat t.entity_id⟩,
   UInt8.ofNat (t.emitter_number.getD 0), UInt8.ofNat (t.beam_number.getD 0)⟩

/-- electromagnetic_emission/codec.rs:495-529 (full) and 531-565 (partial).  `HighDensityTrackJam::Selected` is 1 and
`BeamStatusBeamState::Active` is 0. -/
def eeBeamEnc (full : Bool) (ps : List Cdis.FundamentalParameter) (bs : List Cdis.BeamData) (pairs : List Cdis.SiteAppPair)
    (x : Dis.Beam) : Cdis.EmitterBeam :=
  let ip := ps.idxOf? (paramEnc x.parameter_data)
  let ib := bs.idxOf? (beamEnc x.beam_data)
  let many := decide (15 < x.track_jam_data.length)
  { beam_id := x.number.toNat, beam_parameter_index := x.parameter_index.toNat,
    fundamental_params_index := if full then some (ip.getD 0 % 256) else ip.map (· % 256),
    beam_data_index := if full then some (ib.getD 0 % 256) else ib.map (· % 256),
    beam_function := x.beam_function.toNat,
    high_density_track_jam := if many then 1 else x.high_density_track_jam.toNat,
    beam_status := decide (x.beam_status = 0),
    jam_kind := if full then some x.jamming_technique.kind.toNat else none,
    jam_category := if full then some x.jamming_technique.category.toNat else none,
    jam_subcategory := if full then some x.jamming_technique.subcategory.toNat else none,
    jam_specific := if full then some x.jamming_technique.specific.toNat else none,
    track_jam := if many then [] else x.track_jam_data.map (trackJamEnc full pairs) }
/-- electromagnetic_emission/codec.rs:567-598 (`fallback` is the default) and 600-649 (`fallback` is the stored value or
the default) -/
def eeBeamDec (fallbackParam : Dis.FundamentalParameterData) (fallbackBeam : Dis.BeamData) (ps : List Cdis.FundamentalParameter)
    (bs : List Cdis.BeamData) (pairs : List Cdis.SiteAppPair) (x : Cdis.EmitterBeam) : Dis.Beam :=
  { number := UInt8.ofNat x.beam_id, parameter_index := UInt16.ofNat x.beam_parameter_index,
    parameter_data := match x.fundamental_params_index with
      | none => fallbackParam
      | some i => paramDec (ps[i]?.getD defaultParam),
    beam_data := match x.beam_data_index with
      | none => fallbackBeam
      | some i => beamDec (bs[i]?.getD defaultBeamData),
    beam_function := UInt8.ofNat x.beam_function, high_density_track_jam := UInt8.ofNat x.high_density_track_jam,
    beam_status := if x.beam_status then 0 else 1,
    jamming_technique := ⟨UInt8.ofNat (x.jam_kind.getD 0), UInt8.ofNat (x.jam_category.getD 0),
      UInt8.ofNat (x.jam_subcategory.getD 0), UInt8.ofNat (x.jam_specific.getD 0)⟩,
    track_jam_data := x.track_jam.map (trackJamDec pairs) }

/-- electromagnetic_emission/codec.rs:412-444; records/codec.rs:246-252 `encode_entity_coordinate_vector_meters` -/
def eeSystemEnc (full : Bool) (ps : List Cdis.FundamentalParameter) (bs : List Cdis.BeamData) (pairs : List Cdis.SiteAppPair)
    (x : Dis.EmitterSystem) : Cdis.EmitterSystem :=
  { name := if full then some x.name.toNat else none, function := if full then some x.function.toNat else none,
    number := x.number.toNat,
    location := if full then some ⟨i16Sat (v32 x.location.first), i16Sat (v32 x.location.second), i16Sat (v32 x.location.third)⟩
      else none,
    emitter_beams := x.beams.map (eeBeamEnc full ps bs pairs) }
/-- electromagnetic_emission/codec.rs:446-491; `st` is `none` in a full update -/
def eeSystemDec (st : Option EeDecState) (ps : List Cdis.FundamentalParameter) (bs : List Cdis.BeamData)
    (pairs : List Cdis.SiteAppPair) (x : Cdis.EmitterSystem) : Dis.EmitterSystem :=
  let number := UInt8.ofNat x.number
  let fields : EeFields := (st.bind (·.systems number)).getD ⟨0, 0, zeroVec⟩
  { name := (x.name.map UInt16.ofNat).getD fields.name, function := (x.function.map UInt8.ofNat).getD fields.function,
    number := number, location := (x.location.map (coordDec · METER)).getD fields.location,
    beams := x.emitter_beams.map fun b =>
      eeBeamDec ((st.bind (·.params (number, UInt8.ofNat b.beam_id))).getD zeroParam)
        ((st.bind (·.beams (number, UInt8.ofNat b.beam_id))).getD zeroBeamData) ps bs pairs b }

/-- electromagnetic_emission/codec.rs:190-250 -/
def eeEnc (o : Options) (now : Nat) (st : Option EeEncState) (x : Dis.ElectromagneticEmission) :
    Cdis.ElectromagneticEmission × StateResult :=
  let pairs := pairsOf x
  let body (full : Bool) (ps : List Cdis.FundamentalParameter) (bs : List Cdis.BeamData) : Cdis.ElectromagneticEmission :=
    { full_update_flag := full, emitting_id := eidEnc x.emitting_entity_id, event_id := evidEnc x.event_id,
      state_update_indicator := x.state_update_indicator.toNat, fundamental_params := ps, beam_data := bs,
      site_app_pairs := pairs, emitter_systems := x.emitter_systems.map (eeSystemEnc full ps bs pairs) }
  let full := body true (paramsFull x) (beamsFull x)
  match o.update_mode, st with
  | .full, _ => (full, .unaffected)
  | .partial, none => (full, .ee)
  | .partial, some s =>
    if timedOut o.heartbeats.ee o.mplier now s.heartbeat then (full, .ee)
    else (body false (paramsPartial s x) (beamsPartial s x), .unaffected)

/-- electromagnetic_emission/codec.rs:252-302 -/
def eeDec (o : Options) (st : Option EeDecState) (x : Cdis.ElectromagneticEmission) : Dis.ElectromagneticEmission × StateResult :=
  let use := if o.update_mode = .partial ∧ x.full_update_flag = false then st else none
  ({ emitting_entity_id := eidDec x.emitting_id, event_id := evidDec x.event_id,
     state_update_indicator := UInt8.ofNat x.state_update_indicator,
     emitter_systems := x.emitter_systems.map (eeSystemDec use x.fundamental_params x.beam_data x.site_app_pairs) },
   if o.update_mode = .partial ∧ x.full_update_flag = true then .ee else .unaffected)

end Verif.Codec
