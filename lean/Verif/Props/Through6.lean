import Verif.Props.Through5
namespace Verif.Props
open Verif.Codec

/-- the beams that C-DIS can carry: the centre of the azimuth is at most 900 radians, and the sweep is a percentage.  (The other three
angles do not arrive at all.) -/
def BeamFits (x : Dis.BeamData) : Prop := InRange x.azimuth_center (-900) 900 ∧ InRange x.sweep_sync 0 100
/-- what arrives of a beam: all four angles are the centre of the azimuth -/
def beamWireQ (x : Dis.BeamData) : Dis.BeamData :=
  let a := beamAngleDec (beamAngleEnc x.azimuth_center)
  ⟨a, a, a, a, sweepDec (sweepEnc x.sweep_sync).toNat⟩
/-- the parameters of layer 2 that C-DIS can carry -/
def IffParamFits (x : Dis.IffFundamentalParameterData) : Prop :=
  InRange x.frequency 0 12976029000 ∧ InRange x.pgrf 0 1023 ∧ InRange x.pulse_width 0 1023 ∧ InRange x.burst_length 0 1023 ∧
  x.applicable_modes < 8
/-- the data records that C-DIS can carry: at most 31, of at most 252 octets, with a type below 65536 -/
def IffRecordsFit (l : List Dis.IffDataRecord) : Prop :=
  l.length ≤ 31 ∧ ∀ r ∈ l, r.record_type < 65536 ∧ r.record_specific_fields.length ≤ 252
/-- the Mode 5 data that C-DIS can carry -/
def Mode5Fits : Dis.Mode5BasicData → Prop
  | .interrogator .. => True
  | .transponder _ _ _ _ _ d n q => pack Dis.Mode5TransponderSupplementalData.wr d < 256 ∧ n < 8 ∧ q < 32
/-- the Mode S data that C-DIS can carry -/
def ModeSFits : Dis.ModeSBasicData → Prop
  | .interrogator .. => True
  | .transponder _ _ d _ _ t _ _ _ => d < 8 ∧ t < 8

/-- the IFF PDUs that C-DIS can carry -/
structure IffFits (env : Env) (x : Dis.Iff) : Prop where
  wf : x.Wf env.toEnv
  forced : x.Forced
  system : x.system_id.system_type < 16 ∧ x.system_id.system_name < 32 ∧ x.system_id.system_mode < 8
  layer2 : ∀ l, x.layer_2 = some l → l.layer_header.layer_number < 16 ∧ BeamFits l.beam_data ∧
    l.iff_fundamental_parameters.length ≤ 255 ∧ ∀ p ∈ l.iff_fundamental_parameters, IffParamFits p
  layer3 : ∀ l, x.layer_3 = some l → l.layer_header.layer_number < 16 ∧ Mode5Fits l.mode_5_basic_data ∧ IffRecordsFit l.data_records
  layer4 : ∀ l, x.layer_4 = some l → l.layer_header.layer_number < 16 ∧ ModeSFits l.mode_s_basic_data ∧ IffRecordsFit l.data_records
  layer5 : ∀ l, x.layer_5 = some l → l.layer_header.layer_number < 16 ∧ l.applicable_layers.getD 0 0 = 0 ∧ l.data_category < 8 ∧
    IffRecordsFit l.data_records

theorem beam_fits {x : Dis.BeamData} (h : BeamFits x) : (beamEnc x).Fits := by
  obtain ⟨⟨q, hq, h1, h2⟩, r, hr, h3, h4⟩ := h
  refine ⟨?_, ?_⟩
  · obtain ⟨n, hn, hb, -, -⟩ := quant_round_enc (lo := -32768) (hi := 32767) (by norm_num) (by norm_num) (by norm_num) (by norm_num)
      (q := q) (K := beamSteps) (by unfold beamSteps; push_cast; linarith) (by unfold beamSteps; push_cast; linarith)
    have e : beamAngleEnc x.azimuth_center = n := by
      unfold beamAngleEnc
      rw [hq, beamScale_eq]
      exact hn
    show Cdis.InS 13 (beamAngleEnc x.azimuth_center)
    rw [e]
    have hb := abs_le.1 hb
    unfold beamSteps at hb
    have a1 : (n : Rat) < 4096 := by linarith
    have a2 : (-4097 : Rat) < n := by linarith
    have a1 : n < 4096 := by exact_mod_cast a1
    have a2 : -4097 < n := by exact_mod_cast a2
    unfold Cdis.InS
    norm_num
    omega
  · have := (C41_sweep hr h3 h4).2
    show (sweepEnc x.sweep_sync).toNat < 2 ^ 10
    omega
theorem u16_small {b : UInt32} (h : InRange b 0 1023) : (u16FromF32 (v32 b)).getD 0 < 2 ^ 10 := by
  obtain ⟨q, hq, h1, h2⟩ := h
  unfold u16FromF32
  rw [hq]
  dsimp only
  rw [if_pos ⟨by linarith, by linarith⟩]
  exact truncRat_toNat_lt (n := 1024) (by push_cast; linarith) (by decide)
theorem u8_lt (x : Fl) : (u8FromF32 x).getD 0 < 2 ^ 8 := by
  unfold u8FromF32
  cases x with
  | nan => decide
  | inf s => cases s <;> decide
  | num q =>
    dsimp only
    split
    · rename_i h
      exact truncRat_toNat_lt (n := 256) (by push_cast; linarith [h.2]) (by decide)
    · decide
theorem iffParam_wf {x : Dis.IffFundamentalParameterData} (h : IffParamFits x) : (iffParamEnc x).Wf := by
  obtain ⟨⟨q, hq, h0, h1⟩, h2, h3, h4, h5⟩ := h
  exact ⟨u8_lt _, (C41_frequency hq h0 h1).1, u16_small h2, u16_small h3, u16_small h4, h5, x.part_1.toNat_lt, x.part_2.toNat_lt,
    x.part_3.toNat_lt⟩
theorem iffRecs_ok {l : List Dis.IffDataRecord} (h : IffRecordsFit l) : Cdis.IffRecordsOk (l.map iffRecEnc) := by
  refine ⟨by rw [List.length_map]; have := h.1; omega, fun x hx => ?_⟩
  obtain ⟨a, ha, rfl⟩ := List.mem_map.1 hx
  obtain ⟨h1, h2⟩ := h.2 a ha
  exact ⟨h1, by show (bytesEnc _).length ≤ 252; simp only [bytesEnc, List.length_map]; exact h2, bytes_lt _⟩
theorem mode5_wf {c : Dis.IffClass} {x : Dis.Mode5BasicData} (h : x.Wf c) (hf : Mode5Fits x) : (mode5Enc x).Wf c := by
  cases x with
  | interrogator s f e =>
    obtain ⟨h1, h2, h3⟩ := h
    exact ⟨h1, pack_lt (L := Dis.Mode5InterrogatorStatus.layout) (t := 8) (by decide) h2,
      pack_lt (L := Dis.Mode5MessageFormats.layout) (t := 32) (by decide) h3, eid_wf _⟩
  | transponder s pin f m o d n q =>
    obtain ⟨h1, h2, h3, h4, h5⟩ := h
    obtain ⟨g1, g2, g3⟩ := hf
    exact ⟨h1, pack_lt (L := Dis.Mode5TransponderStatus.layout) (t := 16) (by decide) h2, pin.toNat_lt,
      pack_lt (L := Dis.Mode5MessageFormats.layout) (t := 32) (by decide) h3,
      pack_lt (L := Dis.EnhancedMode1Code.layout) (t := 16) (by decide) h4, o.toNat_lt, g1, g2, g3⟩
theorem modeS_wf {c : Dis.IffClass} {x : Dis.ModeSBasicData} (h : x.Wf c) (hf : ModeSFits x) : (modeSEnc x).Wf c := by
  cases x with
  | interrogator s l =>
    obtain ⟨h1, h2, h3⟩ := h
    exact ⟨h1, pack_lt (L := Dis.ModeSInterrogatorStatus.layout) (t := 8) (by decide) h2,
      pack_lt (L := Dis.ModeSLevelsPresent.layout) (t := 8) (by decide) h3⟩
  | transponder s l d i a t p hh c =>
    obtain ⟨h1, h2, h3, h4, h5, h6, h7, h8⟩ := h
    obtain ⟨g1, g2⟩ := hf
    exact ⟨h1, pack_lt (L := Dis.ModeSTransponderStatus.layout) (t := 16) (by decide) h2,
      pack_lt (L := Dis.ModeSLevelsPresent.layout) (t := 8) (by decide) h3, g1, by omega, h7, fun x hx => h8 x hx, a.toNat_lt, g2,
      pack_lt (L := Dis.DapSource.layout) (t := 8) (by decide) h4, pack_lt (L := Dis.ModeSAltitude.layout) (t := 16) (by decide) h5, c.toNat_lt⟩
theorem layers_bits {f : Dis.FundamentalOperationalData} (h : Dis.InformationLayers.layout.Fits f.information_layers) (k : Nat)
    (hk : k ∈ [2, 3, 4, 5]) : (opDataEnc f).layer k = true ↔ Dis.layerPresent f k := by
  unfold Cdis.OperationalData.layer Dis.layerPresent
  show Nat.testBit (pack Dis.InformationLayers.wr f.information_layers) (7 - k) = true ↔ _
  match f.information_layers, h with
  | [a, b, c, d, e, g, i], ⟨ha, hb, hc, hd, he, hg, hi, _⟩ =>
    have ha' : a < 2 := ha
    have hb' : b < 2 := hb
    have hc' : c < 2 := hc
    have hd' : d < 2 := hd
    have he' : e < 2 := he
    have hg' : g < 2 := hg
    have hi' : i < 2 := hi
    rcases (by omega : a = 0 ∨ a = 1) with rfl | rfl <;> rcases (by omega : b = 0 ∨ b = 1) with rfl | rfl <;>
    rcases (by omega : c = 0 ∨ c = 1) with rfl | rfl <;> rcases (by omega : d = 0 ∨ d = 1) with rfl | rfl <;>
    rcases (by omega : e = 0 ∨ e = 1) with rfl | rfl <;> rcases (by omega : g = 0 ∨ g = 1) with rfl | rfl <;>
    rcases (by omega : i = 0 ∨ i = 1) with rfl | rfl <;> revert k <;> decide
theorem some_of_present {α β : Type} {P : Prop} {c : Bool} {o : Option α} {f : α → β} (h : P ↔ o ≠ none) (hc : c = true ↔ P) :
    (o.map f).isSome = c := by
  cases o <;> cases c <;> simp_all
theorem layers5_lt {v : Packed} (h : Dis.InformationLayers.layout.Fits v) (h0 : v.getD 0 0 = 0) : pack Dis.InformationLayers.wr v < 2 ^ 6 := by
  match v, h with
  | [a, b, c, d, e, g, i], ⟨ha, hb, hc, hd, he, hg, hi, _⟩ =>
    have h0 : a = 0 := h0
    subst h0
    have := pack_lt (L := [(5, 1), (4, 1), (3, 1), (2, 1), (1, 1), (0, 1)]) (t := 6) (vs := [b, c, d, e, g, i]) (by decide)
      ⟨hb, hc, hd, he, hg, hi, trivial⟩
    have e : pack Dis.InformationLayers.wr [0, b, c, d, e, g, i] = pack [5, 4, 3, 2, 1, 0] [b, c, d, e, g, i] := by
      simp [pack, Dis.InformationLayers.wr]
    rw [e]
    exact this

/-- what arrives of layer 2 -/
def layer2WireQ (x : Dis.IffLayer2) : Dis.IffLayer2 := { layer2Q x with beam_data := beamWireQ x.beam_data }

theorem optAll_map {α β : Type} {o : Option α} {f : α → β} {P : β → Prop} (h : ∀ a, o = some a → P (f a)) : Cdis.OptAll P (o.map f) := by
  cases o with
  | none => trivial
  | some a => exact h a rfl

section
variable {env : Env} {o : Options} {h : Dis.PduHeader} (hst : (h.pdu_status.getD {}).Wf h.pdu_type) (hm : o.update_mode = .full)
include hst hm

theorem arrives_iff (x : Dis.Iff) (ht : h.pdu_type = 28) (hf : IffFits env x) :
    Arrives env o ⟨h, .iff x⟩ (received h (.iff { x with
      relative_antenna_location := coordQ x.relative_antenna_location
      fundamental_operational_data := operationalQ x.fundamental_operational_data
      layer_2 := x.layer_2.map layer2WireQ, layer_3 := x.layer_3.map layer3Q
      layer_4 := x.layer_4.map layer4Q, layer_5 := x.layer_5.map layer5Q })) := by
  have ho : ({ o with update_mode := .full } : Options) = o := by cases o; cases hm; rfl
  have hb : ∀ now s, (bodyEnc env o now s (.iff x)).map (·.1) = some (.iff (iffEnc o 0 none x).1) := by
    intro now s
    simp [bodyEnc, iffEncodeBody, iffEnc, hm]
  have hom (st : Option Nat) (now : Nat) : (decide (o.update_mode = .partial) && st.any (fun hb => !timedOut o.heartbeats.iff o.mplier now hb)) = false := by
    simp [hm]
  have hsys : x.system_id.system_type.toNat < 16 := hf.system.1
  refine arrives_fit (o1 := { o with update_mode := .full }) _ (.iff (iffEnc o 0 none x).1) hb hst rfl ?_ ?_ ?_ ht.symm
  · refine ⟨by rw [ht]; rfl, ?_⟩
    simp only [iffEnc, hom]
    have hk : Cdis.iffKind env.toEnv (some (sysIdEnc x.system_id)) = env.iffClass x.system_id.system_type := by
      simp [Cdis.iffKind, sysIdEnc]
    refine ⟨?_, eid_wf _, ?_, ?_, ⟨hsys, hf.system.2.1, hf.system.2.2, pack_lt (L := Dis.ChangeOptions.layout) (t := 8) (by decide) hf.wf.options⟩,
      x.system_designator.toNat_lt, nz_all x.system_specific_data.toNat_lt,
      ⟨pack_lt (L := Dis.SystemStatus.layout) (t := 8) (by decide) hf.wf.status, nz_all (UInt8.toNat_lt _),
        pack_lt (L := Dis.InformationLayers.layout) (t := 7) (by decide) hf.wf.layers, nz_all (UInt8.toNat_lt _), nz_all (UInt16.toNat_lt _),
        nz_all (UInt16.toNat_lt _), nz_all (UInt16.toNat_lt _), nz_all (UInt16.toNat_lt _), nz_all (UInt16.toNat_lt _), nz_all (UInt16.toNat_lt _)⟩,
      some_of_present hf.wf.p2 (layers_bits hf.wf.layers 2 (by decide)), some_of_present hf.wf.p3 (layers_bits hf.wf.layers 3 (by decide)),
      some_of_present hf.wf.p4 (layers_bits hf.wf.layers 4 (by decide)), some_of_present hf.wf.p5 (layers_bits hf.wf.layers 5 (by decide)),
      optAll_map fun l hl => ?_, optAll_map fun l hl => ?_, optAll_map fun l hl => ?_, optAll_map fun l hl => ?_⟩ <;> try dsimp only
    · split
      · exact (by decide : CM < 2)
      · exact (coord_in _).2
    · split
      · trivial
      · exact evid_wf _
    · split
      · trivial
      · exact (coord_in _).1
    · obtain ⟨h1, h2, h3, h4⟩ := hf.layer2 l hl
      refine ⟨⟨h1, l.layer_header.layer_specific_information.toNat_lt⟩, beam_fits h2, l.operational_parameter_1.toNat_lt,
        l.operational_parameter_2.toNat_lt, ?_, fun p hp => ?_⟩
      · show (List.map _ _).length < 256
        rw [List.length_map]; omega
      · obtain ⟨a, ha, rfl⟩ := List.mem_map.1 hp
        exact iffParam_wf (h4 a ha)
    · obtain ⟨h1, h2, h3⟩ := hf.layer3 l hl
      rw [if_neg (by decide), hk]
      exact ⟨⟨h1, l.layer_header.layer_specific_information.toNat_lt⟩, l.reporting_simulation.site_id.toNat_lt,
        l.reporting_simulation.application_id.toNat_lt, mode5_wf (hf.wf.l3 l hl).basic h2, iffRecs_ok h3⟩
    · obtain ⟨h1, h2, h3⟩ := hf.layer4 l hl
      rw [if_neg (by decide), hk]
      exact ⟨⟨h1, l.layer_header.layer_specific_information.toNat_lt⟩, l.reporting_simulation.site_id.toNat_lt,
        l.reporting_simulation.application_id.toNat_lt, modeS_wf (hf.wf.l4 l hl).basic h2, iffRecs_ok h3⟩
    · obtain ⟨h1, h2, h3, h4⟩ := hf.layer5 l hl
      exact ⟨⟨h1, l.layer_header.layer_specific_information.toNat_lt⟩, l.reporting_simulation.site_id.toNat_lt,
        l.reporting_simulation.application_id.toNat_lt, layers5_lt (hf.wf.l5 l hl).layers h2, h3, iffRecs_ok h4⟩
  · simp [iffEnc, hm, SelfContained, Cdis.CdisBody.wire, Cdis.Iff.wire]
  · have h52 := C52_iff o hf.wf hf.forced
    have e : (iffDec o none (iffEnc o 0 none x).1.wire).1 = { (iffDec o none (iffEnc o 0 none x).1).1 with
          layer_2 := x.layer_2.map layer2WireQ } := by
      have e2 : ∀ l : Dis.IffLayer2, layer2Dec (layer2Enc l).wire = layer2WireQ l := by
        intro l
        have := layer2_rt l
        unfold layer2WireQ
        rw [← this]
        simp [layer2Dec, layer2Enc, Cdis.IffLayer2.wire, Cdis.LayerHeader.wireWith, layerHeaderDec, beamWireQ, beamDec, beamEnc,
          Cdis.BeamData.wire, layerHeaderEnc, Dis.IffLayer2.dataLen]
      have e3 : ∀ l : Dis.IffLayer3, layer3Dec (layer3Enc l).wire = layer3Dec (layer3Enc l) := fun l => rfl
      have e4 : ∀ l : Dis.IffLayer4, layer4Dec (layer4Enc l).wire = layer4Dec (layer4Enc l) := fun l => rfl
      have e5 : ∀ l : Dis.IffLayer5, layer5Dec (layer5Enc l).wire = layer5Dec (layer5Enc l) := fun l => rfl
      simp only [iffEnc, iffDec, Cdis.Iff.wire, hom, Option.map_map, Function.comp_def, e2, e3, e4, e5]
    simp only [oneShot, bodyEnc, iffEncodeBody, bodyDec, iffDecodeBody, Option.map_some, Option.some.injEq, Dis.Body.iff.injEq] at h52
    rw [ho] at h52 ⊢
    simp only [bodyDec, Cdis.CdisBody.wire, iffDecodeBody]
    rw [e, h52]
end
end Verif.Props
