import Verif.Cdis.Radio

/-! # C-DIS Electromagnetic Emission body -/

namespace Verif.Cdis
open Verif.P

/-- records/model.rs:257-263 `BeamData` -/
structure BeamData where
  az_center : Int
  az_sweep : Int
  el_center : Int
  el_sweep : Int
  sweep_sync : Nat
  deriving Repr, DecidableEq
/-- records/writer.rs:333-344: the azimuth centre is written four times. -/
def BeamData.ser (v : BeamData) : Bits :=
  sv13.ser v.az_center ++ sv13.ser v.az_center ++ sv13.ser v.az_center ++ sv13.ser v.az_center ++ wU 10 v.sweep_sync
/-- records/parser.rs:545-559 -/
def BeamData.parse : BitP BeamData := do
  let az_center ← sv13.parse
  let az_sweep ← sv13.parse
  let el_center ← sv13.parse
  let el_sweep ← sv13.parse
  let sweep_sync ← rU 10
  pure ⟨az_center, az_sweep, el_center, el_sweep, sweep_sync⟩
/-- records/model.rs:265-274 -/
def BeamData.lenBits (v : BeamData) : Nat :=
  10 + sv13.lenBits v.az_center + sv13.lenBits v.az_sweep + sv13.lenBits v.el_center + sv13.lenBits v.el_sweep
/-- What is written fits. -/
def BeamData.Fits (v : BeamData) : Prop := InS 13 v.az_center ∧ v.sweep_sync < 2 ^ 10
instance (v : BeamData) : Decidable v.Fits := inferInstanceAs (Decidable (_ ∧ _))
/-- What arrives. -/
def BeamData.wire (v : BeamData) : BeamData := ⟨v.az_center, v.az_center, v.az_center, v.az_center, v.sweep_sync⟩
theorem BeamData.run {v : BeamData} (h : v.Fits) (r : Bits) : BeamData.parse.run (v.ser ++ r) = .ok v.wire r := by
  obtain ⟨h1, h2⟩ := h
  simp only [BeamData.parse, BeamData.ser, List.append_assoc, rt, h1, h2, BeamData.wire]
theorem BeamData.length_ser (v : BeamData) : v.ser.length = v.wire.lenBits := by
  simp only [BeamData.ser, BeamData.wire, BeamData.lenBits, len]; omega
instance : P.Stable BeamData.parse := by unfold BeamData.parse; parser_ok
instance : P.Safe BeamData.parse := by unfold BeamData.parse; parser_ok

/-- electromagnetic_emission/model.rs:155-158 `PulseWidthFloat` -/
structure PulseWidthFloat where
  mantissa : Nat
  exponent : Int
  deriving Repr, DecidableEq
/-- electromagnetic_emission/model.rs:58-64 -/
structure FundamentalParameter where
  frequency : DecFloat
  frequency_range : DecFloat
  erp : Nat
  prf : Nat
  pulse_width : PulseWidthFloat
  deriving Repr, DecidableEq
/-- electromagnetic_emission/writer.rs:36-47, model.rs:205-210 -/
def FundamentalParameter.ser (v : FundamentalParameter) : Bits :=
  v.frequency.ser 17 ++ v.frequency_range.ser 17 ++ wU 8 v.erp ++ wUV16 v.prf ++ wU 14 v.pulse_width.mantissa
    ++ wS 3 v.pulse_width.exponent
/-- electromagnetic_emission/parser.rs:50-64, model.rs:193-202 -/
def FundamentalParameter.parse : BitP FundamentalParameter := do
  let frequency ← DecFloat.parse 17
  let frequency_range ← DecFloat.parse 17
  let erp ← rU 8
  let prf ← rUV16
  let mantissa ← rU 14
  let exponent ← rS 3
  pure ⟨frequency, frequency_range, erp, prf, ⟨mantissa, exponent⟩⟩
/-- electromagnetic_emission/model.rs:66-71 -/
def FundamentalParameter.lenBits (v : FundamentalParameter) : Nat := 67 + uv16.lenBits v.prf
def FundamentalParameter.Wf (v : FundamentalParameter) : Prop :=
  v.frequency.Wf 17 ∧ v.frequency_range.Wf 17 ∧ v.erp < 2 ^ 8 ∧ v.prf < 65536 ∧ v.pulse_width.mantissa < 2 ^ 14
  ∧ InS 3 v.pulse_width.exponent
instance (v : FundamentalParameter) : Decidable v.Wf := inferInstanceAs (Decidable (_ ∧ _))
theorem FundamentalParameter.run {v : FundamentalParameter} (h : v.Wf) (r : Bits) :
    FundamentalParameter.parse.run (v.ser ++ r) = .ok v r := by
  obtain ⟨h1, h2, h3, h4, h5, h6⟩ := h
  simp only [FundamentalParameter.parse, FundamentalParameter.ser, List.append_assoc, rt, DecFloat.run h1,
    DecFloat.run h2, h3, h4, h5, h6]
theorem FundamentalParameter.length_ser (v : FundamentalParameter) : v.ser.length = v.lenBits := by
  simp only [FundamentalParameter.ser, FundamentalParameter.lenBits, len, DecFloat.length_ser,
    length_wS _ (by decide : 0 < 3)]
  omega
instance : P.Stable FundamentalParameter.parse := by unfold FundamentalParameter.parse; parser_ok
instance : P.Safe FundamentalParameter.parse := by unfold FundamentalParameter.parse; parser_ok

/-- electromagnetic_emission/model.rs:74-77 -/
structure SiteAppPair where
  site : Nat
  application : Nat
  deriving Repr, DecidableEq
/-- electromagnetic_emission/writer.rs:49-57 -/
def SiteAppPair.ser (v : SiteAppPair) : Bits := wUV16 v.site ++ wUV16 v.application
/-- electromagnetic_emission/parser.rs:66-74 -/
def SiteAppPair.parse : BitP SiteAppPair := do
  let site ← rUV16
  let application ← rUV16
  pure ⟨site, application⟩
/-- electromagnetic_emission/model.rs:79-84 -/
def SiteAppPair.lenBits (v : SiteAppPair) : Nat := uv16.lenBits v.site + uv16.lenBits v.application
def SiteAppPair.Wf (v : SiteAppPair) : Prop := v.site < 65536 ∧ v.application < 65536
instance (v : SiteAppPair) : Decidable v.Wf := inferInstanceAs (Decidable (_ ∧ _))
theorem SiteAppPair.run {v : SiteAppPair} (h : v.Wf) (r : Bits) : SiteAppPair.parse.run (v.ser ++ r) = .ok v r := by
  obtain ⟨h1, h2⟩ := h
  simp only [SiteAppPair.parse, SiteAppPair.ser, List.append_assoc, rt, *]
theorem SiteAppPair.length_ser (v : SiteAppPair) : v.ser.length = v.lenBits := by
  simp only [SiteAppPair.ser, SiteAppPair.lenBits, len]
instance : P.Stable SiteAppPair.parse := by unfold SiteAppPair.parse; parser_ok
instance : P.Safe SiteAppPair.parse := by unfold SiteAppPair.parse; parser_ok

/-- electromagnetic_emission/model.rs:137-142 -/
structure TrackJam where
  site_app_pair_index : Nat
  entity_id : Nat
  emitter_number : Option Nat
  beam_number : Option Nat
  deriving Repr, DecidableEq
/-- electromagnetic_emission/writer.rs:134-149: the index takes six bits. -/
def TrackJam.ser (v : TrackJam) : Bits :=
  wU 6 v.site_app_pair_index ++ wUV16 v.entity_id ++ wOpt wUV8 v.emitter_number ++ wOpt wUV8 v.beam_number
/-- electromagnetic_emission/parser.rs:181-200: the index is read from four bits. -/
def TrackJam.parse (c : Bool) : BitP TrackJam := do
  let site_app_pair_index ← rU 4
  let entity_id ← rUV16
  let emitter_number ← rWhen c rUV8
  let beam_number ← rWhen c rUV8
  pure ⟨site_app_pair_index, entity_id, emitter_number, beam_number⟩
/-- electromagnetic_emission/model.rs:144-152 -/
def TrackJam.lenBits (v : TrackJam) : Nat :=
  6 + uv16.lenBits v.entity_id + lOpt lUV8 v.emitter_number + lOpt lUV8 v.beam_number
theorem TrackJam.length_ser (v : TrackJam) : v.ser.length = v.lenBits := by
  simp only [TrackJam.ser, TrackJam.lenBits, len]
instance (c : Bool) : P.Stable (TrackJam.parse c) := by unfold TrackJam.parse; parser_ok
instance (c : Bool) : P.Safe (TrackJam.parse c) := by unfold TrackJam.parse; parser_ok

/-- electromagnetic_emission/model.rs:108-121 -/
structure EmitterBeam where
  beam_id : Nat
  beam_parameter_index : Nat
  fundamental_params_index : Option Nat
  beam_data_index : Option Nat
  beam_function : Nat
  high_density_track_jam : Nat
  beam_status : Bool
  jam_kind : Option Nat
  jam_category : Option Nat
  jam_subcategory : Option Nat
  jam_specific : Option Nat
  track_jam : List TrackJam
  deriving Repr, DecidableEq
/-- electromagnetic_emission/writer.rs:94-96 -/
def EmitterBeam.trackFlag (v : EmitterBeam) : Bool :=
  match v.track_jam with
  | t :: _ => t.beam_number.isSome && t.emitter_number.isSome
  | [] => false
/-- electromagnetic_emission/writer.rs:88-132 -/
def EmitterBeam.ser (v : EmitterBeam) : Bits :=
  (wU 1 v.fundamental_params_index.isSome.toNat ++ wU 1 v.beam_data_index.isSome.toNat ++ wU 1 v.jam_kind.isSome.toNat
    ++ wU 1 v.trackFlag.toNat ++ wUV8 v.beam_id ++ wU 16 v.beam_parameter_index)
  ++ (wOpt (wU 5) v.fundamental_params_index ++ wOpt (wU 5) v.beam_data_index ++ wU 5 v.beam_function
    ++ wU 4 v.track_jam.length ++ wU 1 v.high_density_track_jam ++ wU 1 v.beam_status.toNat)
  ++ (wOpt wUV8 v.jam_kind ++ wOpt wUV8 v.jam_category ++ wOpt wUV8 v.jam_subcategory ++ wOpt wUV8 v.jam_specific
    ++ v.track_jam.flatMap TrackJam.ser)
/-- electromagnetic_emission/parser.rs:114-179 -/
def EmitterBeam.parse : BitP EmitterBeam := do
  let a ← rU 1
  let b ← rU 1
  let c ← rU 1
  let d ← rU 1
  let beam_id ← rUV8
  let beam_parameter_index ← rU 16
  let fundamental_params_index ← rWhen (a != 0) (rU 5)
  let beam_data_index ← rWhen (b != 0) (rU 5)
  let beam_function ← rU 5
  let n ← rU 4
  let high_density_track_jam ← rU 1
  let status ← rU 1
  let jam_kind ← rWhen (c != 0) rUV8
  let jam_category ← rWhen (c != 0) rUV8
  let jam_subcategory ← rWhen (c != 0) rUV8
  let jam_specific ← rWhen (c != 0) rUV8
  let track_jam ← P.count (TrackJam.parse (d != 0)) n
  pure ⟨beam_id, beam_parameter_index, fundamental_params_index, beam_data_index, beam_function,
    high_density_track_jam, status != 0, jam_kind, jam_category, jam_subcategory, jam_specific, track_jam⟩
/-- electromagnetic_emission/model.rs:123-134: both indices are counted, present or not. -/
def EmitterBeam.lenBits (v : EmitterBeam) : Nat :=
  4 + 16 + 21 + lUV8 v.beam_id + lOpt lUV8 v.jam_kind + lOpt lUV8 v.jam_category + lOpt lUV8 v.jam_subcategory
    + lOpt lUV8 v.jam_specific + (v.track_jam.map TrackJam.lenBits).sum
def EmitterBeam.Wf (v : EmitterBeam) : Prop :=
  v.beam_id < 256 ∧ v.beam_parameter_index < 2 ^ 16 ∧ OptAll (· < 2 ^ 5) v.fundamental_params_index
  ∧ OptAll (· < 2 ^ 5) v.beam_data_index ∧ v.beam_function < 2 ^ 5 ∧ v.high_density_track_jam < 2 ^ 1
  ∧ OptAll (· < 256) v.jam_kind ∧ OptAll (· < 256) v.jam_category ∧ OptAll (· < 256) v.jam_subcategory
  ∧ OptAll (· < 256) v.jam_specific ∧ v.jam_category.isSome = v.jam_kind.isSome
  ∧ v.jam_subcategory.isSome = v.jam_kind.isSome ∧ v.jam_specific.isSome = v.jam_kind.isSome
/-- A beam without targets is read back. -/
theorem EmitterBeam.run {v : EmitterBeam} (h : v.Wf) (ht : v.track_jam = []) (r : Bits) :
    EmitterBeam.parse.run (v.ser ++ r) = .ok v r := by
  obtain ⟨h1, h2, h3, h4, h5, h6, h7, h8, h9, h10, e1, e2, e3⟩ := h
  cases v with
  | mk i p f b fn hd st k c s sp tj =>
    simp only at h1 h2 h3 h4 h5 h6 h7 h8 h9 h10 e1 e2 e3 ht
    subst ht
    simp only [EmitterBeam.parse, EmitterBeam.ser, List.append_assoc, rt, h1, h2, h3, h4, h5, h6, toNat_lt_pow, toNat_bne,
      h7, rWhen_if (fun x h r => rUV8_run x r h) e1 h8, rWhen_if (fun x h r => rUV8_run x r h) e2 h9,
      rWhen_if (fun x h r => rUV8_run x r h) e3 h10, List.length_nil, rU_run 4 0 _ (by decide), List.flatMap_nil,
      List.nil_append, P.count]
/-- The bits announced but not written: five for each absent index. -/
theorem EmitterBeam.length_excess (v : EmitterBeam) :
    v.ser.length + ((if v.fundamental_params_index.isSome then 0 else 5) + (if v.beam_data_index.isSome then 0 else 5))
      = v.lenBits := by
  have a1 := lOpt_const 5 v.fundamental_params_index
  have a2 := lOpt_const 5 v.beam_data_index
  simp only [EmitterBeam.ser, EmitterBeam.lenBits, len,
    length_flatMap_sum (l := TrackJam.lenBits) (q := fun _ => True) (fun x _ => TrackJam.length_ser x) v.track_jam
      (fun _ _ => trivial)]
  omega
instance : P.Stable EmitterBeam.parse := by unfold EmitterBeam.parse; parser_ok
instance : P.Safe EmitterBeam.parse := by unfold EmitterBeam.parse; parser_ok

/-- electromagnetic_emission/model.rs:87-93 -/
structure EmitterSystem where
  name : Option Nat
  function : Option Nat
  number : Nat
  location : Option Vec3
  emitter_beams : List EmitterBeam
  deriving Repr, DecidableEq
/-- electromagnetic_emission/writer.rs:63, 68 -/
def EmitterSystem.hasDetails (v : EmitterSystem) : Bool := v.name.isSome && v.function.isSome
/-- electromagnetic_emission/writer.rs:59-86: the emitter number is not written. -/
def EmitterSystem.ser (v : EmitterSystem) : Bits :=
  wU 1 v.hasDetails.toNat ++ wU 1 v.location.isSome.toNat ++ wU 5 (v.emitter_beams.length % 256)
    ++ (if v.hasDetails then wOpt (wU 16) v.name ++ wOpt (wU 8) v.function else [])
    ++ wOpt (Vec3.ser sv16) v.location ++ v.emitter_beams.flatMap EmitterBeam.ser
/-- electromagnetic_emission/parser.rs:76-112: the emitter number is read. -/
def EmitterSystem.parse : BitP EmitterSystem := do
  let a ← rU 1
  let b ← rU 1
  let n ← rU 5
  let name ← rWhen (a != 0) (rU 16)
  let function ← rWhen (a != 0) (rU 8)
  let number ← rUV8
  let location ← rWhen (b != 0) (Vec3.parse sv16)
  let emitter_beams ← P.count EmitterBeam.parse n
  pure ⟨name, function, number, location, emitter_beams⟩
/-- electromagnetic_emission/model.rs:95-105 -/
def EmitterSystem.lenBits (v : EmitterSystem) : Nat :=
  7 + lOpt (fun _ => 16) v.name + lOpt (fun _ => 8) v.function + lUV8 v.number + lOpt (Vec3.lenBits sv16) v.location
    + (v.emitter_beams.map EmitterBeam.lenBits).sum
instance : P.Stable EmitterSystem.parse := by unfold EmitterSystem.parse; parser_ok
instance : P.Safe EmitterSystem.parse := by unfold EmitterSystem.parse; parser_ok

/-- electromagnetic_emission/model.rs:12-21 -/
structure ElectromagneticEmission where
  full_update_flag : Bool
  emitting_id : EntityId
  event_id : EntityId
  state_update_indicator : Nat
  fundamental_params : List FundamentalParameter
  beam_data : List BeamData
  site_app_pairs : List SiteAppPair
  emitter_systems : List EmitterSystem
  deriving Repr, DecidableEq
/-- electromagnetic_emission/writer.rs:7-34 -/
def ElectromagneticEmission.ser (v : ElectromagneticEmission) : Bits :=
  (wU 1 v.full_update_flag.toNat ++ wU 5 v.fundamental_params.length ++ wU 5 v.beam_data.length
    ++ wU 5 v.site_app_pairs.length ++ v.emitting_id.ser ++ v.event_id.ser ++ wU 1 v.state_update_indicator)
  ++ (wCount8 v.emitter_systems ++ v.fundamental_params.flatMap FundamentalParameter.ser
    ++ v.beam_data.flatMap BeamData.ser ++ v.site_app_pairs.flatMap SiteAppPair.ser
    ++ v.emitter_systems.flatMap EmitterSystem.ser)
/-- electromagnetic_emission/parser.rs:16-48 -/
def ElectromagneticEmission.parse : BitP ElectromagneticEmission := do
  let full ← rU 1
  let nf ← rU 5
  let nb ← rU 5
  let np ← rU 5
  let emitting_id ← EntityId.parse
  let event_id ← EntityId.parse
  let state_update_indicator ← rU 1
  let ns ← rUV8
  let fundamental_params ← P.count FundamentalParameter.parse nf
  let beam_data ← P.count BeamData.parse nb
  let site_app_pairs ← P.count SiteAppPair.parse np
  let emitter_systems ← P.count EmitterSystem.parse ns
  pure ⟨full != 0, emitting_id, event_id, state_update_indicator, fundamental_params, beam_data, site_app_pairs,
    emitter_systems⟩
/-- electromagnetic_emission/model.rs:30-40 -/
def ElectromagneticEmission.lenBits (v : ElectromagneticEmission) : Nat :=
  18 + v.emitting_id.lenBits + v.event_id.lenBits + lUV8 (v.emitter_systems.length % 256)
    + (v.fundamental_params.map FundamentalParameter.lenBits).sum + (v.beam_data.map BeamData.lenBits).sum
    + (v.site_app_pairs.map SiteAppPair.lenBits).sum + (v.emitter_systems.map EmitterSystem.lenBits).sum
/-- The emissions that arrive: everything fits, and there is no emitter system. -/
def ElectromagneticEmission.Wf (v : ElectromagneticEmission) : Prop :=
  v.emitting_id.Wf ∧ v.event_id.Wf ∧ v.state_update_indicator < 2 ^ 1
  ∧ v.fundamental_params.length < 2 ^ 5 ∧ v.beam_data.length < 2 ^ 5 ∧ v.site_app_pairs.length < 2 ^ 5
  ∧ (∀ x ∈ v.fundamental_params, x.Wf) ∧ (∀ x ∈ v.beam_data, x.Fits) ∧ (∀ x ∈ v.site_app_pairs, x.Wf)
  ∧ v.emitter_systems = []
/-- What arrives. -/
def ElectromagneticEmission.wire (v : ElectromagneticEmission) : ElectromagneticEmission :=
  { v with beam_data := v.beam_data.map BeamData.wire }

theorem run_count_map {α : Type} {p : BitP α} {w : α → Bits} {f : α → α} (l : List α) (r : Bits)
    (h : ∀ x ∈ l, ∀ r, p.run (w x ++ r) = .ok (f x) r) :
    (P.count p l.length).run (l.flatMap w ++ r) = .ok (l.map f) r := by
  induction l with
  | nil => simp [P.count]
  | cons x xs ih =>
    simp only [List.length_cons, P.count, List.flatMap_cons, List.append_assoc, rt, h x (by simp),
      ih fun y hy => h y (by simp [hy]), List.map_cons]
theorem ElectromagneticEmission.run {v : ElectromagneticEmission} (h : v.Wf) (r : Bits) :
    ElectromagneticEmission.parse.run (v.ser ++ r) = .ok v.wire r := by
  obtain ⟨h1, h2, h3, h4, h5, h6, h7, h8, h9, h10⟩ := h
  have e : wCount8 ([] : List EmitterSystem) = wUV8 0 := id rfl
  simp only [ElectromagneticEmission.parse, ElectromagneticEmission.ser, List.append_assoc, rt, h1, h2, h3, h4, h5, h6,
    toNat_lt_pow, toNat_bne, e, rUV8_run 0 _ (by decide),
    run_count v.fundamental_params _ fun x hx r => FundamentalParameter.run (h7 x hx) r,
    run_count_map v.beam_data _ fun x hx r => BeamData.run (h8 x hx) r,
    run_count v.site_app_pairs _ fun x hx r => SiteAppPair.run (h9 x hx) r, P.count, h10, List.flatMap_nil,
    List.nil_append, ElectromagneticEmission.wire]
/-- The length computed for the body that arrives is one bit more than what was written (18 fixed bits are counted,
17 are written). -/
theorem ElectromagneticEmission.length_excess {v : ElectromagneticEmission} (h : v.emitter_systems = []) :
    v.ser.length + 1 = v.wire.lenBits := by
  have hb : (v.beam_data.flatMap BeamData.ser).length = (v.wire.beam_data.map BeamData.lenBits).sum := by
    rw [length_flatMap_sum (l := fun b => (BeamData.wire b).lenBits) (q := fun _ => True)
      (fun x _ => BeamData.length_ser x) v.beam_data (fun _ _ => trivial)]
    simp [ElectromagneticEmission.wire, Function.comp_def]
  have hf := length_flatMap_sum (l := FundamentalParameter.lenBits) (q := fun _ => True)
    (fun x _ => FundamentalParameter.length_ser x) v.fundamental_params (fun _ _ => trivial)
  have hp := length_flatMap_sum (l := SiteAppPair.lenBits) (q := fun _ => True)
    (fun x _ => SiteAppPair.length_ser x) v.site_app_pairs (fun _ _ => trivial)
  have hw : v.wire.emitting_id = v.emitting_id ∧ v.wire.event_id = v.event_id
      ∧ v.wire.fundamental_params = v.fundamental_params ∧ v.wire.site_app_pairs = v.site_app_pairs
      ∧ v.wire.emitter_systems = [] := ⟨rfl, rfl, rfl, rfl, h⟩
  obtain ⟨w1, w2, w3, w4, w5⟩ := hw
  simp only [ElectromagneticEmission.ser, ElectromagneticEmission.lenBits, len, hb, hf, hp, wCount8, h, w1, w2, w3, w4, w5,
    List.flatMap_nil, List.length_nil, List.map_nil, List.sum_nil]
  omega
instance : P.Stable ElectromagneticEmission.parse := by unfold ElectromagneticEmission.parse; parser_ok
instance : P.Safe ElectromagneticEmission.parse := by unfold ElectromagneticEmission.parse; parser_ok

end Verif.Cdis
