import Verif.Props.CdisPdu
import Mathlib.Data.List.Forall2

/-!
# C35: Electromagnetic Emission PDUs of other senders

This library writes emission PDUs it cannot read back (C35_emitter_system_violated).  What it does with those of a sender that writes
every field: they are read as they are.
-/

namespace Verif.Props
open Verif Verif.Cdis

/-! ## Specification: the records as a sender writes them that leaves nothing out -/

/-- a flag is one bit -/
def flag (b : Bool) : Cdis.Bits := [b]
/-- a track or jam: index of the site and application, entity, and when announced its emitter and beam numbers -/
def trackBits (v : TrackJam) : Cdis.Bits :=
  wU 4 v.site_app_pair_index ++ wUV16 v.entity_id ++ wOpt wUV8 v.emitter_number ++ wOpt wUV8 v.beam_number
/-- a beam: four flags (fundamental parameters, beam data, jamming technique, numbers of the tracked emitters and beams), number and
parameter index, the announced indices, function, number of tracks, high density and status flags, the announced technique, the tracks -/
def beamBits (tracks : Bool) (v : EmitterBeam) : Cdis.Bits :=
  flag v.fundamental_params_index.isSome ++ flag v.beam_data_index.isSome ++ flag v.jam_kind.isSome ++ flag tracks
  ++ wUV8 v.beam_id ++ wU 16 v.beam_parameter_index
  ++ wOpt (wU 5) v.fundamental_params_index ++ wOpt (wU 5) v.beam_data_index
  ++ wU 5 v.beam_function ++ wU 4 v.track_jam.length ++ wU 1 v.high_density_track_jam ++ flag v.beam_status
  ++ wOpt wUV8 v.jam_kind ++ wOpt wUV8 v.jam_category ++ wOpt wUV8 v.jam_subcategory ++ wOpt wUV8 v.jam_specific
  ++ v.track_jam.flatMap trackBits
/-- an emitter system: two flags (name and function, location), number of beams, the announced name and function, the emitter number, the
announced location, the beams -/
def systemBits (v : EmitterSystem) (beams : Cdis.Bits) : Cdis.Bits :=
  flag v.name.isSome ++ flag v.location.isSome ++ wU 5 v.emitter_beams.length ++ wOpt (wU 16) v.name ++ wOpt (wU 8) v.function
  ++ wUV8 v.number ++ wOpt (Vec3.ser sv16) v.location ++ beams
/-- beam data: azimuth centre and sweep, elevation centre and sweep, sweep synchronisation -/
def beamDataBits (v : BeamData) : Cdis.Bits :=
  sv13.ser v.az_center ++ sv13.ser v.az_sweep ++ sv13.ser v.el_center ++ sv13.ser v.el_sweep ++ wU 10 v.sweep_sync

/-- the values fit their fields -/
def TrackFits (tracks : Bool) (v : TrackJam) : Prop :=
  v.site_app_pair_index < 16 ∧ v.entity_id < 65536 ∧ OptAll (· < 256) v.emitter_number ∧ OptAll (· < 256) v.beam_number ∧
  v.emitter_number.isSome = tracks ∧ v.beam_number.isSome = tracks
def CBeamFits (tracks : Bool) (v : EmitterBeam) : Prop := v.Wf ∧ v.track_jam.length < 16 ∧ ∀ t ∈ v.track_jam, TrackFits tracks t
def SystemFits (v : EmitterSystem) : Prop :=
  OptAll (· < 2 ^ 16) v.name ∧ OptAll (· < 2 ^ 8) v.function ∧ v.function.isSome = v.name.isSome ∧ v.number < 256 ∧
  OptAll (fun l => l.In 16) v.location ∧ v.emitter_beams.length < 32
def BeamDataFits (v : BeamData) : Prop :=
  InS 13 v.az_center ∧ InS 13 v.az_sweep ∧ InS 13 v.el_center ∧ InS 13 v.el_sweep ∧ v.sweep_sync < 2 ^ 10

/-! ## The readers -/

theorem flag_wU (b : Bool) : flag b = wU 1 b.toNat := by cases b <;> rfl

theorem track_read {f : Bool} {v : TrackJam} (h : TrackFits f v) (r : Cdis.Bits) : (TrackJam.parse f).run (trackBits v ++ r) = .ok v r := by
  obtain ⟨h1, h2, h3, h4, h5, h6⟩ := h
  simp only [TrackJam.parse, trackBits, List.append_assoc, rt, rU_run 4 _ _ h1, h2,
    rWhen_if (fun x h r => rUV8_run x r h) h5 h3, rWhen_if (fun x h r => rUV8_run x r h) h6 h4]
theorem beam_read {f : Bool} {v : EmitterBeam} (h : CBeamFits f v) (r : Cdis.Bits) :
    EmitterBeam.parse.run (beamBits f v ++ r) = .ok v r := by
  obtain ⟨⟨h1, h2, h3, h4, h5, h6, h7, h8, h9, h10, e1, e2, e3⟩, hl, ht⟩ := h
  obtain ⟨i, p, fi, b, fn, hd, st, k, c, s, sp, tj⟩ := v
  simp only at h1 h2 h3 h4 h5 h6 h7 h8 h9 h10 e1 e2 e3 ht hl
  simp only [EmitterBeam.parse, beamBits, flag_wU, List.append_assoc, rt, h1, h2, h3, h4, h5, h6, toNat_lt_pow, toNat_bne,
    h7, rWhen_if (fun x h r => rUV8_run x r h) e1 h8, rWhen_if (fun x h r => rUV8_run x r h) e2 h9,
    rWhen_if (fun x h r => rUV8_run x r h) e3 h10, rU_run 4 _ _ hl, P.run_count tj _ fun x hx r => track_read (ht x hx) r]
theorem system_read {v : EmitterSystem} (h : SystemFits v) {flags : List Bool} (hf : List.Forall₂ CBeamFits flags v.emitter_beams)
    (r : Cdis.Bits) :
    EmitterSystem.parse.run (systemBits v (List.zipWith beamBits flags v.emitter_beams).flatten ++ r) = .ok v r := by
  obtain ⟨h1, h2, h3, h4, h5, h6⟩ := h
  obtain ⟨nm, fn, nr, loc, beams⟩ := v
  simp only at h1 h2 h3 h4 h5 h6 hf
  have hb : ∀ r, (P.count EmitterBeam.parse beams.length).run ((List.zipWith beamBits flags beams).flatten ++ r) = .ok beams r := by
    clear h6
    induction hf with
    | nil => intro r; simp [P.count]
    | cons hx _ ih =>
      intro r
      simp only [List.length_cons, P.count, List.zipWith_cons_cons, List.flatten_cons, List.append_assoc, rt, beam_read hx, ih]
  simp only [EmitterSystem.parse, systemBits, flag_wU, List.append_assoc, rt, toNat_lt_pow, toNat_bne, rU_run 5 _ _ h6, h1,
    rWhen_if (fun x h r => rU_run 8 x r h) h3 h2, h4, rWhen_run (fun _ h r => Vec3.run16 h r) loc h5, hb]
theorem beam_data_read {v : BeamData} (h : BeamDataFits v) (r : Cdis.Bits) : BeamData.parse.run (beamDataBits v ++ r) = .ok v r := by
  obtain ⟨h1, h2, h3, h4, h5⟩ := h
  simp only [BeamData.parse, beamDataBits, List.append_assoc, rt, h1, h2, h3, h4, h5]

/-! ## C35 -/

/-- an emission PDU body as such a sender writes it; `flags` says for each beam whether its tracks carry emitter and beam numbers -/
def emissionBits (v : ElectromagneticEmission) (flags : List (List Bool)) : Cdis.Bits :=
  flag v.full_update_flag ++ wU 5 v.fundamental_params.length ++ wU 5 v.beam_data.length ++ wU 5 v.site_app_pairs.length
  ++ v.emitting_id.ser ++ v.event_id.ser ++ wU 1 v.state_update_indicator ++ wUV8 v.emitter_systems.length
  ++ v.fundamental_params.flatMap FundamentalParameter.ser ++ v.beam_data.flatMap beamDataBits ++ v.site_app_pairs.flatMap SiteAppPair.ser
  ++ (List.zipWith (fun f s => systemBits s (List.zipWith beamBits f s.emitter_beams).flatten) flags v.emitter_systems).flatten

/-- **C35.** An emission PDU of a sender that writes every field is read as it is, with the bits that follow untouched: any number of
fundamental parameters, beam data, sites, emitter systems, beams and tracks that the counts can announce. -/
theorem C35_emission_read {v : ElectromagneticEmission} (h1 : v.emitting_id.Wf) (h2 : v.event_id.Wf) (h3 : v.state_update_indicator < 2)
    (h4 : v.fundamental_params.length < 32 ∧ ∀ x ∈ v.fundamental_params, x.Wf) (h5 : v.beam_data.length < 32 ∧ ∀ x ∈ v.beam_data, BeamDataFits x)
    (h6 : v.site_app_pairs.length < 32 ∧ ∀ x ∈ v.site_app_pairs, x.Wf)
    (h7 : v.emitter_systems.length < 256 ∧ ∀ s ∈ v.emitter_systems, SystemFits s)
    {flags : List (List Bool)} (hf : List.Forall₂ (fun f (s : EmitterSystem) => List.Forall₂ CBeamFits f s.emitter_beams) flags v.emitter_systems)
    (r : Cdis.Bits) : ElectromagneticEmission.parse.run (emissionBits v flags ++ r) = .ok v r := by
  obtain ⟨h4, g4⟩ := h4
  obtain ⟨h5, g5⟩ := h5
  obtain ⟨h6, g6⟩ := h6
  obtain ⟨h7, g7⟩ := h7
  obtain ⟨full, em, ev, su, fps, bds, prs, sys⟩ := v
  simp only at *
  have hs : ∀ r, (P.count EmitterSystem.parse sys.length).run
      ((List.zipWith (fun f s => systemBits s (List.zipWith beamBits f s.emitter_beams).flatten) flags sys).flatten ++ r) = .ok sys r := by
    clear h7
    induction hf with
    | nil => intro r; simp [P.count]
    | cons hx _ ih =>
      intro r
      simp only [List.length_cons, P.count, List.zipWith_cons_cons, List.flatten_cons, List.append_assoc, rt,
        system_read (g7 _ (by simp)) hx, ih fun s hs => g7 s (by simp [hs])]
  simp only [ElectromagneticEmission.parse, emissionBits, flag_wU, List.append_assoc, rt, h1, h2, rU_run 1 _ _ h3, rU_run 5 _ _ h4,
    rU_run 5 _ _ h5, rU_run 5 _ _ h6, h7, toNat_lt_pow, toNat_bne,
    P.run_count fps _ fun x hx r => FundamentalParameter.run (g4 x hx) r,
    P.run_count bds _ fun x hx r => beam_data_read (g5 x hx) r,
    P.run_count prs _ fun x hx r => SiteAppPair.run (g6 x hx) r, hs]

/-- two systems, one beam with two tracks and one jamming beam -/
def sentEmission : ElectromagneticEmission :=
  ⟨true, ⟨1, 2, 3⟩, ⟨1, 2, 4⟩, 1, [⟨⟨500, 3⟩, ⟨20, 2⟩, 90, 1000, ⟨77, -1⟩⟩], [⟨-100, 200, 0, 300, 512⟩], [⟨10, 20⟩],
   [⟨some 1000, some 2, 7, some ⟨1, -2, 3⟩, [⟨1, 2, some 0, some 0, 3, 0, true, none, none, none, none, [⟨0, 99, some 1, some 2⟩, ⟨1, 98, some 4, some 5⟩]⟩,
     ⟨2, 2, none, none, 3, 1, false, some 1, some 2, some 3, some 4, []⟩]⟩, ⟨none, none, 8, none, []⟩]⟩
example (r : Cdis.Bits) := C35_emission_read (v := sentEmission) (by decide) (by decide) (by decide) (by decide) (by unfold BeamDataFits; decide)
  (by decide) (by unfold SystemFits; decide) (flags := [[true, false], []])
  (.cons (.cons (by unfold CBeamFits TrackFits EmitterBeam.Wf; decide) (.cons (by unfold CBeamFits TrackFits EmitterBeam.Wf; decide) .nil)) (.cons .nil .nil)) r

/-- **C35**, violated: nothing that is written depends on the emitter number, so no reader can give it back. -/
theorem C35_emitter_number_violated (v : EmitterSystem) (n : Nat) : { v with number := n }.ser = v.ser := rfl

end Verif.Props
