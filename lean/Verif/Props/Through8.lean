import Verif.Props.Through7
/-! # C57: PDUs that meet the hypotheses -/
namespace Verif.Props
open Verif.Codec

/-- InRange, as a test -/
instance (b : UInt32) (lo hi : Rat) : Decidable (InRange b lo hi) :=
  match h : v32 b with
  | .num q =>
    if hq : lo ≤ q ∧ q ≤ hi then isTrue ⟨q, h, hq.1, hq.2⟩
    else isFalse (by
      rintro ⟨q', h', h1, h2⟩
      rw [h] at h'
      cases h'
      exact hq ⟨h1, h2⟩)
  | .nan => isFalse (by rintro ⟨q, h', -⟩; rw [h] at h'; cases h')
  | .inf s => isFalse (by rintro ⟨q, h', -⟩; rw [h] at h'; cases h')

theorem codecEnv_world {l : Dis.Location} (h : atCentre l = false) : WorldFits codecEnv l :=
  ⟨h, 0, 0, 0, rfl, by norm_num, by norm_num, .inl (by norm_num)⟩

/-- a tank with two articulated parts, dead reckoned with algorithm 4 -/
def sent_entity : Dis.EntityState :=
  { sample_entityState with
    entity_type := ⟨1, 1, 225, 1, 1, 3, 0⟩, alternative_entity_type := ⟨1, 1, 224, 9, 10, 11, 12⟩,
    dead_reckoning_parameters := ⟨4, .quaternion 0 1 2 3, ⟨0x3F800000, 0xC0000000, 6⟩, ⟨0x3F800000, 8, 0xBF000000⟩⟩ }
theorem sent_entity_fits : EntityFits codecEnv sent_entity where
  wf := by decide +kernel
  type := by unfold TypeFits; decide +kernel
  alternative := by unfold TypeFits; decide +kernel
  location := codecEnv_world (by decide +kernel)
  algorithm := by decide +kernel
  acceleration := fun _ => by unfold VecFits; decide +kernel
  angular := fun _ => by unfold VecFits; decide +kernel
  marking := by unfold MarkingFits; decide +kernel
  parameters := ⟨by decide +kernel, by
    intro p hp
    have : p = .articulated ⟨3, 1, 13, 4096, 77⟩ := by
      simpa [sent_entity, sample_entityState] using hp
    subst this
    unfold ParameterFits
    decide +kernel⟩

/-- a designator with algorithm 5 -/
def sent_designator : Dis.Designator :=
  { sample_designator with dead_reckoning_algorithm := 5, linear_acceleration := ⟨0x3F800000, 0xC0000000, 6⟩ }
theorem sent_designator_fits : DesignatorFits codecEnv sent_designator := by
  refine ⟨by decide, ?_, codecEnv_world (by decide +kernel), by unfold NoOffset; decide +kernel⟩
  unfold VecFits
  decide +kernel

def sent_transmitter : Dis.Transmitter :=
  { sample_transmitter with
    radio_type := ⟨7, 2, 225, 9, 10, 11, 12⟩, transmit_state := 2, antenna_pattern_type := 1, crypto_system := 3, frequency := 251000000,
    transmit_frequency_bandwidth := 0x46C35000, modulation_type := ⟨[1, 0, 1], 4, 8, 1⟩,
    antenna_pattern := some ⟨⟨0x3F800000, 28, 29⟩, 30, 31, 1, 33, 34, 0x3F800000⟩ }
theorem sent_transmitter_fits : TransmitterFits codecEnv sent_transmitter where
  type := by unfold TypeFits; decide +kernel
  location := codecEnv_world (by decide +kernel)
  state := by decide
  patternType := by decide
  pattern := by
    intro p hp
    cases hp
    unfold PatternFits
    decide +kernel
  frequency := by decide +kernel
  bandwidth := by decide +kernel
  modulation := by decide +kernel
  crypto := by decide +kernel
  parameters := by decide +kernel
  variable_parameters := by decide +kernel

def sent_iff : Dis.Iff :=
  { sample_iff with
    system_id := ⟨1, 12, 3, [1, 0, 0, 0, 1, 0, 1, 0]⟩
    layer_2 := some ⟨⟨2, 25, 26⟩, ⟨0x3F800000, 28, 29, 30, 31⟩, 32, 33, [⟨35, 0x4E800000, 36, 37, 38, 5, 39, 41, 42⟩]⟩
    layer_3 := some ⟨⟨3, 53, 54⟩, ⟨55, 56⟩,
      .transponder [3, 1, 2, 0, 1, 0, 1, 0, 1, 0, 1] 77 (List.replicate 32 1) [7, 6, 5, 4, 1, 0, 1] 225 [1, 0, 5] 3 4, [⟨5, [1, 2]⟩]⟩
    layer_4 := some ⟨⟨4, 58, 59⟩, ⟨60, 61⟩,
      .transponder [1, 5, 0, 1, 0, 1, 0, 1, 0, 1, 0] [1, 0, 1, 0, 1] 3 [75, 76, 77, 49] 99 1 [1, 0, 1, 0, 1, 0, 0, 1] [2000, 1] 4, [⟨5, [1, 2]⟩]⟩
    layer_5 := some ⟨⟨5, 63, 64⟩, ⟨65, 66⟩, [0, 1, 0, 0, 0, 0, 0], 7, [⟨5, [1, 2]⟩]⟩ }
theorem sent_iff_fits : IffFits codecEnv sent_iff where
  wf := by decide +kernel
  forced := by decide +kernel
  system := by decide +kernel
  layer2 := by
    intro l hl
    cases hl
    unfold BeamFits IffParamFits
    decide +kernel
  layer3 := by
    intro l hl
    cases hl
    unfold Mode5Fits IffRecordsFit
    decide +kernel
  layer4 := by
    intro l hl
    cases hl
    unfold ModeSFits IffRecordsFit
    decide +kernel
  layer5 := by
    intro l hl
    cases hl
    unfold IffRecordsFit
    decide +kernel

theorem sent_parameter : ParameterFits (.articulated ⟨3, 1, 13, 4096, 77⟩) := by
  unfold ParameterFits
  decide +kernel

/-- one PDU of each of seventeen kinds -/
def sent : List (Nat × Dis.Pdu) :=
  [(0, ⟨sampleFor 1, .entityState sent_entity⟩), (1, ⟨sampleFor 2, .fire sample_fire⟩), (2, ⟨sampleFor 3, .detonation sample_detonation⟩),
   (3, ⟨sampleFor 4, .collision sample_collision⟩), (4, ⟨sampleFor 12, .removeEntity sample_removeEntity⟩),
   (5, ⟨sampleFor 14, .stopFreeze sample_stopFreeze⟩), (6, ⟨sampleFor 15, .acknowledge sample_acknowledge⟩),
   (7, ⟨sampleFor 18, .dataQuery sample_dataQuery⟩), (8, ⟨sampleFor 19, .setData sample_setData⟩),
   (9, ⟨sampleFor 22, .comment sample_comment⟩), (10, ⟨sampleFor 23, .electromagneticEmission ⟨⟨⟨2, 3⟩, 4⟩, ⟨⟨5, 6⟩, 7⟩, 1, []⟩⟩),
   (11, ⟨sampleFor 24, .designator sent_designator⟩), (12, ⟨sampleFor 25, .transmitter sent_transmitter⟩),
   (13, ⟨sampleFor 26, .signal sample_signal⟩), (14, ⟨sampleFor 27, .receiver sample_receiver⟩), (15, ⟨sampleFor 28, .iff sent_iff⟩),
   (16, ⟨sampleFor 1, .entityState sent_entity⟩)]

theorem sent_fits : ∀ e ∈ sent, PduFits codecEnv { update_mode := .full } e.2 := by
  have hs : ∀ t : UInt8, ((sampleFor t).pdu_status.getD {}).Wf (sampleFor t).pdu_type := fun t => C02_read_wf t 0x02
  have hv : ∀ p ∈ sample_detonation.variable_parameters, ParameterFits p := by
    intro p hp
    have : p = .articulated ⟨3, 1, 13, 4096, 77⟩ := by simpa [sample_detonation] using hp
    subst this
    exact sent_parameter
  intro e he
  simp only [sent, List.mem_cons, List.not_mem_nil, or_false] at he
  rcases he with rfl | rfl | rfl | rfl | rfl | rfl | rfl | rfl | rfl | rfl | rfl | rfl | rfl | rfl | rfl | rfl | rfl <;>
    refine ⟨rfl, hs _, ?_⟩
  · exact ⟨rfl, sent_entity_fits⟩
  · exact ⟨by show TypeFits _ ∧ _; unfold TypeFits; decide +kernel, codecEnv_world (by decide +kernel)⟩
  · exact ⟨by show TypeFits _ ∧ _; unfold TypeFits; decide +kernel, codecEnv_world (by decide +kernel), by decide +kernel, hv⟩
  · trivial
  · trivial
  · trivial
  · trivial
  · exact ⟨by decide +kernel, by decide +kernel⟩
  · exact ⟨by decide +kernel, by decide +kernel, by decide +kernel⟩
  · exact ⟨by decide +kernel, by decide +kernel, by decide +kernel⟩
  · exact ⟨rfl, rfl, by decide⟩
  · exact ⟨rfl, sent_designator_fits⟩
  · exact ⟨rfl, sent_transmitter_fits⟩
  · exact ⟨by decide, by decide⟩
  · intro q hq
    have : v32 sample_receiver.received_power = .num (7 / 2 ^ 149) := by decide +kernel
    rw [this] at hq
    cases hq
    norm_num
  · exact ⟨rfl, sent_iff_fits⟩
  · exact ⟨rfl, sent_entity_fits⟩

/-- all seventeen in one packet, an encoder and a decoder that have seen other PDUs before -/
example (s : EncState) (d : DecState) := C57_packet { update_mode := .partial } (hist := sent) (by simp [sent]) sent_fits s d

/-- a designator as in the sample, algorithm 18 -/
example (s : EncState) := C57_designator_violated (env := codecEnv) (o := { update_mode := .full }) (h := sampleFor 24)
  (C02_read_wf 24 0x02) rfl sample_designator rfl (by decide) (codecEnv_world (by decide +kernel)) (by unfold NoOffset; decide +kernel) 0 s

example := C57_location_violated (env := codecEnv) (l := ⟨1, 2, 3⟩) (lat := 0) (lon := 0) (alt := 0) (by decide +kernel) rfl
  (by norm_num) (by norm_num) (.inl (by norm_num))

end Verif.Props
