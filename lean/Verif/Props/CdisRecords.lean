import Verif.Cdis.Pdu

/-! # C31 to C34: C-DIS record lengths, header, records and entity markings -/

namespace Verif.Props
open Verif.Cdis

/-! ## C32: header -/

/-- A header whose fields fit arrives unchanged, whatever follows. -/
theorem C32_header_round_trip {h : CdisHeader} (w : h.Wf) (r : Bits) : CdisHeader.parse.run (h.ser ++ r) = .ok h r :=
  CdisHeader.run w r
/-- The header takes 58 bits and the exercise id, which takes five or nine. -/
theorem C32_header_size (h : CdisHeader) (he : h.exercise_id < 256) :
    h.ser.length = (if h.exercise_id < 16 then 63 else 67) := by
  rw [CdisHeader.length_ser]
  unfold CdisHeader.lenBits lUV8 uv8Flag
  by_cases c : h.exercise_id < 16
  · have : h.exercise_id ≤ 15 := by omega
    simp [c, this, uv8Bits]
  · have : ¬ h.exercise_id ≤ 15 := by omega
    simp [c, this, uv8Bits]
/-- The layout: version in the first two bits, then the exercise id, then eight bits of type, 26 of time, 14 of length
and eight of status. -/
theorem C32_header_layout (h : CdisHeader) : h.ser = wU 2 h.protocol_version ++ wUV8 h.exercise_id ++ wU 8 h.pdu_type
    ++ wU 26 h.timestamp ++ wU 14 h.length ++ wU 8 (Dis.serializePduStatus h.pdu_status (UInt8.ofNat h.pdu_type)).toNat :=
  rfl
/-- No header in fewer than 63 bits. -/
theorem C32_header_needs_63_bits {b : Bits} (hb : b.length < 63) : CdisHeader.parse.run b = .err := by
  cases hp : CdisHeader.parse.run b with
  | err => rfl
  | panic => exact absurd hp ((inferInstance : P.Safe CdisHeader.parse).spec b)
  | ok h r =>
    exfalso
    have step : ∀ {n : Nat} {b : Bits} {v : Nat} {r : Bits}, (rU n).run b = .ok v r → b.length = n + r.length := by
      intro n b v r h
      simp only [rU, P.run_bind, P.take] at h
      split at h
      · simp only [Res.andThen_ok, P.run_pure, Res.ok.injEq] at h
        rw [← h.2, List.length_drop]; omega
      · cases h
    have uv : ∀ {b : Bits} {v : Nat} {r : Bits}, rUV8.run b = .ok v r → 5 + r.length ≤ b.length := by
      intro b v r h
      simp only [rUV8, P.run_bind] at h
      cases hf : (rU 1).run b with
      | err => rw [hf] at h; cases h
      | panic => rw [hf] at h; cases h
      | ok f r1 =>
        rw [hf] at h
        simp only [Res.andThen_ok] at h
        have a := step hf
        have b' := step h
        unfold uv8Bits at b'
        split at b' <;> omega
    simp only [CdisHeader.parse, P.run_bind] at hp
    cases h1 : (rU 2).run b with
    | err => rw [h1] at hp; cases hp
    | panic => rw [h1] at hp; cases hp
    | ok x1 r1 =>
    rw [h1] at hp; simp only [Res.andThen_ok] at hp
    cases h2 : rUV8.run r1 with
    | err => rw [h2] at hp; cases hp
    | panic => rw [h2] at hp; cases hp
    | ok x2 r2 =>
    rw [h2] at hp; simp only [Res.andThen_ok] at hp
    cases h3 : (rU 8).run r2 with
    | err => rw [h3] at hp; cases hp
    | panic => rw [h3] at hp; cases hp
    | ok x3 r3 =>
    rw [h3] at hp; simp only [Res.andThen_ok] at hp
    cases h4 : (rU 26).run r3 with
    | err => rw [h4] at hp; cases hp
    | panic => rw [h4] at hp; cases hp
    | ok x4 r4 =>
    rw [h4] at hp; simp only [Res.andThen_ok] at hp
    cases h5 : (rU 14).run r4 with
    | err => rw [h5] at hp; cases hp
    | panic => rw [h5] at hp; cases hp
    | ok x5 r5 =>
    rw [h5] at hp; simp only [Res.andThen_ok] at hp
    cases h6 : (rU 8).run r5 with
    | err => rw [h6] at hp; cases hp
    | panic => rw [h6] at hp; cases hp
    | ok x6 r6 =>
    have a1 := step h1
    have a2 := uv h2
    have a3 := step h3
    have a4 := step h4
    have a5 := step h5
    have a6 := step h6
    omega
/-- A header that meets the hypothesis: an Entity State PDU of exercise 200. -/
def witnessHeader : CdisHeader :=
  ⟨1, 200, 1, 12345678, 500, Dis.parsePduStatusFields 1 0⟩
theorem C32_witness : witnessHeader.Wf := by
  refine ⟨by decide, by decide, by decide, by decide, by decide, ?_⟩
  constructor <;> exact ⟨by decide, by intro v hv; revert v; decide +kernel⟩
/-- A length of 2^14 bits or more does not fit: it arrives reduced modulo 2^14. -/
theorem C32_length_overflow {h : CdisHeader} (w : { h with length := h.length % 2 ^ 14 }.Wf) (r : Bits) :
    CdisHeader.parse.run (h.ser ++ r) = .ok { h with length := h.length % 2 ^ 14 } r := by
  have e : h.ser = { h with length := h.length % 2 ^ 14 }.ser := by
    unfold CdisHeader.ser
    have : ∀ n v, wU n (v % 2 ^ n) = wU n v := by
      intro n v
      have a := wU_ofBits (wU n v)
      rw [length_wU, ofBits_wU] at a
      exact a
    simp only [this]
  rw [e]
  exact CdisHeader.run w r

/-! ## C33: records -/

/-- Entity ids -/
theorem C33_entity_id_round_trip {v : EntityId} (h : v.site < 65536 ∧ v.application < 65536 ∧ v.entity < 65536)
    (r : Bits) : EntityId.parse.run (v.ser ++ r) = .ok v r := EntityId.run h r
/-- Entity types -/
theorem C33_entity_type_round_trip {v : EntityType} (h : v.Wf) (r : Bits) :
    EntityType.parse.run (v.ser ++ r) = .ok v r := EntityType.run h r
/-- Entity coordinates and linear velocities: three SVINT16. -/
theorem C33_entity_coordinates_round_trip {v : Vec3} (h : v.In 16) (r : Bits) :
    (Vec3.parse sv16).run (v.ser sv16 ++ r) = .ok v r := Vec3.run16 h r
/-- Linear accelerations: three SVINT14. -/
theorem C33_linear_acceleration_round_trip {v : Vec3} (h : v.In 14) (r : Bits) :
    (Vec3.parse sv14).run (v.ser sv14 ++ r) = .ok v r := Vec3.run14 h r
/-- Angular velocities: three SVINT12. -/
theorem C33_angular_velocity_round_trip {v : Vec3} (h : v.In 12) (r : Bits) :
    (Vec3.parse sv12).run (v.ser sv12 ++ r) = .ok v r := Vec3.run12 h r
/-- Orientations: three signed 13-bit numbers. -/
theorem C33_orientation_round_trip {v : Orientation} (h : v.Wf) (r : Bits) :
    Orientation.parse.run (v.ser ++ r) = .ok v r := Orientation.run h r
/-- Fixed datum records -/
theorem C33_fixed_datum_round_trip {v : FixedDatum} (h : v.Wf) (r : Bits) :
    FixedDatum.parse.run (v.ser ++ r) = .ok v r := FixedDatum.run h r
/-- Variable datum records -/
theorem C33_variable_datum_round_trip {v : VariableDatum} (h : v.Wf) (r : Bits) :
    VariableDatum.parse.run (v.ser ++ r) = .ok v r := VariableDatum.run h r
/-- Clock times -/
theorem C33_clock_time_round_trip {v : ClockTime} (h : v.Wf) (r : Bits) :
    ClockTime.parse.run (v.ser ++ r) = .ok v r := ClockTime.run h r
/-- Variable parameters of the five known kinds, articulated parts with a value that fits the compressed float. -/
theorem C33_variable_parameter_round_trip {v : VariableParameter} (h : v.Wf) (r : Bits) :
    VariableParameter.parse.run (v.ser ++ r) = .ok v r := VariableParameter.run h r
/-- Beam antenna patterns -/
theorem C33_beam_antenna_pattern_round_trip {v : BeamAntennaPattern} (h : v.Wf) (r : Bits) :
    BeamAntennaPattern.parse.run (v.ser ++ r) = .ok v r := BeamAntennaPattern.run h r
/-- Modulation types -/
theorem C33_modulation_type_round_trip {v : ModulationType} (h : v.Wf) (r : Bits) :
    ModulationType.parse.run (v.ser ++ r) = .ok v r := ModulationType.run h r
/-- IFF data records -/
theorem C33_iff_data_record_round_trip {v : IffDataRecord} (h : v.Wf) (r : Bits) :
    IffDataRecord.parse.run (v.ser ++ r) = .ok v r := IffDataRecord.run h r
/-- IFF system ids -/
theorem C33_system_id_round_trip {v : SystemId} (h : v.Wf) (r : Bits) :
    SystemId.parse.run (v.ser ++ r) = .ok v r := SystemId.run h r

/-- Beam data arrive unchanged exactly when all four angles are equal: the azimuth centre is written four times. -/
theorem C33_beam_data_violated {v : BeamData} (h : InS 13 v.az_center ∧ v.sweep_sync < 2 ^ 10) (r : Bits) :
    BeamData.parse.run (v.ser ++ r) = .ok v r ↔
      v.az_sweep = v.az_center ∧ v.el_center = v.az_center ∧ v.el_sweep = v.az_center := by
  rw [BeamData.run h]
  obtain ⟨a, b, c, d, e⟩ := v
  simp only [BeamData.wire, Res.ok.injEq, BeamData.mk.injEq, true_and, and_true]
  constructor
  · rintro ⟨rfl, rfl, rfl⟩; exact ⟨rfl, rfl, rfl⟩
  · rintro ⟨rfl, rfl, rfl⟩; exact ⟨rfl, rfl, rfl⟩
/-- World coordinates arrive divided by scales of about 17.2 and 8.9 instead of by the ones they were multiplied with;
only the altitude is preserved. -/
theorem C33_world_coordinates_arrive {v : WorldCoordinates} (hl : InS 31 (asI32 v.latitude))
    (ha : -1048576 ≤ v.altitude_msl ∧ v.altitude_msl ≤ 8388607) (r : Bits) :
    WorldCoordinates.parse.run (v.ser ++ r) =
      .ok ⟨f32 (f32 (asI32 v.latitude) / latScale), f32 (f32 (asI32 v.longitude) / lonScale), v.altitude_msl⟩ r :=
  WorldCoordinates.run_raw hl ha r
/-- For example a latitude stored as 536870911 does not arrive. -/
theorem C33_world_coordinates_violated : ∃ v : WorldCoordinates,
    ∀ r, WorldCoordinates.parse.run (v.ser ++ r) ≠ .ok v r := by
  refine ⟨⟨536870912, 0, 100⟩, fun r => ?_⟩
  rw [WorldCoordinates.run_raw (by decide +kernel) (by decide +kernel)]
  intro h
  simp only [Res.ok.injEq, WorldCoordinates.mk.injEq, and_true] at h
  exact absurd h.1 (by decide +kernel)
/-- An unspecified variable parameter writes one bit, from which a variable parameter is read that takes bits of
whatever follows. -/
theorem C33_unspecified_parameter_violated : ∃ r : Bits,
    VariableParameter.parse.run (VariableParameter.ser .unspecified ++ r) ≠ .ok .unspecified r := by
  refine ⟨[], ?_⟩
  decide +kernel
/-- Cases that meet the hypotheses. -/
example : (⟨65535, 0, 300⟩ : EntityId).Wf ∧ (⟨-32768, 32767, 5⟩ : Vec3).In 16 ∧ (⟨-4096, 4095, 0⟩ : Orientation).Wf := by
  decide +kernel
example : (⟨7, [1, 2, 255]⟩ : IffDataRecord).Wf ∧ (⟨12, 3, 4, 255⟩ : SystemId).Wf := by decide

/-! ## C34: markings -/

/-- The characters that survive the five-bit code. -/
def fiveAlphabet : List Char := "ABCDEFGHILMNOPRSTUVW0123456789".toList
/-- The characters that survive the six-bit code. -/
def sixAlphabet : List Char :=
  "ABCDEFGHIJKLMNOPQRSTUVWXYZ.?!0123456789 []()\x7b\x7d+-_@&\"':;,~\\/%#$".toList

theorem ascii_of_mem {l : List Char} (h : ∀ c ∈ l, c ∈ sixAlphabet) : ∀ c ∈ l, c.utf8Size = 1 := by
  intro c hc
  have : ∀ c ∈ sixAlphabet, c.utf8Size = 1 := by decide +kernel
  exact this c (h c hc)
theorem new_eq {l : List Char} (hn : l.length ≤ 11) (ha : ∀ c ∈ l, c.utf8Size = 1) :
    Marking.new l = some ⟨checkEnc l, l⟩ := by
  unfold Marking.new
  rw [utf8Len_ascii ha, if_neg (by omega)]; rfl

/-- A marking of at most 11 capital letters and digits without J, K, Q, X, Y and Z arrives unchanged, in five bits per
character. -/
theorem C34_five_bit_round_trip (l : List Char) (hn : l.length ≤ 11) (hl : ∀ c ∈ l, c ∈ fiveAlphabet) :
    ∃ m, Marking.new l = some m ∧ m.marking = l ∧ m.ser.length = 5 + 5 * l.length
      ∧ ∀ r, Marking.parse.run (m.ser ++ r) = .ok m r := by
  have s : ∀ c ∈ fiveAlphabet, c ∈ sixAlphabet ∧ c.isAlphanum = true ∧ c ∉ ['J', 'K', 'Q', 'X', 'Z']
      ∧ CharEnc.ok .five c := by decide +kernel
  have ha := ascii_of_mem fun c hc => (s c (hl c hc)).1
  have he : checkEnc l = .five := by
    unfold checkEnc
    rw [if_pos]
    refine ⟨?_, ?_⟩
    · simp only [List.all_eq_true, List.mem_filter]
      exact fun c hc => (s c (hl c hc.1)).2.1
    · simp only [List.any_eq_true, decide_eq_true_eq, not_exists, not_and]
      exact fun c hc => (s c (hl c hc)).2.2.1
  refine ⟨_, new_eq hn ha, rfl, ?_, fun r => Marking.run ⟨by show l.length < 16; omega, ha, fun c hc => ?_⟩ r⟩
  · rw [Marking.length_ser ha]
    simp only [Marking.lenBits, utf8Len_ascii ha, he, CharEnc.bitSize]; omega
  · show CharEnc.ok (checkEnc l) c
    rw [he]; exact (s c (hl c hc)).2.2.2
/-- A marking of at most 11 characters of the six-bit alphabet with at least one that is one of J, K, Q, X and Z or
neither a letter nor a digit arrives unchanged, in six bits per character. -/
theorem C34_six_bit_round_trip (l : List Char) (hn : l.length ≤ 11) (hl : ∀ c ∈ l, c ∈ sixAlphabet)
    (h6 : ∃ c ∈ l, c ∈ ['J', 'K', 'Q', 'X', 'Z'] ∨ c.isAlphanum = false) :
    ∃ m, Marking.new l = some m ∧ m.marking = l ∧ m.ser.length = 5 + 6 * l.length
      ∧ ∀ r, Marking.parse.run (m.ser ++ r) = .ok m r := by
  have s : ∀ c ∈ sixAlphabet, CharEnc.ok .six c ∧ c ≠ '\x00' := by decide +kernel
  have ha := ascii_of_mem hl
  have he : checkEnc l = .six := by
    unfold checkEnc
    rw [if_neg]
    rintro ⟨h1, h2⟩
    obtain ⟨c, hc, h⟩ := h6
    rcases h with h | h
    · apply h2
      simp only [List.any_eq_true, decide_eq_true_eq]
      exact ⟨c, hc, h⟩
    · simp only [List.all_eq_true, List.mem_filter] at h1
      have := h1 c ⟨hc, by simp [(s c (hl c hc)).2]⟩
      rw [h] at this; cases this
  refine ⟨_, new_eq hn ha, rfl, ?_, fun r => Marking.run ⟨by show l.length < 16; omega, ha, fun c hc => ?_⟩ r⟩
  · rw [Marking.length_ser ha]
    simp only [Marking.lenBits, utf8Len_ascii ha, he, CharEnc.bitSize]; omega
  · show CharEnc.ok (checkEnc l) c
    rw [he]; exact (s c (hl c hc)).1
/-- The property fails for the other markings of letters and digits: when there is no J, K, Q, X or Z, every Y and every
lower case letter arrives as a 9. -/
theorem C34_letters_arrive (l : List Char) (hn : l.length ≤ 11)
    (hl : ∀ c ∈ l, c.isAlphanum = true ∧ c ∉ ['J', 'K', 'Q', 'X', 'Z']) :
    ∃ m, Marking.new l = some m ∧ m.marking = l
      ∧ ∀ r, Marking.parse.run (m.ser ++ r)
          = .ok ⟨m.enc, l.map fun c => if c ∈ fiveAlphabet then c else '9'⟩ r := by
  have ha : ∀ c ∈ l, c.utf8Size = 1 := by
    intro c hc
    have := (hl c hc).1
    simp only [Char.isAlphanum, Char.isAlpha, Char.isUpper, Char.isLower, Char.isDigit, Bool.or_eq_true,
      decide_eq_true_eq, Bool.and_eq_true] at this
    have hle : c.val ≤ 127 := by
      rcases this with (⟨h1, h2⟩ | ⟨h1, h2⟩) | ⟨h1, h2⟩
      · exact UInt32.le_trans h2 (by decide)
      · exact UInt32.le_trans h2 (by decide)
      · exact UInt32.le_trans h2 (by decide)
    simp only [Char.utf8Size]
    exact if_pos hle
  have he : checkEnc l = .five := by
    unfold checkEnc
    rw [if_pos]
    refine ⟨?_, ?_⟩
    · simp only [List.all_eq_true, List.mem_filter]
      exact fun c hc => (hl c hc.1).1
    · simp only [List.any_eq_true, decide_eq_true_eq, not_exists, not_and]
      exact fun c hc => (hl c hc).2
  refine ⟨_, new_eq hn ha, rfl, fun r => ?_⟩
  rw [Marking.run_raw _ (by show l.length < 16; omega) ha]
  congr 2
  refine List.map_congr_left fun c hc => ?_
  show CharEnc.charOf (checkEnc l) (CharEnc.codeOf (checkEnc l) c % 2 ^ CharEnc.bitSize (checkEnc l)) = _
  rw [he]
  by_cases hf : c ∈ fiveAlphabet
  · have s : ∀ c ∈ fiveAlphabet, CharEnc.ok .five c := by decide +kernel
    rw [if_pos hf]; exact s c hf
  · rw [if_neg hf]
    have hw : c ∉ fiveWrite := by
      intro h
      have t : ∀ c ∈ fiveWrite, c ∉ fiveAlphabet → c = '\x00' ∨ c = 'X' := by decide +kernel
      rcases t c h hf with rfl | rfl
      · exact absurd (hl _ hc).1 (by decide)
      · exact absurd (hl _ hc).2 (by decide)
    simp only [CharEnc.codeOf, hw, if_false]
    decide
/-- Markings that are corrupted: "ALLY" with its Y, and any lower case name. -/
theorem C34_violated : ∃ m m' : Marking, Marking.new "ALLY".toList = some m ∧ Marking.parse.run m.ser = .ok m' []
    ∧ m'.marking = "ALL9".toList ∧ ∃ n n' : Marking, Marking.new "Eagle1".toList = some n
    ∧ Marking.parse.run n.ser = .ok n' [] ∧ n'.marking = "E99991".toList := by
  exact ⟨⟨.five, "ALLY".toList⟩, ⟨.five, "ALL9".toList⟩, by decide +kernel, by decide +kernel, rfl,
    ⟨.five, "Eagle1".toList⟩, ⟨.five, "E99991".toList⟩, by decide +kernel, by decide +kernel, rfl⟩
/-- Markings that meet the hypotheses. -/
example : (∀ c ∈ "ECHO12".toList, c ∈ fiveAlphabet) ∧ (∀ c ∈ "LOCK-ON 2".toList, c ∈ sixAlphabet) := by decide +kernel

end Verif.Props
