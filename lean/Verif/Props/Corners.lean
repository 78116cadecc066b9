import Verif.Props.Position
import Verif.Props.CodecLossless
import Verif.Props.CodecScalars
import Verif.Props.Enums
import Verif.Props.Bodies
/-! # Corners: cases that wrong programs survived

Statements added after seeded errors that no earlier theorem noticed. -/
namespace Verif.Props
open Verif.Codec

/-! ## C25: named values of the four integer sizes -/

/-- **C25.** In a table whose size is that of an integer type, a value that fits the type and is named by one item only is read as that
variant, and the variant is written as that value. -/
theorem C25_named_value {t : Dis.EnumTable} (hs : t.size = 8 ∨ t.size = 16 ∨ t.size = 32 ∨ t.size = 64) {i a : Nat}
    (hi : t.items[i]? = some (.basic a)) (ha : a < 2 ^ t.size) (hu : Unambiguous t) :
    t.ofRaw a = .basic i ∧ t.toRaw (.basic i) = a := by
  have hl : Dis.literal t.size a = a := by
    unfold Dis.literal
    apply Nat.mod_eq_of_lt
    rcases hs with h | h | h | h <;> rw [h] at ha ⊢ <;> exact ha
  have h2 : t.toRaw (.basic i) = a := by simp only [Dis.EnumTable.toRaw, hi, hl]
  exact ⟨by rw [← h2]; exact C25_variant_round_trip t hu _ ⟨a, hi⟩, h2⟩
example : sampleTable.size = 8 ∧ sampleTable.items[0]? = some (.basic 0) ∧ Unambiguous sampleTable :=
  ⟨rfl, rfl, sampleTable_unambiguous⟩

/-! ## C09: fire and detonation without an indicator -/

/-- **C09.** In a PDU without a status octet (DIS version 6) a Fire PDU describes a munition, and every such PDU survives. -/
theorem C09_fire_v6 (env : Dis.Env) {h : Dis.PduHeader} (hh : h.Wf) (ht : h.pdu_type = 2) (hs : h.pdu_status = none) {x : Dis.Fire}
    {t : Dis.EntityType} {m : Dis.MunitionDescriptor} (hx : x.descriptor = .munition t m) : PduRoundTrips env h (.fire x) :=
  C09_fire_round_trip env hh ht (by rw [hx]; unfold Dis.headerFti; rw [hs]; rfl)
/-- **C09.** So does every Detonation PDU of a munition (with variable parameters that survive: C04). -/
theorem C09_detonation_v6_partial (env : Dis.Env) {h : Dis.PduHeader} (hh : h.Wf) (ht : h.pdu_type = 3) (hs : h.pdu_status = none)
    {x : Dis.Detonation} {t : Dis.EntityType} {m : Dis.MunitionDescriptor} (hx : x.descriptor = .munition t m)
    (hv : Dis.VariableParameters.Wf x.variable_parameters) (hn : Dis.VariableParameters.NoSeparation x.variable_parameters) :
    PduRoundTrips env h (.detonation x) :=
  C09_detonation_round_trip_partial env hh ht
    ⟨by rw [hx]; unfold Dis.headerDti; rw [hs]; rfl, by rw [hx]; trivial, hv, hn⟩
example : ({ sampleFor 2 with protocol_version := 6, pdu_status := none } : Dis.PduHeader).Wf := ⟨rfl, .inr ⟨by decide, by decide, rfl⟩⟩

/-! ## C41: beams, the centre of the Earth, absent locations -/

/-- **C41.** Each of the angles of a beam comes back within 0.126 rad, and the sweep within 0.051 percent points. -/
theorem C41_beam {x : Dis.BeamData} {a b c d s : Rat} (ha : v32 x.azimuth_center = .num a) (hb : v32 x.azimuth_sweep = .num b)
    (hc : v32 x.elevation_center = .num c) (hd : v32 x.elevation_sweep = .num d) (hs : v32 x.sweep_sync = .num s)
    (ha' : |a| ≤ 7900) (hb' : |b| ≤ 7900) (hc' : |c| ≤ 7900) (hd' : |d| ≤ 7900) (hs0 : 0 ≤ s) (hs1 : s ≤ 100) :
    let y := beamDec (beamEnc x)
    Near y.azimuth_center a (126 / 1000) ∧ Near y.azimuth_sweep b (126 / 1000) ∧ Near y.elevation_center c (126 / 1000) ∧
      Near y.elevation_sweep d (126 / 1000) ∧ Near y.sweep_sync s (51 / 1000) := by
  have w : ∀ {b : UInt32} {q t t' : Rat}, Near b q t → t ≤ t' → Near b q t' := fun ⟨y, h1, h2⟩ h => ⟨y, h1, h2.trans h⟩
  have e : (52 / 100 / beamSteps : Rat) ≤ 126 / 1000 := by unfold beamSteps; norm_num
  exact ⟨w (C41_beam_angle ha ha') e, w (C41_beam_angle hb hb') e, w (C41_beam_angle hc hc') e, w (C41_beam_angle hd hd') e,
    w (C41_sweep hs hs0 hs1).1 (by norm_num)⟩
example : v32 0x3FC90FDB = .num (13176795 / 8388608) ∧ v32 0x42480000 = .num 50 := by decide +kernel

/-- **C41.** The special code is used exactly for the points whose three coordinates are zero. -/
theorem C41_centre_iff (l : Dis.Location) : atCentre l = true ↔
    v64 l.x_coordinate = .num 0 ∧ v64 l.y_coordinate = .num 0 ∧ v64 l.z_coordinate = .num 0 := by
  unfold atCentre
  simp [and_assoc]

/-- **C38**, violated: a Designator or Transmitter PDU with the full update flag and without a location decodes to a location on the
equator at the Greenwich meridian, 6378 km from the centre of the Earth. -/
theorem C38_absent_location_violated {env : Env} (hE : Computes env) (o : Options) (st : Option DesState) (st' : Option TxState)
    {d : Cdis.Designator} {t : Cdis.Transmitter} (hd : d.full_update_flag = true) (hd' : d.designator_spot_location = none)
    (ht : t.full_update_flag = true) (ht' : t.antenna_location = none) {l : Dis.Location}
    (hl : l = (desDec env st d).1.spot_location ∨ l = (txDec env o st' t).1.antenna_location) :
    ∃ x y z : Rat, v64 l.x_coordinate = .num x ∧ v64 l.y_coordinate = .num y ∧ v64 l.z_coordinate = .num z ∧
      |x - 6378137| ≤ 1 / 1000 ∧ |y| ≤ 1 / 1000 ∧ |z| ≤ 1 / 1000 := by
  have e : ∀ u, worldDec env zeroWorld u = env.toEcef (.num 0) (.num 0) (.num 0) := by
    intro u
    have h1 : div32 (.num 0) latScale32 = .num 0 := by decide +kernel
    have h2 : div32 (.num 0) lonScale32 = .num 0 := by decide +kernel
    have h3 : mul32 (int32 0) (.num 10) = .num 0 := by decide +kernel
    have h4 : int32 0 = .num 0 := by decide +kernel
    simp only [worldDec, zeroWorld, h4, h1, h2]
    split
    · rw [show div32 (Fl.num 0) (Fl.num 100) = .num 0 by decide +kernel]
    · rw [show mul32 (Fl.num 0) (Fl.num 10) = .num 0 by decide +kernel]
  have hl : l = env.toEcef (.num 0) (.num 0) (.num 0) := by
    rcases hl with rfl | rfl
    · simp [desDec, hd, hd', e]
    · simp [txDec, ht, ht', e]
  subst hl
  obtain ⟨x, y, z, h1, h2, h3, k1, k2, k3⟩ := hE.ecef (lat := 0) (lon := 0) (alt := 0) (by norm_num) (by norm_num) (by norm_num)
  have hn : Verif.Dis.Geo.nu 0 = 1 := by unfold Verif.Dis.Geo.nu Verif.Dis.Geo.den; simp
  have hb : Verif.Dis.Geo.be 0 = 0 := by unfold Verif.Dis.Geo.be; simp
  rw [lla_parts] at k1 k2 k3
  simp only [Rat.cast_zero, hn, hb, Real.cos_zero, Real.sin_zero, mul_one, mul_zero, add_zero, sub_zero] at k1 k2 k3
  unfold Verif.Dis.Geo.wgsA at k1
  refine ⟨x, y, z, h1, h2, h3, ?_, ?_, ?_⟩
  · have : ((|x - 6378137| : ℚ) : ℝ) ≤ ((1 / 1000 : ℚ) : ℝ) := by push_cast; norm_num at k1 ⊢; exact k1
    exact_mod_cast this
  · have : ((|y| : ℚ) : ℝ) ≤ ((1 / 1000 : ℚ) : ℝ) := by push_cast; norm_num at k2 ⊢; exact k2
    exact_mod_cast this
  · have : ((|z| : ℚ) : ℝ) ≤ ((1 / 1000 : ℚ) : ℝ) := by push_cast; norm_num at k3 ⊢; exact k3
    exact_mod_cast this

/-! ## C52: the parameters of IFF layers -/

theorem u16_whole {b : UInt32} {q : Rat} (hq : v32 b = .num q) (h0 : 0 ≤ q) (h : q < 65536) :
    ∃ n : Int, Whole q n ∧ v32 (b32 (int32 ((u16FromF32 (v32 b)).getD 0 : Nat))) = .num n := by
  refine ⟨truncRat q, whole_trunc q, ?_⟩
  unfold u16FromF32
  rw [hq]
  dsimp only
  rw [if_pos ⟨by linarith, h⟩, Option.getD_some, Int.toNat_of_nonneg (trunc_nonneg (q := q) (by linarith))]
  exact v32_trunc (v32_rep hq)
theorem u8_whole {b : UInt32} {q : Rat} (hq : v32 b = .num q) (h0 : 0 ≤ q) (h : q < 256) :
    ∃ n : Int, Whole q n ∧ v32 (b32 (int32 ((u8FromF32 (v32 b)).getD 0 : Nat))) = .num n := by
  refine ⟨truncRat q, whole_trunc q, ?_⟩
  unfold u8FromF32
  rw [hq]
  dsimp only
  rw [if_pos ⟨by linarith, h⟩, Option.getD_some, Int.toNat_of_nonneg (trunc_nonneg (q := q) (by linarith))]
  exact v32_trunc (v32_rep hq)
theorem u16_zero {b : UInt32} (h : ∀ q, v32 b = .num q → q ≤ -1 ∨ 65536 ≤ q) : v32 (b32 (int32 ((u16FromF32 (v32 b)).getD 0 : Nat))) = .num 0 := by
  have e : (u16FromF32 (v32 b)).getD 0 = 0 := by
    unfold u16FromF32
    split
    · rename_i q hq
      rw [if_neg]
      · rfl
      · rcases h q hq with h | h
        · intro hc; linarith [hc.1]
        · intro hc; linarith [hc.2]
    · rfl
  rw [e]
  decide +kernel
theorem u8_zero {b : UInt32} (h : ∀ q, v32 b = .num q → q ≤ -1 ∨ 256 ≤ q) : v32 (b32 (int32 ((u8FromF32 (v32 b)).getD 0 : Nat))) = .num 0 := by
  have e : (u8FromF32 (v32 b)).getD 0 = 0 := by
    unfold u8FromF32
    split
    · rename_i q hq
      rw [if_neg]
      · rfl
      · rcases h q hq with h | h
        · intro hc; linarith [hc.1]
        · intro hc; linarith [hc.2]
    · rfl
  rw [e]
  decide +kernel

/-- a number `b` of up to (not including) `m` is sent as a whole number and arrives as `b'` without its fraction -/
def SentWhole (m : Rat) (b b' : UInt32) : Prop := ∀ q, v32 b = .num q → 0 ≤ q → q < m → ∃ n : Int, Whole q n ∧ v32 b' = .num n
/-- a number `b` that is negative, `m` or more, infinite or not a number arrives as 0 -/
def LostOutside (m : Rat) (b b' : UInt32) : Prop := (∀ q, v32 b = .num q → q ≤ -1 ∨ m ≤ q) → v32 b' = .num 0

/-- **C52.** The power, repetition rate, pulse width and burst length of IFF parameters, and the power and repetition rate of an emitter
beam: whole numbers below 256 (the powers) and 65536. -/
theorem C52_parameters (x : Dis.IffFundamentalParameterData) (y : Dis.FundamentalParameterData) :
    let x' := iffParamDec (iffParamEnc x)
    let y' := paramDec (paramEnc y)
    SentWhole 256 x.erp x'.erp ∧ SentWhole 65536 x.pgrf x'.pgrf ∧ SentWhole 65536 x.pulse_width x'.pulse_width ∧
      SentWhole 65536 x.burst_length x'.burst_length ∧ SentWhole 256 y.effective_power y'.effective_power ∧
      SentWhole 65536 y.pulse_repetition_frequency y'.pulse_repetition_frequency :=
  ⟨fun _ => u8_whole, fun _ => u16_whole, fun _ => u16_whole, fun _ => u16_whole, fun _ => u8_whole, fun _ => u16_whole⟩
/-- **C52**, violated: outside these limits the numbers become 0 instead of the nearest that can be sent. -/
theorem C52_parameters_violated (x : Dis.IffFundamentalParameterData) (y : Dis.FundamentalParameterData) :
    let x' := iffParamDec (iffParamEnc x)
    let y' := paramDec (paramEnc y)
    LostOutside 256 x.erp x'.erp ∧ LostOutside 65536 x.pgrf x'.pgrf ∧ LostOutside 65536 x.pulse_width x'.pulse_width ∧
      LostOutside 65536 x.burst_length x'.burst_length ∧ LostOutside 256 y.effective_power y'.effective_power ∧
      LostOutside 65536 y.pulse_repetition_frequency y'.pulse_repetition_frequency :=
  ⟨u8_zero, u16_zero, u16_zero, u16_zero, u8_zero, u16_zero⟩
example : v32 0x43FA0000 = .num 500 ∧ v32 0x47800000 = .num 65536 ∧ v32 0x7FC00000 = .nan := by decide +kernel

/-! ## C31: the length stored in an encoded IFF layer -/

/-- **C31.** The length that the encoder stores in the header of layer 3 is the number of bits the layer takes (modulo 2^16). -/
theorem C31_layer3_length (x : Dis.IffLayer3) : (layer3Enc x).layer_header.length = (layer3Enc x).ser.length % 65536 := by
  have h := Cdis.IffLayer3.length_ser (layer3Enc x)
  rw [h]
  rfl
end Verif.Props
