import Verif.Codec.Again
import Verif.Props.Through8

/-! # C66: more than one gateway

What a PDU has lost on its way through C-DIS it has lost; whether a second gateway takes away more depends on the field. -/

namespace Verif.Props
open Verif.Codec

/-! ## Fields that a second gateway leaves alone -/

theorem dec_again {n : Int} (h : -32768 ≤ n ∧ n ≤ 32767) : decEnc (decDec n) = n := by
  obtain ⟨d, hd, hrep, hm⟩ := tenth_times_ten (n := n) (by rw [abs_le]; omega)
  unfold decEnc decDec
  rw [int32_exact (by rw [abs_lt]; omega)]
  have : div32 (.num (n : Rat)) (.num 10) = .num d := by
    simp only [div32, Fl.div]; rw [if_neg (by norm_num), hd]
  rw [this, v32_b32 hrep]
  show toI16 (F32.round (d * 10)) = n
  rw [hm]
  show castSat _ _ _ = n
  unfold castSat
  rw [truncRat_int]
  omega

/-- **C66.** Velocities and accelerations: what has gone through C-DIS once goes through unchanged (tenths of a metre per second are
decimal fractions, but a tenth of a whole number times ten, rounded twice, is the number). -/
theorem C66_velocity (v : Dis.VectorF32) : linQ (linQ v) = linQ v := by
  unfold linQ linEnc linDec decEnc
  simp only
  have (x : Fl) : toI16 (mul32 (v32 (decDec (toI16 x))) (.num 10)) = toI16 x := dec_again (toI16_range _)
  rw [this, this, this]

theorem beam_again {n : Int} (h : -32768 ≤ n ∧ n ≤ 32767) : beamAngleEnc (beamAngleDec n) = n := by
  have hn : |(n : Rat)| ≤ 32768 := by
    have : |n| ≤ 32768 := by rw [abs_le]; omega
    exact_mod_cast this
  obtain ⟨y, r, h1, h2, h3⟩ := again (n := n) (K := beamSteps) (by unfold beamSteps; norm_num) (by unfold beamSteps; norm_num) hn
  unfold beamAngleEnc beamAngleDec
  rw [beamScale_eq, h1, h2]
  show castSat _ _ (roundAway r : Int) = n
  rw [round_near (n := n) (by linarith)]
  unfold castSat
  rw [truncRat_int]
  omega

theorem sweep_again {n : Nat} (h : n ≤ 32768) : sweepEnc (sweepDec n) = n := by
  obtain ⟨y, r, h1, h2, h3⟩ := again (n := n) (K := 2681733 / 262144) (by norm_num) (by norm_num) (by
    rw [abs_of_nonneg (by positivity)]; exact_mod_cast h)
  unfold sweepEnc sweepDec
  rw [sweepScale_eq, h1, h2]
  show castSat _ _ (roundAway r : Int) = n
  rw [round_near (n := n) (by linarith)]
  unfold castSat
  rw [truncRat_int]
  omega

theorem trunc_of_small {q : Rat} : |(truncRat q : Rat)| ≤ |q| := (truncRat_spec q).2

/-- Truncating an `f32` gives an `f32`. -/
theorem trunc_rep {q : Rat} (h : F32.Rep q) : F32.Rep (truncRat q : Rat) := by
  obtain ⟨m, e, hm, h1, h2, rfl⟩ := h
  by_cases he : 23 ≤ e
  · have : (m : Rat) * 2 ^ (e - ((F32.p : Int) - 1)) = ((m * 2 ^ (e - 23).toNat : Int) : Rat) := by
      push_cast
      rw [← zpow_natCast, show ((e - 23).toNat : Int) = e - 23 by omega]
      rfl
    rw [this, truncRat_int, ← this]
    exact ⟨m, e, hm, h1, h2, rfl⟩
  · refine rep32_int ?_
    have t := trunc_of_small (q := (m : Rat) * 2 ^ (e - ((F32.p : Int) - 1)))
    have hp : (2 : Rat) ^ (e - ((F32.p : Int) - 1)) ≤ 1 := by
      have : (2 : Rat) ^ (e - ((F32.p : Int) - 1)) ≤ 2 ^ (0 : Int) := zpow_le_zpow_right₀ (by norm_num) (by
        show e - (((24 : Nat) : Int) - 1) ≤ 0
        omega)
      simpa using this
    have hp0 : (0 : Rat) < 2 ^ (e - ((F32.p : Int) - 1)) := by positivity
    rw [abs_mul, abs_of_pos hp0] at t
    have hm' : |(m : Rat)| < 2 ^ 24 := by
      have : |m| < 2 ^ 24 := hm
      exact_mod_cast this
    have : |(truncRat ((m : Rat) * 2 ^ (e - ((F32.p : Int) - 1))) : Rat)| < 2 ^ 24 := by nlinarith [abs_nonneg (m : Rat)]
    exact_mod_cast this

theorem int32_trunc {b : UInt32} {q : Rat} (h : v32 b = .num q) : v32 (b32 (int32 (truncRat q))) = .num (truncRat q : Rat) := by
  have r := trunc_rep (v32_rep h)
  unfold int32
  rw [Fmt.round_of_rep r]
  exact v32_b32 r

theorem v32_zero : v32 (b32 (int32 0)) = .num 0 := by decide +kernel

theorem whole_int (b : UInt32) : ∃ n : Nat, n < 4294967296 ∧ wholeQ b = b32 (int32 n) ∧ v32 (b32 (int32 n)) = .num n := by
  have z : v32 (b32 (int32 (0 : Nat))) = .num (0 : Nat) := by decide +kernel
  cases hb : v32 b with
  | nan => exact ⟨0, by decide, by simp [wholeQ, hb, u32FromF32], z⟩
  | inf s => exact ⟨0, by decide, by simp [wholeQ, hb, u32FromF32], z⟩
  | num q =>
    by_cases hq : -1 < q ∧ q < 4294967296
    · have t := (truncRat_spec q).2
      have h0 : 0 ≤ truncRat q := by
        have t1 := abs_lt.1 (truncRat_spec q).1
        by_contra hc
        have h1 : truncRat q ≤ -1 := by omega
        have h2 : (truncRat q : Rat) ≤ ((-1 : Int) : Rat) := by exact_mod_cast h1
        push_cast at h2
        rw [abs_of_neg (by linarith)] at t
        rcases abs_cases q with ⟨e, _⟩ | ⟨e, _⟩ <;> rw [e] at t <;> linarith
      obtain ⟨n, hn⟩ := Int.eq_ofNat_of_zero_le h0
      have hq2 : (truncRat q : Rat) < 4294967296 := by
        rcases abs_cases q with ⟨e', _⟩ | ⟨e', _⟩ <;> rw [e'] at t <;> linarith [le_abs_self (truncRat q : Rat)]
      have v := int32_trunc hb
      rw [hn] at hq2 v
      refine ⟨n, by exact_mod_cast hq2, ?_, by simpa using v⟩
      simp only [wholeQ, hb, u32FromF32, if_pos hq, Option.getD_some, hn, Int.toNat_natCast]
    · exact ⟨0, by decide, by simp [wholeQ, hb, u32FromF32, hq], z⟩

/-- **C66.** Powers, wavelengths and other numbers that are sent as whole numbers. -/
theorem C66_whole (b : UInt32) : wholeQ (wholeQ b) = wholeQ b := by
  obtain ⟨n, h1, h2, h3⟩ := whole_int b
  rw [h2]
  conv_lhs => unfold wholeQ
  rw [h3]
  have : -1 < (n : Rat) ∧ (n : Rat) < 4294967296 := ⟨by linarith [(Nat.cast_nonneg n : (0 : Rat) ≤ n)], by exact_mod_cast h1⟩
  simp only [u32FromF32]
  rw [if_pos this, Option.getD_some, show (n : Rat) = ((n : Int) : Rat) by push_cast; rfl, truncRat_int, Int.toNat_natCast]

/-- the range of a Fire PDU -/
theorem C66_range (b : UInt32) : rangeQ (rangeQ b) = rangeQ b := by
  have z : rangeQ 0 = 0 := by decide +kernel
  by_cases h : isNormal (v32 b) = true
  · have e : rangeQ b = wholeQ b := by unfold rangeQ; rw [if_pos h]
    by_cases h2 : isNormal (v32 (wholeQ b)) = true
    · rw [e]
      conv_lhs => unfold rangeQ
      rw [if_pos h2, C66_whole]
    · -- a whole number that is not normal is zero
      obtain ⟨n, -, h4, h3⟩ := whole_int b
      have n0 : n = 0 := by
        by_contra hc
        apply h2
        rw [h4, h3]
        simp only [isNormal, decide_eq_true_eq]
        have : (1 : Rat) ≤ n := by exact_mod_cast Nat.one_le_iff_ne_zero.2 hc
        refine ⟨by linarith, ?_⟩
        rw [if_neg (by linarith)]
        refine le_trans ?_ this
        norm_num
      rw [e, h4, n0]
      decide +kernel
  · have e : rangeQ b = 0 := by unfold rangeQ; rw [if_neg h]
    rw [e, z]

theorem C66_power (b : UInt32) : powerQ (powerQ b) = powerQ b := by
  have z : powerQ (b32 (int32 0)) = b32 (int32 0) := by decide +kernel
  cases hb : v32 b with
  | nan => have : powerQ b = b32 (int32 0) := by simp [powerQ, hb, i16FromF32]
           rw [this, z]
  | inf s => have : powerQ b = b32 (int32 0) := by simp [powerQ, hb, i16FromF32]
             rw [this, z]
  | num q =>
    by_cases hq : -32769 < q ∧ q < 32768
    · have e : powerQ b = b32 (int32 (truncRat q)) := by
        simp only [powerQ, hb, i16FromF32, if_pos hq, Option.getD_some]
      have t := (truncRat_spec q).2
      have hl : (-32769 : Rat) < truncRat q ∧ (truncRat q : Rat) < 32768 := by
        have a := abs_le.1 t
        have t1 := abs_lt.1 (truncRat_spec q).1
        rcases abs_cases q with ⟨e', _⟩ | ⟨e', _⟩ <;> rw [e'] at a
        · exact ⟨by linarith, by linarith⟩
        · have : (truncRat q : Rat) ≤ -q := a.2
          refine ⟨by linarith, ?_⟩
          by_contra hc
          linarith
      rw [e]
      conv_lhs => unfold powerQ
      rw [int32_trunc hb]
      simp only [i16FromF32]
      rw [if_pos hl, Option.getD_some, truncRat_int]
    · have : powerQ b = b32 (int32 0) := by simp [powerQ, hb, i16FromF32, hq]
      rw [this, z]

theorem castSat_int {lo hi n : Int} (h1 : lo ≤ n) (h2 : n ≤ hi) : castSat lo hi (n : Rat) = n := by
  unfold castSat; rw [truncRat_int]; omega

/-- numbers cut to a range of whole numbers -/
theorem cut_again (lo hi : Int) (h0 : lo ≤ 0) (h1 : 0 ≤ hi) (hl : -2 ^ 23 ≤ lo) (hh : hi ≤ 2 ^ 23) (x : Fl) :
    Fl.toInt lo hi (v32 (b32 (int32 (Fl.toInt lo hi x)))) = Fl.toInt lo hi x := by
  have r := toInt_range lo hi h0 h1 x
  have a : |Fl.toInt lo hi x| < 2 ^ 24 := by rw [abs_lt]; constructor <;> omega
  rw [int32_exact a, v32_b32 (rep32_int a)]
  exact castSat_int r.1 r.2

theorem C66_tx_power (b : UInt32) : txPowerQ (txPowerQ b) = txPowerQ b := by
  have r := toInt_range 0 255 (by decide) (by decide) (v32 b)
  have e : (((Fl.toInt 0 255 (v32 b)).toNat : Nat) : Int) = Fl.toInt 0 255 (v32 b) := by omega
  unfold txPowerQ
  rw [e, cut_again 0 255 (by decide) (by decide) (by decide) (by decide), e]

theorem C66_beam (x : Dis.BeamData) (h : (sweepEnc x.sweep_sync).toNat ≤ 32768) : beamWireQ (beamWireQ x) = beamWireQ x := by
  unfold beamWireQ
  simp only
  rw [sweep_again h]
  unfold beamAngleEnc
  have (y : Fl) : toI16 (mul32 (v32 (beamAngleDec (toI16 y))) beamScale).roundInt = toI16 y := beam_again (toI16_range _)
  rw [this]
  rfl

theorem scheme_form (s : Dis.EncodingScheme) : ∃ k : UInt16, k % 256 = k ∧
    (schemeWireQ s = .encodedAudio 0 k ∨ schemeWireQ s = .rawBinaryData 1 k ∨ ∃ c, c ≠ 0 ∧ c ≠ 1 ∧ schemeWireQ s = .unspecified c) := by
  have m (n : UInt16) : n % 256 % 256 = n % 256 := by
    apply UInt16.toNat_inj.1
    simp [UInt16.toNat_mod]
  have key (c k : UInt16) (hk : k % 256 = k) (x : Dis.EncodingScheme)
      (hx : x = if c = 0 then Dis.EncodingScheme.encodedAudio 0 k else if c = 1 then .rawBinaryData 1 k else .unspecified c) : ∃ k : UInt16, k % 256 = k ∧
      (x = .encodedAudio 0 k ∨ x = .rawBinaryData 1 k ∨ ∃ d, d ≠ 0 ∧ d ≠ 1 ∧ x = .unspecified d) := by
    refine ⟨k, hk, ?_⟩
    by_cases h0 : c = 0
    · exact Or.inl (by rw [hx, if_pos h0])
    · by_cases h1 : c = 1
      · exact Or.inr (Or.inl (by rw [hx, if_neg h0, if_pos h1]))
      · exact Or.inr (Or.inr ⟨c, h0, h1, by rw [hx, if_neg h0, if_neg h1]⟩)
  cases s with
  | encodedAudio c t => exact key c (t % 256) (m t) _ rfl
  | rawBinaryData c t => exact key c (t % 256) (m t) _ rfl
  | applicationSpecificData c _ => exact key c 0 rfl _ rfl
  | databaseIndex c _ _ _ => exact key c 0 rfl _ rfl
  | unspecified c => exact key c 0 rfl _ rfl

theorem C66_scheme (s : Dis.EncodingScheme) : schemeWireQ (schemeWireQ s) = schemeWireQ s := by
  obtain ⟨k, hk, h | h | ⟨c, h0, h1, h⟩⟩ := scheme_form s <;> rw [h] <;> simp [schemeWireQ, schemeQ, *]

theorem C66_fire_descriptor (d : Dis.DescriptorRecord) : fireDescQ (fireDescQ d) = fireDescQ d := by
  have z : min (0 : UInt16) 255 = 0 := by decide
  have mm (n : UInt16) : min (min n 255) 255 = min n 255 := by
    have l : min n 255 ≤ 255 := by
      show (if n ≤ 255 then n else 255) ≤ 255
      split
      · assumption
      · decide
    show (if min n 255 ≤ 255 then min n 255 else 255) = min n 255
    rw [if_pos l]
  cases d with
  | munition t m => by_cases h : t.kind = 2 <;> by_cases h8 : t.kind = 8 <;> simp [fireDescQ, h, h8, mm]
  | expendable t => by_cases h : t.kind = 2 <;> by_cases h8 : t.kind = 8 <;> simp [fireDescQ, h, h8, z]
  | explosion t _ _ => by_cases h : t.kind = 2 <;> by_cases h8 : t.kind = 8 <;> simp [fireDescQ, h, h8, z]

theorem C66_other (a : UInt8) (p : Dis.DrOtherParameters) : otherQ a (otherQ a p) = otherQ a p := by
  have z : ∀ b ∈ (Dis.DrOtherParameters.none (List.replicate 15 0)).ser, b = 0 := by decide
  by_cases h : a = 0 ∨ ∀ b ∈ p.ser, b = 0
  · have e : otherQ a p = .none (List.replicate 15 0) := by unfold otherQ; rw [if_pos h]
    rw [e]; unfold otherQ; rw [if_pos (Or.inr z)]
  · have e : otherQ a p = p := by unfold otherQ; rw [if_neg h]
    rw [e, e]

theorem map_same {α : Type} (f : α → α) (l : List α) : l.map f = l ↔ ∀ x ∈ l, f x = x := by
  induction l with
  | nil => simp
  | cons a l ih => simp [ih]

/-! ## What a second gateway can change -/

/-- The fields of a PDU that has gone through C-DIS which another gateway would change. -/
def Still (env : Env) : Dis.Body → Prop
  | .entityState x => worldWireQ env x.entity_location = x.entity_location ∧ orientQ x.entity_orientation = x.entity_orientation ∧
      (x.dead_reckoning_parameters.algorithm ∈ [3, 4, 7, 8] →
        angVelQ x.dead_reckoning_parameters.angular_velocity = x.dead_reckoning_parameters.angular_velocity) ∧
      ∀ p ∈ x.variable_parameters, vpQ p = p
  | .fire x => worldWireQ env x.location_in_world = x.location_in_world
  | .detonation x => worldWireQ env x.location_in_world_coordinates = x.location_in_world_coordinates ∧
      detonationDescQ x.descriptor = x.descriptor ∧ coordQ x.location_in_entity_coordinates = x.location_in_entity_coordinates ∧
      ∀ p ∈ x.variable_parameters, vpQ p = p
  | .collision x => massQ x.mass = x.mass ∧ coordQ x.location = x.location
  | .stopFreeze x => env.frozenByte (env.frozenFlags x.frozen_behavior) = x.frozen_behavior
  | .dataQuery x => timeWireQ x.time_interval = x.time_interval
  | .designator x => coordQ x.spot_wrt_designated_entity = x.spot_wrt_designated_entity ∧ worldWireQ env x.spot_location = x.spot_location
  | .transmitter x => worldWireQ env x.antenna_location = x.antenna_location ∧ coordQ x.relative_antenna_location = x.relative_antenna_location ∧
      txFreqQ x.frequency = x.frequency ∧ bandwidthQ x.transmit_frequency_bandwidth = x.transmit_frequency_bandwidth ∧
      ∀ p, x.antenna_pattern = some p → patternQ p = p
  | .signal x => isAudio x.encoding_scheme = false → x.sample_rate = 0 ∧ x.samples = 0
  | .iff x => coordQ x.relative_antenna_location = x.relative_antenna_location ∧ x.fundamental_operational_data.parameter_1 = 0 ∧
      ∀ l, x.layer_2 = some l → ∀ p ∈ l.iff_fundamental_parameters, bandwidthQ p.frequency = p.frequency
  | _ => True

theorem mod_again16 (n : UInt8) : n % 16 % 16 = n % 16 := by
  apply UInt8.toNat_inj.1
  simp [UInt8.toNat_mod]
theorem mod_again8 (n : UInt16) : n % 8 % 8 = n % 8 := by
  apply UInt16.toNat_inj.1
  simp [UInt16.toNat_mod]
theorem mod_again4 (n : UInt16) : n % 4 % 4 = n % 4 := by
  apply UInt16.toNat_inj.1
  simp [UInt16.toNat_mod]
theorem mod_again256 (n : UInt16) : n % 256 % 256 = n % 256 := by
  apply UInt16.toNat_inj.1
  simp [UInt16.toNat_mod]

theorem layer3_again (l : Dis.IffLayer3) : layer3Q (layer3Q l) = layer3Q l := by
  unfold layer3Q
  cases l.mode_5_basic_data <;> rfl

theorem nat_again {f : Fl → Option Nat} (B : Nat) (hB : B ≤ 65536) (h0 : 0 < B)
    (hf : ∀ q : Rat, f (.num q) = if -1 < q ∧ q < B then some (truncRat q).toNat else none) (hx : ∀ x, (∀ q, x ≠ .num q) → f x = none) (b : UInt32) :
    b32 (int32 ((f (v32 (b32 (int32 ((f (v32 b)).getD 0 : Nat))))).getD 0 : Nat)) = b32 (int32 ((f (v32 b)).getD 0 : Nat)) := by
  have key : ∀ n : Nat, n < B → (f (v32 (b32 (int32 (n : Nat))))).getD 0 = n := by
    intro n h
    have a : |(n : Int)| < 2 ^ 24 := by rw [abs_lt]; constructor <;> omega
    rw [int32_exact a, v32_b32 (rep32_int a), hf]
    have : -1 < ((n : Int) : Rat) ∧ ((n : Int) : Rat) < B :=
      ⟨by push_cast; linarith [(Nat.cast_nonneg n : (0 : Rat) ≤ n)], by push_cast; exact_mod_cast h⟩
    rw [if_pos this, truncRat_int, Option.getD_some, Int.toNat_natCast]
  have lt : (f (v32 b)).getD 0 < B := by
    cases hv : v32 b with
    | nan => rw [hx _ (fun q hq => Fl.noConfusion hq)]; exact h0
    | inf s => rw [hx _ (fun q hq => Fl.noConfusion hq)]; exact h0
    | num q =>
      rw [hf]
      split
      · rename_i h
        have t := (truncRat_spec q).2
        rw [Option.getD_some]
        have t1 : (truncRat q : Rat) < B := by
          have hB1 : (1 : Rat) ≤ B := by exact_mod_cast h0
          have := le_abs_self (truncRat q : Rat)
          rcases abs_cases q with ⟨e, _⟩ | ⟨e, _⟩ <;> rw [e] at t <;> linarith [h.1, h.2]
        have : truncRat q < B := by exact_mod_cast t1
        omega
      · exact h0
  rw [key _ lt]

theorem u8_again (b : UInt32) : b32 (int32 ((u8FromF32 (v32 (b32 (int32 ((u8FromF32 (v32 b)).getD 0 : Nat))))).getD 0 : Nat)) =
    b32 (int32 ((u8FromF32 (v32 b)).getD 0 : Nat)) :=
  nat_again 256 (by decide) (by decide) (fun _ => rfl) (fun x h => by
    cases x with
    | nan => rfl
    | inf s => rfl
    | num q => exact absurd rfl (h q)) b
theorem u16_again (b : UInt32) : b32 (int32 ((u16FromF32 (v32 (b32 (int32 ((u16FromF32 (v32 b)).getD 0 : Nat))))).getD 0 : Nat)) =
    b32 (int32 ((u16FromF32 (v32 b)).getD 0 : Nat)) :=
  nat_again 65536 (by decide) (by decide) (fun _ => rfl) (fun x h => by
    cases x with
    | nan => rfl
    | inf s => rfl
    | num q => exact absurd rfl (h q)) b

theorem sweep_small {b : UInt32} (h : InRange b 0 100) : (sweepEnc b).toNat ≤ 32768 := by
  obtain ⟨q, hq, h1, h2⟩ := h
  obtain ⟨n, hn, hb, -, -⟩ := quant_round_enc (lo := 0) (hi := 65535) (by norm_num) (by norm_num) (by norm_num) (by norm_num)
    (q := q) (K := 2681733 / 262144) (by push_cast; linarith) (by push_cast; linarith)
  have e : sweepEnc b = n := by
    unfold sweepEnc
    rw [hq, sweepScale_eq]
    exact hn
  rw [e]
  have hb := abs_le.1 hb
  have : (n : Rat) < 2000 := by linarith
  have : n < 2000 := by exact_mod_cast this
  omega

theorem param_again (p : Dis.IffFundamentalParameterData) :
    iffParamQ (iffParamQ p) = iffParamQ p ↔ bandwidthQ (iffParamQ p).frequency = (iffParamQ p).frequency := by
  simp only [iffParamQ, u8_again, u16_again, bandwidthQ, Dis.IffFundamentalParameterData.mk.injEq, true_and, and_true]

theorem layer2_again {l : Dis.IffLayer2} (h : (sweepEnc l.beam_data.sweep_sync).toNat ≤ 32768) : layer2WireQ (layer2WireQ l) = layer2WireQ l ↔
    ∀ p ∈ (layer2WireQ l).iff_fundamental_parameters, bandwidthQ p.frequency = p.frequency := by
  have e : layer2WireQ (layer2WireQ l) = layer2WireQ l ↔
      (l.iff_fundamental_parameters.map iffParamQ).map iffParamQ = l.iff_fundamental_parameters.map iffParamQ := by
    simp only [layer2WireQ, layer2Q, C66_beam _ h, Dis.IffLayer2.dataLen, List.length_map, Dis.IffLayer2.mk.injEq, true_and, and_true]
  rw [e, map_same]
  show _ ↔ ∀ p ∈ l.iff_fundamental_parameters.map iffParamQ, _
  constructor
  · intro h p hp
    obtain ⟨a, ha, rfl⟩ := List.mem_map.1 hp
    exact (param_again a).1 (h _ hp)
  · intro h p hp
    obtain ⟨a, ha, rfl⟩ := List.mem_map.1 hp
    exact (param_again a).2 (h _ hp)

/-- **C66.** What a second gateway changes in a PDU that one has let through: nothing, exactly if it leaves alone the fields in `Still`. -/
theorem C66_again_iff {env : Env} {o : Options} {b : Dis.Body} (h : FitsWire env o b) :
    arrival env o (arrival env o b) = arrival env o b ↔ Still env (arrival env o b) := by
  cases b with
  | entityState x =>
    simp only [arrival, Still, accQ]
    by_cases c1 : x.dead_reckoning_parameters.algorithm = 0 ∨ x.dead_reckoning_parameters.algorithm = 1 <;>
    by_cases c2 : x.dead_reckoning_parameters.algorithm = 4 ∨ x.dead_reckoning_parameters.algorithm = 5 ∨
      x.dead_reckoning_parameters.algorithm = 8 ∨ x.dead_reckoning_parameters.algorithm = 9 <;>
    by_cases c3 : x.dead_reckoning_parameters.algorithm ∈ [3, 4, 7, 8] <;>
    by_cases c4 : o.optimize_mode = OptimizeMode.completeness <;>
    simp [c1, c2, c3, c4, map_same, C66_velocity, C66_other]
  | fire x => simp [arrival, Still, C66_velocity, C66_fire_descriptor, C66_range]
  | detonation x => simp [arrival, Still, C66_velocity, map_same]
  | collision x => simp [arrival, Still, C66_velocity]
  | stopFreeze x => simp [arrival, Still, mod_again16]
  | acknowledge x => simp [arrival, Still, mod_again8, mod_again4]
  | dataQuery x => simp [arrival, Still]
  | designator x => simp [arrival, Still, C66_velocity, C66_whole]
  | transmitter x => by_cases hc : x.crypto_system = 0 <;> simp [arrival, Still, C66_tx_power, hc]
  | signal x =>
    by_cases h1 : isAudio (schemeWireQ x.encoding_scheme) <;> by_cases h2 : isAudio x.encoding_scheme <;>
      simp [arrival, Still, C66_scheme, mod_again256, h1, h2, eq_comm]
  | receiver x => simp [arrival, Still, C66_power, mod_again4]
  | iff x =>
    obtain ⟨-, hf⟩ := h
    have e3 : Option.map (layer3Q ∘ layer3Q) x.layer_3 = Option.map layer3Q x.layer_3 := by
      cases x.layer_3 with
      | none => rfl
      | some l => simp only [Option.map_some, Function.comp, layer3_again]
    have e4 : Option.map (layer4Q ∘ layer4Q) x.layer_4 = Option.map layer4Q x.layer_4 := by
      cases x.layer_4 with
      | none => rfl
      | some l => rfl
    have e5 : Option.map (layer5Q ∘ layer5Q) x.layer_5 = Option.map layer5Q x.layer_5 := by
      cases x.layer_5 with
      | none => rfl
      | some l => rfl
    have eo : operationalQ (operationalQ x.fundamental_operational_data) = operationalQ x.fundamental_operational_data ↔
        (operationalQ x.fundamental_operational_data).parameter_1 = 0 := by
      simp [operationalQ, eq_comm]
    simp [arrival, Still, e3, e4, e5, eo]
    intro _ _
    cases h2 : x.layer_2 with
    | none => simp
    | some l => simpa using layer2_again (sweep_small (hf.layer2 l h2).2.1.2)
  | _ => simp [arrival, Still]

/-! ## Fields that drift -/

/-- A second gateway leaves the number as it is or moves it one step towards zero. -/
def Creeps (f : Int → Int) (n : Int) : Prop := f n = n ∨ f n = n - n.sign

/-- Any number of gateways: at most as many steps as gateways, and never away from zero. -/
theorem creeps_all {f : Int → Int} {B : Int} (h : ∀ n, |n| ≤ B → Creeps f n) {n : Int} (hn : |n| ≤ B) (k : Nat) :
    |f^[k] n - n| ≤ k ∧ |f^[k] n| ≤ |n| ∧ 0 ≤ f^[k] n * n := by
  induction k with
  | zero => exact ⟨by simp, by simp, mul_self_nonneg n⟩
  | succ k ih =>
    rw [Function.iterate_succ_apply']
    obtain ⟨h1, h2, h3⟩ := ih
    generalize f^[k] n = m at *
    rcases h m (h2.trans hn) with e | e <;> rw [e]
    · exact ⟨h1.trans (by push_cast; omega), h2, h3⟩
    · rcases lt_trichotomy m 0 with hm | hm | hm
      · rw [Int.sign_eq_neg_one_of_neg hm] at *
        have hn0 : n ≤ 0 := by nlinarith
        rw [abs_of_neg hm, abs_of_nonpos hn0] at h2
        rw [abs_le] at h1
        refine ⟨by rw [abs_le]; push_cast; constructor <;> omega, ?_, ?_⟩
        · rw [abs_of_nonpos (by omega : m - -1 ≤ 0), abs_of_nonpos hn0]; omega
        · exact mul_nonneg_of_nonpos_of_nonpos (by omega) hn0
      · subst hm
        simp only [Int.sign_zero, sub_zero]
        exact ⟨h1.trans (by push_cast; omega), h2, h3⟩
      · rw [Int.sign_eq_one_of_pos hm] at *
        have hn0 : 0 ≤ n := by nlinarith
        rw [abs_of_pos hm, abs_of_nonneg hn0] at h2
        rw [abs_le] at h1
        refine ⟨by rw [abs_le]; push_cast; constructor <;> omega, ?_, ?_⟩
        · rw [abs_of_nonneg (by omega : 0 ≤ m - 1), abs_of_nonneg hn0]; omega
        · exact mul_nonneg (by omega) hn0

theorem cast_bound {n B : Int} (h : |n| ≤ B) : |(n : Rat)| ≤ B := by exact_mod_cast h

theorem i16Sat_near {n : Int} {r : Rat} (hn : |n| ≤ 32767) (h : |r - n| < 1) : i16Sat (.num r) = n ∨ i16Sat (.num r) = n - n.sign := by
  have c := abs_le.1 (cast_bound hn)
  have h' := abs_lt.1 h
  push_cast at c
  have : -32769 < r ∧ r < 32768 := ⟨by linarith, by linarith⟩
  unfold i16Sat i16FromF32
  simp only
  rw [if_pos this]
  exact trunc_near h

theorem centimetres_creep {n : Int} (h : |n| ≤ 32767) : Creeps (fun n => i16Sat (mul32 (v32 (coordDec1 CM n)) (.num 100))) n := by
  obtain ⟨y, r, h1, h2, h3⟩ := again (n := n) (K := 100) (by norm_num) (by norm_num) ((cast_bound h).trans (by norm_num))
  unfold Creeps coordDec1
  simp only [if_true, h1, h2]
  exact i16Sat_near h (by linarith)

/-- **C66.** An offset that is sent in centimetres loses at most one more centimetre at each further gateway, and never changes sides. -/
theorem C66_centimetres {n : Int} (h : |n| ≤ 32767) (k : Nat) :
    let m := (fun n => i16Sat (mul32 (v32 (coordDec1 CM n)) (.num 100)))^[k] n
    |m - n| ≤ k ∧ |m| ≤ |n| ∧ 0 ≤ m * n := creeps_all (B := 32767) (fun _ h => centimetres_creep h) h k

theorem angle_creep {n : Int} (h : |n| ≤ 4094) : Creeps (fun n => angleEnc (angleDec n)) n := by
  have hn := cast_bound h
  push_cast at hn
  obtain ⟨y, hy, hb⟩ := quant_dec (n := n) (K := 2669525 / 2048) (by norm_num) (by norm_num) (by linarith)
  obtain ⟨k, r, hr, hrb, hr'⟩ := normalize_spec y
  have hb' := abs_le.1 hb
  have hn' := abs_le.1 hn
  have hy1 : |y| ≤ 31409 / 10000 := by rw [abs_le]; constructor <;> linarith
  have hk : k = 0 := by
    have a := abs_le.1 hrb
    have b := abs_le.1 hr'
    have c := abs_le.1 hy1
    unfold fullTurn at *
    have h1 : ((-1 : Int) : Rat) < k := by push_cast; linarith
    have h2 : (k : Rat) < ((1 : Int) : Rat) := by push_cast; linarith
    have h1 : -1 < k := by exact_mod_cast h1
    have h2 : k < 1 := by exact_mod_cast h2
    omega
  subst hk
  simp only [Int.cast_zero, zero_mul, sub_zero] at hrb
  have hrb' := abs_le.1 hrb
  have hK : |r * (2669525 / 2048) - n| ≤ 1 / 100 := by rw [abs_le]; constructor <;> linarith
  have hK' := abs_le.1 hK
  obtain ⟨s, hs, -, hsb⟩ := round32_bound (q := r * (2669525 / 2048)) (by
    refine lt_of_le_of_lt (b := 5000) ?_ (by norm_num)
    rw [abs_le]; constructor <;> linarith)
  have hs5 : |r * (2669525 / 2048)| ≤ 5000 := by rw [abs_le]; constructor <;> linarith
  have hsb' := abs_le.1 (hsb.trans (show _ ≤ (1 : Rat) / 100 by
    have : |r * (2669525 / 2048)| / 2 ^ 24 ≤ 5000 / 2 ^ 24 := by gcongr
    refine (add_le_add_left this _).trans ?_
    norm_num))
  have e : angleEnc (angleDec n) = toI16 (.num s) := by
    unfold angleEnc angleDec
    rw [orientScale_eq, hy, hr]
    show toI16 (F32.round _) = _
    rw [hs]
  simp only [Creeps, e]
  rw [abs_le] at h
  exact i16_of_near (by omega) (by rw [abs_lt]; constructor <;> linarith)

/-- **C66.** An angle of an orientation (in steps of π/4095) turns by at most one step, towards zero, at each further gateway. -/
theorem C66_orientation {n : Int} (h : |n| ≤ 4094) (k : Nat) :
    let m := (fun n => angleEnc (angleDec n))^[k] n
    |m - n| ≤ k ∧ |m| ≤ |n| ∧ 0 ≤ m * n := creeps_all (B := 4094) (fun _ h => angle_creep h) h k

/-- one rounding of a number that is near `n / K`, seen from `n` -/
theorem step_near {q t : Rat} {e : Rat} (he : |q - t| ≤ e * |t|) (he0 : 0 ≤ e) (he1 : e ≤ 1 / 1000) (ht : |t| ≤ 2 ^ 60) (ht1 : t = 0 ∨ 1 / 2 ^ 60 ≤ |t|) :
    ∃ r, F32.round q = .num r ∧ F32.Rep r ∧ |r - t| ≤ (e + 1 / 2 ^ 23) * |t| := by
  have hq : |q| ≤ |t| * (1001 / 1000) := by
    have := abs_sub_abs_le_abs_sub q t
    nlinarith [abs_nonneg t]
  obtain ⟨r, h1, h2, h3⟩ := round32_bound (q := q) (by
    refine lt_of_le_of_lt hq ?_
    have : |t| * (1001 / 1000) ≤ 2 ^ 60 * (1001 / 1000) := by linarith
    refine lt_of_le_of_lt this (by norm_num))
  rcases ht1 with rfl | ht1
  · have : q = 0 := by simpa using he
    subst this
    have e0 : F32.round 0 = .num 0 := by simp [Fmt.round]
    rw [e0] at h1
    exact ⟨0, e0, Fmt.rep_zero F32_ok, by simp⟩
  · refine ⟨r, h1, h2, ?_⟩
    have a : |r - t| ≤ |r - q| + |q - t| := by
      have := abs_add_le (r - q) (q - t)
      rwa [show r - q + (q - t) = r - t by ring] at this
    have b : |q| / 2 ^ 24 ≤ |t| * (1001 / 1000) / 2 ^ 24 := by gcongr
    have c : (1 : Rat) / 2 ^ 150 ≤ |t| / 2 ^ 80 := by
      rw [div_le_div_iff₀ (by norm_num) (by norm_num)]
      have : (1 : Rat) / 2 ^ 60 * 2 ^ 150 ≤ |t| * 2 ^ 150 := by gcongr
      refine le_trans ?_ this
      norm_num
    have d : |t| * (1001 / 1000) / 2 ^ 24 + |t| / 2 ^ 80 ≤ 1 / 2 ^ 23 * |t| := by
      rw [show |t| * (1001 / 1000) / 2 ^ 24 + |t| / 2 ^ 80 = |t| * ((1001 / 1000) / 2 ^ 24 + 1 / 2 ^ 80) by ring, mul_comm (1 / 2 ^ 23 : Rat)]
      gcongr
      norm_num
    rw [add_mul]
    linarith

theorem angVel_creep {n : Int} (h : |n| ≤ 32767) : Creeps (fun n => angVelEnc1 (angVelDec1 n)) n := by
  have hn := cast_bound h
  push_cast at hn
  have n24 : |n| < 2 ^ 24 := by omega
  obtain ⟨S, hS⟩ : ∃ S : Rat, S = 10680707 / 16777216 := ⟨_, rfl⟩
  obtain ⟨R, hR⟩ : ∃ R : Rat, R = 469367 / 8192 := ⟨_, rfl⟩
  have S0 : (0 : Rat) < S := by norm_num [hS]
  have R0 : (0 : Rat) < R := by norm_num [hR]
  have nz : ∀ c : Rat, 0 < c → 1 / 2 ^ 20 ≤ c → c ≤ 2 ^ 20 → ((n : Rat) * c = 0 ∨ 1 / 2 ^ 60 ≤ |(n : Rat) * c|) ∧ |(n : Rat) * c| ≤ 2 ^ 60 := by
    intro c c0 c1 c2
    constructor
    · by_cases h0 : n = 0
      · left; simp [h0]
      · right
        have : (1 : Rat) ≤ |(n : Rat)| := by
          have : 1 ≤ |n| := Int.one_le_abs h0
          exact_mod_cast this
        rw [abs_mul, abs_of_pos c0]
        have : (1 : Rat) * (1 / 2 ^ 20) ≤ |(n : Rat)| * c := by gcongr
        refine le_trans ?_ this
        norm_num
    · rw [abs_mul, abs_of_pos c0]
      have : |(n : Rat)| * c ≤ 32767 * 2 ^ 20 := by gcongr
      exact this.trans (by norm_num)
  -- four roundings
  obtain ⟨z1, b1⟩ := nz (1 / S) (by positivity) (by norm_num [hS]) (by norm_num [hS])
  obtain ⟨a, ha, -, ea⟩ := step_near (q := n / S) (t := n * (1 / S)) (e := 0) (by rw [show (n : Rat) / S - n * (1 / S) = 0 by ring]; simp) (le_refl _) (by norm_num) b1 z1
  obtain ⟨z2, b2⟩ := nz (1 / S / R) (by positivity) (by norm_num [hS, hR]) (by norm_num [hS, hR])
  obtain ⟨b, hb, rb, eb⟩ := step_near (q := a / R) (t := n * (1 / S / R)) (e := 1 / 2 ^ 23) (by
    rw [show a / R - n * (1 / S / R) = (a - n * (1 / S)) / R by ring, show n * (1 / S / R) = n * (1 / S) / R by ring, abs_div, abs_div, abs_of_pos R0]
    rw [zero_add] at ea
    have := div_le_div_of_nonneg_right ea R0.le
    rwa [mul_div_assoc] at this) (by norm_num) (by norm_num) b2 z2
  obtain ⟨c, hc, -, ec⟩ := step_near (q := b * R) (t := n * (1 / S)) (e := 2 / 2 ^ 23) (by
    rw [show b * R - n * (1 / S) = (b - n * (1 / S / R)) * R by field_simp, show n * (1 / S) = n * (1 / S / R) * R by field_simp, abs_mul, abs_mul, abs_of_pos R0,
      ← mul_assoc]
    gcongr
    refine eb.trans (le_of_eq ?_)
    ring) (by norm_num) (by norm_num) b1 z1
  obtain ⟨z4, b4⟩ := nz 1 (by positivity) (by norm_num) (by norm_num)
  obtain ⟨d, hd, -, ed⟩ := step_near (q := c * S) (t := n * 1) (e := 3 / 2 ^ 23) (by
    rw [show c * S - n * 1 = (c - n * (1 / S)) * S by field_simp, show (n : Rat) * 1 = n * (1 / S) * S by field_simp, abs_mul, abs_mul, abs_of_pos S0,
      ← mul_assoc]
    gcongr
    refine ec.trans (le_of_eq ?_)
    ring) (by norm_num) (by norm_num) b4 z4
  have e : angVelEnc1 (angVelDec1 n) = toI16 (.num d) := by
    unfold angVelEnc1 angVelDec1
    rw [int32_exact n24, radToDeg_eq, angVelScale_eq, ← hS, ← hR]
    have e1 : div32 (.num (n : Rat)) (.num S) = .num a := by
      simp only [div32, Fl.div]; rw [if_neg S0.ne']; exact ha
    have e2 : div32 (.num a) (.num R) = .num b := by
      simp only [div32, Fl.div]; rw [if_neg R0.ne']; exact hb
    rw [e1, e2, v32_b32 rb]
    show toI16 (Fl.mul F32 (F32.round (b * R)) _) = _
    rw [hc]
    show toI16 (F32.round (c * S)) = _
    rw [hd]
  simp only [Creeps, e]
  rw [abs_le] at h
  refine i16_of_near (by omega) ?_
  rw [mul_one] at ed
  refine lt_of_le_of_lt ed ?_
  have : (3 / 2 ^ 23 + 1 / 2 ^ 23) * |(n : Rat)| ≤ (3 / 2 ^ 23 + 1 / 2 ^ 23) * 32767 := by gcongr
  exact lt_of_le_of_lt this (by norm_num)

/-- **C66.** A component of an angular velocity likewise. -/
theorem C66_angular_velocity {n : Int} (h : |n| ≤ 32767) (k : Nat) :
    let m := (fun n => angVelEnc1 (angVelDec1 n))^[k] n
    |m - n| ≤ k ∧ |m| ≤ |n| ∧ 0 ≤ m * n := creeps_all (B := 32767) (fun _ h => angVel_creep h) h k

theorem pattern_creep {n : Int} (h : |n| ≤ 32767) : Creeps (fun n => patAngleEnc (patAngleDec n)) n := by
  obtain ⟨y, r, h1, h2, h3⟩ := again (n := n) (K := 2669525 / 2048) (by norm_num) (by norm_num) ((cast_bound h).trans (by norm_num))
  have e : patAngleEnc (patAngleDec n) = toI16 (.num r) := by
    unfold patAngleEnc patAngleDec
    rw [orientScale_eq, h1, h2]
  simp only [Creeps, e]
  rw [abs_le] at h
  exact i16_of_near (by omega) (by linarith)

/-- **C66.** The angles of an antenna pattern likewise. -/
theorem C66_pattern {n : Int} (h : |n| ≤ 32767) (k : Nat) :
    let m := (fun n => patAngleEnc (patAngleDec n))^[k] n
    |m - n| ≤ k ∧ |m| ≤ |n| ∧ 0 ≤ m * n := creeps_all (B := 32767) (fun _ h => pattern_creep h) h k

/-! ## What goes wrong -/

/-- **C66 violated.** The heading in step −1019 of 4095 (−44.79°) turns by a step at each of five gateways. -/
theorem C66_orientation_violated :
    (List.range 7).map (fun k => angleEnc ((fun b => angleDec (angleEnc b))^[k] (angleDec (-1019)))) =
      [-1018, -1017, -1016, -1015, -1014, -1014, -1014] := by decide +kernel

/-- **C66 violated.** An angular velocity slows down at each of six gateways. -/
theorem C66_angular_velocity_violated :
    (List.range 8).map (fun k => angVelEnc1 ((fun b => angVelDec1 (angVelEnc1 b))^[k] (angVelDec1 (-2035)))) =
      [-2034, -2033, -2032, -2031, -2030, -2029, -2029, -2029] := by decide +kernel

/-- **C66 violated.** An antenna 2.37 m behind the centre of its entity moves a centimetre forward at each of four gateways. -/
theorem C66_centimetres_violated :
    (List.range 6).map (fun k => (coordEnc (coordQ^[k] ⟨0, 0, coordDec1 CM (-237)⟩)).1.z) = [-236, -235, -234, -233, -233, -233] := by
  decide +kernel

/-- **C66 violated.** An offset of (40000, 500, −2.25) m leaves the first gateway as (32767, 500, −2) m and the second as
(327.67, 327.67, −2) m: the limits that decide between metres and centimetres are the limits for metres. -/
theorem C66_offset_violated :
    coordQ ⟨0x471C4000, 0x43FA0000, 0xC0100000⟩ = ⟨0x46FFFE00, 0x43FA0000, 0xC0000000⟩ ∧
    coordQ ⟨0x46FFFE00, 0x43FA0000, 0xC0000000⟩ = ⟨0x43A3D5C3, 0x43A3D5C3, 0xC0000000⟩ ∧
    v32 0x471C4000 = .num 40000 ∧ v32 0x46FFFE00 = .num 32767 ∧ v32 0x43FA0000 = .num 500 ∧
    Fl.lt (v32 0x43A3D5C3) (.num (32768 / 100)) = true := by decide +kernel

/-- **C66 violated.** A mass of 64.09 kg loses a gram at each of four gateways. -/
theorem C66_mass_violated :
    (List.range 6).map (fun k => massEnc (massQ^[k] (massDec 64090 0))) = [(64089, 0), (64088, 0), (64087, 0), (64086, 0), (64086, 0), (64086, 0)] := by
  decide +kernel

/-- **C66 violated.** A timestamp advances at each of seven gateways. -/
theorem C66_time_violated :
    (List.range 9).map (fun k => timeWireQ^[k] 11000000) =
      [11000000, 11000002, 11000004, 11000006, 11000008, 11000010, 11000012, 11000014, 11000014] := by decide +kernel

/-- **C66 violated.** A bandwidth changes at the second and at the third gateway. -/
theorem C66_bandwidth_violated :
    (List.range 4).map (fun k => (freqEnc (bandwidthQ^[k] (freqDec ⟨107508, 4⟩))).mantissa) = [107507, 107506, 107506, 107506] := by decide +kernel

/-- **C66 violated.** The sixth parameter of an IFF PDU arrives as the first, and after a second gateway not at all. -/
theorem C66_iff_violated (x : Dis.FundamentalOperationalData) :
    (operationalQ x).parameter_1 = x.parameter_6 ∧ (operationalQ (operationalQ x)).parameter_1 = 0 ∧ (operationalQ (operationalQ x)).parameter_6 = 0 :=
  ⟨rfl, rfl, rfl⟩

/-! ## Locations -/

/-- The program's two conversions undo each other, to a microradian and a millimetre. -/
def Inverse (env : Env) : Prop := ∀ lat lon alt : Rat, |lat| ≤ 157 / 100 → |lon| ≤ 314159 / 100000 → |alt| ≤ 100000 →
  atCentre (env.toEcef (.num lat) (.num lon) (.num alt)) = false ∧
  ∃ lat' lon' alt', env.toLla (env.toEcef (.num lat) (.num lon) (.num alt)) = (.num lat', .num lon', .num alt') ∧
    |lat' - lat| ≤ 1 / 1000000 ∧ |lon' - lon| ≤ 1 / 1000000 ∧ |alt' - alt| ≤ 1 / 1000

/-- **C66 violated.** Whatever its location (below 83 km), an entity is at latitude and longitude zero after enough gateways: each of them
divides the latitude by more than 16 and the longitude by more than 8. -/
theorem C66_location_violated {env : Env} (hi : Inverse env) {l : Dis.Location} {lat lon alt : Rat} (hc : atCentre l = false)
    (hl : env.toLla l = (.num lat, .num lon, .num alt)) (hlat : |lat| ≤ 157 / 100) (hlon : |lon| ≤ 314159 / 100000) (k : Nat)
    (h0 : -10485 + k * (3 / 100) ≤ alt) (h1 : alt + k * (3 / 100) ≤ 83886) :
    ∃ lat' lon' alt', env.toLla ((worldWireQ env)^[k] l) = (.num lat', .num lon', .num alt') ∧
      |lat'| ≤ |lat| / 16 ^ k + 4 / 1000000 ∧ |lon'| ≤ |lon| / 8 ^ k + 4 / 1000000 ∧ |alt' - alt| ≤ k * (3 / 100) := by
  suffices H : atCentre ((worldWireQ env)^[k] l) = false ∧ ∃ lat' lon' alt', env.toLla ((worldWireQ env)^[k] l) = (.num lat', .num lon', .num alt') ∧
      |lat'| ≤ |lat| / 16 ^ k + (if k = 0 then 0 else 4 / 1000000) ∧ |lon'| ≤ |lon| / 8 ^ k + (if k = 0 then 0 else 4 / 1000000) ∧ |alt' - alt| ≤ k * (3 / 100) by
    obtain ⟨-, a, b, c, h, h2, h3, h4⟩ := H
    refine ⟨a, b, c, h, h2.trans ?_, h3.trans ?_, h4⟩ <;> · split <;> linarith
  induction k with
  | zero => exact ⟨hc, lat, lon, alt, hl, by simp, by simp, by simp⟩
  | succ k ih =>
    push_cast at h0 h1 ⊢
    obtain ⟨c0, a, b, c, h, h2, h3, h4⟩ := ih (by linarith) (by linarith)
    rw [Function.iterate_succ_apply']
    generalize (worldWireQ env)^[k] l = m at *
    have p16 : |lat| / 16 ^ k ≤ |lat| := div_le_self (abs_nonneg _) (one_le_pow₀ (by norm_num))
    have p8 : |lon| / 8 ^ k ≤ |lon| := div_le_self (abs_nonneg _) (one_le_pow₀ (by norm_num))
    have h4' := abs_le.1 h4
    have ha : |a| ≤ 157 / 100 := by
      by_cases hk : k = 0
      · rw [if_pos hk] at h2; linarith
      · rw [if_neg hk] at h2
        have : |lat| / 16 ^ k ≤ |lat| / 16 ^ 1 := by
          gcongr
          · norm_num
          · omega
        norm_num at this
        linarith
    have hb : |b| ≤ 314159 / 100000 := by
      by_cases hk : k = 0
      · rw [if_pos hk] at h3; linarith
      · rw [if_neg hk] at h3
        have : |lon| / 8 ^ k ≤ |lon| / 8 ^ 1 := by
          gcongr
          · norm_num
          · omega
        norm_num at this
        linarith
    have k0 : (0 : Rat) ≤ k := Nat.cast_nonneg k
    obtain ⟨-, a', b', c', e, e1, e2, e3⟩ := world_wire c0 h ha hb (Or.inl ⟨by linarith, by linarith⟩)
    rw [if_pos (by linarith)] at e3
    have e1' := abs_le.1 e1
    have e2' := abs_le.1 e2
    have e3' := abs_le.1 e3
    have A : |a'| ≤ |a| / 17 + 2 / 10000000 := by
      have := abs_le.1 (le_refl |a|)
      rw [abs_le]; constructor <;> linarith
    have B : |b'| ≤ |b| / (89 / 10) + 3 / 10000000 := by
      have := abs_le.1 (le_refl |b|)
      rw [abs_le]; constructor <;> linarith
    obtain ⟨d0, a2, b2, c2, f, f1, f2, f3⟩ := hi a' b' c' (by linarith) (by linarith) (by rw [abs_le]; constructor <;> linarith)
    have f3' := abs_le.1 f3
    rw [e]
    refine ⟨d0, a2, b2, c2, f, ?_, ?_, ?_⟩
    · show _ ≤ _ + (4 / 1000000 : Rat)
      have s := abs_sub_abs_le_abs_sub a2 a'
      have t : (if k = 0 then (0 : Rat) else 4 / 1000000) ≤ 4 / 1000000 := by split <;> norm_num
      have n := abs_nonneg a
      rw [pow_succ, ← div_div]
      linarith
    · show _ ≤ _ + (4 / 1000000 : Rat)
      have s := abs_sub_abs_le_abs_sub b2 b'
      have t : (if k = 0 then (0 : Rat) else 4 / 1000000) ≤ 4 / 1000000 := by split <;> norm_num
      have n := abs_nonneg b
      rw [pow_succ, ← div_div]
      linarith
    · rw [abs_le]; constructor <;> linarith

/-! ## Whole PDUs -/

/-- `q` is what leaves the last of `k` gateways in series when `p` goes into the first. -/
def Gateways (env : Env) (o : Options) : Nat → Dis.Pdu → Dis.Pdu → Prop
  | 0, p, q => p = q
  | k + 1, p, q => ∃ m, Arrives env o p m ∧ Gateways env o k m q

theorem Gateways.snoc {env : Env} {o : Options} {k : Nat} {p q r : Dis.Pdu} (h : Gateways env o k p q) (ha : Arrives env o q r) :
    Gateways env o (k + 1) p r := by
  induction k generalizing p with
  | zero => cases h; exact ⟨r, ha, rfl⟩
  | succ k ih =>
    obtain ⟨m, h1, h2⟩ := h
    exact ⟨m, h1, ih h2⟩

/-- **C66.** A PDU with a body that a second gateway would not change (`C66_again_iff`) leaves any number of gateways in series with the body
it had after the first, and with its header but for the timestamp. -/
theorem C66_chain {env : Env} {o : Options} {p : Dis.Pdu} (h : PduFits env o p) (h2 : FitsWire env o (arrival env o p.body))
    (hs : Still env (arrival env o p.body)) (k : Nat) :
    Gateways env o (k + 1) p (received { p.header with time_stamp := timeWireQ^[k] p.header.time_stamp } (arrival env o p.body)) := by
  induction k with
  | zero => exact ⟨_, C57_pdu h, rfl⟩
  | succ k ih =>
    refine ih.snoc ?_
    have hk := (C57_kind env o p.body p.header).1
    have e := C57_pdu (env := env) (o := o)
      (p := received { p.header with time_stamp := timeWireQ^[k] p.header.time_stamp } (arrival env o p.body)) ⟨by
        simp only [received]
        rw [hk, h.1], by
        simp only [received, Option.getD_some]
        exact h.2.1, by simpa only [received] using h2⟩
    rw [Function.iterate_succ_apply']
    simpa only [received, (C66_again_iff h.2.2).2 hs, Option.getD_some] using e

/-- the kinds of PDU that another gateway never changes -/
def NoDrift : Dis.Body → Prop
  | .createEntity _ | .removeEntity _ | .startResume _ | .acknowledge _ | .actionRequest _ | .actionResponse _ | .setData _ | .data _
  | .eventReport _ | .comment _ | .receiver _ | .electromagneticEmission _ => True
  | _ => False

theorem no_drift_fits {env : Env} {o : Options} {b : Dis.Body} (hn : NoDrift b) (h : FitsWire env o b) :
    FitsWire env o (arrival env o b) ∧ Still env (arrival env o b) := by
  cases b with
  | receiver x =>
    refine ⟨fun q hq => ?_, trivial⟩
    have z : v32 (b32 (int32 0)) = .num 0 := by decide +kernel
    cases hb : v32 x.received_power with
    | nan =>
      have e : powerQ x.received_power = b32 (int32 0) := by simp [powerQ, hb, i16FromF32]
      rw [e, z] at hq
      cases hq; norm_num
    | inf s =>
      have e : powerQ x.received_power = b32 (int32 0) := by simp [powerQ, hb, i16FromF32]
      rw [e, z] at hq
      cases hq; norm_num
    | num r =>
      have hr := h r hb
      have e : powerQ x.received_power = b32 (int32 (truncRat r)) := by
        simp only [powerQ, hb, i16FromF32]
        rw [if_pos ⟨by linarith [hr.1], by linarith [hr.2]⟩, Option.getD_some]
      rw [e, int32_trunc hb] at hq
      cases hq
      have t := (truncRat_spec r).2
      have t1 := abs_lt.1 (truncRat_spec r).1
      have a := abs_le.1 t
      rcases abs_cases r with ⟨e', _⟩ | ⟨e', _⟩ <;> rw [e'] at a
      · exact ⟨by linarith, by linarith⟩
      · refine ⟨by linarith, ?_⟩
        by_contra hc
        linarith
  | _ => first
    | exact ⟨h, trivial⟩
    | exact False.elim hn

/-- **C66.** The simulation management PDUs that C-DIS carries without times and without a frozen behaviour, the Receiver PDU and the
Electromagnetic Emission PDU without systems lose nothing but time at any number of gateways after the first. -/
theorem C66_no_drift {env : Env} {o : Options} {p : Dis.Pdu} (h : PduFits env o p) (hn : NoDrift p.body) (k : Nat) :
    Gateways env o (k + 1) p (received { p.header with time_stamp := timeWireQ^[k] p.header.time_stamp } (arrival env o p.body)) :=
  C66_chain h (no_drift_fits hn h.2.2).1 (no_drift_fits hn h.2.2).2 k

/-- The hypothesis of `C66_location_violated` can be met: numbers of 64 bits are precise enough. -/
theorem inverse_exists (env0 : Env) : ∃ env : Env, Inverse env := by
  refine ⟨{ env0 with
    toEcef := fun lat lon alt => ⟨b64 (Fl.add F64 lat (.num 10)), b64 (lon.conv F64), b64 (alt.conv F64)⟩
    toLla := fun l => (match v64 l.x_coordinate with | .num q => .num (q - 10) | x => x, v64 l.y_coordinate, v64 l.z_coordinate) }, ?_⟩
  intro lat lon alt h1 h2 h3
  have key : ∀ q : Rat, |q| ≤ 100000 → ∃ s, v64 (b64 (F64.round q)) = .num s ∧ |s - q| ≤ 1 / 1000000 := by
    intro q hq
    obtain ⟨s, hs, hrep, hsb⟩ := round64_bound (q := q) (lt_of_le_of_lt hq (by norm_num))
    refine ⟨s, ?_, ?_⟩
    · rw [hs]
      have := Fl.toBits_lt F64_ok (.num s) (by rintro q ⟨⟩; exact hrep)
      unfold v64 b64
      rw [UInt64.toNat_ofNat_of_lt' (by simpa [F64, UInt64.size] using this)]
      exact Fl.ofBits_toBits F64_ok hrep
    · refine hsb.trans ?_
      have h3 : |q| / 2 ^ 53 ≤ 100000 / 2 ^ 53 := div_le_div_of_nonneg_right hq (by norm_num)
      have h4 : (1 : ℚ) / 2 ^ 1000 ≤ 1 / 2 ^ 53 :=
        div_le_div_of_nonneg_left (by norm_num) (by norm_num) (pow_le_pow_right₀ (by norm_num) (by norm_num))
      exact (add_le_add h3 h4).trans (by norm_num)
  have h1' := abs_le.1 h1
  obtain ⟨a, a1, a2⟩ := key (lat + 10) (by rw [abs_le]; constructor <;> linarith)
  obtain ⟨b, b1, b2⟩ := key lon (by linarith)
  obtain ⟨c, c1, c2⟩ := key alt h3
  have a2' := abs_le.1 a2
  constructor
  · show (v64 (b64 (F64.round (lat + 10))) == Fl.num 0 && _ && _) = false
    rw [a1]
    have : (Fl.num a == Fl.num 0) = false := by
      rw [beq_eq_false_iff_ne]
      intro hc
      cases hc
      linarith
    rw [this]; rfl
  · refine ⟨a - 10, b, c, ?_, by rw [abs_le]; constructor <;> linarith, b2, c2.trans (by norm_num)⟩
    show (match v64 (b64 (F64.round (lat + 10))) with | .num q => Fl.num (q - 10) | x => x, v64 (b64 (F64.round lon)), v64 (b64 (F64.round alt))) = _
    rw [a1, b1, c1]

/-- the hypotheses of `C66_no_drift`, `C66_chain` and `C66_again_iff` -/
example (k : Nat) := C66_no_drift (sent_fits (6, ⟨sampleFor 15, .acknowledge sample_acknowledge⟩) (by simp [sent])) trivial k
example (k : Nat) := C66_no_drift (sent_fits (14, ⟨sampleFor 27, .receiver sample_receiver⟩) (by simp [sent])) trivial k
example : ∃ env : Env, Inverse env := inverse_exists codecEnv
/-- and for an IFF PDU -/
example := (C66_again_iff (sent_fits (15, ⟨sampleFor 28, .iff sent_iff⟩) (by simp [sent])).2.2).1

end Verif.Props
