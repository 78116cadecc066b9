import Verif.Props.Quantise

/-! # C41, continued: beams, coordinates, world coordinates -/

namespace Verif.Props
open Verif.Codec

/-! ## Beam data -/

/-- Steps for one radian of a beam angle: about 4.138.  (The numerator is 13 = (2 xor 12) - 1 in place of the 4095 of the
standard.) -/
def beamSteps : Rat := 8678075 / 2097152

theorem beamScale_eq : beamScale = .num beamSteps := by decide +kernel
theorem sweepScale_eq : sweepScale = .num (2681733 / 262144) := by decide +kernel

/-- A beam angle of at most 7900 rad comes back within 0.52 steps, that is 0.126 rad. -/
theorem C41_beam_angle {b : UInt32} {q : Rat} (hq : v32 b = .num q) (h : |q| ≤ 7900) :
    Near (beamAngleDec (beamAngleEnc b)) q (52 / 100 / beamSteps) := by
  have hl := abs_le.1 h
  obtain ⟨y, hy, hb⟩ := quant_round_rt (lo := -32768) (hi := 32767) (by norm_num) (by norm_num) (by norm_num) (by norm_num)
    (q := q) (K := beamSteps) (by unfold beamSteps; norm_num) (by unfold beamSteps; norm_num)
    (by unfold beamSteps; push_cast; linarith [hl.1]) (by unfold beamSteps; push_cast; linarith [hl.2])
  refine ⟨y, ?_, hb⟩
  unfold beamAngleDec beamAngleEnc
  rw [hq, beamScale_eq]
  exact hy
example : v32 0x3FC90FDB = .num (13176795 / 8388608) ∧ |(13176795 / 8388608 : Rat)| ≤ 7900 ∧
    beamAngleEnc 0x3FC90FDB = 7 := by decide +kernel

/-- A beam angle of 6.8 degrees is encoded as 0. -/
theorem C41_beam_coarse : v32 0x3DF33333 = .num (15938355 / 134217728) ∧ beamAngleEnc 0x3DF33333 = 0 := by decide +kernel

/-- A sweep synchronisation between 0 and 100% comes back within 0.051 percent points, and the encoded number fits
10 bits. -/
theorem C41_sweep {b : UInt32} {q : Rat} (hq : v32 b = .num q) (h0 : 0 ≤ q) (h : q ≤ 100) :
    Near (sweepDec (sweepEnc b).toNat) q (52 / 100 / (2681733 / 262144)) ∧ 0 ≤ sweepEnc b ∧ sweepEnc b < 1024 := by
  obtain ⟨n, hn, hb, hn1, hn2⟩ := quant_round_enc (lo := 0) (hi := 65535) (by norm_num) (by norm_num) (by norm_num)
    (by norm_num) (q := q) (K := 2681733 / 262144) (by push_cast; linarith) (by push_cast; linarith)
  have hE : sweepEnc b = n := by
    unfold sweepEnc
    rw [hq, sweepScale_eq]
    exact hn
  have hb' := abs_le.1 hb
  have hlt : n < 1024 := by
    have : (n : Rat) < 1024 := by linarith
    exact_mod_cast this
  have hcast : ((n.toNat : Nat) : Int) = n := Int.toNat_of_nonneg hn1
  obtain ⟨y, hy, hyb⟩ := quant_dec (n := n) (K := 2681733 / 262144) (by norm_num) (by norm_num) (by
    have : |n| ≤ 32768 := by rw [abs_le]; constructor <;> omega
    exact_mod_cast this)
  refine ⟨⟨y, ?_, ?_⟩, by rw [hE]; exact hn1, by rw [hE]; exact hlt⟩
  · rw [hE]
    unfold sweepDec
    rw [hcast, sweepScale_eq]
    exact hy
  · rw [abs_le] at hyb ⊢
    constructor <;> linarith
example : v32 0x41C80000 = .num 25 ∧ sweepEnc 0x41C80000 = 256 := by decide +kernel

/-! ## Entity coordinate vectors -/

theorem i16Sat_num (r : Rat) : i16Sat (.num r) = toI16 (.num r) := by
  have e0 : i16Sat (.num r) = (match (if -32769 < r ∧ r < 32768 then some (truncRat r) else none) with
    | some n => n
    | none => if r < 0 then -32768 else 32767) := rfl
  rw [e0]
  by_cases h : -32769 < r ∧ r < 32768
  · rw [if_pos h]
    exact (castSat_of_lt (by push_cast; linarith [h.1]) (by push_cast; linarith [h.2]) (by norm_num) (by norm_num)).symm
  · rw [if_neg h]
    dsimp only
    split
    · rename_i hr
      refine (toI16_low (Or.inr ⟨r, rfl, ?_⟩)).symm
      by_contra hc
      exact h ⟨by linarith, by linarith⟩
    · rename_i hr
      refine (toI16_high (Or.inr ⟨r, rfl, ?_⟩)).symm
      by_contra hc
      exact h ⟨by linarith, by linarith⟩

theorem i16Sat_inf (s : Bool) : i16Sat (.inf s) = toI16 (.inf s) := by cases s <;> rfl

theorem i16Sat_round (x : Rat) : i16Sat (F32.round x) = toI16 (F32.round x) := by
  cases h : F32.round x with
  | nan =>
    unfold Fmt.round at h
    split at h
    · exact absurd h (by simp)
    · dsimp only at h
      split at h <;> exact absurd h (by simp)
  | inf s => exact i16Sat_inf s
  | num r => exact i16Sat_num r

theorem inCm_iff {b : UInt32} {q : Rat} (h : v32 b = .num q) :
    inCmRange b = true ↔ -32768 ≤ q ∧ q ≤ 32767 := by
  unfold inCmRange
  rw [h]
  simp [Fl.le]

/-- Components of at most 327.67 m come back within 1.01 cm. -/
theorem C41_coordinates {v : Dis.VectorF32} {x y z : Rat} (hx : v32 v.first = .num x) (hy : v32 v.second = .num y)
    (hz : v32 v.third = .num z) (h : |x| ≤ 32767 / 100 ∧ |y| ≤ 32767 / 100 ∧ |z| ≤ 32767 / 100) :
    let w := coordDec (coordEnc v).1 (coordEnc v).2
    Near w.first x (101 / 10000) ∧ Near w.second y (101 / 10000) ∧ Near w.third z (101 / 10000) := by
  obtain ⟨h1, h2, h3⟩ := h
  have hx' := abs_le.1 h1
  have hy' := abs_le.1 h2
  have hz' := abs_le.1 h3
  have e : coordEnc v = (⟨i16Sat (mul32 (v32 v.first) (.num 100)), i16Sat (mul32 (v32 v.second) (.num 100)),
      i16Sat (mul32 (v32 v.third) (.num 100))⟩, CM) := by
    unfold coordEnc
    rw [(inCm_iff hx).2 ⟨by linarith, by linarith⟩, (inCm_iff hy).2 ⟨by linarith, by linarith⟩,
      (inCm_iff hz).2 ⟨by linarith, by linarith⟩]
    rfl
  have one : ∀ {b : UInt32} {q : Rat}, v32 b = .num q → |q| ≤ 32767 / 100 →
      Near (coordDec1 CM (i16Sat (mul32 (v32 b) (.num 100)))) q (101 / 10000) := by
    intro b q hq hb
    obtain ⟨y, hy, hyb⟩ := quant_rt (q := q) (K := 100) (by norm_num) (by norm_num) (by
      rw [abs_mul, abs_of_pos (by norm_num : (0 : Rat) < 100)]
      linarith)
    refine ⟨y, ?_, by linarith⟩
    unfold coordDec1
    rw [if_pos rfl, hq]
    simp only [mul32, Fl.mul]
    rw [i16Sat_round]
    exact hy
  simp only [e]
  exact ⟨one hx h1, one hy h2, one hz h3⟩
example : v32 0x42480000 = .num 50 ∧ v32 0xC3210000 = .num (-161) ∧ v32 0x3E000000 = .num (1 / 8) ∧
    |(50 : Rat)| ≤ 32767 / 100 ∧ |(-161 : Rat)| ≤ 32767 / 100 ∧ |(1 / 8 : Rat)| ≤ 32767 / 100 := by decide +kernel

/-- When a component lies outside the `i16` range in metres, the others (up to 32767 m) come back within one metre. -/
theorem C41_coordinates_metres {v : Dis.VectorF32} {x : Rat} (hx : v32 v.first = .num x) (h : |x| ≤ 32767)
    {y : Rat} (hy : v32 v.second = .num y) (hout : 32767 < |y| ∧ y ≠ -32768 ∧ (y < -32768 ∨ 32767 < y)) :
    (coordEnc v).2 = METER ∧ Near (coordDec (coordEnc v).1 (coordEnc v).2).first x 1 := by
  have hny : inCmRange v.second = false := by
    rw [Bool.eq_false_iff]
    intro hc
    rw [inCm_iff hy] at hc
    rcases hout.2.2 with hh | hh <;> linarith [hc.1, hc.2]
  have e : coordEnc v = (⟨i16Sat (v32 v.first), i16Sat (v32 v.second), i16Sat (v32 v.third)⟩, METER) := by
    unfold coordEnc
    rw [hny]
    simp
  have hb := abs_le.1 h
  have t := truncRat_spec x
  have en : i16Sat (v32 v.first) = truncRat x := by
    rw [hx, i16Sat_num]
    exact castSat_of_lt (by push_cast; linarith) (by push_cast; linarith) (by norm_num) (by norm_num)
  have hn : |truncRat x| < 2 ^ 24 := by
    have : |(truncRat x : Rat)| ≤ 32767 := le_trans t.2 h
    have : |truncRat x| ≤ 32767 := by exact_mod_cast this
    omega
  refine ⟨by rw [e], ?_⟩
  refine ⟨truncRat x, ?_, t.1.le⟩
  rw [e]
  show v32 (coordDec1 METER (i16Sat (v32 v.first))) = _
  rw [en]
  unfold coordDec1
  rw [if_neg (by decide), int32_exact hn]
  exact v32_b32 (rep32_int hn)
example : v32 0x44FA0000 = .num 2000 ∧ |(2000 : Rat)| ≤ 32767 ∧ v32 0x47435000 = .num 50000 ∧
    (32767 : Rat) < |(50000 : Rat)| := by decide +kernel

/-- Defect: a component between 328 m and 32767 m (the others not beyond 32767 m) comes back as 327.67 m: the range test is
made on metres although the number that is stored counts centimetres. -/
theorem C41_coordinates_clipped {v : Dis.VectorF32} {x y z : Rat} (hx : v32 v.first = .num x) (hy : v32 v.second = .num y)
    (hz : v32 v.third = .num z) (h : 328 ≤ x ∧ x ≤ 32767) (hy' : |y| ≤ 32767) (hz' : |z| ≤ 32767) :
    Near (coordDec (coordEnc v).1 (coordEnc v).2).first (32767 / 100) (1 / 10000) := by
  have hyb := abs_le.1 hy'
  have hzb := abs_le.1 hz'
  have e : coordEnc v = (⟨i16Sat (mul32 (v32 v.first) (.num 100)), i16Sat (mul32 (v32 v.second) (.num 100)),
      i16Sat (mul32 (v32 v.third) (.num 100))⟩, CM) := by
    unfold coordEnc
    rw [(inCm_iff hx).2 ⟨by linarith [h.1], by linarith [h.2]⟩, (inCm_iff hy).2 ⟨by linarith, by linarith⟩,
      (inCm_iff hz).2 ⟨by linarith, by linarith⟩]
    rfl
  have en : i16Sat (mul32 (v32 v.first) (.num 100)) = 32767 := by
    rw [hx]
    simp only [mul32, Fl.mul]
    rw [i16Sat_round]
    exact toI16_high (mul_high (by linarith [h.1]))
  rw [e]
  show Near (coordDec1 CM (i16Sat (mul32 (v32 v.first) (.num 100)))) _ _
  rw [en]
  have : v32 (coordDec1 CM 32767) = .num (10737091 / 32768) := by decide +kernel
  exact ⟨_, this, by rw [abs_le]; constructor <;> norm_num⟩
example : v32 0x453B8000 = .num 3000 ∧ (328 : Rat) ≤ 3000 := by decide +kernel

/-! ## World coordinates -/

theorem latScale64_eq : latScale64 = .num (5734161133882305 / 8388608) := by decide +kernel
theorem lonScale64_eq : lonScale64 = .num (2867080568276241 / 4194304) := by decide +kernel
theorem latScale32_eq : latScale32 = .num 683565248 := by decide +kernel
theorem lonScale32_eq : lonScale32 = .num 683565248 := by decide +kernel

/-- An angle of at most 4 rad, scaled in `f64`, stored as `f32`, and scaled back in `f32`. -/
theorem scale_angle {q S : Rat} (hS : 683565248 ≤ S) (hS' : S ≤ 683565280) (hSr : |S - 683565248| ≤ 32) (h : |q| ≤ 4) :
    ∃ r y, Fl.conv F32 (Fl.mul F64 (.num q) (.num S)) = .num r ∧ div32 (.num r) (.num 683565248) = .num y ∧
      |r - q * S| ≤ 164 ∧ |y - q| ≤ 1 / 1000000 := by
  have hqS : |q * S| ≤ 2734261120 := by
    rw [abs_mul, abs_of_pos (by linarith : 0 < S)]
    calc |q| * S ≤ 4 * 683565280 := mul_le_mul h hS' (by linarith) (by norm_num)
      _ = 2734261120 := by norm_num
  obtain ⟨a, ha, -, hab⟩ := round64_bound (q := q * S) (by
    linarith [show (2734261120 : Rat) < 2 ^ 100 by norm_num])
  have hab' : |a - q * S| ≤ 1 / 1000 := by
    refine le_trans hab ?_
    have : |q * S| / 2 ^ 53 ≤ 2734261120 / 2 ^ 53 := by gcongr
    have h3 : (1 : Rat) / 2 ^ 1000 ≤ 1 / 2 ^ 20 :=
      one_div_le_one_div_of_le (by norm_num) (pow_le_pow_right₀ (by norm_num) (by norm_num))
    linarith [show (2734261120 : Rat) / 2 ^ 53 + 1 / 2 ^ 20 ≤ 1 / 1000 by norm_num]
  have haA : |a| ≤ 2734261121 := by
    have : |a| ≤ |a - q * S| + |q * S| := by simpa using abs_add_le (a - q * S) (q * S)
    linarith
  obtain ⟨r, hr, -, hrb⟩ := round32_bound (q := a) (by linarith [show (2734261121 : Rat) < 2 ^ 100 by norm_num])
  have hrb' : |r - a| ≤ 163 + 1 / 100 := by
    refine le_trans hrb ?_
    have : |a| / 2 ^ 24 ≤ 2734261121 / 2 ^ 24 := by gcongr
    linarith [show (2734261121 : Rat) / 2 ^ 24 + 1 / 2 ^ 150 ≤ 163 + 1 / 100 by norm_num]
  have hrR : |r| ≤ 2734261400 := by
    have : |r| ≤ |r - a| + |a| := by simpa using abs_add_le (r - a) a
    linarith
  obtain ⟨y, hy, -, hyb⟩ := round32_bound (q := r / 683565248) (by
    rw [abs_div, abs_of_pos (by norm_num : (0 : Rat) < 683565248), div_lt_iff₀ (by norm_num)]
    linarith [show (2734261400 : Rat) < 2 ^ 100 * 683565248 by norm_num])
  have hyb' : |y - r / 683565248| ≤ 24 / 100000000 := by
    refine le_trans hyb ?_
    have : |r / 683565248| ≤ 4 + 1 / 1000 := by
      rw [abs_div, abs_of_pos (by norm_num : (0 : Rat) < 683565248), div_le_iff₀ (by norm_num)]
      linarith
    have : |r / 683565248| / 2 ^ 24 ≤ (4 + 1 / 1000) / 2 ^ 24 := by gcongr
    linarith [show ((4 : Rat) + 1 / 1000) / 2 ^ 24 + 1 / 2 ^ 150 ≤ 24 / 100000000 by norm_num]
  refine ⟨r, y, ?_, ?_, ?_, ?_⟩
  · simp only [Fl.mul]
    rw [ha]
    exact hr
  · simp only [div32, Fl.div]
    rw [if_neg (by norm_num), hy]
  · rw [abs_le] at hab' hrb' ⊢
    constructor <;> linarith
  · have hqd : |q * (S - 683565248)| ≤ 128 := by
      rw [abs_mul]
      calc |q| * |S - 683565248| ≤ 4 * 32 := mul_le_mul h hSr (abs_nonneg _) (by norm_num)
        _ = 128 := by norm_num
    have e : q * S = q * 683565248 + q * (S - 683565248) := by ring
    rw [e] at hab'
    rw [abs_le] at hab' hrb' hyb' hqd ⊢
    constructor <;> linarith

theorem toI32_num {r : Rat} (h : |r| < 2147483648) : toI32 (.num r) = truncRat r := by
  have := abs_lt.1 h
  exact castSat_of_lt (by push_cast; linarith) (by push_cast; linarith) (by norm_num) (by norm_num)

theorem round64_small {q B : Rat} (h : |q| ≤ B) (hB : B ≤ 1000000000) :
    ∃ r, F64.round q = .num r ∧ |r - q| ≤ 1 / 1000000 := by
  obtain ⟨a, ha, -, hab⟩ := round64_bound (q := q) (by
    linarith [show (1000000000 : Rat) < 2 ^ 100 by norm_num])
  refine ⟨a, ha, le_trans hab ?_⟩
  have : |q| / 2 ^ 53 ≤ 1000000000 / 2 ^ 53 := by gcongr; linarith
  have h3 : (1 : Rat) / 2 ^ 1000 ≤ 1 / 2 ^ 30 :=
    one_div_le_one_div_of_le (by norm_num) (pow_le_pow_right₀ (by norm_num) (by norm_num))
  linarith [show (1000000000 : Rat) / 2 ^ 53 + 1 / 2 ^ 30 ≤ 1 / 1000000 by norm_num]

/-- Altitudes between -83886 m and 83886 m are stored in centimetres, and come back within 2 cm. -/
theorem altitude_cm {A : Rat} (h : |A| ≤ 83886) :
    ∃ r y, Fl.mul F64 (.num A) (.num 100) = .num r ∧ r ≤ 8388608 ∧
      div32 (int32 (toI32 (.num r))) (.num 100) = .num y ∧ |y - A| ≤ 2 / 100 := by
  obtain ⟨r, hr, hrb⟩ := round64_small (q := A * 100) (B := 8388600) (by
    rw [abs_mul, abs_of_pos (by norm_num : (0 : Rat) < 100)]
    linarith) (by norm_num)
  have hA := abs_le.1 h
  have hrb' := abs_le.1 hrb
  have hr8 : |r| < 8388602 := by rw [abs_lt]; constructor <;> linarith
  have t := truncRat_spec r
  have hn : |(truncRat r : Rat)| < 8388602 := lt_of_le_of_lt t.2 hr8
  have hn24 : |truncRat r| < 2 ^ 24 := by
    have : |truncRat r| < 8388602 := by exact_mod_cast hn
    omega
  obtain ⟨y, hy, -, hyb⟩ := round32_bound (q := (truncRat r : Rat) / 100) (by
    rw [abs_div, abs_of_pos (by norm_num : (0 : Rat) < 100), div_lt_iff₀ (by norm_num)]
    linarith [show (8388602 : Rat) < 2 ^ 100 * 100 by norm_num])
  have hyb' : |y - (truncRat r : Rat) / 100| ≤ 6 / 1000 := by
    refine le_trans hyb ?_
    have : |(truncRat r : Rat) / 100| ≤ 83887 := by
      rw [abs_div, abs_of_pos (by norm_num : (0 : Rat) < 100), div_le_iff₀ (by norm_num)]
      linarith
    have : |(truncRat r : Rat) / 100| / 2 ^ 24 ≤ 83887 / 2 ^ 24 := by gcongr
    linarith [show (83887 : Rat) / 2 ^ 24 + 1 / 2 ^ 150 ≤ 6 / 1000 by norm_num]
  refine ⟨r, y, hr, by linarith [(abs_lt.1 hr8).2], ?_, ?_⟩
  · rw [toI32_num (by linarith), int32_exact hn24]
    simp only [div32, Fl.div]
    rw [if_neg (by norm_num), hy]
  · have t1 := abs_lt.1 t.1
    rw [abs_le] at hyb' ⊢
    constructor <;> linarith

/-- Altitudes between 83887 m and 83886 km are stored in tens of metres, and come back within 15 m. -/
theorem altitude_dam {A : Rat} (h1 : 83887 ≤ A) (h2 : A ≤ 83886000) :
    ∃ r s y, Fl.mul F64 (.num A) (.num 100) = .num r ∧ 8388608 < r ∧ Fl.div F64 (.num A) (.num 10) = .num s ∧
      mul32 (int32 (toI32 (.num s))) (.num 10) = .num y ∧ |y - A| ≤ 16 := by
  obtain ⟨r, hr, -, hrb⟩ := round64_bound (q := A * 100) (by
    rw [abs_of_nonneg (by linarith)]
    linarith [show (8388600000 : Rat) < 2 ^ 100 by norm_num])
  have hr8 : 8388608 < r := by
    rw [abs_of_nonneg (show 0 ≤ A * 100 by linarith), abs_le] at hrb
    have h3 : (1 : Rat) / 2 ^ 1000 ≤ 1 / 2 ^ 30 :=
      one_div_le_one_div_of_le (by norm_num) (pow_le_pow_right₀ (by norm_num) (by norm_num))
    linarith [show (8388700 : Rat) * (1 - 1 / 2 ^ 53) - 1 / 2 ^ 30 > 8388608 by norm_num]
  obtain ⟨s, hs, hsb⟩ := round64_small (q := A / 10) (B := 8388600) (by
    rw [abs_of_nonneg (by linarith)]
    linarith) (by norm_num)
  have hsb' := abs_le.1 hsb
  have hs8 : |s| < 8388602 := by rw [abs_lt]; constructor <;> linarith
  have t := truncRat_spec s
  have hn : |(truncRat s : Rat)| < 8388602 := lt_of_le_of_lt t.2 hs8
  have hn24 : |truncRat s| < 2 ^ 24 := by
    have : |truncRat s| < 8388602 := by exact_mod_cast hn
    omega
  obtain ⟨y, hy, -, hyb⟩ := round32_bound (q := (truncRat s : Rat) * 10) (by
    rw [abs_mul, abs_of_pos (by norm_num : (0 : Rat) < 10)]
    linarith [show (83886020 : Rat) < 2 ^ 100 by norm_num])
  have hyb' : |y - (truncRat s : Rat) * 10| ≤ 5 + 1 / 100 := by
    refine le_trans hyb ?_
    have : |(truncRat s : Rat) * 10| ≤ 83886020 := by
      rw [abs_mul, abs_of_pos (by norm_num : (0 : Rat) < 10)]
      linarith
    have : |(truncRat s : Rat) * 10| / 2 ^ 24 ≤ 83886020 / 2 ^ 24 := by gcongr
    linarith [show (83886020 : Rat) / 2 ^ 24 + 1 / 2 ^ 150 ≤ 5 + 1 / 100 by norm_num]
  refine ⟨r, s, y, hr, hr8, ?_, ?_, ?_⟩
  · simp only [Fl.div]
    rw [if_neg (by norm_num), hs]
  · rw [toI32_num (by linarith), int32_exact hn24]
    simp only [mul32, Fl.mul]
    exact hy
  · have t1 := abs_lt.1 t.1
    rw [abs_le] at hyb' ⊢
    constructor <;> linarith

/-- A location other than the centre of the Earth: with `lat`, `lon`, `alt` what the code's geodetic conversion makes of it,
encoding and decoding it calls the inverse conversion on angles within a millionth of a radian (some six metres on
the ground: the angles are kept as `f32`) and on an altitude within 2 cm (up to 83886 m) or 16 m (above, up to 83886 km). -/
theorem C41_world (env : Env) {l : Dis.Location} {lat lon alt : Rat} (hc : atCentre l = false)
    (hl : env.toLla l = (.num lat, .num lon, .num alt)) (hlat : |lat| ≤ 4) (hlon : |lon| ≤ 4)
    (halt : |alt| ≤ 83886 ∨ 83887 ≤ alt ∧ alt ≤ 83886000) :
    ∃ lat' lon' alt', worldDec env (worldEnc env l).1 (worldEnc env l).2 = env.toEcef (.num lat') (.num lon') (.num alt') ∧
      |lat' - lat| ≤ 1 / 1000000 ∧ |lon' - lon| ≤ 1 / 1000000 ∧
      (|alt| ≤ 83886 → |alt' - alt| ≤ 2 / 100) ∧ (83887 ≤ alt → |alt' - alt| ≤ 16) := by
  obtain ⟨r1, y1, h11, h12, -, h13⟩ := scale_angle (q := lat) (S := 5734161133882305 / 8388608) (by norm_num) (by norm_num)
    (by rw [abs_le]; constructor <;> norm_num) hlat
  obtain ⟨r2, y2, h21, h22, -, h23⟩ := scale_angle (q := lon) (S := 2867080568276241 / 4194304) (by norm_num) (by norm_num)
    (by rw [abs_le]; constructor <;> norm_num) hlon
  rcases halt with ha | ⟨ha1, ha2⟩
  · obtain ⟨r, y, hr, hr8, hy, hyb⟩ := altitude_cm ha
    refine ⟨y1, y2, y, ?_, h13, h23, fun _ => hyb, fun h => ?_⟩
    · have e : worldEnc env l = (⟨r1, r2, toI32 (.num r)⟩, CM) := by
        unfold worldEnc
        rw [hc, hl]
        simp only [Bool.false_eq_true, if_false, latScale64_eq, lonScale64_eq, hr, h11, h21]
        rw [if_pos (by simpa [Fl.le] using hr8)]
        rfl
      rw [e]
      simp only [worldDec, latScale32_eq, lonScale32_eq, h12, h22, if_true, hy]
    · linarith [(abs_le.1 ha).2]
  · obtain ⟨r, s, y, hr, hr8, hs, hy, hyb⟩ := altitude_dam ha1 ha2
    refine ⟨y1, y2, y, ?_, h13, h23, fun h => ?_, fun _ => hyb⟩
    · have e : worldEnc env l = (⟨r1, r2, toI32 (.num s)⟩, DEKAMETER) := by
        unfold worldEnc
        rw [hc, hl]
        simp only [Bool.false_eq_true, if_false, latScale64_eq, lonScale64_eq, hr, hs, h11, h21]
        rw [if_neg (by simpa [Fl.le] using hr8)]
        rfl
      rw [e]
      simp only [worldDec, latScale32_eq, lonScale32_eq, h12, h22, hy]
      rw [if_neg (by decide)]
    · linarith [(abs_le.1 h).2]

/-- The centre of the Earth (all three coordinates 0) is sent as an altitude of -83886.08 km at latitude and longitude 0, and
is not recognised when decoded: the inverse conversion is called with that altitude. -/
theorem C41_world_centre (env : Env) {l : Dis.Location} (hc : atCentre l = true) :
    worldDec env (worldEnc env l).1 (worldEnc env l).2 = env.toEcef (.num 0) (.num 0) (.num (-83886080)) := by
  unfold worldEnc
  rw [if_pos hc]
  have h1 : div32 (.num 0) latScale32 = .num 0 := by decide +kernel
  have h2 : div32 (.num 0) lonScale32 = .num 0 := by decide +kernel
  have h3 : mul32 (int32 (-8388608)) (.num 10) = .num (-83886080) := by decide +kernel
  simp only [worldDec, h1, h2, h3]
  rw [if_neg (by decide)]
example : atCentre ⟨0, 0, 0⟩ = true ∧ atCentre ⟨0x4158000000000000, 0, 0⟩ = false := by decide +kernel

end Verif.Props
