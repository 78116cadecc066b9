import Verif.Codec.Quant

/-! # C41: what quantisation loses

A field is given by its raw bits; `v32 b = .num q` says that these bits denote the number `q`.  `Near b q tol` says
that the bits `b` denote a number at most `tol` away from `q`. -/

namespace Verif.Props
open Verif.Codec

/-- The `f32` with bits `b` is a number within `tol` of `q`. -/
def Near (b : UInt32) (q tol : Rat) : Prop := ∃ y, v32 b = .num y ∧ |y - q| ≤ tol

/-! ## Linear velocity and acceleration -/

/-- A component of a velocity or acceleration of at most 3276.7 comes back within 0.101: one step of 0.1, because the
code truncates, and 1% for floating point rounding. -/
theorem C41_linear {b : UInt32} {q : Rat} (hq : v32 b = .num q) (h : |q| ≤ 32767 / 10) :
    Near (decDec (decEnc b)) q (101 / 1000) := by
  have h' : |q * 10| ≤ 32767 := by
    rw [abs_mul, abs_of_pos (by norm_num : (0 : Rat) < 10)]
    linarith
  obtain ⟨y, hy, hb⟩ := quant_rt (q := q) (K := 10) (by norm_num) (by norm_num) h'
  refine ⟨y, ?_, by linarith⟩
  unfold decDec decEnc
  rw [hq]
  exact hy

/-- The same for a whole vector. -/
theorem C41_linear_vector {v : Dis.VectorF32} {x y z : Rat} (hx : v32 v.first = .num x) (hy : v32 v.second = .num y)
    (hz : v32 v.third = .num z) (h : |x| ≤ 32767 / 10 ∧ |y| ≤ 32767 / 10 ∧ |z| ≤ 32767 / 10) :
    Near (linDec (linEnc v)).first x (101 / 1000) ∧ Near (linDec (linEnc v)).second y (101 / 1000) ∧
      Near (linDec (linEnc v)).third z (101 / 1000) :=
  ⟨C41_linear hx h.1, C41_linear hy h.2.1, C41_linear hz h.2.2⟩

/-- 12.5, -7.25 and 3000 m/s meet the hypotheses. -/
example : v32 0x41480000 = .num (25 / 2) ∧ v32 0xC0E80000 = .num (-29 / 4) ∧ v32 0x453B8000 = .num 3000 ∧
    |(25 / 2 : Rat)| ≤ 32767 / 10 ∧ |(-29 / 4 : Rat)| ≤ 32767 / 10 ∧ |(3000 : Rat)| ≤ 32767 / 10 := by decide +kernel

/-- Half a step is not enough: 0.09 m/s comes back as 0. -/
theorem C41_linear_truncates : v32 0x3DB851EC = .num (3019899 / 33554432) ∧
    v32 (decDec (decEnc 0x3DB851EC)) = .num 0 := by decide +kernel

theorem toI16_high {x : Fl} (h : x = .inf false ∨ ∃ r : Rat, x = .num r ∧ 32767 ≤ r) : toI16 x = 32767 := by
  rcases h with rfl | ⟨r, rfl, h⟩
  · rfl
  · have t := truncRat_spec r
    have : (32766 : Rat) < truncRat r := by
      have := abs_lt.1 t.1
      linarith
    have : (32766 : Int) < truncRat r := by exact_mod_cast this
    show castSat _ _ r = _
    unfold castSat
    omega

theorem toI16_low {x : Fl} (h : x = .inf true ∨ ∃ r : Rat, x = .num r ∧ r ≤ -32768) : toI16 x = -32768 := by
  rcases h with rfl | ⟨r, rfl, h⟩
  · rfl
  · have t := truncRat_spec r
    have : (truncRat r : Rat) < -32767 := by
      have := abs_lt.1 t.1
      linarith
    have : truncRat r < (-32767 : Int) := by exact_mod_cast this
    show castSat _ _ r = _
    unfold castSat
    omega

theorem mul_high {q K : Rat} (h : 32768 ≤ q * K) :
    F32.round (q * K) = .inf false ∨ ∃ r, F32.round (q * K) = .num r ∧ 32767 ≤ r := by
  have hp : 0 < q * K := by linarith
  rcases round32_large (q := q * K) (by rw [abs_of_pos hp]; linarith) with hi | ⟨r, hr, hb⟩
  · left
    rw [hi]
    simp [not_lt.2 hp.le]
  · right
    refine ⟨r, hr, ?_⟩
    rw [abs_of_pos hp, abs_le] at hb
    have : q * K * (1 - 1 / 2 ^ 24) ≤ r := by linarith
    have h2 : 32768 * (1 - 1 / 2 ^ 24) ≤ q * K * (1 - 1 / 2 ^ 24) :=
      mul_le_mul_of_nonneg_right h (by norm_num)
    linarith [show (32767 : Rat) ≤ 32768 * (1 - 1 / 2 ^ 24) by norm_num]

theorem mul_low {q K : Rat} (h : q * K ≤ -32769) :
    F32.round (q * K) = .inf true ∨ ∃ r, F32.round (q * K) = .num r ∧ r ≤ -32768 := by
  have hp : q * K < 0 := by linarith
  rcases round32_large (q := q * K) (by rw [abs_of_neg hp]; linarith) with hi | ⟨r, hr, hb⟩
  · left
    rw [hi]
    simp [hp]
  · right
    refine ⟨r, hr, ?_⟩
    rw [abs_of_neg hp, abs_le] at hb
    have : r ≤ q * K * (1 - 1 / 2 ^ 24) := by linarith
    have h2 : q * K * (1 - 1 / 2 ^ 24) ≤ -32769 * (1 - 1 / 2 ^ 24) :=
      mul_le_mul_of_nonneg_right h (by norm_num)
    linarith [show (-32769 : Rat) * (1 - 1 / 2 ^ 24) ≤ -32768 by norm_num]

/-- Outside the range the encoded component is the nearest end of the range; infinities likewise; NaN becomes 0. -/
theorem C41_linear_saturates (b : UInt32) :
    (∀ q, v32 b = .num q → 32768 / 10 ≤ q → decEnc b = 32767) ∧
    (∀ q, v32 b = .num q → q ≤ -32769 / 10 → decEnc b = -32768) ∧
    (v32 b = .inf false → decEnc b = 32767) ∧ (v32 b = .inf true → decEnc b = -32768) ∧
    (v32 b = .nan → decEnc b = 0) := by
  refine ⟨fun q hq h => ?_, fun q hq h => ?_, fun h => ?_, fun h => ?_, fun h => ?_⟩
  · unfold decEnc
    rw [hq]
    exact toI16_high (mul_high (K := 10) (by linarith))
  · unfold decEnc
    rw [hq]
    exact toI16_low (mul_low (K := 10) (by linarith))
  · unfold decEnc; rw [h]; rfl
  · unfold decEnc; rw [h]; rfl
  · unfold decEnc; rw [h]; rfl
example : v32 0x459C4000 = .num 5000 ∧ (32768 / 10 : Rat) ≤ 5000 ∧ v32 0x7F800000 = .inf false ∧
    v32 0x7FC00000 = .nan := by decide +kernel

/-! ## Orientation -/

/-- The `f32` nearest to a full turn. -/
def fullTurn : Rat := 13176795 / 2097152
/-- One step of an encoded Euler angle: the scale factor of the code is 2669525 / 2048, the `f32` quotient of 4095 and the
`f32` nearest to a half turn; the step is about 0.000767 rad. -/
def angleStep : Rat := 2048 / 2669525

theorem TWO_PI32_eq : TWO_PI32 = .num fullTurn := by decide +kernel
theorem orientScale_eq : orientScale = .num (2669525 / 2048) := by decide +kernel

theorem rem_spec (a : Rat) {T : Rat} (hT : 0 < T) : ∃ k : Int, Fl.rem (.num a) (.num T) = .num (a - k * T) ∧
    |a - k * T| < T ∧ (0 ≤ a → 0 ≤ a - k * T) := by
  refine ⟨truncRat (a / T), ?_, ?_, fun h => ?_⟩
  · simp only [Fl.rem]
    rw [if_neg hT.ne']
  · have t := (truncRat_spec (a / T)).1
    have e : a - truncRat (a / T) * T = -(truncRat (a / T) - a / T) * T := by field_simp; ring
    rw [e, abs_mul, abs_neg, abs_of_pos hT]
    calc _ < 1 * T := mul_lt_mul_of_pos_right t hT
      _ = T := one_mul T
  · have t := (truncRat_spec (a / T)).2
    rw [abs_of_nonneg (div_nonneg h hT.le)] at t
    have := le_trans (le_abs_self _) t
    have := mul_le_mul_of_nonneg_right this hT.le
    rw [div_mul_cancel₀ _ hT.ne'] at this
    linarith

/-- Reduction to a half turn either way, up to rounding. -/
theorem normalize_spec (q : Rat) : ∃ (k : Int) (r : Rat), normalizeRadians (.num q) = .num r ∧
    |r - (q - k * fullTurn)| ≤ 2 / 1000000 ∧ |r| ≤ fullTurn / 2 + 1 / 1000000 := by
  have hT : (0 : Rat) < fullTurn := by unfold fullTurn; norm_num
  have hT7 : fullTurn < 7 := by unfold fullTurn; norm_num
  obtain ⟨k1, h1, hb1, -⟩ := rem_spec q hT
  have hb1' := abs_lt.1 hb1
  generalize hr1 : q - k1 * fullTurn = r1 at *
  obtain ⟨r2, h2, hrep2, hb2⟩ := round32_bound (q := r1 + fullTurn) (by
    rw [abs_of_pos (by linarith)]
    linarith [show (14 : Rat) < 2 ^ 100 by norm_num])
  rw [abs_of_pos (show 0 < r1 + fullTurn by linarith)] at hb2
  have hb2' : |r2 - (r1 + fullTurn)| ≤ 1 / 1000000 := by
    refine le_trans hb2 ?_
    linarith [show (14 : Rat) / 2 ^ 24 + 1 / 2 ^ 150 ≤ 1 / 1000000 by norm_num]
  have hr2 : 0 ≤ r2 := by
    have := Fmt.round_pos F32_ok (q := r1 + fullTurn) (by
      have : (2 : Rat) ^ F32.emax = 2 ^ 127 := by simp [F32]
      rw [this]
      linarith [show (14 : Rat) < 2 ^ 127 by norm_num])
    by_cases hn : (2 : Rat) ^ F32.emin ≤ r1 + fullTurn
    · obtain ⟨r', e, -, hlo, -⟩ := this (Or.inr hn)
      rw [h2] at e
      cases e
      refine le_trans ?_ hlo
      apply mul_nonneg (by linarith)
      simp [F32]; norm_num
    · -- a positive number below the normal range rounds to a number that is not negative
      by_contra hc
      have hr := h2
      unfold Fmt.round at hr
      rw [if_neg (by linarith)] at hr
      dsimp only at hr
      split at hr
      · exact absurd hr (by simp)
      · injection hr with hr
        rw [← hr] at hc
        apply hc
        apply mul_nonneg _ (F32.ulp_pos _).le
        have : (0 : Int) ≤ roundEven ((r1 + fullTurn) / F32.ulp (r1 + fullTurn)) := by
          apply le_roundEven
          push_cast
          exact div_nonneg (by linarith) (F32.ulp_pos _).le
        exact_mod_cast this
  obtain ⟨k2, h3, hb3, hpos⟩ := rem_spec r2 hT
  have hpos := hpos hr2
  have hb3' := abs_lt.1 hb3
  generalize hr3 : r2 - k2 * fullTurn = r3 at *
  have hb2a := abs_le.1 hb2'
  have e0 : normalizeRadians (.num q) = if Fl.lt PI32 (.num r3) then Fl.sub F32 (.num r3) (.num fullTurn) else .num r3 := by
    have ha : Fl.add F32 (.num r1) (.num fullTurn) = .num r2 := h2
    simp only [normalizeRadians, TWO_PI32_eq, h1, ha, h3]
  rw [e0]
  by_cases hlt : Fl.lt PI32 (.num r3) = true
  · rw [if_pos hlt]
    have hP : fullTurn / 2 < r3 := by
      simp only [PI32, Fl.lt, Fl.le, Bool.and_eq_true, decide_eq_true_eq, Bool.not_eq_true', decide_eq_false_iff_not,
        not_le] at hlt
      unfold fullTurn
      linarith [hlt.2]
    obtain ⟨r4, h4, -, hb4⟩ := round32_bound (q := r3 - fullTurn) (by
      rw [abs_of_neg (by linarith)]
      linarith [show (14 : Rat) < 2 ^ 100 by norm_num])
    rw [abs_of_neg (show r3 - fullTurn < 0 by linarith)] at hb4
    have hb4' : |r4 - (r3 - fullTurn)| ≤ 1 / 1000000 := by
      refine le_trans hb4 ?_
      linarith [show (14 : Rat) / 2 ^ 24 + 1 / 2 ^ 150 ≤ 1 / 1000000 by norm_num]
    have hb4a := abs_le.1 hb4'
    refine ⟨k1 + k2, r4, ?_, ?_, ?_⟩
    · show F32.round (r3 + -fullTurn) = _
      rw [← sub_eq_add_neg, h4]
    · push_cast
      rw [abs_le]
      constructor <;> linarith
    · rw [abs_le]
      constructor <;> linarith
  · rw [if_neg hlt]
    have hP : r3 ≤ fullTurn / 2 := by
      by_contra hc
      apply hlt
      simp only [PI32, Fl.lt, Fl.le, Bool.and_eq_true, decide_eq_true_eq, Bool.not_eq_true', decide_eq_false_iff_not,
        not_le]
      unfold fullTurn at hc
      constructor <;> linarith
    refine ⟨k1 + k2 - 1, r3, rfl, ?_, ?_⟩
    · push_cast
      rw [abs_le]
      constructor <;> linarith
    · rw [abs_le]
      constructor <;> linarith

/-- Every finite Euler angle comes back, up to whole turns, within 1.01 steps (0.00078 rad), and the encoded number fits
the 13 bits it has on the wire. -/
theorem C41_orientation {b : UInt32} {q : Rat} (hq : v32 b = .num q) :
    (∃ turns : Int, Near (angleDec (angleEnc b)) (q - turns * fullTurn) (101 / 100 * angleStep)) ∧
      -4095 ≤ angleEnc b ∧ angleEnc b ≤ 4095 := by
  obtain ⟨k, r, hr, hb, hr'⟩ := normalize_spec q
  have hE : angleEnc b = toI16 (F32.round (r * (2669525 / 2048))) := by
    unfold angleEnc
    rw [hq, hr, orientScale_eq]
    rfl
  have hrange : |r * (2669525 / 2048)| ≤ 4095 + 99 / 100 := by
    rw [abs_mul, abs_of_pos (by norm_num : (0 : Rat) < 2669525 / 2048)]
    unfold fullTurn at hr'
    linarith [mul_le_mul_of_nonneg_right hr' (by norm_num : (0 : Rat) ≤ 2669525 / 2048)]
  obtain ⟨n, hn, hnb, hn'⟩ := quant_enc (q := r) (K := 2669525 / 2048) (by linarith)
  obtain ⟨y, hy, hyb⟩ := quant_dec (n := n) (K := 2669525 / 2048) (by norm_num) (by norm_num) (by linarith)
  -- the exact bound of the encoded number
  have hbd : |n| ≤ 4095 := by
    obtain ⟨s, hs, -, hsb⟩ := round32_bound (q := r * (2669525 / 2048)) (by
      linarith [show (5000 : Rat) < 2 ^ 100 by norm_num])
    have hs2 : |s| < 4096 := by
      have : |s| ≤ |s - r * (2669525 / 2048)| + |r * (2669525 / 2048)| := by
        simpa using abs_add_le (s - r * (2669525 / 2048)) (r * (2669525 / 2048))
      have : |r * (2669525 / 2048)| / 2 ^ 24 ≤ 4096 / 2 ^ 24 := by gcongr; linarith
      linarith [show (4096 : Rat) / 2 ^ 24 + 1 / 2 ^ 150 < 1 / 1000 by norm_num]
    have t := (truncRat_spec s).2
    have e : toI16 (.num s) = truncRat s := castSat_of_lt (by push_cast; linarith [(abs_lt.1 hs2).1])
      (by push_cast; linarith [(abs_lt.1 hs2).2]) (by norm_num) (by norm_num)
    rw [hs, e] at hn
    rw [← hn]
    have : |(truncRat s : Rat)| < 4096 := lt_of_le_of_lt t hs2
    have : |truncRat s| < 4096 := by exact_mod_cast this
    omega
  have hnE : angleEnc b = n := by rw [hE, hn]
  refine ⟨⟨k, y, ?_, ?_⟩, by rw [hnE]; exact (abs_le.1 hbd).1, by rw [hnE]; exact (abs_le.1 hbd).2⟩
  · rw [hnE]
    unfold angleDec
    rw [orientScale_eq]
    exact hy
  · unfold angleStep
    rw [abs_le] at hb hyb hnb ⊢
    constructor <;> linarith
/-- 100 rad, -2.5 rad -/
example : v32 0x42C80000 = .num 100 ∧ angleEnc 0x42C80000 = -692 ∧ v32 0xC0200000 = .num (-5 / 2) ∧
    angleEnc 0xC0200000 = -3258 := by decide +kernel

/-- An orientation record: all three angles. -/
theorem C41_orientation_record {o : Dis.Orientation} {x y z : Rat} (hx : v32 o.psi = .num x) (hy : v32 o.theta = .num y)
    (hz : v32 o.phi = .num z) :
    (∃ k : Int, Near (orientDec (orientEnc o)).psi (x - k * fullTurn) (101 / 100 * angleStep)) ∧
    (∃ k : Int, Near (orientDec (orientEnc o)).theta (y - k * fullTurn) (101 / 100 * angleStep)) ∧
    (∃ k : Int, Near (orientDec (orientEnc o)).phi (z - k * fullTurn) (101 / 100 * angleStep)) :=
  ⟨(C41_orientation hx).1, (C41_orientation hy).1, (C41_orientation hz).1⟩

/-- Infinite and NaN angles are encoded as 0. -/
theorem C41_orientation_nonfinite {b : UInt32} (h : ∀ q, v32 b ≠ .num q) : angleEnc b = 0 := by
  unfold angleEnc
  rcases hv : v32 b with _ | s | q
  · decide +kernel
  · cases s <;> decide +kernel
  · exact absurd hv (h q)
example : ∀ q, v32 0x7F800000 ≠ .num q := by
  intro q
  have : v32 0x7F800000 = .inf false := by decide +kernel
  rw [this]
  exact fun h => Fl.noConfusion h

/-! ## Angular velocity -/

/-- `RADIANS_SEC_TO_DEGREES_SEC` times the scaling of the code: about 36.476 steps for one radian per second.  (The
scaling has 8 = (2 xor 11) - 1 in place of the 2047 of the standard.) -/
def angVelSteps : Rat := 469367 / 8192 * (10680707 / 16777216)

theorem radToDeg_eq : radToDeg = .num (469367 / 8192) := by decide +kernel
theorem angVelScale_eq : angVelScale = .num (10680707 / 16777216) := by decide +kernel

/-- A component of an angular velocity of at most 898 rad/s comes back within 0.0277 rad/s. -/
theorem C41_angular_velocity {b : UInt32} {q : Rat} (hq : v32 b = .num q) (h : |q| ≤ 898) :
    Near (angVelDec1 (angVelEnc1 b)) q (101 / 100 / angVelSteps) := by
  obtain ⟨r, hr, -, hb⟩ := round32_bound (q := q * (469367 / 8192)) (by
    rw [abs_mul, abs_of_pos (by norm_num : (0 : Rat) < 469367 / 8192)]
    linarith [show (100000 : Rat) < 2 ^ 100 by norm_num])
  have hqR : |q * (469367 / 8192)| ≤ 51452 := by
    rw [abs_mul, abs_of_pos (by norm_num : (0 : Rat) < 469367 / 8192)]
    linarith
  have hb' : |r - q * (469367 / 8192)| ≤ 31 / 10000 := by
    refine le_trans hb ?_
    have : |q * (469367 / 8192)| / 2 ^ 24 ≤ 51452 / 2 ^ 24 := by gcongr
    linarith [show (51452 : Rat) / 2 ^ 24 + 1 / 2 ^ 150 ≤ 31 / 10000 by norm_num]
  have hrA : |r * (10680707 / 16777216)| ≤ 32767 := by
    rw [abs_le] at hqR hb' ⊢
    constructor <;> linarith
  obtain ⟨n, hn, hnb, hn'⟩ := quant_enc hrA
  have hn24 : |n| < 2 ^ 24 := by
    have : |n| ≤ 32767 := by exact_mod_cast hn'
    omega
  obtain ⟨y, hy, -, hyb⟩ := round32_bound (q := n / (10680707 / 16777216)) (by
    rw [abs_div, abs_of_pos (by norm_num : (0 : Rat) < 10680707 / 16777216), div_lt_iff₀ (by norm_num)]
    linarith [show (32768 : Rat) < 2 ^ 100 * (10680707 / 16777216) by norm_num])
  have hnA : |(n : Rat) / (10680707 / 16777216)| ≤ 51471 := by
    rw [abs_div, abs_of_pos (by norm_num : (0 : Rat) < 10680707 / 16777216), div_le_iff₀ (by norm_num)]
    linarith
  have hyb' : |y - n / (10680707 / 16777216)| ≤ 31 / 10000 := by
    refine le_trans hyb ?_
    have : |(n : Rat) / (10680707 / 16777216)| / 2 ^ 24 ≤ 51471 / 2 ^ 24 := by gcongr
    linarith [show (51471 : Rat) / 2 ^ 24 + 1 / 2 ^ 150 ≤ 31 / 10000 by norm_num]
  have hyA : |y| ≤ 51472 := by
    rw [abs_le] at hnA hyb' ⊢
    constructor <;> linarith
  obtain ⟨z, hz, hzrep, hzb⟩ := round32_bound (q := y / (469367 / 8192)) (by
    rw [abs_div, abs_of_pos (by norm_num : (0 : Rat) < 469367 / 8192), div_lt_iff₀ (by norm_num)]
    linarith [show (51472 : Rat) < 2 ^ 100 * (469367 / 8192) by norm_num])
  have hyR : |y / (469367 / 8192)| ≤ 899 := by
    rw [abs_div, abs_of_pos (by norm_num : (0 : Rat) < 469367 / 8192), div_le_iff₀ (by norm_num)]
    linarith
  have hzb' : |z - y / (469367 / 8192)| ≤ 54 / 1000000 := by
    refine le_trans hzb ?_
    have : |y / (469367 / 8192)| / 2 ^ 24 ≤ 899 / 2 ^ 24 := by gcongr
    linarith [show (899 : Rat) / 2 ^ 24 + 1 / 2 ^ 150 ≤ 54 / 1000000 by norm_num]
  refine ⟨z, ?_, ?_⟩
  · have e1 : angVelEnc1 b = n := by
      unfold angVelEnc1
      rw [hq, radToDeg_eq, angVelScale_eq]
      simp only [mul32, Fl.mul]
      rw [hr]
      exact hn
    rw [e1]
    unfold angVelDec1
    rw [int32_exact hn24, radToDeg_eq, angVelScale_eq]
    simp only [div32, Fl.div]
    rw [if_neg (by norm_num), hy]
    simp only
    rw [if_neg (by norm_num), hz]
    exact v32_b32 hzrep
  · unfold angVelSteps
    rw [abs_le] at hb' hnb hyb' hzb' ⊢
    constructor <;> linarith
example : v32 0x3F800000 = .num 1 ∧ |(1 : Rat)| ≤ 898 ∧ angVelEnc1 0x3F800000 = 36 := by decide +kernel

/-- Rotation slower than 0.027 rad/s (1.5 degrees per second) is lost entirely. -/
theorem C41_angular_velocity_coarse : v32 0x3CDD2F1B = .num (14495515 / 536870912) ∧ angVelEnc1 0x3CDD2F1B = 0 := by
  decide +kernel

end Verif.Props
