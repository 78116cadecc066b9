import Verif.Dis.GeodesyApprox
import Verif.Dis.GeodesyNewton
import Mathlib.Analysis.SpecialFunctions.Trigonometric.Bounds

namespace Verif.Dis.Geo
open Real

theorem small_angle {d : ℝ} (hd : |d| ≤ π / 2) (hs : |sin d| ≤ 195 / 10 ^ 7) : |d| ≤ 2 / 10 ^ 5 := by
  have h1 := mul_abs_le_abs_sin hd
  have hp := pi_pos
  have hp4 := pi_le_four
  have h2 : |d| ≤ 4 / 10 ^ 5 := by
    have : |d| = π / 2 * (2 / π * |d|) := by field_simp
    rw [this]
    have := mul_le_mul (by linarith : π / 2 ≤ 2) (h1.trans hs) (by positivity) (by norm_num)
    norm_num at *
    linarith
  have h3 := sin_near (h2.trans (by norm_num))
  have h4 := abs_sub_abs_le_abs_sub d (sin d)
  rw [abs_sub_comm] at h4
  have h5 := pow_le_pow_left₀ (abs_nonneg d) h2 3
  norm_num at *
  linarith

/-- The first branch of the first approximation. -/
theorem start1 {φ F : ℝ} (h0 : 0 ≤ φ) (h1 : φ ≤ π / 2) (hF : |F - 1| ≤ 1 / 10 ^ 5) (hC : 2957 / 10000 ≤ cos φ ^ 2) :
    let s := sin φ * F
    |φ - arcsin s| ≤ 2 / 10 ^ 5 ∧ sin (arcsin s) = s ∧ cos (arcsin s) = √(1 - s ^ 2) := by
  intro s
  have hS0 : 0 ≤ sin φ := sin_nonneg_of_nonneg_of_le_pi h0 (by linarith [pi_pos])
  have hC0 : 0 ≤ cos φ := cos_nonneg_of_mem_Icc ⟨by linarith [pi_pos], h1⟩
  have hsc := sin_sq_add_cos_sq φ
  rw [abs_le] at hF
  have hF0 : 0 ≤ F := by norm_num at hF; linarith
  have hF2 : |1 - F ^ 2| ≤ 201 / 10 ^ 7 := by
    rw [abs_le]; norm_num at *; constructor <;> nlinarith
  have hs0 : 0 ≤ s := mul_nonneg hS0 hF0
  have hS2 : sin φ ^ 2 ≤ 7043 / 10000 := by linarith
  have hs2e : s ^ 2 = sin φ ^ 2 - sin φ ^ 2 * (1 - F ^ 2) := by simp only [s]; ring
  have hk : |sin φ ^ 2 * (1 - F ^ 2)| ≤ 7043 / 10000 * (201 / 10 ^ 7) := absmul (by rw [abs_of_nonneg (sq_nonneg _)]; exact hS2) hF2
  have hk' := abs_le.1 hk
  have hs2 : s ^ 2 ≤ 7044 / 10000 := by rw [hs2e]; norm_num at *; linarith
  have hs1 : s ≤ 1 := by nlinarith
  have e1 : sin (arcsin s) = s := sin_arcsin (by linarith) hs1
  have e2 : cos (arcsin s) = √(1 - s ^ 2) := cos_arcsin s
  refine ⟨?_, e1, e2⟩
  have hcc : √(1 - s ^ 2) ^ 2 = 1 - s ^ 2 := sq_sqrt (by linarith)
  have hc0 : 0 ≤ √(1 - s ^ 2) := sqrt_nonneg _
  have a0 : 0 ≤ arcsin s := arcsin_nonneg.2 hs0
  have a1 : arcsin s ≤ π / 2 := arcsin_le_pi_div_two s
  refine small_angle (by rw [abs_le]; constructor <;> linarith) ?_
  rw [sin_sub, e1, e2]
  generalize √(1 - s ^ 2) = c at *
  have hcl : 54 / 100 ≤ c := by nlinarith
  have hCl : 54 / 100 ≤ cos φ := by nlinarith
  have hcC : |c - cos φ| * (108 / 100) ≤ 7043 / 10000 * (201 / 10 ^ 7) := by
    have e : (c - cos φ) * (c + cos φ) = sin φ ^ 2 * (1 - F ^ 2) := by
      have : c ^ 2 - cos φ ^ 2 = sin φ ^ 2 * (1 - F ^ 2) := by rw [hcc, hs2e]; linarith
      linear_combination this
    rw [← e, abs_mul, abs_of_nonneg (a := c + cos φ) (by linarith)] at hk
    exact (mul_le_mul_of_nonneg_left (by linarith) (abs_nonneg _)).trans hk
  have hS84 : sin φ ≤ 84 / 100 := by nlinarith
  have e : sin φ * c - cos φ * s = sin φ * ((c - cos φ) + cos φ * (1 - F)) := by simp only [s]; ring
  have h5 : |cos φ * (1 - F)| ≤ 1 * (1 / 10 ^ 5) := absmul (abs_cos_le_one φ) (by rw [abs_le]; constructor <;> linarith)
  rw [e]
  have h6 : |c - cos φ + cos φ * (1 - F)| ≤ 232 / 10 ^ 7 := by
    refine (abs_add_le _ _).trans ?_
    norm_num at *
    linarith
  refine (absmul (A := 84 / 100) (by rw [abs_of_nonneg hS0]; exact hS84) h6).trans (by norm_num)

/-- The second branch of the first approximation. -/
theorem start2 {φ G : ℝ} (h0 : 0 ≤ φ) (h1 : φ ≤ π / 2) (hG : |G - 1| ≤ 13 / 10 ^ 6) (hC : cos φ ^ 2 ≤ 3031 / 10000) :
    let c := cos φ * G
    |φ - arccos c| ≤ 2 / 10 ^ 5 ∧ cos (arccos c) = c ∧ sin (arccos c) = √(1 - c ^ 2) := by
  intro c
  have hS0 : 0 ≤ sin φ := sin_nonneg_of_nonneg_of_le_pi h0 (by linarith [pi_pos])
  have hC0 : 0 ≤ cos φ := cos_nonneg_of_mem_Icc ⟨by linarith [pi_pos], h1⟩
  have hsc := sin_sq_add_cos_sq φ
  rw [abs_le] at hG
  have hG0 : 0 ≤ G := by norm_num at hG; linarith
  have hG2 : |1 - G ^ 2| ≤ 261 / 10 ^ 7 := by
    rw [abs_le]; norm_num at *; constructor <;> nlinarith
  have hc0 : 0 ≤ c := mul_nonneg hC0 hG0
  have hc2e : c ^ 2 = cos φ ^ 2 - cos φ ^ 2 * (1 - G ^ 2) := by simp only [c]; ring
  have hk : |cos φ ^ 2 * (1 - G ^ 2)| ≤ 3031 / 10000 * (261 / 10 ^ 7) := absmul (by rw [abs_of_nonneg (sq_nonneg _)]; exact hC) hG2
  have hk' := abs_le.1 hk
  have hc2 : c ^ 2 ≤ 3032 / 10000 := by rw [hc2e]; norm_num at *; linarith
  have hc1 : c ≤ 1 := by nlinarith
  have e1 : cos (arccos c) = c := cos_arccos (by linarith) hc1
  have e2 : sin (arccos c) = √(1 - c ^ 2) := sin_arccos c
  refine ⟨?_, e1, e2⟩
  have hss : √(1 - c ^ 2) ^ 2 = 1 - c ^ 2 := sq_sqrt (by linarith)
  have hs0 : 0 ≤ √(1 - c ^ 2) := sqrt_nonneg _
  have a0 : 0 ≤ arccos c := arccos_nonneg c
  have a1 : arccos c ≤ π / 2 := arccos_le_pi_div_two.2 hc0
  refine small_angle (by rw [abs_le]; constructor <;> linarith) ?_
  rw [sin_sub, e1, e2]
  generalize √(1 - c ^ 2) = s at *
  have hsl : 83 / 100 ≤ s := by nlinarith
  have hSl : 83 / 100 ≤ sin φ := by nlinarith
  have hsS : |sin φ - s| * (166 / 100) ≤ 3031 / 10000 * (261 / 10 ^ 7) := by
    have e : (sin φ - s) * (sin φ + s) = -(cos φ ^ 2 * (1 - G ^ 2)) := by
      have : sin φ ^ 2 - s ^ 2 = -(cos φ ^ 2 * (1 - G ^ 2)) := by rw [hss, hc2e]; linarith
      linear_combination this
    rw [← abs_neg, ← e, abs_mul, abs_of_nonneg (a := sin φ + s) (by linarith)] at hk
    exact (mul_le_mul_of_nonneg_left (by linarith) (abs_nonneg _)).trans hk
  have hC84 : cos φ ≤ 56 / 100 := by nlinarith
  have e : sin φ * c - cos φ * s = cos φ * ((sin φ - s) + sin φ * (G - 1)) := by simp only [c]; ring
  have h5 : |sin φ * (G - 1)| ≤ 1 * (13 / 10 ^ 6) := absmul (abs_sin_le_one φ) (abs_le.2 hG)
  rw [e]
  have h6 : |sin φ - s + sin φ * (G - 1)| ≤ 232 / 10 ^ 7 := by
    refine (abs_add_le _ _).trans ?_
    norm_num at *
    linarith
  refine (absmul (A := 56 / 100) (by rw [abs_of_nonneg hC0]; exact hC84) h6).trans (by norm_num)

theorem coeffs {r : ℝ} (hr : 6 * 10 ^ 6 ≤ r) : Coeffs E2 (E2 * wgsA / r) (A1 / r) (A2 / r ^ 2) (A3 / r) (A4 / r ^ 2) (A5 / r) := by
  have hr0 : 0 < r := lt_of_lt_of_le (by norm_num) hr
  have k1 : ∀ {x y : ℝ}, |x - y| ≤ 1 / 10 ^ 9 → |x / r - y / r| ≤ 1 / 10 ^ 15 := by
    intro x y h
    rw [← sub_div, abs_div, abs_of_pos hr0, div_le_iff₀ hr0]
    norm_num at *
    linarith
  have k2 : ∀ {x y : ℝ}, |x - y| ≤ 1 / 10 ^ 3 → |x / r ^ 2 - y / r ^ 2| ≤ 1 / 10 ^ 15 := by
    intro x y h
    have hr2 : 36 * 10 ^ 12 ≤ r ^ 2 := by
      have := pow_le_pow_left₀ (by norm_num) hr 2
      norm_num at *; linarith
    rw [← sub_div, abs_div, abs_of_pos (pow_pos hr0 2), div_le_iff₀ (pow_pos hr0 2)]
    norm_num at *
    linarith
  refine ⟨k1 ?_, ?_, ?_, ?_, ?_⟩
  · rw [abs_le]; unfold A1 E2 wgsA; norm_num
  · rw [div_pow]; refine k2 ?_; rw [abs_le]; unfold A2 E2 wgsA; norm_num
  · rw [show E2 * wgsA / r * E2 / 2 = (E2 * wgsA * E2 / 2) / r by ring]; refine k1 ?_; rw [abs_le]; unfold A3 E2 wgsA; norm_num
  · rw [show 5 / 2 * (E2 * wgsA / r) ^ 2 = (5 / 2 * (E2 * wgsA) ^ 2) / r ^ 2 by ring]; refine k2 ?_; rw [abs_le]; unfold A4 E2 wgsA; norm_num
  · rw [show E2 * wgsA / r * (1 + E2 / 2) = (E2 * wgsA * (1 + E2 / 2)) / r by ring]; refine k1 ?_; rw [abs_le]; unfold A5 E2 wgsA; norm_num

/-- The latitude and altitude of a point in the northern half plane. -/
theorem planar {φ h : ℝ} (h0 : 0 ≤ φ) (h1 : φ ≤ π / 2) (hh0 : -10 ^ 5 ≤ h) (hh1 : h ≤ 10 ^ 9) {w z r : ℝ}
    (hw : w = (wgsA * nu φ + h) * cos φ) (hz : z = (wgsA * nu φ + h) * sin φ - E2 * (wgsA * be φ)) (hr : 0 ≤ r) (hr2 : r ^ 2 = w ^ 2 + z ^ 2) :
    let q := improve z w (guess z w r (z * z / r ^ 2) (w ^ 2 / r ^ 2) (A2 / r) (A3 - A4 / r))
    |q.1 - φ| ≤ 6 / 10 ^ 12 ∧ |q.2 - h| ≤ 3 / 10 ^ 5 := by
  intro q
  have hn1 := nu_ge φ
  have hn2 := nu_le φ
  have hA : wgsA = 6378137 := rfl
  have hE0 := E2_pos
  have hE1 := E2_lt
  have hsc := sin_sq_add_cos_sq φ
  set R := wgsA * nu φ + h with hR
  have hR0 : 6278137 ≤ R := by rw [hR, hA]; norm_num at *; linarith
  have hRp : 0 < R := by linarith
  set Q := E2 * (wgsA * nu φ) / R with hQ
  have hQR : Q * R = E2 * (wgsA * nu φ) := by rw [hQ]; field_simp
  have hQ0 : 0 ≤ Q := by rw [hQ, hA]; positivity
  have hQ1 : Q ≤ 69 / 10000 := by
    rw [hQ, div_le_iff₀ hRp]
    have hle : E2 * (wgsA * nu φ) ≤ 67 / 10000 * (wgsA * nu φ) := mul_le_mul_of_nonneg_right hE1 (by rw [hA]; linarith)
    refine hle.trans ?_
    rw [hR, hA]
    norm_num at *
    linarith
  have hz' : z = R * ((1 - Q) * sin φ) := by rw [hz]; unfold be; linear_combination sin φ * hQR
  have hx1 : sin φ ^ 2 ≤ 1 := by linarith [sq_nonneg (cos φ)]
  have hr2' : r ^ 2 = R ^ 2 * (1 - (2 * Q - Q ^ 2) * sin φ ^ 2) := by
    rw [hr2, hz', hw]; linear_combination R ^ 2 * hsc
  have hy : (2 * Q - Q ^ 2) * sin φ ^ 2 ≤ 14 / 1000 := by
    have : 2 * Q - Q ^ 2 ≤ 14 / 1000 := by nlinarith
    have h2 : 0 ≤ 2 * Q - Q ^ 2 := by nlinarith
    nlinarith [sq_nonneg (sin φ)]
  have hrl : 6 * 10 ^ 6 ≤ r := by
    by_contra hlt
    push Not at hlt
    have h3 : r ^ 2 < (6 * 10 ^ 6) ^ 2 := pow_lt_pow_left₀ hlt hr (by norm_num)
    have h4 : (6278137 : ℝ) ^ 2 ≤ R ^ 2 := pow_le_pow_left₀ (by norm_num) hR0 2
    have h5 : R ^ 2 * (986 / 1000) ≤ r ^ 2 := by
      rw [hr2']; exact mul_le_mul_of_nonneg_left (by linarith) (sq_nonneg _)
    norm_num at *
    linarith
  have hrp : 0 < r := lt_of_lt_of_le (by norm_num) hrl
  have hσ : (R / r) ^ 2 * (1 - (2 * Q - Q ^ 2) * sin φ ^ 2) = 1 := by
    rw [div_pow, div_mul_eq_mul_div, ← hr2']; exact div_self (pow_pos hrp 2).ne'
  have A : Approx E2 Q (sin φ ^ 2) (R / r) (den φ) :=
    ⟨hQ0, hQ1, sq_nonneg _, hx1, hE0.le, hE1, div_pos hRp hrp, hσ, den_pos φ, den_sq φ⟩
  have hα : Q * den φ * (R / r) = E2 * wgsA / r := by
    have : nu φ * den φ = 1 := inv_mul_cancel₀ (den_pos φ).ne'
    rw [← mul_div_assoc]
    congr 1
    linear_combination den φ * hQR + E2 * wgsA * this
  have T := coeffs hrl
  rw [← hα] at T
  have f1 := A.first T
  have f2 := A.second T
  have s2 := A.sigma_sq
  have ec2 : (1 - sin φ ^ 2) * (R / r) ^ 2 = w ^ 2 / r ^ 2 := by
    rw [hw, show 1 - sin φ ^ 2 = cos φ ^ 2 by linarith]; ring
  have es2 : (1 - Q) ^ 2 * sin φ ^ 2 * (R / r) ^ 2 = z * z / r ^ 2 := by rw [hz']; ring
  rw [ec2, es2] at f1 f2
  have hq : q = improve z w (guess z w r (z * z / r ^ 2) (w ^ 2 / r ^ 2) (A2 / r) (A3 - A4 / r)) := rfl
  rw [hq]
  clear hq q
  have hcos : cos φ ^ 2 * (R / r) ^ 2 = w ^ 2 / r ^ 2 := by rw [← ec2, show 1 - sin φ ^ 2 = cos φ ^ 2 by linarith]
  have hcp := sq_nonneg (cos φ)
  by_cases hb : w ^ 2 / r ^ 2 > 0.3
  · have hC : 2957 / 10000 ≤ cos φ ^ 2 := by
      rw [← hcos] at hb
      norm_num at hb
      by_contra hlt
      push Not at hlt
      have := mul_le_mul hlt.le s2.2.2 (sq_nonneg _) (by norm_num)
      norm_num at this
      linarith
    obtain ⟨g1, g2, g3⟩ := start1 h0 h1 f1 hC
    set s := sin φ * ((1 - Q) * (R / r) * (1 + w ^ 2 / r ^ 2 * (A1 / r + A2 / r ^ 2 + z * z / r ^ 2 * (A3 / r - A4 / r ^ 2)))) with hs
    have key := newton g1 hh0 hh1
    rw [← hR, ← hz, ← hw, g2, g3] at key
    have eg : guess z w r (z * z / r ^ 2) (w ^ 2 / r ^ 2) (A2 / r) (A3 - A4 / r) = (arcsin s, s, s * s, √(1 - s ^ 2)) := by
      have e : z / r * (1.0 + w ^ 2 / r ^ 2 * (A1 + A2 / r + z * z / r ^ 2 * (A3 - A4 / r)) / r) = s := by
        have ez : z / r = sin φ * ((1 - Q) * (R / r)) := by rw [hz']; ring
        have ei : w ^ 2 / r ^ 2 * (A1 + A2 / r + z * z / r ^ 2 * (A3 - A4 / r)) / r
            = w ^ 2 / r ^ 2 * (A1 / r + A2 / r ^ 2 + z * z / r ^ 2 * (A3 / r - A4 / r ^ 2)) := by
          generalize w ^ 2 / r ^ 2 = c2
          generalize z * z / r ^ 2 = t2
          field_simp
        rw [ez, ei, hs]; norm_num; ring
      unfold guess
      rw [if_pos hb]
      simp only [e]
      norm_num [pow_two]
    rw [eg]
    exact key
  · have hC : cos φ ^ 2 ≤ 3031 / 10000 := by
      rw [← hcos] at hb
      norm_num at hb
      by_contra hlt
      push Not at hlt
      have := mul_le_mul hlt.le s2.2.1 (by norm_num) (sq_nonneg _)
      norm_num at this
      linarith
    obtain ⟨g1, g2, g3⟩ := start2 h0 h1 f2 hC
    set c := cos φ * (R / r * (1 - z * z / r ^ 2 * (A5 / r - A2 / r ^ 2 - w ^ 2 / r ^ 2 * (A3 / r - A4 / r ^ 2)))) with hc
    have key := newton g1 hh0 hh1
    rw [← hR, ← hz, ← hw, g2, g3] at key
    have hc1 : 0 ≤ 1 - c ^ 2 := by
      have := sin_sq_add_cos_sq (arccos c)
      rw [g2] at this
      linarith [sq_nonneg (sin (arccos c))]
    have eg : guess z w r (z * z / r ^ 2) (w ^ 2 / r ^ 2) (A2 / r) (A3 - A4 / r) = (arccos c, √(1 - c ^ 2), √(1 - c ^ 2) * √(1 - c ^ 2), c) := by
      have e : w / r * (1.0 - z * z / r ^ 2 * (A5 - A2 / r - w ^ 2 / r ^ 2 * (A3 - A4 / r)) / r) = c := by
        have ez : w / r = cos φ * (R / r) := by rw [hw]; ring
        have ei : z * z / r ^ 2 * (A5 - A2 / r - w ^ 2 / r ^ 2 * (A3 - A4 / r)) / r
            = z * z / r ^ 2 * (A5 / r - A2 / r ^ 2 - w ^ 2 / r ^ 2 * (A3 / r - A4 / r ^ 2)) := by
          generalize w ^ 2 / r ^ 2 = c2
          generalize z * z / r ^ 2 = t2
          field_simp
        rw [ez, ei, hc]; norm_num; ring
      unfold guess
      rw [if_neg hb]
      simp only [e]
      rw [mul_self_sqrt hc1]
      norm_num [pow_two]
    rw [eg]
    exact key
end Verif.Dis.Geo
