import Verif.Dis.GeodesyPlanar
import Mathlib.Topology.Order.IntermediateValue

namespace Verif.Props
open Real Verif.Dis.Geo

/-! Property C60: the conversion from geocentric to geodetic coordinates inverts the conversion from geodetic to geocentric
coordinates, to within micrometres (in real arithmetic). -/

/-- What it means to be the point at geodetic latitude `φ`, longitude `l` and altitude `h` over the ellipsoid of semi-major axis `a` and
squared eccentricity `e2`: starting from a point of the ellipsoid whose outward normal has elevation `φ` over the equator and azimuth
`l`, one goes `h` along that normal. -/
def IsGeodetic (a e2 φ l h : ℝ) (P : ℝ × ℝ × ℝ) : Prop :=
  ∃ X Y Z k : ℝ, (X ^ 2 + Y ^ 2) / a ^ 2 + Z ^ 2 / (a ^ 2 * (1 - e2)) = 1 ∧ 0 < k
    ∧ X / a ^ 2 = k * (cos φ * cos l) ∧ Y / a ^ 2 = k * (cos φ * sin l) ∧ Z / (a ^ 2 * (1 - e2)) = k * sin φ
    ∧ P = (X + h * (cos φ * cos l), Y + h * (cos φ * sin l), Z + h * sin φ)

theorem lla_parts (φ l h : ℝ) : llaToEcef φ l h =
    ((wgsA * nu φ + h) * cos φ * cos l, (wgsA * nu φ + h) * cos φ * sin l, (wgsA * nu φ + h) * sin φ - E2 * (wgsA * be φ)) := by
  have e : √(1.0 - E2 * sin φ * sin φ) = den φ := by unfold den; congr 1; norm_num; ring
  unfold llaToEcef
  simp only [e, div_eq_mul_inv]
  refine Prod.ext rfl (Prod.ext rfl ?_)
  change (wgsA * nu φ * (1.0 - E2) + h) * sin φ = _
  unfold be
  norm_num
  ring

/-- C60: the geocentric coordinates are those of the point with the given geodetic coordinates. -/
theorem C60_geodetic (φ l h : ℝ) : IsGeodetic wgsA E2 φ l h (llaToEcef φ l h) := by
  have hA : (0 : ℝ) < wgsA := by unfold wgsA; norm_num
  have hE : (0 : ℝ) < 1 - E2 := by unfold E2; norm_num
  have hn := nu_pos φ
  have hsc := sin_sq_add_cos_sq φ
  have hsl := sin_sq_add_cos_sq l
  have hd := den_sq φ
  have hnd : nu φ ^ 2 * (1 - E2 * sin φ ^ 2) = 1 := by
    rw [← hd, ← mul_pow]
    have : nu φ * den φ = 1 := inv_mul_cancel₀ (den_pos φ).ne'
    rw [this, one_pow]
  refine ⟨wgsA * nu φ * (cos φ * cos l), wgsA * nu φ * (cos φ * sin l), wgsA * nu φ * (1 - E2) * sin φ, nu φ / wgsA, ?_, div_pos hn hA, ?_, ?_, ?_, ?_⟩
  · field_simp
    have e1 : cos l ^ 2 = 1 - sin l ^ 2 := by linarith
    have e2 : cos φ ^ 2 = 1 - sin φ ^ 2 := by linarith
    rw [e1]
    linear_combination hnd + nu φ ^ 2 * e2
  · field_simp
  · field_simp
  · field_simp
  · rw [lla_parts]
    refine Prod.ext ?_ (Prod.ext ?_ ?_)
    · ring
    · ring
    · unfold be; ring

theorem ecef_parts {x y z w : ℝ} (hw : 0 ≤ w) (h : x * x + y * y = w ^ 2) :
    ecefToLla x y z =
      (let r := √(w ^ 2 + z * z)
       let q := improve |z| w (guess |z| w r (|z| * |z| / r ^ 2) (w ^ 2 / r ^ 2) (A2 / r) (A3 - A4 / r))
       (if z < 0 then -q.1 else q.1, Complex.arg ⟨x, y⟩, q.2)) := by
  have hr : √(w ^ 2 + z * z) ^ 2 = w ^ 2 + z * z := sq_sqrt (by nlinarith [mul_self_nonneg z])
  unfold ecefToLla
  simp only [h, sqrt_sq hw, abs_mul_abs_self, hr]
  norm_num

theorem polar_sq (k l : ℝ) : k * cos l * (k * cos l) + k * sin l * (k * sin l) = k ^ 2 := by
  linear_combination k ^ 2 * sin_sq_add_cos_sq l

/-- C60: converting geodetic coordinates to geocentric ones and back gives the latitude to within 6·10⁻¹² radians, the altitude to
within 0.03 mm and the longitude exactly, for every latitude and longitude and every altitude from -100 km to a million km. (At the poles
the longitude is 0, whatever it was.) -/
theorem C60_round_trip {φ l h : ℝ} (hφ : |φ| ≤ π / 2) (hl : l ∈ Set.Ioc (-π) π) (h0 : -10 ^ 5 ≤ h) (h1 : h ≤ 10 ^ 9) :
    let P := llaToEcef φ l h
    let Q := ecefToLla P.1 P.2.1 P.2.2
    |Q.1 - φ| ≤ 6 / 10 ^ 12 ∧ Q.2.1 = (if |φ| = π / 2 then 0 else l) ∧ |Q.2.2 - h| ≤ 3 / 10 ^ 5 := by
  intro P Q
  have hQ : Q = ecefToLla P.1 P.2.1 P.2.2 := rfl
  have hP : P = llaToEcef φ l h := rfl
  rw [lla_parts] at hP
  rw [hP] at hQ
  have hRp : 0 < wgsA * nu φ + h := by
    have := nu_ge φ
    unfold wgsA
    norm_num at *
    linarith
  have hc : 0 ≤ cos φ := cos_nonneg_of_mem_Icc (abs_le.1 hφ |> fun h => ⟨by linarith [h.1], h.2⟩)
  rw [ecef_parts (mul_nonneg hRp.le hc) (polar_sq _ _)] at hQ
  have hnu : nu (-φ) = nu φ := by unfold nu den; rw [sin_neg, neg_sq]
  have hbe : be (-φ) = -be φ := by unfold be; rw [sin_neg, hnu]; ring
  have hlong : Complex.arg ⟨(wgsA * nu φ + h) * cos φ * cos l, (wgsA * nu φ + h) * cos φ * sin l⟩ = if |φ| = π / 2 then 0 else l := by
    by_cases hp : |φ| = π / 2
    · have : cos φ = 0 := by rw [← cos_abs, hp, cos_pi_div_two]
      rw [if_pos hp, this]
      simp only [mul_zero, zero_mul]
      exact Complex.arg_zero
    · rw [if_neg hp]
      have hlt := lt_of_le_of_ne hφ hp
      have hcp : 0 < cos φ := cos_pos_of_mem_Ioo ⟨by linarith [(abs_lt.1 hlt).1], (abs_lt.1 hlt).2⟩
      have e : (⟨(wgsA * nu φ + h) * cos φ * cos l, (wgsA * nu φ + h) * cos φ * sin l⟩ : ℂ)
          = (((wgsA * nu φ + h) * cos φ : ℝ) : ℂ) * (Complex.cos l + Complex.sin l * Complex.I) := by
        apply Complex.ext
        · simp [Complex.cos_ofReal_re, Complex.sin_ofReal_re]
        · simp [Complex.cos_ofReal_re, Complex.sin_ofReal_re]
      rw [e]
      exact Complex.arg_mul_cos_add_sin_mul_I (mul_pos hRp hcp) hl
  have hzs : ∀ ψ : ℝ, (wgsA * nu ψ + h) * sin ψ - E2 * (wgsA * be ψ) = (wgsA * nu ψ * (1 - E2) + h) * sin ψ := by
    intro ψ; unfold be; ring
  have hk : ∀ ψ : ℝ, 0 < wgsA * nu ψ * (1 - E2) + h := by
    intro ψ
    have h1 := nu_ge ψ
    have h2 : (6300000 : ℝ) ≤ wgsA * nu ψ * (1 - E2) := by
      have : (6300000 : ℝ) ≤ wgsA * (1 - E2) := by unfold wgsA E2; norm_num
      have h3 : (0 : ℝ) ≤ wgsA * (1 - E2) := by linarith
      nlinarith
    norm_num at *
    linarith
  rw [hQ]
  refine ⟨?_, hlong, ?_⟩
  all_goals
    by_cases hs : 0 ≤ φ
    · have hφ2 : φ ≤ π / 2 := le_of_abs_le hφ
      have hS : 0 ≤ sin φ := sin_nonneg_of_nonneg_of_le_pi hs (by linarith [pi_pos])
      have hz : 0 ≤ (wgsA * nu φ + h) * sin φ - E2 * (wgsA * be φ) := by rw [hzs]; exact mul_nonneg (hk φ).le hS
      simp only [abs_of_nonneg hz, if_neg (not_lt.2 hz)]
      have key := planar hs hφ2 h0 h1 rfl rfl (sqrt_nonneg _) (sq_sqrt (add_nonneg (sq_nonneg ((wgsA * nu φ + h) * cos φ)) (sq_nonneg ((wgsA * nu φ + h) * sin φ - E2 * (wgsA * be φ)))))
      rw [pow_two ((wgsA * nu φ + h) * sin φ - E2 * (wgsA * be φ))] at key
      first | exact key.1 | exact key.2
    · push Not at hs
      have hφ2 : -φ ≤ π / 2 := by linarith [(abs_le.1 hφ).1]
      have hφ3 : 0 ≤ -φ := by linarith
      have hS : sin φ < 0 := sin_neg_of_neg_of_neg_pi_lt hs (by linarith [pi_pos])
      have hz : (wgsA * nu φ + h) * sin φ - E2 * (wgsA * be φ) < 0 := by rw [hzs]; exact mul_neg_of_pos_of_neg (hk φ) hS
      simp only [abs_of_neg hz, if_pos hz]
      have key := planar hφ3 hφ2 h0 h1 (w := (wgsA * nu φ + h) * cos φ) (z := -((wgsA * nu φ + h) * sin φ - E2 * (wgsA * be φ)))
        (by rw [hnu, cos_neg]) (by rw [hnu, hbe, sin_neg]; ring)
        (sqrt_nonneg _) (sq_sqrt (add_nonneg (sq_nonneg _) (sq_nonneg _)))
      rw [pow_two (-((wgsA * nu φ + h) * sin φ - E2 * (wgsA * be φ))), neg_mul_neg] at key
      rw [neg_mul_neg]
      first
        | exact key.2
        | (rw [show ∀ t : ℝ, -t - φ = -(t - -φ) from fun t => by ring, abs_neg]; exact key.1)

theorem nu_neg (φ : ℝ) : nu (-φ) = nu φ := by unfold nu den; rw [sin_neg, neg_sq]
theorem be_neg (φ : ℝ) : be (-φ) = -be φ := by unfold be; rw [sin_neg, nu_neg]; ring

theorem quadrant {w z : ℝ} (hw : 0 ≤ w) (hz : 0 ≤ z) :
    ∃ φ : ℝ, 0 ≤ φ ∧ φ ≤ π / 2 ∧ w * sin φ - z * cos φ = E2 * (wgsA * be φ) * cos φ := by
  have hcont : Continuous fun φ : ℝ => w * sin φ - z * cos φ - E2 * (wgsA * be φ) * cos φ := by
    have hbe : Continuous be := continuous_iff_continuousAt.2 fun t => (be_deriv t).continuousAt
    fun_prop
  have hpi : 0 ≤ π / 2 := by linarith [pi_pos]
  have hiv := intermediate_value_Icc hpi hcont.continuousOn
  have hmem : (0 : ℝ) ∈ Set.Icc (w * sin 0 - z * cos 0 - E2 * (wgsA * be 0) * cos 0)
      (w * sin (π / 2) - z * cos (π / 2) - E2 * (wgsA * be (π / 2)) * cos (π / 2)) := by
    have : be 0 = 0 := by unfold be; simp
    rw [this, cos_pi_div_two, sin_pi_div_two, sin_zero, cos_zero]
    constructor <;> linarith
  obtain ⟨φ, ⟨p1, p2⟩, hφ⟩ := hiv hmem
  have hφ' : w * sin φ - z * cos φ - E2 * (wgsA * be φ) * cos φ = 0 := hφ
  exact ⟨φ, p1, p2, by linarith⟩

/-- Every point of the half plane of a meridian has geodetic coordinates. -/
theorem meridian {w z : ℝ} (hw : 0 ≤ w) :
    ∃ φ h : ℝ, |φ| ≤ π / 2 ∧ w = (wgsA * nu φ + h) * cos φ ∧ z = (wgsA * nu φ + h) * sin φ - E2 * (wgsA * be φ)
      ∧ h = w * cos φ + z * sin φ - wgsA * den φ ∧ w * sin φ - z * cos φ = E2 * (wgsA * be φ) * cos φ ∧ 0 ≤ z * sin φ := by
  have hex : ∃ φ : ℝ, |φ| ≤ π / 2 ∧ w * sin φ - z * cos φ = E2 * (wgsA * be φ) * cos φ ∧ 0 ≤ z * sin φ := by
    rcases le_total 0 z with hz | hz
    · obtain ⟨φ, p1, p2, p3⟩ := quadrant hw hz
      exact ⟨φ, abs_le.2 ⟨by linarith, p2⟩, p3, mul_nonneg hz (sin_nonneg_of_nonneg_of_le_pi p1 (by linarith [pi_pos]))⟩
    · obtain ⟨φ, p1, p2, p3⟩ := quadrant (z := -z) hw (by linarith)
      refine ⟨-φ, by rw [abs_neg]; exact abs_le.2 ⟨by linarith, p2⟩, ?_, ?_⟩
      · rw [be_neg, sin_neg, cos_neg]; linarith
      · rw [sin_neg, mul_neg, ← neg_mul]
        exact mul_nonneg (by linarith) (sin_nonneg_of_nonneg_of_le_pi p1 (by linarith [pi_pos]))
  obtain ⟨φ, hp, hφ', hzs⟩ := hex
  have hsc := sin_sq_add_cos_sq φ
  have hnd : nu φ * den φ = 1 := inv_mul_cancel₀ (den_pos φ).ne'
  have hd2 := den_sq φ
  have hden : den φ = nu φ * (1 - E2 * sin φ ^ 2) := by rw [← hd2]; linear_combination (-den φ) * hnd
  refine ⟨φ, w * cos φ + z * sin φ - wgsA * den φ, hp, ?_, ?_, rfl, hφ', hzs⟩
  · rw [hden]
    unfold be at hφ'
    linear_combination (sin φ) * hφ' - w * hsc
  · rw [hden]
    unfold be at hφ' ⊢
    linear_combination (-cos φ) * hφ' - z * hsc - E2 * wgsA * nu φ * sin φ * hsc

/-- C60: every point that is at least 6300 km from the centre of the Earth has geodetic coordinates, at an altitude that is its distance
from the centre less the radius of the ellipsoid, up to the difference between the longest and the shortest radius. -/
theorem C60_geodetic_exists {x y z : ℝ} (h0 : 6300000 ^ 2 ≤ x ^ 2 + y ^ 2 + z ^ 2) :
    ∃ φ l h : ℝ, |φ| ≤ π / 2 ∧ l ∈ Set.Ioc (-π) π ∧ √(x ^ 2 + y ^ 2 + z ^ 2) - 6378300 ≤ h
      ∧ h ≤ √(x ^ 2 + y ^ 2 + z ^ 2) - 6356600 ∧ llaToEcef φ l h = (x, y, z) := by
  set w := ‖(⟨x, y⟩ : ℂ)‖ with hw
  have hw0 : 0 ≤ w := norm_nonneg _
  have hw2 : w ^ 2 = x ^ 2 + y ^ 2 := by
    rw [hw, ← Complex.normSq_eq_norm_sq, Complex.normSq_mk]; ring
  obtain ⟨φ, h, p1, p2, p3, p4, p5, p6⟩ := meridian (z := z) hw0
  have hsc := sin_sq_add_cos_sq φ
  set k := w * cos φ + z * sin φ with hk
  set j := w * sin φ - z * cos φ with hj
  have hkj : k ^ 2 + j ^ 2 = x ^ 2 + y ^ 2 + z ^ 2 := by
    rw [hk, hj, ← hw2]; linear_combination (w ^ 2 + z ^ 2) * hsc
  have hjb : |j| ≤ 43000 := by
    rw [p5]
    unfold be
    have e : E2 * (wgsA * (sin φ * nu φ)) * cos φ = E2 * (wgsA * nu φ) * (sin φ * cos φ) := by ring
    rw [e]
    have a1 : |E2 * (wgsA * nu φ)| ≤ 67 / 10000 * (6378137 * 10034 / 10000) := by
      refine absmul (by rw [abs_of_pos E2_pos]; exact E2_lt) ?_
      have := nu_ge φ; have := nu_le φ
      rw [show wgsA = 6378137 from rfl, abs_of_nonneg (by linarith)]
      linarith
    have a2 : |sin φ * cos φ| ≤ 1 * 1 := absmul (abs_sin_le_one φ) (abs_cos_le_one φ)
    have := absmul a1 a2
    norm_num at *
    linarith
  have hd1 := den_le φ
  have hd2 := le_den φ
  have hcos : 0 ≤ cos φ := cos_nonneg_of_mem_Icc (abs_le.1 p1 |> fun h => ⟨by linarith [h.1], h.2⟩)
  have hk0 : 0 ≤ k := add_nonneg (mul_nonneg hw0 hcos) p6
  have hA : wgsA = 6378137 := rfl
  refine ⟨φ, Complex.arg ⟨x, y⟩, h, p1, Complex.arg_mem_Ioc _, ?_, ?_, ?_⟩
  · have hj2 : j ^ 2 ≤ 43000 ^ 2 := by rw [← sq_abs]; exact pow_le_pow_left₀ (abs_nonneg _) hjb 2
    have hr0 : 6300000 ≤ √(x ^ 2 + y ^ 2 + z ^ 2) := le_sqrt_of_sq_le h0
    have hr2 : √(x ^ 2 + y ^ 2 + z ^ 2) ^ 2 = x ^ 2 + y ^ 2 + z ^ 2 := sq_sqrt (by positivity)
    have hkl : √(x ^ 2 + y ^ 2 + z ^ 2) - 160 ≤ k := by
      by_contra hlt
      push Not at hlt
      have := pow_lt_pow_left₀ hlt hk0 (n := 2) (by norm_num)
      norm_num at *
      nlinarith
    rw [p4, hA]
    linarith
  · have : k ≤ √(x ^ 2 + y ^ 2 + z ^ 2) := le_sqrt_of_sq_le (by nlinarith [sq_nonneg j])
    rw [p4, hA]
    linarith
  · rw [lla_parts, ← p2, ← p3]
    have e1 : w * cos (Complex.arg ⟨x, y⟩) = x := Complex.norm_mul_cos_arg _
    have e2 : w * sin (Complex.arg ⟨x, y⟩) = y := Complex.norm_mul_sin_arg _
    rw [e1, e2]

theorem nucos_lip (x y : ℝ) : |nu y * cos y - nu x * cos x| ≤ 102 / 100 * |y - x| := by
  have := convex_univ.norm_image_sub_le_of_norm_hasDerivWithin_le (f := fun t => nu t * cos t)
    (f' := fun t => E2 * sin t * cos t * nu t ^ 3 * cos t + nu t * -sin t) (C := 102 / 100)
    (fun θ _ => ((nu_deriv θ).mul (hasDerivAt_cos θ)).hasDerivWithinAt)
    (fun θ _ => by
      rw [Real.norm_eq_abs]
      have h1 : |E2 * sin θ * cos θ * nu θ ^ 3 * cos θ| ≤ 67 / 10000 * 1 * 1 * (1011 / 1000) * 1 :=
        absmul (absmul (absmul (absmul (by rw [abs_of_pos E2_pos]; exact E2_lt) (abs_sin_le_one θ)) (abs_cos_le_one θ))
          (by rw [abs_of_pos (pow_pos (nu_pos θ) 3)]; exact nu3_le θ)) (abs_cos_le_one θ)
      have h2 : |nu θ * -sin θ| ≤ 10034 / 10000 * 1 :=
        absmul (by rw [abs_of_pos (nu_pos θ)]; exact nu_le θ) (by rw [abs_neg]; exact abs_sin_le_one θ)
      refine (abs_add_le _ _).trans ?_
      norm_num at *
      linarith) (Set.mem_univ x) (Set.mem_univ y)
  simpa [Real.norm_eq_abs] using this

/-- Small changes of the geodetic coordinates move the point little. -/
theorem lla_moves {φ φ' h h' ε δ : ℝ} (l : ℝ) (hφ : |φ' - φ| ≤ ε) (hh : |h' - h| ≤ δ) :
    let P := llaToEcef φ l h
    let P' := llaToEcef φ' l h'
    let b := (6600000 + |h|) * ε + δ
    |P'.1 - P.1| ≤ b ∧ |P'.2.1 - P.2.1| ≤ b ∧ |P'.2.2 - P.2.2| ≤ b := by
  intro P P' b
  have hε : 0 ≤ ε := (abs_nonneg _).trans hφ
  have hP : P = llaToEcef φ l h := rfl
  have hP' : P' = llaToEcef φ' l h' := rfl
  rw [lla_parts] at hP hP'
  have hA : wgsA = 6378137 := rfl
  have hcos : |cos φ' - cos φ| ≤ ε := (abs_cos_sub_cos_le φ' φ).trans hφ
  have hsin : |sin φ' - sin φ| ≤ ε := (abs_sin_sub_sin_le φ' φ).trans hφ
  have m1 : |6378137 * (nu φ' * cos φ' - nu φ * cos φ)| ≤ 6378137 * (102 / 100 * ε) :=
    absmul (by norm_num) ((nucos_lip φ φ').trans (mul_le_mul_of_nonneg_left hφ (by norm_num)))
  have m2 : |(1 - E2) * (6378137 * (be φ' - be φ))| ≤ 1 * (6378137 * (1011 / 1000 * ε)) := by
    refine absmul ?_ (absmul (by norm_num) ((be_lip φ φ').trans (mul_le_mul_of_nonneg_left hφ (by norm_num))))
    have := E2_pos; have := E2_lt
    rw [abs_le]; constructor <;> linarith
  have m3 : |h * (cos φ' - cos φ)| ≤ |h| * ε := absmul le_rfl hcos
  have m4 : |h * (sin φ' - sin φ)| ≤ |h| * ε := absmul le_rfl hsin
  have m5 : |(h' - h) * cos φ'| ≤ δ * 1 := absmul hh (abs_cos_le_one φ')
  have m6 : |(h' - h) * sin φ'| ≤ δ * 1 := absmul hh (abs_sin_le_one φ')
  have w : |(wgsA * nu φ' + h') * cos φ' - (wgsA * nu φ + h) * cos φ| ≤ b := by
    have e : (wgsA * nu φ' + h') * cos φ' - (wgsA * nu φ + h) * cos φ
        = 6378137 * (nu φ' * cos φ' - nu φ * cos φ) + h * (cos φ' - cos φ) + (h' - h) * cos φ' := by rw [hA]; ring
    rw [e]
    refine (abs_add_le _ _).trans ((add_le_add_left (abs_add_le _ _) _).trans ?_)
    simp only [b]
    linarith
  have z : |((wgsA * nu φ' + h') * sin φ' - E2 * (wgsA * be φ')) - ((wgsA * nu φ + h) * sin φ - E2 * (wgsA * be φ))| ≤ b := by
    have e : ((wgsA * nu φ' + h') * sin φ' - E2 * (wgsA * be φ')) - ((wgsA * nu φ + h) * sin φ - E2 * (wgsA * be φ))
        = (1 - E2) * (6378137 * (be φ' - be φ)) + h * (sin φ' - sin φ) + (h' - h) * sin φ' := by rw [hA]; unfold be; ring
    rw [e]
    refine (abs_add_le _ _).trans ((add_le_add_left (abs_add_le _ _) _).trans ?_)
    simp only [b]
    linarith
  rw [hP, hP']
  refine ⟨?_, ?_, z⟩
  · dsimp only
    rw [← sub_mul]
    have := absmul w (abs_cos_le_one l)
    linarith
  · dsimp only
    rw [← sub_mul]
    have := absmul w (abs_sin_le_one l)
    linarith

/-- C60: converting any point that is at least 6300 km and at most a million km from the centre of the Earth to geodetic coordinates and
back moves none of its coordinates by more than 0.1 mm + 6·10⁻¹² of its distance from the centre. -/
theorem C60_there_and_back {x y z : ℝ} (h0 : 6300000 ^ 2 ≤ x ^ 2 + y ^ 2 + z ^ 2) (h1 : x ^ 2 + y ^ 2 + z ^ 2 ≤ (10 ^ 9) ^ 2) :
    let Q := ecefToLla x y z
    let P := llaToEcef Q.1 Q.2.1 Q.2.2
    let b := 1 / 10 ^ 4 + 6 / 10 ^ 12 * √(x ^ 2 + y ^ 2 + z ^ 2)
    |P.1 - x| ≤ b ∧ |P.2.1 - y| ≤ b ∧ |P.2.2 - z| ≤ b := by
  intro Q P b
  obtain ⟨φ, l, h, p1, p2, p3, p4, p5⟩ := C60_geodetic_exists h0
  have hr : √(x ^ 2 + y ^ 2 + z ^ 2) ≤ 10 ^ 9 := sqrt_le_iff.2 ⟨by norm_num, h1⟩
  have hr0 : 6300000 ≤ √(x ^ 2 + y ^ 2 + z ^ 2) := le_sqrt_of_sq_le h0
  have rt := C60_round_trip (h := h) p1 p2 (by norm_num at *; linarith) (by norm_num at *; linarith)
  rw [p5] at rt
  obtain ⟨q1, q2, q3⟩ := rt
  have mv := lla_moves Q.2.1 q1 q3
  have same : llaToEcef φ Q.2.1 h = (x, y, z) := by
    by_cases hp : |φ| = π / 2
    · have hc : cos φ = 0 := by rw [← cos_abs, hp, cos_pi_div_two]
      rw [← p5, lla_parts, lla_parts, hc]
      simp
    · have : Q.2.1 = l := by rw [q2, if_neg hp]
      rw [this, p5]
  rw [same] at mv
  have hb : (6600000 + |h|) * (6 / 10 ^ 12) + 3 / 10 ^ 5 ≤ b := by
    have : |h| ≤ √(x ^ 2 + y ^ 2 + z ^ 2) := abs_le.2 ⟨by linarith, by linarith⟩
    simp only [b]
    norm_num at *
    linarith
  exact ⟨mv.1.trans hb, mv.2.1.trans hb, mv.2.2.trans hb⟩

/-- C60, a case: a point on the Greenwich meridian in the plane of the equator. -/
theorem C60_equator {x : ℝ} (hx : 0 < x) : ecefToLla x 0 0 = (0, 0, x - 6378137) := by
  rw [ecef_parts hx.le (by ring)]
  have hx0 := hx.ne'
  have hr : √(x ^ 2 + 0 * 0) = x := by rw [mul_zero, add_zero, sqrt_sq hx.le]
  have hc : x ^ 2 / x ^ 2 = 1 := div_self (pow_pos hx 2).ne'
  simp only [hr, hc, abs_zero]
  have hg : guess 0 x x (0 * 0 / x ^ 2) 1 (A2 / x) (A3 - A4 / x) = (0, 0, 0, 1) := by
    unfold guess
    rw [if_pos (by norm_num)]
    norm_num
  rw [hg]
  unfold improve wgsA
  norm_num
  exact Complex.arg_ofReal_of_nonneg hx.le
end Verif.Props
