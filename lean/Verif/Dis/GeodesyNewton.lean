import Verif.Dis.Geodesy
import Mathlib.Analysis.Calculus.MeanValue
import Mathlib.Analysis.SpecialFunctions.Trigonometric.Deriv
import Mathlib.Analysis.SpecialFunctions.Trigonometric.Bounds
import Mathlib.Analysis.SpecialFunctions.Sqrt
import Mathlib.Tactic.Linarith
import Mathlib.Tactic.FieldSimp

namespace Verif.Dis.Geo
open Real

theorem E2_pos : 0 < E2 := by unfold E2; norm_num
theorem E2_lt : E2 ≤ 67 / 10000 := by unfold E2; norm_num

/-- √(1 − e² sin² θ). -/
noncomputable def den (θ : ℝ) : ℝ := √(1 - E2 * sin θ ^ 2)
/-- The prime vertical radius over the semi-major axis. -/
noncomputable def nu (θ : ℝ) : ℝ := (den θ)⁻¹
/-- Its product with the sine. -/
noncomputable def be (θ : ℝ) : ℝ := sin θ * nu θ
noncomputable def be' (θ : ℝ) : ℝ := cos θ * nu θ ^ 3

theorem arg_pos (θ : ℝ) : 99 / 100 < 1 - E2 * sin θ ^ 2 := by
  have h1 : sin θ ^ 2 ≤ 1 := by nlinarith [sin_sq_add_cos_sq θ, sq_nonneg (cos θ)]
  have h2 : E2 * sin θ ^ 2 ≤ 67 / 10000 * 1 := mul_le_mul E2_lt h1 (sq_nonneg _) (by norm_num)
  linarith

theorem den_sq (θ : ℝ) : den θ ^ 2 = 1 - E2 * sin θ ^ 2 := sq_sqrt (by linarith [arg_pos θ])
theorem den_pos (θ : ℝ) : 0 < den θ := sqrt_pos.2 (by linarith [arg_pos θ])
theorem den_le (θ : ℝ) : den θ ≤ 1 := by
  have := den_sq θ
  have h : 0 ≤ E2 * sin θ ^ 2 := mul_nonneg E2_pos.le (sq_nonneg _)
  nlinarith [den_pos θ]
theorem le_den (θ : ℝ) : 99663 / 100000 ≤ den θ := by
  have h1 : sin θ ^ 2 ≤ 1 := by nlinarith [sin_sq_add_cos_sq θ, sq_nonneg (cos θ)]
  have h2 : E2 * sin θ ^ 2 ≤ 67 / 10000 * 1 := mul_le_mul E2_lt h1 (sq_nonneg _) (by norm_num)
  have := den_sq θ
  by_contra hlt
  push Not at hlt
  nlinarith [den_pos θ]
theorem nu_pos (θ : ℝ) : 0 < nu θ := inv_pos.2 (den_pos θ)
theorem nu_ge (θ : ℝ) : 1 ≤ nu θ := (one_le_inv₀ (den_pos θ)).2 (den_le θ)
theorem nu_le (θ : ℝ) : nu θ ≤ 10034 / 10000 := by
  unfold nu
  rw [inv_le_comm₀ (den_pos θ) (by norm_num)]
  exact le_trans (by norm_num) (le_den θ)

theorem den_deriv (θ : ℝ) : HasDerivAt den (-(E2 * sin θ * cos θ) * nu θ) θ := by
  have h : HasDerivAt (fun t => 1 - E2 * sin t ^ 2) (-(E2 * (2 * sin θ * cos θ))) θ := by
    have := (((hasDerivAt_sin θ).pow 2).const_mul E2).const_sub 1
    simpa using this
  have := h.sqrt (ne_of_gt (by linarith [arg_pos θ]))
  refine this.congr_deriv ?_
  have hd := (den_pos θ).ne'
  unfold nu
  change _ / (2 * den θ) = _
  field_simp

theorem nu_deriv (θ : ℝ) : HasDerivAt nu (E2 * sin θ * cos θ * nu θ ^ 3) θ := by
  have := (den_deriv θ).inv (den_pos θ).ne'
  refine this.congr_deriv ?_
  have hd := (den_pos θ).ne'
  unfold nu
  field_simp

theorem be_deriv (θ : ℝ) : HasDerivAt be (be' θ) θ := by
  have := (hasDerivAt_sin θ).mul (nu_deriv θ)
  refine this.congr_deriv ?_
  have hd := (den_pos θ).ne'
  have := den_sq θ
  unfold be' nu
  field_simp
  rw [this]; ring

theorem nu3_le (θ : ℝ) : nu θ ^ 3 ≤ 1011 / 1000 := by
  have := pow_le_pow_left₀ (nu_pos θ).le (nu_le θ) 3
  exact this.trans (by norm_num)

theorem be'_le (θ : ℝ) : |be' θ| ≤ 1011 / 1000 := by
  unfold be'
  rw [abs_mul, abs_of_pos (pow_pos (nu_pos θ) 3)]
  have := mul_le_mul (abs_cos_le_one θ) (nu3_le θ) (pow_pos (nu_pos θ) 3).le (by norm_num)
  linarith

theorem be'_deriv (θ : ℝ) : HasDerivAt be' (-sin θ * nu θ ^ 3 + cos θ * (3 * nu θ ^ 2 * (E2 * sin θ * cos θ * nu θ ^ 3))) θ := by
  have := (hasDerivAt_cos θ).mul ((nu_deriv θ).pow 3)
  refine this.congr_deriv ?_
  norm_num

theorem be''_le (θ : ℝ) : |(-sin θ * nu θ ^ 3 + cos θ * (3 * nu θ ^ 2 * (E2 * sin θ * cos θ * nu θ ^ 3)))| ≤ 105 / 100 := by
  have hn := nu_pos θ
  have h5 : nu θ ^ 5 ≤ 102 / 100 := (pow_le_pow_left₀ hn.le (nu_le θ) 5).trans (by norm_num)
  have e : (-sin θ * nu θ ^ 3 + cos θ * (3 * nu θ ^ 2 * (E2 * sin θ * cos θ * nu θ ^ 3)))
      = sin θ * (-nu θ ^ 3) + sin θ * (cos θ ^ 2 * (3 * E2 * nu θ ^ 5)) := by ring
  rw [e, ← mul_add, abs_mul]
  have h1 : |(-nu θ ^ 3 + cos θ ^ 2 * (3 * E2 * nu θ ^ 5))| ≤ 105 / 100 := by
    have h3 := nu3_le θ
    have h4 := pow_pos hn 3
    have hc : cos θ ^ 2 ≤ 1 := by nlinarith [sin_sq_add_cos_sq θ, sq_nonneg (sin θ)]
    have hE : 3 * E2 * nu θ ^ 5 ≤ 3 * (67 / 10000) * (102 / 100) :=
      mul_le_mul (by linarith [E2_lt]) h5 (pow_pos hn 5).le (by norm_num)
    have hE0 : 0 ≤ 3 * E2 * nu θ ^ 5 := by have := E2_pos; positivity
    have h6 : cos θ ^ 2 * (3 * E2 * nu θ ^ 5) ≤ 1 * (3 * (67 / 10000) * (102 / 100)) := mul_le_mul hc hE hE0 (by norm_num)
    have h7 : 0 ≤ cos θ ^ 2 * (3 * E2 * nu θ ^ 5) := mul_nonneg (sq_nonneg _) hE0
    rw [abs_le]
    constructor <;> linarith
  have := mul_le_mul (abs_sin_le_one θ) h1 (abs_nonneg _) (by norm_num)
  linarith

theorem be_lip (x y : ℝ) : |be y - be x| ≤ 1011 / 1000 * |y - x| := by
  have := convex_univ.norm_image_sub_le_of_norm_hasDerivWithin_le (f := be) (f' := be') (C := 1011 / 1000)
    (fun θ _ => (be_deriv θ).hasDerivWithinAt) (fun θ _ => by rw [Real.norm_eq_abs]; exact be'_le θ) (Set.mem_univ x) (Set.mem_univ y)
  simpa [Real.norm_eq_abs] using this

theorem be'_lip (x y : ℝ) : |be' y - be' x| ≤ 105 / 100 * |y - x| := by
  have := convex_univ.norm_image_sub_le_of_norm_hasDerivWithin_le (f := be') (C := 105 / 100)
    (fun θ _ => (be'_deriv θ).hasDerivWithinAt) (fun θ _ => by rw [Real.norm_eq_abs]; exact be''_le θ) (Set.mem_univ x) (Set.mem_univ y)
  simpa [Real.norm_eq_abs] using this

theorem mem_dist {x y θ : ℝ} (h : θ ∈ Set.uIcc x y) : |θ - x| ≤ |y - x| := Set.abs_sub_left_of_mem_uIcc h

theorem be_taylor (x y : ℝ) : |be y - be x - (y - x) * be' x| ≤ 105 / 100 * (y - x) ^ 2 := by
  have h := (convex_uIcc x y).norm_image_sub_le_of_norm_hasDerivWithin_le (f := fun t => be t - t * be' x) (f' := fun t => be' t - be' x)
    (C := 105 / 100 * |y - x|)
    (fun θ _ => by
      have := (be_deriv θ).sub ((hasDerivAt_id θ).mul_const (be' x))
      rw [one_mul] at this
      exact this.hasDerivWithinAt)
    (fun θ hθ => by
      rw [Real.norm_eq_abs]
      exact (be'_lip x θ).trans (mul_le_mul_of_nonneg_left (mem_dist hθ) (by norm_num)))
    Set.left_mem_uIcc Set.right_mem_uIcc
  rw [Real.norm_eq_abs, Real.norm_eq_abs, mul_assoc, ← pow_two, sq_abs] at h
  rw [show be y - be x - (y - x) * be' x = be y - y * be' x - (be x - x * be' x) by ring]
  exact h

theorem nu_taylor (x y : ℝ) : |nu y - nu x - E2 * sin x * (be y - be x)| ≤ E2 * (1011 / 1000) * (y - x) ^ 2 := by
  have h := (convex_uIcc x y).norm_image_sub_le_of_norm_hasDerivWithin_le (f := fun t => nu t - E2 * sin x * be t)
    (f' := fun t => E2 * sin t * cos t * nu t ^ 3 - E2 * sin x * be' t)
    (C := E2 * (1011 / 1000) * |y - x|)
    (fun θ _ => ((nu_deriv θ).sub ((be_deriv θ).const_mul (E2 * sin x))).hasDerivWithinAt)
    (fun θ hθ => by
      rw [Real.norm_eq_abs]
      have e : E2 * sin θ * cos θ * nu θ ^ 3 - E2 * sin x * be' θ = E2 * (be' θ) * (sin θ - sin x) := by unfold be'; ring
      rw [e, abs_mul, abs_mul, abs_of_pos E2_pos]
      have hs : |sin θ - sin x| ≤ |y - x| := by
        have h0 := convex_univ.norm_image_sub_le_of_norm_hasDerivWithin_le (f := sin) (C := 1)
          (fun θ _ => (hasDerivAt_sin θ).hasDerivWithinAt) (fun θ _ => by rw [Real.norm_eq_abs]; exact abs_cos_le_one θ) (Set.mem_univ x) (Set.mem_univ θ)
        rw [Real.norm_eq_abs, Real.norm_eq_abs, one_mul] at h0
        exact h0.trans (mem_dist hθ)
      exact mul_le_mul (mul_le_mul_of_nonneg_left (be'_le θ) E2_pos.le) hs (abs_nonneg _) (by have := E2_pos; positivity))
    Set.left_mem_uIcc Set.right_mem_uIcc
  rw [Real.norm_eq_abs, Real.norm_eq_abs, mul_assoc (E2 * _), ← pow_two, sq_abs] at h
  rw [show nu y - nu x - E2 * sin x * (be y - be x) = nu y - E2 * sin x * be y - (nu x - E2 * sin x * be x) by ring]
  exact h

/-- The step of improvement, started at the latitude `φ0`, for the point at latitude `φ` and altitude `h`. -/
theorem improve_eq (φ φ0 h : ℝ) :
    let R := wgsA * nu φ + h
    let d := φ - φ0
    let B := wgsA * (be φ - be φ0)
    let η := A6 - (1 - E2)
    let N0 := wgsA * nu φ0
    let f := R * cos d - N0 - E2 * sin φ0 * B - η * N0 * sin φ0 ^ 2
    let m := R * sin d - E2 * cos φ0 * B - η * N0 * sin φ0 * cos φ0
    let D := R * cos d - E2 * cos φ0 * (wgsA * be' φ0) - E2 * sin φ0 * B + η * N0 * (nu φ0 ^ 2 - sin φ0 ^ 2)
    improve (R * sin φ - E2 * (wgsA * be φ)) (R * cos φ) (φ0, sin φ0, sin φ0 * sin φ0, cos φ0) = (φ0 + m / D, f + m * (m / D) / 2) := by
  intro R d B η N0 f m D
  have hd := (den_pos φ0).ne'
  have hg : (1.0 : ℝ) - E2 * (sin φ0 * sin φ0) = den φ0 ^ 2 := by rw [den_sq, pow_two]; norm_num
  have hsq : √(den φ0 ^ 2) = den φ0 := sqrt_sq (den_pos φ0).le
  have hN : wgsA / den φ0 = N0 := by simp only [N0, nu, div_eq_mul_inv]
  have hcs := sin_sq_add_cos_sq φ0
  have hsd : sin d = sin φ * cos φ0 - cos φ * sin φ0 := sin_sub φ φ0
  have hcd : cos d = cos φ * cos φ0 + sin φ * sin φ0 := cos_sub φ φ0
  have hB0 : N0 * sin φ0 = wgsA * be φ0 := by simp only [N0, be]; ring
  have hf : cos φ0 * (R * cos φ - N0 * cos φ0) + sin φ0 * (R * sin φ - E2 * (wgsA * be φ) - A6 * N0 * sin φ0) = f := by
    simp only [f, hcd, B, η]
    linear_combination (E2 * sin φ0) * hB0 - N0 * hcs
  have hm : cos φ0 * (R * sin φ - E2 * (wgsA * be φ) - A6 * N0 * sin φ0) - sin φ0 * (R * cos φ - N0 * cos φ0) = m := by
    simp only [m, hsd, B, η]
    linear_combination (E2 * cos φ0) * hB0
  have hnu : den φ0 * nu φ0 = 1 := mul_inv_cancel₀ hd
  have hD : A6 * N0 / den φ0 ^ 2 + f = D := by
    have e1 : A6 * N0 / den φ0 ^ 2 = A6 * N0 * nu φ0 ^ 2 := by unfold nu; rw [inv_pow]; rfl
    have e2 : (1 - E2 * sin φ0 ^ 2) * nu φ0 ^ 2 = 1 := by rw [← den_sq, ← mul_pow, hnu, one_pow]
    rw [e1]
    simp only [D, f, η, be', N0]
    linear_combination (wgsA * nu φ0) * e2 + (E2 * wgsA * nu φ0 ^ 3) * hcs
  unfold improve
  simp only [hg, hsq, hN]
  rw [hf, hm, hD]
  norm_num

theorem sin_near {d : ℝ} (h : |d| ≤ 1) : |sin d - d| ≤ |d| ^ 3 / 4 := by
  have h1 := sin_bound h
  have h0 := abs_nonneg d
  have h2 : |d| ^ 5 ≤ |d| ^ 3 := pow_le_pow_of_le_one h0 h (by norm_num)
  have h3 : |d ^ 3 / 6| = |d| ^ 3 / 6 := by rw [abs_div, abs_pow]; norm_num
  have e : sin d - d = (sin d - (d - d ^ 3 / 6)) + (-(d ^ 3 / 6)) := by ring
  rw [e]
  refine (abs_add_le _ _).trans ?_
  rw [abs_neg, h3]
  have h4 := pow_nonneg h0 3
  linarith

theorem small_powers {d δ : ℝ} (h : |d| ≤ δ) : d ^ 2 ≤ δ ^ 2 ∧ |d| ^ 3 ≤ δ ^ 3 ∧ |d| ^ 4 ≤ δ ^ 4 := by
  have h0 := abs_nonneg d
  refine ⟨?_, pow_le_pow_left₀ h0 h 3, pow_le_pow_left₀ h0 h 4⟩
  rw [← sq_abs]; exact pow_le_pow_left₀ h0 h 2

theorem absmul {a b A B : ℝ} (ha : |a| ≤ A) (hb : |b| ≤ B) : |a * b| ≤ A * B := by
  rw [abs_mul]; exact mul_le_mul ha hb (abs_nonneg _) ((abs_nonneg _).trans ha)

theorem eta_le : |A6 - (1 - E2)| ≤ 4 / 10 ^ 19 := by unfold A6 E2; rw [abs_le]; norm_num

set_option maxHeartbeats 2000000 in
theorem newton_arith {h Δ b' s c d η n0 n e S' C' : ℝ} (h0 : -10 ^ 5 ≤ h) (h1 : h ≤ 10 ^ 9) (hb' : |b'| ≤ 1011 / 1000)
    (hs1 : |s| ≤ 1) (hc1 : |c| ≤ 1) (hd : |d| ≤ 2 / 10 ^ 5) (hBl : |Δ| ≤ 1011 / 1000 * |d|) (hBt : |Δ - d * b'| ≤ 105 / 100 * d ^ 2)
    (hη : |η| ≤ 4 / 10 ^ 19) (hn1 : 1 ≤ n0) (hn2 : n0 ≤ 10034 / 10000) (hm1 : 1 ≤ n) (hm2 : n ≤ 10034 / 10000) (he : 0 < e)
    (he' : e ≤ 67 / 10000) (hNt : |n - n0 - e * s * Δ| ≤ e * (1011 / 1000) * d ^ 2)
    (hsin : |S' - d| ≤ |d| ^ 3 / 4) (hcos : |C' - (1 - d ^ 2 / 2)| ≤ |d| ^ 4 * (5 / 96)) (hcos0 : 1 - d ^ 2 / 2 ≤ C') (hcos1 : C' ≤ 1) :
    let R := 6378137 * n + h
    let m := R * S' - e * c * (6378137 * Δ) - η * (6378137 * n0) * s * c
    let D := R * C' - e * c * (6378137 * b') - e * s * (6378137 * Δ) + η * (6378137 * n0) * (n0 ^ 2 - s ^ 2)
    let f := R * C' - 6378137 * n0 - e * s * (6378137 * Δ) - η * (6378137 * n0) * s ^ 2
    |m / D - d| ≤ 6 / 10 ^ 12 ∧ |f + m * (m / D) / 2 - h| ≤ 3 / 10 ^ 5 := by
  intro R m D f
  obtain ⟨p2, p3, p4⟩ := small_powers hd
  have p20 := sq_nonneg d
  have hR0 : 6278137 ≤ R := by simp only [R]; norm_num at *; linarith
  have hR1 : R ≤ 1007 * 10 ^ 6 := by simp only [R]; norm_num at *; linarith
  have ea : |e| ≤ 67 / 10000 := by rw [abs_of_pos he]; exact he'
  have na : |6378137 * n0| ≤ 64 * 10 ^ 5 := by rw [abs_of_pos (by linarith)]; norm_num; linarith
  have hΔ : |6378137 * Δ| ≤ 6378137 * (1011 / 1000 * (2 / 10 ^ 5)) :=
    absmul (by norm_num) (hBl.trans (mul_le_mul_of_nonneg_left hd (by norm_num)))
  have hec : |e * c| ≤ 67 / 10000 * 1 := absmul ea hc1
  have hes : |e * s| ≤ 67 / 10000 * 1 := absmul ea hs1
  -- the terms
  have t1 := absmul hec hΔ
  have t2 := absmul hes hΔ
  have t3 : |e * c * (6378137 * b')| ≤ 67 / 10000 * 1 * (6378137 * (1011 / 1000)) := absmul hec (absmul (by norm_num) hb')
  have hηn := absmul hη na
  have t4 := absmul (absmul hηn hs1) hc1
  have hs2 : |s ^ 2| ≤ 1 := by rw [abs_pow]; exact pow_le_one₀ (abs_nonneg _) hs1
  have hns : |n0 ^ 2 - s ^ 2| ≤ 2 := by
    rw [abs_le] at *
    constructor <;> nlinarith
  have t5 := absmul hηn hns
  have t6 := absmul hηn hs2
  have t7 : |e * c * (6378137 * (Δ - d * b'))| ≤ 67 / 10000 * 1 * (6378137 * (105 / 100 * (2 / 10 ^ 5) ^ 2)) :=
    absmul hec (absmul (by norm_num) (hBt.trans (mul_le_mul_of_nonneg_left p2 (by norm_num))))
  have t8 := absmul hd t2
  have t9 := absmul hd t5
  have hu : |S' - d * C'| ≤ (2 / 10 ^ 5) ^ 3 := by
    have hc : |d * (1 - C')| ≤ |d| ^ 3 / 2 := by
      rw [abs_mul, abs_of_nonneg (a := 1 - C') (by linarith)]
      have := mul_le_mul_of_nonneg_left (by linarith : 1 - C' ≤ d ^ 2 / 2) (abs_nonneg d)
      rw [← sq_abs] at this
      linarith [this]
    have e1 : S' - d * C' = (S' - d) + d * (1 - C') := by ring
    rw [e1]
    refine (abs_add_le _ _).trans ?_
    have := pow_nonneg (abs_nonneg d) 3
    linarith
  have hRa : |R| = R := abs_of_pos (by linarith)
  have t10 : |R * (S' - d * C')| ≤ R * (2 / 10 ^ 5) ^ 3 := absmul hRa.le hu
  have hRC : R * (1 - (2 / 10 ^ 5) ^ 2) ≤ R * C' := mul_le_mul_of_nonneg_left (by linarith) (by linarith)
  have hD : 99 / 100 * R ≤ D := by
    simp only [D]
    clear_value R
    rw [abs_le] at t1 t2 t3 t4 t5
    norm_num at *
    linarith
  have hDp : 0 < D := by linarith
  have hmd : |m - d * D| ≤ 6 / 10 ^ 12 * D := by
    refine le_trans ?_ (mul_le_mul_of_nonneg_left hD (by norm_num))
    have e1 : m - d * D = R * (S' - d * C') - e * c * (6378137 * (Δ - d * b')) + d * (e * s * (6378137 * Δ))
        - η * (6378137 * n0) * s * c - d * (η * (6378137 * n0) * (n0 ^ 2 - s ^ 2)) := by simp only [m, D]; ring
    rw [e1]
    clear_value R
    clear e1 hNt hcos hsin hBt hBl
    generalize R * (S' - d * C') = k1 at *
    generalize e * c * (6378137 * (Δ - d * b')) = k2 at *
    generalize d * (e * s * (6378137 * Δ)) = k3 at *
    generalize η * (6378137 * n0) * s * c = k4 at *
    generalize d * (η * (6378137 * n0) * (n0 ^ 2 - s ^ 2)) = k5 at *
    rw [abs_le] at t10 t7 t8 t4 t9 ⊢
    norm_num at t10 t7 t8 t4 t9 ⊢
    constructor <;> linarith
  have hp : |m / D - d| ≤ 6 / 10 ^ 12 := by
    have e1 : m / D - d = (m - d * D) / D := by field_simp
    rw [e1, abs_div, abs_of_pos hDp, div_le_iff₀ hDp]
    exact hmd
  refine ⟨hp, ?_⟩
  clear_value D
  have hpm : |m / D| ≤ 2 / 10 ^ 5 + 1 / 10 ^ 10 := by
    have := abs_sub_abs_le_abs_sub (m / D) d
    norm_num at *
    linarith
  generalize m / D = p at *
  have hsd : |S'| ≤ 2 / 10 ^ 5 + 1 / 10 ^ 10 := by
    have := abs_sub_abs_le_abs_sub S' d
    norm_num at *
    linarith
  have v1 : |6378137 * (n - n0 - e * s * Δ)| ≤ 6378137 * (67 / 10000 * (1011 / 1000) * (2 / 10 ^ 5) ^ 2) :=
    absmul (by norm_num) (hNt.trans (mul_le_mul (mul_le_mul_of_nonneg_right he' (by norm_num)) p2 p20 (by norm_num)))
  have v2 : |R * (S' * d / 2 - (1 - C'))| ≤ R * (2 / 10 ^ 5) ^ 4 := by
    refine absmul hRa.le ?_
    have e1 : S' * d / 2 - (1 - C') = (S' - d) * d / 2 + (C' - (1 - d ^ 2 / 2)) := by ring
    rw [e1]
    refine (abs_add_le _ _).trans ?_
    have : |(S' - d) * d / 2| ≤ |d| ^ 4 / 8 := by
      rw [abs_div, abs_mul]
      have := mul_le_mul_of_nonneg_right hsin (abs_nonneg d)
      norm_num
      linarith [this]
    have := pow_nonneg (abs_nonneg d) 4
    linarith
  have v3 := absmul (absmul hRa.le hsd) hp
  have v4 := absmul t1 hpm
  have v5 := absmul t4 hpm
  have e1 : f + m * p / 2 - h = 6378137 * (n - n0 - e * s * Δ) + R * (S' * d / 2 - (1 - C')) + R * S' * (p - d) / 2
      - e * c * (6378137 * Δ) * p / 2 - η * (6378137 * n0) * s * c * p / 2 - η * (6378137 * n0) * s ^ 2 := by
    simp only [f, m, R]; ring
  rw [e1]
  clear_value R
  clear e1 hNt hcos hsin hBt hBl
  generalize 6378137 * (n - n0 - e * s * Δ) = k1 at *
  generalize R * (S' * d / 2 - (1 - C')) = k2 at *
  generalize R * S' * (p - d) = k3 at *
  generalize e * c * (6378137 * Δ) * p = k4 at *
  generalize η * (6378137 * n0) * s * c * p = k5 at *
  generalize η * (6378137 * n0) * s ^ 2 = k6 at *
  rw [abs_le] at v1 v2 v3 v4 v5 t6 ⊢
  norm_num at v1 v2 v3 v4 v5 t6 hR1 ⊢
  constructor <;> linarith

/-- The step of improvement, from less than 2·10⁻⁵ radians away. -/
theorem newton {φ φ0 h : ℝ} (hd : |φ - φ0| ≤ 2 / 10 ^ 5) (h0 : -10 ^ 5 ≤ h) (h1 : h ≤ 10 ^ 9) :
    let q := improve ((wgsA * nu φ + h) * sin φ - E2 * (wgsA * be φ)) ((wgsA * nu φ + h) * cos φ) (φ0, sin φ0, sin φ0 * sin φ0, cos φ0)
    |q.1 - φ| ≤ 6 / 10 ^ 12 ∧ |q.2 - h| ≤ 3 / 10 ^ 5 := by
  rw [improve_eq]
  have hBl := be_lip φ0 φ
  have hBt := be_taylor φ0 φ
  have hNt := nu_taylor φ0 φ
  have hb' := be'_le φ0
  have hs1 := abs_sin_le_one φ0
  have hc1 := abs_cos_le_one φ0
  have hn1 := nu_ge φ0
  have hn2 := nu_le φ0
  have hm1 := nu_ge φ
  have hm2 := nu_le φ
  have hη := eta_le
  have he := E2_pos
  have he' := E2_lt
  have ea : |E2| ≤ 67 / 10000 := by rw [abs_of_pos he]; exact he'
  have d1 : |φ - φ0| ≤ 1 := hd.trans (by norm_num)
  have key := newton_arith h0 h1 hb' hs1 hc1 hd hBl hBt hη hn1 hn2 hm1 hm2 he he' hNt (sin_near d1) (cos_bound d1) one_sub_sq_div_two_le_cos (cos_le_one _)
  intro q
  refine ⟨?_, key.2⟩
  have e : q.1 - φ = (q.1 - φ0) - (φ - φ0) := by ring
  have e' : q.1 - φ0 = _ := add_sub_cancel_left _ _
  rw [e, e']
  exact key.1

end Verif.Dis.Geo
