import Mathlib.Tactic.Linarith
import Mathlib.Tactic.NormNum
import Mathlib.Tactic.Ring
import Mathlib.Tactic.Positivity
import Mathlib.Analysis.SpecialFunctions.Sqrt

namespace Verif.Dis.Geo

theorem prod_near {a a0 b b0 ea eb A B : ℝ} (ha : |a - a0| ≤ ea) (hb : |b - b0| ≤ eb) (hB : |b| ≤ B) (hA : |a0| ≤ A) :
    |a * b - a0 * b0| ≤ ea * B + A * eb := by
  have : a * b - a0 * b0 = (a - a0) * b + a0 * (b - b0) := by ring
  rw [this]
  refine (abs_add_le _ _).trans (add_le_add ?_ ?_)
  · rw [abs_mul]; exact mul_le_mul ha hB (abs_nonneg _) ((abs_nonneg _).trans ha)
  · rw [abs_mul]; exact mul_le_mul hA hb (abs_nonneg _) ((abs_nonneg _).trans hA)

/-- What the first approximation of the latitude works on: `q` = e²N/(N+h), `x` = sin²φ, `σ` = (N+h)/r, `γ` = √(1−e²x). -/
structure Approx (E q x σ γ : ℝ) : Prop where
  q0 : 0 ≤ q
  q1 : q ≤ 69 / 10000
  x0 : 0 ≤ x
  x1 : x ≤ 1
  e0 : 0 ≤ E
  e1 : E ≤ 67 / 10000
  s0 : 0 < σ
  s1 : σ ^ 2 * (1 - (2 * q - q ^ 2) * x) = 1
  g0 : 0 < γ
  g1 : γ ^ 2 = 1 - E * x

noncomputable def polyS (q x : ℝ) : ℝ := 1 + q * x - q ^ 2 * x / 2 + 3 / 2 * q ^ 2 * x ^ 2

variable {E q x σ γ : ℝ} (A : Approx E q x σ γ)
include A

theorem Approx.mono (i j : ℕ) : 0 ≤ q ^ i * x ^ j ∧ q ^ i * x ^ j ≤ (69 / 10000) ^ i := by
  have hq := A.q0; have hx := A.x0
  refine ⟨by positivity, ?_⟩
  calc q ^ i * x ^ j ≤ (69 / 10000) ^ i * 1 :=
        mul_le_mul (pow_le_pow_left₀ hq A.q1 i) (pow_le_one₀ hx A.x1) (by positivity) (by positivity)
    _ = _ := by ring

theorem Approx.polyS_bound : 1 ≤ polyS q x ∧ polyS q x ≤ 10071 / 10000 := by
  have h11 := A.mono 1 1; have h21 := A.mono 2 1; have h22 := A.mono 2 2
  have : q ^ 2 * x ≤ q * x := by
    have := mul_le_mul_of_nonneg_right A.q1 (A.mono 1 1).1
    nlinarith [A.mono 1 1, A.q1, A.q0, A.x0]
  norm_num at *
  unfold polyS
  constructor <;> nlinarith

theorem Approx.sigma : |σ - polyS q x| ≤ 15 / 10 ^ 7 := by
  obtain ⟨p0, p1⟩ := A.polyS_bound
  have hs := A.s0
  have hy0 : 0 ≤ (2 * q - q ^ 2) * x := by
    have := A.mono 1 1; have := A.mono 2 1
    have : q ^ 2 * x ≤ q * x := by nlinarith [A.mono 1 1, A.q1, A.q0, A.x0]
    norm_num at *; nlinarith
  have hy1 : (2 * q - q ^ 2) * x ≤ 14 / 1000 := by
    have := A.mono 1 1; have := A.mono 2 1
    norm_num at *; nlinarith
  have id : (σ - polyS q x) * ((σ + polyS q x) * (1 - (2 * q - q ^ 2) * x)) = 1 - polyS q x ^ 2 * (1 - (2 * q - q ^ 2) * x) := by
    have := A.s1
    linear_combination this
  have hH : |1 - polyS q x ^ 2 * (1 - (2 * q - q ^ 2) * x)| ≤ 27 / 10 ^ 7 := by
    have m1 := A.mono 3 2; have m2 := A.mono 4 2; have m3 := A.mono 3 3; have m4 := A.mono 4 3; have m5 := A.mono 5 3
    have m6 := A.mono 4 4; have m7 := A.mono 5 4; have m8 := A.mono 6 3; have m9 := A.mono 6 4; have m10 := A.mono 5 5; have m11 := A.mono 6 5
    unfold polyS
    rw [abs_le]
    norm_num at *
    constructor <;> linarith
  have hσ : 1 ≤ σ := by
    by_contra hlt
    push Not at hlt
    have : σ ^ 2 < 1 := by nlinarith
    nlinarith [A.s1]
  have hd : 19 / 10 ≤ (σ + polyS q x) * (1 - (2 * q - q ^ 2) * x) := by nlinarith
  rw [← id, abs_mul] at hH
  have h2 : |(σ + polyS q x) * (1 - (2 * q - q ^ 2) * x)| = (σ + polyS q x) * (1 - (2 * q - q ^ 2) * x) := abs_of_pos (by linarith)
  rw [h2] at hH
  have := mul_le_mul_of_nonneg_left hd (abs_nonneg (σ - polyS q x))
  norm_num at *
  linarith

theorem Approx.gamma : |γ - (1 - E * x / 2)| ≤ 65 / 10 ^ 7 := by
  have he := A.e0; have he1 := A.e1; have hx := A.x0; have hx1 := A.x1; have hg := A.g0
  have hEx : 0 ≤ E * x ∧ E * x ≤ 67 / 10000 := ⟨by positivity, by nlinarith⟩
  have h1 : 99 / 100 ≤ γ := by
    by_contra hlt; push Not at hlt
    nlinarith [A.g1]
  have id : (1 - E * x / 2 - γ) * (1 - E * x / 2 + γ) = (E * x) ^ 2 / 4 := by linear_combination -A.g1
  have hp : (E * x) ^ 2 / 4 ≤ 1123 / 10 ^ 8 := by norm_num; nlinarith
  have hn : 0 ≤ (E * x) ^ 2 / 4 := by positivity
  have hsum : 198 / 100 ≤ 1 - E * x / 2 + γ := by linarith
  rw [abs_le]
  norm_num at *
  constructor <;> nlinarith

theorem Approx.monoE (k i j : ℕ) : 0 ≤ E ^ k * q ^ i * x ^ j ∧ E ^ k * q ^ i * x ^ j ≤ (67 / 10000) ^ k * (69 / 10000) ^ i := by
  have hq := A.q0; have hx := A.x0; have he := A.e0
  refine ⟨by positivity, ?_⟩
  have := A.mono i j
  calc E ^ k * q ^ i * x ^ j = E ^ k * (q ^ i * x ^ j) := by ring
    _ ≤ _ := mul_le_mul (pow_le_pow_left₀ he A.e1 k) this.2 this.1 (by positivity)

theorem Approx.sigma_mem : 1 - 15 / 10 ^ 7 ≤ σ ∧ σ ≤ 10072 / 10000 := by
  have h := abs_le.1 A.sigma
  have p := A.polyS_bound
  norm_num at *
  constructor <;> linarith

theorem Approx.gamma_mem : 99 / 100 ≤ γ ∧ γ ≤ 1 := by
  have h := abs_le.1 A.gamma
  have m := A.monoE 1 0 1
  have : γ ≤ 1 := by
    by_contra hlt; push Not at hlt
    have := A.g1
    nlinarith [A.e0, A.x0, mul_nonneg A.e0 A.x0]
  norm_num at *
  constructor <;> linarith

/-- a₁/r to second order. -/
theorem Approx.alpha : |q * γ * σ - (q + q ^ 2 * x - E * q * x / 2)| ≤ 8 / 10 ^ 7 := by
  have hs := A.sigma_mem; have hg := A.gamma_mem
  have h1 : |γ * σ - (1 - E * x / 2) * polyS q x| ≤ 65 / 10 ^ 7 * (10072 / 10000) + 1 * (15 / 10 ^ 7) := by
    refine prod_near A.gamma A.sigma ?_ ?_
    · rw [abs_of_pos A.s0]; exact hs.2
    · have := A.monoE 1 0 1
      norm_num at *
      rw [abs_le]; constructor <;> linarith
  have h2 : |q * (γ * σ - (1 - E * x / 2) * polyS q x)| ≤ 6 / 10 ^ 8 := by
    rw [abs_mul, abs_of_nonneg A.q0]
    have := mul_le_mul A.q1 h1 (abs_nonneg _) (by norm_num)
    norm_num at *
    linarith
  have h3 : |q * ((1 - E * x / 2) * polyS q x) - (q + q ^ 2 * x - E * q * x / 2)| ≤ 7 / 10 ^ 7 := by
    have m1 := A.mono 3 1; have m2 := A.mono 3 2; have m3 := A.monoE 1 2 2; have m4 := A.monoE 1 3 2; have m5 := A.monoE 1 3 3
    unfold polyS
    rw [abs_le]
    norm_num at *
    constructor <;> linarith
  rw [abs_le] at *
  norm_num at *
  constructor <;> linarith

theorem Approx.alpha_mem : 0 ≤ q * γ * σ ∧ q * γ * σ ≤ 7 / 1000 ∧ |q * γ * σ - q| ≤ 5 / 10 ^ 5 := by
  have hs := A.s0; have hg := A.g0; have hq := A.q0; have hq1 := A.q1
  have h := A.alpha
  have m1 := A.mono 2 1; have m2 := A.monoE 1 1 1
  refine ⟨by positivity, ?_, ?_⟩
  · rw [abs_le] at h
    norm_num at *
    linarith
  · rw [abs_le] at *
    norm_num at *
    constructor <;> linarith

theorem Approx.alpha_sq : |(q * γ * σ) ^ 2 - q ^ 2| ≤ 7 / 10 ^ 7 ∧ (q * γ * σ) ^ 2 ≤ 49 / 10 ^ 6 := by
  obtain ⟨h0, h1, h2⟩ := A.alpha_mem
  refine ⟨?_, by nlinarith⟩
  have : (q * γ * σ) ^ 2 - q ^ 2 = (q * γ * σ - q) * (q * γ * σ + q) := by ring
  rw [this, abs_mul, abs_of_nonneg (a := q * γ * σ + q) (by linarith [A.q0])]
  have := mul_le_mul h2 (by linarith [A.q1] : q * γ * σ + q ≤ 139 / 10000) (by linarith [A.q0]) (by norm_num)
  norm_num at *
  linarith

/-- (N+h)²/r² to first order. -/
theorem Approx.sigma_sq : |σ ^ 2 - (1 + 2 * q * x)| ≤ 2 / 10 ^ 4 ∧ 99 / 100 ≤ σ ^ 2 ∧ σ ^ 2 ≤ 10145 / 10000 := by
  have hs := A.sigma_mem
  have h := A.sigma
  have m1 := A.mono 1 1; have m2 := A.mono 2 1; have m3 := A.mono 2 2
  have hp := A.polyS_bound
  have m4 := A.mono 3 2; have m5 := A.mono 4 2; have m6 := A.mono 4 3; have m7 := A.mono 4 4; have m8 := A.mono 3 3
  have h1 : |polyS q x ^ 2 - (1 + 2 * q * x)| ≤ 195 / 10 ^ 6 := by
    unfold polyS
    rw [abs_le]
    norm_num at *
    constructor <;> linarith
  have h2 : |σ ^ 2 - polyS q x ^ 2| ≤ 4 / 10 ^ 6 := by
    have := prod_near (a := σ) (a0 := polyS q x) (b := σ) (b0 := polyS q x) (A := 10072 / 10000) (B := 10072 / 10000) h h
      (by rw [abs_of_pos A.s0]; exact hs.2) (by rw [abs_of_pos (by linarith)]; linarith)
    rw [show σ ^ 2 - polyS q x ^ 2 = σ * σ - polyS q x * polyS q x by ring]
    norm_num at *
    linarith
  rw [abs_le] at *
  norm_num at *
  refine ⟨⟨?_, ?_⟩, ?_, ?_⟩ <;> nlinarith

/-- sin² of the geocentric latitude. -/
theorem Approx.s2 : |(1 - q) ^ 2 * x * σ ^ 2 - (x - 2 * q * x + 2 * q * x ^ 2)| ≤ 5 / 10 ^ 4 ∧ 0 ≤ (1 - q) ^ 2 * x * σ ^ 2 ∧ (1 - q) ^ 2 * x * σ ^ 2 ≤ 1 := by
  obtain ⟨h, hl, hu⟩ := A.sigma_sq
  have hx := A.x0; have hx1 := A.x1
  have hq := A.q0; have hq1 := A.q1
  have h1 : |(1 - q) ^ 2 * x * (σ ^ 2 - (1 + 2 * q * x))| ≤ 2 / 10 ^ 4 := by
    rw [abs_mul, abs_of_nonneg (by positivity)]
    have : (1 - q) ^ 2 * x ≤ 1 := by
      have h3 : (1 - q) ^ 2 ≤ 1 := by nlinarith
      nlinarith [sq_nonneg (1 - q)]
    have h4 := mul_le_mul this h (abs_nonneg _) (by norm_num)
    linarith
  have h2 : |(1 - q) ^ 2 * x * (1 + 2 * q * x) - (x - 2 * q * x + 2 * q * x ^ 2)| ≤ 3 / 10 ^ 4 := by
    have m2 := A.mono 2 1; have m3 := A.mono 2 2; have m4 := A.mono 3 2
    rw [abs_le]
    norm_num at *
    constructor <;> linarith
  refine ⟨?_, by positivity, ?_⟩
  · rw [abs_le] at *
    norm_num at *
    constructor <;> linarith
  · have e : (1 - q) ^ 2 * x * σ ^ 2 = 1 - (1 - x) * σ ^ 2 := by linear_combination A.s1
    rw [e]
    have : 0 ≤ (1 - x) * σ ^ 2 := mul_nonneg (by linarith) (sq_nonneg _)
    linarith

theorem Approx.s2_x : |(1 - q) ^ 2 * x * σ ^ 2 - x| ≤ 41 / 10 ^ 4 := by
  obtain ⟨h, _, _⟩ := A.s2
  have hx := A.x0; have hx1 := A.x1; have hq := A.q0; have hq1 := A.q1
  have h1 : x * (1 - x) ≤ 1 / 4 := by nlinarith [sq_nonneg (x - 1 / 2)]
  have h2 : 0 ≤ x * (1 - x) := mul_nonneg hx (by linarith)
  have h3 : q * (x * (1 - x)) ≤ 69 / 10000 * (1 / 4) := mul_le_mul hq1 h1 h2 (by norm_num)
  have h4 : 0 ≤ q * (x * (1 - x)) := mul_nonneg hq h2
  rw [abs_le] at *
  norm_num at *
  constructor <;> linarith

/-- The coefficients of the code, which are rounded decimals, against the ones they stand for. -/
structure Coeffs (E α t1 t2 t3 t4 t5 : ℝ) : Prop where
  c1 : |t1 - α| ≤ 1 / 10 ^ 15
  c2 : |t2 - α ^ 2| ≤ 1 / 10 ^ 15
  c3 : |t3 - α * E / 2| ≤ 1 / 10 ^ 15
  c4 : |t4 - 5 / 2 * α ^ 2| ≤ 1 / 10 ^ 15
  c5 : |t5 - α * (1 + E / 2)| ≤ 1 / 10 ^ 15

variable {t1 t2 t3 t4 t5 : ℝ} (T : Coeffs E (q * γ * σ) t1 t2 t3 t4 t5)
include T

theorem Approx.t34 : |(t3 - t4) - (q * E / 2 - 5 / 2 * q ^ 2)| ≤ 193 / 10 ^ 8 ∧ |t3 - t4| ≤ 125 / 10 ^ 6 := by
  obtain ⟨_, c2, c3, c4, _⟩ := T
  obtain ⟨a0, a1, a2⟩ := A.alpha_mem
  obtain ⟨b0, b1⟩ := A.alpha_sq
  have hE := A.e0; have hE1 := A.e1
  have h1 : |(q * γ * σ - q) * E| ≤ 5 / 10 ^ 5 * (67 / 10000) := by
    rw [abs_mul, abs_of_nonneg hE]; exact mul_le_mul a2 hE1 hE (by norm_num)
  have hq := A.monoE 1 1 0
  have hq2 := A.mono 2 0
  have h2 : 0 ≤ (q * γ * σ) * E := mul_nonneg a0 hE
  have h3 : (q * γ * σ) * E ≤ 7 / 1000 * (67 / 10000) := mul_le_mul a1 hE1 hE (by norm_num)
  have h4 := sq_nonneg (q * γ * σ)
  generalize q * γ * σ = α at *
  rw [abs_le] at *
  rw [abs_le]
  norm_num at *
  refine ⟨⟨?_, ?_⟩, ?_, ?_⟩ <;> linarith

omit A T in
theorem tri {a b c e1 e2 e : ℝ} (h1 : |a - b| ≤ e1) (h2 : |b - c| ≤ e2) (h : e1 + e2 ≤ e) : |a - c| ≤ e :=
  (abs_sub_le a b c).trans ((add_le_add h1 h2).trans h)

omit A T in
theorem within {a b e B : ℝ} (h : |a - b| ≤ e) (hb : |b| + e ≤ B) : |a| ≤ B := by
  have := abs_sub_abs_le_abs_sub a b
  linarith

omit A T in
theorem scaled {k a b e : ℝ} (h0 : 0 ≤ k) (h1 : k ≤ 1) (h : |a - b| ≤ e) : |k * a - k * b| ≤ e := by
  rw [← mul_sub, abs_mul, abs_of_nonneg h0]
  have := mul_le_mul h1 h (abs_nonneg _) (by norm_num)
  linarith

/-- The correction of the first branch, to second order. -/
theorem Approx.first_T : |(t1 + t2 + (1 - q) ^ 2 * x * σ ^ 2 * (t3 - t4)) - (q + q ^ 2 - 3 / 2 * q ^ 2 * x)| ≤ 4 / 10 ^ 6 := by
  obtain ⟨d0, d1⟩ := A.t34 T
  have hprod := prod_near (a := (1 - q) ^ 2 * x * σ ^ 2) (a0 := x) (A := 1) A.s2_x d0 d1 (by rw [abs_of_nonneg A.x0]; exact A.x1)
  have al := A.alpha
  have b0 := A.alpha_sq.1
  have c1 := T.c1
  have c2 := T.c2
  clear T d0 d1 A
  generalize (1 - q) ^ 2 * x * σ ^ 2 * (t3 - t4) = Z at *
  generalize q * γ * σ = α at *
  rw [abs_le] at *
  norm_num at *
  constructor <;> linarith

omit T in
theorem Approx.first_T0 : |q + q ^ 2 - 3 / 2 * q ^ 2 * x| + 4 / 10 ^ 6 ≤ 71 / 10000 := by
  have m10 := A.mono 1 0; have m20 := A.mono 2 0; have m21 := A.mono 2 1
  have : |q + q ^ 2 - 3 / 2 * q ^ 2 * x| ≤ 70 / 10000 := by
    have h : q ^ 2 ≤ q * (69 / 10000) := by rw [pow_two]; exact mul_le_mul_of_nonneg_left A.q1 A.q0
    have h2 : q ^ 2 * x ≤ q ^ 2 := mul_le_of_le_one_right (sq_nonneg q) A.x1
    clear A
    rw [abs_le]
    norm_num at *
    constructor <;> linarith
  norm_num at *
  linarith

omit T in
theorem Approx.one_2qx : |1 + 2 * q * x| ≤ 10142 / 10000 := by
  have m := A.mono 1 1
  clear A
  rw [abs_le]; norm_num at *; constructor <;> linarith

omit T in
theorem Approx.first_Y : |(1 + 2 * q * x) * (q + q ^ 2 - 3 / 2 * q ^ 2 * x) - (q + q ^ 2 + q ^ 2 * x / 2)| ≤ 1 / 10 ^ 6 := by
  have m31 := A.mono 3 1; have m32 := A.mono 3 2
  clear A
  rw [abs_le]; norm_num at *; constructor <;> linarith

omit T in
theorem Approx.first_poly : |(1 - q) * polyS q x * (1 + (1 - x) * (q + q ^ 2 + q ^ 2 * x / 2)) - 1| ≤ 17 / 10 ^ 7 := by
  have m30 := A.mono 3 0; have m31 := A.mono 3 1; have m32 := A.mono 3 2; have m33 := A.mono 3 3
  have m41 := A.mono 4 1; have m42 := A.mono 4 2; have m43 := A.mono 4 3; have m44 := A.mono 4 4
  have m51 := A.mono 5 1; have m52 := A.mono 5 2; have m53 := A.mono 5 3; have m54 := A.mono 5 4
  clear A
  unfold polyS
  rw [abs_le]
  norm_num at *
  constructor <;> linarith

omit T in
theorem Approx.first_Y0 : |1 + (1 - x) * (q + q ^ 2 + q ^ 2 * x / 2)| + 66 / 10 ^ 7 ≤ 10072 / 10000 := by
  have hx := A.x0; have hx1 := A.x1; have hq := A.q0; have hq1 := A.q1
  have m10 := A.mono 1 0; have m20 := A.mono 2 0; have m21 := A.mono 2 1
  have hw : 0 ≤ (1 - x) * (q + q ^ 2 + q ^ 2 * x / 2) := mul_nonneg (by linarith) (by positivity)
  have hw2 : (1 - x) * (q + q ^ 2 + q ^ 2 * x / 2) ≤ 1 * (71 / 10000) := by
    refine mul_le_mul (by linarith) ?_ (by positivity) (by norm_num)
    clear A
    norm_num at *
    linarith
  rw [abs_of_nonneg (by linarith)]
  norm_num
  linarith

/-- The sine the first branch starts from, over the sine of the latitude, is 1 up to 10⁻⁵. -/
theorem Approx.first : |(1 - q) * σ * (1 + (1 - x) * σ ^ 2 * (t1 + t2 + (1 - q) ^ 2 * x * σ ^ 2 * (t3 - t4))) - 1| ≤ 1 / 10 ^ 5 := by
  have hT := A.first_T T
  have hTm := within hT A.first_T0
  generalize t1 + t2 + (1 - q) ^ 2 * x * σ ^ 2 * (t3 - t4) = Z at *
  have hY2 : |σ ^ 2 * Z - (q + q ^ 2 + q ^ 2 * x / 2)| ≤ 66 / 10 ^ 7 :=
    tri (prod_near A.sigma_sq.1 hT hTm A.one_2qx) A.first_Y (by norm_num)
  have hY : |(1 + (1 - x) * (σ ^ 2 * Z)) - (1 + (1 - x) * (q + q ^ 2 + q ^ 2 * x / 2))| ≤ 66 / 10 ^ 7 := by
    rw [add_sub_add_left_eq_sub]
    exact scaled (by linarith [A.x1]) (by linarith [A.x0]) hY2
  have hYm := within hY A.first_Y0
  have hX : |(1 - q) * σ - (1 - q) * polyS q x| ≤ 15 / 10 ^ 7 := scaled (by linarith [A.q1]) (by linarith [A.q0]) A.sigma
  have hA : |(1 - q) * polyS q x| ≤ 10072 / 10000 := by
    have hp := A.polyS_bound
    have hq := A.q0; have hq1 := A.q1
    rw [abs_mul, abs_of_nonneg (a := 1 - q) (by linarith), abs_of_pos (by linarith : 0 < polyS q x)]
    nlinarith
  rw [show (1 - x) * σ ^ 2 * Z = (1 - x) * (σ ^ 2 * Z) by ring]
  exact tri (prod_near hX hY hYm hA) A.first_poly (by norm_num)

/-- The correction of the second branch, to second order. -/
theorem Approx.second_T {s : ℝ} (hsx : |s - x| ≤ 41 / 10 ^ 4) :
    |(t5 - t2 - (1 - s) * (t3 - t4)) - (q + 3 / 2 * q ^ 2 - 3 / 2 * q ^ 2 * x)| ≤ 42 / 10 ^ 7 := by
  obtain ⟨d0, d1⟩ := A.t34 T
  have hE := A.e0; have hE1 := A.e1
  have hprod := prod_near (a := 1 - s) (a0 := 1 - x) (ea := 41 / 10 ^ 4) (A := 1) (by rw [show 1 - s - (1 - x) = -(s - x) by ring, abs_neg]; exact hsx) d0 d1
    (by rw [abs_of_nonneg (by linarith [A.x1])]; linarith [A.x0])
  have h1 : |(q * γ * σ - q) * E| ≤ 5 / 10 ^ 5 * (67 / 10000) := by
    rw [abs_mul, abs_of_nonneg hE]; exact mul_le_mul A.alpha_mem.2.2 hE1 hE (by norm_num)
  have al := A.alpha
  have b0 := A.alpha_sq.1
  have c5 := T.c5
  have c2 := T.c2
  clear T d0 d1 A hsx
  generalize (1 - s) * (t3 - t4) = Z at *
  generalize q * γ * σ = α at *
  rw [abs_le] at *
  norm_num at *
  constructor <;> linarith

omit T in
theorem Approx.second_T0 : |q + 3 / 2 * q ^ 2 - 3 / 2 * q ^ 2 * x| + 42 / 10 ^ 7 ≤ 71 / 10000 := by
  have m10 := A.mono 1 0; have m20 := A.mono 2 0; have m21 := A.mono 2 1
  have : |q + 3 / 2 * q ^ 2 - 3 / 2 * q ^ 2 * x| ≤ 70 / 10000 := by
    have h2 : q ^ 2 * x ≤ q ^ 2 := mul_le_of_le_one_right (sq_nonneg q) A.x1
    clear A
    rw [abs_le]
    norm_num at *
    constructor <;> linarith
  norm_num at *
  linarith

omit T in
theorem Approx.second_Y : |(x - 2 * q * x + 2 * q * x ^ 2) * (q + 3 / 2 * q ^ 2 - 3 / 2 * q ^ 2 * x) - x * (q - q ^ 2 / 2 + q ^ 2 * x / 2)| ≤ 2 / 10 ^ 6 := by
  have m31 := A.mono 3 1; have m32 := A.mono 3 2; have m33 := A.mono 3 3
  clear A
  rw [abs_le]; norm_num at *; constructor <;> linarith

omit T in
theorem Approx.second_poly : |polyS q x * (1 - x * (q - q ^ 2 / 2 + q ^ 2 * x / 2)) - 1| ≤ 1 / 10 ^ 6 := by
  have m32 := A.mono 3 2; have m33 := A.mono 3 3
  have m42 := A.mono 4 2; have m43 := A.mono 4 3; have m44 := A.mono 4 4
  clear A
  unfold polyS
  rw [abs_le]
  norm_num at *
  constructor <;> linarith

omit T in
theorem Approx.second_x : |x - 2 * q * x + 2 * q * x ^ 2| ≤ 1 := by
  have hx := A.x0; have hx1 := A.x1; have hq := A.q0; have hq1 := A.q1
  have e : x - 2 * q * x + 2 * q * x ^ 2 = x * (1 - 2 * (q * (1 - x))) := by ring
  have h1 : 0 ≤ q * (1 - x) := mul_nonneg hq (by linarith)
  have h2 : q * (1 - x) ≤ 69 / 10000 * 1 := mul_le_mul hq1 (by linarith) (by linarith) (by norm_num)
  rw [e, abs_mul, abs_of_nonneg hx, abs_of_nonneg (by linarith)]
  exact mul_le_one₀ hx1 (by linarith) (by linarith)

omit T in
theorem Approx.second_Y0 : |1 - x * (q - q ^ 2 / 2 + q ^ 2 * x / 2)| + 98 / 10 ^ 7 ≤ 1 + 1 / 10 ^ 4 := by
  have m11 := A.mono 1 1; have m21 := A.mono 2 1; have m22 := A.mono 2 2
  have h : |1 - x * (q - q ^ 2 / 2 + q ^ 2 * x / 2)| ≤ 1 + 5 / 10 ^ 5 := by
    clear A
    rw [abs_le]
    norm_num at *
    constructor <;> linarith
  norm_num at *
  linarith

/-- The cosine the second branch starts from, over the cosine of the latitude, is 1 up to 1.3·10⁻⁵. -/
theorem Approx.second : |σ * (1 - (1 - q) ^ 2 * x * σ ^ 2 * (t5 - t2 - (1 - x) * σ ^ 2 * (t3 - t4))) - 1| ≤ 13 / 10 ^ 6 := by
  have e : (1 - x) * σ ^ 2 = 1 - (1 - q) ^ 2 * x * σ ^ 2 := by linear_combination A.s1
  rw [e]
  have hT := A.second_T T A.s2_x
  have hs2 := A.s2.1
  generalize (1 - q) ^ 2 * x * σ ^ 2 = s at *
  have hTm := within hT A.second_T0
  generalize t5 - t2 - (1 - s) * (t3 - t4) = Z at *
  have hY2 : |s * Z - x * (q - q ^ 2 / 2 + q ^ 2 * x / 2)| ≤ 98 / 10 ^ 7 :=
    tri (prod_near hs2 hT hTm A.second_x) A.second_Y (by norm_num)
  have hY : |(1 - s * Z) - (1 - x * (q - q ^ 2 / 2 + q ^ 2 * x / 2))| ≤ 98 / 10 ^ 7 := by
    rw [show (1 - s * Z) - (1 - x * (q - q ^ 2 / 2 + q ^ 2 * x / 2)) = -(s * Z - x * (q - q ^ 2 / 2 + q ^ 2 * x / 2)) by ring, abs_neg]
    exact hY2
  have hYm := within hY A.second_Y0
  have hA : |polyS q x| ≤ 10072 / 10000 := by
    have hp := A.polyS_bound
    rw [abs_of_pos (by linarith : 0 < polyS q x)]
    linarith
  exact tri (prod_near A.sigma hY hYm hA) A.second_poly (by norm_num)
end Verif.Dis.Geo
