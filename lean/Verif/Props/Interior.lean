import Verif.Props.Position

namespace Verif.Props
open Real Verif.Dis.Geo Verif.Codec

/-! ## C60, C41: deep inside the Earth -/

/-- The number of which the conversion takes the arc sine (utils.rs:34-35, within about 57 degrees of the equator) or the arc cosine
(utils.rs:40-41). -/
noncomputable def arcArg (x y z : ℝ) : ℝ :=
  let w2 := x ^ 2 + y ^ 2
  let r := √(w2 + z ^ 2)
  let s2 := z ^ 2 / (w2 + z ^ 2)
  let c2 := w2 / (w2 + z ^ 2)
  if c2 > 0.3 then |z| / r * (1 + c2 * (A1 + A2 / r + s2 * (A3 - A4 / r)) / r)
  else √w2 / r * (1 - s2 * (A5 - A2 / r - c2 * (A3 - A4 / r)) / r)

/-- The modelled conversion improves a first guess that is the arc sine or the arc cosine of `arcArg`. -/
theorem arcArg_used (x y z : ℝ) :
    let a := arcArg x y z
    ecefToLla x y z =
      (let q := improve |z| √(x ^ 2 + y ^ 2) (if (x ^ 2 + y ^ 2) / (x ^ 2 + y ^ 2 + z ^ 2) > 0.3
        then (arcsin a, a, a * a, √(1 - a * a)) else (arccos a, √(1 - a * a), 1 - a * a, a))
      (if z < 0 then q.1 * (-1) else q.1, Complex.arg ⟨x, y⟩, q.2)) := by
  intro a
  have e1 : x * x + y * y = x ^ 2 + y ^ 2 := by ring
  have e2 : z * z = z ^ 2 := by ring
  have o1 : (1.0 : ℝ) = 1 := by norm_num
  have o2 : (0.0 : ℝ) = 0 := by norm_num
  have ea : a = arcArg x y z := rfl
  unfold arcArg at ea
  unfold ecefToLla guess
  simp only [e1, e2, o1, o2]
  by_cases h : (x ^ 2 + y ^ 2) / (x ^ 2 + y ^ 2 + z ^ 2) > 0.3
  · simp only [if_pos h] at ea ⊢
    rw [← ea]
  · simp only [if_neg h] at ea ⊢
    rw [← ea]

/-- C60: outside a ball of 300 km about the centre of the Earth the conversion never takes the arc sine, the arc cosine or the square root
of a number outside their domains, so it does not run into NaN there. -/
theorem C60_defined {x y z : ℝ} (h : 300000 ^ 2 ≤ x ^ 2 + y ^ 2 + z ^ 2) : |arcArg x y z| ≤ 99 / 100 := by
  obtain ⟨r, hr⟩ : ∃ r, r = √(x ^ 2 + y ^ 2 + z ^ 2) := ⟨_, rfl⟩
  have h0 : (0 : ℝ) ≤ x ^ 2 + y ^ 2 + z ^ 2 := by positivity
  have hr2 : r ^ 2 = x ^ 2 + y ^ 2 + z ^ 2 := by rw [hr, sq_sqrt h0]
  have hr0 : 300000 ≤ r := by rw [hr]; exact le_sqrt_of_sq_le h
  have hrp : 0 < r := by linarith
  obtain ⟨s2, hs2⟩ : ∃ t, t = z ^ 2 / (x ^ 2 + y ^ 2 + z ^ 2) := ⟨_, rfl⟩
  obtain ⟨c2, hc2⟩ : ∃ t, t = (x ^ 2 + y ^ 2) / (x ^ 2 + y ^ 2 + z ^ 2) := ⟨_, rfl⟩
  have hpos : 0 < x ^ 2 + y ^ 2 + z ^ 2 := by rw [← hr2]; positivity
  have hsum : s2 + c2 = 1 := by rw [hs2, hc2]; field_simp; ring
  have hs0 : 0 ≤ s2 := by rw [hs2]; positivity
  have hc0 : 0 ≤ c2 := by rw [hc2]; positivity
  have q : 0 ≤ 1 / r ∧ 1 / r ≤ 1 / 300000 := ⟨by positivity, one_div_le_one_div_of_le (by norm_num) hr0⟩
  obtain ⟨i, hi⟩ : ∃ i, i = 1 / r := ⟨_, rfl⟩
  rw [← hi] at q
  have d : ∀ t : ℝ, t / r = t * i := by intro t; rw [hi]; ring
  have hi0 : 0 ≤ i := q.1
  have cs : 0 ≤ c2 * s2 ∧ c2 * s2 ≤ 1 := ⟨by positivity, by nlinarith⟩
  have sq1 : ∀ {t : ℝ}, 0 ≤ t → t ^ 2 ≤ 7 / 10 → t ≤ 837 / 1000 := by intro t _ h; nlinarith
  have hz : 0 ≤ |z| / r ∧ (|z| / r) ^ 2 = s2 := by
    refine ⟨by positivity, ?_⟩
    rw [div_pow, sq_abs, hr2, hs2]
  have hw : 0 ≤ √(x ^ 2 + y ^ 2) / r ∧ (√(x ^ 2 + y ^ 2) / r) ^ 2 = c2 := by
    refine ⟨by positivity, ?_⟩
    rw [div_pow, sq_sqrt (by positivity), hr2, hc2]
  unfold arcArg
  dsimp only
  rw [← hr, ← hs2, ← hc2]
  have u1 : 0 ≤ c2 * i ∧ c2 * i ≤ 1 / 300000 := ⟨by positivity, by nlinarith [q.1, q.2]⟩
  have u2 : 0 ≤ s2 * i ∧ s2 * i ≤ 1 / 300000 := ⟨by positivity, by nlinarith [q.1, q.2]⟩
  have u3 : 0 ≤ c2 * i * i ∧ c2 * i * i ≤ 1 / 300000 / 300000 := ⟨by positivity, by nlinarith [q.1, q.2, u1.1, u1.2]⟩
  have u4 : 0 ≤ s2 * i * i ∧ s2 * i * i ≤ 1 / 300000 / 300000 := ⟨by positivity, by nlinarith [q.1, q.2, u2.1, u2.2]⟩
  have u5 : 0 ≤ c2 * s2 * i ∧ c2 * s2 * i ≤ 1 / 300000 := ⟨by positivity, by nlinarith [q.1, q.2, cs.1, cs.2]⟩
  have u6 : 0 ≤ c2 * s2 * i * i ∧ c2 * s2 * i * i ≤ 1 / 300000 / 300000 := ⟨by positivity, by nlinarith [q.1, q.2, u5.1, u5.2]⟩
  split
  · rename_i hc
    have hz1 : |z| / r ≤ 837 / 1000 := sq1 hz.1 (by rw [hz.2]; norm_num at hc; linarith)
    obtain ⟨f, hf⟩ : ∃ f, f = 1 + c2 * (A1 + A2 / r + s2 * (A3 - A4 / r)) / r := ⟨_, rfl⟩
    have ef : f = 1 + A1 * (c2 * i) + A2 * (c2 * i * i) + A3 * (c2 * s2 * i) - A4 * (c2 * s2 * i * i) := by
      rw [hf]; simp only [d]; ring
    have hfb : |f| ≤ 1175 / 1000 := by
      rw [ef]
      clear hf hz hz1 hw hs2 hc2 hr hr2 d hi ef
      unfold A1 A2 A3 A4
      rw [abs_le]
      norm_num at u1 u3 u5 u6 ⊢
      constructor <;> linarith [u1.1, u1.2, u3.1, u3.2, u5.1, u5.2, u6.1, u6.2]
    rw [← hf, abs_mul, abs_of_nonneg hz.1]
    calc |z| / r * |f| ≤ 837 / 1000 * (1175 / 1000) := mul_le_mul hz1 hfb (abs_nonneg _) (by norm_num)
      _ ≤ _ := by norm_num
  · rename_i hc
    push Not at hc
    have hw1 : √(x ^ 2 + y ^ 2) / r ≤ 837 / 1000 := sq1 hw.1 (by rw [hw.2]; norm_num at hc; linarith)
    obtain ⟨f, hf⟩ : ∃ f, f = 1 - s2 * (A5 - A2 / r - c2 * (A3 - A4 / r)) / r := ⟨_, rfl⟩
    have ef : f = 1 - A5 * (s2 * i) + A2 * (s2 * i * i) + A3 * (c2 * s2 * i) - A4 * (c2 * s2 * i * i) := by
      rw [hf]; simp only [d]; ring
    have hfb : |f| ≤ 1175 / 1000 := by
      rw [ef]
      clear hf hz hw1 hw hs2 hc2 hr hr2 d hi ef
      unfold A5 A2 A3 A4
      rw [abs_le]
      norm_num at u2 u4 u5 u6 ⊢
      constructor <;> linarith [u2.1, u2.2, u4.1, u4.2, u5.1, u5.2, u6.1, u6.2]
    rw [← hf, abs_mul, abs_of_nonneg hw.1]
    calc √(x ^ 2 + y ^ 2) / r * |f| ≤ 837 / 1000 * (1175 / 1000) := mul_le_mul hw1 hfb (abs_nonneg _) (by norm_num)
      _ ≤ _ := by norm_num
example : (300000 : ℝ) ^ 2 ≤ 200000 ^ 2 + 200000 ^ 2 + 200000 ^ 2 := by norm_num

/-- C60, violated deep inside the Earth: for every point within 36 km of the centre and between (about) 33 and 39 degrees from the plane
of the equator the conversion takes the arc sine of a number above one, which is NaN: it returns no latitude and no altitude. -/
theorem C60_interior_violated {x y z : ℝ} (h0 : 0 < x ^ 2 + y ^ 2 + z ^ 2) (h : x ^ 2 + y ^ 2 + z ^ 2 ≤ 36000 ^ 2)
    (hl : 3 / 10 * (x ^ 2 + y ^ 2 + z ^ 2) ≤ z ^ 2) (hu : z ^ 2 ≤ 4 / 10 * (x ^ 2 + y ^ 2 + z ^ 2)) :
    (x ^ 2 + y ^ 2) / (x ^ 2 + y ^ 2 + z ^ 2) > 0.3 ∧ 1001 / 1000 ≤ arcArg x y z := by
  obtain ⟨r, hr⟩ : ∃ r, r = √(x ^ 2 + y ^ 2 + z ^ 2) := ⟨_, rfl⟩
  have hr2 : r ^ 2 = x ^ 2 + y ^ 2 + z ^ 2 := by rw [hr, sq_sqrt h0.le]
  have hrp : 0 < r := by rw [hr]; exact sqrt_pos.2 h0
  have hr0 : r ≤ 36000 := by rw [hr]; exact sqrt_le_iff.2 ⟨by norm_num, h⟩
  obtain ⟨s2, hs2⟩ : ∃ t, t = z ^ 2 / (x ^ 2 + y ^ 2 + z ^ 2) := ⟨_, rfl⟩
  obtain ⟨c2, hc2⟩ : ∃ t, t = (x ^ 2 + y ^ 2) / (x ^ 2 + y ^ 2 + z ^ 2) := ⟨_, rfl⟩
  have hsum : s2 + c2 = 1 := by rw [hs2, hc2]; field_simp; ring
  have hs0 : 3 / 10 ≤ s2 := by rw [hs2, le_div_iff₀ h0]; exact hl
  have hs1 : s2 ≤ 4 / 10 := by rw [hs2, div_le_iff₀ h0]; exact hu
  have hcc : c2 > 0.3 := by norm_num; linarith
  refine ⟨by rw [← hc2]; exact hcc, ?_⟩
  unfold arcArg
  dsimp only
  rw [← hr, ← hs2, ← hc2, if_pos hcc]
  obtain ⟨i, hi⟩ : ∃ i, i = 1 / r := ⟨_, rfl⟩
  have hi0 : 1 / 36000 ≤ i := by rw [hi]; exact one_div_le_one_div_of_le hrp hr0
  have d : ∀ t : ℝ, t / r = t * i := by intro t; rw [hi]; ring
  obtain ⟨σ, hσ⟩ : ∃ σ, σ = |z| / r := ⟨_, rfl⟩
  have hσ0 : 0 ≤ σ := by rw [hσ]; positivity
  have hσ2 : σ ^ 2 = s2 := by rw [hσ, div_pow, sq_abs, hr2, hs2]
  rw [← hσ]
  have hinner : A1 * (1 / 36000) ≤ (A1 + A2 / r + s2 * (A3 - A4 / r)) / r := by
    rw [d, d, d]
    have e : (A1 + A2 * i + s2 * (A3 - A4 * i)) * i = A1 * i + (A2 - A4 * s2) * (i * i) + A3 * s2 * i := by ring
    rw [e]
    have hA1 : 0 ≤ A1 := by unfold A1; norm_num
    have hA3 : 0 ≤ A3 := by unfold A3; norm_num
    have hA : 0 ≤ A2 - A4 * s2 := by
      have h1 : 0 ≤ A2 - A4 * (4 / 10) := by unfold A2 A4; norm_num
      have h2 : 0 ≤ A4 * (4 / 10 - s2) := mul_nonneg (by unfold A4; norm_num) (by linarith)
      linarith
    have hi1 : 0 ≤ i := le_trans (by norm_num) hi0
    have t1 : A1 * (1 / 36000) ≤ A1 * i := mul_le_mul_of_nonneg_left hi0 hA1
    have t2 : 0 ≤ (A2 - A4 * s2) * (i * i) := mul_nonneg hA (by positivity)
    have t3 : 0 ≤ A3 * s2 * i := by positivity
    linarith
  have ha : 5477 / 10000 ≤ σ := by nlinarith
  have hb : σ ≤ 6325 / 10000 := by nlinarith
  have hc0 : 0 ≤ c2 := by linarith
  have e : c2 * (A1 + A2 / r + s2 * (A3 - A4 / r)) / r = c2 * ((A1 + A2 / r + s2 * (A3 - A4 / r)) / r) := by ring
  have t : 1 + c2 * (1186 / 1000) ≤ 1 + c2 * (A1 + A2 / r + s2 * (A3 - A4 / r)) / r := by
    rw [e]
    have : c2 * (1186 / 1000) ≤ c2 * ((A1 + A2 / r + s2 * (A3 - A4 / r)) / r) :=
      mul_le_mul_of_nonneg_left (le_trans (by unfold A1; norm_num) hinner) hc0
    linarith
  have t := mul_le_mul_of_nonneg_left t hσ0
  refine le_trans ?_ t
  have hc : c2 = 1 - σ ^ 2 := by rw [hσ2]; linarith
  rw [hc]
  have f : σ * (1 + (1 - σ ^ 2) * (1186 / 1000)) - 5477 / 10000 * (1 + (1 - (5477 / 10000) ^ 2) * (1186 / 1000)) =
      (σ - 5477 / 10000) * (1 + 1186 / 1000 - 1186 / 1000 * (σ ^ 2 + σ * (5477 / 10000) + (5477 / 10000) ^ 2)) := by ring
  have g : 0 ≤ (σ - 5477 / 10000) * (1 + 1186 / 1000 - 1186 / 1000 * (σ ^ 2 + σ * (5477 / 10000) + (5477 / 10000) ^ 2)) :=
    mul_nonneg (by linarith) (by rw [hσ2]; nlinarith)
  norm_num at f g ⊢
  linarith
example : (0 : ℝ) < 20000 ^ 2 + 20000 ^ 2 + 20000 ^ 2 ∧ (20000 : ℝ) ^ 2 + 20000 ^ 2 + 20000 ^ 2 ≤ 36000 ^ 2 ∧
    3 / 10 * ((20000 : ℝ) ^ 2 + 20000 ^ 2 + 20000 ^ 2) ≤ 20000 ^ 2 ∧ (20000 : ℝ) ^ 2 ≤ 4 / 10 * (20000 ^ 2 + 20000 ^ 2 + 20000 ^ 2) := by
  norm_num

/-- What the program does where the arc sine is not defined: `asin` gives NaN, which goes into the latitude and the altitude, and only the
longitude (of `atan2`) is a number. -/
def NanInside (env : Env) : Prop :=
  ∀ {l : Dis.Location} {x y z : Rat}, v64 l.x_coordinate = .num x → v64 l.y_coordinate = .num y → v64 l.z_coordinate = .num z →
    ((x : ℝ) ^ 2 + (y : ℝ) ^ 2) / ((x : ℝ) ^ 2 + (y : ℝ) ^ 2 + (z : ℝ) ^ 2) > 0.3 → 1001 / 1000 ≤ arcArg x y z →
    ∃ lon : Rat, env.toLla l = (.nan, .num lon, .nan) ∧ |(lon : ℝ) - (ecefToLla x y z).2.1| ≤ 1 / 10 ^ 9

/-- C41, violated deep inside the Earth: a location within 36 km of the centre, between (about) 33 and 39 degrees from the plane of the
equator (and not behind the plane of the 90th meridians), arrives on the equator at sea level, 6378 km from the centre. -/
theorem C41_interior_violated {env : Env} (hE : Computes env) (hN : NanInside env) {l : Dis.Location} {x y z : Rat}
    (hx : v64 l.x_coordinate = .num x) (hy : v64 l.y_coordinate = .num y) (hz : v64 l.z_coordinate = .num z)
    (h0 : 0 < x ^ 2 + y ^ 2 + z ^ 2) (h : x ^ 2 + y ^ 2 + z ^ 2 ≤ 36000 ^ 2)
    (hl : 3 / 10 * (x ^ 2 + y ^ 2 + z ^ 2) ≤ z ^ 2) (hu : z ^ 2 ≤ 4 / 10 * (x ^ 2 + y ^ 2 + z ^ 2)) (hx0 : 0 ≤ x) (rest : Cdis.Bits) :
    ∃ (w : Cdis.WorldCoordinates) (x' y' z' : Rat), Cdis.WorldCoordinates.parse.run ((worldEnc env l).1.ser ++ rest) = .ok w rest ∧
      v64 (worldDec env w (worldEnc env l).2).x_coordinate = .num x' ∧ v64 (worldDec env w (worldEnc env l).2).y_coordinate = .num y' ∧
      v64 (worldDec env w (worldEnc env l).2).z_coordinate = .num z' ∧ |z'| ≤ 1 / 1000 ∧ 6378000 ^ 2 ≤ x' ^ 2 + y' ^ 2 := by
  have hc : atCentre l = false := by
    unfold atCentre
    rw [hx, hy, hz]
    by_contra hc
    simp only [Bool.not_eq_false, Bool.and_eq_true, beq_iff_eq, Fl.num.injEq] at hc
    obtain ⟨⟨rfl, rfl⟩, rfl⟩ := hc
    norm_num at h0
  obtain ⟨a1, a2⟩ := C60_interior_violated (x := x) (y := y) (z := z) (by exact_mod_cast h0) (by exact_mod_cast h)
    (by have : ((3 / 10 * (x ^ 2 + y ^ 2 + z ^ 2) : ℚ) : ℝ) ≤ ((z ^ 2 : ℚ) : ℝ) := by exact_mod_cast hl
        push_cast at this; exact this)
    (by have : ((z ^ 2 : ℚ) : ℝ) ≤ ((4 / 10 * (x ^ 2 + y ^ 2 + z ^ 2) : ℚ) : ℝ) := by exact_mod_cast hu
        push_cast at this; exact this)
  obtain ⟨lon, e, hlon⟩ := hN hx hy hz a1 a2
  have hxR : (0 : ℝ) ≤ x := by exact_mod_cast hx0
  have harg : |(ecefToLla (x : ℝ) y z).2.1| ≤ π / 2 := by
    change |Complex.arg ⟨(x : ℝ), y⟩| ≤ π / 2
    rw [Complex.abs_arg_le_pi_div_two_iff]
    exact hxR
  have hlon2 : |lon| ≤ 2 := by
    have pi4 : π ≤ 3.15 := pi_lt_d2.le
    generalize (ecefToLla (x : ℝ) y z).2.1 = Q at *
    have : |(lon : ℝ)| ≤ 2 := by
      rw [abs_le] at *
      norm_num at *
      constructor <;> linarith
    exact_mod_cast (by push_cast; exact this : ((|lon| : ℚ) : ℝ) ≤ ((2 : ℚ) : ℝ))
  obtain ⟨r2, -, h21, -, h23, -⟩ := scale_angle (q := lon) (S := 2867080568276241 / 4194304) (by norm_num) (by norm_num)
    (by rw [abs_le]; constructor <;> norm_num) (by linarith)
  have ew : worldEnc env l = (⟨0, r2, 0⟩, DEKAMETER) := by
    unfold worldEnc
    rw [hc, e]
    simp only [Bool.false_eq_true, if_false, lonScale64_eq, h21]
    rfl
  have hr2 : |r2| ≤ 2147483812 := by
    have h1 := abs_le.1 hlon2
    have h2 := abs_le.1 h23
    rw [abs_le]
    constructor <;> linarith
  obtain ⟨y2, hy2, hyb2⟩ := wire_angle (r := r2) (ρ := Cdis.lonScale) (by rw [lonScale_eq]; norm_num)
    (by rw [lonScale_eq]; norm_num) hr2
  have z0 : asI32 0 = 0 := by decide +kernel
  have run := Cdis.WorldCoordinates.run_raw (v := ⟨0, r2, 0⟩) (by rw [z0]; unfold Cdis.InS; norm_num) (by unfold Cdis.In24; norm_num) rest
  have zl : div32 (.num (f32 (f32 (asI32 0) / Cdis.latScale))) latScale32 = .num 0 := by
    rw [z0, latScale_eq]
    decide +kernel
  have za : mul32 (int32 0) (.num 10) = .num 0 := by decide +kernel
  have hyl : |y2| ≤ 4 := by
    rw [lonScale_eq] at hyb2
    have h1 := abs_le.1 hr2
    have h2 := abs_le.1 hyb2
    rw [abs_le]
    constructor <;> linarith
  obtain ⟨x', y', z', e1, e2, e3, f1, f2, f3⟩ := hE.ecef (lat := 0) (lon := y2) (alt := 0) (by norm_num) hyl (by norm_num)
  refine ⟨_, x', y', z', by rw [ew]; exact run, ?_⟩
  have ed : worldDec env ⟨f32 (f32 (asI32 0) / Cdis.latScale), f32 (f32 (asI32 r2) / Cdis.lonScale), 0⟩ DEKAMETER =
      env.toEcef (.num 0) (.num y2) (.num 0) := by
    unfold worldDec
    dsimp only
    rw [zl, lonScale32_eq, hy2, if_neg (by decide), za]
  rw [ew]
  dsimp only
  rw [ed]
  refine ⟨e1, e2, e3, ?_⟩
  have hn : Verif.Dis.Geo.nu 0 = 1 := by unfold Verif.Dis.Geo.nu Verif.Dis.Geo.den; simp
  have hb : Verif.Dis.Geo.be 0 = 0 := by unfold Verif.Dis.Geo.be; simp
  rw [lla_parts] at f1 f2 f3
  simp only [Rat.cast_zero, hn, hb, Real.cos_zero, Real.sin_zero, mul_one, mul_zero, add_zero, sub_zero] at f1 f2 f3
  have hA : wgsA = 6378137 := rfl
  rw [hA] at f1 f2
  constructor
  · have : ((|z'| : ℚ) : ℝ) ≤ ((1 / 1000 : ℚ) : ℝ) := by push_cast; norm_num at f3 ⊢; exact f3
    exact_mod_cast this
  · have cs := cos_sq_add_sin_sq (y2 : ℝ)
    have c1 := abs_le.1 (abs_cos_le_one (y2 : ℝ))
    have s1 := abs_le.1 (abs_sin_le_one (y2 : ℝ))
    generalize cos (y2 : ℝ) = C at *
    generalize sin (y2 : ℝ) = S at *
    obtain ⟨p, hp⟩ : ∃ p, p = (x' : ℝ) - 6378137 * C := ⟨_, rfl⟩
    obtain ⟨q, hq⟩ : ∃ q, q = (y' : ℝ) - 6378137 * S := ⟨_, rfl⟩
    rw [← hp] at f1
    rw [← hq] at f2
    have : (6378000 : ℝ) ^ 2 ≤ (x' : ℝ) ^ 2 + (y' : ℝ) ^ 2 := by
      rw [show (x' : ℝ) = 6378137 * C + p by rw [hp]; ring, show (y' : ℝ) = 6378137 * S + q by rw [hq]; ring]
      have f1 := abs_le.1 f1
      have f2 := abs_le.1 f2
      have t1 : -(1 / 1000 : ℝ) ≤ C * p := by norm_num at f1; nlinarith
      have t2 : -(1 / 1000 : ℝ) ≤ S * q := by norm_num at f2; nlinarith
      have eq : (6378137 * C + p) ^ 2 + (6378137 * S + q) ^ 2 =
          6378137 ^ 2 * (C ^ 2 + S ^ 2) + 2 * 6378137 * (C * p + S * q) + p ^ 2 + q ^ 2 := by ring
      rw [eq, cs]
      have := sq_nonneg p
      have := sq_nonneg q
      norm_num
      linarith
    exact_mod_cast this

/-- The conditions on the conversions can be met together. -/
theorem computes_nan_exists : ∃ env : Env, Computes env ∧ NanInside env := by
  classical
  obtain ⟨env, hE⟩ := computes_exists
  choose nq hnq using fun r : ℝ => (exists_rat_near r (by norm_num : (0 : ℝ) < 1 / 10 ^ 9))
  refine ⟨{ env with
    toLla := fun l =>
      match v64 l.x_coordinate, v64 l.y_coordinate, v64 l.z_coordinate with
      | .num x, .num y, .num z => if 1001 / 1000 ≤ arcArg x y z then (.nan, .num (nq (ecefToLla x y z).2.1), .nan) else env.toLla l
      | _, _, _ => env.toLla l }, ⟨?_, hE.ecef⟩, ?_⟩
  · intro l x y z hx hy hz h0 h1
    have h0R : (6300000 : ℝ) ^ 2 ≤ (x : ℝ) ^ 2 + (y : ℝ) ^ 2 + (z : ℝ) ^ 2 := by exact_mod_cast h0
    have hd := C60_defined (x := x) (y := y) (z := z) (le_trans (by norm_num) h0R)
    simp only [hx, hy, hz]
    rw [if_neg (by have := le_abs_self (arcArg (x : ℝ) y z); intro hc; norm_num at hd hc; linarith)]
    exact hE.lla hx hy hz h0 h1
  · intro l x y z hx hy hz _ ha
    refine ⟨nq (ecefToLla x y z).2.1, ?_, ?_⟩
    · simp only [hx, hy, hz]
      rw [if_pos ha]
    · rw [abs_sub_comm]
      exact (hnq _).le

/-- The location of the unit tests, (20000, 20000, 20000), meets the conditions of `C41_interior_violated`. -/
example : v64 0x40D3880000000000 = .num 20000 ∧ (0 : Rat) < 20000 ^ 2 + 20000 ^ 2 + 20000 ^ 2 ∧
    (20000 : Rat) ^ 2 + 20000 ^ 2 + 20000 ^ 2 ≤ 36000 ^ 2 ∧ 3 / 10 * ((20000 : Rat) ^ 2 + 20000 ^ 2 + 20000 ^ 2) ≤ 20000 ^ 2 ∧
    (20000 : Rat) ^ 2 ≤ 4 / 10 * (20000 ^ 2 + 20000 ^ 2 + 20000 ^ 2) ∧ (0 : Rat) ≤ 20000 :=
  ⟨by decide +kernel, by norm_num, by norm_num, by norm_num, by norm_num, by norm_num⟩
end Verif.Props
