import Verif.Props.Geodesy
import Verif.Props.Quantise3
import Verif.Props.CodecEncode
import Mathlib.Analysis.Real.Pi.Bounds

namespace Verif.Props
open Real Verif.Dis.Geo Verif.Codec

/-- The program's two conversions, which run in `f64` with the platform's `sin`, `atan2` and so on, agree with the conversions of
utils.rs in real arithmetic to a nanoradian and a millimetre (points at least 6300 km and at most a million km from the centre; angles up
to 2 and 4 radians, altitudes up to a million km). -/
structure Computes (env : Env) : Prop where
  lla : ∀ {l : Dis.Location} {x y z : Rat}, v64 l.x_coordinate = .num x → v64 l.y_coordinate = .num y → v64 l.z_coordinate = .num z →
    6300000 ^ 2 ≤ x ^ 2 + y ^ 2 + z ^ 2 → x ^ 2 + y ^ 2 + z ^ 2 ≤ (10 ^ 9) ^ 2 →
    ∃ lat lon alt : Rat, env.toLla l = (.num lat, .num lon, .num alt) ∧
      |(lat : ℝ) - (ecefToLla x y z).1| ≤ 1 / 10 ^ 9 ∧ |(lon : ℝ) - (ecefToLla x y z).2.1| ≤ 1 / 10 ^ 9 ∧
      |(alt : ℝ) - (ecefToLla x y z).2.2| ≤ 1 / 10 ^ 3
  ecef : ∀ {lat lon alt : Rat}, |lat| ≤ 2 → |lon| ≤ 4 → |alt| ≤ 10 ^ 9 →
    ∃ x y z : Rat, v64 (env.toEcef (.num lat) (.num lon) (.num alt)).x_coordinate = .num x ∧
      v64 (env.toEcef (.num lat) (.num lon) (.num alt)).y_coordinate = .num y ∧
      v64 (env.toEcef (.num lat) (.num lon) (.num alt)).z_coordinate = .num z ∧
      |(x : ℝ) - (llaToEcef lat lon alt).1| ≤ 1 / 10 ^ 3 ∧ |(y : ℝ) - (llaToEcef lat lon alt).2.1| ≤ 1 / 10 ^ 3 ∧
      |(z : ℝ) - (llaToEcef lat lon alt).2.2| ≤ 1 / 10 ^ 3

theorem not_at_centre {l : Dis.Location} {x y z : Rat} (hx : v64 l.x_coordinate = .num x) (hy : v64 l.y_coordinate = .num y)
    (hz : v64 l.z_coordinate = .num z) (h : 6300000 ^ 2 ≤ x ^ 2 + y ^ 2 + z ^ 2) : atCentre l = false := by
  unfold atCentre
  rw [hx, hy, hz]
  by_contra hc
  simp only [Bool.not_eq_false, Bool.and_eq_true, beq_iff_eq, Fl.num.injEq] at hc
  obtain ⟨⟨rfl, rfl⟩, rfl⟩ := hc
  norm_num at h

/-- What the code makes of a location near the surface. -/
theorem surface {env : Env} (hE : Computes env) {l : Dis.Location} {x y z : Rat} (hx : v64 l.x_coordinate = .num x)
    (hy : v64 l.y_coordinate = .num y) (hz : v64 l.z_coordinate = .num z) (h0 : 6300000 ^ 2 ≤ x ^ 2 + y ^ 2 + z ^ 2)
    (h1 : x ^ 2 + y ^ 2 + z ^ 2 ≤ 6430000 ^ 2) :
    ∃ (lat lon alt : Rat) (φ h : ℝ), env.toLla l = (.num lat, .num lon, .num alt) ∧
      |(lat : ℝ) - (ecefToLla x y z).1| ≤ 1 / 10 ^ 9 ∧ |(lon : ℝ) - (ecefToLla x y z).2.1| ≤ 1 / 10 ^ 9 ∧
      |(alt : ℝ) - (ecefToLla x y z).2.2| ≤ 1 / 10 ^ 3 ∧
      |φ| ≤ π / 2 ∧ |h| ≤ 80000 ∧ llaToEcef φ (ecefToLla x y z).2.1 h = ((x : ℝ), (y : ℝ), (z : ℝ)) ∧
      |(ecefToLla x y z).1 - φ| ≤ 6 / 10 ^ 12 ∧ |(ecefToLla x y z).2.2 - h| ≤ 3 / 10 ^ 5 ∧ |(ecefToLla x y z).2.1| ≤ π ∧
      √((x : ℝ) ^ 2 + (y : ℝ) ^ 2 + (z : ℝ) ^ 2) - 6378300 ≤ h := by
  have h1' : x ^ 2 + y ^ 2 + z ^ 2 ≤ (10 ^ 9) ^ 2 := h1.trans (by norm_num)
  obtain ⟨lat, lon, alt, e, q1, q2, q3⟩ := hE.lla hx hy hz h0 h1'
  have h0R : (6300000 : ℝ) ^ 2 ≤ (x : ℝ) ^ 2 + (y : ℝ) ^ 2 + (z : ℝ) ^ 2 := by exact_mod_cast h0
  have h1R : (x : ℝ) ^ 2 + (y : ℝ) ^ 2 + (z : ℝ) ^ 2 ≤ (6430000 : ℝ) ^ 2 := by exact_mod_cast h1
  obtain ⟨φ, l0, h, p1, p2, p3, p4, p5⟩ := C60_geodetic_exists h0R
  have hr : √((x : ℝ) ^ 2 + (y : ℝ) ^ 2 + (z : ℝ) ^ 2) ≤ 6430000 := sqrt_le_iff.2 ⟨by norm_num, h1R⟩
  have hr0 : 6300000 ≤ √((x : ℝ) ^ 2 + (y : ℝ) ^ 2 + (z : ℝ) ^ 2) := le_sqrt_of_sq_le h0R
  have hh : |h| ≤ 80000 := abs_le.2 ⟨by linarith, by linarith⟩
  have rt := C60_round_trip (h := h) p1 p2 (by norm_num; linarith [(abs_le.1 hh).1]) (by norm_num; linarith [(abs_le.1 hh).2])
  rw [p5] at rt
  obtain ⟨r1, r2, r3⟩ := rt
  refine ⟨lat, lon, alt, φ, h, e, q1, q2, q3, p1, hh, ?_, r1, r3, ?_, p3⟩
  · by_cases hp : |φ| = π / 2
    · have hc : cos φ = 0 := by rw [← cos_abs, hp, cos_pi_div_two]
      rw [← p5, lla_parts, lla_parts, hc]
      simp
    · dsimp only at r2
      rw [r2, if_neg hp, p5]
  · rw [r2]
    split
    · rw [abs_zero]; exact pi_pos.le
    · exact abs_le.2 ⟨p2.1.le, p2.2⟩

/-- Turning a point about the axis of the Earth. -/
theorem lla_turns {φ l l' h ε : ℝ} (hl : |l' - l| ≤ ε) :
    let P := llaToEcef φ l h
    let P' := llaToEcef φ l' h
    let b := (6400000 + |h|) * ε
    |P'.1 - P.1| ≤ b ∧ |P'.2.1 - P.2.1| ≤ b ∧ P'.2.2 = P.2.2 := by
  intro P P' b
  have hP : P = llaToEcef φ l h := rfl
  have hP' : P' = llaToEcef φ l' h := rfl
  rw [lla_parts] at hP hP'
  have hR : |(wgsA * nu φ + h) * cos φ| ≤ (6400000 + |h|) * 1 := by
    refine absmul ((abs_add_le _ _).trans (by
      have := nu_ge φ; have := nu_le φ
      rw [show wgsA = 6378137 from rfl, abs_of_nonneg (by linarith)]
      linarith)) (abs_cos_le_one φ)
  have hcos : |cos l' - cos l| ≤ ε := (abs_cos_sub_cos_le l' l).trans hl
  have hsin : |sin l' - sin l| ≤ ε := (abs_sin_sub_sin_le l' l).trans hl
  rw [hP, hP']
  refine ⟨?_, ?_, rfl⟩
  · dsimp only
    rw [← mul_sub]
    have := absmul hR hcos
    simp only [b]; linarith
  · dsimp only
    rw [← mul_sub]
    have := absmul hR hsin
    simp only [b]; linarith

/-- C41: a location near the surface of the Earth (6300 to 6430 km from its centre) that is encoded and decoded, without being sent over
a wire in between, comes back with every coordinate within 14 m. -/
theorem C41_position {env : Env} (hE : Computes env) {l : Dis.Location} {x y z : Rat} (hx : v64 l.x_coordinate = .num x)
    (hy : v64 l.y_coordinate = .num y) (hz : v64 l.z_coordinate = .num z) (h0 : 6300000 ^ 2 ≤ x ^ 2 + y ^ 2 + z ^ 2)
    (h1 : x ^ 2 + y ^ 2 + z ^ 2 ≤ 6430000 ^ 2) :
    let l' := worldDec env (worldEnc env l).1 (worldEnc env l).2
    ∃ x' y' z' : Rat, v64 l'.x_coordinate = .num x' ∧ v64 l'.y_coordinate = .num y' ∧ v64 l'.z_coordinate = .num z' ∧
      |x' - x| ≤ 14 ∧ |y' - y| ≤ 14 ∧ |z' - z| ≤ 14 := by
  intro l'
  obtain ⟨lat, lon, alt, φ, h, e, q1, q2, q3, p1, hh, p5, r1, r3, hlam, -⟩ := surface hE hx hy hz h0 h1
  generalize ecefToLla (x : ℝ) y z = Q at *
  have pi4 : π ≤ 3.15 := pi_lt_d2.le
  have b1 := abs_le.1 p1
  have b2 := abs_le.1 hh
  have b3 := abs_le.1 hlam
  have hlat : |lat| ≤ 19 / 10 := by
    have : |(lat : ℝ)| ≤ 19 / 10 := by
      rw [abs_le] at *; norm_num at *; constructor <;> linarith
    exact_mod_cast (by push_cast; exact this : ((|lat| : ℚ) : ℝ) ≤ ((19 / 10 : ℚ) : ℝ))
  have hlon : |lon| ≤ 39 / 10 := by
    have : |(lon : ℝ)| ≤ 39 / 10 := by
      rw [abs_le] at *; norm_num at *; constructor <;> linarith
    exact_mod_cast (by push_cast; exact this : ((|lon| : ℚ) : ℝ) ≤ ((39 / 10 : ℚ) : ℝ))
  have halt : |alt| ≤ 80001 := by
    have : |(alt : ℝ)| ≤ 80001 := by
      rw [abs_le] at *; norm_num at *; constructor <;> linarith
    exact_mod_cast (by push_cast; exact this : ((|alt| : ℚ) : ℝ) ≤ ((80001 : ℚ) : ℝ))
  obtain ⟨lat', lon', alt', hd, d1, d2, d3, -⟩ := C41_world env (not_at_centre hx hy hz h0) e (hlat.trans (by norm_num)) (hlon.trans (by norm_num))
    (Or.inl (halt.trans (by norm_num)))
  have d3 := d3 (halt.trans (by norm_num))
  have hl' : l' = env.toEcef (.num lat') (.num lon') (.num alt') := hd
  have tri : ∀ {a b c d : ℚ}, |a - b| ≤ c → |b| ≤ d → |a| ≤ d + c := by
    intro a b c d h1 h2
    have := abs_sub_abs_le_abs_sub a b
    linarith
  obtain ⟨x', y', z', e1, e2, e3, f1, f2, f3⟩ := hE.ecef ((tri d1 hlat).trans (by norm_num)) ((tri d2 hlon).trans (by norm_num))
    ((tri d3 halt).trans (by norm_num))
  rw [← hl'] at e1 e2 e3
  refine ⟨x', y', z', e1, e2, e3, ?_⟩
  have d1R : |(lat' : ℝ) - lat| ≤ 1 / 1000000 := by
    have : ((|lat' - lat| : ℚ) : ℝ) ≤ ((1 / 1000000 : ℚ) : ℝ) := by exact_mod_cast d1
    push_cast at this; exact this
  have d2R : |(lon' : ℝ) - lon| ≤ 1 / 1000000 := by
    have : ((|lon' - lon| : ℚ) : ℝ) ≤ ((1 / 1000000 : ℚ) : ℝ) := by exact_mod_cast d2
    push_cast at this; exact this
  have d3R : |(alt' : ℝ) - alt| ≤ 2 / 100 := by
    have : ((|alt' - alt| : ℚ) : ℝ) ≤ ((2 / 100 : ℚ) : ℝ) := by exact_mod_cast d3
    push_cast at this; exact this
  have g1 : |(lat' : ℝ) - φ| ≤ 1002 / 10 ^ 9 := by
    rw [abs_le] at *; norm_num at *; constructor <;> linarith
  have g2 : |(lon' : ℝ) - Q.2.1| ≤ 1001 / 10 ^ 9 := by
    rw [abs_le] at *; norm_num at *; constructor <;> linarith
  have g3 : |(alt' : ℝ) - h| ≤ 3 / 100 := by
    rw [abs_le] at *; norm_num at *; constructor <;> linarith
  have m := lla_moves (lon' : ℝ) g1 g3
  have t := lla_turns (φ := φ) (h := h) g2
  rw [p5] at t
  have k1 : (6600000 + |h|) * (1002 / 10 ^ 9) + 3 / 100 ≤ 673 / 100 := by norm_num; linarith
  have k2 : (6400000 + |h|) * (1001 / 10 ^ 9) ≤ 65 / 10 := by norm_num; linarith
  dsimp only at m t
  have fin : ∀ {a b c d : ℝ}, |a - b| ≤ 1 / 10 ^ 3 → |b - c| ≤ 673 / 100 → |c - d| ≤ 65 / 10 → |a - d| ≤ 14 := by
    intro a b c d h1 h2 h3
    rw [abs_le] at *; norm_num at *; constructor <;> linarith
  have fx := fin f1 (m.1.trans k1) (t.1.trans k2)
  have fy := fin f2 (m.2.1.trans k1) (t.2.1.trans k2)
  have fz := fin (d := (z : ℝ)) f3 (m.2.2.trans k1) (by rw [t.2.2, sub_self, abs_zero]; norm_num)
  refine ⟨?_, ?_, ?_⟩
  · exact_mod_cast (by push_cast; exact fx : ((|x' - x| : ℚ) : ℝ) ≤ ((14 : ℚ) : ℝ))
  · exact_mod_cast (by push_cast; exact fy : ((|y' - y| : ℚ) : ℝ) ≤ ((14 : ℚ) : ℝ))
  · exact_mod_cast (by push_cast; exact fz : ((|z' - z| : ℚ) : ℝ) ≤ ((14 : ℚ) : ℝ))

set_option maxHeartbeats 1000000 in
/-- C41: the same location sent over the wire arrives no more than a tenth as far from the plane of the equator (plus 2 m) as it was, for
every location 6370 to 6430 km from the centre of the Earth and 10 km or more in front of the plane of the 90th meridians. -/
theorem C41_position_wire_violated {env : Env} (hE : Computes env) {l : Dis.Location} {x y z : Rat} (hx : v64 l.x_coordinate = .num x)
    (hy : v64 l.y_coordinate = .num y) (hz : v64 l.z_coordinate = .num z) (h0 : 6370000 ^ 2 ≤ x ^ 2 + y ^ 2 + z ^ 2)
    (h1 : x ^ 2 + y ^ 2 + z ^ 2 ≤ 6430000 ^ 2) (hx1 : 10000 ≤ x) (rest : Cdis.Bits) :
    ∃ (w : Cdis.WorldCoordinates) (z' : Rat), Cdis.WorldCoordinates.parse.run ((worldEnc env l).1.ser ++ rest) = .ok w rest ∧
      v64 (worldDec env w (worldEnc env l).2).z_coordinate = .num z' ∧ |z'| ≤ |z| / 10 + 2 := by
  have h0' : 6300000 ^ 2 ≤ x ^ 2 + y ^ 2 + z ^ 2 := le_trans (by norm_num) h0
  obtain ⟨lat, lon, alt, φ, h, e, q1, q2, q3, p1, hh, p5, r1, r3, hlam, hlow⟩ := surface hE hx hy hz h0' h1
  have h0R : (6370000 : ℝ) ^ 2 ≤ (x : ℝ) ^ 2 + (y : ℝ) ^ 2 + (z : ℝ) ^ 2 := by exact_mod_cast h0
  have hr0 : 6370000 ≤ √((x : ℝ) ^ 2 + (y : ℝ) ^ 2 + (z : ℝ) ^ 2) := le_sqrt_of_sq_le h0R
  have hxR : (10000 : ℝ) ≤ x := by exact_mod_cast hx1
  have harg : |(ecefToLla (x : ℝ) y z).2.1| ≤ π / 2 := by
    change |Complex.arg ⟨(x : ℝ), y⟩| ≤ π / 2
    rw [Complex.abs_arg_le_pi_div_two_iff]
    exact (by norm_num : (0 : ℝ) ≤ 10000).trans hxR
  generalize ecefToLla (x : ℝ) y z = Q at *
  have pi4 : π ≤ 3.1416 := pi_lt_d4.le
  have pi3 : 3.1415 ≤ π := pi_gt_d4.le
  have b2 := abs_le.1 hh
  have hn1 := nu_ge φ
  have hn2 := nu_le φ
  have hA : wgsA = 6378137 := rfl
  have hE0 := E2_pos
  have hE1 := E2_lt
  rw [lla_parts] at p5
  have px : (wgsA * nu φ + h) * cos φ * cos Q.2.1 = x := congrArg Prod.fst p5
  have pz : (wgsA * nu φ + h) * sin φ - E2 * (wgsA * be φ) = z := congrArg (fun t => t.2.2) p5
  -- the latitude is away from the poles
  have hc0 : 0 ≤ cos φ := cos_nonneg_of_mem_Icc (abs_le.1 p1 |> fun h => ⟨by linarith [h.1], h.2⟩)
  have hcos : 15 / 10000 ≤ cos φ := by
    by_contra hlt
    push Not at hlt
    have hR : 0 ≤ wgsA * nu φ + h := by rw [hA]; linarith
    have hR2 : wgsA * nu φ + h ≤ 6500000 := by rw [hA]; linarith
    have h3 : (wgsA * nu φ + h) * cos φ ≤ 6500000 * (15 / 10000) := mul_le_mul hR2 hlt.le hc0 (by norm_num)
    have h4 : (wgsA * nu φ + h) * cos φ * cos Q.2.1 ≤ (wgsA * nu φ + h) * cos φ * 1 :=
      mul_le_mul_of_nonneg_left (cos_le_one _) (mul_nonneg hR hc0)
    norm_num at h3
    linarith
  have hφ : |φ| ≤ 15695 / 10000 := by
    have h5 : cos φ ≤ π / 2 - |φ| := by
      rw [← cos_abs, ← sin_pi_div_two_sub]
      exact sin_le (by linarith)
    norm_num at *
    linarith
  have b1 := abs_le.1 hφ
  have hlat : |lat| ≤ 157 / 100 := by
    have : |(lat : ℝ)| ≤ 157 / 100 := by
      rw [abs_le] at *; norm_num at *; constructor <;> linarith
    exact_mod_cast (by push_cast; exact this : ((|lat| : ℚ) : ℝ) ≤ ((157 / 100 : ℚ) : ℝ))
  have hlon : |lon| ≤ 314159 / 100000 := by
    have : |(lon : ℝ)| ≤ 314159 / 100000 := by
      rw [abs_le] at *; norm_num at *; constructor <;> linarith
    exact_mod_cast (by push_cast; exact this : ((|lon| : ℚ) : ℝ) ≤ ((314159 / 100000 : ℚ) : ℝ))
  have halt : -10000 ≤ alt ∧ alt ≤ 80001 := by
    have : (-10000 : ℝ) ≤ alt ∧ (alt : ℝ) ≤ 80001 := by
      rw [abs_le] at *; norm_num at *; constructor <;> linarith
    exact ⟨by exact_mod_cast this.1, by exact_mod_cast this.2⟩
  obtain ⟨w, lat', lon', alt', hp, hd, d1, d2, d3⟩ := C41_world_wire env (not_at_centre hx hy hz h0') e hlat hlon
    ⟨by linarith [halt.1], by linarith [halt.2]⟩ rest
  have d1' := abs_le.1 d1
  have d2' := abs_le.1 d2
  have d3' := abs_le.1 d3
  have hlat' := abs_le.1 hlat
  have hlon' := abs_le.1 hlon
  obtain ⟨x', y', z', -, -, e3, -, -, f3⟩ := hE.ecef (lat := lat') (lon := lon') (alt := alt')
    (abs_le.2 ⟨by linarith, by linarith⟩) (abs_le.2 ⟨by linarith, by linarith⟩)
    (abs_le.2 ⟨by norm_num; linarith [halt.1], by norm_num; linarith [halt.2]⟩)
  refine ⟨w, z', hp, by rw [hd]; exact e3, ?_⟩
  rw [lla_parts] at f3
  dsimp only at f3
  have split : ∀ ψ k : ℝ, (wgsA * nu ψ + k) * sin ψ - E2 * (wgsA * be ψ) = (wgsA * nu ψ * (1 - E2) + k) * sin ψ := by
    intro ψ k; unfold be; ring
  rw [split] at f3 pz
  have hm1 := nu_ge (lat' : ℝ)
  have hm2 := nu_le (lat' : ℝ)
  have haltR : (-10001 : ℝ) ≤ alt' ∧ (alt' : ℝ) ≤ 80002 := by
    have : -10001 ≤ alt' ∧ alt' ≤ 80002 := ⟨by linarith [halt.1], by linarith [halt.2]⟩
    exact ⟨by exact_mod_cast this.1, by exact_mod_cast this.2⟩
  -- received
  have k1 : |(wgsA * nu (lat' : ℝ) * (1 - E2) + alt') * sin (lat' : ℝ)| ≤ 6480003 * |(lat' : ℝ)| := by
    refine absmul ?_ (by simpa using abs_sin_sub_sin_le (lat' : ℝ) 0)
    have a1 : 0 ≤ wgsA * nu (lat' : ℝ) := by rw [hA]; linarith
    have a2 : wgsA * nu (lat' : ℝ) ≤ 6400000 := by rw [hA]; linarith
    have a3 := mul_le_of_le_one_right a1 (by linarith : 1 - E2 ≤ 1)
    have a4 := mul_nonneg a1 (by linarith : 0 ≤ 1 - E2)
    rw [abs_le]
    constructor <;> linarith
  have hlatR : |(lat' : ℝ)| ≤ (|φ| + 3 / 10 ^ 6) / 17 := by
    have t1 : |(lat' : ℝ) * (9011847 / 524288) - lat| ≤ 2 / 1000000 := by
      have : ((|lat' * (9011847 / 524288) - lat| : ℚ) : ℝ) ≤ ((2 / 1000000 : ℚ) : ℝ) := by exact_mod_cast d1
      push_cast at this; exact this
    have t2 : |(lat' : ℝ) * (9011847 / 524288) - φ| ≤ 3 / 10 ^ 6 := by
      rw [abs_le] at *; norm_num at *; constructor <;> linarith
    have t3 := abs_sub_abs_le_abs_sub ((lat' : ℝ) * (9011847 / 524288)) φ
    rw [abs_mul, abs_of_pos (by norm_num : (0 : ℝ) < 9011847 / 524288)] at t3
    rw [le_div_iff₀ (by norm_num)]
    have t4 := abs_nonneg (lat' : ℝ)
    have t5 := t3.trans t2
    clear d1 d2 d3 d1' d2' d3' t1 t2 t3
    linarith
  -- sent
  have k2 : 39 * 10 ^ 5 * |φ| ≤ |(z : ℝ)| := by
    rw [← pz, abs_mul]
    have a1 : 6300000 ≤ wgsA * nu φ * (1 - E2) + h := by
      rw [hA]
      have : (6335000 : ℝ) ≤ 6378137 * nu φ * (1 - E2) := by nlinarith
      linarith
    rw [abs_of_nonneg (a := wgsA * nu φ * (1 - E2) + h) (by linarith)]
    have a2 := mul_abs_le_abs_sin p1
    have a3 : 62 / 100 ≤ 2 / π := by rw [le_div_iff₀ pi_pos]; norm_num at *; linarith
    have a4 : 62 / 100 * |φ| ≤ |sin φ| := (mul_le_mul_of_nonneg_right a3 (abs_nonneg _)).trans a2
    have a5 := mul_le_mul a1 a4 (by positivity) (by linarith)
    have a6 := abs_nonneg φ
    refine le_trans ?_ a5
    linarith
  have fin : |(z' : ℝ)| ≤ |(z : ℝ)| / 10 + 2 := by
    have t := abs_sub_abs_le_abs_sub (z' : ℝ) ((wgsA * nu (lat' : ℝ) * (1 - E2) + alt') * sin (lat' : ℝ))
    have t1 := t.trans f3
    have t2 := mul_le_mul_of_nonneg_left hlatR (by norm_num : (0 : ℝ) ≤ 6480003)
    have t3 := abs_nonneg φ
    generalize |(wgsA * nu (lat' : ℝ) * (1 - E2) + alt') * sin (lat' : ℝ)| = u at *
    norm_num at t1 t2 k1 k2 ⊢
    linarith
  exact_mod_cast (by push_cast; exact fin : ((|z'| : ℚ) : ℝ) ≤ ((|z| / 10 + 2 : ℚ) : ℝ))

/-- The condition on the conversions can be met. -/
theorem computes_exists : ∃ env : Env, Computes env := by
  classical
  have near : ∀ r ε : ℝ, 0 < ε → ∃ q : ℚ, |(q : ℝ) - r| ≤ ε := by
    intro r ε h
    obtain ⟨q, hq⟩ := exists_rat_near r h
    exact ⟨q, by rw [abs_sub_comm]; exact hq.le⟩
  have bits : ∀ r : ℝ, |r| ≤ 2 * 10 ^ 9 → ∃ b : UInt64, ∃ q : ℚ, v64 b = .num q ∧ |(q : ℝ) - r| ≤ 1 / 10 ^ 3 := by
    intro r hr
    obtain ⟨q, hq⟩ := near r (1 / 10 ^ 4) (by norm_num)
    have hqb : |q| ≤ 3 * 10 ^ 9 := by
      have : |(q : ℝ)| ≤ 3 * 10 ^ 9 := by
        have := abs_sub_abs_le_abs_sub (q : ℝ) r
        norm_num at *; linarith
      exact_mod_cast (by push_cast; exact this : ((|q| : ℚ) : ℝ) ≤ ((3 * 10 ^ 9 : ℚ) : ℝ))
    obtain ⟨s, -, hrep, hsb⟩ := round64_bound (q := q) (lt_of_le_of_lt hqb (by norm_num))
    refine ⟨b64 (.num s), s, ?_, ?_⟩
    · have := Fl.toBits_lt F64_ok (.num s) (by rintro q ⟨⟩; exact hrep)
      unfold v64 b64
      rw [UInt64.toNat_ofNat_of_lt' (by simpa [F64, UInt64.size] using this)]
      exact Fl.ofBits_toBits F64_ok hrep
    · have h2 : |s - q| ≤ 1 / 10 ^ 4 := by
        refine hsb.trans ?_
        have h3 : |q| / 2 ^ 53 ≤ 3 * 10 ^ 9 / 2 ^ 53 := div_le_div_of_nonneg_right hqb (by norm_num)
        have h4 : (1 : ℚ) / 2 ^ 1000 ≤ 1 / 2 ^ 53 :=
          div_le_div_of_nonneg_left (by norm_num) (by norm_num) (pow_le_pow_right₀ (by norm_num) (by norm_num))
        have h6 : (3 * 10 ^ 9 : ℚ) / 2 ^ 53 + 1 / 2 ^ 53 ≤ 1 / 10 ^ 4 := by norm_num
        exact (add_le_add h3 h4).trans h6
      have h5 : |(s : ℝ) - q| ≤ 1 / 10 ^ 4 := by
        have : ((|s - q| : ℚ) : ℝ) ≤ ((1 / 10 ^ 4 : ℚ) : ℝ) := by exact_mod_cast h2
        push_cast at this; exact this
      rw [abs_le] at *; norm_num at *; constructor <;> linarith
  choose! b64' q64 hb1 hb2 using bits
  choose! nq hnq using fun r : ℝ => near r (1 / 10 ^ 9) (by norm_num)
  refine ⟨{ codecEnv with
    toLla := fun l =>
      match v64 l.x_coordinate, v64 l.y_coordinate, v64 l.z_coordinate with
      | .num x, .num y, .num z => (.num (nq (ecefToLla x y z).1), .num (nq (ecefToLla x y z).2.1), .num (nq (ecefToLla x y z).2.2))
      | _, _, _ => (.nan, .nan, .nan)
    toEcef := fun a b c =>
      match a, b, c with
      | .num lat, .num lon, .num alt =>
        ⟨b64' (llaToEcef lat lon alt).1, b64' (llaToEcef lat lon alt).2.1, b64' (llaToEcef lat lon alt).2.2⟩
      | _, _, _ => ⟨0, 0, 0⟩ }, ?_, ?_⟩
  · intro l x y z hx hy hz _ _
    refine ⟨_, _, _, by simp only [hx, hy, hz], hnq _, hnq _, (hnq _).trans (by norm_num)⟩
  · intro lat lon alt _ _ halt
    have haltR : |(alt : ℝ)| ≤ 10 ^ 9 := by
      have : ((|alt| : ℚ) : ℝ) ≤ ((10 ^ 9 : ℚ) : ℝ) := by exact_mod_cast halt
      push_cast at this; exact this
    have hR : |wgsA * nu (lat : ℝ) + alt| ≤ 12 * 10 ^ 8 := by
      refine (abs_add_le _ _).trans ?_
      have := nu_ge (lat : ℝ); have := nu_le (lat : ℝ)
      rw [show wgsA = 6378137 from rfl, abs_of_nonneg (by linarith)]
      norm_num at *
      linarith
    have c1 := absmul (absmul hR (abs_cos_le_one (lat : ℝ))) (abs_cos_le_one (lon : ℝ))
    have c2 := absmul (absmul hR (abs_cos_le_one (lat : ℝ))) (abs_sin_le_one (lon : ℝ))
    have c3 : |(wgsA * nu (lat : ℝ) + alt) * sin (lat : ℝ) - E2 * (wgsA * be (lat : ℝ))| ≤ 2 * 10 ^ 9 := by
      have m1 := absmul hR (abs_sin_le_one (lat : ℝ))
      have m2 : |E2 * (wgsA * be (lat : ℝ))| ≤ 67 / 10000 * (6378137 * (1 * (10034 / 10000))) := by
        unfold be
        exact absmul (by rw [abs_of_pos E2_pos]; exact E2_lt) (absmul (by unfold wgsA; norm_num)
          (absmul (abs_sin_le_one _) (by rw [abs_of_pos (nu_pos _)]; exact nu_le _)))
      refine (abs_sub _ _).trans ?_
      norm_num at *
      linarith
    have k1 : |(llaToEcef lat lon alt).1| ≤ 2 * 10 ^ 9 := by rw [lla_parts]; exact c1.trans (by norm_num)
    have k2 : |(llaToEcef lat lon alt).2.1| ≤ 2 * 10 ^ 9 := by rw [lla_parts]; exact c2.trans (by norm_num)
    have k3 : |(llaToEcef lat lon alt).2.2| ≤ 2 * 10 ^ 9 := by rw [lla_parts]; exact c3
    exact ⟨_, _, _, hb1 _ k1, hb1 _ k2, hb1 _ k3, hb2 _ k1, hb2 _ k2, hb2 _ k3⟩

/-- A location that meets the conditions of `C41_position` and `C41_position_wire_violated`: 45 degrees north on the Greenwich meridian
(in round numbers). -/
example : ∃ x z : Rat, v64 0x4151464000000000 = .num x ∧ v64 0 = .num 0 ∧ v64 0x4151464000000000 = .num z ∧
    6370000 ^ 2 ≤ x ^ 2 + 0 ^ 2 + z ^ 2 ∧ x ^ 2 + 0 ^ 2 + z ^ 2 ≤ 6430000 ^ 2 ∧ 10000 ≤ x :=
  ⟨4528384, 4528384, by decide +kernel, by decide +kernel, by decide +kernel, by norm_num, by norm_num, by norm_num⟩
end Verif.Props
