import Verif.Props.Quantise3
import Verif.Props.CdisInts
import Verif.Props.CodecEncode

namespace Verif.Props
open Verif.Codec

/-- The values below the 21 bit class are read back as numbers between 2^23 and 2^24. -/
theorem sv24_low (v : Int) (h : v < -1048576) (r : Cdis.Bits) :
    Cdis.sv24.parse.run (Cdis.sv24.ser v ++ r) = .ok (8388608 + v % 8388608) r := by
  rw [Cdis.SV4.run]
  have e : Cdis.sv24.flag v = 3 := by
    unfold Cdis.SV4.flag
    repeat' split
    all_goals simp only [Cdis.sv24] at *
    all_goals omega
  have n : v < 0 := by omega
  rw [e, if_pos n]
  rfl

theorem world_run_low {v : Cdis.WorldCoordinates} (hl : Cdis.InS 31 (asI32 v.latitude)) (ha : v.altitude_msl < -1048576) (r : Cdis.Bits) :
    Cdis.WorldCoordinates.parse.run (v.ser ++ r) =
      .ok ⟨f32 (f32 (asI32 v.latitude) / Cdis.latScale), f32 (f32 (asI32 v.longitude) / Cdis.lonScale), 8388608 + v.altitude_msl % 8388608⟩ r := by
  have h32 := Cdis.asI32_in v.longitude
  have h24 := sv24_low v.altitude_msl ha
  unfold Cdis.WorldCoordinates.ser
  generalize asI32 v.latitude = a at *
  generalize asI32 v.longitude = b at *
  simp only [Cdis.WorldCoordinates.parse, List.append_assoc, rt, *]

/-- The two angles of a location on the wire. -/
theorem world_angles {lat lon : Rat} (hlat : |lat| ≤ 157 / 100) (hlon : |lon| ≤ 314159 / 100000) :
    ∃ r1 r2 y1 y2 : Rat,
      Fl.toRat ((Fl.mul F64 (.num lat) latScale64).conv F32) = r1 ∧ Fl.toRat ((Fl.mul F64 (.num lon) lonScale64).conv F32) = r2 ∧
      Cdis.InS 31 (asI32 r1) ∧ div32 (.num (f32 (f32 (asI32 r1) / Cdis.latScale))) latScale32 = .num y1 ∧
      div32 (.num (f32 (f32 (asI32 r2) / Cdis.lonScale))) lonScale32 = .num y2 ∧
      |y1 * (9011847 / 524288) - lat| ≤ 2 / 1000000 ∧ |y2 * (9345619 / 1048576) - lon| ≤ 2 / 1000000 := by
  obtain ⟨r1, -, h11, -, h13, -⟩ := scale_angle (q := lat) (S := 5734161133882305 / 8388608) (by norm_num) (by norm_num)
    (by rw [abs_le]; constructor <;> norm_num) (by linarith)
  obtain ⟨r2, -, h21, -, h23, -⟩ := scale_angle (q := lon) (S := 2867080568276241 / 4194304) (by norm_num) (by norm_num)
    (by rw [abs_le]; constructor <;> norm_num) (by linarith)
  have hlat' := abs_le.1 hlat
  have hlon' := abs_le.1 hlon
  have h13' := abs_le.1 h13
  have h23' := abs_le.1 h23
  have hr1 : |r1| ≤ 1073300000 := by rw [abs_le]; constructor <;> linarith
  have hr2 : |r2| ≤ 2147483812 := by rw [abs_le]; constructor <;> linarith
  have hr1' := abs_le.1 hr1
  have hlat31 : Cdis.InS 31 (asI32 r1) := by
    have := abs_le.1 (asI32_err (r := r1) (by linarith))
    have a1 : (asI32 r1 : Rat) < 1073741824 := by linarith
    have a2 : -1073741824 < (asI32 r1 : Rat) := by linarith
    have a1 : asI32 r1 < 1073741824 := by exact_mod_cast a1
    have a2 : -1073741824 < asI32 r1 := by exact_mod_cast a2
    unfold Cdis.InS
    norm_num
    omega
  obtain ⟨y1, hy1, hyb1⟩ := wire_angle (r := r1) (ρ := Cdis.latScale) (by rw [latScale_eq]; norm_num)
    (by rw [latScale_eq]; norm_num) (by linarith)
  obtain ⟨y2, hy2, hyb2⟩ := wire_angle (r := r2) (ρ := Cdis.lonScale) (by rw [lonScale_eq]; norm_num)
    (by rw [lonScale_eq]; norm_num) (by linarith)
  refine ⟨r1, r2, y1, y2, ?_, ?_, hlat31, by rw [latScale32_eq]; exact hy1, by rw [lonScale32_eq]; exact hy2, ?_, ?_⟩
  · rw [latScale64_eq, h11]; rfl
  · rw [lonScale64_eq, h21]; rfl
  · rw [latScale_eq] at hyb1
    rw [abs_le] at hyb1 ⊢
    constructor <;> linarith
  · rw [lonScale_eq] at hyb2
    rw [abs_le] at hyb2 ⊢
    constructor <;> linarith

/-- C41, violated below the sea: a location deeper than 10486 m (the deepest trench of the ocean is deeper) and less than 21000 km down
arrives between 83.8 and 167.8 km **above** sea level; one that is not deeper than 83.8 km arrives 167772.16 m too high, to 3 cm. -/
theorem C41_underground_violated (env : Env) {l : Dis.Location} {lat lon alt : Rat} (hc : atCentre l = false)
    (hl : env.toLla l = (.num lat, .num lon, .num alt)) (hlat : |lat| ≤ 157 / 100) (hlon : |lon| ≤ 314159 / 100000)
    (halt : -21000000 ≤ alt ∧ alt ≤ -10486) (rest : Cdis.Bits) :
    ∃ w lat' lon' alt', Cdis.WorldCoordinates.parse.run ((worldEnc env l).1.ser ++ rest) = .ok w rest ∧
      worldDec env w (worldEnc env l).2 = env.toEcef (.num lat') (.num lon') (.num alt') ∧
      83886 ≤ alt' ∧ alt' ≤ 167773 ∧ (-83886 ≤ alt → |alt' - (alt + 16777216 / 100)| ≤ 3 / 100) := by
  obtain ⟨r1, r2, y1, y2, e1, e2, h31, d1, d2, -, -⟩ := world_angles hlat hlon
  have hlt : |alt * 100| ≤ 2100000000 := by rw [abs_le]; constructor <;> linarith [halt.1, halt.2]
  obtain ⟨r, hr, hrb⟩ : ∃ r, F64.round (alt * 100) = .num r ∧ |r - alt * 100| ≤ 1 / 1000000 := by
    obtain ⟨a, ha, -, hab⟩ := round64_bound (q := alt * 100) (by
      linarith [show (2100000000 : Rat) < 2 ^ 100 by norm_num])
    refine ⟨a, ha, le_trans hab ?_⟩
    have : |alt * 100| / 2 ^ 53 ≤ 2100000000 / 2 ^ 53 := by gcongr
    have h3 : (1 : Rat) / 2 ^ 1000 ≤ 1 / 2 ^ 30 :=
      one_div_le_one_div_of_le (by norm_num) (pow_le_pow_right₀ (by norm_num) (by decide))
    linarith [show (2100000000 : Rat) / 2 ^ 53 + 1 / 2 ^ 30 ≤ 1 / 1000000 by norm_num]
  have hrb := abs_le.1 hrb
  have t := abs_lt.1 (truncRat_spec r).1
  have hi : toI32 (.num r) = truncRat r := toI32_num (by rw [abs_lt]; constructor <;> linarith [halt.1, halt.2])
  have hlow : truncRat r < -1048576 := by
    have : (truncRat r : Rat) < -1048576 := by linarith [halt.2]
    exact_mod_cast this
  have e : worldEnc env l = (⟨r1, r2, truncRat r⟩, CM) := by
    unfold worldEnc
    rw [hc, hl]
    have em : Fl.mul F64 (.num alt) (.num 100) = .num r := hr
    simp only [Bool.false_eq_true, if_false, em, e1, e2, hi]
    rw [if_pos (by simp only [Fl.le, decide_eq_true_eq]; linarith [halt.2])]
  obtain ⟨n, hn⟩ : ∃ n, n = 8388608 + truncRat r % 8388608 := ⟨_, rfl⟩
  have hn1 : 8388608 ≤ n ∧ n < 16777216 := by omega
  have hn24 : |n| < 2 ^ 24 := by rw [abs_of_nonneg (by omega)]; omega
  obtain ⟨y, hy, -, hyb⟩ := round32_bound (q := (n : Rat) / 100) (by
    have : (n : Rat) < 16777216 := by exact_mod_cast hn1.2
    have h0 : (0 : Rat) ≤ n := by exact_mod_cast (by omega : (0 : Int) ≤ n)
    rw [abs_of_nonneg (by positivity)]
    linarith [show (167773 : Rat) < 2 ^ 100 by norm_num])
  have hq1 : (8388608 : Rat) ≤ n := by exact_mod_cast hn1.1
  have hq2 : (n : Rat) ≤ 16777215 := by exact_mod_cast (by omega : n ≤ 16777215)
  have hyb' : |y - (n : Rat) / 100| ≤ 101 / 10000 := by
    refine le_trans hyb ?_
    have h1 : |(n : Rat) / 100| ≤ 167773 := by rw [abs_of_nonneg (by linarith)]; linarith
    have : |(n : Rat) / 100| / 2 ^ 24 ≤ 167773 / 2 ^ 24 := by gcongr
    linarith [show (167773 : Rat) / 2 ^ 24 + 1 / 2 ^ 150 ≤ 101 / 10000 by norm_num]
  have hyb' := abs_le.1 hyb'
  have run := world_run_low (v := ⟨r1, r2, truncRat r⟩) h31 hlow rest
  refine ⟨_, y1, y2, y, by rw [e]; exact run, ?_, ?_, ?_, ?_⟩
  · rw [e]
    dsimp only
    rw [← hn]
    unfold worldDec
    dsimp only
    rw [d1, d2, if_pos rfl, int32_exact hn24]
    simp only [div32, Fl.div]
    rw [if_neg (by norm_num), hy]
  · norm_num at hyb'; linarith
  · norm_num at hyb'; linarith
  · intro hd
    have h83 : -8388608 ≤ truncRat r := by
      have : (-8388609 : Rat) < (truncRat r : Rat) := by linarith
      have : (-8388609 : Int) < truncRat r := by exact_mod_cast this
      omega
    have hn' : n = truncRat r + 16777216 := by omega
    have hnR : (n : Rat) = truncRat r + 16777216 := by rw [hn']; push_cast; rfl
    rw [hnR] at hyb'
    rw [abs_le]
    norm_num at hyb' ⊢
    constructor <;> linarith
/-- The bottom of the Challenger Deep meets the conditions. -/
example : ∃ (env : Env) (l : Dis.Location), atCentre l = false ∧ env.toLla l = (.num (198 / 1000), .num (2481 / 1000), .num (-10935)) ∧
    |(198 / 1000 : Rat)| ≤ 157 / 100 ∧ |(2481 / 1000 : Rat)| ≤ 314159 / 100000 ∧ (-21000000 : Rat) ≤ -10935 ∧ (-10935 : Rat) ≤ -10486 :=
  ⟨{ codecEnv with toLla := fun _ => (.num (198 / 1000), .num (2481 / 1000), .num (-10935)) }, ⟨0x4158000000000000, 0, 0⟩,
    by decide +kernel, rfl, by rw [abs_le]; constructor <;> norm_num, by rw [abs_le]; constructor <;> norm_num, by norm_num, by norm_num⟩

/-- C41: a location more than 83887 m above the sea keeps its altitude to 16 m over the wire (its angles are damaged as those of
`C41_world_wire`). -/
theorem C41_world_wire_high (env : Env) {l : Dis.Location} {lat lon alt : Rat} (hc : atCentre l = false)
    (hl : env.toLla l = (.num lat, .num lon, .num alt)) (hlat : |lat| ≤ 157 / 100) (hlon : |lon| ≤ 314159 / 100000)
    (halt : 83887 ≤ alt ∧ alt ≤ 83886000) (rest : Cdis.Bits) :
    ∃ w lat' lon' alt', Cdis.WorldCoordinates.parse.run ((worldEnc env l).1.ser ++ rest) = .ok w rest ∧
      worldDec env w (worldEnc env l).2 = env.toEcef (.num lat') (.num lon') (.num alt') ∧
      |lat' * (9011847 / 524288) - lat| ≤ 2 / 1000000 ∧ |lon' * (9345619 / 1048576) - lon| ≤ 2 / 1000000 ∧
      |alt' - alt| ≤ 16 := by
  obtain ⟨r1, r2, y1, y2, e1, e2, h31, d1, d2, b1, b2⟩ := world_angles hlat hlon
  obtain ⟨r, s, y, hr, hr8, hs, hy, hyb⟩ := altitude_dam halt.1 halt.2
  have e : worldEnc env l = (⟨r1, r2, toI32 (.num s)⟩, DEKAMETER) := by
    unfold worldEnc
    rw [hc, hl]
    simp only [Bool.false_eq_true, if_false, hr, hs, e1, e2]
    rw [if_neg (by simpa [Fl.le] using hr8)]
  have hsb : |s - alt / 10| ≤ 1 / 1000000 := by
    obtain ⟨s', hs', hsb⟩ := round64_small (q := alt / 10) (B := 8388600) (by
      rw [abs_of_nonneg (by linarith [halt.1])]
      linarith [halt.2]) (by norm_num)
    simp only [Fl.div] at hs
    rw [if_neg (by norm_num), hs'] at hs
    cases hs
    exact hsb
  have hsb := abs_le.1 hsb
  have t := abs_lt.1 (truncRat_spec s).1
  have h24 : Cdis.In24 (toI32 (.num s)) := by
    rw [toI32_num (by rw [abs_lt]; constructor <;> linarith [halt.1, halt.2])]
    have a1 : (truncRat s : Rat) < 8388608 := by linarith [halt.2]
    have a2 : -1048577 < (truncRat s : Rat) := by linarith [halt.1]
    have a1 : truncRat s < 8388608 := by exact_mod_cast a1
    have a2 : -1048577 < truncRat s := by exact_mod_cast a2
    unfold Cdis.In24
    omega
  have run := Cdis.WorldCoordinates.run_raw (v := ⟨r1, r2, toI32 (.num s)⟩) h31 h24 rest
  refine ⟨_, y1, y2, y, by rw [e]; exact run, ?_, b1, b2, hyb⟩
  rw [e]
  unfold worldDec
  dsimp only
  rw [d1, d2, if_neg (by decide), hy]
end Verif.Props
