import Verif.Props.Quantise2

/-! # C41, continued: world coordinates on the wire, decimal floats -/

namespace Verif.Props
open Verif.Codec

/-! ## World coordinates on the wire -/

theorem rnd_err (p : Nat) (x : Rat) : |rnd p x - x| ≤ |x| / 2 ^ p := by
  unfold rnd
  split
  · rename_i h; simp [h]
  · rename_i h
    dsimp only
    rw [rabs_eq]
    have s := ratLog2_spec (abs_pos.2 h)
    generalize hk : ratLog2 |x| = k at s
    generalize hu : (2 : Rat) ^ (k - (p - 1 : Int)) = u
    have hu0 : 0 < u := by rw [← hu]; positivity
    have e := roundEven_err (x / u)
    have e2 : (roundEven (x / u) : Rat) * u - x = (roundEven (x / u) - x / u) * u := by field_simp
    rw [e2, abs_mul, abs_of_pos hu0]
    have h3 : u = 2 ^ k * 2 / 2 ^ p := by
      rw [← hu, show k - ((p : Int) - 1) = k + 1 - p by ring, zpow_sub₀ (by norm_num), zpow_add₀ (by norm_num)]
      simp
    have h4 : (2 : Rat) ^ k / 2 ^ p ≤ |x| / 2 ^ p := by gcongr; exact s.1
    have h5 : u / 2 = 2 ^ k / 2 ^ p := by rw [h3]; ring
    have h6 : |(roundEven (x / u) : Rat) - x / u| * u ≤ 1 / 2 * u := mul_le_mul_of_nonneg_right e hu0.le
    linarith

/-- What the reader divides latitudes by: about 17.19 (27 over a quarter turn, since `(2^30) - 1` is 27 in Rust). -/
theorem latScale_eq : Cdis.latScale = 9011847 / 524288 := by decide +kernel
/-- What the reader divides longitudes by: about 8.913. -/
theorem lonScale_eq : Cdis.lonScale = 9345619 / 1048576 := by decide +kernel

theorem asI32_err {r : Rat} (h : |r| ≤ 2147483812) : |(asI32 r : Rat) - r| ≤ 165 := by
  have hb := abs_le.1 h
  by_cases h1 : r < 2147483648
  · by_cases h2 : -2147483649 < r
    · have e : asI32 r = truncRat r := castSat_of_lt (by push_cast; linarith) (by push_cast; linarith) (by norm_num)
        (by norm_num)
      rw [e]
      linarith [(truncRat_spec r).1]
    · have t := abs_lt.1 (truncRat_spec r).1
      have hn : (truncRat r : Rat) < -2147483647 := by linarith
      have hn : truncRat r < -2147483647 := by exact_mod_cast hn
      have e : asI32 r = -2147483648 := by unfold asI32 castSat; omega
      rw [e, abs_le]
      push_cast
      constructor <;> linarith
  · have t := abs_lt.1 (truncRat_spec r).1
    have hn : 2147483646 < (truncRat r : Rat) := by linarith
    have hn : 2147483646 < truncRat r := by exact_mod_cast hn
    have e : asI32 r = 2147483647 := by unfold asI32 castSat; omega
    rw [e, abs_le]
    push_cast
    constructor <;> linarith

theorem wire_angle {r ρ : Rat} (hρ : 8 ≤ ρ) (hρ' : ρ ≤ 18) (hr : |r| ≤ 2147483812) :
    ∃ y, div32 (.num (f32 (f32 (asI32 r) / ρ))) (.num 683565248) = .num y ∧ |y * ρ - r / 683565248| ≤ 1 / 1000000 := by
  have hρ0 : 0 < ρ := by linarith
  have h1 := asI32_err hr
  generalize hn : (asI32 r : Rat) = n at h1 ⊢
  have hnB : |n| ≤ 2147483977 := by
    have : |n| ≤ |n - r| + |r| := by simpa using abs_add_le (n - r) r
    linarith
  have h2 := rnd_err 24 n
  show ∃ y, div32 (.num (rnd 24 (rnd 24 n / ρ))) _ = _ ∧ _
  generalize ha : rnd 24 n = a at h2 ⊢
  have h2' : |a - n| ≤ 129 := by
    refine le_trans h2 ?_
    have : |n| / 2 ^ 24 ≤ 2147483977 / 2 ^ 24 := by gcongr
    linarith [show (2147483977 : Rat) / 2 ^ 24 ≤ 129 by norm_num]
  have haB : |a| ≤ 2147484106 := by
    have : |a| ≤ |a - n| + |n| := by simpa using abs_add_le (a - n) n
    linarith
  have h3 := rnd_err 24 (a / ρ)
  generalize hb : rnd 24 (a / ρ) = b at h3 ⊢
  have h3' : |b * ρ - a| ≤ 129 := by
    have e : b * ρ - a = (b - a / ρ) * ρ := by field_simp
    rw [e, abs_mul, abs_of_pos hρ0]
    have h4 := mul_le_mul_of_nonneg_right h3 hρ0.le
    rw [abs_div, abs_of_pos hρ0] at h4
    have e2 : |a| / ρ / 2 ^ 24 * ρ = |a| / 2 ^ 24 := by field_simp
    rw [e2] at h4
    have : |a| / 2 ^ 24 ≤ 2147484106 / 2 ^ 24 := by gcongr
    linarith [show (2147484106 : Rat) / 2 ^ 24 ≤ 129 by norm_num]
  have hbB : |b * ρ| ≤ 2147484235 := by
    have : |b * ρ| ≤ |b * ρ - a| + |a| := by simpa using abs_add_le (b * ρ - a) a
    linarith
  have hbB' : |b| ≤ 268435530 := by
    rw [abs_mul, abs_of_pos hρ0] at hbB
    have := mul_le_mul_of_nonneg_left hρ (abs_nonneg b)
    linarith
  obtain ⟨y, hy, -, hyb⟩ := round32_bound (q := b / 683565248) (by
    rw [abs_div, abs_of_pos (by norm_num : (0 : Rat) < 683565248), div_lt_iff₀ (by norm_num)]
    linarith [show (268435530 : Rat) < 2 ^ 100 * 683565248 by norm_num])
  refine ⟨y, ?_, ?_⟩
  · simp only [div32, Fl.div]
    rw [if_neg (by norm_num), hy]
  · have h5 : |y * ρ - b * ρ / 683565248| ≤ 2 / 10000000 := by
      have e : y * ρ - b * ρ / 683565248 = (y - b / 683565248) * ρ := by ring
      rw [e, abs_mul, abs_of_pos hρ0]
      have h6 := mul_le_mul_of_nonneg_right hyb hρ0.le
      refine le_trans h6 ?_
      have e2 : (|b / 683565248| / 2 ^ 24 + 1 / 2 ^ 150) * ρ = |b * ρ| / 683565248 / 2 ^ 24 + ρ / 2 ^ 150 := by
        rw [abs_div, abs_mul, abs_of_pos hρ0, abs_of_pos (by norm_num : (0 : Rat) < 683565248)]
        ring
      rw [e2]
      have h7 : |b * ρ| / 683565248 / 2 ^ 24 ≤ 2147484235 / 683565248 / 2 ^ 24 := by gcongr
      have h8 : ρ / 2 ^ 150 ≤ 18 / 2 ^ 150 := by gcongr
      linarith [show (2147484235 : Rat) / 683565248 / 2 ^ 24 + 18 / 2 ^ 150 ≤ 2 / 10000000 by norm_num]
    rw [abs_le] at h1 h2' h3' h5 ⊢
    constructor <;> linarith

/-- Defect: a location sent over the wire.  With `lat`, `lon`, `alt` as above, the receiver calls the inverse conversion with
a latitude of `lat / 17.19` and a longitude of `lon / 8.91` (both within two millionths): the reader of the C-DIS
record divides the angles once more, by a number that `^` for exclusive or makes small. -/
theorem C41_world_wire (env : Env) {l : Dis.Location} {lat lon alt : Rat} (hc : atCentre l = false)
    (hl : env.toLla l = (.num lat, .num lon, .num alt)) (hlat : |lat| ≤ 157 / 100) (hlon : |lon| ≤ 314159 / 100000)
    (halt : -10485 ≤ alt ∧ alt ≤ 83886) (rest : Cdis.Bits) :
    ∃ w lat' lon' alt', Cdis.WorldCoordinates.parse.run ((worldEnc env l).1.ser ++ rest) = .ok w rest ∧
      worldDec env w (worldEnc env l).2 = env.toEcef (.num lat') (.num lon') (.num alt') ∧
      |lat' * (9011847 / 524288) - lat| ≤ 2 / 1000000 ∧ |lon' * (9345619 / 1048576) - lon| ≤ 2 / 1000000 ∧
      |alt' - alt| ≤ 2 / 100 := by
  obtain ⟨r1, -, h11, -, h13, -⟩ := scale_angle (q := lat) (S := 5734161133882305 / 8388608) (by norm_num) (by norm_num)
    (by rw [abs_le]; constructor <;> norm_num) (by linarith)
  obtain ⟨r2, -, h21, -, h23, -⟩ := scale_angle (q := lon) (S := 2867080568276241 / 4194304) (by norm_num) (by norm_num)
    (by rw [abs_le]; constructor <;> norm_num) (by linarith)
  obtain ⟨r, y, hr, hr8, hy, hyb⟩ := altitude_cm (A := alt) (by rw [abs_le]; constructor <;> linarith [halt.1, halt.2])
  have e : worldEnc env l = (⟨r1, r2, toI32 (.num r)⟩, CM) := by
    unfold worldEnc
    rw [hc, hl]
    simp only [Bool.false_eq_true, if_false, latScale64_eq, lonScale64_eq, hr, h11, h21]
    rw [if_pos (by simpa [Fl.le] using hr8)]
    rfl
  have hlat' := abs_le.1 hlat
  have hlon' := abs_le.1 hlon
  have h13' := abs_le.1 h13
  have h23' := abs_le.1 h23
  have hr1 : |r1| ≤ 1073300000 := by rw [abs_le]; constructor <;> linarith
  have hr2 : |r2| ≤ 2147483812 := by rw [abs_le]; constructor <;> linarith
  have hr1' := abs_le.1 hr1
  have hlat31 : Cdis.InS 31 (asI32 r1) := by
    have := abs_le.1 (asI32_err (r := r1) (by linarith))
    have a1 : (asI32 r1 : Rat) < 1073741824 := by linarith
    have a2 : -1073741824 < (asI32 r1 : Rat) := by linarith
    have a1 : asI32 r1 < 1073741824 := by exact_mod_cast a1
    have a2 : -1073741824 < asI32 r1 := by exact_mod_cast a2
    unfold Cdis.InS
    norm_num
    omega
  have hrb : |r - alt * 100| ≤ 1 / 1000000 := by
    obtain ⟨s, hs, hsb⟩ := round64_small (q := alt * 100) (B := 8388600)
      (by rw [abs_le]; constructor <;> linarith [halt.1, halt.2]) (by norm_num)
    have : F64.round (alt * 100) = .num r := hr
    rw [hs] at this
    cases this
    exact hsb
  have hrb' := abs_le.1 hrb
  have halt24 : Cdis.In24 (toI32 (.num r)) := by
    rw [toI32_num (by rw [abs_lt]; constructor <;> linarith [halt.1, halt.2])]
    have t := abs_lt.1 (truncRat_spec r).1
    have a1 : (truncRat r : Rat) < 8388608 := by linarith [halt.2]
    have a2 : -1048577 < (truncRat r : Rat) := by linarith [halt.1]
    have a1 : truncRat r < 8388608 := by exact_mod_cast a1
    have a2 : -1048577 < truncRat r := by exact_mod_cast a2
    unfold Cdis.In24
    omega
  obtain ⟨y1, hy1, hyb1⟩ := wire_angle (r := r1) (ρ := Cdis.latScale) (by rw [latScale_eq]; norm_num)
    (by rw [latScale_eq]; norm_num) (by linarith)
  obtain ⟨y2, hy2, hyb2⟩ := wire_angle (r := r2) (ρ := Cdis.lonScale) (by rw [lonScale_eq]; norm_num)
    (by rw [lonScale_eq]; norm_num) (by linarith)
  have run := Cdis.WorldCoordinates.run_raw (v := ⟨r1, r2, toI32 (.num r)⟩) hlat31 halt24 rest
  refine ⟨_, y1, y2, y, by rw [e]; exact run, ?_, ?_, ?_, hyb⟩
  · rw [e]
    simp only [worldDec, latScale32_eq, lonScale32_eq, hy1, hy2, if_true, hy]
  · rw [latScale_eq] at hyb1
    rw [abs_le] at hyb1 ⊢
    constructor <;> linarith
  · rw [lonScale_eq] at hyb2
    rw [abs_le] at hyb2 ⊢
    constructor <;> linarith

/-- Defect: at the pole (latitude the `f64` nearest to a quarter turn) the scaled latitude is rounded to 2^30, which does
not fit 31 signed bits, and is read back as the equator. -/
theorem C41_world_pole :
    Fl.conv F32 (Fl.mul F64 FRAC_PI_2_64 latScale64) = .num 1073741824 ∧
    (match Cdis.WorldCoordinates.parse.run (Cdis.WorldCoordinates.ser ⟨1073741824, 0, 0⟩) with
      | .ok w _ => decide (w.latitude = 0)
      | _ => false) = true := by decide +kernel

/-! ## Decimal floats -/

/-- What the argument needs of the float format: products and quotients of moderate size have a relative error of at most
`u`. -/
structure DecFmt (F : Fmt) (u : Rat) : Prop where
  ok : F.Ok
  u0 : 0 ≤ u
  u1 : u ≤ 1 / 2 ^ 24
  rd : ∀ z : Rat, 1 ≤ z → z < 2 ^ 100 → ∃ r, F.round z = .num r ∧ F.Rep r ∧ |r - z| ≤ z * u
  int : ∀ n : Int, |n| < 2 ^ 24 → F.round n = .num n

theorem decFmt32 : DecFmt F32 (1 / 2 ^ 24) where
  ok := F32_ok
  u0 := by norm_num
  u1 := by norm_num
  rd := fun z h1 h2 => by
    obtain ⟨r, hr, hrep, hb⟩ := round32_bound (q := z) (by rwa [abs_of_nonneg (by linarith)])
    refine ⟨r, hr, hrep, ?_⟩
    have := Fmt.round_rel hr (by
      rw [abs_of_nonneg (by linarith)]
      refine le_trans ?_ h1
      show (2 : Rat) ^ (-126 : Int) ≤ 1
      norm_num)
    rw [abs_of_nonneg (show (0 : Rat) ≤ z by linarith)] at this
    have e : z / 2 ^ F32.p = z * (1 / 2 ^ 24) := by simp [F32]; ring
    rwa [e] at this
  int := fun n h => int32_exact h

theorem decFmt64 : DecFmt F64 (1 / 2 ^ 53) where
  ok := F64_ok
  u0 := by norm_num
  u1 := by norm_num
  rd := fun z h1 h2 => by
    obtain ⟨r, hr, hrep, hb⟩ := round64_bound (q := z) (by rwa [abs_of_nonneg (by linarith)])
    refine ⟨r, hr, hrep, ?_⟩
    have := Fmt.round_rel hr (by
      rw [abs_of_nonneg (by linarith)]
      refine le_trans ?_ h1
      show (2 : Rat) ^ (-1022 : Int) ≤ 1
      exact zpow_le_one_of_nonpos₀ (by norm_num) (by norm_num))
    rw [abs_of_nonneg (show (0 : Rat) ≤ z by linarith)] at this
    have e : z / 2 ^ F64.p = z * (1 / 2 ^ 53) := by simp [F64]; ring
    rwa [e] at this
  int := fun n h => by
    apply Fmt.round_of_rep
    refine ⟨n, 52, lt_of_lt_of_le h ?_, by decide, by decide, by simp [F64]⟩
    show (2 : Int) ^ 24 ≤ 2 ^ 53
    norm_num

/-- The invariant of the loop: `m` times ten to the power `e` is `q` up to rounding. -/
def DecInv (q u M : Rat) (m : Rat) (e : Nat) : Prop :=
  0 ≤ m ∧ |m * 10 ^ e - q| ≤ q * (2 * e * u) ∧ (e = 0 → m = q) ∧ (0 < e → M * (999 / 10000) ≤ m)

theorem decLoop_spec {F : Fmt} {u M q : Rat} (ok : DecFmt F u) (hM : 1000 ≤ M) (hq : 0 ≤ q) (hq' : q < 2 ^ 99)
    {bits : Nat} (hbits : bits ≤ 4) : ∀ (fuel e : Nat) (m : Rat), fuel + e = bits + 2 → e ≤ bits + 1 → DecInv q u M m e →
      ∃ m' e', decLoop F (.num M) bits fuel (.num m) e = (.num m', e') ∧ e' ≤ bits + 1 ∧ DecInv q u M m' e' ∧
        (m' ≤ M ∨ e' = bits + 1) := by
  intro fuel
  induction fuel with
  | zero => intro e m h1 h2; omega
  | succ fuel ih =>
    intro e m h1 h2 inv
    unfold decLoop
    by_cases hc : M < m ∧ e ≤ bits
    · have hcond : (Fl.lt (.num M) (.num m) && decide (e ≤ bits)) = true := by
        simp only [Fl.lt, Fl.le, Bool.and_eq_true, decide_eq_true_eq, Bool.not_eq_true', decide_eq_false_iff_not, not_le]
        exact ⟨⟨hc.1.le, hc.1⟩, hc.2⟩
      rw [if_pos hcond]
      obtain ⟨i1, i2, i3, i4⟩ := inv
      have hu0 := ok.u0
      have hu1 := ok.u1
      have hp : (1 : Rat) ≤ 10 ^ e := one_le_pow₀ (by norm_num)
      have he4 : (e : Rat) ≤ 4 := by exact_mod_cast (by omega : e ≤ 4)
      have he0 : (0 : Rat) ≤ e := by positivity
      have h2eu : 2 * (e : Rat) * u ≤ 1 := by
        calc 2 * (e : Rat) * u ≤ 8 * (1 / 2 ^ 24) := mul_le_mul (by linarith) hu1 hu0 (by norm_num)
          _ ≤ 1 := by norm_num
      have hm2 : m ≤ 2 * q := by
        have h3 := (abs_le.1 i2).2
        have h4 : q * (2 * e * u) ≤ q * 1 := mul_le_mul_of_nonneg_left h2eu hq
        have h5 : m * 1 ≤ m * 10 ^ e := mul_le_mul_of_nonneg_left hp i1
        linarith
      obtain ⟨r, hr, -, hb⟩ := ok.rd (m / 10) (by linarith [hc.1]) (by
        linarith [show (2 : Rat) * 2 ^ 99 = 2 ^ 100 by norm_num])
      have hdiv : Fl.div F (.num m) (.num 10) = .num r := by
        simp only [Fl.div]
        rw [if_neg (by norm_num), hr]
      rw [hdiv]
      have hb' := abs_le.1 hb
      have hsmall : m / 10 * u ≤ m / 10 * (1 / 2 ^ 24) := mul_le_mul_of_nonneg_left hu1 (by linarith)
      apply ih (e + 1) r (by omega) (by omega)
      refine ⟨by linarith [hc.1], ?_, by omega, fun _ => ?_⟩
      · have e1 : r * 10 ^ (e + 1) - q = (r - m / 10) * 10 ^ (e + 1) + (m * 10 ^ e - q) := by
          rw [pow_succ]; ring
        rw [e1]
        refine le_trans (abs_add_le _ _) ?_
        have hpos : (0 : Rat) < 10 ^ (e + 1) := by positivity
        rw [abs_mul, abs_of_pos hpos]
        have h3 := mul_le_mul_of_nonneg_right hb hpos.le
        have e2 : m / 10 * u * 10 ^ (e + 1) = m * 10 ^ e * u := by rw [pow_succ]; ring
        rw [e2] at h3
        have h4 : m * 10 ^ e ≤ 2 * q := by
          have h3 := (abs_le.1 i2).2
          have h4 : q * (2 * e * u) ≤ q * 1 := mul_le_mul_of_nonneg_left h2eu hq
          linarith
        have h5 := mul_le_mul_of_nonneg_right h4 hu0
        have e3 : q * (2 * ((e + 1 : Nat) : Rat) * u) = q * (2 * e * u) + 2 * q * u := by push_cast; ring
        rw [e3]
        linarith
      · linarith [hc.1]
    · have hcond : (Fl.lt (.num M) (.num m) && decide (e ≤ bits)) ≠ true := by
        intro hh
        simp only [Fl.lt, Fl.le, Bool.and_eq_true, decide_eq_true_eq, Bool.not_eq_true', decide_eq_false_iff_not, not_le] at hh
        exact hc ⟨hh.1.2, hh.2⟩
      rw [if_neg hcond]
      refine ⟨m, e, rfl, h2, inv, ?_⟩
      by_cases h3 : M < m
      · right
        have : ¬ e ≤ bits := fun h => hc ⟨h3, h⟩
        omega
      · left; linarith

/-- A number between 0 and almost `M` times ten to the power `k`: the mantissa fits, the exponent is at most `k`, and the decoded number is off by at most 1 plus a relative `11 / M`. -/
theorem dec_spec {F : Fmt} {u M q : Rat} (ok : DecFmt F u) (hM : 1000 ≤ M) (hM' : M < 2 ^ 24) (huM : u * M ≤ 1 / 100)
    {bits k : Nat} (hbits : bits ≤ 4) (hk : k ≤ bits + 1) (hq : 0 ≤ q) (hq' : q ≤ 99 / 100 * M * 10 ^ k) :
    ∃ m e, decLoop F (.num M) bits (bits + 2) (.num q) 0 = (.num m, e) ∧ e ≤ k ∧ 0 ≤ m ∧ m ≤ M ∧
      ∃ y, toFloat F (truncRat m) e = .num y ∧ F.Rep y ∧ |y - q| ≤ 1 + q * (11 / M) := by
  have hu0 := ok.u0
  have hu1 := ok.u1
  have hq99 : q < 2 ^ 99 := by
    have h10 : (10 : Rat) ^ k ≤ 10 ^ 5 := pow_le_pow_right₀ (by norm_num) (by omega)
    have : 99 / 100 * M * 10 ^ k ≤ 99 / 100 * M * 10 ^ 5 := mul_le_mul_of_nonneg_left h10 (by linarith)
    linarith [show (99 / 100 : Rat) * 2 ^ 24 * 10 ^ 5 < 2 ^ 99 by norm_num]
  obtain ⟨m, e, hl, he, inv, hend⟩ := decLoop_spec ok hM hq hq99 hbits (bits + 2) 0 q (by omega) (by omega)
    ⟨hq, by simp, fun _ => rfl, fun h => absurd h (lt_irrefl 0)⟩
  obtain ⟨i1, i2, i3, i4⟩ := inv
  have he5 : (e : Rat) ≤ 5 := by exact_mod_cast (by omega : e ≤ 5)
  have he0 : (0 : Rat) ≤ e := by positivity
  have h2eu : 2 * (e : Rat) * u ≤ 10 * u := mul_le_mul_of_nonneg_right (by linarith) hu0
  have hqeu : q * (2 * e * u) ≤ q * (10 * u) := mul_le_mul_of_nonneg_left h2eu hq
  have hqu : q * (10 * u) ≤ q * (1 / 1000) :=
    mul_le_mul_of_nonneg_left (le_trans (mul_le_mul_of_nonneg_left hu1 (by norm_num)) (by norm_num)) hq
  have i2' := abs_le.1 i2
  have hp : (0 : Rat) < 10 ^ e := by positivity
  have hek : e ≤ k := by
    by_contra hc
    have hm9 := i4 (by omega)
    have h1 : (10 : Rat) ^ (k + 1) ≤ 10 ^ e := pow_le_pow_right₀ (by norm_num) (by omega)
    have h2 : M * (999 / 10000) * 10 ^ (k + 1) ≤ m * 10 ^ e := mul_le_mul hm9 h1 (by positivity) i1
    have hk0 : (0 : Rat) < 10 ^ k := by positivity
    have h3 : M * (999 / 10000) * 10 ^ (k + 1) = M * 10 ^ k * (999 / 1000) := by rw [pow_succ]; ring
    have h4 : 0 < M * 10 ^ k := mul_pos (by linarith) hk0
    have h5 : 99 / 100 * M * 10 ^ k = M * 10 ^ k * (99 / 100) := by ring
    rw [h3] at h2
    rw [h5] at hq'
    linarith
  have hmM : m ≤ M := by
    rcases hend with h | h
    · exact h
    · have hk : e = k := by omega
      have h10 : m * 10 ^ e ≤ 1001 / 1000 * q := by linarith
      rw [hk] at h10 hp
      have h1 : m * 10 ^ k ≤ 1001 / 1000 * (99 / 100 * M * 10 ^ k) := by linarith
      have h2 : 1001 / 1000 * (99 / 100 * M * 10 ^ k) = (1001 / 1000 * (99 / 100) * M) * 10 ^ k := by ring
      rw [h2] at h1
      have := le_of_mul_le_mul_right h1 hp
      linarith
  have t := truncRat_spec m
  have hn0 : 0 ≤ truncRat m := by
    have := (abs_lt.1 t.1).1
    have : (-1 : Rat) < truncRat m := by linarith
    have : (-1 : Int) < truncRat m := by exact_mod_cast this
    omega
  have hn0' : (0 : Rat) ≤ truncRat m := by exact_mod_cast hn0
  have hnm : (truncRat m : Rat) ≤ m := by
    have := t.2
    rwa [abs_of_nonneg hn0', abs_of_nonneg i1] at this
  have hn24 : |truncRat m| < 2 ^ 24 := by
    rw [abs_of_nonneg hn0]
    have : (truncRat m : Rat) < 2 ^ 24 := by linarith
    exact_mod_cast this
  have e1 := ok.int _ hn24
  have hpow : (10 : Rat) ^ (e : Int) = ((10 ^ e : Int) : Rat) := by push_cast; norm_cast
  have h105 : (10 : Int) ^ e ≤ 10 ^ 5 := pow_le_pow_right₀ (by norm_num) (by omega)
  have e2 : pow10 F e = .num (10 ^ e) := by
    unfold pow10
    rw [hpow]
    have := ok.int (10 ^ e) (by
      rw [abs_of_pos (by positivity)]
      omega)
    rw [this]
    push_cast
    rfl
  refine ⟨m, e, hl, hek, i1, hmM, ?_⟩
  have mulEq : toFloat F (truncRat m) e = F.round ((truncRat m : Rat) * 10 ^ e) := by
    unfold toFloat
    rw [e1, e2]
    rfl
  have htr := abs_lt.1 t.1
  by_cases hz : e = 0
  · -- no division: the mantissa is the number truncated
    subst hz
    have hmq := i3 rfl
    have hy : F.round ((truncRat m : Rat) * 10 ^ 0) = .num (truncRat m) := by
      rw [pow_zero, mul_one]
      exact e1
    refine ⟨truncRat m, by rw [mulEq, hy], Fmt.round_rep ok.ok e1, ?_⟩
    have : 0 ≤ q * (11 / M) := mul_nonneg hq (div_nonneg (by norm_num) (by linarith))
    rw [← hmq] at this ⊢
    linarith [t.1]
  · have hm9 := i4 (by omega)
    have hpe : (10 : Rat) ^ e ≤ q * (1002 / 100 / M) + q * (2 / 100 / M) := by
      have h1 : M * (999 / 10000) * 10 ^ e ≤ m * 10 ^ e := mul_le_mul_of_nonneg_right hm9 hp.le
      have h2 : M * 10 ^ e ≤ (10000 / 999) * (q * (1001 / 1000)) := by linarith
      have h3 : (10 : Rat) ^ e = M * 10 ^ e / M := by field_simp
      have e3 : q * (1002 / 100 / M) + q * (2 / 100 / M) = q * (1004 / 100) / M := by ring
      rw [h3, e3]
      apply div_le_div_of_nonneg_right _ (by linarith : (0 : Rat) ≤ M)
      linarith
    have hn1 : (1 : Rat) ≤ truncRat m := by linarith
    have hp1 : (1 : Rat) ≤ 10 ^ e := one_le_pow₀ (by norm_num)
    have hz1 : (1 : Rat) ≤ (truncRat m : Rat) * 10 ^ e := by
      calc (1 : Rat) = 1 * 1 := by norm_num
        _ ≤ _ := mul_le_mul hn1 hp1 (by norm_num) (by linarith)
    have hzm : (truncRat m : Rat) * 10 ^ e ≤ m * 10 ^ e := mul_le_mul_of_nonneg_right hnm hp.le
    obtain ⟨y, hy, hrep, hb⟩ := ok.rd _ hz1 (by
      linarith [show (2 : Rat) * 2 ^ 99 = 2 ^ 100 by norm_num])
    refine ⟨y, by rw [mulEq, hy], hrep, ?_⟩
    have hzd : |(truncRat m : Rat) * 10 ^ e - m * 10 ^ e| ≤ 10 ^ e := by
      rw [← sub_mul, abs_mul, abs_of_pos hp]
      calc _ ≤ 1 * (10 : Rat) ^ e := mul_le_mul_of_nonneg_right t.1.le hp.le
        _ = _ := one_mul _
    have hzu : (truncRat m : Rat) * 10 ^ e * u ≤ 2 * q * u := mul_le_mul_of_nonneg_right (by linarith) hu0
    have huM' : u ≤ 1 / 100 / M := by
      rw [le_div_iff₀ (by linarith)]
      exact huM
    have h12 : q * (12 * u) ≤ q * (12 / 100 / M) := by
      apply mul_le_mul_of_nonneg_left _ hq
      have : 12 * (1 / 100 / M) = 12 / 100 / M := by ring
      linarith
    have e4 : q * (11 / M) = q * (1002 / 100 / M) + q * (2 / 100 / M) + q * (12 / 100 / M) + q * (84 / 100 / M) := by ring
    have h84 : 0 ≤ q * (84 / 100 / M) := mul_nonneg hq (div_nonneg (by norm_num) (by linarith))
    rw [e4]
    rw [abs_le] at hb hzd i2 ⊢
    constructor <;> linarith

theorem castSat_nat {m : Rat} {hi : Int} (h0 : 0 ≤ m) (h : m < hi + 1) (hhi : 0 ≤ hi) :
    ((castSat 0 hi m).toNat : Int) = truncRat m ∧ 0 ≤ truncRat m := by
  have e : castSat 0 hi m = truncRat m := castSat_of_lt (by push_cast; linarith) h (le_refl _) hhi
  have t := (abs_lt.1 (truncRat_spec m).1).1
  have : (-1 : Rat) < truncRat m := by linarith
  have : (-1 : Int) < truncRat m := by exact_mod_cast this
  rw [e]
  omega

theorem trunc_le {m : Rat} {M : Nat} (h0 : 0 ≤ m) (h : m ≤ M) : (truncRat m).toNat ≤ M := by
  have t := (truncRat_spec m).2
  rw [abs_of_nonneg h0] at t
  have : (truncRat m : Rat) ≤ M := le_trans (le_abs_self _) (le_trans t h)
  have : truncRat m ≤ M := by exact_mod_cast this
  omega

theorem max17 : Fl.sub F32 (.num (2 ^ 17)) (.num 1) = .num 131071 := by decide +kernel
theorem max15 : Fl.sub F32 (.num (2 ^ 15)) (.num 1) = .num 32767 := by decide +kernel
theorem max14 : Fl.sub F32 (.num (2 ^ 14)) (.num 1) = .num 16383 := by decide +kernel
theorem max24 : Fl.sub F64 (.num (2 ^ 24)) (.num 1) = .num 16777215 := by decide +kernel

/-- Emission frequencies (hertz) up to 12.97 GHz: the record fits its 17 and 4 bits, and decodes to a frequency off by at
most 1 Hz plus 0.0084 percent. -/
theorem C41_frequency {b : UInt32} {q : Rat} (hq : v32 b = .num q) (h0 : 0 ≤ q) (h : q ≤ 12976029000) :
    (freqEnc b).Wf 17 ∧ Near (freqDec (freqEnc b)) q (1 + q * (11 / 131071)) := by
  obtain ⟨m, e, hl, he, hm0, hmM, y, hy, hrep, hb⟩ := dec_spec decFmt32 (M := 131071) (by norm_num) (by norm_num)
    (by norm_num) (bits := 4) (k := 5) (by norm_num) (by norm_num) h0 (by linarith)
  have hE : freqEnc b = ⟨(toU32 (.num m)).toNat, e⟩ := by
    unfold freqEnc fromFloat
    rw [hq, max17, hl]
  obtain ⟨hc, ht0⟩ := castSat_nat (m := m) (hi := 4294967295) hm0 (by push_cast; linarith) (by norm_num)
  have hc' : ((toU32 (.num m)).toNat : Int) = truncRat m := hc
  have := trunc_le (M := 131071) hm0 (by exact_mod_cast hmM)
  rw [hE]
  refine ⟨⟨?_, ?_⟩, y, ?_, hb⟩
  · show (toU32 (.num m)).toNat < _
    omega
  · show e < _
    omega
  · unfold freqDec
    dsimp only
    rw [hc', hy]
    exact v32_b32 hrep
example : v32 0x501502F9 = .num 10000000000 ∧ (10000000000 : Rat) ≤ 12976029000 ∧ freqEnc 0x501502F9 = ⟨100000, 5⟩ := by
  decide +kernel

/-- Defect: a frequency of 20 GHz gets a mantissa that does not fit the 17 bits it has: the loop stops after five divisions
because it compares the exponent with the number of bits of its field. -/
theorem C41_frequency_overflow : v32 0x509502F9 = .num 20000000000 ∧ 2 ^ 17 ≤ (freqEnc 0x509502F9).mantissa := by
  decide +kernel

/-- Explosive force (detonation) up to 32 million. -/
theorem C41_explosive_force {b : UInt32} {q : Rat} (hq : v32 b = .num q) (h0 : 0 ≤ q) (h : q ≤ 32439330) :
    (forceEnc b).Wf ∧ Near (forceDec (forceEnc b)) q (1 + q * (11 / 32767)) := by
  obtain ⟨m, e, hl, he, hm0, hmM, y, hy, hrep, hb⟩ := dec_spec decFmt32 (M := 32767) (by norm_num) (by norm_num)
    (by norm_num) (bits := 3) (k := 3) (by norm_num) (by norm_num) h0 (by linarith)
  have hE : forceEnc b = ⟨(toU16 (.num m)).toNat, e⟩ := by
    unfold forceEnc fromFloat
    rw [hq, max15, hl]
  obtain ⟨hc, ht0⟩ := castSat_nat (m := m) (hi := 65535) hm0 (by push_cast; linarith) (by norm_num)
  have hc' : ((toU16 (.num m)).toNat : Int) = truncRat m := hc
  have := trunc_le (M := 32767) hm0 (by exact_mod_cast hmM)
  rw [hE]
  refine ⟨⟨?_, ?_⟩, y, ?_, hb⟩
  · show (toU16 (.num m)).toNat < _
    omega
  · show Cdis.InS 3 (e : Int)
    unfold Cdis.InS
    norm_num
    omega
  · unfold forceDec
    dsimp only
    rw [hc', hy]
    exact v32_b32 hrep
example : v32 0x47C35000 = .num 100000 ∧ forceEnc 0x47C35000 = ⟨10000, 1⟩ := by decide +kernel

/-- Pulse width (emission) up to 16 million microseconds. -/
theorem C41_pulse_width {b : UInt32} {q : Rat} (hq : v32 b = .num q) (h0 : 0 ≤ q) (h : q ≤ 16219170) :
    ((pulseEnc b).mantissa < 2 ^ 14 ∧ Cdis.InS 3 (pulseEnc b).exponent) ∧ Near (pulseDec (pulseEnc b)) q (1 + q * (11 / 16383)) := by
  obtain ⟨m, e, hl, he, hm0, hmM, y, hy, hrep, hb⟩ := dec_spec decFmt32 (M := 16383) (by norm_num) (by norm_num)
    (by norm_num) (bits := 3) (k := 3) (by norm_num) (by norm_num) h0 (by linarith)
  have hE : pulseEnc b = ⟨(toU16 (.num m)).toNat, e⟩ := by
    unfold pulseEnc fromFloat
    rw [hq, max14, hl]
  obtain ⟨hc, ht0⟩ := castSat_nat (m := m) (hi := 65535) hm0 (by push_cast; linarith) (by norm_num)
  have hc' : ((toU16 (.num m)).toNat : Int) = truncRat m := hc
  have := trunc_le (M := 16383) hm0 (by exact_mod_cast hmM)
  rw [hE]
  refine ⟨⟨?_, ?_⟩, y, ?_, hb⟩
  · show (toU16 (.num m)).toNat < _
    omega
  · show Cdis.InS 3 (e : Int)
    unfold Cdis.InS
    norm_num
    omega
  · unfold pulseDec
    dsimp only
    rw [hc', hy]
    exact v32_b32 hrep
example : v32 0x40200000 = .num (5 / 2) ∧ pulseEnc 0x40200000 = ⟨2, 0⟩ := by decide +kernel

/-- Parameter value of an articulated part of magnitude at most 16383: it fits and comes back within 1 (radians included:
the code keeps no fraction, since it never uses a negative exponent). -/
theorem C41_parameter_value {b : UInt32} {q : Rat} (hq : v32 b = .num q) (h : |q| ≤ 16383) :
    (pvEnc b).Wf ∧ Near (pvDec (pvEnc b)) q 1 := by
  have hb := abs_le.1 h
  have hl : decLoop F32 (.num 32767) 3 (3 + 2) (.num q) 0 = (.num q, 0) := by
    unfold decLoop
    rw [if_neg]
    intro hh
    simp only [Fl.lt, Fl.le, Bool.and_eq_true, decide_eq_true_eq, Bool.not_eq_true', decide_eq_false_iff_not, not_le] at hh
    linarith [hh.1.2]
  have hE : pvEnc b = ⟨toI32 (.num q), 0, none⟩ := by
    unfold pvEnc fromFloat
    rw [hq, max15, hl]
    rfl
  have hI : toI32 (.num q) = truncRat q := toI32_num (by linarith)
  have t := truncRat_spec q
  have hn : |truncRat q| ≤ 16383 := by
    have := le_trans t.2 h
    exact_mod_cast this
  have hn' := abs_le.1 hn
  have hn24 : |truncRat q| < 2 ^ 24 := by omega
  rw [hE]
  refine ⟨⟨rfl, ?_, ?_⟩, truncRat q, ?_, t.1.le⟩
  · show Cdis.InS 15 (toI32 (.num q))
    rw [hI]
    unfold Cdis.InS
    norm_num
    omega
  · show Cdis.InS 3 0
    decide
  · unfold pvDec toFloat
    dsimp only
    have e1 : F32.round (truncRat q : Rat) = .num (truncRat q) := int32_exact hn24
    have e2 : pow10 F32 0 = .num 1 := by decide +kernel
    rw [hI, e1, e2]
    have e3 : Fl.mul F32 (.num (truncRat q)) (.num 1) = .num (truncRat q) := by
      simp only [Fl.mul, mul_one]
      exact e1
    rw [e3]
    exact v32_b32 (rep32_int hn24)
example : v32 0xC3340000 = .num (-180) ∧ |(-180 : Rat)| ≤ 16383 ∧ pvEnc 0xC3340000 = ⟨-180, 0, none⟩ := by decide +kernel

/-- Defects: an articulation angle of 0.9 rad becomes 0; a value of 20000 does not fit the 15 signed bits of the mantissa;
an explosive force of 100 million needs an exponent that does not fit 3 signed bits. -/
theorem C41_decimal_defects :
    (v32 0x3F666666 = .num (7549747 / 8388608) ∧ v32 (pvDec (pvEnc 0x3F666666)) = .num 0) ∧
    (v32 0x469C4000 = .num 20000 ∧ ¬ (pvEnc 0x469C4000).Wf) ∧
    (v32 0x4DBEBC20 = .num 400000000 ∧ ¬ (forceEnc 0x4DBEBC20).Wf) := by decide +kernel

/-- A radio frequency, an integer number of hertz up to 1.66 THz: the record fits 24 and 4 bits and decodes to a frequency
off by at most 2 Hz plus a relative `11 / 16777215`. -/
theorem C41_transmit_frequency {n : UInt64} (h : n.toNat ≤ 1660944200000) :
    (txFreqEnc n).mantissa < 2 ^ 24 ∧ (txFreqEnc n).exponent ≤ 5 ∧
      |((txFreqDec (txFreqEnc n)).toNat : Rat) - n.toNat| ≤ 2 + n.toNat * (11 / 16777215) := by
  generalize hk : n.toNat = k at *
  have hkQ : (k : Rat) ≤ 1660944200000 := by exact_mod_cast h
  have hround : F64.round (k : Rat) = .num k := by
    apply Fmt.round_of_rep
    refine ⟨k, 52, ?_, by decide, by decide, by simp [F64]⟩
    show |(k : Int)| < 2 ^ 53
    rw [abs_of_nonneg (by positivity)]
    omega
  obtain ⟨m, e, hl, he, hm0, hmM, y, hy, hrep, hb⟩ := dec_spec decFmt64 (M := 16777215) (by norm_num) (by norm_num)
    (by norm_num) (bits := 4) (k := 5) (by norm_num) (by norm_num) (q := (k : Rat)) (by positivity) (by linarith)
  have hE : txFreqEnc n = ⟨(toU32 (.num m)).toNat, e⟩ := by
    unfold txFreqEnc fromFloat
    rw [hk]
    have : F64.round ((k : Nat) : Rat) = .num k := hround
    rw [this, max24, hl]
  obtain ⟨hc, ht0⟩ := castSat_nat (m := m) (hi := 4294967295) hm0 (by push_cast; linarith) (by norm_num)
  have hc' : ((toU32 (.num m)).toNat : Int) = truncRat m := hc
  have htr : (truncRat m).toNat ≤ 16777215 := trunc_le (M := 16777215) hm0 (by exact_mod_cast hmM)
  rw [hE]
  refine ⟨by show (toU32 (.num m)).toNat < _; omega, he, ?_⟩
  have hyb := abs_le.1 hb
  have hk0 : (0 : Rat) ≤ k := by positivity
  have hy0 : -2 < y := by
    have : (k : Rat) * (11 / 16777215) ≤ k * 1 := mul_le_mul_of_nonneg_left (by norm_num) hk0
    linarith
  have hyt : y < 3000000000000 := by
    have : (k : Rat) * (11 / 16777215) ≤ 1660944200000 * (11 / 16777215) := mul_le_mul_of_nonneg_right hkQ (by norm_num)
    linarith
  have t := abs_lt.1 (truncRat_spec y).1
  have hdec : ((txFreqDec ⟨(toU32 (.num m)).toNat, e⟩).toNat : Int) = max 0 (truncRat y) := by
    unfold txFreqDec
    dsimp only
    rw [hc', hy]
    show ((UInt64.ofNat (castSat 0 18446744073709551615 y).toNat).toNat : Int) = _
    have hty : truncRat y < 3000000000002 := by
      have : (truncRat y : Rat) < 3000000000002 := by linarith
      exact_mod_cast this
    rw [UInt64.toNat_ofNat_of_lt' (by unfold castSat UInt64.size; omega)]
    unfold castSat
    omega
  have hdecQ : ((txFreqDec ⟨(toU32 (.num m)).toNat, e⟩).toNat : Rat) = max 0 (truncRat y : Rat) := by exact_mod_cast hdec
  rw [hdecQ]
  have hk11 : (0 : Rat) ≤ k * (11 / 16777215) := mul_nonneg hk0 (by norm_num)
  rcases max_cases (0 : Rat) (truncRat y) with ⟨e1, h1⟩ | ⟨e1, h1⟩ <;> rw [e1, abs_le] <;> constructor <;> linarith
example : txFreqEnc 243000000 = ⟨2430000, 2⟩ ∧ txFreqDec ⟨2430000, 2⟩ = 243000000 := by decide +kernel

end Verif.Props
