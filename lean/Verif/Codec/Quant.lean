import Verif.Core.IeeeMore
import Verif.Codec.Records

/-! # Quantisation: multiply, convert to an integer, convert back, divide -/

namespace Verif.Codec

/-- Rounding to `f32`: relative error `2 ^ -24`, or `2 ^ -150` near zero. -/
theorem round32_bound {q : Rat} (h : |q| < 2 ^ 100) :
    ∃ r, F32.round q = .num r ∧ F32.Rep r ∧ |r - q| ≤ |q| / 2 ^ 24 + 1 / 2 ^ 150 := by
  have h' : |q| < 2 ^ F32.emax := by
    have : (2 : Rat) ^ F32.emax = 2 ^ 127 := by simp [F32]
    rw [this]
    linarith [show (2 : Rat) ^ 100 < 2 ^ 127 by norm_num]
  obtain ⟨r, h1, h2, h3⟩ := Fmt.round_bound F32_ok h'
  refine ⟨r, h1, h2, ?_⟩
  have : (2 : Rat) ^ (F32.emin - F32.p) = 1 / 2 ^ 150 := by
    show (2 : Rat) ^ (-126 - (24 : Nat) : Int) = _
    norm_num
  rw [this] at h3
  exact h3

theorem round64_bound {q : Rat} (h : |q| < 2 ^ 100) :
    ∃ r, F64.round q = .num r ∧ F64.Rep r ∧ |r - q| ≤ |q| / 2 ^ 53 + 1 / 2 ^ 1000 := by
  have h' : |q| < 2 ^ F64.emax := by
    refine lt_of_lt_of_le h ?_
    show (2 : Rat) ^ 100 ≤ (2 : Rat) ^ (1023 : Int)
    have : (2 : Rat) ^ (100 : Int) ≤ (2 : Rat) ^ (1023 : Int) :=
      zpow_le_zpow_right₀ (by norm_num) (by norm_num)
    exact_mod_cast this
  obtain ⟨r, h1, h2, h3⟩ := Fmt.round_bound F64_ok h'
  refine ⟨r, h1, h2, le_trans h3 ?_⟩
  have : (2 : Rat) ^ (F64.emin - F64.p) ≤ 1 / 2 ^ 1000 := by
    have e : (1 : Rat) / 2 ^ 1000 = (2 : Rat) ^ (-1000 : Int) := by
      rw [zpow_neg, one_div]; norm_cast
    rw [e]
    exact zpow_le_zpow_right₀ (by norm_num) (by simp [F64])
  exact add_le_add (le_refl _) this

theorem truncRat_spec (x : Rat) : |(truncRat x : Rat) - x| < 1 ∧ |(truncRat x : Rat)| ≤ |x| := by
  unfold truncRat
  split
  · rename_i h
    have c : x.ceil = -(-x).floor := Rat.ceil_eq_neg_floor_neg x
    have f := floor_spec (-x)
    have h0 : 0 ≤ (-x).floor := by
      by_contra hc
      have : (-x).floor + 1 ≤ 0 := by omega
      have : (((-x).floor + 1 : Int) : Rat) ≤ 0 := by exact_mod_cast this
      push_cast at this
      linarith
    have h0' : (0 : Rat) ≤ (-x).floor := by exact_mod_cast h0
    rw [c]
    push_cast
    rw [abs_lt, abs_neg, abs_of_neg h, abs_of_nonneg h0']
    refine ⟨⟨?_, ?_⟩, ?_⟩ <;> linarith
  · rename_i h
    have f := floor_spec x
    have h0 : 0 ≤ x.floor := by
      by_contra hc
      have : x.floor + 1 ≤ 0 := by omega
      have : ((x.floor + 1 : Int) : Rat) ≤ 0 := by exact_mod_cast this
      push_cast at this
      linarith
    have h0' : (0 : Rat) ≤ x.floor := by exact_mod_cast h0
    rw [abs_lt, abs_of_nonneg h0', abs_of_nonneg (not_lt.1 h)]
    refine ⟨⟨?_, ?_⟩, ?_⟩ <;> linarith

theorem castSat_of_lt {lo hi : Int} {x : Rat} (h1 : (lo : Rat) - 1 < x) (h2 : x < hi + 1) (hlo : lo ≤ 0) (hhi : 0 ≤ hi) :
    castSat lo hi x = truncRat x := by
  have hlo' : (lo : Rat) ≤ 0 := by exact_mod_cast hlo
  have hhi' : (0 : Rat) ≤ hi := by exact_mod_cast hhi
  have a : truncRat x ≤ hi := by
    have t := truncRat_spec x
    by_contra hc
    have : (hi : Rat) + 1 ≤ truncRat x := by
      have : hi + 1 ≤ truncRat x := by omega
      exact_mod_cast this
    have t2 := t.2
    rw [abs_of_nonneg (by linarith)] at t2
    rcases abs_cases x with ⟨e, _⟩ | ⟨e, _⟩ <;> rw [e] at t2
    · linarith
    · have t1 := abs_lt.1 t.1
      linarith
  have b : lo ≤ truncRat x := by
    have t := truncRat_spec x
    by_contra hc
    have : (truncRat x : Rat) ≤ lo - 1 := by
      have : truncRat x ≤ lo - 1 := by omega
      exact_mod_cast this
    have t2 := t.2
    rw [abs_of_nonpos (by linarith)] at t2
    rcases abs_cases x with ⟨e, _⟩ | ⟨e, _⟩ <;> rw [e] at t2
    · have t1 := abs_lt.1 t.1
      linarith
    · linarith
  unfold castSat
  omega

/-- Integers of at most 24 bits are `f32` numbers. -/
theorem rep32_int {n : Int} (h : |n| < 2 ^ 24) : F32.Rep (n : Rat) :=
  ⟨n, 23, h, by decide, by decide, by simp [F32]⟩

theorem int32_exact {n : Int} (h : |n| < 2 ^ 24) : int32 n = .num n := Fmt.round_of_rep (rep32_int h)

theorem v32_b32 {y : Rat} (h : F32.Rep y) : v32 (b32 (.num y)) = .num y := by
  have := Fl.toBits_lt F32_ok (.num y) (by rintro q ⟨⟩; exact h)
  unfold v32 b32
  rw [UInt32.toNat_ofNat_of_lt' (by simpa [F32, UInt32.size] using this)]
  exact Fl.ofBits_toBits F32_ok h

theorem v32_rep {b : UInt32} {q : Rat} (h : v32 b = .num q) : F32.Rep q := Fl.ofBits_rep F32_ok h

/-- No `f32` number exceeds `2 ^ 128`. -/
theorem rep32_lt {q : Rat} (h : F32.Rep q) : |q| < 2 ^ 128 := by
  obtain ⟨m, e, hm, -, he, rfl⟩ := h
  have hm' : |(m : Rat)| < 2 ^ 24 := by
    have : |m| < 2 ^ 24 := hm
    exact_mod_cast this
  have he' : (2 : Rat) ^ (e - ((F32.p : Int) - 1)) ≤ 2 ^ (104 : Int) :=
    zpow_le_zpow_right₀ (by norm_num) (by
      have h1 : F32.emax = 127 := rfl
      have h2 : F32.p = 24 := rfl
      rw [h1] at he; rw [h2]; omega)
  have hpos : (0 : Rat) < (2 : Rat) ^ (e - ((F32.p : Int) - 1)) := by positivity
  rw [abs_mul, abs_of_pos hpos]
  calc |(m : Rat)| * (2 : Rat) ^ (e - ((F32.p : Int) - 1)) < 2 ^ 24 * (2 : Rat) ^ (e - ((F32.p : Int) - 1)) :=
        mul_lt_mul_of_pos_right hm' hpos
    _ ≤ 2 ^ 24 * 2 ^ (104 : Int) := mul_le_mul_of_nonneg_left he' (by norm_num)
    _ = 2 ^ 128 := by norm_num

/-- A product too large to be rounded near its value is infinite; otherwise the relative error is `2 ^ -24`. -/
theorem round32_large {q : Rat} (h : 1 ≤ |q|) :
    F32.round q = .inf (decide (q < 0)) ∨ ∃ r, F32.round q = .num r ∧ |r - q| ≤ |q| / 2 ^ 24 := by
  cases hr : F32.round q with
  | nan =>
    unfold Fmt.round at hr
    split at hr
    · exact absurd hr (by simp)
    · dsimp only at hr
      split at hr <;> exact absurd hr (by simp)
  | inf s =>
    unfold Fmt.round at hr
    split at hr
    · exact absurd hr (by simp)
    · dsimp only at hr
      split at hr
      · left; exact hr.symm
      · exact absurd hr (by simp)
  | num r =>
    right
    refine ⟨r, rfl, ?_⟩
    have := Fmt.round_rel hr (le_trans (by
      show (2 : Rat) ^ (-126 : Int) ≤ 1
      norm_num) h)
    simpa [F32] using this

/-! ## Truncating quantiser -/

theorem quant_enc {q K : Rat} (h : |q * K| ≤ 32767) :
    ∃ n : Int, toI16 (F32.round (q * K)) = n ∧ |(n : Rat) - q * K| ≤ 1 + 3 / 1000 ∧ |(n : Rat)| ≤ 32767 := by
  obtain ⟨r, hr, -, hb⟩ := round32_bound (q := q * K) (by
    linarith [show (32767 : Rat) < 2 ^ 100 by norm_num])
  have hb' : |r - q * K| ≤ 2 / 1000 := by
    refine le_trans hb ?_
    have : |q * K| / 2 ^ 24 ≤ 32767 / 2 ^ 24 := by gcongr
    linarith [show (32767 : Rat) / 2 ^ 24 + 1 / 2 ^ 150 ≤ 2 / 1000 by norm_num]
  have hr' : |r| < 32768 := by
    have : |r| ≤ |r - q * K| + |q * K| := by simpa using abs_add_le (r - q * K) (q * K)
    linarith
  have hlt := abs_lt.1 hr'
  have t := truncRat_spec r
  have e : toI16 (.num r) = truncRat r :=
    castSat_of_lt (by push_cast; linarith) (by push_cast; linarith) (by norm_num) (by norm_num)
  refine ⟨truncRat r, by rw [hr, e], ?_, ?_⟩
  · have : |(truncRat r : Rat) - q * K| ≤ |(truncRat r : Rat) - r| + |r - q * K| := by
      simpa using abs_add_le ((truncRat r : Rat) - r) (r - q * K)
    linarith [t.1]
  · have h1 : |(truncRat r : Rat)| < 32768 := lt_of_le_of_lt t.2 hr'
    have h2 : |truncRat r| < 32768 := by exact_mod_cast h1
    have : |truncRat r| ≤ 32767 := by omega
    exact_mod_cast this

theorem quant_dec {n : Int} {K : Rat} (hK : 1 / 1000 ≤ K) (hK' : K ≤ 1000000) (hn : |(n : Rat)| ≤ 32768) :
    ∃ y, v32 (b32 (div32 (int32 n) (.num K))) = .num y ∧ |y - n / K| ≤ (3 / 1000) / K := by
  have hK0 : 0 < K := lt_of_lt_of_le (by norm_num) hK
  have hn' : |n| < 2 ^ 24 := by
    have : |n| ≤ 32768 := by exact_mod_cast hn
    omega
  have hq : |(n : Rat) / K| < 2 ^ 100 := by
    rw [abs_div, abs_of_pos hK0, div_lt_iff₀ hK0]
    linarith [show (32768 : Rat) < 2 ^ 100 * (1 / 1000) by norm_num,
      mul_le_mul_of_nonneg_left hK (show (0 : Rat) ≤ 2 ^ 100 by norm_num)]
  obtain ⟨y, hy, hrep, hb⟩ := round32_bound hq
  refine ⟨y, ?_, ?_⟩
  · rw [int32_exact hn']
    simp only [div32, Fl.div]
    rw [if_neg hK0.ne', hy]
    exact v32_b32 hrep
  · refine le_trans hb ?_
    rw [abs_div, abs_of_pos hK0, div_div, mul_comm, ← div_div, div_add' _ _ _ hK0.ne']
    apply div_le_div_of_nonneg_right _ hK0.le
    have : |(n : Rat)| / 2 ^ 24 ≤ 32768 / 2 ^ 24 := by gcongr
    have h2 : 1 / 2 ^ 150 * K ≤ 1 / 2 ^ 150 * 1000000 := by gcongr
    linarith [show (32768 : Rat) / 2 ^ 24 + 1 / 2 ^ 150 * 1000000 ≤ 3 / 1000 by norm_num]

/-- Encode and decode with truncation: less than 1.01 steps off. -/
theorem quant_rt {q K : Rat} (hK : 1 / 1000 ≤ K) (hK' : K ≤ 1000000) (h : |q * K| ≤ 32767) :
    ∃ y, v32 (b32 (div32 (int32 (toI16 (F32.round (q * K)))) (.num K))) = .num y ∧ |y - q| ≤ (101 / 100) / K := by
  have hK0 : 0 < K := lt_of_lt_of_le (by norm_num) hK
  obtain ⟨n, hn, hb, hn'⟩ := quant_enc h
  obtain ⟨y, hy, hb'⟩ := quant_dec (n := n) hK hK' (by linarith)
  refine ⟨y, by rw [hn]; exact hy, ?_⟩
  have e : y - q = (y - n / K) + (n - q * K) / K := by field_simp; ring
  rw [e]
  refine le_trans (abs_add_le _ _) ?_
  have h1 : |((n : Rat) - q * K) / K| ≤ (1 + 3 / 1000) / K := by
    rw [abs_div, abs_of_pos hK0]
    exact div_le_div_of_nonneg_right hb hK0.le
  have h2 : (101 / 100 : Rat) / K = (3 / 1000) / K + (1 + 7 / 1000) / K := by ring
  have h3 : (1 + 3 / 1000 : Rat) / K ≤ (1 + 7 / 1000) / K := div_le_div_of_nonneg_right (by norm_num) hK0.le
  linarith

/-! ## Rounding quantiser -/

theorem roundAway_err (x : Rat) : |(roundAway x : Rat) - x| ≤ 1 / 2 := by
  unfold roundAway
  split
  · have f := floor_spec (-x + 1 / 2)
    push_cast
    rw [abs_le]
    constructor <;> linarith
  · have f := floor_spec (x + 1 / 2)
    rw [abs_le]
    constructor <;> linarith

theorem truncRat_int (n : Int) : truncRat (n : Rat) = n := by
  have t := (truncRat_spec (n : Rat)).1
  have : |truncRat (n : Rat) - n| < 1 := by exact_mod_cast t
  rw [abs_lt] at this
  omega

theorem quant_round_enc {lo hi : Int} (hlo : lo ≤ 0) (hhi : 0 ≤ hi) (hhi' : hi < 100000) (hlo' : -100000 < lo)
    {q K : Rat} (h1 : (lo : Rat) ≤ q * K) (h2 : q * K ≤ hi) :
    ∃ n : Int, Fl.toInt lo hi (F32.round (q * K)).roundInt = n ∧ |(n : Rat) - q * K| ≤ 1 / 2 + 7 / 1000 ∧ lo ≤ n ∧ n ≤ hi := by
  have hl : (lo : Rat) > -100000 := by exact_mod_cast hlo'
  have hh : (hi : Rat) < 100000 := by exact_mod_cast hhi'
  have habs : |q * K| ≤ 100000 := by rw [abs_le]; constructor <;> linarith
  obtain ⟨r, hr, -, hb⟩ := round32_bound (q := q * K) (by
    linarith [show (100000 : Rat) < 2 ^ 100 by norm_num])
  have hb' : |r - q * K| ≤ 7 / 1000 := by
    refine le_trans hb ?_
    have : |q * K| / 2 ^ 24 ≤ 100000 / 2 ^ 24 := by gcongr
    linarith [show (100000 : Rat) / 2 ^ 24 + 1 / 2 ^ 150 ≤ 7 / 1000 by norm_num]
  have ra := roundAway_err r
  have hb2 := abs_le.1 hb'
  have ra2 := abs_le.1 ra
  have e1 : lo ≤ roundAway r := by
    have : (lo : Rat) - 1 < roundAway r := by linarith
    have : lo - 1 < roundAway r := by exact_mod_cast this
    omega
  have e2 : roundAway r ≤ hi := by
    have : (roundAway r : Rat) < hi + 1 := by linarith
    have : roundAway r < hi + 1 := by exact_mod_cast this
    omega
  refine ⟨roundAway r, ?_, ?_, e1, e2⟩
  · rw [hr]
    show castSat lo hi (roundAway r : Int) = _
    unfold castSat
    rw [truncRat_int]
    omega
  · have : |(roundAway r : Rat) - q * K| ≤ |(roundAway r : Rat) - r| + |r - q * K| := by
      simpa using abs_add_le ((roundAway r : Rat) - r) (r - q * K)
    linarith

/-- Encode and decode with rounding to nearest: at most 0.52 steps off. -/
theorem quant_round_rt {lo hi : Int} (hlo : lo ≤ 0) (hhi : 0 ≤ hi) (hhi' : hi ≤ 32768) (hlo' : -32768 ≤ lo)
    {q K : Rat} (hK : 1 / 1000 ≤ K) (hK' : K ≤ 1000000) (h1 : (lo : Rat) ≤ q * K) (h2 : q * K ≤ hi) :
    ∃ y, v32 (b32 (div32 (int32 (Fl.toInt lo hi (F32.round (q * K)).roundInt)) (.num K))) = .num y ∧
      |y - q| ≤ (52 / 100) / K := by
  have hK0 : 0 < K := lt_of_lt_of_le (by norm_num) hK
  obtain ⟨n, hn, hb, hn1, hn2⟩ := quant_round_enc hlo hhi (by omega) (by omega) h1 h2
  have hn' : |n| ≤ 32768 := by rw [abs_le]; constructor <;> omega
  obtain ⟨y, hy, hb'⟩ := quant_dec (n := n) hK hK' (by exact_mod_cast hn')
  refine ⟨y, by rw [hn]; exact hy, ?_⟩
  have e : y - q = (y - n / K) + (n - q * K) / K := by field_simp; ring
  rw [e]
  refine le_trans (abs_add_le _ _) ?_
  have h1 : |((n : Rat) - q * K) / K| ≤ (1 / 2 + 7 / 1000) / K := by
    rw [abs_div, abs_of_pos hK0]
    exact div_le_div_of_nonneg_right hb hK0.le
  have h2 : (52 / 100 : Rat) / K = (3 / 1000) / K + (1 / 2 + 17 / 1000) / K := by ring
  have h3 : (1 / 2 + 7 / 1000 : Rat) / K ≤ (1 / 2 + 17 / 1000) / K := div_le_div_of_nonneg_right (by norm_num) hK0.le
  linarith

end Verif.Codec
