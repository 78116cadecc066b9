import Verif.Codec.Quant

/-! # Quantising a quantised number -/

namespace Verif.Codec

theorem round_at {x : Rat} {k : Int} (h1 : (2 : Rat) ^ k ≤ |x|) (h2 : |x| < (2 : Rat) ^ (k + 1)) (hk : -126 ≤ k) (hk' : k < 100) :
    F32.round x = .num (roundEven (x / 2 ^ (k - 23)) * 2 ^ (k - 23)) := by
  have hp : (0 : Rat) < 2 ^ k := by positivity
  have h0 : x ≠ 0 := by rintro rfl; rw [abs_zero] at h1; linarith
  have hl : ratLog2 x.abs = k := by rw [rabs_eq]; exact ratLog2_unique h1 h2
  have hu : F32.ulp x = 2 ^ (k - 23) := by
    unfold Fmt.ulp Fmt.exp
    rw [hl]
    show (2 : Rat) ^ (max k (-126) - ((24 : Nat) - 1 : Int)) = _
    rw [max_eq_left hk]
    rfl
  have hx : |x| < 2 ^ F32.emax := by
    refine lt_of_lt_of_le h2 ?_
    show (2 : Rat) ^ (k + 1) ≤ (2 : Rat) ^ (127 : Int)
    exact zpow_le_zpow_right₀ (by norm_num) (by omega)
  obtain ⟨r, hr⟩ := Fmt.round_num F32_ok hx
  rw [hr]
  unfold Fmt.round at hr
  rw [if_neg h0] at hr
  dsimp only at hr
  rw [hu] at hr
  split at hr
  · exact absurd hr (by simp)
  · exact hr.symm

theorem roundEven_even {N : Int} {t : Rat} (h : |t| ≤ 1 / 2) : roundEven ((2 * N : Int) + t) = 2 * N := by
  have h' := abs_le.1 h
  have f := floor_spec ((2 * N : Int) + t)
  have e : (((2 * N : Int) : Rat) + t).floor = 2 * N ∨ (((2 * N : Int) : Rat) + t).floor = 2 * N - 1 := by
    have a : (((2 * N : Int) : Rat) + t).floor < 2 * N + 1 := by
      have : ((((2 * N : Int) : Rat) + t).floor : Rat) < ((2 * N + 1 : Int) : Rat) := by push_cast at f ⊢; linarith
      exact_mod_cast this
    have b : 2 * N - 2 < (((2 * N : Int) : Rat) + t).floor := by
      have : ((2 * N - 2 : Int) : Rat) < ((((2 * N : Int) : Rat) + t).floor : Rat) := by push_cast at f ⊢; linarith
      exact_mod_cast this
    omega
  unfold roundEven
  dsimp only
  rcases e with e | e
  · rw [e]
    split
    · rfl
    · split
      · rename_i h2; push_cast at h2; linarith
      · rw [if_pos (by omega)]
  · rw [e]
    split
    · rename_i h2; push_cast at h2; linarith
    · split
      · omega
      · rw [if_neg (by omega)]; omega

/-- A tenth of a whole number, rounded, times ten, rounded, is the number (Kahan). -/
theorem tenth_times_ten {n : Int} (h : |n| ≤ 1048576) : ∃ d, F32.round ((n : Rat) / 10) = .num d ∧ F32.Rep d ∧ F32.round (d * 10) = .num n := by
  by_cases h0 : n = 0
  · subst h0
    exact ⟨0, by simp [Fmt.round], Fmt.rep_zero F32_ok, by simp [Fmt.round]⟩
  have hpos : 0 < |n| := abs_pos.2 h0
  obtain ⟨a, ha⟩ := Int.eq_ofNat_of_zero_le hpos.le
  have ha0 : a ≠ 0 := by omega
  let e := Nat.log2 a
  have he1 : 2 ^ e ≤ a := Nat.log2_self_le ha0
  have he2 : a < 2 ^ (e + 1) := Nat.lt_log2_self
  have he : e ≤ 20 := by
    by_contra hc
    have : 2 ^ 21 ≤ 2 ^ e := Nat.pow_le_pow_right (by decide) (by omega)
    omega
  have hq : |(n : Rat)| = a := by
    have : ((|n| : Int) : Rat) = ((a : Int) : Rat) := by rw [ha]
    push_cast at this
    exact this
  have q1 : (2 : Rat) ^ e ≤ |(n : Rat)| := by rw [hq]; exact_mod_cast he1
  have q2 : |(n : Rat)| + 1 ≤ 2 * 2 ^ e := by
    rw [hq]
    have : a + 1 ≤ 2 * 2 ^ e := by rw [pow_succ] at he2; omega
    exact_mod_cast this
  have hP : (1 : Rat) ≤ 2 ^ e := one_le_pow₀ (by norm_num)
  -- one rounding with a step of `u`, of which `n` is a multiple
  have zk : ∀ j : Nat, (2 : Rat) ^ ((e : Int) - j) = 2 ^ e / 2 ^ j := by
    intro j
    rw [zpow_sub₀ (by norm_num), zpow_natCast, zpow_natCast]
  -- the quotient
  obtain ⟨c, hc, hc1, hc2⟩ : ∃ c : Nat, (c = 3 ∧ 5 * 2 ^ e ≤ 4 * |(n : Rat)| ∨ c = 4) ∧ (2 : Rat) ^ ((e : Int) - c) ≤ |(n : Rat) / 10| ∧
      |(n : Rat) / 10| < (2 : Rat) ^ ((e : Int) - c + 1) := by
    rw [abs_div, abs_of_pos (by norm_num : (0 : Rat) < 10)]
    by_cases hA : 5 * 2 ^ e ≤ 4 * |(n : Rat)|
    · refine ⟨3, Or.inl ⟨rfl, hA⟩, ?_, ?_⟩
      · rw [zk]; linarith
      · rw [show (e : Int) - (3 : Nat) + 1 = e - (2 : Nat) by push_cast; ring, zk]; linarith
    · refine ⟨4, Or.inr rfl, ?_, ?_⟩
      · rw [zk]; linarith
      · rw [show (e : Int) - (4 : Nat) + 1 = e - (3 : Nat) by push_cast; ring, zk]; linarith
  have hcc : c ≤ 4 := by omega
  have hd := round_at hc1 hc2 (by omega) (by omega)
  have uu : (2 : Rat) ^ ((e : Int) - c - 23) = 2 ^ e / 2 ^ (c + 23) := by
    rw [show (e : Int) - c - 23 = e - (c + 23 : Nat) by push_cast; ring, zk]
  rw [uu] at hd
  -- the error of the quotient is at most four tenths of a step, because ten times the quotient and `n` are even numbers of steps
  obtain ⟨X, hX⟩ : ∃ X : Int, (n : Rat) = 2 * X * (2 ^ e / 2 ^ (c + 23)) := by
    refine ⟨n * 2 ^ (c + 22 - e), ?_⟩
    push_cast
    rw [pow_sub₀ _ (by norm_num) (by omega : e ≤ c + 22)]
    field_simp
    ring
  have hu0 : (0 : Rat) < 2 ^ e / 2 ^ (c + 23) := by positivity
  generalize hu : (2 : Rat) ^ e / 2 ^ (c + 23) = u at *
  have hXu : (n : Rat) / 10 / u = X / 5 := by rw [hX]; field_simp; ring
  rw [hXu] at hd
  generalize hm : roundEven ((X : Rat) / 5) = m at *
  have hr : |10 * m - 2 * X| ≤ 4 := by
    have := roundEven_err ((X : Rat) / 5)
    rw [hm] at this
    have h2 := abs_le.1 this
    have a1 : ((10 * m - 2 * X : Int) : Rat) ≤ 5 := by push_cast; linarith
    have a2 : (-5 : Rat) ≤ ((10 * m - 2 * X : Int) : Rat) := by push_cast; linarith
    have b1 : 10 * m - 2 * X ≤ 5 := by exact_mod_cast a1
    have b2 : -5 ≤ 10 * m - 2 * X := by exact_mod_cast a2
    rw [abs_le]
    omega
  have hrep := Fmt.round_rep F32_ok hd
  refine ⟨_, hd, hrep, ?_⟩
  -- the product
  have hs : |(m : Rat) * u * 10 - n| ≤ 4 * u := by
    have : (m : Rat) * u * 10 - n = ((10 * m - 2 * X : Int) : Rat) * u := by rw [hX]; push_cast; ring
    rw [this, abs_mul, abs_of_pos hu0]
    apply mul_le_mul_of_nonneg_right _ hu0.le
    exact_mod_cast hr
  have hu2 : (2 : Rat) ^ e = u * 2 ^ (c + 23) := by rw [← hu]; field_simp
  have hu3 : u ≤ 1 / 32 := by
    rw [← hu, div_le_div_iff₀ (by positivity) (by norm_num), one_mul]
    calc (2 : Rat) ^ e * 32 = 2 ^ (e + 5) := by rw [pow_add]; norm_num
      _ ≤ 2 ^ (c + 23) := pow_le_pow_right₀ (by norm_num) (by omega)
  have t1 : |(n : Rat)| - 4 * u ≤ |(m : Rat) * u * 10| := by
    have := abs_sub_abs_le_abs_sub (n : Rat) (m * u * 10)
    rw [abs_sub_comm] at this
    linarith
  have t2 : |(m : Rat) * u * 10| ≤ |(n : Rat)| + 4 * u := by
    have := abs_sub_abs_le_abs_sub ((m : Rat) * u * 10) n
    linarith
  have fin : ∀ j : Nat, 8 * u ≤ 2 ^ e / 2 ^ j → 21 ≤ j → roundEven ((m : Rat) * u * 10 / (2 ^ e / 2 ^ j)) * (2 ^ e / 2 ^ j) = (n : Rat) := by
    intro j hj hj'
    have hU : (0 : Rat) < 2 ^ e / 2 ^ j := by positivity
    obtain ⟨N, hN⟩ : ∃ N : Int, (n : Rat) = ((2 * N : Int) : Rat) * (2 ^ e / 2 ^ j) := by
      refine ⟨n * 2 ^ (j - 1 - e), ?_⟩
      push_cast
      rw [pow_sub₀ _ (by norm_num) (by omega : e ≤ j - 1), show (2 : Rat) ^ j = 2 ^ (j - 1) * 2 by rw [← pow_succ]; congr 1; omega]
      field_simp
    have e1 : (m : Rat) * u * 10 / (2 ^ e / 2 ^ j) = ((2 * N : Int) : Rat) + (m * u * 10 - n) / (2 ^ e / 2 ^ j) := by
      rw [hN]; field_simp; ring
    rw [e1, roundEven_even, ← hN]
    rw [abs_div, abs_of_pos hU, div_le_iff₀ hU]
    linarith
  by_cases hx : (2 : Rat) ^ e ≤ |(m : Rat) * u * 10|
  · have h2 : |(m : Rat) * u * 10| < 2 ^ ((e : Int) + 1) := by
      rw [zpow_add₀ (by norm_num), zpow_natCast, zpow_one]; linarith
    rw [round_at (k := e) (by rw [zpow_natCast]; exact hx) h2 (by omega) (by omega)]
    rw [show (e : Int) - 23 = e - (23 : Nat) by push_cast; ring, zk, fin 23 ?_ (by omega)]
    rw [hu2, pow_add]
    have : (8 : Rat) ≤ 2 ^ c := by
      calc (8 : Rat) = 2 ^ 3 := by norm_num
        _ ≤ 2 ^ c := pow_le_pow_right₀ (by norm_num) (by omega)
    rw [← mul_assoc, mul_div_assoc, div_self (by norm_num), mul_one]
    nlinarith
  · rcases hc with ⟨rfl, hA⟩ | rfl
    · exfalso
      apply hx
      refine le_trans ?_ t1
      rw [hu2] at hA ⊢
      norm_num at hA ⊢
      linarith
    · push Not at hx
      have h1 : (2 : Rat) ^ ((e : Int) - 1) ≤ |(m : Rat) * u * 10| := by
        rw [show (e : Int) - 1 = e - (1 : Nat) by push_cast; ring, zk, pow_one]
        rw [hu2, show (2 : Rat) ^ (4 + 23) = 134217728 by norm_num] at q1 ⊢
        linarith
      have h2 : |(m : Rat) * u * 10| < 2 ^ ((e : Int) - 1 + 1) := by
        rw [sub_add_cancel, zpow_natCast]; exact hx
      rw [round_at (k := (e : Int) - 1) h1 h2 (by omega) (by omega)]
      rw [show (e : Int) - 1 - 23 = e - (24 : Nat) by push_cast; ring, zk, fin 24 ?_ (by omega)]
      rw [hu2]
      norm_num
      linarith

theorem trunc_near {x : Rat} {n : Int} (h : |x - n| < 1) : truncRat x = n ∨ truncRat x = n - n.sign := by
  have t := truncRat_spec x
  have h' := abs_lt.1 h
  have t1 := abs_lt.1 t.1
  have a : -2 < truncRat x - n ∧ truncRat x - n < 2 := by
    constructor
    · have : ((-2 : Int) : Rat) < ((truncRat x - n : Int) : Rat) := by push_cast; linarith
      exact_mod_cast this
    · have : ((truncRat x - n : Int) : Rat) < ((2 : Int) : Rat) := by push_cast; linarith
      exact_mod_cast this
  have t2 := t.2
  rcases lt_trichotomy n 0 with hn | rfl | hn
  · rw [Int.sign_eq_neg_one_of_neg hn]
    have hx : x < 0 := by
      have : (n : Rat) ≤ ((-1 : Int) : Rat) := by exact_mod_cast (by omega : n ≤ -1)
      push_cast at this; linarith
    rw [abs_of_neg hx] at t2
    have : -(truncRat x : Rat) ≤ -x := le_trans (neg_le_abs _) t2
    have : ((n - 1 : Int) : Rat) < ((truncRat x : Int) : Rat) := by push_cast; linarith
    have : n - 1 < truncRat x := by exact_mod_cast this
    omega
  · left
    push_cast at h
    rw [sub_zero] at h
    have : |(truncRat x : Rat)| < 1 := lt_of_le_of_lt t2 h
    have : |truncRat x| < 1 := by exact_mod_cast this
    rw [abs_lt] at this
    omega
  · rw [Int.sign_eq_one_of_pos hn]
    have hx : 0 < x := by
      have : ((1 : Int) : Rat) ≤ (n : Rat) := by exact_mod_cast (by omega : 1 ≤ n)
      push_cast at this; linarith
    rw [abs_of_pos hx] at t2
    have : (truncRat x : Rat) ≤ x := le_trans (le_abs_self _) t2
    have : ((truncRat x : Int) : Rat) < ((n + 1 : Int) : Rat) := by push_cast; linarith
    have : truncRat x < n + 1 := by exact_mod_cast this
    omega

theorem round_near {x : Rat} {n : Int} (h : |x - n| < 1 / 2) : roundAway x = n := by
  have t := abs_le.1 (roundAway_err x)
  have h' := abs_lt.1 h
  have a : -1 < roundAway x - n ∧ roundAway x - n < 1 := by
    constructor
    · have : ((-1 : Int) : Rat) < ((roundAway x - n : Int) : Rat) := by push_cast; linarith
      exact_mod_cast this
    · have : ((roundAway x - n : Int) : Rat) < ((1 : Int) : Rat) := by push_cast; linarith
      exact_mod_cast this
  omega

/-- Quantise a number of steps again: the error is far below one step. -/
theorem again {n : Int} {K : Rat} (hK : 1 / 1000 ≤ K) (hK' : K ≤ 1000000) (hn : |(n : Rat)| ≤ 32768) :
    ∃ y r, v32 (b32 (div32 (int32 n) (.num K))) = .num y ∧ mul32 (.num y) (.num K) = .num r ∧ |r - n| ≤ 6 / 1000 := by
  have hK0 : 0 < K := lt_of_lt_of_le (by norm_num) hK
  obtain ⟨y, hy, hb⟩ := quant_dec hK hK' hn
  have h1 : |y * K - n| ≤ 3 / 1000 := by
    have e : y * K - n = (y - n / K) * K := by field_simp
    rw [e, abs_mul, abs_of_pos hK0]
    calc _ ≤ (3 / 1000) / K * K := mul_le_mul_of_nonneg_right hb hK0.le
      _ = 3 / 1000 := by field_simp
  have h2 : |y * K| ≤ 32769 := by
    rw [abs_le] at h1 hn ⊢
    constructor <;> linarith
  obtain ⟨r, hr, -, hrb⟩ := round32_bound (q := y * K) (by linarith [show (32769 : Rat) < 2 ^ 100 by norm_num])
  refine ⟨y, r, hy, hr, ?_⟩
  have h3 : |r - y * K| ≤ 2 / 1000 := by
    refine le_trans hrb ?_
    have : |y * K| / 2 ^ 24 ≤ 32769 / 2 ^ 24 := by gcongr
    linarith [show (32769 : Rat) / 2 ^ 24 + 1 / 2 ^ 150 ≤ 2 / 1000 by norm_num]
  rw [abs_le] at h1 h3 ⊢
  constructor <;> linarith

theorem i16_of_near {n : Int} {r : Rat} (hn : -32768 ≤ n ∧ n ≤ 32767) (h : |r - n| < 1) : toI16 (.num r) = n ∨ toI16 (.num r) = n - n.sign := by
  have h' := abs_lt.1 h
  have c1 : ((-32768 : Int) : Rat) ≤ n := by exact_mod_cast hn.1
  have c2 : (n : Rat) ≤ ((32767 : Int) : Rat) := by exact_mod_cast hn.2
  have e : toI16 (.num r) = truncRat r := castSat_of_lt (by push_cast at c1 ⊢; linarith) (by push_cast at c2 ⊢; linarith) (by norm_num) (by norm_num)
  rw [e]
  exact trunc_near h

theorem toI16_range (x : Fl) : -32768 ≤ toI16 x ∧ toI16 x ≤ 32767 := by
  cases x with
  | nan => decide
  | inf s => cases s <;> decide
  | num q => show -32768 ≤ castSat _ _ _ ∧ castSat _ _ _ ≤ 32767; unfold castSat; omega

theorem toInt_range (lo hi : Int) (h0 : lo ≤ 0) (h1 : 0 ≤ hi) (x : Fl) : lo ≤ Fl.toInt lo hi x ∧ Fl.toInt lo hi x ≤ hi := by
  cases x with
  | nan => exact ⟨h0, h1⟩
  | inf s => cases s <;> simp [Fl.toInt] <;> omega
  | num q => show lo ≤ castSat _ _ _ ∧ castSat _ _ _ ≤ hi; unfold castSat; omega

end Verif.Codec
