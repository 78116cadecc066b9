import Verif.Core.Ieee

/-! # Facts about the IEEE-754 model -/

namespace Verif

theorem quot_pow {N D : Rat} {n d : Nat} (hN : (2 : Rat) ^ n ≤ N) (hN' : N < 2 ^ (n + 1)) (hD : (2 : Rat) ^ d ≤ D)
    (hD' : D < 2 ^ (d + 1)) :
    (2 : Rat) ^ ((n : Int) - d - 1) ≤ N / D ∧ N / D < (2 : Rat) ^ ((n : Int) - d + 1) := by
  have two : (2 : Rat) ≠ 0 := by norm_num
  have pd : (0 : Rat) < 2 ^ d := by positivity
  have pn : (0 : Rat) < 2 ^ n := by positivity
  have hDp : 0 < D := lt_of_lt_of_le pd hD
  rw [zpow_sub₀ two, zpow_sub₀ two, zpow_add₀ two, zpow_sub₀ two, zpow_natCast, zpow_natCast, zpow_one]
  constructor
  · rw [div_div, div_le_div_iff₀ (by positivity) hDp]
    rw [pow_succ] at hD'
    nlinarith
  · rw [div_mul_eq_mul_div, div_lt_div_iff₀ hDp pd]
    rw [pow_succ] at hN'
    nlinarith

theorem ratLog2_spec {a : Rat} (h : 0 < a) : (2 : Rat) ^ ratLog2 a ≤ a ∧ a < (2 : Rat) ^ (ratLog2 a + 1) := by
  have hn : 0 < a.num := Rat.num_pos.2 h
  have hnn : a.num.natAbs ≠ 0 := by omega
  have hd : a.den ≠ 0 := a.den_nz
  have ea : a = (a.num.natAbs : Rat) / (a.den : Rat) := by
    conv_lhs => rw [← Rat.num_div_den a]
    congr 1
    rw [← Int.cast_natCast, Int.natAbs_of_nonneg hn.le]
  have q := quot_pow (N := a.num.natAbs) (D := a.den) (by exact_mod_cast Nat.log2_self_le hnn)
    (by exact_mod_cast Nat.lt_log2_self) (by exact_mod_cast Nat.log2_self_le hd)
    (by exact_mod_cast Nat.lt_log2_self)
  rw [← ea] at q
  unfold ratLog2
  dsimp only
  split
  · exact ⟨by assumption, q.2⟩
  · refine ⟨q.1, ?_⟩
    rw [Int.sub_add_cancel]
    exact not_le.1 (by assumption)

/-- The exponent is the only one in whose binade `a` lies. -/
theorem ratLog2_unique {a : Rat} {k : Int} (h1 : (2 : Rat) ^ k ≤ a) (h2 : a < (2 : Rat) ^ (k + 1)) : ratLog2 a = k := by
  have ha : 0 < a := lt_of_lt_of_le (by positivity) h1
  have s := ratLog2_spec ha
  have one : (1 : Rat) < 2 := by norm_num
  have a1 := (zpow_lt_zpow_iff_right₀ one).1 (lt_of_le_of_lt h1 s.2)
  have a2 := (zpow_lt_zpow_iff_right₀ one).1 (lt_of_le_of_lt s.1 h2)
  omega

theorem rabs_eq (q : Rat) : q.abs = |q| := by
  unfold Rat.abs
  split
  · exact (abs_of_nonneg (by assumption)).symm
  · rw [abs_of_neg (not_le.1 (by assumption))]

theorem floor_spec (x : Rat) : (x.floor : Rat) ≤ x ∧ x < x.floor + 1 := by
  have h := Int.floor_le x
  have h' := Int.lt_floor_add_one x
  exact ⟨h, h'⟩

theorem roundEven_err (x : Rat) : |(roundEven x : Rat) - x| ≤ 1 / 2 := by
  have h := floor_spec x
  unfold roundEven
  dsimp only
  rw [abs_le]
  split
  · constructor <;> linarith
  · split
    · push_cast; constructor <;> linarith
    · split
      · constructor <;> linarith
      · push_cast; constructor <;> linarith

theorem roundEven_int (n : Int) : roundEven (n : Rat) = n := by
  unfold roundEven
  have : ((n : Rat)).floor = n := Rat.floor_intCast n
  simp [this]

theorem roundEven_le {x : Rat} {n : Int} (h : x ≤ n) : roundEven x ≤ n := by
  have e := abs_le.1 (roundEven_err x)
  rcases eq_or_lt_of_le h with h | h
  · rw [h, roundEven_int]
  · by_contra hc
    have : (n : Rat) + 1 ≤ roundEven x := by exact_mod_cast Int.add_one_le_iff.2 (not_le.1 hc)
    have hf := floor_spec x
    have : x.floor < n := by
      have : (x.floor : Rat) < n := lt_of_le_of_lt hf.1 h
      exact_mod_cast this
    have h2 : roundEven x ≤ x.floor + 1 := by
      unfold roundEven; dsimp only; split; omega; split; omega; split <;> omega
    omega

theorem le_roundEven {x : Rat} {n : Int} (h : (n : Rat) ≤ x) : n ≤ roundEven x := by
  have hf : n ≤ x.floor := Rat.le_floor_iff.2 h
  unfold roundEven; dsimp only; split; omega; split; omega; split <;> omega

/-- `q` is a finite datum of the format. -/
def Fmt.Rep (F : Fmt) (q : Rat) : Prop :=
  ∃ (m e : Int), |m| < 2 ^ F.p ∧ F.emin ≤ e ∧ e ≤ F.emax ∧ q = m * (2 : Rat) ^ (e - (F.p - 1 : Int))

/-- The formats used have at least two significand bits and a consistent exponent range. -/
structure Fmt.Ok (F : Fmt) : Prop where
  p : 2 ≤ F.p
  e : F.emin ≤ F.emax
  eb : F.emax - F.emin + 1 = 2 ^ F.eb - 2
  pos : 2 ≤ F.eb

theorem F32_ok : F32.Ok := by constructor <;> decide
theorem F64_ok : F64.Ok := by constructor <;> decide

theorem Fmt.ulp_pos (F : Fmt) (q : Rat) : 0 < F.ulp q := by unfold Fmt.ulp; positivity

theorem zp (a b : Int) : (2 : Rat) ^ (a + b) = 2 ^ a * 2 ^ b := zpow_add₀ (by norm_num) a b

/-- The scaled significand is below `2 ^ p`. -/
theorem Fmt.scaled_lt (F : Fmt) {q : Rat} (h : q ≠ 0) : |q| / F.ulp q < 2 ^ F.p := by
  have s := ratLog2_spec (abs_pos.2 h)
  rw [div_lt_iff₀ (F.ulp_pos q), Fmt.ulp, ← zpow_natCast, ← zp]
  refine lt_of_lt_of_le s.2 (zpow_le_zpow_right₀ (by norm_num) ?_)
  have : ratLog2 |q| ≤ F.exp q := by rw [Fmt.exp, rabs_eq]; exact le_max_left _ _
  omega

/-- In the normal range the scaled significand has `p` bits. -/
theorem Fmt.scaled_ge (F : Fmt) (ok : F.Ok) {q : Rat} (h : q ≠ 0) (he : F.exp q ≠ F.emin) :
    (2 : Rat) ^ (F.p - 1) ≤ |q| / F.ulp q := by
  have s := ratLog2_spec (abs_pos.2 h)
  have : F.exp q = ratLog2 |q| := by
    unfold Fmt.exp at *
    rw [rabs_eq] at *
    omega
  rw [le_div_iff₀ (F.ulp_pos q), Fmt.ulp, ← zpow_natCast, ← zp, this]
  refine le_trans (zpow_le_zpow_right₀ (by norm_num) ?_) s.1
  have := ok.p
  omega

theorem Fmt.round_err (F : Fmt) {q r : Rat} (h : F.round q = .num r) : |r - q| ≤ F.ulp q / 2 := by
  unfold Fmt.round at h
  split at h
  · injection h with h; subst h
    have := F.ulp_pos q
    simp only [*, sub_zero, abs_zero]; linarith [F.ulp_pos 0]
  · dsimp only at h
    split at h
    · cases h
    · injection h with h
      have e := roundEven_err (q / F.ulp q)
      have p := F.ulp_pos q
      have : r - q = ((roundEven (q / F.ulp q) : Rat) - q / F.ulp q) * F.ulp q := by
        rw [← h, sub_mul, div_mul_cancel₀ _ p.ne']
      rw [this, abs_mul, abs_of_pos p]
      nlinarith

theorem Fmt.Rep.exp_le {F : Fmt} {m e : Int} (hm : |m| < 2 ^ F.p) (hemin : F.emin ≤ e)
    {q : Rat} (hq : q = m * (2 : Rat) ^ (e - (F.p - 1 : Int))) (h0 : q ≠ 0) : F.exp q ≤ e := by
  have s := ratLog2_spec (abs_pos.2 h0)
  have hm' : |(m : Rat)| < 2 ^ F.p := by exact_mod_cast hm
  have : |q| < 2 ^ (e + 1) := by
    rw [hq, abs_mul, abs_of_pos (by positivity : (0 : Rat) < 2 ^ (e - (F.p - 1 : Int)))]
    have : (2 : Rat) ^ (e + 1) = 2 ^ F.p * 2 ^ (e - (F.p - 1 : Int)) := by
      rw [← zpow_natCast, ← zp]; congr 1; ring
    rw [this]
    exact mul_lt_mul_of_pos_right hm' (by positivity)
  have := (zpow_lt_zpow_iff_right₀ (by norm_num : (1 : Rat) < 2)).1 (lt_of_le_of_lt s.1 this)
  unfold Fmt.exp
  rw [rabs_eq]
  omega

/-- A finite datum is an integer number of its own units in the last place. -/
theorem Fmt.Rep.scaled {F : Fmt} {q : Rat} (h : F.Rep q) (h0 : q ≠ 0) :
    F.exp q ≤ F.emax ∧ ∃ k : Int, q = k * F.ulp q := by
  obtain ⟨m, e, hm, h1, h2, hq⟩ := h
  have he := Fmt.Rep.exp_le hm h1 hq h0
  refine ⟨he.trans h2, m * 2 ^ (e - F.exp q).toNat, ?_⟩
  conv_lhs => rw [hq]
  push_cast
  rw [mul_assoc, Fmt.ulp, ← zpow_natCast, ← zp]
  congr 2
  omega

theorem Fmt.round_of_rep {F : Fmt} {q : Rat} (h : F.Rep q) : F.round q = .num q := by
  unfold Fmt.round
  split
  · simp [*]
  · have h0 : q ≠ 0 := by assumption
    obtain ⟨he, k, hk⟩ := h.scaled h0
    have p := F.ulp_pos q
    have : q / F.ulp q = k := by rw [div_eq_iff p.ne']; exact hk
    dsimp only
    rw [this, roundEven_int, ← hk, if_neg]
    rw [rabs_eq, not_le]
    have := F.scaled_lt h0
    rw [div_lt_iff₀ p] at this
    refine lt_of_lt_of_le this ?_
    rw [Fmt.ulp, ← zpow_natCast, ← zp]
    exact zpow_le_zpow_right₀ (by norm_num) (by omega)

theorem Fmt.rep_zero {F : Fmt} (ok : F.Ok) : F.Rep 0 := ⟨0, F.emin, by simp, le_refl _, ok.e, by simp⟩

/-- Rounding yields a datum of the format. -/
theorem Fmt.round_rep {F : Fmt} (ok : F.Ok) {q r : Rat} (h : F.round q = .num r) : F.Rep r := by
  unfold Fmt.round at h
  split at h
  · injection h with h; subst h; exact Fmt.rep_zero ok
  · rename_i h0
    dsimp only at h
    split at h
    · cases h
    · rename_i hov
      injection h with h
      rw [h, rabs_eq, not_le] at hov
      have p := F.ulp_pos q
      have lt := F.scaled_lt h0
      have a1 : |q / F.ulp q| < 2 ^ F.p := by rw [abs_div, abs_of_pos p]; exact lt
      have hk : |roundEven (q / F.ulp q)| ≤ 2 ^ F.p := by
        rw [abs_lt] at a1
        rw [abs_le]
        refine ⟨le_roundEven ?_, roundEven_le ?_⟩
        · push_cast; exact a1.1.le
        · push_cast; exact a1.2.le
      have hexp : F.exp q ≤ F.emax := by
        by_contra hc
        have hne : F.exp q ≠ F.emin := by have := ok.e; omega
        have ge := F.scaled_ge ok h0 hne
        have : (2 : Rat) ^ (F.p - 1) ≤ |(roundEven (q / F.ulp q) : Rat)| := by
          rcases le_or_gt 0 q with hs | hs
          · rw [abs_of_nonneg hs] at ge
            have : (2 : Int) ^ (F.p - 1) ≤ roundEven (q / F.ulp q) := le_roundEven (by push_cast; exact ge)
            have : (2 : Rat) ^ (F.p - 1) ≤ roundEven (q / F.ulp q) := by exact_mod_cast this
            exact this.trans (le_abs_self _)
          · rw [abs_of_neg hs, neg_div] at ge
            have : roundEven (q / F.ulp q) ≤ -(2 : Int) ^ (F.p - 1) := roundEven_le (by push_cast; linarith)
            have : (roundEven (q / F.ulp q) : Rat) ≤ -(2 : Rat) ^ (F.p - 1) := by exact_mod_cast this
            have e := neg_le_abs (roundEven (q / F.ulp q) : Rat)
            linarith
        have : (2 : Rat) ^ (F.emax + 1) ≤ |r| := by
          rw [← h, abs_mul, abs_of_pos p]
          refine le_trans ?_ (mul_le_mul_of_nonneg_right this p.le)
          rw [Fmt.ulp, ← zpow_natCast, ← zp]
          have := ok.p
          exact zpow_le_zpow_right₀ (by norm_num) (by omega)
        linarith
      rcases lt_or_eq_of_le hk with hk | hk
      · exact ⟨_, F.exp q, hk, by unfold Fmt.exp; exact le_max_right _ _, hexp, h.symm⟩
      · have hr : |r| = 2 ^ (F.exp q + 1) := by
          have hk' : |(roundEven (q / F.ulp q) : Rat)| = 2 ^ F.p := by exact_mod_cast hk
          rw [← h, abs_mul, abs_of_pos p, hk', Fmt.ulp, ← zpow_natCast, ← zp]
          congr 1; ring
        rw [hr] at hov
        have hov := (zpow_lt_zpow_iff_right₀ (by norm_num : (1 : Rat) < 2)).1 hov
        have hh : ∀ s : Int, |s| = 1 → r = s * 2 ^ (F.exp q + 1) → F.Rep r := by
          intro s hs hr
          refine ⟨s * 2 ^ (F.p - 1), F.exp q + 1, ?_, ?_, by omega, ?_⟩
          · rw [abs_mul, hs, abs_of_pos (by positivity)]
            have := ok.p
            have : F.p = (F.p - 1) + 1 := by omega
            rw [one_mul]
            conv_rhs => rw [this]
            exact pow_lt_pow_right₀ (by norm_num) (by omega)
          · have : F.emin ≤ F.exp q := by unfold Fmt.exp; exact le_max_right _ _
            omega
          · rw [hr]; push_cast
            rw [mul_assoc, ← zpow_natCast, ← zp]
            congr 2
            have := ok.p
            omega
        rcases le_or_gt 0 r with hs | hs
        · rw [abs_of_nonneg hs] at hr
          exact hh 1 (by simp) (by rw [hr]; push_cast; ring)
        · rw [abs_of_neg hs] at hr
          exact hh (-1) (by simp) (by push_cast; linarith)

/-- Numbers below the top binade do not overflow. -/
theorem Fmt.round_num {F : Fmt} (ok : F.Ok) {q : Rat} (h : |q| < 2 ^ F.emax) : ∃ r, F.round q = .num r := by
  unfold Fmt.round
  split
  · exact ⟨0, rfl⟩
  · rename_i h0
    dsimp only
    rw [if_neg]
    · exact ⟨_, rfl⟩
    · rw [rabs_eq, not_le]
      have p := F.ulp_pos q
      have e := roundEven_err (q / F.ulp q)
      have s := ratLog2_spec (abs_pos.2 h0)
      have hl := (zpow_lt_zpow_iff_right₀ (by norm_num : (1 : Rat) < 2)).1 (lt_of_le_of_lt s.1 h)
      have hu : F.ulp q ≤ 2 ^ F.emax := by
        rw [Fmt.ulp]
        refine zpow_le_zpow_right₀ (by norm_num) ?_
        have := ok.p; have := ok.e
        unfold Fmt.exp; rw [rabs_eq]; omega
      have : (roundEven (q / F.ulp q) : Rat) * F.ulp q - q = ((roundEven (q / F.ulp q) : Rat) - q / F.ulp q) * F.ulp q := by
        rw [sub_mul, div_mul_cancel₀ _ p.ne']
      have h3 : |(roundEven (q / F.ulp q) : Rat) * F.ulp q - q| ≤ 1 / 2 * F.ulp q := by
        rw [this, abs_mul, abs_of_pos p]; exact mul_le_mul_of_nonneg_right e p.le
      have h4 := abs_sub_abs_le_abs_sub ((roundEven (q / F.ulp q) : Rat) * F.ulp q) q
      rw [zp, zpow_one]
      linarith

/-- Rounding has relative error at most `2 ^ -p` in the normal range. -/
theorem Fmt.round_rel {F : Fmt} {q r : Rat} (h : F.round q = .num r) (hn : 2 ^ F.emin ≤ |q|) :
    |r - q| ≤ |q| / 2 ^ F.p := by
  have e := F.round_err h
  have h0 : q ≠ 0 := by
    rintro rfl
    have : (0 : Rat) < 2 ^ F.emin := by positivity
    simp only [abs_zero] at hn
    linarith
  have s := ratLog2_spec (abs_pos.2 h0)
  have hl := (zpow_lt_zpow_iff_right₀ (by norm_num : (1 : Rat) < 2)).1 (lt_of_le_of_lt hn s.2)
  refine e.trans ?_
  have hu : F.ulp q = 2 ^ ratLog2 |q| * 2 / 2 ^ F.p := by
    rw [Fmt.ulp, eq_div_iff (by positivity), ← zpow_natCast, ← zp]
    conv_rhs => rw [← zpow_one (2 : Rat), ← zpow_mul, ← zp]
    unfold Fmt.exp; rw [rabs_eq]
    congr 1
    omega
  rw [hu]
  have : (0 : Rat) < 2 ^ F.p := by positivity
  rw [show (2 : Rat) ^ ratLog2 |q| * 2 / 2 ^ F.p / 2 = 2 ^ ratLog2 |q| / 2 ^ F.p by field_simp]
  exact div_le_div_of_nonneg_right s.1 this.le

/-- Every finite bit pattern denotes a datum of the format. -/
theorem Fl.ofBits_rep {F : Fmt} (ok : F.Ok) {b : Nat} {q : Rat} (h : Fl.ofBits F b = .num q) : F.Rep q := by
  unfold Fl.ofBits at h
  dsimp only at h
  split at h
  · split at h <;> cases h
  · rename_i hE
    injection h with h
    have hfrac : b % 2 ^ (F.p - 1) < 2 ^ (F.p - 1) := Nat.mod_lt _ (by positivity)
    have hEl : b / 2 ^ (F.p - 1) % 2 ^ F.eb < 2 ^ F.eb := Nat.mod_lt _ (by positivity)
    have hp : (2 : Int) ^ F.p = 2 * 2 ^ (F.p - 1) := by
      have := ok.p
      conv_lhs => rw [show F.p = (F.p - 1) + 1 by omega, pow_succ]
      ring
    generalize b % 2 ^ (F.p - 1) = frac at *
    generalize b / 2 ^ (F.p - 1) % 2 ^ F.eb = E at *
    have hfrac' : (frac : Int) < 2 ^ (F.p - 1) := by exact_mod_cast hfrac
    have hEl' : (E : Int) < 2 ^ F.eb := by exact_mod_cast hEl
    have hE' : (E : Int) ≠ 2 ^ F.eb - 1 := by
      intro hc
      apply hE
      have : (E : Int) + 1 = ((2 ^ F.eb : Nat) : Int) := by push_cast; omega
      omega
    have := ok.eb
    have := ok.e
    refine ⟨(if (b / 2 ^ (F.p - 1) / 2 ^ F.eb % 2 == 1) then -1 else 1) * (if E = 0 then (frac : Int) else 2 ^ (F.p - 1) + frac),
      (if E = 0 then F.emin else F.emin + (E - 1)), ?_, ?_, ?_, ?_⟩
    · rw [abs_mul, hp]
      have : |(if (b / 2 ^ (F.p - 1) / 2 ^ F.eb % 2 == 1) then (-1 : Int) else 1)| = 1 := by split <;> simp
      rw [this, one_mul]
      split
      · rw [abs_of_nonneg (by omega)]; omega
      · rw [abs_of_nonneg (by positivity)]; omega
    · split <;> omega
    · split <;> omega
    · rw [← h]; push_cast; rfl

theorem ofBits_fields (P B s e n : Nat) (hs : s < 2) (he : e < B) (hn : n < P) :
    (s * (B * P) + e * P + n) % P = n ∧ (s * (B * P) + e * P + n) / P % B = e ∧
    (s * (B * P) + e * P + n) / P / B % 2 = s := by
  have hP : 0 < P := by omega
  have hB : 0 < B := by omega
  have h1 : (s * (B * P) + e * P + n) = n + P * (s * B + e) := by ring
  have h2 : (s * (B * P) + e * P + n) / P = e + B * s := by
    rw [h1, Nat.add_mul_div_left _ _ hP, Nat.div_eq_of_lt hn, Nat.zero_add]; ring
  refine ⟨?_, ?_, ?_⟩
  · rw [h1, Nat.add_mul_mod_self_left, Nat.mod_eq_of_lt hn]
  · rw [h2, Nat.add_mul_mod_self_left, Nat.mod_eq_of_lt he]
  · rw [h2, Nat.add_mul_div_left _ _ hB, Nat.div_eq_of_lt he, Nat.zero_add, Nat.mod_eq_of_lt hs]

/-- Writing a finite datum as bits and reading them again gives the datum. -/
theorem Fl.ofBits_toBits {F : Fmt} (ok : F.Ok) {q : Rat} (h : F.Rep q) : Fl.ofBits F (Fl.toBits F (.num q)) = .num q := by
  by_cases h0 : q = 0
  · subst h0
    simp only [Fl.toBits, Fl.ofBits, if_true, Nat.zero_mod, Nat.zero_div]
    rw [if_neg]
    · simp
    · have h2 : 2 ^ 2 ≤ 2 ^ F.eb := Nat.pow_le_pow_right (by omega) ok.pos
      omega
  · obtain ⟨he, k, hk⟩ := h.scaled h0
    have p := F.ulp_pos q
    have hlt := F.scaled_lt h0
    have hkq : |q| / F.ulp q = |k| := by
      conv_lhs => rw [hk]
      rw [abs_mul, abs_of_pos (F.ulp_pos _), Int.cast_abs]
      conv_lhs => rw [← hk]
      rw [mul_div_assoc, div_self p.ne', mul_one]
    have hfl : (q.abs / F.ulp q).floor.toNat = k.natAbs := by
      rw [rabs_eq, hkq, Rat.floor_intCast, Int.abs_eq_natAbs]; omega
    have hn : k.natAbs < 2 * 2 ^ (F.p - 1) := by
      rw [hkq] at hlt
      have : |k| < 2 ^ F.p := by exact_mod_cast hlt
      have h3 : (2 : Int) ^ F.p = 2 * 2 ^ (F.p - 1) := by
        have := ok.p
        conv_lhs => rw [show F.p = (F.p - 1) + 1 by omega, pow_succ]
        ring
      have : (k.natAbs : Int) < ((2 * 2 ^ (F.p - 1) : Nat) : Int) := by push_cast; rw [← h3]; exact this
      exact_mod_cast this
    have hge : F.exp q ≠ F.emin → 2 ^ (F.p - 1) ≤ k.natAbs := by
      intro hc
      have := F.scaled_ge ok h0 hc
      rw [hkq] at this
      have h3 : (2 : Int) ^ (F.p - 1) ≤ |k| := by exact_mod_cast this
      have : ((2 ^ (F.p - 1) : Nat) : Int) ≤ (k.natAbs : Int) := by push_cast; exact h3
      exact_mod_cast this
    have hemin : F.emin ≤ F.exp q := by unfold Fmt.exp; exact le_max_right _ _
    have heb := ok.eb
    have hP : 0 < 2 ^ (F.p - 1) := by positivity
    have hB : 4 ≤ 2 ^ F.eb := Nat.pow_le_pow_right (n := 2) (by omega) ok.pos
    have hBc : ((2 ^ F.eb : Nat) : Int) = 2 ^ F.eb := by push_cast; rfl
    obtain ⟨d, hd⟩ : ∃ d : Nat, F.exp q = F.emin + d := ⟨(F.exp q - F.emin).toNat, by omega⟩
    have hd' : d ≤ 2 ^ F.eb - 3 := by omega
    have hdn : (F.exp q - F.emin).toNat = d := by omega
    have hsign : (if q < 0 then (-1 : Rat) else 1) * (k.natAbs : Rat) = k := by
      have : (k.natAbs : Rat) = |(k : Rat)| := by rw [← Int.cast_abs, Int.abs_eq_natAbs, Int.cast_natCast]
      rw [this]
      split
      · have : (k : Rat) < 0 := by
          by_contra hc
          rename_i hq0
          have : 0 ≤ q := by rw [hk]; exact mul_nonneg (not_lt.1 hc) p.le
          linarith
        rw [abs_of_neg this]; ring
      · have : 0 ≤ (k : Rat) := by
          by_contra hc
          rename_i hq0
          apply hq0
          rw [hk]; exact mul_neg_of_neg_of_pos (not_le.1 hc) p
        rw [abs_of_nonneg this]; ring
    rw [Fl.toBits, if_neg h0, hfl, hdn]
    have hs2 : (if q < 0 then 2 ^ F.eb * 2 ^ (F.p - 1) else 0) = (if q < 0 then 1 else 0) * (2 ^ F.eb * 2 ^ (F.p - 1)) := by
      split <;> simp
    rw [hs2]
    have hcast : ∀ s : Nat, s = (if q < 0 then 1 else 0) → (if s == 1 then (-1 : Rat) else 1) = if q < 0 then -1 else 1 := by
      intro s hs; subst hs; split <;> simp
    by_cases hsub : k.natAbs < 2 ^ (F.p - 1)
    · have hd0 : d = 0 := by
        by_contra hc
        exact absurd (hge (by omega)) (by omega)
      subst hd0
      have e := ofBits_fields (2 ^ (F.p - 1)) (2 ^ F.eb) (if q < 0 then 1 else 0) 0 k.natAbs (by split <;> omega) (by omega) hsub
      unfold Fl.ofBits
      dsimp only
      rw [e.1, e.2.1, e.2.2, if_neg (show ¬(0 = 2 ^ F.eb - 1) by omega), if_pos rfl, if_pos rfl, hcast _ rfl, hsign]
      congr 1
      conv_rhs => rw [hk, Fmt.ulp, hd]
      simp
    · have e := ofBits_fields (2 ^ (F.p - 1)) (2 ^ F.eb) (if q < 0 then 1 else 0) (d + 1) (k.natAbs - 2 ^ (F.p - 1))
        (by split <;> omega) (by omega) (by omega)
      have hre : (if q < 0 then 1 else 0) * (2 ^ F.eb * 2 ^ (F.p - 1)) + d * 2 ^ (F.p - 1) + k.natAbs
          = (if q < 0 then 1 else 0) * (2 ^ F.eb * 2 ^ (F.p - 1)) + (d + 1) * 2 ^ (F.p - 1) + (k.natAbs - 2 ^ (F.p - 1)) := by
        rw [Nat.add_mul, Nat.one_mul]; omega
      rw [hre]
      unfold Fl.ofBits
      dsimp only
      rw [e.1, e.2.1, e.2.2, if_neg (show ¬(d + 1 = 2 ^ F.eb - 1) by omega),
        if_neg (show ¬(d + 1 = 0) by omega), if_neg (show ¬(d + 1 = 0) by omega), hcast _ rfl]
      have : (2 : Rat) ^ (F.p - 1) + ((k.natAbs - 2 ^ (F.p - 1) : Nat) : Rat) = k.natAbs := by
        rw [Nat.cast_sub (by omega)]; push_cast; ring
      rw [this, hsign]
      congr 1
      conv_rhs => rw [hk, Fmt.ulp, hd]
      push_cast
      congr 2
      ring

theorem Fl.toBits_lt {F : Fmt} (ok : F.Ok) (x : Fl) (hx : ∀ q, x = .num q → F.Rep q) :
    Fl.toBits F x < 2 ^ (F.p + F.eb) := by
  have hP : 1 < 2 ^ (F.p - 1) := Nat.one_lt_two_pow (by have := ok.p; omega)
  have hB : 4 ≤ 2 ^ F.eb := Nat.pow_le_pow_right (n := 2) (by omega) ok.pos
  have hh : 2 ^ (F.p + F.eb) = 2 * (2 ^ F.eb * 2 ^ (F.p - 1)) := by
    have := ok.p
    rw [show F.p + F.eb = (F.p - 1) + F.eb + 1 by omega, pow_succ, pow_add]; ring
  rw [hh]
  have hlast : ∀ (d n : Nat), d + 2 ≤ 2 ^ F.eb → n < 2 * 2 ^ (F.p - 1) → d * 2 ^ (F.p - 1) + n < 2 ^ F.eb * 2 ^ (F.p - 1) := by
    intro d n hd hn
    have := Nat.mul_le_mul_right (2 ^ (F.p - 1)) hd
    rw [Nat.add_mul] at this
    omega
  cases x with
  | nan =>
    have : 2 ^ (F.p - 2) < 2 ^ (F.p - 1) := Nat.pow_lt_pow_right (by omega) (by have := ok.p; omega)
    have := hlast (2 ^ F.eb - 2) (2 ^ (F.p - 1) + 2 ^ (F.p - 2)) (by omega) (by omega)
    have h2 : (2 ^ F.eb - 1) * 2 ^ (F.p - 1) = (2 ^ F.eb - 2) * 2 ^ (F.p - 1) + 2 ^ (F.p - 1) := by
      rw [show 2 ^ F.eb - 1 = (2 ^ F.eb - 2) + 1 by omega, Nat.add_mul, Nat.one_mul]
    simp only [Fl.toBits]
    omega
  | inf s =>
    have := hlast (2 ^ F.eb - 2) (2 ^ (F.p - 1)) (by omega) (by omega)
    have h2 : (2 ^ F.eb - 1) * 2 ^ (F.p - 1) = (2 ^ F.eb - 2) * 2 ^ (F.p - 1) + 2 ^ (F.p - 1) := by
      rw [show 2 ^ F.eb - 1 = (2 ^ F.eb - 2) + 1 by omega, Nat.add_mul, Nat.one_mul]
    simp only [Fl.toBits]
    split <;> omega
  | num q =>
    by_cases h0 : q = 0
    · subst h0; simp only [Fl.toBits, if_true]; positivity
    · obtain ⟨he, k, hk⟩ := (hx q rfl).scaled h0
      have hlt := F.scaled_lt h0
      have hfl : (q.abs / F.ulp q).floor.toNat < 2 * 2 ^ (F.p - 1) := by
        rw [rabs_eq]
        have := (floor_spec (|q| / F.ulp q)).1
        have h3 : (2 : Int) ^ F.p = ((2 * 2 ^ (F.p - 1) : Nat) : Int) := by
          have := ok.p
          push_cast
          conv_lhs => rw [show F.p = (F.p - 1) + 1 by omega, pow_succ]
          ring
        have : (|q| / F.ulp q).floor < 2 ^ F.p := by
          have : ((|q| / F.ulp q).floor : Rat) < 2 ^ F.p := by linarith
          exact_mod_cast this
        rw [h3] at this
        omega
      have hemin : F.emin ≤ F.exp q := by unfold Fmt.exp; exact le_max_right _ _
      have heb := ok.eb
      have hBc : ((2 ^ F.eb : Nat) : Int) = 2 ^ F.eb := by push_cast; rfl
      have := hlast (F.exp q - F.emin).toNat _ (by omega) hfl
      rw [Fl.toBits, if_neg h0]
      split <;> omega

end Verif
