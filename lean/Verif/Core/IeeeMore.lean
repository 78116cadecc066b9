import Verif.Core.IeeeLemmas

/-! # More facts about rounding -/

namespace Verif

/-- Rounding error in general: relative `2 ^ -p` or, near zero, absolute `2 ^ (emin - p)`. -/
theorem Fmt.round_bound {F : Fmt} (ok : F.Ok) {q : Rat} (h : |q| < 2 ^ F.emax) :
    ∃ r, F.round q = .num r ∧ F.Rep r ∧ |r - q| ≤ |q| / 2 ^ F.p + 2 ^ (F.emin - F.p) := by
  obtain ⟨r, hr⟩ := Fmt.round_num ok h
  refine ⟨r, hr, Fmt.round_rep ok hr, ?_⟩
  have hp : (0 : Rat) < 2 ^ F.p := by positivity
  have hz : (0 : Rat) < 2 ^ (F.emin - F.p) := by positivity
  by_cases h0 : q = 0
  · subst h0
    have : r = 0 := by
      unfold Fmt.round at hr
      simpa using hr.symm
    rw [this]
    simp
    exact hz.le
  by_cases hn : 2 ^ F.emin ≤ |q|
  · have := Fmt.round_rel hr hn
    linarith
  · have e := F.round_err hr
    have hq : 0 ≤ |q| / 2 ^ F.p := by positivity
    have hu : F.ulp q / 2 = 2 ^ (F.emin - F.p) := by
      have hexp : F.exp q = F.emin := by
        unfold Fmt.exp
        rw [rabs_eq]
        have s := ratLog2_spec (abs_pos.2 h0)
        have := (zpow_lt_zpow_iff_right₀ (by norm_num : (1 : Rat) < 2)).1 (lt_of_le_of_lt s.1 (not_le.1 hn))
        omega
      rw [Fmt.ulp, hexp, div_eq_iff (by norm_num)]
      conv_rhs => rw [show (2 : Rat) = 2 ^ (1 : Int) by norm_num, ← zpow_mul, ← zp]
      congr 1
      omega
    linarith

/-- Rounding a number that is zero or normal multiplies it by a factor between `1 - 2 ^ -p` and `1 + 2 ^ -p`. -/
theorem Fmt.round_pos {F : Fmt} (ok : F.Ok) {q : Rat} (h : q < 2 ^ F.emax) (hq : q = 0 ∨ 2 ^ F.emin ≤ q) :
    ∃ r, F.round q = .num r ∧ F.Rep r ∧ q * (1 - 1 / 2 ^ F.p) ≤ r ∧ r ≤ q * (1 + 1 / 2 ^ F.p) := by
  have hz : (0 : Rat) < 2 ^ F.emin := by positivity
  have h0 : 0 ≤ q := by rcases hq with rfl | hq <;> linarith
  obtain ⟨r, hr⟩ := Fmt.round_num ok (q := q) (by rwa [abs_of_nonneg h0])
  refine ⟨r, hr, Fmt.round_rep ok hr, ?_⟩
  rcases hq with rfl | hq
  · have : r = 0 := by
      unfold Fmt.round at hr
      simpa using hr.symm
    simp [this]
  · have := Fmt.round_rel hr (by rwa [abs_of_nonneg h0])
    rw [abs_of_nonneg h0, abs_le] at this
    have e : q * (1 / 2 ^ F.p) = q / 2 ^ F.p := by ring
    constructor <;> nlinarith

end Verif
