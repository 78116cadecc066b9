import Verif.Core.IeeeMore
import Verif.Codec.State

/-! # The heartbeat window in real time -/

namespace Verif.Codec

theorem F32_round_pos {q : Rat} (h : q < 2 ^ 127) (hq : q = 0 ∨ 1 / 2 ^ 126 ≤ q) :
    ∃ r, F32.round q = .num r ∧ F32.Rep r ∧ q * (1 - 1 / 2 ^ 24) ≤ r ∧ r ≤ q * (1 + 1 / 2 ^ 24) := by
  have := Fmt.round_pos F32_ok (q := q) (by simpa [F32] using h) (by
    rcases hq with hq | hq
    · exact Or.inl hq
    · refine Or.inr ?_
      have : (2 : Rat) ^ F32.emin = 1 / 2 ^ 126 := by
        show (2 : Rat) ^ (-126 : Int) = _
        norm_num
      rw [this]; exact hq)
  simpa [F32] using this

/-- `elapsed().as_secs_f32()` is within a relative error of `2 ^ -22` of the time that passed. -/
theorem elapsed_spec {now hb : Nat} (h : now - hb < 2 ^ 64 * 10 ^ 9) :
    ∃ r, elapsed now hb = .num r ∧ ((now - hb : Nat) : Rat) / 10 ^ 9 * (1 - 1 / 2 ^ 22) ≤ r ∧
      r ≤ ((now - hb : Nat) : Rat) / 10 ^ 9 * (1 + 1 / 2 ^ 22) := by
  generalize hd : now - hb = d at h
  unfold elapsed
  rw [hd]
  have hdiv := Nat.div_add_mod d 1000000000
  have hmod := Nat.mod_lt d (show 1000000000 > 0 by norm_num)
  generalize hs : d / 1000000000 = s at *
  generalize hn : d % 1000000000 = n at *
  have hs64 : s < 2 ^ 64 := by omega
  have hsQ : (s : Rat) < 2 ^ 64 := by exact_mod_cast hs64
  have hnQ : (n : Rat) < 1000000000 := by exact_mod_cast hmod
  have hs0 : (0 : Rat) ≤ s := by positivity
  have hn0 : (0 : Rat) ≤ n := by positivity
  have hdQ : (d : Rat) = 1000000000 * s + n := by exact_mod_cast hdiv.symm
  obtain ⟨a, ha, -, ha1, ha2⟩ := F32_round_pos (q := (s : Rat)) (by linarith [show (2 : Rat) ^ 64 < 2 ^ 127 by norm_num]) (by
    rcases Nat.eq_zero_or_pos s with h0 | h0
    · left; simp [h0]
    · right
      have : (1 : Rat) ≤ s := by exact_mod_cast h0
      linarith [show (1 : Rat) / 2 ^ 126 ≤ 1 by norm_num])
  obtain ⟨b, hb, -, hb1, hb2⟩ := F32_round_pos (q := (n : Rat)) (by linarith [show (1000000000 : Rat) < 2 ^ 127 by norm_num]) (by
    rcases Nat.eq_zero_or_pos n with h0 | h0
    · left; simp [h0]
    · right
      have : (1 : Rat) ≤ n := by exact_mod_cast h0
      linarith [show (1 : Rat) / 2 ^ 126 ≤ 1 by norm_num])
  have hb0 : 0 ≤ b := le_trans (by positivity) hb1
  have ha0 : 0 ≤ a := le_trans (by positivity) ha1
  have ha64 : a < 2 ^ 65 := by linarith [show (2 : Rat) ^ 64 * (1 + 1 / 2 ^ 24) < 2 ^ 65 by norm_num]
  have hb9 : b < 2000000000 := by linarith
  obtain ⟨f, hf, -, hf1, hf2⟩ := F32_round_pos (q := b / 1000000000) (by linarith [show (2 : Rat) < 2 ^ 127 by norm_num]) (by
    rcases Nat.eq_zero_or_pos n with h0 | h0
    · left
      rw [h0] at hb1 hb2
      have : b = 0 := by norm_num at hb1 hb2; linarith
      simp [this]
    · right
      have : (1 : Rat) ≤ n := by exact_mod_cast h0
      have : (1 : Rat) / 2 ≤ b := by linarith
      linarith [show (1 : Rat) / 2 ^ 126 ≤ 1 / 2000000000 by norm_num])
  have hf0 : 0 ≤ f := le_trans (by positivity) hf1
  have hf9 : f < 4 := by linarith
  obtain ⟨g, hg, -, hg1, hg2⟩ := F32_round_pos (q := a + f) (by linarith [show (2 : Rat) ^ 65 + 4 < 2 ^ 127 by norm_num]) (by
    rcases Nat.eq_zero_or_pos n with h0 | h0
    · rcases Nat.eq_zero_or_pos s with h1 | h1
      · left
        rw [h0] at hb1 hb2
        rw [h1] at ha1 ha2
        norm_num at ha1 ha2 hb1 hb2
        have : b = 0 := by linarith
        rw [this] at hf1 hf2
        norm_num at hf1 hf2
        linarith
      · right
        have : (1 : Rat) ≤ s := by exact_mod_cast h1
        linarith [show (1 : Rat) / 2 ^ 126 ≤ 1 / 2 by norm_num]
    · right
      have : (1 : Rat) ≤ n := by exact_mod_cast h0
      have : (1 : Rat) / 2 ≤ b := by linarith
      linarith [show (1 : Rat) / 2 ^ 126 ≤ 1 / 4000000000 by norm_num])
  refine ⟨g, ?_, ?_, ?_⟩
  · have e1 : int32 (s : Int) = .num a := by
      unfold int32
      rw [← ha]
      congr 1
    have e2 : int32 (n : Int) = .num b := by
      unfold int32
      rw [← hb]
      congr 1
    have e3 : div32 (.num b) (.num 1000000000) = .num f := by
      simp only [div32, Fl.div]
      rw [if_neg (by norm_num), hf]
    rw [e1, e2, e3]
    exact hg
  · rw [hdQ]
    have : (1000000000 * (s : Rat) + n) / 10 ^ 9 = s + n / 1000000000 := by ring
    rw [this]
    linarith
  · rw [hdQ]
    have : (1000000000 * (s : Rat) + n) / 10 ^ 9 = s + n / 1000000000 := by ring
    rw [this]
    linarith

end Verif.Codec
