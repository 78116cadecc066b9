import Verif.Props.Hops
import Verif.Props.CodecTime
import Verif.Props.Quantise3
import Verif.Props.CodecScalars

/-! # C66: how far a value can drift over any number of gateways

Timestamps, masses and the numbers that C-DIS writes with a decimal exponent do change again at a second gateway (`C66_time_violated`,
`C66_mass_violated`, `C66_bandwidth_violated`).  Here: by how much, after any number of gateways. -/

namespace Verif.Props
open Verif.Codec

/-! ## Errors that add up -/

/-- If each step moves a number by at most `1` and a fraction `ε` of it, then `k` steps move it by at most the compound of that. -/
theorem compound {ε L c : Rat} (hε : 0 ≤ ε) {x : Nat → Rat}
    (hc : 0 ≤ c) (h0 : 0 ≤ x 0) (k : Nat)
    (hstep : ∀ i, i < k → x i ≤ L → 0 ≤ x (i + 1) ∧ |x (i + 1) - x i| ≤ ε * (c + x i))
    (hL : x 0 + (x 0 + c) * ((1 + ε) ^ k - 1) ≤ L) :
    0 ≤ x k ∧ |x k - x 0| ≤ (x 0 + c) * ((1 + ε) ^ k - 1) := by
  induction k with
  | zero => exact ⟨h0, by simp⟩
  | succ k ih =>
    have hp : (1 : Rat) ≤ (1 + ε) ^ k := one_le_pow₀ (by linarith)
    have hs : (1 + ε) ^ (k + 1) = (1 + ε) ^ k + ε * (1 + ε) ^ k := by rw [pow_succ]; ring
    have hS : 0 ≤ x 0 + c := by linarith
    have hm : (x 0 + c) * ((1 + ε) ^ k - 1) ≤ (x 0 + c) * ((1 + ε) ^ (k + 1) - 1) := by
      apply mul_le_mul_of_nonneg_left _ hS
      rw [hs]
      nlinarith
    obtain ⟨i0, i1⟩ := ih (fun i hi => hstep i (by omega)) (by linarith)
    have i1' := abs_le.1 i1
    obtain ⟨s0, s1⟩ := hstep k (by omega) (by linarith)
    refine ⟨s0, ?_⟩
    have s1' := abs_le.1 s1
    have hk : ε * (c + x k) ≤ ε * ((x 0 + c) * (1 + ε) ^ k) := by
      apply mul_le_mul_of_nonneg_left _ hε
      nlinarith
    have hsum : (x 0 + c) * ((1 + ε) ^ (k + 1) - 1) = (x 0 + c) * ((1 + ε) ^ k - 1) + ε * ((x 0 + c) * (1 + ε) ^ k) := by
      rw [hs]; ring
    rw [hsum, abs_le]
    constructor <;> linarith

/-! ## Timestamps -/

/-- **C66.** The timestamp of a PDU of the first minute of the hour moves by at most 37 units (62 microseconds) at each gateway, and keeps its
flag. -/
theorem C66_time (t : UInt32) (k : Nat) (h : disUnits t + 37 * k ≤ 36135500) :
    disAbsolute (timeWireQ^[k] t) = disAbsolute t ∧ |((disUnits (timeWireQ^[k] t) : Nat) : Int) - disUnits t| ≤ 37 * k := by
  induction k with
  | zero => simp
  | succ k ih =>
    rw [Function.iterate_succ_apply']
    obtain ⟨h1, h2⟩ := ih (by omega)
    have h2' := abs_le.1 h2
    generalize timeWireQ^[k] t = u at *
    obtain ⟨g1, g2⟩ := C53_first_minute_partial u (by omega)
    refine ⟨g1.trans h1, ?_⟩
    have hu : (disUnits u : Rat) ≤ 36135500 := by
      have : disUnits u ≤ 36135500 := by omega
      exact_mod_cast this
    have hd : (disUnits u : Rat) / 2 ^ 20 ≤ 35 := by rw [div_le_iff₀ (by norm_num)]; linarith
    have g3 : |((disUnits (timeWireQ u) : Nat) : Rat) - disUnits u| ≤ 37 := by linarith
    have g4 : |((disUnits (timeWireQ u) : Nat) : Int) - disUnits u| ≤ 37 := by exact_mod_cast g3
    have g4' := abs_le.1 g4
    rw [abs_le]
    push_cast
    constructor <;> omega

/-- A minute past the hour, and ten thousand gateways. -/
example : disUnits 71000000 + 37 * 10000 ≤ 36135500 := by decide

/-! ## Masses -/

/-- The number of grams that a second gateway sends for a number of grams that a first one sent. -/
theorem grams_again {n : Nat} (h : n ≤ 65535) :
    (massEnc (massDec n 0)).2 = 0 ∧ ((massEnc (massDec n 0)).1 = n ∨ (massEnc (massDec n 0)).1 = n - 1) := by
  have hn0 : (0 : Rat) ≤ n := Nat.cast_nonneg n
  have hn1 : (n : Rat) ≤ 65535 := by exact_mod_cast h
  obtain ⟨y, hy, hyr, hyb⟩ := round32_bound (q := (n : Rat) / 1000) (by
    rw [abs_of_nonneg (by positivity)]
    have : (n : Rat) / 1000 ≤ n := div_le_self hn0 (by norm_num)
    linarith [show (65536 : Rat) < 2 ^ 100 by norm_num])
  rw [abs_of_nonneg (show (0 : Rat) ≤ (n : Rat) / 1000 by positivity)] at hyb
  have hx : (n : Rat) / 1000 = n * (1 / 1000) := by ring
  have hx2 : (n : Rat) * (1 / 1000) / 2 ^ 24 = n * (1 / 16777216000) := by norm_num; ring
  rw [hx] at hyb hy
  rw [hx2] at hyb
  have hyb' := abs_le.1 hyb
  have ht : (1 : Rat) / 2 ^ 150 ≤ 1 / 1000000 := by norm_num
  have e1 : v32 (massDec n 0) = .num y := by
    unfold massDec
    rw [if_pos rfl, int32_exact (by rw [abs_of_nonneg (by positivity)]; omega)]
    have : div32 (.num ((n : Int) : Rat)) (.num 1000) = .num y := by
      simpa [div32, Fl.div, hx] using hy
    rw [this]
    exact v32_b32 hyr
  have hle : Fl.le (.num y) (F32.round (65535 / 1000)) = true := by
    rw [mass_limit]
    refine decide_eq_true ?_
    rcases eq_or_lt_of_le h with h' | h'
    · subst h'
      have : F32.round (((65535 : Nat) : Rat) * (1 / 1000)) = .num (2147451 / 32768) := by
        rw [← mass_limit]
        norm_num
      rw [this] at hy
      cases hy
      exact le_rfl
    · have : (n : Rat) ≤ 65534 := by exact_mod_cast (by omega : n ≤ 65534)
      linarith
  obtain ⟨r, hr, -, hrb⟩ := round32_bound (q := y * 1000) (by
    rw [abs_lt]
    constructor <;> linarith [show (70000000 : Rat) < 2 ^ 100 by norm_num])
  have hy3 : |y * 1000| ≤ 65540 := by rw [abs_le]; constructor <;> linarith
  have hy4 : |y * 1000| / 2 ^ 24 ≤ 1 / 200 := by
    rw [div_le_iff₀ (by norm_num)]
    linarith
  have hrb' := abs_le.1 hrb
  have hnear : |r - ((n : Int) : Rat)| < 1 := by
    push_cast
    rw [abs_lt]
    constructor <;> linarith
  have hr0 : -1 < r := by
    have := (abs_lt.1 hnear).1
    push_cast at this
    linarith
  have e2 : massEnc (massDec n 0) = ((truncRat r).toNat, 0) := by
    unfold massEnc
    rw [e1, if_pos hle]
    have : mul32 (.num y) (.num 1000) = .num r := by simpa [mul32, Fl.mul] using hr
    rw [this]
    unfold u32FromF32
    dsimp only
    rw [if_pos ⟨hr0, by linarith⟩, Option.getD_some]
  rw [e2]
  refine ⟨rfl, ?_⟩
  dsimp only
  rcases trunc_near hnear with e | e <;> rw [e]
  · left; omega
  · rcases Nat.eq_zero_or_pos n with hz | hz
    · subst hz; simp
    · right
      rw [Int.sign_eq_one_of_pos (by omega)]
      omega

/-- **C66.** A mass of up to 65.5 kg that left one gateway (as a number of grams) loses at most one more gram at each further gateway, and
never gains any. -/
theorem C66_mass {n : Nat} (h : n ≤ 65535) (k : Nat) :
    ∃ m, massQ^[k] (massDec n 0) = massDec m 0 ∧ m ≤ n ∧ n ≤ m + k := by
  induction k with
  | zero => exact ⟨n, rfl, le_rfl, le_rfl⟩
  | succ k ih =>
    obtain ⟨m, h1, h2, h3⟩ := ih
    rw [Function.iterate_succ_apply', h1]
    obtain ⟨g1, g2⟩ := grams_again (n := m) (by omega)
    refine ⟨(massEnc (massDec m 0)).1, ?_, ?_, ?_⟩
    · show massDec _ (massEnc (massDec m 0)).2 = _
      rw [g1]
    all_goals rcases g2 with g | g <;> omega

/-- Such a mass is what one gateway makes of a mass of up to 65.5 kg. -/
theorem mass_form {b : UInt32} {q : Rat} (hq : v32 b = .num q) (h : q ≤ 2147451 / 32768) : massQ b = massDec (massEnc b).1 0 := by
  have hle : Fl.le (v32 b) (F32.round (65535 / 1000)) = true := by
    rw [mass_limit, hq]
    exact decide_eq_true h
  have : (massEnc b).2 = 0 := by
    unfold massEnc
    rw [if_pos hle]
  show massDec _ (massEnc b).2 = _
  rw [this]

theorem mass_sixty_five : massQ (b32 (int32 65)) = b32 (int32 65) := by decide +kernel

/-- **C66.** A mass of more than 65.5 kg that left one gateway (as a number of kilograms) is not changed by any other. -/
theorem C66_mass_kilograms {b : UInt32} {q : Rat} (hq : v32 b = .num q) (h0 : 2147451 / 32768 < q) (h : q < 4294967296) (k : Nat) :
    massQ^[k] (massQ b) = massQ b := by
  obtain ⟨n, hw, hn⟩ := C52_mass_kilograms hq h0 h
  have hle : Fl.le (v32 b) (F32.round (65535 / 1000)) = false := by
    rw [mass_limit, hq]
    exact decide_eq_false (by rw [not_le]; exact h0)
  have form : massQ b = b32 (int32 (truncRat q)) := by
    unfold massQ massEnc massDec
    rw [hle]
    simp only [Bool.false_eq_true, if_false, one_ne_zero]
    rw [hq]
    unfold u32FromF32
    dsimp only
    rw [if_pos ⟨by linarith, h⟩, Option.getD_some, Int.toNat_of_nonneg (trunc_nonneg (by linarith))]
  have hv : v32 (massQ b) = .num (truncRat q) := by rw [form]; exact v32_trunc (v32_rep hq)
  have hone : massQ (massQ b) = massQ b := by
    by_cases h65 : truncRat q = 65
    · rw [form, h65]; exact mass_sixty_five
    · have t := whole_trunc q
      obtain ⟨t1, t2⟩ := t
      have t2' := abs_lt.1 t2
      have hlow : (64 : Rat) < truncRat q := by linarith [show (65 : Rat) < 2147451 / 32768 by norm_num]
      have hlow' : (64 : Int) < truncRat q := by exact_mod_cast hlow
      have hup : (truncRat q : Rat) < 4294967296 := by
        have := (truncRat_spec q).2
        rw [abs_of_nonneg (by linarith : (0 : Rat) ≤ truncRat q), abs_of_nonneg (by linarith : (0 : Rat) ≤ q)] at this
        linarith
      have h66 : (66 : Rat) ≤ truncRat q := by exact_mod_cast (by omega : (66 : Int) ≤ truncRat q)
      have hle2 : Fl.le (v32 (massQ b)) (F32.round (65535 / 1000)) = false := by
        rw [mass_limit, hv]
        exact decide_eq_false (by rw [not_le]; linarith [show (2147451 : Rat) / 32768 < 66 by norm_num])
      generalize massQ b = c at *
      unfold massQ massEnc massDec
      rw [hle2]
      simp only [Bool.false_eq_true, if_false, one_ne_zero]
      rw [hv]
      unfold u32FromF32
      dsimp only
      rw [if_pos ⟨by linarith, hup⟩, Option.getD_some, truncRat_int, Int.toNat_of_nonneg (by omega), form]
  induction k with
  | zero => rfl
  | succ k ih => rw [Function.iterate_succ_apply', ih, hone]

example : v32 0x469C4000 = .num 20000 ∧ massQ^[7] (massQ 0x469C4000) = 0x469C4000 := by decide +kernel

/-! ## Numbers with a decimal exponent -/

theorem round32_nonneg {z y : Rat} (hz : z = 0 ∨ 1 / 2 ≤ z) (hz' : z < 2 ^ 100) (h : F32.round z = .num y) : 0 ≤ y := by
  rcases hz with hz | hz
  · subst hz
    have : F32.round 0 = .num 0 := by decide +kernel
    rw [this] at h
    cases h
    exact le_rfl
  · obtain ⟨r, hr, -, hb⟩ := round32_bound (q := z) (by rw [abs_of_nonneg (by linarith)]; exact hz')
    rw [hr] at h
    cases h
    rw [abs_of_nonneg (by linarith : (0 : Rat) ≤ z)] at hb
    have hb' := abs_le.1 hb
    have : z / 2 ^ 24 ≤ z / 2 := div_le_div_of_nonneg_left (by linarith) (by norm_num) (by norm_num)
    have : (1 : Rat) / 2 ^ 150 ≤ 1 / 4 := by norm_num
    linarith

/-- What a decimal float of up to 24 bits and up to four of exponent stands for: a number, and not a negative one. -/
theorem toFloat_nonneg {m e : Nat} (hm : m < 2 ^ 24) (he : e < 16) :
    ∃ y, toFloat F32 (m : Int) (e : Int) = .num y ∧ F32.Rep y ∧ 0 ≤ y := by
  unfold toFloat
  have e1 : F32.round (((m : Int)) : Rat) = .num ((m : Int) : Rat) := int32_exact (by rw [abs_of_nonneg (by positivity)]; omega)
  rw [e1]
  have hp1 : (1 : Rat) ≤ 10 ^ e := one_le_pow₀ (by norm_num)
  have hp2 : (10 : Rat) ^ e ≤ 10 ^ 15 := pow_le_pow_right₀ (by norm_num) (by omega)
  obtain ⟨p, hp, -, hb⟩ := round32_bound (q := (10 : Rat) ^ (e : Int)) (by
    rw [zpow_natCast, abs_of_nonneg (by linarith)]
    linarith [show (10 : Rat) ^ 15 < 2 ^ 100 by norm_num])
  have hpow : pow10 F32 e = .num p := hp
  rw [hpow]
  rw [zpow_natCast, abs_of_nonneg (by linarith : (0 : Rat) ≤ 10 ^ e)] at hb
  have hb' := abs_le.1 hb
  have h24 : (10 : Rat) ^ e / 2 ^ 24 ≤ 10 ^ e / 4 := div_le_div_of_nonneg_left (by linarith) (by norm_num) (by norm_num)
  have h150 : (1 : Rat) / 2 ^ 150 ≤ 1 / 8 := by norm_num
  have hm0 : (0 : Rat) ≤ ((m : Int) : Rat) := by positivity
  have hm' : ((m : Int) : Rat) ≤ 2 ^ 24 := by
    have : (m : Int) ≤ 2 ^ 24 := by omega
    exact_mod_cast this
  have hw : ((m : Int) : Rat) * p = 0 ∨ 1 / 2 ≤ ((m : Int) : Rat) * p := by
    rcases Nat.eq_zero_or_pos m with h0 | h0
    · left; subst h0; simp
    · right
      have : (1 : Rat) ≤ ((m : Int) : Rat) := by
        have : (1 : Int) ≤ m := by omega
        exact_mod_cast this
      nlinarith
  have hw' : ((m : Int) : Rat) * p < 2 ^ 100 := by
    have : ((m : Int) : Rat) * p ≤ 2 ^ 24 * (2 * 10 ^ 15) := by
      apply mul_le_mul hm' _ _ (by norm_num)
      · linarith
      · linarith
    linarith [show (2 : Rat) ^ 24 * (2 * 10 ^ 15) < 2 ^ 100 by norm_num]
  have hw0 : 0 ≤ ((m : Int) : Rat) * p := by rcases hw with h | h <;> linarith
  obtain ⟨y, hy, hyr, -⟩ := round32_bound (q := ((m : Int) : Rat) * p) (by rw [abs_of_nonneg hw0]; exact hw')
  exact ⟨y, hy, hyr, round32_nonneg hw hw' hy⟩

/-- One gateway and a bandwidth or frequency of up to 12.97 GHz. -/
theorem bandwidth_step {b : UInt32} {q : Rat} (hq : v32 b = .num q) (h0 : 0 ≤ q) (h : q ≤ 12976029000) :
    ∃ y, v32 (bandwidthQ b) = .num y ∧ 0 ≤ y ∧ |y - q| ≤ 11 / 131071 * (131071 / 11 + q) := by
  obtain ⟨⟨w1, w2⟩, y, hy, hb⟩ := C41_frequency hq h0 h
  refine ⟨y, hy, ?_, hb.trans (le_of_eq (by ring))⟩
  obtain ⟨z, hz, hzr, hz0⟩ := toFloat_nonneg (m := (freqEnc b).mantissa) (e := (freqEnc b).exponent) (by omega) (by omega)
  unfold freqDec at hy
  rw [hz, v32_b32 hzr] at hy
  cases hy
  exact hz0

/-- Any number of gateways that do this to a value. -/
theorem drifts {f : UInt32 → UInt32} {ε c L : Rat} (hε : 0 ≤ ε) (hc : 0 ≤ c)
    (hf : ∀ b q, v32 b = .num q → 0 ≤ q → q ≤ L → ∃ y, v32 (f b) = .num y ∧ 0 ≤ y ∧ |y - q| ≤ ε * (c + q))
    {b : UInt32} {q : Rat} (hq : v32 b = .num q) (h0 : 0 ≤ q) (k : Nat) (hL : q + (q + c) * ((1 + ε) ^ k - 1) ≤ L) :
    ∃ y, v32 (f^[k] b) = .num y ∧ 0 ≤ y ∧ |y - q| ≤ (q + c) * ((1 + ε) ^ k - 1) := by
  induction k with
  | zero => exact ⟨q, hq, h0, by simp⟩
  | succ k ih =>
    have hp : (1 : Rat) ≤ (1 + ε) ^ k := one_le_pow₀ (by linarith)
    have hs : (1 + ε) ^ (k + 1) = (1 + ε) ^ k + ε * (1 + ε) ^ k := by rw [pow_succ]; ring
    have hS : 0 ≤ q + c := by linarith
    have hm : (q + c) * ((1 + ε) ^ k - 1) ≤ (q + c) * ((1 + ε) ^ (k + 1) - 1) := by
      apply mul_le_mul_of_nonneg_left _ hS
      rw [hs]
      nlinarith
    obtain ⟨y, y1, y0, y2⟩ := ih (by linarith)
    have y2' := abs_le.1 y2
    rw [Function.iterate_succ_apply']
    obtain ⟨z, z1, z0, z2⟩ := hf _ y y1 y0 (by linarith)
    refine ⟨z, z1, z0, ?_⟩
    have z2' := abs_le.1 z2
    have hk : ε * (c + y) ≤ ε * ((q + c) * (1 + ε) ^ k) := by
      apply mul_le_mul_of_nonneg_left _ hε
      nlinarith
    have hsum : (q + c) * ((1 + ε) ^ (k + 1) - 1) = (q + c) * ((1 + ε) ^ k - 1) + ε * ((q + c) * (1 + ε) ^ k) := by
      rw [hs]; ring
    rw [hsum, abs_le]
    constructor <;> linarith

/-- **C66.** A bandwidth (of a Transmitter PDU) or a frequency (of an IFF PDU) after `k` gateways: off by at most `(q + 11916) (1.0000840^k - 1)`,
that is about 1 Hz and 0.0084 percent for each gateway, as long as it stays within 12.97 GHz. -/
theorem C66_bandwidth {b : UInt32} {q : Rat} (hq : v32 b = .num q) (h0 : 0 ≤ q) (k : Nat)
    (hL : q + (q + 131071 / 11) * ((1 + 11 / 131071) ^ k - 1) ≤ 12976029000) :
    ∃ y, v32 (bandwidthQ^[k] b) = .num y ∧ 0 ≤ y ∧ |y - q| ≤ (q + 131071 / 11) * ((1 + 11 / 131071) ^ k - 1) :=
  drifts (by norm_num) (by norm_num) (fun _ _ a b c => bandwidth_step a b c) hq h0 k hL

/-- The explosive force of one gateway. -/
theorem force_step {b : UInt32} {q : Rat} (hq : v32 b = .num q) (h0 : 0 ≤ q) (h : q ≤ 32439330) :
    ∃ y, v32 (forceDec (forceEnc b)) = .num y ∧ 0 ≤ y ∧ |y - q| ≤ 11 / 32767 * (32767 / 11 + q) := by
  obtain ⟨⟨w1, w2⟩, y, hy, hb⟩ := C41_explosive_force hq h0 h
  refine ⟨y, hy, ?_, hb.trans (le_of_eq (by ring))⟩
  have w2 := w2.2
  obtain ⟨e', he'⟩ : ∃ e' : Nat, (forceEnc b).exponent = (e' : Int) := by
    unfold forceEnc
    exact ⟨_, rfl⟩
  obtain ⟨z, hz, hzr, hz0⟩ := toFloat_nonneg (m := (forceEnc b).mantissa) (e := e') (by omega) (by
    rw [he'] at w2
    norm_num at w2
    omega)
  unfold forceDec at hy
  rw [he', hz, v32_b32 hzr] at hy
  cases hy
  exact hz0

/-- **C66.** The explosive force of a Detonation PDU after `k` gateways. -/
theorem C66_explosive_force {b : UInt32} {q : Rat} (hq : v32 b = .num q) (h0 : 0 ≤ q) (k : Nat)
    (hL : q + (q + 32767 / 11) * ((1 + 11 / 32767) ^ k - 1) ≤ 32439330) :
    ∃ y, v32 ((fun b => forceDec (forceEnc b))^[k] b) = .num y ∧ 0 ≤ y ∧ |y - q| ≤ (q + 32767 / 11) * ((1 + 11 / 32767) ^ k - 1) :=
  drifts (by norm_num) (by norm_num) (fun _ _ a b c => force_step a b c) hq h0 k hL

/-- **C66.** The frequency of a Transmitter PDU after `k` gateways: about 3 Hz (or one and a half millionths) for each. -/
theorem C66_tx_frequency (n : UInt64) (k : Nat)
    (hL : (n.toNat : Rat) + (n.toNat + 2 * 16777215 / 11) * ((1 + 11 / 16777215) ^ k - 1) ≤ 1660944200000) :
    |((txFreqQ^[k] n).toNat : Rat) - n.toNat| ≤ (n.toNat + 2 * 16777215 / 11) * ((1 + 11 / 16777215) ^ k - 1) := by
  refine (compound (ε := 11 / 16777215) (c := 2 * 16777215 / 11) (x := fun i => ((txFreqQ^[i] n).toNat : Rat)) (by norm_num)
    (by norm_num) (Nat.cast_nonneg _) k ?_ hL).2
  intro i _ hi
  refine ⟨Nat.cast_nonneg _, ?_⟩
  rw [Function.iterate_succ_apply']
  generalize txFreqQ^[i] n = m at *
  refine (C41_transmit_frequency (n := m) (by exact_mod_cast hi)).2.2.trans (le_of_eq (by ring))

/-- **C66.** The value of an articulated part, of magnitude at most 16383, that left one gateway is not changed by any other. -/
theorem C66_parameter_value {b : UInt32} {q : Rat} (hq : v32 b = .num q) (h : |q| ≤ 16383) (k : Nat) :
    pvQ^[k] (pvQ b) = pvQ b := by
  have form : ∀ b q, v32 b = .num q → |q| ≤ 16383 → pvQ b = b32 (int32 (truncRat q)) := by
    intro b q hq h
    have hb := abs_le.1 h
    have hl : decLoop F32 (.num 32767) 3 (3 + 2) (.num q) 0 = (.num q, 0) := by
      unfold decLoop
      rw [if_neg]
      intro hh
      simp only [Fl.lt, Fl.le, Bool.and_eq_true, decide_eq_true_eq, Bool.not_eq_true', decide_eq_false_iff_not, not_le] at hh
      linarith [hh.1.2]
    have hE : pvEnc b = ⟨toI32 (.num q), 0, none⟩ := by
      unfold pvEnc fromFloat
      rw [hq, max15, hl]
      rfl
    have hI : toI32 (.num q) = truncRat q := toI32_num (by linarith)
    have hn : |truncRat q| ≤ 16383 := by
      have := le_trans (truncRat_spec q).2 h
      exact_mod_cast this
    have hn24 : |truncRat q| < 2 ^ 24 := by omega
    unfold pvQ
    rw [hE]
    unfold pvDec toFloat
    dsimp only
    have e1 : F32.round (truncRat q : Rat) = .num (truncRat q) := int32_exact hn24
    have e2 : pow10 F32 0 = .num 1 := by decide +kernel
    rw [hI, e1, e2]
    have e3 : Fl.mul F32 (.num (truncRat q)) (.num 1) = .num (truncRat q) := by
      simp only [Fl.mul, mul_one]
      exact e1
    rw [e3, int32_exact hn24]
  have hone : pvQ (pvQ b) = pvQ b := by
    have f := form b q hq h
    have hn : |((truncRat q : Int) : Rat)| ≤ 16383 := le_trans (truncRat_spec q).2 h
    have hv : v32 (pvQ b) = .num (truncRat q) := by rw [f]; exact v32_trunc (v32_rep hq)
    rw [form _ _ hv hn, truncRat_int, ← f]
  induction k with
  | zero => rfl
  | succ k ih => rw [Function.iterate_succ_apply', ih, hone]

/-! ## Whole PDUs -/

/-- **C66.** Any number of gateways: as long as what leaves each of them fits C-DIS, a PDU leaves the last with what the body has become after so
many passages (`arrival`, C57), and with the timestamp of so many passages. -/
theorem C66_steps {env : Env} {o : Options} {p : Dis.Pdu} (ht : p.header.pdu_type = p.body.pduType)
    (hst : (p.header.pdu_status.getD {}).Wf p.header.pdu_type) (k : Nat) (h : ∀ i ≤ k, FitsWire env o ((arrival env o)^[i] p.body)) :
    Gateways env o (k + 1) p
      (received { p.header with time_stamp := timeWireQ^[k] p.header.time_stamp } ((arrival env o)^[k + 1] p.body)) := by
  have kind : ∀ i, ((arrival env o)^[i] p.body).pduType = p.body.pduType := by
    intro i
    induction i with
    | zero => rfl
    | succ i ih => rw [Function.iterate_succ_apply', (C57_kind env o _ p.header).1, ih]
  induction k with
  | zero => exact ⟨_, C57_pdu ⟨ht, hst, h 0 le_rfl⟩, rfl⟩
  | succ k ih =>
    refine (ih fun i hi => h i (by omega)).snoc ?_
    have e := C57_pdu (env := env) (o := o)
      (p := received { p.header with time_stamp := timeWireQ^[k] p.header.time_stamp } ((arrival env o)^[k + 1] p.body)) ⟨by
        simp only [received]
        rw [kind, ht], by
        simp only [received, Option.getD_some]
        exact hst, by simpa only [received] using h (k + 1) le_rfl⟩
    rw [Function.iterate_succ_apply' timeWireQ, Function.iterate_succ_apply' (arrival env o) (k + 1)]
    simpa only [received, Option.getD_some] using e

theorem collisions (env : Env) (o : Options) (x : Dis.Collision) (k : Nat) :
    (arrival env o)^[k + 1] (.collision x) = .collision { x with
      collision_type := if x.collision_type = 1 then 1 else 0
      velocity := linQ x.velocity, mass := massQ^[k + 1] x.mass, location := coordQ^[k + 1] x.location } := by
  induction k with
  | zero => rfl
  | succ k ih =>
    rw [Function.iterate_succ_apply', ih]
    show Dis.Body.collision _ = _
    congr 1
    simp only [Dis.Collision.mk.injEq, true_and]
    refine ⟨?_, C66_velocity x.velocity, (Function.iterate_succ_apply' ..).symm, (Function.iterate_succ_apply' ..).symm⟩
    split <;> simp

/-- **C66.** A Collision PDU after `k + 1` gateways: the same entities, event and velocity as after the first, and of a mass of up to 65.5 kg at
most `k` grams less than after the first. -/
theorem C66_collision (env : Env) (o : Options) {h : Dis.PduHeader} (ht : h.pdu_type = 4) (hst : (h.pdu_status.getD {}).Wf h.pdu_type)
    (x : Dis.Collision) {q : Rat} (hq : v32 x.mass = .num q) (h1 : q ≤ 2147451 / 32768) (h2 : (massEnc x.mass).1 ≤ 65535) (k : Nat) :
    ∃ y n m, Gateways env o (k + 1) ⟨h, .collision x⟩
        (received { h with time_stamp := timeWireQ^[k] h.time_stamp } (.collision y)) ∧
      y.issuing_entity_id = x.issuing_entity_id ∧ y.colliding_entity_id = x.colliding_entity_id ∧ y.event_id = x.event_id ∧
      y.velocity = linQ x.velocity ∧ massQ x.mass = massDec n 0 ∧ y.mass = massDec m 0 ∧ m ≤ n ∧ n ≤ m + k := by
  have hs := C66_steps (env := env) (o := o) (p := ⟨h, .collision x⟩) ht hst k (by
    intro i _
    cases i with
    | zero => trivial
    | succ i => show FitsWire env o ((arrival env o)^[i + 1] (.collision x)); rw [collisions]; trivial)
  dsimp only at hs
  rw [collisions] at hs
  obtain ⟨m, m1, m2, m3⟩ := C66_mass h2 k
  refine ⟨_, (massEnc x.mass).1, m, hs, rfl, rfl, rfl, rfl, mass_form hq h1, ?_, m2, m3⟩
  show massQ^[k + 1] x.mass = _
  rw [Function.iterate_succ_apply, mass_form hq h1, m1]

/-- a mass of 10 kg -/
example : v32 0x41200000 = .num 10 ∧ (massEnc 0x41200000).1 = 10000 := by decide +kernel

/-- 5 MHz and ten gateways; an explosive force of 100000 and five; a part at 90 degrees -/
example : v32 0x4A989680 = .num 5000000 ∧
    (5000000 : Rat) + (5000000 + 131071 / 11) * ((1 + 11 / 131071) ^ 10 - 1) ≤ 12976029000 := ⟨by decide +kernel, by norm_num⟩
example : v32 0x47C35000 = .num 100000 ∧
    (100000 : Rat) + (100000 + 32767 / 11) * ((1 + 11 / 32767) ^ 5 - 1) ≤ 32439330 := ⟨by decide +kernel, by norm_num⟩
example : (((243000000 : UInt64).toNat : Nat) : Rat) + (((243000000 : UInt64).toNat : Nat) + 2 * 16777215 / 11) * ((1 + 11 / 16777215) ^ 10 - 1) ≤ 1660944200000 := by
  have : (243000000 : UInt64).toNat = 243000000 := by decide
  rw [this]
  norm_num
example : v32 0x42B40000 = .num 90 ∧ pvQ 0x42B40000 = 0x42B40000 := by decide +kernel

end Verif.Props
