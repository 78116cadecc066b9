import Verif.Props.CodecTime

/-! # C52: what becomes of the single numbers of the codec

`Whole q n` says that the integer `n` is the number `q` without its fraction. -/

namespace Verif.Props
open Verif.Codec

/-- `n` is `q` without its fraction: no further from 0, less than 1 away. -/
def Whole (q : Rat) (n : Int) : Prop := |(n : Rat)| ≤ |q| ∧ |(n : Rat) - q| < 1

theorem whole_trunc (q : Rat) : Whole q (truncRat q) := ⟨(truncRat_spec q).2, (truncRat_spec q).1⟩

theorem Whole.unique {q : Rat} {a b : Int} (ha : Whole q a) (hb : Whole q b) : a = b := by
  obtain ⟨a1, a2⟩ := ha
  obtain ⟨b1, b2⟩ := hb
  have a3 := abs_lt.1 a2
  have b3 := abs_lt.1 b2
  by_contra hne
  rcases lt_or_gt_of_ne hne with h | h
  · have : (a : Rat) + 1 ≤ b := by exact_mod_cast h
    rcases le_total 0 q with h0 | h0
    · rw [abs_of_nonneg h0] at b1
      have := le_abs_self (b : Rat)
      linarith
    · rw [abs_of_nonpos h0] at a1
      have := neg_abs_le (a : Rat)
      linarith
  · have : (b : Rat) + 1 ≤ a := by exact_mod_cast h
    rcases le_total 0 q with h0 | h0
    · rw [abs_of_nonneg h0] at a1
      have := le_abs_self (a : Rat)
      linarith
    · rw [abs_of_nonpos h0] at b1
      have := neg_abs_le (b : Rat)
      linarith

/-- The integer part of a `f32` number is a `f32` number. -/
theorem rep32_trunc {q : Rat} (h : F32.Rep q) : F32.Rep (truncRat q : Rat) := by
  obtain ⟨m, e, hm, h1, h2, hq⟩ := h
  have hp : F32.p = 24 := rfl
  rw [hp] at hm hq
  by_cases he : 23 ≤ e
  · have hint : q = ((m * 2 ^ (e - 23).toNat : Int) : Rat) := by
      rw [hq]
      push_cast
      congr 1
      rw [← zpow_natCast]
      congr 1
      omega
    have : truncRat q = m * 2 ^ (e - 23).toNat := by
      apply Whole.unique (whole_trunc q)
      rw [hint]
      exact ⟨le_refl _, by simp⟩
    rw [this, ← hint]
    exact ⟨m, e, hm, h1, h2, by rw [hq, hp]⟩
  · apply rep32_int
    have t := (truncRat_spec q).2
    have hq' : |q| < 2 ^ 24 := by
      rw [hq, abs_mul]
      have hm' : |(m : Rat)| < 2 ^ 24 := by exact_mod_cast hm
      have hz : (2 : Rat) ^ (e - ((24 : Nat) - 1 : Int)) ≤ 1 := zpow_le_one_of_nonpos₀ (by norm_num) (by push_cast; omega)
      have hz0 : (0 : Rat) < (2 : Rat) ^ (e - ((24 : Nat) - 1 : Int)) := by positivity
      rw [abs_of_pos hz0]
      calc |(m : Rat)| * (2 : Rat) ^ (e - ((24 : Nat) - 1 : Int)) ≤ |(m : Rat)| * 1 := mul_le_mul_of_nonneg_left hz (abs_nonneg _)
        _ < 2 ^ 24 := by rw [mul_one]; exact hm'
    have : |(truncRat q : Rat)| < 2 ^ 24 := lt_of_le_of_lt t hq'
    exact_mod_cast this

theorem v32_trunc {q : Rat} (h : F32.Rep q) : v32 (b32 (int32 (truncRat q))) = .num (truncRat q) := by
  have hr := rep32_trunc h
  unfold int32
  rw [Fmt.round_of_rep hr]
  exact v32_b32 hr

theorem trunc_nonneg {q : Rat} (h : -1 < q) : 0 ≤ truncRat q := by
  obtain ⟨a, b⟩ := whole_trunc q
  have b' := abs_lt.1 b
  rcases le_total 0 q with h0 | h0
  · have : (-1 : Rat) < truncRat q := by linarith
    have : (-1 : Int) < truncRat q := by exact_mod_cast this
    omega
  · rw [abs_of_nonpos h0] at a
    have := neg_abs_le (truncRat q : Rat)
    have : (-1 : Rat) < truncRat q := by linarith
    have : (-1 : Int) < truncRat q := by exact_mod_cast this
    omega

/-- **C52.** Numbers kept whole (the range of a fire, the altitude of IFF, …): the fraction is dropped, nothing else. -/
theorem C52_whole {b : UInt32} {q : Rat} (hq : v32 b = .num q) (h0 : 0 ≤ q) (h : q < 4294967296) :
    ∃ n : Int, Whole q n ∧ v32 (wholeQ b) = .num n := by
  refine ⟨truncRat q, whole_trunc q, ?_⟩
  unfold wholeQ u32FromF32
  rw [hq]
  dsimp only
  rw [if_pos ⟨by linarith, h⟩, Option.getD_some]
  have := trunc_nonneg (q := q) (by linarith)
  rw [Int.toNat_of_nonneg this]
  exact v32_trunc (v32_rep hq)
example : v32 0x44ABF000 = .num (2751 / 2) := by decide +kernel

/-- **C52**, violated: a number that cannot be kept whole becomes 0 instead of the nearest that can. -/
theorem C52_whole_out_of_range_violated {b : UInt32} (h : ∀ q, v32 b = .num q → q ≤ -1 ∨ 4294967296 ≤ q) :
    v32 (wholeQ b) = .num 0 := by
  have e : wholeQ b = b32 (int32 0) := by
    unfold wholeQ u32FromF32
    split
    · rename_i q hq
      rw [if_neg]
      · rfl
      · rcases h q hq with h | h
        · intro hc; linarith [hc.1]
        · intro hc; linarith [hc.2]
    · rfl
  rw [e]
  decide +kernel
example : v32 0x7F800000 = .inf false ∧ v32 0x50000000 = .num 8589934592 := by decide +kernel

/-- **C52.** The range of a Fire PDU: whole metres. -/
theorem C52_range {b : UInt32} {q : Rat} (hq : v32 b = .num q) (h0 : 0 ≤ q) (h : q < 4294967296) :
    ∃ n : Int, Whole q n ∧ v32 (rangeQ b) = .num n := by
  unfold rangeQ
  by_cases hn : isNormal (v32 b) = true
  · rw [if_pos hn]
    exact C52_whole hq h0 h
  · rw [if_neg hn]
    refine ⟨0, ⟨by simp, ?_⟩, by decide +kernel⟩
    rw [hq] at hn
    unfold isNormal at hn
    simp only [decide_eq_true_eq, not_and_or, not_not, not_le] at hn
    have h1 : (2 : Rat) ^ (-126 : Int) < 1 := by norm_num
    rw [Int.cast_zero, zero_sub, abs_neg, abs_of_nonneg h0]
    rcases hn with hn | hn
    · rw [hn]; norm_num
    · rw [if_neg (not_lt.2 h0)] at hn; linarith

/-- **C52.** The received power of a Receiver PDU: a whole number. -/
theorem C52_received_power {b : UInt32} {q : Rat} (hq : v32 b = .num q) (h : |q| < 32768) :
    ∃ n : Int, Whole q n ∧ v32 (powerQ b) = .num n := by
  have h' := abs_lt.1 h
  refine ⟨truncRat q, whole_trunc q, ?_⟩
  unfold powerQ i16FromF32
  rw [hq]
  dsimp only
  rw [if_pos ⟨by linarith, by linarith⟩, Option.getD_some]
  exact v32_trunc (v32_rep hq)
example : v32 0xC2A53333 = .num (-10826547 / 131072) := by decide +kernel

/-- **C52.** The power of a Transmitter PDU: a whole number up to 255. -/
theorem C52_transmit_power {b : UInt32} {q : Rat} (hq : v32 b = .num q) (h0 : 0 ≤ q) (h : q < 256) :
    ∃ n : Int, Whole q n ∧ v32 (txPowerQ b) = .num n := by
  refine ⟨truncRat q, whole_trunc q, ?_⟩
  unfold txPowerQ Fl.toInt
  rw [hq]
  dsimp only
  rw [castSat_of_lt (by push_cast; linarith) (by push_cast; linarith) (by decide) (by decide),
    Int.toNat_of_nonneg (trunc_nonneg (by linarith))]
  exact v32_trunc (v32_rep hq)

/-- **C52**, violated: a transmitter of more than 255 is received as one of 255. -/
theorem C52_transmit_power_violated {b : UInt32} {q : Rat} (hq : v32 b = .num q) (h : 256 ≤ q) : v32 (txPowerQ b) = .num 255 := by
  have e : txPowerQ b = b32 (int32 255) := by
    unfold txPowerQ Fl.toInt
    rw [hq]
    dsimp only
    obtain ⟨-, hw⟩ := whole_trunc q
    have hw := abs_lt.1 hw
    have : (255 : Rat) < truncRat q := by linarith
    have : (255 : Int) < truncRat q := by exact_mod_cast this
    have : castSat 0 255 q = 255 := by unfold castSat; omega
    rw [this]
    rfl
  rw [e]
  decide +kernel
example : v32 0x447A0000 = .num 1000 := by decide +kernel

/-- The limit between grams and kilograms: the number `65535.0 / 1000.0`. -/
theorem mass_limit : F32.round (65535 / 1000) = .num (2147451 / 32768) := by decide +kernel

/-- **C52.** The mass of a Collision PDU up to 65.5 kg: to within a gram (and 1% of a gram for rounding). -/
theorem C52_mass_grams {b : UInt32} {q : Rat} (hq : v32 b = .num q) (h0 : 0 ≤ q) (h : q ≤ 2147451 / 32768) :
    Near (massQ b) q (102 / 100000) := by
  have hle : Fl.le (v32 b) (F32.round (65535 / 1000)) = true := by
    rw [mass_limit, hq]
    exact decide_eq_true h
  have hb : |q * 1000| = q * 1000 := abs_of_nonneg (by linarith)
  obtain ⟨r, hr, hrep, hrb⟩ := round32_bound (q := q * 1000) (by
    rw [hb]; linarith [show (65536000 : Rat) < 2 ^ 100 by norm_num])
  rw [hb] at hrb
  have hrb' := abs_le.1 hrb
  have hs : q * 1000 / 2 ^ 24 ≤ 1 / 200 := by rw [div_le_iff₀ (by norm_num)]; linarith
  have ht : (1 : Rat) / 2 ^ 150 ≤ 1 / 10000 := by norm_num
  have hr0 : -1 < r := by
    have : (0 : Rat) ≤ q * 1000 / 2 ^ 24 := by positivity
    linarith
  have hrT := whole_trunc r
  have e : massQ b = b32 (div32 (int32 (truncRat r)) (.num 1000)) := by
    unfold massQ massEnc massDec
    rw [if_pos hle]
    dsimp only
    rw [if_pos rfl, hq]
    have : mul32 (.num q) (.num 1000) = .num r := by simpa [mul32, Fl.mul] using hr
    rw [this]
    unfold u32FromF32
    dsimp only
    rw [if_pos ⟨hr0, by linarith⟩, Option.getD_some, Int.toNat_of_nonneg (trunc_nonneg hr0)]
  obtain ⟨w1, w2⟩ := hrT
  have w2' := abs_lt.1 w2
  have n0 := trunc_nonneg hr0
  have n0' : (0 : Rat) ≤ truncRat r := by exact_mod_cast n0
  have n1 : truncRat r < 2 ^ 24 := by
    have : (truncRat r : Rat) < 2 ^ 24 := by
      linarith [show (2 : Rat) ^ 24 = 16777216 by norm_num]
    exact_mod_cast this
  obtain ⟨y, hy, hyr, hyb⟩ := round32_bound (q := (truncRat r : Rat) / 1000) (by
    rw [abs_of_nonneg (by positivity)]
    have : (truncRat r : Rat) < 2 ^ 24 := by exact_mod_cast n1
    have : (truncRat r : Rat) / 1000 ≤ truncRat r := div_le_self n0' (by norm_num)
    linarith [show (2 : Rat) ^ 24 < 2 ^ 100 by norm_num])
  refine ⟨y, ?_, ?_⟩
  · rw [e, int32_exact (by rw [abs_of_nonneg n0]; exact n1)]
    have : div32 (.num (truncRat r : Rat)) (.num 1000) = .num y := by simpa [div32, Fl.div] using hy
    rw [this]
    exact v32_b32 hyr
  · rw [abs_of_nonneg (show (0 : Rat) ≤ (truncRat r : Rat) / 1000 by positivity)] at hyb
    have hyb' := abs_le.1 hyb
    have hr9 : r ≤ 65550 := by linarith
    have hd : (truncRat r : Rat) / 1000 / 2 ^ 24 ≤ 1 / 200000 := by
      rw [div_le_iff₀ (by norm_num)]
      have : (truncRat r : Rat) / 1000 ≤ 70 := by rw [div_le_iff₀ (by norm_num)]; linarith
      linarith
    have ht : (1 : Rat) / 2 ^ 150 ≤ 1 / 1000000 := by norm_num
    have hx : (truncRat r : Rat) / 1000 = truncRat r * (1 / 1000) := by ring
    rw [abs_le]
    rw [hx] at hyb' hd
    constructor <;> linarith
example : v32 0x41200000 = .num 10 := by decide +kernel

/-- **C52.** The mass of a Collision PDU above 65.5 kg: whole kilograms. -/
theorem C52_mass_kilograms {b : UInt32} {q : Rat} (hq : v32 b = .num q) (h0 : 2147451 / 32768 < q) (h : q < 4294967296) :
    ∃ n : Int, Whole q n ∧ v32 (massQ b) = .num n := by
  refine ⟨truncRat q, whole_trunc q, ?_⟩
  have hle : Fl.le (v32 b) (F32.round (65535 / 1000)) = false := by
    rw [mass_limit, hq]
    exact decide_eq_false (by rw [not_le]; exact h0)
  unfold massQ massEnc massDec
  rw [hle]
  simp only [Bool.false_eq_true, if_false, one_ne_zero]
  rw [hq]
  unfold u32FromF32
  dsimp only
  rw [if_pos ⟨by linarith, h⟩, Option.getD_some, Int.toNat_of_nonneg (trunc_nonneg (by linarith))]
  exact v32_trunc (v32_rep hq)
example : v32 0x469C4000 = .num 20000 := by decide +kernel

/-- **C52**, violated: a mass below zero is received as one of 4295 tonnes. -/
theorem C52_mass_negative_violated {b : UInt32} {q : Rat} (hq : v32 b = .num q) (h : q ≤ -2 / 1000) (hl : -(2 ^ 80) < q) :
    v32 (massQ b) = .num (8589935 / 2) := by
  have hle : Fl.le (v32 b) (F32.round (65535 / 1000)) = true := by
    rw [mass_limit, hq]
    exact decide_eq_true (by linarith)
  have hb : |q * 1000| = -(q * 1000) := abs_of_nonpos (by linarith)
  obtain ⟨r, hr, -, hrb⟩ := round32_bound (q := q * 1000) (by
    rw [hb]; linarith [show ((2 : Rat) ^ 80) * 1000 < 2 ^ 100 by norm_num])
  rw [hb] at hrb
  have hrb' := abs_le.1 hrb
  have ht : (1 : Rat) / 2 ^ 150 ≤ 1 / 10000 := by norm_num
  have hx : -(q * 1000) / 2 ^ 24 = -q * (1000 / 16777216) := by norm_num; ring
  rw [hx] at hrb'
  have hr0 : r ≤ -1 := by linarith
  have e : massQ b = b32 (div32 (int32 4294967295) (.num 1000)) := by
    unfold massQ massEnc massDec
    rw [if_pos hle]
    dsimp only
    rw [if_pos rfl, hq]
    have : mul32 (.num q) (.num 1000) = .num r := by simpa [mul32, Fl.mul] using hr
    rw [this]
    unfold u32FromF32
    dsimp only
    rw [if_neg (by rintro ⟨h1, _⟩; linarith)]
    rfl
  rw [e]
  decide +kernel
example : v32 0xC1200000 = .num (-10) := by decide +kernel

/-! ## The header -/

/-- **C52.** The header of a PDU that is encoded, in any state, and decoded by anyone: the exercise is kept, the version becomes 7, a PDU
status is added if there was none, the timestamp is quantised (C53), the length is that of the decoded PDU, and type and family are those
of its body. -/
theorem C52_header {env env' : Env} {o o' : Options} {now : Nat} {s s' : EncState} {d d' : DecState} {p q : Dis.Pdu} {c : Cdis.CdisPdu}
    {r r' : StateResult} (he : pduEnc env o now s p = some (c, r, s')) (hd : pduDec env' o' d c = (q, r', d')) :
    q.header = { p.header with
      protocol_version := 7, pdu_type := q.body.pduType, protocol_family := Dis.familyOfType q.body.pduType
      time_stamp := timeQ p.header.time_stamp, pdu_length := UInt16.ofNat (12 + q.body.bodyLen)
      pdu_status := some (p.header.pdu_status.getD {}), padding := 0 } := by
  obtain ⟨b, hb, hx⟩ := Option.map_eq_some_iff.1 he
  obtain ⟨b', r2, s2⟩ := b
  cases hx
  obtain ⟨rfl, -⟩ := Prod.mk.inj hd
  simp [Dis.Pdu.finalizeFromParts, headerDec, Cdis.CdisPdu.finalize, headerEnc, timeQ]

/-- The samples of the reader meet the hypotheses of `C52_entity_state` and `C52_iff`. -/
example : sample_entityState.Wf codecEnv.toEnv 7 ∧ sample_iff.Wf codecEnv.toEnv ∧ sample_iff.Forced :=
  ⟨sample_entityState_ok.1, sample_iff_ok⟩

end Verif.Props
