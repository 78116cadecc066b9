import Verif.Props.CodecLossless
import Verif.Props.Quantise

/-! # C53: timestamps through C-DIS

A DIS timestamp is a flag (the lowest bit) and a number of units, `2^31 - 1` to the hour; a C-DIS timestamp has 25 bits of units,
`2^25 - 1` to the hour. -/

namespace Verif.Props
open Verif.Codec

/-- The units of a DIS timestamp. -/
def disUnits (t : UInt32) : Nat := t.toNat / 2
/-- Its flag. -/
def disAbsolute (t : UInt32) : Bool := decide (t.toNat % 2 = 1)

/-- What a receiver makes of the timestamp of a header that went over the wire, where it has 26 bits. -/
def timeWireQ (t : UInt32) : UInt32 := timeDec (Cdis.CdisTimeStamp.ofRaw ((timeEnc t).raw % 2 ^ 26))

theorem k_enc : div32 (int32 cdisUnitsPerHour) (int32 disUnitsPerHour) = .num (15578843 / 16777216) := by decide +kernel
theorem k_dec : div32 (int32 disUnitsPerHour) (int32 cdisUnitsPerHour) = .num (4516943 / 4194304) := by decide +kernel

/-- Scaling a number of units: at most 0.6 and a relative `2 ^ -22` off. -/
theorem scale_err {n : Nat} {K : Rat} (hK : 9 / 10 ≤ K) (hK' : K ≤ 11 / 10) (hn : (n : Rat) * K ≤ 4294960000) :
    |((toU32 (mul32 (int32 n) (.num K)).roundInt).toNat : Rat) - n * K| ≤ 6 / 10 + n / 2 ^ 22 := by
  have hn0 : (0 : Rat) ≤ n := Nat.cast_nonneg n
  have hn1 : (n : Rat) ≤ 4800000000 := by nlinarith
  obtain ⟨r, hr, -, hb⟩ := round32_bound (q := ((n : Int) : Rat)) (by
    rw [abs_of_nonneg (by push_cast; exact hn0)]; push_cast
    linarith [show (4800000000 : Rat) < 2 ^ 100 by norm_num])
  rw [abs_of_nonneg (by push_cast; exact hn0 : (0 : Rat) ≤ ((n : Int) : Rat))] at hb
  push_cast at hb
  have hb1 := abs_le.1 hb
  have hr0 : -1 / 1000 ≤ r := by
    have : (n : Rat) / 2 ^ 24 ≤ n := by
      rw [div_le_iff₀ (by norm_num)]; nlinarith
    linarith [show (1 : Rat) / 2 ^ 150 ≤ 1 / 1000 by norm_num]
  have hr1 : r ≤ 4800001000 := by
    have : (n : Rat) / 2 ^ 24 ≤ 300 := by rw [div_le_iff₀ (by norm_num)]; linarith
    linarith [show (1 : Rat) / 2 ^ 150 ≤ 1 by norm_num]
  have hrK : |r * K| ≤ r * K + 1 / 400 := by
    rcases le_total 0 (r * K) with h | h
    · rw [abs_of_nonneg h]; linarith
    · rw [abs_of_nonpos h]; nlinarith
  have hrK1 : r * K ≤ 1.1 * (n + n / 2 ^ 24) + 1 / 100 := by
    have : r ≤ n + n / 2 ^ 24 + 1 / 1000 := by linarith [show (1 : Rat) / 2 ^ 150 ≤ 1 / 1000 by norm_num]
    rcases le_total 0 r with h | h
    · nlinarith
    · have : r * K ≤ 0 := by nlinarith
      have : (0 : Rat) ≤ n / 2 ^ 24 := by positivity
      linarith
  obtain ⟨s, hs, -, hc⟩ := round32_bound (q := r * K) (by
    have : (n : Rat) / 2 ^ 24 ≤ 300 := by rw [div_le_iff₀ (by norm_num)]; linarith
    linarith [show (10000000000 : Rat) < 2 ^ 100 by norm_num])
  have hc1 : |s - r * K| ≤ (1.1 * (n + n / 2 ^ 24) + 1 / 50) / 2 ^ 24 + 1 / 2 ^ 150 := by
    refine le_trans hc ?_
    gcongr
    linarith
  have hd : |s - n * K| ≤ 1 / 100 + n / 2 ^ 22 := by
    have e : s - n * K = (s - r * K) + (r - n) * K := by ring
    rw [e]
    refine le_trans (abs_add_le _ _) ?_
    have h2 : |(r - n) * K| ≤ 1.1 * (n / 2 ^ 24 + 1 / 2 ^ 150) := by
      rw [abs_mul, abs_of_nonneg (by linarith : (0 : Rat) ≤ K), mul_comm]
      have : 0 ≤ |r - n| := abs_nonneg _
      nlinarith
    have h3 : (1.1 * (n + n / 2 ^ 24) + 1 / 50 : Rat) / 2 ^ 24 + 1.1 * (n / 2 ^ 24) ≤ n / 2 ^ 22 + 1 / 200 := by
      rw [div_add' _ _ _ (by norm_num), div_le_iff₀ (by norm_num)]
      norm_num
      linarith
    linarith [show (1 : Rat) / 2 ^ 150 * 2.1 ≤ 1 / 1000 by norm_num]
  have hd1 := abs_le.1 hd
  have ra := abs_le.1 (roundAway_err s)
  have hnn : (n : Rat) / 2 ^ 22 ≤ 1200 := by rw [div_le_iff₀ (by norm_num)]; linarith
  have hnK : 0 ≤ (n : Rat) * K := by nlinarith
  have hs0 : 0 ≤ roundAway s := by
    have h0 : -1 < (roundAway s : Rat) := by
      have : -(n : Rat) / 2 ^ 22 + n * K ≥ 0 := by
        have : (n : Rat) / 2 ^ 22 ≤ n * K := by rw [div_le_iff₀ (by norm_num)]; nlinarith
        linarith [neg_div ((2 : Rat) ^ 22) (n : Rat)]
      have h' : (-(n : Rat)) / 2 ^ 22 = -(n / 2 ^ 22) := neg_div _ _
      linarith
    have : (-1 : Int) < roundAway s := by exact_mod_cast h0
    omega
  have hs1 : roundAway s ≤ 4294967295 := by
    have : (roundAway s : Rat) ≤ 4294967295 := by linarith
    exact_mod_cast this
  have he : toU32 (mul32 (int32 n) (.num K)).roundInt = roundAway s := by
    have e1 : int32 (n : Int) = .num r := hr
    have e2 : mul32 (.num r) (.num K) = .num s := hs
    rw [e1, e2]
    show castSat 0 4294967295 ((roundAway s : Int) : Rat) = _
    unfold castSat
    rw [truncRat_int]
    omega
  rw [he]
  have hz : (((roundAway s).toNat : Nat) : Rat) = (roundAway s : Rat) := by
    exact_mod_cast Int.toNat_of_nonneg hs0
  rw [hz]
  have e : (roundAway s : Rat) - n * K = (roundAway s - s) + (s - n * K) := by ring
  rw [e]
  refine le_trans (abs_add_le _ _) ?_
  linarith [roundAway_err s]

theorem enc_units {t : UInt32} :
    (timeEnc t).absolute = disAbsolute t ∧
      |((timeEnc t).units : Rat) - disUnits t * (15578843 / 16777216)| ≤ 6 / 10 + disUnits t / 2 ^ 22 := by
  refine ⟨rfl, ?_⟩
  have hu : disUnits t < 2 ^ 31 := by
    have := t.toNat_lt
    unfold disUnits
    omega
  have hu' : (disUnits t : Rat) ≤ 2 ^ 31 := by exact_mod_cast hu.le
  have := scale_err (n := disUnits t) (K := 15578843 / 16777216) (by norm_num) (by norm_num) (by
    have : (2 : Rat) ^ 31 = 2147483648 := by norm_num
    linarith)
  unfold timeEnc
  dsimp only
  rw [k_enc]
  exact this

theorem dec_units {x : Cdis.CdisTimeStamp} (h : x.units ≤ 2000000000) :
    (disUnits (timeDec x) = (toU32 (mul32 (int32 x.units) (.num (4516943 / 4194304))).roundInt).toNat % 2 ^ 31 ∧
      disAbsolute (timeDec x) = x.absolute) ∧
    |((toU32 (mul32 (int32 x.units) (.num (4516943 / 4194304))).roundInt).toNat : Rat) - x.units * (4516943 / 4194304)|
      ≤ 6 / 10 + x.units / 2 ^ 22 := by
  have h' : (x.units : Rat) ≤ 2000000000 := by exact_mod_cast h
  refine ⟨?_, scale_err (by norm_num) (by norm_num) (by linarith)⟩
  unfold disUnits disAbsolute timeDec
  dsimp only
  rw [k_dec, UInt32.toNat_ofNat']
  generalize (toU32 (mul32 (int32 x.units) (.num (4516943 / 4194304))).roundInt).toNat = m
  cases x.absolute
  · simp only [Bool.toNat_false]
    refine ⟨by omega, ?_⟩
    simp only [decide_eq_false_iff_not]
    omega
  · simp only [Bool.toNat_true]
    refine ⟨by omega, ?_⟩
    simp only [decide_eq_true_eq]
    omega

/-- **C53**, what holds inside the codec (no wire in between, as for the time interval of a Data Query): the flag is kept and the
units come back within two and a millionth. -/
theorem C53_codec (t : UInt32) (h : disUnits t ≤ 2147480000) :
    disAbsolute (timeQ t) = disAbsolute t ∧ |((disUnits (timeQ t) : Nat) : Rat) - disUnits t| ≤ 2 + disUnits t / 2 ^ 20 := by
  obtain ⟨h1, h2⟩ := enc_units (t := t)
  have hu : (disUnits t : Rat) ≤ 2147480000 := by exact_mod_cast h
  have hn0 : (0 : Rat) ≤ disUnits t := Nat.cast_nonneg _
  have h2' := abs_le.1 h2
  have hle : (timeEnc t).units ≤ 2000000000 := by
    have : ((timeEnc t).units : Rat) ≤ 2000000000 := by
      have : (disUnits t : Rat) / 2 ^ 22 ≤ 600 := by rw [div_le_iff₀ (by norm_num)]; linarith
      linarith
    exact_mod_cast this
  have hraw : (timeEnc t).raw % 4294967296 = (timeEnc t).raw := by
    apply Nat.mod_eq_of_lt
    rw [Cdis.CdisTimeStamp.raw_eq]
    have : (timeEnc t).absolute.toNat ≤ 1 := by cases (timeEnc t).absolute <;> decide
    omega
  unfold timeQ
  rw [hraw, Cdis.CdisTimeStamp.ofRaw_raw]
  obtain ⟨⟨d1, d2⟩, d3⟩ := dec_units hle
  refine ⟨by rw [d2, h1], ?_⟩
  have hle' : ((timeEnc t).units : Rat) ≤ 2000000000 := by exact_mod_cast hle
  have hn1 : (0 : Rat) ≤ (timeEnc t).units := Nat.cast_nonneg _
  generalize (toU32 (mul32 (int32 (timeEnc t).units) (.num (4516943 / 4194304))).roundInt).toNat = m at d1 d3
  have d3' := abs_le.1 d3
  have q1 : (disUnits t : Rat) / 2 ^ 22 = disUnits t * (1 / 4194304) := by norm_num; ring
  have q2 : ((timeEnc t).units : Rat) / 2 ^ 22 = (timeEnc t).units * (1 / 4194304) := by norm_num; ring
  have q3 : (disUnits t : Rat) / 2 ^ 20 = disUnits t * (1 / 1048576) := by norm_num; ring
  rw [q1] at h2'
  rw [q2] at d3'
  rw [q3]
  have hm : m < 2 ^ 31 := by
    have : (m : Rat) < 2 ^ 31 := by
      have : (2 : Rat) ^ 31 = 2147483648 := by norm_num
      linarith
    exact_mod_cast this
  rw [d1, Nat.mod_eq_of_lt hm, abs_le]
  constructor <;> linarith

/-- A timestamp in the middle of the hour meets the hypothesis. -/
example : disUnits 0x80000001 ≤ 2147480000 ∧ disUnits 0x80000001 = 2 ^ 30 ∧ disAbsolute 0x80000001 = true := by decide

/-- The header of a PDU on the wire carries the low 26 bits of the timestamp. -/
theorem C53_on_the_wire (h : Dis.PduHeader) (n : Nat) (hn : n < 2 ^ 14)
    (hs : (h.pdu_status.getD {}).Wf h.pdu_type) (rest : Cdis.Bits) :
    ∃ c, Cdis.CdisHeader.parse.run ({ headerEnc h with length := n }.ser ++ rest) = .ok c rest ∧
      (headerDec c).time_stamp = timeWireQ h.time_stamp := by
  refine ⟨{ headerEnc h with length := n, timestamp := (timeEnc h.time_stamp).raw % 2 ^ 26 }, ?_, rfl⟩
  have e : ({ headerEnc h with length := n } : Cdis.CdisHeader).ser =
      ({ headerEnc h with length := n, timestamp := (timeEnc h.time_stamp).raw % 2 ^ 26 } : Cdis.CdisHeader).ser := by
    unfold Cdis.CdisHeader.ser headerEnc
    dsimp only
    congr 3
    have hw : ∀ k v w, v % 2 ^ k = w % 2 ^ k → Cdis.wU k v = Cdis.wU k w := by
      intro k v w hvw
      have := Cdis.wU_ofBits (Cdis.wU k v)
      rw [Cdis.length_wU, Cdis.ofBits_wU, hvw, ← Cdis.ofBits_wU k w] at this
      have h2 := Cdis.wU_ofBits (Cdis.wU k w)
      rw [Cdis.length_wU] at h2
      rw [← this, h2]
    apply hw
    rw [Nat.mod_mod]
    omega
  rw [e]
  refine Cdis.CdisHeader.run ⟨(by show (1:Nat) < 2 ^ 2; decide), ?_, ?_, ?_, hn, ?_⟩ rest
  · exact h.exercise_id.toNat_lt
  · exact h.pdu_type.toNat_lt
  · exact Nat.mod_lt _ (by decide)
  · show Dis.PduStatus.Wf _ (UInt8.ofNat h.pdu_type.toNat)
    rw [UInt8.ofNat_toNat]
    exact hs

theorem wire_units (t : UInt32) :
    Cdis.CdisTimeStamp.ofRaw ((timeEnc t).raw % 2 ^ 26) = ⟨disAbsolute t, (timeEnc t).units % 2 ^ 25⟩ := by
  unfold Cdis.CdisTimeStamp.ofRaw
  rw [Nat.and_one_is_mod, Nat.shiftRight_eq_div_pow, Cdis.CdisTimeStamp.raw_eq, ← enc_units.1]
  cases (timeEnc t).absolute
  · simp only [Bool.toNat_false]
    congr 1
    · exact decide_eq_false (by omega)
    · omega
  · simp only [Bool.toNat_true]
    congr 1
    · exact decide_eq_true (by omega)
    · omega

/-- **C53**, what holds: timestamps of the first minute of the hour (up to 60.57 seconds) come back with their flag, off by at most 37
units (62 microseconds). -/
theorem C53_first_minute_partial (t : UInt32) (h : disUnits t ≤ 36135500) :
    disAbsolute (timeWireQ t) = disAbsolute t ∧ |((disUnits (timeWireQ t) : Nat) : Rat) - disUnits t| ≤ 2 + disUnits t / 2 ^ 20 := by
  obtain ⟨h1, h2⟩ := enc_units (t := t)
  have hu : (disUnits t : Rat) ≤ 36135500 := by exact_mod_cast h
  have h2' := abs_le.1 h2
  have hle : (timeEnc t).units < 2 ^ 25 := by
    have : ((timeEnc t).units : Rat) < 2 ^ 25 := by
      have : (disUnits t : Rat) / 2 ^ 22 ≤ 10 := by rw [div_le_iff₀ (by norm_num)]; linarith
      have : (2 : Rat) ^ 25 = 33554432 := by norm_num
      linarith
    exact_mod_cast this
  have e : timeWireQ t = timeQ t := by
    unfold timeWireQ timeQ
    rw [Nat.mod_eq_of_lt, Nat.mod_eq_of_lt]
    all_goals
      rw [Cdis.CdisTimeStamp.raw_eq]
      have : (timeEnc t).absolute.toNat ≤ 1 := by cases (timeEnc t).absolute <;> decide
      omega
  rw [e]
  exact C53_codec t (by omega)

/-- **C53**, violated: every timestamp later than 60.58 seconds past the hour is received as one of the first 60.58 seconds. -/
theorem C53_later_violated (t : UInt32) (h : 36135600 ≤ disUnits t) :
    disUnits (timeWireQ t) < 36135560 ∧ disUnits (timeWireQ t) + 40 ≤ disUnits t := by
  suffices disUnits (timeWireQ t) < 36135560 from ⟨this, by omega⟩
  unfold timeWireQ
  rw [wire_units]
  have hlt : (timeEnc t).units % 2 ^ 25 < 2 ^ 25 := Nat.mod_lt _ (by decide)
  generalize (timeEnc t).units % 2 ^ 25 = n at hlt
  obtain ⟨⟨d1, -⟩, d3⟩ := dec_units (x := ⟨disAbsolute t, n⟩) (by show n ≤ _; omega)
  dsimp only at d1 d3
  generalize (toU32 (mul32 (int32 n) (.num (4516943 / 4194304))).roundInt).toNat = m at d1 d3
  have hn : (n : Rat) ≤ 33554432 := by
    have : n ≤ 33554432 := by omega
    exact_mod_cast this
  have d3' := abs_le.1 d3
  have hm : (m : Rat) < 36135560 := by
    have : (n : Rat) / 2 ^ 22 ≤ 8 := by rw [div_le_iff₀ (by norm_num)]; linarith
    linarith
  have hm' : m < 36135560 := by exact_mod_cast hm
  rw [d1]
  exact lt_of_le_of_lt (Nat.mod_le _ _) hm'

/-- **C53**, violated: the number on the wire is nearly the number of DIS units, not the 64th part of it, so a C-DIS receiver that counts
`2^25 - 1` units to the hour reads a time 59 times as late. -/
theorem C53_scale_violated (t : UInt32) (h : 100 ≤ disUnits t) (h' : disUnits t ≤ 36135500) :
    ∃ n, Cdis.CdisTimeStamp.ofRaw ((timeEnc t).raw % 2 ^ 26) = ⟨disAbsolute t, n⟩ ∧ 59 * disUnits t ≤ 64 * n := by
  refine ⟨_, wire_units t, ?_⟩
  obtain ⟨h1, h2⟩ := enc_units (t := t)
  have hu : (disUnits t : Rat) ≤ 36135500 := by exact_mod_cast h'
  have hu' : (100 : Rat) ≤ disUnits t := by exact_mod_cast h
  have h2' := abs_le.1 h2
  have q : (disUnits t : Rat) / 2 ^ 22 = disUnits t * (1 / 4194304) := by norm_num; ring
  rw [q] at h2'
  have hle : (timeEnc t).units < 2 ^ 25 := by
    have : ((timeEnc t).units : Rat) < 2 ^ 25 := by
      have : (2 : Rat) ^ 25 = 33554432 := by norm_num
      linarith
    exact_mod_cast this
  rw [Nat.mod_eq_of_lt hle]
  have : (59 * disUnits t : Rat) ≤ 64 * (timeEnc t).units := by linarith
  exact_mod_cast this

/-- One minute and ten minutes past the hour meet the hypotheses: the first comes back two units early, the second as 54.8 seconds. -/
example : disUnits 71582788 = 35791394 ∧ disUnits 715827882 = 357913941 ∧ disUnits (timeWireQ 71582788) = 35791392 ∧
    disUnits (timeWireQ 715827882) = 32694076 := by decide +kernel

end Verif.Props
