import Verif.Cdis.VarInt

/-! # C29, C30: variable-length integers of C-DIS

The specification: `LeastU`/`LeastS` say that a number of payload bits is the least of the sizes the format offers that
can hold the value. -/

namespace Verif.Props
open Verif.Cdis

/-- `n` is the least of the `sizes` such that `v` is an unsigned `n`-bit number. -/
def LeastU (sizes : List Nat) (v n : Nat) : Prop := n ∈ sizes ∧ v < 2 ^ n ∧ ∀ m ∈ sizes, v < 2 ^ m → n ≤ m
/-- `n` is the least of the `sizes` such that `v` is a two's complement `n`-bit number. -/
def LeastS (sizes : List Nat) (v : Int) (n : Nat) : Prop :=
  n ∈ sizes ∧ (-(2 ^ (n - 1) : Int) ≤ v ∧ v < 2 ^ (n - 1))
    ∧ ∀ m ∈ sizes, -(2 ^ (m - 1) : Int) ≤ v ∧ v < 2 ^ (m - 1) → n ≤ m

/-- UVINT8: every octet value reads back, whatever follows. -/
theorem C29_uvint8_round_trip (v : Nat) (h : v < 256) (r : Bits) : rUV8.run (wUV8 v ++ r) = .ok v r := rUV8_run v r h
/-- UVINT16 -/
theorem C29_uvint16_round_trip (v : Nat) (h : v < 65536) (r : Bits) : rUV16.run (wUV16 v ++ r) = .ok v r :=
  rUV16_run v r h
/-- UVINT32 -/
theorem C29_uvint32_round_trip (v : Nat) (h : v < 4294967296) (r : Bits) : rUV32.run (wUV32 v ++ r) = .ok v r :=
  rUV32_run v r h

/-- UVINT8 is one flag bit and the least of 4 and 8 bits. -/
theorem C29_uvint8_minimal (v : Nat) (h : v < 256) : ∃ n, (wUV8 v).length = 1 + n ∧ LeastU [4, 8] v n := by
  refine ⟨uv8Bits (uv8Flag v), length_wUV8 v, ?_⟩
  unfold uv8Flag
  split
  · refine ⟨by decide, by simp only [uv8Bits]; simp; omega, ?_⟩
    simp [uv8Bits]
  · refine ⟨by decide, by simp only [uv8Bits]; simp; omega, ?_⟩
    simp [uv8Bits]; omega
/-- UVINT16 is two flag bits and the least of 8, 11, 14 and 16 bits. -/
theorem C29_uvint16_minimal (v : Nat) (h : v < 65536) :
    ∃ n, (wUV16 v).length = 2 + n ∧ LeastU [8, 11, 14, 16] v n := by
  refine ⟨uv16.bits (uv16.flag v), uv16.length_ser v, ?_⟩
  unfold UV4.flag
  repeat' split
  all_goals
    simp only [uv16] at *
    refine ⟨by decide, by simp only [UV4.bits]; simp; omega, ?_⟩
    simp [UV4.bits]
    try omega
/-- UVINT32 is two flag bits and the least of 8, 15, 18 and 32 bits. -/
theorem C29_uvint32_minimal (v : Nat) (h : v < 4294967296) :
    ∃ n, (wUV32 v).length = 2 + n ∧ LeastU [8, 15, 18, 32] v n := by
  refine ⟨uv32.bits (uv32.flag v), uv32.length_ser v, ?_⟩
  unfold UV4.flag
  repeat' split
  all_goals
    simp only [uv32] at *
    refine ⟨by decide, by simp only [UV4.bits]; simp; omega, ?_⟩
    simp [UV4.bits]
    try omega

theorem rU_lt {n : Nat} {b : Bits} {v : Nat} {r : Bits} (h : (rU n).run b = .ok v r) : v < 2 ^ n := by
  simp only [rU, P.run_bind, P.take] at h
  split at h
  · rename_i hn
    simp only [Res.andThen_ok, P.run_pure, Res.ok.injEq] at h
    have := ofBits_lt (b.take n)
    rw [h.1, List.length_take, Nat.min_eq_left hn] at this
    exact this
  · cases h

/-- Whatever is read as a UVINT8 is an octet value. -/
theorem C29_uvint8_read_range {b : Bits} {v : Nat} {r : Bits} (h : rUV8.run b = .ok v r) : v < 256 := by
  simp only [rUV8, P.run_bind] at h
  cases hf : (rU 1).run b with
  | err => rw [hf] at h; cases h
  | panic => rw [hf] at h; cases h
  | ok f r1 =>
    rw [hf] at h
    simp only [Res.andThen_ok] at h
    have := rU_lt h
    unfold uv8Bits at this
    split at this <;> simp at this <;> omega
theorem uv4_read_range {t : UV4} {b : Bits} {v : Nat} {r : Bits} (h : t.parse.run b = .ok v r) :
    v < 2 ^ t.s0 ∨ v < 2 ^ t.s1 ∨ v < 2 ^ t.s2 ∨ v < 2 ^ t.s3 := by
  simp only [UV4.parse, P.run_bind] at h
  cases hf : (rU 2).run b with
  | err => rw [hf] at h; cases h
  | panic => rw [hf] at h; cases h
  | ok f r1 =>
    rw [hf] at h
    simp only [Res.andThen_ok] at h
    have := rU_lt h
    unfold UV4.bits at this
    repeat' split at this
    · exact .inl this
    · exact .inr (.inl this)
    · exact .inr (.inr (.inl this))
    · exact .inr (.inr (.inr this))
/-- Whatever is read as a UVINT16 is a 16-bit value. -/
theorem C29_uvint16_read_range {b : Bits} {v : Nat} {r : Bits} (h : rUV16.run b = .ok v r) : v < 65536 := by
  have := uv4_read_range h
  simp [uv16] at this; omega
/-- Whatever is read as a UVINT32 is a 32-bit value. -/
theorem C29_uvint32_read_range {b : Bits} {v : Nat} {r : Bits} (h : rUV32.run b = .ok v r) : v < 4294967296 := by
  have := uv4_read_range h
  simp [uv32] at this; omega
/-- The boundary values 15 and 16 get different sizes, and a UVINT16 of 2048 takes 14 bits. -/
example : (wUV8 15).length = 5 ∧ (wUV8 16).length = 9 ∧ (wUV16 2047).length = 13 ∧ (wUV16 2048).length = 16 := by decide

/-! ## C30 -/

/-- SVINT12 (angular velocities) -/
theorem C30_svint12_round_trip (v : Int) (h : -2048 ≤ v ∧ v ≤ 2047) (r : Bits) :
    sv12.parse.run (sv12.ser v ++ r) = .ok v r := sv12_run v r ⟨h.1, by have := h.2; simp; omega⟩
/-- SVINT13 (beam data) -/
theorem C30_svint13_round_trip (v : Int) (h : -4096 ≤ v ∧ v ≤ 4095) (r : Bits) :
    sv13.parse.run (sv13.ser v ++ r) = .ok v r := sv13_run v r ⟨h.1, by have := h.2; simp; omega⟩
/-- SVINT14 (accelerations) -/
theorem C30_svint14_round_trip (v : Int) (h : -8192 ≤ v ∧ v ≤ 8191) (r : Bits) :
    sv14.parse.run (sv14.ser v ++ r) = .ok v r := sv14_run v r ⟨h.1, by have := h.2; simp; omega⟩
/-- SVINT16 (velocities, entity coordinates) -/
theorem C30_svint16_round_trip (v : Int) (h : -32768 ≤ v ∧ v ≤ 32767) (r : Bits) :
    sv16.parse.run (sv16.ser v ++ r) = .ok v r := sv16_run v r ⟨h.1, by have := h.2; simp; omega⟩
/-- SVINT24 (altitudes), for the values that survive. -/
theorem C30_svint24_round_trip_partial (v : Int) (h : -1048576 ≤ v ∧ v ≤ 8388607) (r : Bits) :
    sv24.parse.run (sv24.ser v ++ r) = .ok v r := sv24_run v r h
/-- The other values of 24 bits arrive 16777216 higher than they were sent: the property fails exactly for them. -/
theorem C30_svint24_violated (v : Int) (h : -8388608 ≤ v ∧ v < -1048576) (r : Bits) :
    sv24.parse.run (sv24.ser v ++ r) = .ok (v + 16777216) r := by
  rw [SV4.run]
  have e : sv24.flag v = 3 := by
    unfold SV4.flag
    repeat' split
    all_goals simp only [sv24] at *
    all_goals omega
  have n : v < 0 := by omega
  rw [e]
  have k : (8388608 : Int) + v % 8388608 = v + 16777216 := by omega
  rw [if_pos n]
  exact congrArg (Res.ok · r) k
/-- So the altitude of the centre of the Earth, the code's own marker for a zero location, does not survive. -/
theorem C30_svint24_centre_of_earth (r : Bits) : sv24.parse.run (sv24.ser (-8388608) ++ r) = .ok 8388608 r :=
  C30_svint24_violated (-8388608) (by decide) r

/-- SVINT12 is two flag bits and the least of 3, 6, 9 and 12 bits. -/
theorem C30_svint12_minimal (v : Int) (h : -2048 ≤ v ∧ v ≤ 2047) :
    ∃ n, (sv12.ser v).length = 2 + n ∧ LeastS [3, 6, 9, 12] v n := by
  refine ⟨(sv12.row (sv12.flag v)).size, length_sv12 v, ?_⟩
  unfold SV4.flag
  repeat' split
  all_goals
    simp only [sv12] at *
    refine ⟨by decide, by simp only [SV4.row]; simp; omega, ?_⟩
    simp [SV4.row]
    try omega
/-- SVINT13 is two flag bits and the least of 5, 7, 10 and 13 bits. -/
theorem C30_svint13_minimal (v : Int) (h : -4096 ≤ v ∧ v ≤ 4095) :
    ∃ n, (sv13.ser v).length = 2 + n ∧ LeastS [5, 7, 10, 13] v n := by
  refine ⟨(sv13.row (sv13.flag v)).size, length_sv13 v, ?_⟩
  unfold SV4.flag
  repeat' split
  all_goals
    simp only [sv13] at *
    refine ⟨by decide, by simp only [SV4.row]; simp; omega, ?_⟩
    simp [SV4.row]
    try omega
/-- SVINT14 is two flag bits and the least of 4, 7, 9 and 14 bits. -/
theorem C30_svint14_minimal (v : Int) (h : -8192 ≤ v ∧ v ≤ 8191) :
    ∃ n, (sv14.ser v).length = 2 + n ∧ LeastS [4, 7, 9, 14] v n := by
  refine ⟨(sv14.row (sv14.flag v)).size, length_sv14 v, ?_⟩
  unfold SV4.flag
  repeat' split
  all_goals
    simp only [sv14] at *
    refine ⟨by decide, by simp only [SV4.row]; simp; omega, ?_⟩
    simp [SV4.row]
    try omega
/-- SVINT16 is two flag bits and the least of 8, 12, 13 and 16 bits. -/
theorem C30_svint16_minimal (v : Int) (h : -32768 ≤ v ∧ v ≤ 32767) :
    ∃ n, (sv16.ser v).length = 2 + n ∧ LeastS [8, 12, 13, 16] v n := by
  refine ⟨(sv16.row (sv16.flag v)).size, length_sv16 v, ?_⟩
  unfold SV4.flag
  repeat' split
  all_goals
    simp only [sv16] at *
    refine ⟨by decide, by simp only [SV4.row]; simp; omega, ?_⟩
    simp [SV4.row]
    try omega
/-- SVINT24 is two flag bits and the least of 16, 19, 21 and 24 bits (also for the values that do not survive). -/
theorem C30_svint24_minimal (v : Int) (h : -8388608 ≤ v ∧ v ≤ 8388607) :
    ∃ n, (sv24.ser v).length = 2 + n ∧ LeastS [16, 19, 21, 24] v n := by
  refine ⟨(sv24.row (sv24.flag v)).size, length_sv24 v, ?_⟩
  unfold SV4.flag
  repeat' split
  all_goals
    simp only [sv24] at *
    refine ⟨by decide, by simp only [SV4.row]; simp; omega, ?_⟩
    simp [SV4.row]
    try omega
/-- A concrete case: -5 needs the second class of SVINT12. -/
example : (sv12.ser (-4)).length = 5 ∧ (sv12.ser (-5)).length = 8 ∧ sv12.parse.run (sv12.ser (-5)) = .ok (-5) [] := by
  decide +kernel

end Verif.Props
