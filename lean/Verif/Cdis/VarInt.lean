import Verif.Cdis.Bits

/-! # Variable length integers of C-DIS (cdis-assemble/src/types)

The Rust structs hold a private `bit_size` next to the value.  Outside of tests they are only built by `From`
(and by `Default`, which agrees with `From` of zero), so the size class is a function of the value and a variable
length integer is modelled by its value alone. -/

namespace Verif.Cdis
open Verif.P

/-! ## Unsigned -/

/-- types/model.rs:78-91 `From<u8> for UVINT8`, 119-127 the flag value of the class. -/
def uv8Flag (v : Nat) : Nat := if v ≤ 15 then 0 else 1
/-- types/model.rs:99-117 the size of the class with a given flag. -/
def uv8Bits (flag : Nat) : Nat := if flag = 0 then 4 else 8
/-- types/writer.rs:8-19 -/
def wUV8 (v : Nat) : Bits := wU 1 (uv8Flag v) ++ wU (uv8Bits (uv8Flag v)) v
/-- types/parser.rs:9-15 -/
def rUV8 : BitP Nat := do
  let f ← rU 1
  rU (uv8Bits f)
/-- types/model.rs:20-22, 40-75 `record_length` -/
def lUV8 (v : Nat) : Nat := 1 + uv8Bits (uv8Flag v)

/-- The four size classes of `UVINT16` and `UVINT32`: the largest value of the first three classes and the number
of value bits of each. -/
structure UV4 where
  h0 : Nat
  h1 : Nat
  h2 : Nat
  s0 : Nat
  s1 : Nat
  s2 : Nat
  s3 : Nat

/-- `From<uN>`: the flag of the class chosen for a value. -/
def UV4.flag (t : UV4) (v : Nat) : Nat :=
  if v ≤ t.h0 then 0 else if v ≤ t.h1 then 1 else if v ≤ t.h2 then 2 else 3
/-- `bit_size` of the class with a given flag. -/
def UV4.bits (t : UV4) (flag : Nat) : Nat :=
  if flag = 0 then t.s0 else if flag = 1 then t.s1 else if flag = 2 then t.s2 else t.s3
/-- types/writer.rs:21-43 -/
def UV4.ser (t : UV4) (v : Nat) : Bits := wU 2 (t.flag v) ++ wU (t.bits (t.flag v)) v
/-- types/parser.rs:17-31 -/
def UV4.parse (t : UV4) : BitP Nat := do
  let f ← rU 2
  rU (t.bits f)
/-- types/model.rs:20-22 `record_length` -/
def UV4.lenBits (t : UV4) (v : Nat) : Nat := 2 + t.bits (t.flag v)

/-- types/model.rs:177-190, 201-234 -/
def uv16 : UV4 := ⟨255, 2047, 16383, 8, 11, 14, 16⟩
/-- types/model.rs:285-298, 310-343 -/
def uv32 : UV4 := ⟨255, 32767, 262143, 8, 15, 18, 32⟩

abbrev wUV16 (v : Nat) : Bits := uv16.ser v
abbrev rUV16 : BitP Nat := uv16.parse
abbrev lUV16 (v : Nat) : Nat := uv16.lenBits v
abbrev wUV32 (v : Nat) : Bits := uv32.ser v
abbrev rUV32 : BitP Nat := uv32.parse
abbrev lUV32 (v : Nat) : Nat := uv32.lenBits v

/-! ## Signed -/

/-- One size class of a signed variable length integer: the range `From` assigns to it, its number of bits
(sign included) and the value of `min_value` that the reader adds to negative numbers. -/
structure SVRow where
  lo : Int
  hi : Int
  size : Nat
  min : Int

structure SV4 where
  r0 : SVRow
  r1 : SVRow
  r2 : SVRow
  r3 : SVRow

/-- `From<iN>`: the flag of the class chosen for a value; anything out of range gets the widest class. -/
def SV4.flag (t : SV4) (v : Int) : Nat :=
  if t.r0.lo ≤ v ∧ v ≤ t.r0.hi then 0
  else if t.r1.lo ≤ v ∧ v ≤ t.r1.hi then 1
  else if t.r2.lo ≤ v ∧ v ≤ t.r2.hi then 2
  else 3
/-- The class with a given flag (`From<u8>` for the bit size). -/
def SV4.row (t : SV4) (flag : Nat) : SVRow :=
  if flag = 0 then t.r0 else if flag = 1 then t.r1 else if flag = 2 then t.r2 else t.r3
/-- types/writer.rs:45-98 -/
def SV4.ser (t : SV4) (v : Int) : Bits := wU 2 (t.flag v) ++ wS (t.row (t.flag v)).size v
/-- types/parser.rs:33-86: flag, sign bit, value bits; negative numbers are `min_value` plus the value bits. -/
def SV4.parse (t : SV4) : BitP Int := do
  let f ← rU 2
  let s ← rU 1
  let v ← rU ((t.row f).size - 1)
  pure ((if s ≠ 0 then (t.row f).min else 0) + v)
/-- types/model.rs:20-22 `record_length` -/
def SV4.lenBits (t : SV4) (v : Int) : Nat := 2 + (t.row (t.flag v)).size

/-- types/model.rs:388-403, 414-466 -/
def sv12 : SV4 := ⟨⟨-4, 3, 3, -4⟩, ⟨-32, 31, 6, -32⟩, ⟨-256, 255, 9, -256⟩, ⟨-2048, 2047, 12, -2048⟩⟩
/-- types/model.rs:511-526, 537-589 -/
def sv13 : SV4 := ⟨⟨-16, 15, 5, -16⟩, ⟨-64, 63, 7, -64⟩, ⟨-512, 511, 10, -512⟩, ⟨-4096, 4095, 13, -4096⟩⟩
/-- types/model.rs:634-649, 660-712 -/
def sv14 : SV4 := ⟨⟨-8, 7, 4, -8⟩, ⟨-64, 63, 7, -64⟩, ⟨-256, 255, 9, -256⟩, ⟨-8192, 8191, 14, -8192⟩⟩
/-- types/model.rs:757-771, 782-834 -/
def sv16 : SV4 := ⟨⟨-128, 127, 8, -128⟩, ⟨-2048, 2047, 12, -2048⟩, ⟨-4096, 4095, 13, -4096⟩, ⟨-32768, 32767, 16, -32768⟩⟩
/-- types/model.rs:879-894, 905-957.  The `min_value` of the 24 bit class is positive in the code (line 922). -/
def sv24 : SV4 := ⟨⟨-32768, 32767, 16, -32768⟩, ⟨-262144, 262143, 19, -262144⟩,
  ⟨-1048576, 1048575, 21, -1048576⟩, ⟨-8388608, 8388607, 24, 8388608⟩⟩

/-! ## Facts -/

theorem length_wUV8 (v : Nat) : (wUV8 v).length = lUV8 v := by simp [wUV8, lUV8]
theorem UV4.length_ser (t : UV4) (v : Nat) : (t.ser v).length = t.lenBits v := by simp [UV4.ser, UV4.lenBits]

theorem uv8_fits {v : Nat} (h : v < 256) : v < 2 ^ uv8Bits (uv8Flag v) := by
  unfold uv8Flag
  split
  · simp [uv8Bits]; omega
  · simp [uv8Bits]; omega
theorem uv8Flag_lt (v : Nat) : uv8Flag v < 2 ^ 1 := by unfold uv8Flag; split <;> decide
theorem rUV8_run (v : Nat) (r : Bits) (h : v < 256) : rUV8.run (wUV8 v ++ r) = .ok v r := by
  simp only [rUV8, wUV8, List.append_assoc, P.run_bind, rU_run _ _ _ (uv8Flag_lt v), Res.andThen_ok,
    rU_run _ _ _ (uv8_fits h)]

theorem UV4.flag_lt (t : UV4) (v : Nat) : t.flag v < 2 ^ 2 := by
  unfold UV4.flag; repeat' split
  all_goals decide
theorem UV4.run (t : UV4) (v : Nat) (r : Bits) (h : v < 2 ^ t.bits (t.flag v)) : t.parse.run (t.ser v ++ r) = .ok v r := by
  simp only [UV4.parse, UV4.ser, List.append_assoc, P.run_bind, rU_run _ _ _ (t.flag_lt v), Res.andThen_ok,
    rU_run _ _ _ h]
theorem uv16_fits {v : Nat} (h : v < 65536) : v < 2 ^ uv16.bits (uv16.flag v) := by
  unfold UV4.flag
  repeat' split
  all_goals simp only [uv16, UV4.bits] at *; simp; omega
theorem uv32_fits {v : Nat} (h : v < 4294967296) : v < 2 ^ uv32.bits (uv32.flag v) := by
  unfold UV4.flag
  repeat' split
  all_goals simp only [uv32, UV4.bits] at *; simp; omega
theorem rUV16_run (v : Nat) (r : Bits) (h : v < 65536) : rUV16.run (wUV16 v ++ r) = .ok v r :=
  uv16.run v r (uv16_fits h)
theorem rUV32_run (v : Nat) (r : Bits) (h : v < 4294967296) : rUV32.run (wUV32 v ++ r) = .ok v r :=
  uv32.run v r (uv32_fits h)

theorem SV4.flag_lt (t : SV4) (v : Int) : t.flag v < 2 ^ 2 := by
  unfold SV4.flag; repeat' split
  all_goals decide
/-- The sizes of all the classes are positive. -/
def SV4.Pos (t : SV4) : Prop := 0 < t.r0.size ∧ 0 < t.r1.size ∧ 0 < t.r2.size ∧ 0 < t.r3.size
instance (t : SV4) : Decidable t.Pos := inferInstanceAs (Decidable (_ ∧ _))
theorem SV4.row_pos {t : SV4} (h : t.Pos) (f : Nat) : 0 < (t.row f).size := by
  obtain ⟨h0, h1, h2, h3⟩ := h
  unfold SV4.row; repeat' split
  all_goals assumption
theorem SV4.length_ser {t : SV4} (h : t.Pos) (v : Int) : (t.ser v).length = t.lenBits v := by
  simp [SV4.ser, SV4.lenBits, SV4.row_pos h]

/-- What the reader makes of what the writer wrote, for any value. -/
theorem SV4.run (t : SV4) (v : Int) (r : Bits) : t.parse.run (t.ser v ++ r) =
    .ok ((if v < 0 then (t.row (t.flag v)).min else 0) + v % 2 ^ ((t.row (t.flag v)).size - 1)) r := by
  rw [SV4.ser, wS_eq]
  simp only [SV4.parse, List.append_assoc, P.run_bind, rU_run _ _ _ (t.flag_lt v), Res.andThen_ok,
    rU_run _ _ _ (toNat_emod_lt _ _), P.run_pure, rU_run_mod]
  rw [toNat_emod_two_pow]
  by_cases hv : v < 0 <;> simp [hv]

/-- The reader recovers a value when its class covers it and has the matching minimum. -/
theorem SV4.run_ok (t : SV4) (v : Int) (r : Bits) (h : InS (t.row (t.flag v)).size v)
    (hm : v < 0 → (t.row (t.flag v)).min = -(2 ^ ((t.row (t.flag v)).size - 1) : Int)) :
    t.parse.run (t.ser v ++ r) = .ok v r := by
  rw [SV4.run, emod_range h]
  by_cases hv : v < 0
  · simp only [hv, if_true, hm hv]; congr 1; omega
  · simp only [hv, if_false]; congr 1; omega

theorem sv12_run (v : Int) (r : Bits) (h : InS 12 v) : sv12.parse.run (sv12.ser v ++ r) = .ok v r := by
  obtain ⟨h1, h2⟩ := h
  simp only [show (2 : Int) ^ (12 - 1) = 2048 from rfl] at h1 h2
  apply SV4.run_ok <;>
  (unfold SV4.flag; repeat' split) <;> simp only [sv12, SV4.row, InS] at * <;> simp <;> omega
theorem sv13_run (v : Int) (r : Bits) (h : InS 13 v) : sv13.parse.run (sv13.ser v ++ r) = .ok v r := by
  obtain ⟨h1, h2⟩ := h
  simp only [show (2 : Int) ^ (13 - 1) = 4096 from rfl] at h1 h2
  apply SV4.run_ok <;>
  (unfold SV4.flag; repeat' split) <;> simp only [sv13, SV4.row, InS] at * <;> simp <;> omega
theorem sv14_run (v : Int) (r : Bits) (h : InS 14 v) : sv14.parse.run (sv14.ser v ++ r) = .ok v r := by
  obtain ⟨h1, h2⟩ := h
  simp only [show (2 : Int) ^ (14 - 1) = 8192 from rfl] at h1 h2
  apply SV4.run_ok <;>
  (unfold SV4.flag; repeat' split) <;> simp only [sv14, SV4.row, InS] at * <;> simp <;> omega
theorem sv16_run (v : Int) (r : Bits) (h : InS 16 v) : sv16.parse.run (sv16.ser v ++ r) = .ok v r := by
  obtain ⟨h1, h2⟩ := h
  simp only [show (2 : Int) ^ (16 - 1) = 32768 from rfl] at h1 h2
  apply SV4.run_ok <;>
  (unfold SV4.flag; repeat' split) <;> simp only [sv16, SV4.row, InS] at * <;> simp <;> omega
/-- The range of `SVINT24` values that survive: the negative part of the 24 bit class does not. -/
def In24 (v : Int) : Prop := -1048576 ≤ v ∧ v ≤ 8388607
instance (v : Int) : Decidable (In24 v) := inferInstanceAs (Decidable (_ ∧ _))
theorem sv24_run (v : Int) (r : Bits) (h : In24 v) : sv24.parse.run (sv24.ser v ++ r) = .ok v r := by
  obtain ⟨h1, h2⟩ := h
  apply SV4.run_ok <;>
  (unfold SV4.flag; repeat' split) <;> simp only [sv24, SV4.row, InS] at * <;> simp <;> omega

theorem length_sv12 (v : Int) : (sv12.ser v).length = sv12.lenBits v := SV4.length_ser (by decide) v
theorem length_sv13 (v : Int) : (sv13.ser v).length = sv13.lenBits v := SV4.length_ser (by decide) v
theorem length_sv14 (v : Int) : (sv14.ser v).length = sv14.lenBits v := SV4.length_ser (by decide) v
theorem length_sv16 (v : Int) : (sv16.ser v).length = sv16.lenBits v := SV4.length_ser (by decide) v
theorem length_sv24 (v : Int) : (sv24.ser v).length = sv24.lenBits v := SV4.length_ser (by decide) v

instance (n : Nat) : P.Stable (rU n) := by unfold rU; parser_ok
instance (n : Nat) : P.Safe (rU n) := by unfold rU; parser_ok
instance (n : Nat) : P.Stable (rS n) := by unfold rS; parser_ok
instance (n : Nat) : P.Safe (rS n) := by unfold rS; parser_ok
instance (n : Nat) : P.Stable (rI n) := by unfold rI; parser_ok
instance (n : Nat) : P.Safe (rI n) := by unfold rI; parser_ok
instance : P.Stable rUV8 := by unfold rUV8; parser_ok
instance : P.Safe rUV8 := by unfold rUV8; parser_ok
instance (t : UV4) : P.Stable t.parse := by unfold UV4.parse; parser_ok
instance (t : UV4) : P.Safe t.parse := by unfold UV4.parse; parser_ok
instance (t : SV4) : P.Stable t.parse := by unfold SV4.parse; parser_ok
instance (t : SV4) : P.Safe t.parse := by unfold SV4.parse; parser_ok

end Verif.Cdis
