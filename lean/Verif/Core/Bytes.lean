import Verif.Core.Parser

/-!
# Big-endian octet primitives

Models `bytes::BufMut::put_u8/u16/u32/u64/put_bytes/put_slice` and
`nom::number::complete::be_u8/u16/u32/u64`.  `put_f32`/`be_f32` (`put_f64`/`be_f64`) copy the 32 (64)
bits of the float, so floats are represented by their bit pattern.
-/

namespace Verif

/-- Octets. -/
abbrev Bytes := List UInt8

/-- `BufMut::put_u8`. -/
def e8 (v : UInt8) : Bytes := [v]
/-- `BufMut::put_u16` (big endian). -/
def e16 (v : UInt16) : Bytes := [UInt8.ofNat (v.toNat / 256), UInt8.ofNat v.toNat]
/-- `BufMut::put_u32`, `put_i32`, `put_f32` (big endian bit pattern). -/
def e32 (v : UInt32) : Bytes :=
  [UInt8.ofNat (v.toNat / 16777216), UInt8.ofNat (v.toNat / 65536),
   UInt8.ofNat (v.toNat / 256), UInt8.ofNat v.toNat]
/-- `BufMut::put_u64`, `put_f64` (big endian bit pattern). -/
def e64 (v : UInt64) : Bytes :=
  [UInt8.ofNat (v.toNat / 72057594037927936), UInt8.ofNat (v.toNat / 281474976710656),
   UInt8.ofNat (v.toNat / 1099511627776), UInt8.ofNat (v.toNat / 4294967296),
   UInt8.ofNat (v.toNat / 16777216), UInt8.ofNat (v.toNat / 65536),
   UInt8.ofNat (v.toNat / 256), UInt8.ofNat v.toNat]
/-- `BufMut::put_bytes(0, n)`. -/
def zeros (n : Nat) : Bytes := List.replicate n 0

/-- `nom::number::complete::be_u8`. -/
def be_u8 : P UInt8 UInt8 := ⟨fun
  | a :: r => .ok a r
  | [] => .err⟩
/-- `nom::number::complete::be_u16`. -/
def be_u16 : P UInt8 UInt16 := ⟨fun
  | a :: b :: r => .ok (UInt16.ofNat (a.toNat * 256 + b.toNat)) r
  | _ => .err⟩
/-- `nom::number::complete::be_u32`, `be_i32`, `be_f32` (bit pattern). -/
def be_u32 : P UInt8 UInt32 := ⟨fun
  | a :: b :: c :: d :: r =>
    .ok (UInt32.ofNat (a.toNat * 16777216 + b.toNat * 65536 + c.toNat * 256 + d.toNat)) r
  | _ => .err⟩
/-- `nom::number::complete::be_u64`, `be_f64` (bit pattern). -/
def be_u64 : P UInt8 UInt64 := ⟨fun
  | a :: b :: c :: d :: e :: f :: g :: h :: r =>
    .ok (UInt64.ofNat (a.toNat * 72057594037927936 + b.toNat * 281474976710656
      + c.toNat * 1099511627776 + d.toNat * 4294967296
      + e.toNat * 16777216 + f.toNat * 65536 + g.toNat * 256 + h.toNat)) r
  | _ => .err⟩

@[len] theorem length_e8 (v) : (e8 v).length = 1 := rfl
@[len] theorem length_e16 (v) : (e16 v).length = 2 := rfl
@[len] theorem length_e32 (v) : (e32 v).length = 4 := rfl
@[len] theorem length_e64 (v) : (e64 v).length = 8 := rfl
@[len] theorem length_zeros (n) : (zeros n).length = n := by simp [zeros]

@[rt] theorem be_u8_e8 (v : UInt8) (r : Bytes) : be_u8.run (e8 v ++ r) = .ok v r := id rfl

@[rt] theorem be_u16_e16 (v : UInt16) (r : Bytes) : be_u16.run (e16 v ++ r) = .ok v r := by
  simp only [be_u16, e16, List.cons_append, List.nil_append, Res.ok.injEq, and_true]
  apply UInt16.toNat.inj
  have := v.toNat_lt
  simp only [UInt16.toNat_ofNat', UInt8.toNat_ofNat']
  omega

@[rt] theorem be_u32_e32 (v : UInt32) (r : Bytes) : be_u32.run (e32 v ++ r) = .ok v r := by
  simp only [be_u32, e32, List.cons_append, List.nil_append, Res.ok.injEq, and_true]
  apply UInt32.toNat.inj
  have := v.toNat_lt
  simp only [UInt32.toNat_ofNat', UInt8.toNat_ofNat']
  omega

@[rt] theorem be_u64_e64 (v : UInt64) (r : Bytes) : be_u64.run (e64 v ++ r) = .ok v r := by
  simp only [be_u64, e64, List.cons_append, List.nil_append, Res.ok.injEq, and_true]
  apply UInt64.toNat.inj
  have := v.toNat_lt
  simp only [UInt64.toNat_ofNat', UInt8.toNat_ofNat']
  omega

@[rt] theorem run_take_zeros (n : Nat) (r : Bytes) :
    (P.take n).run (zeros n ++ r) = .ok (zeros n) r := P.run_take _ _ _ (length_zeros n)

instance : P.Stable be_u8 where
  spec bs a r h := by
    match bs, h with
    | x :: t, h =>
      simp only [be_u8, Res.ok.injEq] at h
      exact ⟨[x], by simp [h.2], by intro r'; simp only [be_u8, List.cons_append, List.nil_append, h.1]⟩
  crash bs e h := by unfold be_u8 at h; dsimp only at h; split at h <;> cases h

instance : P.Stable be_u16 where
  spec bs a r h := by
    match bs, h with
    | x :: y :: t, h =>
      simp only [be_u16, Res.ok.injEq] at h
      exact ⟨[x, y], by simp [h.2], by intro r'; simp only [be_u16, List.cons_append, List.nil_append, h.1]⟩
  crash bs e h := by unfold be_u16 at h; dsimp only at h; split at h <;> cases h

instance : P.Stable be_u32 where
  spec bs a r h := by
    match bs, h with
    | x :: y :: z :: w :: t, h =>
      simp only [be_u32, Res.ok.injEq] at h
      exact ⟨[x, y, z, w], by simp [h.2], by intro r'; simp only [be_u32, List.cons_append, List.nil_append, h.1]⟩
  crash bs e h := by unfold be_u32 at h; dsimp only at h; split at h <;> cases h

instance : P.Stable be_u64 where
  spec bs a r h := by
    match bs, h with
    | x :: y :: z :: w :: x' :: y' :: z' :: w' :: t, h =>
      simp only [be_u64, Res.ok.injEq] at h
      exact ⟨[x, y, z, w, x', y', z', w'], by simp [h.2], by intro r'; simp only [be_u64, List.cons_append, List.nil_append, h.1]⟩
  crash bs e h := by unfold be_u64 at h; dsimp only at h; split at h <;> cases h

instance : P.Safe be_u8 where
  spec bs := by unfold be_u8; dsimp only; split <;> simp
instance : P.Safe be_u16 where
  spec bs := by unfold be_u16; dsimp only; split <;> simp
instance : P.Safe be_u32 where
  spec bs := by unfold be_u32; dsimp only; split <;> simp
instance : P.Safe be_u64 where
  spec bs := by unfold be_u64; dsimp only; split <;> simp

/-! ## Casts (`as u8`, `as u16`, `as u32`, `as usize`) of list lengths -/

theorem toNat_u8_ofNat {n : Nat} (h : n < 256) : (UInt8.ofNat n).toNat = n := by
  simp [UInt8.toNat_ofNat']; omega
theorem toNat_u16_ofNat {n : Nat} (h : n < 65536) : (UInt16.ofNat n).toNat = n := by
  simp [UInt16.toNat_ofNat']; omega
theorem toNat_u32_ofNat {n : Nat} (h : n < 4294967296) : (UInt32.ofNat n).toNat = n := by
  simp [UInt32.toNat_ofNat']; omega

end Verif
