import Verif.Core.Bytes

/-!
# Records packed into the bits of one word

Many DIS records are a few enumerations and flags packed into 8, 16 or 32 bits.  The Rust code reads
field `i` as `(record & mask_i) >> shift_i` and writes the record as the bitwise or of `value_i << shift_i`.
A packed record is modelled as the list of its raw field values in declaration order, together with the
table of the masks and shifts used by the reader and the table of shifts used by the writer.

Simplification: the Rust code shifts within `u8`/`u16`/`u32`, so a value too large for the word loses its
high bits there; here the or is taken over `Nat` and truncated to the word at the end.  The two agree for
values that fit their field.
-/

namespace Verif

/-- The raw values of the fields of a packed record. -/
abbrev Packed := List Nat

/-- How the reader obtains one field. -/
inductive RField where
  /-- `(record & mask) >> shift` -/
  | bits (mask shift : Nat)
  /-- a constant that does not depend on the record -/
  | const (v : Nat)
  deriving Repr, DecidableEq

/-- One field of the word `w`. -/
def RField.read (w : Nat) : RField → Nat
  | .bits m s => (w &&& m) >>> s
  | .const v => v

/-- All the fields of the word `w`. -/
def unpack (R : List RField) (w : Nat) : Packed := R.map (RField.read w)

/-- Bitwise or of the shifted values. -/
def pack : List Nat → Packed → Nat
  | s :: ss, v :: vs => (v <<< s) ||| pack ss vs
  | _, _ => 0

/-! ## Specification: a layout gives the position and width of each field -/

/-- Position of the lowest bit and width of each field. -/
abbrev Layout := List (Nat × Nat)

/-- Every value fits the width of its field (and there are as many values as fields). -/
def Layout.Fits : Layout → Packed → Prop
  | [], [] => True
  | (_, n) :: L, v :: vs => v < 2 ^ n ∧ Layout.Fits L vs
  | _, _ => False

/-- The fields are listed from the most significant one down, do not overlap and lie below bit `top`. -/
def Layout.Ordered : Nat → Layout → Prop
  | _, [] => True
  | top, (s, n) :: L => s + n ≤ top ∧ Layout.Ordered s L

/-- Bit `i` belongs to some field. -/
def Layout.covers (L : Layout) (i : Nat) : Bool := L.any fun f => f.1 ≤ i && i < f.1 + f.2

/-- The reader table prescribed by a layout. -/
def Layout.reader (L : Layout) : List RField := L.map fun f => .bits ((2 ^ f.2 - 1) <<< f.1) f.1
/-- The writer table prescribed by a layout. -/
def Layout.writer (L : Layout) : List Nat := L.map Prod.fst

instance Layout.decFits : (L : Layout) → (v : Packed) → Decidable (L.Fits v)
  | [], [] => isTrue trivial
  | (_, n) :: L, v :: vs => by
      have := Layout.decFits L vs
      unfold Layout.Fits; infer_instance
  | [], _ :: _ => isFalse id
  | _ :: _, [] => isFalse id
instance Layout.decOrdered : (t : Nat) → (L : Layout) → Decidable (L.Ordered t)
  | _, [] => isTrue trivial
  | t, (s, n) :: L => by
      have := Layout.decOrdered s L
      unfold Layout.Ordered; infer_instance

theorem Layout.Fits.length : ∀ {L : Layout} {vs : Packed}, L.Fits vs → vs.length = L.length
  | [], [], _ => rfl
  | _ :: _, _ :: _, h => by simp [Layout.Fits.length h.2]

theorem RField.read_bits (w s n : Nat) :
    RField.read w (.bits ((2 ^ n - 1) <<< s) s) = (w >>> s) % 2 ^ n := by
  apply Nat.eq_of_testBit_eq
  intro i
  simp only [RField.read, Nat.testBit_shiftRight, Nat.testBit_and, Nat.testBit_shiftLeft, Nat.testBit_mod_two_pow,
    Nat.testBit_two_pow_sub_one]
  by_cases h : i < n
  · simp [h]
  · simp [h]

theorem pack_lt : ∀ {L : Layout} {t : Nat} {vs : Packed}, L.Ordered t → L.Fits vs → pack L.writer vs < 2 ^ t
  | [], _, [], _, _ => by simp [pack, Layout.writer]; exact Nat.two_pow_pos _
  | (s, n) :: L, t, v :: vs, ho, hf => by
    have ih := pack_lt ho.2 hf.2
    show (v <<< s) ||| pack (Layout.writer L) vs < 2 ^ t
    apply Nat.or_lt_two_pow
    · rw [Nat.shiftLeft_eq]
      have h1 : v * 2 ^ s < 2 ^ n * 2 ^ s := Nat.mul_lt_mul_of_pos_right hf.1 (Nat.two_pow_pos _)
      rw [← Nat.pow_add] at h1
      exact Nat.lt_of_lt_of_le h1 (Nat.pow_le_pow_right (by decide) (by have := ho.1; omega))
    · exact Nat.lt_of_lt_of_le ih (Nat.pow_le_pow_right (by decide) (by have := ho.1; omega))

theorem read_or_high {s v e : Nat} {f : Nat × Nat} (h : f.1 + f.2 ≤ s) :
    (((v <<< s) ||| e) >>> f.1) % 2 ^ f.2 = (e >>> f.1) % 2 ^ f.2 := by
  apply Nat.eq_of_testBit_eq
  intro i
  simp only [Nat.testBit_mod_two_pow, Nat.testBit_shiftRight, Nat.testBit_or, Nat.testBit_shiftLeft]
  by_cases hi : i < f.2
  · have : ¬ (s ≤ f.1 + i) := by omega
    simp [hi, this]
  · simp [hi]

theorem Layout.Ordered.bound : ∀ {L : Layout} {t : Nat}, L.Ordered t → ∀ f ∈ L, f.1 + f.2 ≤ t
  | [], _, _, f, hf => by simp at hf
  | (s, n) :: L, t, h, f, hf => by
    rcases List.mem_cons.1 hf with rfl | hf
    · exact h.1
    · have h1 := h.1
      have h2 := h.2.bound f hf
      omega

/-- Reading a packed record back gives the fields that were written. -/
theorem unpack_pack : ∀ {L : Layout} {t : Nat} {vs : Packed}, L.Ordered t → L.Fits vs →
    unpack L.reader (pack L.writer vs) = vs
  | [], _, [], _, _ => rfl
  | (s, n) :: L, t, v :: vs, ho, hf => by
    have ih := unpack_pack ho.2 hf.2
    have hlt := pack_lt ho.2 hf.2
    have e : pack (Layout.writer ((s, n) :: L)) (v :: vs) = (v <<< s) ||| pack (Layout.writer L) vs := rfl
    rw [e]
    simp only [unpack, Layout.reader, List.map_cons, List.map_map] at ih ⊢
    congr 1
    · rw [RField.read_bits, ← Nat.shiftLeft_add_eq_or_of_lt hlt, Nat.shiftLeft_eq, Nat.shiftRight_eq_div_pow,
        Nat.mul_comm, Nat.mul_add_div (Nat.two_pow_pos _), Nat.div_eq_of_lt hlt, Nat.add_zero, Nat.mod_eq_of_lt hf.1]
    · refine Eq.trans (List.map_congr_left fun f hfm => ?_) ih
      simp only [Function.comp, RField.read_bits]
      exact read_or_high (ho.2.bound f hfm)

/-- Writing back the fields read from a word gives the bits of the word that belong to a field. -/
theorem testBit_pack_unpack (L : Layout) (w i : Nat) :
    (pack L.writer (unpack L.reader w)).testBit i = (w.testBit i && L.covers i) := by
  induction L with
  | nil => simp [pack, Layout.writer, Layout.covers]
  | cons f L ih =>
    have e : pack (Layout.writer (f :: L)) (unpack (Layout.reader (f :: L)) w)
      = (RField.read w (.bits ((2 ^ f.2 - 1) <<< f.1) f.1) <<< f.1) ||| pack (Layout.writer L) (unpack (Layout.reader L) w) := rfl
    rw [e, RField.read_bits, Nat.testBit_or, ih]
    simp only [Nat.testBit_shiftLeft, Nat.testBit_mod_two_pow, Nat.testBit_shiftRight, Layout.covers, List.any_cons]
    by_cases h1 : f.1 ≤ i
    · have h2 : f.1 + (i - f.1) = i := by omega
      have h3 : (i - f.1 < f.2) ↔ (i < f.1 + f.2) := by omega
      simp only [h2, h1, h3, decide_true, Bool.true_and, Bool.and_or_distrib_left]
      cases w.testBit i <;> simp
    · simp [h1]

theorem unpack_set (R : List RField) (i v w : Nat) : unpack (R.set i (.const v)) w = (unpack R w).set i v := by
  simp [unpack, List.map_set, RField.read]

theorem set_of_getD {vs : Packed} {i v d : Nat} (h : vs.getD i d = v) (hi : i < vs.length) : vs.set i v = vs := by
  subst h
  rw [List.getD_eq_getElem?_getD, List.getElem?_eq_getElem hi, Option.getD_some]
  exact List.set_getElem_self hi

/-- The fields read from any word fit the layout. -/
theorem fits_unpack (L : Layout) (w : Nat) : L.Fits (unpack L.reader w) := by
  induction L with
  | nil => trivial
  | cons f L ih =>
    refine ⟨?_, ih⟩
    rw [RField.read_bits]
    exact Nat.mod_lt _ (Nat.two_pow_pos _)

/-- An octet holding a packed record. -/
def unpack8 (R : List RField) : P UInt8 Packed := do
  let w ← be_u8
  pure (unpack R w.toNat)
/-- Two octets holding a packed record. -/
def unpack16 (R : List RField) : P UInt8 Packed := do
  let w ← be_u16
  pure (unpack R w.toNat)
/-- Four octets holding a packed record. -/
def unpack32 (R : List RField) : P UInt8 Packed := do
  let w ← be_u32
  pure (unpack R w.toNat)
def pack8 (W : List Nat) (v : Packed) : Bytes := e8 (UInt8.ofNat (pack W v))
def pack16 (W : List Nat) (v : Packed) : Bytes := e16 (UInt16.ofNat (pack W v))
def pack32 (W : List Nat) (v : Packed) : Bytes := e32 (UInt32.ofNat (pack W v))

@[len] theorem length_pack8 (W v) : (pack8 W v).length = 1 := rfl
@[len] theorem length_pack16 (W v) : (pack16 W v).length = 2 := rfl
@[len] theorem length_pack32 (W v) : (pack32 W v).length = 4 := rfl

theorem run_unpack8 {R : List RField} {W : List Nat} (L : Layout) {v : Packed} (r : Bytes) (hR : R = L.reader) (hW : W = L.writer)
    (ho : L.Ordered 8) (hf : L.Fits v) : (unpack8 R).run (pack8 W v ++ r) = .ok v r := by
  subst hR hW
  simp only [unpack8, pack8, rt]
  rw [toNat_u8_ofNat (pack_lt ho hf), unpack_pack ho hf]
theorem run_unpack16 {R : List RField} {W : List Nat} (L : Layout) {v : Packed} (r : Bytes) (hR : R = L.reader) (hW : W = L.writer)
    (ho : L.Ordered 16) (hf : L.Fits v) : (unpack16 R).run (pack16 W v ++ r) = .ok v r := by
  subst hR hW
  simp only [unpack16, pack16, rt]
  rw [toNat_u16_ofNat (pack_lt ho hf), unpack_pack ho hf]
theorem run_unpack32 {R : List RField} {W : List Nat} (L : Layout) {v : Packed} (r : Bytes) (hR : R = L.reader) (hW : W = L.writer)
    (ho : L.Ordered 32) (hf : L.Fits v) : (unpack32 R).run (pack32 W v ++ r) = .ok v r := by
  subst hR hW
  simp only [unpack32, pack32, rt]
  rw [toNat_u32_ofNat (pack_lt ho hf), unpack_pack ho hf]
/-- With the reader of field `i` replaced by the constant `c`, records whose field `i` is `c` are read back. -/
theorem run_unpack8_const {R : List RField} {W : List Nat} (L : Layout) (i c : Nat) {v : Packed} (r : Bytes)
    (hR : R = L.reader.set i (.const c)) (hW : W = L.writer)
    (ho : L.Ordered 8) (hf : L.Fits v) (hi : i < L.length) (hc : v.getD i 0 = c) :
    (unpack8 R).run (pack8 W v ++ r) = .ok v r := by
  subst hR hW
  simp only [unpack8, pack8, rt]
  rw [toNat_u8_ofNat (pack_lt ho hf), unpack_set, unpack_pack ho hf, set_of_getD hc (by rw [hf.length]; exact hi)]

instance (R) : P.Stable (unpack8 R) := by unfold unpack8; parser_ok
instance (R) : P.Safe (unpack8 R) := by unfold unpack8; parser_ok
instance (R) : P.Stable (unpack16 R) := by unfold unpack16; parser_ok
instance (R) : P.Safe (unpack16 R) := by unfold unpack16; parser_ok
instance (R) : P.Stable (unpack32 R) := by unfold unpack32; parser_ok
instance (R) : P.Safe (unpack32 R) := by unfold unpack32; parser_ok

end Verif
