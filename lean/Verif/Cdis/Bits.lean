import Verif.Core.Parser

/-! # Bit level reading and writing for C-DIS

The Rust code writes into a fixed `BitArray` at a moving cursor and reads with `nom::bits` from
`(&[u8], bit offset)`.  Both are modelled by lists of bits, most significant bit first: a writer is the list
of bits it stores at the cursor (the returned cursor is the old one plus the length of that list), and an input
`(bytes, offset)` is the list of the bits that remain.

Simplifications: the capacity of the buffer (89600 bits) is not modelled here, unsigned integers are `Nat` and
signed ones `Int`, with the ranges of the Rust types stated where they matter. -/

namespace Verif.Cdis
open Verif.P

/-- A sequence of bits, most significant first. -/
abbrev Bits := List Bool
/-- A bit level parser. -/
abbrev BitP (α : Type) := P Bool α

/-- cdis-assemble/src/writing.rs:73-82 `write_value_with_length`, `write_value_unsigned`: the `n` low bits of
the value, big-endian (`BitField::store_be`). -/
def wU : Nat → Nat → Bits
  | 0, _ => []
  | n + 1, v => v.testBit n :: wU n v

/-- The number denoted by a bit string. -/
def ofBits (l : Bits) : Nat := l.foldl (fun a b => 2 * a + b.toNat) 0

/-- `nom::bits::complete::take(n)` into an unsigned type of at least `n` bits. -/
def rU (n : Nat) : BitP Nat := do
  let l ← P.take n
  pure (ofBits l)

/-- cdis-assemble/src/writing.rs:85-97 `write_value_signed`: the sign bit, then the low `n - 1` bits of
`-((-2)^(n-1) - v)` for a negative `v` and of `v` otherwise.  Arithmetic overflow of the Rust type (possible only
for values outside the `n`-bit range) wraps, as it does in a release build. -/
def wS (n : Nat) (v : Int) : Bits :=
  wU 1 (if v < 0 then 1 else 0) ++
    wU (n - 1) ((-(if v < 0 then (-2) ^ (n - 1) - v else 0 - v)) % 2 ^ (n - 1)).toNat

/-- cdis-assemble/src/parsing.rs:146-159 `take_signed` -/
def rS (n : Nat) : BitP Int := do
  let s ← rU 1
  let v ← rU (n - 1)
  pure (if s ≠ 0 then -(2 ^ (n - 1) : Int) + v else v)

/-- `nom::bits::complete::take(n)` into the signed type of exactly `n` bits (two's complement). -/
def rI (n : Nat) : BitP Int := do
  let v ← rU n
  pure (if v < 2 ^ (n - 1) then (v : Int) else (v : Int) - 2 ^ n)

/-! ## Facts -/

@[simp] theorem length_wU (n v : Nat) : (wU n v).length = n := by
  induction n with
  | zero => rfl
  | succ n ih => simp [wU, ih]

@[simp] theorem length_wS (n : Nat) (h : 0 < n) (v : Int) : (wS n v).length = n := by
  simp only [wS, List.length_append, length_wU]; omega


theorem ofBits_foldl (l : Bits) (a : Nat) :
    l.foldl (fun a b => 2 * a + b.toNat) a = a * 2 ^ l.length + ofBits l := by
  induction l generalizing a with
  | nil => simp [ofBits]
  | cons b l ih =>
    simp only [List.foldl_cons, ofBits, List.length_cons]
    rw [ih, ih (2 * 0 + b.toNat), Nat.pow_succ, Nat.add_mul, Nat.add_mul]
    simp only [Nat.mul_zero, Nat.zero_mul, Nat.zero_add]
    rw [show 2 * a * 2 ^ l.length = a * (2 ^ l.length * 2) by
      rw [Nat.mul_comm 2 a, Nat.mul_assoc, Nat.mul_comm 2]]
    omega

theorem ofBits_cons (b : Bool) (l : Bits) : ofBits (b :: l) = b.toNat * 2 ^ l.length + ofBits l := by
  conv => lhs; unfold ofBits
  rw [List.foldl_cons, ofBits_foldl]; simp

theorem ofBits_append (l m : Bits) : ofBits (l ++ m) = ofBits l * 2 ^ m.length + ofBits m := by
  conv => lhs; unfold ofBits
  rw [List.foldl_append, ofBits_foldl]; rfl

theorem ofBits_lt (l : Bits) : ofBits l < 2 ^ l.length := by
  induction l with
  | nil => simp [ofBits]
  | cons b l ih =>
    rw [ofBits_cons, List.length_cons, Nat.pow_succ]
    cases b <;> simp <;> omega

theorem ofBits_wU (n v : Nat) : ofBits (wU n v) = v % 2 ^ n := by
  induction n with
  | zero => simp [wU, ofBits, Nat.mod_one]
  | succ n ih =>
    have h2 : (v.testBit n).toNat = v / 2 ^ n % 2 := Nat.toNat_testBit v n
    rw [wU, ofBits_cons, length_wU, ih, h2, Nat.pow_succ, Nat.mod_mul, Nat.mul_comm (2 ^ n)]
    omega

theorem wU_ofBits (l : Bits) : wU l.length (ofBits l) = l := by
  have key : ∀ (l : Bits) (a : Nat), wU l.length (a * 2 ^ l.length + ofBits l) = l := by
    intro l
    induction l with
    | nil => intro a; rfl
    | cons b l ih =>
      intro a
      have h1 := ofBits_lt l
      rw [List.length_cons, wU, ofBits_cons, Nat.pow_succ]
      have e : a * (2 ^ l.length * 2) + (b.toNat * 2 ^ l.length + ofBits l)
          = (2 * a + b.toNat) * 2 ^ l.length + ofBits l := by
        rw [Nat.add_mul, Nat.mul_comm 2 a, Nat.mul_assoc, Nat.mul_comm 2]; omega
      rw [e, ih]
      congr 1
      rw [Nat.testBit_eq_decide_div_mod_eq, Nat.add_comm, Nat.add_mul_div_right _ _ (Nat.two_pow_pos _),
        Nat.div_eq_of_lt h1]
      cases b <;> simp <;> omega
  simpa using key l 0

@[rt] theorem rU_run_mod (n v : Nat) (r : Bits) : (rU n).run (wU n v ++ r) = .ok (v % 2 ^ n) r := by
  simp only [rU, P.run_bind, run_take _ _ _ (length_wU n v), Res.andThen_ok, P.run_pure, ofBits_wU]

theorem rU_run (n v : Nat) (r : Bits) (h : v < 2 ^ n) : (rU n).run (wU n v ++ r) = .ok v r := by
  rw [rU_run_mod, Nat.mod_eq_of_lt h]

/-- The value bits written for a signed number are its low bits in two's complement. -/
theorem wS_eq (n : Nat) (v : Int) :
    wS n v = wU 1 (if v < 0 then 1 else 0) ++ wU (n - 1) (v % 2 ^ (n - 1)).toNat := by
  unfold wS
  congr 3
  split
  · have : (-2 : Int) ^ (n - 1) % 2 ^ (n - 1) = 0 := by
      have : (-2 : Int) = 2 * -1 := rfl
      rw [this, Int.mul_pow, Int.mul_emod_right]
    rw [Int.neg_sub, Int.sub_emod, this]; simp
  · congr 1; omega

/-- The `n`-bit range of two's complement. -/
def InS (n : Nat) (v : Int) : Prop := -(2 ^ (n - 1) : Int) ≤ v ∧ v < 2 ^ (n - 1)
instance (n : Nat) (v : Int) : Decidable (InS n v) := inferInstanceAs (Decidable (_ ∧ _))

theorem toNat_emod_two_pow (n : Nat) (v : Int) : ((v % 2 ^ n).toNat : Int) = v % 2 ^ n := by
  have : (0 : Int) < 2 ^ n := Int.pow_pos (by decide)
  exact Int.toNat_of_nonneg (Int.emod_nonneg _ (by omega))

theorem toNat_emod_lt (n : Nat) (v : Int) : (v % 2 ^ n).toNat < 2 ^ n := by
  have : (0 : Int) < 2 ^ n := Int.pow_pos (by decide)
  have h := Int.emod_lt_of_pos v this
  have h2 := toNat_emod_two_pow n v
  have h3 : ((2 ^ n : Nat) : Int) = 2 ^ n := by simp
  omega

/-- Reading back a signed number with a stated minimum for the negative half. -/
theorem emod_range {n : Nat} {v : Int} (h : InS n v) :
    v % 2 ^ (n - 1) = if v < 0 then v + 2 ^ (n - 1) else v := by
  obtain ⟨h1, h2⟩ := h
  split
  · rw [← Int.add_emod_right]
    exact Int.emod_eq_of_lt (by omega) (by omega)
  · exact Int.emod_eq_of_lt (by omega) h2

theorem rS_run (n : Nat) (v : Int) (r : Bits) (h : InS n v) : (rS n).run (wS n v ++ r) = .ok v r := by
  have e := (toNat_emod_two_pow (n - 1) v).trans (emod_range h)
  rw [wS_eq, List.append_assoc]
  simp only [rS, P.run_bind, rU_run_mod, Res.andThen_ok, P.run_pure, Nat.mod_eq_of_lt (toNat_emod_lt _ _)]
  generalize (v % 2 ^ (n - 1)).toNat = w at *
  rw [e]
  by_cases hv : v < 0
  · simp only [hv, if_true]; simp; omega
  · simp only [hv, if_false]; simp

theorem rI_run (n : Nat) (v : Int) (r : Bits) (hn : 0 < n) (h : InS n v) : (rI n).run (wS n v ++ r) = .ok v r := by
  have e := (toNat_emod_two_pow (n - 1) v).trans (emod_range h)
  have l := toNat_emod_lt (n - 1) v
  have hof : ofBits (wS n v) = (if v < 0 then 1 else 0) * 2 ^ (n - 1) + (v % 2 ^ (n - 1)).toNat := by
    rw [wS_eq, ofBits_append, ofBits_wU, ofBits_wU, length_wU, Nat.mod_eq_of_lt l]
    split <;> rfl
  simp only [rI, rU, P.run_bind, run_take _ _ _ (length_wS n hn v), Res.andThen_ok, P.run_pure, hof]
  have hp : (2 : Int) ^ n = 2 * 2 ^ (n - 1) := by
    rw [← Int.pow_succ']; congr 1; omega
  have hN : ((2 ^ (n - 1) : Nat) : Int) = 2 ^ (n - 1) := by simp
  generalize (v % 2 ^ (n - 1)).toNat = w at *
  generalize 2 ^ (n - 1) = q at *
  by_cases hv : v < 0
  · simp only [hv, if_true] at e ⊢
    rw [if_neg (by omega)]
    congr 1; rw [hp]; push_cast; omega
  · simp only [hv, if_false] at e ⊢
    rw [if_pos (by omega)]
    congr 1; omega

end Verif.Cdis
