import Verif.Codec.Times
import Verif.Props.CodecTime
import Verif.Props.Text
import Verif.Props.CodecScalars

/-! # C80: the time that a timestamp stands for -/

namespace Verif.Props
open Verif.Codec

/-! ## Specification -/

/-- The two kinds of timestamp: what the code takes for the number of units in an hour, and what the documentation says it is. -/
inductive Clock where
  | dis
  | cdis
def Clock.coded : Clock → Nat
  | .dis => disUnitsPerHour
  | .cdis => cdisUnitsPerHour
/-- `2^31 - 1` (model.rs:1054) and `2^25 - 1` (SISO-STD-023) -/
def Clock.documented : Clock → Nat
  | .dis => 2 ^ 31 - 1
  | .cdis => 2 ^ 25 - 1
/-- the nanoseconds past the hour of a number of units, as documented -/
def Clock.nanoseconds (c : Clock) (units : Nat) : Rat := units * 3600000000000 / c.documented
/-- the units past the hour of a number of seconds, as documented -/
def Clock.units (c : Clock) (seconds : Nat) : Rat := seconds * c.documented / 3600

/-! ## Lemmas -/

/-- the nanoseconds of a unit, in the code -/
def Clock.unit : Clock → Rat
  | .dis => 128571432
  | .cdis => 138461536
theorem unit_eq (c : Clock) : nanosPerUnit c.coded = .num c.unit := by cases c <;> decide +kernel
theorem unit_bounds (c : Clock) : (128000000 : Rat) ≤ c.unit ∧ c.unit ≤ 139000000 := by cases c <;> (unfold Clock.unit; norm_num)

theorem unit_prod_near (c : Clock) {u : Nat} (hu : u < 2 ^ 32) :
    ∃ r, mul32 (int32 u) (.num c.unit) = .num r ∧ |r - u * c.unit| ≤ u * c.unit / 2 ^ 22 + 1 := by
  obtain ⟨k1, k2⟩ := unit_bounds c
  have h0 : (0 : Rat) ≤ u := Nat.cast_nonneg u
  have h1 : (u : Rat) ≤ 2 ^ 32 := by exact_mod_cast hu.le
  obtain ⟨a, ha, -, hb⟩ := round32_bound (q := ((u : Int) : Rat)) (by
    rw [abs_of_nonneg (by push_cast; exact h0)]; push_cast
    linarith [show (2 : Rat) ^ 32 < 2 ^ 100 by norm_num])
  rw [abs_of_nonneg (by push_cast; exact h0 : (0 : Rat) ≤ ((u : Int) : Rat))] at hb
  push_cast at hb
  have hb := hb.trans (add_le_add_right (show (1 : Rat) / 2 ^ 150 ≤ 1 / 10 ^ 20 by norm_num) _)
  have hb1 := abs_le.1 hb
  have hp : |a * c.unit - u * c.unit| ≤ u * c.unit / 2 ^ 24 + 1 / 10 ^ 10 := by
    rw [← sub_mul, abs_mul, abs_of_nonneg (by linarith : (0 : Rat) ≤ c.unit)]
    have := mul_le_mul_of_nonneg_right hb (by linarith : (0 : Rat) ≤ c.unit)
    refine this.trans ?_
    have e : ((u : Rat) / 2 ^ 24 + 1 / 10 ^ 20) * c.unit = u * c.unit / 2 ^ 24 + c.unit / 10 ^ 20 := by ring
    rw [e]
    have : c.unit / 10 ^ 20 ≤ 1 / 10 ^ 10 := by rw [div_le_div_iff₀ (by norm_num) (by norm_num)]; linarith
    linarith
  have hp1 := abs_le.1 hp
  have huK : 0 ≤ (u : Rat) * c.unit := by nlinarith
  have huK' : (u : Rat) * c.unit ≤ 2 ^ 32 * 139000000 := by nlinarith
  have habs : |a * c.unit| ≤ u * c.unit * (1 + 1 / 2 ^ 24) + 1 / 10 ^ 10 := by
    rw [abs_le]; constructor <;> linarith
  obtain ⟨r, hr, -, hc⟩ := round32_bound (q := a * c.unit) (by
    have : (2 : Rat) ^ 32 * 139000000 * 2 + 1 < 2 ^ 100 := by norm_num
    linarith)
  refine ⟨r, ?_, ?_⟩
  · have : int32 (u : Int) = .num a := ha
    rw [this]
    exact hr
  · have hc1 : |r - a * c.unit| ≤ (u * c.unit * (1 + 1 / 2 ^ 24) + 1 / 10 ^ 10) / 2 ^ 24 + 1 / 10 ^ 20 := by
      refine hc.trans ?_
      have := div_le_div_of_nonneg_right habs (show (0 : Rat) ≤ 2 ^ 24 by norm_num)
      linarith [show (1 : Rat) / 2 ^ 150 ≤ 1 / 10 ^ 20 by norm_num]
    have e : r - u * c.unit = (r - a * c.unit) + (a * c.unit - u * c.unit) := by ring
    rw [e]
    refine (abs_add_le _ _).trans ?_
    linarith

theorem unit_quot_near (c : Clock) {n : Nat} (hn : n < 2 ^ 32) :
    ∃ r, div32 (int32 n) (.num c.unit) = .num r ∧ |r - n / c.unit| ≤ 1 / 10000 := by
  obtain ⟨k1, k2⟩ := unit_bounds c
  have hK : (0 : Rat) < c.unit := by linarith
  have h0 : (0 : Rat) ≤ n := Nat.cast_nonneg n
  have h1 : (n : Rat) ≤ 2 ^ 32 := by exact_mod_cast hn.le
  obtain ⟨a, ha, -, hb⟩ := round32_bound (q := ((n : Int) : Rat)) (by
    rw [abs_of_nonneg (by push_cast; exact h0)]; push_cast
    linarith [show (2 : Rat) ^ 32 < 2 ^ 100 by norm_num])
  rw [abs_of_nonneg (by push_cast; exact h0 : (0 : Rat) ≤ ((n : Int) : Rat))] at hb
  push_cast at hb
  have hb' : |a - n| ≤ 257 := hb.trans (by
    have : (n : Rat) / 2 ^ 24 ≤ 256 := by rw [div_le_iff₀ (by norm_num)]; linarith
    linarith [show (1 : Rat) / 2 ^ 150 ≤ 1 by norm_num])
  have hq : |a / c.unit - n / c.unit| ≤ 1 / 100000 := by
    rw [← sub_div, abs_div, abs_of_pos hK, div_le_iff₀ hK]
    linarith
  have hq1 := abs_le.1 hq
  have hn1 : (n : Rat) / c.unit ≤ 40 := by rw [div_le_iff₀ hK]; linarith
  have hn0 : 0 ≤ (n : Rat) / c.unit := div_nonneg h0 hK.le
  obtain ⟨r, hr, -, hc⟩ := round32_bound (q := a / c.unit) (by
    have : |a / c.unit| ≤ 41 := by rw [abs_le]; constructor <;> linarith
    linarith [show (41 : Rat) < 2 ^ 100 by norm_num])
  refine ⟨r, ?_, ?_⟩
  · have : int32 (n : Int) = .num a := ha
    rw [this]
    show (if c.unit = 0 then _ else F32.round (a / c.unit)) = _
    rw [if_neg (ne_of_gt hK)]
    exact hr
  · have hc1 : |r - a / c.unit| ≤ 1 / 100000 := by
      refine hc.trans ?_
      have : |a / c.unit| ≤ 41 := by rw [abs_le]; constructor <;> linarith
      have := div_le_div_of_nonneg_right this (show (0 : Rat) ≤ 2 ^ 24 by norm_num)
      linarith [show (1 : Rat) / 2 ^ 150 ≤ 1 / 10 ^ 9 by norm_num, show (41 : Rat) / 2 ^ 24 ≤ 1 / 200000 by norm_num]
    have e : r - n / c.unit = (r - a / c.unit) + (a / c.unit - n / c.unit) := by ring
    rw [e]
    refine (abs_add_le _ _).trans ?_
    linarith

/-- `as u32` of a number near or above zero -/
theorem toU32_near {r : Rat} (h0 : -1 < r) (h1 : r < 4294967296) : (((toU32 (.num r)).toNat : Nat) : Rat) ≤ max r 0 ∧ r - 1 < ((toU32 (.num r)).toNat : Nat) := by
  have e : toU32 (.num r) = truncRat r := castSat_of_lt (by push_cast; linarith) (by push_cast; linarith) (by norm_num) (by norm_num)
  obtain ⟨s1, s2⟩ := truncRat_spec r
  have s1 := abs_lt.1 s1
  have hn := trunc_nonneg h0
  have hz : (((truncRat r).toNat : Nat) : Rat) = (truncRat r : Rat) := by exact_mod_cast Int.toNat_of_nonneg hn
  rw [e, hz]
  refine ⟨?_, by linarith⟩
  have hn' : (0 : Rat) ≤ truncRat r := by exact_mod_cast hn
  rw [abs_of_nonneg hn'] at s2
  rcases le_total 0 r with h | h
  · rw [max_eq_left h]; rwa [abs_of_nonneg h] at s2
  · have : truncRat r < 1 := by
      have : (truncRat r : Rat) < 1 := by rw [abs_of_nonpos h] at s2; linarith
      exact_mod_cast this
    have : truncRat r = 0 := by omega
    rw [this]
    simp

/-! ## Made of seconds -/

/-- **C80.** A timestamp can be made of any number of seconds below 4295, so of any within the hour. -/
theorem C80_from_seconds_total (c : Clock) (s : Nat) : timeOfSecs c.coded s = none ↔ 4295 ≤ s := by
  unfold timeOfSecs
  split
  · simp only [reduceCtorEq, false_iff]; omega
  · simp only [true_iff]; omega

/-- **C80, violated.** The nanoseconds of a timestamp made of seconds are a thousand times too few. -/
theorem C80_from_seconds_nanoseconds_violated (c : Clock) {s u ns : Nat} (h : timeOfSecs c.coded s = some (u, ns)) : ns * 1000 = s * 10 ^ 9 := by
  unfold timeOfSecs at h
  split at h
  · cases h; omega
  · cases h

/-- The units of a timestamp made of seconds are those of an hour of 28 units (26 in C-DIS), rounded down. -/
theorem C80_from_seconds_units (c : Clock) {s u ns : Nat} (h : timeOfSecs c.coded s = some (u, ns)) :
    (u : Rat) ≤ s * c.coded / 3600 + 1 / 1000 ∧ (s * c.coded / 3600 - 1 - 1 / 1000 : Rat) < u := by
  unfold timeOfSecs at h
  split at h
  · rename_i hs
    simp only [Option.some.injEq, Prod.mk.injEq] at h
    obtain ⟨hu, -⟩ := h
    obtain ⟨r, hr, hn⟩ := unit_quot_near c (n := s * 1000000) (by omega)
    unfold unitsOfNanos at hu
    rw [unit_eq, hr] at hu
    subst hu
    have hs' : (s : Rat) ≤ 4295 := by exact_mod_cast (by omega : s ≤ 4295)
    have hs0 : (0 : Rat) ≤ s := Nat.cast_nonneg s
    have hK : (0 : Rat) < c.unit := by linarith [(unit_bounds c).1]
    have hd : |((s * 1000000 : Nat) : Rat) / c.unit - s * c.coded / 3600| ≤ 1 / 2000 := by
      push_cast
      rw [abs_le]
      cases c
      · simp only [Clock.unit, Clock.coded, show disUnitsPerHour = 28 from by decide]
        norm_num
        constructor <;> linarith
      · simp only [Clock.unit, Clock.coded, show cdisUnitsPerHour = 26 from by decide]
        norm_num
        constructor <;> linarith
    have hn := abs_le.1 hn
    have hd := abs_le.1 hd
    have hq0 : (0 : Rat) ≤ ((s * 1000000 : Nat) : Rat) / c.unit := div_nonneg (Nat.cast_nonneg _) hK.le
    have hq1 : ((s * 1000000 : Nat) : Rat) / c.unit ≤ 40 := by
      rw [div_le_iff₀ hK]
      push_cast
      linarith [(unit_bounds c).1]
    obtain ⟨t1, t2⟩ := toU32_near (r := r) (by linarith) (by linarith)
    refine ⟨?_, by linarith⟩
    rcases le_total 0 r with h | h
    · rw [max_eq_left h] at t1; linarith
    · rw [max_eq_right h] at t1; linarith
  · cases h

/-- **C80, violated.** The units of a timestamp made of a number of seconds within the hour are, for each of the seconds, at least 9000 too few. -/
theorem C80_from_seconds_violated (c : Clock) {s u ns : Nat} (h : timeOfSecs c.coded s = some (u, ns)) (h1 : 1 ≤ s) :
    (u : Rat) + 9000 * s ≤ c.units s := by
  obtain ⟨h2, -⟩ := C80_from_seconds_units c h
  have h1' : (1 : Rat) ≤ s := by exact_mod_cast h1
  unfold Clock.units
  cases c
  · simp only [Clock.coded, Clock.documented, show disUnitsPerHour = 28 from by decide] at h2 ⊢
    norm_num at h2 ⊢
    linarith
  · simp only [Clock.coded, Clock.documented, show cdisUnitsPerHour = 26 from by decide] at h2 ⊢
    norm_num at h2 ⊢
    linarith

/-- **C80, violated.** The seconds of the first two minutes of the hour are all given the same timestamp, that of the hour itself. -/
theorem C80_from_seconds_same_violated (c : Clock) {s : Nat} (h : s ≤ 120) : timeOfSecs c.coded s = some (0, s * 1000000) := by
  cases he : timeOfSecs c.coded s with
  | none => have := (C80_from_seconds_total c s).1 he; omega
  | some r =>
    obtain ⟨u, ns⟩ := r
    have h2 := (C80_from_seconds_units c he).1
    have h3 := C80_from_seconds_nanoseconds_violated c he
    have hs : (s : Rat) ≤ 120 := by exact_mod_cast h
    have : (u : Rat) < 1 := by
      cases c
      · simp only [Clock.coded, show disUnitsPerHour = 28 from by decide] at h2
        norm_num at h2
        linarith
      · simp only [Clock.coded, show cdisUnitsPerHour = 26 from by decide] at h2
        norm_num at h2
        linarith
    have : u < 1 := by exact_mod_cast this
    have e1 : u = 0 := by omega
    have e2 : ns = s * 1000000 := by omega
    rw [e1, e2]

/-! ## The nanoseconds of a timestamp -/

/-- **C80, violated.** A timestamp of 34 units or more, 57 microseconds past the hour as documented, shows 4.294967295 seconds. -/
theorem C80_nanoseconds_saturate (c : Clock) {u : Nat} (h : 34 ≤ u) (hu : u < 2 ^ 32) : nanosOfUnits c.coded u = 4294967295 := by
  obtain ⟨r, hr, hn⟩ := unit_prod_near c hu
  unfold nanosOfUnits
  rw [unit_eq, hr]
  have h' : (34 : Rat) ≤ u := by exact_mod_cast h
  have hn := abs_le.1 hn
  have hK := (unit_bounds c).1
  have hlo : (34 * 128000000 : Rat) ≤ u * c.unit := by nlinarith
  have hr1 : (4294967296 : Rat) ≤ r := by linarith
  have ht : 4294967295 ≤ truncRat r := by
    have := (abs_lt.1 (truncRat_spec r).1).1
    have : (4294967295 : Rat) < truncRat r + 1 - 0 := by linarith
    have : (4294967295 : Int) < truncRat r + 1 := by
      have : ((4294967295 : Int) : Rat) < ((truncRat r + 1 : Int) : Rat) := by push_cast; linarith
      exact_mod_cast this
    omega
  show (castSat 0 4294967295 r).toNat = _
  unfold castSat
  omega

/-- Below that it shows about 0.13 seconds for each unit. -/
theorem C80_nanoseconds_small (c : Clock) {u : Nat} (h1 : 1 ≤ u) (h : u ≤ 33) : (127000000 * u : Rat) ≤ nanosOfUnits c.coded u := by
  by_cases hs : u * 139000000 < 4294000000
  · obtain ⟨r, hr, hn⟩ := unit_prod_near c (show u < 2 ^ 32 by omega)
    unfold nanosOfUnits
    rw [unit_eq, hr]
    have h' : (1 : Rat) ≤ u := by exact_mod_cast h1
    have hs' : (u : Rat) * 139000000 < 4294000000 := by exact_mod_cast hs
    have hn := abs_le.1 hn
    obtain ⟨k1, k2⟩ := unit_bounds c
    have hlo : (128000000 * u : Rat) ≤ u * c.unit := by nlinarith
    have hhi : u * c.unit ≤ u * 139000000 := by nlinarith
    have := (toU32_near (r := r) (by linarith) (by linarith)).2
    linarith
  · have : 31 ≤ u := by omega
    have : u = 31 ∨ u = 32 ∨ u = 33 := by omega
    rcases this with rfl | rfl | rfl <;> cases c
    · rw [show nanosOfUnits Clock.dis.coded 31 = 3985714432 from by decide +kernel]; norm_num
    · rw [show nanosOfUnits Clock.cdis.coded 31 = 4292307712 from by decide +kernel]; norm_num
    · rw [show nanosOfUnits Clock.dis.coded 32 = 4114285824 from by decide +kernel]; norm_num
    · rw [show nanosOfUnits Clock.cdis.coded 32 = 4294967295 from by decide +kernel]; norm_num
    · rw [show nanosOfUnits Clock.dis.coded 33 = 4242857216 from by decide +kernel]; norm_num
    · rw [show nanosOfUnits Clock.cdis.coded 33 = 4294967295 from by decide +kernel]; norm_num

/-- **C80, violated.** The nanoseconds that a timestamp shows are at least a tenth of a second off: too many in the first 4.2 seconds after the
hour, too few (there is no room for more) from 4.4 seconds on. -/
theorem C80_nanoseconds_violated (c : Clock) {u : Nat} (hu : 1 ≤ u) (hm : u < 2 ^ 32) :
    (c.nanoseconds u ≤ 4190000000 → c.nanoseconds u + 100000000 ≤ nanosOfUnits c.coded u) ∧
    (4400000000 ≤ c.nanoseconds u → (nanosOfUnits c.coded u : Rat) + 100000000 ≤ c.nanoseconds u) := by
  have h1 : (1 : Rat) ≤ u := by exact_mod_cast hu
  have hscale : c.nanoseconds u ≤ 110000 * u := by
    unfold Clock.nanoseconds
    cases c <;> (simp only [Clock.documented]; norm_num; linarith)
  by_cases h : 34 ≤ u
  · rw [C80_nanoseconds_saturate c h hm]
    push_cast
    constructor
    · intro; linarith
    · intro; linarith
  · have h33 : (u : Rat) ≤ 33 := by exact_mod_cast (by omega : u ≤ 33)
    have := C80_nanoseconds_small c hu (by omega)
    constructor
    · intro; linarith
    · intro; linarith

/-- **C80.** What is shown of the two scales agrees with itself: the nanoseconds of a timestamp made of seconds, and those of a timestamp of the same
units, which is what the receiver of it has, are at most one unit apart. -/
theorem C80_consistent_partial (c : Clock) {s u ns : Nat} (h : timeOfSecs c.coded s = some (u, ns)) (hs : s ≤ 3600) :
    (ns : Rat) - 140000000 ≤ nanosOfUnits c.coded u ∧ (nanosOfUnits c.coded u : Rat) ≤ ns + 1000000 := by
  obtain ⟨h1, h2⟩ := C80_from_seconds_units c h
  have h3 := C80_from_seconds_nanoseconds_violated c h
  have hns : (ns : Rat) = s * 1000000 := by exact_mod_cast (by omega : ns = s * 1000000)
  have hs' : (s : Rat) ≤ 3600 := by exact_mod_cast hs
  have hu : (u : Rat) ≤ 29 := by
    cases c
    · simp only [Clock.coded, show disUnitsPerHour = 28 from by decide] at h1
      norm_num at h1; linarith
    · simp only [Clock.coded, show cdisUnitsPerHour = 26 from by decide] at h1
      norm_num at h1; linarith
  obtain ⟨r, hr, hn⟩ := unit_prod_near c (show u < 2 ^ 32 by
    have : u ≤ 29 := by exact_mod_cast hu
    omega)
  unfold nanosOfUnits
  rw [unit_eq, hr, hns]
  have hn := abs_le.1 hn
  have hu0 : (0 : Rat) ≤ u := Nat.cast_nonneg u
  obtain ⟨k1, k2⟩ := unit_bounds c
  have hp0 : 0 ≤ u * c.unit := by nlinarith
  have hp1 : u * c.unit ≤ 29 * 139000000 := by nlinarith
  have hrlo : -2 < r + 1 := by linarith
  have key : u * c.unit ≤ s * 1000000 + 900000 ∧ (s * 1000000 : Rat) - 139500000 ≤ u * c.unit := by
    cases c
    · simp only [Clock.coded, Clock.unit, show disUnitsPerHour = 28 from by decide] at *
      norm_num at h1 h2 ⊢
      constructor <;> linarith
    · simp only [Clock.coded, Clock.unit, show cdisUnitsPerHour = 26 from by decide] at *
      norm_num at h1 h2 ⊢
      constructor <;> linarith
  by_cases hz : u = 0
  · subst hz
    have e : toU32 (.num r) = 0 := by
      have : mul32 (int32 (0 : Nat)) (.num c.unit) = .num 0 := by cases c <;> decide +kernel
      rw [this] at hr
      cases hr
      decide +kernel
    rw [e]
    obtain ⟨key1, key2⟩ := key
    push_cast at *
    have hs0 : (0 : Rat) ≤ s := Nat.cast_nonneg s
    constructor <;> linarith
  · have hu1 : (1 : Rat) ≤ u := by exact_mod_cast (by omega : 1 ≤ u)
    have hlo : (128000000 : Rat) ≤ u * c.unit := by nlinarith
    obtain ⟨t1, t2⟩ := toU32_near (r := r) (by linarith) (by linarith)
    rw [max_eq_left (by linarith)] at t1
    obtain ⟨key1, key2⟩ := key
    constructor <;> linarith

/-- A hundred seconds, in either format: no units, and a tenth of a second.  The receiver is shown the hour. -/
example : timeOfSecs Clock.dis.coded 100 = some (0, 100000000) ∧ nanosOfUnits Clock.dis.coded 0 = 0 ∧
    timeOfSecs Clock.cdis.coded 100 = some (0, 100000000) ∧ timeOfSecs Clock.dis.coded 1800 = some (14, 1800000000) := by decide +kernel

end Verif.Props
