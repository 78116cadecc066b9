import Verif.Dis.Text

/-!
# C27, C28: DIS timestamps, entity types as text
-/

namespace Verif.Props
open Verif Verif.Dis

/-! ## C27 -/

/-- **C27**: the least significant bit of a raw timestamp selects absolute time, the other 31 bits are the units. -/
theorem C27_meaning (v : UInt32) :
    (v.toNat % 2 = 1 → ∃ u, DisTimeStamp.ofRaw v = .absolute u ∧ u.toNat = v.toNat / 2)
    ∧ (v.toNat % 2 = 0 → ∃ u, DisTimeStamp.ofRaw v = .relative u ∧ u.toNat = v.toNat / 2) := by
  have hu : (v >>> 1).toNat = v.toNat / 2 := by
    rw [UInt32.toNat_shiftRight]; have : (1 : UInt32).toNat % 32 = 1 := rfl
    rw [this, Nat.shiftRight_eq_div_pow]
  have hb : v &&& 1 = 1 ↔ v.toNat % 2 = 1 := by
    constructor
    · intro h
      have := congrArg UInt32.toNat h
      rwa [UInt32.toNat_and, show (1 : UInt32).toNat = 1 from rfl, Nat.and_one_is_mod] at this
    · intro h
      apply UInt32.toNat.inj
      rw [UInt32.toNat_and, show (1 : UInt32).toNat = 1 from rfl, Nat.and_one_is_mod]; exact h
  constructor
  · intro h; exact ⟨_, by rw [DisTimeStamp.ofRaw, if_pos (hb.2 h)], hu⟩
  · intro h; exact ⟨_, by rw [DisTimeStamp.ofRaw, if_neg (fun e => by have := hb.1 e; omega)], hu⟩

theorem shl_one (u : UInt32) : (u <<< 1).toNat = u.toNat * 2 % 2 ^ 32 := by
  rw [UInt32.toNat_shiftLeft]; have : (1 : UInt32).toNat % 32 = 1 := rfl
  rw [this, Nat.shiftLeft_eq]
theorem shl_or_one (u : UInt32) : ((u <<< 1) ||| 1).toNat = u.toNat * 2 % 2 ^ 32 + 1 := by
  rw [UInt32.toNat_or, shl_one, show (1 : UInt32).toNat = 1 from rfl]
  have h : u.toNat * 2 % 2 ^ 32 = (u.toNat % 2 ^ 31) <<< 1 := by rw [Nat.shiftLeft_eq]; omega
  rw [h]
  have h2 := Nat.shiftLeft_add_eq_or_of_lt (i := 1) (b := 1) (by decide) (u.toNat % 2 ^ 31)
  rw [← h2]

/-- **C27**: converting every 32-bit timestamp to a `DisTimeStamp` and back gives it back. -/
theorem C27_raw_round_trip (v : UInt32) : (DisTimeStamp.ofRaw v).toRaw = v := by
  have hv := v.toNat_lt
  apply UInt32.toNat.inj
  rcases Nat.mod_two_eq_zero_or_one v.toNat with h | h
  · obtain ⟨u, e, hu⟩ := (C27_meaning v).2 h
    rw [e, DisTimeStamp.toRaw, shl_one]; omega
  · obtain ⟨u, e, hu⟩ := (C27_meaning v).1 h
    rw [e, DisTimeStamp.toRaw, shl_or_one]; omega

/-- **C27**: and every `DisTimeStamp` with units of 31 bits is recovered from its raw timestamp; one with more units is not. -/
theorem C27_timestamp_round_trip (x : DisTimeStamp) :
    DisTimeStamp.ofRaw x.toRaw = x ↔ (match x with | .absolute u | .relative u => u.toNat < 2 ^ 31) := by
  cases x with
  | absolute u =>
    have h := shl_or_one u
    have hu := u.toNat_lt
    obtain ⟨w, e, hw⟩ := (C27_meaning ((u <<< 1) ||| 1)).1 (by omega)
    simp only [DisTimeStamp.toRaw, e, DisTimeStamp.absolute.injEq]
    constructor
    · intro h'; subst h'; omega
    · intro h'; apply UInt32.toNat.inj; omega
  | relative u =>
    have h := shl_one u
    have hu := u.toNat_lt
    obtain ⟨w, e, hw⟩ := (C27_meaning (u <<< 1)).2 (by omega)
    simp only [DisTimeStamp.toRaw, e, DisTimeStamp.relative.injEq]
    constructor
    · intro h'; subst h'; omega
    · intro h'; apply UInt32.toNat.inj; omega

/-- The documented scale of 2^31 - 1 units per hour is not what the constant is: it is 28. -/
theorem C27_units_per_hour_wrong : TIME_UNITS_PER_HOUR = 28 ∧ TIME_UNITS_PER_HOUR ≠ 2 ^ 31 - 1 := by decide
/-- Hence every timestamp made from a number of seconds below an hour has fewer than 28 units: it denotes a time less than
50 microseconds past the hour when read on the documented scale. -/
theorem C27_from_seconds_wrong (s : Nat) (h : s < 3600) : unitsFromSecs s < 28 := by
  unfold unitsFromSecs
  rw [C27_units_per_hour_wrong.1]
  omega

/-! ## C28: specification -/

/-- The value of a string of decimal digits. -/
def decimalValue (s : List Char) : Nat := s.foldl (fun n c => n * 10 + (c.toNat - 48)) 0
/-- Only the characters `0` to `9`, at least one. -/
def Digits (s : List Char) : Prop := s ≠ [] ∧ ∀ c ∈ s, 48 ≤ c.toNat ∧ c.toNat ≤ 57
/-- The string denotes the number `n`, at most `max`: digits, possibly after one `+`. -/
def Denotes (s : List Char) (max n : Nat) : Prop :=
  ∃ ds, (s = ds ∨ s = '+' :: ds) ∧ Digits ds ∧ decimalValue ds = n ∧ n ≤ max
/-- Strings without a colon. -/
def NoColon (s : List Char) : Prop := ':' ∉ s

/-! ## C28: lemmas -/

theorem foldl_ge (s : List Char) : ∀ acc, acc ≤ s.foldl (fun n c => n * 10 + (c.toNat - 48)) acc := by
  induction s with
  | nil => intro acc; exact Nat.le_refl _
  | cons c cs ih => intro acc; rw [List.foldl_cons]; exact Nat.le_trans (by omega) (ih _)

theorem parseDigits_iff (max : Nat) : ∀ (s : List Char) (acc n : Nat), acc ≤ max →
    (parseDigits max s acc = some n ↔ (∀ c ∈ s, 48 ≤ c.toNat ∧ c.toNat ≤ 57)
      ∧ s.foldl (fun n c => n * 10 + (c.toNat - 48)) acc = n ∧ n ≤ max) := by
  intro s
  induction s with
  | nil => intro acc n h; simp [parseDigits]; omega
  | cons c cs ih =>
    intro acc n h
    unfold parseDigits toDigit
    by_cases hc : 48 ≤ c.toNat ∧ c.toNat ≤ 57
    · rw [if_pos hc]
      simp only
      by_cases h1 : acc * 10 > max
      · rw [if_pos h1]
        constructor
        · intro h; cases h
        · rintro ⟨_, h2, h3⟩
          rw [List.foldl_cons] at h2
          have := foldl_ge cs (acc * 10 + (c.toNat - 48))
          omega
      · rw [if_neg h1]
        by_cases h2 : acc * 10 + (c.toNat - 48) > max
        · rw [if_pos h2]
          constructor
          · intro h; cases h
          · rintro ⟨_, h3, h4⟩
            rw [List.foldl_cons] at h3
            have := foldl_ge cs (acc * 10 + (c.toNat - 48))
            omega
        · rw [if_neg h2, ih _ _ (by omega)]
          simp only [List.mem_cons, forall_eq_or_imp, List.foldl_cons, hc, true_and, and_true]
    · rw [if_neg hc]
      constructor
      · intro h; cases h
      · rintro ⟨h1, _⟩; exact absurd (h1 c (by simp)) hc

theorem plus_toNat : ('+' : Char).toNat = 43 := rfl
theorem minus_toNat : ('-' : Char).toNat = 45 := rfl

/-- The number parser accepts exactly the strings that denote a number in range. -/
theorem parseUnsigned_iff (max : Nat) (s : List Char) (n : Nat) : parseUnsigned max s = some n ↔ Denotes s max n := by
  have key : ∀ ds : List Char, ds ≠ [] → (parseDigits max ds 0 = some n ↔ Digits ds ∧ decimalValue ds = n ∧ n ≤ max) := by
    intro ds hd
    rw [parseDigits_iff max ds 0 n (by omega)]
    simp only [Digits, decimalValue, hd, ne_eq, not_false_eq_true, true_and]
  have hd : ∀ ds : List Char, (∃ c rest, ds = c :: rest ∧ (c = '+' ∨ c = '-')) → ¬ Digits ds := by
    rintro ds ⟨c, rest, rfl, hc⟩ ⟨_, h⟩
    have := h c (by simp)
    rcases hc with rfl | rfl
    · rw [plus_toNat] at this; omega
    · rw [minus_toNat] at this; omega
  unfold parseUnsigned
  split
  · constructor
    · intro h; cases h
    · rintro ⟨ds, h | h, ⟨h2, _⟩, _⟩
      · exact absurd h.symm h2
      · cases h
  · constructor
    · intro h; cases h
    · rintro ⟨ds, h | h, h2, _⟩
      · subst h; exact absurd h2 (hd _ ⟨_, _, rfl, .inl rfl⟩)
      · simp only [List.cons.injEq, true_and] at h; exact absurd h.symm h2.1
  · constructor
    · intro h; cases h
    · rintro ⟨ds, h | h, h2, _⟩
      · subst h; exact absurd h2 (hd _ ⟨_, _, rfl, .inr rfl⟩)
      · simp at h
  · rename_i rest h1
    have hr : rest ≠ [] := fun e => h1 (by rw [e])
    rw [key rest hr]
    constructor
    · rintro h; exact ⟨rest, .inr rfl, h⟩
    · rintro ⟨ds, h | h, h2⟩
      · subst h; exact absurd h2.1 (hd _ ⟨_, _, rfl, .inl rfl⟩)
      · simp only [List.cons.injEq, true_and] at h; subst h; exact h2
  · rename_i h1 h2 h3 h4
    rw [key s (fun e => h1 e)]
    constructor
    · intro h; exact ⟨s, .inl rfl, h⟩
    · rintro ⟨ds, h | h, h2⟩
      · subst h; exact h2
      · exact absurd h (h4 ds)

theorem digitChar_toNat {d : Nat} (h : d < 10) : (digitChar d).toNat = 48 + d := by
  unfold digitChar
  have : ∀ d : Fin 10, (Char.ofNat (48 + d.val)).toNat = 48 + d.val := by decide
  exact this ⟨d, h⟩

theorem decimal_digits (n : Nat) : Digits (decimal n) ∧ decimalValue (decimal n) = n := by
  induction n using Nat.strongRecOn with
  | _ n ih =>
    unfold decimal
    by_cases h : n < 10
    · rw [if_pos h]
      have e := digitChar_toNat h
      refine ⟨⟨by simp, ?_⟩, ?_⟩
      · intro c hc; simp only [List.mem_singleton] at hc; subst hc; omega
      · simp only [decimalValue, List.foldl_cons, List.foldl_nil, e]; omega
    · rw [if_neg h]
      obtain ⟨⟨h1, h2⟩, h3⟩ := ih (n / 10) (by omega)
      have e := digitChar_toNat (d := n % 10) (by omega)
      refine ⟨⟨by simp, ?_⟩, ?_⟩
      · intro c hc
        rcases List.mem_append.1 hc with hc | hc
        · exact h2 c hc
        · simp only [List.mem_singleton] at hc; subst hc; omega
      · unfold decimalValue at h3 ⊢
        rw [List.foldl_append, h3]
        simp only [List.foldl_cons, List.foldl_nil, e]
        omega

theorem decimal_denotes {n max : Nat} (h : n ≤ max) : parseUnsigned max (decimal n) = some n := by
  obtain ⟨h1, h2⟩ := decimal_digits n
  exact (parseUnsigned_iff max _ n).2 ⟨_, .inl rfl, h1, h2, h⟩
theorem decimal_noColon (n : Nat) : NoColon (decimal n) := by
  intro h
  have := (decimal_digits n).1.2 _ h
  have e : (':' : Char).toNat = 58 := rfl
  omega

theorem splitColon_ne_nil (s : List Char) : splitColon s ≠ [] := by
  cases s with
  | nil => simp [splitColon]
  | cons c cs =>
    unfold splitColon
    split
    · simp
    · split <;> simp
theorem splitColon_noColon {s : List Char} (h : NoColon s) : splitColon s = [s] := by
  induction s with
  | nil => rfl
  | cons c cs ih =>
    unfold NoColon at h
    simp only [List.mem_cons, not_or] at h
    unfold splitColon
    rw [if_neg (fun e => h.1 e.symm), ih h.2]
theorem splitColon_append {a b : List Char} (h : NoColon a) : splitColon (a ++ ':' :: b) = a :: splitColon b := by
  induction a with
  | nil => simp [splitColon]
  | cons c cs ih =>
    unfold NoColon at h
    simp only [List.mem_cons, not_or] at h
    rw [List.cons_append, splitColon.eq_def]
    simp only
    rw [if_neg (fun e => h.1 e.symm), ih h.2]

/-- Splitting yields parts without colons that make up the string again. -/
theorem splitColon_spec (s : List Char) : (∀ p ∈ splitColon s, NoColon p) ∧ ((splitColon s).intersperse [':']).flatten = s := by
  induction s with
  | nil => exact ⟨by intro p hp; simp [splitColon] at hp; subst hp; simp [NoColon], rfl⟩
  | cons c cs ih =>
    unfold splitColon
    by_cases h : c = ':'
    · rw [if_pos h]
      refine ⟨?_, ?_⟩
      · intro p hp
        rcases List.mem_cons.1 hp with rfl | hp
        · simp [NoColon]
        · exact ih.1 p hp
      · cases hs : splitColon cs with
        | nil => exact absurd hs (splitColon_ne_nil cs)
        | cons p ps =>
          have e := ih.2
          rw [hs] at e
          rw [List.intersperse_cons_cons, h]
          simp only [List.flatten_cons, List.nil_append, List.cons_append]
          rw [e]
    · rw [if_neg h]
      cases hs : splitColon cs with
      | nil => exact absurd hs (splitColon_ne_nil cs)
      | cons p ps =>
        have e := ih.2
        have e1 := ih.1
        rw [hs] at e e1
        refine ⟨?_, ?_⟩
        · intro q hq
          rcases List.mem_cons.1 hq with rfl | hq
          · have := e1 p (by simp)
            unfold NoColon at *
            simp only [List.mem_cons, not_or]
            exact ⟨fun e => h e.symm, this⟩
          · exact e1 q (by simp [hq])
        · cases ps with
          | nil => simpa using e
          | cons q qs => simpa [List.intersperse] using e

/-! ## C28 -/

theorem split_seven {a b c d e f g : List Char} (ha : NoColon a) (hb : NoColon b) (hc : NoColon c) (hd : NoColon d) (he : NoColon e)
    (hf : NoColon f) (hg : NoColon g) :
    splitColon (a ++ ':' :: (b ++ ':' :: (c ++ ':' :: (d ++ ':' :: (e ++ ':' :: (f ++ ':' :: g)))))) = [a, b, c, d, e, f, g] := by
  rw [splitColon_append ha, splitColon_append hb, splitColon_append hc, splitColon_append hd, splitColon_append he,
    splitColon_append hf, splitColon_noColon hg]

theorem u8_le (x : UInt8) : x.toNat ≤ 255 := by have := x.toNat_lt; omega
theorem u16_le (x : UInt16) : x.toNat ≤ 65535 := by have := x.toNat_lt; omega

/-- **C28**: the text of every entity type parses to that entity type. -/
theorem C28_display_parse (x : EntityType) : EntityType.fromStr x.display = some x := by
  unfold EntityType.fromStr EntityType.display
  rw [split_seven (decimal_noColon _) (decimal_noColon _) (decimal_noColon _) (decimal_noColon _) (decimal_noColon _)
    (decimal_noColon _) (decimal_noColon _)]
  simp only [decimal_denotes (u8_le _), decimal_denotes (u16_le _), Option.bind_eq_bind, Option.bind_some, UInt8.ofNat_toNat,
    UInt16.ofNat_toNat]
  rfl
theorem C28_aggregate_display_parse (x : AggregateType) : AggregateType.fromStr x.display = some x := by
  unfold AggregateType.fromStr AggregateType.display
  rw [split_seven (decimal_noColon _) (decimal_noColon _) (decimal_noColon _) (decimal_noColon _) (decimal_noColon _)
    (decimal_noColon _) (decimal_noColon _)]
  simp only [decimal_denotes (u8_le _), decimal_denotes (u16_le _), Option.bind_eq_bind, Option.bind_some, UInt8.ofNat_toNat,
    UInt16.ofNat_toNat]
  rfl

/-- **C28**: a string is accepted exactly if it is seven numbers separated by colons, the third one at most 65535 and the
others at most 255; the result has these numbers.  Everything else is rejected. -/
theorem C28_accepts_iff (s : List Char) (x : EntityType) :
    EntityType.fromStr s = some x ↔ ∃ a b c d e f g,
      s = a ++ ':' :: (b ++ ':' :: (c ++ ':' :: (d ++ ':' :: (e ++ ':' :: (f ++ ':' :: g)))))
      ∧ Denotes a 255 x.kind.toNat ∧ Denotes b 255 x.domain.toNat ∧ Denotes c 65535 x.country.toNat
      ∧ Denotes d 255 x.category.toNat ∧ Denotes e 255 x.subcategory.toNat ∧ Denotes f 255 x.specific.toNat
      ∧ Denotes g 255 x.extra.toNat := by
  have noColon : ∀ {s max n}, Denotes s max n → NoColon s := by
    rintro s max n ⟨ds, h, ⟨_, h2⟩, _⟩ hc
    have e : (':' : Char).toNat = 58 := rfl
    rcases h with rfl | rfl
    · have := h2 _ hc; omega
    · rcases List.mem_cons.1 hc with hc | hc
      · exact absurd hc (by decide)
      · have := h2 _ hc; omega
  constructor
  · intro h
    unfold EntityType.fromStr at h
    split at h
    · rename_i a b c d e f g hs
      simp only [Option.bind_eq_bind, Option.bind_eq_some_iff] at h
      obtain ⟨a', ha, b', hb, c', hc, d', hd, e', he, f', hf, g', hg, hx⟩ := h
      simp only [Option.pure_def, Option.some.injEq] at hx
      subst hx
      have := (splitColon_spec s).2
      rw [hs] at this
      have le : ∀ {s : List Char} {max n : Nat}, parseUnsigned max s = some n → n ≤ max := by
        intro s max n h; obtain ⟨_, _, _, _, h⟩ := (parseUnsigned_iff max s n).1 h; exact h
      have la := le ha; have lb := le hb; have lc := le hc; have ld := le hd; have le' := le he; have lf := le hf; have lg := le hg
      have u8 : ∀ {n}, n ≤ 255 → (UInt8.ofNat n).toNat = n := by intro n h; rw [UInt8.toNat_ofNat']; omega
      have u16 : (UInt16.ofNat c').toNat = c' := by rw [UInt16.toNat_ofNat']; omega
      refine ⟨a, b, c, d, e, f, g, ?_, ?_, ?_, ?_, ?_, ?_, ?_, ?_⟩
      · rw [← this]; simp [List.intersperse]
      all_goals
        simp only [u8 la, u8 lb, u16, u8 ld, u8 le', u8 lf, u8 lg]
        apply (parseUnsigned_iff _ _ _).1
        assumption
    · cases h
  · rintro ⟨a, b, c, d, e, f, g, rfl, ha, hb, hc, hd, he, hf, hg⟩
    unfold EntityType.fromStr
    rw [split_seven (noColon ha) (noColon hb) (noColon hc) (noColon hd) (noColon he) (noColon hf) (noColon hg)]
    simp only [(parseUnsigned_iff _ _ _).2 ha, (parseUnsigned_iff _ _ _).2 hb, (parseUnsigned_iff _ _ _).2 hc,
      (parseUnsigned_iff _ _ _).2 hd, (parseUnsigned_iff _ _ _).2 he, (parseUnsigned_iff _ _ _).2 hf, (parseUnsigned_iff _ _ _).2 hg,
      Option.bind_eq_bind, Option.bind_some, UInt8.ofNat_toNat, UInt16.ofNat_toNat]
    rfl

/-- **C28**: distinct entity types have distinct texts. -/
theorem C28_display_injective (x y : EntityType) (h : x.display = y.display) : x = y := by
  have := C28_display_parse x
  rw [h, C28_display_parse y] at this
  exact (Option.some.inj this).symm

example : EntityType.display ⟨1, 2, 225, 4, 50, 6, 7⟩ = "1:2:225:4:50:6:7".toList := by
  simp [EntityType.display, decimal, digitChar]
example : EntityType.fromStr "1:2:225:4:50:6".toList = none ∧ EntityType.fromStr "1:2:225:4:50:6:256".toList = none
    ∧ EntityType.fromStr "1:2:225:4:+50:6:7".toList = some ⟨1, 2, 225, 4, 50, 6, 7⟩ := by decide

end Verif.Props
