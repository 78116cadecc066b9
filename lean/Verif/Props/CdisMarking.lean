import Verif.Props.CdisPdu

/-! # What arrives of a marking, for every text (C34)

`C34_arrives` and `C34_swallows` say what is read back for every text that is not cut inside a character (C65), `C34_unchanged_iff` exactly
which texts arrive unchanged. -/

namespace Verif.Props
open Verif Verif.Cdis

/-! ## Specification -/

/-- A text that is sent in five bits per character: of letters and digits other than J, K, Q, X and Z (and NUL). -/
def Plain (l : List Char) : Prop := ∀ c ∈ l, c = '\x00' ∨ c.isAlphanum = true ∧ c ∉ ['J', 'K', 'Q', 'X', 'Z']
instance (l : List Char) : Decidable (Plain l) := inferInstanceAs (Decidable (∀ c ∈ l, _))
/-- What is read back of a character. -/
def readBack (plain : Prop) [Decidable plain] (c : Char) : Char :=
  if plain then (if c = '\x00' ∨ c ∈ fiveAlphabet then c else '9') else (if c = '\x00' ∨ c ∈ sixAlphabet then c else '*')

/-! ## Lemmas -/

theorem checkEnc_plain (l : List Char) : checkEnc l = if Plain l then .five else .six := by
  unfold checkEnc
  by_cases h : Plain l
  · rw [if_pos h, if_pos]
    constructor
    · rw [List.all_eq_true]
      intro c hc
      have hc := List.mem_filter.1 hc
      rcases h c hc.1 with h | h
      · exact absurd h (by simpa using hc.2)
      · exact h.1
    · intro hx
      obtain ⟨c, hc, hd⟩ := List.any_eq_true.1 hx
      rcases h c hc with h | h
      · rw [h] at hd; exact absurd hd (by decide)
      · exact h.2 (by simpa using hd)
  · rw [if_neg h, if_neg]
    rintro ⟨h1, h2⟩
    refine h fun c hc => ?_
    by_cases h0 : c = '\x00'
    · exact .inl h0
    · refine .inr ⟨List.all_eq_true.1 h1 c (List.mem_filter.2 ⟨hc, by simpa using h0⟩), fun hj => h2 (List.any_eq_true.2 ⟨c, hc, by simpa using hj⟩)⟩

theorem five_codes : ∀ c ∈ fiveWrite, c ≠ 'X' → CharEnc.charOf .five (CharEnc.codeOf .five c % 2 ^ 5) = c ∧ (c = '\x00' ∨ c ∈ fiveAlphabet) := by
  decide +kernel
theorem five_known : ∀ c ∈ '\x00' :: fiveAlphabet, c ∈ fiveWrite := by decide +kernel
theorem six_codes : ∀ c ∈ sixTable, CharEnc.charOf .six (CharEnc.codeOf .six c % 2 ^ 6) = c ∧ (c = '\x00' ∨ c ∈ sixAlphabet) := by
  decide +kernel
theorem six_known : ∀ c ∈ '\x00' :: sixAlphabet, c ∈ sixTable := by decide +kernel
theorem char_back (l : List Char) (c : Char) (hc : c ∈ l) :
    (checkEnc l).charOf ((checkEnc l).codeOf c % 2 ^ (checkEnc l).bitSize) = readBack (Plain l) c := by
  rw [checkEnc_plain]
  unfold readBack
  by_cases h : Plain l
  · rw [if_pos h, if_pos h]
    by_cases hw : c ∈ fiveWrite
    · have hx : c ≠ 'X' := by
        rintro rfl
        rcases h _ hc with h | h
        · exact absurd h (by decide)
        · exact h.2 (by decide)
      obtain ⟨h1, h2⟩ := five_codes c hw hx
      rw [if_pos h2]; exact h1
    · rw [if_neg fun h => hw (five_known c (List.mem_cons.2 h))]
      show CharEnc.charOf .five (CharEnc.codeOf .five c % 2 ^ 5) = '9'
      simp only [CharEnc.codeOf, hw, if_false]
      decide
  · rw [if_neg h, if_neg h]
    by_cases hw : c ∈ sixTable
    · obtain ⟨h1, h2⟩ := six_codes c hw
      rw [if_pos h2]; exact h1
    · rw [if_neg fun h => hw (six_known c (List.mem_cons.2 h))]
      show CharEnc.charOf .six (CharEnc.codeOf .six c % 2 ^ 6) = '*'
      simp only [CharEnc.codeOf, hw, if_false]
      decide

theorem truncate_ascii (l : List Char) (ha : ∀ c ∈ l, c.utf8Size = 1) : ∀ n, utf8Truncate n l = some (l.take n) := by
  induction l with
  | nil => intro n; simp [utf8Truncate]
  | cons c l ih =>
    intro n
    cases n with
    | zero => simp [utf8Truncate]
    | succ n =>
      unfold utf8Truncate
      rw [if_neg (by omega), ha c (by simp), if_pos (by omega), Nat.add_sub_cancel, ih (fun d hd => ha d (by simp [hd]))]
      rfl
theorem utf8Size_ascii (c : Char) : c.utf8Size = 1 ↔ c.toNat < 128 := by
  have e : ∀ n (h : n < 4294967296), (UInt32.ofNatLT n h).toNat = n := fun _ _ => rfl
  unfold Char.utf8Size Char.toNat
  simp only [UInt32.le_iff_toNat_le, e]
  constructor
  · intro h; split at h
    · omega
    · split at h
      · cases h
      · split at h <;> cases h
  · intro h; rw [if_pos (by omega)]

/-! ## C34 -/

/-- **C34.** Of an ASCII text of any length the first eleven characters are sent; every one that is not in the alphabet is read back as a
9 or an asterisk. -/
theorem C34_arrives (l : List Char) (ha : ∀ c ∈ l, c.toNat < 128) :
    ∃ m, Marking.new l = some m ∧ m.marking = l.take 11 ∧ ∀ r, ∃ m', Marking.parse.run (m.ser ++ r) = .ok m' r ∧
      m'.marking = (l.take 11).map (readBack (Plain (l.take 11))) := by
  have h1 : ∀ c ∈ l, c.utf8Size = 1 := fun c hc => (utf8Size_ascii c).2 (ha c hc)
  have hn : Marking.new l = some ⟨checkEnc (l.take 11), l.take 11⟩ := by
    unfold Marking.new
    rw [utf8Len_ascii h1]
    by_cases h : l.length > 11
    · rw [if_pos h, truncate_ascii l h1]; rfl
    · rw [if_neg h, List.take_of_length_le (by omega)]; rfl
  refine ⟨_, hn, rfl, fun r => ⟨_, Marking.run_raw _ (by dsimp only; rw [List.length_take]; omega) (fun c hc => h1 c (List.mem_of_mem_take hc)) r, ?_⟩⟩
  exact List.map_congr_left fun c hc => char_back _ c hc

theorem count_past (n k : Nat) : ∀ (l : List Nat) (r : Bits),
    (P.count (rU n) (l.length + k)).run (l.flatMap (wU n) ++ r) = ((P.count (rU n) k).run r).andThen fun more r => .ok (l.map (· % 2 ^ n) ++ more) r
  | [], r => by
    simp only [List.length_nil, Nat.zero_add, List.flatMap_nil, List.nil_append, List.map_nil]
    cases (P.count (rU n) k).run r <;> rfl
  | a :: l, r => by
    rw [List.length_cons, Nat.add_right_comm]
    simp only [P.count, List.flatMap_cons, List.append_assoc, P.run_bind, rU_run_mod, Res.andThen_ok, count_past n k l r]
    cases (P.count (rU n) k).run r <;> rfl
theorem rU_enough {n : Nat} {r : Bits} (h : n ≤ r.length) : (rU n).run r = .ok (ofBits (r.take n)) (r.drop n) := by
  have := P.run_take (r.take n) (r.drop n) n (by rw [List.length_take]; omega)
  rw [List.take_append_drop] at this
  simp only [rU, P.run_bind, this, Res.andThen_ok, P.run_pure]
theorem rU_short {n : Nat} {r : Bits} (h : r.length < n) : (rU n).run r = .err := by
  simp only [rU, P.run_bind, P.take]
  rw [if_neg (by omega)]
  rfl
theorem count_enough (n : Nat) : ∀ (k : Nat) (r : Bits), n * k ≤ r.length → ∃ more, (P.count (rU n) k).run r = .ok more (r.drop (n * k)) ∧ more.length = k
  | 0, r, _ => ⟨[], rfl, rfl⟩
  | k + 1, r, h => by
    rw [Nat.mul_succ] at h ⊢
    obtain ⟨more, h2, h3⟩ := count_enough n k (r.drop n) (by rw [List.length_drop]; omega)
    refine ⟨ofBits (r.take n) :: more, ?_, by rw [List.length_cons, h3]⟩
    simp only [P.count, P.run_bind, rU_enough (show n ≤ r.length by omega), Res.andThen_ok, h2, P.run_pure, List.drop_drop]
    rw [Nat.add_comm]
theorem count_short (n : Nat) : ∀ (k : Nat) (r : Bits), r.length < n * k → (P.count (rU n) k).run r = .err
  | 0, r, h => by rw [Nat.mul_zero] at h; cases h
  | k + 1, r, h => by
    rw [Nat.mul_succ] at h
    simp only [P.count, P.run_bind]
    by_cases hn : n ≤ r.length
    · simp only [rU_enough hn, Res.andThen_ok, count_short n k (r.drop n) (by rw [List.length_drop]; omega)]; rfl
    · rw [rU_short (by omega)]; rfl

theorem utf8Len_ge (l : List Char) : l.length ≤ utf8Len l := by
  unfold utf8Len
  induction l with
  | nil => exact Nat.le_refl _
  | cons c l ih => have := Char.utf8Size_pos c; simp only [List.map_cons, List.sum_cons, List.length_cons]; omega
theorem utf8Len_gt {l : List Char} (h : ∃ c ∈ l, 128 ≤ c.toNat) : l.length < utf8Len l := by
  obtain ⟨c, hc, h⟩ := h
  obtain ⟨a, b, rfl⟩ := List.append_of_mem hc
  have h1 := utf8Len_ge a
  have h2 := utf8Len_ge b
  have h3 := Char.utf8Size_pos c
  have h4 : c.utf8Size ≠ 1 := fun e => by have := (utf8Size_ascii c).1 e; omega
  unfold utf8Len at *
  simp only [List.map_append, List.sum_append, List.map_cons, List.sum_cons, List.length_append, List.length_cons] at *
  omega

/-- **C34 is violated** by every text with a character outside ASCII: the length written counts octets and not characters, so the reader takes
six bits more for every octet that is too many, from whatever follows the marking. -/
theorem C34_swallows (l : List Char) (hn : utf8Len l ≤ 11) (hx : ∃ c ∈ l, 128 ≤ c.toNat) :
    ∃ m, Marking.new l = some m ∧ m.marking = l ∧ 0 < utf8Len l - l.length ∧ ∀ r : Bits,
      (6 * (utf8Len l - l.length) ≤ r.length → ∃ more, more.length = utf8Len l - l.length ∧
        Marking.parse.run (m.ser ++ r) = .ok ⟨.six, l.map (readBack False) ++ more⟩ (r.drop (6 * (utf8Len l - l.length)))) ∧
      (r.length < 6 * (utf8Len l - l.length) → Marking.parse.run (m.ser ++ r) = .err) := by
  have hgt := utf8Len_gt hx
  have hp : ¬ Plain l := by
    intro hp
    obtain ⟨c, hc, h⟩ := hx
    rcases hp c hc with h1 | h1
    · rw [h1] at h; exact absurd h (by decide)
    · have := h1.1
      simp only [Char.isAlphanum, Char.isAlpha, Char.isUpper, Char.isLower, Char.isDigit, Bool.or_eq_true, Bool.and_eq_true,
        decide_eq_true_eq, UInt32.le_iff_toNat_le, ge_iff_le] at this
      have e : ∀ n (h : n < 4294967296), (UInt32.ofNatLT n h).toNat = n := fun _ _ => rfl
      unfold Char.toNat at h
      have a1 : 'A'.val.toNat = 65 := rfl
      have a2 : 'Z'.val.toNat = 90 := rfl
      have a3 : 'a'.val.toNat = 97 := rfl
      have a4 : 'z'.val.toNat = 122 := rfl
      have a5 : '0'.val.toNat = 48 := rfl
      have a6 : '9'.val.toNat = 57 := rfl
      omega
  have he : checkEnc l = .six := by rw [checkEnc_plain, if_neg hp]
  have hm : Marking.new l = some ⟨checkEnc l, l⟩ := by
    unfold Marking.new
    rw [if_neg (by omega)]; rfl
  refine ⟨_, hm, rfl, by omega, fun r => ?_⟩
  have key : Marking.parse.run ((⟨checkEnc l, l⟩ : Marking).ser ++ r) =
      ((P.count (rU 6) (utf8Len l - l.length)).run r).andThen fun more r =>
        .ok ⟨.six, l.map (readBack False) ++ more.map (CharEnc.charOf .six)⟩ r := by
    have hb : l.map (readBack False) = (l.map (CharEnc.codeOf .six)).map fun c => CharEnc.charOf .six (c % 2 ^ 6) := by
      rw [List.map_map]
      refine List.map_congr_left fun c hc => ?_
      have := char_back l c hc
      rw [he] at this
      show _ = CharEnc.charOf .six (CharEnc.codeOf .six c % 2 ^ CharEnc.bitSize .six)
      rw [this]
      unfold readBack
      rw [if_neg hp, if_neg not_false]
    have hc := count_past 6 (utf8Len l - l.length) (l.map (CharEnc.codeOf .six)) r
    rw [List.length_map, Nat.add_sub_cancel' (Nat.le_of_lt hgt)] at hc
    unfold Marking.parse Marking.ser
    rw [he]
    simp only [List.append_assoc, P.run_bind, rU_run 4 _ _ (show utf8Len l < 2 ^ 4 by omega), Res.andThen_ok,
      rU_run 1 _ _ (show CharEnc.code .six < 2 ^ 1 by decide)]
    have e6 : CharEnc.ofCode (CharEnc.code .six) = .six := rfl
    have e7 : CharEnc.bitSize .six = 6 := rfl
    rw [e6, e7, hc, hb]
    cases (P.count (rU 6) (utf8Len l - l.length)).run r <;>
      simp only [Res.andThen, P.run_pure, List.map_append, List.map_map] <;> rfl
  rw [key]
  refine ⟨fun h => ?_, fun h => by rw [count_short 6 _ _ h]; rfl⟩
  obtain ⟨more, h1, h2⟩ := count_enough 6 _ _ h
  exact ⟨more.map (CharEnc.charOf .six), by rw [List.length_map, h2], by rw [h1]; rfl⟩

theorem truncate_prefix (l : List Char) : ∀ n m, utf8Truncate n l = some m → m <+: l ∧ utf8Len m ≤ n := by
  induction l with
  | nil => intro n m h; cases h; exact ⟨List.prefix_refl _, Nat.zero_le _⟩
  | cons c l ih =>
    intro n m h
    unfold utf8Truncate at h
    by_cases h0 : n = 0
    · rw [if_pos h0] at h; cases h; exact ⟨List.nil_prefix, Nat.zero_le _⟩
    · rw [if_neg h0] at h
      by_cases hc : c.utf8Size ≤ n
      · rw [if_pos hc] at h
        obtain ⟨k, hk, rfl⟩ := Option.map_eq_some_iff.1 h
        obtain ⟨h1, h2⟩ := ih _ _ hk
        refine ⟨List.cons_prefix_cons.2 ⟨rfl, h1⟩, ?_⟩
        unfold utf8Len at *
        simp only [List.map_cons, List.sum_cons]
        omega
      · rw [if_neg hc] at h; cases h
theorem new_prefix {l : List Char} {m : Marking} (h : Marking.new l = some m) :
    m.marking <+: l ∧ utf8Len m.marking ≤ 11 ∧ m.enc = checkEnc m.marking ∧ (utf8Len l ≤ 11 → m.marking = l) := by
  unfold Marking.new at h
  obtain ⟨k, hk, rfl⟩ := Option.map_eq_some_iff.1 h
  by_cases hc : utf8Len l > 11
  · rw [if_pos hc] at hk
    obtain ⟨h1, h2⟩ := truncate_prefix _ _ _ hk
    exact ⟨h1, h2, rfl, fun h => by omega⟩
  · rw [if_neg hc] at hk; cases hk
    exact ⟨List.prefix_refl _, by dsimp only; omega, rfl, fun _ => rfl⟩
theorem alphabet_ascii : (∀ c ∈ '\x00' :: fiveAlphabet, c.toNat < 128) ∧ ∀ c ∈ '\x00' :: '*' :: sixAlphabet, c.toNat < 128 := by decide +kernel
theorem five_plain : ∀ c ∈ fiveAlphabet, c.isAlphanum = true ∧ c ∉ ['J', 'K', 'Q', 'X', 'Z'] := by decide +kernel
theorem same_iff {f : Char → Char} (l : List Char) : l.map f = l ↔ ∀ c ∈ l, f c = c := by
  induction l with
  | nil => simp
  | cons c l ih => simp only [List.map_cons, List.cons.injEq, ih, List.mem_cons, forall_eq_or_imp]

/-- **C34.** Exactly these texts arrive, whatever follows them: at most eleven characters, of the five-bit alphabet (or NUL); or of the
six-bit alphabet (or NUL, or the asterisk that stands for everything else) and not all of them letters and digits other than J, K, Q, X and Z. -/
theorem C34_unchanged_iff (l : List Char) :
    (∃ m, Marking.new l = some m ∧ ∀ r, ∃ m', Marking.parse.run (m.ser ++ r) = .ok m' r ∧ m'.marking = l) ↔
      l.length ≤ 11 ∧ ((∀ c ∈ l, c = '\x00' ∨ c ∈ fiveAlphabet) ∨ ¬ Plain l ∧ ∀ c ∈ l, c = '\x00' ∨ c = '*' ∨ c ∈ sixAlphabet) := by
  by_cases ha : ∀ c ∈ l, c.toNat < 128
  · obtain ⟨m, h1, h2, h3⟩ := C34_arrives l ha
    have e : (∃ m, Marking.new l = some m ∧ ∀ r, ∃ m', Marking.parse.run (m.ser ++ r) = .ok m' r ∧ m'.marking = l) ↔
        (l.take 11).map (readBack (Plain (l.take 11))) = l := by
      constructor
      · rintro ⟨n, hn, h⟩
        rw [h1] at hn; cases hn
        obtain ⟨a, b, c⟩ := h3 []
        obtain ⟨a', b', c'⟩ := h []
        rw [b] at b'; cases b'
        rw [← c, c']
      · intro h
        refine ⟨m, h1, fun r => ?_⟩
        obtain ⟨a, b, c⟩ := h3 r
        exact ⟨a, b, by rw [c, h]⟩
    rw [e]
    by_cases hl : l.length ≤ 11
    · rw [List.take_of_length_le hl, same_iff]
      simp only [hl, true_and]
      by_cases hp : Plain l
      · have h9 : '9' ∈ fiveAlphabet := by decide
        constructor
        · intro h
          refine .inl fun c hc => ?_
          have := h c hc
          unfold readBack at this
          rw [if_pos hp] at this
          by_cases hx : c = '\x00' ∨ c ∈ fiveAlphabet
          · exact hx
          · rw [if_neg hx] at this; rw [← this]; exact .inr h9
        · intro h c hc
          unfold readBack
          rw [if_pos hp, if_pos (h.elim (fun h => h c hc) fun h => absurd hp h.1)]
      · have hne : ¬ ∀ c ∈ l, c = '\x00' ∨ c ∈ fiveAlphabet := fun h => hp fun c hc => (h c hc).imp id (five_plain c)
        constructor
        · intro h
          refine .inr ⟨hp, fun c hc => ?_⟩
          have := h c hc
          unfold readBack at this
          rw [if_neg hp] at this
          by_cases hx : c = '\x00' ∨ c ∈ sixAlphabet
          · exact hx.imp id .inr
          · rw [if_neg hx] at this; exact .inr (.inl this.symm)
        · intro h c hc
          have h := (h.resolve_left hne).2 c hc
          unfold readBack
          rw [if_neg hp]
          by_cases hx : c = '\x00' ∨ c ∈ sixAlphabet
          · rw [if_pos hx]
          · rw [if_neg hx]
            rcases h with h | h | h
            · exact absurd (.inl h) hx
            · exact h.symm
            · exact absurd (.inr h) hx
    · constructor
      · intro h
        have := congrArg List.length h
        rw [List.length_map, List.length_take] at this
        omega
      · intro h; exact absurd h.1 hl
  · constructor
    · rintro ⟨m, h1, h2⟩
      exfalso
      obtain ⟨p1, p2, p3, p4⟩ := new_prefix h1
      by_cases hm : ∃ c ∈ m.marking, 128 ≤ c.toNat
      · obtain ⟨m2, q1, q2, q3, q4⟩ := C34_swallows m.marking p2 hm
        have e : m2 = m := by
          have h3 := (new_prefix q1).2.2.1
          cases m; cases m2
          dsimp only at *
          rw [p3, h3, q2]
        obtain ⟨m', h3, -⟩ := h2 []
        rw [e] at q4
        rw [(q4 []).2 (by rw [List.length_nil]; omega)] at h3
        cases h3
      · have hm' : ∀ c ∈ m.marking, c.utf8Size = 1 := fun c hc => (utf8Size_ascii c).2 (by
          by_cases h : c.toNat < 128
          · exact h
          · exact absurd ⟨c, hc, by omega⟩ hm)
        have hs := utf8Len_ge m.marking
        obtain ⟨m', h3, h4⟩ := h2 []
        rw [Marking.run_raw m (by omega) hm'] at h3
        cases h3
        have hlen := congrArg List.length h4
        rw [List.length_map] at hlen
        have := p1.eq_of_length hlen
        rw [this] at hm
        exact ha fun c hc => by
          by_cases h : c.toNat < 128
          · exact h
          · exact absurd ⟨c, hc, by omega⟩ hm
    · rintro ⟨-, h | ⟨-, h⟩⟩ <;> exfalso <;> refine ha fun c hc => ?_
      · exact alphabet_ascii.1 c (List.mem_cons.2 (h c hc))
      · exact alphabet_ascii.2 c (by simpa using h c hc)
/-- Texts of each kind. -/
example : Plain "ALLY2".toList ∧ ¬ Plain "LOCK-ON".toList ∧ "ALLY2".toList.map (readBack (Plain "ALLY2".toList)) = "ALL92".toList
    ∧ utf8Len "ÉCHO".toList = 5 ∧ ∃ c ∈ "ÉCHO".toList, 128 ≤ c.toNat := by decide +kernel

/-! ## What that does to Entity State PDUs -/

theorem entityState_shift {v : EntityState} {m m' : Marking} {r r' : Bits} (h : ({ v with entity_marking := none } : EntityState).Wf)
    (hm : v.entity_marking = some m) (hc : v.capabilities = none) (hv : v.variable_parameters = []) (hr : Marking.parse.run (m.ser ++ r) = .ok m' r') :
    EntityState.parse.run (v.ser ++ r) = .ok { v.wire with entity_marking := some m' } r' := by
  obtain ⟨h1, h2, h3, h4, h5, h6, h7, h8, h9, h10, h11, h12, h13, -, -, -, -⟩ := h
  have hf := v.fp_lt
  have f12 : has v.fp (bit 12) = v.force_id.isSome := by unfold EntityState.fp; flag_bits
  have f11 : has v.fp (bit 11) = !v.variable_parameters.isEmpty := by unfold EntityState.fp; flag_bits
  have f10 : has v.fp (bit 10) = v.entity_type.isSome := by unfold EntityState.fp; flag_bits
  have f9 : has v.fp (bit 9) = v.alternate_entity_type.isSome := by unfold EntityState.fp; flag_bits
  have f8 : has v.fp (bit 8) = v.entity_linear_velocity.isSome := by unfold EntityState.fp; flag_bits
  have f7 : has v.fp (bit 7) = v.entity_location.isSome := by unfold EntityState.fp; flag_bits
  have f6 : has v.fp (bit 6) = v.entity_orientation.isSome := by unfold EntityState.fp; flag_bits
  have f5 : has v.fp (bit 5) = v.entity_appearance.isSome := by unfold EntityState.fp; flag_bits
  have f4 : has v.fp (bit 4) = v.dr_params_other.isSome := by unfold EntityState.fp; flag_bits
  have f3 : has v.fp (bit 3) = v.dr_params_entity_linear_acceleration.isSome := by unfold EntityState.fp; flag_bits
  have f2 : has v.fp (bit 2) = v.dr_params_entity_angular_velocity.isSome := by unfold EntityState.fp; flag_bits
  have f1 : has v.fp (bit 1) = v.entity_marking.isSome := by unfold EntityState.fp; flag_bits
  have f0 : has v.fp (bit 0) = v.capabilities.isSome := by unfold EntityState.fp; flag_bits
  have hl : v.variable_parameters.length < 256 := by rw [hv]; decide
  have e : (rWhen v.entity_marking.isSome Marking.parse).run (wOpt Marking.ser v.entity_marking ++ r) = .ok (some m') r' := by
    rw [hm]
    simp only [Option.isSome_some, wOpt, rWhen, if_true, P.run_bind, hr, Res.andThen_ok, P.run_pure]
  have tail : wOpt wUV32 v.capabilities ++ (v.variable_parameters.flatMap VariableParameter.ser ++ r) = r := by rw [hc, hv]; rfl
  have n0 : (rWhen v.capabilities.isSome rUV32).run r' = .ok v.capabilities r' := by rw [hc]; rfl
  have c0 : (P.count VariableParameter.parse v.variable_parameters.length).run r' = .ok v.variable_parameters r' := by rw [hv]; rfl
  simp only [EntityState.parse, EntityState.ser, List.append_assoc, tail]
  dsimp only at h1 h2 h3 h4 h5 h6 h7 h8 h9 h10 h11 h12 h13
  simp only [rt, hf, f12, f11, f10, f9, f8, f7, f6, f5, f4, f3, f2,
    f1, f0, h1, h2, h3, h4, h5, h6, h7, h8, h9, h10, h11, h12, h13, toNat_lt_pow, toNat_bne,
    rCountOpt_run _ hl, e, n0, c0, EntityState.wire]

/-- **C35 is violated** by every Entity State PDU, otherwise well-formed, with a character outside ASCII in its marking: the reader takes bits of
what follows the PDU for characters and goes on with the next PDU that many bits too late, or finds too few bits and fails. -/
theorem C35_marking_shifts {env : Dis.Env} {h : CdisHeader} {v : EntityState} {l : List Char} {m : Marking} (hh : h.Wf) (ht : h.pdu_type = 1)
    (hn : utf8Len l ≤ 11) (hx : ∃ c ∈ l, 128 ≤ c.toNat) (hnew : Marking.new l = some m) (hm : v.entity_marking = some m)
    (hw : ({ v with entity_marking := none } : EntityState).Wf) (hc : v.capabilities = none) (hv : v.variable_parameters = []) (r : Bits)
    (hr : 6 * (utf8Len l - l.length) ≤ r.length) : ∃ w : EntityState,
      (CdisPdu.parse env).run ((⟨h, .entityState v⟩ : CdisPdu).ser ++ r) = .ok ⟨h, .entityState w⟩ (r.drop (6 * (utf8Len l - l.length)))
      ∧ (∃ m', w.entity_marking = some m' ∧ m'.marking.length = utf8Len l) ∧ 6 * (utf8Len l - l.length) ≠ 0 := by
  obtain ⟨m2, h1, h2, h3, h4⟩ := C34_swallows l hn hx
  rw [hnew] at h1
  cases h1
  obtain ⟨more, h5, h6⟩ := (h4 r).1 hr
  refine ⟨{ v.wire with entity_marking := some ⟨.six, l.map (readBack False) ++ more⟩ }, ?_, ⟨_, rfl, ?_⟩, by omega⟩
  · simp only [CdisPdu.parse, CdisPdu.ser, List.append_assoc, rt, CdisHeader.run hh, ht]
    have := entityState_shift hw hm hc hv h6
    show ((CdisBody.parse env 1).run (v.ser ++ r)).andThen _ = _
    rw [show CdisBody.parse env 1 = mapP .entityState EntityState.parse from rfl, mapP_run _ _ this]
    rfl
  · rw [List.length_append, List.length_map, h5]; omega

/-- A PDU that meets the hypotheses, with six bits swallowed. -/
def echoPdu (n : List Char) : CdisPdu := ⟨witnessHeader, .entityState { partialEntityState with entity_marking := Marking.new n }⟩
example : ∃ w, (CdisPdu.parse sampleEnv).run ((echoPdu "ÉCHO".toList).ser ++ (echoPdu "ECHO".toList).ser) =
    .ok ⟨witnessHeader, .entityState w⟩ ((echoPdu "ECHO".toList).ser.drop 6) := by
  obtain ⟨w, h, -⟩ := C35_marking_shifts (env := sampleEnv) (h := witnessHeader) (v := { partialEntityState with entity_marking := Marking.new "ÉCHO".toList })
    (l := "ÉCHO".toList) (m := ⟨.six, "ÉCHO".toList⟩) C32_witness rfl (by decide +kernel) (by decide +kernel) (by decide +kernel) (by decide +kernel)
    (by unfold EntityState.Wf; decide +kernel) rfl rfl (echoPdu "ECHO".toList).ser (by decide +kernel)
  exact ⟨w, h⟩

end Verif.Props
