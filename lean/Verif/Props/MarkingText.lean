import Verif.Props.Marking
import Verif.Dis.Utf8

/-! # C59 for every text

A Rust string is UTF-8; with the standard library's decoding on the reading side (`Sanitizes`), the theorems of C59 hold of every text
and not only of ASCII. -/

namespace Verif.Props
open Verif Verif.Dis Verif.P

/-- `t` is `l` without the characters at its end that are neither letters nor digits -/
def Shortened (alnum : Char → Bool) (l t : List Char) : Prop :=
  ∃ tail, l = t ++ tail ∧ (∀ c ∈ tail, alnum c = false) ∧ ∀ c, t.getLast? = some c → alnum c = true

theorem spaces_text : ∀ n, List.replicate n (0x20 : UInt8) = textOctets (List.replicate n ' ')
  | 0 => rfl
  | n + 1 => by
    rw [List.replicate_succ, List.replicate_succ, spaces_text n]
    rfl
theorem strip_shortened (alnum : Char → Bool) (l : List Char) : Shortened alnum l (strip alnum l) := by
  refine ⟨(l.reverse.takeWhile (fun c => !alnum c)).reverse, ?_, ?_, ?_⟩
  · unfold strip
    rw [← List.reverse_append, List.takeWhile_append_dropWhile, List.reverse_reverse]
  · intro c hc
    rw [List.mem_reverse] at hc
    have := List.all_eq_true.1 (List.all_takeWhile (p := fun c => !alnum c) (l := l.reverse)) c hc
    simpa using this
  · intro c hc
    unfold strip at hc
    rw [List.getLast?_reverse] at hc
    have := List.head?_dropWhile_not (fun c => !alnum c) l.reverse
    rw [hc] at this
    simpa using this
theorem Shortened.unique {alnum : Char → Bool} {s t u : List Char} (h1 : Shortened alnum s t) (h2 : Shortened alnum s u) : t = u := by
  obtain ⟨a, e1, n1, l1⟩ := h1
  obtain ⟨b, e2, n2, l2⟩ := h2
  have key : ∀ {x y p q : List Char}, x ++ p = y ++ q → (∀ c ∈ p, alnum c = false) → (∀ c, y.getLast? = some c → alnum c = true) →
      y.length ≤ x.length := by
    intro x y p q e np ly
    rcases List.append_eq_append_iff.1 e with ⟨z, rfl, hz⟩ | ⟨z, rfl, hz⟩
    · rcases List.eq_nil_or_concat z with rfl | ⟨z', c, rfl⟩
      · simp
      · have h1 := ly c (by simp)
        rw [np c (by rw [hz]; simp)] at h1
        cases h1
    · simp
  have hab : t ++ a = u ++ b := e1 ▸ e2
  have : t.length = u.length := Nat.le_antisymm (key hab.symm n2 l1) (key hab n1 l2)
  exact (List.append_inj hab this).1
theorem strip_spaces {alnum : Char → Bool} (ha : alnum ' ' = false) (l : List Char) (n : Nat) : strip alnum (l ++ List.replicate n ' ') = strip alnum l := by
  refine Shortened.unique (strip_shortened alnum _) ?_
  obtain ⟨t, h1, h2, h3⟩ := strip_shortened alnum l
  refine ⟨t ++ List.replicate n ' ', by rw [← List.append_assoc, ← h1], fun c hc => ?_, h3⟩
  rcases List.mem_append.1 hc with hc | hc
  · exact h2 c hc
  · rw [List.eq_of_mem_replicate hc, ha]
theorem sanitize_field {alnum : Char → Bool} {env : Env} (hs : Sanitizes alnum env) (l : List Char) (n : Nat) :
    sanitizeMarking env (textOctets l ++ List.replicate n 0x20) = textOctets (strip alnum l) := by
  have hsp : alnum ' ' = false := by
    have := hs.unicode.ascii ' ' (by decide)
    rw [this]; rfl
  rw [sanitize_eq hs, spaces_text, ← textOctets_append, (sanitize_text alnum _).1, strip_spaces hsp]

/-- **C59.** The marking made from any text of at most 11 octets, written and read, is the text without the characters at its end that
are neither letters nor digits. -/
theorem C59_text {alnum : Char → Bool} {env : Env} (hs : Sanitizes alnum env) {l : List Char} {m : UInt8 × Bytes} (h : markingFromStr 11 (textOctets l) = some m) :
    ∃ t, Shortened alnum l t ∧ ∀ rest, (EntityMarking.parse env).run ((⟨m.1, m.2⟩ : EntityMarking).ser ++ rest) = .ok ⟨1, textOctets t⟩ rest := by
  unfold markingFromStr at h
  split at h
  case isFalse => cases h
  case isTrue hl =>
  obtain rfl := Option.some.inj h
  refine ⟨_, strip_shortened alnum l, fun rest => ?_⟩
  rw [← sanitize_field hs l (11 - (textOctets l).length)]
  rtp [EntityMarking.parse, EntityMarking.ser]
  rw [← List.append_assoc, P.run_take _ _ 11 (by rw [List.length_append, List.length_replicate]; omega)]
  rfl
/-- **C59.** The same of aggregate markings. -/
theorem C59_aggregate_text {alnum : Char → Bool} {env : Env} (hs : Sanitizes alnum env) {l : List Char} {m : UInt8 × Bytes}
    (h : markingFromStr 31 (textOctets l) = some m) :
    ∃ t, Shortened alnum l t ∧ ∀ rest, (AggregateMarking.parse env).run ((⟨m.1, m.2⟩ : AggregateMarking).ser ++ rest) = .ok ⟨1, textOctets t⟩ rest := by
  unfold markingFromStr at h
  split at h
  case isFalse => cases h
  case isTrue hl =>
  obtain rfl := Option.some.inj h
  refine ⟨_, strip_shortened alnum l, fun rest => ?_⟩
  rw [← sanitize_field hs l (31 - (textOctets l).length)]
  rtp [AggregateMarking.parse, AggregateMarking.ser]
  rw [← List.append_assoc, P.run_take _ _ 31 (by rw [List.length_append, List.length_replicate]; omega)]
  rfl
/-- **C59.** So it arrives unchanged exactly when it is empty or ends in a letter or digit, of any script. -/
theorem C59_text_unchanged_iff {alnum : Char → Bool} {env : Env} (hs : Sanitizes alnum env) {l : List Char} (hl : (textOctets l).length ≤ 11) :
    (∀ rest, (EntityMarking.parse env).run ((⟨1, textOctets l⟩ : EntityMarking).ser ++ rest) = .ok ⟨1, textOctets l⟩ rest) ↔
      ∀ c, l.getLast? = some c → alnum c = true := by
  obtain ⟨t, ht, hr⟩ := C59_text hs (l := l) (m := (1, textOctets l)) (by simp [markingFromStr, hl])
  constructor
  · intro h c hc
    have e : textOctets t = textOctets l := by
      have := (hr []).symm.trans (h [])
      simp only [Res.ok.injEq, EntityMarking.mk.injEq] at this
      exact this.1.2
    obtain ⟨tail, h1, -, h3⟩ := ht
    have e2 : textOctets tail = [] := by
      have := congrArg List.length e
      rw [h1, textOctets_append, List.length_append] at this
      exact List.eq_nil_of_length_eq_zero (by omega)
    have e3 : tail = [] := by
      cases tail with
      | nil => rfl
      | cons c tail =>
        have := congrArg List.length e2
        rw [textOctets_cons, List.length_append, String.length_utf8EncodeChar] at this
        have := Char.utf8Size_pos c
        simp at *
        omega
    rw [e3, List.append_nil] at h1
    exact h3 c (h1 ▸ hc)
  · intro h rest
    have e : t = l := ht.unique ⟨[], by rw [List.append_nil], by simp, h⟩
    rw [hr rest, e]
/-- The hypotheses can be met: "SÃO 1", with an environment that takes only ASCII letters for letters. -/
example : markingFromStr 11 (textOctets "SÃO 1".toList) = some (1, [83, 0xC3, 0x83, 79, 32, 49])
    ∧ IsAlphanumeric Char.isAlphanum ∧ ∀ env : Env, Sanitizes Char.isAlphanum { env with sanitizeNonAscii := sanitizeLossy Char.isAlphanum } :=
  ⟨by decide +kernel, ⟨fun _ _ => rfl, by decide +kernel⟩, fun _ => ⟨⟨fun _ _ => rfl, by decide +kernel⟩, fun _ => rfl⟩⟩

end Verif.Props
