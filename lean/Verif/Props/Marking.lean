import Verif.Props.Text
import Verif.Dis.EntityInfoLemmas
import Verif.Dis.EntityMgmt

/-!
# C59: markings as text

A user makes the marking of an entity or an aggregate from a string and reads it back as a string.
-/

namespace Verif.Props
open Verif Verif.Dis Verif.P

/-! ## Specification -/

/-- a letter or digit of ASCII -/
def LetterOrDigit (b : UInt8) : Prop := (Char.ofNat b.toNat).isAlphanum = true
/-- an ASCII string, as its octets -/
def Ascii (s : Bytes) : Prop := ∀ b ∈ s, b.toNat < 128
/-- `t` is `s` without the characters at its end that are neither letters nor digits -/
def Stripped (s t : Bytes) : Prop :=
  ∃ tail, s = t ++ tail ∧ (∀ b ∈ tail, ¬ LetterOrDigit b) ∧ ∀ b, t.getLast? = some b → LetterOrDigit b

theorem alnum_fin : ∀ i : Fin 256, isAlnum (UInt8.ofFin i) = (Char.ofNat (UInt8.ofFin i).toNat).isAlphanum := by decide +kernel
theorem alnum_iff (b : UInt8) : isAlnum b = true ↔ LetterOrDigit b := by
  have h := alnum_fin b.toFin
  rw [UInt8.ofFin_toFin] at h
  rw [h]; rfl

/-- There is only one such `t`. -/
theorem Stripped.unique {s t u : Bytes} (h1 : Stripped s t) (h2 : Stripped s u) : t = u := by
  obtain ⟨a, e1, n1, l1⟩ := h1
  obtain ⟨b, e2, n2, l2⟩ := h2
  have key : ∀ {x y p q : Bytes}, x ++ p = y ++ q → (∀ c ∈ p, ¬ LetterOrDigit c) → (∀ c, y.getLast? = some c → LetterOrDigit c) →
      y.length ≤ x.length := by
    intro x y p q e np ly
    rcases List.append_eq_append_iff.1 e with ⟨z, rfl, hz⟩ | ⟨z, rfl, hz⟩
    · rcases List.eq_nil_or_concat z with rfl | ⟨z', c, rfl⟩
      · simp
      · refine absurd (ly c (by simp)) (np c ?_)
        rw [hz]; simp
    · simp
  have hab : t ++ a = u ++ b := e1 ▸ e2
  have : t.length = u.length := Nat.le_antisymm (key hab.symm n2 l1) (key hab n1 l2)
  exact (List.append_inj hab this).1

theorem dropWhile_strip (s : Bytes) : Stripped s (s.reverse.dropWhile (fun b => !isAlnum b)).reverse := by
  refine ⟨(s.reverse.takeWhile (fun b => !isAlnum b)).reverse, ?_, ?_, ?_⟩
  · rw [← List.reverse_append, List.takeWhile_append_dropWhile, List.reverse_reverse]
  · intro b hb
    rw [List.mem_reverse] at hb
    have := List.all_eq_true.1 (List.all_takeWhile (p := fun b => !isAlnum b) (l := s.reverse)) b hb
    intro hc
    rw [(alnum_iff b).2 hc] at this
    simp at this
  · intro b hb
    rw [List.getLast?_reverse] at hb
    have := List.head?_dropWhile_not (fun b => !isAlnum b) s.reverse
    rw [hb] at this
    exact (alnum_iff b).1 (by simpa using this)
theorem sanitize_strip (env : Env) {s : Bytes} {n : Nat} (ha : Ascii s) :
    Stripped s (sanitizeMarking env (s ++ List.replicate n 0x20)) := by
  have hall : (s ++ List.replicate n (0x20 : UInt8)).all (fun b => b.toNat < 128) = true := by
    rw [List.all_eq_true]
    intro b hb
    rw [List.mem_append] at hb
    rcases hb with hb | hb
    · simpa using ha b hb
    · rw [List.eq_of_mem_replicate hb]; rfl
  unfold sanitizeMarking
  rw [if_pos hall, List.reverse_append, List.reverse_replicate,
    dropWhile_append_all _ _ _ (by intro x hx; rw [List.eq_of_mem_replicate hx]; rfl)]
  exact dropWhile_strip s

/-! ## C59 -/

/-- **C59.** A string makes an entity marking exactly when it has at most 11 octets, an aggregate marking exactly when it has at most
31. -/
theorem C59_accepted (s : Bytes) :
    ((markingFromStr 11 s).isSome ↔ s.length ≤ 11) ∧ ((markingFromStr 31 s).isSome ↔ s.length ≤ 31) := by
  constructor <;> unfold markingFromStr <;> split <;> simp_all

/-- **C59.** The marking made from an ASCII string, written and read, is an ASCII marking with the string stripped of the characters at
its end that are neither letters nor digits. -/
theorem C59_entity_marking (env : Env) {s : Bytes} {m : UInt8 × Bytes} (ha : Ascii s) (h : markingFromStr 11 s = some m) :
    ∃ t, Stripped s t ∧ ∀ rest, (EntityMarking.parse env).run ((⟨m.1, m.2⟩ : EntityMarking).ser ++ rest) = .ok ⟨1, t⟩ rest := by
  unfold markingFromStr at h
  split at h
  case isFalse => cases h
  case isTrue hl =>
  obtain rfl := Option.some.inj h
  refine ⟨_, sanitize_strip env (n := 11 - s.length) ha, fun rest => ?_⟩
  rtp [EntityMarking.parse, EntityMarking.ser]
  rw [← List.append_assoc, P.run_take _ _ 11 (by simp; omega)]
  rfl
/-- **C59.** The same of aggregate markings. -/
theorem C59_aggregate_marking (env : Env) {s : Bytes} {m : UInt8 × Bytes} (ha : Ascii s) (h : markingFromStr 31 s = some m) :
    ∃ t, Stripped s t ∧ ∀ rest, (AggregateMarking.parse env).run ((⟨m.1, m.2⟩ : AggregateMarking).ser ++ rest) = .ok ⟨1, t⟩ rest := by
  unfold markingFromStr at h
  split at h
  case isFalse => cases h
  case isTrue hl =>
  obtain rfl := Option.some.inj h
  refine ⟨_, sanitize_strip env (n := 31 - s.length) ha, fun rest => ?_⟩
  rtp [AggregateMarking.parse, AggregateMarking.ser]
  rw [← List.append_assoc, P.run_take _ _ 31 (by simp only [List.length_append, List.length_replicate]; omega)]
  rfl
/-- **C59.** So it arrives unchanged exactly when it is empty or ends in a letter or digit. -/
theorem C59_unchanged_iff (env : Env) {s : Bytes} (ha : Ascii s) (hl : s.length ≤ 11) :
    (∀ rest, (EntityMarking.parse env).run ((⟨1, s⟩ : EntityMarking).ser ++ rest) = .ok ⟨1, s⟩ rest) ↔
      ∀ b, s.getLast? = some b → LetterOrDigit b := by
  obtain ⟨t, ht, hr⟩ := C59_entity_marking env ha (show markingFromStr 11 s = some (1, s) by simp [markingFromStr, hl])
  constructor
  · intro h b hb
    have e : t = s := by
      have := (hr []).symm.trans (h [])
      simp only [Res.ok.injEq, EntityMarking.mk.injEq] at this
      exact this.1.2
    obtain ⟨_, _, _, l⟩ := ht
    exact l b (e ▸ hb)
  · intro h
    have : Stripped s s := ⟨[], by simp, by simp, h⟩
    have e := this.unique ht
    subst e
    exact hr

/-- "F-16 (2)": the closing bracket is lost; "EYE-10" is not changed. -/
example : Ascii [70, 45, 49, 54, 32, 40, 50, 41] ∧ Stripped [70, 45, 49, 54, 32, 40, 50, 41] [70, 45, 49, 54, 32, 40, 50] :=
  ⟨by unfold Ascii; decide, [41], rfl, by unfold LetterOrDigit; decide, by unfold LetterOrDigit; decide⟩
example : ∀ b, ([69, 89, 69, 45, 49, 48] : Bytes).getLast? = some b → LetterOrDigit b := by unfold LetterOrDigit; decide

end Verif.Props
