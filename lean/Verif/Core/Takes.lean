import Verif.Core.Bytes
import Mathlib.Data.List.Forall2
import Verif.Core.Many

/-!
# What a parser takes and what it guarantees about its result

A small program logic for parsers of octets (no model content): `Takes p Q` says that whenever `p` succeeds, the octets it
took and the value it returned satisfy `Q`.
-/

namespace Verif

/-- the octets `w` are the octets `c` with some bits cleared -/
def Clears (w c : Bytes) : Prop := List.Forall₂ (fun a b : UInt8 => a &&& b = a) w c

theorem Clears.refl (c : Bytes) : Clears c c := by
  unfold Clears
  induction c with
  | nil => exact .nil
  | cons a c ih => exact .cons (by simp) ih
theorem Clears.append {a b c d : Bytes} (h1 : Clears a b) (h2 : Clears c d) : Clears (a ++ c) (b ++ d) :=
  List.rel_append h1 h2
theorem Clears.length {w c : Bytes} (h : Clears w c) : w.length = c.length := List.Forall₂.length_eq h
theorem Clears.zeros {n : Nat} {c : Bytes} (h : c.length = n) : Clears (zeros n) c := by
  subst h
  unfold Clears Verif.zeros
  induction c with
  | nil => exact .nil
  | cons a c ih => exact .cons (by simp) ih
theorem Clears.e8_zero {v : UInt8} : Clears (e8 0) (e8 v) := Clears.zeros (n := 1) rfl
theorem Clears.e16_zero {v : UInt16} : Clears (e16 0) (e16 v) := Clears.zeros (n := 2) rfl
theorem Clears.e32_zero {v : UInt32} : Clears (e32 0) (e32 v) := Clears.zeros (n := 4) rfl
theorem Clears.e64_zero {v : UInt64} : Clears (e64 0) (e64 v) := Clears.zeros (n := 8) rfl
theorem Clears.e8_and {a b : UInt8} (h : a &&& b = a) : Clears (e8 a) (e8 b) := .cons h .nil

/-- Clearing bits of a word clears bits of its octets. -/
theorem octet_and {a b : Nat} (h : a &&& b = a) (k : Nat) :
    UInt8.ofNat (a / 2 ^ k) &&& UInt8.ofNat (b / 2 ^ k) = UInt8.ofNat (a / 2 ^ k) := by
  apply UInt8.toNat.inj
  simp only [UInt8.toNat_and, UInt8.toNat_ofNat']
  rw [← Nat.shiftRight_eq_div_pow, ← Nat.shiftRight_eq_div_pow, ← Nat.and_mod_two_pow, ← Nat.shiftRight_and_distrib, h]
theorem Clears.e16_and {a b : UInt16} (h : a &&& b = a) : Clears (e16 a) (e16 b) := by
  have h' : a.toNat &&& b.toNat = a.toNat := by rw [← UInt16.toNat_and, h]
  refine .cons (octet_and h' 8) (.cons ?_ .nil)
  simpa using octet_and h' 0
theorem Clears.e32_and {a b : UInt32} (h : a &&& b = a) : Clears (e32 a) (e32 b) := by
  have h' : a.toNat &&& b.toNat = a.toNat := by rw [← UInt32.toNat_and, h]
  refine .cons (octet_and h' 24) (.cons (octet_and h' 16) (.cons (octet_and h' 8) (.cons ?_ .nil)))
  simpa using octet_and h' 0

/-- whenever `p` succeeds, the octets it took and its value satisfy `Q` -/
def Takes {α : Type} (p : P UInt8 α) (Q : Bytes → α → Prop) : Prop :=
  ∀ bs a r, p.run bs = .ok a r → ∃ c, bs = c ++ r ∧ Q c a

/-- `Takes` with the postcondition found by instance search -/
class Rd {α : Type} (p : P UInt8 α) (Q : outParam (Bytes → α → Prop)) : Prop where
  spec : Takes p Q

theorem Takes.bind {α β : Type} {m : P UInt8 α} {f : α → P UInt8 β} {Q : Bytes → α → Prop} {S : Bytes → β → Prop}
    (hm : Takes m Q) (hf : ∀ n a, Q n a → Takes (f a) fun k b => S (n ++ k) b) : Takes (m >>= f) S := by
  intro bs b r e
  rw [P.run_bind] at e
  cases h : m.run bs with
  | err => rw [h] at e; cases e
  | panic => rw [h] at e; cases e
  | ok a mid =>
    rw [h] at e
    obtain ⟨n, h1, h2⟩ := hm _ _ _ h
    obtain ⟨k, h3, h4⟩ := hf n a h2 _ _ _ e
    exact ⟨n ++ k, by rw [h1, h3, List.append_assoc], h4⟩

theorem Takes.pure {α : Type} {a : α} {Q : Bytes → α → Prop} (h : Q [] a) : Takes (pure a : P UInt8 α) Q := by
  intro b x r e
  simp only [P.run_pure, Res.ok.injEq] at e
  exact ⟨[], by rw [e.2]; rfl, e.1 ▸ h⟩

theorem Takes.fail {α : Type} {Q : Bytes → α → Prop} : Takes (P.fail : P UInt8 α) Q := by
  intro b x r e; simp at e
theorem Takes.panic {α : Type} {Q : Bytes → α → Prop} : Takes (P.panic : P UInt8 α) Q := by
  intro b x r e; simp [P.panic] at e

theorem Takes.mono {α : Type} {p : P UInt8 α} {Q S : Bytes → α → Prop} (h : Takes p Q) (hq : ∀ n a, Q n a → S n a) : Takes p S := by
  intro bs a r e
  obtain ⟨n, h1, h2⟩ := h _ _ _ e
  exact ⟨n, h1, hq n a h2⟩

theorem Takes.ite {α : Type} {c : Prop} [Decidable c] {p q : P UInt8 α} {Q : Bytes → α → Prop} (hp : c → Takes p Q)
    (hq : ¬ c → Takes q Q) : Takes (if c then p else q) Q := by
  split
  · exact hp ‹_›
  · exact hq ‹_›

instance : Rd be_u8 (fun c a => c = e8 a) where
  spec bs a r h := by
    match bs, h with
    | x :: _, h => simp only [be_u8, Res.ok.injEq] at h; exact ⟨[x], by rw [← h.2]; rfl, by rw [← h.1]; rfl⟩
instance : Rd be_u16 (fun c a => c = e16 a) where
  spec bs a r h := by
    match bs, h with
    | x :: y :: _, h =>
      simp only [be_u16, Res.ok.injEq] at h
      refine ⟨[x, y], by rw [← h.2]; rfl, ?_⟩
      have := x.toNat_lt; have := y.toNat_lt
      show _ = e16 a; unfold e16; rw [← h.1, UInt16.toNat_ofNat_of_lt' (by simp only [UInt16.size]; omega)]
      congr 1
      · apply UInt8.toNat.inj; simp only [UInt8.toNat_ofNat']; omega
      · congr 1; apply UInt8.toNat.inj; simp only [UInt8.toNat_ofNat']; omega
instance : Rd be_u32 (fun c a => c = e32 a) where
  spec bs a r h := by
    match bs, h with
    | x :: y :: z :: w :: _, h =>
      simp only [be_u32, Res.ok.injEq] at h
      refine ⟨[x, y, z, w], by rw [← h.2]; rfl, ?_⟩
      have := x.toNat_lt; have := y.toNat_lt; have := z.toNat_lt; have := w.toNat_lt
      show _ = e32 a; unfold e32; rw [← h.1, UInt32.toNat_ofNat_of_lt' (by simp only [UInt32.size]; omega)]
      refine List.cons_eq_cons.2 ⟨?_, List.cons_eq_cons.2 ⟨?_, List.cons_eq_cons.2 ⟨?_, List.cons_eq_cons.2 ⟨?_, rfl⟩⟩⟩⟩ <;>
        (apply UInt8.toNat.inj; simp only [UInt8.toNat_ofNat']; omega)
instance : Rd be_u64 (fun c a => c = e64 a) where
  spec bs a r h := by
    match bs, h with
    | x :: y :: z :: w :: x' :: y' :: z' :: w' :: _, h =>
      simp only [be_u64, Res.ok.injEq] at h
      refine ⟨[x, y, z, w, x', y', z', w'], by rw [← h.2]; rfl, ?_⟩
      have := x.toNat_lt; have := y.toNat_lt; have := z.toNat_lt; have := w.toNat_lt
      have := x'.toNat_lt; have := y'.toNat_lt; have := z'.toNat_lt; have := w'.toNat_lt
      show _ = e64 a; unfold e64; rw [← h.1, UInt64.toNat_ofNat_of_lt' (by simp only [UInt64.size]; omega)]
      refine List.cons_eq_cons.2 ⟨?_, List.cons_eq_cons.2 ⟨?_, List.cons_eq_cons.2 ⟨?_, List.cons_eq_cons.2 ⟨?_, List.cons_eq_cons.2
        ⟨?_, List.cons_eq_cons.2 ⟨?_, List.cons_eq_cons.2 ⟨?_, List.cons_eq_cons.2 ⟨?_, rfl⟩⟩⟩⟩⟩⟩⟩⟩ <;>
        (apply UInt8.toNat.inj; simp only [UInt8.toNat_ofNat']; omega)
instance (n : Nat) : Rd (P.take n : P UInt8 (List UInt8)) (fun c l => c = l ∧ l.length = n) where
  spec bs a r h := by
    unfold P.take at h
    simp only at h
    split at h
    · rename_i hn
      simp only [Res.ok.injEq] at h
      refine ⟨bs.take n, ?_, h.1, ?_⟩
      · rw [← h.2, List.take_append_drop]
      · rw [← h.1, List.length_take]; omega
    · cases h

/-- `n` elements, each with its octets and guarantee -/
theorem takes_count {α : Type} {p : P UInt8 α} {Q : Bytes → α → Prop} (h : Takes p Q) : ∀ n, Takes (P.count p n)
    (fun c l => l.length = n ∧ ∃ cs : List Bytes, c = cs.flatten ∧ List.Forall₂ Q cs l)
  | 0 => Takes.pure ⟨rfl, [], rfl, .nil⟩
  | n + 1 => by
    unfold P.count
    refine Takes.bind h fun k a hq => Takes.bind (takes_count h n) fun k' l ⟨h1, ks, h2, h3⟩ => Takes.pure ?_
    exact ⟨by simp [h1], k :: ks, by simp [h2], .cons hq h3⟩

/-- the usual case: clean elements are written as they were read, with some bits cleared -/
theorem takes_count_ser {α : Type} {p : P UInt8 α} {ser : α → Bytes} {K G : α → Prop}
    (h : Takes p fun c a => (K a → Clears (ser a) c) ∧ G a) (n : Nat) :
    Takes (P.count p n) (fun c l => ((∀ a ∈ l, K a) → Clears (l.flatMap ser) c) ∧ (l.length = n ∧ ∀ a ∈ l, G a)) := by
  refine (takes_count h n).mono ?_
  rintro k l ⟨h1, ks, rfl, h3⟩
  refine ⟨?_, h1, ?_⟩
  · clear h1; induction h3 with
    | nil => intro _; exact .nil
    | cons hq _ ih =>
      intro hK
      rw [List.flatMap_cons, List.flatten_cons]
      exact Clears.append (hq.1 (hK _ (by simp))) (ih fun a ha => hK a (by simp [ha]))
  · clear h1; induction h3 with
    | nil => simp
    | cons hq _ ih => intro b hb; rcases List.mem_cons.1 hb with rfl | hb; exacts [hq.2, ih b hb]

instance {α : Type} {p : P UInt8 α} {ser : α → Bytes} {K G : α → Prop} [h : Rd p fun c a => (K a → Clears (ser a) c) ∧ G a] (n : Nat) :
    Rd (P.count p n) (fun c l => ((∀ a ∈ l, K a) → Clears (l.flatMap ser) c) ∧ (l.length = n ∧ ∀ a ∈ l, G a)) :=
  ⟨takes_count_ser h.spec n⟩
instance {α : Type} {p : P UInt8 α} {ser : α → Bytes} [h : Rd p fun c a => Clears (ser a) c] (n : Nat) :
    Rd (P.count p n) (fun c l => Clears (l.flatMap ser) c ∧ l.length = n) := ⟨by
  refine (takes_count_ser (ser := ser) (K := fun _ => True) (G := fun _ => True)
    (h.spec.mono fun _ _ e => ⟨fun _ => e, trivial⟩) n).mono ?_
  rintro k l ⟨h1, h2, _⟩
  exact ⟨h1 fun _ _ => trivial, h2⟩⟩

/-- run through a sequence of readers -/
macro "rd_steps" : tactic => `(tactic| repeat' (first
  | refine Takes.bind Rd.spec fun _ _ _ => ?_
  | refine Takes.ite (fun _ => ?_) (fun _ => ?_)
  | exact Takes.fail
  | exact Takes.panic
  | refine Takes.pure ?_))
/-- compare what was written with what was read, piece by piece -/
macro "clears" : tactic => `(tactic| (
  simp only [List.append_assoc, List.append_nil]
  repeat' (first
    | assumption
    | exact Clears.refl _
    | exact Clears.e8_zero
    | exact Clears.e16_zero
    | exact Clears.e32_zero
    | exact Clears.e64_zero
    | exact Clears.zeros (by assumption)
    | exact Clears.zeros (by simp only [*])
    | (refine Clears.append ?_ ?_)
    )))
/-- close an instance for a plain record -/
macro "rd_plain " d:ident s:ident : tactic => `(tactic| (refine ⟨?_⟩; unfold $d; rd_steps; subst_vars; unfold $s; clears))

end Verif
