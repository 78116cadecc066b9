import Verif.Props.Packets
/-! # C18, continued: exactly which datagrams make a checked build panic -/
namespace Verif.Props
open Verif Verif.Dis Verif.P

/-! ## Specification -/

/-- the 16-bit number at an offset -/
def num16 (bs : Bytes) (i : Nat) : Nat := (bs.getD i 0).toNat * 256 + (bs.getD (i + 1) 0).toNat
/-- a complete variable transmitter parameter record: type (4 octets), length in octets of the whole record (2), contents -/
def ParameterRecord (r : Bytes) : Prop := 6 ≤ r.length ∧ num16 r 4 = r.length
/-- the octets of `bs` are a Transmitter PDU of protocol version 7 (antenna pattern length at 70, number of variable parameter records at
30, length of the modulation parameters at 100) with a variable parameter record that announces fewer octets than its own header has,
after any number of complete ones -/
def ShortTransmitter (bs : Bytes) : Prop :=
  104 ≤ bs.length ∧ bs[0]? = some 7 ∧ bs[2]? = some 25 ∧ ∃ (good : List Bytes) (bad rest : Bytes),
    bs.drop (104 + (bs.getD 100 0).toNat + if num16 bs 70 = 0 then 0 else 40) = good.flatten ++ bad ++ rest
    ∧ good.length < num16 bs 30 ∧ (∀ r ∈ good, ParameterRecord r) ∧ bad.length = 6 ∧ num16 bad 4 < 6

/-- the 32-bit number at an offset -/
def num32 (bs : Bytes) (i : Nat) : Nat := num16 bs i * 65536 + num16 bs (i + 2)
/-- the octets of all records of a record set whose header is at the start of `r` (length of a record in bits at 12, number at 14) -/
def recordOctets (r : Bytes) : Nat := (num16 r 12 + 7) / 8 * num16 r 14
/-- a complete record set of less than 64 KiB: 16 octets of header, records, padding to 64 bits -/
def CompleteSet (r : Bytes) : Prop := 16 ≤ r.length ∧ recordOctets r < 65536 ∧ r.length = 16 + (recordOctets r + 7) / 8 * 8
/-- a record set with 64 KiB or more of records -/
def LargeSet (r : Bytes) : Prop := 16 ≤ r.length ∧ 65536 ≤ recordOctets r ∧ r.length = 16 + recordOctets r
/-- a PDU of type `t` with the number of its record sets at offset `k`, one of which has 64 KiB or more of records -/
def LargeRecords (t : UInt8) (k : Nat) (bs : Bytes) : Prop :=
  bs[2]? = some t ∧ ∃ (good : List Bytes) (bad rest : Bytes), bs.drop (k + 4) = good.flatten ++ bad ++ rest
    ∧ good.length < num32 bs k ∧ (∀ r ∈ good, CompleteSet r) ∧ LargeSet bad
/-- an Aggregate State PDU with more than 10901 aggregate and entity identifiers (their numbers are at 124 and 126) -/
def LargeAggregate (bs : Bytes) : Prop :=
  bs[2]? = some 33 ∧ 10901 < num16 bs 124 + num16 bs 126 ∧ 132 + 6 * (num16 bs 124 + num16 bs 126) ≤ bs.length
/-- the octets that make a checked build panic -/
def Bomb (bs : Bytes) : Prop :=
  ShortSignal bs ∨ ShortTransmitter bs ∨ LargeAggregate bs ∨ LargeRecords 35 36 bs ∨ LargeRecords 63 38 bs ∨ LargeRecords 64 36 bs

/-! ## Lemmas -/

/-- reads exactly `k` octets, and only fails for want of octets -/
class Fixed {α : Type} (p : BP α) (k : outParam Nat) : Prop where
  enough : ∀ bs, k ≤ bs.length → ∃ a, p.run bs = .ok a (bs.drop k)
  short : ∀ bs, bs.length < k → p.run bs = .err

instance {α : Type} (a : α) : Fixed (pure a : BP α) 0 where
  enough bs _ := ⟨a, rfl⟩
  short bs h := by omega
theorem Fixed.bind {α β : Type} {m : BP α} {f : α → BP β} {k n : Nat} (hm : Fixed m k) (hf : ∀ a, Fixed (f a) n) :
    Fixed (m >>= f) (k + n) where
  enough bs h := by
    obtain ⟨a, e⟩ := hm.enough bs (by omega)
    obtain ⟨b, e'⟩ := (hf a).enough (bs.drop k) (by rw [List.length_drop]; omega)
    exact ⟨b, by rw [P.run_bind, e]; simp only [Res.andThen]; rw [e', List.drop_drop]⟩
  short bs h := by
    rw [P.run_bind]
    by_cases hk : k ≤ bs.length
    · obtain ⟨a, e⟩ := hm.enough bs hk
      rw [e]; simp only [Res.andThen]
      exact (hf a).short _ (by rw [List.length_drop]; omega)
    · rw [hm.short bs (by omega)]; rfl
instance : Fixed be_u8 1 where
  enough bs h := by match bs, h with | a :: r, _ => exact ⟨_, rfl⟩
  short bs h := by match bs, h with | [], _ => rfl
instance : Fixed be_u16 2 where
  enough bs h := by match bs, h with | a :: b :: r, _ => exact ⟨_, rfl⟩
  short bs h := by match bs, h with | [], _ => rfl | [_], _ => rfl
instance : Fixed be_u32 4 where
  enough bs h := by match bs, h with | a :: b :: c :: d :: r, _ => exact ⟨_, rfl⟩
  short bs h := by match bs, h with | [], _ => rfl | [_], _ => rfl | [_, _], _ => rfl | [_, _, _], _ => rfl
instance : Fixed be_u64 8 where
  enough bs h := by match bs, h with | a :: b :: c :: d :: e :: f :: g :: i :: r, _ => exact ⟨_, rfl⟩
  short bs h := by
    match bs, h with
    | [], _ => rfl | [_], _ => rfl | [_, _], _ => rfl | [_, _, _], _ => rfl | [_, _, _, _], _ => rfl | [_, _, _, _, _], _ => rfl
    | [_, _, _, _, _, _], _ => rfl | [_, _, _, _, _, _, _], _ => rfl
instance (n : Nat) : Fixed (P.take n : BP Bytes) n where
  enough bs h := ⟨bs.take n, by simp [P.take, h]⟩
  short bs h := by simp [P.take, Nat.not_le.2 h]

/-- after a reader of fixed size -/
theorem Fixed.panic_iff {α β : Type} {m : BP α} {k : Nat} (hm : Fixed m k) (f : α → BP β) (bs : Bytes) :
    (m >>= f).run bs = .panic ↔ k ≤ bs.length ∧ ∃ a, m.run bs = .ok a (bs.drop k) ∧ (f a).run (bs.drop k) = .panic := by
  rw [P.run_bind]
  by_cases hk : k ≤ bs.length
  · obtain ⟨a, e⟩ := hm.enough bs hk
    rw [e]
    simp only [Res.andThen, hk, true_and, Res.ok.injEq, and_true]
    constructor
    · intro h; exact ⟨a, rfl, h⟩
    · rintro ⟨_, rfl, h⟩; exact h
  · rw [hm.short bs (by omega)]
    simp [Res.andThen, hk]

theorem Fixed.to_panic {α β : Type} {m : BP α} {k : Nat} (hm : Fixed m k) {f : α → BP β} {bs : Bytes} {i : Nat} (hk : i + k ≤ bs.length)
    (h : ∀ a, m.run (bs.drop i) = .ok a (bs.drop (i + k)) → (f a).run (bs.drop (i + k)) = .panic) : (m >>= f).run (bs.drop i) = .panic := by
  obtain ⟨a, e⟩ := hm.enough (bs.drop i) (by rw [List.length_drop]; omega)
  rw [List.drop_drop] at e
  rw [P.run_bind, e]
  exact h a e

instance : Fixed EntityId.parse 6 := by
  unfold EntityId.parse SimulationAddress.parse
  exact (Fixed.bind (k := 4) (n := 2) (Fixed.bind (k := 2) (n := 2) inferInstance fun _ => Fixed.bind (k := 2) (n := 0) inferInstance fun _ => inferInstance)
    fun _ => Fixed.bind (k := 2) (n := 0) inferInstance fun _ => inferInstance)
instance : Fixed VectorF32.parse 12 := by
  unfold VectorF32.parse
  exact Fixed.bind (k := 4) (n := 8) inferInstance fun _ => Fixed.bind (k := 4) (n := 4) inferInstance fun _ =>
    Fixed.bind (k := 4) (n := 0) inferInstance fun _ => inferInstance
instance : Fixed Orientation.parse 12 := by
  unfold Orientation.parse
  exact Fixed.bind (k := 4) (n := 8) inferInstance fun _ => Fixed.bind (k := 4) (n := 4) inferInstance fun _ =>
    Fixed.bind (k := 4) (n := 0) inferInstance fun _ => inferInstance
instance : Fixed Location.parse 24 := by
  unfold Location.parse
  exact Fixed.bind (k := 8) (n := 16) inferInstance fun _ => Fixed.bind (k := 8) (n := 8) inferInstance fun _ =>
    Fixed.bind (k := 8) (n := 0) inferInstance fun _ => inferInstance
instance : Fixed EntityType.parse 8 := by
  unfold EntityType.parse
  exact Fixed.bind (k := 1) (n := 7) inferInstance fun _ => Fixed.bind (k := 1) (n := 6) inferInstance fun _ =>
    Fixed.bind (k := 2) (n := 4) inferInstance fun _ => Fixed.bind (k := 1) (n := 3) inferInstance fun _ =>
    Fixed.bind (k := 1) (n := 2) inferInstance fun _ => Fixed.bind (k := 1) (n := 1) inferInstance fun _ =>
    Fixed.bind (k := 1) (n := 0) inferInstance fun _ => inferInstance
instance (R : List RField) : Fixed (unpack16 R) 2 := by
  unfold unpack16
  exact Fixed.bind (k := 2) (n := 0) inferInstance fun _ => inferInstance
instance : Fixed ModulationType.parse 8 := by
  unfold ModulationType.parse
  exact Fixed.bind (k := 2) (n := 6) inferInstance fun _ => Fixed.bind (k := 2) (n := 4) inferInstance fun _ =>
    Fixed.bind (k := 2) (n := 2) inferInstance fun _ => Fixed.bind (k := 2) (n := 0) inferInstance fun _ => inferInstance
instance : Fixed BeamAntennaPattern.parse 40 := by
  unfold BeamAntennaPattern.parse
  exact Fixed.bind (k := 12) (n := 28) inferInstance fun _ => Fixed.bind (k := 4) (n := 24) inferInstance fun _ =>
    Fixed.bind (k := 4) (n := 20) inferInstance fun _ => Fixed.bind (k := 1) (n := 19) inferInstance fun _ =>
    Fixed.bind (k := 1) (n := 18) inferInstance fun _ => Fixed.bind (k := 2) (n := 16) inferInstance fun _ =>
    Fixed.bind (k := 4) (n := 12) inferInstance fun _ => Fixed.bind (k := 4) (n := 8) inferInstance fun _ =>
    Fixed.bind (k := 4) (n := 4) inferInstance fun _ => Fixed.bind (k := 4) (n := 0) inferInstance fun _ => inferInstance
theorem fixed_optionally {α : Type} {p : BP α} {n : Nat} (hp : Fixed p n) (c : Prop) [Decidable c] :
    Fixed (optionally c p) (if c then n else 0) := by
  by_cases hc : c
  · have := Fixed.bind (m := p) (f := fun a => (pure (some a) : BP (Option α))) (k := n) (n := 0) hp fun _ => inferInstance
    simpa [optionally, hc] using this
  · simp only [optionally, hc, if_false]; exact inferInstance

theorem u16_at {bs : Bytes} {a : UInt16} {i : Nat} (h : be_u16.run (bs.drop i) = .ok a (bs.drop (i + 2))) :
    a.toNat = num16 bs i := by
  obtain ⟨x, y, e, v⟩ := be_u16_ok h
  have e0 : bs[i]? = some x := by have := congrArg (·[0]?) e; simpa using this
  have e1 : bs[i + 1]? = some y := by have := congrArg (·[1]?) e; simpa using this
  rw [v, num16, List.getD_eq_getElem?_getD, List.getD_eq_getElem?_getD, e0, e1]; rfl
theorem u8_at {bs : Bytes} {a : UInt8} {i : Nat} (h : be_u8.run (bs.drop i) = .ok a (bs.drop (i + 1))) (hl : i + 1 ≤ bs.length) :
    a = bs.getD i 0 := by
  have hd : bs.drop i = bs[i] :: bs.drop (i + 1) := List.drop_eq_getElem_cons (by omega)
  rw [hd] at h
  simp only [be_u8, Res.ok.injEq, and_true] at h
  rw [← h, List.getD_eq_getElem?_getD, List.getElem?_eq_getElem (by omega)]; rfl

theorem vtp_run {t : Bytes} {x y : UInt8} (ht : t.length = 4) (r : Bytes) :
    (VariableTransmitterParameter.parse true).run (t ++ x :: y :: r) =
      if x.toNat * 256 + y.toNat < 6 then .panic
      else ((P.take (x.toNat * 256 + y.toNat - 6) : BP Bytes) >>= fun f => pure ⟨UInt32.ofNat ((t.getD 0 0).toNat * 16777216 + (t.getD 1 0).toNat * 65536 + (t.getD 2 0).toNat * 256 + (t.getD 3 0).toNat), f⟩).run r := by
  match t, ht with
  | [a, b, c, d], _ =>
    have h1 := x.toNat_lt
    have h2 := y.toNat_lt
    have hn : (UInt16.ofNat (x.toNat * 256 + y.toNat)).toNat = x.toNat * 256 + y.toNat := toNat_u16_ofNat (by omega)
    simp only [VariableTransmitterParameter.parse, P.run_bind, be_u32, be_u16, List.cons_append, List.nil_append, Res.andThen, hn, and_true]
    by_cases hl : x.toNat * 256 + y.toNat < 6
    · simp only [hl, if_true]; rfl
    · simp only [hl, if_false]
      rw [show (x.toNat * 256 + y.toNat + 65536 - 6) % 65536 = x.toNat * 256 + y.toNat - 6 by omega]
      rfl
theorem six_octets {l : Bytes} (h : 6 ≤ l.length) : ∃ a b c d x y r, l = a :: b :: c :: d :: x :: y :: r := by
  match l, h with
  | a :: b :: c :: d :: x :: y :: r, _ => exact ⟨a, b, c, d, x, y, r, rfl⟩
theorem vtp_panic {bs : Bytes} : (VariableTransmitterParameter.parse true).run bs = .panic ↔
    ∃ bad rest, bs = bad ++ rest ∧ bad.length = 6 ∧ num16 bad 4 < 6 := by
  constructor
  · intro h
    have h' := h
    unfold VariableTransmitterParameter.parse at h
    obtain ⟨h4, a, h1, h⟩ := (Fixed.panic_iff inferInstance _ _).1 h
    obtain ⟨h6, b, h2, h⟩ := (Fixed.panic_iff inferInstance _ _).1 h
    rw [List.length_drop] at h6
    have v := u16_at (bs := bs) (i := 4) (by rw [h2, List.drop_drop])
    refine ⟨bs.take 6, bs.drop 6, (List.take_append_drop 6 bs).symm, by rw [List.length_take]; omega, ?_⟩
    have e : num16 (bs.take 6) 4 = num16 bs 4 := by
      unfold num16
      simp [List.getD_eq_getElem?_getD]
    rw [e, ← v]
    by_cases hb : b.toNat < 6
    · exact hb
    · rw [if_neg (by simp [hb])] at h
      obtain ⟨_, _, _, h⟩ := bind_panic h
      cases h
  · rintro ⟨bad, rest, rfl, hl, hn⟩
    obtain ⟨a, b, c, d, x, y, r, rfl⟩ := six_octets (l := bad) (by omega)
    obtain rfl : r = [] := by simpa using hl
    have := vtp_run (t := [a, b, c, d]) (x := x) (y := y) rfl rest
    rw [if_pos (show x.toNat * 256 + y.toNat < 6 from hn)] at this
    exact this
theorem vtp_ok {bs r : Bytes} {a : VariableTransmitterParameter} (h : (VariableTransmitterParameter.parse true).run bs = .ok a r) :
    ∃ rec, bs = rec ++ r ∧ ParameterRecord rec := by
  have h' := h
  unfold VariableTransmitterParameter.parse at h
  obtain ⟨t, m1, h1, h⟩ := bind_ok h
  obtain ⟨n, m2, h2, h⟩ := bind_ok h
  by_cases hn : n.toNat < 6
  · rw [if_pos ⟨hn, rfl⟩] at h; cases h
  rw [if_neg (by simp [hn])] at h
  obtain ⟨f, m3, h3, h⟩ := bind_ok h
  simp only [P.run_pure, Res.ok.injEq] at h
  obtain ⟨-, rfl⟩ := h
  obtain ⟨c1, e1, -⟩ := Stable.spec _ _ _ h1
  have l1 := Exact.spec _ _ _ h1
  obtain ⟨x, y, e2, v2⟩ := be_u16_ok h2
  obtain ⟨e3, l3⟩ := take_ok h3
  have hx := x.toNat_lt
  have hy := y.toNat_lt
  have hc : c1.length = 4 := by rw [e1, List.length_append] at l1; omega
  match c1, hc with
  | [p, q, s, u], _ =>
    refine ⟨[p, q, s, u, x, y] ++ f, by rw [e1, e2, e3]; simp, ?_, ?_⟩
    · simp
    · simp only [List.length_append, List.length_cons, List.length_nil, l3]
      show x.toNat * 256 + y.toNat = _
      omega
theorem vtp_read {rec r : Bytes} (h : ParameterRecord rec) : ∃ a, (VariableTransmitterParameter.parse true).run (rec ++ r) = .ok a r := by
  obtain ⟨h1, h2⟩ := h
  obtain ⟨p, q, s, u, x, y, f, rfl⟩ := six_octets h1
  replace h2 : x.toNat * 256 + y.toNat = f.length + 6 := h2
  have := vtp_run (t := [p, q, s, u]) (x := x) (y := y) rfl (f ++ r)
  rw [if_neg (by omega), P.run_bind, P.run_take _ _ _ (by omega)] at this
  exact ⟨_, this⟩
theorem count_panic_iff {α : Type} {p : BP α} {G B : Bytes → Prop} (hok : ∀ bs a r, p.run bs = .ok a r → ∃ g, bs = g ++ r ∧ G g)
    (hrd : ∀ g r, G g → ∃ a, p.run (g ++ r) = .ok a r) (hp : ∀ bs, p.run bs = .panic ↔ ∃ bad rest, bs = bad ++ rest ∧ B bad)
    (n : Nat) (bs : Bytes) : (P.count p n).run bs = .panic ↔
    ∃ (good : List Bytes) (bad rest : Bytes), bs = good.flatten ++ bad ++ rest ∧ good.length < n ∧ (∀ r ∈ good, G r) ∧ B bad := by
  induction n generalizing bs with
  | zero => simp [P.count]
  | succ n ih =>
    unfold P.count
    rw [P.run_bind]
    constructor
    · intro h
      cases hr : p.run bs with
      | err => rw [hr] at h; cases h
      | panic =>
        obtain ⟨bad, rest, e, l⟩ := (hp _).1 hr
        exact ⟨[], bad, rest, by simpa using e, by simp, by simp, l⟩
      | ok a mid =>
        rw [hr] at h
        simp only [Res.andThen] at h
        rw [P.run_bind] at h
        have hp : (P.count p n).run mid = .panic := by
          cases hc : (P.count p n).run mid with
          | panic => rfl
          | err => rw [hc] at h; cases h
          | ok _ _ => rw [hc] at h; cases h
        obtain ⟨good, bad, rest, e, l, g, l'⟩ := (ih mid).1 hp
        obtain ⟨rec, e', hr⟩ := hok _ _ _ hr
        refine ⟨rec :: good, bad, rest, by rw [e', e]; simp, by simpa using l, ?_, l'⟩
        intro r hm
        rcases List.mem_cons.1 hm with rfl | hm
        · exact hr
        · exact g r hm
    · rintro ⟨good, bad, rest, rfl, l, g, l'⟩
      cases good with
      | nil => rw [(hp _).2 ⟨bad, rest, by simp, l'⟩]; rfl
      | cons rec good =>
        obtain ⟨a, e⟩ := hrd rec (good.flatten ++ bad ++ rest) (g rec (by simp))
        rw [show (rec :: good).flatten ++ bad ++ rest = rec ++ (good.flatten ++ bad ++ rest) by simp, e]
        simp only [Res.andThen]
        rw [P.run_bind, (ih _).2 ⟨good, bad, rest, rfl, by simpa using l, fun r hr => g r (by simp [hr]), l'⟩]
        rfl
theorem vtps_panic (n : Nat) (bs : Bytes) : (P.count (VariableTransmitterParameter.parse true) n).run bs = .panic ↔
    ∃ (good : List Bytes) (bad rest : Bytes), bs = good.flatten ++ bad ++ rest ∧ good.length < n ∧ (∀ r ∈ good, ParameterRecord r)
      ∧ bad.length = 6 ∧ num16 bad 4 < 6 :=
  count_panic_iff (B := fun bad => bad.length = 6 ∧ num16 bad 4 < 6) (fun _ _ _ => vtp_ok) (fun _ _ => vtp_read) (fun _ => vtp_panic) n bs

/-- a Transmitter body panics in a checked build exactly on a variable parameter record that is too short for its header -/
theorem transmitter_panic {ver : UInt8} {bs : Bytes} : (Transmitter.parse true ver).run bs = .panic ↔
    92 ≤ bs.length ∧ ver = 7 ∧ ∃ (good : List Bytes) (bad rest : Bytes),
      bs.drop (92 + (bs.getD 88 0).toNat + if num16 bs 58 = 0 then 0 else 40) = good.flatten ++ bad ++ rest
      ∧ good.length < num16 bs 18 ∧ (∀ r ∈ good, ParameterRecord r) ∧ bad.length = 6 ∧ num16 bad 4 < 6 := by
  constructor
  · intro h
    unfold Transmitter.parse at h
    obtain ⟨l1, x1, h1, h⟩ := (Fixed.panic_iff inferInstance _ _).1 h
    obtain ⟨l2, x2, h2, h⟩ := (Fixed.panic_iff inferInstance _ _).1 h
    obtain ⟨l3, x3, h3, h⟩ := (Fixed.panic_iff inferInstance _ _).1 h
    obtain ⟨l4, x4, h4, h⟩ := (Fixed.panic_iff inferInstance _ _).1 h
    obtain ⟨l5, x5, h5, h⟩ := (Fixed.panic_iff inferInstance _ _).1 h
    obtain ⟨l6, n, hn, h⟩ := (Fixed.panic_iff inferInstance _ _).1 h
    obtain ⟨l7, x7, h7, h⟩ := (Fixed.panic_iff inferInstance _ _).1 h
    obtain ⟨l8, x8, h8, h⟩ := (Fixed.panic_iff inferInstance _ _).1 h
    obtain ⟨l9, x9, h9, h⟩ := (Fixed.panic_iff inferInstance _ _).1 h
    obtain ⟨l10, apl, hapl, h⟩ := (Fixed.panic_iff inferInstance _ _).1 h
    obtain ⟨l11, x11, h11, h⟩ := (Fixed.panic_iff inferInstance _ _).1 h
    obtain ⟨l12, x12, h12, h⟩ := (Fixed.panic_iff inferInstance _ _).1 h
    obtain ⟨l13, x13, h13, h⟩ := (Fixed.panic_iff inferInstance _ _).1 h
    obtain ⟨l14, x14, h14, h⟩ := (Fixed.panic_iff inferInstance _ _).1 h
    obtain ⟨l15, x15, h15, h⟩ := (Fixed.panic_iff inferInstance _ _).1 h
    obtain ⟨l16, x16, h16, h⟩ := (Fixed.panic_iff inferInstance _ _).1 h
    obtain ⟨l17, len, hlen, h⟩ := (Fixed.panic_iff inferInstance _ _).1 h
    obtain ⟨l18, x18, h18, h⟩ := (Fixed.panic_iff inferInstance _ _).1 h
    obtain ⟨l19, x19, h19, h⟩ := (Fixed.panic_iff inferInstance _ _).1 h
    obtain ⟨l20, x20, h20, h⟩ := (Fixed.panic_iff (fixed_optionally inferInstance _) _ _).1 h
    obtain ⟨l21, x21, h21, h⟩ := (Fixed.panic_iff (fixed_optionally inferInstance _) _ _).1 h
    simp only [List.drop_drop, Nat.reduceAdd, List.length_drop] at *
    have en := u16_at hn
    have ea := u16_at hapl
    have el := u8_at hlen (by omega)
    rw [← en, ← el, ← ea]
    have hp : (P.count (VariableTransmitterParameter.parse true) (if ver = 7 then n.toNat else 0)).run
        (bs.drop (92 + (if 0 < len.toNat then len.toNat else 0) + if 0 < apl.toNat then 40 else 0)) = .panic := by
      rw [P.run_bind] at h
      cases hc : (P.count (VariableTransmitterParameter.parse true) (if ver = 7 then n.toNat else 0)).run
        (bs.drop (92 + (if 0 < len.toNat then len.toNat else 0) + if 0 < apl.toNat then 40 else 0)) with
      | panic => rfl
      | err => rw [hc] at h; cases h
      | ok _ _ => rw [hc] at h; cases h
    obtain ⟨good, bad, rest, e, hg, hr, hb, hs⟩ := (vtps_panic _ _).1 hp
    by_cases hv : ver = 7
    · rw [if_pos hv] at hg
      refine ⟨by omega, hv, good, bad, rest, ?_, hg, hr, hb, hs⟩
      rw [← e]
      congr 1
      split <;> split <;> split <;> omega
    · rw [if_neg hv] at hg; omega
  · rintro ⟨hl, hv, good, bad, rest, e, hg, hr, hb, hs⟩
    have hlen : (92 + (bs.getD 88 0).toNat + if num16 bs 58 = 0 then 0 else 40) ≤ bs.length := by
      have := congrArg List.length e
      simp only [List.length_drop, List.length_append] at this
      omega
    unfold Transmitter.parse
    rw [show bs = bs.drop 0 from rfl]
    refine Fixed.to_panic (i := 0) (k := 6) inferInstance (by omega) fun _ _ => ?_
    refine Fixed.to_panic (i := 6) (k := 2) inferInstance (by omega) fun _ _ => ?_
    refine Fixed.to_panic (i := 8) (k := 8) inferInstance (by omega) fun _ _ => ?_
    refine Fixed.to_panic (i := 16) (k := 1) inferInstance (by omega) fun _ _ => ?_
    refine Fixed.to_panic (i := 17) (k := 1) inferInstance (by omega) fun _ _ => ?_
    refine Fixed.to_panic (i := 18) (k := 2) inferInstance (by omega) fun n hn => ?_
    refine Fixed.to_panic (i := 20) (k := 24) inferInstance (by omega) fun _ _ => ?_
    refine Fixed.to_panic (i := 44) (k := 12) inferInstance (by omega) fun _ _ => ?_
    refine Fixed.to_panic (i := 56) (k := 2) inferInstance (by omega) fun _ _ => ?_
    refine Fixed.to_panic (i := 58) (k := 2) inferInstance (by omega) fun apl hapl => ?_
    refine Fixed.to_panic (i := 60) (k := 8) inferInstance (by omega) fun _ _ => ?_
    refine Fixed.to_panic (i := 68) (k := 4) inferInstance (by omega) fun _ _ => ?_
    refine Fixed.to_panic (i := 72) (k := 4) inferInstance (by omega) fun _ _ => ?_
    refine Fixed.to_panic (i := 76) (k := 8) inferInstance (by omega) fun _ _ => ?_
    refine Fixed.to_panic (i := 84) (k := 2) inferInstance (by omega) fun _ _ => ?_
    refine Fixed.to_panic (i := 86) (k := 2) inferInstance (by omega) fun _ _ => ?_
    refine Fixed.to_panic (i := 88) (k := 1) inferInstance (by omega) fun len hlenn => ?_
    refine Fixed.to_panic (i := 89) (k := 1) inferInstance (by omega) fun _ _ => ?_
    refine Fixed.to_panic (i := 90) (k := 2) inferInstance (by omega) fun _ _ => ?_
    simp only [Nat.reduceAdd] at *
    have en := u16_at hn
    have ea := u16_at hapl
    have el := u8_at hlenn (by omega)
    rw [← el, ← ea] at hlen e
    rw [← en] at hg
    have k1 : (if 0 < len.toNat then len.toNat else 0) = len.toNat := by split <;> omega
    have k2 : (if 0 < apl.toNat then 40 else 0) = if apl.toNat = 0 then 0 else 40 := by split <;> split <;> omega
    refine Fixed.to_panic (i := 92) (k := if 0 < len.toNat then len.toNat else 0) (fixed_optionally inferInstance _) (by omega) fun _ _ => ?_
    refine Fixed.to_panic (k := if 0 < apl.toNat then 40 else 0) (fixed_optionally inferInstance _) (by omega) fun _ _ => ?_
    rw [k1, k2, P.run_bind, hv, if_pos rfl, (vtps_panic _ _).2 ⟨good, bad, rest, e, hg, hr, hb, hs⟩]
    rfl

/-! ### record sets -/

theorem fixed_count {α : Type} {p : BP α} {k : Nat} (hp : Fixed p k) (n : Nat) : Fixed (P.count p n) (k * n) := by
  induction n with
  | zero => unfold P.count; exact inferInstance
  | succ n ih =>
    unfold P.count
    have := Fixed.bind hp fun a => Fixed.bind ih fun as => (inferInstance : Fixed (pure (a :: as) : BP (List α)) 0)
    rwa [show k + (k * n + 0) = k * (n + 1) by rw [Nat.mul_succ]; omega] at this
theorem bind_last_panic {α β : Type} {m : BP α} {f : α → β} {bs : Bytes} : (m >>= fun a => (pure (f a) : BP β)).run bs = .panic ↔ m.run bs = .panic := by
  rw [P.run_bind]
  cases m.run bs <;> simp [Res.andThen]
theorem num16_append {a b : Bytes} {i : Nat} (h : i + 2 ≤ a.length) : num16 (a ++ b) i = num16 a i := by
  unfold num16
  rw [List.getD_eq_getElem?_getD, List.getD_eq_getElem?_getD, List.getD_eq_getElem?_getD, List.getD_eq_getElem?_getD,
    List.getElem?_append_left (by omega), List.getElem?_append_left (by omega)]
theorem recordOctets_append {a b : Bytes} (h : 16 ≤ a.length) : recordOctets (a ++ b) = recordOctets a := by
  unfold recordOctets
  rw [num16_append (by omega), num16_append (by omega)]
theorem recordOctets_take {bs : Bytes} {n : Nat} (h : 16 ≤ bs.length) (hn : 16 ≤ n) : recordOctets (bs.take n) = recordOctets bs := by
  have := recordOctets_append (a := bs.take n) (b := bs.drop n) (by rw [List.length_take]; omega)
  rw [List.take_append_drop] at this
  exact this.symm
/-- a reader of fixed size in front of another: too few octets, or the rest -/
theorem Fixed.next {α : Type} {m : BP α} {k : Nat} (hm : Fixed m k) {bs : Bytes} {i : Nat} (hk : i + k ≤ bs.length) :
    ∃ a, m.run (bs.drop i) = .ok a (bs.drop (i + k)) ∧ ∀ {β : Type} (f : α → BP β), (m >>= f).run (bs.drop i) = (f a).run (bs.drop (i + k)) := by
  obtain ⟨a, e⟩ := hm.enough (bs.drop i) (by rw [List.length_drop]; omega)
  rw [List.drop_drop] at e
  exact ⟨a, e, fun f => by rw [P.run_bind, e]; rfl⟩
theorem Fixed.stop {α β : Type} {m : BP α} {k : Nat} (hm : Fixed m k) {bs : Bytes} {i : Nat} (hk : bs.length < i + k) (hi : i ≤ bs.length) (f : α → BP β) :
    (m >>= f).run (bs.drop i) = .err := by
  rw [P.run_bind, hm.short _ (by rw [List.length_drop]; omega)]
  rfl

/-- what the reader of record sets does with enough octets -/
theorem recordSet_run {bs : Bytes} (h : 16 ≤ bs.length) : ∃ x : RecordSet, (RecordSet.parse true).run bs =
    if bs.length < 16 + recordOctets bs then .err else if 65536 ≤ recordOctets bs then .panic
    else if bs.length < 16 + (recordOctets bs + 7) / 8 * 8 then .err
    else .ok x (bs.drop (16 + (recordOctets bs + 7) / 8 * 8)) := by
  unfold RecordSet.parse
  rw [show bs = bs.drop 0 from rfl]
  obtain ⟨x1, -, e1⟩ := Fixed.next (m := be_u32) (k := 4) inferInstance (bs := bs) (i := 0) (by omega)
  obtain ⟨x2, -, e2⟩ := Fixed.next (m := be_u32) (k := 4) inferInstance (bs := bs) (i := 4) (by omega)
  obtain ⟨x3, -, e3⟩ := Fixed.next (m := be_u32) (k := 4) inferInstance (bs := bs) (i := 8) (by omega)
  obtain ⟨bits, hb, e4⟩ := Fixed.next (m := be_u16) (k := 2) inferInstance (bs := bs) (i := 12) (by omega)
  obtain ⟨n, hn, e5⟩ := Fixed.next (m := be_u16) (k := 2) inferInstance (bs := bs) (i := 14) (by omega)
  have e : recordOctets bs = ceilBitsToBytes bits * n.toNat := by
    unfold recordOctets ceilBitsToBytes
    rw [← u16_at hb, ← u16_at hn]
  rw [e1]; simp only [Nat.zero_add]
  rw [e2]; simp only [Nat.reduceAdd]
  rw [e3]; simp only [Nat.reduceAdd]
  rw [e4]; simp only [Nat.reduceAdd]
  rw [e5]; simp only [Nat.reduceAdd, List.drop_zero]
  rw [← e]
  have hf : Fixed (P.count (P.take (ceilBitsToBytes bits)) n.toNat : BP (List Bytes)) (recordOctets bs) := e ▸ fixed_count inferInstance _
  by_cases hl : bs.length < 16 + recordOctets bs
  · refine ⟨⟨0, 0, 0, []⟩, ?_⟩
    rw [hf.stop hl (by omega), if_pos hl]
  obtain ⟨rs, -, e6⟩ := hf.next (bs := bs) (i := 16) (by omega)
  rw [e6]
  by_cases hp : 65536 ≤ recordOctets bs
  · refine ⟨⟨0, 0, 0, []⟩, ?_⟩
    rw [if_pos (by simpa using hp), if_neg hl, if_pos hp]
    rfl
  rw [if_neg (by simpa using hp)]
  have hpad : recordOctets bs + (lengthPaddedToNum (recordOctets bs % 65536) 8).padding_length = (recordOctets bs + 7) / 8 * 8 := by
    unfold lengthPaddedToNum
    dsimp only
    split <;> omega
  by_cases hl2 : bs.length < 16 + (recordOctets bs + 7) / 8 * 8
  · refine ⟨⟨0, 0, 0, []⟩, ?_⟩
    rw [Fixed.stop (k := (lengthPaddedToNum (recordOctets bs % 65536) 8).padding_length) inferInstance (by omega) (by omega),
      if_neg hl, if_neg hp, if_pos hl2]
  obtain ⟨p, -, e7⟩ := Fixed.next (m := (P.take (lengthPaddedToNum (recordOctets bs % 65536) 8).padding_length : BP Bytes))
    (k := (lengthPaddedToNum (recordOctets bs % 65536) 8).padding_length) inferInstance (bs := bs) (i := 16 + recordOctets bs) (by omega)
  refine ⟨?_, ?_⟩
  · exact ⟨x1, x2, recordLengthOf rs, rs⟩
  rw [e7, if_neg hl, if_neg hp, if_neg hl2, Nat.add_assoc, hpad]
  rfl
theorem recordSet_short {bs : Bytes} (h : bs.length < 16) : (RecordSet.parse true).run bs = .err := by
  unfold RecordSet.parse
  have := (Fixed.bind (k := 4) (n := 12) (f := fun _ => (be_u32 >>= fun _ => be_u32 >>= fun _ => be_u16 >>= fun _ => be_u16 : BP UInt16)) (inferInstance : Fixed be_u32 4)
    fun _ => Fixed.bind (k := 4) (n := 8) inferInstance fun _ =>
    Fixed.bind (k := 4) (n := 4) inferInstance fun _ => Fixed.bind (k := 2) (n := 2) inferInstance fun _ => inferInstance).short bs (by omega)
  simp only [P.run_bind, Res.andThen] at this ⊢
  cases h1 : be_u32.run bs with
  | err => rfl
  | panic => rw [h1] at this; cases this
  | ok a1 b1 =>
  rw [h1] at this
  simp only at this ⊢
  cases h2 : be_u32.run b1 with
  | err => rfl
  | panic => rw [h2] at this; cases this
  | ok a2 b2 =>
  rw [h2] at this
  simp only at this ⊢
  cases h3 : be_u32.run b2 with
  | err => rfl
  | panic => rw [h3] at this; cases this
  | ok a3 b3 =>
  rw [h3] at this
  simp only at this ⊢
  cases h4 : be_u16.run b3 with
  | err => rfl
  | panic => rw [h4] at this; cases this
  | ok a4 b4 =>
  rw [h4] at this
  simp only at this ⊢
  rw [this]
theorem recordSet_panic {bs : Bytes} : (RecordSet.parse true).run bs = .panic ↔ ∃ bad rest, bs = bad ++ rest ∧ LargeSet bad := by
  constructor
  · intro h
    by_cases hl : bs.length < 16
    · rw [recordSet_short hl] at h; cases h
    obtain ⟨x, e⟩ := recordSet_run (bs := bs) (by omega)
    rw [e] at h
    by_cases h1 : bs.length < 16 + recordOctets bs
    · rw [if_pos h1] at h; cases h
    rw [if_neg h1] at h
    by_cases h2 : 65536 ≤ recordOctets bs
    · have ht : recordOctets (bs.take (16 + recordOctets bs)) = recordOctets bs := recordOctets_take (by omega) (by omega)
      refine ⟨bs.take (16 + recordOctets bs), bs.drop (16 + recordOctets bs), (List.take_append_drop _ _).symm, ?_, ?_, ?_⟩
      · rw [List.length_take]; omega
      · rw [ht]; exact h2
      · rw [ht, List.length_take]; omega
    · rw [if_neg h2] at h
      split at h <;> cases h
  · rintro ⟨bad, rest, rfl, h1, h2, h3⟩
    obtain ⟨x, e⟩ := recordSet_run (bs := bad ++ rest) (by rw [List.length_append]; omega)
    rw [e, recordOctets_append h1, if_neg (by rw [List.length_append]; omega), if_pos h2]
theorem recordSet_ok {bs r : Bytes} {a : RecordSet} (h : (RecordSet.parse true).run bs = .ok a r) : ∃ g, bs = g ++ r ∧ CompleteSet g := by
  by_cases hl : bs.length < 16
  · rw [recordSet_short hl] at h; cases h
  obtain ⟨x, e⟩ := recordSet_run (bs := bs) (by omega)
  rw [e] at h
  by_cases h1 : bs.length < 16 + recordOctets bs
  · rw [if_pos h1] at h; cases h
  rw [if_neg h1] at h
  by_cases h2 : 65536 ≤ recordOctets bs
  · rw [if_pos h2] at h; cases h
  rw [if_neg h2] at h
  by_cases h3 : bs.length < 16 + (recordOctets bs + 7) / 8 * 8
  · rw [if_pos h3] at h; cases h
  rw [if_neg h3] at h
  simp only [Res.ok.injEq] at h
  have ht : recordOctets (bs.take (16 + (recordOctets bs + 7) / 8 * 8)) = recordOctets bs := recordOctets_take (by omega) (by omega)
  refine ⟨bs.take (16 + (recordOctets bs + 7) / 8 * 8), by rw [← h.2]; exact (List.take_append_drop _ _).symm, ?_, ?_, ?_⟩
  · rw [List.length_take]; omega
  · rw [ht]; omega
  · rw [ht, List.length_take]; omega
theorem recordSet_read {g r : Bytes} (h : CompleteSet g) : ∃ a, (RecordSet.parse true).run (g ++ r) = .ok a r := by
  obtain ⟨h1, h2, h3⟩ := h
  obtain ⟨x, e⟩ := recordSet_run (bs := g ++ r) (by rw [List.length_append]; omega)
  refine ⟨x, ?_⟩
  rw [e, recordOctets_append h1, if_neg (by rw [List.length_append]; omega), if_neg (by omega), if_neg (by rw [List.length_append]; omega)]
  rw [← h3, List.drop_left]
theorem recordSets_panic {bs : Bytes} : (RecordSpecification.parse true).run bs = .panic ↔
    ∃ (good : List Bytes) (bad rest : Bytes), bs.drop 4 = good.flatten ++ bad ++ rest ∧ good.length < num32 bs 0
      ∧ (∀ r ∈ good, CompleteSet r) ∧ LargeSet bad := by
  unfold RecordSpecification.parse
  have key : ∀ n bs, (P.count (RecordSet.parse true) n).run bs = .panic ↔ _ :=
    count_panic_iff (fun _ _ _ => recordSet_ok) (fun _ _ => recordSet_read) (fun _ => recordSet_panic)
  have hv : ∀ {a : UInt32} {r : Bytes}, be_u32.run bs = .ok a r → a.toNat = num32 bs 0 := by
    intro a r h
    match bs, h with
    | x :: y :: z :: w :: t, h =>
      simp only [be_u32, Res.ok.injEq] at h
      rw [← h.1]
      have := x.toNat_lt; have := y.toNat_lt; have := z.toNat_lt; have := w.toNat_lt
      show _ = (x.toNat * 256 + y.toNat) * 65536 + (z.toNat * 256 + w.toNat)
      rw [UInt32.toNat_ofNat_of_lt' (by show _ < 2 ^ 32; omega)]
      omega
  constructor
  · intro h
    obtain ⟨h4, n, hn, h⟩ := (Fixed.panic_iff inferInstance _ _).1 h
    obtain ⟨good, bad, rest, e, hg, h1, h2⟩ := (key _ _).1 h
    exact ⟨good, bad, rest, e, hv hn ▸ hg, h1, h2⟩
  · rintro ⟨good, bad, rest, e, hg, h1, h2⟩
    have hl : 4 ≤ bs.length := by
      have := congrArg List.length e
      simp only [List.length_drop, List.length_append] at this
      have := h2.1
      omega
    obtain ⟨n, hn⟩ := Fixed.enough (p := be_u32) bs hl
    exact (Fixed.panic_iff inferInstance _ _).2 ⟨hl, n, hn, (key _ _).2 ⟨good, bad, rest, e, hv hn ▸ hg, h1, h2⟩⟩

theorem num16_drop (bs : Bytes) (k i : Nat) : num16 (bs.drop k) i = num16 bs (k + i) := by
  unfold num16
  simp only [List.getD_eq_getElem?_getD, List.getElem?_drop, Nat.add_assoc]
theorem num32_drop (bs : Bytes) (k i : Nat) : num32 (bs.drop k) i = num32 bs (k + i) := by
  unfold num32
  simp only [num16_drop, Nat.add_assoc]

/-- record sets behind fields of a fixed size -/
theorem behind_panic {α β : Type} {m : BP α} {k : Nat} (hm : Fixed m k) (f : α → List RecordSet → β) (bs : Bytes) :
    (m >>= fun a => RecordSpecification.parse true >>= fun rs => (pure (f a rs) : BP β)).run bs = .panic ↔
    ∃ (good : List Bytes) (bad rest : Bytes), bs.drop (k + 4) = good.flatten ++ bad ++ rest ∧ good.length < num32 bs k
      ∧ (∀ r ∈ good, CompleteSet r) ∧ LargeSet bad := by
  rw [hm.panic_iff]
  simp only [bind_last_panic, recordSets_panic, List.drop_drop, num32_drop, Nat.add_zero]
  constructor
  · rintro ⟨-, a, -, h⟩; exact h
  · rintro ⟨good, bad, rest, e, hg, h1, h2⟩
    have hl : k ≤ bs.length := by
      have := congrArg List.length e
      simp only [List.length_drop, List.length_append] at this
      have := h2.1
      omega
    obtain ⟨a, ha⟩ := hm.enough bs hl
    exact ⟨hl, a, ha, good, bad, rest, e, hg, h1, h2⟩
theorem andThen_assoc {α β γ : Type} (x : Res UInt8 α) (f : α → Bytes → Res UInt8 β) (g : β → Bytes → Res UInt8 γ) :
    (x.andThen f).andThen g = x.andThen fun a r => (f a r).andThen g := by
  cases x <;> rfl
theorem andThen_ok {α β : Type} (a : α) (r : Bytes) (f : α → Bytes → Res UInt8 β) : (Res.ok a r : Res UInt8 α).andThen f = f a r := rfl

theorem transferOwnership_panic {bs : Bytes} : (TransferOwnership.parse true).run bs = .panic ↔
    ∃ (good : List Bytes) (bad rest : Bytes), bs.drop (24 + 4) = good.flatten ++ bad ++ rest ∧ good.length < num32 bs 24
      ∧ (∀ r ∈ good, CompleteSet r) ∧ LargeSet bad := by
  have hf : Fixed (do let a ← EntityId.parse; let b ← EntityId.parse; let c ← be_u32; let d ← be_u8; let e ← be_u8; let f ← EntityId.parse
                      pure (a, b, c, d, e, f)) 24 :=
    Fixed.bind (k := 6) (n := 18) inferInstance fun _ => Fixed.bind (k := 6) (n := 12) inferInstance fun _ =>
    Fixed.bind (k := 4) (n := 8) inferInstance fun _ => Fixed.bind (k := 1) (n := 7) inferInstance fun _ =>
    Fixed.bind (k := 1) (n := 6) inferInstance fun _ => Fixed.bind (k := 6) (n := 0) inferInstance fun _ => inferInstance
  rw [← behind_panic hf fun x g => (⟨x.1, x.2.1, x.2.2.1, x.2.2.2.1, x.2.2.2.2.1, x.2.2.2.2.2, g⟩ : TransferOwnership)]
  unfold TransferOwnership.parse
  simp only [P.run_bind, andThen_assoc, andThen_ok, P.run_pure]
theorem recordR_panic {bs : Bytes} : (RecordR.parse true).run bs = .panic ↔
    ∃ (good : List Bytes) (bad rest : Bytes), bs.drop (26 + 4) = good.flatten ++ bad ++ rest ∧ good.length < num32 bs 26
      ∧ (∀ r ∈ good, CompleteSet r) ∧ LargeSet bad := by
  have hf : Fixed (do let a ← EntityId.parse; let b ← EntityId.parse; let c ← be_u32; let d ← be_u8; let _ ← be_u8; let e ← be_u32; let f ← be_u32
                      pure (a, b, c, d, e, f)) 26 :=
    Fixed.bind (k := 6) (n := 20) inferInstance fun _ => Fixed.bind (k := 6) (n := 14) inferInstance fun _ =>
    Fixed.bind (k := 4) (n := 10) inferInstance fun _ => Fixed.bind (k := 1) (n := 9) inferInstance fun _ =>
    Fixed.bind (k := 1) (n := 8) inferInstance fun _ => Fixed.bind (k := 4) (n := 4) inferInstance fun _ =>
    Fixed.bind (k := 4) (n := 0) inferInstance fun _ => inferInstance
  rw [← behind_panic hf fun x g => (⟨x.1, x.2.1, x.2.2.1, x.2.2.2.1, x.2.2.2.2.1, x.2.2.2.2.2, g⟩ : RecordR)]
  unfold RecordR.parse
  simp only [P.run_bind, andThen_assoc, andThen_ok, P.run_pure]
theorem setRecordR_panic {bs : Bytes} : (SetRecordR.parse true).run bs = .panic ↔
    ∃ (good : List Bytes) (bad rest : Bytes), bs.drop (24 + 4) = good.flatten ++ bad ++ rest ∧ good.length < num32 bs 24
      ∧ (∀ r ∈ good, CompleteSet r) ∧ LargeSet bad := by
  have hf : Fixed (do let a ← EntityId.parse; let b ← EntityId.parse; let c ← be_u32; let d ← be_u8; let _ ← be_u8; let _ ← be_u16; let _ ← be_u32
                      pure (a, b, c, d)) 24 :=
    Fixed.bind (k := 6) (n := 18) inferInstance fun _ => Fixed.bind (k := 6) (n := 12) inferInstance fun _ =>
    Fixed.bind (k := 4) (n := 8) inferInstance fun _ => Fixed.bind (k := 1) (n := 7) inferInstance fun _ =>
    Fixed.bind (k := 1) (n := 6) inferInstance fun _ => Fixed.bind (k := 2) (n := 4) inferInstance fun _ =>
    Fixed.bind (k := 4) (n := 0) inferInstance fun _ => inferInstance
  rw [← behind_panic hf fun x g => (⟨x.1, x.2.1, x.2.2.1, x.2.2.2, g⟩ : SetRecordR)]
  unfold SetRecordR.parse
  simp only [P.run_bind, andThen_assoc, andThen_ok, P.run_pure]

instance : Fixed AggregateType.parse 8 := by
  unfold AggregateType.parse
  exact Fixed.bind (k := 1) (n := 7) inferInstance fun _ => Fixed.bind (k := 1) (n := 6) inferInstance fun _ =>
    Fixed.bind (k := 2) (n := 4) inferInstance fun _ => Fixed.bind (k := 1) (n := 3) inferInstance fun _ =>
    Fixed.bind (k := 1) (n := 2) inferInstance fun _ => Fixed.bind (k := 1) (n := 1) inferInstance fun _ =>
    Fixed.bind (k := 1) (n := 0) inferInstance fun _ => inferInstance
instance (env : Env) : Fixed (AggregateMarking.parse env) 32 := by
  unfold AggregateMarking.parse
  exact Fixed.bind (k := 1) (n := 31) inferInstance fun _ => Fixed.bind (k := 31) (n := 0) inferInstance fun _ => inferInstance
theorem Fixed.length_count {α : Type} {p : BP α} {n : Nat} {bs r : Bytes} {l : List α} (h : (P.count p n).run bs = .ok l r) : l.length = n := by
  induction n generalizing bs r l with
  | zero => simp only [P.count, P.run_pure, Res.ok.injEq] at h; rw [← h.1]; rfl
  | succ n ih =>
    unfold P.count at h
    obtain ⟨a, m1, h1, h⟩ := bind_ok h
    obtain ⟨as, m2, h2, h⟩ := bind_ok h
    simp only [P.run_pure, Res.ok.injEq] at h
    rw [← h.1, List.length_cons, ih h2]
theorem aggregate_panic {env : Env} (hc : env.checked = true) {bs : Bytes} : (AggregateState.parse env).run bs = .panic ↔
    10901 < num16 bs 112 + num16 bs 114 ∧ 120 + 6 * (num16 bs 112 + num16 bs 114) ≤ bs.length := by
  constructor
  · intro h
    unfold AggregateState.parse at h
    obtain ⟨l1, x1, h1, h⟩ := (Fixed.panic_iff inferInstance _ _).1 h
    obtain ⟨l2, x2, h2, h⟩ := (Fixed.panic_iff inferInstance _ _).1 h
    obtain ⟨l3, x3, h3, h⟩ := (Fixed.panic_iff inferInstance _ _).1 h
    obtain ⟨l4, x4, h4, h⟩ := (Fixed.panic_iff inferInstance _ _).1 h
    obtain ⟨l5, x5, h5, h⟩ := (Fixed.panic_iff inferInstance _ _).1 h
    obtain ⟨l6, x6, h6, h⟩ := (Fixed.panic_iff inferInstance _ _).1 h
    obtain ⟨l7, x7, h7, h⟩ := (Fixed.panic_iff inferInstance _ _).1 h
    obtain ⟨l8, x8, h8, h⟩ := (Fixed.panic_iff inferInstance _ _).1 h
    obtain ⟨l9, x9, h9, h⟩ := (Fixed.panic_iff inferInstance _ _).1 h
    obtain ⟨l10, x10, h10, h⟩ := (Fixed.panic_iff inferInstance _ _).1 h
    obtain ⟨l11, na, hna, h⟩ := (Fixed.panic_iff inferInstance _ _).1 h
    obtain ⟨l12, ne, hne, h⟩ := (Fixed.panic_iff inferInstance _ _).1 h
    obtain ⟨l13, x13, h13, h⟩ := (Fixed.panic_iff inferInstance _ _).1 h
    obtain ⟨l14, x14, h14, h⟩ := (Fixed.panic_iff inferInstance _ _).1 h
    obtain ⟨l15, ag, hag, h⟩ := (Fixed.panic_iff (fixed_count (inferInstance : Fixed EntityId.parse 6) _) _ _).1 h
    obtain ⟨l16, en, hen, h⟩ := (Fixed.panic_iff (fixed_count (inferInstance : Fixed EntityId.parse 6) _) _ _).1 h
    have e1 := Fixed.length_count hag
    have e2 := Fixed.length_count hen
    simp only [List.drop_drop, Nat.reduceAdd, List.length_drop] at *
    have v1 := u16_at hna
    have v2 := u16_at hne
    rw [← v1, ← v2]
    by_cases hk : 65536 ≤ aggregateIntermediate ag.length en.length
    · unfold aggregateIntermediate at hk
      omega
    · rw [if_neg (by simp [hk])] at h
      have s : ∀ (p : BP AggregateState) (b : Bytes), Safe p → p.run b ≠ .panic := fun p b hp => hp.spec _
      exact absurd h (s _ _ (by parser_ok))
  · rintro ⟨h1, h2⟩
    unfold AggregateState.parse
    rw [show bs = bs.drop 0 from rfl]
    refine Fixed.to_panic (i := 0) (k := 6) inferInstance (by omega) fun _ _ => ?_
    refine Fixed.to_panic (i := 6) (k := 1) inferInstance (by omega) fun _ _ => ?_
    refine Fixed.to_panic (i := 7) (k := 1) inferInstance (by omega) fun _ _ => ?_
    refine Fixed.to_panic (i := 8) (k := 8) inferInstance (by omega) fun _ _ => ?_
    refine Fixed.to_panic (i := 16) (k := 4) inferInstance (by omega) fun _ _ => ?_
    refine Fixed.to_panic (i := 20) (k := 32) inferInstance (by omega) fun _ _ => ?_
    refine Fixed.to_panic (i := 52) (k := 12) inferInstance (by omega) fun _ _ => ?_
    refine Fixed.to_panic (i := 64) (k := 12) inferInstance (by omega) fun _ _ => ?_
    refine Fixed.to_panic (i := 76) (k := 24) inferInstance (by omega) fun _ _ => ?_
    refine Fixed.to_panic (i := 100) (k := 12) inferInstance (by omega) fun _ _ => ?_
    refine Fixed.to_panic (i := 112) (k := 2) inferInstance (by omega) fun na hna => ?_
    refine Fixed.to_panic (i := 114) (k := 2) inferInstance (by omega) fun ne hne => ?_
    refine Fixed.to_panic (i := 116) (k := 2) inferInstance (by omega) fun _ _ => ?_
    refine Fixed.to_panic (i := 118) (k := 2) inferInstance (by omega) fun _ _ => ?_
    simp only [Nat.reduceAdd] at *
    have v1 := u16_at hna
    have v2 := u16_at hne
    rw [← v1, ← v2] at h1 h2
    refine Fixed.to_panic (i := 120) (k := 6 * na.toNat) (fixed_count inferInstance _) (by omega) fun ag hag => ?_
    refine Fixed.to_panic (k := 6 * ne.toNat) (fixed_count inferInstance _) (by omega) fun en hen => ?_
    have e1 := Fixed.length_count hag
    have e2 := Fixed.length_count hen
    rw [if_pos ⟨by unfold aggregateIntermediate; omega, hc⟩]
    rfl

/-! ## Theorems -/

theorem header_any {bs : Bytes} (h : 12 ≤ bs.length) :
    ∃ hd, PduHeader.parse.run bs = .ok hd (bs.drop 12) ∧ bs[0]? = some hd.protocol_version ∧ bs[2]? = some hd.pdu_type := by
  match bs, h with
  | b0 :: b1 :: b2 :: b3 :: b4 :: b5 :: b6 :: b7 :: b8 :: b9 :: b10 :: b11 :: r, _ =>
    simp only [PduHeader.parse, be_u8, be_u16, be_u32, P.run_bind, Res.andThen, List.drop_succ_cons, List.drop_zero]
    split
    · simp [P.run_bind, Res.andThen]
    · simp [P.run_bind, Res.andThen]
theorem getD_drop (bs : Bytes) (k i : Nat) : (bs.drop k).getD i 0 = bs.getD (k + i) 0 := by
  simp [List.getD_eq_getElem?_getD]
theorem signal_split {bs : Bytes} : ShortSignal bs ↔ bs[2]? = some 26 ∧ Signal.parse.run (bs.drop 12) = .panic ∧ 12 ≤ bs.length := by
  rw [signal_panic]
  constructor
  · rintro ⟨hd, pre, scheme, lenHi, lenLo, mid, data, rest, rfl, h1, h2, h3⟩
    simp only [List.append_assoc]
    refine ⟨by rw [List.getElem?_append_left (by omega)]; exact h2, ⟨pre, scheme, lenHi, lenLo, mid, data, rest, ?_, h3⟩, ?_⟩
    · rw [← h1, List.drop_left]
    · rw [List.length_append]; omega
  · rintro ⟨h2, ⟨pre, scheme, lenHi, lenLo, mid, data, rest, e, h3⟩, hl⟩
    refine ⟨bs.take 12, pre, scheme, lenHi, lenLo, mid, data, rest, ?_, by rw [List.length_take]; omega, by simpa [List.getElem?_take] using h2, h3⟩
    have := (List.take_append_drop 12 bs).symm
    rw [e] at this
    simpa only [List.append_assoc] using this
/-- In a build with overflow checks the PDU parser panics exactly on these octets. -/
theorem pdu_panic_checked {env : Env} (hc : env.checked = true) (bs : Bytes) : (pdu env).run bs = .panic ↔ Bomb bs := by
  by_cases hl : bs.length < 12
  · have n2 : ∀ {b : Bytes} {i j : Nat}, i ≤ b.length → b.length < j → i < j := fun h1 h2 => Nat.lt_of_le_of_lt h1 h2
    constructor
    · intro h
      obtain ⟨hd, mid, h1, h2⟩ := pdu_panic h
      have := PduHeader.parse_exact.spec _ _ _ h1
      omega
    · rintro (h | h | h | h | h | h)
      · have := (signal_split.1 h).2.2; omega
      · have := h.1; omega
      · have := h.2.2; omega
      all_goals
        obtain ⟨-, good, bad, rest, e, -, -, hb⟩ := h
        have := congrArg List.length e
        simp only [List.length_drop, List.length_append] at this
        have := hb.1
        omega
  · obtain ⟨hd, h1, hv, ht⟩ := header_any (bs := bs) (by omega)
    have hp : (pdu env).run bs = .panic ↔ (parseBody env hd).run (bs.drop 12) = .panic := by
      unfold pdu
      rw [P.run_bind, h1]
      simp only [Res.andThen]
      exact bind_last_panic
    rw [hp]
    unfold Bomb
    rw [signal_split]
    have hlen : 12 ≤ bs.length := by omega
    unfold ShortTransmitter LargeAggregate LargeRecords
    rw [hv, ht]
    simp only [Option.some.injEq]
    by_cases hs : hd.pdu_type ∈ ([25, 26, 33, 35, 63, 64] : List UInt8)
    · simp only [List.mem_cons, List.not_mem_nil, or_false] at hs
      rcases hs with k | k | k | k | k | k
      · rw [parseBody_transmitter env k, bind_last_panic, hc, transmitter_panic, List.length_drop]
        simp only [k, getD_drop, num16_drop, List.drop_drop, ← Nat.add_assoc, Nat.reduceAdd]
        simp (decide := true) only [false_and, false_or, or_false, true_and, show 92 ≤ bs.length - 12 ↔ 104 ≤ bs.length by omega]
      · rw [parseBody_signal env k, bind_last_panic]
        simp (decide := true) only [k, hlen, false_and, or_false, true_and, and_true, and_false]
      · rw [parseBody_aggregateState env k, bind_last_panic, aggregate_panic hc, List.length_drop]
        simp only [k, num16_drop, Nat.reduceAdd]
        simp (decide := true) only [false_and, false_or, or_false, true_and, and_false]
        omega
      · rw [parseBody_transferOwnership env k, bind_last_panic, hc, transferOwnership_panic]
        simp only [k, num32_drop, List.drop_drop, Nat.reduceAdd]
        simp (decide := true) only [false_and, false_or, or_false, true_and, and_false]
      · rw [parseBody_recordR env k, bind_last_panic, hc, recordR_panic]
        simp only [k, num32_drop, List.drop_drop, Nat.reduceAdd]
        simp (decide := true) only [false_and, false_or, or_false, true_and, and_false]
      · rw [parseBody_setRecordR env k, bind_last_panic, hc, setRecordR_panic]
        simp only [k, num32_drop, List.drop_drop, Nat.reduceAdd]
        simp (decide := true) only [false_and, false_or, or_false, true_and, and_false]
    · have hn := (parseBody_safe' env hs).spec (bs.drop 12)
      simp only [List.mem_cons, List.not_mem_nil, or_false, not_or] at hs
      obtain ⟨k1, k2, k3, k4, k5, k6⟩ := hs
      simp only [hn, k1, k2, k3, k4, k5, k6, false_and, and_false, or_false]

theorem parse_panic_iff {env : Env} (bs : Bytes) : parse env bs = .panic ↔ ∃ ps r, Reads env bs ps r ∧ (pdu env).run r = .panic := by
  have hp : parse env bs = .panic ↔ (parsePackets env).run bs = .panic := by
    unfold parse
    cases (parsePackets env).run bs <;> simp
  rw [hp]
  constructor
  · exact parsePackets_panic
  · rintro ⟨ps, r, h1, h2⟩
    cases hr : (parsePackets env).run bs with
    | panic => rfl
    | err =>
      exfalso
      cases h1 with
      | nil =>
        unfold parsePackets P.many1 at hr
        simp only [h2] at hr
        cases hr
      | cons h1 h3 =>
        unfold parsePackets P.many1 at hr
        simp only [h1] at hr
        cases hm : P.manyLoop (pdu env) _ _ with
        | err => exact manyLoop_not_err _ _ (Nat.lt_succ_self _) hm
        | panic => rw [hm] at hr; cases hr
        | ok as r2 => rw [hm] at hr; cases hr
    | ok qs r' =>
      exfalso
      obtain ⟨h3, _, h4⟩ := (parsePackets_iff env _ _ _).1 hr
      exact reads_unique h1 h3 h2 h4

/-- **C18**, exact, for builds with integer overflow checks (debug): `parse` panics on an input if and only if the input is some PDUs
followed by a Signal PDU with too short a payload for its encoding class, a Transmitter PDU with a variable parameter record shorter than
its header, an Aggregate State PDU with more than 10901 identifiers, or a Transfer Ownership, Record-R or Set Record-R PDU with a record
set of 64 KiB or more.  Every other input gives a value or an error. -/
theorem C18_checked_panic_iff (env : Env) (hc : env.checked = true) (bs : Bytes) :
    parse env bs = .panic ↔ ∃ ps r, Reads env bs ps r ∧ Bomb r := by
  rw [parse_panic_iff]
  simp only [pdu_panic_checked hc]

/-- **C18 is violated**: a Set Record-R PDU with a record set of 256 records of 256 octets, of any contents, makes a checked build panic. -/
theorem C18_record_set_panics (env : Env) (hc : env.checked = true) (data : Bytes) (hd : data.length = 65536) :
    parse env ([7, 1, 64, 10] ++ zeros 8 ++ zeros 24 ++ [0, 0, 0, 1] ++ (zeros 12 ++ [8, 0, 1, 0] ++ data)) = .panic := by
  have hr : recordOctets (zeros 12 ++ [8, 0, 1, 0] ++ data) = 65536 := by
    rw [recordOctets_append (by decide)]; decide +kernel
  refine (C18_checked_panic_iff env hc _).2 ⟨[], _, .nil _,
    .inr (.inr (.inr (.inr (.inr ⟨rfl, [], zeros 12 ++ [8, 0, 1, 0] ++ data, [], ?_, ?_, ?_, ?_, ?_, ?_⟩))))⟩
  · rw [List.append_nil, List.flatten_nil, List.nil_append]; rfl
  · show 0 < (0 * 256 + 0) * 65536 + (0 * 256 + 1); omega
  · intro r hr; cases hr
  · rw [List.length_append, hd]; omega
  · rw [hr]; omega
  · rw [hr, List.length_append, hd]; rfl
/-- **C18 is violated**: so does an Aggregate State PDU with 10902 identifiers. -/
theorem C18_aggregate_panics (env : Env) (hc : env.checked = true) (head ids : Bytes) (hh : head.length = 121) (hi : ids.length = 4 + 6 * 10902) :
    parse env ([7, 1, 33] ++ head ++ [0x2a, 0x96, 0, 0] ++ ids) = .panic := by
  refine (C18_checked_panic_iff env hc _).2 ⟨[], _, .nil _, .inr (.inr (.inl ⟨rfl, ?_, ?_⟩))⟩
  all_goals
    have h1 : num16 ([7, 1, 33] ++ head ++ [0x2a, 0x96, 0, 0] ++ ids) 124 = 10902 := by
      have := num16_drop ([7, 1, 33] ++ head ++ [0x2a, 0x96, 0, 0] ++ ids) 124 0
      rw [List.append_assoc, List.drop_left' (by rw [List.length_append, hh]; rfl)] at this
      rw [List.append_assoc, ← this, num16_append (by decide)]
      decide
    have h2 : num16 ([7, 1, 33] ++ head ++ [0x2a, 0x96, 0, 0] ++ ids) 126 = 0 := by
      have := num16_drop ([7, 1, 33] ++ head ++ [0x2a, 0x96, 0, 0] ++ ids) 124 2
      rw [List.append_assoc, List.drop_left' (by rw [List.length_append, hh]; rfl)] at this
      rw [List.append_assoc, ← this, num16_append (by decide)]
      decide
    rw [h1, h2]
  · omega
  · simp only [List.length_append, List.length_cons, List.length_nil, hh, hi]; omega

end Verif.Props
