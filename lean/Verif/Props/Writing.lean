import Verif.Dis.Write
import Verif.Props.Panics
import Verif.Props.Relay
import Verif.Props.Marking
import Verif.Codec.Pdu
import Verif.Props.CdisPdu

/-!
# C64: writing a PDU comes to an end

A user who calls `serialize` gets the octets or an error.
-/

namespace Verif.Props
open Verif Verif.Dis Verif.P

/-! ## Specification -/

/-- the marking has more octets than the field for it -/
def LongMarking : Body → Prop
  | .entityState x => 11 < x.entity_marking.marking_string.length
  | .aggregateState x => 31 < x.aggregate_marking.marking_string.length
  | _ => False
/-- A `String` has fewer than 2^63 octets. -/
def InMemory : Body → Prop
  | .entityState x => x.entity_marking.marking_string.length < 2 ^ 63
  | .aggregateState x => x.aggregate_marking.marking_string.length < 2 ^ 63
  | _ => True
/-- the octets of the marking in an Entity State PDU (type 1) or an Aggregate State PDU (type 33) -/
def markingField (bs : Bytes) : Bytes :=
  if bs[2]? = some 1 then (bs.drop 129).take 11 else if bs[2]? = some 33 then (bs.drop 33).take 31 else []
/-- octets that are text in UTF-8 -/
def IsText (b : Bytes) : Prop := ∃ l : List Char, b = textOctets l
/-- the number of octets outside ASCII -/
def foreign (b : Bytes) : Nat := b.countP fun x => 128 ≤ x.toNat

/-- the marking of a C-DIS Entity State PDU has at most 11 octets -/
def ShortCdis (c : Cdis.CdisPdu) : Prop :=
  ∀ x m, c.body = .entityState x → x.entity_marking = some m → (textOctets m.marking).length ≤ 11
/-- a decoder that has kept no longer marking -/
def KeepsShort (s : Codec.DecState) : Prop := ∀ k e, s.es k = some e → e.entity_marking.marking_string.length ≤ 11

/-! ## Lemmas -/

theorem padding_fits {w n : Nat} (h : n ≤ w) (hw : w < 2 ^ 63) : padding w n = some (List.replicate (w - n) 0x20) := by
  have e : (numPad w n).toNat = w - n := by
    unfold numPad
    rw [UInt64.toNat_sub, UInt64.toNat_ofNat', UInt64.toNat_ofNat']
    omega
  unfold padding
  rw [e, if_pos (by omega)]
theorem padding_long {w n : Nat} (h : w < n) (hn : n < 2 ^ 63) : padding w n = none := by
  unfold padding numPad
  rw [UInt64.toNat_sub, UInt64.toNat_ofNat', UInt64.toNat_ofNat', if_neg (by omega)]

theorem body_write_short {b : Body} (ver : UInt8) (h : ¬ LongMarking b) : b.write ver = some (b.ser ver) := by
  cases b with
  | entityState x =>
    have h : x.entity_marking.marking_string.length ≤ 11 := Nat.le_of_not_lt h
    simp only [Body.write, EntityState.write, EntityMarking.write, padding_fits h (by omega), Option.map_some, Body.ser, EntityState.ser,
      EntityMarking.ser]
  | aggregateState x =>
    have h : x.aggregate_marking.marking_string.length ≤ 31 := Nat.le_of_not_lt h
    simp only [Body.write, AggregateState.write, AggregateMarking.write, padding_fits h (by omega), Option.map_some, Body.ser, AggregateState.ser,
      AggregateMarking.ser]
  | _ => rfl
theorem body_write_long {b : Body} (ver : UInt8) (h : LongMarking b) (hm : InMemory b) : b.write ver = none := by
  cases b with
  | entityState x =>
    have hm : x.entity_marking.marking_string.length < 2 ^ 63 := hm
    have h : 11 < x.entity_marking.marking_string.length := h
    simp only [Body.write, EntityState.write, EntityMarking.write, padding_long h hm, Option.map_none]
  | aggregateState x =>
    have hm : x.aggregate_marking.marking_string.length < 2 ^ 63 := hm
    have h : 31 < x.aggregate_marking.marking_string.length := h
    simp only [Body.write, AggregateState.write, AggregateMarking.write, padding_long h hm, Option.map_none]
  | _ => cases h

theorem Fixed.ok {α β : Type} {m : BP α} {k : Nat} (hm : Fixed m k) {f : α → BP β} {bs : Bytes} {i : Nat} {x : β} {r : Bytes}
    (hi : i ≤ bs.length) (h : (m >>= f).run (bs.drop i) = .ok x r) :
    i + k ≤ bs.length ∧ ∃ a, m.run (bs.drop i) = .ok a (bs.drop (i + k)) ∧ (f a).run (bs.drop (i + k)) = .ok x r := by
  by_cases hk : i + k ≤ bs.length
  · obtain ⟨a, e1, e2⟩ := hm.next hk
    exact ⟨hk, a, e1, (e2 f).symm.trans h⟩
  · rw [hm.stop (by omega) hi] at h; cases h

instance (env : Env) (t : EntityType) : Fixed (EntityAppearance.parse env t) 4 := by
  unfold EntityAppearance.parse
  exact Fixed.bind (k := 4) (n := 0) inferInstance fun _ => inferInstance
theorem fixed_dr_other (a : UInt8) : Fixed (DrOtherParameters.parse a) 15 := by
  unfold DrOtherParameters.parse
  dsimp only
  split
  · exact Fixed.bind (k := 1) (n := 14) inferInstance fun _ => Fixed.bind (k := 2) (n := 12) inferInstance fun _ => Fixed.bind (k := 4) (n := 8) inferInstance fun _ =>
      Fixed.bind (k := 4) (n := 4) inferInstance fun _ => Fixed.bind (k := 4) (n := 0) inferInstance fun _ => inferInstance
  · split
    · exact Fixed.bind (k := 1) (n := 14) inferInstance fun _ => Fixed.bind (k := 2) (n := 12) inferInstance fun _ => Fixed.bind (k := 4) (n := 8) inferInstance fun _ =>
        Fixed.bind (k := 4) (n := 4) inferInstance fun _ => Fixed.bind (k := 4) (n := 0) inferInstance fun _ => inferInstance
    · exact Fixed.bind (k := 15) (n := 0) inferInstance fun _ => inferInstance
instance : Fixed DrParameters.parse 40 := by
  unfold DrParameters.parse
  exact Fixed.bind (k := 1) (n := 39) inferInstance fun _ => Fixed.bind (n := 24) (fixed_dr_other _) fun _ =>
    Fixed.bind (k := 12) (n := 12) inferInstance fun _ => Fixed.bind (k := 12) (n := 0) inferInstance fun _ => inferInstance
theorem fixed_marking (env : Env) : Fixed (EntityMarking.parse env) 12 := by
  unfold EntityMarking.parse
  exact Fixed.bind (k := 1) (n := 11) inferInstance fun _ => Fixed.bind (k := 11) (n := 0) inferInstance fun _ => inferInstance
theorem marking_at {env : Env} {bs r : Bytes} {m : EntityMarking} {i : Nat} (h : (EntityMarking.parse env).run (bs.drop i) = .ok m r)
    (hi : i ≤ bs.length) : m.marking_string = sanitizeMarking env ((bs.drop (i + 1)).take 11) := by
  unfold EntityMarking.parse at h
  obtain ⟨h1, _, -, h⟩ := Fixed.ok (k := 1) inferInstance hi h
  obtain ⟨h2, buf, e, h⟩ := Fixed.ok (k := 11) inferInstance h1 h
  cases h
  simp only [P.take] at e
  rw [if_pos (by rw [List.length_drop]; omega)] at e
  injection e with e _
  rw [← e]
theorem aggregate_marking_at {env : Env} {bs r : Bytes} {m : AggregateMarking} {i : Nat} (h : (AggregateMarking.parse env).run (bs.drop i) = .ok m r)
    (hi : i ≤ bs.length) : m.marking_string = sanitizeMarking env ((bs.drop (i + 1)).take 31) := by
  unfold AggregateMarking.parse at h
  obtain ⟨h1, _, -, h⟩ := Fixed.ok (k := 1) inferInstance hi h
  obtain ⟨h2, buf, e, h⟩ := Fixed.ok (k := 31) inferInstance h1 h
  cases h
  simp only [P.take] at e
  rw [if_pos (by rw [List.length_drop]; omega)] at e
  injection e with e _
  rw [← e]

theorem entityState_marking {env : Env} {ver : UInt8} {bs r : Bytes} {x : EntityState} {i : Nat}
    (h : (EntityState.parse env ver).run (bs.drop i) = .ok x r) (hi : i ≤ bs.length) :
    x.entity_marking.marking_string = sanitizeMarking env ((bs.drop (i + 117)).take 11) := by
  unfold EntityState.parse at h
  obtain ⟨hi, _, -, h⟩ := Fixed.ok (k := 6) inferInstance hi h
  obtain ⟨hi, _, -, h⟩ := Fixed.ok (k := 1) inferInstance hi h
  obtain ⟨hi, _, -, h⟩ := Fixed.ok (k := 1) inferInstance hi h
  obtain ⟨hi, _, -, h⟩ := Fixed.ok (k := 8) inferInstance hi h
  obtain ⟨hi, _, -, h⟩ := Fixed.ok (k := 8) inferInstance hi h
  obtain ⟨hi, _, -, h⟩ := Fixed.ok (k := 12) inferInstance hi h
  obtain ⟨hi, _, -, h⟩ := Fixed.ok (k := 24) inferInstance hi h
  obtain ⟨hi, _, -, h⟩ := Fixed.ok (k := 12) inferInstance hi h
  obtain ⟨hi, _, -, h⟩ := Fixed.ok (k := 4) inferInstance hi h
  obtain ⟨hi, _, -, h⟩ := Fixed.ok (k := 40) inferInstance hi h
  obtain ⟨m, r', e, h⟩ := bind_ok h
  have hm := marking_at e hi
  obtain ⟨_, _, -, h⟩ := bind_ok h
  obtain ⟨_, _, -, h⟩ := bind_ok h
  cases h
  exact hm
theorem aggregateState_marking {env : Env} {bs r : Bytes} {x : AggregateState} {i : Nat}
    (h : (AggregateState.parse env).run (bs.drop i) = .ok x r) (hi : i ≤ bs.length) :
    x.aggregate_marking.marking_string = sanitizeMarking env ((bs.drop (i + 21)).take 31) := by
  unfold AggregateState.parse at h
  obtain ⟨hi, _, -, h⟩ := Fixed.ok (k := 6) inferInstance hi h
  obtain ⟨hi, _, -, h⟩ := Fixed.ok (k := 1) inferInstance hi h
  obtain ⟨hi, _, -, h⟩ := Fixed.ok (k := 1) inferInstance hi h
  obtain ⟨hi, _, -, h⟩ := Fixed.ok (k := 8) inferInstance hi h
  obtain ⟨hi, _, -, h⟩ := Fixed.ok (k := 4) inferInstance hi h
  obtain ⟨m, r', e, h⟩ := bind_ok h
  have hm := aggregate_marking_at e hi
  obtain ⟨_, _, -, h⟩ := bind_ok h
  obtain ⟨_, _, -, h⟩ := bind_ok h
  obtain ⟨_, _, -, h⟩ := bind_ok h
  obtain ⟨_, _, -, h⟩ := bind_ok h
  obtain ⟨_, _, -, h⟩ := bind_ok h
  obtain ⟨_, _, -, h⟩ := bind_ok h
  obtain ⟨_, _, -, h⟩ := bind_ok h
  obtain ⟨_, _, -, h⟩ := bind_ok h
  obtain ⟨_, _, -, h⟩ := bind_ok h
  obtain ⟨_, _, -, h⟩ := bind_ok h
  split at h
  · cases h
  obtain ⟨_, _, -, h⟩ := bind_ok h
  obtain ⟨_, _, -, h⟩ := bind_ok h
  obtain ⟨_, _, -, h⟩ := bind_ok h
  obtain ⟨_, _, -, h⟩ := bind_ok h
  obtain ⟨_, _, -, h⟩ := bind_ok h
  cases h
  exact hm

theorem sanitize_bound (alnum : Char → Bool) (b : Bytes) : (sanitizeLossy alnum b).length ≤ 3 * b.length := by
  obtain ⟨t, h, -⟩ := strip_prefix alnum (fromUtf8Lossy b)
  have h1 := congrArg (fun l => (textOctets l).length) h
  simp only [textOctets_append, List.length_append] at h1
  have h2 := (lossy_length b).2
  show (textOctets (strip alnum (fromUtf8Lossy b))).length ≤ _
  omega

/-- the marking of a PDU that was read -/
theorem read_marking {env : Env} {alnum : Char → Bool} (hs : Sanitizes alnum env) {bs rest : Bytes} {p : Pdu}
    (h : (pdu env).run bs = .ok p rest) :
    (LongMarking p.body ↔ (markingField bs).length < (sanitizeLossy alnum (markingField bs)).length) ∧ InMemory p.body := by
  unfold pdu at h
  have hl : 12 ≤ bs.length := by
    obtain ⟨hd, mid, h1, -⟩ := bind_ok h
    have := PduHeader.parse_exact.spec _ _ _ h1
    omega
  obtain ⟨hd, h1, -, ht⟩ := header_any hl
  rw [P.run_bind, h1] at h
  simp only [Res.andThen] at h
  obtain ⟨b, r, hb, h⟩ := bind_ok h
  cases h
  dsimp only
  unfold markingField
  rw [ht]
  by_cases t1 : hd.pdu_type = 1
  · rw [parseBody_entityState env t1] at hb
    obtain ⟨x, r', hx, hb⟩ := bind_ok hb
    cases hb
    have e := entityState_marking hx hl
    rw [sanitize_eq hs, show 12 + 117 = 129 from rfl] at e
    rw [t1, if_pos rfl]
    have hlen : ((bs.drop 129).take 11).length = 11 := by
      unfold EntityState.parse at hx
      obtain ⟨hi, _, -, hx⟩ := Fixed.ok (k := 6) inferInstance hl hx
      obtain ⟨hi, _, -, hx⟩ := Fixed.ok (k := 1) inferInstance hi hx
      obtain ⟨hi, _, -, hx⟩ := Fixed.ok (k := 1) inferInstance hi hx
      obtain ⟨hi, _, -, hx⟩ := Fixed.ok (k := 8) inferInstance hi hx
      obtain ⟨hi, _, -, hx⟩ := Fixed.ok (k := 8) inferInstance hi hx
      obtain ⟨hi, _, -, hx⟩ := Fixed.ok (k := 12) inferInstance hi hx
      obtain ⟨hi, _, -, hx⟩ := Fixed.ok (k := 24) inferInstance hi hx
      obtain ⟨hi, _, -, hx⟩ := Fixed.ok (k := 12) inferInstance hi hx
      obtain ⟨hi, _, -, hx⟩ := Fixed.ok (k := 4) inferInstance hi hx
      obtain ⟨hi, _, -, hx⟩ := Fixed.ok (k := 40) inferInstance hi hx
      obtain ⟨hi, _, -, hx⟩ := Fixed.ok (k := 12) (fixed_marking env) hi hx
      rw [List.length_take, List.length_drop]; omega
    have hb := sanitize_bound alnum ((bs.drop 129).take 11)
    rw [hlen] at hb ⊢
    simp only [LongMarking, InMemory]
    rw [show x.entity_marking.marking_string = _ from e]
    exact ⟨Iff.rfl, by omega⟩
  by_cases t33 : hd.pdu_type = 33
  · rw [parseBody_aggregateState env t33] at hb
    obtain ⟨x, r', hx, hb⟩ := bind_ok hb
    cases hb
    have e := aggregateState_marking hx hl
    rw [sanitize_eq hs, show 12 + 21 = 33 from rfl] at e
    rw [t33, if_neg (by decide), if_pos rfl]
    have hlen : ((bs.drop 33).take 31).length = 31 := by
      unfold AggregateState.parse at hx
      obtain ⟨hi, _, -, hx⟩ := Fixed.ok (k := 6) inferInstance hl hx
      obtain ⟨hi, _, -, hx⟩ := Fixed.ok (k := 1) inferInstance hi hx
      obtain ⟨hi, _, -, hx⟩ := Fixed.ok (k := 1) inferInstance hi hx
      obtain ⟨hi, _, -, hx⟩ := Fixed.ok (k := 8) inferInstance hi hx
      obtain ⟨hi, _, -, hx⟩ := Fixed.ok (k := 4) inferInstance hi hx
      obtain ⟨hi, _, -, hx⟩ := Fixed.ok (k := 32) inferInstance hi hx
      rw [List.length_take, List.length_drop]; omega
    have hb := sanitize_bound alnum ((bs.drop 33).take 31)
    rw [hlen] at hb ⊢
    simp only [LongMarking, InMemory]
    rw [show x.aggregate_marking.marking_string = _ from e]
    exact ⟨Iff.rfl, by omega⟩
  · rw [if_neg (by simpa using t1), if_neg (by simpa using t33)]
    have hn : ∀ b' : Body, b = b' → b'.pduType ≠ 1 ∧ b'.pduType ≠ 33 := by
      rintro _ rfl
      obtain ⟨a1, a2, a3⟩ := C23_body_of_type hb
      by_cases hsup : hd.pdu_type ∈ supportedTypes
      · by_cases h57 : hd.pdu_type = 57
        · rw [a2 h57]; decide
        · rw [a1 hsup h57]; exact ⟨t1, t33⟩
      · obtain ⟨o, rfl⟩ := a3 hsup
        have : (Body.other o).pduType = 0 := rfl
        rw [this]; decide
    constructor
    · constructor
      · intro hlm
        cases b with
        | entityState x => exact absurd rfl (hn _ rfl).1
        | aggregateState x => exact absurd rfl (hn _ rfl).2
        | _ => cases hlm
      · intro hlm; simp [sanitizeLossy, fromUtf8Lossy, lossyGo, textOctets] at hlm
    · cases b with
      | entityState x => exact absurd rfl (hn _ rfl).1
      | aggregateState x => exact absurd rfl (hn _ rfl).2
      | _ => trivial

theorem lone_octets (s : Bytes) : (textOctets (s.map lone)).length = s.length + 2 * foreign s := by
  induction s with
  | nil => rfl
  | cons b s ih =>
    rw [List.map_cons, textOctets_cons, List.length_append, ih, lone, foreign, foreign, List.countP_cons, List.length_cons]
    split
    · rw [ascii_encode _ (by assumption), if_neg (by simp; omega)]; simp only [List.length_cons, List.length_nil]; omega
    · rw [replacement_octets, if_pos (by simp; omega)]; simp only [List.length_cons, List.length_nil]; omega

theorem letter_ascii {b : UInt8} (h : LetterOrDigit b) : b.toNat < 128 := by
  rw [← alnum_iff] at h
  unfold isAlnum at h
  simp only [Bool.or_eq_true, Bool.and_eq_true, decide_eq_true_eq] at h
  omega

theorem sanitize_eight_bit {env : Env} {alnum : Char → Bool} (hs : Sanitizes alnum env) {name pad : Bytes} (hi : Isolated (name ++ pad))
    (hn : ∀ b, name.getLast? = some b → LetterOrDigit b) (hp : ∀ b ∈ pad, b.toNat < 128 ∧ ¬ LetterOrDigit b) :
    sanitizeLossy alnum (name ++ pad) = textOctets (name.map lone) := by
  have hl : ∀ b : UInt8, b.toNat < 128 → (alnum (lone b) = true ↔ LetterOrDigit b) := by
    intro b hb
    rw [lone, if_pos hb, hs.unicode.ascii _ (by rw [ascii_toNat _ hb]; exact hb)]
    rfl
  show textOctets (strip alnum (fromUtf8Lossy (name ++ pad))) = _
  rw [lossy_isolated hi, List.map_append, strip_append, strip_self]
  · intro c hc
    rw [List.getLast?_map] at hc
    cases e : name.getLast? with
    | none => rw [e] at hc; cases hc
    | some b =>
      rw [e] at hc
      cases hc
      have := hn b e
      exact (hl b (letter_ascii this)).2 this
  · intro c hc
    obtain ⟨b, hb, rfl⟩ := List.mem_map.1 hc
    obtain ⟨h1, h2⟩ := hp b hb
    exact Bool.eq_false_iff.2 fun h => h2 ((hl b h1).1 h)

/-- the eleven octets of "SKJÖLD 1234" in ISO 8859-1 -/
def latinMarking : Bytes := [83, 75, 74, 0xD6, 76, 68, 32, 49, 50, 51, 52]
/-- an Entity State PDU with that marking -/
def latinPdu : Bytes :=
  let bs := (⟨sampleFor 1, .entityState sample_entityState⟩ : Pdu).ser
  bs.take 129 ++ (latinMarking ++ bs.drop 140)
def latinEnv : Env := { sampleEnv with sanitizeNonAscii := sanitizeLossy Char.isAlphanum }
theorem latin_sanitizes : Sanitizes Char.isAlphanum latinEnv := ⟨⟨fun _ _ => rfl, by decide +kernel⟩, fun _ => rfl⟩
def latinRead : Pdu := ⟨sampleFor 1, .entityState { sample_entityState with entity_marking := ⟨1, [83, 75, 74, 0xEF, 0xBF, 0xBD, 76, 68, 32, 49, 50, 51, 52]⟩ }⟩

/-! ## C64 -/

/-- **C64.** `serialize` does not return exactly when the buffer is large enough and the marking of an Entity State or Aggregate State PDU
has more octets than its field of 11 or 31. -/
theorem C64_returns_iff (p : Pdu) (buf : Bytes) (capacity : Nat) (hm : InMemory p.body) :
    p.write buf capacity = .aborted ↔ p.pduLength.toNat ≤ capacity ∧ LongMarking p.body := by
  unfold Pdu.write
  by_cases hc : p.pduLength.toNat > capacity
  · rw [if_pos hc]
    exact ⟨fun h => by (cases h), fun h => absurd h.1 (by omega)⟩
  · rw [if_neg hc]
    by_cases hl : LongMarking p.body
    · rw [body_write_long _ hl hm]; exact ⟨fun _ => ⟨by omega, hl⟩, fun _ => rfl⟩
    · rw [body_write_short _ hl]; exact ⟨fun h => by (cases h), fun h => absurd h.2 hl⟩
/-- **C64.** When it returns, the result is the one the other properties are about. -/
theorem C64_result (p : Pdu) (buf : Bytes) (capacity : Nat) (h : ¬ LongMarking p.body) :
    p.write buf capacity = match p.serialize buf capacity with
      | .ok (contents, count) => .ok contents count
      | .error (length, capacity) => .insufficient length capacity := by
  unfold Pdu.write Pdu.serialize
  by_cases hc : p.pduLength.toNat > capacity
  · rw [if_pos hc, if_pos hc]
  · rw [if_neg hc, if_neg hc, body_write_short _ h]
    rfl

/-- **C64.** A PDU read from any octets can be written again exactly when the text made from the octets of its marking is no longer than
they are. -/
theorem C64_received_iff {env : Env} {alnum : Char → Bool} (hs : Sanitizes alnum env) {bs rest : Bytes} {p : Pdu}
    (h : (pdu env).run bs = .ok p rest) (buf : Bytes) {capacity : Nat} (hc : p.pduLength.toNat ≤ capacity) :
    p.write buf capacity ≠ .aborted ↔ (sanitizeLossy alnum (markingField bs)).length ≤ (markingField bs).length := by
  obtain ⟨h1, h2⟩ := read_marking hs h
  rw [Ne, C64_returns_iff p buf capacity h2, h1]
  omega
/-- **C64.** So every PDU whose marking is text in UTF-8, and every PDU without a marking, can be written again. -/
theorem C64_text {env : Env} {alnum : Char → Bool} (hs : Sanitizes alnum env) {bs rest : Bytes} {p : Pdu}
    (h : (pdu env).run bs = .ok p rest) (ht : IsText (markingField bs)) (buf : Bytes) (capacity : Nat) :
    p.write buf capacity ≠ .aborted := by
  obtain ⟨h1, h2⟩ := read_marking hs h
  rw [Ne, C64_returns_iff p buf capacity h2, h1]
  obtain ⟨l, e⟩ := ht
  obtain ⟨e1, e2⟩ := sanitize_text alnum l
  rw [e, e1]
  omega
/-- **C64.** A marking in an 8-bit character set, with its letters outside ASCII standing alone, followed by padding: the PDU can be written
again exactly when there are at least two octets of padding for each of them. -/
theorem C64_eight_bit {env : Env} {alnum : Char → Bool} (hs : Sanitizes alnum env) {bs rest name pad : Bytes} {p : Pdu}
    (h : (pdu env).run bs = .ok p rest) (hf : markingField bs = name ++ pad) (hi : Isolated (name ++ pad))
    (hn : ∀ b, name.getLast? = some b → LetterOrDigit b) (hp : ∀ b ∈ pad, b.toNat < 128 ∧ ¬ LetterOrDigit b)
    (buf : Bytes) {capacity : Nat} (hc : p.pduLength.toNat ≤ capacity) :
    p.write buf capacity ≠ .aborted ↔ 2 * foreign name ≤ pad.length := by
  rw [C64_received_iff hs h buf hc, hf]
  rw [sanitize_eight_bit hs hi hn hp, lone_octets, List.length_append]
  omega

/-- **C64.** The first of these cases is realistic: the eleven octets of "SKJÖLD 1234" in ISO 8859-1.  The PDU is read without an error, and
writing it again does not return. -/
theorem C64_violated : ∃ (bs : Bytes) (p : Pdu), (pdu latinEnv).run bs = .ok p [] ∧ bs.length = 176 ∧
    markingField bs = latinMarking ∧ ∀ buf capacity, 176 ≤ capacity → p.write buf capacity = .aborted := by
  obtain ⟨p, hp⟩ : ∃ p, (pdu latinEnv).run latinPdu = .ok p [] := ⟨_, rfl⟩
  have hl : p.pduLength = 176 := by
    have e : (pdu latinEnv).run latinPdu = .ok latinRead [] := rfl
    rw [e] at hp
    cases hp
    decide +kernel
  refine ⟨latinPdu, p, hp, by decide +kernel, by decide +kernel, fun buf capacity hc => ?_⟩
  have := C64_received_iff latin_sanitizes hp buf (capacity := capacity) (by rw [hl]; exact hc)
  refine Classical.byContradiction fun hn => ?_
  exact absurd (this.1 hn) (by decide +kernel)

/-! ### PDUs decoded from C-DIS -/

/-- **C64.** What a C-DIS decoder makes of a PDU can be written exactly when the marking in it, if there is one, has at most 11 octets; C-DIS
has room for 15. -/
theorem C64_decoded_iff (env : Codec.Env) (o : Codec.Options) {s : Codec.DecState} (hs : KeepsShort s) (c : Cdis.CdisPdu) :
    (LongMarking (Codec.pduDec env o s c).1.body ↔ ¬ ShortCdis c) ∧ (ShortCdis c → KeepsShort (Codec.pduDec env o s c).2.2) := by
  have other : (∀ x, c.body ≠ .entityState x) → ShortCdis c := fun h x _ hx => absurd hx (h x)
  have hb : (Codec.pduDec env o s c).1.body = (Codec.bodyDec env o s c.body).1 := rfl
  have hst : (Codec.pduDec env o s c).2.2 = (Codec.bodyDec env o s c.body).2.2 := rfl
  rw [hb, hst]
  cases e : c.body with
  | entityState x =>
    have hc : ShortCdis c ↔ ∀ m, x.entity_marking = some m → (textOctets m.marking).length ≤ 11 := by
      unfold ShortCdis
      rw [e]
      exact ⟨fun h m hm => h x m rfl hm, fun h y m hy hm => by cases hy; exact h m hm⟩
    have hfall : (if o.update_mode = .partial ∧ x.full_update_flag = false then (s.es (Codec.eidDec x.entity_id)).getD Codec.defaultEs
        else Codec.defaultEs).entity_marking.marking_string.length ≤ 11 := by
      split
      · cases hk : s.es (Codec.eidDec x.entity_id) with
        | none => decide
        | some e => exact hs _ e hk
      · decide
    have key : 11 < (Codec.esDec env o (s.es (Codec.eidDec x.entity_id)) x).1.entity_marking.marking_string.length ↔
        ¬ ∀ m, x.entity_marking = some m → (textOctets m.marking).length ≤ 11 := by
      unfold Codec.esDec
      dsimp only
      cases hm : x.entity_marking with
      | none =>
        simp only [Option.map_none, Option.getD_none]
        exact ⟨fun h => absurd hfall (by omega), fun h => absurd (fun m h => by cases h) h⟩
      | some m =>
        simp only [Option.map_some, Option.getD_some]
        show 11 < (textOctets m.marking).length ↔ _
        exact ⟨fun h h' => absurd (h' m rfl) (by omega), fun h => Classical.byContradiction fun hn => h fun m' h' => by cases h'; omega⟩
    rw [hc]
    refine ⟨key, fun h => ?_⟩
    simp only [Codec.bodyDec, Codec.esDecodeBody]
    split
    case isFalse => exact hs
    case isTrue =>
    intro k st hk
    simp only [Codec.Map.set] at hk
    split at hk
    case isFalse => exact hs k st hk
    case isTrue =>
    cases hk
    unfold Codec.esStore
    split
    next st' hst' => exact hs _ st' hst'
    next => exact Nat.le_of_not_lt fun hn => key.1 hn h
  | electromagneticEmission x =>
    refine ⟨⟨fun h => (by cases h), fun h => absurd (other (by rw [e]; simp)) h⟩, fun _ => ?_⟩
    simp only [Codec.bodyDec, Codec.eeDecodeBody]; split <;> exact hs
  | designator x =>
    refine ⟨⟨fun h => (by cases h), fun h => absurd (other (by rw [e]; simp)) h⟩, fun _ => ?_⟩
    simp only [Codec.bodyDec, Codec.desDecodeBody]; split <;> exact hs
  | transmitter x =>
    refine ⟨⟨fun h => (by cases h), fun h => absurd (other (by rw [e]; simp)) h⟩, fun _ => ?_⟩
    simp only [Codec.bodyDec, Codec.txDecodeBody]; split <;> exact hs
  | iff x =>
    refine ⟨⟨fun h => (by cases h), fun h => absurd (other (by rw [e]; simp)) h⟩, fun _ => ?_⟩
    simp only [Codec.bodyDec, Codec.iffDecodeBody]; split <;> exact hs
  | _ => exact ⟨⟨fun h => (by cases h), fun h => absurd (other (by rw [e]; simp)) h⟩, fun _ => hs⟩

/-- **C64.** A decoder that is only given markings of at most 11 octets yields PDUs that can be written. -/
theorem C64_decoded_stream (env : Codec.Env) (o : Codec.Options) {cs : List Cdis.CdisPdu} (h : ∀ c ∈ cs, ShortCdis c) :
    ∀ p ∈ (Codec.decStream env o {} cs).1, ∀ buf capacity, p.write buf capacity ≠ .aborted := by
  have key : ∀ (s : Codec.DecState), KeepsShort s → ∀ p ∈ (Codec.decStream env o s cs).1, ¬ LongMarking p.body := by
    induction cs with
    | nil => intro s _ p hp; cases hp
    | cons c cs ih =>
      intro s hs p hp
      obtain ⟨h1, h2⟩ := C64_decoded_iff env o hs c
      have hc := h c (by simp)
      simp only [Codec.decStream, List.mem_cons] at hp
      rcases hp with rfl | hp
      · exact fun hl => h1.1 hl hc
      · exact ih (fun c' hc' => h c' (by simp [hc'])) _ (h2 hc) p hp
  intro p hp buf capacity
  have hn := key {} (fun k e h => by cases h) p hp
  rw [C64_result p buf capacity hn]
  split <;> (intro h; cases h)
/-- **C64.** The decoder of a C-DIS PDU with a marking of 12 to 15 characters yields a PDU that cannot be written. -/
theorem C64_decoded_violated (env : Codec.Env) (o : Codec.Options) (c : Cdis.CdisPdu) {x : Cdis.EntityState} {m : Cdis.Marking}
    (hc : c.body = .entityState x) (hm : x.entity_marking = some m) (hw : m.Wf) (hl : 11 < m.marking.length) (buf : Bytes) (capacity : Nat)
    (hcap : (Codec.pduDec env o {} c).1.pduLength.toNat ≤ capacity) : (Codec.pduDec env o {} c).1.write buf capacity = .aborted := by
  obtain ⟨h1, h2, -⟩ := hw
  have hlen : (textOctets m.marking).length = m.marking.length := by
    have : ∀ l : List Char, (∀ c ∈ l, c.utf8Size = 1) → (textOctets l).length = l.length := by
      intro l hl
      induction l with
      | nil => rfl
      | cons a l ih =>
        rw [textOctets_cons, List.length_append, String.length_utf8EncodeChar, hl a (by simp), ih fun c hc => hl c (by simp [hc]), List.length_cons]
        omega
    exact this _ h2
  have hlong : LongMarking (Codec.pduDec env o {} c).1.body := by
    refine (C64_decoded_iff env o (fun k e h => by cases h) c).1.2 fun hs => ?_
    have := hs x m hc hm
    omega
  refine (C64_returns_iff _ buf capacity ?_).2 ⟨hcap, hlong⟩
  have hb : (Codec.pduDec env o {} c).1.body = .entityState (Codec.esDec env o none x).1 := by
    show (Codec.bodyDec env o {} c.body).1 = _
    rw [hc]; rfl
  rw [hb]
  have e : (Codec.esDec env o none x).1.entity_marking.marking_string = textOctets m.marking := by
    unfold Codec.esDec
    dsimp only
    rw [hm]; rfl
  simp only [InMemory]
  rw [e, hlen]
  omega

/-- a C-DIS Entity State PDU with a marking of 15 characters -/
def longNamed : Cdis.CdisPdu :=
  ⟨witnessHeader, .entityState { fullEntityState with entity_marking := some ⟨.six, "CALLSIGN ALPHA1".toList⟩ }⟩
/-- **C64.** For instance this PDU, read from its own bits. -/
theorem C64_decoded_witness (env : Codec.Env) (o : Codec.Options) (buf : Bytes) :
    ∃ c, (Cdis.CdisPdu.parse env.toEnv).run longNamed.ser = .ok c [] ∧ (Codec.pduDec env o {} c).1.write buf 65536 = .aborted := by
  have hw : longNamed.Wf env.toEnv := by
    refine ⟨C32_witness, rfl, ?_⟩
    unfold Cdis.EntityState.Wf; decide +kernel
  have hr := Cdis.CdisPdu.run hw []
  rw [List.append_nil] at hr
  refine ⟨_, hr, ?_⟩
  refine C64_decoded_violated env o _ (x := _) (m := ⟨.six, "CALLSIGN ALPHA1".toList⟩) rfl rfl
    (by decide +kernel) (by decide +kernel) buf _ ?_
  exact Nat.le_of_lt (UInt16.toNat_lt _)

end Verif.Props
