import Verif.Props.GatewayLive
import Verif.Props.Writing
import Verif.Props.CodecEncode
import Verif.Props.GatewayEncode
import Verif.Props.GatewayOverload

/-!
# C65: no datagram ends the gateway

A user expects the encoder to return for every PDU that was received, and the gateway to survive every datagram.
-/

namespace Verif.Props
open Verif Verif.Dis Verif.Codec Verif.Gateway

/-! ## Specification -/

/-- text of more than 11 octets, the first eleven of which are not whole characters -/
def Cut (l : List Char) : Prop := 11 < (textOctets l).length ∧ ∀ k, (textOctets (l.take k)).length ≠ 11
/-- an Entity State PDU with such a marking -/
def CutMarking (p : Pdu) : Prop :=
  ∃ x l, p.body = .entityState x ∧ x.entity_marking.marking_string = textOctets l ∧ Cut l
/-- A marking is a `String`. -/
def HasText (p : Pdu) : Prop := ∀ x, p.body = .entityState x → IsText x.entity_marking.marking_string

/-! ## Lemmas -/

theorem utf8Len_octets (l : List Char) : Cdis.utf8Len l = (textOctets l).length := by
  induction l with
  | nil => rfl
  | cons c l ih =>
    rw [textOctets_cons, List.length_append, String.length_utf8EncodeChar, ← ih]
    simp [Cdis.utf8Len]
theorem truncate_none (l : List Char) : ∀ n, Cdis.utf8Truncate n l = none ↔
    n < (textOctets l).length ∧ ∀ k, (textOctets (l.take k)).length ≠ n := by
  induction l with
  | nil => intro n; simp [Cdis.utf8Truncate, textOctets]
  | cons c l ih =>
    intro n
    have hc : 0 < c.utf8Size := Char.utf8Size_pos c
    have hcut : ∀ k, (textOctets ((c :: l).take (k + 1))).length = c.utf8Size + (textOctets (l.take k)).length := by
      intro k; rw [List.take_succ_cons, textOctets_cons, List.length_append, String.length_utf8EncodeChar]
    have hlen : (textOctets (c :: l)).length = c.utf8Size + (textOctets l).length := by
      rw [textOctets_cons, List.length_append, String.length_utf8EncodeChar]
    unfold Cdis.utf8Truncate
    by_cases h0 : n = 0
    · subst h0
      rw [if_pos rfl]
      exact ⟨fun h => (by cases h), fun h => absurd rfl (h.2 0)⟩
    · rw [if_neg h0]
      by_cases hn : c.utf8Size ≤ n
      · rw [if_pos hn, Option.map_eq_none_iff, ih, hlen]
        refine ⟨fun ⟨h1, h2⟩ => ⟨by omega, fun k => ?_⟩, fun ⟨h1, h2⟩ => ⟨by omega, fun k => ?_⟩⟩
        · cases k with
          | zero => exact fun h => h0 h.symm
          | succ k => rw [hcut]; have := h2 k; omega
        · have := h2 (k + 1); rw [hcut] at this; omega
      · rw [if_neg hn, hlen]
        refine ⟨fun _ => ⟨by omega, fun k => ?_⟩, fun _ => rfl⟩
        cases k with
        | zero => exact fun h => h0 h.symm
        | succ k => rw [hcut]; omega
theorem new_none (l : List Char) : Cdis.Marking.new l = none ↔ Cut l := by
  unfold Cdis.Marking.new Cut
  rw [Option.map_eq_none_iff, utf8Len_octets]
  by_cases h : (textOctets l).length > 11
  · rw [if_pos h, truncate_none]
  · rw [if_neg h]; simp; omega
theorem chars_text (l : List Char) : markingChars (textOctets l) = l := by
  have := lossy_octets l []
  rw [List.append_nil, show fromUtf8Lossy [] = [] from rfl, List.append_nil] at this
  exact this
theorem octets_injective {a b : List Char} (h : textOctets a = textOctets b) : a = b := by rw [← chars_text a, h, chars_text]

theorem bodyEnc_other {env : Codec.Env} {o : Options} {now : Nat} {s : EncState} {b : Body} (h : ∀ x, b ≠ .entityState x) :
    bodyEnc env o now s b ≠ none := by
  cases b with
  | entityState x => exact absurd rfl (h x)
  | _ => simp [bodyEnc]

/-! ## C65 -/

/-- **C65.** The encoder panics exactly for Entity State PDUs with a marking of more than eleven octets that can not be cut behind the
eleventh, unless only a partial update is due. -/
theorem C65_encode_panics_iff (env : Codec.Env) (o : Options) (now : Nat) (s : EncState) {p : Pdu} (ht : HasText p) :
    pduEnc env o now s p = none ↔ CutMarking p ∧ ∀ x, p.body = .entityState x →
      ¬ (o.update_mode = .partial ∧ ∃ hb, s.es x.entity_id = some hb ∧ timedOut (esHeartbeat o x.entity_type) o.mplier now hb = false) := by
  unfold pduEnc
  rw [Option.map_eq_none_iff]
  by_cases hb : ∃ x, p.body = .entityState x
  · obtain ⟨x, hx⟩ := hb
    obtain ⟨l, hl⟩ := ht x hx
    have e : CutMarking p ↔ Cut l := by
      constructor
      · rintro ⟨y, m, h1, h2, h3⟩
        rw [hx] at h1; cases h1
        rw [hl] at h2
        rwa [octets_injective h2]
      · exact fun h => ⟨x, l, hx, hl, h⟩
    rw [e, hx]
    simp only [bodyEnc, esEncodeBody, Option.map_eq_none_iff]
    unfold esEnc
    dsimp only
    rw [hl, chars_text]
    cases hk : s.es x.entity_id with
    | none =>
      rw [if_neg (by simp), Option.map_eq_none_iff, new_none]
      exact ⟨fun h => ⟨h, fun y hy hc => by cases hy; obtain ⟨-, hb, h, -⟩ := hc; rw [hk] at h; cases h⟩, fun h => h.1⟩
    | some hb =>
      simp only [Option.any_some, Bool.not_eq_true']
      split
      case isTrue hc => exact ⟨fun h => (by cases h), fun h => absurd ⟨hc.1, hb, hk, hc.2⟩ (h.2 x rfl)⟩
      case isFalse hc =>
        rw [Option.map_eq_none_iff, new_none]
        refine ⟨fun h => ⟨h, fun y hy hq => ?_⟩, fun h => h.1⟩
        cases hy
        obtain ⟨h1, hb', h2, h3⟩ := hq
        rw [hk] at h2; cases h2
        exact hc ⟨h1, h3⟩
  · have hb : ∀ x, p.body ≠ .entityState x := fun x h => hb ⟨x, h⟩
    refine ⟨fun h => absurd h (bodyEnc_other hb), ?_⟩
    rintro ⟨⟨x, l, h, -⟩, -⟩
    exact absurd h (hb x)

/-- **C65.** In full-update mode it depends on the PDU alone. -/
theorem C65_full_mode (env : Codec.Env) {o : Options} (hm : o.update_mode = .full) (now : Nat) (s : EncState) {p : Pdu} (ht : HasText p) :
    pduEnc env o now s p = none ↔ CutMarking p := by
  rw [C65_encode_panics_iff env o now s ht]
  refine ⟨fun h => h.1, fun h => ⟨h, fun x _ hc => ?_⟩⟩
  rw [hm] at hc
  cases hc.1

theorem stream_none (env : Codec.Env) {o : Options} (hm : o.update_mode = .full) : ∀ (l : List (Nat × Pdu)) (s : EncState), (∀ x ∈ l, HasText x.2) →
    (encStream env o s l = none ↔ ∃ x ∈ l, CutMarking x.2)
  | [], s, _ => by simp [encStream]
  | (now, p) :: rest, s, ht => by
    have h1 := C65_full_mode env hm now s (ht (now, p) (by simp))
    simp only [encStream]
    cases hp : pduEnc env o now s p with
    | none => exact ⟨fun _ => ⟨_, List.mem_cons_self, h1.1 hp⟩, fun _ => rfl⟩
    | some r =>
      have hn : ¬ CutMarking p := fun h => by rw [h1.2 h] at hp; cases hp
      simp only [Option.bind_some, Option.map_eq_none_iff, List.mem_cons, exists_eq_or_imp]
      rw [stream_none env hm rest r.2.2 fun x hx => ht x (by simp [hx])]
      exact ⟨.inr, fun h => h.resolve_left hn⟩

theorem read_body {env : Dis.Env} {bs rest : Bytes} {p : Pdu} (h : (pdu env).run bs = .ok p rest) {x : EntityState} (hx : p.body = .entityState x) :
    p.header.pdu_type = 1 ∧ x.entity_marking.marking_string = sanitizeMarking env ((bs.drop 129).take 11) := by
  unfold pdu at h
  have hl : 12 ≤ bs.length := by
    obtain ⟨hd, mid, h1, -⟩ := bind_ok h
    have := PduHeader.parse_exact.spec _ _ _ h1
    omega
  obtain ⟨hd, h1, -, ht⟩ := header_any hl
  rw [P.run_bind, h1] at h
  simp only [Res.andThen] at h
  obtain ⟨b, r, hb, h⟩ := bind_ok h
  cases h
  dsimp only at hx ⊢
  have t1 : hd.pdu_type = 1 := by
    obtain ⟨a1, a2, a3⟩ := C23_body_of_type hb
    by_cases hsup : hd.pdu_type ∈ supportedTypes
    · by_cases h57 : hd.pdu_type = 57
      · have := a2 h57; rw [hx] at this; cases this
      · have := a1 hsup h57; rw [hx] at this; exact this.symm
    · obtain ⟨o, ho⟩ := a3 hsup
      rw [hx] at ho; cases ho
  refine ⟨t1, ?_⟩
  rw [parseBody_entityState env t1] at hb
  obtain ⟨y, r', hy, hb⟩ := bind_ok hb
  cases hb
  cases hx
  exact entityState_marking hy hl
theorem read_text {env : Dis.Env} {alnum : Char → Bool} (hs : Sanitizes alnum env) {bs rest : Bytes} {p : Pdu} (h : (pdu env).run bs = .ok p rest) :
    HasText p := by
  intro x hx
  rw [(read_body h hx).2, sanitize_eq hs]
  exact ⟨_, rfl⟩
theorem reads_each {env : Dis.Env} {bs r : Bytes} {ps : List Pdu} (h : Reads env bs ps r) : ∀ p ∈ ps, ∃ b m, (pdu env).run b = .ok p m := by
  induction h with
  | nil => intro p hp; cases hp
  | cons h _ ih =>
    intro p hp
    rcases List.mem_cons.1 hp with rfl | hp
    · exact ⟨_, _, h⟩
    · exact ih p hp
theorem parsed_each {env : Dis.Env} {bs : Bytes} {ps : List Pdu} (h : Dis.parse env bs = .ok ps) : ∀ p ∈ ps, ∃ b m, (pdu env).run b = .ok p m := by
  unfold Dis.parse at h
  cases e : (parsePackets env).run bs with
  | ok qs r => rw [e] at h; cases h; exact reads_each ((parsePackets_iff env bs ps r).1 e).1
  | err => rw [e] at h; cases h
  | panic => rw [e] at h; cases h

/-- **C65.** In full-update mode the gateway's encoder panics on a datagram that holds an Entity State PDU with such a marking, whatever it
has done before. -/
theorem C65_datagram_panics {env : Codec.Env} {alnum : Char → Bool} (hs : Sanitizes alnum env.toEnv) {o : Options} (hm : o.update_mode = .full)
    (clock : Nat → Nat) (e : Encoder) {bs : Bytes} {ps : List Pdu} (hp : Dis.parse env.toEnv bs = .ok ps) (h : ∃ p ∈ ps, CutMarking p) :
    (encodeBuffer env o clock e bs).2 = none := by
  obtain ⟨p, hmem, hc⟩ := h
  obtain ⟨x, l, hx, -, -⟩ := id hc
  obtain ⟨b, m, hr⟩ := parsed_each hp p hmem
  have t1 := (read_body hr hx).1
  refine C42_panic_iff.2 (.inr ⟨ps, hp, ?_⟩)
  have key := (stream_none env hm ((stamp clock ps).filter fun x => decide (Carried x.2.header.pdu_type.toNat)) e.state ?_).2 ?_
  · rw [key]; trivial
  · intro y hy
    have hy := (List.mem_filter.1 hy).1
    unfold stamp at hy
    obtain ⟨z, hz, rfl⟩ := List.mem_map.1 hy
    have := List.fst_mem_of_mem_zipIdx hz
    obtain ⟨b, m, hr⟩ := parsed_each hp _ this
    exact read_text hs hr
  · obtain ⟨i, hi, he⟩ := List.getElem_of_mem hmem
    refine ⟨(clock i, p), List.mem_filter.2 ⟨?_, ?_⟩, hc⟩
    · unfold stamp
      refine List.mem_map.2 ⟨(p, i), ?_, rfl⟩
      exact List.mk_mem_zipIdx_iff_getElem?.2 (by rw [List.getElem?_eq_getElem hi, he])
    · rw [t1]; decide

/-- **C65.** For a marking in an 8-bit character set, with its letters outside ASCII standing alone: when counting three for each of them and
one for every other octet goes past eleven without meeting it. -/
theorem C65_eight_bit {env : Dis.Env} {alnum : Char → Bool} (hs : Sanitizes alnum env) {bs rest name pad : Bytes} {p : Pdu}
    (h : (pdu env).run bs = .ok p rest) (ht : bs[2]? = some 1) (hf : markingField bs = name ++ pad) (hi : Isolated (name ++ pad))
    (hn : ∀ b, name.getLast? = some b → LetterOrDigit b) (hp : ∀ b ∈ pad, b.toNat < 128 ∧ ¬ LetterOrDigit b) :
    CutMarking p ↔ 11 < name.length + 2 * foreign name ∧ ∀ k ≤ name.length, k + 2 * foreign (name.take k) ≠ 11 := by
  have hb : ∃ x, p.body = .entityState x := by
    unfold pdu at h
    have hl : 12 ≤ bs.length := by
      obtain ⟨hd, mid, h1, -⟩ := bind_ok h
      have := PduHeader.parse_exact.spec _ _ _ h1
      omega
    obtain ⟨hd, h1, -, ht'⟩ := header_any hl
    rw [ht'] at ht
    rw [P.run_bind, h1] at h
    simp only [Res.andThen] at h
    obtain ⟨b, r, hb, h⟩ := bind_ok h
    cases h
    rw [parseBody_entityState env (by simpa using ht)] at hb
    obtain ⟨x, r', hx, hb⟩ := bind_ok hb
    cases hb
    exact ⟨x, rfl⟩
  obtain ⟨x, hx⟩ := hb
  have e := (read_body h hx).2
  unfold markingField at hf
  rw [if_pos ht] at hf
  rw [hf, sanitize_eq hs, sanitize_eight_bit hs hi hn hp] at e
  have hcut : CutMarking p ↔ Cut (name.map lone) := by
    constructor
    · rintro ⟨y, m, h1, h2, h3⟩
      rw [hx] at h1; cases h1
      rw [e] at h2
      rwa [octets_injective h2]
    · exact fun h => ⟨x, _, hx, e, h⟩
  rw [hcut]
  unfold Cut
  rw [lone_octets]
  refine and_congr_right fun hlen => ⟨fun h k hk => ?_, fun h k => ?_⟩
  · have := h k
    rwa [← List.map_take, lone_octets, List.length_take, Nat.min_eq_left hk] at this
  · rw [← List.map_take, lone_octets, List.length_take]
    by_cases hk : k ≤ name.length
    · rw [Nat.min_eq_left hk]; exact h k hk
    · rw [Nat.min_eq_right (by omega), List.take_of_length_le (by omega)]; omega

/-! ### The gateway -/

theorem outputs_short {σ : Type} {m : Machine σ} {b : Bytes} (hb : ∀ c s, (m c s b).2 = none) : ∀ (taken : List ((Nat → Nat) × Bytes)) (s : σ),
    b ∈ taken.map (·.2) → (outputs m s taken).length < taken.length
  | [], s, h => by cases h
  | (c, x) :: rest, s, h => by
    unfold outputs
    cases e : (m c s x).2 with
    | none => simp
    | some r =>
      have : x ≠ b := fun h => by rw [h, hb] at e; cases e
      have hr : b ∈ rest.map (·.2) := by
        simp only [List.map_cons, List.mem_cons] at h
        exact h.resolve_left fun h => this h.symm
      have := outputs_short hb rest r.2 hr
      simp only [List.length_cons]; omega

/-- **C65.** A datagram the encoder panics on ends the gateway on every schedule: once it has been received, whatever the tasks do, the
gateway comes to an end. -/
theorem C65_ends {σ τ : Type} {me : Machine σ} {md : Machine τ} {s : σ} {t : τ} {b : Bytes} (hb : ∀ c s, (me c s b).2 = none) {g g1 : System σ τ}
    (h : System.Reach me md (System.start s t) g) (hl : g.listening = true) (ha : Alive g.enc) (hd : Alive g.dec) (hr : b ∈ g.enc.received)
    (h1 : Works me md g g1) : ∃ g2, Works me md g1 g2 ∧ (∀ g3, ¬ System.Step me md .work g2 g3) ∧ g2.ended = true := by
  obtain ⟨g2, h2, h3, h4⟩ := C49_drains h hl ha hd h1
  refine ⟨g2, h2, h3, h4.resolve_right ?_⟩
  rintro ⟨e, -, ⟨taken, t1, t2, t3, -⟩, -⟩
  have := outputs_short hb taken s (by rw [t1, e]; exact hr)
  have hlen := congrArg List.length t1
  rw [List.length_map] at hlen
  rw [t2] at t3
  omega

/-! ### An example -/

/-- the eleven octets of "TRES AMIGÓS" in ISO 8859-1 -/
def amigosMarking : Bytes := [84, 82, 69, 83, 32, 65, 77, 73, 71, 0xD3, 83]
/-- a datagram with an Entity State PDU with that marking -/
def amigos : Bytes :=
  let bs := (⟨sampleFor 1, .entityState sample_entityState⟩ : Pdu).ser
  bs.take 129 ++ (amigosMarking ++ bs.drop 140)
def latinCodec : Codec.Env := { codecEnv with toEnv := latinEnv }

/-- **C65, violated.** This datagram of 176 octets is a proper packet and ends any gateway in full-update mode. -/
theorem C65_violated : amigos.length = 176 ∧ markingField amigos = amigosMarking ∧
    (∃ p, Dis.parse latinEnv amigos = .ok [p] ∧ CutMarking p) ∧
    ∀ o : Options, o.update_mode = .full → ∀ clock e, (encodeBuffer latinCodec o clock e amigos).2 = none := by
  obtain ⟨p, hp⟩ : ∃ p, (pdu latinEnv).run amigos = .ok p [] := ⟨_, rfl⟩
  have hcut : CutMarking p :=
    (C65_eight_bit latin_sanitizes hp (by decide +kernel) (name := amigosMarking) (pad := []) (by decide +kernel) (by
      intro i h
      have : i < 11 ∨ 11 ≤ i := by omega
      rcases this with h' | h'
      · revert h; revert i; decide +kernel
      · rw [List.getD_eq_getElem?_getD, List.getElem?_eq_none (by show 11 ≤ _; omega)]; decide) (by
        intro b hb; cases hb; exact (alnum_iff _).1 (by decide +kernel)) (by simp)).2 (by decide +kernel)
  have hparse : Dis.parse latinEnv amigos = .ok [p] := by
    have : (parsePackets latinEnv).run amigos = .ok [p] [] :=
      (parsePackets_iff _ _ _ _).2 ⟨.cons hp (.nil _), by simp, Dis.pdu_short (by decide)⟩
    unfold Dis.parse
    rw [this]
  exact ⟨by decide +kernel, by decide +kernel, ⟨p, hparse, hcut⟩, fun o ho clock e =>
    C65_datagram_panics (env := latinCodec) latin_sanitizes ho clock e hparse ⟨p, by simp, hcut⟩⟩
/-- **C65, violated.** The gateway in full-update mode, the datagram received by a gateway that has done nothing else or anything else: it ends on
every schedule. -/
theorem C65_gateway_violated {o : Options} (ho : o.update_mode = .full) (grow : Nat → Nat) :
    let me := encMachine latinCodec o
    let md := decMachine latinCodec o grow
    (∃ g, Smooth me md (System.start {} {}) g ∧ g.enc.received = [amigos] ∧ g.listening = true ∧ Alive g.enc ∧ Alive g.dec) ∧
    ∀ g g1, System.Reach me md (System.start {} {}) g → g.listening = true → Alive g.enc → Alive g.dec → amigos ∈ g.enc.received →
      Works me md g g1 → ∃ g2, Works me md g1 g2 ∧ (∀ g3, ¬ System.Step me md .work g2 g3) ∧ g2.ended = true := by
  intro me md
  refine ⟨?_, fun g g1 h hl ha hd hr h1 => C65_ends (fun c s => C65_violated.2.2.2 o ho c s) h hl ha hd hr h1⟩
  let g0 : System Encoder DecState := System.start {} {}
  have s1 : System.Step me md .input g0 { g0 with enc := { g0.enc with reader := .holding (amigos.take readerBuffer), received := g0.enc.received ++ [amigos.take readerBuffer] }, events := g0.events } :=
    .encoder g0 .input .silent _ _ rfl (.arrive g0.enc amigos rfl) rfl
  refine ⟨_, .step .here s1 (by simp), ?_, rfl, ?_, ?_⟩
  · exact (List.nil_append _).trans (congrArg (fun x => [x]) (List.take_of_length_le (by rw [C65_violated.1]; decide)))
  · exact ⟨fun h => (by cases h), rfl, fun h => (by cases h)⟩
  · exact ⟨fun h => (by cases h), rfl, fun h => (by cases h)⟩

end Verif.Props
