import Verif.Props.Bodies
import Verif.Dis.Lengths

/-!
# C16 to C24: lengths, packets, panics, truncation, version filters, foreign types, buffers
-/

set_option linter.unusedSimpArgs false
set_option linter.unusedVariables false

namespace Verif.Props
open Verif Verif.Dis Verif.P

/-! ## C16: announced length, octets written, returned count -/

theorem wf_sized {env : Env} {h : PduHeader} {b : Body} (w : b.Wf env h) : b.Sized env h.protocol_version := by
  cases b <;> simp only [Body.Wf, Body.Sized] at w ⊢ <;> first | exact w.2.1 | exact w.2 | exact w.2.2.2.1 | skip
  case signal x => have := w.2.1.data; omega
  case actionResponseR x => exact absurd w.2 id

/-- **C16**, exact accounting for every body kind: the length `finalize_from_parts` announces and the length `pdu_length`
returns agree, and they exceed the number of octets written by `lengthError`; the count that `serialize` returns exceeds it
by `countError`. -/
theorem C16_exact (env : Env) (hd : PduHeader) (b : Body) (ts : UInt32) (h : b.Sized env hd.protocol_version)
    (hs : b.SmallDatums) (hl : 12 + b.bodyLen < 65536) (hc : 12 + b.cnt < 65536) (buf : Bytes) (capacity : Nat)
    (hcap : 12 + b.bodyLen ≤ capacity) :
    let p := Pdu.finalizeFromParts hd b ts
    p.header.pdu_length = p.pduLength
    ∧ (p.pduLength.toNat : Int) = p.ser.length + b.lengthError
    ∧ ∃ n, p.serialize buf capacity = .ok (buf ++ p.ser, n) ∧ (n.toNat : Int) = p.ser.length + b.countError := by
  have e1 := Body.bodyLen_eq h
  have e2 := Body.cnt_eq h hs
  have e3 := toNat_u16_ofNat hl
  have e4 := toNat_u16_ofNat hc
  have e5 := PduHeader.length_ser
    { hd with pdu_type := b.pduType, protocol_family := familyOfType b.pduType, time_stamp := ts,
              pdu_length := UInt16.ofNat (12 + b.bodyLen) }
  refine ⟨rfl, ?_, UInt16.ofNat (12 + b.cnt), ?_, ?_⟩
  · simp only [Pdu.pduLength, Pdu.finalizeFromParts, Pdu.ser, List.length_append, e3, e5]
    omega
  · simp only [Pdu.serialize, Pdu.pduLength, Pdu.finalizeFromParts, e3]
    rw [if_neg (by omega)]
    rfl
  · simp only [Pdu.finalizeFromParts, Pdu.ser, List.length_append, e4, e5]
    omega

/-- The PDU kinds whose announced length or returned count is wrong. -/
def badLength : Body → Bool
  | .entityState _ | .fire _ | .detonation _ | .collision _ | .serviceRequest _ | .resupplyOffer _ | .resupplyReceived _
  | .resupplyCancel _ | .transmitter _ | .iff _ | .isGroupOf _ | .isPartOf _ | .transferOwnership _ | .aggregateState _
  | .recordR _ => true
  | _ => false

/-- **C16** for every body of every other kind: announced length, `pdu_length` and returned count are the number of
octets appended.  Partial: fifteen PDU kinds are excluded; see `C16_length_violated` and `C16_count_violated`. -/
theorem C16_lengths_agree_partial (env : Env) (hd : PduHeader) (b : Body) (ts : UInt32) (h : b.Sized env hd.protocol_version)
    (hs : b.SmallDatums) (hl : 12 + b.bodyLen < 65536) (hc : 12 + b.cnt < 65536) (hb : badLength b = false)
    (buf : Bytes) (capacity : Nat) (hcap : 12 + b.bodyLen ≤ capacity) :
    let p := Pdu.finalizeFromParts hd b ts
    p.header.pdu_length = p.pduLength ∧ p.pduLength.toNat = p.ser.length
    ∧ ∃ n, p.serialize buf capacity = .ok (buf ++ p.ser, n) ∧ n.toNat = p.ser.length := by
  obtain ⟨a, c, n, d, e⟩ := C16_exact env hd b ts h hs hl hc buf capacity hcap
  have z : b.lengthError = 0 ∧ b.countError = 0 := by cases b <;> simp_all [badLength, Body.lengthError, Body.countError]
  rw [z.1] at c
  rw [z.2] at e
  exact ⟨a, by omega, n, d, by omega⟩
example : (Body.eventReport sample_eventReport).Sized sampleEnv 7 ∧ (Body.eventReport sample_eventReport).SmallDatums
    ∧ 12 + (Body.eventReport sample_eventReport).bodyLen < 65536 ∧ 12 + (Body.eventReport sample_eventReport).cnt < 65536
    ∧ badLength (.eventReport sample_eventReport) = false := by
  refine ⟨?_, ?_, ?_, ?_, ?_⟩
  · exact sample_eventReport_ok
  · unfold Body.SmallDatums Datums.Small; decide +kernel
  all_goals decide +kernel

/-- **C16 is violated**: every Fire, Detonation, Collision, Service Request, Resupply Offer, Resupply Received, Resupply
Cancel, Record-R, IFF and IsPartOf PDU announces a length that is not the number of octets it writes. -/
theorem C16_length_violated (env : Env) (hd : PduHeader) (b : Body) (ts : UInt32) (h : b.Sized env hd.protocol_version)
    (hl : 12 + b.bodyLen < 65536)
    (hb : b.pduType ∈ ([2, 3, 4, 5, 6, 7, 8, 28, 36, 63] : List UInt8)) (ho : ∀ x, b ≠ .other x) (hu : ∀ t, b ≠ .unsupported t) :
    (Pdu.finalizeFromParts hd b ts).header.pdu_length.toNat ≠ (Pdu.finalizeFromParts hd b ts).ser.length := by
  have e1 := Body.bodyLen_eq h
  have e3 := toNat_u16_ofNat hl
  have e5 := PduHeader.length_ser
    { hd with pdu_type := b.pduType, protocol_family := familyOfType b.pduType, time_stamp := ts,
              pdu_length := UInt16.ofNat (12 + b.bodyLen) }
  have z : b.lengthError ≠ 0 := by
    cases b <;> simp [Body.pduType, Body.lengthError] at * <;> omega
  simp only [Pdu.finalizeFromParts, Pdu.ser, List.length_append, e3, e5]
  omega

/-- **C16 is violated**: for every Entity State, Transmitter, IsGroupOf, Transfer Ownership and Record-R PDU the count that
`serialize` returns is not the number of octets appended. -/
theorem C16_count_violated (env : Env) (hd : PduHeader) (b : Body) (ts : UInt32) (h : b.Sized env hd.protocol_version)
    (hs : b.SmallDatums) (hl : 12 + b.bodyLen < 65536) (hc : 12 + b.cnt < 65536)
    (hb : b.pduType ∈ ([1, 25, 34, 35, 63] : List UInt8)) (ho : ∀ x, b ≠ .other x) (hu : ∀ t, b ≠ .unsupported t)
    (buf : Bytes) (capacity : Nat) (hcap : 12 + b.bodyLen ≤ capacity) :
    ∃ n, (Pdu.finalizeFromParts hd b ts).serialize buf capacity = .ok (buf ++ (Pdu.finalizeFromParts hd b ts).ser, n)
      ∧ n.toNat ≠ (Pdu.finalizeFromParts hd b ts).ser.length := by
  obtain ⟨_, _, n, d, e⟩ := C16_exact env hd b ts h hs hl hc buf capacity hcap
  have z : b.countError ≠ 0 := by
    cases b <;> simp [Body.pduType, Body.countError] at * <;> omega
  exact ⟨n, d, by omega⟩
example : (Body.fire sample_fire).Sized sampleEnv 7 ∧ (Body.fire sample_fire).pduType = 2
    ∧ (Body.fire sample_fire).bodyLen = 28 ∧ ((Body.fire sample_fire).ser 7).length = 84 := by
  refine ⟨trivial, rfl, ?_, ?_⟩ <;> decide +kernel

/-! ## C17: packets -/

/-- **C17.**  Writing any non-empty list of well-formed PDUs one after the other and parsing the result gives that list;
trailing octets too few to be a header are ignored. -/
theorem C17_packet_round_trip (env : Env) {ps : List Pdu} (h : ∀ p ∈ ps, p.Wf env) (hne : ps ≠ []) (tail : Bytes)
    (ht : tail.length < 12) : parse env (ps.flatMap Pdu.ser ++ tail) = .ok ps := by
  unfold parse
  rw [(parsePackets_iff env _ ps tail).2 ⟨reads_ser h tail, hne, pdu_short ht⟩]
/-- **C17**, general form: whatever follows the PDUs, they come first in the result (unless the parser panics on the rest). -/
theorem C17_prefix (env : Env) {ps : List Pdu} (h : ∀ p ∈ ps, p.Wf env) (tail : Bytes) (qs : List Pdu)
    (hq : parse env (ps.flatMap Pdu.ser ++ tail) = .ok qs) : ∃ more, qs = ps ++ more := by
  unfold parse at hq
  cases hp : (parsePackets env).run (ps.flatMap Pdu.ser ++ tail) with
  | err => rw [hp] at hq; cases hq
  | panic => rw [hp] at hq; cases hq
  | ok as r =>
    rw [hp] at hq
    simp only [Outcome.ok.injEq] at hq
    subst hq
    obtain ⟨hr, hne, he⟩ := (parsePackets_iff env _ _ _).1 hp
    clear hp hne
    induction ps generalizing as with
    | nil => exact ⟨as, rfl⟩
    | cons p ps ih =>
      rw [List.flatMap_cons, List.append_assoc] at hr
      have hp := pdu_ser (h p (by simp)) (ps.flatMap Pdu.ser ++ tail)
      cases hr with
      | nil => rw [hp] at he; cases he
      | cons h1 h2 =>
        rw [hp] at h1
        simp only [Res.ok.injEq] at h1
        obtain ⟨rfl, rfl⟩ := h1
        obtain ⟨m, rfl⟩ := ih (fun q hq => h q (by simp [hq])) _ h2
        exact ⟨m, rfl⟩
theorem sample_packet_wf : ∀ p ∈ ([⟨sampleFor 1, .entityState sample_entityState⟩, ⟨sampleFor 2, .fire sample_fire⟩,
    ⟨sampleFor 21, .eventReport sample_eventReport⟩] : List Pdu), p.Wf sampleEnv := by
  intro p hp
  simp only [List.mem_cons, List.not_mem_nil, or_false] at hp
  rcases hp with rfl | rfl | rfl
  · exact ⟨sampleFor_wf _, rfl, sample_entityState_ok⟩
  · exact ⟨sampleFor_wf _, rfl, by decide +kernel⟩
  · exact ⟨sampleFor_wf _, rfl, sample_eventReport_ok⟩
example : parse sampleEnv (([⟨sampleFor 1, .entityState sample_entityState⟩, ⟨sampleFor 2, .fire sample_fire⟩,
    ⟨sampleFor 21, .eventReport sample_eventReport⟩] : List Pdu).flatMap Pdu.ser ++ [1, 2, 3])
    = .ok [⟨sampleFor 1, .entityState sample_entityState⟩, ⟨sampleFor 2, .fire sample_fire⟩,
    ⟨sampleFor 21, .eventReport sample_eventReport⟩] :=
  C17_packet_round_trip sampleEnv sample_packet_wf (by simp) _ (by decide)

/-! ## C18: panics -/

/-- The octets start with a complete Signal PDU whose encoding class is 2 (application-specific data) with fewer than four
octets of data, or 3 (database index) with fewer than twelve. -/
def ShortSignal (bs : Bytes) : Prop :=
  ∃ (hd pre : Bytes) (scheme lenHi lenLo : UInt8) (mid data rest : Bytes),
    bs = hd ++ pre ++ [scheme] ++ mid ++ [lenHi, lenLo] ++ data ++ rest
    ∧ hd.length = 12 ∧ hd[2]? = some 26 ∧ pre.length = 8 ∧ mid.length = 7
    ∧ 2 + (lenHi.toNat * 256 + lenLo.toNat) / 8 = data.length
    ∧ (scheme.toNat / 64 = 2 ∧ data.length < 2 + 4 ∨ scheme.toNat / 64 = 3 ∧ data.length < 2 + 12)

theorem bind_panic {α β : Type} {m : BP α} {f : α → BP β} {bs : Bytes} [hm : Safe m] (h : (m >>= f).run bs = .panic) :
    ∃ a mid, m.run bs = .ok a mid ∧ (f a).run mid = .panic := by
  rw [P.run_bind] at h
  cases hr : m.run bs with
  | ok a mid => rw [hr] at h; exact ⟨a, mid, rfl, h⟩
  | err => rw [hr] at h; cases h
  | panic => exact absurd hr (hm.spec _)

theorem be_u8_ok {bs r : Bytes} {a : UInt8} (h : be_u8.run bs = .ok a r) : bs = a :: r := by
  match bs, h with
  | x :: t, h => simp only [be_u8, Res.ok.injEq] at h; rw [h.1, h.2]
theorem be_u16_ok {bs r : Bytes} {a : UInt16} (h : be_u16.run bs = .ok a r) :
    ∃ x y : UInt8, bs = x :: y :: r ∧ a.toNat = x.toNat * 256 + y.toNat := by
  match bs, h with
  | x :: y :: t, h =>
    simp only [be_u16, Res.ok.injEq] at h
    obtain ⟨rfl, rfl⟩ := h
    refine ⟨x, y, rfl, ?_⟩
    have := x.toNat_lt; have := y.toNat_lt
    rw [UInt16.toNat_ofNat']; omega
theorem take_ok {n : Nat} {bs a r : Bytes} (h : (P.take n : BP Bytes).run bs = .ok a r) : bs = a ++ r ∧ a.length = n := by
  unfold P.take at h
  by_cases hn : n ≤ bs.length
  · simp only [hn, if_true, Res.ok.injEq] at h
    obtain ⟨rfl, rfl⟩ := h
    exact ⟨(List.take_append_drop n bs).symm, by rw [List.length_take]; omega⟩
  · simp [hn] at h

theorem sliceU32_panic {data : Bytes} {i : Nat} (h : data.length < i + 4) : sliceU32 data i = P.panic := by
  unfold sliceU32
  cases hb : be_u32.run (data.drop i) with
  | err => rfl
  | panic => rfl
  | ok v r => have := Exact.spec _ _ _ hb; rw [List.length_drop] at this; omega
theorem sliceU32_ok {data : Bytes} {i : Nat} (h : i + 4 ≤ data.length) : ∃ v, sliceU32 data i = pure v := by
  unfold sliceU32
  have hl : 4 ≤ (data.drop i).length := by rw [List.length_drop]; omega
  match hd : data.drop i, hl with
  | a :: b :: c :: d :: t, _ => exact ⟨_, rfl⟩

/-- The encoding scheme panics exactly on too little data. -/
theorem scheme_panic {w : UInt16} {d r : Bytes} :
    (EncodingScheme.parse w d).run r = .panic ↔
      (w.toNat / 16384 = 2 ∧ d.length < 4 ∨ w.toNat / 16384 = 3 ∧ d.length < 12) := by
  have hw : (w >>> 14).toNat = w.toNat / 16384 := by
    rw [UInt16.toNat_shiftRight]
    have : (14 : UInt16).toNat % 16 = 14 := rfl
    rw [this, Nat.shiftRight_eq_div_pow]
  have hlt : w.toNat / 16384 < 4 := by have := w.toNat_lt; omega
  have key : ∀ k : UInt16, (w >>> 14 = k ↔ w.toNat / 16384 = k.toNat) := by
    intro k; rw [← hw]; exact ⟨fun h => by rw [h], UInt16.toNat.inj⟩
  have k0 := key 0
  have k1 := key 1
  have k2 := key 2
  have k3 := key 3
  have t0 : (0 : UInt16).toNat = 0 := rfl
  have t1 : (1 : UInt16).toNat = 1 := rfl
  have t2 : (2 : UInt16).toNat = 2 := rfl
  have t3 : (3 : UInt16).toNat = 3 := rfl
  rw [t0] at k0; rw [t1] at k1; rw [t2] at k2; rw [t3] at k3
  unfold EncodingScheme.parse
  simp only [k0, k1, k2, k3]
  by_cases c0 : w.toNat / 16384 = 0
  · simp [c0]
  by_cases c1 : w.toNat / 16384 = 1
  · simp [c1]
  by_cases c2 : w.toNat / 16384 = 2
  · by_cases hd : d.length < 4
    · rw [sliceU32_panic (i := 0) (by omega)]; simp [c2, hd]
    · obtain ⟨v, e⟩ := sliceU32_ok (data := d) (i := 0) (by omega)
      rw [e]; simp [c2, hd]
  have c3 : w.toNat / 16384 = 3 := by omega
  by_cases hd : d.length < 12
  · simp only [c3, c0, c1, c2, if_true, if_false, hd, true_and, Nat.reduceEqDiff, false_and, false_or, iff_true]
    by_cases h4 : d.length < 4
    · rw [sliceU32_panic (i := 0) (by omega)]; simp
    obtain ⟨v, e⟩ := sliceU32_ok (data := d) (i := 0) (by omega)
    rw [e]
    by_cases h8 : d.length < 8
    · rw [sliceU32_panic (i := 4) (by omega)]; simp
    obtain ⟨v, e⟩ := sliceU32_ok (data := d) (i := 4) (by omega)
    rw [e, sliceU32_panic (i := 8) (by omega)]; simp
  · obtain ⟨v, e⟩ := sliceU32_ok (data := d) (i := 0) (by omega)
    obtain ⟨v', e'⟩ := sliceU32_ok (data := d) (i := 4) (by omega)
    obtain ⟨v'', e''⟩ := sliceU32_ok (data := d) (i := 8) (by omega)
    rw [e, e', e'']; simp [c3, hd]

/-- A Signal PDU body panics exactly on a short payload of class 2 or 3. -/
theorem signal_panic {bs : Bytes} : Signal.parse.run bs = .panic ↔ ∃ (pre : Bytes) (scheme lenHi lenLo : UInt8) (mid data rest : Bytes),
    bs = pre ++ [scheme] ++ mid ++ [lenHi, lenLo] ++ data ++ rest ∧ pre.length = 8 ∧ mid.length = 7
    ∧ 2 + (lenHi.toNat * 256 + lenLo.toNat) / 8 = data.length
    ∧ (scheme.toNat / 64 = 2 ∧ data.length < 2 + 4 ∨ scheme.toNat / 64 = 3 ∧ data.length < 2 + 12) := by
  constructor
  · intro h
    unfold Signal.parse at h
    obtain ⟨a, b1, h1, h⟩ := bind_panic h
    obtain ⟨b, b2, h2, h⟩ := bind_panic h
    obtain ⟨w, b3, h3, h⟩ := bind_panic h
    obtain ⟨t, b4, h4, h⟩ := bind_panic h
    obtain ⟨sr, b5, h5, h⟩ := bind_panic h
    obtain ⟨n, b6, h6, h⟩ := bind_panic h
    obtain ⟨s, b7, h7, h⟩ := bind_panic h
    obtain ⟨d, b8, h8, h⟩ := bind_panic h
    rw [P.run_bind] at h
    have hp : (EncodingScheme.parse w d).run b8 = .panic := by
      cases he : (EncodingScheme.parse w d).run b8 with
      | panic => rfl
      | err => rw [he] at h; cases h
      | ok v r => rw [he] at h; cases h
    have hp := scheme_panic.1 hp
    obtain ⟨c1, e1, _⟩ := Stable.spec _ _ _ h1
    have l1 : bs.length = b1.length + 6 := by
      unfold EntityId.parse SimulationAddress.parse at h1
      obtain ⟨x, m1, i1, h1⟩ := bind_ok h1
      obtain ⟨y, m2, i2, h1⟩ := bind_ok h1
      simp only [P.run_pure, Res.ok.injEq] at h1
      obtain ⟨x1, m3, i3, i1⟩ := bind_ok i1
      obtain ⟨x2, m4, i4, i1⟩ := bind_ok i1
      simp only [P.run_pure, Res.ok.injEq] at i1
      have := Exact.spec _ _ _ i3
      have := Exact.spec _ _ _ i4
      have := Exact.spec _ _ _ i2
      rw [← h1.2]
      rw [← i1.2] at *
      omega
    obtain ⟨x2, y2, e2, _⟩ := be_u16_ok h2
    obtain ⟨x3, y3, e3, v3⟩ := be_u16_ok h3
    obtain ⟨x4, y4, e4, _⟩ := be_u16_ok h4
    obtain ⟨c5, e5, _⟩ := Stable.spec _ _ _ h5
    have l5 := Exact.spec _ _ _ h5
    obtain ⟨x6, y6, e6, v6⟩ := be_u16_ok h6
    obtain ⟨x7, y7, e7, _⟩ := be_u16_ok h7
    obtain ⟨e8, l8⟩ := take_ok h8
    refine ⟨c1 ++ [x2, y2], x3, x6, y6, [y3, x4, y4] ++ c5, [x7, y7] ++ d, b8, ?_, ?_, ?_, ?_, ?_⟩
    · rw [e1, e2, e3, e4, e5, e6, e7, e8]; simp
    · rw [e1, List.length_append] at l1; simp only [List.length_append, List.length_cons, List.length_nil]; omega
    · rw [e5, List.length_append] at l5; simp only [List.length_append, List.length_cons, List.length_nil]; omega
    · simp only [List.length_append, List.length_cons, List.length_nil, l8, v6]
    · have := y3.toNat_lt
      simp only [List.length_append, List.length_cons, List.length_nil]
      omega
  · rintro ⟨pre, scheme, lenHi, lenLo, mid, data, rest, rfl, hpre, hmid, hdata, hshort⟩
    match pre, hpre with
    | [p0, p1, p2, p3, p4, p5, p6, p7], _ =>
    match mid, hmid with
    | [m0, m1, m2, m3, m4, m5, m6], _ =>
    match data, hdata with
    | [], hdata => simp at hdata
    | [_], hdata => simp at hdata; omega
    | d0 :: d1 :: data, hdata =>
    simp only [List.length_cons] at hdata hshort
    have hs := scheme.toNat_lt
    have hm := m0.toNat_lt
    have l1 := lenHi.toNat_lt
    have l2 := lenLo.toNat_lt
    have hn : (UInt16.ofNat (lenHi.toNat * 256 + lenLo.toNat)).toNat = lenHi.toNat * 256 + lenLo.toNat := toNat_u16_ofNat (by omega)
    have hw : (UInt16.ofNat (scheme.toNat * 256 + m0.toNat)).toNat = scheme.toNat * 256 + m0.toNat := toNat_u16_ofNat (by omega)
    have ht : (P.take ((UInt16.ofNat (lenHi.toNat * 256 + lenLo.toNat)).toNat / 8) : BP Bytes).run (data ++ rest) = .ok data rest :=
      P.run_take _ _ _ (by rw [hn]; omega)
    have hp : (EncodingScheme.parse (UInt16.ofNat (scheme.toNat * 256 + m0.toNat)) data).run rest = .panic :=
      scheme_panic.2 (by rw [hw]; omega)
    generalize hG : UInt16.ofNat (lenHi.toNat * 256 + lenLo.toNat) = G at ht
    generalize hW : UInt16.ofNat (scheme.toNat * 256 + m0.toNat) = W at hp
    simp only [Signal.parse, EntityId.parse, SimulationAddress.parse, P.run_bind, P.run_pure, be_u16, be_u32, Res.andThen,
      List.cons_append, List.nil_append, hG, hW, ht, hp]

theorem header_run (b0 b1 b2 b3 b4 b5 b6 b7 b8 b9 b10 b11 : UInt8) (r : Bytes) :
    ∃ h, PduHeader.parse.run ([b0, b1, b2, b3, b4, b5, b6, b7, b8, b9, b10, b11] ++ r) = .ok h r ∧ h.pdu_type = b2 := by
  simp only [PduHeader.parse, be_u8, be_u16, be_u32, P.run_bind, Res.andThen, List.cons_append, List.nil_append]
  split
  · simp [be_u8, be_u16, P.run_bind, Res.andThen]
  · simp [be_u8, be_u16, P.run_bind, Res.andThen]

/-- The type of a PDU is its third octet. -/
theorem header_type {bs mid : Bytes} {h : PduHeader} (e : PduHeader.parse.run bs = .ok h mid) :
    ∃ hd, bs = hd ++ mid ∧ hd.length = 12 ∧ hd[2]? = some h.pdu_type := by
  have hl := PduHeader.parse_exact.spec _ _ _ e
  obtain ⟨c, e1, _⟩ := Stable.spec _ _ _ e
  have hc : c.length = 12 := by rw [e1, List.length_append] at hl; omega
  match c, hc with
  | [b0, b1, b2, b3, b4, b5, b6, b7, b8, b9, b10, b11], _ =>
    obtain ⟨h', e2, e3⟩ := header_run b0 b1 b2 b3 b4 b5 b6 b7 b8 b9 b10 b11 mid
    rw [← e1, e] at e2
    simp only [Res.ok.injEq] at e2
    refine ⟨_, e1, rfl, ?_⟩
    rw [e2.1, e3]; rfl

theorem manyLoop_not_err {env : Env} : ∀ (fuel : Nat) (bs : Bytes), bs.length < fuel → P.manyLoop (pdu env) fuel bs ≠ .err := by
  intro fuel
  induction fuel with
  | zero => intro bs h; omega
  | succ fuel ih =>
    intro bs hl
    unfold P.manyLoop
    cases hp : (pdu env).run bs with
    | err => simp
    | panic => simp
    | ok a mid =>
      have hc := pdu_consumes hp
      simp only
      rw [if_neg (by omega)]
      have := ih mid (by omega)
      cases hm : P.manyLoop (pdu env) fuel mid with
      | err => exact absurd hm this
      | panic => simp
      | ok as r => simp [Res.andThen]

/-- If after some PDUs reading neither succeeds nor reports an error, no reading of the input ends with an error. -/
theorem reads_unique {env : Env} {bs r r' : Bytes} {ps qs : List Pdu} (h : Reads env bs ps r) (h' : Reads env bs qs r')
    (hn : (pdu env).run r = .panic) (he : (pdu env).run r' = .err) : False := by
  induction h generalizing qs with
  | nil r =>
    cases h' with
    | nil => rw [hn] at he; cases he
    | cons h1 _ => rw [hn] at h1; cases h1
  | cons h1 _ ih =>
    cases h' with
    | nil => rw [h1] at he; cases he
    | cons h2 h3 =>
      rw [h1] at h2
      simp only [Res.ok.injEq] at h2
      obtain ⟨rfl, rfl⟩ := h2
      exact ih h3 hn

/-- In a build without overflow checks the PDU parser panics exactly on short Signal PDUs. -/
theorem pdu_panic_iff {env : Env} (hc : env.checked = false) (bs : Bytes) : (pdu env).run bs = .panic ↔ ShortSignal bs := by
  constructor
  · intro h
    obtain ⟨hd, mid, h1, h2⟩ := pdu_panic h
    have ht : hd.pdu_type = 26 := by
      by_cases ht : hd.pdu_type = 26
      · exact ht
      · exact absurd h2 ((parseBody_safe hc ht).spec _)
    rw [parseBody_signal env ht, P.run_bind] at h2
    have h3 : Signal.parse.run mid = .panic := by
      cases hs : Signal.parse.run mid with
      | panic => rfl
      | err => rw [hs] at h2; cases h2
      | ok a r => rw [hs] at h2; cases h2
    obtain ⟨hb, e1, l1, t1⟩ := header_type h1
    obtain ⟨pre, scheme, lenHi, lenLo, m, data, rest, e2, hpre, hmid, hdata, hshort⟩ := signal_panic.1 h3
    rw [ht] at t1
    exact ⟨hb, pre, scheme, lenHi, lenLo, m, data, rest, by rw [e1, e2]; simp only [List.append_assoc], l1, t1, hpre, hmid, hdata, hshort⟩
  · rintro ⟨hb, pre, scheme, lenHi, lenLo, m, data, rest, rfl, l1, t1, hpre, hmid, hdata, hshort⟩
    match hb, l1 with
    | [b0, b1, b2, b3, b4, b5, b6, b7, b8, b9, b10, b11], _ =>
      obtain ⟨h, e1, e2⟩ := header_run b0 b1 b2 b3 b4 b5 b6 b7 b8 b9 b10 b11
        (pre ++ [scheme] ++ m ++ [lenHi, lenLo] ++ data ++ rest)
      have ht : h.pdu_type = 26 := by rw [e2]; simpa using t1
      have hs := signal_panic.2 ⟨pre, scheme, lenHi, lenLo, m, data, rest, rfl, hpre, hmid, hdata, hshort⟩
      simp only [List.append_assoc] at e1 hs ⊢
      rw [pdu, P.run_bind, e1]
      simp only [Res.andThen]
      rw [P.run_bind, parseBody_signal env ht, P.run_bind, hs]
      rfl

/-- **C18**, exact, for builds without integer overflow checks (release): `parse` panics on an input if and only if the
input is some PDUs followed by a Signal PDU with too short a payload for its encoding class.  Every other input gives a value
or an error. -/
theorem C18_panic_iff (env : Env) (hc : env.checked = false) (bs : Bytes) :
    parse env bs = .panic ↔ ∃ ps r, Reads env bs ps r ∧ ShortSignal r := by
  have hp : parse env bs = .panic ↔ (parsePackets env).run bs = .panic := by
    unfold parse
    cases (parsePackets env).run bs <;> simp
  rw [hp]
  constructor
  · intro h
    obtain ⟨ps, r, h1, h2⟩ := parsePackets_panic h
    exact ⟨ps, r, h1, (pdu_panic_iff hc r).1 h2⟩
  · rintro ⟨ps, r, h1, h2⟩
    have h2 := (pdu_panic_iff hc r).2 h2
    cases hr : (parsePackets env).run bs with
    | panic => rfl
    | err =>
      exfalso
      cases h1 with
      | nil =>
        unfold parsePackets P.many1 at hr
        simp only [h2] at hr
        cases hr
      | cons h1 h3 =>
        unfold parsePackets P.many1 at hr
        simp only [h1] at hr
        cases hm : P.manyLoop (pdu env) _ _ with
        | err => exact manyLoop_not_err _ _ (Nat.lt_succ_self _) hm
        | panic => rw [hm] at hr; cases hr
        | ok as r2 => rw [hm] at hr; cases hr
    | ok qs r' =>
      exfalso
      obtain ⟨h3, _, h4⟩ := (parsePackets_iff env _ _ _).1 hr
      exact reads_unique h1 h3 h2 h4

/-- No panic on inputs shorter than `n`. -/
def Below (n : Nat) {α : Type} (p : BP α) : Prop := ∀ bs, bs.length < n → p.run bs ≠ .panic
theorem Below.of_safe {n : Nat} {α : Type} {p : BP α} [h : Safe p] : Below n p := fun bs _ => h.spec bs
theorem Below.bind {n : Nat} {α β : Type} {m : BP α} {f : α → BP β} [hs : Stable m] (hm : Below n m) (hf : ∀ a, Below n (f a)) :
    Below n (m >>= f) := by
  intro bs hl h
  rw [P.run_bind] at h
  cases hr : m.run bs with
  | err => rw [hr] at h; cases h
  | panic => exact hm _ hl hr
  | ok a mid =>
    rw [hr] at h
    obtain ⟨c, e, _⟩ := Stable.spec _ _ _ hr
    refine hf a mid ?_ h
    rw [e, List.length_append] at hl; omega
theorem Below.count {n : Nat} {α : Type} {p : BP α} [hs : Stable p] (hp : Below n p) (k : Nat) : Below n (P.count p k) := by
  induction k with
  | zero => unfold P.count; exact Below.of_safe
  | succ k ih =>
    unfold P.count
    exact Below.bind hp fun a => Below.bind ih fun as => Below.of_safe

theorem count_exact {α : Type} {p : BP α} {n : Nat} [hp : Exact p n] : ∀ (k : Nat) (bs : Bytes) (l : List α) (r : Bytes),
    (P.count p k).run bs = .ok l r → bs.length = r.length + n * k ∧ l.length = k := by
  intro k
  induction k with
  | zero =>
    intro bs l r h
    simp only [P.count, P.run_pure, Res.ok.injEq] at h
    obtain ⟨rfl, rfl⟩ := h
    simp
  | succ k ih =>
    intro bs l r h
    unfold P.count at h
    obtain ⟨a, m1, h1, h⟩ := bind_ok h
    obtain ⟨as, m2, h2, h⟩ := bind_ok h
    simp only [P.run_pure, Res.ok.injEq] at h
    obtain ⟨rfl, rfl⟩ := h
    have e1 := Exact.spec _ _ _ h1
    obtain ⟨e2, e3⟩ := ih _ _ _ h2
    simp only [List.length_cons, e3, Nat.mul_succ, and_true]
    omega

theorem recordSet_below (c : Bool) : Below 65524 (RecordSet.parse c) := by
  intro bs hl h
  unfold RecordSet.parse at h
  obtain ⟨_, b1, h1, h⟩ := bind_panic h
  obtain ⟨_, b2, h2, h⟩ := bind_panic h
  obtain ⟨_, b3, h3, h⟩ := bind_panic h
  obtain ⟨bits, b4, h4, h⟩ := bind_panic h
  obtain ⟨n, b5, h5, h⟩ := bind_panic h
  obtain ⟨rs, b6, h6, h⟩ := bind_panic h
  have := Exact.spec _ _ _ h1
  have := Exact.spec _ _ _ h2
  have := Exact.spec _ _ _ h3
  have := Exact.spec _ _ _ h4
  have := Exact.spec _ _ _ h5
  have := (count_exact _ _ _ _ h6).1
  rw [if_neg (by simp only [Bool.and_eq_true, decide_eq_true_eq, not_and, Nat.not_le]; intro _; omega)] at h
  obtain ⟨_, _, _, h⟩ := bind_panic h
  cases h
theorem recordSpecification_below (c : Bool) : Below 65524 (RecordSpecification.parse c) := by
  unfold RecordSpecification.parse
  exact Below.bind Below.of_safe fun n => Below.count (recordSet_below c) _
theorem recordR_below (c : Bool) : Below 65524 (RecordR.parse c) := by
  unfold RecordR.parse
  have := recordSpecification_below c
  repeat' (first | exact this | exact Below.of_safe | apply Below.bind | intro _)
theorem setRecordR_below (c : Bool) : Below 65524 (SetRecordR.parse c) := by
  unfold SetRecordR.parse
  have := recordSpecification_below c
  repeat' (first | exact this | exact Below.of_safe | apply Below.bind | intro _)
theorem transferOwnership_below (c : Bool) : Below 65524 (TransferOwnership.parse c) := by
  unfold TransferOwnership.parse
  have := recordSpecification_below c
  repeat' (first | exact this | exact Below.of_safe | apply Below.bind | intro _)
instance : Exact EntityId.parse 6 := by
  unfold EntityId.parse SimulationAddress.parse
  exact Exact.bind (k := 4) (n := 2) (Exact.bind (k := 2) (n := 2) inferInstance fun _ =>
    Exact.bind (k := 2) (n := 0) inferInstance fun _ => inferInstance) fun _ => Exact.bind (k := 2) (n := 0) inferInstance fun _ => inferInstance
instance : Exact be_u64 8 where
  spec bs a r h := by
    match bs, h with
    | _ :: _ :: _ :: _ :: _ :: _ :: _ :: _ :: _, h => simp only [be_u64, Res.ok.injEq] at h; rw [← h.2]; rfl
theorem exact_vec : Exact VectorF32.parse 12 := by
  unfold VectorF32.parse
  exact Exact.bind (k := 4) (n := 8) inferInstance fun _ => Exact.bind (k := 4) (n := 4) inferInstance fun _ =>
    Exact.bind (k := 4) (n := 0) inferInstance fun _ => inferInstance
theorem exact_ori : Exact Orientation.parse 12 := by
  unfold Orientation.parse
  exact Exact.bind (k := 4) (n := 8) inferInstance fun _ => Exact.bind (k := 4) (n := 4) inferInstance fun _ =>
    Exact.bind (k := 4) (n := 0) inferInstance fun _ => inferInstance
theorem exact_loc : Exact Location.parse 24 := by
  unfold Location.parse
  exact Exact.bind (k := 8) (n := 16) inferInstance fun _ => Exact.bind (k := 8) (n := 8) inferInstance fun _ =>
    Exact.bind (k := 8) (n := 0) inferInstance fun _ => inferInstance
theorem exact_mark (env : Env) : Exact (AggregateMarking.parse env) 32 := by
  unfold AggregateMarking.parse
  exact Exact.bind (k := 1) (n := 31) inferInstance fun _ => Exact.bind (k := 31) (n := 0) inferInstance fun _ => inferInstance
theorem exact_type : Exact AggregateType.parse 8 := by
  unfold AggregateType.parse
  exact Exact.bind (k := 1) (n := 7) inferInstance fun _ => Exact.bind (k := 1) (n := 6) inferInstance fun _ =>
    Exact.bind (k := 2) (n := 4) inferInstance fun _ => Exact.bind (k := 1) (n := 3) inferInstance fun _ =>
    Exact.bind (k := 1) (n := 2) inferInstance fun _ => Exact.bind (k := 1) (n := 1) inferInstance fun _ =>
    Exact.bind (k := 1) (n := 0) inferInstance fun _ => inferInstance
theorem aggregateState_below (env : Env) : Below 65524 (AggregateState.parse env) := by
  intro bs hl h
  unfold AggregateState.parse at h
  obtain ⟨_, b1, h1, h⟩ := bind_panic h
  obtain ⟨_, b2, h2, h⟩ := bind_panic h
  obtain ⟨_, b3, h3, h⟩ := bind_panic h
  obtain ⟨_, b4, h4, h⟩ := bind_panic h
  obtain ⟨_, b5, h5, h⟩ := bind_panic h
  obtain ⟨_, b6, h6, h⟩ := bind_panic h
  obtain ⟨_, b7, h7, h⟩ := bind_panic h
  obtain ⟨_, b8, h8, h⟩ := bind_panic h
  obtain ⟨_, b9, h9, h⟩ := bind_panic h
  obtain ⟨_, b10, h10, h⟩ := bind_panic h
  obtain ⟨na, b11, h11, h⟩ := bind_panic h
  obtain ⟨ne, b12, h12, h⟩ := bind_panic h
  obtain ⟨_, b13, h13, h⟩ := bind_panic h
  obtain ⟨_, b14, h14, h⟩ := bind_panic h
  obtain ⟨ag, b15, h15, h⟩ := bind_panic h
  obtain ⟨en, b16, h16, h⟩ := bind_panic h
  have := Exact.spec _ _ _ h1
  have := Exact.spec _ _ _ h2
  have := Exact.spec _ _ _ h3
  have := exact_type.spec _ _ _ h4
  have := Exact.spec _ _ _ h5
  have := (exact_mark env).spec _ _ _ h6
  have := exact_vec.spec _ _ _ h7
  have := exact_ori.spec _ _ _ h8
  have := exact_loc.spec _ _ _ h9
  have := exact_vec.spec _ _ _ h10
  have := Exact.spec _ _ _ h11
  have := Exact.spec _ _ _ h12
  have := Exact.spec _ _ _ h13
  have := Exact.spec _ _ _ h14
  have l1 := count_exact _ _ _ _ h15
  have l2 := count_exact _ _ _ _ h16
  have key : aggregateIntermediate ag.length en.length < 65536 := by
    unfold aggregateIntermediate
    omega
  rw [if_neg (by omega)] at h
  have s : ∀ p : BP AggregateState, Safe p → p.run b16 ≠ .panic := fun p hp => hp.spec _
  exact s _ (by parser_ok) h

/-- Which body parsers can panic at all, in any build. -/
theorem parseBody_safe' (env : Env) {h : PduHeader} (hs : h.pdu_type ∉ ([25, 26, 33, 35, 63, 64] : List UInt8)) : Safe (parseBody env h) := by
  simp only [List.mem_cons, List.not_mem_nil, or_false, not_or] at hs
  unfold parseBody
  simp only [hs, if_false]
  parser_ok

/-- **C18**, any build: a panic comes from a Transmitter, Signal, Aggregate State, Transfer Ownership, Record-R or
Set Record-R PDU; all other input gives a value or an error.  Partial: for these six types the full statement is false;
see the counterexamples and `C18_panic_iff`. -/
theorem C18_total_partial (env : Env) (bs : Bytes) (h : parse env bs = .panic) :
    ∃ ps hd mid, Reads env bs ps (hd ++ mid) ∧ hd.length = 12
      ∧ ∃ t ∈ ([25, 26, 33, 35, 63, 64] : List UInt8), hd[2]? = some t := by
  have hp : (parsePackets env).run bs = .panic := by
    unfold parse at h
    cases hr : (parsePackets env).run bs <;> rw [hr] at h <;> first | rfl | cases h
  obtain ⟨ps, r, h1, h2⟩ := parsePackets_panic hp
  obtain ⟨hd, mid, h3, h4⟩ := pdu_panic h2
  obtain ⟨hb, e, l, t⟩ := header_type h3
  refine ⟨ps, hb, mid, e ▸ h1, l, hd.pdu_type, ?_, t⟩
  by_cases hs : hd.pdu_type ∈ ([25, 26, 33, 35, 63, 64] : List UInt8)
  · exact hs
  · exact absurd h4 ((parseBody_safe' env hs).spec _)

/-- **C18**, any build, inputs that fit a UDP datagram (shorter than 64 KiB): only Transmitter and Signal PDUs can cause a
panic. -/
theorem C18_datagram_partial (env : Env) (bs : Bytes) (hl : bs.length < 65536) (h : parse env bs = .panic) :
    ∃ ps hd mid, Reads env bs ps (hd ++ mid) ∧ hd.length = 12 ∧ (hd[2]? = some 25 ∨ hd[2]? = some 26) := by
  have hp : (parsePackets env).run bs = .panic := by
    unfold parse at h
    cases hr : (parsePackets env).run bs <;> rw [hr] at h <;> first | rfl | cases h
  obtain ⟨ps, r, h1, h2⟩ := parsePackets_panic hp
  obtain ⟨hd, mid, h3, h4⟩ := pdu_panic h2
  obtain ⟨hb, e, l, t⟩ := header_type h3
  have hr := h1.length
  have hm : mid.length < 65524 := by rw [e, List.length_append] at hr; omega
  refine ⟨ps, hb, mid, e ▸ h1, l, ?_⟩
  have key : hd.pdu_type ∈ ([25, 26, 33, 35, 63, 64] : List UInt8) := by
    by_cases hs : hd.pdu_type ∈ ([25, 26, 33, 35, 63, 64] : List UInt8)
    · exact hs
    · exact absurd h4 ((parseBody_safe' env hs).spec _)
  have lift : ∀ {α : Type} {p : BP α} {f : α → Body} [Stable p], Below 65524 p → (do let x ← p; pure (f x)).run mid ≠ .panic :=
    fun hp => Below.bind hp (fun _ => Below.of_safe) mid hm
  simp only [List.mem_cons, List.not_mem_nil, or_false] at key
  rcases key with k | k | k | k | k | k
  · exact .inl (k ▸ t)
  · exact .inr (k ▸ t)
  · rw [parseBody_aggregateState env k] at h4; exact absurd h4 (lift (aggregateState_below env))
  · rw [parseBody_transferOwnership env k] at h4; exact absurd h4 (lift (transferOwnership_below _))
  · rw [parseBody_recordR env k] at h4; exact absurd h4 (lift (recordR_below _))
  · rw [parseBody_setRecordR env k] at h4; exact absurd h4 (lift (setRecordR_below _))

/-- **C18 is violated**: a Signal PDU of class 2 without data makes `parse` panic, in every build. -/
def signalBomb : Bytes := [7, 1, 26, 4] ++ zeros 8 ++ zeros 8 ++ [0x80] ++ zeros 11
theorem C18_signal_panics (env : Env) : parse env signalBomb = .panic := by
  cases hp : parse { env with checked := false } signalBomb with
  | panic =>
    have : parse env signalBomb = parse { env with checked := false } signalBomb := by rfl
    rw [this, hp]
  | error =>
    have h := (C18_panic_iff { env with checked := false } rfl signalBomb).2 ⟨[], _, .nil _, [7, 1, 26, 4] ++ zeros 8, zeros 8, 0x80, 0, 0, zeros 7,
      zeros 2, [], by decide, by decide, by decide, by decide, by decide, by decide, by decide⟩
    rw [hp] at h; cases h
  | ok ps =>
    have h := (C18_panic_iff { env with checked := false } rfl signalBomb).2 ⟨[], _, .nil _, [7, 1, 26, 4] ++ zeros 8, zeros 8, 0x80, 0, 0, zeros 7,
      zeros 2, [], by decide, by decide, by decide, by decide, by decide, by decide, by decide⟩
    rw [hp] at h; cases h

/-- **C18 is violated**: a version 7 Transmitter PDU of 116 octets whose only variable parameter record announces a
length below its own header makes a checked build panic; a release build reports an error for the same octets. -/
def transmitterBomb : Bytes := [7, 1, 25, 4] ++ zeros 8 ++ zeros 19 ++ [1] ++ zeros 84
theorem C18_transmitter_panics : parse sampleEnv transmitterBomb = .panic
    ∧ parse { sampleEnv with checked := false } transmitterBomb = .error := by
  constructor <;> decide +kernel

/-! ## C19: only the consumed octets matter -/

/-- **C19.**  A PDU read from some input is determined by the octets consumed, and so is a panic. -/
theorem C19_prefix_determined (env : Env) (bs : Bytes) :
    (∀ p r, (pdu env).run bs = .ok p r → ∃ c, bs = c ++ r ∧ ∀ r', (pdu env).run (c ++ r') = .ok p r')
    ∧ ((pdu env).run bs = .panic → ∀ e, (pdu env).run (bs ++ e) = .panic) :=
  ⟨fun p r h => Stable.spec bs p r h, fun h e => Stable.crash bs e h⟩
/-- **C19** for packets: PDUs already complete are not affected by what comes later. -/
theorem C19_packet (env : Env) {bs r : Bytes} {ps : List Pdu} (h : Reads env bs ps r) :
    ∃ c, bs = c ++ r ∧ ∀ r', Reads env (c ++ r') ps r' := by
  induction h with
  | nil r => exact ⟨[], rfl, fun r' => .nil r'⟩
  | cons h1 _ ih =>
    obtain ⟨c1, e1, s1⟩ := Stable.spec _ _ _ h1
    obtain ⟨c2, e2, s2⟩ := ih
    exact ⟨c1 ++ c2, by rw [e1, e2, List.append_assoc], fun r' => .cons (List.append_assoc c1 c2 r' ▸ s1 (c2 ++ r')) (s2 r')⟩
example : ∃ r, (pdu sampleEnv).run (Pdu.ser ⟨sampleFor 2, .fire sample_fire⟩ ++ [1, 2, 3]) = .ok ⟨sampleFor 2, .fire sample_fire⟩ r :=
  ⟨_, C09_fire_round_trip sampleEnv (sampleFor_wf 2) rfl (by decide +kernel) [1, 2, 3]⟩

/-! ## C20: truncation -/

/-- **C20.**  A strict prefix of a PDU is rejected with an error (it neither gives a PDU nor panics). -/
theorem C20_truncated (env : Env) {p : Pdu} (h : p.Wf env) {c d : Bytes} (e : p.ser = c ++ d) (hd : d ≠ []) :
    (pdu env).run c = .err ∧ parse env c = .error := by
  have h1 : (pdu env).run c = .err :=
    Stable.prefix_err inferInstance (bs := p.ser) (a := p) (by have := pdu_ser h []; rwa [List.append_nil] at this) e hd
  refine ⟨h1, ?_⟩
  unfold parse parsePackets P.many1
  simp only [h1]
/-- **C20** for packets: a packet cut in the middle of a PDU gives the PDUs before it. -/
theorem C20_truncated_packet (env : Env) {ps : List Pdu} (h : ∀ p ∈ ps, p.Wf env) (hne : ps ≠ []) {p : Pdu} (hp : p.Wf env)
    {c d : Bytes} (e : p.ser = c ++ d) (hd : d ≠ []) : parse env (ps.flatMap Pdu.ser ++ c) = .ok ps := by
  unfold parse
  rw [(parsePackets_iff env _ ps c).2 ⟨reads_ser h c, hne, (C20_truncated env hp e hd).1⟩]
example : ∃ c d, Pdu.ser ⟨sampleFor 2, .fire sample_fire⟩ = c ++ d ∧ d ≠ [] ∧ c.length = 95 :=
  ⟨_, _, (List.take_append_drop 95 _).symm, by decide +kernel, by decide +kernel⟩

/-! ## C21: progress -/

/-- **C21.**  A successful parse returns at least one PDU and at most one for every 12 octets; fewer than 12 octets are an
error. -/
theorem C21_progress (env : Env) (bs : Bytes) :
    (∀ ps, parse env bs = .ok ps → ps ≠ [] ∧ 12 * ps.length ≤ bs.length) ∧ (bs.length < 12 → parse env bs = .error) := by
  constructor
  · intro ps h
    unfold parse at h
    cases hr : (parsePackets env).run bs with
    | err => rw [hr] at h; cases h
    | panic => rw [hr] at h; cases h
    | ok qs r =>
      rw [hr] at h
      simp only [Outcome.ok.injEq] at h
      subst h
      obtain ⟨h1, h2, _⟩ := (parsePackets_iff env _ _ _).1 hr
      exact ⟨h2, by have := h1.length; omega⟩
  · intro h
    unfold parse parsePackets P.many1
    simp only [pdu_short h]

/-! ## C22: version filters -/

/-- **C22.**  `parse_v6` and `parse_v7` succeed exactly when `parse` does, with the PDUs of that version in order. -/
theorem C22_version_filters (env : Env) (bs : Bytes) :
    (∀ qs, parseV6 env bs = .ok qs ↔ ∃ ps, parse env bs = .ok ps ∧ qs = ps.filter (fun p => p.header.protocol_version == 6))
    ∧ (∀ qs, parseV7 env bs = .ok qs ↔ ∃ ps, parse env bs = .ok ps ∧ qs = ps.filter (fun p => p.header.protocol_version == 7))
    ∧ (parseV6 env bs = .error ↔ parse env bs = .error) ∧ (parseV7 env bs = .error ↔ parse env bs = .error)
    ∧ (parseV6 env bs = .panic ↔ parse env bs = .panic) ∧ (parseV7 env bs = .panic ↔ parse env bs = .panic) := by
  unfold parseV6 parseV7
  have e : ∀ v : UInt8, (fun p : Pdu => decide (p.header.protocol_version = v)) = (fun p => p.header.protocol_version == v) := by
    intro v; funext p; by_cases h : p.header.protocol_version = v <;> simp [h]
  cases parse env bs <;> simp [eq_comm, e]
/-- **C22**, end to end: from a packet of well-formed PDUs `parse_v6` picks those of version 6, `parse_v7` those of
version 7; each returned PDU is of that version and none of that version is missed. -/
theorem C22_packet (env : Env) {ps : List Pdu} (h : ∀ p ∈ ps, p.Wf env) (hne : ps ≠ []) :
    ∃ q6 q7, parseV6 env (ps.flatMap Pdu.ser) = .ok q6 ∧ parseV7 env (ps.flatMap Pdu.ser) = .ok q7
      ∧ q6.Sublist ps ∧ q7.Sublist ps
      ∧ (∀ p, p ∈ q6 ↔ p ∈ ps ∧ p.header.protocol_version = 6) ∧ (∀ p, p ∈ q7 ↔ p ∈ ps ∧ p.header.protocol_version = 7) := by
  have e := C17_packet_round_trip env h hne [] (by decide)
  rw [List.append_nil] at e
  refine ⟨_, _, ((C22_version_filters env _).1 _).2 ⟨ps, e, rfl⟩, ((C22_version_filters env _).2.1 _).2 ⟨ps, e, rfl⟩,
    List.filter_sublist, List.filter_sublist, ?_, ?_⟩ <;> intro p <;> simp

/-! ## C23: types without a parser -/

/-- **C23.**  A PDU of a type the library has no parser for is returned as `Other` with exactly the octets its length
field announces (none if the field is below 12), whatever they are; if they are missing it is an error. -/
theorem C23_foreign_type (env : Env) {h : PduHeader} (hh : h.Wf) (ht : h.pdu_type ∉ supportedTypes) (rest : Bytes) :
    (∀ body tail, rest = body ++ tail → body.length = h.pdu_length.toNat - 12 →
      (pdu env).run (h.ser ++ rest) = .ok ⟨h, .other ⟨none, none, body⟩⟩ tail)
    ∧ (rest.length < h.pdu_length.toNat - 12 → (pdu env).run (h.ser ++ rest) = .err) := by
  constructor
  · rintro body tail rfl hl
    simp only [pdu, P.run_bind, PduHeader.parse_ser hh, Res.andThen, parseBody_other env ht, Other.parse, P.run_take _ _ _ hl, rt]
  · intro hl
    have hn : ¬ h.pdu_length.toNat - 12 ≤ rest.length := by omega
    simp only [pdu, P.run_bind, PduHeader.parse_ser hh, Res.andThen, parseBody_other env ht, Other.parse, P.take, hn, if_false]
/-- The types without a parser: 0, 31, 32, 37 to 50, 68 to 71 and everything above 72. -/
theorem C23_which_types : ∀ t : UInt8, t ∉ supportedTypes ↔
    t.toNat = 0 ∨ t.toNat = 31 ∨ t.toNat = 32 ∨ (37 ≤ t.toNat ∧ t.toNat ≤ 50) ∨ (68 ≤ t.toNat ∧ t.toNat ≤ 71) ∨ 73 ≤ t.toNat :=
  all_u8 (by decide +kernel)
example : (sampleFor 200).Wf ∧ (sampleFor 200).pdu_type ∉ supportedTypes := ⟨sampleFor_wf 200, by decide⟩

/-! ## C24: buffer capacity -/

/-- **C24.**  `serialize` fails exactly when the PDU's length exceeds the capacity of the buffer, reporting both; otherwise
it appends the PDU to the contents. -/
theorem C24_capacity (p : Pdu) (buf : Bytes) (capacity : Nat) :
    (p.pduLength.toNat > capacity → p.serialize buf capacity = .error (p.pduLength, capacity))
    ∧ (p.pduLength.toNat ≤ capacity → ∃ n, p.serialize buf capacity = .ok (buf ++ p.ser, n)) := by
  unfold Pdu.serialize
  constructor
  · intro h; rw [if_pos h]
  · intro h; rw [if_neg (by omega)]; exact ⟨_, rfl⟩
/-- The check is made with the announced length: a Fire PDU (C16: announced 40 octets, 96 written) passes it with a buffer
of 40 octets and overruns that capacity. -/
theorem C24_fire_overruns (hd : PduHeader) (x : Fire) (ts : UInt32) (buf : Bytes) :
    ∃ out n, (Pdu.finalizeFromParts hd (.fire x) ts).serialize buf 40 = .ok (buf ++ out, n) ∧ out.length = 96 := by
  obtain ⟨n, h⟩ := (C24_capacity (Pdu.finalizeFromParts hd (.fire x) ts) buf 40).2 (by
    simp only [Pdu.pduLength, Pdu.finalizeFromParts, Body.bodyLen, Fire.bodyLen]
    decide)
  refine ⟨_, n, h, ?_⟩
  have := Fire.length_ser x
  simp only [Pdu.ser, Pdu.finalizeFromParts, List.length_append, PduHeader.length_ser, Body.ser]
  omega

/-- **C16 is violated** by large datums too: for a Comment PDU with a datum of 8192 octets or more (a multiple of eight, so without
padding) the count that `serialize` returns is too small by the multiple of 8192 octets in the datum. -/
theorem C16_large_datum_violated (hd : PduHeader) (o r : EntityId) (d : VariableDatum) (ts : UInt32)
    (h8 : d.datum_value.length % 8 = 0) (hl : 8192 ≤ d.datum_value.length) (hu : d.datum_value.length ≤ 65000)
    (buf : Bytes) (capacity : Nat) (hcap : 40 + d.datum_value.length ≤ capacity) :
    let p := Pdu.finalizeFromParts hd (.comment ⟨o, r, [d]⟩) ts
    ∃ n, p.serialize buf capacity = .ok (buf ++ p.ser, n) ∧ p.ser.length = 40 + d.datum_value.length ∧
      n.toNat + 8192 * (d.datum_value.length / 8192) = p.ser.length := by
  intro p
  have hpad : lengthPaddedToNum (d.datum_value.length * 8) 64 = ⟨d.datum_value.length * 8, 0, d.datum_value.length * 8⟩ := by
    have : d.datum_value.length * 8 % 64 = 0 := by omega
    simp [lengthPaddedToNum, this]
  have hlen : p.ser.length = 40 + d.datum_value.length := by
    have : (serList VariableDatum.ser [d]).length = 8 + d.datum_value.length := by
      simp [serList, VariableDatum.ser, hpad, e32, zeros]
      omega
    have h2 := Comment.length_ser ⟨o, r, [d]⟩
    rw [this] at h2
    have h3 : p.ser = p.header.ser ++ (Comment.ser ⟨o, r, [d]⟩) := rfl
    rw [h3, List.length_append, PduHeader.length_ser, h2]
    omega
  have hbl : p.pduLength.toNat = 40 + d.datum_value.length := by
    have : (Body.comment ⟨o, r, [d]⟩).bodyLen = 28 + d.datum_value.length := by
      show Comment.bodyLen ⟨o, r, [d]⟩ = _
      simp [Comment.bodyLen, datumsLen, lengthPaddedToNum, h8]
      omega
    show (UInt16.ofNat (12 + (Body.comment ⟨o, r, [d]⟩).bodyLen)).toNat = _
    rw [this, UInt16.toNat_ofNat']
    omega
  have hcnt : p.header.cnt + p.body.cnt = 40 + d.datum_value.length % 8192 := by
    show 12 + Comment.cnt ⟨o, r, [d]⟩ = _
    simp [Comment.cnt, datumsCnt, cntList, VariableDatum.cnt, hpad]
    omega
  refine ⟨_, by unfold Pdu.serialize; rw [if_neg (by omega)], hlen, ?_⟩
  rw [hcnt, hlen]
  simp
  omega
example (hd : PduHeader) (o r : EntityId) {v : Bytes} (hv : v.length = 16384) :=
  C16_large_datum_violated hd o r ⟨24000, v⟩ 0 (by show v.length % 8 = 0; omega) (by show 8192 ≤ v.length; omega)
    (by show v.length ≤ 65000; omega) [] 20000 (by show 40 + v.length ≤ _; omega)

end Verif.Props
