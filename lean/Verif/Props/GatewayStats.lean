import Verif.Gateway.Stats
import Verif.Props.GatewayDecode

/-! # C44: statistics -/

namespace Verif.Props
open Verif.Gateway Verif.Codec

/-! ## Specification -/

/-- The events of a history, in order. -/
def eventsOf (h : List Act) : List Event := h.filterMap fun a => match a with | .event e => some e | .tick => none
/-- The octets of the packets of a kind: those received from / sent to the two sockets. -/
def disReceived : Event → Option Nat | .receivedBytesDis n => some n | _ => none
def cdisReceived : Event → Option Nat | .receivedBytesCDis n => some n | _ => none
def disSent : Event → Option Nat | .sentDis n => some n | _ => none
def cdisSent : Event → Option Nat | .sentCDis n => some n | _ => none
/-- The octets of the PDUs of type `t` that were received, encoded and decoded. -/
def rcvdDis (t : Nat) : Event → Option Nat | .receivedDis t' n => if t' = t then some n else none | _ => none
def rcvdCdis (t : Nat) : Event → Option Nat | .receivedCDis t' n => if t' = t then some n else none | _ => none
def encoded (t : Nat) : Event → Option Nat | .encodedPdu t' n => if t' = t then some n else none | _ => none
def decoded (t : Nat) : Event → Option Nat | .decodedPdu t' n => if t' = t then some n else none | _ => none
/-- The octets of the PDUs that were rejected or not implemented. -/
def rejectedDis : Event → Option Nat | .rejectedUnsupportedDisPdu _ n => some n | _ => none
def rejectedCdis : Event → Option Nat | .rejectedUnsupportedCDisPdu _ n => some n | _ => none
def unimplEnc : Event → Option Nat | .unimplementedEncodedPdu _ n => some n | _ => none
def unimplDec : Event → Option Nat | .unimplementedDecodedPdu _ n => some n | _ => none
/-- How many events of a kind there are, and their octets in total, as 64-bit numbers. -/
def number (f : Event → Option Nat) (es : List Event) : UInt64 := .ofNat (es.filterMap f).length
def octetsOf (f : Event → Option Nat) (es : List Event) : UInt64 := .ofNat (es.filterMap f).sum

/-! ## Lemmas -/

theorem number_snoc (f : Event → Option Nat) (es : List Event) (e : Event) :
    number f (es ++ [e]) = number f es + (match f e with | some _ => 1 | none => 0) := by
  unfold number
  cases h : f e <;> simp [List.filterMap_append, h]
theorem octetsOf_snoc (f : Event → Option Nat) (es : List Event) (e : Event) :
    octetsOf f (es ++ [e]) = octetsOf f es + (match f e with | some n => .ofNat n | none => 0) := by
  unfold octetsOf
  cases h : f e <;> simp [List.filterMap_append, h]
theorem eventsOf_snoc (h : List Act) (a : Act) :
    eventsOf (h ++ [a]) = eventsOf h ++ (match a with | .event e => [e] | .tick => []) := by
  unfold eventsOf
  cases a <;> simp [List.filterMap_append]
theorem run_snoc (g : GatewayStats) (h : List Act) (a : Act) : g.run (h ++ [a]) = (g.run h).step a := by
  unfold GatewayStats.run; simp
theorem codec_aggregate (s : CodecStats) : s.aggregate.received_count = s.received_count ∧ s.aggregate.codec_count = s.codec_count
    ∧ s.aggregate.rejected_count = s.rejected_count ∧ s.aggregate.unimplemented_count = s.unimplemented_count
    ∧ s.aggregate.unimplemented_bytes = s.unimplemented_bytes := by
  unfold CodecStats.aggregate; split <;> exact ⟨rfl, rfl, rfl, rfl, rfl⟩

/-! ## Theorems -/

/-- **C44.** After every history the totals of the sockets are the numbers of packets and octets of all events so far,
whatever the timer did in between. -/
theorem C44_socket_totals (h : List Act) :
    let g := ({} : GatewayStats).run h
    g.dis.packets_received = number disReceived (eventsOf h) ∧ g.dis.bytes_received = octetsOf disReceived (eventsOf h) ∧
    g.dis.packets_sent = number disSent (eventsOf h) ∧ g.dis.bytes_sent = octetsOf disSent (eventsOf h) ∧
    g.cdis.packets_received = number cdisReceived (eventsOf h) ∧ g.cdis.bytes_received = octetsOf cdisReceived (eventsOf h) ∧
    g.cdis.packets_sent = number cdisSent (eventsOf h) ∧ g.cdis.bytes_sent = octetsOf cdisSent (eventsOf h) := by
  intro g
  induction h using List.reverseRecOn with
  | nil => exact ⟨rfl, rfl, rfl, rfl, rfl, rfl, rfl, rfl⟩
  | append_singleton h a ih =>
    obtain ⟨i1, i2, i3, i4, i5, i6, i7, i8⟩ := ih
    simp only [g, run_snoc, eventsOf_snoc]
    cases a with
    | tick =>
      simp only [List.append_nil]
      exact ⟨i1, i2, i3, i4, i5, i6, i7, i8⟩
    | event e =>
      simp only [number_snoc, octetsOf_snoc, ← i1, ← i2, ← i3, ← i4, ← i5, ← i6, ← i7, ← i8]
      cases e <;> simp [GatewayStats.step, GatewayStats.handle, SocketStats.receive, SocketStats.sent, disReceived, cdisReceived,
        disSent, cdisSent]
/-- **C44.** The counts of rejected and unimplemented PDUs. -/
theorem C44_codec_totals (h : List Act) :
    let g := ({} : GatewayStats).run h
    g.encoder.rejected_count = number rejectedDis (eventsOf h) ∧ g.decoder.rejected_count = number rejectedCdis (eventsOf h) ∧
    g.encoder.unimplemented_count = number unimplEnc (eventsOf h) ∧ g.encoder.unimplemented_bytes = octetsOf unimplEnc (eventsOf h) ∧
    g.decoder.unimplemented_count = number unimplDec (eventsOf h) ∧ g.decoder.unimplemented_bytes = octetsOf unimplDec (eventsOf h) := by
  intro g
  induction h using List.reverseRecOn with
  | nil => exact ⟨rfl, rfl, rfl, rfl, rfl, rfl⟩
  | append_singleton h a ih =>
    obtain ⟨i1, i2, i3, i4, i5, i6⟩ := ih
    simp only [g, run_snoc, eventsOf_snoc]
    cases a with
    | tick =>
      simp only [List.append_nil, GatewayStats.step, codec_aggregate]
      exact ⟨i1, i2, i3, i4, i5, i6⟩
    | event e =>
      simp only [number_snoc, octetsOf_snoc, ← i1, ← i2, ← i3, ← i4, ← i5, ← i6]
      cases e <;> simp [GatewayStats.step, GatewayStats.handle, rejectedDis, rejectedCdis, unimplEnc, unimplDec]

theorem counts_get (m : Counts) (t t' : Nat) (size : UInt64) :
    (m.bump t size).get t' = if t' = t then some (((m.get t).getD (0, 0)).1 + 1, ((m.get t).getD (0, 0)).2 + size) else m.get t' := by
  unfold Counts.get
  induction m with
  | nil =>
    by_cases h : t' = t
    · subst h; simp [Counts.bump]
    · simp [Counts.bump, h]
  | cons x m ih =>
    obtain ⟨k, n, b⟩ := x
    unfold Counts.bump
    by_cases hk : k = t
    · subst hk
      by_cases h : t' = k
      · subst h; simp
      · have hh : (t' == k) = false := by simp [h]
        simp [List.lookup_cons, h, hh]
    · rw [if_neg hk, List.lookup_cons, List.lookup_cons, List.lookup_cons, ih]
      by_cases h : t' = k
      · subst h; simp [hk]
      · have hk' : (t == k) = false := by simp; exact fun e => hk e.symm
        have hh : (t' == k) = false := by simp [h]
        simp only [hk', hh]
theorem counts_bytes (m : Counts) (t : Nat) (size : UInt64) : (m.bump t size).bytes = m.bytes + size := by
  unfold Counts.bytes
  induction m with
  | nil => simp [Counts.bump]
  | cons x m ih =>
    obtain ⟨k, n, b⟩ := x
    unfold Counts.bump
    by_cases hk : k = t
    · rw [if_pos hk]
      simp only [List.map_cons, List.sum_cons]
      ac_rfl
    · rw [if_neg hk]
      simp only [List.map_cons, List.sum_cons, ih]
      ac_rfl

/-- The entry of a table of counts: absent if there was no such event, otherwise their number and octets. -/
def entryOf (f : Event → Option Nat) (es : List Event) : Option (UInt64 × UInt64) :=
  if es.filterMap f = [] then none else some (number f es, octetsOf f es)
theorem entryOf_snoc (f : Event → Option Nat) (es : List Event) (e : Event) :
    entryOf f (es ++ [e]) = match f e with
      | none => entryOf f es
      | some n => some (((entryOf f es).getD (0, 0)).1 + 1, ((entryOf f es).getD (0, 0)).2 + .ofNat n) := by
  unfold entryOf
  cases h : f e with
  | none => simp [number_snoc, octetsOf_snoc, h, List.filterMap_append]
  | some n =>
    by_cases he : es.filterMap f = []
    · have h0 : number f es = 0 := by unfold number; rw [he]; rfl
      have h1 : octetsOf f es = 0 := by unfold octetsOf; rw [he]; rfl
      simp [number_snoc, octetsOf_snoc, h, List.filterMap_append, he, h0, h1]
    · simp [number_snoc, octetsOf_snoc, h, List.filterMap_append, he]

/-- **C44.** For every PDU type, the tables hold the number and the octets of the PDUs of that type received and encoded
(decoded) so far, and no entry if there was none. -/
theorem C44_per_type (h : List Act) (t : Nat) :
    let g := ({} : GatewayStats).run h
    g.encoder.received_count.get t = entryOf (rcvdDis t) (eventsOf h) ∧
    g.encoder.codec_count.get t = entryOf (encoded t) (eventsOf h) ∧
    g.decoder.received_count.get t = entryOf (rcvdCdis t) (eventsOf h) ∧
    g.decoder.codec_count.get t = entryOf (decoded t) (eventsOf h) := by
  intro g
  induction h using List.reverseRecOn with
  | nil => exact ⟨rfl, rfl, rfl, rfl⟩
  | append_singleton h a ih =>
    obtain ⟨i1, i2, i3, i4⟩ := ih
    simp only [g, run_snoc, eventsOf_snoc]
    cases a with
    | tick =>
      simp only [List.append_nil, GatewayStats.step, codec_aggregate]
      exact ⟨i1, i2, i3, i4⟩
    | event e =>
      simp only [entryOf_snoc, ← i1, ← i2, ← i3, ← i4]
      cases e <;> simp only [GatewayStats.step, GatewayStats.handle, rcvdDis, encoded, rcvdCdis, decoded, and_self]
      all_goals simp only [counts_get, true_and, and_true]
      all_goals
        rename_i t' n
        by_cases ht : t = t'
        · subst ht; simp
        · rw [if_neg ht, if_neg (fun e => ht e.symm)]

/-- The octets of all PDUs received and encoded (decoded), whatever their type. -/
def anyRcvdDis : Event → Option Nat | .receivedDis _ n => some n | _ => none
def anyRcvdCdis : Event → Option Nat | .receivedCDis _ n => some n | _ => none
def anyEncoded : Event → Option Nat | .encodedPdu _ n => some n | _ => none
def anyDecoded : Event → Option Nat | .decodedPdu _ n => some n | _ => none
theorem C44_sums (h : List Act) :
    let g := ({} : GatewayStats).run h
    g.encoder.received_count.bytes = octetsOf anyRcvdDis (eventsOf h) ∧
    g.encoder.codec_count.bytes = octetsOf anyEncoded (eventsOf h) ∧
    g.decoder.received_count.bytes = octetsOf anyRcvdCdis (eventsOf h) ∧
    g.decoder.codec_count.bytes = octetsOf anyDecoded (eventsOf h) := by
  intro g
  induction h using List.reverseRecOn with
  | nil => exact ⟨rfl, rfl, rfl, rfl⟩
  | append_singleton h a ih =>
    obtain ⟨i1, i2, i3, i4⟩ := ih
    simp only [g, run_snoc, eventsOf_snoc]
    cases a with
    | tick =>
      simp only [List.append_nil, GatewayStats.step, codec_aggregate]
      exact ⟨i1, i2, i3, i4⟩
    | event e =>
      simp only [octetsOf_snoc, ← i1, ← i2, ← i3, ← i4]
      cases e <;> simp [GatewayStats.step, GatewayStats.handle, anyRcvdDis, anyEncoded, anyRcvdCdis, anyDecoded, counts_bytes]
/-- **C44.** At every tick of the timer, if anything has been received, the compression rate becomes the octets encoded as a
percentage of the octets received of the PDUs that were encoded (computed as `f64`); between ticks it stays. -/
theorem C44_compression (h : List Act) :
    let g := ({} : GatewayStats).run (h ++ [.tick])
    octetsOf anyRcvdDis (eventsOf h) ≠ 0 →
    g.encoder.compression_rate_total = Fl.mul F64 (Fl.div F64 (F64.round (octetsOf anyEncoded (eventsOf h)).toNat)
      (F64.round (octetsOf anyRcvdDis (eventsOf h)).toNat)) (.num 100) := by
  intro g h0
  obtain ⟨s1, s2, -, -⟩ := C44_sums h
  simp only [g, run_snoc]
  show (CodecStats.aggregate _).compression_rate_total = _
  unfold CodecStats.aggregate
  rw [s1, if_neg h0]
  dsimp only
  rw [s2]
theorem C44_compression_stays (g : GatewayStats) (e : Event) :
    (g.step (.event e)).encoder.compression_rate_total = g.encoder.compression_rate_total
    ∧ (g.step (.event e)).decoder.compression_rate_total = g.decoder.compression_rate_total := by
  cases e <;> exact ⟨rfl, rfl⟩

/-- What the events since the last tick add to the counters of the interval. -/
theorem interval_run (g : GatewayStats) (es : List Event) :
    let g' := g.run (es.map .event)
    g'.dis.packets_received_interval = g.dis.packets_received_interval + number disReceived es ∧
    g'.dis.bytes_received_interval = g.dis.bytes_received_interval + octetsOf disReceived es ∧
    g'.dis.packets_sent_interval = g.dis.packets_sent_interval + number disSent es ∧
    g'.dis.bytes_sent_interval = g.dis.bytes_sent_interval + octetsOf disSent es ∧
    g'.cdis.packets_received_interval = g.cdis.packets_received_interval + number cdisReceived es ∧
    g'.cdis.bytes_received_interval = g.cdis.bytes_received_interval + octetsOf cdisReceived es ∧
    g'.cdis.packets_sent_interval = g.cdis.packets_sent_interval + number cdisSent es ∧
    g'.cdis.bytes_sent_interval = g.cdis.bytes_sent_interval + octetsOf cdisSent es ∧
    g'.dis.packets_received_latest_aggregate = g.dis.packets_received_latest_aggregate ∧
    g'.dis.bytes_received_latest_aggregate = g.dis.bytes_received_latest_aggregate ∧
    g'.dis.packets_sent_latest_aggregate = g.dis.packets_sent_latest_aggregate ∧
    g'.dis.bytes_sent_latest_aggregate = g.dis.bytes_sent_latest_aggregate ∧
    g'.cdis.packets_received_latest_aggregate = g.cdis.packets_received_latest_aggregate ∧
    g'.cdis.bytes_received_latest_aggregate = g.cdis.bytes_received_latest_aggregate ∧
    g'.cdis.packets_sent_latest_aggregate = g.cdis.packets_sent_latest_aggregate ∧
    g'.cdis.bytes_sent_latest_aggregate = g.cdis.bytes_sent_latest_aggregate := by
  intro g'
  induction es using List.reverseRecOn with
  | nil =>
    have h0 : ∀ x : UInt64, x + 0 = x := fun x => by simp
    have hn : ∀ f, number f [] = 0 := fun f => rfl
    have ho : ∀ f, octetsOf f [] = 0 := fun f => rfl
    simp only [hn, ho, h0]
    exact ⟨rfl, rfl, rfl, rfl, rfl, rfl, rfl, rfl, rfl, rfl, rfl, rfl, rfl, rfl, rfl, rfl⟩
  | append_singleton es e ih =>
    obtain ⟨i1, i2, i3, i4, i5, i6, i7, i8, j1, j2, j3, j4, j5, j6, j7, j8⟩ := ih
    simp only [g', List.map_append, List.map_cons, List.map_nil, run_snoc, number_snoc, octetsOf_snoc, ← UInt64.add_assoc,
      ← i1, ← i2, ← i3, ← i4, ← i5, ← i6, ← i7, ← i8, ← j1, ← j2, ← j3, ← j4, ← j5, ← j6, ← j7, ← j8]
    cases e <;> simp [GatewayStats.step, GatewayStats.handle, SocketStats.receive, SocketStats.sent, disReceived, cdisReceived,
        disSent, cdisSent]
/-- **C44.** The latest aggregate is the totals of the events between the last two ticks. -/
theorem C44_interval (pre : List Act) (mid post : List Event) :
    let g := ({} : GatewayStats).run (pre ++ .tick :: (mid.map .event ++ .tick :: post.map .event))
    g.dis.packets_received_latest_aggregate = number disReceived mid ∧ g.dis.bytes_received_latest_aggregate = octetsOf disReceived mid ∧
    g.dis.packets_sent_latest_aggregate = number disSent mid ∧ g.dis.bytes_sent_latest_aggregate = octetsOf disSent mid ∧
    g.cdis.packets_received_latest_aggregate = number cdisReceived mid ∧ g.cdis.bytes_received_latest_aggregate = octetsOf cdisReceived mid ∧
    g.cdis.packets_sent_latest_aggregate = number cdisSent mid ∧ g.cdis.bytes_sent_latest_aggregate = octetsOf cdisSent mid := by
  intro g
  have hg : g = ((((({} : GatewayStats).run pre).step .tick).run (mid.map .event)).step .tick).run (post.map .event) := by
    simp only [g, GatewayStats.run, List.foldl_append, List.foldl_cons]
  have a := interval_run ((({} : GatewayStats).run pre).step .tick) mid
  have b := interval_run ((((({} : GatewayStats).run pre).step .tick).run (mid.map .event)).step .tick) post
  have h0 : ∀ x : UInt64, 0 + x = x := fun x => by simp
  rw [hg]
  obtain ⟨-, -, -, -, -, -, -, -, j1, j2, j3, j4, j5, j6, j7, j8⟩ := b
  obtain ⟨i1, i2, i3, i4, i5, i6, i7, i8, -⟩ := a
  rw [j1, j2, j3, j4, j5, j6, j7, j8]
  refine ⟨i1.trans (h0 _), i2.trans (h0 _), i3.trans (h0 _), i4.trans (h0 _), i5.trans (h0 _), i6.trans (h0 _), i7.trans (h0 _), i8.trans (h0 _)⟩

/-! ## Together with the codec tasks -/

/-- The encoder over a sequence of packets: what it puts out for each, the events, and the encoder after it. -/
inductive EncRun (env : Env) (o : Options) : Encoder → List Bytes → List Bytes → List Event → Encoder → Prop
  | nil (e : Encoder) : EncRun env o e [] [] [] e
  | cons {e e1 e2 : Encoder} {clock : Nat → Nat} {bs out : Bytes} {bss outs : List Bytes} {es es' : List Event} :
      encodeBuffer env o clock e bs = (es, some (out, e1)) → EncRun env o e1 bss outs es' e2 →
      EncRun env o e (bs :: bss) (out :: outs) (es ++ es') e2

theorem filterMap_accounts {ps : List Dis.Pdu} {cs : List Cdis.CdisPdu} {es : List Event} (h : Accounts ps cs es) :
    es.filterMap disReceived = [] ∧ es.filterMap cdisSent = [] ∧ es.filterMap disSent = [] ∧ es.filterMap cdisReceived = []
    ∧ es.filterMap unimplEnc = []
    ∧ (∀ t, (es.filterMap (rcvdDis t)).length = (es.filterMap (encoded t)).length)
    ∧ (es.filterMap anyRcvdDis).length + (es.filterMap rejectedDis).length = ps.length := by
  induction h with
  | nil => simp
  | @encoded p c ps cs es hc ht _ ih =>
    obtain ⟨i1, i2, i3, i4, i5, i6, i7⟩ := ih
    refine ⟨by simpa [disReceived] using i1, by simpa [cdisSent] using i2, by simpa [disSent] using i3,
      by simpa [cdisReceived] using i4, by simpa [unimplEnc] using i5, fun t => ?_, ?_⟩
    · have := i6 t
      by_cases h : p.header.pdu_type.toNat = t
      · simp [List.filterMap_cons, rcvdDis, encoded, h]; omega
      · simp [List.filterMap_cons, rcvdDis, encoded, h]; omega
    · simp only [List.filterMap_cons, anyRcvdDis, rejectedDis, List.length_cons] at i7 ⊢; omega
  | @rejected p ps cs es hc _ ih =>
    obtain ⟨i1, i2, i3, i4, i5, i6, i7⟩ := ih
    refine ⟨by simpa [disReceived] using i1, by simpa [cdisSent] using i2, by simpa [disSent] using i3,
      by simpa [cdisReceived] using i4, by simpa [unimplEnc] using i5, fun t => ?_, ?_⟩
    · have := i6 t
      simp only [List.filterMap_cons, rcvdDis, encoded]; exact this
    · simp only [List.filterMap_cons, anyRcvdDis, rejectedDis, List.length_cons] at i7 ⊢; omega

/-- The number of PDUs that the parser found in a packet. -/
def pduCount (env : Dis.Env) (bs : Bytes) : Nat := match Dis.parse env bs with | .ok ps => ps.length | _ => 0

theorem run_events (env : Env) (o : Options) {e e' : Encoder} {bss outs : List Bytes} {es : List Event}
    (h : EncRun env o e bss outs es e') :
    es.filterMap disReceived = bss.map List.length ∧ es.filterMap cdisSent = outs.map List.length
    ∧ es.filterMap disSent = [] ∧ es.filterMap cdisReceived = [] ∧ es.filterMap unimplEnc = []
    ∧ (∀ t, (es.filterMap (rcvdDis t)).length = (es.filterMap (encoded t)).length)
    ∧ (es.filterMap anyRcvdDis).length + (es.filterMap rejectedDis).length = (bss.map (pduCount env.toEnv)).sum
    ∧ outs.length = bss.length := by
  induction h with
  | nil => simp
  | @cons e e1 e2 clock bs out bss outs es es' h1 _ ih =>
    obtain ⟨i1, i2, i3, i4, i5, i6, i7, i8⟩ := ih
    obtain ⟨mid, rfl, hc⟩ := C42_packet h1
    have hm : mid.filterMap disReceived = [] ∧ mid.filterMap cdisSent = [] ∧ mid.filterMap disSent = []
        ∧ mid.filterMap cdisReceived = [] ∧ mid.filterMap unimplEnc = []
        ∧ (∀ t, (mid.filterMap (rcvdDis t)).length = (mid.filterMap (encoded t)).length)
        ∧ (mid.filterMap anyRcvdDis).length + (mid.filterMap rejectedDis).length = pduCount env.toEnv bs := by
      rcases hc with ⟨hp, -, rfl, -⟩ | ⟨ps, cs, hp, ha, -, -⟩
      · simp [pduCount, hp]
      · have := filterMap_accounts ha
        unfold pduCount
        rw [hp]
        exact this
    obtain ⟨m1, m2, m3, m4, m5, m6, m7⟩ := hm
    refine ⟨?_, ?_, ?_, ?_, ?_, ?_, ?_, by simp [i8]⟩
    · simp only [List.cons_append, List.filterMap_cons, disReceived, List.filterMap_append, m1, i1, List.map_cons,
        List.filterMap_nil, List.append_nil, List.nil_append]
    · simp only [List.cons_append, List.filterMap_cons, cdisSent, List.filterMap_append, m2, i2, List.map_cons,
        List.filterMap_nil, List.nil_append]
    · simp only [List.cons_append, List.filterMap_cons, disSent, List.filterMap_append, m3, i3, List.filterMap_nil, List.nil_append]
    · simp only [List.cons_append, List.filterMap_cons, cdisReceived, List.filterMap_append, m4, i4, List.filterMap_nil, List.nil_append]
    · simp only [List.cons_append, List.filterMap_cons, unimplEnc, List.filterMap_append, m5, i5, List.filterMap_nil, List.nil_append]
    · intro t
      simp only [List.cons_append, List.filterMap_cons, rcvdDis, encoded, List.filterMap_append, List.filterMap_nil, List.append_nil,
        List.length_append]
      have a := m6 t
      have b := i6 t
      omega
    · simp only [List.cons_append, List.filterMap_cons, anyRcvdDis, rejectedDis, List.filterMap_append, List.filterMap_nil,
        List.append_nil, List.length_append, List.map_cons, List.sum_cons] at m7 i7 ⊢
      omega
/-- **C44**, over the encoder's whole life: for every sequence of packets encoded without a panic, and ticks of the timer
anywhere, the statistics show as many packets sent as received, the octets of both, for every type as many PDUs encoded as
received, and received and rejected PDUs add up to the PDUs that the parser found. -/
theorem C44_conservation (env : Env) (o : Options) {e e' : Encoder} {bss outs : List Bytes} {es : List Event}
    (hr : EncRun env o e bss outs es e') {h : List Act} (he : eventsOf h = es) :
    let g := ({} : GatewayStats).run h
    g.dis.packets_received = .ofNat bss.length ∧ g.cdis.packets_sent = .ofNat bss.length ∧
    g.dis.bytes_received = .ofNat (bss.map List.length).sum ∧ g.cdis.bytes_sent = .ofNat (outs.map List.length).sum ∧
    g.dis.packets_sent = 0 ∧ g.cdis.packets_received = 0 ∧ g.encoder.unimplemented_count = 0 ∧
    (∀ t, (g.encoder.received_count.get t).map (·.1) = (g.encoder.codec_count.get t).map (·.1)) ∧
    UInt64.ofNat (es.filterMap anyRcvdDis).length + g.encoder.rejected_count = .ofNat (bss.map (pduCount env.toEnv)).sum := by
  intro g
  obtain ⟨r1, r2, r3, r4, r5, r6, r7, r8⟩ := run_events env o hr
  obtain ⟨t1, t2, t3, t4, t5, t6, t7, t8⟩ := C44_socket_totals h
  obtain ⟨c1, -, c3, -⟩ := C44_codec_totals h
  rw [he] at t1 t2 t3 t4 t5 t6 t7 t8 c1 c3
  refine ⟨?_, ?_, ?_, ?_, ?_, ?_, ?_, ?_, ?_⟩
  · rw [t1, number, r1, List.length_map]
  · rw [t7, number, r2, List.length_map, r8]
  · rw [t2, octetsOf, r1]
  · rw [t8, octetsOf, r2]
  · rw [t3, number, r3]; rfl
  · rw [t5, number, r4]; rfl
  · rw [c3, number, r5]; rfl
  · intro t
    obtain ⟨p1, p2, -, -⟩ := C44_per_type h t
    rw [p1, p2, he]
    have := r6 t
    unfold entryOf number
    by_cases hz : es.filterMap (rcvdDis t) = []
    · have : es.filterMap (encoded t) = [] := List.length_eq_zero_iff.1 (by rw [← this, hz]; rfl)
      rw [if_pos hz, if_pos this]
    · have hz' : es.filterMap (encoded t) ≠ [] := fun hn => hz (List.length_eq_zero_iff.1 (by rw [this, hn]; rfl))
      rw [if_neg hz, if_neg hz']
      simp [this]
  · rw [c1, number, ← UInt64.ofNat_add, r7]

/-- A history that meets the hypotheses: a packet of twenty Acknowledge PDUs, and a tick. -/
theorem C44_witness (env : Env) (o : Options) : ∃ outs es e', EncRun env o {} [(List.replicate 20 gwAck).flatMap Dis.Pdu.ser] outs es e'
    ∧ eventsOf (es.map .event ++ [.tick]) = es := by
  obtain ⟨es, out, e', h, -⟩ := C42_witness env o (fun _ => 0) {} (List.length_replicate ..)
  refine ⟨[out], es ++ [], e', .cons h (.nil e'), ?_⟩
  unfold eventsOf
  rw [List.filterMap_append, List.filterMap_map, List.append_nil]
  show List.filterMap some es ++ [] = es
  rw [List.append_nil, List.filterMap_some]

end Verif.Props
