import Verif.Props.GatewayOverload

/-! # C43, C46, C48, C49 for the gateway with its encoder and decoder -/

namespace Verif.Props
open Verif.Gateway Verif.Codec

/-! ## Events of a packet -/

theorem accounts_length {ps : List Dis.Pdu} {cs : List Cdis.CdisPdu} {es : List Event} (h : Accounts ps cs es) :
    es.length = ps.length + ps.countP (fun p => decide (Carried p.header.pdu_type.toNat)) := by
  induction h with
  | nil => rfl
  | encoded hc _ _ ih => simp only [List.length_cons, List.countP_cons, hc, decide_true, if_true, ih]; omega
  | rejected hc _ ih => simp only [List.length_cons, List.countP_cons, hc, decide_false, ih]; simp; omega

/-- **C46.** The number of events of a packet: two, one for every PDU, and one more for every PDU that C-DIS carries. -/
theorem C46_events_per_packet {env : Env} {o : Options} {clock : Nat → Nat} {e e' : Encoder} {bs out : Bytes} {es : List Event}
    {ps : List Dis.Pdu} (h : encodeBuffer env o clock e bs = (es, some (out, e'))) (hp : Dis.parse env.toEnv bs = .ok ps) :
    es.length = 2 + ps.length + ps.countP (fun p => decide (Carried p.header.pdu_type.toNat)) := by
  obtain ⟨mid, rfl, ⟨he, -⟩ | ⟨ps', cs, hp', ha, -⟩⟩ := C42_packet h
  · rw [hp] at he; cases he
  · rw [hp] at hp'
    cases hp'
    simp only [List.length_cons, List.length_append, List.length_nil, accounts_length ha]
    omega

/-- **C46, violated.** Twenty-five Acknowledge PDUs in one datagram of 800 octets can end the gateway, with no socket failing
and no command given; nothing is sent. -/
theorem C46_acknowledges_violated (env : Env) (o o' : Options) (grow : Nat → Nat) (t : DecState) :
    ((List.replicate 25 gwAck).flatMap Dis.Pdu.ser).length = 800 ∧
    ∃ g, Smooth (encMachine env o) (decMachine env o' grow) (System.start {} t) g ∧ g.ended = true
      ∧ g.enc.received = [(List.replicate 25 gwAck).flatMap Dis.Pdu.ser] ∧ g.enc.sent = [] := by
  have hlen : ((List.replicate 25 gwAck).flatMap Dis.Pdu.ser).length = 800 := by decide +kernel
  refine ⟨hlen, ?_⟩
  have m : (List.replicate 25 gwAck).map (fun p => if p = gwRequest then gwRequestC else gwAckC)
      = List.replicate 25 gwAckC := by decide +kernel
  have hb : ({} : Encoder).buffer.length = 89600 := List.length_replicate ..
  obtain ⟨es, out, e', h, -⟩ := gw_encode env o (fun _ => 0) {} (List.replicate 25 gwAck) (by simp)
    (fun p hp => .inr (List.mem_replicate.1 hp).2) (by rw [m, hb]; decide +kernel) (by rw [m, hb]; decide +kernel)
  have hp : Dis.parse env.toEnv ((List.replicate 25 gwAck).flatMap Dis.Pdu.ser) = .ok (List.replicate 25 gwAck) := by
    have := C17_packet_round_trip env.toEnv (ps := List.replicate 25 gwAck) (by
      intro p hp; rw [(List.mem_replicate.1 hp).2]; exact gwAck_wf _) (by simp) [] (by simp)
    simpa using this
  have hl := C46_events_per_packet h hp
  have hc : (List.replicate 25 gwAck).countP (fun p => decide (Carried p.header.pdu_type.toNat)) = 25 := by decide +kernel
  rw [hc, List.length_replicate] at hl
  exact C46_overload_violated (encMachine env o) (decMachine env o' grow) {} t (fun _ => 0) _ (by omega)
    (by show 50 < (encodeBuffer env o (fun _ => 0) {} _).1.length; rw [h]; show 50 < es.length; omega)

/-! ## The decoder's lane -/

theorem dec_state (env : Env) (o : Options) (grow : Nat → Nat) (s : DecState) (l : List ((Nat → Nat) × Bytes)) :
    stateAfter (decMachine env o grow) s l = some s := by
  induction l with
  | nil => rfl
  | cons x l ih =>
    obtain ⟨c, b⟩ := x
    obtain ⟨out, mid, h, -⟩ := C43_packet_violated env o grow s b
    simp only [stateAfter, decMachine, h]
    exact ih
/-- **C46.** The decoder never panics by itself. -/
theorem C46_decoder_safe (env : Env) (o : Options) (grow : Nat → Nat) (s : DecState) : NeverPanics (decMachine env o grow) s := by
  intro l
  rw [dec_state]
  simp

/-- What is in a packet on the DIS side: only headers of 12 octets of PDUs without contents. -/
def OnlyHeaders (out : Bytes) : Prop := ∃ hs : List Cdis.CdisHeader, out = hs.flatMap fun h => (emptyOther h).ser

theorem dec_outputs (env : Env) (o : Options) (grow : Nat → Nat) (s : DecState) (l : List ((Nat → Nat) × Bytes)) :
    (∀ out ∈ outputs (decMachine env o grow) s l, OnlyHeaders out)
    ∧ (eventsFor (decMachine env o grow) s l).filterMap cdisReceived = l.map (fun x => x.2.length)
    ∧ (eventsFor (decMachine env o grow) s l).filterMap disSent = (outputs (decMachine env o grow) s l).map List.length
    ∧ (eventsFor (decMachine env o grow) s l).filterMap disReceived = []
    ∧ (eventsFor (decMachine env o grow) s l).filterMap cdisSent = [] := by
  induction l with
  | nil => simp [outputs, eventsFor]
  | cons x l ih =>
    obtain ⟨c, b⟩ := x
    obtain ⟨out, mid, h, hm⟩ := C43_packet_violated env o grow s b
    obtain ⟨i1, i2, i3, i4, i5⟩ := ih
    have hmid : mid.filterMap cdisReceived = [] ∧ mid.filterMap disSent = [] ∧ mid.filterMap disReceived = [] ∧ mid.filterMap cdisSent = []
        ∧ OnlyHeaders out := by
      cases hp : Cdis.parsePackets env.toEnv b with
      | none =>
        rw [hp] at hm; obtain ⟨rfl, rfl⟩ := hm
        exact ⟨rfl, rfl, rfl, rfl, [], rfl⟩
      | some cs =>
        rw [hp] at hm; obtain ⟨h1, -, rfl⟩ := hm
        have hh : ∀ e ∈ (cs.flatMap fun c => if Carried c.header.pdu_type
            then [Event.unimplementedDecodedPdu c.header.pdu_type (octets c.header.length)]
            else [.receivedCDis c.header.pdu_type (octets c.header.length), .decodedPdu 0 12]),
            cdisReceived e = none ∧ disSent e = none ∧ disReceived e = none ∧ cdisSent e = none := by
          intro e he
          obtain ⟨c, -, hc⟩ := List.mem_flatMap.1 he
          split at hc
          · rcases List.mem_singleton.1 hc with rfl; exact ⟨rfl, rfl, rfl, rfl⟩
          · rcases List.mem_cons.1 hc with rfl | hc
            · exact ⟨rfl, rfl, rfl, rfl⟩
            · rcases List.mem_singleton.1 hc with rfl; exact ⟨rfl, rfl, rfl, rfl⟩
        refine ⟨List.filterMap_eq_nil_iff.2 fun e he => (hh e he).1, List.filterMap_eq_nil_iff.2 fun e he => (hh e he).2.1,
          List.filterMap_eq_nil_iff.2 fun e he => (hh e he).2.2.1, List.filterMap_eq_nil_iff.2 fun e he => (hh e he).2.2.2,
          (cs.filter fun c => decide (¬ Carried c.header.pdu_type)).map (·.header), ?_⟩
        rw [h1, List.flatMap_map]
    obtain ⟨m1, m2, m3, m4, m5⟩ := hmid
    have hd : decMachine env o grow c s b = _ := h
    simp only [outputs, eventsFor, hd]
    refine ⟨?_, ?_, ?_, ?_, ?_⟩
    · intro x hx
      rcases List.mem_cons.1 hx with rfl | hx
      · exact m5
      · exact i1 x hx
    · simp [List.filterMap_cons, cdisReceived, List.filterMap_append, m1, i2]
    · simp [List.filterMap_cons, disSent, List.filterMap_append, m2, i3]
    · simp [List.filterMap_cons, disReceived, List.filterMap_append, m3, i4]
    · simp [List.filterMap_cons, cdisSent, List.filterMap_append, m4, i5]

/-- **C43, violated.** In no run of the gateway, whatever arrives on either side, does it ever put a PDU with contents on the
DIS network: every datagram it sends there is empty or consists of 12-octet headers of PDUs without contents. -/
theorem C43_gateway_violated (env : Env) (o o' : Options) (grow : Nat → Nat) (t : DecState) {g : System Encoder DecState}
    (h : System.Reach (encMachine env o) (decMachine env o' grow) (System.start {} t) g) : ∀ out ∈ g.dec.sent, OnlyHeaders out := by
  obtain ⟨-, taken, -, ⟨r, hs⟩, -⟩ := C48_in_order h
  intro out ho
  exact (dec_outputs env o' grow t taken).1 out (by rw [← hs]; exact List.mem_append_left _ ho)

/-! ## The encoder's lane -/

theorem enc_run (env : Env) (o : Options) {e e' : Encoder} {l : List ((Nat → Nat) × Bytes)} (h : stateAfter (encMachine env o) e l = some e') :
    EncRun env o e (l.map (·.2)) (outputs (encMachine env o) e l) (eventsFor (encMachine env o) e l) e' := by
  induction l generalizing e with
  | nil =>
    simp only [stateAfter, Option.some.injEq] at h
    subst h
    exact .nil _
  | cons x l ih =>
    obtain ⟨c, b⟩ := x
    simp only [stateAfter] at h
    simp only [outputs, eventsFor, List.map_cons]
    cases hx : (encMachine env o c e b).2 with
    | none => rw [hx] at h; cases h
    | some r =>
      rw [hx] at h
      exact .cons (clock := c) (e1 := r.2) (out := r.1) (show encodeBuffer env o c e b = _ from Prod.ext rfl hx) (ih h)

theorem stateAfter_of_length {σ : Type} {m : Machine σ} {s : σ} {l : List ((Nat → Nat) × Bytes)} (h : (outputs m s l).length = l.length) :
    ∃ s', stateAfter m s l = some s' := by
  induction l generalizing s with
  | nil => exact ⟨s, rfl⟩
  | cons x l ih =>
    obtain ⟨c, b⟩ := x
    simp only [outputs, stateAfter] at h ⊢
    cases hx : (m c s b).2 with
    | none => rw [hx] at h; simp at h
    | some r => rw [hx] at h; simp only [List.length_cons, Nat.add_right_cancel_iff] at h; exact ih h

theorem filterMap_side (side : Side) (f : Event → Option Nat) (l : List (Side × Event))
    (h : ∀ other, other ≠ side → (ofSide other l).filterMap f = []) : (l.map (·.2)).filterMap f = (ofSide side l).filterMap f := by
  induction l with
  | nil => rfl
  | cons x l ih =>
    obtain ⟨sd, e⟩ := x
    have h' : ∀ other, other ≠ side → (ofSide other l).filterMap f = [] := by
      intro other ho
      have := h other ho
      by_cases hs : sd = other
      · simp only [ofSide, List.filterMap_cons, hs, if_true] at this
        cases hf : f e with
        | none => rw [hf] at this; exact this
        | some n => rw [hf] at this; cases this
      · simpa [ofSide, List.filterMap_cons, hs] using this
    by_cases hs : sd = side
    · subst hs
      simp only [List.map_cons, List.filterMap_cons, ofSide, if_true]
      rw [ih h']
      rfl
    · have h1 := h sd hs
      simp only [ofSide, List.filterMap_cons, if_true] at h1
      have hf : f e = none := by
        cases hf : f e with
        | none => rfl
        | some n => rw [hf] at h1; cases h1
      simp only [List.map_cons, List.filterMap_cons, hf, ofSide, if_neg hs]
      exact ih h'

/-- **C49.** The gateway at rest, on every schedule that led there without a task ending: one datagram sent for every datagram
received, on both sides, in order; and the statistics (of any history of the statistics task with these events) say exactly
what passed the sockets. -/
theorem C49_statistics (env : Env) (o o' : Options) (grow : Nat → Nat) (t : DecState) {g : System Encoder DecState}
    (h : System.Reach (encMachine env o) (decMachine env o' grow) (System.start {} t) g) (he : g.ended = false) (hl : g.listening = true)
    (ha : Alive g.enc) (hb : Alive g.dec) (hq : ∀ g', ¬ System.Step (encMachine env o) (decMachine env o' grow) .work g g')
    {hist : List Act} (hh : eventsOf hist = g.handled.map (·.2)) :
    let st := ({} : GatewayStats).run hist
    st.dis.packets_received = .ofNat g.enc.received.length ∧ st.dis.bytes_received = .ofNat (g.enc.received.map List.length).sum ∧
    st.cdis.packets_sent = .ofNat g.enc.sent.length ∧ st.cdis.bytes_sent = .ofNat (g.enc.sent.map List.length).sum ∧
    st.cdis.packets_received = .ofNat g.dec.received.length ∧ st.cdis.bytes_received = .ofNat (g.dec.received.map List.length).sum ∧
    st.dis.packets_sent = .ofNat g.dec.sent.length ∧ st.dis.bytes_sent = .ofNat (g.dec.sent.map List.length).sum ∧
    g.enc.sent.length = g.enc.received.length ∧ g.dec.sent.length = g.dec.received.length := by
  intro st
  obtain ⟨⟨tk, a1, a2, a3, a4⟩, tk', b1, b2, b3, b4⟩ := C49_quiet_delivered h he hl ha hb hq
  have hlen : (outputs (encMachine env o) {} tk).length = tk.length := by
    rw [← a2, a3, ← a1, List.length_map]
  obtain ⟨e', hst⟩ := stateAfter_of_length hlen
  obtain ⟨r1, r2, r3, r4, -⟩ := run_events env o (enc_run env o hst)
  obtain ⟨-, d1, d2, d3, d4⟩ := dec_outputs env o' grow t tk'
  rw [← a4] at r1 r2 r3 r4
  rw [← b4] at d1 d2 d3 d4
  have f1 := filterMap_side .enc disReceived g.handled (by intro x hx; cases x; exact absurd rfl hx; exact d3)
  have f2 := filterMap_side .enc cdisSent g.handled (by intro x hx; cases x; exact absurd rfl hx; exact d4)
  have f3 := filterMap_side .dec cdisReceived g.handled (by intro x hx; cases x; exact r4; exact absurd rfl hx)
  have f4 := filterMap_side .dec disSent g.handled (by intro x hx; cases x; exact r3; exact absurd rfl hx)
  obtain ⟨c1, c2, c3, c4, c5, c6, c7, c8⟩ := C44_socket_totals hist
  rw [hh] at c1 c2 c3 c4 c5 c6 c7 c8
  unfold number at c1 c3 c5 c7
  unfold octetsOf at c2 c4 c6 c8
  rw [f1, r1, a1] at c1 c2
  rw [f2, r2, ← a2] at c7 c8
  rw [f3, d1] at c5 c6
  rw [f4, d2, ← b2] at c3 c4
  have hm : tk'.map (fun x => x.2.length) = g.dec.received.map List.length := by rw [← b1, List.map_map]; rfl
  rw [hm] at c5 c6
  rw [List.length_map] at c1 c3 c5 c7
  exact ⟨c1, c2, c7, c8, c5, c6, c3, c4, a3, b3⟩

end Verif.Props
