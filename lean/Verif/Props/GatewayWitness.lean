import Verif.Props.GatewayWhole

/-! # Runs of the gateway that meet the hypotheses of C46, C48 and C49 -/

namespace Verif.Props
open Verif.Gateway Verif.Codec

section
variable {σ τ : Type}

theorem keeps_trans {me : Machine σ} {md : Machine τ} {a b c : System σ τ} (x : KeepsUp me md a b) (y : KeepsUp me md b c) : KeepsUp me md a c := by
  induction y with
  | here => exact x
  | step _ hs hk hb ih => exact .step ih hs hk hb

theorem emit_all {me : Machine σ} {md : Machine τ} (es : List Event) : ∀ (g : System σ τ) (r : Option (Bytes × σ)),
    g.enc.codec = .busy es r → g.ended = false → g.listening = true → g.events.length + es.length + pending g.dec ≤ 50 →
    KeepsUp me md g { g with enc := { g.enc with codec := .busy [] r }, events := g.events ++ es.map (Side.enc, ·) } := by
  induction es with
  | nil =>
    intro g r hc _ _ _
    have : ({ g with enc := { g.enc with codec := .busy [] r }, events := g.events ++ ([] : List Event).map (Side.enc, ·) } : System σ τ) = g := by
      obtain ⟨⟨rd, inq, cd, outq, wr, rcv, snt⟩, d, ev, hd, l, q, en⟩ := g
      dsimp only at hc
      subst hc
      simp
    rw [this]
    exact .here
  | cons e es ih =>
    intro g r hc he hl hn
    simp only [List.length_cons] at hn
    have hf : g.events.length < eventCapacity := by unfold eventCapacity; omega
    have hq : g.channel .enc (.emits e) = some (g.events ++ [(.enc, e)]) := by simp [System.channel, hl, hf]
    have st : System.Step me md .work g { g with enc := { g.enc with codec := .busy es r }, events := g.events ++ [(.enc, e)] } :=
      .encoder g .work (.emits e) _ _ he (.emit g.enc e es r hc) hq
    have k1 : KeepsUp me md g { g with enc := { g.enc with codec := .busy es r }, events := g.events ++ [(.enc, e)] } :=
      .step .here st (by simp) (by simp only [List.length_append, List.length_cons, List.length_nil, pending] at hn ⊢; omega)
    have k2 := ih { g with enc := { g.enc with codec := .busy es r }, events := g.events ++ [(.enc, e)] } r rfl he hl
      (by simp only [List.length_append, List.length_cons, List.length_nil]; omega)
    have := keeps_trans k1 k2
    simpa [List.append_assoc] using this

theorem handle_all {me : Machine σ} {md : Machine τ} (q : List (Side × Event)) : ∀ (g : System σ τ), g.events = q → g.ended = false →
    g.listening = true → g.events.length + pending g.enc + pending g.dec ≤ 50 →
    KeepsUp me md g { g with events := [], handled := g.handled ++ q } := by
  induction q with
  | nil =>
    intro g h _ _ _
    have : ({ g with events := [], handled := g.handled ++ [] } : System σ τ) = g := by
      obtain ⟨en, d, ev, hd, l, q, e⟩ := g
      dsimp only at h
      subst h
      simp
    rw [this]
    exact .here
  | cons x q ih =>
    intro g h he hl hn
    rw [h, List.length_cons] at hn
    have k1 : KeepsUp me md g { g with events := q, handled := g.handled ++ [x] } :=
      .step .here (.handle g x q he hl h) (by simp) (by show q.length + pending g.enc + pending g.dec ≤ 50; omega)
    have k2 := ih { g with events := q, handled := g.handled ++ [x] } rfl he hl (by show q.length + pending g.enc + pending g.dec ≤ 50; omega)
    have := keeps_trans k1 k2
    simpa [List.append_assoc] using this

/-- A datagram whose events fit the channel goes through a gateway that waits for one, with the statistics task keeping up; in
the end nothing is left to do. -/
theorem solo (me : Machine σ) (md : Machine τ) (s : σ) (t : τ) (clock : Nat → Nat) (b : Bytes) {es : List Event} {out : Bytes} {s' : σ}
    (hb : b.length ≤ 1500) (hm : me clock s b = (es, some (out, s'))) (he : es.length ≤ 50) :
    ∃ g, KeepsUp me md (System.start s t) g ∧ g.ended = false ∧ g.listening = true ∧ Alive g.enc ∧ Alive g.dec
      ∧ g.enc.received = [b] ∧ g.enc.sent = [out] ∧ g.handled = es.map (Side.enc, ·) ∧ ∀ g', ¬ System.Step me md .work g g' := by
  have hb' : b.take readerBuffer = b := List.take_of_length_le hb
  let g0 : System σ τ := System.start s t
  let l1 : Lane σ := { g0.enc with reader := .holding b, received := [b] }
  let g1 : System σ τ := { g0 with enc := l1, events := g0.events }
  have s1 : System.Step me md .input g0 g1 := .encoder g0 .input .silent l1 _ rfl (by
    have := Lane.Step.arrive (m := me) (quit := g0.quit) g0.enc b rfl
    rw [hb'] at this; exact this) rfl
  let l2 : Lane σ := { l1 with reader := .waiting, inq := [b] }
  let g2 : System σ τ := { g1 with enc := l2, events := g1.events }
  have s2 : System.Step me md .work g1 g2 := .encoder g1 .work .silent l2 _ rfl (.forward l1 b rfl (by simp [l1, g0, System.start, dataCapacity]) rfl) rfl
  let l3 : Lane σ := { l2 with inq := [], codec := .busy es (some (out, s')) }
  let g3 : System σ τ := { g2 with enc := l3, events := g2.events }
  have s3 : System.Step me md .work g2 g3 := .encoder g2 .work .silent l3 _ rfl (by
    have := Lane.Step.take (m := me) (quit := g2.quit) l2 s b [] clock rfl rfl
    rw [hm] at this; exact this) rfl
  have k3 : KeepsUp me md g0 g3 := .step (.step (.step .here s1 (by simp) (by simp [g1, l1, g0, System.start, pending])) s2 (by simp)
    (by simp [g2, g1, l2, l1, g0, System.start, pending])) s3 (by simp) (by simpa [g3, g2, g1, l3, l2, l1, g0, System.start, pending] using he)
  have k4 := emit_all (me := me) (md := md) es g3 (some (out, s')) rfl rfl rfl (by simpa [g3, g2, g1, g0, System.start, pending] using he)
  let l4 : Lane σ := { l3 with codec := .busy [] (some (out, s')) }
  let g4 : System σ τ := { g3 with enc := l4, events := es.map (Side.enc, ·) }
  have k4 : KeepsUp me md g3 g4 := k4
  have k5 := handle_all (me := me) (md := md) (es.map (Side.enc, ·)) g4 rfl rfl rfl (by simpa [g4, l4, g3, g2, g1, g0, System.start, pending] using he)
  let g5 : System σ τ := { g4 with events := [], handled := es.map (Side.enc, ·) }
  have k5 : KeepsUp me md g4 g5 := k5
  let l6 : Lane σ := { l4 with codec := .sending out s' }
  let g6 : System σ τ := { g5 with enc := l6, events := [] }
  have s6 : System.Step me md .work g5 g6 := .encoder g5 .work .silent l6 _ rfl (.done l4 out s' rfl) rfl
  let l7 : Lane σ := { l6 with codec := .idle s', outq := [out] }
  let g7 : System σ τ := { g6 with enc := l7, events := [] }
  have s7 : System.Step me md .work g6 g7 := .encoder g6 .work .silent l7 _ rfl (.hand l6 out s' rfl (by simp [l6, l4, l3, l2, l1, g0, System.start, dataCapacity]) rfl) rfl
  let l8 : Lane σ := { l7 with writer := .holding out, outq := [] }
  let g8 : System σ τ := { g7 with enc := l8, events := [] }
  have s8 : System.Step me md .work g7 g8 := .encoder g7 .work .silent l8 _ rfl (.pick l7 out [] rfl rfl) rfl
  let l9 : Lane σ := { l8 with writer := .waiting, sent := [out] }
  let g9 : System σ τ := { g8 with enc := l9, events := [] }
  have s9 : System.Step me md .work g8 g9 := .encoder g8 .work .silent l9 _ rfl (.send l8 out rfl) rfl
  have k9 : KeepsUp me md g0 g9 := .step (.step (.step (.step (keeps_trans k3 (keeps_trans k4 k5)) s6 (by simp) (by simp [g6, l6, g5, g4, g3, g2, g1, g0, System.start, pending]))
    s7 (by simp) (by simp [g7, l7, g6, g5, g4, g3, g2, g1, g0, System.start, pending])) s8 (by simp) (by simp [g8, l8, l7, g7, g6, g5, g4, g3, g2, g1, g0, System.start, pending]))
    s9 (by simp) (by simp [g9, l9, l8, l7, g8, g7, g6, g5, g4, g3, g2, g1, g0, System.start, pending])
  refine ⟨g9, k9, rfl, rfl, ⟨by simp [g9, l9, l8, l7, l6, l4, l3, l2], rfl, by simp [g9, l9]⟩, ⟨by simp [g9, g8, g7, g6, g5, g4, g3, g2, g1, g0, System.start], rfl, by simp [g9, g8, g7, g6, g5, g4, g3, g2, g1, g0, System.start]⟩, rfl, rfl, rfl, ?_⟩
  have idle : ∀ {σ : Type} {m : Machine σ} {q : Bool} {f : Effect} (l l' : Lane σ) (x : σ), l.reader = .waiting → l.inq = [] → l.codec = .idle x →
      l.outq = [] → l.writer = .waiting → ¬ Lane.Step m q .work f l l' := by
    intro σ m q f l l' x h1 h2 h3 h4 h5 h
    cases h <;> simp_all [CodecTask.gone]
  intro g' hg
  cases hg with
  | encoder _ _ f l q _ hl hq => exact idle _ _ s' rfl rfl rfl rfl rfl hl
  | decoder _ _ f l q _ hl hq => exact idle _ _ t rfl rfl rfl rfl rfl hl
  | handle _ x rest _ _ hx => cases hx
  | exit _ _ hp => rcases hp with hp | hp <;> cases hp

end

/-- Twenty Acknowledge PDUs in one datagram pass the gateway: the hypotheses of C46, C48 and C49 are met, with something sent. -/
theorem C49_witness (env : Env) (o o' : Options) (grow : Nat → Nat) (t : DecState) :
    ∃ g out, KeepsUp (encMachine env o) (decMachine env o' grow) (System.start {} t) g ∧ g.ended = false ∧ g.listening = true
      ∧ Alive g.enc ∧ Alive g.dec ∧ (∀ g', ¬ System.Step (encMachine env o) (decMachine env o' grow) .work g g')
      ∧ g.enc.sent = [out] ∧ Cdis.parsePackets env.toEnv out = some (List.replicate 20 gwAckC.wire) ∧ g.handled.length = 42 := by
  obtain ⟨es, out, e', h, hp⟩ := C42_witness env o (fun _ => 0) {} (List.length_replicate ..)
  have hps : Dis.parse env.toEnv ((List.replicate 20 gwAck).flatMap Dis.Pdu.ser) = .ok (List.replicate 20 gwAck) := by
    have := C17_packet_round_trip env.toEnv (ps := List.replicate 20 gwAck) (by
      intro p hp; rw [(List.mem_replicate.1 hp).2]; exact gwAck_wf _) (by simp) [] (by simp)
    simpa using this
  have hl := C46_events_per_packet h hps
  have hc : (List.replicate 20 gwAck).countP (fun p => decide (Carried p.header.pdu_type.toNat)) = 20 := by decide +kernel
  rw [hc, List.length_replicate] at hl
  obtain ⟨g, h1, h2, h3, h4, h5, h6, h7, h8, h9⟩ := solo (encMachine env o) (decMachine env o' grow) {} t (fun _ => 0)
    ((List.replicate 20 gwAck).flatMap Dis.Pdu.ser) (by decide +kernel) h (by omega)
  exact ⟨g, out, h1, h2, h3, h4, h5, h9, h7, hp, by rw [h8, List.length_map, hl]⟩

end Verif.Props
