import Verif.Props.Rate
import Verif.Props.GatewayWhole
import Verif.Props.GatewayWitness

/-! # C68 for the whole gateway

The rate of full updates (Props/Rate.lean) is about one encoder.  Here it is about what a gateway of concurrent tasks has sent, whatever the
schedule: the encoder of a gateway has one history, that of the datagrams received. -/

namespace Verif.Props
open Verif.Codec Verif.Gateway

/-- The PDUs of the datagrams, in order, each with the time at which it is handled: of the datagrams that can be read, the PDUs of the types that
C-DIS knows. -/
def carriedHistory (env : Env) (taken : List ((Nat → Nat) × Bytes)) : List (Nat × Dis.Pdu) :=
  taken.flatMap fun x => match Dis.parse env.toEnv x.2 with
    | .ok ps => (stamp x.1 ps).filter fun y => decide (Carried y.2.header.pdu_type.toNat)
    | _ => []

/-- The datagram `d` is made of the C-DIS PDUs `cs`: their bits one after the other, filled up or cut to the number of octets announced. -/
def MadeOf (cs : List Cdis.CdisPdu) (d : Bytes) : Prop :=
  d.length = octets (cs.map Cdis.CdisPdu.lenBits).sum ∧ ∃ rest, Cdis.bitsOf d = (cs.flatMap Cdis.CdisPdu.ser ++ rest).take (8 * d.length)

theorem encStream_append {env : Env} {o : Options} : ∀ (a b : List (Nat × Dis.Pdu)) (s s1 s2 : EncState) (x y : List Cdis.CdisPdu),
    encStream env o s a = some (x, s1) → encStream env o s1 b = some (y, s2) → encStream env o s (a ++ b) = some (x ++ y, s2)
  | [], b, s, s1, s2, x, y, h, h' => by cases h; exact h'
  | (now, p) :: a, b, s, s1, s2, x, y, h, h' => by
    simp only [encStream, List.cons_append] at h ⊢
    cases hp : pduEnc env o now s p with
    | none => rw [hp] at h; cases h
    | some r =>
      rw [hp] at h
      simp only [Option.bind_some, Option.map_eq_some_iff] at h ⊢
      obtain ⟨⟨u, v⟩, h1, h2⟩ := h
      cases h2
      exact ⟨_, encStream_append a b r.2.2 v s2 u y h1 h', rfl⟩

theorem enc_history (env : Env) (o : Options) : ∀ (l : List ((Nat → Nat) × Bytes)) (e e' : Encoder), stateAfter (encMachine env o) e l = some e' →
    ∃ groups, encStream env o e.state (carriedHistory env l) = some (groups.flatten, e'.state) ∧
      List.Forall₂ MadeOf groups (outputs (encMachine env o) e l)
  | [], e, e', h => by
    cases h
    exact ⟨[], rfl, .nil⟩
  | (c, b) :: l, e, e', h => by
    simp only [stateAfter] at h
    cases hb : encMachine env o c e b with
    | mk es r =>
      cases r with
      | none => rw [hb] at h; cases h
      | some r =>
        rw [hb] at h
        obtain ⟨groups, h1, h2⟩ := enc_history env o l r.2 e' h
        have ho : outputs (encMachine env o) e ((c, b) :: l) = r.1 :: outputs (encMachine env o) r.2 l := by
          simp only [outputs, hb]
        have hb' : encodeBuffer env o c e b = (es, some (r.1, r.2)) := hb
        obtain ⟨mid, -, ⟨hn, hr, -, hs⟩ | ⟨ps, cs, hp, -, hs, hw⟩⟩ := C42_packet hb'
        · refine ⟨[] :: groups, ?_, ?_⟩
          · have : carriedHistory env ((c, b) :: l) = carriedHistory env l := by
              simp only [carriedHistory, List.flatMap_cons, hn, List.nil_append]
            rw [this, ← hs]
            exact h1
          · rw [ho, hr]
            exact .cons ⟨rfl, [], rfl⟩ h2
        · refine ⟨cs :: groups, ?_, ?_⟩
          · have : carriedHistory env ((c, b) :: l) = ((stamp c ps).filter fun y => decide (Carried y.2.header.pdu_type.toNat)) ++ carriedHistory env l := by
              simp only [carriedHistory, List.flatMap_cons, hp]
            rw [this]
            exact encStream_append _ _ _ _ _ _ _ hs h1
          · rw [ho]
            obtain ⟨w1, -, -, w4, w5⟩ := C42_written hw
            exact .cons ⟨w1, _, by rw [w5, w4]⟩ h2

theorem outputs_take {σ : Type} (m : Machine σ) : ∀ (l : List ((Nat → Nat) × Bytes)) (s : σ) (k : Nat), k ≤ (outputs m s l).length →
    outputs m s (l.take k) = (outputs m s l).take k ∧ (l.take k).length = k
  | [], s, k, h => by
    cases k with
    | zero => exact ⟨rfl, rfl⟩
    | succ k => cases h
  | (c, b) :: l, s, k, h => by
    cases k with
    | zero => exact ⟨rfl, rfl⟩
    | succ k =>
      simp only [outputs, List.take_succ_cons] at h ⊢
      cases hm : (m c s b).2 with
      | none => rw [hm] at h; cases h
      | some r =>
        rw [hm] at h
        obtain ⟨h1, h2⟩ := outputs_take m l r.2 k (Nat.le_of_succ_le_succ h)
        refine ⟨?_, ?_⟩
        · show r.1 :: outputs m r.2 (l.take k) = (r.1 :: outputs m r.2 l).take (k + 1)
          rw [h1]; rfl
        · rw [List.length_cons, h2]

/-- **C68.** In every reachable state of the gateway, whatever has arrived on either side and in whatever order the tasks have worked: the datagrams
sent are, one for each, those of the first datagrams received, and they are made of the C-DIS PDUs to which an encoder that has just started encodes
the PDUs in them.  In partial-update mode, when the times at which they were handled do not run backwards: whenever a PDU about a subject has been
sent, so has a full update of it that is at most as old as the heartbeat window allows; and two full updates of a subject are further apart than
that. -/
theorem C68_gateway {env : Env} {o o' : Options} (hm : o.update_mode = .partial) {grow : Nat → Nat} {t : DecState} {g : System Encoder DecState}
    (h : System.Reach (encMachine env o) (decMachine env o' grow) (System.start {} t) g) :
    ∃ (taken : List ((Nat → Nat) × Bytes)) (groups : List (List Cdis.CdisPdu)) (s : EncState),
      taken.map (·.2) = g.enc.received.take g.enc.sent.length ∧
      encStream env o {} (carriedHistory env taken) = some (groups.flatten, s) ∧ List.Forall₂ MadeOf groups g.enc.sent ∧
      (Forward (carriedHistory env taken) → ∀ (a : Subject) (w : Rat), GoodFor o (carriedHistory env taken) a w → 0 ≤ w →
        (∀ i ti, AboutAt (carriedHistory env taken) a i ti → ∃ j tj, j ≤ i ∧ FullAt (carriedHistory env taken) groups.flatten a j tj ∧
          ((ti - tj : Nat) : Rat) / 10 ^ 9 * (1 - 1 / 2 ^ 22) ≤ w) ∧
        ∀ i j ti tj, i < j → FullAt (carriedHistory env taken) groups.flatten a i ti → FullAt (carriedHistory env taken) groups.flatten a j tj →
          w < ((tj - ti : Nat) : Rat) / 10 ^ 9 * (1 + 1 / 2 ^ 22)) := by
  obtain ⟨⟨l, ⟨x, hx⟩, ⟨y, hy⟩, -⟩, -⟩ := C48_in_order h
  have hlen : g.enc.sent.length ≤ (outputs (encMachine env o) {} l).length := by rw [← hy, List.length_append]; omega
  obtain ⟨h1, h2⟩ := outputs_take (encMachine env o) l {} g.enc.sent.length hlen
  have h3 : outputs (encMachine env o) {} (l.take g.enc.sent.length) = g.enc.sent := by
    rw [h1, ← hy, List.take_left']
    rfl
  obtain ⟨e', he⟩ := stateAfter_of_length (m := encMachine env o) (s := {}) (l := l.take g.enc.sent.length) (by rw [h3, h2])
  obtain ⟨groups, k1, k2⟩ := enc_history env o _ _ _ he
  rw [h3] at k2
  refine ⟨l.take g.enc.sent.length, groups, e'.state, ?_, k1, k2, ?_⟩
  · rw [List.map_take, ← hx, List.take_append_of_le_length]
    rw [List.length_map]
    rw [List.length_take] at h2
    omega
  · intro hf a w hw hw0
    exact ⟨fun i ti hi => C68_fresh hm hf k1 hw hw0 hi, fun i j ti tj hij hi hj => C68_apart hm hf k1 hw hij hi hj⟩

/-- the datagram of five Entity State PDUs -/
def rateDatagram : Bytes := ((sampleHistory (.entityState sample_entityState) 1).map (·.2)).flatMap Dis.Pdu.ser
/-- the times at which they are handled -/
def rateClock (i : Nat) : Nat := ([0, 1000000000, 4000000000, 30000000000, 31000000000] : List Nat).getD i 31000000000

theorem rate_parse : Dis.parse codecEnv.toEnv rateDatagram = .ok ((sampleHistory (.entityState sample_entityState) 1).map (·.2)) := by
  have := C17_packet_round_trip codecEnv.toEnv (ps := (sampleHistory (.entityState sample_entityState) 1).map (·.2)) (by
    intro p hp
    simp only [sampleHistory, List.map_cons, List.map_nil, List.mem_cons, List.not_mem_nil, or_false, or_self] at hp
    subst hp
    exact ⟨sampleFor_wf 1, rfl, sample_entityState_ok⟩) (by simp [sampleHistory]) [] (by simp)
  simpa [rateDatagram] using this

theorem rate_history : carriedHistory codecEnv [(rateClock, rateDatagram)] = sampleHistory (.entityState sample_entityState) 1 := by
  unfold carriedHistory
  rw [List.flatMap_singleton]
  dsimp only
  rw [rate_parse]
  rfl

/-- The hypotheses of `C68_gateway` are met: a gateway has sent one datagram, in which the first and the fourth of five Entity State PDUs are full
updates. -/
theorem C68_gateway_witness (o' : Options) (grow : Nat → Nat) (t : DecState) : ∃ g out, System.Reach (encMachine codecEnv { update_mode := .partial })
      (decMachine codecEnv o' grow) (System.start {} t) g ∧ g.enc.received = [rateDatagram] ∧ g.enc.sent = [out] ∧
    ∃ cs s, encStream codecEnv { update_mode := .partial } {} (carriedHistory codecEnv [(rateClock, rateDatagram)]) = some (cs, s) ∧ MadeOf cs out ∧
      Forward (carriedHistory codecEnv [(rateClock, rateDatagram)]) ∧
      GoodFor { update_mode := .partial } (carriedHistory codecEnv [(rateClock, rateDatagram)]) (.entityState sample_entityState.entity_id) 12 ∧
      cs.map (fun c => isFull c.body) = [true, false, false, true, false] := by
  obtain ⟨w1, w2, cs, s, w3, -, -, w4⟩ := C68_witness
  rw [rate_history]
  have hsz : ((encStream codecEnv { update_mode := .partial } {} (sampleHistory (.entityState sample_entityState) 1)).map
      fun r => decide (writtenBits r.1 ≤ 89600 ∧ 8 * octets (announcedBits r.1) ≤ 89600)) = some true := by decide +kernel
  cases hb : encodeBuffer codecEnv { update_mode := .partial } rateClock {} rateDatagram with
  | mk es r =>
    cases r with
    | none =>
      have hn := C42_panic_iff.1 (congrArg Prod.snd hb)
      rw [rate_parse] at hn
      rcases hn with hn | ⟨ps, hn, hk⟩
      · cases hn
      · cases hn
        have hst : ((stamp rateClock ((sampleHistory (.entityState sample_entityState) 1).map (·.2))).filter
            fun x => decide (Carried x.2.header.pdu_type.toNat)) = sampleHistory (.entityState sample_entityState) 1 := rfl
        rw [hst, w3] at hk
        rw [w3] at hsz
        have hsz := of_decide_eq_true (Option.some.inj hsz)
        dsimp only at hk hsz
        rw [show ({} : Encoder).buffer.length = 89600 from List.length_replicate] at hk
        omega
    | some r =>
      have hl := C46_events_per_packet (show encodeBuffer codecEnv _ rateClock {} rateDatagram = (es, some (r.1, r.2)) from hb) rate_parse
      have hc : ((sampleHistory (.entityState sample_entityState) 1).map (·.2)).countP (fun p => decide (Carried p.header.pdu_type.toNat)) = 5 := by
        decide +kernel
      rw [hc] at hl
      obtain ⟨g, h1, h2, h3, h4, h5, h6, h7, -, -⟩ := solo (encMachine codecEnv { update_mode := .partial }) (decMachine codecEnv o' grow) {} t rateClock
        rateDatagram (by decide +kernel) hb (by rw [hl]; decide)
      have hm : encMachine codecEnv { update_mode := .partial } rateClock {} rateDatagram = (es, some r) := hb
      obtain ⟨groups, k1, k2⟩ := enc_history codecEnv { update_mode := .partial } [(rateClock, rateDatagram)] {} r.2 (by
        simp only [stateAfter, hm])
      have ho : outputs (encMachine codecEnv { update_mode := .partial }) {} [(rateClock, rateDatagram)] = [r.1] := by
        simp only [outputs, hm]
      have k2 : List.Forall₂ MadeOf groups [r.1] := by rw [← ho]; exact k2
      rw [rate_history] at k1
      have k1 := Option.some.inj (w3.symm.trans k1)
      cases k2 with
      | cons a b =>
        cases b
        rw [List.flatten_cons, List.flatten_nil, List.append_nil] at k1
        cases k1
        exact ⟨g, r.1, h1.smooth.reach, h6, h7, _, _, w3, a, w1, w2, w4⟩

end Verif.Props
