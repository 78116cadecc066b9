import Verif.Props.GatewaySizes
import Verif.Props.GatewayDecode
import Verif.Props.GatewayWhole
import Verif.Props.Compression
import Verif.Props.GatewayWitness

/-! # C79: what the gateway sends fits into a datagram

A UDP datagram over IPv4 holds at most 65507 octets; `send_to` refuses a longer one, and the task that called it ends (main.rs:345-378). -/

namespace Verif.Props
open Verif.Codec Verif.Gateway

/-- the payload of the longest UDP datagram over IPv4: 65535 less the headers of IP (20) and UDP (8) -/
def longestDatagram : Nat := 65507

theorem bitsOf_length (bs : Bytes) : (Cdis.bitsOf bs).length = 8 * bs.length := by
  induction bs with
  | nil => rfl
  | cons x l ih =>
    show (Cdis.wU 8 x.toNat ++ Cdis.bitsOf l).length = _
    rw [List.length_append, ih, Cdis.length_wU, List.length_cons]
    omega
theorem packBits_length (b : Cdis.Bits) : 8 * (packBits b).length < b.length + 8 := by
  obtain ⟨k, hk, e⟩ := bitsOf_pack b
  have h := congrArg List.length e
  rw [bitsOf_length, List.length_append, List.length_replicate] at h
  omega

theorem writing_length {e e' : Encoder} {ps : List Cdis.CdisPdu} {out : Bytes} {es : List Event} (h : encWriting e ps = (es, some (out, e'))) :
    8 * out.length ≤ e'.buffer.length ∧ es = [.sentCDis out.length] := by
  unfold encWriting at h
  cases hb : storeAll e.buffer 0 ps with
  | none => rw [hb] at h; cases h
  | some buf =>
    rw [hb] at h
    dsimp only at h
    split at h
    · rename_i hn
      cases h
      have := (packBits_whole (octets (ps.map Cdis.CdisPdu.lenBits).sum)
        (buf.take (8 * octets (ps.map Cdis.CdisPdu.lenBits).sum)) (by rw [List.length_take]; omega)).1
      dsimp only
      rw [this]
      exact ⟨hn, rfl⟩
    · cases h

/-- **C79.** Whatever an encoder receives, in whatever state and mode and however long the datagram: what it sends has at most 11200 octets, which
is the size of its buffer. -/
theorem C79_encoder {env : Env} {o : Options} {clock : Nat → Nat} {e e' : Encoder} {bs out : Bytes} {es : List Event}
    (he : e.buffer.length = 89600) (h : encodeBuffer env o clock e bs = (es, some (out, e'))) :
    out.length ≤ 11200 ∧ out.length ≤ longestDatagram := by
  have hk := encode_keeps h
  have key : 8 * out.length ≤ e'.buffer.length := by
    unfold encodeBuffer at h
    cases hp : Dis.parse env.toEnv bs with
    | panic => rw [hp] at h; cases h
    | error =>
      rw [hp] at h
      cases hw : encWriting e [] with
      | mk a b =>
        rw [hw] at h
        have hb : b = some (out, e') := congrArg Prod.snd h
        rw [hb] at hw
        exact (writing_length hw).1
    | ok ps =>
      rw [hp] at h
      dsimp only at h
      cases hq : (encodePdus env o e.state (stamp clock ps)).2 with
      | none => rw [hq] at h; cases h
      | some q =>
        rw [hq] at h
        dsimp only at h
        cases hw : encWriting { e with state := q.2 } q.1 with
        | mk a b =>
          rw [hw] at h
          have hb : b = some (out, e') := congrArg Prod.snd h
          rw [hb] at hw
          exact (writing_length hw).1
  unfold longestDatagram
  omega

theorem steps_count {env : Dis.Env} {b r : Cdis.Bits} {ps : List Cdis.CdisPdu} (h : Steps (Cdis.CdisPdu.parse env) b ps r) :
    63 * ps.length ≤ b.length := by
  induction h with
  | nil => simp
  | cons h _ ih =>
    have := pdu_consumes env _ _ _ h
    simp only [List.length_cons]
    omega

/-- the number of PDUs in a C-DIS datagram: at most one for every 63 bits -/
theorem parsed_count {env : Dis.Env} {bs : Bytes} {cs : List Cdis.CdisPdu} (h : Cdis.parsePackets env bs = some cs) : 63 * cs.length ≤ 8 * bs.length := by
  unfold Cdis.parsePackets at h
  cases hp : Cdis.parseBits env (Cdis.bitsOf bs) with
  | err => rw [hp] at h; cases h
  | panic => rw [hp] at h; cases h
  | ok ps r =>
    rw [hp] at h
    cases h
    have := steps_count ((C36_parse_iff _ _ _ _).1 hp).1
    rwa [bitsOf_length] at this

/-- **C79.** Whatever a decoder receives, in whatever state and mode: what it sends has at most twelve octets for every 63 bits received, so at
most 2280 for the longest that the gateway reads. -/
theorem C79_decoder {env : Env} {o : Options} {grow : Nat → Nat} {s s' : DecState} {bs out : Bytes} {es : List Event}
    (h : decodeBuffer env o grow s bs = (es, some (out, s'))) : out.length ≤ 12 * (8 * bs.length / 63) ∧
      (bs.length ≤ 1500 → out.length ≤ 2280 ∧ out.length ≤ longestDatagram) := by
  obtain ⟨out', mid, h1, h2⟩ := C43_packet_violated env o grow s bs
  have e : out' = out := by
    have := h1.symm.trans h
    exact congrArg (fun x : List Event × Option (Bytes × DecState) => (x.2.map (·.1)).getD []) this
  subst e
  have key : out'.length ≤ 12 * (8 * bs.length / 63) := by
    cases hp : Cdis.parsePackets env.toEnv bs with
    | none => rw [hp] at h2; rw [h2.1]; simp
    | some cs =>
      rw [hp] at h2
      have hc := parsed_count hp
      have := List.countP_le_length (p := fun c => decide (¬ Carried c.header.pdu_type)) (l := cs)
      rw [h2.2.1]
      omega
  refine ⟨key, fun hl => ?_⟩
  unfold longestDatagram
  omega

/-! ## The whole gateway -/

theorem dec_received_short {σ τ : Type} {me : Machine σ} {md : Machine τ} {s : σ} {t : τ} {g : System σ τ} (h : System.Reach me md (System.start s t) g) :
    ∀ b ∈ g.dec.received, b.length ≤ 1500 := by
  induction h with
  | here => intro b hb; cases hb
  | step _ hs ih =>
    cases hs with
    | decoder _ _ f l q _ hl _ =>
      intro b hb
      cases hl with
      | arrive =>
        rcases List.mem_append.1 hb with hb | hb
        · exact ih b hb
        · rw [List.mem_singleton.1 hb, List.length_take]; exact Nat.min_le_left _ _
      | _ => exact ih b hb
    | _ => exact ih

theorem enc_outputs_short (env : Env) (o : Options) : ∀ (l : List ((Nat → Nat) × Bytes)) (e : Encoder), e.buffer.length = 89600 →
    ∀ out ∈ outputs (encMachine env o) e l, out.length ≤ 11200
  | [], _, _, _, h => by cases h
  | (c, b) :: l, e, he, out, h => by
    simp only [outputs] at h
    cases hb : encMachine env o c e b with
    | mk es r =>
      cases r with
      | none => rw [hb] at h; cases h
      | some r =>
        rw [hb] at h
        have hb : encodeBuffer env o c e b = (es, some (r.1, r.2)) := hb
        rcases List.mem_cons.1 h with h | h
        · rw [h]; exact (C79_encoder he hb).1
        · exact enc_outputs_short env o l r.2 ((encode_keeps hb).trans he) out h

theorem dec_outputs_short (env : Env) (o : Options) (grow : Nat → Nat) : ∀ (l : List ((Nat → Nat) × Bytes)) (s : DecState), (∀ x ∈ l, x.2.length ≤ 1500) →
    ∀ out ∈ outputs (decMachine env o grow) s l, out.length ≤ 2280
  | [], _, _, _, h => by cases h
  | (c, b) :: l, s, hl, out, h => by
    simp only [outputs] at h
    cases hb : decMachine env o grow c s b with
    | mk es r =>
      cases r with
      | none => rw [hb] at h; cases h
      | some r =>
        rw [hb] at h
        have hb : decodeBuffer env o grow s b = (es, some (r.1, r.2)) := hb
        rcases List.mem_cons.1 h with h | h
        · rw [h]; exact ((C79_decoder hb).2 (hl (c, b) (by simp))).1
        · exact dec_outputs_short env o grow l r.2 (fun x hx => hl x (by simp [hx])) out h

/-- **C79.** Whatever has arrived from either side, at whatever times and in whatever order the tasks have worked: every datagram that the gateway
has sent has at most 11200 octets on the C-DIS side and 2280 on the DIS side, so that it fits into a UDP datagram. -/
theorem C79_gateway {env : Env} {o o' : Options} {grow : Nat → Nat} {t : DecState} {g : System Encoder DecState}
    (h : System.Reach (encMachine env o) (decMachine env o' grow) (System.start {} t) g) :
    (∀ d ∈ g.enc.sent, d.length ≤ 11200 ∧ d.length ≤ longestDatagram) ∧ ∀ d ∈ g.dec.sent, d.length ≤ 2280 ∧ d.length ≤ longestDatagram := by
  obtain ⟨⟨l, -, ⟨x, hx⟩, -⟩, l', ⟨y, hy⟩, ⟨x', hx'⟩, -⟩ := C48_in_order h
  unfold longestDatagram
  constructor
  · intro d hd
    have := enc_outputs_short env o l {} List.length_replicate d (by rw [← hx]; exact List.mem_append_left _ hd)
    omega
  · intro d hd
    have := dec_outputs_short env o' grow l' t (fun x hx => dec_received_short h x.2 (by
      rw [← hy]; exact List.mem_append_left _ (List.mem_map_of_mem hx))) d (by rw [← hx']; exact List.mem_append_left _ hd)
    omega

/-! ## What the gateway at the other end reads

A gateway reads at most 1500 octets of a datagram (main.rs:31, 264). -/

/-- **C79.** What a gateway makes of a datagram that it can read, of PDUs that C-DIS makes no longer (C67 says which), is read whole by the gateway
at the other end. -/
theorem C79_read_whole_partial {env : Env} {o : Options} {clock : Nat → Nat} {e e' : Encoder} {bs out : Bytes} {es : List Event}
    (h : encodeBuffer env o clock e bs = (es, some (out, e'))) (hl : bs.length ≤ readerBuffer)
    (hc : ∀ ps, Dis.parse env.toEnv bs = .ok ps → ∀ p ∈ ps, Compressible env.toEnv p) : out.take readerBuffer = out :=
  List.take_of_length_le ((C67_datagram h hc).trans hl)

/-- an emitter system of nine beams, eight of them with fifteen tracks and one with three -/
def crowdedBeams : List Dis.Beam :=
  (List.range 8).map busyBeam ++ [{ busyBeam 8 with track_jam_data := (busyBeam 8).track_jam_data.take 3 }]
def crowdedEmission : Dis.ElectromagneticEmission :=
  ⟨⟨⟨65535, 65535⟩, 65535⟩, ⟨⟨65535, 65535⟩, 65535⟩, 1, [⟨65535, 255, 255, ⟨0x46EA6000, 0x46EA6000, 0x46EA6000⟩, crowdedBeams⟩]⟩
def crowdedPdu : Dis.Pdu := ⟨{ bigHeader 23 with pdu_length := 1500 }, .electromagneticEmission crowdedEmission⟩

theorem crowded_bits (now : Nat) (st : Option EeEncState) (o : Options) (ho : o.update_mode = .full) : (eeEnc o now st crowdedEmission).1.lenBits = 11988 := by
  have hf : (eeEnc o now st crowdedEmission).1 = ⟨true, eidEnc crowdedEmission.emitting_entity_id,
        evidEnc crowdedEmission.event_id, crowdedEmission.state_update_indicator.toNat,
        paramsFull crowdedEmission, beamsFull crowdedEmission, pairsOf crowdedEmission,
        crowdedEmission.emitter_systems.map (eeSystemEnc true (paramsFull crowdedEmission) (beamsFull crowdedEmission) (pairsOf crowdedEmission))⟩ := by
    unfold eeEnc; rw [ho]
  have hsys : ∀ ps bs pairs, ((crowdedEmission.emitter_systems.map (eeSystemEnc true ps bs pairs)).map Cdis.EmitterSystem.lenBits).sum = 6034 := by
    intro ps bs pairs; krfl
  have h1 : ((paramsFull crowdedEmission).map Cdis.FundamentalParameter.lenBits).sum = 765 := by
    unfold paramsFull
    rw [sortDedup_sum _ (by decide +kernel)]; krfl
  have h2 : ((beamsFull crowdedEmission).map Cdis.BeamData.lenBits).sum = 630 := by
    unfold beamsFull
    rw [sortDedup_sum _ (by decide +kernel)]; krfl
  have h3 : ((pairsOf crowdedEmission).map Cdis.SiteAppPair.lenBits).sum = 4428 := by
    unfold pairsOf
    rw [sortDedup_sum _ (by decide +kernel)]; krfl
  rw [hf]
  simp only [Cdis.ElectromagneticEmission.lenBits, hsys, h1, h2, h3]
  krfl

theorem crowded_wf (env : Dis.Env) : crowdedPdu.Wf env :=
  ⟨⟨rfl, .inl ⟨rfl, _, rfl, C02_read_wf 23 0x02⟩⟩, rfl, (by decide +kernel : crowdedEmission.Wf)⟩

theorem crowded_parse (env : Dis.Env) : Dis.parse env crowdedPdu.ser = .ok [crowdedPdu] := by
  have := C17_packet_round_trip env (ps := [crowdedPdu]) (by intro p hp; rw [List.mem_singleton.1 hp]; exact crowded_wf _) (by simp) [] (by simp)
  simpa using this

theorem crowded_enc (env : Env) (now : Nat) (s : EncState) {o : Options} (ho : o.update_mode = .full) :
    ∃ q, pduEnc env o now s crowdedPdu = some (q, .unaffected, s) ∧ octets q.lenBits = 1507 := by
  have hb : bodyEnc env o now s crowdedPdu.body = some (eeEncodeBody o now s crowdedEmission) := rfl
  have hr : (eeEnc o now (s.ee crowdedEmission.emitting_entity_id) crowdedEmission).2 = .unaffected := by unfold eeEnc; rw [ho]
  refine ⟨Cdis.CdisPdu.finalize (headerEnc crowdedPdu.header) (eeEncodeBody o now s crowdedEmission).1 none, ?_, ?_⟩
  · unfold pduEnc
    rw [hb]
    simp only [Option.map_some, eeEncodeBody, hr]
    rfl
  · have := crowded_bits now (s.ee crowdedEmission.emitting_entity_id) o ho
    have e : (Cdis.CdisPdu.finalize (headerEnc crowdedPdu.header) (eeEncodeBody o now s crowdedEmission).1 none).lenBits =
      67 + (eeEnc o now (s.ee crowdedEmission.emitting_entity_id) crowdedEmission).1.lenBits := rfl
    rw [e, this]
    rfl

/-- **C79, violated.** An Electromagnetic Emission PDU of 1500 octets, which the gateway reads, becomes in full-update mode a datagram of 1507, of
which the gateway at the other end reads all but the last seven. -/
theorem C79_read_whole_violated {env : Env} {alnum : Char → Bool} (hs : Dis.Sanitizes alnum env.toEnv) {o : Options} (ho : o.update_mode = .full)
    (clock : Nat → Nat) {e : Encoder} (he : e.buffer.length = 89600) : crowdedPdu.ser.length = readerBuffer ∧ crowdedPdu.Wf env.toEnv ∧
    ∃ es out e', encodeBuffer env o clock e crowdedPdu.ser = (es, some (out, e')) ∧ out.length = readerBuffer + 7 ∧ out.take readerBuffer ≠ out := by
  have hl : crowdedPdu.ser.length = 1500 := by decide +kernel
  refine ⟨hl, crowded_wf _, ?_⟩
  cases hb : encodeBuffer env o clock e crowdedPdu.ser with
  | mk es r =>
    cases r with
    | none =>
      rcases C65_only_fatal hs he (by omega) (congrArg Prod.snd hb) with h | ⟨ps, h, p, hp, hc⟩
      · rw [crowded_parse] at h; cases h
      · rw [crowded_parse] at h
        cases h
        rw [List.mem_singleton.1 hp] at hc
        obtain ⟨x, l, hx, -⟩ := hc
        cases hx
    | some r =>
      obtain ⟨mid, -, ⟨hn, -⟩ | ⟨ps, cs, hq, -, hs, hw⟩⟩ := C42_packet hb
      · rw [crowded_parse] at hn; cases hn
      · rw [crowded_parse] at hq
        cases hq
        obtain ⟨q, hq, hl⟩ := crowded_enc env (clock 0) e.state ho
        have hst : ((stamp clock [crowdedPdu]).filter fun x => decide (Carried x.2.header.pdu_type.toNat)) = [(clock 0, crowdedPdu)] := by
          simp [stamp, List.zipIdx, show Carried crowdedPdu.header.pdu_type.toNat from by decide]
        rw [hst] at hs
        simp only [encStream, hq, Option.bind_some, Option.map_some, Option.some.injEq, Prod.mk.injEq] at hs
        have hr : r.1.length = 1507 := by
          rw [(C42_written hw).1, ← hs.1]
          simpa using hl
        refine ⟨es, r.1, r.2, rfl, hr, fun h => ?_⟩
        have := congrArg List.length h
        rw [List.length_take, hr] at this
        cases this

/-- The hypotheses are met: twenty Acknowledge PDUs are made into a datagram by any encoder, and none of them gets longer. -/
example (env : Env) (o : Options) (clock : Nat → Nat) : ∃ es out e', encodeBuffer env o clock {} ((List.replicate 20 gwAck).flatMap Dis.Pdu.ser) = (es, some (out, e')) ∧
    out.length ≤ 11200 ∧ Compressible env.toEnv gwAck := by
  obtain ⟨es, out, e', h, -⟩ := C42_witness env o clock {} List.length_replicate
  exact ⟨es, out, e', h, (C79_encoder List.length_replicate h).1, trivial⟩

/-! ## The decoder that the gateway does not use

The gateway drops what C-DIS carries before it decodes it (C43).  A program that decodes what it has read: -/

def remarksHeader : Cdis.CdisHeader := ⟨1, 1, 22, 0, 0, Dis.parsePduStatusFields 22 0⟩
def remarksFrom : Cdis.EntityId := ⟨1, 2, 3⟩
def remarksTo : Cdis.EntityId := ⟨4, 5, 6⟩
/-- a C-DIS Comment PDU with `n` datums of one octet -/
def remarks (n : Nat) : Cdis.CdisPdu :=
  ⟨remarksHeader, .comment ⟨remarksFrom, remarksTo, ⟨[], List.replicate n ⟨1, [65]⟩⟩⟩⟩

theorem remarks_wf (env : Dis.Env) {n : Nat} (h : n ≤ 255) : (remarks n).Wf env := by
  have h0 : remarksHeader.Wf := ⟨by decide, by decide, by decide, by decide, by decide, C02_read_wf 22 0⟩
  have h1 : remarksFrom.Wf := by decide
  have h2 : remarksTo.Wf := by decide
  refine ⟨h0, rfl, h1, h2, Nat.zero_lt_succ _, ?_, by simp, ?_⟩
  · show (List.replicate n _).length < 256
    rw [List.length_replicate]; omega
  · intro d hd
    cases (List.mem_replicate.1 hd).2
    decide

theorem remarks_bits (n : Nat) : (remarks n).ser.length ≤ 195 + 54 * n := by
  have h := (Cdis.CdisPdu.close_size (p := remarks n) (by intro x hx; cases hx)).1
  have e : (remarks n).body.close = 128 + 54 * n := by
    show 128 + 64 * 0 + ((List.replicate n _).map fun (d : Cdis.VariableDatum) => 46 + 8 * d.datum_value.length).sum = _
    rw [List.map_replicate, List.sum_replicate_nat]
    show 128 + 64 * 0 + n * 54 = _
    omega
  rw [e] at h
  omega

/-- What it is decoded to takes 457 octets for each of the datums, and announces 16 for each. -/
theorem remarks_decoded (env : Env) (o : Options) (s : DecState) {n : Nat} (hn : n ≤ 255) :
    ∃ q : Dis.Pdu, decStream env o s [(remarks n).wire] = ([q], s) ∧ q.ser.length = 32 + 457 * n ∧ q.header.pdu_length.toNat = 32 + 16 * n := by
  refine ⟨(pduDec env o s (remarks n).wire).1, rfl, ?_, ?_⟩
  · show (Dis.PduHeader.ser _ ++ Dis.Comment.ser ⟨_, _, (List.replicate n _).map vdDec⟩).length = _
    rw [List.length_append, Dis.PduHeader.length_ser, List.map_replicate]
    simp only [Dis.Comment.ser, List.length_append]
    have e : ∀ n, (Dis.serList Dis.VariableDatum.ser (List.replicate n (vdDec ⟨1, [65]⟩))).length = 457 * n := by
      intro n
      induction n with
      | zero => rfl
      | succ n ih =>
        show (Dis.VariableDatum.ser _ ++ Dis.serList Dis.VariableDatum.ser (List.replicate n _)).length = _
        rw [List.length_append, ih, C05_wire_length]
        show 8 + 1 + 64 * ((8 - 1 % 8) % 8) + 457 * n = _
        omega
    rw [e]
    show 12 + (6 + 6 + 4 + 4 + 457 * n) = _
    omega
  · show (UInt16.ofNat (12 + Dis.Comment.bodyLen ⟨_, _, (List.replicate n _).map vdDec⟩)).toNat = _
    rw [List.map_replicate]
    have e : ∀ n, Dis.datumsLen [] (List.replicate n (vdDec ⟨1, [65]⟩)) = 16 * n := by
      intro n
      unfold Dis.datumsLen
      rw [List.map_replicate, List.sum_replicate_nat]
      show 0 + n * 16 = _
      omega
    simp only [Dis.Comment.bodyLen, e]
    rw [UInt16.toNat_ofNat_of_lt' (by unfold UInt16.size; omega)]
    omega

/-- **C79, violated.** A C-DIS datagram of at most 1063 octets, fewer than the gateway reads, is decoded to one PDU of 68582 octets, which no UDP
datagram can hold (and which announces 2432 of them). -/
theorem C79_library_violated (env : Env) (o : Options) (s : DecState) : ∃ (bs : Bytes) (cs : List Cdis.CdisPdu) (q : Dis.Pdu),
    bs.length ≤ 1063 ∧ Cdis.parsePackets env.toEnv bs = some cs ∧ decStream env o s cs = ([q], s) ∧
      q.ser.length = 68582 ∧ longestDatagram < q.ser.length ∧ q.header.pdu_length.toNat = 2432 := by
  obtain ⟨q, h1, h2, h3⟩ := remarks_decoded env o s (n := 150) (by omega)
  refine ⟨packBits (remarks 150).ser, [(remarks 150).wire], q, ?_, ?_, h1, h2, ?_, h3⟩
  · have a := packBits_length (remarks 150).ser
    have b := remarks_bits 150
    omega
  · have := C36_octets (env := env.toEnv) [remarks 150] (by simp) (by
      intro p hp
      cases List.mem_singleton.1 hp
      exact remarks_wf _ (by omega))
    simpa using this
  · rw [h2]; decide

/-- The gateway itself drops that PDU, and sends an empty datagram. -/
example (env : Env) (o : Options) (grow : Nat → Nat) (s : DecState) : ∃ es out, decodeBuffer env o grow s (packBits (remarks 150).ser) = (es, some (out, s)) ∧
    out = [] := by
  obtain ⟨out, mid, h1, h2⟩ := C43_packet_violated env o grow s (packBits (remarks 150).ser)
  have := C36_octets (env := env.toEnv) [remarks 150] (by simp) (by
    intro p hp
    cases List.mem_singleton.1 hp
    exact remarks_wf _ (by omega))
  rw [List.flatMap_singleton] at this
  rw [this] at h2
  exact ⟨_, out, h1, h2.1⟩

end Verif.Props
