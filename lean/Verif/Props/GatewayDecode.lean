import Verif.Props.GatewayEncode

/-! # C43: the gateway's decoder -/

namespace Verif.Props
open Verif.Gateway Verif.Codec

/-! ## Lemmas -/

theorem implemented_iff (t : Nat) : isImplemented t = true ↔ Carried t := supported_iff t
theorem parsed_uncarried {env : Dis.Env} {b r : Cdis.Bits} {c : Cdis.CdisPdu} (h : (Cdis.CdisPdu.parse env).run b = .ok c r)
    (hc : ¬ Carried c.header.pdu_type) : c.body = .unsupported := by
  simp only [Cdis.CdisPdu.parse, P.run_bind] at h
  cases hh : Cdis.CdisHeader.parse.run b with
  | err => rw [hh] at h; cases h
  | panic => rw [hh] at h; cases h
  | ok hd r1 =>
    rw [hh] at h
    simp only [Res.andThen] at h
    cases hb : (Cdis.CdisBody.parse env hd.pdu_type).run r1 with
    | err => rw [hb] at h; cases h
    | panic => rw [hb] at h; cases h
    | ok bd r2 =>
      rw [hb] at h
      simp only [P.run_pure, Res.ok.injEq] at h
      obtain ⟨rfl, -⟩ := h
      have hs : Cdis.isSupported hd.pdu_type = false := by
        rw [← Bool.not_eq_true, supported_iff]; exact hc
      rw [Cdis.CdisBody.parse_unsupported hs] at hb
      simp only [P.run_pure, Res.ok.injEq] at hb
      exact hb.1.symm
theorem steps_mem {τ α : Type} {p : P τ α} {b r : List τ} {xs : List α} (h : Steps p b xs r) :
    ∀ x ∈ xs, ∃ b r, p.run b = .ok x r := by
  induction h with
  | nil => simp
  | cons h _ ih => intro x hx; rcases List.mem_cons.1 hx with rfl | hx; exacts [⟨_, _, h⟩, ih x hx]
theorem parsedPackets_mem {env : Dis.Env} {bs : Bytes} {cs : List Cdis.CdisPdu} (h : Cdis.parsePackets env bs = some cs) :
    ∀ c ∈ cs, ∃ b r, (Cdis.CdisPdu.parse env).run b = .ok c r := by
  unfold Cdis.parsePackets at h
  cases hp : Cdis.parseBits env (Cdis.bitsOf bs) with
  | err => rw [hp] at h; cases h
  | panic => rw [hp] at h; cases h
  | ok ps r =>
    rw [hp] at h
    cases h
    exact steps_mem ((C36_parse_iff env _ _ _).1 hp).1

/-! ## Theorems -/

/-- What the decoder lets through are the PDUs of the types that C-DIS does **not** carry: the filter is inverted. -/
theorem C43_filter_inverted_violated (env : Env) (o : Options) (s : DecState) (cs : List Cdis.CdisPdu) :
    (decodePdus env o s cs).2 = decStream env o s (cs.filter fun c => decide (¬ Carried c.header.pdu_type)) := by
  induction cs generalizing s with
  | nil => rfl
  | cons c cs ih =>
    by_cases hc : Carried c.header.pdu_type
    · rw [List.filter_cons_of_neg (by simpa using hc)]
      simp only [decodePdus, (implemented_iff _).2 hc, if_true, ih]
    · have hs : ¬ isImplemented c.header.pdu_type = true := fun h => hc ((implemented_iff _).1 h)
      rw [List.filter_cons_of_pos (by simpa using hc)]
      simp only [decodePdus, if_neg hs, ih, decStream]
/-- Every PDU of a carried type is dropped: no output, no change of state, and an event that calls it unimplemented. -/
theorem C43_drops_violated (env : Env) (o : Options) (s : DecState) (cs : List Cdis.CdisPdu) (h : ∀ c ∈ cs, Carried c.header.pdu_type) :
    decodePdus env o s cs = (cs.map fun c => .unimplementedDecodedPdu c.header.pdu_type (octets c.header.length), ([], s)) := by
  induction cs with
  | nil => rfl
  | cons c cs ih =>
    simp only [decodePdus, (implemented_iff _).2 (h c (by simp)), if_true, ih fun d hd => h d (by simp [hd]), List.map_cons]

/-- What the decoder makes of a PDU of a type that C-DIS does not carry: an Other PDU without contents. -/
def emptyOther (h : Cdis.CdisHeader) : Dis.Pdu :=
  ⟨{ headerDec h with pdu_type := 0, protocol_family := 0, pdu_length := 12 }, .other ⟨none, none, []⟩⟩
theorem pduDec_unsupported (env : Env) (o : Options) (s : DecState) (h : Cdis.CdisHeader) :
    pduDec env o s ⟨h, .unsupported⟩ = (emptyOther h, .unaffected, s) := rfl
theorem emptyOther_length (h : Cdis.CdisHeader) : (emptyOther h).ser.length = 12 := by
  simp only [Dis.Pdu.ser, emptyOther, List.length_append, Dis.PduHeader.length_ser]
  rfl
theorem emptyOthers_length (cs : List Cdis.CdisPdu) : (cs.flatMap fun c => (emptyOther c.header).ser).length = 12 * cs.length := by
  induction cs with
  | nil => rfl
  | cons c cs ih => simp only [List.flatMap_cons, List.length_append, emptyOther_length, ih, List.length_cons]; omega
theorem decStream_unsupported (env : Env) (o : Options) (s : DecState) (cs : List Cdis.CdisPdu) (h : ∀ c ∈ cs, c.body = .unsupported) :
    decStream env o s cs = (cs.map fun c => emptyOther c.header, s) := by
  induction cs with
  | nil => rfl
  | cons c cs ih =>
    obtain ⟨hd, b⟩ := c
    have : b = .unsupported := h ⟨hd, b⟩ (by simp)
    subst this
    simp only [decStream, pduDec_unsupported, ih fun d hd => h d (by simp [hd]), List.map_cons]
theorem appendAll_others (grow : Nat → Nat) (cs : List Cdis.CdisPdu) : ∀ (buf : Bytes) (capacity : Nat), 12 ≤ capacity →
    appendAll grow buf capacity (cs.map fun c => emptyOther c.header)
      = some (buf ++ cs.flatMap fun c => (emptyOther c.header).ser, 12 * cs.length) := by
  induction cs with
  | nil => intro buf capacity _; simp [appendAll]
  | cons c cs ih =>
    intro buf capacity h
    have hs : (emptyOther c.header).serialize buf capacity = .ok (buf ++ (emptyOther c.header).ser, 12) := by
      unfold Dis.Pdu.serialize
      have : (emptyOther c.header).pduLength.toNat = 12 := rfl
      rw [if_neg (by omega)]
      rfl
    simp only [List.map_cons, appendAll, hs]
    rw [ih _ _ (by split <;> (try rw [List.length_append, emptyOther_length]) <;> omega)]
    have h12 : (12 : UInt16).toNat = 12 := rfl
    simp [h12]; omega

/-- **C43, violated.** For every packet, the decoder succeeds, never changes its state, and puts out a header of 12 octets
without contents and with PDU type 0 for every PDU of a type that C-DIS does not carry, and nothing for the others; what it
cannot parse gives an empty packet. -/
theorem C43_packet_violated (env : Env) (o : Options) (grow : Nat → Nat) (s : DecState) (bs : Bytes) :
    ∃ out mid, decodeBuffer env o grow s bs = (.receivedBytesCDis bs.length :: (mid ++ [.sentDis out.length]), some (out, s)) ∧
      match Cdis.parsePackets env.toEnv bs with
      | none => out = [] ∧ mid = []
      | some cs => out = ((cs.filter fun c => decide (¬ Carried c.header.pdu_type)).flatMap fun c => (emptyOther c.header).ser)
        ∧ out.length = 12 * cs.countP (fun c => decide (¬ Carried c.header.pdu_type))
        ∧ mid = cs.flatMap fun c => if Carried c.header.pdu_type
            then [.unimplementedDecodedPdu c.header.pdu_type (octets c.header.length)]
            else [.receivedCDis c.header.pdu_type (octets c.header.length), .decodedPdu 0 12] := by
  unfold decodeBuffer
  cases hp : Cdis.parsePackets env.toEnv bs with
  | none => exact ⟨[], [], rfl, rfl, rfl⟩
  | some cs =>
    have hb : ∀ c ∈ cs, ¬ Carried c.header.pdu_type → c.body = .unsupported := by
      intro c hc hn
      obtain ⟨b, r, h⟩ := parsedPackets_mem hp c hc
      exact parsed_uncarried h hn
    have hf : ∀ c ∈ cs.filter (fun c => decide (¬ Carried c.header.pdu_type)), c.body = .unsupported := by
      intro c hc
      rw [List.mem_filter] at hc
      exact hb c hc.1 (by simpa using hc.2)
    have hd := C43_filter_inverted_violated env o s cs
    rw [decStream_unsupported env o s _ hf] at hd
    have hev : ∀ ds : List Cdis.CdisPdu, (∀ c ∈ ds, ¬ Carried c.header.pdu_type → c.body = .unsupported) →
        (decodePdus env o s ds).1 = ds.flatMap fun c => if Carried c.header.pdu_type
            then [.unimplementedDecodedPdu c.header.pdu_type (octets c.header.length)]
            else [.receivedCDis c.header.pdu_type (octets c.header.length), .decodedPdu 0 12] := by
      intro ds
      induction ds with
      | nil => intro _; rfl
      | cons c ds ih =>
        intro h
        have ih := ih fun d hd => h d (by simp [hd])
        by_cases hc : Carried c.header.pdu_type
        · simp only [decodePdus, (implemented_iff _).2 hc, if_true, ih, List.flatMap_cons, hc]
          rfl
        · have hs : ¬ isImplemented c.header.pdu_type = true := fun h => hc ((implemented_iff _).1 h)
          obtain ⟨hd, b⟩ := c
          have : b = .unsupported := h ⟨hd, b⟩ (by simp) hc
          subst this
          simp only [decodePdus, if_neg hs, pduDec_unsupported, List.flatMap_cons, if_neg hc, ih]
          rfl
    have hl := emptyOthers_length (cs.filter fun c => decide (¬ Carried c.header.pdu_type))
    refine ⟨_, _, ?_, rfl, ?_, hev cs hb⟩
    · dsimp only
      unfold decWriting
      rw [show (decodePdus env o s cs).2.1 = _ from congrArg Prod.fst hd,
        show (decodePdus env o s cs).2.2 = s from congrArg Prod.snd hd, appendAll_others grow _ [] 1400 (by decide)]
      simp only [List.nil_append, Option.map_some]
      rw [hl]
    · rw [hl, List.countP_eq_length_filter]
/-- **C43, violated**, end to end: a packet that one gateway's encoder wrote, and that is read as the PDUs it encoded (C42),
leaves the other gateway's decoder as an empty packet. -/
theorem C43_nothing_arrives_violated (env : Env) (o o' : Options) (clock : Nat → Nat) (grow : Nat → Nat) {e e' : Encoder} {s : DecState}
    {bs out : Bytes} {ps : List Dis.Pdu} {cs : List Cdis.CdisPdu} {es mid : List Event}
    (_h : encodeBuffer env o clock e bs = (es, some (out, e'))) (ha : Accounts ps cs mid)
    (hd : Cdis.parsePackets env.toEnv out = some (cs.map Cdis.CdisPdu.wire)) :
    ∃ es', decodeBuffer env o' grow s out = (es', some ([], s)) := by
  have hc : ∀ c ∈ cs, Carried c.header.pdu_type := by
    intro c hc
    have := (C42_counts ha).1
    have hm : c.header.pdu_type ∈ cs.map (·.header.pdu_type) := List.mem_map_of_mem hc
    rw [this, List.mem_filter] at hm
    simpa using hm.2
  obtain ⟨out', mid', h1, h2⟩ := C43_packet_violated env o' grow s out
  rw [hd] at h2
  obtain ⟨-, h3, -⟩ := h2
  have h0 : (cs.map Cdis.CdisPdu.wire).countP (fun c => decide (¬ Carried c.header.pdu_type)) = 0 := by
    rw [List.countP_eq_zero]
    intro c hm
    obtain ⟨d, hd, rfl⟩ := List.mem_map.1 hm
    have := hc d hd
    show ¬ decide (¬ Carried d.header.pdu_type) = true
    rw [decide_eq_true_iff]
    exact fun h => h this
  rw [h0] at h3
  have : out' = [] := List.length_eq_zero_iff.1 (by omega)
  subst this
  exact ⟨_, h1⟩
/-- A case of it: twenty Acknowledge PDUs. -/
theorem C43_witness (env : Env) (o o' : Options) (clock : Nat → Nat) (grow : Nat → Nat) (s : DecState) :
    ∃ es out e' es', encodeBuffer env o clock {} ((List.replicate 20 gwAck).flatMap Dis.Pdu.ser) = (es, some (out, e')) ∧
      decodeBuffer env o' grow s out = (es', some ([], s)) := by
  obtain ⟨es, out, e', h, hd⟩ := C42_witness env o clock {} (List.length_replicate ..)
  obtain ⟨out', mid', h1, h2⟩ := C43_packet_violated env o' grow s out
  rw [hd] at h2
  obtain ⟨-, h3, -⟩ := h2
  have h0 : (List.replicate 20 gwAckC.wire).countP (fun c => decide (¬ Carried c.header.pdu_type)) = 0 := by
    rw [List.countP_eq_zero]
    intro c hm
    rw [(List.mem_replicate.1 hm).2]
    decide
  rw [h0] at h3
  have : out' = [] := List.length_eq_zero_iff.1 (by omega)
  subst this
  exact ⟨es, out, e', _, h, h1⟩

end Verif.Props
