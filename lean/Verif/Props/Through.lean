import Verif.Props.CodecTime
import Verif.Props.Quantise3
import Verif.Props.CdisPdu

namespace Verif.Props
open Verif.Codec

theorem wU_mod (k v : Nat) : Cdis.wU k v = Cdis.wU k (v % 2 ^ k) := by
  have h1 := Cdis.wU_ofBits (Cdis.wU k v)
  have h2 := Cdis.wU_ofBits (Cdis.wU k (v % 2 ^ k))
  rw [Cdis.length_wU, Cdis.ofBits_wU] at h1 h2
  rw [Nat.mod_mod] at h2
  rw [← h1]

/-- The header that arrives, whatever the length and the timestamp are. -/
theorem header_wire (h : Dis.PduHeader) (n : Nat) (hs : (h.pdu_status.getD {}).Wf h.pdu_type) (rest : Cdis.Bits) :
    Cdis.CdisHeader.parse.run ({ headerEnc h with length := n }.ser ++ rest) =
      .ok { headerEnc h with length := n % 2 ^ 14, timestamp := (timeEnc h.time_stamp).raw % 2 ^ 26 } rest := by
  have e : ({ headerEnc h with length := n } : Cdis.CdisHeader).ser =
      ({ headerEnc h with length := n % 2 ^ 14, timestamp := (timeEnc h.time_stamp).raw % 2 ^ 26 } : Cdis.CdisHeader).ser := by
    unfold Cdis.CdisHeader.ser headerEnc
    dsimp only
    rw [wU_mod 14 n, wU_mod 26 ((timeEnc h.time_stamp).raw % 4294967296)]
    rw [show (timeEnc h.time_stamp).raw % 4294967296 % 2 ^ 26 = (timeEnc h.time_stamp).raw % 2 ^ 26 by omega]
  rw [e]
  refine Cdis.CdisHeader.run ⟨(by show (1:Nat) < 2 ^ 2; decide), ?_, ?_, ?_, ?_, ?_⟩ rest
  · exact h.exercise_id.toNat_lt
  · exact h.pdu_type.toNat_lt
  · exact Nat.mod_lt _ (by decide)
  · exact Nat.mod_lt _ (by decide)
  · show Dis.PduStatus.Wf _ (UInt8.ofNat h.pdu_type.toNat)
    rw [UInt8.ofNat_toNat]
    exact hs

/-- The PDU that is received in place of `p` when its body arrives as `b`. -/
def received (h : Dis.PduHeader) (b : Dis.Body) : Dis.Pdu :=
  ⟨{ protocol_version := 7, exercise_id := h.exercise_id, pdu_type := h.pdu_type,
     protocol_family := Dis.familyOfType h.pdu_type, time_stamp := timeWireQ h.time_stamp,
     pdu_length := UInt16.ofNat (12 + b.bodyLen), pdu_status := some (h.pdu_status.getD {}), padding := 0 }, b⟩

/-- `p` is encoded at any time by an encoder in any state, its octets are read whatever follows them, and a decoder in any
state and mode makes `q` of them. -/
def Arrives (env : Env) (o : Options) (p q : Dis.Pdu) : Prop :=
  ∀ now s, ∃ c r s', pduEnc env o now s p = some (c, r, s') ∧
    ∃ w, (∀ rest, (Cdis.CdisPdu.parse env.toEnv).run (c.ser ++ rest) = .ok w rest) ∧ ∀ o' d, (pduDec env o' d w).1 = q

theorem arrives_of {env : Env} {o o1 : Options} {p : Dis.Pdu} {cb wb : Cdis.CdisBody} {b : Dis.Body}
    (hb : ∀ now s, (bodyEnc env o now s p.body).map (·.1) = some cb)
    (hst : (p.header.pdu_status.getD {}).Wf p.header.pdu_type)
    (hw : ∀ rest, (Cdis.CdisBody.parse env.toEnv p.header.pdu_type.toNat).run (cb.ser ++ rest) = .ok wb rest)
    (hc : SelfContained wb) (hd : (bodyDec env o1 {} wb).1 = b) (ht : b.pduType = p.header.pdu_type) :
    Arrives env o p (received p.header b) := by
  intro now s
  cases he : bodyEnc env o now s p.body with
  | none => have := hb now s; rw [he] at this; simp at this
  | some r =>
    obtain ⟨cb', r, s'⟩ := r
    have h1 := hb now s
    rw [he] at h1
    simp only [Option.map_some, Option.some.injEq] at h1
    subst h1
    refine ⟨_, r, s', by unfold pduEnc; rw [he]; rfl,
      ⟨{ headerEnc p.header with
          length := ((headerEnc p.header).lenBits + cb'.lenBits) % 65536 % 2 ^ 14,
          timestamp := (timeEnc p.header.time_stamp).raw % 2 ^ 26 }, wb⟩, fun rest => ?_, fun o' d => ?_⟩
    · have hh := header_wire p.header (((headerEnc p.header).lenBits + cb'.lenBits) % 65536) hst (cb'.ser ++ rest)
      unfold Cdis.CdisPdu.parse Cdis.CdisPdu.ser
      rw [List.append_assoc, P.run_bind]
      rw [show (Cdis.CdisPdu.finalize (headerEnc p.header) cb' none).header =
        { headerEnc p.header with length := ((headerEnc p.header).lenBits + cb'.lenBits) % 65536 } from rfl]
      rw [show (Cdis.CdisPdu.finalize (headerEnc p.header) cb' none).body = cb' from rfl, hh]
      simp only [Res.andThen_ok, P.run_bind, P.run_pure]
      rw [show (headerEnc p.header).pdu_type = p.header.pdu_type.toNat from rfl, hw]
      rfl
    · rw [C40_decode o' o1 d {} hc]
      unfold pduDec
      dsimp only
      rw [hd]
      unfold Dis.Pdu.finalizeFromParts headerDec headerEnc received
      simp only [UInt8.ofNat_toNat, ht]
      rfl

/-- Packets. -/
theorem arrives_packet {env : Env} {o : Options} (o' : Options) {hist : List (Nat × Dis.Pdu)} {q : Dis.Pdu → Dis.Pdu} (hn : hist ≠ [])
    (h : ∀ e ∈ hist, Arrives env o e.2 (q e.2)) (s : EncState) (d : DecState) :
    ∃ out s', encStream env o s hist = some (out, s') ∧
      (Cdis.parsePackets env.toEnv (packBits (out.flatMap Cdis.CdisPdu.ser))).map (fun cs => (decStream env o' d cs).1) =
        some (hist.map fun e => q e.2) := by
  suffices hs : ∀ (hist : List (Nat × Dis.Pdu)), (∀ e ∈ hist, Arrives env o e.2 (q e.2)) → ∀ s, ∃ out s' ws,
      encStream env o s hist = some (out, s') ∧
      (∀ pad, Steps (Cdis.CdisPdu.parse env.toEnv) (out.flatMap Cdis.CdisPdu.ser ++ pad) ws pad) ∧ ws.length = hist.length ∧
      ∀ d, (decStream env o' d ws).1 = hist.map fun e => q e.2 by
    obtain ⟨out, s', ws, h1, h2, h3, h4⟩ := hs hist h s
    refine ⟨out, s', h1, ?_⟩
    obtain ⟨k, hk, e⟩ := bitsOf_pack (out.flatMap Cdis.CdisPdu.ser)
    unfold Cdis.parsePackets
    have := (C36_parse_iff env.toEnv _ _ ws).2 ⟨h2 (List.replicate k false), ?_, pdu_short (by rw [List.length_replicate]; omega)⟩
    · rw [e, this]
      simp [h4]
    · rintro rfl
      exact hn (List.length_eq_zero_iff.1 h3.symm)
  intro hist
  induction hist with
  | nil => exact fun _ s => ⟨[], s, [], rfl, fun pad => .nil pad, rfl, fun d => rfl⟩
  | cons e rest ih =>
    obtain ⟨now, p⟩ := e
    intro h s
    obtain ⟨c, r, s1, h1, w, h2, h3⟩ := h (now, p) (by simp) now s
    obtain ⟨out, s', ws, h4, h5, h6, h7⟩ := ih (fun e he => h e (by simp [he])) s1
    refine ⟨c :: out, s', w :: ws, ?_, fun pad => ?_, by simp [h6], fun d => ?_⟩
    · simp only [encStream, h1, Option.bind_some, h4, Option.map_some]
    · rw [List.flatMap_cons, List.append_assoc]
      exact .cons (h2 _) (h5 pad)
    · simp only [decStream, List.map_cons, h7]
      congr 1
      exact h3 _ _

/-- `arrives_of` for bodies that fit, or whose bits are those of a body that fits. -/
theorem arrives_fit {env : Env} {o o1 : Options} {h : Dis.PduHeader} {x : Dis.Body} (cb cb' : Cdis.CdisBody) {b : Dis.Body}
    (hb : ∀ now s, (bodyEnc env o now s x).map (·.1) = some cb)
    (hst : (h.pdu_status.getD {}).Wf h.pdu_type) (hser : cb.ser = cb'.ser)
    (hw : cb'.Wf env.toEnv h.pdu_type.toNat)
    (hc : SelfContained cb'.wire) (hd : (bodyDec env o1 {} cb'.wire).1 = b) (ht : b.pduType = h.pdu_type) :
    Arrives env o ⟨h, x⟩ (received h b) :=
  arrives_of (p := ⟨h, x⟩) hb hst (fun rest => by rw [hser]; exact Cdis.CdisBody.run hw rest) hc hd ht

theorem eid_wf (x : Dis.EntityId) : (eidEnc x).Wf :=
  ⟨x.simulation_address.site_id.toNat_lt, x.simulation_address.application_id.toNat_lt, x.entity_id.toNat_lt⟩
theorem evid_wf (x : Dis.EventId) : (evidEnc x).Wf :=
  ⟨x.simulation_address.site_id.toNat_lt, x.simulation_address.application_id.toNat_lt, x.event_id.toNat_lt⟩
theorem clock_wf (x : Dis.ClockTime) : (clockEnc x).Wf := by
  have := x.hour.toNat_lt
  refine ⟨?_, x.time_past_hour.toNat_lt⟩
  show Cdis.InS 32 (i32Of x.hour)
  unfold Cdis.InS i32Of
  norm_num
  split <;> omega
theorem bytes_lt (l : Bytes) : ∀ b ∈ bytesEnc l, b < 2 ^ 8 := by
  intro b hb
  obtain ⟨a, -, rfl⟩ := List.mem_map.1 hb
  exact a.toNat_lt

/-- The datum records a C-DIS PDU can carry: at most 255 of each kind, and at most 2047 octets in each variable datum. -/
def DatumsFit (f : List Dis.FixedDatum) (v : List Dis.VariableDatum) : Prop :=
  f.length ≤ 255 ∧ v.length ≤ 255 ∧ ∀ d ∈ v, d.datum_value.length ≤ 2047

theorem datums_wf {f : List Dis.FixedDatum} {v : List Dis.VariableDatum} (h : DatumsFit f v) : (datumsEnc f v).Wf := by
  obtain ⟨h1, h2, h3⟩ := h
  refine ⟨by simp [datumsEnc]; omega, by simp [datumsEnc]; omega, ?_, ?_⟩
  · intro d hd
    obtain ⟨a, -, rfl⟩ := List.mem_map.1 hd
    exact ⟨a.datum_id.toNat_lt, a.datum_value.toNat_lt⟩
  · intro d hd
    obtain ⟨a, ha, rfl⟩ := List.mem_map.1 hd
    exact ⟨a.datum_id.toNat_lt, by show (bytesEnc _).length < _; simp only [bytesEnc, List.length_map]; have := h3 a ha; omega,
      bytes_lt a.datum_value⟩

section
variable {env : Env} {o : Options} {h : Dis.PduHeader} (hst : (h.pdu_status.getD {}).Wf h.pdu_type)
include hst

theorem arrives_create (x : Dis.CreateEntity) (ht : h.pdu_type = 11) :
    Arrives env o ⟨h, .createEntity x⟩ (received h (.createEntity x)) :=
  arrives_fit (o1 := o) (.createEntity (createEnc x)) _ (fun _ _ => rfl) hst rfl
    ⟨by rw [ht]; rfl, eid_wf _, eid_wf _, x.request_id.toNat_lt⟩ trivial
    (by simp [bodyDec, Cdis.CdisBody.wire, createDec, createEnc, eid_rt]) ht.symm
theorem arrives_remove (x : Dis.RemoveEntity) (ht : h.pdu_type = 12) :
    Arrives env o ⟨h, .removeEntity x⟩ (received h (.removeEntity x)) :=
  arrives_fit (o1 := o) (.removeEntity (removeEnc x)) _ (fun _ _ => rfl) hst rfl
    ⟨by rw [ht]; rfl, eid_wf _, eid_wf _, x.request_id.toNat_lt⟩ trivial
    (by simp [bodyDec, Cdis.CdisBody.wire, removeDec, removeEnc, eid_rt]) ht.symm
theorem arrives_start (x : Dis.StartResume) (ht : h.pdu_type = 13) :
    Arrives env o ⟨h, .startResume x⟩ (received h (.startResume x)) :=
  arrives_fit (o1 := o) (.startResume (startEnc x)) _ (fun _ _ => rfl) hst rfl
    ⟨by rw [ht]; rfl, eid_wf _, eid_wf _, clock_wf _, clock_wf _, x.request_id.toNat_lt⟩ trivial
    (by simp [bodyDec, Cdis.CdisBody.wire, startDec, startEnc, eid_rt]) ht.symm
theorem arrives_stop (x : Dis.StopFreeze) (ht : h.pdu_type = 14) :
    Arrives env o ⟨h, .stopFreeze x⟩ (received h (.stopFreeze
      { x with reason := x.reason % 16, frozen_behavior := env.frozenByte (env.frozenFlags x.frozen_behavior) })) := by
  have hr : UInt8.ofNat (x.reason.toNat % 2 ^ 4) = x.reason % 16 := by
    apply UInt8.toNat_inj.1
    rw [UInt8.toNat_mod, UInt8.toNat_ofNat']
    show _ = x.reason.toNat % 16
    omega
  refine arrives_fit (o1 := o) (.stopFreeze (stopEnc env x)) (.stopFreeze { stopEnc env x with reason := x.reason.toNat % 2 ^ 4 })
    (fun _ _ => rfl) hst ?_ ⟨by rw [ht]; rfl, eid_wf _, eid_wf _, clock_wf _, Nat.mod_lt _ (by decide), x.request_id.toNat_lt⟩
    trivial ?_ ht.symm
  · simp only [Cdis.CdisBody.ser, Cdis.StopFreeze.ser]
    rw [wU_mod 4]
    rfl
  · simp [bodyDec, Cdis.CdisBody.wire, stopDec, stopEnc, eid_rt]
    exact hr
theorem arrives_ack (x : Dis.Acknowledge) (ht : h.pdu_type = 15) :
    Arrives env o ⟨h, .acknowledge x⟩ (received h (.acknowledge
      { x with acknowledge_flag := x.acknowledge_flag % 8, response_flag := x.response_flag % 4 })) := by
  have hr (n : UInt16) : UInt16.ofNat (n.toNat % 2 ^ 3) = n % 8 := by
    apply UInt16.toNat_inj.1
    rw [UInt16.toNat_mod, UInt16.toNat_ofNat']
    show _ = n.toNat % 8
    omega
  have hr' (n : UInt16) : UInt16.ofNat (n.toNat % 2 ^ 2) = n % 4 := by
    apply UInt16.toNat_inj.1
    rw [UInt16.toNat_mod, UInt16.toNat_ofNat']
    show _ = n.toNat % 4
    omega
  refine arrives_fit (o1 := o) (.acknowledge (ackEnc x)) (.acknowledge { ackEnc x with
      acknowledge_flag := x.acknowledge_flag.toNat % 2 ^ 3, response_flag := x.response_flag.toNat % 2 ^ 2 })
    (fun _ _ => rfl) hst ?_
    ⟨by rw [ht]; rfl, eid_wf _, eid_wf _, Nat.mod_lt _ (by decide), Nat.mod_lt _ (by decide), x.request_id.toNat_lt⟩
    trivial ?_ ht.symm
  · simp only [Cdis.CdisBody.ser, Cdis.Acknowledge.ser]
    rw [wU_mod 3, wU_mod 2]
    rfl
  · simp only [bodyDec, Cdis.CdisBody.wire, ackDec, ackEnc, eid_rt, hr, hr', UInt32.ofNat_toNat]
theorem arrives_action (x : Dis.ActionRequest) (ht : h.pdu_type = 16)
    (hd : DatumsFit x.fixed_datum_records x.variable_datum_records) :
    Arrives env o ⟨h, .actionRequest x⟩ (received h (.actionRequest x)) :=
  arrives_fit (o1 := o) (.actionRequest (actionEnc x)) _ (fun _ _ => rfl) hst rfl
    ⟨by rw [ht]; rfl, eid_wf _, eid_wf _, x.request_id.toNat_lt, x.action_id.toNat_lt, datums_wf hd⟩ trivial
    (by simp [bodyDec, Cdis.CdisBody.wire, actionDec, actionEnc, eid_rt]) ht.symm
theorem arrives_response (x : Dis.ActionResponse) (ht : h.pdu_type = 17)
    (hd : DatumsFit x.fixed_datum_records x.variable_datum_records) :
    Arrives env o ⟨h, .actionResponse x⟩ (received h (.actionResponse x)) :=
  arrives_fit (o1 := o) (.actionResponse (responseEnc x)) _ (fun _ _ => rfl) hst rfl
    ⟨by rw [ht]; rfl, eid_wf _, eid_wf _, x.request_id.toNat_lt, x.request_status.toNat_lt, datums_wf hd⟩ trivial
    (by simp [bodyDec, Cdis.CdisBody.wire, responseDec, responseEnc, eid_rt]) ht.symm
theorem arrives_setData (x : Dis.SetData) (ht : h.pdu_type = 19)
    (hd : DatumsFit x.fixed_datum_records x.variable_datum_records) :
    Arrives env o ⟨h, .setData x⟩ (received h (.setData x)) :=
  arrives_fit (o1 := o) (.setData (setDataEnc x)) _ (fun _ _ => rfl) hst rfl
    ⟨by rw [ht]; rfl, eid_wf _, eid_wf _, x.request_id.toNat_lt, datums_wf hd⟩ trivial
    (by simp [bodyDec, Cdis.CdisBody.wire, setDataDec, setDataEnc, eid_rt]) ht.symm
theorem arrives_data (x : Dis.Data) (ht : h.pdu_type = 20)
    (hd : DatumsFit x.fixed_datum_records x.variable_datum_records) :
    Arrives env o ⟨h, .data x⟩ (received h (.data x)) :=
  arrives_fit (o1 := o) (.data (dataEnc x)) _ (fun _ _ => rfl) hst rfl
    ⟨by rw [ht]; rfl, eid_wf _, eid_wf _, x.request_id.toNat_lt, datums_wf hd⟩ trivial
    (by simp [bodyDec, Cdis.CdisBody.wire, dataDec, dataEnc, eid_rt]) ht.symm
theorem arrives_event (x : Dis.EventReport) (ht : h.pdu_type = 21)
    (hd : DatumsFit x.fixed_datum_records x.variable_datum_records) :
    Arrives env o ⟨h, .eventReport x⟩ (received h (.eventReport x)) :=
  arrives_fit (o1 := o) (.eventReport (eventEnc x)) _ (fun _ _ => rfl) hst rfl
    ⟨by rw [ht]; rfl, eid_wf _, eid_wf _, x.event_type.toNat_lt, datums_wf hd⟩ trivial
    (by simp [bodyDec, Cdis.CdisBody.wire, eventDec, eventEnc, eid_rt]) ht.symm
theorem arrives_comment (x : Dis.Comment) (ht : h.pdu_type = 22) (hd : DatumsFit [] x.variable_datum_records) :
    Arrives env o ⟨h, .comment x⟩ (received h (.comment x)) :=
  arrives_fit (o1 := o) (.comment (commentEnc x)) _ (fun _ _ => rfl) hst rfl
    ⟨by rw [ht]; rfl, eid_wf _, eid_wf _, datums_wf hd⟩ trivial
    (by simp [bodyDec, Cdis.CdisBody.wire, commentDec, commentEnc, eid_rt]) ht.symm

end

end Verif.Props
