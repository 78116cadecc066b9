import Verif.Props.Onward
import Verif.Props.GatewayDecode
import Verif.Props.Restart
import Verif.Props.Packets

/-! # C82, continued: whole datagrams -/

namespace Verif.Props
open Verif Verif.Codec

theorem stream_remembers {env : Codec.Env} {o : Options} : ∀ {l : List Cdis.CdisPdu} {s : DecState}, Remembers env s →
    (∀ p ∈ l, PduRead env.toEnv p ∧ steady p) → Remembers env (decStream env o s l).2
  | [], _, hs, _ => hs
  | c :: l, s, hs, hl => by
    have hc := hl c List.mem_cons_self
    show Remembers env (decStream env o (pduDec env o s c).2.2 l).2
    exact stream_remembers (remembers_next hs hc.1 hc.2) fun p h => hl p (List.mem_cons_of_mem _ h)

theorem presentable_steady {env : Dis.Env} {p : Cdis.CdisPdu} (h : presentable env p) : steady p := by
  unfold presentable at h
  unfold steady
  cases hb : p.body <;> rw [hb] at h <;> dsimp only at h ⊢
  exact h.1

/-- A whole datagram of presentable PDUs, whatever the decoder has been fed before (if it is steady): the octets of the DIS PDUs
that are handed over, one after the other, are read as exactly these PDUs. -/
theorem C82_datagram_partial {env : Codec.Env} {o : Options} {before : List Cdis.CdisPdu}
    (hl : ∀ p ∈ before, readFromBits env.toEnv p ∧ steady p) {datagram : Bytes} {received : List Cdis.CdisPdu}
    (hc : Cdis.parsePackets env.toEnv datagram = some received) (hp : ∀ p ∈ received, presentable env.toEnv p)
    {tail : Bytes} (ht : tail.length < 12) {handed : List Dis.Pdu} (hh : (decStream env o (decStream env o {} before).2 received).1 = handed) :
    handed.length = received.length ∧ Dis.parse env.toEnv (handed.flatMap Dis.Pdu.ser ++ tail) = .ok handed := by
  subst hh
  have hn : received ≠ [] := by
    unfold Cdis.parsePackets at hc
    cases h : Cdis.parseBits env.toEnv (Cdis.bitsOf datagram) with
    | err => rw [h] at hc; cases hc
    | panic => rw [h] at hc; cases hc
    | ok ps r =>
      rw [h] at hc
      cases hc
      exact ((C36_parse_iff env.toEnv _ _ _).1 h).2.1
  have hr : ∀ p ∈ received, PduRead env.toEnv p ∧ steady p := fun p h => by
    obtain ⟨b, r, e⟩ := parsedPackets_mem hc p h
    exact ⟨pdu_read env.toEnv _ _ _ e, presentable_steady (hp p h)⟩
  have hm : Remembers env (decStream env o {} before).2 := by
    refine stream_remembers (s := {}) ⟨nofun, nofun, nofun⟩ fun p h => ?_
    obtain ⟨⟨b, r, hb⟩, t⟩ := hl p h
    exact ⟨pdu_read env.toEnv _ _ _ hb, t⟩
  have len := decStream_length env o (decStream env o {} before).2 received
  refine ⟨len, C17_packet_round_trip env.toEnv (fun q hq => ?_) (fun e => hn ?_) tail ht⟩
  · obtain ⟨i, hi⟩ := List.getElem?_of_mem hq
    have hlt : i < received.length := by
      rw [← len]
      exact (List.getElem?_eq_some_iff.1 hi).1
    exact stream_readable hm hr (List.getElem?_eq_getElem hlt) hi (hp _ (List.getElem_mem hlt))
  · rw [e] at len
    exact List.length_eq_zero_iff.1 len.symm

/-- The hypotheses can be met: a datagram of two partial updates after a full update. -/
theorem C82_datagram_witness (env : Codec.Env) : (∀ p ∈ [onwardFull.wire], readFromBits env.toEnv p ∧ steady p)
    ∧ Cdis.parsePackets env.toEnv (packBits ([onwardPartial, onwardPartial].flatMap Cdis.CdisPdu.ser)) = some [onwardPartial.wire, onwardPartial.wire]
    ∧ ∀ p ∈ [onwardPartial.wire, onwardPartial.wire], presentable env.toEnv p := by
  have W := (C82_witness env).1
  refine ⟨fun p hp => (W p (by rw [List.mem_singleton] at hp; simp [hp])).1, ?_, fun p hp => ?_⟩
  · exact C36_octets [onwardPartial, onwardPartial] (by simp) fun p hp => by
      rcases List.mem_pair.1 hp with rfl | rfl <;> exact onwardPartial_wf env
  · refine (W p ?_).2
    rcases List.mem_pair.1 hp with rfl | rfl <;> simp

/-! ### PDUs of types that C-DIS does not carry -/

theorem header_status : Takes Dis.PduHeader.parse fun _ h => ∀ s, h.pdu_status = some s → s.Wf h.pdu_type := by
  unfold Dis.PduHeader.parse
  refine Takes.bind Rd.spec fun _ _ _ => Takes.bind Rd.spec fun _ _ _ => Takes.bind Rd.spec fun _ _ _ => Takes.bind Rd.spec fun _ _ _ =>
    Takes.bind Rd.spec fun _ _ _ => Takes.bind Rd.spec fun _ _ _ => ?_
  split
  · refine Takes.bind Rd.spec fun _ _ _ => Takes.pure ?_
    intro s e
    cases e
  · refine Takes.bind Rd.spec fun _ _ _ => Takes.bind Rd.spec fun _ _ _ => Takes.pure ?_
    intro s e
    injection e with e
    rw [← e]
    exact C02_read_wf _ _

theorem unsupported_type {env : Dis.Env} {p : Cdis.CdisPdu} (hr : readFromBits env p) (hb : p.body = .unsupported) :
    p.header.Wf ∧ Cdis.isSupported p.header.pdu_type = false := by
  obtain ⟨b, r, h⟩ := hr
  have := reads_pdu env _ _ _ h (by rw [hb]; trivial)
  refine ⟨this.1, ?_⟩
  have := this.2
  rw [hb] at this
  exact this

/-- A PDU of a type that DIS does not define (0 or above 72): twelve octets are handed over, and they are read as what they are. -/
theorem C82_undefined_partial {env : Codec.Env} {p : Cdis.CdisPdu} (hr : readFromBits env.toEnv p) (hb : p.body = .unsupported)
    (ht : p.header.pdu_type = 0 ∨ 72 < p.header.pdu_type) (o : Options) (s : DecState) (rest : Bytes) :
    (pduDec env o s p).1.ser.length = 12
    ∧ (Dis.pdu env.toEnv).run ((pduDec env o s p).1.ser ++ rest) = .ok (pduDec env o s p).1 rest := by
  obtain ⟨hh, -⟩ := unsupported_type hr hb
  obtain ⟨hd, b⟩ := p
  dsimp only at hb hh ht
  subst hb
  rw [pduDec_unsupported]
  refine ⟨emptyOther_length hd, Dis.pdu_ser ⟨⟨rfl, .inl ⟨rfl, hd.pdu_status, rfl, ?_⟩⟩, ?_⟩ rest⟩
  · have w := hh.status
    have e : (UInt8.ofNat hd.pdu_type).toNat = hd.pdu_type := toNat_u8_ofNat hh.type
    obtain ⟨w1, w2, w3, w4, w5, w6, w7, w8, w9⟩ := w
    rw [e] at w1 w2 w3 w4 w5 w6 w7 w8 w9
    show hd.pdu_status.Wf 0
    have un : ∀ {P Q : Prop} {k : Nat} {x : Option UInt8}, ¬ P → ¬ Q → Dis.indicatorOk P k x → Dis.indicatorOk Q k x :=
      fun hP hQ h => ⟨⟨fun q => absurd q hQ, fun x => absurd (h.1.2 x) hP⟩, h.2⟩
    refine ⟨un ?_ (by decide) w1, un ?_ (by decide) w2, un ?_ (by decide) w3, un ?_ (by decide) w4, un ?_ (by decide) w5, un ?_ (by decide) w6,
      un ?_ (by decide) w7, un ?_ (by decide) w8, un ?_ (by decide) w9⟩
    all_goals
      simp only [Dis.usesTei, Dis.usesLvc, Dis.usesCei, Dis.usesFti, Dis.usesDti, Dis.usesRai, Dis.usesIai, Dis.usesIsm, Dis.usesAii,
        List.mem_cons, List.not_mem_nil, or_false]
      omega
  · exact ⟨(by decide : (0 : UInt8) ∉ Dis.supportedTypes), rfl, rfl, rfl⟩

/-- **C82**, violated: a PDU of one of the 50 types that DIS defines and C-DIS does not carry is handed over with a status that
is none of the type it is handed over with, so that nothing is read as it. -/
theorem C82_other_violated {env : Codec.Env} {p : Cdis.CdisPdu} (hr : readFromBits env.toEnv p) (hb : p.body = .unsupported)
    (ht : 0 < p.header.pdu_type ∧ p.header.pdu_type ≤ 72) (o : Options) (s : DecState) : neverRead env.toEnv (pduDec env o s p).1 := by
  obtain ⟨hh, -⟩ := unsupported_type hr hb
  obtain ⟨hd, b⟩ := p
  dsimp only at hb hh ht
  subst hb
  rw [pduDec_unsupported]
  intro bs r h
  obtain ⟨mid, h1, -⟩ := Dis.pdu_split h
  obtain ⟨c, -, hc⟩ := header_status _ _ _ h1
  have w := (hc hd.pdu_status rfl).lvc
  have l := hh.status.lvc
  rw [show (UInt8.ofNat hd.pdu_type).toNat = hd.pdu_type from toNat_u8_ofNat hh.type] at l
  exact absurd (w.1.2 (l.1.1 ht)) (by show ¬ Dis.usesLvc 0; decide)
theorem C82_other_witness (env : Dis.Env) : ∃ p, readFromBits env p ∧ p.body = .unsupported ∧ p.header.pdu_type = 67 := by
  have := Cdis.CdisPdu.run (env := env) (p := ⟨⟨1, 1, 67, 5, 0, Dis.parsePduStatusFields 67 0⟩, .unsupported⟩)
    ⟨⟨by decide, by decide, by decide, by decide, by decide, C02_read_wf 67 0⟩, rfl⟩ []
  exact ⟨_, ⟨_, _, this⟩, rfl, rfl⟩

end Verif.Props
