import Verif.Gateway.Codec
import Verif.Props.CdisLengths
import Verif.Props.Packets

/-! # C42: the gateway's encoder -/

namespace Verif.Props
open Verif.Gateway Verif.Codec

/-! ## Specification -/

/-- The PDU types that C-DIS carries: Entity State, Fire, Detonation, Collision, and 11 (Create Entity) to 28 (IFF). -/
def Carried (t : Nat) : Prop := t ∈ ([1, 2, 3, 4] : List Nat) ∨ (11 ≤ t ∧ t ≤ 28)
instance (t : Nat) : Decidable (Carried t) := by unfold Carried; infer_instance

/-- `Accounts ps cs es`: for the PDUs `ps`, in order, the encoder put out the PDUs `cs` and sent the events `es`: for every
PDU of a type that C-DIS carries a received and an encoded event and one output of the same type, for every other PDU one
rejected event and nothing else. -/
inductive Accounts : List Dis.Pdu → List Cdis.CdisPdu → List Event → Prop
  | nil : Accounts [] [] []
  | encoded {p : Dis.Pdu} {c : Cdis.CdisPdu} {ps : List Dis.Pdu} {cs : List Cdis.CdisPdu} {es : List Event} :
      Carried p.header.pdu_type.toNat → c.header.pdu_type = p.header.pdu_type.toNat → Accounts ps cs es →
      Accounts (p :: ps) (c :: cs) (.receivedDis p.header.pdu_type.toNat p.header.pdu_length.toNat
        :: .encodedPdu p.header.pdu_type.toNat (octets c.header.length) :: es)
  | rejected {p : Dis.Pdu} {ps : List Dis.Pdu} {cs : List Cdis.CdisPdu} {es : List Event} :
      ¬ Carried p.header.pdu_type.toNat → Accounts ps cs es →
      Accounts (p :: ps) cs (.rejectedUnsupportedDisPdu p.header.pdu_type.toNat p.header.pdu_length.toNat :: es)

/-! ## Lemmas -/

theorem supported_iff (t : Nat) : Cdis.isSupported t = true ↔ Carried t := by
  simp [Cdis.isSupported, Carried]; omega
theorem implemented_eq (t : Nat) : isImplemented t = Cdis.isSupported t := rfl
theorem pduEnc_type {env : Env} {o : Options} {now : Nat} {s s' : EncState} {p : Dis.Pdu} {c : Cdis.CdisPdu} {r : StateResult}
    (h : pduEnc env o now s p = some (c, r, s')) : c.header.pdu_type = p.header.pdu_type.toNat := by
  unfold pduEnc at h
  cases hb : bodyEnc env o now s p.body with
  | none => rw [hb] at h; cases h
  | some b =>
    rw [hb] at h
    simp only [Option.map_some, Option.some.injEq, Prod.mk.injEq] at h
    rw [← h.1]
    rfl

theorem length_flatMap_sum' {ps : List Cdis.CdisPdu} (h : ∀ p ∈ ps, p.ser.length = p.lenBits) :
    (ps.flatMap Cdis.CdisPdu.ser).length = (ps.map Cdis.CdisPdu.lenBits).sum := by
  induction ps with
  | nil => rfl
  | cons p ps ih =>
    simp only [List.flatMap_cons, List.length_append, List.map_cons, List.sum_cons, h p (by simp), ih fun q hq => h q (by simp [hq])]
theorem steps_append {τ α : Type} {p : P τ α} {a b c : List τ} {xs ys : List α} (h : Steps p a xs b) (h' : Steps p b ys c) :
    Steps p a (xs ++ ys) c := by
  induction h with
  | nil => exact h'
  | cons h1 _ ih => exact .cons h1 (ih h')
theorem steps_extend {τ α : Type} {p : P τ α} (hp : Consumes 1 p) (hs : P.Safe p) (b : List τ) :
    ∃ xs r, Steps p b xs r ∧ p.run r = .err := by
  induction hn : b.length using Nat.strongRecOn generalizing b with
  | ind n ih =>
    cases h : p.run b with
    | err => exact ⟨[], b, .nil b, h⟩
    | panic => exact absurd h (hs.spec b)
    | ok a r =>
      have := hp _ _ _ h
      obtain ⟨xs, r', h1, h2⟩ := ih r.length (by omega) r rfl
      exact ⟨a :: xs, r', .cons h h1, h2⟩

/-! ## Theorems -/

/-- What comes out, and the state after it, is what the codec makes of the carried PDUs alone, in order: the others leave
no trace in either. -/
theorem C42_output (env : Env) (o : Options) (s : EncState) (l : List (Nat × Dis.Pdu)) :
    (encodePdus env o s l).2 = encStream env o s (l.filter fun x => decide (Carried x.2.header.pdu_type.toNat)) := by
  induction l generalizing s with
  | nil => rfl
  | cons x l ih =>
    obtain ⟨now, p⟩ := x
    by_cases hc : Carried p.header.pdu_type.toNat
    · have hs := (supported_iff _).2 hc
      rw [List.filter_cons_of_pos (by simpa using hc)]
      simp only [encodePdus, encStream, implemented_eq, hs, if_true]
      cases he : pduEnc env o now s p with
      | none => rfl
      | some q => simp only [Option.bind_some, ih]
    · have hs : ¬ Cdis.isSupported p.header.pdu_type.toNat = true := fun h => hc ((supported_iff _).1 h)
      rw [List.filter_cons_of_neg (by simpa using hc)]
      simp only [encodePdus, if_neg hs, ih]
/-- **C42.** Every PDU is accounted for, in order, by exactly the events of `Accounts`; no other event is sent. -/
theorem C42_accounts (env : Env) (o : Options) {s s' : EncState} {l : List (Nat × Dis.Pdu)} {es : List Event}
    {cs : List Cdis.CdisPdu} (h : encodePdus env o s l = (es, some (cs, s'))) : Accounts (l.map (·.2)) cs es := by
  induction l generalizing s es cs with
  | nil =>
    simp only [encodePdus, Prod.mk.injEq, Option.some.injEq] at h
    obtain ⟨rfl, rfl, -⟩ := h
    exact .nil
  | cons x l ih =>
    obtain ⟨now, p⟩ := x
    by_cases hc : Carried p.header.pdu_type.toNat
    · have hs := (supported_iff _).2 hc
      simp only [encodePdus, implemented_eq, hs, if_true] at h
      cases he : pduEnc env o now s p with
      | none => rw [he] at h; simp at h
      | some q =>
        obtain ⟨c, r, s1⟩ := q
        rw [he] at h
        simp only [Prod.mk.injEq, Option.map_eq_some_iff] at h
        obtain ⟨rfl, ⟨a, ha, rfl, rfl⟩⟩ := h
        rw [pduEnc_type he]
        exact .encoded hc (pduEnc_type he) (ih (s := s1) (Prod.ext rfl ha))
    · have hs : ¬ Cdis.isSupported p.header.pdu_type.toNat = true := fun h => hc ((supported_iff _).1 h)
      simp only [encodePdus, if_neg hs, Prod.mk.injEq] at h
      obtain ⟨rfl, h2⟩ := h
      exact .rejected hc (ih (s := s) (Prod.ext rfl h2))
/-- In numbers: as many outputs as carried PDUs, as many encoded events as outputs, and one rejected event for each other
PDU. -/
theorem C42_counts {ps : List Dis.Pdu} {cs : List Cdis.CdisPdu} {es : List Event} (h : Accounts ps cs es) :
    cs.map (·.header.pdu_type) = (ps.map (·.header.pdu_type.toNat)).filter (fun t => decide (Carried t))
    ∧ es.countP (fun e => e matches .encodedPdu ..) = cs.length
    ∧ es.countP (fun e => e matches .receivedDis ..) = cs.length
    ∧ es.countP (fun e => e matches .rejectedUnsupportedDisPdu ..) + cs.length = ps.length
    ∧ es.countP (fun e => e matches .unimplementedEncodedPdu ..) = 0 := by
  induction h with
  | nil => simp
  | @encoded p c ps cs es hc ht _ ih =>
    obtain ⟨i1, i2, i3, i4, i5⟩ := ih
    refine ⟨?_, ?_, ?_, ?_, ?_⟩
    · simp [hc, ht, i1]
    all_goals simp [List.countP_cons]
    all_goals first | omega | (simp at i5; exact i5)
  | @rejected p ps cs es hc _ ih =>
    obtain ⟨i1, i2, i3, i4, i5⟩ := ih
    refine ⟨?_, ?_, ?_, ?_, ?_⟩
    · simp [hc, i1]
    all_goals simp [List.countP_cons]
    all_goals first | omega | (simp at i5; exact i5) | (simp at i2; exact i2) | (simp at i3; exact i3)

/-! ### The packet -/

theorem storeAt_eq {buf out : Cdis.Bits} {c : Nat} {bits : Cdis.Bits} (h : storeAt buf c bits = some out) :
    c + bits.length ≤ buf.length ∧ out = buf.take c ++ (bits ++ buf.drop (c + bits.length)) := by
  unfold storeAt at h
  split at h
  · exact ⟨by assumption, by simpa using h.symm⟩
  · cases h
/-- Storing PDUs from a cursor replaces exactly their bits. -/
theorem storeAll_eq {buf out : Cdis.Bits} {c : Nat} {ps : List Cdis.CdisPdu} (h : storeAll buf c ps = some out) (hc : c ≤ buf.length) :
    c + (ps.flatMap Cdis.CdisPdu.ser).length ≤ buf.length
    ∧ out = buf.take c ++ (ps.flatMap Cdis.CdisPdu.ser ++ buf.drop (c + (ps.flatMap Cdis.CdisPdu.ser).length)) := by
  induction ps generalizing buf c with
  | nil =>
    simp only [storeAll, Option.some.injEq] at h
    subst h
    simp [hc]
  | cons p ps ih =>
    simp only [storeAll] at h
    cases hs : storeAt buf c p.ser with
    | none => rw [hs] at h; cases h
    | some b =>
      rw [hs] at h
      obtain ⟨h1, h2⟩ := storeAt_eq hs
      have hl : b.length = buf.length := by
        rw [h2]; simp only [List.length_append, List.length_take, List.length_drop]; omega
      obtain ⟨i1, i2⟩ := ih (c := c + p.ser.length) h (by omega)
      have ht : b.take (c + p.ser.length) = buf.take c ++ p.ser := by
        rw [h2, ← List.append_assoc, List.take_append_of_le_length (by simp [List.length_take]; omega), List.take_of_length_le]
        simp [List.length_take]
      have hd : ∀ k, b.drop (c + p.ser.length + k) = buf.drop (c + p.ser.length + k) := by
        intro k
        have : b.drop (c + p.ser.length) = buf.drop (c + p.ser.length) := by
          rw [h2, ← List.append_assoc, List.drop_append_of_le_length (by simp [List.length_take]; omega),
            List.drop_of_length_le (by simp [List.length_take]), List.nil_append]
        rw [← List.drop_drop (l := b), ← List.drop_drop (l := buf), this]
      refine ⟨by simp only [List.flatMap_cons, List.length_append]; omega, ?_⟩
      rw [i2, ht, hd]
      simp only [List.flatMap_cons, List.append_assoc, List.length_append, Nat.add_assoc]
theorem storeAll_some {buf : Cdis.Bits} {c : Nat} {ps : List Cdis.CdisPdu} (h : c + (ps.flatMap Cdis.CdisPdu.ser).length ≤ buf.length) :
    ∃ out, storeAll buf c ps = some out := by
  induction ps generalizing buf c with
  | nil => exact ⟨_, rfl⟩
  | cons p ps ih =>
    simp only [List.flatMap_cons, List.length_append] at h
    have hs : storeAt buf c p.ser = some (buf.take c ++ (p.ser ++ buf.drop (c + p.ser.length))) := by
      unfold storeAt; rw [if_pos (by omega)]
    simp only [storeAll, hs, Option.bind_some]
    apply ih
    simp only [List.length_append, List.length_take, List.length_drop]
    omega

theorem packBits_whole (n : Nat) : ∀ b : Cdis.Bits, b.length = 8 * n → (packBits b).length = n ∧ Cdis.bitsOf (packBits b) = b := by
  induction n with
  | zero =>
    intro b hb
    have : b = [] := List.length_eq_zero_iff.1 (by omega)
    subst this
    rw [packBits.eq_def]; exact ⟨rfl, rfl⟩
  | succ n ih =>
    intro b hb
    have hex := bitsOf_pack b
    obtain ⟨k, hk, e⟩ := hex
    cases b with
    | nil => simp at hb
    | cons x l =>
      have i := ih ((x :: l).drop 8) (by rw [List.length_drop]; omega)
      have hlen : (packBits (x :: l)).length = n + 1 := by
        rw [packBits.eq_def]
        show (packBits ((x :: l).drop 8)).length + 1 = n + 1
        rw [i.1]
      refine ⟨hlen, ?_⟩
      have hb8 : ∀ bs : Bytes, (Cdis.bitsOf bs).length = 8 * bs.length := by
        intro bs
        induction bs with
        | nil => rfl
        | cons a bs ih => simp only [Cdis.bitsOf, List.flatMap_cons, List.length_append, Cdis.length_wU] at ih ⊢; simp [ih]; omega
      have h2 := congrArg List.length e
      rw [hb8, hlen, List.length_append, List.length_replicate, hb] at h2
      have : k = 0 := by omega
      rw [e, this]; simp

/-- A packet written: the bits of the PDUs, then whatever was in the buffer before, cut off at the announced number of bits
rounded up to octets. -/
theorem C42_written {e e' : Encoder} {ps : List Cdis.CdisPdu} {es : List Event} {out : Bytes}
    (h : encWriting e ps = (es, some (out, e'))) :
    out.length = octets (ps.map Cdis.CdisPdu.lenBits).sum ∧ es = [.sentCDis out.length] ∧ e'.state = e.state
    ∧ e'.buffer = ps.flatMap Cdis.CdisPdu.ser ++ e.buffer.drop (ps.flatMap Cdis.CdisPdu.ser).length
    ∧ Cdis.bitsOf out = e'.buffer.take (8 * out.length) := by
  unfold encWriting at h
  cases hs : storeAll e.buffer 0 ps with
  | none => rw [hs] at h; simp at h
  | some buf =>
    rw [hs] at h
    dsimp only at h
    split at h
    · rename_i hl
      simp only [Prod.mk.injEq, Option.some.injEq] at h
      obtain ⟨rfl, rfl, rfl⟩ := h
      obtain ⟨p1, p2⟩ := packBits_whole (octets (ps.map Cdis.CdisPdu.lenBits).sum)
        (buf.take (8 * octets (ps.map Cdis.CdisPdu.lenBits).sum)) (by rw [List.length_take]; omega)
      obtain ⟨s1, s2⟩ := storeAll_eq hs (Nat.zero_le _)
      refine ⟨p1, by rw [p1], rfl, by simpa using s2, by rw [p1]; exact p2⟩
    · simp at h

/-- The bits that PDUs announce in total, and the bits that they write. -/
def announcedBits (ps : List Cdis.CdisPdu) : Nat := (ps.map Cdis.CdisPdu.lenBits).sum
def writtenBits (ps : List Cdis.CdisPdu) : Nat := (ps.flatMap Cdis.CdisPdu.ser).length

theorem parsePackets_of_bits {env : Dis.Env} {bs : Bytes} {b r : Cdis.Bits} {ps : List Cdis.CdisPdu} (h : Cdis.bitsOf bs = b)
    (hp : Cdis.parseBits env b = .ok ps r) : Cdis.parsePackets env bs = some ps := by
  unfold Cdis.parsePackets; rw [h, hp]

/-- **C42.** The packet is read back as exactly the PDUs that were encoded, whatever was in the buffer before, as long as the
PDUs announce at least what they write and less than 63 bits more (with the padding to octets). -/
theorem C42_delivered {env : Dis.Env} {e e' : Encoder} {ps : List Cdis.CdisPdu} {es : List Event} {out : Bytes}
    (h : encWriting e ps = (es, some (out, e'))) (hn : ps ≠ []) (hw : ∀ p ∈ ps, p.Wf env)
    (h1 : writtenBits ps ≤ announcedBits ps) (h2 : 8 * octets (announcedBits ps) < writtenBits ps + 63) :
    Cdis.parsePackets env out = some (ps.map Cdis.CdisPdu.wire) := by
  obtain ⟨w1, -, -, w4, w5⟩ := C42_written h
  have hle : writtenBits ps ≤ 8 * out.length := by
    rw [w1]; unfold octets; unfold announcedBits at h1; omega
  rw [w4, List.take_append, List.take_of_length_le hle] at w5
  refine parsePackets_of_bits w5 (C36_concatenation ps hn hw ?_)
  rw [List.length_take]
  unfold announcedBits writtenBits at *
  rw [w1]
  omega
/-- PDUs whose announced length is right (C31). -/
theorem C42_delivered_exact {env : Dis.Env} {e e' : Encoder} {ps : List Cdis.CdisPdu} {es : List Event} {out : Bytes}
    (h : encWriting e ps = (es, some (out, e'))) (hn : ps ≠ []) (hw : ∀ p ∈ ps, p.Wf env)
    (hl : ∀ p ∈ ps, p.ser.length = p.lenBits) :
    out.length = octets (writtenBits ps) ∧ Cdis.parsePackets env out = some (ps.map Cdis.CdisPdu.wire) := by
  have : writtenBits ps = announcedBits ps := length_flatMap_sum' hl
  refine ⟨by rw [this]; exact (C42_written h).1, C42_delivered h hn hw (by omega) ?_⟩
  unfold octets; omega

/-- **C42, violated.** The buffer is not cleared between packets.  After a packet with the PDUs `ps` and then `q`, a packet
with the PDUs `ps` alone delivers `q` a second time when the PDUs of `ps` announce enough bits that they do not write. -/
theorem C42_ghost_violated {env : Dis.Env} {e e1 e2 : Encoder} {ps : List Cdis.CdisPdu} {q : Cdis.CdisPdu} {es1 es2 : List Event}
    {out1 out2 : Bytes} (h1 : encWriting e (ps ++ [q]) = (es1, some (out1, e1))) (h2 : encWriting e1 ps = (es2, some (out2, e2)))
    (hw : ∀ p ∈ ps, p.Wf env) (hq : q.Wf env) (hb : writtenBits ps + q.ser.length ≤ announcedBits ps) :
    ∃ more, Cdis.parsePackets env out2 = some (ps.map Cdis.CdisPdu.wire ++ q.wire :: more) := by
  obtain ⟨-, -, -, a4, -⟩ := C42_written h1
  obtain ⟨b1, -, -, b4, b5⟩ := C42_written h2
  have hle : writtenBits ps + q.ser.length ≤ 8 * out2.length := by
    rw [b1]; unfold octets; unfold announcedBits at hb; omega
  rw [a4] at b4
  have hd : (((ps ++ [q]).flatMap Cdis.CdisPdu.ser ++ e.buffer.drop ((ps ++ [q]).flatMap Cdis.CdisPdu.ser).length)).drop
      (ps.flatMap Cdis.CdisPdu.ser).length = q.ser ++ e.buffer.drop ((ps ++ [q]).flatMap Cdis.CdisPdu.ser).length := by
    simp only [List.flatMap_append, List.flatMap_cons, List.flatMap_nil, List.append_nil, List.append_assoc, List.drop_left]
  rw [hd, ← List.append_assoc] at b4
  have hs : ps.flatMap Cdis.CdisPdu.ser ++ q.ser = (ps ++ [q]).flatMap Cdis.CdisPdu.ser := by simp
  rw [hs] at b4
  rw [b4, List.take_append, List.take_of_length_le (by rw [← hs, List.length_append]; exact hle)] at b5
  generalize hr : List.take (8 * out2.length - ((ps ++ [q]).flatMap Cdis.CdisPdu.ser).length)
    (e.buffer.drop ((ps ++ [q]).flatMap Cdis.CdisPdu.ser).length) = r at b5
  have hsteps := steps_ser (env := env) (ps ++ [q]) (by
    intro p hp
    rcases List.mem_append.1 hp with hp | hp
    · exact hw p hp
    · rw [List.mem_singleton.1 hp]; exact hq) r
  have hpr : Consumes 1 (Cdis.CdisPdu.parse env) := pdu_progress env
  obtain ⟨more, r', hm, he⟩ := steps_extend hpr inferInstance r
  have := (many1_steps hpr _ _ _).2 ⟨steps_append hsteps hm, by simp, he⟩
  refine ⟨more, ?_⟩
  have := parsePackets_of_bits b5 this
  simpa using this

/-! ### Whole packets -/

theorem encWriting_some {e : Encoder} {ps : List Cdis.CdisPdu} (h1 : writtenBits ps ≤ e.buffer.length)
    (h2 : 8 * octets (announcedBits ps) ≤ e.buffer.length) : ∃ es out e', encWriting e ps = (es, some (out, e')) := by
  obtain ⟨buf, hb⟩ := storeAll_some (buf := e.buffer) (c := 0) (ps := ps) (by unfold writtenBits at h1; omega)
  have hl : buf.length = e.buffer.length := by
    obtain ⟨-, h⟩ := storeAll_eq hb (Nat.zero_le _)
    rw [h]
    unfold writtenBits at h1
    simp only [List.length_append, List.length_take, List.length_drop]; omega
  unfold encWriting
  rw [hb]
  dsimp only
  rw [if_pos (by rw [hl]; exact h2)]
  exact ⟨_, _, _, rfl⟩
theorem encWriting_none {e : Encoder} {ps : List Cdis.CdisPdu} :
    (encWriting e ps).2 = none ↔ e.buffer.length < writtenBits ps ∨ e.buffer.length < 8 * octets (announcedBits ps) := by
  constructor
  · intro h
    by_cases h1 : writtenBits ps ≤ e.buffer.length
    · by_cases h2 : 8 * octets (announcedBits ps) ≤ e.buffer.length
      · obtain ⟨es, out, e', he⟩ := encWriting_some h1 h2
        rw [he] at h; cases h
      · right; omega
    · left; omega
  · intro h
    cases hr : (encWriting e ps).2 with
    | none => rfl
    | some r =>
      exfalso
      have he : encWriting e ps = ((encWriting e ps).1, some (r.1, r.2)) := Prod.ext rfl hr
      obtain ⟨w1, -, -, w4, w5⟩ := C42_written he
      unfold encWriting at hr
      cases hs : storeAll e.buffer 0 ps with
      | none => rw [hs] at hr; cases hr
      | some buf =>
        rw [hs] at hr
        obtain ⟨s1, s2⟩ := storeAll_eq hs (Nat.zero_le _)
        dsimp only at hr
        split at hr
        · rename_i hl
          have : buf.length = e.buffer.length := by
            rw [s2]
            simp only [List.length_append, List.length_take, List.length_drop]; omega
          unfold writtenBits announcedBits at h
          omega
        · cases hr

/-- The buffer keeps its size. -/
theorem C42_buffer_size {e e' : Encoder} {ps : List Cdis.CdisPdu} {es : List Event} {out : Bytes}
    (h : encWriting e ps = (es, some (out, e'))) : e'.buffer.length = e.buffer.length := by
  have hn : ¬ (encWriting e ps).2 = none := by rw [h]; simp
  rw [encWriting_none] at hn
  rw [(C42_written h).2.2.2.1]
  unfold writtenBits at hn
  simp only [List.length_append, List.length_drop]
  omega

/-- **C42.** A packet that is encoded without a panic sends an event with its size, then the events of its PDUs, then one
with the size of what it puts out.  A packet that cannot be parsed puts out an empty packet (and still reports it as sent);
one that can be parsed puts out its carried PDUs. -/
theorem C42_packet {env : Env} {o : Options} {clock : Nat → Nat} {e e' : Encoder} {bs out : Bytes} {es : List Event}
    (h : encodeBuffer env o clock e bs = (es, some (out, e'))) :
    ∃ mid, es = .receivedBytesDis bs.length :: (mid ++ [.sentCDis out.length]) ∧
      ((Dis.parse env.toEnv bs = .error ∧ out = [] ∧ mid = [] ∧ e'.state = e.state) ∨
       ∃ ps cs, Dis.parse env.toEnv bs = .ok ps ∧ Accounts ps cs mid ∧
        encStream env o e.state ((stamp clock ps).filter fun x => decide (Carried x.2.header.pdu_type.toNat)) = some (cs, e'.state) ∧
        encWriting { e with state := e'.state } cs = ([.sentCDis out.length], some (out, e'))) := by
  unfold encodeBuffer at h
  cases hp : Dis.parse env.toEnv bs with
  | panic => rw [hp] at h; simp at h
  | error =>
    rw [hp] at h
    simp only [Prod.mk.injEq] at h
    obtain ⟨rfl, h2⟩ := h
    obtain ⟨w1, w2, w3, -⟩ := C42_written (Prod.ext rfl h2)
    have h0 : out.length = 0 := by rw [w1]; rfl
    exact ⟨[], congrArg (_ :: ·) w2, .inl ⟨rfl, List.length_eq_zero_iff.1 h0, rfl, w3⟩⟩
  | ok ps =>
    rw [hp] at h
    dsimp only at h
    cases hq : (encodePdus env o e.state (stamp clock ps)).2 with
    | none => rw [hq] at h; simp at h
    | some r =>
      obtain ⟨cs, s⟩ := r
      rw [hq] at h
      simp only [Prod.mk.injEq] at h
      obtain ⟨rfl, h2⟩ := h
      have hw : encWriting { e with state := s } cs = ((encWriting { e with state := s } cs).1, some (out, e')) := Prod.ext rfl h2
      obtain ⟨w1, w2, w3, -⟩ := C42_written hw
      have w3 : e'.state = s := w3
      refine ⟨(encodePdus env o e.state (stamp clock ps)).1, by rw [w2], .inr ⟨ps, cs, rfl, ?_, ?_, ?_⟩⟩
      · have := C42_accounts env o (Prod.ext (x := encodePdus env o e.state (stamp clock ps)) (y := (_, some (cs, s))) rfl hq)
        have hm : (stamp clock ps).map (·.2) = ps := by
          unfold stamp
          rw [List.map_map]
          exact List.zipIdx_map_fst 0 ps
        rwa [hm] at this
      · rw [w3, ← hq, C42_output]
      · rw [w3]; rw [w2] at hw; exact hw
/-- **C42.** Encoding a packet panics only if parsing it does, if encoding one of the carried PDUs does (C42_panic examples), or if what
comes out is larger than the buffer of 11200 octets. -/
theorem C42_panic_iff {env : Env} {o : Options} {clock : Nat → Nat} {e : Encoder} {bs : Bytes} :
    (encodeBuffer env o clock e bs).2 = none ↔
      Dis.parse env.toEnv bs = .panic ∨
      ∃ ps, Dis.parse env.toEnv bs = .ok ps ∧
        match encStream env o e.state ((stamp clock ps).filter fun x => decide (Carried x.2.header.pdu_type.toNat)) with
        | none => True
        | some (cs, _) => e.buffer.length < writtenBits cs ∨ e.buffer.length < 8 * octets (announcedBits cs) := by
  unfold encodeBuffer
  cases hp : Dis.parse env.toEnv bs with
  | panic => simp
  | error =>
    simp only [reduceCtorEq, false_and, exists_false, or_false, iff_false]
    show ¬ (encWriting e []).2 = none
    rw [encWriting_none]
    simp [writtenBits, announcedBits, octets]
  | ok ps =>
    have := C42_output env o e.state (stamp clock ps)
    simp only [reduceCtorEq, false_or, Dis.Outcome.ok.injEq, exists_eq_left']
    rw [← this]
    cases hq : (encodePdus env o e.state (stamp clock ps)).2 with
    | none => simp
    | some r =>
      show (encWriting { e with state := r.2 } r.1).2 = none ↔ _
      rw [encWriting_none]

/-! ### Examples -/

/-- An Action Request and an Acknowledge PDU. -/
def gwRequest : Dis.Pdu := ⟨sampleFor 16, .actionRequest ⟨⟨⟨1, 2⟩, 3⟩, ⟨⟨4, 5⟩, 6⟩, 7, 8, [], []⟩⟩
def gwAck : Dis.Pdu := ⟨sampleFor 15, .acknowledge ⟨⟨⟨1, 2⟩, 3⟩, ⟨⟨4, 5⟩, 6⟩, 1, 1, 9⟩⟩
/-- What the encoder makes of them. -/
def gwRequestC : Cdis.CdisPdu := Cdis.CdisPdu.finalize (headerEnc gwRequest.header) (.actionRequest (actionEnc ⟨⟨⟨1, 2⟩, 3⟩, ⟨⟨4, 5⟩, 6⟩, 7, 8, [], []⟩)) none
def gwAckC : Cdis.CdisPdu := Cdis.CdisPdu.finalize (headerEnc gwAck.header) (.acknowledge (ackEnc ⟨⟨⟨1, 2⟩, 3⟩, ⟨⟨4, 5⟩, 6⟩, 1, 1, 9⟩)) none

theorem gwRequest_wf (env : Dis.Env) : gwRequest.Wf env := by
  refine ⟨sampleFor_wf _, rfl, ?_⟩
  simp [Dis.ActionRequest.Wf, Dis.Datums.Wf]
theorem gwAck_wf (env : Dis.Env) : gwAck.Wf env := ⟨sampleFor_wf _, rfl⟩
theorem gwRequestC_wf (env : Dis.Env) : gwRequestC.Wf env := by
  refine ⟨⟨by decide, by decide, by decide, by decide +kernel, by decide +kernel, ?_⟩, rfl, ?_⟩
  · exact C02_read_wf 16 0x02
  · decide +kernel
theorem gwAckC_wf (env : Dis.Env) : gwAckC.Wf env := by
  refine ⟨⟨by decide, by decide, by decide, by decide +kernel, by decide +kernel, ?_⟩, rfl, ?_⟩
  · exact C02_read_wf 15 0x02
  · decide +kernel
theorem gw_stream (env : Env) (o : Options) (s : EncState) (l : List (Nat × Dis.Pdu)) (h : ∀ x ∈ l, x.2 = gwRequest ∨ x.2 = gwAck) :
    encStream env o s (l.filter fun x => decide (Carried x.2.header.pdu_type.toNat))
      = some (l.map fun x => if x.2 = gwRequest then gwRequestC else gwAckC, s) := by
  induction l with
  | nil => rfl
  | cons x l ih =>
    obtain ⟨now, p⟩ := x
    have ih := ih fun y hy => h y (by simp [hy])
    have hp : p = gwRequest ∨ p = gwAck := h (now, p) (by simp)
    rw [List.filter_cons_of_pos (by
      rcases hp with rfl | rfl
      · exact (by decide : decide (Carried gwRequest.header.pdu_type.toNat) = true)
      · exact (by decide : decide (Carried gwAck.header.pdu_type.toNat) = true))]
    rcases hp with rfl | rfl
    · simp only [encStream]
      show Option.bind (some (gwRequestC, StateResult.unaffected, s)) _ = _
      simp [ih]
    · simp only [encStream]
      show Option.bind (some (gwAckC, StateResult.unaffected, s)) _ = _
      have : gwAck ≠ gwRequest := by decide +kernel
      simp [ih, this]
theorem stamp_snd (clock : Nat → Nat) (ps : List Dis.Pdu) : (stamp clock ps).map (·.2) = ps := by
  unfold stamp
  rw [List.map_map]
  exact List.zipIdx_map_fst 0 ps
theorem gw_encode (env : Env) (o : Options) (clock : Nat → Nat) (e : Encoder) (ps : List Dis.Pdu) (hn : ps ≠ [])
    (h : ∀ p ∈ ps, p = gwRequest ∨ p = gwAck)
    (h1 : writtenBits (ps.map fun p => if p = gwRequest then gwRequestC else gwAckC) ≤ e.buffer.length)
    (h2 : 8 * octets (announcedBits (ps.map fun p => if p = gwRequest then gwRequestC else gwAckC)) ≤ e.buffer.length) :
    ∃ es out e', encodeBuffer env o clock e (ps.flatMap Dis.Pdu.ser) = (es, some (out, e')) ∧
      encWriting e (ps.map fun p => if p = gwRequest then gwRequestC else gwAckC) = ([.sentCDis out.length], some (out, e')) := by
  have hp : Dis.parse env.toEnv (ps.flatMap Dis.Pdu.ser) = .ok ps := by
    have := C17_packet_round_trip env.toEnv (ps := ps) (by
      intro p hp
      rcases h p hp with rfl | rfl
      · exact gwRequest_wf _
      · exact gwAck_wf _) hn [] (by simp)
    rwa [List.append_nil] at this
  have hs : (encodePdus env o e.state (stamp clock ps)).2
      = some (ps.map fun p => if p = gwRequest then gwRequestC else gwAckC, e.state) := by
    rw [C42_output, gw_stream]
    · conv_rhs => rw [← stamp_snd clock ps, List.map_map]
      rfl
    · intro x hx
      have : x.2 ∈ (stamp clock ps).map (·.2) := List.mem_map_of_mem hx
      rw [stamp_snd] at this
      exact h _ this
  obtain ⟨es, out, e', hw⟩ := encWriting_some h1 h2
  refine ⟨(encodeBuffer env o clock e (ps.flatMap Dis.Pdu.ser)).1, out, e', Prod.ext rfl ?_, ?_⟩
  · unfold encodeBuffer
    rw [hp]
    dsimp only
    rw [hs]
    exact congrArg Prod.snd hw
  · rw [hw, (C42_written hw).2.1]

/-- **C42, violated**, in a running gateway: after a packet with twenty Action Requests and an Acknowledge, a packet of 800
octets with the twenty Action Requests alone delivers the Acknowledge again. -/
theorem C42_ghost_example_violated (env : Env) (o : Options) (clock1 clock2 : Nat → Nat) :
    ∃ es1 out1 e1 es2 out2 e2 more,
      encodeBuffer env o clock1 {} ((List.replicate 20 gwRequest ++ [gwAck]).flatMap Dis.Pdu.ser) = (es1, some (out1, e1)) ∧
      encodeBuffer env o clock2 e1 ((List.replicate 20 gwRequest).flatMap Dis.Pdu.ser) = (es2, some (out2, e2)) ∧
      Cdis.parsePackets env.toEnv out2 = some (List.replicate 20 gwRequestC.wire ++ gwAckC.wire :: more) := by
  have m1 : (List.replicate 20 gwRequest ++ [gwAck]).map (fun p => if p = gwRequest then gwRequestC else gwAckC)
      = List.replicate 20 gwRequestC ++ [gwAckC] := by decide +kernel
  have m2 : (List.replicate 20 gwRequest).map (fun p => if p = gwRequest then gwRequestC else gwAckC)
      = List.replicate 20 gwRequestC := by decide +kernel
  have b0 : ({} : Encoder).buffer.length = 89600 := List.length_replicate ..
  obtain ⟨es1, out1, e1, h1, w1⟩ := gw_encode env o clock1 {} (List.replicate 20 gwRequest ++ [gwAck]) (by simp)
    (fun p hp => (List.mem_append.1 hp).imp (fun h => (List.mem_replicate.1 h).2) List.mem_singleton.1) (by rw [m1, b0]; decide +kernel) (by rw [m1, b0]; decide +kernel)
  rw [m1] at w1
  have b1 : e1.buffer.length = 89600 := (C42_buffer_size w1).trans b0
  obtain ⟨es2, out2, e2, h2, w2⟩ := gw_encode env o clock2 e1 (List.replicate 20 gwRequest) (by simp)
    (fun p hp => .inl (List.mem_replicate.1 hp).2) (by rw [m2, b1]; decide +kernel) (by rw [m2, b1]; decide +kernel)
  rw [m2] at w2
  obtain ⟨more, hm⟩ := C42_ghost_violated (env := env.toEnv) w1 w2
    (by intro p hp; rw [(List.mem_replicate.1 hp).2]; exact gwRequestC_wf _) (gwAckC_wf _) (by decide +kernel)
  exact ⟨es1, out1, e1, es2, out2, e2, more, h1, h2, by rw [hm, List.map_replicate]⟩

/-- The hypotheses of `C42_delivered_exact` and `C42_accounts` are met: twenty Acknowledge PDUs are delivered. -/
theorem C42_witness (env : Env) (o : Options) (clock : Nat → Nat) (e : Encoder) (hb : e.buffer.length = 89600) :
    ∃ es out e', encodeBuffer env o clock e ((List.replicate 20 gwAck).flatMap Dis.Pdu.ser) = (es, some (out, e')) ∧
      Cdis.parsePackets env.toEnv out = some (List.replicate 20 gwAckC.wire) := by
  have m : (List.replicate 20 gwAck).map (fun p => if p = gwRequest then gwRequestC else gwAckC)
      = List.replicate 20 gwAckC := by decide +kernel
  obtain ⟨es, out, e', h, w⟩ := gw_encode env o clock e (List.replicate 20 gwAck) (by simp)
    (fun p hp => .inr (List.mem_replicate.1 hp).2) (by rw [m, hb]; decide +kernel) (by rw [m, hb]; decide +kernel)
  rw [m] at w
  refine ⟨es, out, e', h, ?_⟩
  have := (C42_delivered_exact (env := env.toEnv) w (by simp)
    (by intro p hp; rw [(List.mem_replicate.1 hp).2]; exact gwAckC_wf _)
    (by intro p hp; rw [(List.mem_replicate.1 hp).2]; decide +kernel)).2
  rwa [List.map_replicate] at this

end Verif.Props
