import Mathlib.Data.List.Forall2
import Verif.Dis.Scan
import Verif.Props.Packets

/-!
# C51: where one PDU ends and the next begins

The header of a PDU announces its length.  The readers of headers go by it; `parse` does not look at it for the PDU types
it has a parser for.
-/

namespace Verif.Props
open Verif Verif.Dis

/-! ## Specification -/

/-- the length announced in the octets 8 and 9 of a PDU -/
def announced (bs : Bytes) : Nat := (bs.getD 8 0).toNat * 256 + (bs.getD 9 0).toNat
/-- the input starts with a PDU that is there as a whole, going by the announced length (at least the 12 octets of a header) -/
def Framed (bs : Bytes) : Prop := 12 ≤ bs.length ∧ announced bs ≤ bs.length
/-- the octets of the first PDU and of the rest, going by the announced length -/
def frame (bs : Bytes) : Bytes := bs.take (max 12 (announced bs))
def afterFrame (bs : Bytes) : Bytes := bs.drop (max 12 (announced bs))
/-- `Frames bs fs r`: `bs` is cut by the announced lengths into the PDUs `fs` and a rest `r` that is not a whole PDU -/
inductive Frames : Bytes → List Bytes → Bytes → Prop
  | done {bs} : ¬ Framed bs → Frames bs [] bs
  | next {bs fs r} : Framed bs → Frames (afterFrame bs) fs r → Frames bs (frame bs :: fs) r
/-- `h` is the header in the first twelve octets of `f` -/
def HeaderOf (f : Bytes) (h : PduHeader) : Prop := PduHeader.parse.run (f.take 12) = .ok h []
/-- the octets with another announced length -/
def announce (n : UInt16) (bs : Bytes) : Bytes :=
  bs.take 8 ++ ([UInt8.ofNat (n.toNat / 256), UInt8.ofNat n.toNat] ++ bs.drop 10)

/-! ## Headers only -/

theorem take12_frame (bs : Bytes) : (frame bs).take 12 = bs.take 12 := by
  unfold frame; rw [List.take_take]; congr 1; omega

theorem header_of_framed {bs : Bytes} (h : 12 ≤ bs.length) : ∃ hd, HeaderOf (frame bs) hd ∧
    PduHeader.parse.run bs = .ok hd (bs.drop 12) ∧ hd.pdu_length.toNat = announced bs := by
  obtain ⟨hd, h1, h2, _⟩ := header_long h
  refine ⟨hd, ?_, ?_, h2⟩
  · unfold HeaderOf; rw [take12_frame]; simpa using h1 []
  · have := h1 (bs.drop 12); rwa [List.take_append_drop] at this

theorem scan_one (bs : Bytes) :
    (¬ Framed bs → headerSkipBody.run bs = .err) ∧
    (Framed bs → ∃ hd, HeaderOf (frame bs) hd ∧ headerSkipBody.run bs = .ok hd (afterFrame bs)) := by
  constructor
  · intro h
    by_cases hl : 12 ≤ bs.length
    · obtain ⟨hd, _, h2, h3⟩ := header_of_framed hl
      have : ¬ announced bs ≤ bs.length := fun h' => h ⟨hl, h'⟩
      have e : (P.take (hd.pdu_length.toNat - 12) : BP Bytes).run (bs.drop 12) = .err := by
        simp only [P.take]; rw [if_neg (by rw [List.length_drop]; omega)]
      simp only [headerSkipBody, P.run_bind, h2, Res.andThen, e]
    · simp only [headerSkipBody, P.run_bind, header_short (Nat.lt_of_not_le hl), Res.andThen]
  · rintro ⟨hl, ha⟩
    obtain ⟨hd, h1, h2, h3⟩ := header_of_framed hl
    refine ⟨hd, h1, ?_⟩
    have e : (P.take (hd.pdu_length.toNat - 12) : BP Bytes).run (bs.drop 12) =
        .ok ((bs.drop 12).take (hd.pdu_length.toNat - 12)) ((bs.drop 12).drop (hd.pdu_length.toNat - 12)) :=
      P.run_take_of_le _ _ (by rw [List.length_drop]; omega)
    simp only [headerSkipBody, P.run_bind, h2, Res.andThen, e, P.run_pure]
    unfold afterFrame
    rw [List.drop_drop, h3]
    congr 2; omega

theorem afterFrame_shorter {bs : Bytes} (h : Framed bs) : (afterFrame bs).length + 12 ≤ bs.length := by
  obtain ⟨h1, h2⟩ := h
  unfold afterFrame; rw [List.length_drop]; omega

theorem scan_loop (fuel : Nat) : ∀ bs : Bytes, bs.length < fuel →
    ∃ hs fs r, P.manyLoop headerSkipBody fuel bs = .ok hs r ∧ Frames bs fs r ∧ List.Forall₂ HeaderOf fs hs := by
  induction fuel with
  | zero => intro bs h; omega
  | succ n ih =>
    intro bs hlt
    by_cases hf : Framed bs
    · obtain ⟨hd, h1, h2⟩ := (scan_one bs).2 hf
      have hsh := afterFrame_shorter hf
      obtain ⟨hs, fs, r, e1, e2, e3⟩ := ih (afterFrame bs) (by omega)
      refine ⟨hd :: hs, frame bs :: fs, r, ?_, .next hf e2, .cons h1 e3⟩
      unfold P.manyLoop
      rw [h2]
      simp only
      rw [if_neg (by omega), e1]
      rfl
    · refine ⟨[], [], bs, ?_, .done hf, .nil⟩
      unfold P.manyLoop
      rw [(scan_one bs).1 hf]

/-- **C51.** Reading the headers of a packet: the packet is cut at the announced lengths and the result is the header of
every piece; if not even the first PDU is there as a whole, an error with the size of the input (modulo 2^16) is reported;
there is no other outcome, for any input. -/
theorem C51_header_scan (bs : Bytes) :
    (¬ Framed bs → parseMultipleHeader bs = .error (.insufficientHeaderLength (UInt16.ofNat bs.length))) ∧
    (Framed bs → ∃ hs fs r, parseMultipleHeader bs = .ok hs ∧ Frames bs fs r ∧ List.Forall₂ HeaderOf fs hs) := by
  constructor
  · intro h
    unfold parseMultipleHeader
    rw [(scan_one bs).1 h]
  · intro hf
    obtain ⟨hd, h1, h2⟩ := (scan_one bs).2 hf
    obtain ⟨hs, fs, r, e1, e2, e3⟩ := scan_loop (afterFrame bs).length.succ (afterFrame bs) (Nat.lt_succ_self _)
    refine ⟨hd :: hs, frame bs :: fs, r, ?_, .next hf e2, .cons h1 e3⟩
    have e : (P.many1 headerSkipBody).run bs = .ok (hd :: hs) r := by
      unfold P.many1
      simp only
      rw [h2]
      simp only
      rw [e1]
      rfl
    unfold parseMultipleHeader
    rw [h2, e]

/-- **C51.** Reading one header: its fields if the announced length is there; otherwise an error that says how many octets
of the body are announced and how many are there, or that there is no header. -/
theorem C51_header (bs : Bytes) :
    (bs.length < 12 → parseHeader bs = .error (.insufficientHeaderLength (UInt16.ofNat bs.length))) ∧
    (12 ≤ bs.length → bs.length < announced bs → parseHeader bs =
      .error (.insufficientPduLength (UInt16.ofNat (announced bs - 12)) (UInt16.ofNat (bs.length - 12)))) ∧
    (Framed bs → ∃ h, HeaderOf (frame bs) h ∧ parseHeader bs = .ok h) := by
  refine ⟨fun h => ?_, fun h1 h2 => ?_, fun ⟨h1, h2⟩ => ?_⟩
  · unfold parseHeader; rw [header_short h]
  · obtain ⟨hd, _, e2, e3⟩ := header_of_framed h1
    unfold parseHeader
    rw [e2]
    simp only [P.take]
    rw [if_neg (by rw [List.length_drop]; omega), ← e3, List.length_drop]
    simp only
    congr 2
    apply UInt16.toNat_inj.1
    have := hd.pdu_length.toNat_lt
    rw [toNat_u16_ofNat (by omega), UInt16.toNat_sub_of_le _ _ (by rw [UInt16.le_iff_toNat_le]; simp; omega)]
    rfl
  · obtain ⟨hd, e1, e2, e3⟩ := header_of_framed h1
    refine ⟨hd, e1, ?_⟩
    unfold parseHeader
    rw [e2]
    simp only [P.take]
    rw [if_pos (by rw [List.length_drop]; omega)]

/-! ## The length field and `parse` -/

theorem ite_else {α : Type} {c : Prop} [Decidable c] {a b b' : α} (h : ¬ c → b = b') :
    (if c then a else b) = if c then a else b' := by
  split
  · rfl
  · rename_i hc; exact h hc

theorem parseBody_len {env : Env} {h : PduHeader} (n : UInt16) (ht : h.pdu_type ∈ supportedTypes) :
    parseBody env { h with pdu_length := n } = parseBody env h := by
  unfold parseBody
  iterate 52 refine ite_else fun _ => ?_
  simp only [supportedTypes, List.mem_cons, List.not_mem_nil, or_false] at ht
  simp_all

theorem header_announce {bs : Bytes} {hd : PduHeader} {r : Bytes} (n : UInt16) (h : PduHeader.parse.run bs = .ok hd r) :
    PduHeader.parse.run (announce n bs) = .ok { hd with pdu_length := n } r := by
  have hl := PduHeader.parse_exact.spec _ _ _ h
  match bs, hl with
  | a0 :: a1 :: a2 :: a3 :: a4 :: a5 :: a6 :: a7 :: a8 :: a9 :: a10 :: a11 :: rest, _ =>
    have en : UInt16.ofNat ((UInt8.ofNat (n.toNat / 256)).toNat * 256 + (UInt8.ofNat n.toNat).toNat) = n := by
      have := n.toNat_lt
      apply UInt16.toNat_inj.1
      simp only [UInt16.toNat_ofNat', UInt8.toNat_ofNat']
      omega
    revert h
    simp only [announce, List.take, List.drop, List.cons_append, List.nil_append, PduHeader.parse, P.run_bind, be_u8, be_u16, be_u32, Res.andThen, en]
    split <;> · rintro ⟨rfl, rfl⟩; rfl

/-- **C51.** For a PDU of a type with a parser the announced length plays no part in reading it: with any other length in
its place the same body is read, and the input continues at the same place. -/
theorem C51_parse_ignores_length (env : Env) {bs r : Bytes} {p : Pdu} (ht : p.header.pdu_type ∈ supportedTypes) (n : UInt16)
    (h : (pdu env).run bs = .ok p r) :
    (pdu env).run (announce n bs) = .ok ⟨{ p.header with pdu_length := n }, p.body⟩ r := by
  obtain ⟨mid, h1, h2⟩ := pdu_split h
  simp only [pdu, P.run_bind, header_announce n h1, Res.andThen, parseBody_len n ht, h2, P.run_pure]

/-! ## Both readers -/

theorem frames_unique {bs : Bytes} {fs fs' : List Bytes} {r r' : Bytes} (h : Frames bs fs r) (h' : Frames bs fs' r') :
    fs = fs' ∧ r = r' := by
  induction h generalizing fs' r' with
  | done hn =>
    cases h' with
    | done => exact ⟨rfl, rfl⟩
    | next hf => exact absurd hf hn
  | next hf _ ih =>
    cases h' with
    | done hn => exact absurd hf hn
    | next _ h2 => obtain ⟨rfl, rfl⟩ := ih h2; exact ⟨rfl, rfl⟩

theorem headerOf_unique {fs : List Bytes} {hs hs' : List PduHeader} (h : List.Forall₂ HeaderOf fs hs)
    (h' : List.Forall₂ HeaderOf fs hs') : hs = hs' := by
  induction h generalizing hs' with
  | nil => cases h'; rfl
  | cons h1 _ ih =>
    cases h' with
    | cons h2 h3 =>
      unfold HeaderOf at h1 h2
      rw [h1] at h2
      injection h2 with h2
      rw [h2, ih h3]

/-- What is written for a PDU with the right length in its header starts with a frame that is the PDU. -/
theorem frame_ser {p : Pdu} (hw : p.header.Wf) (hl : p.header.pdu_length.toNat = p.ser.length) (r : Bytes) :
    Framed (p.ser ++ r) ∧ frame (p.ser ++ r) = p.ser ∧ afterFrame (p.ser ++ r) = r ∧ HeaderOf p.ser p.header := by
  have h12 : 12 ≤ p.ser.length := by
    unfold Pdu.ser; rw [List.length_append, PduHeader.length_ser]; omega
  have ht : p.ser.take 12 = p.header.ser := by
    unfold Pdu.ser
    rw [List.take_append_of_le_length (Nat.le_of_eq (PduHeader.length_ser _).symm)]
    exact List.take_of_length_le (Nat.le_of_eq (PduHeader.length_ser _))
  have hp : PduHeader.parse.run (p.ser ++ r) = .ok p.header (p.body.ser p.header.protocol_version ++ r) := by
    unfold Pdu.ser; rw [List.append_assoc]; exact PduHeader.parse_ser hw _
  have ha : announced (p.ser ++ r) = p.ser.length := by
    obtain ⟨hd, _, h2, h3⟩ := header_of_framed (bs := p.ser ++ r) (by rw [List.length_append]; omega)
    rw [hp] at h2
    injection h2 with h2 _
    rw [← h3, ← h2, hl]
  refine ⟨⟨by rw [List.length_append]; omega, by rw [ha, List.length_append]; omega⟩, ?_, ?_, ?_⟩
  · unfold frame; rw [ha, Nat.max_eq_right h12]; simp
  · unfold afterFrame; rw [ha, Nat.max_eq_right h12]; simp
  · unfold HeaderOf; rw [ht]
    simpa using PduHeader.parse_ser hw []

theorem frames_ser {ps : List Pdu} {tail : Bytes} (ht : ¬ Framed tail) (hw : ∀ p ∈ ps, p.header.Wf)
    (hl : ∀ p ∈ ps, p.header.pdu_length.toNat = p.ser.length) :
    Frames (ps.flatMap Pdu.ser ++ tail) (ps.map Pdu.ser) tail ∧
    List.Forall₂ HeaderOf (ps.map Pdu.ser) (ps.map Pdu.header) := by
  induction ps with
  | nil => exact ⟨.done ht, .nil⟩
  | cons p ps ih =>
    obtain ⟨i1, i2⟩ := ih (fun q hq => hw q (by simp [hq])) (fun q hq => hl q (by simp [hq]))
    rw [List.flatMap_cons, List.append_assoc]
    obtain ⟨h1, h2, h3, h4⟩ := frame_ser (hw p (by simp)) (hl p (by simp)) (ps.flatMap Pdu.ser ++ tail)
    refine ⟨?_, .cons h4 i2⟩
    have := Frames.next h1 (h3.symm ▸ i1)
    rwa [h2] at this

/-- **C51.** When the announced lengths are right, the reader of headers and `parse` see the same PDUs. -/
theorem C51_readers_agree (env : Env) {ps : List Pdu} (hw : ∀ p ∈ ps, p.Wf env) (hne : ps ≠ [])
    (hl : ∀ p ∈ ps, p.header.pdu_length.toNat = p.ser.length) {tail : Bytes} (ht : tail.length < 12) :
    parse env (ps.flatMap Pdu.ser ++ tail) = .ok ps ∧
    parseMultipleHeader (ps.flatMap Pdu.ser ++ tail) = .ok (ps.map Pdu.header) := by
  refine ⟨C17_packet_round_trip env hw hne tail ht, ?_⟩
  have hnf : ¬ Framed tail := fun h => absurd h.1 (by omega)
  obtain ⟨f1, f2⟩ := frames_ser hnf (fun p hp => (hw p hp).1) hl
  have hf : Framed (ps.flatMap Pdu.ser ++ tail) := by
    cases ps with
    | nil => exact absurd rfl hne
    | cons p ps =>
      rw [List.flatMap_cons, List.append_assoc]
      exact (frame_ser (hw p (by simp)).1 (hl p (by simp)) _).1
  obtain ⟨hs, fs, r, e1, e2, e3⟩ := (C51_header_scan _).2 hf
  obtain ⟨rfl, rfl⟩ := frames_unique e2 f1
  rw [e1, headerOf_unique e3 f2]

/-- **C51**, violated when a length is wrong: a first PDU that announces the octets of a second one as its own is one PDU
for the reader of headers; `parse` finds two. -/
theorem C51_wrong_length_violated (env : Env) {p q : Pdu} (hp : p.Wf env) (hq : q.Wf env)
    (hl : p.header.pdu_length.toNat = p.ser.length + q.ser.length) :
    parse env (p.ser ++ q.ser) = .ok [p, q] ∧ parseMultipleHeader (p.ser ++ q.ser) = .ok [p.header] := by
  constructor
  · have := C17_packet_round_trip env (ps := [p, q]) (by simp [hp, hq]) (by simp) [] (by simp)
    simpa using this
  · have hr := PduHeader.parse_ser hp.1 (p.body.ser p.header.protocol_version ++ q.ser)
    have h12 : 12 ≤ (p.ser ++ q.ser).length := by
      unfold Pdu.ser; simp only [List.length_append, PduHeader.length_ser]; omega
    rw [← List.append_assoc] at hr
    obtain ⟨hd, h1, h2, h3⟩ := header_of_framed h12
    have e : PduHeader.parse.run (p.ser ++ q.ser) = .ok p.header (p.body.ser p.header.protocol_version ++ q.ser) := hr
    rw [e] at h2
    injection h2 with h2 _
    subst h2
    have ha : announced (p.ser ++ q.ser) = (p.ser ++ q.ser).length := by rw [← h3, hl, List.length_append]
    have hf : Framed (p.ser ++ q.ser) := ⟨h12, by omega⟩
    have hr : afterFrame (p.ser ++ q.ser) = [] := by
      unfold afterFrame; rw [ha, Nat.max_eq_right h12, List.drop_length]
    obtain ⟨hs, fs, r, e1, e2, e3⟩ := (C51_header_scan _).2 hf
    have f1 : Frames (p.ser ++ q.ser) [frame (p.ser ++ q.ser)] [] :=
      .next hf (hr.symm ▸ .done (fun h => absurd h.1 (by simp)))
    obtain ⟨rfl, rfl⟩ := frames_unique e2 f1
    rw [e1, headerOf_unique e3 (.cons h1 .nil)]

/-- the PDU that `parse` makes of twelve zero octets -/
def zeroPdu : Pdu := ⟨⟨0, 0, 0, 0, 0, 0, some (parsePduStatusFields 0 0), 0⟩, .other ⟨none, none, []⟩⟩

theorem pdu_zeros (env : Env) (r : Bytes) : (pdu env).run (List.replicate 12 0 ++ r) = .ok zeroPdu r := by
  have h1 : PduHeader.parse.run (List.replicate 12 0 ++ r) = .ok zeroPdu.header r := by
    simp only [show List.replicate 12 (0 : UInt8) = [0, 0, 0, 0, 0, 0, 0, 0, 0, 0, 0, 0] from rfl, List.cons_append,
      List.nil_append, PduHeader.parse, P.run_bind, be_u8, be_u16, be_u32, Res.andThen]
    rfl
  have h2 : (parseBody env zeroPdu.header).run r = .ok zeroPdu.body r := by
    rw [parseBody_other env (by decide)]
    rfl
  simp only [pdu, P.run_bind, h1, Res.andThen, h2, P.run_pure]

/-- **C51**, violated by padding behind a PDU: every twelve zero octets that follow the PDUs of a packet (which the announced
lengths would have told apart) are returned as one more PDU, of version 0 and type 0. -/
theorem C51_padding_is_read_as_pdus (env : Env) {ps : List Pdu} (hw : ∀ p ∈ ps, p.Wf env) (k : Nat) (hne : ps ≠ [] ∨ k ≠ 0)
    {tail : Bytes} (ht : tail.length < 12) :
    parse env (ps.flatMap Pdu.ser ++ (List.replicate (12 * k) 0 ++ tail)) = .ok (ps ++ List.replicate k zeroPdu) := by
  have hz : ∀ k, Reads env (List.replicate (12 * k) 0 ++ tail) (List.replicate k zeroPdu) tail := by
    intro k
    induction k with
    | zero => exact .nil _
    | succ k ih =>
      rw [Nat.mul_succ, Nat.add_comm, List.replicate_add, List.append_assoc]
      exact .cons (pdu_zeros env _) ih
  have hr : Reads env (ps.flatMap Pdu.ser ++ (List.replicate (12 * k) 0 ++ tail)) (ps ++ List.replicate k zeroPdu) tail := by
    clear hne
    induction ps with
    | nil => exact hz k
    | cons p ps ih =>
      rw [List.flatMap_cons, List.append_assoc]
      exact .cons (pdu_ser (hw p (by simp)) _) (ih fun q hq => hw q (by simp [hq]))
  have := (parsePackets_iff env _ _ tail).2 ⟨hr, by
    rcases hne with h | h
    · simp [h]
    · simp [h], pdu_short ht⟩
  unfold parse
  rw [this]

/-! ## Cases that meet the hypotheses -/

/-- an Acknowledge PDU of version 6 that announces `n` octets (it has 32) -/
def ackPdu (n : UInt16) : Pdu :=
  ⟨⟨6, 1, 15, 5, 0, n, none, 0⟩, .acknowledge ⟨⟨⟨1, 2⟩, 3⟩, ⟨⟨4, 5⟩, 6⟩, 1, 1, 7⟩⟩

theorem ackPdu_wf (env : Env) (n : UInt16) : (ackPdu n).Wf env :=
  ⟨⟨rfl, .inr ⟨(by decide : 1 ≤ (6 : UInt8).toNat), (by decide : (6 : UInt8).toNat ≤ 6), rfl⟩⟩, rfl⟩
theorem ackPdu_length (n : UInt16) : (ackPdu n).ser.length = 32 := rfl

example (env : Env) : parse env (([ackPdu 32, ackPdu 32] : List Pdu).flatMap Pdu.ser ++ [1, 2, 3]) = .ok [ackPdu 32, ackPdu 32] ∧
    parseMultipleHeader (([ackPdu 32, ackPdu 32] : List Pdu).flatMap Pdu.ser ++ [1, 2, 3]) =
      .ok [(ackPdu 32).header, (ackPdu 32).header] :=
  C51_readers_agree env (by simp [ackPdu_wf]) (by simp) (fun p hp => by
    have : p = ackPdu 32 := by simpa using hp
    subst this; rfl) (by decide)

example (env : Env) : parse env ((ackPdu 64).ser ++ (ackPdu 32).ser) = .ok [ackPdu 64, ackPdu 32] ∧
    parseMultipleHeader ((ackPdu 64).ser ++ (ackPdu 32).ser) = .ok [(ackPdu 64).header] :=
  C51_wrong_length_violated env (ackPdu_wf env _) (ackPdu_wf env _) rfl

example (env : Env) : parse env ((ackPdu 32).ser ++ (List.replicate 24 0 ++ [])) = .ok [ackPdu 32, zeroPdu, zeroPdu] := by
  have := C51_padding_is_read_as_pdus env (ps := [ackPdu 32]) (by simp [ackPdu_wf]) 2 (by simp) (tail := []) (by simp)
  simpa using this

example (env : Env) : (pdu env).run (announce 7 ((ackPdu 32).ser ++ [9])) = .ok ⟨(ackPdu 7).header, (ackPdu 32).body⟩ [9] :=
  C51_parse_ignores_length env (by decide) 7 (pdu_ser (ackPdu_wf env 32) [9])

end Verif.Props
