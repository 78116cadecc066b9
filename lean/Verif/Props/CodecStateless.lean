import Verif.Props.CodecDecode

/-! # Full updates do not depend on what went before (C40), and the encoder and the decoder together (C38) -/

set_option linter.unusedSimpArgs false

namespace Verif.Props
open Verif.Codec

/-! ## C40: encoding in full-update mode -/

/-- In full-update mode the result of encoding a body does not depend on the state of the encoder nor on the time. -/
theorem C40_encode_body {env : Env} {o : Options} (hm : o.update_mode = .full) (now now' : Nat) (s s' : EncState) (b : Dis.Body) :
    (bodyEnc env o now s b).map (·.1) = (bodyEnc env o now' s' b).map (·.1) := by
  cases b with
  | entityState x =>
    simp only [bodyEnc, esEncodeBody, esEnc, hm, Option.map_map, reduceCtorEq, false_and, if_false]
    rfl
  | electromagneticEmission x => simp [bodyEnc, eeEncodeBody, eeEnc, hm]
  | designator x => simp [bodyEnc, desEncodeBody, desEnc, hm]
  | transmitter x => simp [bodyEnc, txEncodeBody, txEnc, hm]
  | iff x => simp [bodyEnc, iffEncodeBody, iffEnc, hm]
  | _ => rfl

theorem C40_encode {env : Env} {o : Options} (hm : o.update_mode = .full) (now now' : Nat) (s s' : EncState) (p : Dis.Pdu) :
    (pduEnc env o now s p).map (·.1) = (pduEnc env o now' s' p).map (·.1) := by
  have h := C40_encode_body (env := env) hm now now' s s' p.body
  unfold pduEnc
  cases h1 : bodyEnc env o now s p.body <;> cases h2 : bodyEnc env o now' s' p.body <;> simp [h1, h2] at h ⊢
  rw [h]

/-- A whole history: each PDU is encoded as a fresh encoder would at any other time. -/
theorem C40_encode_history {env : Env} {o : Options} (hm : o.update_mode = .full) {hist : List (Nat × Dis.Pdu)} {s s' : EncState}
    {out : List Cdis.CdisPdu} (h : encStream env o s hist = some (out, s')) :
    out.map some = hist.map fun e => (pduEnc env o 0 {} e.2).map (·.1) := by
  induction hist generalizing s out with
  | nil => simp [encStream] at h; simp [h.1]
  | cons e rest ih =>
    obtain ⟨t, p⟩ := e
    obtain ⟨c, r, s1, out1, h1, h2, rfl⟩ := encStream_cons h
    rw [List.map_cons, List.map_cons, ih h2, C40_encode hm 0 t {} s p, h1]
    rfl

/-! ## C40: decoding -/

/-- The update needs no earlier one to be understood: a full update, an IFF PDU with its system id, or a PDU of a type
that has no partial updates. -/
def SelfContained : Cdis.CdisBody → Prop
  | .entityState y => y.full_update_flag = true
  | .electromagneticEmission y => y.full_update_flag = true
  | .designator y => y.full_update_flag = true
  | .transmitter y => y.full_update_flag = true
  | .iff y => y.system_id ≠ none
  | _ => True

theorem iffDec_fst {o o' : Options} {st st' : Option Dis.SystemId} {y : Cdis.Iff} (h : y.system_id ≠ none) :
    (iffDec o st y).1 = (iffDec o' st' y).1 := by
  unfold iffDec
  cases hs : y.system_id with
  | none => exact absurd hs h
  | some v => rfl

/-- A self-contained update is decoded to the same body in every mode and every state of the decoder. -/
theorem C40_decode {env : Env} (o o' : Options) (s s' : DecState) {c : Cdis.CdisPdu} (h : SelfContained c.body) :
    (pduDec env o s c).1 = (pduDec env o' s' c).1 := by
  suffices hb : (bodyDec env o s c.body).1 = (bodyDec env o' s' c.body).1 by
    unfold pduDec
    dsimp only
    rw [hb]
  cases hc : c.body with
  | entityState y =>
    rw [hc] at h
    have h : y.full_update_flag = true := h
    simp [bodyDec, esDecodeBody, esDec, h]
  | electromagneticEmission y =>
    rw [hc] at h
    have h : y.full_update_flag = true := h
    simp [bodyDec, eeDecodeBody, eeDec, h]
  | designator y =>
    rw [hc] at h
    have h : y.full_update_flag = true := h
    simp [bodyDec, desDecodeBody, desDec, h]
  | transmitter y =>
    rw [hc] at h
    have h : y.full_update_flag = true := h
    simp [bodyDec, txDecodeBody, txDec, h]
  | iff y =>
    rw [hc] at h
    have h : y.system_id ≠ none := h
    simp only [bodyDec, iffDecodeBody]
    rw [iffDec_fst h]
  | _ => rfl

/-- In full-update mode the decoder does not use its state either, except for designator PDUs, which it completes from
the last full one. -/
theorem C40_decode_full_mode {env : Env} {o : Options} (hm : o.update_mode = .full) (s s' : DecState) {c : Cdis.CdisPdu}
    (h : ∀ y, c.body = .designator y → y.full_update_flag = true) : (pduDec env o s c).1 = (pduDec env o s' c).1 := by
  suffices hb : (bodyDec env o s c.body).1 = (bodyDec env o s' c.body).1 by
    unfold pduDec
    dsimp only
    rw [hb]
  cases hc : c.body with
  | entityState y => simp [bodyDec, esDecodeBody, esDec, hm]
  | electromagneticEmission y => simp [bodyDec, eeDecodeBody, eeDec, hm]
  | designator y =>
    have h := h y hc
    simp [bodyDec, desDecodeBody, desDec, h]
  | transmitter y => simp [bodyDec, txDecodeBody, txDec, hm]
  | iff y => simp [bodyDec, iffDecodeBody, iffDec, hm]
  | _ => rfl

/-- Everything that the encoder produces in full-update mode is self-contained. -/
theorem C40_encode_self_contained {env : Env} {o : Options} (hm : o.update_mode = .full) {now : Nat} {s s1 : EncState} {p : Dis.Pdu}
    {c : Cdis.CdisPdu} {r : StateResult} (h : pduEnc env o now s p = some (c, r, s1)) : SelfContained c.body := by
  have hb := (pduEnc_some h).1
  cases hp : p.body with
  | entityState x =>
    simp only [hp, bodyEnc, esEncodeBody, esEnc, hm, Option.map_map, Option.map_eq_some_iff, reduceCtorEq, false_and, if_false] at hb
    obtain ⟨m, -, hm⟩ := hb
    simp only [Function.comp, Prod.mk.injEq] at hm
    rw [← hm.1]
    rfl
  | electromagneticEmission x =>
    simp only [hp, bodyEnc, eeEncodeBody, eeEnc, hm, Option.some.injEq, Prod.mk.injEq] at hb
    rw [← hb.1]; rfl
  | designator x =>
    simp only [hp, bodyEnc, desEncodeBody, desEnc, hm, Option.some.injEq, Prod.mk.injEq, reduceCtorEq, false_and, if_false] at hb
    rw [← hb.1]; rfl
  | transmitter x =>
    simp only [hp, bodyEnc, txEncodeBody, txEnc, hm, Option.some.injEq, Prod.mk.injEq, reduceCtorEq, false_and, if_false] at hb
    rw [← hb.1]; rfl
  | iff x =>
    simp [hp, bodyEnc, iffEncodeBody, iffEnc, hm] at hb
    rw [← hb.1]; simp [SelfContained]
  | _ =>
    simp only [hp, bodyEnc, Option.some.injEq, Prod.mk.injEq] at hb
    rw [← hb.1]; trivial

/-- Encoding a history in full-update mode and decoding the result, in whatever mode and with whatever the decoder
received before, gives PDU by PDU what a fresh encoder and decoder give. -/
theorem C40_full_mode_end_to_end {env : Env} {o : Options} (hm : o.update_mode = .full) (o' : Options) {hist : List (Nat × Dis.Pdu)}
    {s s' : EncState} {out : List Cdis.CdisPdu} (h : encStream env o s hist = some (out, s')) (d : DecState) :
    (decStream env o' d out).1.map some =
      hist.map fun e => (pduEnc env o 0 {} e.2).map fun r => (pduDec env o {} r.1).1 := by
  induction hist generalizing s out d with
  | nil => simp [encStream] at h; simp [h.1, decStream]
  | cons e rest ih =>
    obtain ⟨t, p⟩ := e
    obtain ⟨c, r, s1, out1, h1, h2, rfl⟩ := encStream_cons h
    have h3 := C40_encode (env := env) hm 0 t {} s p
    rw [h1] at h3
    obtain ⟨c', h4, h5⟩ := Option.map_eq_some_iff.1 h3
    rw [decStream, List.map_cons, List.map_cons, ih h2, h4, Option.map_some, h5,
      C40_decode o' o d {} (C40_encode_self_contained hm h1)]

/-! ## C38: the encoder and the decoder together -/

/-- What a fresh encoder and a fresh decoder in full-update mode make of a body: the body with the precision of C-DIS. -/
def oneShot (env : Env) (o : Options) (b : Dis.Body) : Option Dis.Body :=
  (bodyEnc env { o with update_mode := .full } 0 {} b).map fun r => (bodyDec env { o with update_mode := .full } {} r.1).1

theorem eid_rt (e : Dis.EntityId) : eidDec (eidEnc e) = e := by
  obtain ⟨⟨a, b⟩, c⟩ := e
  simp [eidDec, eidEnc]

theorem encStream_length {env : Env} {o : Options} : ∀ {hist : List (Nat × Dis.Pdu)} {s s' : EncState} {out : List Cdis.CdisPdu},
    encStream env o s hist = some (out, s') → out.length = hist.length
  | [], _, _, _, h => by simp [encStream] at h; simp [h.1]
  | (now, q) :: rest, s, s', out, h => by
    obtain ⟨c, r, s1, out1, h1, h2, rfl⟩ := encStream_cons h
    simp [encStream_length h2]

/-- Both sides at one position. -/
theorem pipeline_at {env : Env} {o o' : Options} {hist : List (Nat × Dis.Pdu)} {s s' : EncState} {out : List Cdis.CdisPdu}
    {d d' : DecState} {dec : List Dis.Pdu} (h : encStream env o s hist = some (out, s')) (hd : decStream env o' d out = (dec, d'))
    {m : Nat} {c : Cdis.CdisPdu} (hc : out[m]? = some c) :
    ∃ t p si r s1 di, hist[m]? = some (t, p) ∧ bodyEnc env o t si p.body = some (c.body, r, s1) ∧
      dec[m]? = some (pduDec env o' di c).1 := by
  have hl := encStream_length h
  have hm : m < hist.length := by
    rw [← hl]
    exact (List.getElem?_eq_some_iff.1 hc).1
  have hi : hist[m]? = some (hist[m].1, hist[m].2) := by simp [hm]
  obtain ⟨si, c', r, s1, h1, h2, h3⟩ := encStream_at h hi
  rw [hc] at h3
  cases h3
  have h4 := (decStream_at (env := env) (o := o') (s := d) hc).2
  rw [hd] at h4
  exact ⟨_, _, si, r, s1, _, hi, (pduEnc_some h2).1, h4⟩

/-- A full update is sent exactly where one is received. -/
theorem enc_dec_at {env : Env} {o o' : Options} {P : Dis.Body → Cdis.CdisBody → Prop} {Q : Cdis.CdisBody → Dis.Body → Prop}
    (hPQ : ∀ now s b c r s' d, bodyEnc env o now s b = some (c, r, s') → (P b c ↔ Q c (bodyDec env o' d c).1))
    {hist : List (Nat × Dis.Pdu)} {s s' : EncState} {out : List Cdis.CdisPdu}
    {d d' : DecState} {dec : List Dis.Pdu} (h : encStream env o s hist = some (out, s')) (hd : decStream env o' d out = (dec, d'))
    (m : Nat) : EncAt P hist out m ↔ DecAt Q out dec m := by
  constructor
  · rintro ⟨t, p, c, h1, h2, h3⟩
    obtain ⟨t', p', si, r, s1, di, e1, e2, e3⟩ := pipeline_at h hd h2
    rw [h1] at e1
    cases e1
    exact ⟨c, _, h2, e3, (hPQ _ _ _ _ _ _ di e2).1 h3⟩
  · rintro ⟨c, q, h1, h2, h3⟩
    obtain ⟨t', p', si, r, s1, di, e1, e2, e3⟩ := pipeline_at h hd h1
    rw [h2] at e3
    cases e3
    exact ⟨t', p', c, e1, h1, (hPQ _ _ _ _ _ _ di e2).2 h3⟩

/-- A self-contained update is what a fresh encoder produces in full-update mode. -/
theorem enc_self_contained {env : Env} {o : Options} {now : Nat} {s s' : EncState} {b : Dis.Body} {c : Cdis.CdisBody} {r : StateResult}
    (h : bodyEnc env o now s b = some (c, r, s')) (hc : SelfContained c) :
    (bodyEnc env { o with update_mode := .full } 0 {} b).map (·.1) = some c := by
  cases b with
  | entityState x =>
    simp only [bodyEnc, esEncodeBody, Option.map_eq_some_iff, Prod.mk.injEq] at h
    obtain ⟨⟨y, r'⟩, h1, h2, h3, h4⟩ := h
    subst h2
    have hf : y.full_update_flag = true := hc
    unfold esEnc at h1
    dsimp only at h1
    split at h1
    · simp only [Option.some.injEq, Prod.mk.injEq] at h1
      rw [← h1.1] at hf
      simp at hf
    · obtain ⟨m, h5, h6⟩ := Option.map_eq_some_iff.1 h1
      simp only [Prod.mk.injEq] at h6
      simp only [bodyEnc, esEncodeBody, esEnc, reduceCtorEq, false_and, if_false, h5, Option.map_some]
      rw [← h6.1]
  | electromagneticEmission x =>
    simp only [bodyEnc, eeEncodeBody, Option.some.injEq, Prod.mk.injEq] at h
    rw [← h.1] at hc ⊢
    have hf : (eeEnc o now (s.ee x.emitting_entity_id) x).1.full_update_flag = true := hc
    simp only [bodyEnc, eeEncodeBody, Option.map_some]
    unfold eeEnc at hf ⊢
    dsimp only at hf ⊢
    split at hf
    · simp
    · simp
    · split at hf
      · rename_i ht
        simp [ht]
      · simp at hf
  | designator x =>
    simp only [bodyEnc, desEncodeBody, Option.some.injEq, Prod.mk.injEq] at h
    rw [← h.1] at hc ⊢
    have hf : (desEnc env o now (s.designator x.designating_entity_id) x).1.full_update_flag = true := hc
    simp only [bodyEnc, desEncodeBody, Option.map_some]
    unfold desEnc at hf ⊢
    dsimp only at hf ⊢
    split at hf
    · simp at hf
    · rename_i ht
      rw [if_neg ht]
      simp
  | transmitter x =>
    simp only [bodyEnc, txEncodeBody, Option.some.injEq, Prod.mk.injEq] at h
    rw [← h.1] at hc ⊢
    have hf : (txEnc env o now (s.transmitter (x.radio_reference_id, x.radio_number)) x).1.full_update_flag = true := hc
    simp only [bodyEnc, txEncodeBody, Option.map_some]
    unfold txEnc at hf ⊢
    dsimp only at hf ⊢
    split at hf
    · simp at hf
    · rename_i ht
      rw [if_neg ht]
      simp
  | iff x =>
    simp only [bodyEnc, iffEncodeBody, Option.some.injEq, Prod.mk.injEq] at h
    rw [← h.1] at hc ⊢
    have hf : (iffEnc o now (s.iff x.emitting_entity_id) x).1.system_id ≠ none := hc
    simp only [bodyEnc, iffEncodeBody, Option.map_some]
    unfold iffEnc at hf ⊢
    dsimp only at hf ⊢
    split at hf
    · simp at hf
    · rename_i ht
      rw [if_neg ht]
      simp
  | _ =>
    simp only [bodyEnc, Option.some.injEq, Prod.mk.injEq] at h
    rw [← h.1]
    rfl

/-- Wherever a self-contained update went over the wire, the decoded body is the one-shot image of the body put in,
whatever was sent before and in whatever mode the two sides are. -/
theorem C38_self_contained {env : Env} {o o' : Options} {hist : List (Nat × Dis.Pdu)} {s s' : EncState} {out : List Cdis.CdisPdu}
    {d d' : DecState} {dec : List Dis.Pdu} (h : encStream env o s hist = some (out, s')) (hd : decStream env o' d out = (dec, d'))
    {m : Nat} {c : Cdis.CdisPdu} (hc : out[m]? = some c) (hs : SelfContained c.body) :
    ∃ t p q, hist[m]? = some (t, p) ∧ dec[m]? = some q ∧ oneShot env o p.body = some q.body := by
  obtain ⟨t, p, si, r, s1, di, e1, e2, e3⟩ := pipeline_at h hd hc
  refine ⟨t, p, _, e1, e3, ?_⟩
  have h1 := enc_self_contained e2 hs
  obtain ⟨r', h2, h3⟩ := Option.map_eq_some_iff.1 h1
  unfold oneShot
  rw [h2, Option.map_some, h3]
  congr 1
  have := congrArg Dis.Pdu.body (C40_decode { o with update_mode := .full } o' {} di hs (env := env))
  exact this

end Verif.Props
