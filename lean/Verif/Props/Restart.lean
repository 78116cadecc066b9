import Verif.Props.Rate
import Verif.Props.CodecStateless
import Verif.Props.CodecEmission

/-! # C70: restarts -/

namespace Verif.Props
open Verif.Codec

/-! ## Specification -/

/-- A DIS PDU without the marking of its entity. -/
def unmark : Dis.Body → Dis.Body
  | .entityState x => .entityState { x with entity_marking := defaultMarking }
  | b => b
def unmarkPdu (p : Dis.Pdu) : Dis.Pdu := { p with body := unmark p.body }
/-- The full-update flag of a C-DIS PDU. -/
def flagged : Cdis.CdisBody → Bool
  | .entityState y => y.full_update_flag
  | .electromagneticEmission y => y.full_update_flag
  | .designator y => y.full_update_flag
  | .transmitter y => y.full_update_flag
  | .iff y => y.full_update_flag
  | _ => false
/-- not about an IFF system -/
def NotIff : Subject → Prop
  | .iff _ => False
  | _ => True

/-! ## Steps -/

def unmarkState (s : EsState) : EsState := { s with entity_marking := defaultMarking }
/-- Two states of the decoder know the same about a subject, except perhaps the marking. -/
def Agree : Subject → DecState → DecState → Prop
  | .entityState e, s, t => (s.es e).map unmarkState = (t.es e).map unmarkState
  | .emission e, s, t => s.ee e = t.ee e
  | .designator e, s, t => s.designator e = t.designator e
  | .transmitter e n, s, t => s.transmitter (e, n) = t.transmitter (e, n)
  | .iff e, s, t => s.iff e = t.iff e

theorem agree_of {k : Subject} {s t : DecState} (h : DecAgree k s t) : Agree k s t := by
  cases k with
  | entityState e => exact congrArg (Option.map unmarkState) h
  | _ => exact h
theorem Agree.trans {k : Subject} {a b c : DecState} (h : Agree k a b) (h' : Agree k b c) : Agree k a c := by
  cases k <;> exact Eq.trans h h'
theorem Agree.symm {k : Subject} {a b : DecState} (h : Agree k a b) : Agree k b a := by
  cases k <;> exact Eq.symm h
theorem DecAgree.symm {k : Subject} {a b : DecState} (h : DecAgree k a b) : DecAgree k b a := by
  cases k <;> exact Eq.symm h
theorem agree_other {env : Env} {o : Options} {s t : DecState} {c : Cdis.CdisBody} {k : Subject} (hk : subjectOfC c ≠ some k) (ha : Agree k s t) :
    Agree k (bodyDec env o s c).2.2 (bodyDec env o t c).2.2 :=
  ((agree_of (dec_other hk)).trans ha).trans (agree_of (dec_other hk)).symm

theorem es_fallback {s t : Option EsState} (h : s.map unmarkState = t.map unmarkState) (d : EsState) :
    unmarkState (s.getD d) = unmarkState (t.getD d) := by
  cases s <;> cases t <;> simp_all
theorem store_unmark (st : Option EsState) (x : Dis.EntityState) : unmarkState (esStore st x) = unmarkState (EsState.of x) := by
  cases st <;> rfl
theorem esDec_unmark (env : Env) (o : Options) {s t : Option EsState} (x : Cdis.EntityState)
    (h : x.full_update_flag = true ∨ s.map unmarkState = t.map unmarkState) :
    unmark (.entityState (esDec env o s x).1) = unmark (.entityState (esDec env o t x).1) ∧ (esDec env o s x).2 = (esDec env o t x).2 := by
  refine ⟨?_, rfl⟩
  have key : unmarkState (if o.update_mode = .partial ∧ x.full_update_flag = false then s.getD defaultEs else defaultEs) =
      unmarkState (if o.update_mode = .partial ∧ x.full_update_flag = false then t.getD defaultEs else defaultEs) := by
    split
    · rename_i hc
      rcases h with h | h
      · rw [h] at hc; cases hc.2
      · exact es_fallback h _
    · rfl
  simp only [unmarkState, EsState.mk.injEq] at key
  obtain ⟨k1, k2, k3, k4, k5, -⟩ := key
  simp only [unmark, esDec, k1, k2, k3, k4, k5]
theorem of_unmark {x y : Dis.EntityState} (h : unmark (.entityState x) = unmark (.entityState y)) : unmarkState (EsState.of x) = unmarkState (EsState.of y) := by
  simp only [unmark, Dis.Body.entityState.injEq] at h
  have h1 := congrArg Dis.EntityState.force_id h
  have h2 := congrArg Dis.EntityState.entity_type h
  have h3 := congrArg Dis.EntityState.entity_location h
  have h4 := congrArg Dis.EntityState.entity_orientation h
  have h5 := congrArg Dis.EntityState.entity_appearance h
  dsimp only at h1 h2 h3 h4 h5
  simp only [unmarkState, EsState.of, h1, h2, h3, h4, h5]

/-- A PDU about `k` gives the same in states that agree about `k`; a full update does so in any two states, and makes them agree. -/
theorem agree_step {env : Env} {o : Options} (hm : o.update_mode = .partial) {s t : DecState} {c : Cdis.CdisBody} {k : Subject}
    (hk : subjectOfC c = some k) (h : Agree k s t ∨ (NotIff k ∧ flagged c = true)) :
    unmark (bodyDec env o s c).1 = unmark (bodyDec env o t c).1 ∧ Agree k (bodyDec env o s c).2.2 (bodyDec env o t c).2.2 := by
  cases c with
  | entityState x =>
    simp only [subjectOfC, Option.some.injEq] at hk
    subst hk
    obtain ⟨h1, h2⟩ := esDec_unmark env o (s := s.es (eidDec x.entity_id)) (t := t.es (eidDec x.entity_id)) x (h.elim .inr fun h => .inl h.2)
    refine ⟨h1, ?_⟩
    simp only [bodyDec, esDecodeBody, h2]
    split
    · simp only [Agree, Map.set, if_pos, Option.map_some, store_unmark]
      exact congrArg some (of_unmark h1)
    · rename_i hr
      rcases h with h | ⟨-, h⟩
      · exact h
      · exact absurd (by simp only [esDec]; rw [if_pos ⟨hm, h⟩]) hr
  | electromagneticEmission x =>
    rcases h with h | ⟨-, h⟩
    · obtain ⟨h1, -, h3⟩ := dec_same (env := env) (o := o) (s := s) (t := t) (k := k) hk (by cases hk; exact h)
      exact ⟨congrArg unmark h1, agree_of h3⟩
    · have h : x.full_update_flag = true := h
      cases hk
      simp [bodyDec, eeDecodeBody, eeDec, h, hm, Agree, Map.set]
  | designator x =>
    rcases h with h | ⟨-, h⟩
    · obtain ⟨h1, -, h3⟩ := dec_same (env := env) (o := o) (s := s) (t := t) (k := k) hk (by cases hk; exact h)
      exact ⟨congrArg unmark h1, agree_of h3⟩
    · have h : x.full_update_flag = true := h
      cases hk
      simp only [bodyDec, desDecodeBody, desDec, h, if_true]
      refine ⟨trivial, ?_⟩
      simp [Agree, Map.set]
  | transmitter x =>
    rcases h with h | ⟨-, h⟩
    · obtain ⟨h1, -, h3⟩ := dec_same (env := env) (o := o) (s := s) (t := t) (k := k) hk (by cases hk; exact h)
      exact ⟨congrArg unmark h1, agree_of h3⟩
    · have h : x.full_update_flag = true := h
      cases hk
      simp [bodyDec, txDecodeBody, txDec, h, hm, Agree, Map.set]
  | iff x =>
    rcases h with h | ⟨h, -⟩
    · obtain ⟨h1, -, h3⟩ := dec_same (env := env) (o := o) (s := s) (t := t) (k := k) hk (by cases hk; exact h)
      exact ⟨congrArg unmark h1, agree_of h3⟩
    · cases hk
      exact absurd h id
  | _ => cases hk

theorem unmark_finalize {h : Dis.PduHeader} {b b' : Dis.Body} (e : unmark b = unmark b') (ts : UInt32) :
    unmarkPdu (Dis.Pdu.finalizeFromParts h b ts) = unmarkPdu (Dis.Pdu.finalizeFromParts h b' ts) := by
  have l : ∀ b : Dis.Body, (unmark b).bodyLen = b.bodyLen := by intro b; cases b <;> rfl
  have t : ∀ b : Dis.Body, (unmark b).pduType = b.pduType := by intro b; cases b <;> rfl
  simp only [unmarkPdu, Dis.Pdu.finalizeFromParts, e]
  rw [← l b, ← l b', ← t b, ← t b', e]

/-! ## Claims -/

/-- **C70.** A decoder in whatever state: from a full update of a subject on, it hands over the same as any other decoder, of which the same can be
said, except perhaps the marking. -/
theorem C70_resync {env : Env} {o : Options} (hm : o.update_mode = .partial) (s t : DecState) {inp : List Cdis.CdisPdu} {k : Subject} (hn : NotIff k)
    {i j : Nat} {c d : Cdis.CdisPdu} (hj : inp[j]? = some d) (hd : subjectOfC d.body = some k) (hf : flagged d.body = true)
    (hij : j ≤ i) (hi : inp[i]? = some c) (hc : subjectOfC c.body = some k) :
    ((decStream env o s inp).1[i]?).map unmarkPdu = ((decStream env o t inp).1[i]?).map unmarkPdu := by
  have main : ∀ (inp : List Cdis.CdisPdu) (s t : DecState) (i : Nat) (c : Cdis.CdisPdu), inp[i]? = some c → subjectOfC c.body = some k →
      (Agree k s t ∨ ∃ j d, j ≤ i ∧ inp[j]? = some d ∧ subjectOfC d.body = some k ∧ flagged d.body = true) →
      ((decStream env o s inp).1[i]?).map unmarkPdu = ((decStream env o t inp).1[i]?).map unmarkPdu := by
    intro inp
    induction inp with
    | nil => intro s t i c hi; simp at hi
    | cons q l ih =>
      intro s t i c hi hc h
      cases i with
      | zero =>
        simp only [List.getElem?_cons_zero, Option.some.injEq] at hi
        subst hi
        have := (agree_step (env := env) hm (s := s) (t := t) hc (h.imp id (by
          rintro ⟨j, d, h1, h2, h3, h4⟩
          obtain rfl : j = 0 := by omega
          simp only [List.getElem?_cons_zero, Option.some.injEq] at h2
          subst h2
          exact ⟨hn, h4⟩))).1
        simp only [decStream, List.getElem?_cons_zero, Option.map_some, pduDec]
        exact congrArg some (unmark_finalize this _)
      | succ i =>
        rw [List.getElem?_cons_succ] at hi
        simp only [decStream, List.getElem?_cons_succ]
        refine ih _ _ i c hi hc ?_
        by_cases hq : subjectOfC q.body = some k
        · by_cases hfq : flagged q.body = true
          · left; exact (agree_step hm hq (.inr ⟨hn, hfq⟩)).2
          · rcases h with h | ⟨j, d, h1, h2, h3, h4⟩
            · left; exact (agree_step hm hq (.inl h)).2
            · right
              cases j with
              | zero =>
                simp only [List.getElem?_cons_zero, Option.some.injEq] at h2
                subst h2
                exact absurd h4 hfq
              | succ j => exact ⟨j, d, by omega, by simpa using h2, h3, h4⟩
        · rcases h with h | ⟨j, d, h1, h2, h3, h4⟩
          · left; exact agree_other hq h
          · right
            cases j with
            | zero =>
              simp only [List.getElem?_cons_zero, Option.some.injEq] at h2
              subst h2
              exact absurd h3 hq
            | succ j => exact ⟨j, d, by omega, by simpa using h2, h3, h4⟩
  exact main inp s t i c hi hc (.inr ⟨j, d, hij, hj, hd, hf⟩)

theorem subject_kept {env : Env} {o : Options} {now : Nat} {s s' : EncState} {b : Dis.Body} {c : Cdis.CdisBody} {r : StateResult}
    (h : bodyEnc env o now s b = some (c, r, s')) : subjectOfC c = subjectOf b ∧ (∀ y, c = .iff y → y.full_update_flag = false) := by
  cases b with
  | entityState x =>
    simp only [bodyEnc, esEncodeBody, Option.map_eq_some_iff] at h
    obtain ⟨q, hq, h⟩ := h
    cases h
    refine ⟨?_, fun y hy => by cases hy⟩
    have : q.1.entity_id = eidEnc x.entity_id := by
      unfold esEnc at hq
      dsimp only at hq
      split at hq
      · cases hq; rfl
      · simp only [Option.map_eq_some_iff] at hq
        obtain ⟨m, -, rfl⟩ := hq
        rfl
    simp only [subjectOfC, subjectOf, this, eid_rt]
  | electromagneticEmission x =>
    simp only [bodyEnc, eeEncodeBody, Option.some.injEq] at h
    cases h
    refine ⟨?_, fun y hy => by cases hy⟩
    have : (eeEnc o now (s.ee x.emitting_entity_id) x).1.emitting_id = eidEnc x.emitting_entity_id := by
      unfold eeEnc
      dsimp only
      split
      · rfl
      · rfl
      · split <;> rfl
    simp only [subjectOfC, subjectOf, this, eid_rt]
  | designator x =>
    simp only [bodyEnc, desEncodeBody, Option.some.injEq] at h
    cases h
    refine ⟨?_, fun y hy => by cases hy⟩
    have : (desEnc env o now (s.designator x.designating_entity_id) x).1.designating_entity_id = eidEnc x.designating_entity_id := by
      unfold desEnc
      dsimp only
      split <;> rfl
    simp only [subjectOfC, subjectOf, this, eid_rt]
  | transmitter x =>
    simp only [bodyEnc, txEncodeBody, Option.some.injEq] at h
    cases h
    refine ⟨?_, fun y hy => by cases hy⟩
    have h1 : (txEnc env o now (s.transmitter (x.radio_reference_id, x.radio_number)) x).1.radio_reference_id = eidEnc x.radio_reference_id := by
      unfold txEnc
      dsimp only
      split <;> rfl
    have h2 : (txEnc env o now (s.transmitter (x.radio_reference_id, x.radio_number)) x).1.radio_number = x.radio_number.toNat := by
      unfold txEnc
      dsimp only
      split <;> rfl
    simp only [subjectOfC, subjectOf, h1, h2, eid_rt, UInt16.ofNat_toNat]
  | iff x =>
    simp only [bodyEnc, iffEncodeBody, Option.some.injEq] at h
    cases h
    refine ⟨?_, fun y hy => by cases hy; rfl⟩
    have : (iffEnc o now (s.iff x.emitting_entity_id) x).1.emitting_entity_id = eidEnc x.emitting_entity_id := rfl
    simp only [subjectOfC, subjectOf, this, eid_rt]
  | _ => cases h; exact ⟨rfl, fun y hy => by cases hy⟩
theorem subject_at {env : Env} {o : Options} {hist : List (Nat × Dis.Pdu)} {s s' : EncState} {out : List Cdis.CdisPdu}
    (h : encStream env o s hist = some (out, s')) {i : Nat} {c : Cdis.CdisPdu} (hc : out[i]? = some c) :
    ∃ t p, hist[i]? = some (t, p) ∧ subjectOfC c.body = subjectOf p.body ∧ ∀ y, c.body = .iff y → y.full_update_flag = false := by
  have hl := encStream_length h
  have : i < hist.length := by
    have := (List.getElem?_eq_some_iff.1 hc).1
    omega
  obtain ⟨e, he⟩ : ∃ e, hist[i]? = some e := ⟨hist[i], by simp [this]⟩
  obtain ⟨t, p⟩ := e
  obtain ⟨si, c', r, s1, -, h2, h3⟩ := encStream_at h he
  rw [hc] at h3
  cases h3
  obtain ⟨hb, -⟩ := pduEnc_some h2
  obtain ⟨h4, h5⟩ := subject_kept hb
  exact ⟨t, p, he, h4, h5⟩
theorem full_flagged {c : Cdis.CdisBody} {k : Subject} (hk : subjectOfC c = some k) (hn : NotIff k) (h : isFull c = true) : flagged c = true := by
  cases c with
  | iff y => cases hk; exact absurd hn id
  | _ => exact h
theorem decStream_append (env : Env) (o : Options) (s : DecState) (a b : List Cdis.CdisPdu) :
    decStream env o s (a ++ b) = ((decStream env o s a).1 ++ (decStream env o (decStream env o s a).2 b).1, (decStream env o (decStream env o s a).2 b).2) := by
  induction a generalizing s with
  | nil => rfl
  | cons c a ih => simp only [List.cons_append, decStream, ih]
theorem decStream_length (env : Env) (o : Options) (s : DecState) (a : List Cdis.CdisPdu) : (decStream env o s a).1.length = a.length := by
  induction a generalizing s with
  | nil => rfl
  | cons c a ih => simp only [decStream, List.length_cons, ih]

/-- **C70**, restart of the decoder.  A decoder that is replaced by a fresh one just before the PDU at position `r`, at any point of any history: once a
heartbeat window has passed, what the fresh one hands over for a PDU is, except perhaps the marking, what the old one would have handed over. -/
theorem C70_decoder_restart {env : Env} {o : Options} (hm : o.update_mode = .partial) {hist : List (Nat × Dis.Pdu)} (hf : Forward hist)
    {out : List Cdis.CdisPdu} {s : EncState} (h : encStream env o {} hist = some (out, s)) {a : Subject} (hn : NotIff a) {w : Rat}
    (hw : GoodFor o hist a w) (hw0 : 0 ≤ w) {r tr : Nat} {pr : Dis.Pdu} (hr : hist[r]? = some (tr, pr)) {i t : Nat} (hi : AboutAt hist a i t) (hri : r ≤ i)
    (ht : w < ((t - tr : Nat) : Rat) / 10 ^ 9 * (1 - 1 / 2 ^ 22)) :
    ((decStream env o {} (out.drop r)).1[i - r]?).map unmarkPdu = ((decStream env o {} out).1[i]?).map unmarkPdu := by
  obtain ⟨j, tj, h1, ⟨⟨pj, h2, h3⟩, d, h4, h5⟩, h6⟩ := C68_fresh hm hf h hw hw0 hi
  have hrj : r ≤ j := by
    by_contra hlt
    have h7 := hf.1 j r tj tr pj pr (by omega) h2 hr
    have : ((t - tr : Nat) : Rat) ≤ ((t - tj : Nat) : Rat) := by exact_mod_cast (by omega : t - tr ≤ t - tj)
    have e : (0 : Rat) ≤ 1 / 10 ^ 9 * (1 - 1 / 2 ^ 22) := by norm_num
    have h8 := mul_le_mul_of_nonneg_right this e
    have h9 : ((t - tr : Nat) : Rat) / 10 ^ 9 * (1 - 1 / 2 ^ 22) = ((t - tr : Nat) : Rat) * (1 / 10 ^ 9 * (1 - 1 / 2 ^ 22)) := by ring
    have h10 : ((t - tj : Nat) : Rat) / 10 ^ 9 * (1 - 1 / 2 ^ 22) = ((t - tj : Nat) : Rat) * (1 / 10 ^ 9 * (1 - 1 / 2 ^ 22)) := by ring
    rw [h9] at ht
    rw [h10] at h6
    exact absurd (lt_of_lt_of_le ht (le_trans h8 h6)) (lt_irrefl _)
  obtain ⟨p, hp, hpa⟩ := hi
  obtain ⟨si, c, rr, s1, -, hc2, hc3⟩ := encStream_at h hp
  obtain ⟨t', p', e1, e2, -⟩ := subject_at h hc3
  rw [hp] at e1; cases e1
  obtain ⟨tj', pj', e3, e4, -⟩ := subject_at h h4
  rw [h2] at e3; cases e3
  have hlen := (List.getElem?_eq_some_iff.1 h4).1
  have hsplit := decStream_append env o {} (out.take r) (out.drop r)
  rw [List.take_append_drop] at hsplit
  rw [hsplit]
  have hl : (decStream env o {} (out.take r)).1.length = r := by
    rw [decStream_length, List.length_take]
    omega
  rw [List.getElem?_append_right (by omega), hl]
  refine C70_resync hm {} _ (k := a) hn (i := i - r) (j := j - r) (c := c) (d := d) ?_ (e4.trans h3) (full_flagged (e4.trans h3) hn h5) (by omega) ?_
    (e2.trans hpa)
  · rw [List.getElem?_drop, Nat.add_sub_cancel' hrj]; exact h4
  · rw [List.getElem?_drop, Nat.add_sub_cancel' hri]; exact hc3

theorem no_iff {env : Env} {o : Options} {inp : List Cdis.CdisPdu} (hi : ∀ c ∈ inp, ∀ y, c.body = .iff y → y.full_update_flag = false) {s : DecState}
    (hs : ∀ e, s.iff e = none) : ∀ e, (decStream env o s inp).2.iff e = none := by
  induction inp generalizing s with
  | nil => exact hs
  | cons c l ih =>
    simp only [decStream]
    refine ih (fun c hc => hi c (by simp [hc])) ?_
    intro e
    by_cases hb : ∃ y, c.body = .iff y
    · obtain ⟨y, hy⟩ := hb
      have := hi c (by simp) y hy
      simp only [pduDec, hy, bodyDec, iffDecodeBody, iffDec, this]
      simpa using hs e
    · have : DecAgree (.iff e) (bodyDec env o s c.body).2.2 s := dec_other (by
        cases hcb : c.body with
        | iff y => exact absurd ⟨y, hcb⟩ hb
        | _ => simp [subjectOfC])
      exact Eq.trans this (hs e)

/-- **C70**, restart of the encoder.  An encoder has run through any history and is replaced by a fresh one, which runs through another.  What the
decoder, which goes on, hands over for the second history is, except perhaps markings, what a fresh decoder would hand over: nothing of what it
remembers from before shows. -/
theorem C70_encoder_restart {env : Env} {o : Options} (hm : o.update_mode = .partial) {hist1 hist2 : List (Nat × Dis.Pdu)} {out1 out2 : List Cdis.CdisPdu}
    {s1 s2 : EncState} (h1 : encStream env o {} hist1 = some (out1, s1)) (h2 : encStream env o {} hist2 = some (out2, s2)) :
    ((decStream env o {} (out1 ++ out2)).1.drop hist1.length).map unmarkPdu = (decStream env o {} out2).1.map unmarkPdu := by
  rw [decStream_append]
  have hl : (decStream env o {} out1).1.length = hist1.length := by rw [decStream_length, encStream_length h1]
  rw [← hl, List.drop_left]
  have hni := no_iff (env := env) (o := o) (inp := out1) (s := {}) (fun c hc y hy => by
    obtain ⟨i, hi⟩ := List.mem_iff_getElem?.1 hc
    obtain ⟨t, p, -, -, h⟩ := subject_at h1 hi
    exact h y hy) (fun e => rfl)
  generalize (decStream env o {} out1).2 = s at hni
  refine List.ext_getElem? fun i => ?_
  rw [List.getElem?_map, List.getElem?_map]
  cases hc : out2[i]? with
  | none =>
    have := List.getElem?_eq_none_iff.1 hc
    rw [List.getElem?_eq_none (by rw [decStream_length]; exact this), List.getElem?_eq_none (by rw [decStream_length]; exact this)]
  | some c =>
    cases hk : subjectOfC c.body with
    | none =>
      rw [(decStream_at hc).2, (decStream_at hc).2]
      simp only [Option.map_some, pduDec, (C39_stateless_decoder hk _ (decStream env o {} (out2.take i)).2).1]
    | some k =>
      by_cases hn : NotIff k
      · obtain ⟨t, p, e1, e2, -⟩ := subject_at h2 hc
        have ha : subjectOf p.body = some k := e2.symm.trans hk
        obtain ⟨j, tj, dj, g1, g2, g3, g4⟩ : ∃ j tj d, j ≤ i ∧ AboutAt hist2 k j tj ∧ out2[j]? = some d ∧ isFull d.body = true := by
          obtain ⟨c', hc', hd⟩ := full_decision hm h2 e1 ha
          rw [hc] at hc'; cases hc'
          cases hb : isFull c.body with
          | true => exact ⟨i, t, c, Nat.le_refl _, ⟨p, e1, ha⟩, hc, hb⟩
          | false =>
            obtain ⟨j, tj, g1, ⟨g2, d, g3, g4⟩, -⟩ := hd.1 hb
            exact ⟨j, tj, d, Nat.le_of_lt g1.1, g2, g3, g4⟩
        obtain ⟨pj, f1, f2⟩ := g2
        obtain ⟨tj', pj', f3, f4, -⟩ := subject_at h2 g3
        rw [f1] at f3; cases f3
        exact C70_resync hm s {} hn g3 (f4.trans f2) (full_flagged (f4.trans f2) hn g4) g1 hc hk
      · cases k with
        | iff e =>
          have : ∀ (inp : List Cdis.CdisPdu) (s t : DecState) (i : Nat) (c : Cdis.CdisPdu), inp[i]? = some c → subjectOfC c.body = some (.iff e) →
              DecAgree (.iff e) s t → (decStream env o s inp).1[i]? = (decStream env o t inp).1[i]? := by
            intro inp
            induction inp with
            | nil => intro s t i c hi; simp at hi
            | cons q l ih =>
              intro s t i c hi hc ha
              cases i with
              | zero =>
                simp only [List.getElem?_cons_zero, Option.some.injEq] at hi
                subst hi
                simp only [decStream, List.getElem?_cons_zero, pduDec, (dec_same (env := env) (o := o) hc ha).1]
              | succ i =>
                rw [List.getElem?_cons_succ] at hi
                simp only [decStream, List.getElem?_cons_succ]
                refine ih _ _ i c hi hc ?_
                by_cases hq : subjectOfC q.body = some (.iff e)
                · exact (dec_same hq ha).2.2
                · exact ((dec_other hq).trans ha).trans (DecAgree.symm (dec_other hq))
          rw [this out2 s {} i c hc hk (hni e)]
        | _ => exact absurd trivial hn

/-! ## Where it shows after all, and examples -/

/-- What a decoder that goes on hands over when the encoder is replaced after the first history. -/
def acrossRestart (hist1 hist2 : List (Nat × Dis.Pdu)) : Option (List Dis.Body) :=
  (encStream codecEnv { update_mode := .partial } {} hist1).bind fun r1 =>
    (encStream codecEnv { update_mode := .partial } {} hist2).map fun r2 =>
      (decStream codecEnv { update_mode := .partial } {} (r1.1 ++ r2.1)).1.map (·.body)

/-- **C70**, violated.  The exception of the marking is needed.  The exercise ends, the encoder is restarted, and the same entity id is now an entity
that is called "BBB": its first PDU arrives with that marking, the second one, one second later, with "AAA", that of the entity of the exercise before;
a decoder that had been restarted too hands over "BBB" both times. -/
theorem C70_marking_violated :
    (acrossRestart [(0, tankWith [65, 65, 65] 5)] [(60000000000, tankWith [66, 66, 66] 1), (61000000000, tankWith [66, 66, 66] 1)]).map
      (fun l => l.map fun b => (markingOf b, forceOf b)) = some [([65, 65, 65], 5), ([66, 66, 66], 1), ([65, 65, 65], 1)] ∧
    (throughBoth [(60000000000, tankWith [66, 66, 66] 1), (61000000000, tankWith [66, 66, 66] 1)]).map
      (fun l => l.map fun b => (markingOf b, forceOf b)) = some [([66, 66, 66], 1), ([66, 66, 66], 1)] := by decide +kernel

/-- **C70**: the window of `C70_decoder_restart` is needed.  A restarted decoder hands over the tank of force 5 as one of force 0 until the next full
update.  (IFF is excluded there because the decoder never learns the system id, restarted or not; see `C38_iff_lost`.) -/
theorem C70_window_needed :
    ((encStream codecEnv { update_mode := .partial } {} [(0, tankWith [65] 5), (1000000000, tankWith [65] 5), (30000000000, tankWith [65] 5)]).map fun r =>
      ((decStream codecEnv { update_mode := .partial } {} (r.1.drop 1)).1.map fun p => forceOf p.body)) = some [0, 5] := by decide +kernel

/-- The hypotheses of `C70_decoder_restart` hold for the five Entity State PDUs of `C68_witness`, a restart before the second and the last of them. -/
theorem C70_witness : ∃ out s, encStream codecEnv { update_mode := .partial } {} (sampleHistory (.entityState sample_entityState) 1) = some (out, s) ∧
    ((decStream codecEnv { update_mode := .partial } {} (out.drop 1)).1[4 - 1]?).map unmarkPdu =
      ((decStream codecEnv { update_mode := .partial } {} out).1[4]?).map unmarkPdu ∧ 4 < (decStream codecEnv { update_mode := .partial } {} out).1.length := by
  obtain ⟨h1, h2, out, s, h3, -⟩ := C68_witness
  refine ⟨out, s, h3, C70_decoder_restart (tr := 1000000000) (t := 31000000000) rfl h1 h3 (a := .entityState sample_entityState.entity_id) trivial h2
    (by norm_num) rfl ⟨_, rfl, rfl⟩ (by decide) (by norm_num), ?_⟩
  rw [decStream_length, encStream_length h3]
  decide

end Verif.Props
