import Verif.Props.CodecEmission

/-! # What is sent and received for one entity does not depend on other entities (C39) -/

set_option linter.unusedSimpArgs false

namespace Verif.Props
open Verif.Codec

/-- What a stateful PDU is about: a kind of PDU and an entity (and a radio). -/
inductive Subject where
  | entityState (e : Dis.EntityId)
  | emission (e : Dis.EntityId)
  | designator (e : Dis.EntityId)
  | transmitter (e : Dis.EntityId) (radio : UInt16)
  | iff (e : Dis.EntityId)
  deriving DecidableEq

def subjectOf : Dis.Body → Option Subject
  | .entityState x => some (.entityState x.entity_id)
  | .electromagneticEmission x => some (.emission x.emitting_entity_id)
  | .designator x => some (.designator x.designating_entity_id)
  | .transmitter x => some (.transmitter x.radio_reference_id x.radio_number)
  | .iff x => some (.iff x.emitting_entity_id)
  | _ => none
def subjectOfC : Cdis.CdisBody → Option Subject
  | .entityState x => some (.entityState (eidDec x.entity_id))
  | .electromagneticEmission x => some (.emission (eidDec x.emitting_id))
  | .designator x => some (.designator (eidDec x.designating_entity_id))
  | .transmitter x => some (.transmitter (eidDec x.radio_reference_id) (UInt16.ofNat x.radio_number))
  | .iff x => some (.iff (eidDec x.emitting_entity_id))
  | _ => none

/-! ## Steps -/

/-- Two states of the encoder know the same about a subject. -/
def EncAgree : Subject → EncState → EncState → Prop
  | .entityState e, s, s' => s.es e = s'.es e
  | .emission e, s, s' => s.ee e = s'.ee e
  | .designator e, s, s' => s.designator e = s'.designator e
  | .transmitter e n, s, s' => s.transmitter (e, n) = s'.transmitter (e, n)
  | .iff e, s, s' => s.iff e = s'.iff e
def DecAgree : Subject → DecState → DecState → Prop
  | .entityState e, s, s' => s.es e = s'.es e
  | .emission e, s, s' => s.ee e = s'.ee e
  | .designator e, s, s' => s.designator e = s'.designator e
  | .transmitter e n, s, s' => s.transmitter (e, n) = s'.transmitter (e, n)
  | .iff e, s, s' => s.iff e = s'.iff e

theorem EncAgree.refl (k : Subject) (s : EncState) : EncAgree k s s := by cases k <;> rfl
theorem EncAgree.trans {k : Subject} {a b c : EncState} (h : EncAgree k a b) (h' : EncAgree k b c) : EncAgree k a c := by
  cases k <;> exact Eq.trans h h'
theorem DecAgree.refl (k : Subject) (s : DecState) : DecAgree k s s := by cases k <;> rfl
theorem DecAgree.trans {k : Subject} {a b c : DecState} (h : DecAgree k a b) (h' : DecAgree k b c) : DecAgree k a c := by
  cases k <;> exact Eq.trans h h'

/-- Encoding a PDU about something else leaves what is known about `k` alone. -/
theorem enc_other {env : Env} {o : Options} {now : Nat} {s s' : EncState} {b : Dis.Body} {c : Cdis.CdisBody} {r : StateResult}
    (h : bodyEnc env o now s b = some (c, r, s')) {k : Subject} (hk : subjectOf b ≠ some k) : EncAgree k s' s := by
  cases b with
  | entityState x =>
    simp only [bodyEnc, esEncodeBody, Option.map_eq_some_iff, Prod.mk.injEq] at h
    obtain ⟨q, -, -, -, h4⟩ := h
    rw [← h4]
    split
    · cases k <;> simp_all [EncAgree, Map.set, subjectOf]
      intro hh; exact absurd hh.symm hk
    · exact EncAgree.refl _ _
  | electromagneticEmission x =>
    simp only [bodyEnc, eeEncodeBody, Option.some.injEq, Prod.mk.injEq] at h
    obtain ⟨-, -, h4⟩ := h
    rw [← h4]
    split
    · cases k <;> simp_all [EncAgree, Map.set, subjectOf]
      intro hh; exact absurd hh.symm hk
    · exact EncAgree.refl _ _
  | designator x =>
    simp only [bodyEnc, desEncodeBody, Option.some.injEq, Prod.mk.injEq] at h
    obtain ⟨-, -, h4⟩ := h
    rw [← h4]
    split
    · cases k <;> simp_all [EncAgree, Map.set, subjectOf]
      intro hh; exact absurd hh.symm hk
    · exact EncAgree.refl _ _
  | transmitter x =>
    simp only [bodyEnc, txEncodeBody, Option.some.injEq, Prod.mk.injEq] at h
    obtain ⟨-, -, h4⟩ := h
    rw [← h4]
    split
    · cases k <;> simp_all [EncAgree, Map.set, subjectOf]
      intro hh hh'; exact absurd hh'.symm (hk hh.symm)
    · exact EncAgree.refl _ _
  | iff x =>
    simp only [bodyEnc, iffEncodeBody, Option.some.injEq, Prod.mk.injEq] at h
    obtain ⟨-, -, h4⟩ := h
    rw [← h4]
    split
    · cases k <;> simp_all [EncAgree, Map.set, subjectOf]
      intro hh; exact absurd hh.symm hk
    · exact EncAgree.refl _ _
  | _ =>
    simp only [bodyEnc, Option.some.injEq, Prod.mk.injEq] at h
    rw [← h.2.2]
    exact EncAgree.refl _ _

/-- Encoding a PDU about `k` uses nothing but what is known about `k`. -/
theorem enc_same {env : Env} {o : Options} {now : Nat} {s s' t : EncState} {b : Dis.Body} {c : Cdis.CdisBody} {r : StateResult}
    (h : bodyEnc env o now s b = some (c, r, s')) {k : Subject} (hk : subjectOf b = some k) (ha : EncAgree k s t) :
    ∃ t', bodyEnc env o now t b = some (c, r, t') ∧ EncAgree k s' t' := by
  cases b with
  | entityState x =>
    simp only [subjectOf, Option.some.injEq] at hk
    subst hk
    have ha : s.es x.entity_id = t.es x.entity_id := ha
    simp only [bodyEnc, esEncodeBody, Option.map_eq_some_iff, Prod.mk.injEq] at h ⊢
    obtain ⟨q, h1, h2, h3, h4⟩ := h
    rw [ha] at h1
    refine ⟨_, ⟨q, h1, h2, h3, rfl⟩, ?_⟩
    rw [← h4]
    split <;> simp [EncAgree, Map.set, ha]
  | electromagneticEmission x =>
    simp only [subjectOf, Option.some.injEq] at hk
    subst hk
    have ha : s.ee x.emitting_entity_id = t.ee x.emitting_entity_id := ha
    simp only [bodyEnc, eeEncodeBody, Option.some.injEq, Prod.mk.injEq] at h ⊢
    obtain ⟨h1, h2, h4⟩ := h
    rw [ha] at h1 h2 h4
    refine ⟨_, ⟨h1, h2, rfl⟩, ?_⟩
    rw [← h4]
    split <;> simp [EncAgree, Map.set, ha]
  | designator x =>
    simp only [subjectOf, Option.some.injEq] at hk
    subst hk
    have ha : s.designator x.designating_entity_id = t.designator x.designating_entity_id := ha
    simp only [bodyEnc, desEncodeBody, Option.some.injEq, Prod.mk.injEq] at h ⊢
    obtain ⟨h1, h2, h4⟩ := h
    rw [ha] at h1 h2 h4
    refine ⟨_, ⟨h1, h2, rfl⟩, ?_⟩
    rw [← h4]
    split <;> simp [EncAgree, Map.set, ha]
  | transmitter x =>
    simp only [subjectOf, Option.some.injEq] at hk
    subst hk
    have ha : s.transmitter (x.radio_reference_id, x.radio_number) = t.transmitter (x.radio_reference_id, x.radio_number) := ha
    simp only [bodyEnc, txEncodeBody, Option.some.injEq, Prod.mk.injEq] at h ⊢
    obtain ⟨h1, h2, h4⟩ := h
    rw [ha] at h1 h2 h4
    refine ⟨_, ⟨h1, h2, rfl⟩, ?_⟩
    rw [← h4]
    split <;> simp [EncAgree, Map.set, ha]
  | iff x =>
    simp only [subjectOf, Option.some.injEq] at hk
    subst hk
    have ha : s.iff x.emitting_entity_id = t.iff x.emitting_entity_id := ha
    simp only [bodyEnc, iffEncodeBody, Option.some.injEq, Prod.mk.injEq] at h ⊢
    obtain ⟨h1, h2, h4⟩ := h
    rw [ha] at h1 h2 h4
    refine ⟨_, ⟨h1, h2, rfl⟩, ?_⟩
    rw [← h4]
    split <;> simp [EncAgree, Map.set, ha]
  | _ => simp [subjectOf] at hk

theorem dec_other {env : Env} {o : Options} {s : DecState} {c : Cdis.CdisBody} {k : Subject} (hk : subjectOfC c ≠ some k) :
    DecAgree k (bodyDec env o s c).2.2 s := by
  cases c with
  | entityState x =>
    simp only [bodyDec, esDecodeBody]
    split
    · cases k <;> simp_all [DecAgree, Map.set, subjectOfC]
      intro hh; exact absurd hh.symm hk
    · exact DecAgree.refl _ _
  | electromagneticEmission x =>
    simp only [bodyDec, eeDecodeBody]
    split
    · cases k <;> simp_all [DecAgree, Map.set, subjectOfC]
      intro hh; exact absurd hh.symm hk
    · exact DecAgree.refl _ _
  | designator x =>
    simp only [bodyDec, desDecodeBody]
    split
    · cases k <;> simp_all [DecAgree, Map.set, subjectOfC]
      intro hh; exact absurd hh.symm hk
    · exact DecAgree.refl _ _
  | transmitter x =>
    simp only [bodyDec, txDecodeBody]
    split
    · cases k <;> simp_all [DecAgree, Map.set, subjectOfC]
      intro hh hh'; exact absurd hh'.symm (hk hh.symm)
    · exact DecAgree.refl _ _
  | iff x =>
    simp only [bodyDec, iffDecodeBody]
    split
    · cases k <;> simp_all [DecAgree, Map.set, subjectOfC]
      intro hh; exact absurd hh.symm hk
    · exact DecAgree.refl _ _
  | _ => exact DecAgree.refl _ _

theorem dec_same {env : Env} {o : Options} {s t : DecState} {c : Cdis.CdisBody} {k : Subject} (hk : subjectOfC c = some k)
    (ha : DecAgree k s t) :
    (bodyDec env o s c).1 = (bodyDec env o t c).1 ∧ (bodyDec env o s c).2.1 = (bodyDec env o t c).2.1 ∧
    DecAgree k (bodyDec env o s c).2.2 (bodyDec env o t c).2.2 := by
  cases c with
  | entityState x =>
    simp only [subjectOfC, Option.some.injEq] at hk
    subst hk
    have ha : s.es (eidDec x.entity_id) = t.es (eidDec x.entity_id) := ha
    simp only [bodyDec, esDecodeBody, ha, true_and]
    split <;> simp [DecAgree, Map.set, ha]
  | electromagneticEmission x =>
    simp only [subjectOfC, Option.some.injEq] at hk
    subst hk
    have ha : s.ee (eidDec x.emitting_id) = t.ee (eidDec x.emitting_id) := ha
    simp only [bodyDec, eeDecodeBody, ha, true_and]
    split <;> simp [DecAgree, Map.set, ha]
  | designator x =>
    simp only [subjectOfC, Option.some.injEq] at hk
    subst hk
    have ha : s.designator (eidDec x.designating_entity_id) = t.designator (eidDec x.designating_entity_id) := ha
    simp only [bodyDec, desDecodeBody, ha, true_and]
    split <;> simp [DecAgree, Map.set, ha]
  | transmitter x =>
    simp only [subjectOfC, Option.some.injEq] at hk
    subst hk
    have ha : s.transmitter (eidDec x.radio_reference_id, UInt16.ofNat x.radio_number) =
      t.transmitter (eidDec x.radio_reference_id, UInt16.ofNat x.radio_number) := ha
    simp only [bodyDec, txDecodeBody, ha, true_and]
    split <;> simp [DecAgree, Map.set, ha]
  | iff x =>
    simp only [subjectOfC, Option.some.injEq] at hk
    subst hk
    have ha : s.iff (eidDec x.emitting_entity_id) = t.iff (eidDec x.emitting_entity_id) := ha
    simp only [bodyDec, iffDecodeBody, ha, true_and]
    split <;> simp [DecAgree, Map.set, ha]
  | _ => simp [subjectOfC] at hk

/-! ## Histories -/

/-- **C39**, encoder.  Leave out of a history everything that is not about `k`: what is sent about `k` stays the same. -/
theorem C39_encoder {env : Env} {o : Options} (k : Subject) {hist : List (Nat × Dis.Pdu)} {s s' t : EncState}
    {out : List Cdis.CdisPdu} (h : encStream env o s hist = some (out, s')) (ha : EncAgree k s t) :
    ∃ t', encStream env o t (hist.filter fun e => decide (subjectOf e.2.body = some k)) =
      some (((hist.zip out).filter fun e => decide (subjectOf e.1.2.body = some k)).map (·.2), t') := by
  induction hist generalizing s t out with
  | nil =>
    simp [encStream] at h
    exact ⟨t, by simp [encStream, h.1]⟩
  | cons e rest ih =>
    obtain ⟨now, p⟩ := e
    obtain ⟨c, r, s1, out1, h1, h2, rfl⟩ := encStream_cons h
    obtain ⟨hb, hc⟩ := pduEnc_some h1
    by_cases hk : subjectOf p.body = some k
    · obtain ⟨t1, g1, g2⟩ := enc_same hb hk ha
      obtain ⟨t2, g3⟩ := ih h2 g2
      refine ⟨t2, ?_⟩
      have hp : pduEnc env o now t p = some (c, r, t1) := by
        unfold pduEnc
        rw [g1, Option.map_some, ← hc]
      simp only [List.zip_cons_cons, List.filter_cons, hk, decide_true, if_true, List.map_cons]
      rw [encStream, hp]
      simp [g3]
    · obtain ⟨t2, g3⟩ := ih h2 ((enc_other hb hk).trans ha)
      refine ⟨t2, ?_⟩
      simp only [List.zip_cons_cons, List.filter_cons, hk, decide_false, Bool.false_eq_true, if_false]
      exact g3

/-- **C39**, decoder. -/
theorem C39_decoder {env : Env} {o : Options} (k : Subject) {inp : List Cdis.CdisPdu} {s t : DecState} (ha : DecAgree k s t) :
    (decStream env o t (inp.filter fun c => decide (subjectOfC c.body = some k))).1 =
      ((inp.zip (decStream env o s inp).1).filter fun e => decide (subjectOfC e.1.body = some k)).map (·.2) := by
  induction inp generalizing s t with
  | nil => simp [decStream]
  | cons c rest ih =>
    by_cases hk : subjectOfC c.body = some k
    · obtain ⟨g1, g2, g3⟩ := dec_same (env := env) (o := o) hk ha
      simp only [decStream, List.zip_cons_cons, List.filter_cons, hk, decide_true, if_true, List.map_cons]
      have hp : (pduDec env o t c).1 = (pduDec env o s c).1 := by
        unfold pduDec
        dsimp only
        rw [g1]
      rw [hp, ih (s := (pduDec env o s c).2.2)]
      exact g3
    · simp only [decStream, List.zip_cons_cons, List.filter_cons, hk, decide_false, Bool.false_eq_true, if_false]
      exact ih ((dec_other hk).trans ha)

/-- **C39**, PDUs that are not about one of these subjects: their encoding uses no state and changes none. -/
theorem C39_stateless {env : Env} {o : Options} {b : Dis.Body} (hb : subjectOf b = none) (now now' : Nat) (s s' : EncState) :
    (bodyEnc env o now s b).map (·.1) = (bodyEnc env o now' s' b).map (·.1) ∧ (bodyEnc env o now s b).map (·.2.2) = some s := by
  cases b with
  | entityState x => simp [subjectOf] at hb
  | electromagneticEmission x => simp [subjectOf] at hb
  | designator x => simp [subjectOf] at hb
  | transmitter x => simp [subjectOf] at hb
  | iff x => simp [subjectOf] at hb
  | _ => exact ⟨rfl, rfl⟩
theorem C39_stateless_decoder {env : Env} {o : Options} {c : Cdis.CdisBody} (hc : subjectOfC c = none) (s s' : DecState) :
    (bodyDec env o s c).1 = (bodyDec env o s' c).1 ∧ (bodyDec env o s c).2.2 = s := by
  cases c with
  | entityState x => simp [subjectOfC] at hc
  | electromagneticEmission x => simp [subjectOfC] at hc
  | designator x => simp [subjectOfC] at hc
  | transmitter x => simp [subjectOfC] at hc
  | iff x => simp [subjectOfC] at hc
  | _ => exact ⟨rfl, rfl⟩

/-- Two entities, updates of the second one between those of the first. -/
example : ((encStream codecEnv { update_mode := .partial } {}
      [(0, tankWith [65] 1), (0, ⟨sampleFor 24, .designator sample_designator⟩), (1, tankWith [65] 1)]).map
      fun r => r.1.map fullFlag) = some [true, true, false] ∧
    subjectOf (tankWith [65] 1).body = some (.entityState ⟨⟨2, 3⟩, 4⟩) ∧
    subjectOf (.designator sample_designator) = some (.designator ⟨⟨2, 3⟩, 4⟩) := by decide +kernel

end Verif.Props
