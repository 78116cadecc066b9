import Verif.Props.Restart
import Verif.Props.Lossy
import Verif.Props.Through8

/-!
C77: several exercises on one network.  A DIS PDU names its exercise in the header; entity numbers are unique within an exercise only.
The C-DIS codec keeps its history by entity number (entity_state/codec.rs:23 and the like), whatever the exercise.
-/
namespace Verif.Props
open Verif.Codec

/-- What a pair of gateways (encoder with `o`, decoder with `o'`, both just started) hands over for a history. -/
def handedOver (env : Env) (o o' : Options) (hist : List (Nat × Dis.Pdu)) : Option (List Dis.Pdu) :=
  (encStream env o {} hist).map fun r => (decStream env o' {} r.1).1

/-- It is of exercise `e`. -/
def ofExercise (e : UInt8) (p : Dis.Pdu) : Bool := p.header.exercise_id == e

/-- No subject (entity and kind of PDU, or radio) of exercise `e` is a subject of another exercise. -/
def Apart (e : UInt8) (hist : List (Nat × Dis.Pdu)) : Prop :=
  ∀ x ∈ hist, ∀ y ∈ hist, x.2.header.exercise_id = e → y.2.header.exercise_id ≠ e → subjectOf x.2.body = none ∨ subjectOf x.2.body ≠ subjectOf y.2.body

theorem EncAgree.symm {k : Subject} {a b : EncState} (h : EncAgree k a b) : EncAgree k b a := by cases k <;> exact Eq.symm h

theorem pair_alone {env : Env} {o o' : Options} (P : Dis.Pdu → Bool) (K : Subject → Prop) : ∀ {hist : List (Nat × Dis.Pdu)} {s t s' : EncState}
    {out : List Cdis.CdisPdu} {d u : DecState}, (∀ e ∈ hist, ∀ k, subjectOf e.2.body = some k → (P e.2 = true ↔ K k)) →
    (∀ k, K k → EncAgree k s t) → (∀ k, K k → DecAgree k d u) → encStream env o s hist = some (out, s') →
    ∃ out' t', encStream env o t (hist.filter fun e => P e.2) = some (out', t') ∧
      (decStream env o' u out').1 = ((hist.zip (decStream env o' d out).1).filter fun e => P e.1.2).map (·.2)
  | [], s, t, s', out, d, u, _, _, _, h => by
    simp [encStream] at h
    exact ⟨[], t, rfl, by simp [decStream]⟩
  | (now, p) :: rest, s, t, s', out, d, u, hK, ha, hb, h => by
    obtain ⟨c, r, s1, out1, h1, h2, rfl⟩ := encStream_cons h
    obtain ⟨hbe, hc⟩ := pduEnc_some h1
    have hr : ∀ e ∈ rest, ∀ k, subjectOf e.2.body = some k → (P e.2 = true ↔ K k) := fun e he => hK e (List.mem_cons_of_mem _ he)
    have h0 := hK (now, p) (List.mem_cons_self ..)
    have hsub := (subject_kept hbe).1
    by_cases hp : P p = true
    · have step : ∃ r' t1, pduEnc env o now t p = some (c, r', t1) ∧ ∀ k, K k → EncAgree k s1 t1 := by
        cases hk : subjectOf p.body with
        | some k =>
          obtain ⟨t1, g1, g2⟩ := enc_same hbe hk (ha k ((h0 k hk).1 hp))
          refine ⟨r, t1, by unfold pduEnc; rw [g1, Option.map_some, ← hc], fun k' hk' => ?_⟩
          by_cases e : k' = k
          · rw [e]; exact g2
          · have ne : subjectOf p.body ≠ some k' := by rw [hk]; intro q; cases q; exact e rfl
            exact ((enc_other hbe ne).trans (ha k' hk')).trans (enc_other g1 ne).symm
        | none =>
          obtain ⟨g1, g2⟩ := C39_stateless (env := env) (o := o) hk now now s t
          obtain ⟨-, g3⟩ := C39_stateless (env := env) (o := o) hk now now t s
          rw [hbe] at g1 g2
          cases g4 : bodyEnc env o now t p.body with
          | none => rw [g4] at g1; cases g1
          | some w =>
            obtain ⟨c2, r2, t2⟩ := w
            rw [g4] at g1 g3
            cases g1
            cases g2
            cases g3
            exact ⟨r2, _, by unfold pduEnc; rw [g4, Option.map_some, ← hc], ha⟩
      obtain ⟨r', t1, e1, a1⟩ := step
      have dstep : (pduDec env o' u c).1 = (pduDec env o' d c).1 ∧ ∀ k, K k → DecAgree k (pduDec env o' d c).2.2 (pduDec env o' u c).2.2 := by
        have red : ∀ v, (pduDec env o' v c).2.2 = (bodyDec env o' v c.body).2.2 := fun _ => rfl
        have red1 : (bodyDec env o' u c.body).1 = (bodyDec env o' d c.body).1 → (pduDec env o' u c).1 = (pduDec env o' d c).1 := by
          intro q
          unfold pduDec
          dsimp only
          rw [q]
        cases hk : subjectOf p.body with
        | some k =>
          have hkc : subjectOfC c.body = some k := hsub.trans hk
          obtain ⟨g1, -, g3⟩ := dec_same (env := env) (o := o') hkc (hb k ((h0 k hk).1 hp))
          refine ⟨red1 g1.symm, fun k' hk' => ?_⟩
          rw [red, red]
          by_cases e : k' = k
          · rw [e]; exact g3
          · have ne : subjectOfC c.body ≠ some k' := by rw [hkc]; intro q; cases q; exact e rfl
            exact ((dec_other ne).trans (hb k' hk')).trans (dec_other ne).symm
        | none =>
          have hkc : subjectOfC c.body = none := hsub.trans hk
          have g := fun v w => C39_stateless_decoder (env := env) (o := o') hkc v w
          refine ⟨red1 (g u d).1, fun k' hk' => ?_⟩
          rw [red, red, (g d u).2, (g u d).2]
          exact hb k' hk'
      obtain ⟨out2, t2, i1, i2⟩ := pair_alone (d := (pduDec env o' d c).2.2) (u := (pduDec env o' u c).2.2) P K hr a1 dstep.2 h2
      refine ⟨c :: out2, t2, ?_, ?_⟩
      · simp only [List.filter_cons, hp, if_true, encStream, e1, Option.bind_some, i1, Option.map_some]
      · rw [decStream, decStream]
        simp only [List.zip_cons_cons, List.filter_cons, hp, if_true, List.map_cons]
        rw [← i2, dstep.1]
    · have hp' : P p = false := by simpa using hp
      have ne : ∀ k, K k → subjectOf p.body ≠ some k := fun k hk q => hp ((h0 k q).2 hk)
      obtain ⟨out2, t2, i1, i2⟩ := pair_alone (d := (pduDec env o' d c).2.2) (u := u) P K hr
        (fun k hk => (enc_other hbe (ne k hk)).trans (ha k hk))
        (fun k hk => (dec_other (by rw [hsub]; exact ne k hk)).trans (hb k hk)) h2
      refine ⟨out2, t2, ?_, ?_⟩
      · simp only [List.filter_cons, hp', Bool.false_eq_true, if_false]
        exact i1
      · rw [decStream]
        simp only [List.zip_cons_cons, List.filter_cons, hp', Bool.false_eq_true, if_false]
        exact i2

/-- **C77.** If no entity number is used in two exercises, a pair of gateways in any modes hands over for each exercise what it hands over if the
others are not there. -/
theorem C77_apart {env : Env} {o o' : Options} (e : UInt8) {hist : List (Nat × Dis.Pdu)} (h : Apart e hist) {qs : List Dis.Pdu}
    (hq : handedOver env o o' hist = some qs) :
    handedOver env o o' (hist.filter fun x => ofExercise e x.2) = some (((hist.zip qs).filter fun x => ofExercise e x.1.2).map (·.2)) := by
  obtain ⟨⟨out, s'⟩, h1, rfl⟩ := Option.map_eq_some_iff.1 hq
  obtain ⟨out', t', i1, i2⟩ := pair_alone (o' := o') (ofExercise e)
    (fun k => ∃ x ∈ hist, x.2.header.exercise_id = e ∧ subjectOf x.2.body = some k) (t := {}) (d := {}) (u := {})
    (fun x hx k hk => ⟨fun hp => ⟨x, hx, by simpa [ofExercise] using hp, hk⟩, fun ⟨y, hy, he, hk'⟩ => by
      by_cases q : x.2.header.exercise_id = e
      · simpa [ofExercise] using q
      · rcases h y hy x hx he q with n | n
        · rw [n] at hk'; cases hk'
        · exact absurd (hk'.trans hk.symm) n⟩)
    (fun k _ => EncAgree.refl k _) (fun k _ => DecAgree.refl k _) h1
  unfold handedOver
  rw [i1, Option.map_some, i2]

/-- **C77.** In full-update mode (of the encoder) that holds whatever numbers are used. -/
theorem C77_full {env : Env} {o o' : Options} (hm : o.update_mode = .full) (e : UInt8) {hist : List (Nat × Dis.Pdu)} {qs : List Dis.Pdu}
    (hq : handedOver env o o' hist = some qs) :
    handedOver env o o' (hist.filter fun x => ofExercise e x.2) = some (((hist.zip qs).filter fun x => ofExercise e x.1.2).map (·.2)) := by
  obtain ⟨⟨out, s'⟩, h1, rfl⟩ := Option.map_eq_some_iff.1 hq
  have enc : ∀ (hist : List (Nat × Dis.Pdu)) (s t s' : EncState) (out : List Cdis.CdisPdu), encStream env o s hist = some (out, s') →
      ∃ out' t', encStream env o t (hist.filter fun x => ofExercise e x.2) = some (out', t') := by
    intro hist
    induction hist with
    | nil => intro s t s' out _; exact ⟨[], t, rfl⟩
    | cons x rest ih =>
      intro s t s' out h
      obtain ⟨now, p⟩ := x
      obtain ⟨c, r, s1, out1, h1, h2, rfl⟩ := encStream_cons h
      by_cases hp : ofExercise e p = true
      · simp only [List.filter_cons, hp, if_true]
        have := C40_encode (env := env) hm now now s t p
        rw [h1] at this
        cases g : pduEnc env o now t p with
        | none => rw [g] at this; cases this
        | some w =>
          obtain ⟨out', t', i⟩ := ih s1 w.2.2 s' out1 h2
          exact ⟨w.1 :: out', t', by simp only [encStream, g, Option.bind_some, i, Option.map_some]⟩
      · simp only [List.filter_cons, show ofExercise e p = false by simpa using hp, Bool.false_eq_true, if_false]
        exact ih s1 t s' out1 h2
  obtain ⟨out', t', h2⟩ := enc hist {} {} s' out h1
  unfold handedOver
  rw [h2, Option.map_some]
  have e1 := C40_full_mode_end_to_end hm o' h1 {}
  have e2 := C40_full_mode_end_to_end hm o' h2 {}
  congr 1
  have inj : ∀ {l l' : List Dis.Pdu}, l.map some = l'.map some → l = l' := fun h => (List.map_inj_right fun _ _ q => Option.some.inj q).1 h
  apply inj
  rw [e2]
  clear e2 h2 h1 hq
  generalize (decStream env o' {} out).1 = qs at e1 ⊢
  clear enc
  induction hist generalizing qs with
  | nil => rfl
  | cons x rest ih =>
    cases qs with
    | nil => cases e1
    | cons q qs =>
      rw [List.map_cons, List.map_cons, List.cons.injEq] at e1
      rw [List.zip_cons_cons]
      by_cases hp : ofExercise e x.2 = true
      · simp only [List.filter_cons, hp, if_true, List.map_cons]
        rw [← e1.1, ih qs e1.2]
      · simp only [List.filter_cons, show ofExercise e x.2 = false by simpa using hp, Bool.false_eq_true, if_false]
        exact ih qs e1.2


/-! ### The same number in two exercises -/

/-- An Entity State PDU that C-DIS can carry. -/
structure EntityPdu (env : Env) (p : Dis.Pdu) (x : Dis.EntityState) : Prop where
  body : p.body = .entityState x
  type : p.header.pdu_type = 1
  status : (p.header.pdu_status.getD {}).Wf p.header.pdu_type
  fits : EntityFits env x

theorem EntityPdu.sendable {env : Env} {o : Options} {p : Dis.Pdu} {x : Dis.EntityState} (h : EntityPdu env p x) : Sendable env o p :=
  .inr ⟨h.status, h.type, x, h.body, h.fits⟩

theorem entity_step {env : Env} {o : Options} {now : Nat} {s s' : EncState} {p : Dis.Pdu} {x : Dis.EntityState} {c : Cdis.CdisPdu} {r : StateResult}
    (hx : p.body = .entityState x) (hm : o.update_mode = .partial) (h : pduEnc env o now s p = some (c, r, s')) :
    (Datagram.full (p, c) = !((s.es x.entity_id).any fun hb => !timedOut (esHeartbeat o x.entity_type) o.mplier now hb)) ∧
      (Datagram.full (p, c) = true → s'.es x.entity_id = some now) := by
  obtain ⟨hb, -⟩ := pduEnc_some h
  rw [hx] at hb
  simp only [bodyEnc, esEncodeBody, Option.map_eq_some_iff] at hb
  obtain ⟨q, hq, hb⟩ := hb
  simp only [Prod.mk.injEq] at hb
  obtain ⟨b1, b2, b3⟩ := hb
  unfold Datagram.full
  simp only [← b1]
  unfold esEnc at hq
  dsimp only at hq
  simp only [hm, true_and] at hq
  split at hq
  · rename_i hp
    cases hq
    exact ⟨by simp only [hp, Bool.not_true], nofun⟩
  · rename_i hp
    obtain ⟨m, -, hq⟩ := Option.map_eq_some_iff.1 hq
    cases hq
    refine ⟨by simpa using hp, fun _ => ?_⟩
    rw [← b3]
    simp [Map.set]

/-- **C77 violated.** Two exercises use the same number, each for an entity of its own. The second one speaks within the heartbeat of the first:
it is handed over, in its own exercise, with the force, type, location, orientation, appearance and name of the entity in the other exercise (so too
with the capabilities of that type). Without the first it is handed over as it is. -/
theorem C77_mixed_violated {env : Env} {o : Options} (hm : o.update_mode = .partial) {p q : Dis.Pdu} {x y : Dis.EntityState} (hp : EntityPdu env p x)
    (hq : EntityPdu env q y) (hid : y.entity_id = x.entity_id) {t t' : Nat} (ht : timedOut (esHeartbeat o y.entity_type) o.mplier t' t = false) :
    (∃ out s', encStream env o {} [(t, p), (t', q)] = some (out, s') ∧
      receive env o {} (out.map fun c => packBits c.ser) = [received p.header (.entityState (arrivalES env o x)),
        received q.header (.entityState { arrivalES env o y with
          force_id := x.force_id, entity_type := x.entity_type, entity_location := worldWireQ env x.entity_location,
          entity_orientation := orientQ x.entity_orientation, entity_appearance := x.entity_appearance,
          entity_marking := { x.entity_marking with marking_character_set := 1 },
          entity_capabilities := Dis.EntityCapabilities.fromBytes env.toEnv
            (if o.optimize_mode = .completeness then y.entity_capabilities.raw else 0) x.entity_type })]) ∧
    (∃ out s', encStream env o {} [(t', q)] = some (out, s') ∧
      receive env o {} (out.map fun c => packBits c.ser) = [received q.header (.entityState (arrivalES env o y))]) := by
  constructor
  · obtain ⟨out, s', h, hl, hn⟩ := C61_network hm (sent := [(t, p), (t', q)]) (env := env) (by
      intro e he
      simp only [List.mem_cons, List.not_mem_nil, or_false] at he
      rcases he with rfl | rfl
      · exact hp.sendable
      · exact hq.sendable)
    obtain ⟨c, r, s1, out1, h1, h2, rfl⟩ := encStream_cons h
    obtain ⟨d, r', s2, out2, h3, h4, rfl⟩ := encStream_cons h2
    simp only [encStream, Option.some.injEq, Prod.mk.injEq] at h4
    obtain ⟨rfl, rfl⟩ := h4
    obtain ⟨f1, f2⟩ := entity_step hp.body hm h1
    obtain ⟨g1, -⟩ := entity_step hq.body hm h3
    have f : Datagram.full (p, c) = true := f1
    rw [hid, f2 f] at g1
    have g : Datagram.full (q, d) = false := by
      rw [g1]
      show (!(!timedOut (esHeartbeat o y.entity_type) o.mplier t' t)) = false
      rw [ht]
      rfl
    refine ⟨_, _, h, ?_⟩
    have := hn [(p, c), (q, d)] (fun z hz => hz)
    rw [show [c, d].map (fun c => packBits c.ser) = [(p, c), (q, d)].map (fun g => packBits g.2.ser) from rfl, this]
    have hF : fullUpdates y.entity_id [(p, c)] = [x] := by
      unfold fullUpdates
      simp only [List.filterMap_cons, hp.body, f, hid, true_and, if_true, List.filterMap_nil]
    simp only [List.mapIdx_cons, List.mapIdx_nil, List.take_zero, Nat.zero_add, List.take_succ_cons]
    unfold shown
    simp only [hp.body, hq.body, f, g, hF, if_true, Bool.false_eq_true, if_false]
    rfl
  · obtain ⟨out, s', h, hl, hn⟩ := C61_network hm (sent := [(t', q)]) (env := env) (by
      intro e he
      simp only [List.mem_cons, List.not_mem_nil, or_false] at he
      rw [he]
      exact hq.sendable)
    obtain ⟨c, r, s1, out1, h1, h2, rfl⟩ := encStream_cons h
    simp only [encStream, Option.some.injEq, Prod.mk.injEq] at h2
    obtain ⟨rfl, rfl⟩ := h2
    obtain ⟨f1, -⟩ := entity_step hq.body hm h1
    have f : Datagram.full (q, c) = true := f1
    refine ⟨_, _, h, ?_⟩
    have := hn [(q, c)] (fun z hz => hz)
    rw [show [c].map (fun c => packBits c.ser) = [(q, c)].map (fun g => packBits g.2.ser) from rfl, this]
    simp only [List.mapIdx_cons, List.mapIdx_nil, List.take_zero]
    unfold shown
    simp only [hq.body, f, if_true]

/-! ### Witnesses -/

/-- An aircraft of force 2 in exercise 9 with the number of the tank (of force 5) in exercise 1. -/
def stranger : Dis.EntityState := { sent_entity with entity_type := ⟨1, 2, 225, 1, 1, 3, 0⟩, force_id := 2, entity_appearance := ⟨.airPlatform, 7⟩,
                                                     entity_capabilities := ⟨.airPlatform, 0⟩ }
theorem stranger_fits : EntityFits codecEnv stranger :=
  { sent_entity_fits with wf := by decide +kernel, type := by unfold TypeFits; decide +kernel }
def inNine (t : UInt8) : Dis.PduHeader := { sampleFor t with exercise_id := 9 }

/-- **C77**, the aircraft of exercise 9 is handed over as a tank of force 5; in full-update mode, or with a number of its own, as it is. -/
theorem C77_witness : ∃ out s' a b, encStream codecEnv { update_mode := .partial } {}
      [(0, ⟨sampleFor 1, .entityState sent_entity⟩), (1, ⟨inNine 1, .entityState stranger⟩)] = some (out, s') ∧
    receive codecEnv { update_mode := .partial } {} (out.map fun c => packBits c.ser) = [a, b] ∧ b.header.exercise_id = 9 ∧
    (∃ z, b.body = .entityState z ∧ z.force_id = 5 ∧ z.entity_type = ⟨1, 1, 225, 1, 1, 3, 0⟩ ∧ z.entity_appearance = sent_entity.entity_appearance) := by
  obtain ⟨⟨out, s', h1, h2⟩, -⟩ := C77_mixed_violated (env := codecEnv) (o := { update_mode := .partial }) rfl
    (p := ⟨sampleFor 1, .entityState sent_entity⟩) (q := ⟨inNine 1, .entityState stranger⟩)
    ⟨rfl, rfl, C02_read_wf 1 0x02, sent_entity_fits⟩ ⟨rfl, rfl, C02_read_wf 1 0x02, stranger_fits⟩ rfl (t := 0) (t' := 1) (by decide +kernel)
  exact ⟨out, s', _, _, h1, h2, rfl, _, rfl, rfl, rfl, rfl⟩

example : Apart 1 [(0, ⟨sampleFor 1, .entityState sent_entity⟩), (1, ⟨inNine 1, .entityState { stranger with entity_id := ⟨⟨2, 3⟩, 5⟩ }⟩)] := by
  unfold Apart
  decide +kernel
example : ∃ qs, handedOver codecEnv {} { update_mode := .partial } [(0, ⟨sampleFor 1, .entityState sent_entity⟩), (1, ⟨inNine 1, .entityState stranger⟩)] =
    some qs := Option.isSome_iff_exists.1 (by decide +kernel)

end Verif.Props
