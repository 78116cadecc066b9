import Verif.Props.CodecStateless

/-! # The encoder and the decoder together in partial-update mode (C38) -/

set_option linter.unusedSimpArgs false

namespace Verif.Props
open Verif.Codec

/-- Where the decoder is, at one position of a pipeline. -/
theorem pipeline_at' {env : Env} {o o' : Options} {hist : List (Nat × Dis.Pdu)} {s s' : EncState} {out : List Cdis.CdisPdu}
    {d d' : DecState} {dec : List Dis.Pdu} (h : encStream env o s hist = some (out, s')) (hd : decStream env o' d out = (dec, d'))
    {m : Nat} {t : Nat} {p : Dis.Pdu} (hi : hist[m]? = some (t, p)) :
    ∃ c si r s1, out[m]? = some c ∧ bodyEnc env o t si p.body = some (c.body, r, s1) ∧
      dec[m]? = some (pduDec env o' (decStream env o' d (out.take m)).2 c).1 := by
  obtain ⟨si, c, r, s1, h1, h2, h3⟩ := encStream_at h hi
  have h4 := (decStream_at (env := env) (o := o') (s := d) h3).2
  rw [hd] at h4
  exact ⟨c, si, r, s1, h3, (pduEnc_some h2).1, h4⟩

/-! ## Entity state -/

theorem es_bridge {env : Env} {o o' : Options} (e : Dis.EntityId) (now : Nat) (s : EncState) (b : Dis.Body) (c : Cdis.CdisBody)
    (r : StateResult) (s' : EncState) (d : DecState) (h : bodyEnc env o now s b = some (c, r, s')) :
    EsFullSent e b c ↔ EsFullGot e c (bodyDec env o' d c).1 := by
  have key : ∀ x y, b = .entityState x → c = .entityState y → eidDec y.entity_id = x.entity_id := by
    rintro x y rfl rfl
    simp only [bodyEnc, esEncodeBody, Option.map_eq_some_iff, Prod.mk.injEq, Cdis.CdisBody.entityState.injEq] at h
    obtain ⟨⟨y', r'⟩, h1, h2, -⟩ := h
    dsimp only at h2
    subst h2
    unfold esEnc at h1
    dsimp only at h1
    split at h1
    · simp only [Option.some.injEq, Prod.mk.injEq] at h1
      rw [← h1.1]
      exact eid_rt _
    · obtain ⟨m, h5, h6⟩ := Option.map_eq_some_iff.1 h1
      simp only [Prod.mk.injEq] at h6
      rw [← h6.1]
      exact eid_rt _
  constructor
  · rintro ⟨x, y, rfl, rfl, h3, h4⟩
    exact ⟨y, _, rfl, rfl, by rw [key x y rfl rfl, h3], h4⟩
  · rintro ⟨y, x', rfl, h2, h3, h4⟩
    cases b with
    | entityState x => exact ⟨x, y, rfl, rfl, by rw [← key x y rfl rfl, h3], h4⟩
    | _ => simp [bodyEnc, eeEncodeBody, desEncodeBody, txEncodeBody, iffEncodeBody] at h

/-- The entity state that a receiver of partial updates is meant to know: everything that changes from `x`, the rest from the
entity states of the last full update and, for the marking, `xk`. -/
def esMerge (x xj xk : Dis.EntityState) : Dis.EntityState :=
  { x with force_id := xj.force_id, entity_type := xj.entity_type, entity_location := xj.entity_location,
           entity_orientation := xj.entity_orientation, entity_appearance := xj.entity_appearance,
           entity_marking := xk.entity_marking }

theorem es_merge {env : Env} {o : Options} (hm : o.update_mode = .partial) {x xj xk zj zk : Dis.EntityState}
    (hj : oneShot env o (.entityState xj) = some (.entityState zj)) (hk : oneShot env o (.entityState xk) = some (.entityState zk))
    {t : Nat} {st : Option Nat} {y : Cdis.EntityState} {r : StateResult} (hy : esEnc env o t st x = some (y, r))
    (hf : y.full_update_flag = false) {sd : EsState} (hsd : storedFields sd = esFields zj) (hmk : sd.entity_marking = zk.entity_marking) :
    oneShot env o (.entityState (esMerge x xj xk)) = some (.entityState (esDec env o (some sd) y).1) := by
  unfold oneShot at hj hk ⊢
  simp only [bodyEnc, esEncodeBody, esEnc, reduceCtorEq, false_and, if_false, Option.map_map] at hj hk ⊢
  obtain ⟨mj, a1, a2⟩ := Option.map_eq_some_iff.1 hj
  obtain ⟨mk, b1, b2⟩ := Option.map_eq_some_iff.1 hk
  have hmm : Cdis.Marking.new (markingChars (esMerge x xj xk).entity_marking.marking_string) = some mk := b1
  rw [hmm, Option.map_some]
  simp only [Function.comp, bodyDec, esDecodeBody, Dis.Body.entityState.injEq] at a2 b2
  subst a2 b2
  simp only [storedFields, esFields, EsFields.mk.injEq] at hsd
  obtain ⟨f1, f2, f3, f4, f5⟩ := hsd
  simp only [Function.comp, bodyDec, esDecodeBody, Option.some.injEq, Dis.Body.entityState.injEq]
  unfold esEnc at hy
  dsimp only at hy
  split at hy
  · simp only [Option.some.injEq, Prod.mk.injEq] at hy
    rw [← hy.1]
    unfold esDec
    simp only [hm, and_self, if_true, Option.map_none, Option.getD_none, Option.getD_some, f1, f2, f3, f4, f5, hmk]
    simp only [esDec, esMerge, Option.map_some, Option.getD_some]
    rfl
  · obtain ⟨m, h5, h6⟩ := Option.map_eq_some_iff.1 hy
    simp only [Prod.mk.injEq] at h6
    rw [← h6.1] at hf
    simp at hf

/-- Encoder and decoder in partial-update mode, every history and every clock: the decoded entity state is the one-shot image
of the one put in if a full update was sent; otherwise a full update of the entity went before, the last one within the
heartbeat period, and the decoded entity state is the one-shot image of the current one with force, type, location,
orientation and appearance as of that last full update, and the marking as of the *first* full update. -/
theorem C38_end_to_end_entity_state {env : Env} {o : Options} (hm : o.update_mode = .partial) {hist : List (Nat × Dis.Pdu)}
    {s' : EncState} {out : List Cdis.CdisPdu} {d' : DecState} {dec : List Dis.Pdu} (h : encStream env o {} hist = some (out, s'))
    (hd : decStream env o {} out = (dec, d')) {i t p x} (hi : hist[i]? = some (t, p)) (hx : p.body = .entityState x) :
    ∃ q, dec[i]? = some q ∧
      (EncAt (EsFullSent x.entity_id) hist out i ∧ oneShot env o p.body = some q.body ∨
       ∃ j tj pj xj k tk pk xk, LastBefore (EncAt (EsFullSent x.entity_id) hist out) i j ∧
        hist[j]? = some (tj, pj) ∧ pj.body = .entityState xj ∧ timedOut (esHeartbeat o x.entity_type) o.mplier t tj = false ∧
        FirstBefore (EncAt (EsFullSent x.entity_id) hist out) i k ∧ hist[k]? = some (tk, pk) ∧ pk.body = .entityState xk ∧
        oneShot env o (.entityState (esMerge x xj xk)) = some q.body) := by
  obtain ⟨c, y, h1, h2, h3, -⟩ := C37_entity_state hm h hi hx
  obtain ⟨c', si, r, s1, e1, e2, e3⟩ := pipeline_at' h hd hi
  rw [h1] at e1
  cases e1
  refine ⟨_, e3, ?_⟩
  have hb : ∀ m, EncAt (EsFullSent x.entity_id) hist out m ↔ DecAt (EsFullGot x.entity_id) out dec m :=
    enc_dec_at (fun now s b c r s' d hh => es_bridge _ now s b c r s' d hh) h hd
  cases hf : y.full_update_flag with
  | true =>
    left
    refine ⟨⟨t, p, c, hi, h1, x, y, hx, h2, rfl, hf⟩, ?_⟩
    obtain ⟨t', p', q, a1, a2, a3⟩ := C38_self_contained h hd h1 (by rw [h2]; exact hf)
    rw [hi] at a1
    cases a1
    rw [e3] at a2
    cases a2
    exact a3
  | false =>
    right
    obtain ⟨j, tj, pj, b1, b2, b3⟩ := h3.1 hf
    have e2' := e2
    rw [hx, h2] at e2'
    simp only [bodyEnc, esEncodeBody, Option.map_eq_some_iff, Prod.mk.injEq, Cdis.CdisBody.entityState.injEq] at e2'
    obtain ⟨⟨y', r'⟩, g1, g2, -⟩ := e2'
    dsimp only at g2
    subst g2
    have hid : eidDec y'.entity_id = x.entity_id := by
      unfold esEnc at g1
      dsimp only at g1
      split at g1
      · simp only [Option.some.injEq, Prod.mk.injEq] at g1
        rw [← g1.1]
        exact eid_rt _
      · obtain ⟨m, h5, h6⟩ := Option.map_eq_some_iff.1 g1
        simp only [Prod.mk.injEq] at h6
        rw [← h6.1]
        exact eid_rt _
    obtain ⟨sd, hsd, -, hl⟩ := dec_memory_at (fun s => (s.es x.entity_id).map storedFields) (EsFullGot x.entity_id)
      bodyEsFields (fun s c => es_dec_step hm _ s c) rfl hd h1
    obtain ⟨sd', hsd', -, hl'⟩ := dec_first_at (fun s => (s.es x.entity_id).map EsState.entity_marking)
      (EsFullGot x.entity_id) bodyMarking (fun s c => es_dec_marking_step hm _ s c) rfl hd h1
    rw [← hsd] at hsd'
    subst hsd'
    rcases hl with ⟨j', pj', l1, l2, l3⟩ | ⟨l1, -⟩
    swap
    · exact absurd ((hb j).1 b1.2.1) (l1 j b1.1)
    rcases hl' with ⟨k, pk', k1, k2, k3⟩ | ⟨k1, -⟩
    swap
    · exact absurd ((hb j).1 b1.2.1) (k1 j b1.1)
    have hjj : LastBefore (EncAt (EsFullSent x.entity_id) hist out) i j' :=
      ⟨l1.1, (hb j').2 l1.2.1, fun m hm1 hm2 hm3 => l1.2.2 m hm1 hm2 ((hb m).1 hm3)⟩
    obtain rfl := b1.unique hjj
    have hkk : FirstBefore (EncAt (EsFullSent x.entity_id) hist out) i k :=
      ⟨k1.1, (hb k).2 k1.2.1, fun m hm1 hm3 => k1.2.2 m hm1 ((hb m).1 hm3)⟩
    obtain ⟨zj, hzj⟩ := EsFullGot.body l1.2.1 l2
    obtain ⟨zk, hzk⟩ := EsFullGot.body k1.2.1 k2
    obtain ⟨tj', qj, cj, u1, u2, xj, yj, u3, u4, u5, u6⟩ := b1.2.1
    rw [b2] at u1
    cases u1
    obtain ⟨tk, qk, ck, v1, v2, xk, yk, v3, v4, v5, v6⟩ := hkk.2.1
    refine ⟨j, tj, pj, xj, k, tk, qk, xk, b1, b2, u3, b3, hkk, v1, v3, ?_⟩
    obtain ⟨t', p', q, a1, a2, a3⟩ := C38_self_contained h hd u2 (by rw [u4]; exact u6)
    rw [b2] at a1
    cases a1
    rw [l2] at a2
    cases a2
    rw [u3, hzj] at a3
    obtain ⟨t', p', q, c1, c2, c3⟩ := C38_self_contained h hd v2 (by rw [v4]; exact v6)
    rw [v1] at c1
    cases c1
    rw [k2] at c2
    cases c2
    rw [v3, hzk] at c3
    obtain ⟨sde, hsde, hsf⟩ := Option.map_eq_some_iff.1 l3
    rw [hsde, Option.map_some, bodyMarking_of hzk, Option.some.injEq] at k3
    rw [bodyEsFields_of hzj] at hsf
    have := es_merge hm a3 c3 g1 hf hsf k3
    rw [this]
    simp only [pduDec, Dis.Pdu.finalizeFromParts, h2, bodyDec, esDecodeBody]
    rw [hid, ← hsd, hsde]

/-! ## Designator -/

theorem des_key {env : Env} {o : Options} {t : Nat} {st : Option Nat} {x : Dis.Designator} :
    eidDec ((desEnc env o t st x).1).designating_entity_id = x.designating_entity_id := by
  unfold desEnc
  dsimp only
  split <;> simp [eid_rt]

theorem des_bridge {env : Env} {o o' : Options} (e : Dis.EntityId) (now : Nat) (s : EncState) (b : Dis.Body) (c : Cdis.CdisBody)
    (r : StateResult) (s' : EncState) (d : DecState) (h : bodyEnc env o now s b = some (c, r, s')) :
    DesFullSent e b c ↔ DesFullGot e c (bodyDec env o' d c).1 := by
  have key : ∀ x y, b = .designator x → c = .designator y → eidDec (y).designating_entity_id = x.designating_entity_id := by
    rintro x y rfl rfl
    simp only [bodyEnc, desEncodeBody, Option.some.injEq, Prod.mk.injEq, Cdis.CdisBody.designator.injEq] at h
    rw [← h.1]
    exact des_key
  constructor
  · rintro ⟨x, y, rfl, rfl, h3, h4⟩
    exact ⟨y, _, rfl, rfl, by rw [key x y rfl rfl, h3], h4⟩
  · rintro ⟨y, x', rfl, h2, h3, h4⟩
    cases b with
    | designator x => exact ⟨x, y, rfl, rfl, by rw [← key x y rfl rfl, h3], h4⟩
    | _ => simp [bodyEnc, esEncodeBody, eeEncodeBody, desEncodeBody, txEncodeBody, iffEncodeBody] at h

/-- The designator that a receiver of partial updates is meant to know. -/
def desMerge (x xj : Dis.Designator) : Dis.Designator :=
  { x with system_name := xj.system_name, code := xj.code, power := xj.power, wavelength := xj.wavelength,
           spot_location := xj.spot_location }

theorem des_merge {env : Env} {o : Options} {x xj zj : Dis.Designator}
    (hj : oneShot env o (.designator xj) = some (.designator zj)) {t : Nat} {st : Option Nat}
    (hf : (desEnc env o t st x).1.full_update_flag = false) :
    oneShot env o (.designator (desMerge x xj)) = some (.designator (desDec env (some (.of zj)) (desEnc env o t st x).1).1) := by
  unfold oneShot at hj ⊢
  simp only [bodyEnc, desEncodeBody, desEnc, reduceCtorEq, false_and, if_false, Option.map_some, bodyDec, desDecodeBody,
    Option.some.injEq, Dis.Body.designator.injEq] at hj ⊢
  subst hj
  unfold desEnc at hf
  dsimp only at hf
  split at hf
  · rename_i hc
    rw [if_pos hc]
    simp only [desDec, desMerge, DesState.of, Option.map_none, Option.map_some, Option.getD_none, Option.getD_some, if_true,
      Bool.false_eq_true, if_false]
    first | done | rfl
  · simp at hf


/-- The same for designators: name, code, power, wavelength and spot location are as of the last full update. -/
theorem C38_end_to_end_designator {env : Env} {o : Options} (hm : o.update_mode = .partial) {hist : List (Nat × Dis.Pdu)}
    {s' : EncState} {out : List Cdis.CdisPdu} {d' : DecState} {dec : List Dis.Pdu} (h : encStream env o {} hist = some (out, s'))
    (hd : decStream env o {} out = (dec, d')) {i t p x} (hi : hist[i]? = some (t, p)) (hx : p.body = .designator x) :
    ∃ q, dec[i]? = some q ∧
      (EncAt (DesFullSent x.designating_entity_id) hist out i ∧ oneShot env o p.body = some q.body ∨
       ∃ j tj pj xj, LastBefore (EncAt (DesFullSent x.designating_entity_id) hist out) i j ∧
        hist[j]? = some (tj, pj) ∧ pj.body = .designator xj ∧ timedOut o.heartbeats.designator o.mplier t tj = false ∧
        oneShot env o (.designator (desMerge x xj)) = some q.body) := by
  obtain ⟨c, y, h1, h2, h3, -⟩ := C37_designator hm h hi hx
  obtain ⟨c', si, r, s1, e1, e2, e3⟩ := pipeline_at' h hd hi
  rw [h1] at e1
  cases e1
  refine ⟨_, e3, ?_⟩
  have hb : ∀ m, EncAt (DesFullSent x.designating_entity_id) hist out m ↔ DecAt (DesFullGot x.designating_entity_id) out dec m :=
    enc_dec_at (fun now s b c r s' d hh => des_bridge _ now s b c r s' d hh) h hd
  cases hf : y.full_update_flag with
  | true =>
    left
    refine ⟨⟨t, p, c, hi, h1, x, y, hx, h2, rfl, hf⟩, ?_⟩
    obtain ⟨t', p', q, a1, a2, a3⟩ := C38_self_contained h hd h1 (by rw [h2]; exact hf)
    rw [hi] at a1
    cases a1
    rw [e3] at a2
    cases a2
    exact a3
  | false =>
    right
    obtain ⟨j, tj, pj, b1, b2, b3⟩ := h3.1 hf
    have e2' := e2
    rw [hx, h2] at e2'
    simp only [bodyEnc, desEncodeBody, Option.some.injEq, Prod.mk.injEq, Cdis.CdisBody.designator.injEq] at e2'
    have g1 := e2'.1
    subst g1
    obtain ⟨sd, hsd, -, hl⟩ := dec_memory_at (fun s => s.designator x.designating_entity_id) (DesFullGot x.designating_entity_id)
      bodyDes (fun s c => des_dec_step  _ s c) rfl hd h1
    rcases hl with ⟨j', pj', l1, l2, l3⟩ | ⟨l1, -⟩
    swap
    · exact absurd ((hb j).1 b1.2.1) (l1 j b1.1)
    have hjj : LastBefore (EncAt (DesFullSent x.designating_entity_id) hist out) i j' :=
      ⟨l1.1, (hb j').2 l1.2.1, fun m hm1 hm2 hm3 => l1.2.2 m hm1 hm2 ((hb m).1 hm3)⟩
    obtain rfl := b1.unique hjj
    obtain ⟨zj, hzj⟩ := DesFullGot.body l1.2.1 l2
    obtain ⟨tj', qj, cj, u1, u2, xj, yj, u3, u4, u5, u6⟩ := b1.2.1
    rw [b2] at u1
    cases u1
    refine ⟨j, tj, pj, xj, b1, b2, u3, b3, ?_⟩
    obtain ⟨t', p', q, a1, a2, a3⟩ := C38_self_contained h hd u2 (by rw [u4]; exact u6)
    rw [b2] at a1
    cases a1
    rw [l2] at a2
    cases a2
    rw [u3, hzj] at a3
    rw [bodyDes_of hzj] at l3
    have := des_merge  a3 hf
    rw [this]
    simp only [pduDec, Dis.Pdu.finalizeFromParts, h2, bodyDec, desDecodeBody]
    rw [show eidDec (desEnc env o t (si.designator x.designating_entity_id) x).1.designating_entity_id = x.designating_entity_id from des_key, ← hsd, l3]

/-! ## Transmitter -/

theorem tx_key {env : Env} {o : Options} {t : Nat} {st : Option Nat} {x : Dis.Transmitter} :
    (eidDec ((txEnc env o t st x).1).radio_reference_id, UInt16.ofNat ((txEnc env o t st x).1).radio_number) = (x.radio_reference_id, x.radio_number) := by
  unfold txEnc
  dsimp only
  split <;> simp [eid_rt]

theorem tx_bridge {env : Env} {o o' : Options} (e : Dis.EntityId × UInt16) (now : Nat) (s : EncState) (b : Dis.Body) (c : Cdis.CdisBody)
    (r : StateResult) (s' : EncState) (d : DecState) (h : bodyEnc env o now s b = some (c, r, s')) :
    TxFullSent e b c ↔ TxFullGot e c (bodyDec env o' d c).1 := by
  have key : ∀ x y, b = .transmitter x → c = .transmitter y → (eidDec (y).radio_reference_id, UInt16.ofNat (y).radio_number) = (x.radio_reference_id, x.radio_number) := by
    rintro x y rfl rfl
    simp only [bodyEnc, txEncodeBody, Option.some.injEq, Prod.mk.injEq, Cdis.CdisBody.transmitter.injEq] at h
    rw [← h.1]
    exact tx_key
  constructor
  · rintro ⟨x, y, rfl, rfl, h3, h4⟩
    exact ⟨y, _, rfl, rfl, by rw [key x y rfl rfl, h3], h4⟩
  · rintro ⟨y, x', rfl, h2, h3, h4⟩
    cases b with
    | transmitter x => exact ⟨x, y, rfl, rfl, by rw [← key x y rfl rfl, h3], h4⟩
    | _ => simp [bodyEnc, esEncodeBody, eeEncodeBody, desEncodeBody, txEncodeBody, iffEncodeBody] at h

/-- The transmitter that a receiver of partial updates is meant to know; the relative antenna location is not kept. -/
def txMerge (x xj : Dis.Transmitter) : Dis.Transmitter :=
  { x with radio_type := xj.radio_type, antenna_location := xj.antenna_location, frequency := xj.frequency,
           transmit_frequency_bandwidth := xj.transmit_frequency_bandwidth, power := xj.power,
           modulation_type := xj.modulation_type, relative_antenna_location := ⟨0, 0, 0⟩ }

theorem coord_zero : coordDec (coordEnc ⟨0, 0, 0⟩).1 (coordEnc ⟨0, 0, 0⟩).2 = ⟨0, 0, 0⟩ := by decide +kernel

theorem tx_merge {env : Env} {o : Options} (hm : o.update_mode = .partial) {x xj zj : Dis.Transmitter}
    (hj : oneShot env o (.transmitter xj) = some (.transmitter zj)) {t : Nat} {st : Option Nat}
    (hf : (txEnc env o t st x).1.full_update_flag = false) :
    oneShot env o (.transmitter (txMerge x xj)) =
      some (.transmitter (txDec env o (some (.of zj)) (txEnc env o t st x).1).1) := by
  unfold oneShot at hj ⊢
  simp only [bodyEnc, txEncodeBody, txEnc, reduceCtorEq, false_and, if_false, Option.map_some, bodyDec, txDecodeBody,
    Option.some.injEq, Dis.Body.transmitter.injEq] at hj ⊢
  subst hj
  unfold txEnc at hf
  dsimp only at hf
  split at hf
  · rename_i hc
    rw [if_pos hc]
    simp only [txDec, txMerge, TxState.of, hm, and_self, Option.map_none, Option.map_some, Option.getD_none, Option.getD_some, if_true,
      Bool.false_eq_true, if_false, coord_zero, zeroVec]
    first | done | rfl
  · simp at hf


/-- The same for transmitters: type, antenna location, frequency, bandwidth, power and modulation are as of the last full
update; the relative antenna location of a partial update is zero. -/
theorem C38_end_to_end_transmitter {env : Env} {o : Options} (hm : o.update_mode = .partial) {hist : List (Nat × Dis.Pdu)}
    {s' : EncState} {out : List Cdis.CdisPdu} {d' : DecState} {dec : List Dis.Pdu} (h : encStream env o {} hist = some (out, s'))
    (hd : decStream env o {} out = (dec, d')) {i t p x} (hi : hist[i]? = some (t, p)) (hx : p.body = .transmitter x) :
    ∃ q, dec[i]? = some q ∧
      (EncAt (TxFullSent (x.radio_reference_id, x.radio_number)) hist out i ∧ oneShot env o p.body = some q.body ∨
       ∃ j tj pj xj, LastBefore (EncAt (TxFullSent (x.radio_reference_id, x.radio_number)) hist out) i j ∧
        hist[j]? = some (tj, pj) ∧ pj.body = .transmitter xj ∧ timedOut o.heartbeats.transmitter o.mplier t tj = false ∧
        oneShot env o (.transmitter (txMerge x xj)) = some q.body) := by
  obtain ⟨c, y, h1, h2, h3, -⟩ := C37_transmitter hm h hi hx
  obtain ⟨c', si, r, s1, e1, e2, e3⟩ := pipeline_at' h hd hi
  rw [h1] at e1
  cases e1
  refine ⟨_, e3, ?_⟩
  have hb : ∀ m, EncAt (TxFullSent (x.radio_reference_id, x.radio_number)) hist out m ↔ DecAt (TxFullGot (x.radio_reference_id, x.radio_number)) out dec m :=
    enc_dec_at (fun now s b c r s' d hh => tx_bridge _ now s b c r s' d hh) h hd
  cases hf : y.full_update_flag with
  | true =>
    left
    refine ⟨⟨t, p, c, hi, h1, x, y, hx, h2, rfl, hf⟩, ?_⟩
    obtain ⟨t', p', q, a1, a2, a3⟩ := C38_self_contained h hd h1 (by rw [h2]; exact hf)
    rw [hi] at a1
    cases a1
    rw [e3] at a2
    cases a2
    exact a3
  | false =>
    right
    obtain ⟨j, tj, pj, b1, b2, b3⟩ := h3.1 hf
    have e2' := e2
    rw [hx, h2] at e2'
    simp only [bodyEnc, txEncodeBody, Option.some.injEq, Prod.mk.injEq, Cdis.CdisBody.transmitter.injEq] at e2'
    have g1 := e2'.1
    subst g1
    obtain ⟨sd, hsd, -, hl⟩ := dec_memory_at (fun s => s.transmitter (x.radio_reference_id, x.radio_number)) (TxFullGot (x.radio_reference_id, x.radio_number))
      bodyTx (fun s c => tx_dec_step hm _ s c) rfl hd h1
    rcases hl with ⟨j', pj', l1, l2, l3⟩ | ⟨l1, -⟩
    swap
    · exact absurd ((hb j).1 b1.2.1) (l1 j b1.1)
    have hjj : LastBefore (EncAt (TxFullSent (x.radio_reference_id, x.radio_number)) hist out) i j' :=
      ⟨l1.1, (hb j').2 l1.2.1, fun m hm1 hm2 hm3 => l1.2.2 m hm1 hm2 ((hb m).1 hm3)⟩
    obtain rfl := b1.unique hjj
    obtain ⟨zj, hzj⟩ := TxFullGot.body l1.2.1 l2
    obtain ⟨tj', qj, cj, u1, u2, xj, yj, u3, u4, u5, u6⟩ := b1.2.1
    rw [b2] at u1
    cases u1
    refine ⟨j, tj, pj, xj, b1, b2, u3, b3, ?_⟩
    obtain ⟨t', p', q, a1, a2, a3⟩ := C38_self_contained h hd u2 (by rw [u4]; exact u6)
    rw [b2] at a1
    cases a1
    rw [l2] at a2
    cases a2
    rw [u3, hzj] at a3
    rw [bodyTx_of hzj] at l3
    have := tx_merge hm a3 hf
    rw [this]
    simp only [pduDec, Dis.Pdu.finalizeFromParts, h2, bodyDec, txDecodeBody]
    rw [show (eidDec (txEnc env o t (si.transmitter (x.radio_reference_id, x.radio_number)) x).1.radio_reference_id, UInt16.ofNat (txEnc env o t (si.transmitter (x.radio_reference_id, x.radio_number)) x).1.radio_number) = (x.radio_reference_id, x.radio_number) from tx_key, ← hsd, l3]


/-! ## IFF -/

theorem iff_key {o : Options} {t : Nat} {st : Option Nat} {x : Dis.Iff} :
    eidDec (iffEnc o t st x).1.emitting_entity_id = x.emitting_entity_id := eid_rt _

theorem iff_never_full {env : Env} {o o' : Options} (e : Dis.EntityId) (now : Nat) (s : EncState) (b : Dis.Body) (c : Cdis.CdisBody)
    (r : StateResult) (s' : EncState) (d : DecState) (h : bodyEnc env o now s b = some (c, r, s')) :
    ¬ IffFullGot e c (bodyDec env o' d c).1 := by
  rintro ⟨y, x', rfl, h2, h3, h4⟩
  cases b with
  | iff x =>
    simp only [bodyEnc, iffEncodeBody, Option.some.injEq, Prod.mk.injEq, Cdis.CdisBody.iff.injEq] at h
    rw [← h.1] at h4
    simp [iffEnc] at h4
  | _ => simp [bodyEnc, esEncodeBody, eeEncodeBody, desEncodeBody, txEncodeBody, iffEncodeBody] at h

theorem sysId_default : sysIdDec (sysIdEnc defaultSysId) = defaultSysId := by decide +kernel

/-- IFF in partial-update mode: the system id is sent when none was sent within the heartbeat period, and then the decoded
PDU is the one-shot image; otherwise the decoded system id is all zeros, whatever was sent before, because no PDU of this
encoder is marked as a full update and so the decoder never remembers one. -/
theorem C38_end_to_end_iff {env : Env} {o : Options} (hm : o.update_mode = .partial) {hist : List (Nat × Dis.Pdu)}
    {s' : EncState} {out : List Cdis.CdisPdu} {d' : DecState} {dec : List Dis.Pdu} (h : encStream env o {} hist = some (out, s'))
    (hd : decStream env o {} out = (dec, d')) {i t p x} (hi : hist[i]? = some (t, p)) (hx : p.body = .iff x) :
    ∃ q, dec[i]? = some q ∧
      (EncAt (IffFullSent x.emitting_entity_id) hist out i ∧ oneShot env o p.body = some q.body ∨
       (∃ j tj pj, LastBefore (EncAt (IffFullSent x.emitting_entity_id) hist out) i j ∧
        hist[j]? = some (tj, pj) ∧ timedOut o.heartbeats.iff o.mplier t tj = false) ∧
        oneShot env o (.iff { x with system_id := ⟨0, 0, 0, [0, 0, 0, 0, 0, 0, 0, 0]⟩ }) = some q.body) := by
  obtain ⟨c, y, h1, h2, -, h3⟩ := C37_iff hm h hi hx
  obtain ⟨c', si, r, s1, e1, e2, e3⟩ := pipeline_at' h hd hi
  rw [h1] at e1
  cases e1
  refine ⟨_, e3, ?_⟩
  cases hf : y.system_id with
  | some v =>
    left
    refine ⟨⟨t, p, c, hi, h1, x, y, hx, h2, rfl, by simp [hf]⟩, ?_⟩
    obtain ⟨t', p', q, a1, a2, a3⟩ := C38_self_contained h hd h1 (by rw [h2]; simp [SelfContained, hf])
    rw [hi] at a1
    cases a1
    rw [e3] at a2
    cases a2
    exact a3
  | none =>
    right
    refine ⟨h3.1 hf, ?_⟩
    rw [hx, h2] at e2
    simp only [bodyEnc, iffEncodeBody, Option.some.injEq, Prod.mk.injEq, Cdis.CdisBody.iff.injEq] at e2
    have g1 := e2.1
    subst g1
    obtain ⟨sd, hsd, -, hl⟩ := dec_first_at (fun s => s.iff x.emitting_entity_id) (IffFullGot x.emitting_entity_id)
      bodySysId (fun s c => iff_dec_step hm _ s c) rfl hd h1
    have hno : ∀ m, ¬ DecAt (IffFullGot x.emitting_entity_id) out dec m := fun m hm' =>
      ((enc_dec_at (P := fun _ _ => False) (Q := IffFullGot x.emitting_entity_id)
        (fun now s b c r s' d hh => ⟨False.elim, iff_never_full _ now s b c r s' d hh⟩) h hd m).2 hm').elim
        fun _ hh => by obtain ⟨_, _, _, _, hh⟩ := hh; exact hh
    have hl : sd.iff x.emitting_entity_id = none := by
      rcases hl with ⟨j', pj', l1, -⟩ | ⟨-, l2⟩
      · exact absurd l1.2.1 (hno j')
      · exact l2
    simp only [pduDec, Dis.Pdu.finalizeFromParts, h2, bodyDec, iffDecodeBody]
    rw [iff_key, ← hsd, hl]
    unfold oneShot
    have hx' : (iffEnc { o with update_mode := .full } 0 none { x with system_id := ⟨0, 0, 0, [0, 0, 0, 0, 0, 0, 0, 0]⟩ }).1 =
        { (iffEnc o t (si.iff x.emitting_entity_id) x).1 with system_id := some (sysIdEnc defaultSysId) } := by
      unfold iffEnc
      simp [defaultSysId]
    simp only [bodyEnc, iffEncodeBody, bodyDec, iffDecodeBody, Option.map_some, hx']
    simp only [iffDec, Option.map_some, Option.getD_some, sysId_default, hf, Option.map_none, Option.getD_none, hm]
    simp

end Verif.Props
