import Verif.Props.CodecPipeline
import Verif.Props.CodecEmission
import Verif.Props.CodecStateless

/-! # C73: encoders and decoders with different settings -/

namespace Verif.Props
open Verif.Codec

/-! ## Specification -/

/-- A C-DIS body without entity capabilities. -/
def withoutCapabilities : Cdis.CdisBody → Cdis.CdisBody
  | .entityState y => .entityState { y with capabilities := none }
  | b => b
/-- A C-DIS PDU without entity capabilities, of the length that it then has. -/
def leaner (c : Cdis.CdisPdu) : Cdis.CdisPdu := Cdis.CdisPdu.finalize c.header (withoutCapabilities c.body) none
/-- A DIS PDU whose entity, if it is an Entity State PDU, has no capabilities. -/
def incapable (env : Env) (p : Dis.Pdu) : Dis.Pdu :=
  { p with body := match p.body with
    | .entityState x => .entityState { x with entity_capabilities := Dis.EntityCapabilities.fromBytes env.toEnv 0 x.entity_type }
    | b => b }

/-! ## The decoder -/

theorem bodyDec_options {env : Env} {o o' : Options} (h : o.update_mode = o'.update_mode) (s : DecState) (c : Cdis.CdisBody) :
    bodyDec env o s c = bodyDec env o' s c := by
  obtain ⟨m, a, b, d⟩ := o
  obtain ⟨m', a', b', d'⟩ := o'
  cases h
  cases c <;> rfl
/-- **C73.** Of the settings of a decoder only the update mode matters: heartbeats, multiplier and optimisation need not be those of the encoder. -/
theorem C73_decoder {env : Env} {o o' : Options} (h : o.update_mode = o'.update_mode) (s : DecState) (inp : List Cdis.CdisPdu) :
    decStream env o s inp = decStream env o' s inp := by
  induction inp generalizing s with
  | nil => rfl
  | cons c l ih => simp only [decStream, pduDec, bodyDec_options h, ih]

/-! ## The optimisation of the encoder -/

theorem esEnc_optimize (env : Env) (o : Options) (now : Nat) (st : Option Nat) (x : Dis.EntityState) :
    esEnc env { o with optimize_mode := .bandwidth } now st x =
      (esEnc env { o with optimize_mode := .completeness } now st x).map fun r => ({ r.1 with capabilities := none }, r.2) := by
  have hb : esHeartbeat { o with optimize_mode := .bandwidth } x.entity_type = esHeartbeat { o with optimize_mode := .completeness } x.entity_type := rfl
  unfold esEnc
  dsimp only
  rw [hb]
  split
  · rfl
  · rw [Option.map_map]
    rfl
theorem bodyEnc_optimize (env : Env) (o : Options) (now : Nat) (s : EncState) (b : Dis.Body) :
    bodyEnc env { o with optimize_mode := .bandwidth } now s b =
      (bodyEnc env { o with optimize_mode := .completeness } now s b).map fun r => (withoutCapabilities r.1, r.2) := by
  cases b with
  | entityState x =>
    simp only [bodyEnc, esEncodeBody, esEnc_optimize, Option.map_map]
    rfl
  | _ => rfl
theorem pduEnc_optimize (env : Env) (o : Options) (now : Nat) (s : EncState) (p : Dis.Pdu) :
    pduEnc env { o with optimize_mode := .bandwidth } now s p =
      (pduEnc env { o with optimize_mode := .completeness } now s p).map fun r => (leaner r.1, r.2) := by
  simp only [pduEnc, bodyEnc_optimize, Option.map_map]
  rfl
/-- **C73.** To optimise for bandwidth is to leave out the capabilities of entities, and nothing else: every history, clock and mode. -/
theorem C73_optimize (env : Env) (o : Options) (s : EncState) (hist : List (Nat × Dis.Pdu)) :
    encStream env { o with optimize_mode := .bandwidth } s hist =
      (encStream env { o with optimize_mode := .completeness } s hist).map fun r => (r.1.map leaner, r.2) := by
  induction hist generalizing s with
  | nil => rfl
  | cons e l ih =>
    obtain ⟨t, p⟩ := e
    simp only [encStream, pduEnc_optimize]
    cases h : pduEnc env { o with optimize_mode := .completeness } t s p with
    | none => rfl
    | some r =>
      simp only [Option.map_some, Option.bind_some, ih, Option.map_map]
      congr 1

/-- The decoder makes of it the same, without the capabilities: these are handed over as none. -/
theorem C73_optimize_decoded {env : Env} (o o' : Options) {s s' : EncState} {hist : List (Nat × Dis.Pdu)} {out : List Cdis.CdisPdu}
    (h : encStream env { o with optimize_mode := .completeness } s hist = some (out, s')) (d : DecState) :
    encStream env { o with optimize_mode := .bandwidth } s hist = some (out.map leaner, s') ∧
    (decStream env o' d (out.map leaner)).1 = (decStream env o' d out).1.map (incapable env) := by
  refine ⟨by rw [C73_optimize, h]; rfl, ?_⟩
  have step : ∀ (c : Cdis.CdisPdu) (d : DecState), (pduDec env o' d (leaner c)).1 = incapable env (pduDec env o' d c).1 ∧
      (pduDec env o' d (leaner c)).2.2 = (pduDec env o' d c).2.2 := by
    intro c d
    have l : ∀ (h : Dis.PduHeader) (b : Dis.Body) (ts : UInt32), incapable env (Dis.Pdu.finalizeFromParts h b ts) =
        Dis.Pdu.finalizeFromParts h (incapable env ⟨h, b⟩).body ts := by
      intro h b ts
      cases b <;> rfl
    obtain ⟨h, b⟩ := c
    cases b with
    | entityState y => exact ⟨(l _ _ _).symm ▸ rfl, rfl⟩
    | _ => exact ⟨(l _ _ _).symm ▸ rfl, rfl⟩
  clear h
  induction out generalizing d with
  | nil => rfl
  | cons c l ih =>
    simp only [List.map_cons, decStream, (step c d).1, (step c d).2, ih]

/-- **C73, violated.** The documentation of the setting (cdis-gateway/config/localhost_config.toml:50) says that it also keeps the other
dead reckoning parameters back.  It does not: whatever the settings, every entity state PDU with a dead reckoning algorithm carries
them, unless they are all zero. -/
theorem C73_dr_other_violated {env : Env} (o : Options) {s s' : EncState} {hist : List (Nat × Dis.Pdu)} {out : List Cdis.CdisPdu}
    (h : encStream env o s hist = some (out, s')) {i t : Nat} {p : Dis.Pdu} {x : Dis.EntityState} (hi : hist[i]? = some (t, p))
    (hx : p.body = .entityState x) (ha : x.dead_reckoning_parameters.algorithm ≠ 0)
    (hz : drOtherEnc x.dead_reckoning_parameters.other_parameters ≠ 0) :
    ∃ c y, out[i]? = some c ∧ c.body = .entityState y ∧ y.dr_params_other = some (drOtherEnc x.dead_reckoning_parameters.other_parameters) := by
  obtain ⟨si, c, r, s1, -, h2, h3⟩ := encStream_at h hi
  obtain ⟨hb, -⟩ := pduEnc_some h2
  rw [hx] at hb
  have key : ∀ st y r, esEnc env o t st x = some (y, r) → y.dr_params_other = some (drOtherEnc x.dead_reckoning_parameters.other_parameters) := by
    intro st y r hy
    have hn : nz (drOtherEnc x.dead_reckoning_parameters.other_parameters) = some (drOtherEnc x.dead_reckoning_parameters.other_parameters) := if_neg hz
    unfold esEnc at hy
    simp only [if_neg ha, hn] at hy
    split at hy
    · cases hy; rfl
    · cases hm : Cdis.Marking.new (markingChars x.entity_marking.marking_string) with
      | none => rw [hm] at hy; cases hy
      | some m =>
        rw [hm] at hy
        simp only [Option.map_some, Option.some.injEq, Prod.mk.injEq] at hy
        rw [← hy.1]
  simp only [bodyEnc, esEncodeBody] at hb
  cases he : esEnc env o t (si.es x.entity_id) x with
  | none => rw [he] at hb; cases hb
  | some yr =>
    rw [he] at hb
    obtain ⟨y, r'⟩ := yr
    simp only [Option.map_some, Option.some.injEq, Prod.mk.injEq] at hb
    exact ⟨c, y, h3, hb.1.symm, key _ _ _ he⟩
/-- Such a PDU: the sample entity with its dead reckoning parameters, sent with bandwidth optimisation. -/
theorem C73_dr_other_witness : sample_entityState.dead_reckoning_parameters.algorithm ≠ 0
    ∧ drOtherEnc sample_entityState.dead_reckoning_parameters.other_parameters ≠ 0
    ∧ (encStream codecEnv { optimize_mode := .bandwidth } {} [(0, tankWith [65] 5)]).isSome = true := by decide +kernel

/-! ## The update modes -/

/-- **C73**, violated.  An encoder that sends partial updates and a decoder that expects full ones: every entity state that is not a full update is handed
over as an entity of no force and no type at the centre of the Earth, with the marking that means none, whatever was sent before. -/
theorem C73_modes_violated {env : Env} {o o' : Options} (hm' : o'.update_mode = .full) {hist : List (Nat × Dis.Pdu)}
    {s s' : EncState} {out : List Cdis.CdisPdu} {d d' : DecState} {dec : List Dis.Pdu} (h : encStream env o s hist = some (out, s'))
    (hd : decStream env o' d out = (dec, d')) {i t : Nat} {p : Dis.Pdu} {x : Dis.EntityState} (hi : hist[i]? = some (t, p)) (hx : p.body = .entityState x) :
    ∃ c y q z, out[i]? = some c ∧ c.body = .entityState y ∧ dec[i]? = some q ∧ q.body = .entityState z ∧ z.entity_id = x.entity_id ∧
      (y.full_update_flag = true ∧ oneShot env o p.body = some q.body ∨
       y.full_update_flag = false ∧ esFields z = noEsFields ∧ z.entity_marking = defaultMarking) := by
  obtain ⟨c, si, r, s1, e1, e2, e3⟩ := pipeline_at' h hd hi
  have hb := e2
  rw [hx] at hb
  simp only [bodyEnc, esEncodeBody, Option.map_eq_some_iff] at hb
  obtain ⟨u, hu, hb⟩ := hb
  simp only [Prod.mk.injEq] at hb
  have hc : c.body = .entityState u.1 := hb.1.symm
  have hid : u.1.entity_id = eidEnc x.entity_id := by
    unfold esEnc at hu
    dsimp only at hu
    split at hu
    · cases hu; rfl
    · obtain ⟨m, -, rfl⟩ := Option.map_eq_some_iff.1 hu; rfl
  refine ⟨c, u.1, _, (esDec env o' ((decStream env o' d (out.take i)).2.es (eidDec u.1.entity_id)) u.1).1, e1, hc, e3, ?_, ?_, ?_⟩
  · simp only [pduDec, hc]; rfl
  · change eidDec u.1.entity_id = _
    rw [hid, eid_rt]
  · cases hf : u.1.full_update_flag with
    | true =>
      left
      refine ⟨rfl, ?_⟩
      obtain ⟨t', p', q, b1, b2, b3⟩ := C38_self_contained h hd e1 (by rw [hc]; exact hf)
      rw [hi] at b1; cases b1
      rw [e3] at b2; cases b2
      exact b3
    | false =>
      right
      refine ⟨rfl, ?_⟩
      unfold esEnc at hu
      dsimp only at hu
      split at hu
      · cases hu
        simp [esDec, hm', esFields, noEsFields, defaultEs, zeroType, zeroLoc, zeroOrient]
      · obtain ⟨m, -, rfl⟩ := Option.map_eq_some_iff.1 hu
        cases hf

/-- **C73.** Designator PDUs do not mind: whatever the settings of the decoder, it hands over the same for them. -/
theorem C73_designators {env : Env} (o o' : Options) (d : DecState) {inp : List Cdis.CdisPdu} {i : Nat} {c : Cdis.CdisPdu} {y : Cdis.Designator}
    (hi : inp[i]? = some c) (hc : c.body = .designator y) : (decStream env o d inp).1[i]? = (decStream env o' d inp).1[i]? := by
  have step : ∀ (b : Cdis.CdisBody) (d d' : DecState), d.designator = d'.designator →
      (bodyDec env o d b).2.2.designator = (bodyDec env o' d' b).2.2.designator := by
    intro b d d' h
    cases b with
    | designator x => simp only [bodyDec, desDecodeBody, h]; split <;> simp_all
    | entityState x => simp only [bodyDec, esDecodeBody]; split <;> split <;> exact h
    | electromagneticEmission x => simp only [bodyDec, eeDecodeBody]; split <;> split <;> exact h
    | transmitter x => simp only [bodyDec, txDecodeBody]; split <;> split <;> exact h
    | iff x => simp only [bodyDec, iffDecodeBody]; split <;> split <;> exact h
    | _ => exact h
  have main : ∀ (inp : List Cdis.CdisPdu) (i : Nat) (d d' : DecState), d.designator = d'.designator → inp[i]? = some c →
      (decStream env o d inp).1[i]? = (decStream env o' d' inp).1[i]? := by
    intro inp
    induction inp with
    | nil => intro i d d' h hi; simp at hi
    | cons q l ih =>
      intro i d d' h hi
      cases i with
      | zero =>
        simp only [List.getElem?_cons_zero, Option.some.injEq] at hi
        subst hi
        simp only [decStream, List.getElem?_cons_zero, pduDec, hc, bodyDec, desDecodeBody, h]
      | succ i =>
        rw [List.getElem?_cons_succ] at hi
        simp only [decStream, List.getElem?_cons_succ]
        exact ih i _ _ (step q.body d d' h) hi
  exact main inp i d d rfl hi

/-- A tank that is reported three times in two seconds, an encoder with partial updates and a decoder with full ones, and the other way round. -/
theorem C73_example :
    ((encStream codecEnv { update_mode := .«partial» } {} [(0, tankWith [65] 5), (1000000000, tankWith [65] 5), (2000000000, tankWith [65] 5)]).map fun r =>
      (decStream codecEnv { update_mode := .full } {} r.1).1.map fun p => (markingOf p.body, forceOf p.body)) =
        some [([65], 5), (defaultMarking.marking_string, 0), (defaultMarking.marking_string, 0)] ∧
    ((encStream codecEnv { update_mode := .full } {} [(0, tankWith [65] 5), (1000000000, tankWith [65] 5), (2000000000, tankWith [65] 5)]).map fun r =>
      (decStream codecEnv { update_mode := .«partial» } {} r.1).1.map fun p => (markingOf p.body, forceOf p.body)) =
        some [([65], 5), ([65], 5), ([65], 5)] := by decide +kernel

end Verif.Props
