import Verif.Props.Through8
import Verif.Props.CodecEmission
/-! # C61: partial updates over a network that loses, repeats and reorders datagrams -/
namespace Verif.Props
open Verif.Codec

/-- An Entity State as it arrives in a full update. -/
def arrivalES (env : Env) (o : Options) (x : Dis.EntityState) : Dis.EntityState :=
  { x with
      entity_linear_velocity :=
        if x.dead_reckoning_parameters.algorithm = 0 ∨ x.dead_reckoning_parameters.algorithm = 1 then zeroVec
        else linQ x.entity_linear_velocity
      entity_location := worldWireQ env x.entity_location, entity_orientation := orientQ x.entity_orientation
      dead_reckoning_parameters :=
        { x.dead_reckoning_parameters with
          other_parameters := otherQ x.dead_reckoning_parameters.algorithm x.dead_reckoning_parameters.other_parameters
          linear_acceleration := accQ x.dead_reckoning_parameters.algorithm x.dead_reckoning_parameters.linear_acceleration
          angular_velocity := if x.dead_reckoning_parameters.algorithm ∈ [3, 4, 7, 8]
            then angVelQ x.dead_reckoning_parameters.angular_velocity else zeroVec }
      entity_marking := { x.entity_marking with marking_character_set := 1 }
      entity_capabilities := if o.optimize_mode = .completeness then x.entity_capabilities
        else { x.entity_capabilities with raw := 0 }
      variable_parameters := x.variable_parameters.map vpQ }

/-- The six fields that a partial update leaves out, in the order force, type, location, orientation, appearance, marking. -/
structure Base where
  force_id : UInt8
  entity_type : Dis.EntityType
  entity_location : Dis.Location
  entity_orientation : Dis.Orientation
  entity_appearance : Dis.EntityAppearance
  entity_marking : Dis.EntityMarking
  deriving DecidableEq

/-- What a receiver that has seen no full update puts in their place. -/
def unknownBase : Base := ⟨0, ⟨0, 0, 0, 0, 0, 0, 0⟩, ⟨0, 0, 0⟩, ⟨0, 0, 0⟩, ⟨.unspecified, 0⟩, ⟨1, "Marking".toUTF8.toList⟩⟩

/-- What stands in for the fields that are left out after the full updates `F` of the entity have arrived, in this order: the last of
them, but the marking of the first. -/
def baseOf (env : Env) (F : List Dis.EntityState) : Base :=
  match F.getLast?, F.head? with
  | some l, some f => ⟨l.force_id, l.entity_type, worldWireQ env l.entity_location, orientQ l.entity_orientation, l.entity_appearance,
      { f.entity_marking with marking_character_set := 1 }⟩
  | _, _ => unknownBase

/-- A partial update of `x` as it is handed over. -/
def lateES (env : Env) (o : Options) (b : Base) (x : Dis.EntityState) : Dis.EntityState :=
  { arrivalES env o x with
      force_id := b.force_id, entity_type := b.entity_type, entity_location := b.entity_location
      entity_orientation := b.entity_orientation, entity_appearance := b.entity_appearance, entity_marking := b.entity_marking
      entity_capabilities := Dis.EntityCapabilities.fromBytes env.toEnv
        (if o.optimize_mode = .completeness then x.entity_capabilities.raw else 0) b.entity_type }

/-- A datagram on the network: the DIS PDU it was made of and the C-DIS PDU in it. -/
abbrev Datagram := Dis.Pdu × Cdis.CdisPdu

/-- It carries a full update of the Entity State. -/
def Datagram.full (g : Datagram) : Bool :=
  match g.2.body with
  | .entityState y => y.full_update_flag
  | _ => false

/-- The full updates of entity `e` among the datagrams `R`, oldest first. -/
def fullUpdates (e : Dis.EntityId) (R : List Datagram) : List Dis.EntityState :=
  R.filterMap fun g => match g.1.body with
    | .entityState x => if g.full = true ∧ x.entity_id = e then some x else none
    | _ => none

/-- What is handed over for datagram `g` after the datagrams `R`. -/
def shown (env : Env) (o : Options) (R : List Datagram) (g : Datagram) : Dis.Body :=
  match g.1.body with
  | .entityState x => .entityState (if g.full then arrivalES env o x else lateES env o (baseOf env (fullUpdates x.entity_id R)) x)
  | b => arrival env o b

/-- A receiver: each datagram is read as a packet and decoded; the PDUs are handed over in order. -/
def receive (env : Env) (o : Options) (d : DecState) : List Bytes → List Dis.Pdu
  | [] => []
  | b :: rest =>
    match Cdis.parsePackets env.toEnv b with
    | none => receive env o d rest
    | some cs => (decStream env o d cs).1 ++ receive env o (decStream env o d cs).2 rest

/-- PDUs for the partial-update mode: Entity States that C-DIS can carry and PDUs of the kinds without a history. -/
def Sendable (env : Env) (o : Options) (p : Dis.Pdu) : Prop :=
  PduFits env o p ∨ (p.header.pdu_status.getD {}).Wf p.header.pdu_type ∧ p.header.pdu_type = 1 ∧
    ∃ x, p.body = .entityState x ∧ EntityFits env x

/-! ### One Entity State -/

theorem es_enc_fits {env : Env} {x : Dis.EntityState} (o : Options) (now : Nat) (st : Option Nat) (hf : EntityFits env x) :
    ∃ y r, esEnc env o now st x = some (y, r) ∧ y.Wf ∧ eidDec y.entity_id = x.entity_id := by
  have hmk : ∃ m, Cdis.Marking.new (markingChars x.entity_marking.marking_string) = some m ∧ m.Wf := by
    have hl := hf.wf.marking.1
    have ha := hf.wf.marking.2.1
    have hlen : (markingChars x.entity_marking.marking_string).length ≤ 11 := by
      rw [markingChars_ascii ha, List.length_map]
      exact hl
    exact marking_fits hlen hf.marking
  obtain ⟨m, hmn, hmw⟩ := hmk
  have alt : Cdis.OptAll Cdis.EntityType.Wf (if x.alternative_entity_type = zeroType then none else some (etypeEnc x.alternative_entity_type)) := by
    split
    · trivial
    · exact etype_wf hf.alternative
  have vel : Cdis.OptAll (Cdis.Vec3.In 16) (if x.dead_reckoning_parameters.algorithm = 0 ∨ x.dead_reckoning_parameters.algorithm = 1 then none
      else some (linEnc x.entity_linear_velocity)) := by
    split
    · trivial
    · exact lin_in _
  have oth : Cdis.OptAll (· < 2 ^ 120) (if x.dead_reckoning_parameters.algorithm = 0 then none
      else nz (drOtherEnc x.dead_reckoning_parameters.other_parameters)) := by
    split
    · trivial
    · exact nz_all (drOther_lt _)
  have acc : Cdis.OptAll (Cdis.Vec3.In 14) (drAccEnc x.dead_reckoning_parameters.algorithm x.dead_reckoning_parameters.linear_acceleration) := by
    unfold drAccEnc
    split
    · rename_i ha
      exact acc_in (hf.acceleration (by simpa using ha))
    · trivial
  have ang : Cdis.OptAll (Cdis.Vec3.In 12) (if x.dead_reckoning_parameters.algorithm = 3 ∨ x.dead_reckoning_parameters.algorithm = 4 ∨
      x.dead_reckoning_parameters.algorithm = 7 ∨ x.dead_reckoning_parameters.algorithm = 8
      then some (angVelEnc x.dead_reckoning_parameters.angular_velocity) else none) := by
    split
    · rename_i ha
      have := hf.angular (by simpa using ha)
      exact ⟨angVel_in this.1, angVel_in this.2.1, angVel_in this.2.2⟩
    · trivial
  have cap : Cdis.OptAll (· < 4294967296) (if o.optimize_mode = .completeness then nz x.entity_capabilities.raw.toNat else none) := by
    split
    · exact nz_all x.entity_capabilities.raw.toNat_lt
    · trivial
  have len : (x.variable_parameters.map vpEnc).length < 256 := by
    rw [List.length_map]
    have := hf.parameters.1
    omega
  have vps : ∀ p ∈ x.variable_parameters.map vpEnc, p.Wf := by
    intro p hpp
    obtain ⟨a, ha, rfl⟩ := List.mem_map.1 hpp
    exact vp_wf (hf.parameters.2 a ha)
  unfold esEnc
  dsimp only
  split
  · exact ⟨_, _, rfl, ⟨(by decide : DEKAMETER < 2 ^ 1), eid_wf _, trivial, trivial, alt, vel, trivial, trivial, trivial, hf.algorithm, oth, acc, ang,
      trivial, cap, len, vps⟩, eid_rt _⟩
  · rw [hmn, Option.map_some]
    exact ⟨_, _, rfl, ⟨world_units _ _, eid_wf _, x.force_id.toNat_lt, etype_wf hf.type, alt, vel, world_fits hf.location,
      ⟨angle_in _, angle_in _, angle_in _⟩, x.entity_appearance.raw.toNat_lt, hf.algorithm, oth, acc, ang, hmw, cap, len, vps⟩, eid_rt _⟩

theorem es_full_same {env : Env} {o : Options} {now st x y r} (h : esEnc env o now st x = some (y, r)) (hy : y.full_update_flag = true) :
    (esEnc env { o with update_mode := .full } 0 none x).map (·.1) = some y := by
  unfold esEnc at h ⊢
  dsimp only at h ⊢
  split at h
  · simp only [Option.some.injEq, Prod.mk.injEq] at h
    rw [← h.1] at hy
    exact absurd hy (by simp)
  · obtain ⟨m, h1, h2⟩ := Option.map_eq_some_iff.1 h
    simp only [reduceCtorEq, false_and, if_false, h1, Option.map_some]
    exact congrArg some (congrArg Prod.fst h2)

theorem es_full_dec {env : Env} {o o' : Options} {x y} {st : Option EsState} (hw : x.Wf env.toEnv 7)
    (hy : (esEnc env { o with update_mode := .full } 0 none x).map (·.1) = some y) (hf : y.full_update_flag = true) :
    (esDec env o' st y.wire).1 = arrivalES env o x := by
  have h52 := C52_entity_state o hw
  unfold oneShot at h52
  obtain ⟨⟨y', r⟩, h1, h2⟩ := Option.map_eq_some_iff.1 hy
  dsimp only at h2
  subst h2
  simp only [bodyEnc, esEncodeBody, h1, Option.map_some, Option.some.injEq, bodyDec, esDecodeBody, Dis.Body.entityState.injEq] at h52
  have hyw : y'.entity_location = some (worldEnc env x.entity_location).1 ∧ y'.units = (worldEnc env x.entity_location).2 := by
    unfold esEnc at h1
    simp only [reduceCtorEq, false_and, if_false] at h1
    obtain ⟨m, -, h2⟩ := Option.map_eq_some_iff.1 h1
    have h2 := congrArg Prod.fst h2
    dsimp only at h2
    rw [← h2]
    exact ⟨rfl, rfl⟩
  have e : (esDec env o' st y'.wire).1 = { (esDec env { o with update_mode := .full } none y').1 with entity_location := worldWireQ env x.entity_location } := by
    simp [esDec, Cdis.EntityState.wire, worldWireQ, hyw.1, hyw.2, hf]
  rw [e, h52]
  rfl

theorem es_part_dec {env : Env} {o : Options} {now st x y r} (hm : o.update_mode = .partial) (hf : EntityFits env x)
    (h : esEnc env o now st x = some (y, r)) (hy : y.full_update_flag = false) (sd : Option EsState) :
    (esDec env o sd y.wire).1 = lateES env o ⟨(sd.getD defaultEs).force_id, (sd.getD defaultEs).entity_type,
      (sd.getD defaultEs).entity_location, (sd.getD defaultEs).entity_orientation, (sd.getD defaultEs).entity_appearance,
      (sd.getD defaultEs).entity_marking⟩ x := by
  obtain ⟨z, r', hz, -, -⟩ := es_enc_fits { o with update_mode := .full } 0 none hf
  have hzf : z.full_update_flag = true := by
    unfold esEnc at hz
    simp only [reduceCtorEq, false_and, if_false] at hz
    obtain ⟨m, -, h2⟩ := Option.map_eq_some_iff.1 hz
    have h2 := congrArg Prod.fst h2
    dsimp only at h2
    rw [← h2]
  have ha := es_full_dec (o' := o) (st := none) hf.wf (by rw [hz]; rfl) hzf
  unfold esEnc at h hz
  simp only [reduceCtorEq, false_and, if_false] at hz
  obtain ⟨m, -, h2⟩ := Option.map_eq_some_iff.1 hz
  have h2 := congrArg Prod.fst h2
  dsimp only at h h2
  split at h
  · simp only [Option.some.injEq, Prod.mk.injEq] at h
    have h := h.1
    unfold lateES
    rw [← ha, ← h, ← h2]
    have hcap : UInt32.ofNat ((if o.optimize_mode = .completeness then nz x.entity_capabilities.raw.toNat else none).getD 0) =
        if o.optimize_mode = .completeness then x.entity_capabilities.raw else 0 := by
      split
      · unfold nz
        split
        · rename_i h0
          rw [← UInt32.toNat_inj]
          simpa using h0.symm
        · simp
      · rfl
    simp [esDec, Cdis.EntityState.wire, hm, ← hcap]
  · obtain ⟨m', h3, h4⟩ := Option.map_eq_some_iff.1 h
    have h4 := congrArg Prod.fst h4
    dsimp only at h4
    rw [← h4] at hy
    simp at hy

/-! ### One datagram -/

/-- What the decoder has stored after the datagrams `R`. -/
def storedAfter (env : Env) (F : List Dis.EntityState) : Option EsState :=
  match F.getLast?, F.head? with
  | some l, some f => some ⟨l.force_id, l.entity_type, worldWireQ env l.entity_location, orientQ l.entity_orientation, l.entity_appearance,
      { f.entity_marking with marking_character_set := 1 }⟩
  | _, _ => none
def Recalls (env : Env) (R : List Datagram) (d : DecState) : Prop := ∀ e, d.es e = storedAfter env (fullUpdates e R)

theorem base_stored (env : Env) (F : List Dis.EntityState) :
    (⟨((storedAfter env F).getD defaultEs).force_id, ((storedAfter env F).getD defaultEs).entity_type,
      ((storedAfter env F).getD defaultEs).entity_location, ((storedAfter env F).getD defaultEs).entity_orientation,
      ((storedAfter env F).getD defaultEs).entity_appearance, ((storedAfter env F).getD defaultEs).entity_marking⟩ : Base) = baseOf env F := by
  unfold storedAfter baseOf
  split
  · rfl
  · simp only [Option.getD_none]
    decide +kernel

theorem pdu_runs {env : Env} {o : Options} {p : Dis.Pdu} {now s cb r s'} {wb : Cdis.CdisBody}
    (hb : bodyEnc env o now s p.body = some (cb, r, s'))
    (hst : (p.header.pdu_status.getD {}).Wf p.header.pdu_type)
    (hw : ∀ rest, (Cdis.CdisBody.parse env.toEnv p.header.pdu_type.toNat).run (cb.ser ++ rest) = .ok wb rest) :
    ∃ c w, pduEnc env o now s p = some (c, r, s') ∧ c.body = cb ∧
      (∀ rest, (Cdis.CdisPdu.parse env.toEnv).run (c.ser ++ rest) = .ok w rest) ∧ w.body = wb ∧
      ∀ o' d, (bodyDec env o' d wb).1.pduType = p.header.pdu_type →
        (pduDec env o' d w).1 = received p.header (bodyDec env o' d wb).1 := by
  refine ⟨_, ⟨{ headerEnc p.header with
          length := ((headerEnc p.header).lenBits + cb.lenBits) % 65536 % 2 ^ 14,
          timestamp := (timeEnc p.header.time_stamp).raw % 2 ^ 26 }, wb⟩, by unfold pduEnc; rw [hb]; rfl, rfl, fun rest => ?_, rfl,
          fun o' d ht => ?_⟩
  · have hh := header_wire p.header (((headerEnc p.header).lenBits + cb.lenBits) % 65536) hst (cb.ser ++ rest)
    unfold Cdis.CdisPdu.parse Cdis.CdisPdu.ser
    rw [List.append_assoc, P.run_bind]
    rw [show (Cdis.CdisPdu.finalize (headerEnc p.header) cb none).header =
      { headerEnc p.header with length := ((headerEnc p.header).lenBits + cb.lenBits) % 65536 } from rfl]
    rw [show (Cdis.CdisPdu.finalize (headerEnc p.header) cb none).body = cb from rfl, hh]
    simp only [Res.andThen_ok, P.run_bind, P.run_pure]
    rw [show (headerEnc p.header).pdu_type = p.header.pdu_type.toNat from rfl, hw]
    rfl
  · unfold pduDec Dis.Pdu.finalizeFromParts headerDec headerEnc received
    simp only [UInt8.ofNat_toNat, ht]
    rfl

theorem es_untouched {env : Env} {o : Options} (d : DecState) (b : Cdis.CdisBody) (h : ∀ y, b ≠ .entityState y) :
    (bodyDec env o d b).2.2.es = d.es := by
  cases b with
  | entityState y => exact absurd rfl (h y)
  | electromagneticEmission x => simp only [bodyDec, eeDecodeBody]; split <;> rfl
  | designator x => simp only [bodyDec, desDecodeBody]; split <;> rfl
  | transmitter x => simp only [bodyDec, txDecodeBody]; split <;> rfl
  | iff x => simp only [bodyDec, iffDecodeBody]; split <;> rfl
  | _ => rfl

theorem fullUpdates_snoc (e : Dis.EntityId) (R : List Datagram) (g : Datagram) :
    fullUpdates e (R ++ [g]) = fullUpdates e R ++ (match g.1.body with
      | .entityState x => if g.full = true ∧ x.entity_id = e then [x] else []
      | _ => []) := by
  unfold fullUpdates
  rw [List.filterMap_append]
  congr 1
  rw [List.filterMap_cons]
  cases g.1.body with
  | entityState x => dsimp only; split <;> rename_i h <;> split at h <;> simp_all
  | _ => rfl

theorem storedAfter_snoc (env : Env) (F : List Dis.EntityState) (x : Dis.EntityState) :
    storedAfter env (F ++ [x]) = some (esStore (storedAfter env F) (arrivalES env {} x)) := by
  unfold storedAfter
  cases F with
  | nil => rfl
  | cons a F => 
    cases h : (a :: F).getLast? with
    | none => simp at h
    | some l =>
      rw [List.getLast?_append]
      simp [esStore, EsState.of, arrivalES]

theorem datagram_carried {env : Env} {o : Options} (hm : o.update_mode = .partial) {p : Dis.Pdu} (hp : Sendable env o p)
    {now s c r s'} (he : pduEnc env o now s p = some (c, r, s')) :
    ∃ w, (∀ rest, (Cdis.CdisPdu.parse env.toEnv).run (c.ser ++ rest) = .ok w rest) ∧
      ∀ R d, Recalls env R d → (pduDec env o d w).1 = received p.header (shown env o R (p, c)) ∧
        Recalls env (R ++ [(p, c)]) (pduDec env o d w).2.2 := by
  rcases hp with hp | ⟨hst, ht, x, hx, hf⟩
  · obtain ⟨c', r', s1, e1, w, e2, e3⟩ := C57_pdu hp now s
    rw [he] at e1
    cases e1
    have hne : ∀ x, p.body ≠ .entityState x := by
      intro x hx
      have := hp.2.2
      rw [hx] at this
      exact absurd (hm.symm.trans this.1) (by decide)
    have hsh : ∀ R, shown env o R (p, c) = arrival env o p.body := by
      intro R
      unfold shown
      cases hb : p.body with
      | entityState x => exact absurd hb (hne x)
      | _ => rfl
    have hfu : ∀ e R, fullUpdates e (R ++ [(p, c)]) = fullUpdates e R := by
      intro e R
      rw [fullUpdates_snoc]
      dsimp only
      cases hb : p.body with
      | entityState x => exact absurd hb (hne x)
      | _ => simp
    have hwb : ∀ y, w.body ≠ .entityState y := by
      intro y hy
      have e := congrArg Dis.Pdu.body (e3 o {})
      unfold pduDec at e
      rw [hy] at e
      simp only [Dis.Pdu.finalizeFromParts, received, bodyDec, esDecodeBody] at e
      cases hb : p.body with
      | entityState x => exact hne x hb
      | _ => rw [hb] at e; simp only [arrival, reduceCtorEq] at e
    refine ⟨w, e2, fun R d hR => ⟨by rw [hsh]; exact e3 o d, fun e => ?_⟩⟩
    rw [hfu, ← hR e, show (pduDec env o d w).2.2.es = d.es from es_untouched d w.body hwb]
  · obtain ⟨y, r0, h1, h2, h3⟩ := es_enc_fits o now (s.es x.entity_id) hf
    have hb : bodyEnc env o now s p.body = some (.entityState y, r0, if r0 = .entityState then { s with es := s.es.set x.entity_id now } else s) := by
      rw [hx]
      simp only [bodyEnc, esEncodeBody, h1, Option.map_some]
    obtain ⟨c', w, a1, a2, a3, a4, a5⟩ := pdu_runs (wb := (Cdis.CdisBody.entityState y).wire) hb hst
      (fun rest => Cdis.CdisBody.run (env := env.toEnv) (t := p.header.pdu_type.toNat) (b := .entityState y) ⟨by rw [ht]; rfl, h2⟩ rest)
    rw [he] at a1
    cases a1
    have hbw : (Cdis.CdisBody.entityState y).wire = .entityState y.wire := rfl
    rw [hbw] at a4 a5
    have hfl : Datagram.full (p, c) = y.full_update_flag := by unfold Datagram.full; dsimp only; rw [a2]
    have hkey : eidDec y.wire.entity_id = x.entity_id := h3
    refine ⟨w, a3, fun R d hR => ?_⟩
    have hdec : (esDec env o (d.es x.entity_id) y.wire).1 =
        if y.full_update_flag then arrivalES env o x else lateES env o (baseOf env (fullUpdates x.entity_id R)) x := by
      cases hy : y.full_update_flag with
      | true => exact es_full_dec hf.wf (es_full_same h1 hy) hy
      | false =>
        rw [es_part_dec hm hf h1 hy, hR, base_stored]
        rfl
    refine ⟨?_, fun e => ?_⟩
    · rw [a5 o d (by rw [ht]; rfl)]
      unfold shown
      dsimp only
      rw [hx, hfl]
      simp only [bodyDec, esDecodeBody, hkey, hdec]
    · rw [show (pduDec env o d w).2.2 = (bodyDec env o d w.body).2.2 from rfl, a4]
      rw [fullUpdates_snoc]
      dsimp only
      rw [hx]
      dsimp only
      rw [hfl]
      simp only [bodyDec, esDecodeBody, hkey]
      have hres : (esDec env o (d.es x.entity_id) y.wire).2 = if y.full_update_flag = true then .entityState else .unaffected := by
        simp [esDec, hm, Cdis.EntityState.wire]
      rw [hres, hdec]
      cases hy : y.full_update_flag with
      | false => simp [hR e]
      | true =>
        simp only [if_true, true_and]
        by_cases hxe : x.entity_id = e
        · subst hxe
          simp only [Map.set, if_true]
          rw [storedAfter_snoc, hR]
          rfl
        · rw [if_neg hxe, List.append_nil]
          simp only [Map.set]
          rw [if_neg (fun h => hxe h.symm), hR]

/-! ### The network -/

theorem receive_carried {env : Env} {o : Options} (hm : o.update_mode = .partial) :
    ∀ (net R : List Datagram) (d : DecState), Recalls env R d →
      (∀ g ∈ net, Sendable env o g.1 ∧ ∃ now s r s', pduEnc env o now s g.1 = some (g.2, r, s')) →
      receive env o d (net.map fun g => packBits g.2.ser) =
        net.mapIdx fun k g => received g.1.header (shown env o (R ++ net.take k) g) := by
  intro net
  induction net with
  | nil => exact fun _ _ _ _ => rfl
  | cons g net ih =>
    intro R d hR h
    obtain ⟨hs, now, s, r, s', he⟩ := h g (by simp)
    obtain ⟨w, h1, h2⟩ := datagram_carried hm hs he
    obtain ⟨k, hk, e⟩ := bitsOf_pack g.2.ser
    have hp : Cdis.parsePackets env.toEnv (packBits g.2.ser) = some [w] := by
      unfold Cdis.parsePackets
      have := (C36_parse_iff env.toEnv _ _ [w]).2 ⟨.cons (h1 (List.replicate k false)) (.nil _), by simp,
        pdu_short (by rw [List.length_replicate]; omega)⟩
      rw [e, this]
    obtain ⟨h3, h4⟩ := h2 R d hR
    rw [List.map_cons, receive, hp]
    have h5 := ih (R ++ [g]) _ h4 (fun g' hg' => h g' (by simp [hg']))
    simp only [decStream, List.singleton_append, List.mapIdx_cons, List.take_zero, List.append_nil, List.take_succ_cons, h3, h5]
    simp

theorem sent_each {env : Env} {o : Options} : ∀ (sent : List (Nat × Dis.Pdu)) (s : EncState) {out s'},
    encStream env o s sent = some (out, s') →
    ∀ g ∈ (sent.map (·.2)).zip out, (∃ t, (t, g.1) ∈ sent) ∧ ∃ now s r s', pduEnc env o now s g.1 = some (g.2, r, s') := by
  intro sent
  induction sent with
  | nil => intro s out s' h g hg; simp at hg
  | cons e sent ih =>
    obtain ⟨now, p⟩ := e
    intro s out s' h g hg
    unfold encStream at h
    obtain ⟨⟨c, r, s1⟩, h1, h2⟩ := Option.bind_eq_some_iff.1 h
    obtain ⟨⟨out', s2⟩, h3, h4⟩ := Option.map_eq_some_iff.1 h2
    cases h4
    rw [List.map_cons, List.zip_cons_cons, List.mem_cons] at hg
    rcases hg with rfl | hg
    · exact ⟨⟨now, by simp⟩, now, s, r, s1, h1⟩
    · obtain ⟨⟨t, a⟩, b⟩ := ih s1 h3 g hg
      exact ⟨⟨t, by simp [a]⟩, b⟩

/-- An encoder in partial-update mode does not fail on such PDUs. -/
theorem sendable_encodes {env : Env} {o : Options} : ∀ (sent : List (Nat × Dis.Pdu)) (s : EncState),
    (∀ e ∈ sent, Sendable env o e.2) → ∃ out s', encStream env o s sent = some (out, s') := by
  intro sent
  induction sent with
  | nil => exact fun s _ => ⟨[], s, rfl⟩
  | cons e sent ih =>
    obtain ⟨now, p⟩ := e
    intro s h
    have : ∃ c r s1, pduEnc env o now s p = some (c, r, s1) := by
      rcases h (now, p) (by simp) with hp | ⟨hst, ht, x, hx, hf⟩
      · obtain ⟨c, r, s1, e1, -⟩ := C57_pdu hp now s
        exact ⟨c, r, s1, e1⟩
      · obtain ⟨y, r0, h1, -, -⟩ := es_enc_fits o now (s.es x.entity_id) hf
        dsimp only at hx
        exact ⟨_, _, _, by unfold pduEnc; rw [hx]; simp only [bodyEnc, esEncodeBody, h1, Option.map_some]; rfl⟩
    obtain ⟨c, r, s1, h1⟩ := this
    obtain ⟨out, s', h2⟩ := ih s1 (fun e he => h e (by simp [he]))
    exact ⟨c :: out, s', by unfold encStream; rw [h1]; simp [h2]⟩

/-- **C61.** An encoder in partial-update mode is fed any Entity States that C-DIS can carry, and PDUs of kinds without a history, at any
times; each result is a datagram.  The network delivers any selection of the datagrams, any of them any number of times, in any order.
The receiver hands over one PDU for every datagram, in order: for a full update what was sent, rounded; for a partial update what was
sent, but for force, type, location, orientation and appearance, which are those of the last full update of the entity that arrived
before, and the marking, which is that of the first. -/
theorem C61_network {env : Env} {o : Options} (hm : o.update_mode = .partial) {sent : List (Nat × Dis.Pdu)}
    (hs : ∀ e ∈ sent, Sendable env o e.2) :
    ∃ out s', encStream env o {} sent = some (out, s') ∧ out.length = sent.length ∧
      ∀ net : List Datagram, (∀ g ∈ net, g ∈ (sent.map (·.2)).zip out) →
        receive env o {} (net.map fun g => packBits g.2.ser) =
          net.mapIdx fun k g => received g.1.header (shown env o (net.take k) g) := by
  obtain ⟨out, s', h⟩ := sendable_encodes sent {} hs
  refine ⟨out, s', h, ?_, fun net hn => ?_⟩
  · exact encStream_length h
  · have := receive_carried hm net [] {} (fun e => rfl) (fun g hg => by
      obtain ⟨⟨t, a⟩, b⟩ := sent_each sent {} h g (hn g hg)
      exact ⟨hs _ a, b⟩)
    simpa using this

/-- The six fields that a partial update leaves out. -/
def sameStatic (x y : Dis.EntityState) : Prop :=
  x.force_id = y.force_id ∧ x.entity_type = y.entity_type ∧ x.entity_location = y.entity_location ∧
    x.entity_orientation = y.entity_orientation ∧ x.entity_appearance = y.entity_appearance ∧
    x.entity_marking.marking_string = y.entity_marking.marking_string

theorem late_settled {env : Env} {o : Options} {x : Dis.EntityState} (hw : x.Wf env.toEnv 7) {F : List Dis.EntityState} (hF : F ≠ [])
    (h : ∀ y ∈ F, sameStatic y x) : lateES env o (baseOf env F) x = arrivalES env o x := by
  cases hl : F.getLast? with
  | none => exact absurd (List.getLast?_eq_none_iff.1 hl) hF
  | some l =>
    cases hh : F.head? with
    | none => exact absurd (List.head?_eq_none_iff.1 hh) hF
    | some f =>
      obtain ⟨a1, a2, a3, a4, a5, -⟩ := h l (List.mem_of_getLast? hl)
      obtain ⟨-, -, -, -, -, a6⟩ := h f (List.mem_of_head? hh)
      unfold baseOf
      rw [hl, hh]
      unfold lateES
      dsimp only
      rw [a1, a2, a3, a4, a5, a6]
      have hc : Dis.EntityCapabilities.fromBytes env.toEnv
          (if o.optimize_mode = .completeness then x.entity_capabilities.raw else 0) x.entity_type =
          if o.optimize_mode = .completeness then x.entity_capabilities else { x.entity_capabilities with raw := 0 } := by
        rcases hw.capabilities with ⟨_, hk, hx⟩ | ⟨_, hk, h1, h2⟩ | ⟨h6, _⟩
        · unfold Dis.EntityCapabilities.fromBytes
          rw [if_pos hk, hx]
          split <;> rfl
        · split
          · exact Dis.EntityCapabilities.fromBytes_eq hk h1 h2
          · exact Dis.EntityCapabilities.fromBytes_eq (x := { x.entity_capabilities with raw := 0 }) hk h1
              (fun _ => by simp)
        · exact absurd h6 (by decide)
      rw [hc]
      rfl

/-- **C61.** An entity whose force, type, location, orientation, appearance and marking text stay the same: once one full update of it has arrived,
every later datagram of it, full or partial, is handed over as in full-update mode, whatever was lost, repeated or reordered. -/
theorem C61_settled {env : Env} {o : Options} (hm : o.update_mode = .partial) {sent : List (Nat × Dis.Pdu)}
    (hs : ∀ e ∈ sent, Sendable env o e.2) {out s'} (he : encStream env o {} sent = some (out, s'))
    {net : List Datagram} (hn : ∀ g ∈ net, g ∈ (sent.map (·.2)).zip out)
    {k : Nat} {g : Datagram} {x : Dis.EntityState} (hg : net[k]? = some g) (hx : g.1.body = .entityState x)
    (hsame : ∀ t p y, (t, p) ∈ sent → p.body = .entityState y → y.entity_id = x.entity_id → sameStatic y x)
    (hfull : ∃ j g' y, j < k ∧ net[j]? = some g' ∧ g'.full = true ∧ g'.1.body = .entityState y ∧ y.entity_id = x.entity_id) :
    (receive env o {} (net.map fun g => packBits g.2.ser))[k]? = some (received g.1.header (arrival env o g.1.body)) := by
  obtain ⟨out', s1, h1, -, h2⟩ := C61_network hm hs
  rw [he] at h1
  cases h1
  rw [h2 net hn, List.getElem?_mapIdx, hg, Option.map_some, hx]
  have ha : arrival env o (.entityState x) = .entityState (arrivalES env o x) := rfl
  rw [ha]
  unfold shown
  rw [hx]
  dsimp only
  obtain ⟨⟨t, ht⟩, -⟩ := sent_each sent {} he g (hn g (List.mem_of_getElem? hg))
  have hw : x.Wf env.toEnv 7 := by
    rcases hs _ ht with hp | ⟨-, -, x', hx', hf⟩
    · have := hp.2.2
      dsimp only at this
      rw [hx] at this
      exact this.2.wf
    · dsimp only at hx'
      rw [hx] at hx'
      cases hx'
      exact hf.wf
  split
  · rfl
  · rw [late_settled hw]
    · obtain ⟨j, g', y, hj, hg', hf', hb', hid⟩ := hfull
      refine List.ne_nil_of_mem (a := y) ?_
      unfold fullUpdates
      rw [List.mem_filterMap]
      refine ⟨g', List.mem_of_getElem? (i := j) (by rw [List.getElem?_take, if_pos hj]; exact hg'), ?_⟩
      rw [hb']
      simp [hf', hid]
    · intro y hy
      unfold fullUpdates at hy
      obtain ⟨g', hg', hy'⟩ := List.mem_filterMap.1 hy
      cases hb : g'.1.body with
      | entityState z =>
        rw [hb] at hy'
        dsimp only at hy'
        split at hy'
        · rename_i hz
          cases hy'
          obtain ⟨⟨t', ht'⟩, -⟩ := sent_each sent {} he g' (hn g' (List.mem_of_mem_take hg'))
          exact hsame t' g'.1 y ht' hb hz.2
        · cases hy'
      | _ => rw [hb] at hy'; cases hy'

/-- **C61.** The first full update is lost: what is handed over for a partial update has force 0, an all-zero type, the location and
orientation (0, 0, 0), an empty appearance and the marking "Marking", whatever was sent. -/
theorem C61_first_lost {env : Env} {o : Options} (hm : o.update_mode = .partial) {sent : List (Nat × Dis.Pdu)}
    (hs : ∀ e ∈ sent, Sendable env o e.2) {out s'} (he : encStream env o {} sent = some (out, s'))
    {net : List Datagram} (hn : ∀ g ∈ net, g ∈ (sent.map (·.2)).zip out)
    {k : Nat} {g : Datagram} {x : Dis.EntityState} (hg : net[k]? = some g) (hx : g.1.body = .entityState x) (hp : g.full = false)
    (hno : ∀ j g' y, j < k → net[j]? = some g' → g'.full = true → g'.1.body = .entityState y → y.entity_id ≠ x.entity_id) :
    ∃ q z, (receive env o {} (net.map fun g => packBits g.2.ser))[k]? = some q ∧ q.body = .entityState z ∧ z.entity_id = x.entity_id ∧
      z.force_id = 0 ∧ z.entity_type = ⟨0, 0, 0, 0, 0, 0, 0⟩ ∧ z.entity_location = ⟨0, 0, 0⟩ ∧ z.entity_orientation = ⟨0, 0, 0⟩ ∧
      z.entity_appearance.raw = 0 ∧ z.entity_marking = ⟨1, "Marking".toUTF8.toList⟩ := by
  obtain ⟨out', s1, h1, -, h2⟩ := C61_network hm hs
  rw [he] at h1
  cases h1
  rw [h2 net hn, List.getElem?_mapIdx, hg, Option.map_some]
  have hF : fullUpdates x.entity_id (net.take k) = [] := by
    rw [List.eq_nil_iff_forall_not_mem]
    intro y hy
    unfold fullUpdates at hy
    obtain ⟨g', hg', hy'⟩ := List.mem_filterMap.1 hy
    obtain ⟨j, hj⟩ := List.getElem?_of_mem hg'
    rw [List.getElem?_take] at hj
    split at hj
    · rename_i hjk
      cases hb : g'.1.body with
      | entityState z =>
        rw [hb] at hy'
        dsimp only at hy'
        split at hy'
        · rename_i hz
          exact hno j g' z hjk hj hz.1 hb hz.2
        · cases hy'
      | _ => rw [hb] at hy'; cases hy'
    · cases hj
  refine ⟨_, lateES env o unknownBase x, rfl, ?_, ?_⟩
  · unfold shown
    rw [hx]
    dsimp only
    rw [hp, hF]
    rfl
  · exact ⟨rfl, rfl, rfl, rfl, rfl, rfl, rfl⟩

/-- **C61.** A full update that is delivered late, or twice, takes the place of a newer one: nothing in the receiver compares the
timestamps.  Whatever else the network delivered, the location handed over for a partial update is the one in the full update of the entity
that was delivered last. -/
theorem C61_last_delivered {env : Env} {o : Options} (hm : o.update_mode = .partial) {sent : List (Nat × Dis.Pdu)}
    (hs : ∀ e ∈ sent, Sendable env o e.2) {out s'} (he : encStream env o {} sent = some (out, s'))
    {R between rest : List Datagram} {f g : Datagram} (hn : ∀ d ∈ R ++ f :: between ++ g :: rest, d ∈ (sent.map (·.2)).zip out)
    {old x : Dis.EntityState} (hf : f.full = true) (hfo : f.1.body = .entityState old) (hid : old.entity_id = x.entity_id)
    (hb : ∀ d ∈ between, ∀ y, d.1.body = .entityState y → d.full = true → y.entity_id ≠ x.entity_id)
    (hg : g.full = false) (hx : g.1.body = .entityState x) :
    ∃ q z, (receive env o {} ((R ++ f :: between ++ g :: rest).map fun g => packBits g.2.ser))[R.length + 1 + between.length]? = some q ∧
      q.body = .entityState z ∧ z.entity_location = worldWireQ env old.entity_location ∧ z.entity_type = old.entity_type ∧
      z.force_id = old.force_id ∧ z.entity_orientation = orientQ old.entity_orientation ∧ z.entity_appearance = old.entity_appearance := by
  obtain ⟨out', s1, h1, -, h2⟩ := C61_network hm hs
  rw [he] at h1
  cases h1
  have hk : (R ++ f :: between ++ g :: rest)[R.length + 1 + between.length]? = some g := by
    rw [List.getElem?_append_right (by simp; omega)]
    simp [show R.length + 1 + between.length - (R.length + (between.length + 1)) = 0 by omega]
  have ht : (R ++ f :: between ++ g :: rest).take (R.length + 1 + between.length) = R ++ f :: between := by
    rw [List.take_left' (by simp; omega)]
  rw [h2 _ hn, List.getElem?_mapIdx, hk, Option.map_some, ht]
  have hbt : fullUpdates x.entity_id between = [] := by
    rw [List.eq_nil_iff_forall_not_mem]
    intro y hy
    unfold fullUpdates at hy
    obtain ⟨g', hg', hy'⟩ := List.mem_filterMap.1 hy
    cases hb' : g'.1.body with
    | entityState z =>
      rw [hb'] at hy'
      dsimp only at hy'
      split at hy'
      · rename_i hz
        exact hb g' hg' z hb' hz.1 hz.2
      · cases hy'
    | _ => rw [hb'] at hy'; cases hy'
  have hF : fullUpdates x.entity_id (R ++ f :: between) = fullUpdates x.entity_id R ++ [old] := by
    rw [show R ++ f :: between = (R ++ [f]) ++ between by simp]
    have happ : ∀ A B, fullUpdates x.entity_id (A ++ B) = fullUpdates x.entity_id A ++ fullUpdates x.entity_id B := by
      intro A B
      unfold fullUpdates
      rw [List.filterMap_append]
    rw [happ, hbt, List.append_nil, fullUpdates_snoc, hfo]
    simp [hf, hid]
  refine ⟨_, lateES env o (baseOf env (fullUpdates x.entity_id R ++ [old])) x, rfl, ?_, ?_⟩
  · unfold shown
    rw [hx]
    dsimp only
    rw [hg, hF]
    rfl
  · have : baseOf env (fullUpdates x.entity_id R ++ [old]) = ⟨old.force_id, old.entity_type, worldWireQ env old.entity_location,
        orientQ old.entity_orientation, old.entity_appearance, (baseOf env (fullUpdates x.entity_id R ++ [old])).entity_marking⟩ := by
      unfold baseOf
      rw [List.getLast?_append]
      cases hh : (fullUpdates x.entity_id R ++ [old]).head? with
      | none => simp at hh
      | some f => rfl
    rw [this]
    exact ⟨rfl, rfl, rfl, rfl, rfl⟩

/-! ### Cases that meet the hypotheses -/

/-- the tank at five moments in partial-update mode, and a Remove Entity PDU -/
def lossySent : List (Nat × Dis.Pdu) :=
  sampleHistory (.entityState sent_entity) 1 ++ [(32000000000, ⟨sampleFor 12, .removeEntity sample_removeEntity⟩)]
theorem lossySent_sendable : ∀ e ∈ lossySent, Sendable codecEnv { update_mode := .partial } e.2 := by
  have hs : ∀ t : UInt8, ((sampleFor t).pdu_status.getD {}).Wf (sampleFor t).pdu_type := fun t => C02_read_wf t 0x02
  intro e he
  simp only [lossySent, sampleHistory, List.cons_append, List.nil_append, List.mem_cons, List.not_mem_nil, or_false] at he
  rcases he with rfl | rfl | rfl | rfl | rfl | rfl
  all_goals first
    | exact .inr ⟨hs 1, rfl, _, rfl, sent_entity_fits⟩
    | exact .inl ⟨rfl, hs 12, trivial⟩
/-- Full, partial, partial, full, partial, and the other PDU. -/
theorem lossySent_full : (encStream codecEnv { update_mode := .partial } {} lossySent).map
    (fun r => ((lossySent.map (·.2)).zip r.1).map Datagram.full) = some [true, false, false, true, false, false] := by decide +kernel

example := C61_network rfl lossySent_sendable

/-- the datagrams 2, 0, 1, 1, 4 of the six: the first has nothing to stand on, the others show what was sent -/
example : ∃ out s', encStream codecEnv { update_mode := .partial } {} lossySent = some (out, s') ∧
    ∀ g0 g1 g2 g4, ((lossySent.map (·.2)).zip out)[0]? = some g0 → ((lossySent.map (·.2)).zip out)[1]? = some g1 →
      ((lossySent.map (·.2)).zip out)[2]? = some g2 → ((lossySent.map (·.2)).zip out)[4]? = some g4 →
      (receive codecEnv { update_mode := .partial } {} ([g2, g0, g1, g1, g4].map fun g => packBits g.2.ser)).length = 5 := by
  obtain ⟨out, s', h1, -, h2⟩ := C61_network rfl lossySent_sendable
  refine ⟨out, s', h1, fun g0 g1 g2 g4 e0 e1 e2 e4 => ?_⟩
  rw [h2]
  · simp
  · intro g hg
    simp only [List.mem_cons, List.not_mem_nil, or_false] at hg
    rcases hg with rfl | rfl | rfl | rfl | rfl
    · exact List.mem_of_getElem? e2
    · exact List.mem_of_getElem? e0
    · exact List.mem_of_getElem? e1
    · exact List.mem_of_getElem? e1
    · exact List.mem_of_getElem? e4

/-- delivered: full, partial of the same tank: settled -/
example : ∃ (out : List Cdis.CdisPdu) (s' : EncState) (g0 g1 : Datagram), encStream codecEnv { update_mode := .partial } {} lossySent = some (out, s') ∧
    g0.full = true ∧ g1.full = false ∧
    (receive codecEnv { update_mode := .partial } {} ([g0, g1].map fun g => packBits g.2.ser))[1]? =
      some (received g1.1.header (arrival codecEnv { update_mode := .partial } g1.1.body)) := by
  have hF := lossySent_full
  obtain ⟨out, s', h1⟩ := sendable_encodes lossySent {} lossySent_sendable
  rw [h1] at hF
  simp only [Option.map_some, Option.some.injEq] at hF
  have hz : ∀ k, k < 6 → ∃ g : Datagram, ((lossySent.map (·.2)).zip out)[k]? = some g ∧ some g.full = [true, false, false, true, false, false][k]? := by
    intro k hk
    have hl : ((lossySent.map (·.2)).zip out).length = 6 := by
      have := congrArg List.length hF
      simpa using this
    refine ⟨_, List.getElem?_eq_getElem (by omega), ?_⟩
    rw [← hF, List.getElem?_map, List.getElem?_eq_getElem (by omega)]
    rfl
  obtain ⟨g0, a0, f0⟩ := hz 0 (by decide)
  obtain ⟨g1, a1, f1⟩ := hz 1 (by decide)
  simp at f0 f1
  have hb : ∀ (k : Nat) (g : Datagram), k < 5 → ((lossySent.map (·.2)).zip out)[k]? = some g → g.1.body = .entityState sent_entity := by
    intro k g hk hg
    have := (List.getElem?_zip_eq_some.1 hg).1
    simp only [lossySent, sampleHistory, List.map_cons, List.cons_append, List.nil_append, List.map_nil] at this
    have : k = 0 ∨ k = 1 ∨ k = 2 ∨ k = 3 ∨ k = 4 := by omega
    rcases this with rfl | rfl | rfl | rfl | rfl <;> simp_all <;> simp [← this]
  refine ⟨out, s', g0, g1, h1, f0, f1, ?_⟩
  refine C61_settled rfl lossySent_sendable h1 (net := [g0, g1]) ?_ (k := 1) rfl (hb 1 g1 (by decide) a1) ?_
    ⟨0, g0, sent_entity, by decide, rfl, f0, hb 0 g0 (by decide) a0, rfl⟩
  · intro g hg
    simp only [List.mem_cons, List.not_mem_nil, or_false] at hg
    rcases hg with rfl | rfl
    exacts [List.mem_of_getElem? a0, List.mem_of_getElem? a1]
  · intro t p y hp hy _
    simp only [lossySent, sampleHistory, List.cons_append, List.nil_append, List.mem_cons, List.not_mem_nil, or_false, Prod.mk.injEq] at hp
    rcases hp with ⟨-, rfl⟩ | ⟨-, rfl⟩ | ⟨-, rfl⟩ | ⟨-, rfl⟩ | ⟨-, rfl⟩ | ⟨-, rfl⟩ <;> cases hy <;> exact ⟨rfl, rfl, rfl, rfl, rfl, rfl⟩

end Verif.Props
