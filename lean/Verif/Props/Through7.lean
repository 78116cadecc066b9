import Verif.Props.Through6
/-! # C57: what arrives at the far end

A DIS PDU is encoded by an encoder in any state, written as C-DIS octets together with others, read from the octets and decoded by a
decoder in any state.  `FitsWire` says which bodies C-DIS can carry, `arrival` what each arrives as. -/
namespace Verif.Props
open Verif.Codec

/-- the bodies that C-DIS can carry; the five kinds with a history only in full-update mode -/
def FitsWire (env : Env) (o : Options) : Dis.Body → Prop
  | .entityState x => o.update_mode = .full ∧ EntityFits env x
  | .fire x => DescFits x.descriptor ∧ WorldFits env x.location_in_world
  | .detonation x => DescFits x.descriptor ∧ WorldFits env x.location_in_world_coordinates ∧ x.variable_parameters.length ≤ 255 ∧
      ∀ p ∈ x.variable_parameters, ParameterFits p
  | .actionRequest x => DatumsFit x.fixed_datum_records x.variable_datum_records
  | .actionResponse x => DatumsFit x.fixed_datum_records x.variable_datum_records
  | .setData x => DatumsFit x.fixed_datum_records x.variable_datum_records
  | .data x => DatumsFit x.fixed_datum_records x.variable_datum_records
  | .eventReport x => DatumsFit x.fixed_datum_records x.variable_datum_records
  | .dataQuery x => x.fixed_datum_records.length ≤ 255 ∧ x.variable_datum_records.length ≤ 255
  | .comment x => DatumsFit [] x.variable_datum_records
  | .electromagneticEmission x => o.update_mode = .full ∧ x.emitter_systems = [] ∧ x.state_update_indicator < 2
  | .designator x => o.update_mode = .full ∧ DesignatorFits env x
  | .transmitter x => o.update_mode = .full ∧ TransmitterFits env x
  | .signal x => schemeClass x.encoding_scheme < 4 ∧ x.data.length ≤ 2047
  | .receiver x => PowerFits x.received_power
  | .iff x => o.update_mode = .full ∧ IffFits env x
  | .collision _ | .createEntity _ | .removeEntity _ | .startResume _ | .stopFreeze _ | .acknowledge _ => True
  | _ => False

/-- what a body arrives as -/
def arrival (env : Env) (o : Options) : Dis.Body → Dis.Body
  | .entityState x => .entityState { x with
      entity_linear_velocity :=
        if x.dead_reckoning_parameters.algorithm = 0 ∨ x.dead_reckoning_parameters.algorithm = 1 then zeroVec
        else linQ x.entity_linear_velocity
      entity_location := worldWireQ env x.entity_location, entity_orientation := orientQ x.entity_orientation
      dead_reckoning_parameters :=
        { x.dead_reckoning_parameters with
          other_parameters := otherQ x.dead_reckoning_parameters.algorithm x.dead_reckoning_parameters.other_parameters
          linear_acceleration := accQ x.dead_reckoning_parameters.algorithm x.dead_reckoning_parameters.linear_acceleration
          angular_velocity := if x.dead_reckoning_parameters.algorithm ∈ [3, 4, 7, 8]
            then angVelQ x.dead_reckoning_parameters.angular_velocity else zeroVec }
      entity_marking := { x.entity_marking with marking_character_set := 1 }
      entity_capabilities := if o.optimize_mode = .completeness then x.entity_capabilities
        else { x.entity_capabilities with raw := 0 }
      variable_parameters := x.variable_parameters.map vpQ }
  | .fire x => .fire { x with
      location_in_world := worldWireQ env x.location_in_world, descriptor := fireDescQ x.descriptor,
      velocity := linQ x.velocity, range := rangeQ x.range }
  | .detonation x => .detonation { x with
      velocity := linQ x.velocity, location_in_world_coordinates := worldWireQ env x.location_in_world_coordinates,
      descriptor := detonationDescQ x.descriptor, location_in_entity_coordinates := coordQ x.location_in_entity_coordinates,
      variable_parameters := x.variable_parameters.map vpQ }
  | .collision x => .collision { x with
      collision_type := if x.collision_type = 1 then 1 else 0
      velocity := linQ x.velocity, mass := massQ x.mass, location := coordQ x.location }
  | .stopFreeze x => .stopFreeze
      { x with reason := x.reason % 16, frozen_behavior := env.frozenByte (env.frozenFlags x.frozen_behavior) }
  | .acknowledge x => .acknowledge { x with acknowledge_flag := x.acknowledge_flag % 8, response_flag := x.response_flag % 4 }
  | .dataQuery x => .dataQuery { x with time_interval := timeWireQ x.time_interval }
  | .designator x => .designator { x with
      power := wholeQ x.power, wavelength := wholeQ x.wavelength,
      spot_wrt_designated_entity := coordQ x.spot_wrt_designated_entity,
      spot_location := worldWireQ env x.spot_location,
      linear_acceleration := linQ x.linear_acceleration }
  | .transmitter x => .transmitter { x with
      antenna_location := worldWireQ env x.antenna_location, relative_antenna_location := coordQ x.relative_antenna_location,
      antenna_pattern_type := if x.antenna_pattern.isSome then x.antenna_pattern_type else 0,
      frequency := txFreqQ x.frequency, transmit_frequency_bandwidth := bandwidthQ x.transmit_frequency_bandwidth,
      power := txPowerQ x.power,
      crypto_key_id := if x.crypto_system = 0 then [0, 0] else x.crypto_key_id,
      modulation_parameters := some (x.modulation_parameters.getD []),
      antenna_pattern := some ((x.antenna_pattern.map patternQ).getD ⟨⟨0, 0, 0⟩, 0, 0, 0, 0, 0, 0⟩) }
  | .signal x => .signal { x with
      encoding_scheme := schemeWireQ x.encoding_scheme, tdl_type := x.tdl_type % 256,
      sample_rate := if isAudio x.encoding_scheme then x.sample_rate else 0,
      samples := if isAudio x.encoding_scheme then x.samples else 0 }
  | .receiver x => .receiver { x with receiver_state := x.receiver_state % 4, received_power := powerQ x.received_power }
  | .iff x => .iff { x with
      relative_antenna_location := coordQ x.relative_antenna_location
      fundamental_operational_data := operationalQ x.fundamental_operational_data
      layer_2 := x.layer_2.map layer2WireQ, layer_3 := x.layer_3.map layer3Q
      layer_4 := x.layer_4.map layer4Q, layer_5 := x.layer_5.map layer5Q }
  | b => b

/-- a PDU that C-DIS can carry: the header is of the type of the body, its status is one of that type, and the body fits -/
def PduFits (env : Env) (o : Options) (p : Dis.Pdu) : Prop :=
  p.header.pdu_type = p.body.pduType ∧ (p.header.pdu_status.getD {}).Wf p.header.pdu_type ∧ FitsWire env o p.body

theorem arrives_emission {env : Env} {o : Options} {h : Dis.PduHeader} (hst : (h.pdu_status.getD {}).Wf h.pdu_type)
    (hm : o.update_mode = .full) (x : Dis.ElectromagneticEmission) (ht : h.pdu_type = 23) (he : x.emitter_systems = [])
    (hi : x.state_update_indicator < 2) :
    Arrives env o ⟨h, .electromagneticEmission x⟩ (received h (.electromagneticEmission x)) := by
  have ee : eeEnc o 0 none x = (⟨true, eidEnc x.emitting_entity_id, evidEnc x.event_id, x.state_update_indicator.toNat, [], [], [], []⟩, .unaffected) := by
    obtain ⟨a, b, c, d⟩ := x
    cases he
    simp [eeEnc, hm, paramsFull, beamsFull, pairsOf, allBeams, sortDedup, dedup]
  have hb : ∀ now s, (bodyEnc env o now s (.electromagneticEmission x)).map (·.1) = some (.electromagneticEmission (eeEnc o 0 none x).1) := by
    intro now s
    simp [bodyEnc, eeEncodeBody, eeEnc, hm]
  refine arrives_fit (o1 := o) _ (.electromagneticEmission (eeEnc o 0 none x).1) hb hst rfl ?_ ?_ ?_ ht.symm
  · refine ⟨by rw [ht]; rfl, ?_⟩
    rw [ee]
    exact ⟨eid_wf _, evid_wf _, hi, (by decide : 0 < 2 ^ 5), (by decide : 0 < 2 ^ 5), (by decide : 0 < 2 ^ 5), by simp, by simp, by simp, rfl⟩
  · rw [ee]; rfl
  · rw [ee]
    obtain ⟨a, b, c, d⟩ := x
    cases he
    simp [bodyDec, eeDecodeBody, eeDec, Cdis.CdisBody.wire, Cdis.ElectromagneticEmission.wire, eid_rt, evid_rt]

/-- **C57.** One PDU. -/
theorem C57_pdu {env : Env} {o : Options} {p : Dis.Pdu} (h : PduFits env o p) :
    Arrives env o p (received p.header (arrival env o p.body)) := by
  obtain ⟨hd, body⟩ := p
  obtain ⟨ht, hst, hf⟩ := h
  dsimp only at ht hst hf ⊢
  cases body with
  | entityState x => exact arrives_entity hst hf.1 x ht hf.2
  | fire x => exact arrives_fire hst x ht hf.1 hf.2
  | detonation x => exact arrives_detonation hst x ht hf.1 hf.2.1 hf.2.2.1 hf.2.2.2
  | collision x => exact arrives_collision hst x ht
  | createEntity x => exact arrives_create hst x ht
  | removeEntity x => exact arrives_remove hst x ht
  | startResume x => exact arrives_start hst x ht
  | stopFreeze x => exact arrives_stop hst x ht
  | acknowledge x => exact arrives_ack hst x ht
  | actionRequest x => exact arrives_action hst x ht hf
  | actionResponse x => exact arrives_response hst x ht hf
  | dataQuery x => exact arrives_query hst x ht hf
  | setData x => exact arrives_setData hst x ht hf
  | data x => exact arrives_data hst x ht hf
  | eventReport x => exact arrives_event hst x ht hf
  | comment x => exact arrives_comment hst x ht hf
  | electromagneticEmission x => exact arrives_emission hst hf.1 x ht hf.2.1 hf.2.2
  | designator x => exact arrives_designator hst hf.1 x ht hf.2
  | transmitter x => exact arrives_transmitter hst hf.1 x ht hf.2
  | signal x => exact arrives_signal hst x ht hf.1 hf.2
  | receiver x => exact arrives_receiver hst x ht hf
  | iff x => exact arrives_iff hst hf.1 x ht hf.2
  | _ => exact hf.elim

/-- **C57.** Any sequence of PDUs that C-DIS can carry is encoded, by an encoder in any state, without a panic; its octets are read
completely; and a decoder in any state and mode hands over as many PDUs in the same order, each of them what `arrival` says. -/
theorem C57_packet {env : Env} {o : Options} (o' : Options) {hist : List (Nat × Dis.Pdu)} (hn : hist ≠ [])
    (h : ∀ e ∈ hist, PduFits env o e.2) (s : EncState) (d : DecState) :
    ∃ out s', encStream env o s hist = some (out, s') ∧
      (Cdis.parsePackets env.toEnv (packBits (out.flatMap Cdis.CdisPdu.ser))).map (fun cs => (decStream env o' d cs).1) =
        some (hist.map fun e => received e.2.header (arrival env o e.2.body)) :=
  arrives_packet o' (q := fun p => received p.header (arrival env o p.body)) hn (fun e he => C57_pdu (h e he)) s d

/-- **C57.** The simulation-management PDUs, with their datum records: unchanged but for the header. -/
theorem C57_siman {env : Env} {o : Options} {b : Dis.Body}
    (hb : b.pduType ∈ [11, 12, 13, 16, 17, 19, 20, 21, 22]) : arrival env o b = b := by
  cases b with
  | entityState x => exact absurd hb (by show ¬ (1 : UInt8) ∈ _; decide)
  | fire x => exact absurd hb (by show ¬ (2 : UInt8) ∈ _; decide)
  | detonation x => exact absurd hb (by show ¬ (3 : UInt8) ∈ _; decide)
  | collision x => exact absurd hb (by show ¬ (4 : UInt8) ∈ _; decide)
  | stopFreeze x => exact absurd hb (by show ¬ (14 : UInt8) ∈ _; decide)
  | acknowledge x => exact absurd hb (by show ¬ (15 : UInt8) ∈ _; decide)
  | dataQuery x => exact absurd hb (by show ¬ (18 : UInt8) ∈ _; decide)
  | designator x => exact absurd hb (by show ¬ (24 : UInt8) ∈ _; decide)
  | transmitter x => exact absurd hb (by show ¬ (25 : UInt8) ∈ _; decide)
  | signal x => exact absurd hb (by show ¬ (26 : UInt8) ∈ _; decide)
  | receiver x => exact absurd hb (by show ¬ (27 : UInt8) ∈ _; decide)
  | iff x => exact absurd hb (by show ¬ (28 : UInt8) ∈ _; decide)
  | _ => rfl

/-- **C57.** Whatever the kind, what arrives is of the same kind, and the exercise is the same. -/
theorem C57_kind (env : Env) (o : Options) (b : Dis.Body) (h : Dis.PduHeader) :
    (arrival env o b).pduType = b.pduType ∧ (received h b).header.exercise_id = h.exercise_id ∧
      (received h b).header.pdu_type = h.pdu_type := by
  refine ⟨?_, rfl, rfl⟩
  cases b <;> rfl

/-- **C57**, violated: a location does not arrive.  The receiver converts back a latitude that is a 17th, a longitude that is a 9th of
what was sent. -/
theorem C57_location_violated {env : Env} {l : Dis.Location} {lat lon alt : Rat} (hc : atCentre l = false)
    (hl : env.toLla l = (.num lat, .num lon, .num alt)) (hlat : |lat| ≤ 157 / 100) (hlon : |lon| ≤ 314159 / 100000)
    (halt : -10485 ≤ alt ∧ alt ≤ 83886 ∨ 83887 ≤ alt ∧ alt ≤ 83886000) :
    ∃ lat' lon' alt', worldWireQ env l = env.toEcef (.num lat') (.num lon') (.num alt') ∧
      |lat' - lat / 17| ≤ |lat| / 1000 + 1 / 1000000 ∧ |lon' - lon / 9| ≤ |lon| / 500 + 1 / 1000000 ∧
      |alt' - alt| ≤ (if alt ≤ 83886 then 2 / 100 else 16) := by
  obtain ⟨-, a, b, c, h1, h2, h3, h4⟩ := world_wire hc hl hlat hlon halt
  refine ⟨a, b, c, h1, ?_, ?_, h4⟩
  · have h2 := abs_le.1 h2
    have := abs_le.1 (le_refl |lat|)
    rw [abs_le]
    constructor <;> linarith
  · have h3 := abs_le.1 h3
    have := abs_le.1 (le_refl |lon|)
    rw [abs_le]
    constructor <;> linarith

/-- `arrives_of` when the reader leaves the last bits of the body behind -/
theorem arrives_leaving {env : Env} {o o1 : Options} {p : Dis.Pdu} {cb wb : Cdis.CdisBody} {b : Dis.Body} {left : Cdis.Bits}
    (hb : ∀ now s, (bodyEnc env o now s p.body).map (·.1) = some cb)
    (hst : (p.header.pdu_status.getD {}).Wf p.header.pdu_type)
    (hw : ∀ rest, (Cdis.CdisBody.parse env.toEnv p.header.pdu_type.toNat).run (cb.ser ++ rest) = .ok wb (left ++ rest))
    (hc : SelfContained wb) (hd : (bodyDec env o1 {} wb).1 = b) (ht : b.pduType = p.header.pdu_type) (now : Nat) (s : EncState) :
    ∃ c r s', pduEnc env o now s p = some (c, r, s') ∧
      ∃ w, (∀ rest, (Cdis.CdisPdu.parse env.toEnv).run (c.ser ++ rest) = .ok w (left ++ rest)) ∧
        ∀ o' d, (pduDec env o' d w).1 = received p.header b := by
  cases he : bodyEnc env o now s p.body with
  | none => have := hb now s; rw [he] at this; simp at this
  | some r =>
    obtain ⟨cb', r, s'⟩ := r
    have h1 := hb now s
    rw [he] at h1
    simp only [Option.map_some, Option.some.injEq] at h1
    subst h1
    refine ⟨_, r, s', by unfold pduEnc; rw [he]; rfl,
      ⟨{ headerEnc p.header with
          length := ((headerEnc p.header).lenBits + cb'.lenBits) % 65536 % 2 ^ 14,
          timestamp := (timeEnc p.header.time_stamp).raw % 2 ^ 26 }, wb⟩, fun rest => ?_, fun o' d => ?_⟩
    · have hh := header_wire p.header (((headerEnc p.header).lenBits + cb'.lenBits) % 65536) hst (cb'.ser ++ rest)
      unfold Cdis.CdisPdu.parse Cdis.CdisPdu.ser
      rw [List.append_assoc, P.run_bind]
      rw [show (Cdis.CdisPdu.finalize (headerEnc p.header) cb' none).header =
        { headerEnc p.header with length := ((headerEnc p.header).lenBits + cb'.lenBits) % 65536 } from rfl]
      rw [show (Cdis.CdisPdu.finalize (headerEnc p.header) cb' none).body = cb' from rfl, hh]
      simp only [Res.andThen_ok, P.run_bind, P.run_pure]
      rw [show (headerEnc p.header).pdu_type = p.header.pdu_type.toNat from rfl, hw]
      rfl
    · rw [C40_decode o' o1 d {} hc]
      unfold pduDec
      dsimp only
      rw [hd]
      unfold Dis.Pdu.finalizeFromParts headerDec headerEnc received
      simp only [UInt8.ofNat_toNat, ht]
      rfl

/-- **C57**, violated: a Designator PDU with any dead reckoning algorithm without an acceleration (so 0 to 3, 6, 7 and all beyond 9) is
written with four bits that its flags do not announce.  The reader stands four bits too early for whatever follows in the packet, and the
decoder reports the algorithm "other", whichever it was, and no acceleration. -/
theorem C57_designator_violated {env : Env} {o : Options} {h : Dis.PduHeader} (hst : (h.pdu_status.getD {}).Wf h.pdu_type)
    (hm : o.update_mode = .full) (x : Dis.Designator) (ht : h.pdu_type = 24) (ha : x.dead_reckoning_algorithm ∉ [4, 5, 8, 9])
    (hw : WorldFits env x.spot_location)
    (hi : x.designated_entity_id = zeroId ↔ NoOffset x.spot_wrt_designated_entity) (now : Nat) (s : EncState) :
    ∃ c r s', pduEnc env o now s ⟨h, .designator x⟩ = some (c, r, s') ∧
      ∃ left w, left.length = 4 ∧ (∀ rest, (Cdis.CdisPdu.parse env.toEnv).run (c.ser ++ rest) = .ok w (left ++ rest)) ∧
        ∃ y, y.dead_reckoning_algorithm = 0 ∧ y.linear_acceleration = zeroVec ∧
          ∀ o' d, (pduDec env o' d w).1 = received h (.designator y) := by
  replace hi := hi.trans (veq_iff _).symm
  have ha' : ¬ (x.dead_reckoning_algorithm = 4 ∨ x.dead_reckoning_algorithm = 5 ∨ x.dead_reckoning_algorithm = 8 ∨
    x.dead_reckoning_algorithm = 9) := by simpa using ha
  let v : Cdis.Designator := (desEnc env o 0 none x).1
  let v' : Cdis.Designator := { v with dr_algorithm := none }
  have hb : ∀ now s, (bodyEnc env o now s (.designator x)).map (·.1) = some (.designator v) := by
    intro now s
    simp [v, bodyEnc, desEncodeBody, desEnc, hm]
  have hv : v.dr_algorithm = some x.dead_reckoning_algorithm.toNat ∧ v.dr_entity_linear_acceleration = none := by
    simp [v, desEnc, hm, drAccEnc, ha']
  have hser : v.ser = v'.ser ++ Cdis.wU 4 x.dead_reckoning_algorithm.toNat := by
    have hfp : v.fp = v'.fp := by simp [Cdis.Designator.fp, Cdis.Designator.hasEntity, Cdis.Designator.hasDetails, Cdis.Designator.hasDr, v', hv]
    unfold Cdis.Designator.ser
    rw [hfp, hv.1, hv.2]
    simp [v', Cdis.wOpt, hv.2]
  have hspot : (if (!veq x.spot_wrt_designated_entity zeroVec) = true then (coordEnc x.spot_wrt_designated_entity).2 else CM) < 2 := by
    split
    · exact (coord_in _).2
    · exact (by decide : CM < 2)
  have hwf : v'.Wf := by
    simp only [v', v, desEnc, hm, reduceCtorEq, false_and, if_false, drAccEnc, if_neg ha']
    refine ⟨⟨hspot, world_units _ _, eid_wf _, x.system_name.toNat_lt, ?_, x.code.toNat_lt, ?_, ?_, ?_, world_fits hw, trivial, trivial⟩, ?_,
      ⟨rfl, rfl, rfl⟩, rfl⟩
    · dsimp only
      split
      · trivial
      · exact eid_wf _
    · show (u32FromF32 (v32 x.power)).getD 0 < _
      cases hx : u32FromF32 (v32 x.power) with
      | none => decide
      | some n => exact u32_lt hx
    · show (u32FromF32 (v32 x.wavelength)).getD 0 < _
      cases hx : u32FromF32 (v32 x.wavelength) with
      | none => decide
      | some n => exact u32_lt hx
    · dsimp only
      split
      · exact (coord_in _).1
      · trivial
    · dsimp only
      by_cases hz : x.designated_entity_id = zeroId
      · rw [if_pos hz, if_neg (by simp [hi.1 hz])]
        rfl
      · rw [if_neg hz, if_pos (by
          rw [Bool.not_eq_true', Bool.eq_false_iff]
          exact fun hv => hz (hi.2 hv))]
        rfl
  have hrun : ∀ rest, (Cdis.CdisBody.parse env.toEnv (⟨h, .designator x⟩ : Dis.Pdu).header.pdu_type.toNat).run
      ((Cdis.CdisBody.designator v).ser ++ rest) =
      .ok (.designator v'.wire) (Cdis.wU 4 x.dead_reckoning_algorithm.toNat ++ rest) := by
    intro rest
    have := Cdis.CdisBody.run (env := env.toEnv) (t := h.pdu_type.toNat) (b := .designator v') ⟨by rw [ht]; rfl, hwf⟩ (Cdis.wU 4 x.dead_reckoning_algorithm.toNat ++ rest)
    rw [show (Cdis.CdisBody.designator v).ser = v.ser from rfl, hser, List.append_assoc]
    exact this
  obtain ⟨c, r, s', h1, w, h2, h3⟩ := arrives_leaving (p := ⟨h, .designator x⟩) (o1 := o) hb hst hrun
    (by simp [v', v, desEnc, hm, SelfContained, Cdis.Designator.wire]) rfl ht.symm now s
  refine ⟨c, r, s', h1, _, w, ?_, h2, _, ?_, ?_, h3⟩
  · simp
  · simp [desDec, v', Cdis.Designator.wire]
  · simp [desDec, v', Cdis.Designator.wire, hv]
    decide +kernel

end Verif.Props
