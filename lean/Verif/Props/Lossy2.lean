import Verif.Props.Lossy
/-! # C63: Designator, Transmitter and IFF PDUs over a network that loses, repeats and reorders datagrams -/
namespace Verif.Props
open Verif.Codec

/-! ## What arrives -/

/-- A Designator as it arrives in a full update. -/
def arrivalDes (env : Env) (x : Dis.Designator) : Dis.Designator :=
  { x with
      power := wholeQ x.power, wavelength := wholeQ x.wavelength, spot_wrt_designated_entity := coordQ x.spot_wrt_designated_entity,
      spot_location := worldWireQ env x.spot_location, linear_acceleration := linQ x.linear_acceleration }
/-- A Transmitter as it arrives in a full update. -/
def arrivalTx (env : Env) (x : Dis.Transmitter) : Dis.Transmitter :=
  { x with
      antenna_location := worldWireQ env x.antenna_location, relative_antenna_location := coordQ x.relative_antenna_location,
      antenna_pattern_type := if x.antenna_pattern.isSome then x.antenna_pattern_type else 0,
      frequency := txFreqQ x.frequency, transmit_frequency_bandwidth := bandwidthQ x.transmit_frequency_bandwidth,
      power := txPowerQ x.power,
      crypto_key_id := if x.crypto_system = 0 then [0, 0] else x.crypto_key_id,
      modulation_parameters := some (x.modulation_parameters.getD []),
      antenna_pattern := some ((x.antenna_pattern.map patternQ).getD ⟨⟨0, 0, 0⟩, 0, 0, 0, 0, 0, 0⟩) }
/-- An IFF PDU as it arrives if it carries its system identification. -/
def arrivalIff (x : Dis.Iff) : Dis.Iff :=
  { x with
      relative_antenna_location := coordQ x.relative_antenna_location
      fundamental_operational_data := operationalQ x.fundamental_operational_data
      layer_2 := x.layer_2.map layer2WireQ, layer_3 := x.layer_3.map layer3Q
      layer_4 := x.layer_4.map layer4Q, layer_5 := x.layer_5.map layer5Q }

/-- A partial update of a Designator: name, code, power, wavelength and spot location are those of the last full update that has arrived
(0 and the centre of the Earth if none has). -/
def lateDes (env : Env) (last : Option Dis.Designator) (x : Dis.Designator) : Dis.Designator :=
  match last with
  | some l => { arrivalDes env x with
      system_name := l.system_name, code := l.code, power := wholeQ l.power, wavelength := wholeQ l.wavelength
      spot_location := worldWireQ env l.spot_location }
  | none => { arrivalDes env x with system_name := 0, code := 0, power := 0, wavelength := 0, spot_location := ⟨0, 0, 0⟩ }
/-- A partial update of a Transmitter: type, antenna location, frequency, bandwidth, power and modulation are those of the last full update
that has arrived (zeros if none has), and the relative antenna location is zero. -/
def lateTx (env : Env) (last : Option Dis.Transmitter) (x : Dis.Transmitter) : Dis.Transmitter :=
  match last with
  | some l => { arrivalTx env x with
      radio_type := l.radio_type, antenna_location := worldWireQ env l.antenna_location, relative_antenna_location := ⟨0, 0, 0⟩
      frequency := txFreqQ l.frequency, transmit_frequency_bandwidth := bandwidthQ l.transmit_frequency_bandwidth
      power := txPowerQ l.power, modulation_type := l.modulation_type }
  | none => { arrivalTx env x with
      radio_type := ⟨0, 0, 0, 0, 0, 0, 0⟩, antenna_location := ⟨0, 0, 0⟩, relative_antenna_location := ⟨0, 0, 0⟩
      frequency := 0, transmit_frequency_bandwidth := 0, power := 0, modulation_type := ⟨[0, 0, 0], 0, 0, 0⟩ }
/-- A partial update of an IFF system: its identification is zero, whatever has arrived. -/
def lateIff (x : Dis.Iff) : Dis.Iff := { arrivalIff x with system_id := ⟨0, 0, 0, [0, 0, 0, 0, 0, 0, 0, 0]⟩ }

/-- The datagram carries a full update of a Designator or Transmitter, or an IFF PDU with its system identification. -/
def Datagram.complete (g : Datagram) : Bool :=
  match g.2.body with
  | .designator y => y.full_update_flag
  | .transmitter y => y.full_update_flag
  | .iff y => y.system_id.isSome
  | _ => false

/-- The full updates of the designator of entity `e` among the datagrams `R`, oldest first. -/
def fullDesignators (e : Dis.EntityId) (R : List Datagram) : List Dis.Designator :=
  R.filterMap fun g => match g.1.body with
    | .designator x => if g.complete = true ∧ x.designating_entity_id = e then some x else none
    | _ => none
/-- The full updates of radio `k` (entity and radio number) among the datagrams `R`, oldest first. -/
def fullTransmitters (k : Dis.EntityId × UInt16) (R : List Datagram) : List Dis.Transmitter :=
  R.filterMap fun g => match g.1.body with
    | .transmitter x => if g.complete = true ∧ (x.radio_reference_id, x.radio_number) = k then some x else none
    | _ => none

/-- What is handed over for datagram `g` after the datagrams `R`. -/
def shownAll (env : Env) (o : Options) (R : List Datagram) (g : Datagram) : Dis.Body :=
  match g.1.body with
  | .designator x => .designator (if g.complete then arrivalDes env x else lateDes env (fullDesignators x.designating_entity_id R).getLast? x)
  | .transmitter x => .transmitter
      (if g.complete then arrivalTx env x else lateTx env (fullTransmitters (x.radio_reference_id, x.radio_number) R).getLast? x)
  | .iff x => .iff (if g.complete then arrivalIff x else lateIff x)
  | _ => shown env o R g

/-- The bodies with a history that C-DIS can carry in partial updates.  (Without the system identification layers 3 and 4 of an IFF PDU cannot
be read: C63_iff_layers_violated.) -/
def PartialFits (env : Env) : Dis.Body → Prop
  | .entityState x => EntityFits env x
  | .designator x => DesignatorFits env x
  | .transmitter x => TransmitterFits env x
  | .iff x => IffFits env x ∧ x.layer_3 = none ∧ x.layer_4 = none
  | _ => False

/-- PDUs for the partial-update mode. -/
def SendableAll (env : Env) (o : Options) (p : Dis.Pdu) : Prop :=
  PduFits env o p ∨ (p.header.pdu_status.getD {}).Wf p.header.pdu_type ∧ p.header.pdu_type = p.body.pduType ∧ PartialFits env p.body

/-! ## One Designator -/

theorem des_wf {env : Env} {x : Dis.Designator} (o : Options) (now : Nat) (st : Option Nat) (hf : DesignatorFits env x) :
    (desEnc env o now st x).1.Wf := by
  obtain ⟨ha, hacc, hw, hi⟩ := hf
  replace hi := hi.trans (veq_iff _).symm
  have ha' : x.dead_reckoning_algorithm = 4 ∨ x.dead_reckoning_algorithm = 5 ∨ x.dead_reckoning_algorithm = 8 ∨
    x.dead_reckoning_algorithm = 9 := by simpa using ha
  have hal : x.dead_reckoning_algorithm.toNat < 2 ^ 4 := by
    rcases ha' with e | e | e | e <;> rw [e] <;> decide
  have hspot : (if (!veq x.spot_wrt_designated_entity zeroVec) = true then (coordEnc x.spot_wrt_designated_entity).2 else CM) < 2 := by
    split
    · exact (coord_in _).2
    · exact (by decide : CM < 2)
  have he : Cdis.OptAll Cdis.EntityId.Wf (if x.designated_entity_id = zeroId then none else some (eidEnc x.designated_entity_id)) := by
    split
    · trivial
    · exact eid_wf _
  have hs : Cdis.OptAll (Cdis.Vec3.In 16) (if (!veq x.spot_wrt_designated_entity zeroVec) = true
      then some (coordEnc x.spot_wrt_designated_entity).1 else none) := by
    split
    · exact (coord_in _).1
    · trivial
  have hg : (if x.designated_entity_id = zeroId then none else some (eidEnc x.designated_entity_id)).isSome =
      (if (!veq x.spot_wrt_designated_entity zeroVec) = true then some (coordEnc x.spot_wrt_designated_entity).1 else none).isSome := by
    by_cases hz : x.designated_entity_id = zeroId
    · rw [if_pos hz, if_neg (by simp [hi.1 hz])]
      rfl
    · rw [if_neg hz, if_pos (by
        rw [Bool.not_eq_true', Bool.eq_false_iff]
        exact fun hv => hz (hi.2 hv))]
      rfl
  have hp : ∀ f : UInt32, (u32FromF32 (v32 f)).getD 0 < 4294967296 := by
    intro f
    cases hx : u32FromF32 (v32 f) with
    | none => decide
    | some n => exact u32_lt hx
  unfold desEnc
  dsimp only
  rw [drAccEnc, if_pos ha']
  split
  · exact ⟨⟨hspot, (by decide : DEKAMETER < 2), eid_wf _, trivial, he, trivial, trivial, trivial, hs, trivial, hal, acc_in hacc⟩, hg, ⟨rfl, rfl, rfl⟩, rfl⟩
  · exact ⟨⟨hspot, world_units _ _, eid_wf _, x.system_name.toNat_lt, he, x.code.toNat_lt, hp _, hp _, hs, world_fits hw, hal, acc_in hacc⟩, hg,
      ⟨rfl, rfl, rfl⟩, rfl⟩

theorem des_full_dec {env : Env} {x : Dis.Designator} (hf : DesignatorFits env x) (o : Options) (sd : Option DesState) :
    (desDec env sd (desEnc env { o with update_mode := .full } 0 none x).1.wire).1 = arrivalDes env x := by
  obtain ⟨ha, -, -, -⟩ := hf
  have ha' : x.dead_reckoning_algorithm = 4 ∨ x.dead_reckoning_algorithm = 5 ∨ x.dead_reckoning_algorithm = 8 ∨
    x.dead_reckoning_algorithm = 9 := by simpa using ha
  have h52 := C52_designator env o x
  have e : (desDec env sd (desEnc env { o with update_mode := .full } 0 none x).1.wire).1 =
      { (desDec env none (desEnc env { o with update_mode := .full } 0 none x).1).1 with
        spot_location := worldWireQ env x.spot_location } := by
    simp [desEnc, desDec, Cdis.Designator.wire, worldWireQ]
  simp only [oneShot, bodyEnc, desEncodeBody, bodyDec, desDecodeBody, Option.map_some, Option.some.injEq, Dis.Body.designator.injEq] at h52
  rw [e, h52, accQ, if_pos ha']
  rfl

theorem des_dec {env : Env} {x : Dis.Designator} (hf : DesignatorFits env x) (o : Options) (now : Nat) (st : Option Nat) (last : Option Dis.Designator) :
    (desDec env (last.map fun l => DesState.of (arrivalDes env l)) (desEnc env o now st x).1.wire).1 =
      if (desEnc env o now st x).1.full_update_flag then arrivalDes env x else lateDes env last x := by
  have h := des_full_dec hf o none
  by_cases hc : o.update_mode = .partial ∧ st.any (fun hb => !timedOut o.heartbeats.designator o.mplier now hb) = true
  · have e : (desEnc env o now st x).1.full_update_flag = false := by simp only [desEnc, if_pos hc]
    rw [e]
    simp only [Bool.false_eq_true, if_false]
    unfold lateDes
    rw [← h]
    cases last with
    | none => simp only [desEnc, if_pos hc]; simp [desDec, Cdis.Designator.wire]; rfl
    | some l => simp only [desEnc, if_pos hc]; simp [desDec, Cdis.Designator.wire, DesState.of, arrivalDes]
  · have e : (desEnc env o now st x).1 = (desEnc env { o with update_mode := .full } 0 none x).1 := by
      simp only [desEnc, if_neg hc]; simp
    have e2 : (desEnc env o now st x).1.full_update_flag = true := by simp only [desEnc, if_neg hc]
    rw [e2, e]
    simp only [if_true]
    exact des_full_dec hf o _

/-! ## One Transmitter -/

theorem tx_wf {env : Env} {x : Dis.Transmitter} (o : Options) (now : Nat) (st : Option Nat) (hf : TransmitterFits env x) :
    (txEnc env o now st x).1.Wf := by
  have hfr := C41_transmit_frequency (n := x.frequency) hf.frequency
  obtain ⟨q, hq, hq0, hq1⟩ := hf.bandwidth
  have pt : Cdis.OptAll (· < 2 ^ 3) (x.antenna_pattern.map fun _ => x.antenna_pattern_type.toNat) := by
    cases x.antenna_pattern with
    | none => trivial
    | some p => exact hf.patternType
  have pw : (Fl.toInt 0 255 (v32 x.power)).toNat < 2 ^ 8 := by
    have := toInt_in (lo := 0) (hi := 255) (by decide) (by decide) (v32 x.power)
    omega
  have ck : Cdis.OptAll (· < 2 ^ 16) (if x.crypto_system = 0 then none else some (pack Dis.CryptoKeyId.wr x.crypto_key_id)) := by
    split
    · trivial
    · exact pack_lt (L := Dis.CryptoKeyId.layout) (t := 16) (by decide) hf.crypto.2
  have ml : (bytesEnc (x.modulation_parameters.getD [])).length < 256 := by
    simp only [bytesEnc, List.length_map]
    have := hf.parameters
    omega
  have pa : Cdis.OptAll Cdis.BeamAntennaPattern.Wf (x.antenna_pattern.map patternEnc) := by
    cases hx : x.antenna_pattern with
    | none => trivial
    | some p => exact pattern_wf (hf.pattern p hx)
  have vl : (x.variable_transmitter_parameters.map fun p => (⟨p.record_type.toNat, bytesEnc p.fields⟩ : Cdis.VTP)).length < 256 := by
    rw [List.length_map]
    have := hf.variable_parameters.2.1
    omega
  have vw : ∀ p ∈ x.variable_transmitter_parameters.map fun p => (⟨p.record_type.toNat, bytesEnc p.fields⟩ : Cdis.VTP), p.Wf := by
    intro p hp
    obtain ⟨a, ha, rfl⟩ := List.mem_map.1 hp
    refine ⟨a.record_type.toNat_lt, ?_, bytes_lt _⟩
    have := hf.variable_parameters.2.2 a ha
    simp only [bytesEnc, List.length_map]
    omega
  have g1 : (x.antenna_pattern.map fun _ => x.antenna_pattern_type.toNat).isSome = (x.antenna_pattern.map patternEnc).isSome := by
    cases x.antenna_pattern <;> rfl
  have g2 : (nz x.crypto_system.toNat).isSome = (if x.crypto_system = 0 then none else some (pack Dis.CryptoKeyId.wr x.crypto_key_id)).isSome := by
    rw [nz_isSome]
    by_cases hz : x.crypto_system = 0
    · rw [if_pos hz, hz]; rfl
    · rw [if_neg hz]
      have : x.crypto_system.toNat ≠ 0 := fun e => hz (UInt16.toNat_inj.1 e)
      simp [this]
  have nv : (x.variable_transmitter_parameters.map fun p => (⟨p.record_type.toNat, bytesEnc p.fields⟩ : Cdis.VTP)) ≠ [] := by
    simpa using hf.variable_parameters.1
  unfold txEnc
  dsimp only
  split
  · exact ⟨⟨(by decide : DEKAMETER < 2), (by decide : CM < 2), eid_wf _, x.radio_number.toNat_lt, trivial, hf.state, x.input_source.toNat_lt,
      trivial, trivial, pt, trivial, trivial, trivial, trivial, nz_all hf.crypto.1, ck, ml, bytes_lt _, pa, vl, vw⟩, ⟨g1, ⟨rfl, rfl, rfl⟩, g2⟩, nv⟩
  · exact ⟨⟨world_units _ _, (coord_in _).2, eid_wf _, x.radio_number.toNat_lt, etype_wf hf.type, hf.state, x.input_source.toNat_lt,
      world_fits hf.location, (coord_in _).1, pt, ⟨hfr.1, by show _ < 16; omega⟩, (C41_frequency hq hq0 hq1).1, pw, mod_wf hf.modulation,
      nz_all hf.crypto.1, ck, ml, bytes_lt _, pa, vl, vw⟩, ⟨g1, ⟨rfl, rfl, rfl⟩, g2⟩, nv⟩

theorem tx_full_dec {env : Env} {x : Dis.Transmitter} (hf : TransmitterFits env x) (o o' : Options) (sd : Option TxState) :
    (txDec env o' sd (txEnc env { o with update_mode := .full } 0 none x).1.wire).1 = arrivalTx env x := by
  have h52 := C52_transmitter env o x
  have e : (txDec env o' sd (txEnc env { o with update_mode := .full } 0 none x).1.wire).1 =
      { (txDec env { o with update_mode := .full } none (txEnc env { o with update_mode := .full } 0 none x).1).1 with
        antenna_location := worldWireQ env x.antenna_location } := by
    simp [txEnc, txDec, Cdis.Transmitter.wire, worldWireQ]
  simp only [oneShot, bodyEnc, txEncodeBody, bodyDec, txDecodeBody, Option.map_some, Option.some.injEq, Dis.Body.transmitter.injEq] at h52
  rw [e, h52, mod_rt hf.modulation]
  have hk : unpack Dis.CryptoKeyId.rd (if x.crypto_system = 0 then 0 else pack Dis.CryptoKeyId.wr x.crypto_key_id) =
      if x.crypto_system = 0 then [0, 0] else x.crypto_key_id := by
    split
    · decide
    · exact C52_crypto_key hf.crypto.2
  rw [hk]
  rfl

theorem tx_dec {env : Env} {x : Dis.Transmitter} (hf : TransmitterFits env x) {o : Options} (hm : o.update_mode = .partial) (now : Nat) (st : Option Nat)
    (last : Option Dis.Transmitter) :
    (txDec env o (last.map fun l => TxState.of (arrivalTx env l)) (txEnc env o now st x).1.wire).1 =
      if (txEnc env o now st x).1.full_update_flag then arrivalTx env x else lateTx env last x := by
  have h := tx_full_dec hf o o none
  by_cases hc : o.update_mode = .partial ∧ st.any (fun hb => !timedOut o.heartbeats.transmitter o.mplier now hb) = true
  · have e : (txEnc env o now st x).1.full_update_flag = false := by simp only [txEnc, if_pos hc]
    rw [e]
    simp only [Bool.false_eq_true, if_false]
    unfold lateTx
    rw [← h]
    cases last with
    | none => simp only [txEnc, if_pos hc]; simp [txDec, Cdis.Transmitter.wire, hm]; exact ⟨rfl, rfl, rfl, rfl⟩
    | some l => simp only [txEnc, if_pos hc]; simp [txDec, Cdis.Transmitter.wire, hm, TxState.of, arrivalTx]; rfl
  · have e : (txEnc env o now st x).1 = (txEnc env { o with update_mode := .full } 0 none x).1 := by
      simp only [txEnc, if_neg hc]; simp
    have e2 : (txEnc env o now st x).1.full_update_flag = true := by simp only [txEnc, if_neg hc]
    rw [e2, e]
    simp only [if_true]
    exact tx_full_dec hf o o _

/-! ## One IFF system -/

theorem iff_wf {env : Env} {x : Dis.Iff} (o : Options) (now : Nat) (st : Option Nat) (hf : IffFits env x) (h3 : x.layer_3 = none) (h4 : x.layer_4 = none) :
    (iffEnc o now st x).1.Wf env.toEnv := by
  have hsys : x.system_id.system_type.toNat < 16 := hf.system.1
  have hu : (if (isZero32 x.relative_antenna_location.first && isZero32 x.relative_antenna_location.second
      && isZero32 x.relative_antenna_location.third) = true then CM else (coordEnc x.relative_antenna_location).2) < 2 := by
    split
    · exact (by decide : CM < 2)
    · exact (coord_in _).2
  have hl : Cdis.OptAll (Cdis.Vec3.In 16) (if (isZero32 x.relative_antenna_location.first && isZero32 x.relative_antenna_location.second
      && isZero32 x.relative_antenna_location.third) = true then none else some (coordEnc x.relative_antenna_location).1) := by
    split
    · trivial
    · exact (coord_in _).1
  have he : Cdis.OptAll Cdis.EntityId.Wf (if x.event_id.event_id = 0 ∧ x.event_id.simulation_address.application_id = 0
       ∧ x.event_id.simulation_address.site_id = 0 then none else some (evidEnc x.event_id)) := by
    split
    · trivial
    · exact evid_wf _
  have hs : ∀ b : Bool, Cdis.OptAll Cdis.SystemId.Wf (if b = true then none else some (sysIdEnc x.system_id)) := by
    intro b
    cases b
    · exact ⟨hsys, hf.system.2.1, hf.system.2.2, pack_lt (L := Dis.ChangeOptions.layout) (t := 8) (by decide) hf.wf.options⟩
    · trivial
  unfold iffEnc
  dsimp only
  refine ⟨hu, eid_wf _, he, hl, hs _, x.system_designator.toNat_lt, nz_all x.system_specific_data.toNat_lt,
      ⟨pack_lt (L := Dis.SystemStatus.layout) (t := 8) (by decide) hf.wf.status, nz_all (UInt8.toNat_lt _),
        pack_lt (L := Dis.InformationLayers.layout) (t := 7) (by decide) hf.wf.layers, nz_all (UInt8.toNat_lt _), nz_all (UInt16.toNat_lt _),
        nz_all (UInt16.toNat_lt _), nz_all (UInt16.toNat_lt _), nz_all (UInt16.toNat_lt _), nz_all (UInt16.toNat_lt _), nz_all (UInt16.toNat_lt _)⟩,
      some_of_present hf.wf.p2 (layers_bits hf.wf.layers 2 (by decide)),
      some_of_present hf.wf.p3 (layers_bits hf.wf.layers 3 (by decide)), some_of_present hf.wf.p4 (layers_bits hf.wf.layers 4 (by decide)), some_of_present hf.wf.p5 (layers_bits hf.wf.layers 5 (by decide)),
      optAll_map fun l hl => ?_, by rw [h3]; trivial, by rw [h4]; trivial, optAll_map fun l hl => ?_⟩
  · obtain ⟨h1, h2, h3, h4⟩ := hf.layer2 l hl
    refine ⟨⟨h1, l.layer_header.layer_specific_information.toNat_lt⟩, beam_fits h2, l.operational_parameter_1.toNat_lt,
      l.operational_parameter_2.toNat_lt, ?_, fun p hp => ?_⟩
    · show (List.map _ _).length < 256
      rw [List.length_map]; omega
    · obtain ⟨a, ha, rfl⟩ := List.mem_map.1 hp
      exact iffParam_wf (h4 a ha)
  · obtain ⟨h1, h2, h3, h4⟩ := hf.layer5 l hl
    exact ⟨⟨h1, l.layer_header.layer_specific_information.toNat_lt⟩, l.reporting_simulation.site_id.toNat_lt,
      l.reporting_simulation.application_id.toNat_lt, layers5_lt (hf.wf.l5 l hl).layers h2, h3, iffRecs_ok h4⟩

theorem iff_full_dec {env : Env} {x : Dis.Iff} (hf : IffFits env x) (o o' : Options) (sd : Option Dis.SystemId) :
    (iffDec o' sd (iffEnc { o with update_mode := .full } 0 none x).1.wire).1 = arrivalIff x := by
  have h52 := C52_iff o hf.wf hf.forced
  have e : (iffDec o' sd (iffEnc { o with update_mode := .full } 0 none x).1.wire).1 =
      { (iffDec { o with update_mode := .full } none (iffEnc { o with update_mode := .full } 0 none x).1).1 with
          layer_2 := x.layer_2.map layer2WireQ } := by
    have e2 : ∀ l : Dis.IffLayer2, layer2Dec (layer2Enc l).wire = layer2WireQ l := by
      intro l
      have := layer2_rt l
      unfold layer2WireQ
      rw [← this]
      simp [layer2Dec, layer2Enc, Cdis.IffLayer2.wire, Cdis.LayerHeader.wireWith, layerHeaderDec, beamWireQ, beamDec, beamEnc,
        Cdis.BeamData.wire, layerHeaderEnc, Dis.IffLayer2.dataLen]
    have e3 : ∀ l : Dis.IffLayer3, layer3Dec (layer3Enc l).wire = layer3Dec (layer3Enc l) := fun l => rfl
    have e4 : ∀ l : Dis.IffLayer4, layer4Dec (layer4Enc l).wire = layer4Dec (layer4Enc l) := fun l => rfl
    have e5 : ∀ l : Dis.IffLayer5, layer5Dec (layer5Enc l).wire = layer5Dec (layer5Enc l) := fun l => rfl
    simp [iffEnc, iffDec, Cdis.Iff.wire, Option.map_map, Function.comp_def, e2, e3, e4, e5]
  simp only [oneShot, bodyEnc, iffEncodeBody, bodyDec, iffDecodeBody, Option.map_some, Option.some.injEq, Dis.Body.iff.injEq] at h52
  rw [e, h52]
  rfl

theorem iff_dec {env : Env} {x : Dis.Iff} (hf : IffFits env x) {o : Options} (hm : o.update_mode = .partial) (now : Nat) (st : Option Nat) :
    (iffDec o none (iffEnc o now st x).1.wire).1 = if (iffEnc o now st x).1.system_id.isSome then arrivalIff x else lateIff x := by
  have h := iff_full_dec hf o o none
  by_cases hc : (decide (o.update_mode = .partial) && st.any (fun hb => !timedOut o.heartbeats.iff o.mplier now hb)) = true
  · have e : (iffEnc o now st x).1.system_id.isSome = false := by simp only [iffEnc, if_pos hc]; rfl
    rw [e]
    simp only [Bool.false_eq_true, if_false]
    unfold lateIff
    rw [← h]
    simp only [iffEnc, if_pos hc]
    simp [iffDec, Cdis.Iff.wire, hm]
    rfl
  · have e : (iffEnc o now st x).1 = (iffEnc { o with update_mode := .full } 0 none x).1 := by
      simp only [iffEnc, if_neg hc]; simp
    have e2 : (iffEnc o now st x).1.system_id.isSome = true := by simp only [iffEnc, if_neg hc]; rfl
    rw [e2, e]
    simp only [if_true]
    exact h

/-! ## One datagram -/

theorem des_untouched {env : Env} {o : Options} (d : DecState) (b : Cdis.CdisBody) (h : ∀ x, (bodyDec env o d b).1 ≠ .designator x) :
    (bodyDec env o d b).2.2.designator = d.designator := by
  cases b with
  | designator y => exact absurd rfl (h _)
  | entityState x => simp only [bodyDec, esDecodeBody]; split <;> rfl
  | electromagneticEmission x => simp only [bodyDec, eeDecodeBody]; split <;> rfl
  | transmitter x => simp only [bodyDec, txDecodeBody]; split <;> rfl
  | iff x => simp only [bodyDec, iffDecodeBody]; split <;> rfl
  | _ => rfl
theorem tx_untouched {env : Env} {o : Options} (d : DecState) (b : Cdis.CdisBody) (h : ∀ x, (bodyDec env o d b).1 ≠ .transmitter x) :
    (bodyDec env o d b).2.2.transmitter = d.transmitter := by
  cases b with
  | transmitter y => exact absurd rfl (h _)
  | entityState x => simp only [bodyDec, esDecodeBody]; split <;> rfl
  | electromagneticEmission x => simp only [bodyDec, eeDecodeBody]; split <;> rfl
  | designator x => simp only [bodyDec, desDecodeBody]; split <;> rfl
  | iff x => simp only [bodyDec, iffDecodeBody]; split <;> rfl
  | _ => rfl
theorem iff_untouched {env : Env} {o : Options} (d : DecState) (b : Cdis.CdisBody) (h : ∀ x, (bodyDec env o d b).1 ≠ .iff x) :
    (bodyDec env o d b).2.2.iff = d.iff := by
  cases b with
  | iff y => exact absurd rfl (h _)
  | entityState x => simp only [bodyDec, esDecodeBody]; split <;> rfl
  | electromagneticEmission x => simp only [bodyDec, eeDecodeBody]; split <;> rfl
  | designator x => simp only [bodyDec, desDecodeBody]; split <;> rfl
  | transmitter x => simp only [bodyDec, txDecodeBody]; split <;> rfl
  | _ => rfl

/-- What the decoder has stored after the datagrams `R`. -/
structure RecallsAll (env : Env) (R : List Datagram) (d : DecState) : Prop where
  es : Recalls env R d
  designator : ∀ e, d.designator e = (fullDesignators e R).getLast?.map fun l => DesState.of (arrivalDes env l)
  transmitter : ∀ k, d.transmitter k = (fullTransmitters k R).getLast?.map fun l => TxState.of (arrivalTx env l)
  iff : ∀ e, d.iff e = none

theorem fullDesignators_snoc (e : Dis.EntityId) (R : List Datagram) (g : Datagram) :
    fullDesignators e (R ++ [g]) = fullDesignators e R ++ (match g.1.body with
      | .designator x => if g.complete = true ∧ x.designating_entity_id = e then [x] else []
      | _ => []) := by
  unfold fullDesignators
  rw [List.filterMap_append]
  congr 1
  rw [List.filterMap_cons]
  cases g.1.body with
  | designator x => dsimp only; split <;> rename_i h <;> split at h <;> simp_all
  | _ => rfl
theorem fullTransmitters_snoc (k : Dis.EntityId × UInt16) (R : List Datagram) (g : Datagram) :
    fullTransmitters k (R ++ [g]) = fullTransmitters k R ++ (match g.1.body with
      | .transmitter x => if g.complete = true ∧ (x.radio_reference_id, x.radio_number) = k then [x] else []
      | _ => []) := by
  unfold fullTransmitters
  rw [List.filterMap_append]
  congr 1
  rw [List.filterMap_cons]
  cases g.1.body with
  | transmitter x => dsimp only; split <;> rename_i h <;> split at h <;> simp_all
  | _ => rfl

theorem other_carried {env : Env} {o : Options} (hm : o.update_mode = .partial) {p : Dis.Pdu} (hp : Sendable env o p)
    (h1 : ∀ x, p.body ≠ .designator x) (h2 : ∀ x, p.body ≠ .transmitter x) (h3 : ∀ x, p.body ≠ .iff x)
    {now s c r s'} (he : pduEnc env o now s p = some (c, r, s')) :
    ∃ w, (∀ rest, (Cdis.CdisPdu.parse env.toEnv).run (c.ser ++ rest) = .ok w rest) ∧
      ∀ R d, RecallsAll env R d → (pduDec env o d w).1 = received p.header (shownAll env o R (p, c)) ∧
        RecallsAll env (R ++ [(p, c)]) (pduDec env o d w).2.2 := by
  obtain ⟨w, e1, e2⟩ := datagram_carried hm hp he
  refine ⟨w, e1, fun R d hR => ?_⟩
  obtain ⟨e3, e4⟩ := e2 R d hR.es
  have hsh : shownAll env o R (p, c) = shown env o R (p, c) := by
    unfold shownAll
    dsimp only
    cases hb : p.body with
    | designator x => exact absurd hb (h1 x)
    | transmitter x => exact absurd hb (h2 x)
    | iff x => exact absurd hb (h3 x)
    | _ => rfl
  have hk : (bodyDec env o d w.body).1 = shown env o R (p, c) := congrArg Dis.Pdu.body e3
  have hn : (∀ x, shown env o R (p, c) ≠ .designator x) ∧ (∀ x, shown env o R (p, c) ≠ .transmitter x) ∧ ∀ x, shown env o R (p, c) ≠ .iff x := by
    unfold shown
    dsimp only
    cases hb : p.body with
    | designator x => exact absurd hb (h1 x)
    | transmitter x => exact absurd hb (h2 x)
    | iff x => exact absurd hb (h3 x)
    | _ => exact ⟨fun x => Dis.Body.noConfusion, fun x => Dis.Body.noConfusion, fun x => Dis.Body.noConfusion⟩
  refine ⟨by rw [hsh]; exact e3, e4, fun e => ?_, fun k => ?_, fun e => ?_⟩
  · rw [show (pduDec env o d w).2.2.designator = d.designator from des_untouched d w.body (by rw [hk]; exact hn.1), hR.designator, fullDesignators_snoc]
    dsimp only
    cases hb : p.body with
    | designator x => exact absurd hb (h1 x)
    | _ => simp
  · rw [show (pduDec env o d w).2.2.transmitter = d.transmitter from tx_untouched d w.body (by rw [hk]; exact hn.2.1), hR.transmitter, fullTransmitters_snoc]
    dsimp only
    cases hb : p.body with
    | transmitter x => exact absurd hb (h2 x)
    | _ => simp
  · rw [show (pduDec env o d w).2.2.iff = d.iff from iff_untouched d w.body (by rw [hk]; exact hn.2.2), hR.iff]

theorem datagram_all {env : Env} {o : Options} (hm : o.update_mode = .partial) {p : Dis.Pdu} (hp : SendableAll env o p)
    {now s c r s'} (he : pduEnc env o now s p = some (c, r, s')) :
    ∃ w, (∀ rest, (Cdis.CdisPdu.parse env.toEnv).run (c.ser ++ rest) = .ok w rest) ∧
      ∀ R d, RecallsAll env R d → (pduDec env o d w).1 = received p.header (shownAll env o R (p, c)) ∧
        RecallsAll env (R ++ [(p, c)]) (pduDec env o d w).2.2 := by
  rcases hp with hp | ⟨hst, ht, hf⟩
  · have hne : ∀ b, p.body = b → FitsWire env o b := fun b hb => hb ▸ hp.2.2
    exact other_carried hm (.inl hp) (fun x hx => absurd (hm.symm.trans (hne _ hx).1) (by decide))
      (fun x hx => absurd (hm.symm.trans (hne _ hx).1) (by decide)) (fun x hx => absurd (hm.symm.trans (hne _ hx).1) (by decide)) he
  cases hx : p.body with
  | entityState x =>
    rw [hx] at hf ht
    exact other_carried hm (.inr ⟨hst, ht, x, hx, hf⟩) (by rw [hx]; exact fun x => Dis.Body.noConfusion)
      (by rw [hx]; exact fun x => Dis.Body.noConfusion) (by rw [hx]; exact fun x => Dis.Body.noConfusion) he
  | designator x =>
    rw [hx] at hf ht
    have hf : DesignatorFits env x := hf
    have hb : bodyEnc env o now s p.body = some (desEncodeBody env o now s x) := by rw [hx]; rfl
    have hw := des_wf o now (s.designator x.designating_entity_id) hf
    have hd := fun last => des_dec hf o now (s.designator x.designating_entity_id) last
    obtain ⟨c', w, a1, a2, a3, a4, a5⟩ := pdu_runs (wb := (Cdis.CdisBody.designator (desEnc env o now (s.designator x.designating_entity_id) x).1).wire) hb hst
      (fun rest => Cdis.CdisBody.run (env := env.toEnv) (t := p.header.pdu_type.toNat)
        (b := .designator (desEnc env o now (s.designator x.designating_entity_id) x).1) ⟨by rw [ht]; rfl, hw⟩ rest)
    rw [he] at a1
    cases a1
    have hkey : eidDec (desEnc env o now (s.designator x.designating_entity_id) x).1.wire.designating_entity_id = x.designating_entity_id := by
      unfold desEnc
      dsimp only
      split <;> exact eid_rt _
    generalize (desEnc env o now (s.designator x.designating_entity_id) x).1 = y at *
    have hbw : (Cdis.CdisBody.designator y).wire = .designator y.wire := rfl
    rw [hbw] at a4 a5
    have hfl : Datagram.complete (p, c) = y.full_update_flag := by unfold Datagram.complete; dsimp only; rw [a2]
    refine ⟨w, a3, fun R d hR => ?_⟩
    have hdec := hd (fullDesignators x.designating_entity_id R).getLast?
    rw [← hR.designator] at hdec
    refine ⟨?_, fun e => ?_, fun e => ?_, fun e => ?_, fun e => ?_⟩
    · rw [a5 o d (by rw [ht]; rfl)]
      unfold shownAll
      dsimp only
      rw [hx, hfl]
      simp only [bodyDec, desDecodeBody, hkey, hdec]
    · rw [show (pduDec env o d w).2.2.es = d.es from es_untouched d w.body (by rw [a4]; exact fun y => Cdis.CdisBody.noConfusion), hR.es, fullUpdates_snoc]
      dsimp only
      rw [hx, List.append_nil]
    · rw [show (pduDec env o d w).2.2 = (bodyDec env o d w.body).2.2 from rfl, a4, fullDesignators_snoc]
      dsimp only
      rw [hx]
      dsimp only
      rw [hfl]
      simp only [bodyDec, desDecodeBody, hkey]
      have hres : (desDec env (d.designator x.designating_entity_id) y.wire).2 = if y.full_update_flag = true then .designator else .unaffected := rfl
      rw [hres, hdec]
      cases hy : y.full_update_flag with
      | false => simp [hR.designator e]
      | true =>
        simp only [if_true, true_and]
        by_cases hxe : x.designating_entity_id = e
        · subst hxe
          simp [Map.set]
        · rw [if_neg hxe, List.append_nil]
          simp only [Map.set]
          rw [if_neg (fun h => hxe h.symm), hR.designator]
    · rw [show (pduDec env o d w).2.2.transmitter = d.transmitter from tx_untouched d w.body (by rw [a4]; exact fun y => Dis.Body.noConfusion), hR.transmitter, fullTransmitters_snoc]
      dsimp only
      rw [hx, List.append_nil]
    · rw [show (pduDec env o d w).2.2.iff = d.iff from iff_untouched d w.body (by rw [a4]; exact fun y => Dis.Body.noConfusion), hR.iff]
  | transmitter x =>
    rw [hx] at hf ht
    have hf : TransmitterFits env x := hf
    have hb : bodyEnc env o now s p.body = some (txEncodeBody env o now s x) := by rw [hx]; rfl
    have hw := tx_wf o now (s.transmitter (x.radio_reference_id, x.radio_number)) hf
    have hd := fun last => tx_dec hf hm now (s.transmitter (x.radio_reference_id, x.radio_number)) last
    obtain ⟨c', w, a1, a2, a3, a4, a5⟩ := pdu_runs (wb := (Cdis.CdisBody.transmitter (txEnc env o now (s.transmitter (x.radio_reference_id, x.radio_number)) x).1).wire) hb hst
      (fun rest => Cdis.CdisBody.run (env := env.toEnv) (t := p.header.pdu_type.toNat)
        (b := .transmitter (txEnc env o now (s.transmitter (x.radio_reference_id, x.radio_number)) x).1) ⟨by rw [ht]; rfl, hw⟩ rest)
    rw [he] at a1
    cases a1
    have hkey : (eidDec (txEnc env o now (s.transmitter (x.radio_reference_id, x.radio_number)) x).1.wire.radio_reference_id,
        UInt16.ofNat (txEnc env o now (s.transmitter (x.radio_reference_id, x.radio_number)) x).1.wire.radio_number) =
        (x.radio_reference_id, x.radio_number) := by
      unfold txEnc
      dsimp only
      split <;> exact Prod.ext (eid_rt _) (UInt16.ofNat_toNat)
    generalize (txEnc env o now (s.transmitter (x.radio_reference_id, x.radio_number)) x).1 = y at *
    have hbw : (Cdis.CdisBody.transmitter y).wire = .transmitter y.wire := rfl
    rw [hbw] at a4 a5
    have hfl : Datagram.complete (p, c) = y.full_update_flag := by unfold Datagram.complete; dsimp only; rw [a2]
    refine ⟨w, a3, fun R d hR => ?_⟩
    have hdec := hd (fullTransmitters (x.radio_reference_id, x.radio_number) R).getLast?
    rw [← hR.transmitter] at hdec
    refine ⟨?_, fun e => ?_, fun e => ?_, fun e => ?_, fun e => ?_⟩
    · rw [a5 o d (by rw [ht]; rfl)]
      unfold shownAll
      dsimp only
      rw [hx, hfl]
      simp only [bodyDec, txDecodeBody, hkey, hdec]
    · rw [show (pduDec env o d w).2.2.es = d.es from es_untouched d w.body (by rw [a4]; exact fun y => Cdis.CdisBody.noConfusion), hR.es, fullUpdates_snoc]
      dsimp only
      rw [hx, List.append_nil]
    · rw [show (pduDec env o d w).2.2.designator = d.designator from des_untouched d w.body (by rw [a4]; exact fun y => Dis.Body.noConfusion), hR.designator, fullDesignators_snoc]
      dsimp only
      rw [hx, List.append_nil]
    · rw [show (pduDec env o d w).2.2 = (bodyDec env o d w.body).2.2 from rfl, a4, fullTransmitters_snoc]
      dsimp only
      rw [hx]
      dsimp only
      rw [hfl]
      simp only [bodyDec, txDecodeBody, hkey]
      have hres : (txDec env o (d.transmitter (x.radio_reference_id, x.radio_number)) y.wire).2 = if y.full_update_flag = true then .transmitter else .unaffected := by
        simp [txDec, hm, Cdis.Transmitter.wire]
      rw [hres, hdec]
      cases hy : y.full_update_flag with
      | false => simp [hR.transmitter e]
      | true =>
        simp only [if_true, true_and]
        by_cases hxe : (x.radio_reference_id, x.radio_number) = e
        · subst hxe
          simp [Map.set]
        · rw [if_neg hxe, List.append_nil]
          simp only [Map.set]
          rw [if_neg (fun h => hxe h.symm), hR.transmitter]
    · rw [show (pduDec env o d w).2.2.iff = d.iff from iff_untouched d w.body (by rw [a4]; exact fun y => Dis.Body.noConfusion), hR.iff]
  | iff x =>
    rw [hx] at hf ht
    obtain ⟨hf, h3, h4⟩ : IffFits env x ∧ x.layer_3 = none ∧ x.layer_4 = none := hf
    have hb : bodyEnc env o now s p.body = some (iffEncodeBody o now s x) := by rw [hx]; rfl
    have hw := iff_wf o now (s.iff x.emitting_entity_id) hf h3 h4
    have hd := iff_dec hf hm now (s.iff x.emitting_entity_id)
    have hflag : (iffEnc o now (s.iff x.emitting_entity_id) x).1.full_update_flag = false := rfl
    obtain ⟨c', w, a1, a2, a3, a4, a5⟩ := pdu_runs (wb := (Cdis.CdisBody.iff (iffEnc o now (s.iff x.emitting_entity_id) x).1).wire) hb hst
      (fun rest => Cdis.CdisBody.run (env := env.toEnv) (t := p.header.pdu_type.toNat)
        (b := .iff (iffEnc o now (s.iff x.emitting_entity_id) x).1) ⟨by rw [ht]; rfl, hw⟩ rest)
    rw [he] at a1
    cases a1
    generalize (iffEnc o now (s.iff x.emitting_entity_id) x).1 = y at *
    have hbw : (Cdis.CdisBody.iff y).wire = .iff y.wire := rfl
    rw [hbw] at a4 a5
    have hfl : Datagram.complete (p, c) = y.system_id.isSome := by unfold Datagram.complete; dsimp only; rw [a2]
    refine ⟨w, a3, fun R d hR => ?_⟩
    refine ⟨?_, fun e => ?_, fun e => ?_, fun e => ?_, fun e => ?_⟩
    · rw [a5 o d (by rw [ht]; rfl)]
      unfold shownAll
      dsimp only
      rw [hx, hfl]
      simp only [bodyDec, iffDecodeBody, hR.iff, hd]
    · rw [show (pduDec env o d w).2.2.es = d.es from es_untouched d w.body (by rw [a4]; exact fun y => Cdis.CdisBody.noConfusion), hR.es, fullUpdates_snoc]
      dsimp only
      rw [hx, List.append_nil]
    · rw [show (pduDec env o d w).2.2.designator = d.designator from des_untouched d w.body (by rw [a4]; exact fun y => Dis.Body.noConfusion), hR.designator, fullDesignators_snoc]
      dsimp only
      rw [hx, List.append_nil]
    · rw [show (pduDec env o d w).2.2.transmitter = d.transmitter from tx_untouched d w.body (by rw [a4]; exact fun y => Dis.Body.noConfusion), hR.transmitter, fullTransmitters_snoc]
      dsimp only
      rw [hx, List.append_nil]
    · rw [show (pduDec env o d w).2.2 = (bodyDec env o d w.body).2.2 from rfl, a4]
      have hres : ∀ st, (iffDec o st y.wire).2 = .unaffected := by
        intro st
        have : y.wire.full_update_flag = false := hflag
        simp [iffDec, this]
      simp only [bodyDec, iffDecodeBody, hres, hR.iff, reduceCtorEq, if_false]
  | _ => rw [hx] at hf; exact hf.elim

/-! ## The network -/

theorem receive_all {env : Env} {o : Options} (hm : o.update_mode = .partial) :
    ∀ (net R : List Datagram) (d : DecState), RecallsAll env R d →
      (∀ g ∈ net, SendableAll env o g.1 ∧ ∃ now s r s', pduEnc env o now s g.1 = some (g.2, r, s')) →
      receive env o d (net.map fun g => packBits g.2.ser) =
        net.mapIdx fun k g => received g.1.header (shownAll env o (R ++ net.take k) g) := by
  intro net
  induction net with
  | nil => exact fun _ _ _ _ => rfl
  | cons g net ih =>
    intro R d hR h
    obtain ⟨hs, now, s, r, s', he⟩ := h g (by simp)
    obtain ⟨w, h1, h2⟩ := datagram_all hm hs he
    obtain ⟨k, hk, e⟩ := bitsOf_pack g.2.ser
    have hp : Cdis.parsePackets env.toEnv (packBits g.2.ser) = some [w] := by
      unfold Cdis.parsePackets
      have := (C36_parse_iff env.toEnv _ _ [w]).2 ⟨.cons (h1 (List.replicate k false)) (.nil _), by simp,
        pdu_short (by rw [List.length_replicate]; omega)⟩
      rw [e, this]
    obtain ⟨h3, h4⟩ := h2 R d hR
    rw [List.map_cons, receive, hp]
    have h5 := ih (R ++ [g]) _ h4 (fun g' hg' => h g' (by simp [hg']))
    simp only [decStream, List.singleton_append, List.mapIdx_cons, List.take_zero, List.append_nil, List.take_succ_cons, h3, h5]
    simp

theorem sendableAll_encodes {env : Env} {o : Options} : ∀ (sent : List (Nat × Dis.Pdu)) (s : EncState),
    (∀ e ∈ sent, SendableAll env o e.2) → ∃ out s', encStream env o s sent = some (out, s') := by
  intro sent
  induction sent with
  | nil => exact fun s _ => ⟨[], s, rfl⟩
  | cons e sent ih =>
    obtain ⟨now, p⟩ := e
    intro s h
    have : ∃ c r s1, pduEnc env o now s p = some (c, r, s1) := by
      rcases h (now, p) (by simp) with hp | ⟨hst, ht, hf⟩
      · obtain ⟨c, r, s1, e1, -⟩ := C57_pdu hp now s
        exact ⟨c, r, s1, e1⟩
      · dsimp only at hf
        cases hx : p.body with
        | entityState x =>
          rw [hx] at hf
          obtain ⟨y, r0, h1, -, -⟩ := es_enc_fits o now (s.es x.entity_id) hf
          exact ⟨_, _, _, by unfold pduEnc; rw [hx]; simp only [bodyEnc, esEncodeBody, h1, Option.map_some]; rfl⟩
        | designator x => exact ⟨_, _, _, by unfold pduEnc; rw [hx]; rfl⟩
        | transmitter x => exact ⟨_, _, _, by unfold pduEnc; rw [hx]; rfl⟩
        | iff x => exact ⟨_, _, _, by unfold pduEnc; rw [hx]; rfl⟩
        | _ => rw [hx] at hf; exact hf.elim
    obtain ⟨c, r, s1, h1⟩ := this
    obtain ⟨out, s', h2⟩ := ih s1 (fun e he => h e (by simp [he]))
    exact ⟨c :: out, s', by unfold encStream; rw [h1]; simp [h2]⟩

/-- **C63.** The same with Designators, Transmitters and IFF PDUs (without layers 3 and 4) among them: in a partial update of a Designator name,
code, power, wavelength and spot location, in one of a Transmitter type, antenna location, frequency, bandwidth, power and modulation are
those of the last full update of that designator or radio that arrived before; the relative antenna location of a partial Transmitter
and the system identification of a partial IFF PDU are zero. -/
theorem C63_network {env : Env} {o : Options} (hm : o.update_mode = .partial) {sent : List (Nat × Dis.Pdu)}
    (hs : ∀ e ∈ sent, SendableAll env o e.2) :
    ∃ out s', encStream env o {} sent = some (out, s') ∧ out.length = sent.length ∧
      ∀ net : List Datagram, (∀ g ∈ net, g ∈ (sent.map (·.2)).zip out) →
        receive env o {} (net.map fun g => packBits g.2.ser) =
          net.mapIdx fun k g => received g.1.header (shownAll env o (net.take k) g) := by
  obtain ⟨out, s', h⟩ := sendableAll_encodes sent {} hs
  refine ⟨out, s', h, ?_, fun net hn => ?_⟩
  · exact encStream_length h
  · have := receive_all hm net [] {} ⟨fun e => rfl, fun e => rfl, fun e => rfl, fun e => rfl⟩ (fun g hg => by
      obtain ⟨⟨t, a⟩, b⟩ := sent_each sent {} h g (hn g hg)
      exact ⟨hs _ a, b⟩)
    simpa using this

theorem fullDesignators_nonempty {e : Dis.EntityId} {net : List Datagram} {k : Nat}
    (h : ∃ (j : Nat) (g' : Datagram) (y : Dis.Designator), j < k ∧ net[j]? = some g' ∧ g'.complete = true ∧ g'.1.body = .designator y ∧
      y.designating_entity_id = e) : fullDesignators e (net.take k) ≠ [] := by
  obtain ⟨j, g', y, hj, hg, hc, hb, he⟩ := h
  intro hn
  have hm : g' ∈ net.take k := List.mem_of_getElem? (i := j) (by rw [List.getElem?_take, if_pos hj, hg])
  have : y ∈ fullDesignators e (net.take k) := List.mem_filterMap.2 ⟨g', hm, by rw [hb]; simp [hc, he]⟩
  rw [hn] at this
  cases this
theorem mem_fullDesignators {e : Dis.EntityId} {R : List Datagram} {y : Dis.Designator} (h : y ∈ fullDesignators e R) :
    ∃ g ∈ R, g.1.body = .designator y ∧ y.designating_entity_id = e ∧ g.complete = true := by
  obtain ⟨g, hg, hy⟩ := List.mem_filterMap.1 h
  refine ⟨g, hg, ?_⟩
  cases hb : g.1.body with
  | designator z =>
    rw [hb] at hy
    dsimp only at hy
    split at hy
    · rename_i hz
      cases hy
      exact ⟨rfl, hz.2, hz.1⟩
    · cases hy
  | _ => rw [hb] at hy; cases hy
theorem mem_fullTransmitters {e : Dis.EntityId × UInt16} {R : List Datagram} {y : Dis.Transmitter} (h : y ∈ fullTransmitters e R) :
    ∃ g ∈ R, g.1.body = .transmitter y ∧ (y.radio_reference_id, y.radio_number) = e ∧ g.complete = true := by
  obtain ⟨g, hg, hy⟩ := List.mem_filterMap.1 h
  refine ⟨g, hg, ?_⟩
  cases hb : g.1.body with
  | transmitter z =>
    rw [hb] at hy
    dsimp only at hy
    split at hy
    · rename_i hz
      cases hy
      exact ⟨rfl, hz.2, hz.1⟩
    · cases hy
  | _ => rw [hb] at hy; cases hy

/-- **C63.** A designator whose name, code, power, wavelength and spot stay the same: once one full update of it has arrived, every later datagram
of it is handed over as in full-update mode, whatever was lost, repeated or reordered. -/
theorem C63_designator_settled {env : Env} {o : Options} (hm : o.update_mode = .partial) {sent : List (Nat × Dis.Pdu)}
    (hs : ∀ e ∈ sent, SendableAll env o e.2) {out s'} (he : encStream env o {} sent = some (out, s'))
    {net : List Datagram} (hn : ∀ g ∈ net, g ∈ (sent.map (·.2)).zip out)
    {k : Nat} {g : Datagram} {x : Dis.Designator} (hg : net[k]? = some g) (hx : g.1.body = .designator x)
    (hsame : ∀ t p y, (t, p) ∈ sent → p.body = .designator y → y.designating_entity_id = x.designating_entity_id →
      y.system_name = x.system_name ∧ y.code = x.code ∧ y.power = x.power ∧ y.wavelength = x.wavelength ∧ y.spot_location = x.spot_location)
    (hfull : ∃ (j : Nat) (g' : Datagram) (y : Dis.Designator), j < k ∧ net[j]? = some g' ∧ g'.complete = true ∧ g'.1.body = .designator y ∧
      y.designating_entity_id = x.designating_entity_id) :
    (receive env o {} (net.map fun g => packBits g.2.ser))[k]? = some (received g.1.header (.designator (arrivalDes env x))) := by
  obtain ⟨out', s1, h1, -, h2⟩ := C63_network hm hs
  rw [he] at h1
  cases h1
  rw [h2 net hn, List.getElem?_mapIdx, hg, Option.map_some]
  unfold shownAll
  rw [hx]
  dsimp only
  split
  · rfl
  · have hne := fullDesignators_nonempty hfull
    rw [List.getLast?_eq_some_getLast hne]
    obtain ⟨g', hg', hb', hi', -⟩ := mem_fullDesignators (List.getLast_mem hne)
    obtain ⟨⟨t, ht⟩, -⟩ := sent_each sent {} he g' (hn g' (List.mem_of_mem_take hg'))
    obtain ⟨e1, e2, e3, e4, e5⟩ := hsame t g'.1 _ ht hb' hi'
    unfold lateDes
    dsimp only
    rw [e1, e2, e3, e4, e5]
    rfl

/-- **C63 violated.** A Transmitter whose antenna is mounted away from the centre of its entity: every partial update of it puts the antenna at the
centre, whatever has arrived before and although the antenna was never said to be there. -/
theorem C63_transmitter_antenna_violated {env : Env} {o : Options} (hm : o.update_mode = .partial) {sent : List (Nat × Dis.Pdu)}
    (hs : ∀ e ∈ sent, SendableAll env o e.2) {out s'} (he : encStream env o {} sent = some (out, s'))
    {net : List Datagram} (hn : ∀ g ∈ net, g ∈ (sent.map (·.2)).zip out)
    {k : Nat} {g : Datagram} {x : Dis.Transmitter} (hg : net[k]? = some g) (hx : g.1.body = .transmitter x) (hp : g.complete = false) :
    ∃ z, (receive env o {} (net.map fun g => packBits g.2.ser))[k]? = some (received g.1.header (.transmitter z)) ∧
      z.relative_antenna_location = ⟨0, 0, 0⟩ := by
  obtain ⟨out', s1, h1, -, h2⟩ := C63_network hm hs
  rw [he] at h1
  cases h1
  rw [h2 net hn, List.getElem?_mapIdx, hg, Option.map_some]
  unfold shownAll
  rw [hx, hp]
  refine ⟨_, rfl, ?_⟩
  simp only [Bool.false_eq_true, if_false]
  unfold lateTx
  split <;> rfl

/-- **C63.** A Transmitter whose type, antenna location, frequency, bandwidth, power and modulation type stay the same: once one full update of it
has arrived, every later datagram of it is handed over as in full-update mode but for the relative antenna location. -/
theorem C63_transmitter_settled {env : Env} {o : Options} (hm : o.update_mode = .partial) {sent : List (Nat × Dis.Pdu)}
    (hs : ∀ e ∈ sent, SendableAll env o e.2) {out s'} (he : encStream env o {} sent = some (out, s'))
    {net : List Datagram} (hn : ∀ g ∈ net, g ∈ (sent.map (·.2)).zip out)
    {k : Nat} {g : Datagram} {x : Dis.Transmitter} (hg : net[k]? = some g) (hx : g.1.body = .transmitter x)
    (hsame : ∀ t p y, (t, p) ∈ sent → p.body = .transmitter y → (y.radio_reference_id, y.radio_number) = (x.radio_reference_id, x.radio_number) →
      y.radio_type = x.radio_type ∧ y.antenna_location = x.antenna_location ∧ y.frequency = x.frequency ∧
      y.transmit_frequency_bandwidth = x.transmit_frequency_bandwidth ∧ y.power = x.power ∧ y.modulation_type = x.modulation_type)
    (hfull : ∃ (j : Nat) (g' : Datagram) (y : Dis.Transmitter), j < k ∧ net[j]? = some g' ∧ g'.complete = true ∧ g'.1.body = .transmitter y ∧
      (y.radio_reference_id, y.radio_number) = (x.radio_reference_id, x.radio_number)) :
    ∃ z, (receive env o {} (net.map fun g => packBits g.2.ser))[k]? = some (received g.1.header (.transmitter z)) ∧
      { z with relative_antenna_location := (arrivalTx env x).relative_antenna_location } = arrivalTx env x := by
  obtain ⟨out', s1, h1, -, h2⟩ := C63_network hm hs
  rw [he] at h1
  cases h1
  rw [h2 net hn, List.getElem?_mapIdx, hg, Option.map_some]
  unfold shownAll
  rw [hx]
  refine ⟨_, rfl, ?_⟩
  split
  · rfl
  · have hne : fullTransmitters (x.radio_reference_id, x.radio_number) (net.take k) ≠ [] := by
      obtain ⟨j, g', y, hj, hg, hc, hb, hi⟩ := hfull
      intro hn
      have hm : g' ∈ net.take k := List.mem_of_getElem? (i := j) (by rw [List.getElem?_take, if_pos hj, hg])
      have : y ∈ fullTransmitters (x.radio_reference_id, x.radio_number) (net.take k) :=
        List.mem_filterMap.2 ⟨g', hm, by rw [hb]; dsimp only; rw [if_pos ⟨hc, hi⟩]⟩
      rw [hn] at this
      cases this
    rw [List.getLast?_eq_some_getLast hne]
    obtain ⟨g', hg', hb', hi', -⟩ := mem_fullTransmitters (List.getLast_mem hne)
    obtain ⟨⟨t, ht⟩, -⟩ := sent_each sent {} he g' (hn g' (List.mem_of_mem_take hg'))
    obtain ⟨e1, e2, e3, e4, e5, e6⟩ := hsame t g'.1 _ ht hb' hi'
    unfold lateTx
    dsimp only
    rw [e1, e2, e3, e4, e5, e6]
    rfl

/-- **C63 violated.** The system identification of an IFF PDU in a partial update is zero, whatever has arrived before: the decoder never keeps one. -/
theorem C63_iff_system_violated {env : Env} {o : Options} (hm : o.update_mode = .partial) {sent : List (Nat × Dis.Pdu)}
    (hs : ∀ e ∈ sent, SendableAll env o e.2) {out s'} (he : encStream env o {} sent = some (out, s'))
    {net : List Datagram} (hn : ∀ g ∈ net, g ∈ (sent.map (·.2)).zip out)
    {k : Nat} {g : Datagram} {x : Dis.Iff} (hg : net[k]? = some g) (hx : g.1.body = .iff x) (hp : g.complete = false) :
    (receive env o {} (net.map fun g => packBits g.2.ser))[k]? =
      some (received g.1.header (.iff { arrivalIff x with system_id := ⟨0, 0, 0, [0, 0, 0, 0, 0, 0, 0, 0]⟩ })) := by
  obtain ⟨out', s1, h1, -, h2⟩ := C63_network hm hs
  rw [he] at h1
  cases h1
  rw [h2 net hn, List.getElem?_mapIdx, hg, Option.map_some]
  unfold shownAll
  rw [hx, hp]
  rfl

/-! ## IFF layer 3 in a partial update -/

/-- The default Mode 5 data. -/
def mode5Zero : Cdis.Mode5BasicData := .transponder 0 0 0 0 0 0 0 0

/-- cdis-assemble/src/iff/parser.rs:41-50, 185-230: without a known system type the reader takes nothing of the Mode 5 data. -/
theorem layer3_unread {l : Cdis.IffLayer3} (h : l.layer_header.Wf) (hs : l.site < 65536) (ha : l.application < 65536) (hr : l.records = []) (r : Cdis.Bits) :
    (Cdis.IffLayer3.parse .undetermined).run (l.ser ++ r) = .ok { l.wire with mode_5_basic_data := mode5Zero } (l.mode_5_basic_data.ser ++ r) := by
  obtain ⟨lh, site, app, m, rs⟩ := l
  dsimp only at *
  subst hr
  have : ∀ r : Cdis.Bits, (Cdis.rIffRecords 0).run r = .ok [] r := fun r => rfl
  simp only [Cdis.IffLayer3.parse, Cdis.IffLayer3.ser, List.append_assoc, h, hs, ha, Cdis.IffLayer3.wire, rt,
    Cdis.Mode5BasicData.parse, Cdis.wIffRecords, List.isEmpty_nil, if_true, List.nil_append, Cdis.iffRecordsFlag, mode5Zero, this, P.run_pure]

theorem iff_unread {env : Dis.Env} (hk : env.iffClass 0 = .undetermined) {v : Cdis.Iff} {l : Cdis.IffLayer3}
    (h1 : v.relative_antenna_location_units < 2 ^ 1) (h2 : v.emitting_entity_id.Wf) (h3 : Cdis.OptAll Cdis.EntityId.Wf v.event_id)
    (h4 : Cdis.OptAll (Cdis.Vec3.In 16) v.relative_antenna_location) (h5 : v.system_id = none) (h6 : v.system_designator < 2 ^ 8)
    (h7 : Cdis.OptAll (· < 2 ^ 8) v.system_specific_data) (h8 : v.operational.Wf)
    (l2 : v.layer_2.isSome = v.operational.layer 2) (l3 : v.operational.layer 3 = true)
    (l4 : v.operational.layer 4 = false) (l5 : v.operational.layer 5 = false)
    (w2 : Cdis.OptAll Cdis.IffLayer2.Wf v.layer_2) (w3 : v.layer_3 = some l) (w4 : v.layer_4 = none) (w5 : v.layer_5 = none)
    (q1 : l.layer_header.Wf) (q2 : l.site < 65536) (q3 : l.application < 65536) (q4 : l.records = []) (r : Cdis.Bits) :
    (Cdis.Iff.parse env).run (v.ser ++ r) = .ok { v.wire with layer_3 := some { l.wire with mode_5_basic_data := mode5Zero } }
      (l.mode_5_basic_data.ser ++ r) := by
  have e0 : Cdis.has v.fp (Cdis.bit 11) = v.event_id.isSome := by unfold Cdis.Iff.fp; flag_bits
  have e1 : Cdis.has v.fp (Cdis.bit 10) = v.relative_antenna_location.isSome := by unfold Cdis.Iff.fp; flag_bits
  have e2 : Cdis.has v.fp (Cdis.bit 9) = v.system_id.isSome := by unfold Cdis.Iff.fp; flag_bits
  have e3 : Cdis.has v.fp (Cdis.bit 8) = v.system_specific_data.isSome := by unfold Cdis.Iff.fp; flag_bits
  have o := Cdis.OperationalData.run h8 (fp := v.fp) (by unfold Cdis.Iff.fp; flag_bits) (by unfold Cdis.Iff.fp; flag_bits)
    (by unfold Cdis.Iff.fp; flag_bits) (by unfold Cdis.Iff.fp; flag_bits) (by unfold Cdis.Iff.fp; flag_bits)
    (by unfold Cdis.Iff.fp; flag_bits) (by unfold Cdis.Iff.fp; flag_bits) (by unfold Cdis.Iff.fp; flag_bits)
  have hkind : Cdis.iffKind env none = .undetermined := hk
  have hu := fun r => layer3_unread q1 q2 q3 q4 r
  have hw : ∀ {α : Type} (p : Cdis.BitP α) (r : Cdis.Bits), (Cdis.rWhen false p).run r = .ok none r := fun p r => rfl
  have ht : ∀ {α : Type} (p : Cdis.BitP α) (x : α) (a r : Cdis.Bits), p.run a = .ok x r → (Cdis.rWhen true p).run a = .ok (some x) r := by
    intro α p x a r h
    simp [Cdis.rWhen, h]
  have w0 : ∀ {α : Type} (w : α → Cdis.Bits), Cdis.wOpt w none = [] := fun _ => rfl
  have w1 : ∀ {α : Type} (w : α → Cdis.Bits) (x : α), Cdis.wOpt w (some x) = w x := fun _ _ => rfl
  have hl3 := fun r => ht _ _ _ _ (hu r)
  simp only [Cdis.Iff.parse, Cdis.Iff.ser, List.append_assoc, rt, Cdis.Iff.fp_lt, h1, Cdis.toNat_lt_pow, Cdis.toNat_bne, h2, e0, e1, e2, e3, h3, h4,
    h6, h7, o, Cdis.rWhen_if_map (fun x h r => Cdis.IffLayer2.run h r) l2 w2,
    l3, l4, l5, w3, w4, w5, h5, hkind, w0, w1, Option.isSome_none, List.nil_append, hl3, hw, Cdis.Iff.wire, Option.map_none]

theorem pdu_leaves {env : Env} {o : Options} {p : Dis.Pdu} {now s cb r s'} {wb : Cdis.CdisBody} {left : Cdis.Bits}
    (hb : bodyEnc env o now s p.body = some (cb, r, s'))
    (hst : (p.header.pdu_status.getD {}).Wf p.header.pdu_type)
    (hw : ∀ rest, (Cdis.CdisBody.parse env.toEnv p.header.pdu_type.toNat).run (cb.ser ++ rest) = .ok wb (left ++ rest)) :
    ∃ c w, pduEnc env o now s p = some (c, r, s') ∧
      (∀ rest, (Cdis.CdisPdu.parse env.toEnv).run (c.ser ++ rest) = .ok w (left ++ rest)) ∧
      ∀ o' d, (bodyDec env o' d wb).1.pduType = p.header.pdu_type →
        (pduDec env o' d w).1 = received p.header (bodyDec env o' d wb).1 := by
  refine ⟨_, ⟨{ headerEnc p.header with
          length := ((headerEnc p.header).lenBits + cb.lenBits) % 65536 % 2 ^ 14,
          timestamp := (timeEnc p.header.time_stamp).raw % 2 ^ 26 }, wb⟩, by unfold pduEnc; rw [hb]; rfl, fun rest => ?_,
          fun o' d ht => ?_⟩
  · have hh := header_wire p.header (((headerEnc p.header).lenBits + cb.lenBits) % 65536) hst (cb.ser ++ rest)
    unfold Cdis.CdisPdu.parse Cdis.CdisPdu.ser
    rw [List.append_assoc, P.run_bind]
    rw [show (Cdis.CdisPdu.finalize (headerEnc p.header) cb none).header =
      { headerEnc p.header with length := ((headerEnc p.header).lenBits + cb.lenBits) % 65536 } from rfl]
    rw [show (Cdis.CdisPdu.finalize (headerEnc p.header) cb none).body = cb from rfl, hh]
    simp only [Res.andThen_ok, P.run_bind, P.run_pure]
    rw [show (headerEnc p.header).pdu_type = p.header.pdu_type.toNat from rfl, hw]
    rfl
  · unfold pduDec Dis.Pdu.finalizeFromParts headerDec headerEnc received
    simp only [UInt8.ofNat_toNat, ht]
    rfl

/-- **C63 violated.** Layer 3 in a partial update: when the system identification is left out the reader does not know the system type, so whatever
Mode 5 data were sent are not read.  The PDU is handed over with default Mode 5 data and without its system identification, and the
Mode 5 data - 64 bits or more - are left in the datagram to be read as the beginning of another PDU. -/
theorem C63_iff_layers_violated {env : Env} {o : Options} (hm : o.update_mode = .partial) (hk : env.iffClass 0 = .undetermined)
    {p : Dis.Pdu} {x : Dis.Iff} {l : Dis.IffLayer3} (hst : (p.header.pdu_status.getD {}).Wf p.header.pdu_type) (ht : p.header.pdu_type = 28)
    (hx : p.body = .iff x) (hf : IffFits env x) (h3 : x.layer_3 = some l) (hr : l.data_records = []) (h4 : x.layer_4 = none) (h5 : x.layer_5 = none)
    {now : Nat} {s : EncState} {before : Nat} (hs : s.iff x.emitting_entity_id = some before)
    (hnow : timedOut o.heartbeats.iff o.mplier now before = false) :
    ∃ (c w : Cdis.CdisPdu) (left : Cdis.Bits), pduEnc env o now s p = some (c, .unaffected, s) ∧
      (∀ rest, (Cdis.CdisPdu.parse env.toEnv).run (c.ser ++ rest) = .ok w (left ++ rest)) ∧ 64 ≤ left.length ∧
      ∀ d, ∃ x' l', (pduDec env o d w).1 = received p.header (.iff x') ∧ x'.layer_3 = some l' ∧
        l'.reporting_simulation = l.reporting_simulation ∧
        l'.mode_5_basic_data = .transponder (List.replicate 11 0) 0 (List.replicate 32 0) (List.replicate 7 0) 0 (List.replicate 3 0) 0 0 := by
  have hsys : x.system_id.system_type.toNat < 16 := hf.system.1
  have hu : (if (isZero32 x.relative_antenna_location.first && isZero32 x.relative_antenna_location.second
      && isZero32 x.relative_antenna_location.third) = true then CM else (coordEnc x.relative_antenna_location).2) < 2 := by
    split
    · exact (by decide : CM < 2)
    · exact (coord_in _).2
  have hl : Cdis.OptAll (Cdis.Vec3.In 16) (if (isZero32 x.relative_antenna_location.first && isZero32 x.relative_antenna_location.second
      && isZero32 x.relative_antenna_location.third) = true then none else some (coordEnc x.relative_antenna_location).1) := by
    split
    · trivial
    · exact (coord_in _).1
  have he : Cdis.OptAll Cdis.EntityId.Wf (if x.event_id.event_id = 0 ∧ x.event_id.simulation_address.application_id = 0
       ∧ x.event_id.simulation_address.site_id = 0 then none else some (evidEnc x.event_id)) := by
    split
    · trivial
    · exact evid_wf _
  have hom : (decide (o.update_mode = .partial) && (s.iff x.emitting_entity_id).any (fun hb => !timedOut o.heartbeats.iff o.mplier now hb)) = true := by
    rw [hs, hm]
    simp [hnow]
  have p2 : (x.layer_2.map layer2Enc).isSome = (opDataEnc x.fundamental_operational_data).layer 2 :=
    some_of_present hf.wf.p2 (layers_bits hf.wf.layers 2 (by decide))
  have p3 : (x.layer_3.map layer3Enc).isSome = (opDataEnc x.fundamental_operational_data).layer 3 :=
    some_of_present hf.wf.p3 (layers_bits hf.wf.layers 3 (by decide))
  have p4 : (x.layer_4.map layer4Enc).isSome = (opDataEnc x.fundamental_operational_data).layer 4 :=
    some_of_present hf.wf.p4 (layers_bits hf.wf.layers 4 (by decide))
  have p5 : (x.layer_5.map layer5Enc).isSome = (opDataEnc x.fundamental_operational_data).layer 5 :=
    some_of_present hf.wf.p5 (layers_bits hf.wf.layers 5 (by decide))
  obtain ⟨g1, g2, g3⟩ := hf.layer3 l h3
  have hrun := fun r => iff_unread (env := env.toEnv) hk (v := (iffEnc o now (s.iff x.emitting_entity_id) x).1) (l := layer3Enc l)
    hu (eid_wf _) he hl (by unfold iffEnc; simp only [hom, if_true]) x.system_designator.toNat_lt (nz_all x.system_specific_data.toNat_lt)
    ⟨pack_lt (L := Dis.SystemStatus.layout) (t := 8) (by decide) hf.wf.status, nz_all (UInt8.toNat_lt _),
        pack_lt (L := Dis.InformationLayers.layout) (t := 7) (by decide) hf.wf.layers, nz_all (UInt8.toNat_lt _), nz_all (UInt16.toNat_lt _),
        nz_all (UInt16.toNat_lt _), nz_all (UInt16.toNat_lt _), nz_all (UInt16.toNat_lt _), nz_all (UInt16.toNat_lt _), nz_all (UInt16.toNat_lt _)⟩
    p2 (by rw [h3] at p3; exact p3.symm) (by rw [h4] at p4; exact p4.symm) (by rw [h5] at p5; exact p5.symm)
    (optAll_map fun l hl => by
      obtain ⟨h1, h2, h3, h4⟩ := hf.layer2 l hl
      refine ⟨⟨h1, l.layer_header.layer_specific_information.toNat_lt⟩, beam_fits h2, l.operational_parameter_1.toNat_lt,
        l.operational_parameter_2.toNat_lt, ?_, fun p hp => ?_⟩
      · show (List.map _ _).length < 256
        rw [List.length_map]; omega
      · obtain ⟨a, ha, rfl⟩ := List.mem_map.1 hp
        exact iffParam_wf (h4 a ha))
    (show x.layer_3.map layer3Enc = _ by rw [h3]; rfl) (show x.layer_4.map layer4Enc = _ by rw [h4]; rfl)
    (show x.layer_5.map layer5Enc = _ by rw [h5]; rfl) ⟨g1, l.layer_header.layer_specific_information.toNat_lt⟩
    l.reporting_simulation.site_id.toNat_lt l.reporting_simulation.application_id.toNat_lt
    (show l.data_records.map iffRecEnc = [] by rw [hr]; rfl) r
  have hb : bodyEnc env o now s p.body = some (.iff (iffEnc o now (s.iff x.emitting_entity_id) x).1, .unaffected, s) := by
    rw [hx]
    have : (iffEnc o now (s.iff x.emitting_entity_id) x).2 = .unaffected := by unfold iffEnc; simp only [hom, if_true]
    simp only [bodyEnc, iffEncodeBody, this]
    rfl
  generalize (iffEnc o now (s.iff x.emitting_entity_id) x).1 = y at *
  obtain ⟨c, w, a1, a2, a3⟩ := pdu_leaves hb hst (left := (layer3Enc l).mode_5_basic_data.ser)
    (wb := .iff { y.wire with layer_3 := some { (layer3Enc l).wire with mode_5_basic_data := mode5Zero } }) (fun rest => by
      rw [ht]
      show (Cdis.mapP Cdis.CdisBody.iff (Cdis.Iff.parse env.toEnv)).run (y.ser ++ rest) = _
      unfold Cdis.mapP
      rw [P.run_bind, hrun]
      rfl)
  refine ⟨c, w, _, a1, a2, ?_, fun d => ?_⟩
  · rw [Cdis.Mode5BasicData.length_ser]
    show 64 ≤ (mode5Enc l.mode_5_basic_data).lenBits
    cases l.mode_5_basic_data with
    | interrogator a b e =>
      have h : ∀ n, 8 ≤ Cdis.uv16.lenBits n := by
        intro n
        unfold Cdis.UV4.lenBits Cdis.UV4.bits
        generalize Cdis.uv16.flag n = k
        simp only [Cdis.uv16]
        repeat' split
        all_goals omega
      show 64 ≤ 40 + (_ + _ + _)
      have h1 := h e.simulation_address.site_id.toNat
      have h2 := h e.simulation_address.application_id.toNat
      have h3 := h e.entity_id.toNat
      unfold Cdis.lUV16
      simp only [eidEnc]
      omega
    | transponder => exact (by decide : 64 ≤ 112)
  · refine ⟨_, _, a3 o d (by rw [ht]; rfl), rfl, ?_, ?_⟩
    · show (⟨UInt16.ofNat l.reporting_simulation.site_id.toNat, UInt16.ofNat l.reporting_simulation.application_id.toNat⟩ : Dis.SimulationAddress) = _
      simp
    · rfl

/-! ### Cases that meet the hypotheses -/

/-- the IFF PDU of the sample with layer 2 only -/
def lossyIff : Dis.Iff :=
  { sent_iff with
    fundamental_operational_data := { sent_iff.fundamental_operational_data with information_layers := [1, 1, 0, 0, 0, 0, 0] }
    layer_3 := none, layer_4 := none, layer_5 := none }
theorem lossyIff_fits : IffFits codecEnv lossyIff where
  wf := by decide +kernel
  forced := by decide +kernel
  system := by decide +kernel
  layer2 := sent_iff_fits.layer2
  layer3 := by intro l hl; cases hl
  layer4 := by intro l hl; cases hl
  layer5 := by intro l hl; cases hl
/-- designator, radio and IFF system, each three times, and a tank -/
def lossyAll : List (Nat × Dis.Pdu) :=
  sampleHistory (.designator sent_designator) 24 ++ sampleHistory (.transmitter sent_transmitter) 25 ++ sampleHistory (.iff lossyIff) 28 ++ lossySent
theorem lossyAll_sendable : ∀ e ∈ lossyAll, SendableAll codecEnv { update_mode := .partial } e.2 := by
  have hs : ∀ t : UInt8, ((sampleFor t).pdu_status.getD {}).Wf (sampleFor t).pdu_type := fun t => C02_read_wf t 0x02
  intro e he
  rcases List.mem_append.1 he with he | he
  · simp only [List.mem_append] at he
    rcases he with (he | he) | he <;> simp only [sampleHistory, List.mem_cons, List.not_mem_nil, or_false] at he <;>
      rcases he with rfl | rfl | rfl | rfl | rfl
    all_goals first
      | exact .inr ⟨hs _, rfl, sent_designator_fits⟩
      | exact .inr ⟨hs _, rfl, sent_transmitter_fits⟩
      | exact .inr ⟨hs _, rfl, lossyIff_fits, rfl, rfl⟩
  · rcases lossySent_sendable e he with h | ⟨h1, h2, x, h3, h4⟩
    · exact .inl h
    · exact .inr ⟨h1, by rw [h3]; exact h2, by rw [h3]; exact h4⟩
/-- Which of them are complete. -/
theorem lossyAll_complete : (encStream codecEnv { update_mode := .partial } {} lossyAll).map
    (fun r => ((lossyAll.map (·.2)).zip r.1).map Datagram.complete) =
      some ([true, false, false, true, false] ++ [true, false, false, true, false] ++ [true, false, false, true, false] ++ List.replicate 6 false) := by
  decide +kernel
example := C63_network rfl lossyAll_sendable
theorem lossyAll_sent : ∃ (out : List Cdis.CdisPdu) (s' : EncState), encStream codecEnv { update_mode := .partial } {} lossyAll = some (out, s') ∧
    ∀ k, k < 15 → ∃ g : Datagram, ((lossyAll.map (·.2)).zip out)[k]? = some g ∧
      some g.complete = ([true, false, false, true, false] ++ [true, false, false, true, false] ++ [true, false, false, true, false])[k]? ∧
      some g.1 = (lossyAll.map (·.2))[k]? := by
  have hF := lossyAll_complete
  obtain ⟨out, s', h1, hlen⟩ := C63_network (env := codecEnv) (o := { update_mode := .partial }) rfl lossyAll_sendable
  rw [h1] at hF
  simp only [Option.map_some, Option.some.injEq] at hF
  refine ⟨out, s', h1, fun k hk => ?_⟩
  have hl : ((lossyAll.map (·.2)).zip out).length = 21 := by
    have := congrArg List.length hF
    simpa using this
  refine ⟨_, List.getElem?_eq_getElem (by omega), ?_, ?_⟩
  · have e : ([true, false, false, true, false] ++ [true, false, false, true, false] ++ [true, false, false, true, false])[k]? =
        ([true, false, false, true, false] ++ [true, false, false, true, false] ++ [true, false, false, true, false] ++ List.replicate 6 false)[k]? := by
      exact (List.getElem?_append_left (by simpa using hk)).symm
    rw [e, ← hF, List.getElem?_map, List.getElem?_eq_getElem (by omega)]
    rfl
  · exact ((List.getElem?_zip_eq_some.1 (List.getElem?_eq_getElem (by omega) : ((lossyAll.map (·.2)).zip out)[k]? = _)).1).symm
/-- Delivered: the full update of each of the three, and a partial one of each. -/
theorem lossyAll_delivered : ∃ (out : List Cdis.CdisPdu) (s' : EncState) (g0 g1 g5 g6 g10 g11 : Datagram),
    encStream codecEnv { update_mode := .partial } {} lossyAll = some (out, s') ∧
    (∀ g ∈ [g0, g1, g5, g6, g10, g11], g ∈ (lossyAll.map (·.2)).zip out) ∧
    g0.complete = true ∧ g1.complete = false ∧ g5.complete = true ∧ g6.complete = false ∧ g10.complete = true ∧ g11.complete = false ∧
    g0.1.body = .designator sent_designator ∧ g1.1.body = .designator sent_designator ∧ g5.1.body = .transmitter sent_transmitter ∧
    g6.1.body = .transmitter sent_transmitter ∧ g10.1.body = .iff lossyIff ∧ g11.1.body = .iff lossyIff := by
  obtain ⟨out, s', h1, h2⟩ := lossyAll_sent
  obtain ⟨g0, a0, b0, c0⟩ := h2 0 (by decide)
  obtain ⟨g1, a1, b1, c1⟩ := h2 1 (by decide)
  obtain ⟨g5, a5, b5, c5⟩ := h2 5 (by decide)
  obtain ⟨g6, a6, b6, c6⟩ := h2 6 (by decide)
  obtain ⟨g10, a10, b10, c10⟩ := h2 10 (by decide)
  obtain ⟨g11, a11, b11, c11⟩ := h2 11 (by decide)
  refine ⟨out, s', g0, g1, g5, g6, g10, g11, h1, ?_, ?_⟩
  · intro g hg
    simp only [List.mem_cons, List.not_mem_nil, or_false] at hg
    rcases hg with rfl | rfl | rfl | rfl | rfl | rfl
    exacts [List.mem_of_getElem? a0, List.mem_of_getElem? a1, List.mem_of_getElem? a5, List.mem_of_getElem? a6, List.mem_of_getElem? a10,
      List.mem_of_getElem? a11]
  · simp only [lossyAll, sampleHistory, List.map_cons, List.cons_append, List.nil_append,
      List.getElem?_cons_zero, List.getElem?_cons_succ, Option.some.injEq] at b0 b1 b5 b6 b10 b11 c0 c1 c5 c6 c10 c11
    rw [c0, c1, c5, c6, c10, c11]
    exact ⟨b0, b1, b5, b6, b10, b11, rfl, rfl, rfl, rfl, rfl, rfl⟩
theorem lossyAll_same : (∀ t p y, (t, p) ∈ lossyAll → p.body = .designator y → y = sent_designator) ∧
    (∀ t p y, (t, p) ∈ lossyAll → p.body = .transmitter y → y = sent_transmitter) := by
  constructor <;> intro t p y hp hy
  all_goals
    simp only [lossyAll, lossySent, sampleHistory, List.cons_append, List.nil_append, List.mem_cons, List.not_mem_nil, or_false, Prod.mk.injEq] at hp
    rcases hp with h | h | h | h | h | h | h | h | h | h | h | h | h | h | h | h | h | h | h | h | h <;> obtain ⟨-, rfl⟩ := h <;> cases hy <;> rfl
/-- the partial update of the designator is settled, that of the radio too but for the antenna, and that of the IFF system has lost its identification -/
example : ∃ (out : List Cdis.CdisPdu) (s' : EncState) (g0 g1 g5 g6 g10 g11 : Datagram) (z : Dis.Transmitter),
    encStream codecEnv { update_mode := .partial } {} lossyAll = some (out, s') ∧
    (receive codecEnv { update_mode := .partial } {} ([g0, g1, g5, g6, g10, g11].map fun g => packBits g.2.ser))[1]? =
      some (received g1.1.header (.designator (arrivalDes codecEnv sent_designator))) ∧
    (receive codecEnv { update_mode := .partial } {} ([g0, g1, g5, g6, g10, g11].map fun g => packBits g.2.ser))[3]? =
      some (received g6.1.header (.transmitter z)) ∧ z.radio_type = sent_transmitter.radio_type ∧
    (receive codecEnv { update_mode := .partial } {} ([g0, g1, g5, g6, g10, g11].map fun g => packBits g.2.ser))[5]? =
      some (received g11.1.header (.iff { arrivalIff lossyIff with system_id := ⟨0, 0, 0, [0, 0, 0, 0, 0, 0, 0, 0]⟩ })) := by
  obtain ⟨out, s', g0, g1, g5, g6, g10, g11, h1, hn, b0, b1, b5, b6, b10, b11, c0, c1, c5, c6, c10, c11⟩ := lossyAll_delivered
  obtain ⟨z, hz, hz'⟩ := C63_transmitter_settled rfl lossyAll_sendable h1 hn (k := 3) rfl c6
    (fun t p y hp hy _ => by cases lossyAll_same.2 t p y hp hy; exact ⟨rfl, rfl, rfl, rfl, rfl, rfl⟩) ⟨2, g5, _, by decide, rfl, b5, c5, rfl⟩
  refine ⟨out, s', g0, g1, g5, g6, g10, g11, z, h1, ?_, hz, ?_, ?_⟩
  · exact C63_designator_settled rfl lossyAll_sendable h1 hn (k := 1) rfl c1
      (fun t p y hp hy _ => by cases lossyAll_same.1 t p y hp hy; exact ⟨rfl, rfl, rfl, rfl, rfl⟩) ⟨0, g0, _, by decide, rfl, b0, c0, rfl⟩
  · have := congrArg (fun t : Dis.Transmitter => t.radio_type) hz'
    exact this
  · exact C63_iff_system_violated rfl lossyAll_sendable h1 hn (k := 5) rfl c11 b11
/-- an antenna one metre in front of the centre: in a full update it stays there -/
example : (coordQ ⟨0x3F800000, 0, 0⟩).first = 0x3F800000 := by decide +kernel

/-- the environment of the samples, with SISO's meaning of system type 0 -/
def noSystemEnv : Env := { codecEnv with iffClass := fun t => if t = 0 then .undetermined else codecEnv.iffClass t }
/-- an IFF PDU with layer 3 without data records -/
def layer3Iff : Dis.Iff :=
  { lossyIff with
    fundamental_operational_data := { sent_iff.fundamental_operational_data with information_layers := [1, 1, 1, 0, 0, 0, 0] }
    layer_3 := some ⟨⟨3, 53, 54⟩, ⟨55, 56⟩,
      .transponder [3, 1, 2, 0, 1, 0, 1, 0, 1, 0, 1] 77 (List.replicate 32 1) [7, 6, 5, 4, 1, 0, 1] 225 [1, 0, 5] 3 4, []⟩ }
theorem layer3Iff_fits : IffFits noSystemEnv layer3Iff where
  wf := by decide +kernel
  forced := by decide +kernel
  system := by decide +kernel
  layer2 := sent_iff_fits.layer2
  layer3 := by
    intro l hl
    cases hl
    unfold Mode5Fits IffRecordsFit
    decide +kernel
  layer4 := by intro l hl; cases hl
  layer5 := by intro l hl; cases hl
/-- the second PDU, five seconds after the first -/
example := C63_iff_layers_violated (env := noSystemEnv) (o := { update_mode := .partial }) rfl rfl (p := ⟨sampleFor 28, .iff layer3Iff⟩)
  (C02_read_wf 28 0x02) rfl rfl layer3Iff_fits rfl rfl rfl rfl (now := 5000000000)
  (s := { iff := fun _ => some 0 }) (before := 0) (by decide +kernel) (by decide +kernel)
/-- Exactly two PDUs can be read. -/
def twoRead (env : Dis.Env) (b : Cdis.Bits) : Bool :=
  match (Cdis.CdisPdu.parse env).run b with
  | .ok _ r => match (Cdis.CdisPdu.parse env).run r with
    | .ok _ r' => match (Cdis.CdisPdu.parse env).run r' with
      | .err => true
      | _ => false
    | _ => false
  | _ => false
theorem twoRead_parse {env : Dis.Env} {bs : Bytes} (h : twoRead env (Cdis.bitsOf bs) = true) :
    ∃ p q, Cdis.parsePackets env bs = some [p, q] := by
  unfold twoRead at h
  split at h
  · rename_i p r h1
    split at h
    · rename_i q r' h2
      split at h
      · rename_i h3
        refine ⟨p, q, ?_⟩
        unfold Cdis.parsePackets
        rw [(C36_parse_iff env _ r' [p, q]).2 ⟨.cons h1 (.cons h2 (.nil _)), by simp, h3⟩]
      · cases h
    · cases h
  · cases h
/-- **C63 violated.** The datagram of the same PDU five seconds later: one PDU was sent and two are read. -/
theorem C63_iff_phantom_violated : ∃ c, (encStream noSystemEnv { update_mode := .partial } {} [(0, ⟨sampleFor 28, .iff layer3Iff⟩), (5000000000, ⟨sampleFor 28, .iff layer3Iff⟩)]).bind
    (fun r => r.1[1]?) = some c ∧ ∃ p q, Cdis.parsePackets noSystemEnv.toEnv (packBits c.ser) = some [p, q] := by
  have h : ((encStream noSystemEnv { update_mode := .partial } {} [(0, ⟨sampleFor 28, .iff layer3Iff⟩), (5000000000, ⟨sampleFor 28, .iff layer3Iff⟩)]).bind
    (fun r => r.1[1]?)).any (fun c => twoRead noSystemEnv.toEnv (Cdis.bitsOf (packBits c.ser))) = true := by decide +kernel
  revert h
  generalize (encStream noSystemEnv _ _ _).bind _ = c
  intro h
  cases c with
  | none => cases h
  | some c => exact ⟨c, rfl, twoRead_parse h⟩

end Verif.Props
