import Verif.Core.Many
import Verif.Props.CdisLengths

/-! # C35, C36, C47: C-DIS PDUs and packets -/

namespace Verif.Props
open Verif.Cdis

/-! ## C35: bodies and PDUs -/

/-- Every body that fits its fields, of the type the header announces, is read back (as `wire` says), whatever
follows. -/
theorem C35_body_round_trip {env : Dis.Env} {t : Nat} {b : CdisBody} (h : b.Wf env t) (r : Bits) :
    (CdisBody.parse env t).run (b.ser ++ r) = .ok b.wire r := CdisBody.run h r
/-- The same for a PDU. -/
theorem C35_pdu_round_trip {env : Dis.Env} {p : CdisPdu} (h : p.Wf env) (r : Bits) :
    (CdisPdu.parse env).run (p.ser ++ r) = .ok p.wire r := CdisPdu.run h r
/-- The bodies that arrive exactly as they are: all those without a location in world coordinates, a beam or IFF
layers, apart from the type of a collision. -/
theorem C35_unchanged (b : CdisBody)
    (h : match b with
      | .entityState b => b.entity_location = none
      | .fire _ | .detonation _ => False
      | .collision b => b.collision_type = 0 ∨ b.collision_type = 1
      | .electromagneticEmission b => b.beam_data = []
      | .designator b => b.designator_spot_location = none
      | .transmitter b => b.antenna_location = none
      | .iff b => b.layer_2 = none ∧ b.layer_3 = none ∧ b.layer_4 = none ∧ b.layer_5 = none
      | _ => True) : b.wire = b := by
  cases b <;> simp only [CdisBody.wire] at h ⊢
  case entityState b => cases b; simp only at h; subst h; rfl
  case collision b => cases b; simp only at h; rcases h with rfl | rfl <;> rfl
  case electromagneticEmission b => cases b; simp only at h; subst h; rfl
  case designator b => cases b; simp only at h; subst h; rfl
  case transmitter b => cases b; simp only at h; subst h; rfl
  case iff b => cases b; simp only at h; obtain ⟨rfl, rfl, rfl, rfl⟩ := h; rfl

theorem wU_eq_of_testBit (n v : Nat) : wU n v = (List.range n).reverse.map fun k => v.testBit k := by
  induction n with
  | zero => rfl
  | succ n ih => simp [wU, ih, List.range_succ]

/-- The first thirteen bits of an Entity State body say, in order, which of its optional fields follow. -/
theorem C35_entity_state_flags (v : EntityState) : v.ser.take 13 = [v.force_id.isSome, !v.variable_parameters.isEmpty,
    v.entity_type.isSome, v.alternate_entity_type.isSome, v.entity_linear_velocity.isSome, v.entity_location.isSome,
    v.entity_orientation.isSome, v.entity_appearance.isSome, v.dr_params_other.isSome,
    v.dr_params_entity_linear_acceleration.isSome, v.dr_params_entity_angular_velocity.isSome, v.entity_marking.isSome,
    v.capabilities.isSome] := by
  have e : v.ser.take 13 = wU 13 v.fp := by
    have : v.ser = wU 13 v.fp ++ (v.ser.drop 13) := by
      simp only [EntityState.ser, List.append_assoc]
      rw [List.drop_append_of_le_length (by simp), List.drop_of_length_le (by simp)]
      rfl
    rw [this, List.take_append_of_le_length (by simp), List.take_of_length_le (by simp)]
  rw [e, wU_eq_of_testBit]
  simp only [List.range_succ, List.range_zero, List.reverse_cons, List.reverse_nil, List.nil_append,
    List.cons_append, List.map_cons, List.map_nil]
  simp only [← has_bit]
  unfold EntityState.fp
  simp only [List.cons.injEq, and_true]
  refine ⟨?_, ?_, ?_, ?_, ?_, ?_, ?_, ?_, ?_, ?_, ?_, ?_, ?_⟩ <;> flag_bits
/-- Every combination of optional fields of an Entity State body is read back. -/
theorem C35_entity_state_round_trip {v : EntityState} (h : v.Wf) (r : Bits) :
    EntityState.parse.run (v.ser ++ r) = .ok v.wire r := EntityState.run h r

/-! ### Fields that share a flag -/

theorem Ens.when {α β : Type} {c : Bool} {p : BitP α} {f : Option α → BitP β} {s : β → Prop}
    (hf : ∀ o, o.isSome = c → Ens (f o) s) : Ens (rWhen c p >>= f) s := by
  refine Ens.bind (q := fun o => o.isSome = c) ?_ hf
  unfold rWhen
  cases c with
  | true => exact Ens.bind (Ens.any p) fun a _ => Ens.pure rfl
  | false => exact Ens.pure rfl

/-- Whatever is read as a Fire body has both or none of warhead and fuze, and both or none of quantity and rate. -/
theorem C35_fire_paired {b r : Bits} {v : Fire} (h : Fire.parse.run b = .ok v r) :
    v.descriptor_warhead.isSome = v.descriptor_fuze.isSome ∧ v.descriptor_quantity.isSome = v.descriptor_rate.isSome := by
  revert h
  suffices e : Ens Fire.parse fun v => v.descriptor_warhead.isSome = v.descriptor_fuze.isSome
      ∧ v.descriptor_quantity.isSome = v.descriptor_rate.isSome from e b v r
  unfold Fire.parse
  repeat' first
    | (refine Ens.when fun _ _ => ?_)
    | (refine Ens.skip fun _ => ?_)
  refine Ens.pure ⟨?_, ?_⟩ <;> simp only [*]
/-- So a Fire body with a warhead and no fuze is never read back, although every such value can be built and sent. -/
theorem C35_fire_violated (v : Fire) (h : v.descriptor_warhead.isSome ≠ v.descriptor_fuze.isSome) (b r : Bits) :
    Fire.parse.run b ≠ .ok v r := fun e => h (C35_fire_paired e).1
/-- The same for a Detonation body, with its third pair. -/
theorem C35_detonation_paired {b r : Bits} {v : Detonation} (h : Detonation.parse.run b = .ok v r) :
    v.descriptor_warhead.isSome = v.descriptor_fuze.isSome ∧ v.descriptor_quantity.isSome = v.descriptor_rate.isSome
    ∧ v.descriptor_explosive_material.isSome = v.descriptor_explosive_force.isSome := by
  revert h
  suffices e : Ens Detonation.parse fun v => v.descriptor_warhead.isSome = v.descriptor_fuze.isSome
      ∧ v.descriptor_quantity.isSome = v.descriptor_rate.isSome
      ∧ v.descriptor_explosive_material.isSome = v.descriptor_explosive_force.isSome from e b v r
  unfold Detonation.parse
  repeat' first
    | (refine Ens.when fun _ _ => ?_)
    | (refine Ens.skip fun _ => ?_)
  refine Ens.pure ⟨?_, ?_, ?_⟩ <;> simp only [*]
theorem C35_detonation_violated (v : Detonation)
    (h : v.descriptor_warhead.isSome ≠ v.descriptor_fuze.isSome ∨ v.descriptor_quantity.isSome ≠ v.descriptor_rate.isSome
      ∨ v.descriptor_explosive_material.isSome ≠ v.descriptor_explosive_force.isSome) (b r : Bits) :
    Detonation.parse.run b ≠ .ok v r := fun e => by
  obtain ⟨a, b, c⟩ := C35_detonation_paired e
  rcases h with h | h | h
  · exact h a
  · exact h b
  · exact h c
/-- Whatever is read as a Designator body has all or none of the fields of each group. -/
theorem C35_designator_grouped {b r : Bits} {v : Designator} (h : Designator.parse.run b = .ok v r) : v.Grouped := by
  revert h
  suffices e : Ens Designator.parse Designator.Grouped from e b v r
  unfold Designator.parse
  repeat' first
    | (refine Ens.when fun _ _ => ?_)
    | (refine Ens.skip fun _ => ?_)
  apply Ens.pure
  refine ⟨?_, ⟨?_, ?_, ?_⟩, ?_⟩ <;> simp only [*]
theorem C35_designator_violated (v : Designator) (h : ¬ v.Grouped) (b r : Bits) : Designator.parse.run b ≠ .ok v r :=
  fun e => h (C35_designator_grouped e)
/-- Whatever is read as a Transmitter body has all or none of the fields of each group. -/
theorem C35_transmitter_grouped {b r : Bits} {v : Transmitter} (h : Transmitter.parse.run b = .ok v r) : v.Grouped := by
  revert h
  suffices e : Ens Transmitter.parse Transmitter.Grouped from e b v r
  unfold Transmitter.parse
  repeat' first
    | (refine Ens.when fun _ _ => ?_)
    | (refine Ens.skip fun _ => ?_)
  dsimp only
  split <;> refine Ens.skip fun _ => ?_
  all_goals
  apply Ens.pure
  refine ⟨?_, ⟨?_, ?_, ?_⟩, ?_⟩ <;> simp only [*]
theorem C35_transmitter_violated (v : Transmitter) (h : ¬ v.Grouped) (b r : Bits) :
    Transmitter.parse.run b ≠ .ok v r := fun e => h (C35_transmitter_grouped e)

/-- A transmitter without variable transmitter parameters: the count is not written but is read, so the body is
misread. -/
def quietTransmitter : Transmitter :=
  ⟨0, 0, true, ⟨1, 2, 3⟩, 4, none, 2, 1, none, some ⟨100, 200, 300⟩, none, none, none, none, none, none, none, [], none, []⟩
theorem C35_transmitter_without_parameters_violated : quietTransmitter.Fits ∧ quietTransmitter.Grouped
    ∧ Transmitter.parse.run (quietTransmitter.ser ++ wU 32 0)
      ≠ .ok quietTransmitter.wire (wU 32 0) := by
  refine ⟨?_, ?_, by decide +kernel⟩
  · unfold Transmitter.Fits quietTransmitter; decide +kernel
  · unfold Transmitter.Grouped quietTransmitter; decide +kernel
/-- An emission with one emitter system: its number is read but was not written. -/
def oneSystem : ElectromagneticEmission := ⟨true, ⟨1, 2, 3⟩, ⟨1, 2, 4⟩, 0, [], [], [], [⟨some 1, some 2, 7, none, []⟩]⟩
theorem C35_emitter_system_violated :
    ElectromagneticEmission.parse.run (oneSystem.ser ++ wU 32 0) ≠ .ok oneSystem (wU 32 0)
    ∧ ElectromagneticEmission.parse.run oneSystem.ser = .err := by
  constructor <;> decide +kernel
/-- The type of a collision survives only if it is 0 or 1: 2 to 255 become 0. -/
theorem C35_collision_type_violated {v : Collision} (h : v.Wf) (ht : 2 ≤ v.collision_type) (r : Bits) :
    Collision.parse.run (v.ser ++ r) = .ok { v with collision_type := 0 } r := by
  rw [Collision.run h]
  unfold Collision.wire
  rw [if_neg (by omega)]

/-! ### Witnesses -/

/-- Bodies that meet the hypotheses: a full and a partial Entity State body, a Fire, a Detonation, a Designator, a
Transmitter, an Electromagnetic Emission and an Action Request body. -/
def fullEntityState : EntityState :=
  ⟨0, true, ⟨1, 2, 3⟩, some 1, some ⟨1, 2, 225, 1, 3, 0, 0⟩, some ⟨1, 2, 225, 1, 3, 0, 0⟩, some ⟨10, -20, 30⟩,
    some ⟨1000000, -2000000, 50000⟩, some ⟨-100, 200, 4095⟩, some 0x12345678, 2, some 77, some ⟨1, -2, 3⟩,
    some ⟨-1, 2, -3⟩, some ⟨.five, "ECHO1".toList⟩, some 0xFF, [.separation ⟨2, 0, ⟨1, 2, 5⟩, 3, 4⟩]⟩
def partialEntityState : EntityState :=
  ⟨0, false, ⟨1, 2, 3⟩, none, none, none, some ⟨10, -20, 30⟩, none, some ⟨-100, 200, 4095⟩, none, 2, none, none, none,
    none, none, []⟩
def someFire : Fire :=
  ⟨0, ⟨1, 2, 3⟩, ⟨1, 2, 4⟩, ⟨0, 0, 0⟩, ⟨1, 2, 9⟩, some 5, ⟨1000000, -2000000, 50000⟩, ⟨2, 1, 225, 1, 0, 0, 0⟩, some 1000,
    some 2000, none, none, ⟨300, 0, -5⟩, none⟩
def someDetonation : Detonation :=
  ⟨0, 1, ⟨1, 2, 3⟩, ⟨1, 2, 4⟩, ⟨0, 0, 0⟩, ⟨1, 2, 9⟩, ⟨300, 0, -5⟩, ⟨1000000, -2000000, 50000⟩, ⟨2, 1, 225, 1, 0, 0, 0⟩,
    some 1000, some 2000, some 3, some 4, some 10, some ⟨500, 1⟩, ⟨1, 2, 3⟩, 1, [.separation ⟨2, 0, ⟨1, 2, 5⟩, 3, 4⟩]⟩
def someDesignator : Designator :=
  ⟨0, 1, true, ⟨1, 2, 3⟩, some 1, some ⟨1, 2, 4⟩, some 2, some 3, some 4, some ⟨1, 2, 3⟩, none, some 4, some ⟨1, 2, 3⟩⟩
def someTransmitter : Transmitter :=
  ⟨0, 0, true, ⟨1, 2, 3⟩, 4, none, 2, 1, none, some ⟨100, 200, 300⟩, none, none, none, none, none, some 1, some 2,
    [1, 2, 3], none, [⟨5, [1, 2, 3]⟩]⟩
def someEmission : ElectromagneticEmission :=
  ⟨true, ⟨1, 2, 3⟩, ⟨1, 2, 4⟩, 0, [], [⟨100, 100, 100, 100, 5⟩], [⟨1, 2⟩], []⟩
def someAction : Action := ⟨⟨1, 2, 3⟩, ⟨4, 5, 6⟩, 7, 8, ⟨[⟨1, 2⟩], []⟩⟩
theorem C35_witness (env : Dis.Env) : CdisBody.Wf env 1 (.entityState fullEntityState)
    ∧ CdisBody.Wf env 1 (.entityState partialEntityState) ∧ CdisBody.Wf env 2 (.fire someFire)
    ∧ CdisBody.Wf env 3 (.detonation someDetonation) ∧ CdisBody.Wf env 24 (.designator someDesignator)
    ∧ CdisBody.Wf env 25 (.transmitter someTransmitter) ∧ CdisBody.Wf env 23 (.electromagneticEmission someEmission)
    ∧ CdisBody.Wf env 16 (.actionRequest someAction) ∧ CdisBody.Wf env 60 .unsupported := by
  refine ⟨⟨rfl, ?_⟩, ⟨rfl, ?_⟩, ⟨rfl, ?_⟩, ⟨rfl, ?_⟩, ⟨rfl, ?_⟩, ⟨rfl, ?_⟩, ⟨rfl, ?_⟩, ⟨rfl, ?_⟩, rfl⟩
  · unfold EntityState.Wf; decide +kernel
  · unfold EntityState.Wf; decide +kernel
  · unfold Fire.Wf; decide +kernel
  · unfold Detonation.Wf; decide +kernel
  · unfold Designator.Wf Designator.Fits Designator.Grouped; decide +kernel
  · unfold Transmitter.Wf Transmitter.Fits Transmitter.Grouped; decide +kernel
  · unfold ElectromagneticEmission.Wf; decide +kernel
  · decide +kernel

/-! ## C36: packets -/

/-- A C-DIS PDU takes at least 63 bits. -/
theorem pdu_consumes (env : Dis.Env) : Consumes 63 (CdisPdu.parse env) := by
  intro b p r h
  obtain ⟨c, e, s⟩ := (inferInstance : P.Stable (CdisPdu.parse env)).spec _ _ _ h
  have s0 := s []
  have : 63 ≤ c.length := by
    refine Nat.le_of_not_lt fun hc => ?_
    simp only [CdisPdu.parse, P.run_bind, List.append_nil, C32_header_needs_63_bits hc] at s0
    cases s0
  rw [e, List.length_append]; omega
theorem pdu_progress (env : Dis.Env) : Consumes 1 (CdisPdu.parse env) :=
  fun b a r h => by have := pdu_consumes env b a r h; omega
theorem pdu_short {env : Dis.Env} {b : Bits} (h : b.length < 63) : (CdisPdu.parse env).run b = .err := by
  simp only [CdisPdu.parse, P.run_bind, C32_header_needs_63_bits h, Res.andThen_err]
theorem steps_ser {env : Dis.Env} (ps : List CdisPdu) (h : ∀ p ∈ ps, p.Wf env) (r : Bits) :
    Steps (CdisPdu.parse env) (ps.flatMap CdisPdu.ser ++ r) (ps.map CdisPdu.wire) r := by
  induction ps with
  | nil => exact .nil r
  | cons p ps ih =>
    simp only [List.flatMap_cons, List.append_assoc, List.map_cons]
    exact .cons (CdisPdu.run (h p (by simp)) _) (ih fun q hq => h q (by simp [hq]))

/-- Reading the bits of some PDUs, one after the other, followed by fewer than 63 bits of anything, gives exactly those
PDUs in order and leaves the rest. -/
theorem C36_concatenation {env : Dis.Env} (ps : List CdisPdu) (hn : ps ≠ []) (h : ∀ p ∈ ps, p.Wf env) {pad : Bits}
    (hp : pad.length < 63) : parseBits env (ps.flatMap CdisPdu.ser ++ pad) = .ok (ps.map CdisPdu.wire) pad :=
  (many1_steps (pdu_progress env) _ _ _).2 ⟨steps_ser ps h pad, by simp [hn], pdu_short hp⟩
/-- In general: reading succeeds exactly when the input is one or more PDUs followed by something that is not a PDU. -/
theorem C36_parse_iff (env : Dis.Env) (b r : Bits) (ps : List CdisPdu) :
    parseBits env b = .ok ps r ↔ Steps (CdisPdu.parse env) b ps r ∧ ps ≠ [] ∧ (CdisPdu.parse env).run r = .err :=
  many1_steps (pdu_progress env) b r ps

/-- Bits packed into octets, most significant first, the last octet filled up with zeros (`BitArray::as_raw_slice`
of the buffer, which starts out as zeros; lib.rs:47-60, cdis-gateway/src/codec.rs). -/
def packBits : Bits → Bytes
  | [] => []
  | b :: l => UInt8.ofNat (ofBits ((b :: l).take 8 ++ List.replicate (8 - (b :: l).length) false))
      :: packBits ((b :: l).drop 8)
  termination_by l => l.length
  decreasing_by simp; omega
theorem bitsOf_pack (b : Bits) : ∃ k, k < 8 ∧ bitsOf (packBits b) = b ++ List.replicate k false := by
  induction hn : b.length using Nat.strongRecOn generalizing b with
  | ind n ih =>
    cases b with
    | nil => exact ⟨0, by decide, by simp [packBits, bitsOf]⟩
    | cons x l =>
      have one : ∀ c : Bits, c.length = 8 → wU 8 (UInt8.ofNat (ofBits c)).toNat = c := by
        intro c hc
        have hlt := ofBits_lt c
        rw [hc] at hlt
        rw [UInt8.toNat_ofNat', Nat.mod_eq_of_lt hlt]
        have := wU_ofBits c
        rwa [hc] at this
      rw [packBits.eq_def]
      by_cases h8 : 8 ≤ (x :: l).length
      · obtain ⟨k, hk, e⟩ := ih ((x :: l).drop 8).length (by rw [List.length_drop]; omega) ((x :: l).drop 8) rfl
        refine ⟨k, hk, ?_⟩
        show wU 8 _ ++ bitsOf (packBits ((x :: l).drop 8)) = _
        rw [e, show 8 - (x :: l).length = 0 by omega, List.replicate_zero, List.append_nil,
          one _ (by rw [List.length_take]; omega), ← List.append_assoc, List.take_append_drop]
      · refine ⟨8 - (x :: l).length, by simp; omega, ?_⟩
        show wU 8 _ ++ bitsOf (packBits ((x :: l).drop 8)) = _
        rw [List.drop_of_length_le (by omega), packBits.eq_def]
        rw [List.take_of_length_le (by omega), one _ (by rw [List.length_append, List.length_replicate]; omega)]
        simp [bitsOf]
/-- The same in octets: PDUs written one after the other into a buffer and sent as octets are read back. -/
theorem C36_octets {env : Dis.Env} (ps : List CdisPdu) (hn : ps ≠ []) (h : ∀ p ∈ ps, p.Wf env) :
    parsePackets env (packBits (ps.flatMap CdisPdu.ser)) = some (ps.map CdisPdu.wire) := by
  obtain ⟨k, hk, e⟩ := bitsOf_pack (ps.flatMap CdisPdu.ser)
  unfold parsePackets
  rw [e, C36_concatenation ps hn h (by rw [List.length_replicate]; omega)]

/-- The length in the header plays no role: the same bits with another length are split in the same way. -/
theorem C36_length_ignored {env : Dis.Env} (p : CdisPdu) (h : p.Wf env) (n : Nat) (hn : n < 2 ^ 14) (r : Bits) :
    (CdisPdu.parse env).run ({ p with header := { p.header with length := n } }.ser ++ r)
      = .ok { p.wire with header := { p.header with length := n } } r := by
  obtain ⟨⟨h1, h2, h3, h4, h5, h6⟩, hb⟩ := h
  exact CdisPdu.run (env := env) (p := { p with header := { p.header with length := n } }) ⟨⟨h1, h2, h3, h4, hn, h6⟩, hb⟩ r

/-- A PDU that is cut short is an error, and one cut short after others is dropped without an error. -/
theorem C36_truncated {env : Dis.Env} (ps : List CdisPdu) (h : ∀ p ∈ ps, p.Wf env) {q : CdisPdu} (hq : q.Wf env)
    {c d : Bits} (e : q.ser = c ++ d) (hd : d ≠ []) :
    parseBits env (ps.flatMap CdisPdu.ser ++ c) = if ps = [] then .err else .ok (ps.map CdisPdu.wire) c := by
  have s : P.Stable (CdisPdu.parse env) := inferInstance
  have hr := CdisPdu.run hq []
  rw [List.append_nil] at hr
  have he := s.prefix_err hr e hd
  split
  · rename_i hn
    subst hn
    exact (many1_err (pdu_progress env) inferInstance _).1.2 he
  · rename_i hn
    exact (many1_steps (pdu_progress env) _ _ _).2 ⟨steps_ser ps h c, by simp [hn], he⟩

/-- The PDU that 63 zeros are read as: version 0, exercise 0, PDU type 0 (Other), no body. -/
def phantom : CdisPdu := ⟨⟨0, 0, 0, 0, 0, Dis.parsePduStatusFields 0 0⟩, .unsupported⟩
theorem phantom_run (env : Dis.Env) (r : Bits) :
    (CdisPdu.parse env).run (List.replicate 63 false ++ r) = .ok phantom r := by
  have h : (CdisPdu.parse env).run (List.replicate 63 false) = .ok phantom [] := by
    have hh : CdisHeader.parse.run (List.replicate 63 false) = .ok phantom.header [] := by decide +kernel
    simp only [CdisPdu.parse, P.run_bind, hh, Res.andThen_ok]
    rfl
  obtain ⟨c, e, s⟩ := (inferInstance : P.Stable (CdisPdu.parse env)).spec _ _ _ h
  rw [List.append_nil] at e
  rw [e]
  exact s r
/-- So padding is not harmless when it is long: every 63 zeros after the last PDU are read as one more PDU. -/
theorem C36_long_padding_violated {env : Dis.Env} (ps : List CdisPdu) (hn : ps ≠ []) (h : ∀ p ∈ ps, p.Wf env) (n : Nat) :
    parseBits env (ps.flatMap CdisPdu.ser ++ List.replicate n false)
      = .ok (ps.map CdisPdu.wire ++ List.replicate (n / 63) phantom) (List.replicate (n % 63) false) := by
  refine (many1_steps (pdu_progress env) _ _ _).2
    ⟨(steps_ser ps h _).append ?_, by simp [hn], pdu_short (by rw [List.length_replicate]; omega)⟩
  have key : ∀ k m, Steps (CdisPdu.parse env) (List.replicate (63 * k + m) false) (List.replicate k phantom)
      (List.replicate m false) := by
    intro k m
    induction k with
    | zero => rw [Nat.mul_zero, Nat.zero_add]; exact .nil _
    | succ k ih =>
      rw [show 63 * (k + 1) + m = 63 + (63 * k + m) by omega, ← List.replicate_append_replicate, List.replicate_succ (n := k)]
      exact .cons (phantom_run env _) ih
  have := key (n / 63) (n % 63)
  rwa [Nat.div_add_mod] at this

/-- A PDU of a type that is not supported is read as its header alone, so the body sent with it is read as further
PDUs. -/
theorem C36_unsupported_body_violated {env : Dis.Env} {h : CdisHeader} (w : h.Wf) (hs : isSupported h.pdu_type = false)
    (body r : Bits) (ps : List CdisPdu) (hp : parseBits env body = .ok ps r) :
    parseBits env (h.ser ++ body) = .ok (⟨h, .unsupported⟩ :: ps) r := by
  obtain ⟨s, hn, e⟩ := (C36_parse_iff env body r ps).1 hp
  refine (C36_parse_iff env _ r _).2 ⟨.cons ?_ s, by simp, e⟩
  simp only [CdisPdu.parse, rt, CdisHeader.run w, CdisBody.parse_unsupported hs]

/-! ## C47: reading C-DIS input never panics, and what is read is determined by the consumed bits -/

/-- Reading never panics, on any bits and on any octets. -/
theorem C47_no_panic (env : Dis.Env) (b : Bits) : parseBits env b ≠ .panic :=
  (many1_err (pdu_progress env) inferInstance b).2
/-- Reading fails exactly when the first PDU cannot be read. -/
theorem C47_error_iff (env : Dis.Env) (b : Bits) : parseBits env b = .err ↔ (CdisPdu.parse env).run b = .err :=
  (many1_err (pdu_progress env) inferInstance b).1
/-- The PDUs are determined by a prefix of the input, and reading that prefix with anything after it gives the same
PDUs first. -/
theorem C47_prefix {env : Dis.Env} {b r : Bits} {ps : List CdisPdu} (h : parseBits env b = .ok ps r) :
    ∃ c, b = c ++ r ∧ parseBits env c = .ok ps [] ∧ ∀ r', ∃ qs r'', parseBits env (c ++ r') = .ok (ps ++ qs) r'' := by
  obtain ⟨s, hn, e⟩ := (C36_parse_iff env b r ps).1 h
  obtain ⟨c, e', s'⟩ := s.stable inferInstance
  have e0 : (CdisPdu.parse env).run [] = .err := pdu_short (by decide)
  refine ⟨c, e', ?_, fun r' => ?_⟩
  · refine (C36_parse_iff env c [] ps).2 ⟨?_, hn, e0⟩
    have := s' []
    rwa [List.append_nil] at this
  · cases hr : (CdisPdu.parse env).run r' with
    | err => exact ⟨[], r', by rw [List.append_nil]; exact (C36_parse_iff ..).2 ⟨s' r', hn, hr⟩⟩
    | panic => exact absurd hr ((inferInstance : P.Safe (CdisPdu.parse env)).spec r')
    | ok q m =>
      cases hm : parseBits env r' with
      | err => rw [(C47_error_iff env r').1 hm] at hr; cases hr
      | panic => exact absurd hm (C47_no_panic env r')
      | ok qs r'' =>
        obtain ⟨t, _, f⟩ := (C36_parse_iff env r' r'' qs).1 hm
        exact ⟨qs, r'', (C36_parse_iff ..).2 ⟨(s' r').append t, by simp [hn], f⟩⟩
/-- Progress: the number of PDUs read is at most a 63rd of the number of bits. -/
theorem C47_progress {env : Dis.Env} {b r : Bits} {ps : List CdisPdu} (h : parseBits env b = .ok ps r) :
    63 * ps.length + r.length ≤ b.length :=
  ((C36_parse_iff env b r ps).1 h).1.length (pdu_consumes env)
/-- Fewer than eight octets hold no PDU. -/
theorem C47_short (env : Dis.Env) {bs : Bytes} (h : bs.length < 8) : parsePackets env bs = none := by
  have hl : (bitsOf bs).length = 8 * bs.length := by
    unfold bitsOf
    rw [length_flatMap_sum (l := fun _ => 8) (q := fun _ => True) (fun x _ => length_wU 8 x.toNat) bs fun _ _ => trivial]
    rw [List.map_const', List.sum_replicate_nat, Nat.mul_comm]
  unfold parsePackets
  rw [(C47_error_iff env _).2 (pdu_short (by omega))]

/-- A packet that meets the hypotheses: two PDUs, one with a body. -/
theorem C36_witness (env : Dis.Env) : ∀ p ∈ [⟨witnessHeader, .entityState partialEntityState⟩,
    ⟨{ witnessHeader with exercise_id := 7 }, .entityState fullEntityState⟩], CdisPdu.Wf env p := by
  obtain ⟨h1, h2, h3, h4, h5, h6⟩ := C32_witness
  intro p hp
  simp only [List.mem_cons, List.not_mem_nil, or_false] at hp
  rcases hp with rfl | rfl
  · exact ⟨C32_witness, (C35_witness env).2.1⟩
  · exact ⟨⟨h1, by decide, h3, h4, h5, h6⟩, (C35_witness env).1⟩

end Verif.Props
