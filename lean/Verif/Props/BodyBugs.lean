import Verif.Props.Bodies

/-!
# C08 to C15: where the code does not round trip

For every restriction in `Props/Bodies` with the suffix `_partial`, the theorem that shows that it is needed.
-/

set_option linter.unusedSimpArgs false

namespace Verif.Props
open Verif Verif.Dis Verif.P

/-- To refute a round trip it is enough to see what is read when nothing follows. -/
theorem not_roundTrips {env : Env} {h : PduHeader} {b : Body} (hne : (pdu env).run (Pdu.ser ⟨h, b⟩) ≠ .ok ⟨h, b⟩ []) :
    ¬ PduRoundTrips env h b := fun hr => hne (by have := hr []; rwa [List.append_nil] at this)

/-! ## C08 -/

/-- An Entity State PDU with a separation record does not round trip. -/
theorem C08_separation_violates : ¬ PduRoundTrips sampleEnv (sampleFor 1)
    (.entityState { sample_entityState with variable_parameters := [.separation ⟨1, 2, ⟨⟨3, 4⟩, 5⟩, 6, 7⟩] }) :=
  not_roundTrips (by decide +kernel)

/-- Whatever is read, the appearance of an Entity State Update has no class ... -/
theorem C08_update_appearance_untyped (bs : Bytes) (x : EntityStateUpdate) (r : Bytes)
    (h : EntityStateUpdate.parse.run bs = .ok x r) : x.entity_appearance.cls = .unspecified := by
  unfold EntityStateUpdate.parse at h
  obtain ⟨_, _, _, h⟩ := bind_ok h
  obtain ⟨_, _, _, h⟩ := bind_ok h
  obtain ⟨_, _, _, h⟩ := bind_ok h
  obtain ⟨_, _, _, h⟩ := bind_ok h
  obtain ⟨_, _, _, h⟩ := bind_ok h
  obtain ⟨_, _, _, h⟩ := bind_ok h
  obtain ⟨_, _, _, h⟩ := bind_ok h
  obtain ⟨_, _, _, h⟩ := bind_ok h
  simp only [P.run_pure, Res.ok.injEq] at h
  rw [← h.1]
/-- ... so no update with a typed appearance (the only kind the builders of the entity classes produce) round trips. -/
theorem C08_update_typed_violates (env : Env) {h : PduHeader} (ht : h.pdu_type = 67) {x : EntityStateUpdate}
    (hx : x.entity_appearance.cls ≠ .unspecified) : ¬ PduRoundTrips env h (.entityStateUpdate x) := by
  intro hr
  obtain ⟨mid, h1, h2⟩ := pdu_split (hr [])
  rw [parseBody_entityStateUpdate env ht] at h2
  obtain ⟨y, r, h3, h4⟩ := bind_ok h2
  simp only [P.run_pure, Res.ok.injEq, Body.entityStateUpdate.injEq] at h4
  rw [h4.1] at h3
  exact hx (C08_update_appearance_untyped _ _ _ h3)
example : EntityStateUpdate.parse.run (sample_entityStateUpdate.ser) = .ok sample_entityStateUpdate [] := by decide +kernel

/-- An attribute record that needs padding reads back with the padding appended to its data. -/
theorem C08_attribute_padding_kept {x : AttributeRecord} (h : 14 + x.specific_fields.length < 65536) (rest : Bytes) :
    AttributeRecord.parse.run (x.ser ++ rest)
      = .ok ⟨x.record_type, x.specific_fields ++ zeros (lengthPaddedToNum (6 + x.specific_fields.length) 8).padding_length⟩ rest := by
  obtain ⟨e, hlt, _⟩ := (C06_padding (6 + x.specific_fields.length) 8 (by omega)).2
  generalize hp : lengthPaddedToNum (6 + x.specific_fields.length) 8 = p at e hlt
  have e0 := toNat_u16_ofNat (n := p.record_length) (by omega)
  have hs : x.ser = e32 x.record_type ++ e16 (UInt16.ofNat p.record_length) ++ x.specific_fields ++ zeros p.padding_length := by
    unfold AttributeRecord.ser; rw [hp]
  rw [hs]
  generalize UInt16.ofNat p.record_length = n16 at e0 ⊢
  rtp [AttributeRecord.parse]
  rw [← List.append_assoc, P.run_take _ _ _ (by rw [List.length_append, length_zeros]; omega)]
  simp only [rt]
theorem C08_attribute_violates : ¬ PduRoundTrips sampleEnv (sampleFor 72)
    (.«attribute» { sample_attribute with attribute_record_sets := [⟨⟨⟨1, 2⟩, 3⟩, [⟨4, [5]⟩]⟩] }) :=
  not_roundTrips (by decide +kernel)

/-! ## C09 -/

/-- Every explosion descriptor is misread: two octets are left and the force loses its low half. -/
theorem C09_explosion_misread (t : EntityType) (m : UInt16) (f : UInt32) (rest : Bytes) :
    (DescriptorRecord.parseDti 2).run (DescriptorRecord.ser (.explosion t m f) ++ rest)
      = .ok (.explosion t m (UInt32.ofNat (f.toNat / 2 ^ 16))) (e16 (UInt16.ofNat f.toNat) ++ rest) := by
  have hs : DescriptorRecord.ser (.explosion t m f)
      = t.ser ++ e16 m ++ e32 (UInt32.ofNat (f.toNat / 2 ^ 16)) ++ e16 (UInt16.ofNat f.toNat) := by
    have h1 : (UInt32.ofNat (f.toNat / 2 ^ 16)).toNat = f.toNat / 2 ^ 16 := by
      rw [UInt32.toNat_ofNat']; have := f.toNat_lt; omega
    have h2 : (UInt16.ofNat f.toNat).toNat = f.toNat % 2 ^ 16 := by rw [UInt16.toNat_ofNat']
    have := f.toNat_lt
    simp only [DescriptorRecord.ser, List.append_assoc]
    congr 2
    simp only [e16, e32, h1, h2, List.cons_append, List.nil_append]
    have key : ∀ a b : Nat, a % 256 = b % 256 → UInt8.ofNat a = UInt8.ofNat b := by
      intro a b hab
      apply UInt8.toNat.inj
      simpa only [UInt8.toNat_ofNat', Nat.reducePow] using hab
    rw [key (UInt16.toNat 0 / 256) (f.toNat / 2 ^ 16 / 16777216) (by simp only [UInt16.toNat_zero]; omega),
      key (UInt16.toNat 0) (f.toNat / 2 ^ 16 / 65536) (by simp only [UInt16.toNat_zero]; omega),
      key (f.toNat / 16777216) (f.toNat / 2 ^ 16 / 256) (by omega), key (f.toNat / 65536) (f.toNat / 2 ^ 16) (by omega),
      key (f.toNat / 256) (f.toNat % 2 ^ 16 / 256) (by omega), key f.toNat (f.toNat % 2 ^ 16) (by omega)]
  rw [hs]
  rtp [DescriptorRecord.parseDti]
  simp (decide := true) only [if_true, if_false, rt]
theorem C09_explosion_violates : ¬ PduRoundTrips sampleEnv { sampleFor 3 with pdu_status := some (parsePduStatusFields 3 0x20) }
    (.detonation { sample_detonation with descriptor := .explosion ⟨1, 1, 225, 1, 1, 3, 0⟩ 10 0x42C80000 }) :=
  not_roundTrips (by decide +kernel)

/-! ## C10, C11 -/

/-- A PDU with a variable datum that needs padding does not round trip (shown for Set Data). -/
theorem C10_unaligned_violates : ¬ PduRoundTrips sampleEnv (sampleFor 19)
    (.setData { sample_setData with variable_datum_records := [⟨24000, [1]⟩] }) :=
  not_roundTrips (by decide +kernel)

/-- A Comment PDU on the wire may carry fixed datums: they are read and lost. -/
theorem C10_comment_fixed_datums_lost (a b : EntityId) {f : List FixedDatum} {v : List VariableDatum} (h : Datums.Wf f v)
    (rest : Bytes) :
    Comment.parse.run (a.ser ++ b.ser ++ e32 (UInt32.ofNat f.length) ++ e32 (UInt32.ofNat v.length)
      ++ serList FixedDatum.ser f ++ serList VariableDatum.ser v ++ rest) = .ok ⟨a, b, v⟩ rest := by
  have e := fun r => run_datums h r
  rtp [Comment.parse, e]
example : Datums.Wf [⟨1, 2⟩] [⟨24000, [1, 2, 3, 4, 5, 6, 7, 8]⟩] := by decide

/-- Every Action Response-R PDU is read back as an Action Response, so it never round trips. -/
theorem C11_actionResponseR_misread (env : Env) {h : PduHeader} (hh : h.Wf) (ht : h.pdu_type = 57) {x : ActionResponseR}
    (hx : x.Wf) (rest : Bytes) :
    (pdu env).run (Pdu.ser ⟨h, .actionResponseR x⟩ ++ rest) = .ok ⟨h, .actionResponse x.asActionResponse⟩ rest := by
  simp only [pdu, Pdu.ser, List.append_assoc, P.run_bind, PduHeader.parse_ser hh, Res.andThen_ok]
  rw [parseBody_actionResponseR env ht]
  simp only [Body.ser, rt, ActionResponseR.parse_ser hx rest]
theorem C11_actionResponseR_violates (env : Env) {h : PduHeader} (hh : h.Wf) (ht : h.pdu_type = 57) {x : ActionResponseR}
    (hx : x.Wf) : ¬ PduRoundTrips env h (.actionResponseR x) := by
  intro hr
  have := hr []
  rw [C11_actionResponseR_misread env hh ht hx] at this
  simp at this
example : ActionResponseR.Wf ⟨⟨⟨1, 2⟩, 3⟩, ⟨⟨1, 2⟩, 4⟩, 5, 6, [⟨1, 2⟩], [⟨24000, [1, 2, 3, 4, 5, 6, 7, 8]⟩]⟩ := by decide

/-! ## C13 -/

/-- Every additional passive activity record with a 14-bit parameter and a 2-bit status is written with a zero parameter
index, and so reads back with parameter and status zero. -/
theorem C13_apa_lost {x : APA} (h : x.Wf) (rest : Bytes) :
    APA.parse.run (x.ser ++ rest) = .ok ⟨0, 0, x.value⟩ rest := by
  have e : (x.parameter <<< 2) &&& x.status.toUInt16 = 0 := by
    obtain ⟨hp, hs⟩ := h
    apply UInt16.toNat.inj
    rw [UInt16.toNat_and, UInt8.toNat_toUInt16, UInt16.toNat_zero]
    apply Nat.eq_of_testBit_eq
    intro i
    rw [Nat.testBit_and, Nat.zero_testBit, UInt16.toNat_shiftLeft]
    by_cases hi : i < 2
    · have : (x.parameter.toNat <<< ((2 : UInt16).toNat % 16) % 2 ^ 16).testBit i = false := by
        have e2 : (2 : UInt16).toNat % 16 = 2 := by decide
        rw [e2, Nat.testBit_mod_two_pow, Nat.testBit_shiftLeft]
        have : ¬ i ≥ 2 := by omega
        simp [this]
      rw [this, Bool.false_and]
    · have : x.status.toNat.testBit i = false := by
        apply Nat.testBit_lt_two_pow
        calc x.status.toNat < 2 ^ 2 := hs
          _ ≤ 2 ^ i := Nat.pow_le_pow_right (by omega) (by omega)
      rw [this, Bool.and_false]
  unfold APA.ser
  rw [e]
  rtp [APA.parse]
  rfl
theorem C13_apa_violates {x : APA} (h : x.Wf) (hn : x.parameter ≠ 0 ∨ x.status ≠ 0) (rest : Bytes) :
    APA.parse.run (x.ser ++ rest) ≠ .ok x rest := by
  rw [C13_apa_lost h]
  intro e
  simp only [Res.ok.injEq, and_true] at e
  rw [← e] at hn
  simp at hn
example : APA.Wf ⟨100, 2, 7⟩ := by decide
theorem C13_apa_pdu_violates : ¬ PduRoundTrips sampleEnv (sampleFor 29)
    (.underwaterAcoustic { sample_underwaterAcoustic with apas := [⟨100, 2, 7⟩] }) :=
  not_roundTrips (by decide +kernel)

/-- Whatever is read for Mode S basic data, three of its flags come out set regardless of the input. -/
theorem C13_mode_s_forced (env : Env) (c : IffClass) (hc : c ≠ .undetermined) (bs : Bytes) (x : ModeSBasicData) (r : Bytes)
    (h : (ModeSBasicData.parse env c).run bs = .ok x r) : x.Forced := by
  have k8 : ∀ (R : List RField) (i : Nat), R[i]? = some (.const 1) → ∀ bs v r,
      (unpack8 R).run bs = .ok v r → v.getD i 0 = 1 := by
    intro R i hR bs v r h
    unfold unpack8 at h
    obtain ⟨w, _, _, h⟩ := bind_ok h
    simp only [P.run_pure, Res.ok.injEq] at h
    rw [← h.1]
    simp only [unpack, List.getD_eq_getElem?_getD, List.getElem?_map, hR, Option.map_some, Option.getD_some, RField.read]
  cases c with
  | undetermined => exact absurd rfl hc
  | transponder =>
    simp only [ModeSBasicData.parse, ModeSBasicData.parseTransponder] at h
    obtain ⟨a, _, _, h⟩ := bind_ok h
    obtain ⟨b, _, hb, h⟩ := bind_ok h
    obtain ⟨_, _, _, h⟩ := bind_ok h
    obtain ⟨_, _, _, h⟩ := bind_ok h
    obtain ⟨_, _, _, h⟩ := bind_ok h
    obtain ⟨_, _, _, h⟩ := bind_ok h
    obtain ⟨g, _, hg, h⟩ := bind_ok h
    obtain ⟨_, _, _, h⟩ := bind_ok h
    obtain ⟨_, _, _, h⟩ := bind_ok h
    simp only [P.run_pure, Res.ok.injEq] at h
    rw [← h.1]
    exact ⟨k8 ModeSLevelsPresent.rd 4 rfl _ _ _ hb, k8 DapSource.rd 4 rfl _ _ _ hg⟩
  | interrogator =>
    simp only [ModeSBasicData.parse, ModeSBasicData.parseInterrogator] at h
    obtain ⟨a, _, ha, h⟩ := bind_ok h
    obtain ⟨_, _, _, h⟩ := bind_ok h
    obtain ⟨b, _, hb, h⟩ := bind_ok h
    obtain ⟨_, _, _, h⟩ := bind_ok h
    simp only [P.run_pure, Res.ok.injEq] at h
    rw [← h.1]
    exact ⟨k8 ModeSInterrogatorStatus.rd 3 rfl _ _ _ ha, k8 ModeSLevelsPresent.rd 4 rfl _ _ _ hb⟩
/-- A Mode S interrogator without level 4: the reader reports level 4. -/
theorem C13_mode_s_violates : ∃ x : ModeSBasicData, x.Wf .interrogator ∧ ∃ y, y ≠ x ∧
    (ModeSBasicData.parse sampleEnv .interrogator).run x.ser = .ok y [] :=
  ⟨.interrogator [1, 2, 0, 0] [1, 1, 0, 0, 0], by decide, .interrogator [1, 2, 0, 1] [1, 1, 0, 0, 1], by decide, by decide +kernel⟩

/-! ## C14 -/

/-- A Signal PDU in general: the padding of the data to 32-bit words is left unread in front of what follows. -/
theorem C14_signal_general (env : Env) {h : PduHeader} (hh : h.Wf) (ht : h.pdu_type = 26) {x : Signal} (hx : x.Wf) (rest : Bytes) :
    (pdu env).run (Pdu.ser ⟨h, .signal x⟩ ++ rest)
      = .ok ⟨h, .signal x⟩ (zeros (lengthPaddedToNum x.data.length 4).padding_length ++ rest) := by
  simp only [pdu, Pdu.ser, List.append_assoc, P.run_bind, PduHeader.parse_ser hh, Res.andThen_ok]
  rw [parseBody_signal env ht]
  simp only [Body.ser, rt, Signal.parse_ser hx rest]
theorem C14_signal_unaligned_violates (env : Env) {h : PduHeader} (hh : h.Wf) (ht : h.pdu_type = 26) {x : Signal} (hx : x.Wf)
    (hn : x.data.length % 4 ≠ 0) : ¬ PduRoundTrips env h (.signal x) := by
  intro hr
  have := hr []
  rw [C14_signal_general env hh ht hx] at this
  simp only [Res.ok.injEq, true_and, List.append_nil] at this
  have := congrArg List.length this
  rw [length_zeros] at this
  simp only [lengthPaddedToNum, hn, if_false, List.length_nil] at this
  omega
example : Signal.Wf ⟨⟨⟨1, 2⟩, 3⟩, 4, .encodedAudio 0 1, 5, 8000, 6, [1, 2, 3, 4, 5]⟩ := by decide

/-- A version 6 transmitter with variable transmitter parameters: they are written but not read. -/
theorem C14_transmitter_v6_violates : ¬ PduRoundTrips sampleEnv { sampleFor 25 with protocol_version := 6, pdu_status := none }
    (.transmitter sample_transmitter) := not_roundTrips (by decide +kernel)
/-- Empty modulation parameters read back as absent ones. -/
theorem C14_transmitter_empty_modulation_violates : ¬ PduRoundTrips sampleEnv (sampleFor 25)
    (.transmitter { sample_transmitter with modulation_parameters := some [] }) := not_roundTrips (by decide +kernel)

end Verif.Props
