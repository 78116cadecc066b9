import Verif.Dis.Lossless

/-!
# C03 to C07: the shared records
-/

set_option linter.unusedSimpArgs false

namespace Verif.Props
open Verif Verif.Dis Verif.P

/-! ## Specification -/

/-- A codec (`parse`, `ser`, `cnt`) round trips on the values satisfying `wf`: what is written reads back as the same
value whatever follows, what follows is left untouched, and the returned count is the number of octets written. -/
def RoundTrips {α : Type} (parse : BP α) (ser : α → Bytes) (cnt : α → Nat) (wf : α → Prop) : Prop :=
  ∀ x, wf x → (∀ rest, parse.run (ser x ++ rest) = .ok x rest) ∧ (ser x).length = cnt x

/-- A codec keeps every bit of its input: the accepted octets are the octets written for the value returned. -/
def KeepsEveryBit {α : Type} (parse : BP α) (ser : α → Bytes) : Prop :=
  ∀ bs x rest, parse.run bs = .ok x rest → bs = ser x ++ rest

/-! ## C03 -/

/-- **C03.**  Every shared record round trips, for all field values. -/
theorem C03_records_round_trip :
    RoundTrips SimulationAddress.parse SimulationAddress.ser SimulationAddress.cnt (fun _ => True) ∧
    RoundTrips EntityId.parse EntityId.ser EntityId.cnt (fun _ => True) ∧
    RoundTrips EventId.parse EventId.ser EventId.cnt (fun _ => True) ∧
    RoundTrips VectorF32.parse VectorF32.ser VectorF32.cnt (fun _ => True) ∧
    RoundTrips Location.parse Location.ser Location.cnt (fun _ => True) ∧
    RoundTrips Orientation.parse Orientation.ser Orientation.cnt (fun _ => True) ∧
    RoundTrips EntityType.parse EntityType.ser EntityType.cnt (fun _ => True) ∧
    RoundTrips MunitionDescriptor.parse MunitionDescriptor.ser MunitionDescriptor.cnt (fun _ => True) ∧
    RoundTrips ClockTime.parse ClockTime.ser ClockTime.cnt (fun _ => True) ∧
    RoundTrips FixedDatum.parse FixedDatum.ser FixedDatum.cnt (fun _ => True) ∧
    RoundTrips BeamData.parse BeamData.ser BeamData.cnt (fun _ => True) ∧
    RoundTrips SupplyQuantity.parse SupplyQuantity.ser SupplyQuantity.cnt (fun _ => True) :=
  ⟨fun x _ => ⟨fun r => SimulationAddress.parse_ser r x, x.length_ser⟩,
   fun x _ => ⟨fun r => EntityId.parse_ser r x, x.length_ser⟩,
   fun x _ => ⟨fun r => EventId.parse_ser r x, x.length_ser⟩,
   fun x _ => ⟨fun r => VectorF32.parse_ser r x, x.length_ser⟩,
   fun x _ => ⟨fun r => Location.parse_ser r x, x.length_ser⟩,
   fun x _ => ⟨fun r => Orientation.parse_ser r x, x.length_ser⟩,
   fun x _ => ⟨fun r => EntityType.parse_ser r x, x.length_ser⟩,
   fun x _ => ⟨fun r => MunitionDescriptor.parse_ser r x, x.length_ser⟩,
   fun x _ => ⟨fun r => ClockTime.parse_ser r x, x.length_ser⟩,
   fun x _ => ⟨fun r => FixedDatum.parse_ser r x, x.length_ser⟩,
   fun x _ => ⟨fun r => BeamData.parse_ser r x, x.length_ser⟩,
   fun x _ => ⟨fun r => SupplyQuantity.parse_ser r x, x.length_ser⟩⟩

/-- **C03**, converse: the shared records keep every bit they read. -/
theorem C03_records_keep_every_bit :
    KeepsEveryBit SimulationAddress.parse SimulationAddress.ser ∧ KeepsEveryBit EntityId.parse EntityId.ser ∧
    KeepsEveryBit EventId.parse EventId.ser ∧ KeepsEveryBit VectorF32.parse VectorF32.ser ∧
    KeepsEveryBit Location.parse Location.ser ∧ KeepsEveryBit Orientation.parse Orientation.ser ∧
    KeepsEveryBit EntityType.parse EntityType.ser ∧ KeepsEveryBit MunitionDescriptor.parse MunitionDescriptor.ser ∧
    KeepsEveryBit ClockTime.parse ClockTime.ser ∧ KeepsEveryBit FixedDatum.parse FixedDatum.ser ∧
    KeepsEveryBit BeamData.parse BeamData.ser ∧ KeepsEveryBit SupplyQuantity.parse SupplyQuantity.ser :=
  ⟨Lossless.spec, Lossless.spec, Lossless.spec, Lossless.spec, Lossless.spec, Lossless.spec, Lossless.spec,
   Lossless.spec, Lossless.spec, Lossless.spec, Lossless.spec, Lossless.spec⟩

/-- **C03**, wire layout: field order and widths of an entity type and of an entity identifier. -/
theorem C03_entity_type_wire (x : EntityType) : x.ser =
    [x.kind, x.domain, UInt8.ofNat (x.country.toNat / 2 ^ 8), UInt8.ofNat x.country.toNat,
     x.category, x.subcategory, x.specific, x.extra] := rfl
theorem C03_entity_id_wire (x : EntityId) : x.ser =
    [UInt8.ofNat (x.simulation_address.site_id.toNat / 2 ^ 8), UInt8.ofNat x.simulation_address.site_id.toNat,
     UInt8.ofNat (x.simulation_address.application_id.toNat / 2 ^ 8), UInt8.ofNat x.simulation_address.application_id.toNat,
     UInt8.ofNat (x.entity_id.toNat / 2 ^ 8), UInt8.ofNat x.entity_id.toNat] := rfl

-- A concrete case: a tank, read from the wire.
example (r : Bytes) : EntityType.parse.run ([1, 1, 0, 225, 1, 1, 3, 0] ++ r) = .ok ⟨1, 1, 225, 1, 1, 3, 0⟩ r :=
  (C03_records_round_trip.2.2.2.2.2.2.1 ⟨1, 1, 225, 1, 1, 3, 0⟩ trivial).1 r

/-! ## C04 -/

/-- **C04.**  Every variable parameter other than a separation takes 16 octets and reads back as itself. -/
theorem C04_variable_parameter_round_trip_partial :
    RoundTrips VariableParameter.parse VariableParameter.ser (fun _ => 16) (fun x => x.Wf ∧ x.NotSeparation) :=
  fun _ h => ⟨fun r => VariableParameter.parse_ser h.1 h.2 r, VariableParameter.length_ser h.1⟩

/-- **C04**, sizes: every kind, including separation, is written as 16 octets and reports 16. -/
theorem C04_variable_parameter_size {x : VariableParameter} (h : x.Wf) : x.ser.length = 16 ∧ x.cnt = 16 :=
  ⟨VariableParameter.length_ser h, VariableParameter.cnt_eq x⟩

/-- **C04** is false for *every* separation record: the reader takes one octet fewer than the writer produced (it does
not skip the padding after the pre-entity indicator), so the last octet is left unread. -/
theorem C04_separation_misread (s : SeparationParameter) (rest : Bytes) : ∃ x o,
    VariableParameter.parse.run (VariableParameter.ser (.separation s) ++ rest) = .ok x (o :: rest) := by
  obtain ⟨a, b, ⟨⟨c, d⟩, e⟩, f, g⟩ := s
  simp only [VariableParameter.ser, SeparationParameter.ser, EntityId.ser, SimulationAddress.ser, e8, e16,
    VariableParameter.parse, SeparationParameter.parse, EntityId.parse, SimulationAddress.parse, be_u8, be_u16, P.run_bind, List.cons_append, List.nil_append,
    Res.andThen]
  simp (decide := true) only [if_true, if_false, P.run_bind, be_u8, be_u16, Res.andThen, P.run_pure]
  exact ⟨_, _, rfl⟩
/-- ... and the value read may differ from the one written. -/
theorem C04_separation_counterexample : ∃ s : SeparationParameter, ∃ x, ∃ r,
    VariableParameter.parse.run (VariableParameter.ser (.separation s)) = .ok x r ∧ x ≠ .separation s :=
  ⟨⟨1, 2, ⟨⟨3, 4⟩, 5⟩, 6, 7⟩, .separation ⟨1, 2, ⟨⟨0, 0x300⟩, 0x400⟩, 0, 0x600⟩, [7], by decide, by decide⟩

-- Non-vacuity: an articulated part with metric 13 of class 4096, and a record of an undefined kind.
example : VariableParameter.Wf (.articulated ⟨3, 1, 13, 4096, 0x3F800000⟩) ∧
    VariableParameter.NotSeparation (.articulated ⟨3, 1, 13, 4096, 0x3F800000⟩) := by decide
example : VariableParameter.Wf (.unspecified 200 (zeros 15)) := by decide

/-! ## C05 -/

/-- **C05.**  A variable datum of a whole number of 8-octet words reads back as itself; without padding it takes 8 octets
plus the data. -/
theorem C05_variable_datum_round_trip_partial {x : VariableDatum} (h : x.Wf) (ha : x.Aligned) (rest : Bytes) :
    VariableDatum.parse.run (x.ser ++ rest) = .ok x rest ∧ x.ser.length = 8 + x.datum_value.length :=
  ⟨VariableDatum.parse_ser h ha rest, VariableDatum.length_ser ha⟩

/-- **C05**, exactly what happens in general: the reader returns the datum, but the writer padded to 64 times the
missing octets `p`, so `63 * p` zero octets are left in front of what follows. -/
theorem C05_variable_datum_general {x : VariableDatum} (h : x.Wf) (rest : Bytes) :
    VariableDatum.parse.run (x.ser ++ rest)
      = .ok x (zeros (63 * ((8 - x.datum_value.length % 8) % 8)) ++ rest) := by
  unfold VariableDatum.Wf at h
  have e0 := toNat_u32_ofNat h
  unfold VariableDatum.ser
  simp only
  generalize UInt32.ofNat (x.datum_value.length * 8) = bits at e0 ⊢
  have e1 : bits.toNat / 8 = x.datum_value.length := by omega
  have e2 : (lengthPaddedToNum x.datum_value.length 8).padding_length = (8 - x.datum_value.length % 8) % 8 := by
    simp only [lengthPaddedToNum]; split <;> omega
  have e3 : (lengthPaddedToNum (x.datum_value.length * 8) 64).padding_length * 8
      = (8 - x.datum_value.length % 8) % 8 + 63 * ((8 - x.datum_value.length % 8) % 8) := by
    simp only [lengthPaddedToNum]; split <;> omega
  have ez : ∀ a b, zeros (a + b) = zeros a ++ zeros b := by
    intro a b; simp [zeros, List.replicate_append_replicate]
  rw [e3, ez]
  rtp [VariableDatum.parse, e1, e2]
  rw [P.run_take _ _ _ rfl]
  simp only [rt]

/-- **C05** is false for *every* datum that needs padding. -/
theorem C05_unaligned_violates {x : VariableDatum} (h : x.Wf) (hn : ¬ x.Aligned) (rest : Bytes) :
    VariableDatum.parse.run (x.ser ++ rest) ≠ .ok x rest := by
  rw [C05_variable_datum_general h]
  unfold VariableDatum.Aligned at hn
  intro e
  simp only [Res.ok.injEq, true_and] at e
  have := congrArg List.length e
  rw [List.length_append, length_zeros] at this
  omega

/-- The number of octets written for a datum with `n` data octets: one data octet takes 457 octets on the wire instead
of 16. -/
theorem C05_wire_length (x : VariableDatum) :
    x.ser.length = 8 + x.datum_value.length + 64 * ((8 - x.datum_value.length % 8) % 8) := by
  lenp [VariableDatum.ser, lengthPaddedToNum]
  split <;> omega

example : VariableDatum.Wf ⟨24000, [1, 2, 3, 4, 5, 6, 7, 8]⟩ ∧ VariableDatum.Aligned ⟨24000, [1, 2, 3, 4, 5, 6, 7, 8]⟩ := by decide
example : VariableDatum.Wf ⟨24000, [1]⟩ ∧ ¬ VariableDatum.Aligned ⟨24000, [1]⟩ ∧ (VariableDatum.ser ⟨24000, [1]⟩).length = 457 :=
  ⟨by decide, by decide, by rw [C05_wire_length]; decide⟩

/-! ## C06 -/

/-- **C06.**  The padded length is the least multiple of `k` not below the data length, and the padding is the
difference, less than `k`.  (In particular the code's own assertion, that the result is a multiple of `k`, never
fires.) -/
theorem C06_padding (n k : Nat) (hk : 0 < k) :
    let p := lengthPaddedToNum n k
    p.data_length = n ∧ p.record_length = n + p.padding_length ∧ p.padding_length < k ∧ k ∣ p.record_length ∧
    ∀ m, n ≤ m → k ∣ m → p.record_length ≤ m := by
  have hlt := Nat.mod_lt n hk
  have hdm := Nat.div_add_mod n k
  simp only [lengthPaddedToNum]
  by_cases h0 : n % k = 0
  · simp only [h0, if_true, Nat.add_zero, true_and]
    exact ⟨hk, Nat.dvd_of_mod_eq_zero h0, fun m hm _ => hm⟩
  · simp only [h0, if_false, true_and]
    have e : n + (k - n % k) = k * (n / k + 1) := by rw [Nat.mul_add, Nat.mul_one]; omega
    refine ⟨by omega, ⟨_, e⟩, ?_⟩
    rintro m hm ⟨q, rfl⟩
    rw [e]
    apply Nat.mul_le_mul_left
    apply Nat.lt_of_mul_lt_mul_left (a := k)
    omega

example : lengthPaddedToNum 13 8 = ⟨13, 3, 16⟩ ∧ lengthPaddedToNum 16 8 = ⟨16, 0, 16⟩ := by decide

/-! ## C07 -/

/-- **C07.**  A record specification (a list of record sets) reads back as itself and the returned count is the number
of octets written, in every build. -/
theorem C07_record_specification_round_trip (checked : Bool) {l : List RecordSet} (hl : l.length < 2 ^ 32)
    (h : ∀ x ∈ l, x.Wf) (rest : Bytes) :
    (RecordSpecification.parse checked).run (RecordSpecification.ser l ++ rest) = .ok l rest ∧
    RecordSpecification.cnt l = (RecordSpecification.ser l).length :=
  ⟨RecordSpecification.parse_ser checked hl h rest, RecordSpecification.cnt_eq h⟩

/-- **C07**, alignment: every record set is written in a multiple of 8 octets. -/
theorem C07_record_set_aligned {x : RecordSet} (h : x.Wf) : 8 ∣ x.ser.length := by
  rw [← RecordSet.cnt_eq h]
  unfold RecordSet.cnt
  simp only
  generalize (x.records.map List.length).sum % 65536 = n
  have := (C06_padding n 8 (by omega)).2
  obtain ⟨e, _, ⟨q, hq⟩, _⟩ := this
  rw [e] at hq
  exact ⟨2 + q, by omega⟩

example : RecordSet.Wf ⟨1000, 7, 3, [[1, 2, 3], [4, 5, 6]]⟩ ∧ RecordSet.Wf ⟨1000, 7, 0, []⟩ := by decide
example : RecordSpecification.ser [⟨1000, 7, 3, [[1, 2, 3], [4, 5, 6]]⟩]
    = [0, 0, 0, 1, 0, 0, 3, 232, 0, 0, 0, 7, 0, 0, 0, 0, 0, 24, 0, 2, 1, 2, 3, 4, 5, 6, 0, 0] := by decide

/-- **C07** needs its size bounds: in a build without overflow checks a record set whose size product exceeds 16 bits is
silently mis-padded, and in a checked build it panics (see C18). -/
theorem C07_overflow_panics : ∃ bs : Bytes, (RecordSet.parse true).run bs = .panic := by
  -- 65535 records of 1 bit (one octet each) announced as 8 octets long: 8 * 65535 does not fit 16 bits
  have hc : ∀ (k n : Nat), (P.count (P.take k) n).run (zeros (k * n)) = .ok (List.replicate n (zeros k)) [] := by
    intro k n
    have := P.run_count (p := P.take k) (s := id) (List.replicate n (zeros k)) []
      (fun x hx r => P.run_take x r k (by rw [List.eq_of_mem_replicate hx, length_zeros]))
    rw [List.length_replicate, List.append_nil] at this
    have e : (List.replicate n (zeros k)).flatMap id = zeros (k * n) := by
      clear this
      induction n with
      | zero => simp [zeros]
      | succ n ih => rw [List.replicate_succ, List.flatMap_cons, ih]; simp [zeros, List.replicate_append_replicate, Nat.mul_succ, Nat.add_comm]
    rw [e] at this; exact this
  refine ⟨e32 0 ++ e32 0 ++ e32 0 ++ e16 64 ++ e16 65535 ++ zeros (8 * 65535), ?_⟩
  rtp [RecordSet.parse]
  have e1 : ceilBitsToBytes 64 = 8 := by decide
  have e2 : (65535 : UInt16).toNat = 65535 := by decide
  rw [e1, e2, hc]
  simp (decide := true) only [rt, Bool.true_and, if_true]

end Verif.Props
