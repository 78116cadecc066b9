import Verif.Props.Relay

/-!
# What reading guarantees, for inputs no writer produces

Supplements to C07 and C15 proved with the logic of `Core/Takes`.
-/

namespace Verif.Props
open Verif Verif.Dis

/-- **C07**, reading: whatever is read, a record set is its 16-octet head, then as many records as announced, each in the least
number of octets that holds the announced number of bits, then the octets that make it a multiple of 8 (total size below
65536 octets, which a checked build enforces). -/
theorem C07_record_set_read {checked : Bool} {bs rest : Bytes} {x : RecordSet} (h : (RecordSet.parse checked).run bs = .ok x rest) :
    ∃ (pad : UInt32) (bits count : UInt16) (tail : Bytes),
      bs = e32 x.record_id ++ e32 x.record_serial_number ++ e32 pad ++ e16 bits ++ e16 count ++ x.records.flatten ++ tail ++ rest ∧
      x.records.length = count.toNat ∧
      (∀ r ∈ x.records, bits.toNat ≤ 8 * r.length ∧ (∀ m, bits.toNat ≤ 8 * m → r.length ≤ m)) ∧
      (x.records.flatten.length < 65536 → 8 ∣ (x.records.flatten ++ tail).length ∧ tail.length < 8) := by
  have key : Takes (RecordSet.parse checked) (fun c x => ∃ (pad : UInt32) (bits count : UInt16) (tail : Bytes),
      c = e32 x.record_id ++ e32 x.record_serial_number ++ e32 pad ++ e16 bits ++ e16 count ++ x.records.flatten ++ tail ∧
      x.records.length = count.toNat ∧
      (∀ r ∈ x.records, r.length = (bits.toNat + 7) / 8) ∧
      tail.length = (lengthPaddedToNum ((bits.toNat + 7) / 8 * count.toNat % 65536) 8).padding_length) := by
    unfold RecordSet.parse
    refine Takes.bind Rd.spec fun _ a e1 => Takes.bind Rd.spec fun _ b e2 => Takes.bind Rd.spec fun _ pad e3 =>
      Takes.bind Rd.spec fun _ bits e4 => Takes.bind Rd.spec fun _ n e5 =>
      Takes.bind (takes_count (Rd.spec (p := P.take (ceilBitsToBytes bits))) n.toNat) fun _ l h => ?_
    refine Takes.ite (fun _ => Takes.panic) fun _ => Takes.bind Rd.spec fun t t' e6 => Takes.pure ?_
    obtain ⟨hl, cs, rfl, hf⟩ := h
    have hcs : cs = l ∧ ∀ r ∈ l, r.length = ceilBitsToBytes bits := by
      clear hl
      induction hf with
      | nil => exact ⟨rfl, by simp⟩
      | cons h _ ih => exact ⟨by rw [h.1, ih.1], by simpa using ⟨h.2, ih.2⟩⟩
    obtain ⟨rfl, hr⟩ := hcs
    obtain ⟨rfl, ht⟩ := e6
    subst e1 e2 e3 e4 e5
    exact ⟨pad, bits, n, t, by simp only [List.append_nil, List.append_assoc], hl, hr, ht⟩
  obtain ⟨c, rfl, pad, bits, count, tail, rfl, h1, h2, h3⟩ := key _ _ _ h
  refine ⟨pad, bits, count, tail, rfl, h1, fun r hr => ?_, fun hlt => ?_⟩
  · rw [h2 r hr]; exact ⟨by omega, fun m hm => by omega⟩
  · have hs : x.records.flatten.length = (bits.toNat + 7) / 8 * count.toNat := by
      rw [← h1]
      clear h1 h3 hlt h
      generalize x.records = l at h2
      induction l with
      | nil => simp
      | cons r l ih =>
        rw [List.flatten_cons, List.length_append, ih fun q hq => h2 q (List.mem_cons_of_mem _ hq), h2 r (List.mem_cons_self ..),
          List.length_cons, Nat.mul_succ, Nat.add_comm]
    rw [← hs, Nat.mod_eq_of_lt hlt] at h3
    obtain ⟨e, hb, hd, _⟩ := (C06_padding x.records.flatten.length 8 (by omega)).2
    rw [List.length_append, h3]
    rw [e] at hd
    exact ⟨hd, hb⟩
-- records of 12 bits: two octets each, and four octets of padding
example : (RecordSet.parse true).run [0, 0, 3, 232, 0, 0, 0, 7, 0, 0, 0, 0, 0, 12, 0, 2, 1, 2, 3, 4, 9, 9, 9, 9, 55] =
    .ok ⟨1000, 7, 2, [[1, 2], [3, 4]]⟩ [55] := by decide

/-- **C15**, alignment: in an Aggregate State PDU the silent systems start at a multiple of 4 octets from the start of the PDU,
and at most 3 octets of padding precede them. -/
theorem C15_silent_systems_aligned (h : PduHeader) (x : AggregateState) (hm : x.aggregate_marking.Wf) :
    ∃ head tail : Bytes, Pdu.ser ⟨h, .aggregateState x⟩ = head ++ serList SilentAggregateSystem.ser x.silent_aggregate_systems ++ tail ∧
      4 ∣ head.length ∧ 132 + 6 * x.aggregates.length + 6 * x.entities.length ≤ head.length ∧
      head.length < 132 + 6 * x.aggregates.length + 6 * x.entities.length + 4 := by
  refine ⟨h.ser ++ (x.aggregate_id.ser ++ e8 x.force_id ++ e8 x.aggregate_state ++ x.aggregate_type.ser ++ e32 x.formation
    ++ x.aggregate_marking.ser ++ x.dimensions.ser) ++ ((x.orientation.ser ++ x.center_of_mass.ser ++ x.velocity.ser
    ++ e16 (UInt16.ofNat x.aggregates.length) ++ e16 (UInt16.ofNat x.entities.length)
    ++ e16 (UInt16.ofNat x.silent_aggregate_systems.length) ++ e16 (UInt16.ofNat x.silent_entity_systems.length))
    ++ (serList EntityId.ser x.aggregates ++ serList EntityId.ser x.entities
    ++ zeros (aggregatePadding x.aggregates.length x.entities.length))),
    serList SilentEntitySystem.ser x.silent_entity_systems ++ e32 (UInt32.ofNat x.variable_datums.length) ++ serList VariableDatum.ser x.variable_datums, ?_, ?_⟩
  · simp only [Pdu.ser, Body.ser, AggregateState.ser, List.append_assoc]
  · have ha := length_serList_const (s := EntityId.ser) (k := 6) x.aggregates fun a _ => EntityId.length_ser a
    have he := length_serList_const (s := EntityId.ser) (k := 6) x.entities fun a _ => EntityId.length_ser a
    have hk := AggregateMarking.length_ser hm
    simp only [List.length_append, PduHeader.length_ser, EntityId.length_ser, AggregateType.length_ser, VectorF32.length_ser,
      Orientation.length_ser, Location.length_ser, length_e8, length_e16, length_e32, ha, he, hk, length_zeros, aggregatePadding,
      aggregateIntermediate]
    generalize x.aggregates.length = a
    generalize x.entities.length = b
    rcases Nat.mod_two_eq_zero_or_one (a + b) with hp | hp
    · have : (124 + 6 * a + 6 * b) % 4 = 0 := by omega
      rw [this]; omega
    · have : (124 + 6 * a + 6 * b) % 4 = 2 := by omega
      rw [this]; omega
example : sample_aggregateState.aggregate_marking.Wf := sample_aggregateState_ok.marking

end Verif.Props
