import Verif.Dis.HeaderLemmas

/-!
# C01, C02: the PDU header and the PDU status octet
-/

set_option linter.unusedSimpArgs false

namespace Verif.Props
open Verif Verif.Dis Verif.P

/-! ## C01 -/

/-- **C01.**  Writing a header and reading the octets back gives the same header (version, exercise, type, family,
timestamp, length, status) and leaves exactly what follows; the header takes 12 octets. -/
theorem C01_header_round_trip {h : PduHeader} (hw : h.Wf) (rest : Bytes) :
    PduHeader.parse.run (h.ser ++ rest) = .ok h rest ∧ h.ser.length = 12 :=
  ⟨PduHeader.parse_ser hw rest, PduHeader.length_ser h⟩

/-- **C01**, wire format: the twelve octets of any header, whatever its fields.  The padding field of the header never
reaches the wire: octet 11 is always zero, and octet 10 carries a status in version 7 only. -/
theorem C01_header_wire (h : PduHeader) : ∃ status : UInt8,
    h.ser = [h.protocol_version, h.exercise_id, h.pdu_type, h.protocol_family,
      UInt8.ofNat (h.time_stamp.toNat / 2 ^ 24), UInt8.ofNat (h.time_stamp.toNat / 2 ^ 16),
      UInt8.ofNat (h.time_stamp.toNat / 2 ^ 8), UInt8.ofNat h.time_stamp.toNat,
      UInt8.ofNat (h.pdu_length.toNat / 2 ^ 8), UInt8.ofNat h.pdu_length.toNat, status, 0] ∧
    (h.protocol_version ≠ 7 → status = 0) ∧
    (∀ s, h.protocol_version = 7 → h.pdu_status = some s → s.Wf h.pdu_type → status.toNat = s.octet) := by
  unfold PduHeader.ser
  by_cases hv : h.protocol_version = 7
  · rw [if_pos hv]
    cases hs : h.pdu_status with
    | none => exact ⟨0, rfl, fun _ => rfl, fun s _ h => by cases h⟩
    | some s =>
      refine ⟨serializePduStatus s h.pdu_type, rfl, fun h => absurd hv h, fun s' _ h' hw => ?_⟩
      cases h'
      exact (PduStatus.parse_ser hw).2
  · rw [if_neg hv]
    exact ⟨0, rfl, fun _ => rfl, fun s h => absurd h hv⟩

/-- **C01**, the other direction: whatever twelve octets are read, the header obtained is the one on the wire; writing
it back restores the first ten octets. -/
theorem C01_header_reads_wire (a b c d t1 t2 t3 t4 l1 l2 s p : UInt8) (rest : Bytes) : ∃ h,
    PduHeader.parse.run ([a, b, c, d, t1, t2, t3, t4, l1, l2, s, p] ++ rest) = .ok h rest ∧
    h.protocol_version = a ∧ h.exercise_id = b ∧ h.pdu_type = c ∧ h.protocol_family = d ∧
    h.time_stamp.toNat = t1.toNat * 2 ^ 24 + t2.toNat * 2 ^ 16 + t3.toNat * 2 ^ 8 + t4.toNat ∧
    h.pdu_length.toNat = l1.toNat * 2 ^ 8 + l2.toNat ∧
    (h.pdu_status = none ↔ 1 ≤ a.toNat ∧ a.toNat ≤ 6) ∧
    h.ser.take 10 = [a, b, c, d, t1, t2, t3, t4, l1, l2] := by
  have ht : (UInt32.ofNat (t1.toNat * 16777216 + t2.toNat * 65536 + t3.toNat * 256 + t4.toNat)).toNat
      = t1.toNat * 2 ^ 24 + t2.toNat * 2 ^ 16 + t3.toNat * 2 ^ 8 + t4.toNat := by
    rw [UInt32.toNat_ofNat']
    have := t1.toNat_lt; have := t2.toNat_lt; have := t3.toNat_lt; have := t4.toNat_lt
    omega
  have hl : (UInt16.ofNat (l1.toNat * 256 + l2.toNat)).toNat = l1.toNat * 2 ^ 8 + l2.toNat := by
    rw [UInt16.toNat_ofNat']
    have := l1.toNat_lt; have := l2.toNat_lt
    omega
  have hser : ∀ st pd, (PduHeader.ser ⟨a, b, c, d, UInt32.ofNat (t1.toNat * 16777216 + t2.toNat * 65536 + t3.toNat * 256 + t4.toNat),
      UInt16.ofNat (l1.toNat * 256 + l2.toNat), st, pd⟩).take 10 = [a, b, c, d, t1, t2, t3, t4, l1, l2] := by
    intro st pd
    obtain ⟨x, hx, -⟩ := C01_header_wire ⟨a, b, c, d, UInt32.ofNat (t1.toNat * 16777216 + t2.toNat * 65536 + t3.toNat * 256 + t4.toNat),
      UInt16.ofNat (l1.toNat * 256 + l2.toNat), st, pd⟩
    rw [hx]
    simp only [List.take_succ_cons, List.take_zero, List.cons.injEq, and_true, true_and, ht, hl]
    have := t1.toNat_lt; have := t2.toNat_lt; have := t3.toNat_lt; have := t4.toNat_lt
    have := l1.toNat_lt; have := l2.toNat_lt
    refine ⟨?_, ?_, ?_, ?_, ?_, ?_⟩ <;> apply UInt8.toNat.inj <;> rw [UInt8.toNat_ofNat'] <;> omega
  by_cases hv : 1 ≤ a.toNat ∧ a.toNat ≤ 6
  · refine ⟨_, by simp only [PduHeader.parse, P.run_bind, be_u8, be_u16, be_u32, List.cons_append, Res.andThen, hv, and_self, if_true, P.run_pure, List.nil_append]; rfl,
      rfl, rfl, rfl, rfl, ht, hl, ⟨fun _ => hv, fun _ => rfl⟩, hser _ _⟩
  · refine ⟨_, by simp only [PduHeader.parse, P.run_bind, be_u8, be_u16, be_u32, List.cons_append, Res.andThen, hv, if_false, P.run_pure, List.nil_append]; rfl,
      rfl, rfl, rfl, rfl, ht, hl, ⟨fun h => (by cases h), fun h => absurd h hv⟩, hser _ _⟩

/-- A version 7 Entity State header with a status, as used below. -/
def sampleStatus : PduStatus :=
  { transferred_entity_indicator := some 1, lvc_indicator := some 2, coupled_extension_indicator := some 1 }
def sampleHeader : PduHeader := ⟨7, 3, 1, 1, 0xDEADBEEF, 144, some sampleStatus, 0⟩
def sampleHeader6 : PduHeader := ⟨6, 3, 2, 2, 5, 96, none, 0⟩

theorem sampleStatus_wf : sampleStatus.Wf 1 := by
  constructor <;> (refine ⟨by decide, ?_⟩; intro v hv; cases hv <;> decide)
theorem sampleHeader_wf : sampleHeader.Wf := ⟨rfl, .inl ⟨rfl, sampleStatus, rfl, sampleStatus_wf⟩⟩
theorem sampleHeader6_wf : sampleHeader6.Wf := ⟨rfl, .inr ⟨by decide, by decide, rfl⟩⟩

-- Non-vacuity: a version 7 and a version 6 header meet the hypotheses; the octets are the expected ones.
example : sampleHeader.ser = [7, 3, 1, 1, 0xDE, 0xAD, 0xBE, 0xEF, 0, 144, 0b1101, 0] := by decide
example (r : Bytes) : PduHeader.parse.run ([7, 3, 1, 1, 0xDE, 0xAD, 0xBE, 0xEF, 0, 144, 0b1101, 0] ++ r) = .ok sampleHeader r :=
  (C01_header_round_trip sampleHeader_wf r).1
example (r : Bytes) : PduHeader.parse.run (sampleHeader6.ser ++ r) = .ok sampleHeader6 r :=
  (C01_header_round_trip sampleHeader6_wf r).1

/-- **C01** does not extend to a non-zero padding or to a version 7 header without a status: the padding is lost and the
status reads back as present.  (Such headers can be built with the API.) -/
theorem C01_padding_lost : ∃ h : PduHeader, h.protocol_version = 6 ∧ h.pdu_status = none ∧
    PduHeader.parse.run h.ser = .ok { h with padding := 0 } [] ∧ { h with padding := 0 } ≠ h :=
  ⟨{ sampleHeader6 with padding := 513 }, rfl, rfl, by decide, by decide⟩
theorem C01_missing_status : ∃ h h' : PduHeader, h.protocol_version = 7 ∧ h.pdu_status = none ∧
    PduHeader.parse.run h.ser = .ok h' [] ∧ h'.pdu_status ≠ none :=
  ⟨{ sampleHeader with pdu_status := none },
    { sampleHeader with pdu_status := some { transferred_entity_indicator := some 0, lvc_indicator := some 0, coupled_extension_indicator := some 0 } },
    rfl, rfl, by decide, by decide⟩

/-! ## C02 -/

/-- The bits of the status octet that the standard defines for a PDU type. -/
def definedBits (t : Nat) : Nat :=
  (if usesTei t then 1 else 0) + (if usesLvc t then 6 else 0) + (if usesCei t then 8 else 0)
  + (if usesFti t ∨ usesIsm t then 16 else 0) + (if usesAii t then 32 else 0)
  + (if usesDti t ∨ usesRai t ∨ usesIai t then 48 else 0)

/-- **C02**, record to octet to record, for each of the 256 PDU types: a record with exactly the indicators of its type
is read back from the octet written for it, and that octet is the one the standard prescribes. -/
theorem C02_status_round_trip {s : PduStatus} {t : UInt8} (h : s.Wf t) :
    parsePduStatusFields t (serializePduStatus s t) = s ∧ (serializePduStatus s t).toNat = s.octet :=
  PduStatus.parse_ser h

theorem all_u8 {p : UInt8 → Prop} (h : ∀ n : Fin 256, p (UInt8.ofNat n.val)) (b : UInt8) : p b := by
  have := h ⟨b.toNat, b.toNat_lt⟩
  simpa using this

private theorem opt_ok {u : Prop} {w : Nat} {v : UInt8} (hu : u) (hv : v.toNat < 2 ^ w) : indicatorOk u w (some v) :=
  ⟨⟨fun _ => by simp, fun _ => hu⟩, fun x hx => by cases hx; exact hv⟩
private theorem opt_no {u : Prop} {w : Nat} (hu : ¬ u) : indicatorOk u w none :=
  ⟨⟨fun h => absurd h hu, fun h => absurd rfl h⟩, fun x hx => by cases hx⟩

theorem lt_tei (b : UInt8) : (statusTei b).toNat < 2 ^ 1 := all_u8 (p := fun b => (statusTei b).toNat < 2 ^ 1) (by decide +kernel) b
theorem lt_lvc (b : UInt8) : (statusLvc b).toNat < 2 ^ 2 := all_u8 (p := fun b => (statusLvc b).toNat < 2 ^ 2) (by decide +kernel) b
theorem lt_cei (b : UInt8) : (statusCei b).toNat < 2 ^ 1 := all_u8 (p := fun b => (statusCei b).toNat < 2 ^ 1) (by decide +kernel) b
theorem lt_fti (b : UInt8) : (statusFti b).toNat < 2 ^ 1 := all_u8 (p := fun b => (statusFti b).toNat < 2 ^ 1) (by decide +kernel) b
theorem lt_dti (b : UInt8) : (statusDti b).toNat < 2 ^ 2 := all_u8 (p := fun b => (statusDti b).toNat < 2 ^ 2) (by decide +kernel) b
theorem lt_ism (b : UInt8) : (statusIsm b).toNat < 2 ^ 1 := all_u8 (p := fun b => (statusIsm b).toNat < 2 ^ 1) (by decide +kernel) b
theorem lt_aii (b : UInt8) : (statusAii b).toNat < 2 ^ 1 := all_u8 (p := fun b => (statusAii b).toNat < 2 ^ 1) (by decide +kernel) b

private theorem defined_of (c : Nat → Prop) {m : Nat} (h : ∀ n : Fin 256, c n.val → definedBits n.val = m)
    (t : UInt8) (hc : c t.toNat) : definedBits t.toNat = m := h ⟨t.toNat, t.toNat_lt⟩ hc

private theorem read_h0 (t b : UInt8) (hc : t.toNat = 0 ∨ 72 < t.toNat) :
    (parsePduStatusFields t b).Wf t ∧ (parsePduStatusFields t b).octet = b.toNat &&& definedBits t.toNat := by
  have e : parsePduStatusFields t b = {} := by
    unfold parsePduStatusFields; dsimp only; generalize t.toNat = n at hc; rcases hc with hc | hc <;> ifs_omega
  have d : definedBits t.toNat = 0 := defined_of (fun n => n = 0 ∨ 72 < n) (by decide +kernel) t hc
  rw [e, d]
  refine ⟨?_, ?_⟩
  · constructor <;> first
      | exact opt_no (by simp only [usesTei, usesLvc, usesCei, usesFti, usesDti, usesRai, usesIai, usesIsm, usesAii, List.mem_cons, List.not_mem_nil, or_false]; omega)
      | exact opt_ok (by simp only [usesTei, usesLvc, usesCei, usesFti, usesDti, usesRai, usesIai, usesIsm, usesAii, List.mem_cons, List.not_mem_nil, or_false]; omega)
          (by first | exact lt_tei b | exact lt_lvc b | exact lt_cei b | exact lt_fti b | exact lt_dti b | exact lt_ism b | exact lt_aii b)
  · exact all_u8 (p := fun b => PduStatus.octet {} = b.toNat &&& 0) (by decide +kernel) b

private theorem read_h72 (t b : UInt8) (hc : t.toNat = 72) :
    (parsePduStatusFields t b).Wf t ∧ (parsePduStatusFields t b).octet = b.toNat &&& definedBits t.toNat := by
  have e : parsePduStatusFields t b = { lvc_indicator := some (statusLvc b) } := by
    unfold parsePduStatusFields; dsimp only; generalize t.toNat = n at hc; ifs_omega
  have d : definedBits t.toNat = 6 := defined_of (fun n => n = 72) (by decide +kernel) t hc
  rw [e, d]
  refine ⟨?_, ?_⟩
  · constructor <;> first
      | exact opt_no (by simp only [usesTei, usesLvc, usesCei, usesFti, usesDti, usesRai, usesIai, usesIsm, usesAii, List.mem_cons, List.not_mem_nil, or_false]; omega)
      | exact opt_ok (by simp only [usesTei, usesLvc, usesCei, usesFti, usesDti, usesRai, usesIai, usesIsm, usesAii, List.mem_cons, List.not_mem_nil, or_false]; omega)
          (by first | exact lt_tei b | exact lt_lvc b | exact lt_cei b | exact lt_fti b | exact lt_dti b | exact lt_ism b | exact lt_aii b)
  · exact all_u8 (p := fun b => PduStatus.octet { lvc_indicator := some (statusLvc b) } = b.toNat &&& 6) (by decide +kernel) b

private theorem read_htcl (t b : UInt8) (hc : t.toNat = 1 ∨ t.toNat = 23 ∨ t.toNat = 24 ∨ t.toNat = 41 ∨ t.toNat = 67) :
    (parsePduStatusFields t b).Wf t ∧ (parsePduStatusFields t b).octet = b.toNat &&& definedBits t.toNat := by
  have e : parsePduStatusFields t b = { coupled_extension_indicator := some (statusCei b), lvc_indicator := some (statusLvc b), transferred_entity_indicator := some (statusTei b) } := by
    unfold parsePduStatusFields; dsimp only; generalize t.toNat = n at hc; rcases hc with hc | hc | hc | hc | hc <;> ifs_omega
  have d : definedBits t.toNat = 15 := defined_of (fun n => n = 1 ∨ n = 23 ∨ n = 24 ∨ n = 41 ∨ n = 67) (by decide +kernel) t hc
  rw [e, d]
  refine ⟨?_, ?_⟩
  · constructor <;> first
      | exact opt_no (by simp only [usesTei, usesLvc, usesCei, usesFti, usesDti, usesRai, usesIai, usesIsm, usesAii, List.mem_cons, List.not_mem_nil, or_false]; omega)
      | exact opt_ok (by simp only [usesTei, usesLvc, usesCei, usesFti, usesDti, usesRai, usesIai, usesIsm, usesAii, List.mem_cons, List.not_mem_nil, or_false]; omega)
          (by first | exact lt_tei b | exact lt_lvc b | exact lt_cei b | exact lt_fti b | exact lt_dti b | exact lt_ism b | exact lt_aii b)
  · exact all_u8 (p := fun b => PduStatus.octet { coupled_extension_indicator := some (statusCei b), lvc_indicator := some (statusLvc b), transferred_entity_indicator := some (statusTei b) } = b.toNat &&& 15) (by decide +kernel) b

private theorem read_hfire (t b : UInt8) (hc : t.toNat = 2) :
    (parsePduStatusFields t b).Wf t ∧ (parsePduStatusFields t b).octet = b.toNat &&& definedBits t.toNat := by
  have e : parsePduStatusFields t b = { fire_type_indicator := some (statusFti b), coupled_extension_indicator := some (statusCei b), lvc_indicator := some (statusLvc b) } := by
    unfold parsePduStatusFields; dsimp only; generalize t.toNat = n at hc; ifs_omega
  have d : definedBits t.toNat = 30 := defined_of (fun n => n = 2) (by decide +kernel) t hc
  rw [e, d]
  refine ⟨?_, ?_⟩
  · constructor <;> first
      | exact opt_no (by simp only [usesTei, usesLvc, usesCei, usesFti, usesDti, usesRai, usesIai, usesIsm, usesAii, List.mem_cons, List.not_mem_nil, or_false]; omega)
      | exact opt_ok (by simp only [usesTei, usesLvc, usesCei, usesFti, usesDti, usesRai, usesIai, usesIsm, usesAii, List.mem_cons, List.not_mem_nil, or_false]; omega)
          (by first | exact lt_tei b | exact lt_lvc b | exact lt_cei b | exact lt_fti b | exact lt_dti b | exact lt_ism b | exact lt_aii b)
  · exact all_u8 (p := fun b => PduStatus.octet { fire_type_indicator := some (statusFti b), coupled_extension_indicator := some (statusCei b), lvc_indicator := some (statusLvc b) } = b.toNat &&& 30) (by decide +kernel) b

private theorem read_hdet (t b : UInt8) (hc : t.toNat = 3) :
    (parsePduStatusFields t b).Wf t ∧ (parsePduStatusFields t b).octet = b.toNat &&& definedBits t.toNat := by
  have e : parsePduStatusFields t b = { detonation_type_indicator := some (statusDti b), coupled_extension_indicator := some (statusCei b), lvc_indicator := some (statusLvc b) } := by
    unfold parsePduStatusFields; dsimp only; generalize t.toNat = n at hc; ifs_omega
  have d : definedBits t.toNat = 62 := defined_of (fun n => n = 3) (by decide +kernel) t hc
  rw [e, d]
  refine ⟨?_, ?_⟩
  · constructor <;> first
      | exact opt_no (by simp only [usesTei, usesLvc, usesCei, usesFti, usesDti, usesRai, usesIai, usesIsm, usesAii, List.mem_cons, List.not_mem_nil, or_false]; omega)
      | exact opt_ok (by simp only [usesTei, usesLvc, usesCei, usesFti, usesDti, usesRai, usesIai, usesIsm, usesAii, List.mem_cons, List.not_mem_nil, or_false]; omega)
          (by first | exact lt_tei b | exact lt_lvc b | exact lt_cei b | exact lt_fti b | exact lt_dti b | exact lt_ism b | exact lt_aii b)
  · exact all_u8 (p := fun b => PduStatus.octet { detonation_type_indicator := some (statusDti b), coupled_extension_indicator := some (statusCei b), lvc_indicator := some (statusLvc b) } = b.toNat &&& 62) (by decide +kernel) b

private theorem read_hradio (t b : UInt8) (hc : t.toNat = 25 ∨ t.toNat = 26 ∨ t.toNat = 27) :
    (parsePduStatusFields t b).Wf t ∧ (parsePduStatusFields t b).octet = b.toNat &&& definedBits t.toNat := by
  have e : parsePduStatusFields t b = { radio_attached_indicator := some (statusRai b), coupled_extension_indicator := some (statusCei b), lvc_indicator := some (statusLvc b), transferred_entity_indicator := some (statusTei b) } := by
    unfold parsePduStatusFields; dsimp only; generalize t.toNat = n at hc; rcases hc with hc | hc | hc <;> ifs_omega
  have d : definedBits t.toNat = 63 := defined_of (fun n => n = 25 ∨ n = 26 ∨ n = 27) (by decide +kernel) t hc
  rw [e, d]
  refine ⟨?_, ?_⟩
  · constructor <;> first
      | exact opt_no (by simp only [usesTei, usesLvc, usesCei, usesFti, usesDti, usesRai, usesIai, usesIsm, usesAii, List.mem_cons, List.not_mem_nil, or_false]; omega)
      | exact opt_ok (by simp only [usesTei, usesLvc, usesCei, usesFti, usesDti, usesRai, usesIai, usesIsm, usesAii, List.mem_cons, List.not_mem_nil, or_false]; omega)
          (by first | exact lt_tei b | exact lt_lvc b | exact lt_cei b | exact lt_fti b | exact lt_dti b | exact lt_ism b | exact lt_aii b)
  · exact all_u8 (p := fun b => PduStatus.octet { radio_attached_indicator := some (statusRai b), coupled_extension_indicator := some (statusCei b), lvc_indicator := some (statusLvc b), transferred_entity_indicator := some (statusTei b) } = b.toNat &&& 63) (by decide +kernel) b

private theorem read_hic (t b : UInt8) (hc : t.toNat = 31 ∨ t.toNat = 32) :
    (parsePduStatusFields t b).Wf t ∧ (parsePduStatusFields t b).octet = b.toNat &&& definedBits t.toNat := by
  have e : parsePduStatusFields t b = { intercom_attached_indicator := some (statusIai b), coupled_extension_indicator := some (statusCei b), lvc_indicator := some (statusLvc b), transferred_entity_indicator := some (statusTei b) } := by
    unfold parsePduStatusFields; dsimp only; generalize t.toNat = n at hc; rcases hc with hc | hc <;> ifs_omega
  have d : definedBits t.toNat = 63 := defined_of (fun n => n = 31 ∨ n = 32) (by decide +kernel) t hc
  rw [e, d]
  refine ⟨?_, ?_⟩
  · constructor <;> first
      | exact opt_no (by simp only [usesTei, usesLvc, usesCei, usesFti, usesDti, usesRai, usesIai, usesIsm, usesAii, List.mem_cons, List.not_mem_nil, or_false]; omega)
      | exact opt_ok (by simp only [usesTei, usesLvc, usesCei, usesFti, usesDti, usesRai, usesIai, usesIsm, usesAii, List.mem_cons, List.not_mem_nil, or_false]; omega)
          (by first | exact lt_tei b | exact lt_lvc b | exact lt_cei b | exact lt_fti b | exact lt_dti b | exact lt_ism b | exact lt_aii b)
  · exact all_u8 (p := fun b => PduStatus.octet { intercom_attached_indicator := some (statusIai b), coupled_extension_indicator := some (statusCei b), lvc_indicator := some (statusLvc b), transferred_entity_indicator := some (statusTei b) } = b.toNat &&& 63) (by decide +kernel) b

private theorem read_hiff (t b : UInt8) (hc : t.toNat = 28) :
    (parsePduStatusFields t b).Wf t ∧ (parsePduStatusFields t b).octet = b.toNat &&& definedBits t.toNat := by
  have e : parsePduStatusFields t b = { active_interrogation_indicator := some (statusAii b), iff_simulation_mode := some (statusIsm b), coupled_extension_indicator := some (statusCei b), lvc_indicator := some (statusLvc b), transferred_entity_indicator := some (statusTei b) } := by
    unfold parsePduStatusFields; dsimp only; generalize t.toNat = n at hc; ifs_omega
  have d : definedBits t.toNat = 63 := defined_of (fun n => n = 28) (by decide +kernel) t hc
  rw [e, d]
  refine ⟨?_, ?_⟩
  · constructor <;> first
      | exact opt_no (by simp only [usesTei, usesLvc, usesCei, usesFti, usesDti, usesRai, usesIai, usesIsm, usesAii, List.mem_cons, List.not_mem_nil, or_false]; omega)
      | exact opt_ok (by simp only [usesTei, usesLvc, usesCei, usesFti, usesDti, usesRai, usesIai, usesIsm, usesAii, List.mem_cons, List.not_mem_nil, or_false]; omega)
          (by first | exact lt_tei b | exact lt_lvc b | exact lt_cei b | exact lt_fti b | exact lt_dti b | exact lt_ism b | exact lt_aii b)
  · exact all_u8 (p := fun b => PduStatus.octet { active_interrogation_indicator := some (statusAii b), iff_simulation_mode := some (statusIsm b), coupled_extension_indicator := some (statusCei b), lvc_indicator := some (statusLvc b), transferred_entity_indicator := some (statusTei b) } = b.toNat &&& 63) (by decide +kernel) b

private theorem read_hrest (t b : UInt8) (hc : (4 ≤ t.toNat ∧ t.toNat ≤ 22) ∨ (29 ≤ t.toNat ∧ t.toNat ≤ 30) ∨ (33 ≤ t.toNat ∧ t.toNat ≤ 40) ∨ (42 ≤ t.toNat ∧ t.toNat ≤ 66) ∨ (68 ≤ t.toNat ∧ t.toNat ≤ 71)) :
    (parsePduStatusFields t b).Wf t ∧ (parsePduStatusFields t b).octet = b.toNat &&& definedBits t.toNat := by
  have e : parsePduStatusFields t b = { coupled_extension_indicator := some (statusCei b), lvc_indicator := some (statusLvc b) } := by
    unfold parsePduStatusFields; dsimp only; generalize t.toNat = n at hc; rcases hc with hc | hc | hc | hc | hc <;> ifs_omega
  have d : definedBits t.toNat = 14 := defined_of (fun n => (4 ≤ n ∧ n ≤ 22) ∨ (29 ≤ n ∧ n ≤ 30) ∨ (33 ≤ n ∧ n ≤ 40) ∨ (42 ≤ n ∧ n ≤ 66) ∨ (68 ≤ n ∧ n ≤ 71)) (by decide +kernel) t hc
  rw [e, d]
  refine ⟨?_, ?_⟩
  · constructor <;> first
      | exact opt_no (by simp only [usesTei, usesLvc, usesCei, usesFti, usesDti, usesRai, usesIai, usesIsm, usesAii, List.mem_cons, List.not_mem_nil, or_false]; omega)
      | exact opt_ok (by simp only [usesTei, usesLvc, usesCei, usesFti, usesDti, usesRai, usesIai, usesIsm, usesAii, List.mem_cons, List.not_mem_nil, or_false]; omega)
          (by first | exact lt_tei b | exact lt_lvc b | exact lt_cei b | exact lt_fti b | exact lt_dti b | exact lt_ism b | exact lt_aii b)
  · exact all_u8 (p := fun b => PduStatus.octet { coupled_extension_indicator := some (statusCei b), lvc_indicator := some (statusLvc b) } = b.toNat &&& 14) (by decide +kernel) b

private theorem read_all (t b : UInt8) :
    (parsePduStatusFields t b).Wf t ∧ (parsePduStatusFields t b).octet = b.toNat &&& definedBits t.toNat := by
  rcases type_classes t.toNat with h | h | h | h | h | h | h | h | h
  · exact read_h0 t b h
  · exact read_h72 t b h
  · exact read_htcl t b h
  · exact read_hfire t b h
  · exact read_hdet t b h
  · exact read_hradio t b h
  · exact read_hic t b h
  · exact read_hiff t b h
  · exact read_hrest t b h

/-- **C02**, octet to record, for each of the 256 PDU types and each of the 256 octets: the record read is well formed
for its type (exactly the defined indicators, each within its bits), ... -/
theorem C02_read_wf (t b : UInt8) : (parsePduStatusFields t b).Wf t := (read_all t b).1

/-- ... and writing it back preserves exactly the bits defined for that type and zeroes the others. -/
theorem C02_octet_round_trip (t b : UInt8) :
    (serializePduStatus (parsePduStatusFields t b) t).toNat = b.toNat &&& definedBits t.toNat := by
  rw [(C02_status_round_trip (C02_read_wf t b)).2, (read_all t b).2]

-- Non-vacuity: a Detonation status with every indicator set; an octet whose undefined bits are dropped.
example : PduStatus.Wf { detonation_type_indicator := some 3, coupled_extension_indicator := some 1, lvc_indicator := some 2 } 3 := by
  constructor <;> (refine ⟨by decide, ?_⟩; intro v hv; cases hv <;> decide)
example : serializePduStatus (parsePduStatusFields 2 0xFF) 2 = 0x1E ∧ definedBits 2 = 0x1E := by decide

end Verif.Props
