import Verif.Dis.Builders
import Verif.Props.Header
import Verif.Props.Reading
import Verif.Props.Bodies
import Mathlib.Data.List.Induction
import Mathlib.Tactic.SplitIfs
/-! # C62: what chains of builder calls put on the wire -/
namespace Verif.Props
open Verif Verif.Dis

/-! ## Specification -/

/-- the value given by the last call of a kind in a chain, `get` telling the kind -/
def lastGiven {α β : Type} (get : α → Option β) (calls : List α) : Option β := (calls.filterMap get).getLast?

def givesTei : StatusCall → Option UInt8 | .with_transferred_entity_indicator v => some v | _ => none
def givesLvc : StatusCall → Option UInt8 | .with_lvc_indicator v => some v | _ => none
def givesCei : StatusCall → Option UInt8 | .with_coupled_extension_indicator v => some v | _ => none
def givesFti : StatusCall → Option UInt8 | .with_fire_type_indicator v => some v | _ => none
def givesDti : StatusCall → Option UInt8 | .with_detonation_type_indicator v => some v | _ => none
def givesRai : StatusCall → Option UInt8 | .with_radio_attached_indicator v => some v | _ => none
def givesIai : StatusCall → Option UInt8 | .with_intercom_attached_indicator v => some v | _ => none
def givesIsm : StatusCall → Option UInt8 | .with_iff_simulation_mode v => some v | _ => none
def givesAii : StatusCall → Option UInt8 | .with_active_interrogation_indicator v => some v | _ => none

def givesType : HeaderCall → Option UInt8 | .with_pdu_type t => some t | _ => none
def givesTime : HeaderCall → Option UInt32 | .with_time_stamp t => some t | _ => none
def givesLength : HeaderCall → Option UInt16 | .with_length n => some n | _ => none
def givesStatus : HeaderCall → Option PduStatus | .with_pdu_status s => some s | _ => none

def givesId : RecordSetCall → Option UInt32 | .with_record_id n => some n | _ => none
def givesSerial : RecordSetCall → Option UInt32 | .with_record_serial_number n => some n | _ => none
/-- the records: those added since the list was last set -/
def recordsGiven (calls : List RecordSetCall) : List Bytes :=
  calls.foldl (fun l c => match c with
    | .with_record r => l ++ [r]
    | .with_records rs => rs
    | _ => l) []

/-- an indicator that the value of a call must fit: 2 bits for the LVC, detonation type, radio and intercom attached indicators, 1 bit
for the others -/
def CallFits : StatusCall → Prop
  | .with_transferred_entity_indicator v | .with_coupled_extension_indicator v | .with_fire_type_indicator v
  | .with_iff_simulation_mode v | .with_active_interrogation_indicator v => v < 2
  | .with_lvc_indicator v | .with_detonation_type_indicator v | .with_radio_attached_indicator v
  | .with_intercom_attached_indicator v => v < 4

/-- what a PDU of type `t` reports of an indicator: none if the type does not have it, else the value given last, else 0 -/
def reported (uses : Nat → Prop) [DecidablePred uses] (t : UInt8) (given : Option UInt8) : Option UInt8 :=
  if uses t.toNat then some (given.getD 0) else none

instance : DecidablePred usesTei := fun t => by unfold usesTei; infer_instance
instance : DecidablePred usesLvc := fun t => by unfold usesLvc; infer_instance
instance : DecidablePred usesCei := fun t => by unfold usesCei; infer_instance
instance : DecidablePred usesFti := fun t => by unfold usesFti; infer_instance
instance : DecidablePred usesDti := fun t => by unfold usesDti; infer_instance
instance : DecidablePred usesRai := fun t => by unfold usesRai; infer_instance
instance : DecidablePred usesIai := fun t => by unfold usesIai; infer_instance
instance : DecidablePred usesIsm := fun t => by unfold usesIsm; infer_instance
instance : DecidablePred usesAii := fun t => by unfold usesAii; infer_instance

/-! ## PDU status -/

theorem lastGiven_snoc {α β : Type} (get : α → Option β) (l : List α) (c : α) :
    lastGiven get (l ++ [c]) = (get c).or (lastGiven get l) := by
  unfold lastGiven
  rw [List.filterMap_append]
  cases h : get c with
  | none => simp [h]
  | some v => simp [h]

theorem built_eq (calls : List StatusCall) : PduStatus.built calls =
    ⟨lastGiven givesTei calls, lastGiven givesLvc calls, lastGiven givesCei calls, lastGiven givesFti calls, lastGiven givesDti calls,
      lastGiven givesRai calls, lastGiven givesIai calls, lastGiven givesIsm calls, lastGiven givesAii calls⟩ := by
  induction calls using List.reverseRecOn with
  | nil => rfl
  | append_singleton l c ih =>
    unfold PduStatus.built at ih ⊢
    rw [List.foldl_append, ih]
    simp only [lastGiven_snoc, List.foldl_cons, List.foldl_nil]
    cases c <;> rfl

/-- the indicators of a type -/
def project (s : PduStatus) (t : UInt8) : PduStatus :=
  ⟨reported usesTei t s.transferred_entity_indicator, reported usesLvc t s.lvc_indicator, reported usesCei t s.coupled_extension_indicator,
    reported usesFti t s.fire_type_indicator, reported usesDti t s.detonation_type_indicator, reported usesRai t s.radio_attached_indicator,
    reported usesIai t s.intercom_attached_indicator, reported usesIsm t s.iff_simulation_mode,
    reported usesAii t s.active_interrogation_indicator⟩

theorem ite_both {c : Prop} [Decidable c] {a b a' b' : UInt8} (h1 : c → a = a') (h2 : ¬c → b = b') :
    (if c then a else b) = if c then a' else b' := by
  split
  · rename_i h; exact h1 h
  · rename_i h; exact h2 h

set_option maxHeartbeats 1000000 in
theorem ser_project (s : PduStatus) (t : UInt8) : serializePduStatus (project s t) t = serializePduStatus s t := by
  obtain ⟨a, b, c, d, e, f, g, h, i⟩ := s
  unfold serializePduStatus project reported
  dsimp only
  generalize t.toNat = n
  have usesTei_iff : usesTei n ↔ n = 1 ∨ n = 23 ∨ n = 24 ∨ n = 25 ∨ n = 26 ∨ n = 27 ∨ n = 28 ∨ n = 31 ∨ n = 32 ∨ n = 41 ∨ n = 67 := by simp [usesTei]
  have usesRai_iff : usesRai n ↔ n = 25 ∨ n = 26 ∨ n = 27 := by simp [usesRai]
  have usesIai_iff : usesIai n ↔ n = 31 ∨ n = 32 := by simp [usesIai]
  have T : ∀ {i : Decidable (usesTei n)} {o : Option UInt8}, ((n = 1 ∨ n = 23 ∨ n = 24 ∨ n = 25 ∨ n = 26 ∨ n = 27 ∨ n = 28 ∨ n = 31 ∨ n = 32 ∨ n = 41 ∨ n = 67)) → @ite _ (usesTei n) i o none = o := fun hn => if_pos ((usesTei_iff.2 hn))
  have L : ∀ {i : Decidable (usesLvc n)} {o : Option UInt8}, ((1 ≤ n ∧ n ≤ 72)) → @ite _ (usesLvc n) i o none = o := fun hn => if_pos (hn)
  have C : ∀ {i : Decidable (usesCei n)} {o : Option UInt8}, ((1 ≤ n ∧ n ≤ 71)) → @ite _ (usesCei n) i o none = o := fun hn => if_pos (hn)
  have F : ∀ {i : Decidable (usesFti n)} {o : Option UInt8}, (n = 2) → @ite _ (usesFti n) i o none = o := fun hn => if_pos (hn)
  have D : ∀ {i : Decidable (usesDti n)} {o : Option UInt8}, (n = 3) → @ite _ (usesDti n) i o none = o := fun hn => if_pos (hn)
  have R : ∀ {i : Decidable (usesRai n)} {o : Option UInt8}, ((n = 25 ∨ n = 26 ∨ n = 27)) → @ite _ (usesRai n) i o none = o := fun hn => if_pos ((usesRai_iff.2 hn))
  have I : ∀ {i : Decidable (usesIai n)} {o : Option UInt8}, ((n = 31 ∨ n = 32)) → @ite _ (usesIai n) i o none = o := fun hn => if_pos ((usesIai_iff.2 hn))
  have S : ∀ {i : Decidable (usesIsm n)} {o : Option UInt8}, (n = 28) → @ite _ (usesIsm n) i o none = o := fun hn => if_pos (hn)
  have A : ∀ {i : Decidable (usesAii n)} {o : Option UInt8}, (n = 28) → @ite _ (usesAii n) i o none = o := fun hn => if_pos (hn)
  repeat' refine ite_both (fun _ => ?_) (fun _ => ?_)
  all_goals first
    | rfl
    | (rw [C (by omega), L (by omega), T (by omega)]; cases c <;> cases b <;> cases a <;> rfl)
    | (rw [F (by omega), C (by omega), L (by omega)]; cases d <;> cases c <;> cases b <;> rfl)
    | (rw [D (by omega), C (by omega), L (by omega)]; cases e <;> cases c <;> cases b <;> rfl)
    | (rw [R (by omega), C (by omega), L (by omega), T (by omega)]; cases f <;> cases c <;> cases b <;> cases a <;> rfl)
    | (rw [A (by omega), S (by omega), C (by omega), L (by omega), T (by omega)]; cases i <;> cases h <;> cases c <;> cases b <;> cases a <;> rfl)
    | (rw [I (by omega), C (by omega), L (by omega), T (by omega)]; cases g <;> cases c <;> cases b <;> cases a <;> rfl)
    | (rw [C (by omega), L (by omega)]; cases c <;> cases b <;> rfl)
    | (rw [L (by omega)]; cases b <;> rfl)

theorem reported_ok {uses : Nat → Prop} [DecidablePred uses] {t : UInt8} {w : Nat} {o : Option UInt8} (h : ∀ v, o = some v → v.toNat < 2 ^ w) :
    indicatorOk (uses t.toNat) w (reported uses t o) := by
  unfold reported
  split
  · rename_i hu
    refine ⟨⟨fun _ => by simp, fun _ => hu⟩, fun v hv => ?_⟩
    cases o with
    | none =>
      cases hv
      show 0 < 2 ^ w
      exact Nat.two_pow_pos w
    | some x => cases hv; exact h _ rfl
  · rename_i hu
    exact ⟨⟨fun h => absurd h hu, fun h => absurd rfl h⟩, fun v hv => by cases hv⟩

theorem lastGiven_mem {α β : Type} {get : α → Option β} {l : List α} {v : β} (h : lastGiven get l = some v) : ∃ c ∈ l, get c = some v :=
  List.mem_filterMap.1 (List.mem_of_getLast? h)

/-- **C62.** A PDU status built with any chain of calls, for a PDU of any type, whether or not the indicators are those of the type, and
in any order: the octet written is read back as the indicators of the type, each with the value given last (0 if none was given), and no
others. -/
theorem C62_status (t : UInt8) {calls : List StatusCall} (h : ∀ c ∈ calls, CallFits c) :
    parsePduStatusFields t (serializePduStatus (PduStatus.built calls) t) =
      { transferred_entity_indicator := reported usesTei t (lastGiven givesTei calls)
        lvc_indicator := reported usesLvc t (lastGiven givesLvc calls)
        coupled_extension_indicator := reported usesCei t (lastGiven givesCei calls)
        fire_type_indicator := reported usesFti t (lastGiven givesFti calls)
        detonation_type_indicator := reported usesDti t (lastGiven givesDti calls)
        radio_attached_indicator := reported usesRai t (lastGiven givesRai calls)
        intercom_attached_indicator := reported usesIai t (lastGiven givesIai calls)
        iff_simulation_mode := reported usesIsm t (lastGiven givesIsm calls)
        active_interrogation_indicator := reported usesAii t (lastGiven givesAii calls) } := by
  have hw : (project (PduStatus.built calls) t).Wf t := by
    rw [built_eq]
    refine ⟨reported_ok ?_, reported_ok ?_, reported_ok ?_, reported_ok ?_, reported_ok ?_, reported_ok ?_, reported_ok ?_, reported_ok ?_,
      reported_ok ?_⟩ <;> intro v hv <;> obtain ⟨c, hc, e⟩ := lastGiven_mem hv <;> have := h c hc <;> cases c <;> cases e <;> exact this
  rw [← ser_project, (C02_status_round_trip hw).1, built_eq]
  rfl

example := C62_status 28 (calls := [.with_lvc_indicator 3, .with_fire_type_indicator 1, .with_iff_simulation_mode 1, .with_lvc_indicator 2])
  (by simp [CallFits])

/-- **C62**, where it ends: an indicator value that does not fit its bits (every enumeration has an `Unspecified` value for those) spills
into the neighbouring indicator: LVC value 4 is read back as LVC 0 with a coupled extension. -/
theorem C62_status_spill (t : UInt8) (ht : usesCei t.toNat) :
    (parsePduStatusFields t (serializePduStatus (PduStatus.built [.with_lvc_indicator 4]) t)).lvc_indicator = some 0 ∧
    (parsePduStatusFields t (serializePduStatus (PduStatus.built [.with_lvc_indicator 4]) t)).coupled_extension_indicator = some 1 := by
  revert t
  refine all_u8 fun n => ?_
  revert n
  decide +kernel

/-! ## PDU header -/

/-- **C62.** Any chain of calls on a new header: the type is the one given last, or that of the constructor, the family is that of the type, the timestamp
the last one, the length 12 more than the last body length, the status the last one, and version and exercise are those of the
constructor.  A chain fails exactly if the build checks for overflow and a body length above 65523 was given. -/
theorem C62_header (checked : Bool) (version exercise type : UInt8) (calls : List HeaderCall) :
    (PduHeader.new version exercise type).calls checked calls =
      if checked && calls.any (fun c => (givesLength c).any (65523 < ·)) then none
      else some
        { protocol_version := version, exercise_id := exercise
          pdu_type := (lastGiven givesType calls).getD type
          protocol_family := familyOfType ((lastGiven givesType calls).getD type)
          time_stamp := (lastGiven givesTime calls).getD 0
          pdu_length := ((lastGiven givesLength calls).map (12 + ·)).getD 0
          pdu_status := lastGiven givesStatus calls
          padding := 0 } := by
  induction calls using List.reverseRecOn with
  | nil => simp [PduHeader.calls, PduHeader.new, lastGiven]
  | append_singleton l c ih =>
    have e : (PduHeader.new version exercise type).calls checked (l ++ [c]) =
        ((PduHeader.new version exercise type).calls checked l).bind (·.call checked c) := by
      unfold PduHeader.calls
      rw [List.foldl_append]
      rfl
    rw [e, ih, List.any_append]
    generalize l.any (fun c => (givesLength c).any (65523 < ·)) = long
    simp only [lastGiven_snoc]
    cases checked with
    | false => cases c <;> rfl
    | true =>
      cases long with
      | true => simp
      | false =>
        cases c with
        | with_length n =>
          have hn : decide (65536 ≤ 12 + n.toNat) = decide (65523 < n) := by
            rw [decide_eq_decide, UInt16.lt_iff_toNat_lt]
            show _ ↔ 65523 < n.toNat
            omega
          simp only [Bool.and_false, Bool.false_eq_true, if_false, Option.bind_some, PduHeader.call, hn, List.any_cons, List.any_nil, givesLength,
            Option.any_some, Bool.or_false, Bool.false_or]
          split <;> rfl
        | with_pdu_type t => rfl
        | with_time_stamp t => rfl
        | with_pdu_status t => rfl

example := C62_header true 7 1 1 [.with_length 100, .with_pdu_type 2, .with_time_stamp 5, .with_length 40]

/-! ## Record sets -/

/-- **C62.** Any chain of calls on a record set: identification and serial number given last, the records added since the list was last set; and if these all have the same
length, which the code leaves to the caller, and the set fits a PDU, then every record specification made of such sets is read back as it is. -/
theorem C62_record_sets (checked : Bool) {chains : List (List RecordSetCall)} (hn : chains.length < 2 ^ 32)
    (h : ∀ calls ∈ chains, ∃ n, (∀ r ∈ recordsGiven calls, r.length = n) ∧ n * 8 < 65536 ∧ (recordsGiven calls).length < 65536 ∧
      n * (recordsGiven calls).length < 65536) (rest : Bytes) :
    (∀ calls ∈ chains, (RecordSet.built calls).records = recordsGiven calls ∧
      (RecordSet.built calls).record_id = (lastGiven givesId calls).getD 0 ∧
      (RecordSet.built calls).record_serial_number = (lastGiven givesSerial calls).getD 0) ∧
    (RecordSpecification.parse checked).run (RecordSpecification.ser (chains.map RecordSet.built) ++ rest) = .ok (chains.map RecordSet.built) rest := by
  have key : ∀ calls : List RecordSetCall, (RecordSet.built calls).records = recordsGiven calls ∧
      (RecordSet.built calls).record_id = (lastGiven givesId calls).getD 0 ∧
      (RecordSet.built calls).record_serial_number = (lastGiven givesSerial calls).getD 0 ∧
      (recordsGiven calls = [] → (RecordSet.built calls).record_length_bytes = 0) ∧
      (recordsGiven calls ≠ [] → ∃ r ∈ recordsGiven calls, (RecordSet.built calls).record_length_bytes = UInt16.ofNat r.length) := by
    intro calls
    induction calls using List.reverseRecOn with
    | nil => exact ⟨rfl, rfl, rfl, fun _ => rfl, fun h => absurd rfl h⟩
    | append_singleton l c ih =>
      unfold RecordSet.built recordsGiven at ih ⊢
      simp only [List.foldl_append, List.foldl_cons, List.foldl_nil, lastGiven_snoc]
      obtain ⟨a, b, c', d, e⟩ := ih
      cases c with
      | with_record_id n => exact ⟨a, rfl, c', d, e⟩
      | with_record_serial_number n => exact ⟨a, b, rfl, d, e⟩
      | with_record r =>
        refine ⟨?_, b, c', fun h => by simp at h, fun _ => ⟨r, by simp, rfl⟩⟩
        simp only [RecordSet.call, a]
      | with_records rs =>
        refine ⟨rfl, b, c', ?_, ?_⟩
        · rintro rfl; rfl
        · intro hne
          cases rs with
          | nil => exact absurd rfl hne
          | cons r rs => exact ⟨r, by simp, rfl⟩
  refine ⟨fun calls _ => ⟨(key calls).1, (key calls).2.1, (key calls).2.2.1⟩, ?_⟩
  refine (C07_record_specification_round_trip checked (by simpa using hn) ?_ rest).1
  intro x hx
  obtain ⟨calls, hc, rfl⟩ := List.mem_map.1 hx
  obtain ⟨n, h1, h2, h3, h4⟩ := h calls hc
  obtain ⟨k1, -, -, k4, k5⟩ := key calls
  unfold RecordSet.Wf
  rw [k1]
  by_cases he : recordsGiven calls = []
  · rw [he, k4 he]
    simp
  · obtain ⟨r, hr, e⟩ := k5 he
    have : (RecordSet.built calls).record_length_bytes.toNat = n := by
      rw [e, h1 r hr]
      exact UInt16.toNat_ofNat_of_lt' (by simp [UInt16.size]; omega)
    rw [this]
    exact ⟨h1, fun h => absurd h he, h2, h3, h4⟩

example := C62_record_sets true (chains := [[.with_record_id 1000, .with_record [9], .with_records [[1, 2], [3, 4]], .with_record [5, 6], .with_record_id 1001], []])
  (by simp) (by
    intro c hc
    simp only [List.mem_cons, List.not_mem_nil, or_false] at hc
    rcases hc with rfl | rfl
    · exact ⟨2, by simp [recordsGiven], by decide, by decide, by decide⟩
    · exact ⟨0, by simp [recordsGiven], by decide, by decide, by decide⟩) []

/-- **C62**, where it ends: records of different lengths.  Whatever the chain of calls and whatever follows, a reader never gets the
records of the set back. -/
theorem C62_mixed_lengths_lost (checked : Bool) {calls : List RecordSetCall} {a b : Bytes} (ha : a ∈ recordsGiven calls)
    (hb : b ∈ recordsGiven calls) (hab : a.length ≠ b.length) (rest : Bytes) {x : RecordSet} {rest' : Bytes}
    (h : (RecordSet.parse checked).run ((RecordSet.built calls).ser ++ rest) = .ok x rest') : x.records ≠ recordsGiven calls := by
  obtain ⟨pad, bits, count, tail, -, -, h3, -⟩ := C07_record_set_read h
  intro e
  rw [← e] at ha hb
  have a1 := h3 a ha
  have b1 := h3 b hb
  exact hab (Nat.le_antisymm (a1.2 _ b1.1) (b1.2 _ a1.1))

example := C62_mixed_lengths_lost true (calls := [.with_record [1, 2], .with_record [3]]) (a := [1, 2]) (b := [3]) (by simp [recordsGiven])
  (by simp [recordsGiven]) (by decide) [] (x := ⟨0, 0, 1, [[1], [2]]⟩) (rest' := []) (by rfl)

/-! ## Capabilities -/

/-- **C62.** `with_capabilities_flags` on an entity state of any type: read back from a version 6 PDU it gives the flags, whatever the type; from a
version 7 PDU the capabilities record of the entity's own type, with the flags that this record has, except that an entity of kind 0 has none. -/
theorem C62_capabilities (env : Env) (x : EntityState) (a f r p : Bool) (rest : Bytes) :
    (EntityCapabilities.parse env 6 x.entity_type).run ((x.with_capabilities_flags a f r p).entity_capabilities.ser 6 ++ rest) =
      .ok (x.with_capabilities_flags a f r p).entity_capabilities rest ∧
    (x.with_capabilities_flags a f r p).entity_capabilities.toV6 = ⟨a, f, r, p⟩ ∧
    (EntityCapabilities.parse env 7 x.entity_type).run ((x.with_capabilities_flags a f r p).entity_capabilities.ser 7 ++ rest) =
      .ok (EntityCapabilities.fromBytes env (flagBit a 0x80000000 ||| flagBit f 0x40000000 ||| flagBit r 0x20000000 ||| flagBit p 0x10000000)
        x.entity_type) rest := by
  have h : (x.with_capabilities_flags a f r p).entity_capabilities.toV6 = ⟨a, f, r, p⟩ := by
    have : ∀ a f r p : Bool, (EntityCapabilities.ofV6 ⟨a, f, r, p⟩).toV6 = ⟨a, f, r, p⟩ := by decide
    exact this a f r p
  refine ⟨?_, h, ?_⟩
  · have e : (x.with_capabilities_flags a f r p).entity_capabilities.ser 6 = CapabilitiesV6.ser ⟨a, f, r, p⟩ := by
      rw [← h]; rfl
    rw [e]
    unfold EntityCapabilities.parse
    simp (decide := true) only [if_false, rt, CapabilitiesV6.parse_ser]
    rfl
  · have e : (x.with_capabilities_flags a f r p).entity_capabilities.ser 7 =
        e32 (flagBit a 0x80000000 ||| flagBit f 0x40000000 ||| flagBit r 0x20000000 ||| flagBit p 0x10000000) := rfl
    rw [e]
    unfold EntityCapabilities.parse
    simp (decide := true) only [if_true, rt]

example := C62_capabilities sampleEnv sample_entityState true false true false []

end Verif.Props
