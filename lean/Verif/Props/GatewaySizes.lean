import Verif.Dis.Weights
import Verif.Cdis.Sizes
import Verif.Props.GatewayCrash
import Verif.Props.GatewayWhole

/-! # What comes out of the gateway's encoder fits its buffer

The bits written and announced for a PDU are at most 59 times the octets it was read from, so a datagram of 1500 octets never fills the
buffer of 89600 bits.  Used for C65. -/

namespace Verif.Props
open Verif Verif.Dis Verif.Codec Verif.Gateway

/-! ## Specification -/

/-- A datagram that the gateway does not survive: reading it panics (C18 says exactly when), or one of its PDUs has a marking that
cannot be cut to eleven octets. -/
def Fatal (env : Dis.Env) (bs : Bytes) : Prop :=
  Dis.parse env bs = .panic ∨ ∃ ps, Dis.parse env bs = .ok ps ∧ ∃ p ∈ ps, CutMarking p

/-! ## Sizes -/

theorem scale_sum {α β : Type} {g : α → β} {f : β → Nat} {w : α → Nat} {k : Nat} (h : ∀ x, f (g x) ≤ k * w x) (l : List α) :
    ((l.map g).map f).sum ≤ k * (l.map w).sum := by
  induction l with
  | nil => exact Nat.le_refl _
  | cons x l ih => have := h x; simp only [List.map_cons, List.sum_cons, Nat.mul_add] at *; omega
theorem scale_opt {α β : Type} {g : α → β} {f : β → Nat} {w : α → Nat} {k : Nat} (h : ∀ x, f (g x) ≤ k * w x) (o : Option α) :
    Cdis.lOpt f (o.map g) ≤ k * o.elim 0 w := by
  cases o with | none => exact Nat.zero_le _ | some x => exact h x
theorem sum_ones {α : Type} (n : Nat) (l : List α) : (l.map fun _ => n).sum = n * l.length := by
  induction l with
  | nil => rfl
  | cons x l ih => simp only [List.map_cons, List.sum_cons, List.length_cons, ih, Nat.mul_succ]; omega
theorem datums_fit (f : List FixedDatum) (v : List VariableDatum) :
    64 * (datumsEnc f v).fixed.length + ((datumsEnc f v).var.map fun d => 46 + 8 * d.datum_value.length).sum ≤ 59 * datumWeight f v := by
  have h := scale_sum (g := vdEnc) (f := fun d => 46 + 8 * d.datum_value.length) (w := fun x => 8 + x.datum_value.length) (k := 59)
    (fun x => by simp only [vdEnc, bytesEnc, List.length_map]; omega) v
  unfold datumsEnc datumWeight
  rw [sum_ones]
  simp only [List.length_map] at *
  omega
theorem records_fit (l : List IffDataRecord) : Cdis.recordBits (l.map iffRecEnc) ≤ 59 * (l.map fun r => 6 + r.record_specific_fields.length).sum :=
  scale_sum (fun x => by simp only [iffRecEnc, bytesEnc, List.length_map]; omega) l
theorem iff_fit (o : Options) (now : Nat) (st : Option Nat) (x : Iff) : (iffEnc o now st x).1.varBits ≤ 59 * x.weight := by
  have a := scale_opt (g := layer2Enc) (f := fun x => 86 * x.params.length) (w := fun x => (x.iff_fundamental_parameters.map fun _ => 24).sum) (k := 59)
    (fun x => by simp only [layer2Enc, List.length_map, sum_ones]; omega) x.layer_2
  have b := scale_opt (g := layer3Enc) (f := fun x => Cdis.recordBits x.records) (w := fun (x : IffLayer3) => (x.data_records.map fun (r : IffDataRecord) => 6 + r.record_specific_fields.length).sum) (k := 59)
    (fun x => records_fit x.data_records) x.layer_3
  have c := scale_opt (g := layer4Enc) (f := fun x => 8 * x.mode_s_basic_data.idLength + Cdis.recordBits x.records)
    (w := fun x => x.mode_s_basic_data.idLength + (x.data_records.map fun r => 6 + r.record_specific_fields.length).sum) (k := 59)
    (fun x => by
      have h := records_fit x.data_records
      have e : (layer4Enc x).mode_s_basic_data.idLength = x.mode_s_basic_data.idLength := by
        unfold layer4Enc Cdis.ModeSBasicData.idLength ModeSBasicData.idLength modeSEnc
        cases x.mode_s_basic_data <;> rfl
      have r : (layer4Enc x).records = x.data_records.map iffRecEnc := rfl
      rw [e, r, Nat.mul_add]; omega) x.layer_4
  have d := scale_opt (g := layer5Enc) (f := fun x => Cdis.recordBits x.records) (w := fun (x : IffLayer5) => (x.data_records.map fun (r : IffDataRecord) => 6 + r.record_specific_fields.length).sum) (k := 59)
    (fun x => records_fit x.data_records) x.layer_5
  unfold Cdis.Iff.varBits Iff.weight
  simp only [iffEnc, Nat.mul_add] at *
  omega
theorem dedup_length {α : Type} [DecidableEq α] : ∀ l : List α, (dedup l).length ≤ l.length
  | [] => Nat.le_refl _
  | [_] => Nat.le_refl _
  | a :: b :: l => by
    have := dedup_length (b :: l)
    unfold dedup
    split <;> simp only [List.length_cons] at * <;> omega
theorem sortDedup_length {α : Type} [DecidableEq α] (key : α → List Int) (l : List α) : (sortDedup key l).length ≤ l.length := by
  unfold sortDedup
  exact Nat.le_trans (dedup_length _) (by rw [List.length_mergeSort])
theorem allBeams_length (x : ElectromagneticEmission) : (allBeams x).length = (x.emitter_systems.map fun s => s.beams.length).sum := by
  simp [allBeams, List.length_flatMap]
theorem allTracks_length (x : ElectromagneticEmission) (f : UInt8 × Beam → List Cdis.SiteAppPair) (hf : ∀ p, (f p).length = p.2.track_jam_data.length) :
    ((allBeams x).flatMap f).length = (x.emitter_systems.map fun s => (s.beams.map fun b => b.track_jam_data.length).sum).sum := by
  unfold allBeams
  induction x.emitter_systems with
  | nil => rfl
  | cons s l ih =>
    simp only [List.flatMap_cons, List.flatMap_append, List.length_append, ih, List.map_cons, List.sum_cons]
    congr 1
    simp [List.length_flatMap, List.map_map, Function.comp_def, hf]
/-- the same lists, summed differently -/
theorem emission_weight (l : List EmitterSystem) (full : Bool) (ps : List Cdis.FundamentalParameter) (bs : List Cdis.BeamData) (pairs : List Cdis.SiteAppPair) :
    156 * (l.map fun s => s.beams.length).sum + 36 * (l.map fun s => (s.beams.map fun b => b.track_jam_data.length).sum).sum
      + Cdis.systemBits (l.map (eeSystemEnc full ps bs pairs)) ≤
    59 * (l.map fun s => 8 + (s.beams.map fun b => 52 + (b.track_jam_data.map fun _ => 8).sum).sum).sum := by
  have hb : ∀ bl : List Beam, 156 * bl.length + 36 * (bl.map fun b => b.track_jam_data.length).sum
      + ((bl.map (eeBeamEnc full ps bs pairs)).map fun b => 86 + 42 * b.track_jam.length).sum ≤
      59 * (bl.map fun b => 52 + (b.track_jam_data.map fun _ => 8).sum).sum := by
    intro bl
    induction bl with
    | nil => exact Nat.le_refl _
    | cons b bl ih =>
      have ht : (eeBeamEnc full ps bs pairs b).track_jam.length ≤ b.track_jam_data.length := by
        simp only [eeBeamEnc]
        split
        · exact Nat.zero_le _
        · rw [List.length_map]
      simp only [List.map_cons, List.sum_cons, List.length_cons, sum_ones, Nat.mul_add] at *
      omega
  induction l with
  | nil => exact Nat.le_refl _
  | cons s l ih =>
    have := hb s.beams
    unfold Cdis.systemBits at *
    simp only [List.map_cons, List.sum_cons, Nat.mul_add, eeSystemEnc] at *
    omega
theorem emission_fits (o : Options) (now : Nat) (st : Option EeEncState) (x : ElectromagneticEmission) :
    let y := (eeEnc o now st x).1
    86 * y.fundamental_params.length + 70 * y.beam_data.length + 36 * y.site_app_pairs.length + Cdis.systemBits y.emitter_systems ≤
      59 * (Body.electromagneticEmission x).weight := by
  have hp : (pairsOf x).length ≤ (x.emitter_systems.map fun s => (s.beams.map fun b => b.track_jam_data.length).sum).sum := by
    rw [← allTracks_length x (fun p => p.2.track_jam_data.map fun t => pairEnc t.entity_id.simulation_address) (fun p => List.length_map _)]
    exact sortDedup_length _ _
  have hb := allBeams_length x
  have key : ∀ (full : Bool) (ps : List Cdis.FundamentalParameter) (bs : List Cdis.BeamData), ps.length ≤ (allBeams x).length → bs.length ≤ (allBeams x).length →
      86 * ps.length + 70 * bs.length + 36 * (pairsOf x).length + Cdis.systemBits (x.emitter_systems.map (eeSystemEnc full ps bs (pairsOf x))) ≤
      59 * (Body.electromagneticEmission x).weight := by
    intro full ps bs h1 h2
    have := emission_weight x.emitter_systems full ps bs (pairsOf x)
    unfold Body.weight
    dsimp only
    omega
  have kf := key true (paramsFull x) (beamsFull x)
    (Nat.le_trans (sortDedup_length _ _) (by rw [List.length_map]))
    (Nat.le_trans (sortDedup_length _ _) (by rw [List.length_map]))
  unfold eeEnc
  dsimp only
  split
  · exact kf
  · exact kf
  · rename_i s _
    split
    · exact kf
    · exact key false (paramsPartial s x) (beamsPartial s x)
        (Nat.le_trans (sortDedup_length _ _) (by rw [List.length_map]; exact List.length_filter_le _ _))
        (Nat.le_trans (sortDedup_length _ _) (by rw [List.length_map]; exact List.length_filter_le _ _))
theorem radio_fits (env : Codec.Env) (o : Options) (now : Nat) (st : Option Nat) (x : Transmitter) :
    let y := (txEnc env o now st x).1
    8 * y.modulation_parameters.length + Cdis.vtpBits y.variable_transmitter_parameters ≤ 59 * (Body.transmitter x).weight := by
  have hv := scale_sum (g := fun p : VariableTransmitterParameter => (⟨p.record_type.toNat, bytesEnc p.fields⟩ : Cdis.VTP))
    (f := fun p => 48 + 8 * p.fields.length) (w := fun p => 6 + p.fields.length) (k := 59)
    (fun p => by simp only [bytesEnc, List.length_map]; omega) x.variable_transmitter_parameters
  have hm : (bytesEnc (x.modulation_parameters.getD [])).length = x.modulation_parameters.elim 0 (fun (l : List UInt8) => l.length) := by
    unfold bytesEnc
    rw [List.length_map]
    cases x.modulation_parameters <;> rfl
  have e : ∀ y : Cdis.Transmitter, y.modulation_parameters = bytesEnc (x.modulation_parameters.getD []) →
      y.variable_transmitter_parameters = x.variable_transmitter_parameters.map (fun p => ⟨p.record_type.toNat, bytesEnc p.fields⟩) →
      8 * y.modulation_parameters.length + Cdis.vtpBits y.variable_transmitter_parameters ≤ 59 * (Body.transmitter x).weight := by
    intro y h1 h2
    rw [h1, h2, hm]
    unfold Cdis.vtpBits Body.weight
    dsimp only
    rw [Nat.mul_add]
    omega
  unfold txEnc
  dsimp only
  split
  · exact e _ rfl rfl
  · exact e _ rfl rfl
theorem truncate_fits (l : List Char) : ∀ n m, Cdis.utf8Truncate n l = some m → Cdis.utf8Len m ≤ n := by
  induction l with
  | nil => intro n m h; cases h; exact Nat.zero_le _
  | cons c l ih =>
    intro n m h
    unfold Cdis.utf8Truncate at h
    by_cases h0 : n = 0
    · rw [if_pos h0] at h; cases h; exact Nat.zero_le _
    · rw [if_neg h0] at h
      by_cases hc : c.utf8Size ≤ n
      · rw [if_pos hc] at h
        obtain ⟨k, hk, rfl⟩ := Option.map_eq_some_iff.1 h
        have := ih _ _ hk
        rw [utf8Len_octets] at *
        rw [textOctets_cons, List.length_append, String.length_utf8EncodeChar]
        omega
      · rw [if_neg hc] at h; cases h
theorem new_fits {l : List Char} {m : Cdis.Marking} (h : Cdis.Marking.new l = some m) : Cdis.utf8Len m.marking ≤ 11 := by
  unfold Cdis.Marking.new at h
  obtain ⟨k, hk, rfl⟩ := Option.map_eq_some_iff.1 h
  by_cases hc : Cdis.utf8Len l > 11
  · rw [if_pos hc] at hk; exact truncate_fits _ _ _ hk
  · rw [if_neg hc] at hk; cases hk; dsimp only; omega
theorem state_fits {env : Codec.Env} {o : Options} {now : Nat} {st : Option Nat} {x : EntityState} {r : Cdis.EntityState × StateResult}
    (h : esEnc env o now st x = some r) : r.1.MarkingFits ∧ r.1.variable_parameters.length = x.variable_parameters.length := by
  unfold esEnc at h
  dsimp only at h
  split at h
  · cases h
    exact ⟨fun m hm => (by cases hm), List.length_map _⟩
  · obtain ⟨m, hm, rfl⟩ := Option.map_eq_some_iff.1 h
    exact ⟨fun m' hm' => (by cases hm'; exact new_fits hm), List.length_map _⟩
/-- What the encoder makes of a body is at most 59 bits for every octet that the body was read from, and 641. -/
theorem body_fits {env : Codec.Env} {o : Options} {now : Nat} {s : EncState} {b : Body} {r : Cdis.CdisBody × StateResult × EncState}
    (h : bodyEnc env o now s b = some r) : (∀ x, r.1 = .entityState x → x.MarkingFits) ∧ r.1.atMost ≤ 641 + 59 * b.weight := by
  cases b with
  | entityState x =>
    simp only [bodyEnc, esEncodeBody] at h
    obtain ⟨q, hq, rfl⟩ := Option.map_eq_some_iff.1 h
    obtain ⟨h1, h2⟩ := state_fits hq
    refine ⟨fun y hy => (by cases hy; exact h1), ?_⟩
    simp only [Cdis.CdisBody.atMost, Body.weight, h2, sum_ones]
    omega
  | detonation x =>
    cases h
    refine ⟨fun y hy => (by cases hy), ?_⟩
    simp only [Cdis.CdisBody.atMost, Body.weight, detonationEnc, List.length_map, sum_ones]
    omega
  | electromagneticEmission x =>
    cases h
    refine ⟨fun y hy => (by cases hy), ?_⟩
    have := emission_fits o now (s.ee x.emitting_entity_id) x
    simp only [Cdis.CdisBody.atMost, eeEncodeBody] at *
    omega
  | transmitter x =>
    cases h
    refine ⟨fun y hy => (by cases hy), ?_⟩
    have := radio_fits env o now (s.transmitter (x.radio_reference_id, x.radio_number)) x
    simp only [Cdis.CdisBody.atMost, txEncodeBody] at *
    omega
  | iff x =>
    cases h
    refine ⟨fun y hy => (by cases hy), ?_⟩
    have := iff_fit o now (s.iff x.emitting_entity_id) x
    simp only [Cdis.CdisBody.atMost, iffEncodeBody, Body.weight] at *
    omega
  | signal x =>
    cases h
    refine ⟨fun y hy => (by cases hy), ?_⟩
    simp only [Cdis.CdisBody.atMost, Body.weight, signalEnc, bytesEnc, List.length_map]
    omega
  | dataQuery x =>
    cases h
    refine ⟨fun y hy => (by cases hy), ?_⟩
    simp only [Cdis.CdisBody.atMost, Body.weight, queryEnc, List.length_map, sum_ones]
    omega
  | actionRequest x =>
    cases h
    refine ⟨fun y hy => (by cases hy), ?_⟩
    have := datums_fit x.fixed_datum_records x.variable_datum_records
    simp only [Cdis.CdisBody.atMost, Body.weight, actionEnc]
    omega
  | actionResponse x =>
    cases h
    refine ⟨fun y hy => (by cases hy), ?_⟩
    have := datums_fit x.fixed_datum_records x.variable_datum_records
    simp only [Cdis.CdisBody.atMost, Body.weight, responseEnc]
    omega
  | setData x =>
    cases h
    refine ⟨fun y hy => (by cases hy), ?_⟩
    have := datums_fit x.fixed_datum_records x.variable_datum_records
    simp only [Cdis.CdisBody.atMost, Body.weight, setDataEnc]
    omega
  | data x =>
    cases h
    refine ⟨fun y hy => (by cases hy), ?_⟩
    have := datums_fit x.fixed_datum_records x.variable_datum_records
    simp only [Cdis.CdisBody.atMost, Body.weight, dataEnc]
    omega
  | eventReport x =>
    cases h
    refine ⟨fun y hy => (by cases hy), ?_⟩
    have := datums_fit x.fixed_datum_records x.variable_datum_records
    simp only [Cdis.CdisBody.atMost, Body.weight, eventEnc]
    omega
  | comment x =>
    cases h
    refine ⟨fun y hy => (by cases hy), ?_⟩
    have := datums_fit [] x.variable_datum_records
    simp only [Cdis.CdisBody.atMost, Body.weight, commentEnc]
    omega
  | _ =>
    cases h
    refine ⟨fun y hy => (by cases hy), ?_⟩
    simp only [Cdis.CdisBody.atMost, Body.weight, desEncodeBody]
    omega
theorem pdu_fits {env : Codec.Env} {o : Options} {now : Nat} {s : EncState} {p : Pdu} {r : Cdis.CdisPdu × StateResult × EncState}
    (h : pduEnc env o now s p = some r) : r.1.ser.length ≤ 59 * (12 + p.body.weight) ∧ r.1.lenBits ≤ 59 * (12 + p.body.weight) := by
  unfold pduEnc at h
  obtain ⟨q, hq, rfl⟩ := Option.map_eq_some_iff.1 h
  obtain ⟨h1, h2⟩ := body_fits hq
  obtain ⟨h3, h4⟩ := Cdis.CdisPdu.size (p := Cdis.CdisPdu.finalize (headerEnc p.header) q.1 none) h1
  have e : (Cdis.CdisPdu.finalize (headerEnc p.header) q.1 none).body = q.1 := rfl
  rw [e] at h3 h4
  dsimp only
  omega
/-- the octets that a list of PDUs was read from at least -/
def packetWeight (l : List Pdu) : Nat := (l.map fun p => 12 + p.body.weight).sum
theorem reads_weight {env : Dis.Env} {alnum : Char → Bool} (hs : Sanitizes alnum env) {bs r : Bytes} {ps : List Pdu} (h : Reads env bs ps r) :
    packetWeight ps ≤ bs.length := by
  induction h with
  | nil => exact Nat.zero_le _
  | @cons bs mid r p ps h _ ih =>
    unfold pdu at h
    obtain ⟨hd, m1, h1, h2⟩ := bind_ok h
    obtain ⟨b, m2, h3, h4⟩ := bind_ok h2
    cases h4
    have := PduHeader.parse_exact.spec _ _ _ h1
    obtain ⟨c, e, hw⟩ := eats_body hs hd _ _ _ h3
    rw [e, List.length_append] at this
    simp only [packetWeight, List.map_cons, List.sum_cons] at *
    omega
theorem stream_fits {env : Codec.Env} {o : Options} : ∀ (l : List (Nat × Pdu)) (s : EncState) (r : List Cdis.CdisPdu × EncState),
    encStream env o s l = some r → writtenBits r.1 ≤ 59 * packetWeight (l.map (·.2)) ∧ announcedBits r.1 ≤ 59 * packetWeight (l.map (·.2))
  | [], s, r, h => by cases h; exact ⟨Nat.zero_le _, Nat.zero_le _⟩
  | (now, p) :: l, s, r, h => by
    simp only [encStream] at h
    obtain ⟨a, ha, h⟩ := Option.bind_eq_some_iff.1 h
    obtain ⟨q, hq, rfl⟩ := Option.map_eq_some_iff.1 h
    have h1 := pdu_fits ha
    have h2 := stream_fits l _ _ hq
    unfold writtenBits announcedBits packetWeight at *
    simp only [List.flatMap_cons, List.length_append, List.map_cons, List.sum_cons] at *
    omega
theorem weight_sublist {a b : List Pdu} (h : List.Sublist a b) : packetWeight a ≤ packetWeight b := by
  unfold packetWeight
  induction h with
  | slnil => exact Nat.le_refl _
  | cons _ _ ih => simp only [List.map_cons, List.sum_cons]; omega
  | cons_cons _ _ ih => simp only [List.map_cons, List.sum_cons]; omega
/-! ## Which datagrams the gateway survives -/

theorem stamp_pdus (clock : Nat → Nat) (ps : List Pdu) : (stamp clock ps).map (·.2) = ps := by
  unfold stamp
  rw [List.map_map]
  exact List.zipIdx_map_fst 0 ps

/-- **C65.** What is put out for a datagram of at most 1500 octets fits the encoder's buffer of 89600 bits: the encoder panics while reading the
datagram or while encoding a PDU, or not at all. -/
theorem C65_buffer_suffices {env : Codec.Env} {alnum : Char → Bool} (hs : Sanitizes alnum env.toEnv) (o : Options) (clock : Nat → Nat) {e : Encoder}
    (he : e.buffer.length = 89600) {bs : Bytes} (hl : bs.length ≤ 1500) :
    (encodeBuffer env o clock e bs).2 = none ↔ Dis.parse env.toEnv bs = .panic ∨ ∃ ps, Dis.parse env.toEnv bs = .ok ps ∧
      encStream env o e.state ((stamp clock ps).filter fun x => decide (Carried x.2.header.pdu_type.toNat)) = none := by
  rw [C42_panic_iff]
  refine or_congr Iff.rfl (exists_congr fun ps => and_congr_right fun hp => ?_)
  cases hc : encStream env o e.state ((stamp clock ps).filter fun x => decide (Carried x.2.header.pdu_type.toNat)) with
  | none => simp
  | some r =>
    obtain ⟨h1, h2⟩ := stream_fits _ _ _ hc
    have h3 : packetWeight (((stamp clock ps).filter fun x => decide (Carried x.2.header.pdu_type.toNat)).map (·.2)) ≤ packetWeight ps := by
      refine weight_sublist ?_
      have := (List.filter_sublist (l := stamp clock ps) (p := fun x => decide (Carried x.2.header.pdu_type.toNat))).map (·.2)
      rwa [stamp_pdus] at this
    have h4 : packetWeight ps ≤ bs.length := by
      unfold Dis.parse at hp
      cases e : (parsePackets env.toEnv).run bs with
      | ok qs r => rw [e] at hp; cases hp; exact reads_weight hs ((parsePackets_iff env.toEnv bs ps r).1 e).1
      | err => rw [e] at hp; cases hp
      | panic => rw [e] at hp; cases hp
    obtain ⟨cs, s'⟩ := r
    dsimp only at h1 h2 ⊢
    unfold octets
    rw [he]
    constructor
    · intro h; exfalso; omega
    · intro h; cases h

theorem encStream_none_cut (env : Codec.Env) (o : Options) : ∀ (l : List (Nat × Pdu)) (s : EncState), (∀ x ∈ l, HasText x.2) →
    encStream env o s l = none → ∃ x ∈ l, CutMarking x.2
  | [], s, _, h => by cases h
  | (now, p) :: rest, s, ht, h => by
    simp only [encStream] at h
    cases hp : pduEnc env o now s p with
    | none => exact ⟨_, List.mem_cons_self, ((C65_encode_panics_iff env o now s (ht (now, p) (by simp))).1 hp).1⟩
    | some r =>
      rw [hp] at h
      obtain ⟨x, hx, hc⟩ := encStream_none_cut env o rest r.2.2 (fun x hx => ht x (by simp [hx])) (by simpa using h)
      exact ⟨x, by simp [hx], hc⟩

/-- **C65.** In any mode, only such a datagram makes the encoder panic. -/
theorem C65_only_fatal {env : Codec.Env} {alnum : Char → Bool} (hs : Sanitizes alnum env.toEnv) {o : Options} {clock : Nat → Nat} {e : Encoder}
    (he : e.buffer.length = 89600) {bs : Bytes} (hl : bs.length ≤ 1500) (h : (encodeBuffer env o clock e bs).2 = none) : Fatal env.toEnv bs := by
  refine ((C65_buffer_suffices hs o clock he hl).1 h).imp id fun ⟨ps, hp, hn⟩ => ⟨ps, hp, ?_⟩
  obtain ⟨x, hx, hc⟩ := encStream_none_cut env o _ _ (fun y hy => by
    have hy := (List.mem_filter.1 hy).1
    unfold stamp at hy
    obtain ⟨z, hz, rfl⟩ := List.mem_map.1 hy
    obtain ⟨b, m, hr⟩ := parsed_each hp _ (List.fst_mem_of_mem_zipIdx hz)
    exact read_text hs hr) hn
  have hm : x.2 ∈ (stamp clock ps).map (·.2) := List.mem_map_of_mem (List.mem_filter.1 hx).1
  rw [stamp_pdus] at hm
  exact ⟨x.2, hm, hc⟩

theorem fatal_panics {env : Codec.Env} {alnum : Char → Bool} (hs : Sanitizes alnum env.toEnv) {o : Options} (hm : o.update_mode = .full)
    {bs : Bytes} (h : Fatal env.toEnv bs) (clock : Nat → Nat) (e : Encoder) : (encodeBuffer env o clock e bs).2 = none := by
  rcases h with h | ⟨ps, h1, h2⟩
  · exact C42_panic_iff.2 (.inl h)
  · exact C65_datagram_panics hs hm clock e h1 h2

/-- **C65.** In full-update mode, the datagrams that make the gateway's encoder panic are exactly these. -/
theorem C65_panics_iff {env : Codec.Env} {alnum : Char → Bool} (hs : Sanitizes alnum env.toEnv) {o : Options} (hm : o.update_mode = .full)
    (clock : Nat → Nat) {e : Encoder} (he : e.buffer.length = 89600) {bs : Bytes} (hl : bs.length ≤ 1500) :
    (encodeBuffer env o clock e bs).2 = none ↔ Fatal env.toEnv bs :=
  ⟨C65_only_fatal hs he hl, fun h => fatal_panics hs hm h clock e⟩

theorem writing_keeps {e e' : Encoder} {ps : List Cdis.CdisPdu} {out : Bytes} {es : List Event} (h : encWriting e ps = (es, some (out, e'))) :
    e'.buffer.length = e.buffer.length := by
  unfold encWriting at h
  cases hb : storeAll e.buffer 0 ps with
  | none => rw [hb] at h; cases h
  | some buf =>
    rw [hb] at h
    dsimp only at h
    split at h
    · cases h
      obtain ⟨h1, h2⟩ := storeAll_eq hb (Nat.zero_le _)
      dsimp only
      rw [h2]
      simp only [List.length_append, List.length_take, List.length_drop]
      omega
    · cases h
/-- The encoder's buffer keeps its size. -/
theorem encode_keeps {env : Codec.Env} {o : Options} {clock : Nat → Nat} {e e' : Encoder} {bs out : Bytes} {es : List Event}
    (h : encodeBuffer env o clock e bs = (es, some (out, e'))) : e'.buffer.length = e.buffer.length := by
  unfold encodeBuffer at h
  cases hp : Dis.parse env.toEnv bs with
  | panic => rw [hp] at h; cases h
  | error =>
    rw [hp] at h
    cases hw : encWriting e [] with
    | mk a b =>
      rw [hw] at h
      dsimp only at h
      have hb : b = some (out, e') := congrArg Prod.snd h
      rw [hb] at hw
      exact writing_keeps hw
  | ok ps =>
    rw [hp] at h
    dsimp only at h
    cases hq : (encodePdus env o e.state (stamp clock ps)).2 with
    | none => rw [hq] at h; cases h
    | some q =>
      rw [hq] at h
      dsimp only at h
      cases hw : encWriting { e with state := q.2 } q.1 with
      | mk a b =>
        rw [hw] at h
        have hb : b = some (out, e') := congrArg Prod.snd h
        rw [hb] at hw
        exact (writing_keeps hw :)

/-- **C65.** An encoder survives any datagrams, none of them such a one, in any mode and at whatever times it handles them. -/
theorem C65_survives {env : Codec.Env} {alnum : Char → Bool} (hs : Sanitizes alnum env.toEnv) (o : Options) {received : List Bytes}
    (hr : ∀ b ∈ received, b.length ≤ 1500 ∧ ¬ Fatal env.toEnv b) : Survives (encMachine env o) {} received := by
  have key : ∀ (l : List ((Nat → Nat) × Bytes)) (e : Encoder), e.buffer.length = 89600 → (∀ x ∈ l, x.2.length ≤ 1500 ∧ ¬ Fatal env.toEnv x.2) →
      stateAfter (encMachine env o) e l ≠ none := by
    intro l
    induction l with
    | nil => intro e _ _ h; cases h
    | cons x l ih =>
      intro e he hx
      obtain ⟨c, b⟩ := x
      obtain ⟨h1, h2⟩ := hx (c, b) (by simp)
      simp only [stateAfter]
      cases hb : encMachine env o c e b with
      | mk es r =>
        cases r with
        | none => exact absurd (C65_only_fatal hs he h1 (o := o) (clock := c) (by unfold encMachine at hb; rw [hb])) h2
        | some r => exact ih r.2 (by rw [encode_keeps (show encodeBuffer env o c e b = (es, some (r.1, r.2)) from hb), he]) fun x hx' => hx x (by simp [hx'])
  intro packets hp
  refine key packets {} List.length_replicate fun x hx => hr x.2 ?_
  obtain ⟨t, ht⟩ := hp
  rw [← ht]
  exact List.mem_append_left _ (List.mem_map_of_mem hx)

theorem received_short {σ τ : Type} {me : Machine σ} {md : Machine τ} {s : σ} {t : τ} {g : System σ τ} (h : System.Reach me md (System.start s t) g) :
    ∀ b ∈ g.enc.received, b.length ≤ 1500 := by
  induction h with
  | here => intro b hb; cases hb
  | step _ hs ih =>
    cases hs with
    | encoder _ _ f l q _ hl _ =>
      intro b hb
      cases hl with
      | arrive =>
        rcases List.mem_append.1 hb with hb | hb
        · exact ih b hb
        · rw [List.mem_singleton.1 hb, List.length_take]; exact Nat.min_le_left _ _
      | _ => exact ih b hb
    | _ => exact ih

/-- **C65.** As long as no socket fails, no Quit command is given and the event channel is kept up with, a gateway that has received no such
datagram is up and running, whatever else it has received from either side. -/
theorem C65_stays_up {env : Codec.Env} {alnum : Char → Bool} (hs : Sanitizes alnum env.toEnv) {o o' : Options} {grow : Nat → Nat} {t : DecState}
    {g : System Encoder DecState} (h : KeepsUp (encMachine env o) (decMachine env o' grow) (System.start {} t) g)
    (hr : ∀ b ∈ g.enc.received, ¬ Fatal env.toEnv b) : g.ended = false ∧ Alive g.enc ∧ Alive g.dec :=
  C46_keeps_up (C65_survives hs o fun b hb => ⟨received_short h.smooth.reach b hb, hr b hb⟩) ((C46_decoder_safe env o' grow t).survives _) h

/-- **C65.** In full-update mode, a gateway that has received such a datagram ends when left to its work. -/
theorem C65_fatal_ends {env : Codec.Env} {alnum : Char → Bool} (hs : Sanitizes alnum env.toEnv) {o o' : Options} (hm : o.update_mode = .full)
    {grow : Nat → Nat} {t : DecState} {b : Bytes} (hf : Fatal env.toEnv b) {g g1 : System Encoder DecState}
    (h : System.Reach (encMachine env o) (decMachine env o' grow) (System.start {} t) g) (hl : g.listening = true) (ha : Alive g.enc) (hd : Alive g.dec)
    (hr : b ∈ g.enc.received) (h1 : Works (encMachine env o) (decMachine env o' grow) g g1) :
    ∃ g2, Works (encMachine env o) (decMachine env o' grow) g1 g2 ∧ (∀ g3, ¬ System.Step (encMachine env o) (decMachine env o' grow) .work g2 g3) ∧
      g2.ended = true :=
  C65_ends (fun c s => fatal_panics hs hm hf c s) h hl ha hd hr h1

/-- Both kinds of datagram exist: "TRES AMIGÓS" in ISO 8859-1 as a marking, a short Signal PDU; twenty Acknowledge PDUs. -/
example : Fatal latinEnv amigos ∧ Fatal latinEnv signalBomb ∧ ¬ Fatal latinEnv ((List.replicate 20 gwAck).flatMap Dis.Pdu.ser) := by
  refine ⟨.inr ?_, .inl (C18_signal_panics _), ?_⟩
  · obtain ⟨p, h1, h2⟩ := C65_violated.2.2.1
    exact ⟨[p], h1, p, by simp, h2⟩
  · have hps : Dis.parse latinEnv ((List.replicate 20 gwAck).flatMap Dis.Pdu.ser) = .ok (List.replicate 20 gwAck) := by
      have := C17_packet_round_trip latinEnv (ps := List.replicate 20 gwAck) (by
        intro p hp; rw [(List.mem_replicate.1 hp).2]; exact gwAck_wf _) (by simp) [] (by simp)
      simpa using this
    rintro (h | ⟨ps, h, p, hp, x, l, hx, -⟩)
    · rw [hps] at h; cases h
    · rw [hps] at h; cases h
      rw [(List.mem_replicate.1 hp).2] at hx
      cases hx

end Verif.Props
