import Verif.Dis.Weights2
import Verif.Cdis.Sizes2
import Verif.Props.GatewaySizes
import Verif.Props.CodecEmission
import Verif.Core.Krfl

/-! # Compression: what C-DIS makes of a PDU is no longer than the PDU

C67: the bits of an encoded PDU, as written and as announced, against the octets that the PDU was read from; and the datagrams that the
gateway puts out against those that it was given. -/

namespace Verif.Props
open Verif Verif.Dis Verif.Codec Verif.Gateway

/-! ## Specification -/

/-- An Electromagnetic Emission body refers to at most 36 simulation addresses in its tracks (C-DIS can number 31). -/
def FewPlatforms (x : ElectromagneticEmission) : Prop :=
  ∃ l : List SimulationAddress, l.length ≤ 36 ∧ ∀ s ∈ x.emitter_systems, ∀ b ∈ s.beams, ∀ t ∈ b.track_jam_data, t.entity_id.simulation_address ∈ l
/-- An IFF body has no layers 3 and 4, or the system type says what their basic data are and the aircraft identification has at most 21 octets
once read (it has at most 8 if it is ASCII, and at most 24). -/
def KnownLayers (env : Dis.Env) (x : Iff) : Prop :=
  (x.layer_3 = none ∧ x.layer_4 = none) ∨
    (env.iffClass x.system_id.system_type ≠ .undetermined ∧ ∀ y, x.layer_4 = some y → y.mode_s_basic_data.idLength ≤ 21)
/-- The PDUs that the compression works for: those of every kind but two, and most of these two. -/
def Compressible (env : Dis.Env) (p : Pdu) : Prop :=
  match p.body with
  | .electromagneticEmission x => FewPlatforms x
  | .iff x => KnownLayers env x
  | _ => True

/-! ## Sorted lists without duplicates -/

theorem lexLe_total : ∀ a b : List Int, (lexLe a b || lexLe b a) = true
  | [], _ => rfl
  | _ :: _, [] => rfl
  | a :: as, b :: bs => by
    have := lexLe_total as bs
    simp only [lexLe, Bool.or_eq_true, Bool.and_eq_true, decide_eq_true_eq] at *
    rcases Int.lt_trichotomy a b with h | h | h
    · exact .inl (.inl h)
    · subst h; rcases this with h | h
      · exact .inl (.inr ⟨rfl, h⟩)
      · exact .inr (.inr ⟨rfl, h⟩)
    · exact .inr (.inl h)
theorem lexLe_trans : ∀ a b c : List Int, lexLe a b = true → lexLe b c = true → lexLe a c = true
  | [], _, _, _, _ => rfl
  | _ :: _, [], _, h, _ => by cases h
  | _ :: _, _ :: _, [], _, h => by cases h
  | a :: as, b :: bs, c :: cs, h, k => by
    simp only [lexLe, Bool.or_eq_true, Bool.and_eq_true, decide_eq_true_eq] at *
    rcases h with h | ⟨rfl, h⟩ <;> rcases k with k | ⟨rfl, k⟩
    · exact .inl (by omega)
    · exact .inl h
    · exact .inl k
    · exact .inr ⟨rfl, lexLe_trans as bs cs h k⟩
theorem lexLe_antisymm : ∀ a b : List Int, lexLe a b = true → lexLe b a = true → a = b
  | [], [], _, _ => rfl
  | [], _ :: _, _, h => by cases h
  | _ :: _, [], h, _ => by cases h
  | a :: as, b :: bs, h, k => by
    simp only [lexLe, Bool.or_eq_true, Bool.and_eq_true, decide_eq_true_eq] at *
    rcases h with h | ⟨rfl, h⟩ <;> rcases k with k | ⟨e, k⟩
    · omega
    · omega
    · omega
    · rw [lexLe_antisymm as bs h k]
theorem mem_dedup' {α : Type} [DecidableEq α] {a : α} : ∀ {l : List α}, a ∈ dedup l → a ∈ l
  | [], h => h
  | [_], h => h
  | x :: y :: l, h => by
    unfold dedup at h
    split at h
    · exact List.mem_cons_of_mem _ (mem_dedup' h)
    · rcases List.mem_cons.1 h with h | h
      · exact h ▸ List.mem_cons_self
      · exact List.mem_cons_of_mem _ (mem_dedup' h)
/-- what is sorted has no duplicates left -/
theorem dedup_nodup {α : Type} [DecidableEq α] {key : α → List Int} (hk : ∀ a b, key a = key b → a = b) : ∀ {l : List α},
    l.Pairwise (fun a b => lexLe (key a) (key b) = true) → (dedup l).Nodup
  | [], _ => List.nodup_nil
  | [a], _ => by simp [dedup]
  | a :: b :: l, h => by
    unfold dedup
    obtain ⟨h1, h2⟩ := List.pairwise_cons.1 h
    have ih := dedup_nodup hk h2
    split
    · exact ih
    · rename_i hne
      refine List.nodup_cons.2 ⟨fun hm => hne ?_, ih⟩
      rcases List.mem_cons.1 (mem_dedup' hm) with e | e
      · exact e
      · exact hk _ _ (lexLe_antisymm _ _ (h1 b List.mem_cons_self) ((List.pairwise_cons.1 h2).1 a e))
theorem sortDedup_nodup {α : Type} [DecidableEq α] {key : α → List Int} (hk : ∀ a b, key a = key b → a = b) (l : List α) : (sortDedup key l).Nodup :=
  dedup_nodup hk (List.pairwise_mergeSort (fun a b c => lexLe_trans (key a) (key b) (key c)) (fun a b => lexLe_total (key a) (key b)) l)
theorem pair_key (a b : Cdis.SiteAppPair) (h : Codec.SiteAppPair.key a = Codec.SiteAppPair.key b) : a = b := by
  cases a; cases b
  simp only [Codec.SiteAppPair.key, List.cons.injEq, Int.natCast_inj, and_true] at h
  rw [h.1, h.2]
/-- each address is listed once -/
theorem pairs_few {x : ElectromagneticEmission} {l : List SimulationAddress}
    (h : ∀ s ∈ x.emitter_systems, ∀ b ∈ s.beams, ∀ t ∈ b.track_jam_data, t.entity_id.simulation_address ∈ l) : (pairsOf x).length ≤ l.length := by
  have hn : (pairsOf x).Nodup := sortDedup_nodup pair_key _
  rw [← List.length_map (f := pairEnc) (as := l)]
  refine (List.subperm_of_subset hn fun a ha => ?_).length_le
  obtain ⟨p, hp, ha⟩ := List.mem_flatMap.1 (mem_sortDedup.1 ha)
  obtain ⟨t, ht, rfl⟩ := List.mem_map.1 ha
  unfold allBeams at hp
  obtain ⟨s, hs, hp⟩ := List.mem_flatMap.1 hp
  obtain ⟨b, hb, rfl⟩ := List.mem_map.1 hp
  exact List.mem_map_of_mem (h s hs b hb t ht)

/-! ## Sizes -/

theorem datums_close (f : List FixedDatum) (v : List VariableDatum) :
    64 * (datumsEnc f v).fixed.length + ((datumsEnc f v).var.map fun d => 46 + 8 * d.datum_value.length).sum ≤ 8 * datumWeight f v := by
  have h := scale_sum (g := vdEnc) (f := fun d => 46 + 8 * d.datum_value.length) (w := fun x => 8 + x.datum_value.length) (k := 8)
    (fun x => by simp only [vdEnc, bytesEnc, List.length_map]; omega) v
  unfold datumsEnc datumWeight
  rw [sum_ones]
  simp only [List.length_map] at *
  omega
theorem records_close (l : List IffDataRecord) : Cdis.recordBits (l.map iffRecEnc) ≤ 8 * (l.map fun r => 6 + r.record_specific_fields.length).sum :=
  scale_sum (fun x => by simp only [iffRecEnc, bytesEnc, List.length_map]; omega) l
theorem iff_close {env : Dis.Env} {x : Iff} (hx : KnownLayers env x) (o : Options) (now : Nat) (st : Option Nat) :
    (iffEnc o now st x).1.layerBits ≤ 73 + 8 * (x.octets env - 48) := by
  have a := scale_opt (g := layer2Enc) (f := fun x => 121 + 86 * x.params.length) (w := fun x => 28 + (x.iff_fundamental_parameters.map fun _ => 24).sum) (k := 8)
    (fun x => by simp only [layer2Enc, List.length_map, sum_ones]; omega) x.layer_2
  have d := scale_opt (g := layer5Enc) (f := fun x => 77 + Cdis.recordBits x.records) (w := fun (x : IffLayer5) => 16 + (x.data_records.map fun (r : IffDataRecord) => 6 + r.record_specific_fields.length).sum) (k := 8)
    (fun x => by
      have := records_close x.data_records
      have r : (layer5Enc x).records = x.data_records.map iffRecEnc := rfl
      rw [r]; omega) x.layer_5
  have h2 : (iffEnc o now st x).1.layer_2 = x.layer_2.map layer2Enc := rfl
  have h3 : (iffEnc o now st x).1.layer_3 = x.layer_3.map layer3Enc := rfl
  have h4 : (iffEnc o now st x).1.layer_4 = x.layer_4.map layer4Enc := rfl
  have h5 : (iffEnc o now st x).1.layer_5 = x.layer_5.map layer5Enc := rfl
  unfold Cdis.Iff.layerBits Iff.octets
  rw [h2, h3, h4, h5]
  rcases hx with ⟨e3, e4⟩ | ⟨hk, hid⟩
  · rw [e3, e4]
    simp only [Option.map_none, Cdis.lOpt, Option.elim_none] at *
    omega
  · generalize hkk : env.iffClass x.system_id.system_type = k at *
    have m5 : mode5Octets k = 16 := by cases k <;> first | rfl | exact absurd rfl hk
    have mS : 21 ≤ modeSOctets k := by cases k <;> first | decide | exact absurd rfl hk
    have b := scale_opt (g := layer3Enc) (f := fun x => 180 + Cdis.recordBits x.records)
      (w := fun (x : IffLayer3) => 12 + mode5Octets k + (x.data_records.map fun (r : IffDataRecord) => 6 + r.record_specific_fields.length).sum) (k := 8)
      (fun x => by
        have := records_close x.data_records
        have r : (layer3Enc x).records = x.data_records.map iffRecEnc := rfl
        rw [r]; omega) x.layer_3
    have c : Cdis.lOpt (fun x => 166 + 8 * x.mode_s_basic_data.idLength + Cdis.recordBits x.records) (x.layer_4.map layer4Enc) ≤
        70 + 8 * x.layer_4.elim 0 (fun y => 12 + modeSOctets k + (y.data_records.map fun r => 6 + r.record_specific_fields.length).sum) := by
      cases h : x.layer_4 with
      | none => exact Nat.zero_le _
      | some y =>
        have := hid y h
        have hr := records_close y.data_records
        have e : (layer4Enc y).mode_s_basic_data.idLength = y.mode_s_basic_data.idLength := by
          unfold layer4Enc Cdis.ModeSBasicData.idLength ModeSBasicData.idLength modeSEnc
          cases y.mode_s_basic_data <;> rfl
        have r : (layer4Enc y).records = y.data_records.map iffRecEnc := rfl
        simp only [Option.map_some, Cdis.lOpt, Option.elim_some]
        rw [e, r]; omega
    omega
/-- beams of at most fifteen tracks and the other beams, summed over all systems -/
theorem emission_sums (l : List EmitterSystem) (full : Bool) (ps : List Cdis.FundamentalParameter) (bs : List Cdis.BeamData) (pairs : List Cdis.SiteAppPair) :
    ∃ S B T U : Nat, (B = 0 ∨ 1 ≤ S) ∧ T ≤ 15 * B ∧ (U = 0 ∨ 1 ≤ B) ∧ B = (l.map fun s => s.beams.length).sum ∧
      (l.map fun s => (s.beams.map fun b => b.track_jam_data.length).sum).sum = T + U ∧
      Cdis.systemBits (l.map (eeSystemEnc full ps bs pairs)) = 94 * S + 86 * B + 42 * T ∧
      (l.map fun s => 20 + (s.beams.map fun b => 52 + (b.track_jam_data.map fun _ => 8).sum).sum).sum = 20 * S + 52 * B + 8 * (T + U) := by
  have hb : ∀ bl : List Beam, ∃ T U : Nat, T ≤ 15 * bl.length ∧ (U = 0 ∨ 1 ≤ bl.length) ∧ (bl.map fun b => b.track_jam_data.length).sum = T + U ∧
      ((bl.map (eeBeamEnc full ps bs pairs)).map fun b => 86 + 42 * b.track_jam.length).sum = 86 * bl.length + 42 * T ∧
      (bl.map fun b => 52 + (b.track_jam_data.map fun _ => 8).sum).sum = 52 * bl.length + 8 * (T + U) := by
    intro bl
    induction bl with
    | nil => exact ⟨0, 0, by simp⟩
    | cons b bl ih =>
      obtain ⟨T, U, h1, h2, h3, h4, h5⟩ := ih
      by_cases h15 : 15 < b.track_jam_data.length
      · refine ⟨T, U + b.track_jam_data.length, by rw [List.length_cons]; omega, .inr (by rw [List.length_cons]; omega), ?_⟩
        have e : (eeBeamEnc full ps bs pairs b).track_jam.length = 0 := by simp [eeBeamEnc, h15]
        simp only [List.map_cons, List.sum_cons, List.length_cons, sum_ones, e, h3] at *
        omega
      · refine ⟨T + b.track_jam_data.length, U, by rw [List.length_cons]; omega, .inr (by rw [List.length_cons]; omega), ?_⟩
        have e : (eeBeamEnc full ps bs pairs b).track_jam.length = b.track_jam_data.length := by simp [eeBeamEnc, h15]
        simp only [List.map_cons, List.sum_cons, List.length_cons, sum_ones, e, h3] at *
        omega
  induction l with
  | nil => exact ⟨0, 0, 0, 0, by simp⟩
  | cons s l ih =>
    obtain ⟨S, B, T, U, h1, h2, h3, h4, h5, h6, h7⟩ := ih
    obtain ⟨T', U', k1, k2, k3, k4, k5⟩ := hb s.beams
    refine ⟨S + 1, B + s.beams.length, T + T', U + U', .inr (by omega), by omega, by omega, ?_⟩
    unfold Cdis.systemBits at *
    simp only [List.map_cons, List.sum_cons, eeSystemEnc] at *
    omega
theorem emission_close {x : ElectromagneticEmission} (hx : FewPlatforms x) (o : Options) (now : Nat) (st : Option EeEncState) :
    let y := (eeEnc o now st x).1
    135 + 86 * y.fundamental_params.length + 70 * y.beam_data.length + 36 * y.site_app_pairs.length + Cdis.systemBits y.emitter_systems ≤
      29 + 8 * (16 + (x.emitter_systems.map fun s => 20 + (s.beams.map fun b => 52 + (b.track_jam_data.map fun _ => 8).sum).sum).sum) := by
  obtain ⟨l, hl, hm⟩ := hx
  have hq := pairs_few hm
  have hp : (pairsOf x).length ≤ (x.emitter_systems.map fun s => (s.beams.map fun b => b.track_jam_data.length).sum).sum := by
    rw [← allTracks_length x (fun p => p.2.track_jam_data.map fun t => pairEnc t.entity_id.simulation_address) (fun p => List.length_map _)]
    exact sortDedup_length _ _
  have hb := allBeams_length x
  have key : ∀ (full : Bool) (ps : List Cdis.FundamentalParameter) (bs : List Cdis.BeamData), ps.length ≤ (allBeams x).length → bs.length ≤ (allBeams x).length →
      135 + 86 * ps.length + 70 * bs.length + 36 * (pairsOf x).length + Cdis.systemBits (x.emitter_systems.map (eeSystemEnc full ps bs (pairsOf x))) ≤
      29 + 8 * (16 + (x.emitter_systems.map fun s => 20 + (s.beams.map fun b => 52 + (b.track_jam_data.map fun _ => 8).sum).sum).sum) := by
    intro full ps bs h1 h2
    obtain ⟨S, B, T, U, k1, k2, k3, k4, k5, k6, k7⟩ := emission_sums x.emitter_systems full ps bs (pairsOf x)
    rw [k6, k7]
    rw [hb, ← k4] at h1 h2
    rw [k5] at hp
    omega
  have kf := key true (paramsFull x) (beamsFull x)
    (Nat.le_trans (sortDedup_length _ _) (by rw [List.length_map]))
    (Nat.le_trans (sortDedup_length _ _) (by rw [List.length_map]))
  unfold eeEnc
  dsimp only
  split
  · exact kf
  · exact kf
  · rename_i s _
    split
    · exact kf
    · exact key false (paramsPartial s x) (beamsPartial s x)
        (Nat.le_trans (sortDedup_length _ _) (by rw [List.length_map]; exact List.length_filter_le _ _))
        (Nat.le_trans (sortDedup_length _ _) (by rw [List.length_map]; exact List.length_filter_le _ _))
theorem radio_close (env : Codec.Env) (o : Options) (now : Nat) (st : Option Nat) (x : Transmitter) :
    let y := (txEnc env o now st x).1
    8 * y.modulation_parameters.length + Cdis.vtpBits y.variable_transmitter_parameters ≤
      8 * (x.modulation_parameters.elim 0 (fun (l : List UInt8) => l.length) + (x.variable_transmitter_parameters.map fun p => 6 + p.fields.length).sum) := by
  have hv := scale_sum (g := fun p : VariableTransmitterParameter => (⟨p.record_type.toNat, bytesEnc p.fields⟩ : Cdis.VTP))
    (f := fun p => 48 + 8 * p.fields.length) (w := fun p => 6 + p.fields.length) (k := 8)
    (fun p => by simp only [bytesEnc, List.length_map]; omega) x.variable_transmitter_parameters
  have hm : (bytesEnc (x.modulation_parameters.getD [])).length = x.modulation_parameters.elim 0 (fun (l : List UInt8) => l.length) := by
    unfold bytesEnc
    rw [List.length_map]
    cases x.modulation_parameters <;> rfl
  have e : ∀ y : Cdis.Transmitter, y.modulation_parameters = bytesEnc (x.modulation_parameters.getD []) →
      y.variable_transmitter_parameters = x.variable_transmitter_parameters.map (fun p => ⟨p.record_type.toNat, bytesEnc p.fields⟩) →
      8 * y.modulation_parameters.length + Cdis.vtpBits y.variable_transmitter_parameters ≤
        8 * (x.modulation_parameters.elim 0 (fun (l : List UInt8) => l.length) + (x.variable_transmitter_parameters.map fun p => 6 + p.fields.length).sum) := by
    intro y h1 h2
    rw [h1, h2, hm]
    unfold Cdis.vtpBits
    rw [Nat.mul_add]
    omega
  unfold txEnc
  dsimp only
  split
  · exact e _ rfl rfl
  · exact e _ rfl rfl
/-- What the encoder makes of a body, in bits. -/
theorem body_close {env : Codec.Env} {o : Options} {now : Nat} {s : EncState} {p : Pdu} {r : Cdis.CdisBody × StateResult × EncState}
    (hp : Compressible env.toEnv p) (h : bodyEnc env o now s p.body = some r) : r.1.close ≤ 29 + 8 * p.body.octets env.toEnv := by
  unfold Compressible at hp
  generalize p.body = b at *
  cases b with
  | entityState x =>
    simp only [bodyEnc, esEncodeBody] at h
    obtain ⟨q, hq, rfl⟩ := Option.map_eq_some_iff.1 h
    obtain ⟨h1, h2⟩ := state_fits hq
    simp only [Cdis.CdisBody.close, Body.octets, h2, sum_ones]
    omega
  | detonation x =>
    cases h
    simp only [Cdis.CdisBody.close, Cdis.CdisBody.atMost, Body.octets, detonationEnc, List.length_map, sum_ones]
    omega
  | electromagneticEmission x =>
    cases h
    exact emission_close hp o now (s.ee x.emitting_entity_id)
  | transmitter x =>
    cases h
    have := radio_close env o now (s.transmitter (x.radio_reference_id, x.radio_number)) x
    simp only [Cdis.CdisBody.close, Cdis.CdisBody.atMost, txEncodeBody, Body.octets] at *
    omega
  | iff x =>
    cases h
    have := iff_close hp o now (s.iff x.emitting_entity_id)
    have h48 : 48 ≤ x.octets env.toEnv := by unfold Iff.octets; omega
    simp only [Cdis.CdisBody.close, iffEncodeBody, Body.octets] at *
    omega
  | signal x =>
    cases h
    simp only [Cdis.CdisBody.close, Body.octets, signalEnc, bytesEnc, List.length_map]
    omega
  | dataQuery x =>
    cases h
    simp only [Cdis.CdisBody.close, Cdis.CdisBody.atMost, Body.octets, queryEnc, List.length_map, sum_ones]
    omega
  | actionRequest x =>
    cases h
    have := datums_close x.fixed_datum_records x.variable_datum_records
    simp only [Cdis.CdisBody.close, Cdis.CdisBody.atMost, Body.octets, actionEnc]
    omega
  | actionResponse x =>
    cases h
    have := datums_close x.fixed_datum_records x.variable_datum_records
    simp only [Cdis.CdisBody.close, Cdis.CdisBody.atMost, Body.octets, responseEnc]
    omega
  | setData x =>
    cases h
    have := datums_close x.fixed_datum_records x.variable_datum_records
    simp only [Cdis.CdisBody.close, Cdis.CdisBody.atMost, Body.octets, setDataEnc]
    omega
  | data x =>
    cases h
    have := datums_close x.fixed_datum_records x.variable_datum_records
    simp only [Cdis.CdisBody.close, Cdis.CdisBody.atMost, Body.octets, dataEnc]
    omega
  | eventReport x =>
    cases h
    have := datums_close x.fixed_datum_records x.variable_datum_records
    simp only [Cdis.CdisBody.close, Cdis.CdisBody.atMost, Body.octets, eventEnc]
    omega
  | comment x =>
    cases h
    have := datums_close [] x.variable_datum_records
    simp only [Cdis.CdisBody.close, Body.octets, commentEnc]
    omega
  | _ =>
    cases h
    simp only [Cdis.CdisBody.close, Cdis.CdisBody.atMost, Body.octets, desEncodeBody]
    omega
theorem pdu_close {env : Codec.Env} {o : Options} {now : Nat} {s : EncState} {p : Pdu} {r : Cdis.CdisPdu × StateResult × EncState}
    (hp : Compressible env.toEnv p) (h : pduEnc env o now s p = some r) : Cdis.AtMost r.1.ser.length r.1.lenBits (8 * (12 + p.body.octets env.toEnv)) := by
  unfold pduEnc at h
  obtain ⟨q, hq, rfl⟩ := Option.map_eq_some_iff.1 h
  have h1 := (body_fits hq).1
  have h2 := body_close hp hq
  obtain ⟨h3, h4⟩ := Cdis.CdisPdu.close_size (p := Cdis.CdisPdu.finalize (headerEnc p.header) q.1 none) h1
  have e : (Cdis.CdisPdu.finalize (headerEnc p.header) q.1 none).body = q.1 := rfl
  rw [e] at h3 h4
  constructor <;> dsimp only <;> omega
/-- the octets of a PDU, header and body -/
theorem pdu_octets {env : Dis.Env} {bs rest : Bytes} {p : Pdu} (h : (Dis.pdu env).run bs = .ok p rest) : 12 + p.body.octets env + rest.length ≤ bs.length := by
  unfold pdu at h
  obtain ⟨hd, m1, h1, h2⟩ := bind_ok h
  obtain ⟨b, m2, h3, h4⟩ := bind_ok h2
  cases h4
  have := PduHeader.parse_exact.spec _ _ _ h1
  obtain ⟨c, e, hw⟩ := eats_octets env hd _ _ _ h3
  rw [e, List.length_append] at this
  have hw : b.octets env ≤ c.length := hw
  dsimp only
  omega

/-! ## Claims -/

/-- **C67.** The C-DIS PDU made of a PDU takes no more octets than were read for the PDU: neither those written nor those announced.  In every
mode, in every state of the encoder, at any time. -/
theorem C67_never_longer {env : Codec.Env} {o : Options} {now : Nat} {s s' : EncState} {bs rest : Bytes} {p : Pdu} {q : Cdis.CdisPdu} {r : StateResult}
    (hr : (Dis.pdu env.toEnv).run bs = .ok p rest) (hp : Compressible env.toEnv p) (h : pduEnc env o now s p = some (q, r, s')) :
    octets q.ser.length ≤ bs.length - rest.length ∧ octets q.lenBits ≤ bs.length - rest.length := by
  have h1 := pdu_octets hr
  obtain ⟨h2, h3⟩ := pdu_close hp h
  unfold octets
  dsimp only at h2 h3
  omega

/-- the octets that a list of PDUs was read from -/
def packetOctets (env : Dis.Env) (l : List Pdu) : Nat := (l.map fun p => 12 + p.body.octets env).sum
theorem reads_octets {env : Dis.Env} {bs r : Bytes} {ps : List Pdu} (h : Reads env bs ps r) : packetOctets env ps ≤ bs.length := by
  induction h with
  | nil => exact Nat.zero_le _
  | @cons bs mid r p ps h _ ih =>
    have := pdu_octets h
    simp only [packetOctets, List.map_cons, List.sum_cons] at *
    omega
theorem stream_close {env : Codec.Env} {o : Options} : ∀ (l : List (Nat × Pdu)) (s : EncState) (r : List Cdis.CdisPdu × EncState),
    (∀ x ∈ l, Compressible env.toEnv x.2) → encStream env o s l = some r → announcedBits r.1 ≤ 8 * packetOctets env.toEnv (l.map (·.2))
  | [], s, r, _, h => by cases h; exact Nat.zero_le _
  | (now, p) :: l, s, r, hc, h => by
    simp only [encStream] at h
    obtain ⟨a, ha, h⟩ := Option.bind_eq_some_iff.1 h
    obtain ⟨q, hq, rfl⟩ := Option.map_eq_some_iff.1 h
    have h1 := (pdu_close (hc (now, p) (by simp)) ha).2
    have h2 := stream_close l _ _ (fun x hx => hc x (by simp [hx])) hq
    unfold announcedBits packetOctets at *
    simp only [List.map_cons, List.sum_cons] at *
    omega
theorem octets_sublist {env : Dis.Env} {a b : List Pdu} (h : List.Sublist a b) : packetOctets env a ≤ packetOctets env b := by
  unfold packetOctets
  induction h with
  | slnil => exact Nat.le_refl _
  | cons _ _ ih => simp only [List.map_cons, List.sum_cons]; omega
  | cons_cons _ _ ih => simp only [List.map_cons, List.sum_cons]; omega

/-- **C67.** The datagram that the gateway's encoder puts out is no longer than the one it was given, whatever it has handled before. -/
theorem C67_datagram {env : Codec.Env} {o : Options} {clock : Nat → Nat} {e e' : Encoder} {bs out : Bytes} {es : List Event}
    (h : encodeBuffer env o clock e bs = (es, some (out, e'))) (hc : ∀ ps, Dis.parse env.toEnv bs = .ok ps → ∀ p ∈ ps, Compressible env.toEnv p) :
    out.length ≤ bs.length := by
  obtain ⟨mid, -, ⟨-, rfl, -⟩ | ⟨ps, cs, hp, -, hs, hw⟩⟩ := C42_packet h
  · exact Nat.zero_le _
  · have h1 := (C42_written hw).1
    have h2 := stream_close _ _ _ (fun x hx => by
      have hx := (List.mem_filter.1 hx).1
      have : x.2 ∈ (stamp clock ps).map (·.2) := List.mem_map_of_mem hx
      rw [stamp_pdus] at this
      exact hc ps hp _ this) hs
    have h3 : packetOctets env.toEnv (((stamp clock ps).filter fun x => decide (Carried x.2.header.pdu_type.toNat)).map (·.2)) ≤ packetOctets env.toEnv ps := by
      refine octets_sublist ?_
      have := (List.filter_sublist (l := stamp clock ps) (p := fun x => decide (Carried x.2.header.pdu_type.toNat))).map (·.2)
      rwa [stamp_pdus] at this
    have h4 : packetOctets env.toEnv ps ≤ bs.length := by
      unfold Dis.parse at hp
      cases e : (parsePackets env.toEnv).run bs with
      | ok qs r => rw [e] at hp; cases hp; exact reads_octets ((parsePackets_iff env.toEnv bs ps r).1 e).1
      | err => rw [e] at hp; cases hp
      | panic => rw [e] at hp; cases hp
    rw [h1]
    unfold announcedBits at h2
    unfold octets
    dsimp only at h2
    omega

/-- **C67.** An Entity State PDU becomes at least 44 octets shorter; one that is sent as a partial update, at least 81 octets. -/
theorem C67_state {env : Codec.Env} {o : Options} {now : Nat} {s s' : EncState} {bs rest : Bytes} {p : Pdu} {q : Cdis.CdisPdu} {r : StateResult}
    {x : EntityState} (hr : (Dis.pdu env.toEnv).run bs = .ok p rest) (hx : p.body = .entityState x) (h : pduEnc env o now s p = some (q, r, s')) :
    octets q.lenBits + 44 ≤ bs.length - rest.length ∧ octets q.ser.length + 44 ≤ bs.length - rest.length ∧
    ∀ y, q.body = .entityState y → y.full_update_flag = false →
      octets q.lenBits + 81 ≤ bs.length - rest.length ∧ octets q.ser.length + 81 ≤ bs.length - rest.length := by
  have h1 := pdu_octets hr
  unfold pduEnc at h
  obtain ⟨⟨b, r0, s0⟩, hb, e⟩ := Option.map_eq_some_iff.1 h
  cases e
  rw [hx] at hb h1
  simp only [bodyEnc, esEncodeBody] at hb
  obtain ⟨z, hz, e⟩ := Option.map_eq_some_iff.1 hb
  cases e
  obtain ⟨f1, f2⟩ := state_fits hz
  simp only [Body.octets, sum_ones] at h1
  refine ⟨?_, ?_, fun y hy hf => ?_⟩
  · have := (Cdis.CdisPdu.close_size (p := Cdis.CdisPdu.finalize (headerEnc p.header) (.entityState z.1) none) (fun y hy => (by cases hy; exact f1))).2
    rw [show (Cdis.CdisPdu.finalize (headerEnc p.header) (.entityState z.1) none).body = .entityState z.1 from rfl] at this
    simp only [Cdis.CdisBody.close, f2] at this
    dsimp only at *
    unfold octets; omega
  · have := (Cdis.CdisPdu.close_size (p := Cdis.CdisPdu.finalize (headerEnc p.header) (.entityState z.1) none) (fun y hy => (by cases hy; exact f1))).1
    rw [show (Cdis.CdisPdu.finalize (headerEnc p.header) (.entityState z.1) none).body = .entityState z.1 from rfl] at this
    simp only [Cdis.CdisBody.close, f2] at this
    dsimp only at *
    unfold octets; omega
  · have hy : z.1 = y := by injection hy
    subst hy
    have hs : Cdis.AtMost z.1.ser.length z.1.lenBits (433 + 102 * x.variable_parameters.length) := by
      unfold esEnc at hz
      dsimp only at hz
      split at hz
      · cases hz
        rw [← f2]
        exact Cdis.close_partial ⟨rfl, rfl, rfl, rfl, rfl, rfl⟩
      · obtain ⟨m, hm, rfl⟩ := Option.map_eq_some_iff.1 hz
        cases hf
    have c : (Cdis.CdisPdu.finalize (headerEnc p.header) (.entityState z.1) none).header.ser.length ≤ 67 := Cdis.Len.le
    have d : (Cdis.CdisPdu.finalize (headerEnc p.header) (.entityState z.1) none).header.lenBits ≤ 67 := Cdis.Cost.le
    obtain ⟨h2, h3⟩ := hs
    have e1 : (Cdis.CdisPdu.finalize (headerEnc p.header) (.entityState z.1) none).lenBits =
      (Cdis.CdisPdu.finalize (headerEnc p.header) (.entityState z.1) none).header.lenBits + z.1.lenBits := rfl
    have e2 : (Cdis.CdisPdu.finalize (headerEnc p.header) (.entityState z.1) none).ser.length =
      (Cdis.CdisPdu.finalize (headerEnc p.header) (.entityState z.1) none).header.ser.length + z.1.ser.length := List.length_append
    dsimp only
    rw [e1, e2]
    unfold octets
    omega

/-- the tracks of a partial update carry no emitter and beam numbers -/
theorem beam_partial (ps : List Cdis.FundamentalParameter) (bs : List Cdis.BeamData) (pairs : List Cdis.SiteAppPair) (b : Beam) :
    Cdis.AtMost (eeBeamEnc false ps bs pairs b).ser.length (eeBeamEnc false ps bs pairs b).lenBits (86 + 24 * b.track_jam_data.length) := by
  have ht : ∀ t : TrackJam, (trackJamEnc false pairs t).ser.length ≤ 24 ∧ (trackJamEnc false pairs t).lenBits ≤ 24 := by
    intro t
    rw [Cdis.TrackJam.length_ser]
    have := Cdis.size_uv16 t.entity_id.entity_id.toNat
    simp only [Cdis.TrackJam.lenBits, trackJamEnc, Bool.false_eq_true, if_false, Cdis.lOpt]
    omega
  have hl : ((eeBeamEnc false ps bs pairs b).track_jam.flatMap Cdis.TrackJam.ser).length ≤ 24 * b.track_jam_data.length ∧
      ((eeBeamEnc false ps bs pairs b).track_jam.map Cdis.TrackJam.lenBits).sum ≤ 24 * b.track_jam_data.length := by
    simp only [eeBeamEnc]
    split
    · exact ⟨Nat.zero_le _, Nat.zero_le _⟩
    · rw [List.flatMap_map, List.map_map]
      exact ⟨Nat.le_trans (Cdis.size_flatMap (f := fun _ => 24) (fun t => (ht t).1) _) (Cdis.sum_const (fun _ => Nat.le_refl _) _),
        Cdis.sum_const (fun t => (ht t).2) _⟩
  have := Cdis.Len.mk hl.1
  have := Cdis.Cost.mk hl.2
  constructor
  · unfold Cdis.EmitterBeam.ser; refine Nat.le_trans Cdis.Len.le ?_; omega
  · unfold Cdis.EmitterBeam.lenBits; refine Nat.le_trans Cdis.Cost.le ?_; omega
theorem system_partial (ps : List Cdis.FundamentalParameter) (bs : List Cdis.BeamData) (pairs : List Cdis.SiteAppPair) (s : EmitterSystem) :
    Cdis.AtMost (eeSystemEnc false ps bs pairs s).ser.length (eeSystemEnc false ps bs pairs s).lenBits
      (94 + (s.beams.map fun b => 86 + 24 * b.track_jam_data.length).sum) := by
  have h1 : ((eeSystemEnc false ps bs pairs s).emitter_beams.flatMap Cdis.EmitterBeam.ser).length ≤ (s.beams.map fun b => 86 + 24 * b.track_jam_data.length).sum := by
    simp only [eeSystemEnc]
    rw [List.flatMap_map]
    exact Cdis.size_flatMap (fun b => (beam_partial ps bs pairs b).1) _
  have h2 : ((eeSystemEnc false ps bs pairs s).emitter_beams.map Cdis.EmitterBeam.lenBits).sum ≤ (s.beams.map fun b => 86 + 24 * b.track_jam_data.length).sum := by
    simp only [eeSystemEnc]
    rw [List.map_map]
    exact Cdis.sum_le (fun b => (beam_partial ps bs pairs b).2) _
  generalize eeSystemEnc false ps bs pairs s = v at *
  have k : (Cdis.wOpt (Cdis.Vec3.ser Cdis.sv16) v.location).length ≤ 54 := Cdis.Len.le
  have d : (if v.hasDetails then Cdis.wOpt (Cdis.wU 16) v.name ++ Cdis.wOpt (Cdis.wU 8) v.function else []).length ≤ 24 := Cdis.Len.le
  have k' : Cdis.lOpt (Cdis.Vec3.lenBits Cdis.sv16) v.location ≤ 54 := Cdis.Cost.le
  have d' : Cdis.lOpt (fun _ => 16) v.name ≤ 16 := Cdis.Cost.le
  have e' : Cdis.lOpt (fun _ => 8) v.function ≤ 8 := Cdis.Cost.le
  have := Cdis.size_uv8 v.number
  constructor
  · simp only [Cdis.EmitterSystem.ser, List.length_append, Cdis.length_wU]; omega
  · simp only [Cdis.EmitterSystem.lenBits]; omega
theorem systems_partial (l : List EmitterSystem) :
    156 * (l.map fun s => s.beams.length).sum + 36 * (l.map fun s => (s.beams.map fun b => b.track_jam_data.length).sum).sum
      + (l.map fun s => 94 + (s.beams.map fun b => 86 + 24 * b.track_jam_data.length).sum).sum ≤
    8 * (l.map fun s => 20 + (s.beams.map fun b => 52 + (b.track_jam_data.map fun _ => 8).sum).sum).sum := by
  have hb : ∀ bl : List Beam, 156 * bl.length + 36 * (bl.map fun b => b.track_jam_data.length).sum
      + (bl.map fun b => 86 + 24 * b.track_jam_data.length).sum ≤ 8 * (bl.map fun b => 52 + (b.track_jam_data.map fun _ => 8).sum).sum := by
    intro bl
    induction bl with
    | nil => exact Nat.le_refl _
    | cons b bl ih =>
      simp only [List.map_cons, List.sum_cons, List.length_cons, sum_ones, Nat.mul_add] at *
      omega
  induction l with
  | nil => exact Nat.le_refl _
  | cons s l ih =>
    have := hb s.beams
    simp only [List.map_cons, List.sum_cons, Nat.mul_add] at *
    omega
/-- **C67.** An Electromagnetic Emission PDU sent as a partial update is never longer, whatever its tracks. -/
theorem C67_emission_partial_update {env : Codec.Env} {o : Options} {now : Nat} {s s' : EncState} {bs rest : Bytes} {p : Pdu} {q : Cdis.CdisPdu}
    {r : StateResult} {y : Cdis.ElectromagneticEmission} (hr : (Dis.pdu env.toEnv).run bs = .ok p rest) (h : pduEnc env o now s p = some (q, r, s'))
    (hy : q.body = .electromagneticEmission y) (hf : y.full_update_flag = false) :
    octets q.ser.length ≤ bs.length - rest.length ∧ octets q.lenBits ≤ bs.length - rest.length := by
  have h1 := pdu_octets hr
  unfold pduEnc at h
  obtain ⟨⟨b, r0, s0⟩, hb, e⟩ := Option.map_eq_some_iff.1 h
  cases e
  have hy : b = .electromagneticEmission y := hy
  subst hy
  generalize p.body = pb at *
  cases pb with
  | electromagneticEmission x =>
    simp only [bodyEnc, eeEncodeBody, Option.some.injEq, Prod.mk.injEq, Cdis.CdisBody.electromagneticEmission.injEq] at hb
    obtain ⟨hb, -⟩ := hb
    have hp : (pairsOf x).length ≤ (x.emitter_systems.map fun s => (s.beams.map fun b => b.track_jam_data.length).sum).sum := by
      rw [← allTracks_length x (fun p => p.2.track_jam_data.map fun t => pairEnc t.entity_id.simulation_address) (fun p => List.length_map _)]
      exact sortDedup_length _ _
    have hbl := allBeams_length x
    have hw := systems_partial x.emitter_systems
    have key : Cdis.AtMost y.ser.length y.lenBits
        (135 + 156 * (x.emitter_systems.map fun s => s.beams.length).sum + 36 * (x.emitter_systems.map fun s => (s.beams.map fun b => b.track_jam_data.length).sum).sum
        + (x.emitter_systems.map fun s => 94 + (s.beams.map fun b => 86 + 24 * b.track_jam_data.length).sum).sum) := by
      unfold eeEnc at hb
      dsimp only at hb
      split at hb
      · subst hb; cases hf
      · subst hb; cases hf
      · rename_i st _ _
        split at hb
        · subst hb; cases hf
        · have hs1 : ((x.emitter_systems.map (eeSystemEnc false (paramsPartial st x) (beamsPartial st x) (pairsOf x))).flatMap Cdis.EmitterSystem.ser).length
              ≤ (x.emitter_systems.map fun s => 94 + (s.beams.map fun b => 86 + 24 * b.track_jam_data.length).sum).sum := by
            rw [List.flatMap_map]
            exact Cdis.size_flatMap (fun s => (system_partial _ _ _ s).1) _
          have hs2 : ((x.emitter_systems.map (eeSystemEnc false (paramsPartial st x) (beamsPartial st x) (pairsOf x))).map Cdis.EmitterSystem.lenBits).sum
              ≤ (x.emitter_systems.map fun s => 94 + (s.beams.map fun b => 86 + 24 * b.track_jam_data.length).sum).sum := by
            rw [List.map_map]
            exact Cdis.sum_le (fun s => (system_partial _ _ _ s).2) _
          have l1 : (paramsPartial st x).length ≤ (allBeams x).length := Nat.le_trans (sortDedup_length _ _) (by rw [List.length_map]; exact List.length_filter_le _ _)
          have l2 : (beamsPartial st x).length ≤ (allBeams x).length := Nat.le_trans (sortDedup_length _ _) (by rw [List.length_map]; exact List.length_filter_le _ _)
          rw [hbl] at l1 l2
          rw [← hb]
          have := Cdis.Len.mk hs1
          have := Cdis.Cost.mk hs2
          constructor
          · unfold Cdis.ElectromagneticEmission.ser; refine Nat.le_trans Cdis.Len.le ?_; dsimp only; omega
          · unfold Cdis.ElectromagneticEmission.lenBits; refine Nat.le_trans Cdis.Cost.le ?_; dsimp only; omega
    have c : (Cdis.CdisPdu.finalize (headerEnc p.header) (.electromagneticEmission y) none).header.ser.length ≤ 67 := Cdis.Len.le
    have d : (Cdis.CdisPdu.finalize (headerEnc p.header) (.electromagneticEmission y) none).header.lenBits ≤ 67 := Cdis.Cost.le
    obtain ⟨h2, h3⟩ := key
    have e1 : (Cdis.CdisPdu.finalize (headerEnc p.header) (.electromagneticEmission y) none).lenBits =
      (Cdis.CdisPdu.finalize (headerEnc p.header) (.electromagneticEmission y) none).header.lenBits + y.lenBits := rfl
    have e2 : (Cdis.CdisPdu.finalize (headerEnc p.header) (.electromagneticEmission y) none).ser.length =
      (Cdis.CdisPdu.finalize (headerEnc p.header) (.electromagneticEmission y) none).header.ser.length + y.ser.length := List.length_append
    simp only [Body.octets] at h1
    dsimp only
    rw [e1, e2]
    unfold octets
    omega
  | entityState x =>
    simp only [bodyEnc, esEncodeBody] at hb
    obtain ⟨z, -, e⟩ := Option.map_eq_some_iff.1 hb
    cases e
  | _ => cases hb

/-- The hypotheses are met: by the sample Electromagnetic Emission and IFF PDUs, which have eight tracks and all layers; by any Signal PDU.  These are the sizes: -/
example : Compressible sampleEnv ⟨sampleFor 23, .electromagneticEmission sample_electromagneticEmission⟩ ∧
    Compressible sampleEnv ⟨sampleFor 28, .iff sample_iff⟩ ∧ Compressible sampleEnv ⟨sampleFor 26, .signal sample_signal⟩ :=
  ⟨⟨(allBeams sample_electromagneticEmission).flatMap fun p => p.2.track_jam_data.map fun t => t.entity_id.simulation_address, by decide +kernel, by decide +kernel⟩,
   .inr ⟨by decide, by intro y hy; cases hy; decide⟩, trivial⟩
example : (Pdu.ser ⟨sampleFor 28, .iff sample_iff⟩).length = 261 ∧ ∃ q r s, pduEnc codecEnv {} 0 {} ⟨sampleFor 28, .iff sample_iff⟩ = some (q, r, s) ∧
    octets q.lenBits = 155 := by
  refine ⟨by decide +kernel, _, _, _, rfl, ?_⟩
  decide +kernel

/-! ## Violations -/

theorem dedup_id {α : Type} [DecidableEq α] : ∀ {l : List α}, l.Nodup → dedup l = l
  | [], _ => rfl
  | [_], _ => rfl
  | a :: b :: l, h => by
    obtain ⟨h1, h2⟩ := List.nodup_cons.1 h
    unfold dedup
    rw [if_neg (fun (e : a = b) => h1 (e ▸ List.mem_cons_self)), dedup_id h2]
/-- a list without duplicates is sorted and nothing else -/
theorem sortDedup_perm {α : Type} [DecidableEq α] (key : α → List Int) {l : List α} (h : l.Nodup) : (sortDedup key l).Perm l := by
  have hp := List.mergeSort_perm l fun a b => lexLe (key a) (key b)
  unfold sortDedup
  rw [dedup_id (hp.symm.nodup h)]
  exact hp
theorem sortDedup_sum {α : Type} [DecidableEq α] (key : α → List Int) {l : List α} (h : l.Nodup) (f : α → Nat) :
    ((sortDedup key l).map f).sum = (l.map f).sum := ((sortDedup_perm key h).map f).sum_nat

/-- a header with the longest exercise identifier -/
def bigHeader (t : UInt8) : PduHeader := { sampleFor t with exercise_id := 255, pdu_length := 736 }
/-- the `i`th beam: fifteen tracks, all of different platforms -/
def busyBeam (i : Nat) : Beam :=
  ⟨255, 65535, ⟨0x4F800000, 0x4F800000, 0x43700000, UInt32.ofNat (0x476A6000 + 256 * i), 0x4F800000⟩,
   ⟨UInt32.ofNat (0x43C80000 - 0x70000 * i), 0x43C80000, 0x43C80000, 0x43C80000, 0x42C80000⟩, 31, 0, 0, ⟨255, 255, 255, 255⟩,
   (List.range 15).map fun k => ⟨⟨⟨UInt16.ofNat (60000 + 15 * i + k), 65535⟩, 65535⟩, 255, 255⟩⟩
/-- an emitter system of four such beams -/
def busyEmission : ElectromagneticEmission :=
  ⟨⟨⟨65535, 65535⟩, 65535⟩, ⟨⟨65535, 65535⟩, 65535⟩, 1, [⟨65535, 255, 255, ⟨0x46EA6000, 0x46EA6000, 0x46EA6000⟩, (List.range 4).map busyBeam⟩]⟩
def busyPdu : Pdu := ⟨bigHeader 23, .electromagneticEmission busyEmission⟩

theorem busy_bits (now : Nat) (st : Option EeEncState) (o : Options) (ho : o.update_mode = .full) : (eeEnc o now st busyEmission).1.lenBits = 5869 := by
  have hf : (eeEnc o now st busyEmission).1 = ⟨true, eidEnc busyEmission.emitting_entity_id,
        evidEnc busyEmission.event_id, busyEmission.state_update_indicator.toNat,
        paramsFull busyEmission, beamsFull busyEmission, pairsOf busyEmission,
        busyEmission.emitter_systems.map (eeSystemEnc true (paramsFull busyEmission) (beamsFull busyEmission) (pairsOf busyEmission))⟩ := by
    unfold eeEnc; rw [ho]
  have hsys : ∀ ps bs pairs, ((busyEmission.emitter_systems.map (eeSystemEnc true ps bs pairs)).map Cdis.EmitterSystem.lenBits).sum = 2958 := by
    intro ps bs pairs; krfl
  have h1 : ((paramsFull busyEmission).map Cdis.FundamentalParameter.lenBits).sum = 340 := by
    unfold paramsFull
    rw [sortDedup_sum _ (by decide +kernel)]; krfl
  have h2 : ((beamsFull busyEmission).map Cdis.BeamData.lenBits).sum = 280 := by
    unfold beamsFull
    rw [sortDedup_sum _ (by decide +kernel)]; krfl
  have h3 : ((pairsOf busyEmission).map Cdis.SiteAppPair.lenBits).sum = 2160 := by
    unfold pairsOf
    rw [sortDedup_sum _ (by decide +kernel)]; krfl
  rw [hf]
  simp only [Cdis.ElectromagneticEmission.lenBits, hsys, h1, h2, h3]
  krfl

theorem busy_wf (env : Dis.Env) : busyPdu.Wf env :=
  ⟨⟨rfl, .inl ⟨rfl, _, rfl, C02_read_wf 23 0x02⟩⟩, rfl, (by decide +kernel : busyEmission.Wf)⟩
/-- **C67, violated.** An Electromagnetic Emission PDU of 736 octets, with four beams of fifteen tracks of as many platforms, becomes 742 octets
in a full update: a track takes 8 octets in DIS, and up to 78 bits in C-DIS. -/
theorem C67_emission_violated (env : Codec.Env) (now : Nat) (s : EncState) {o : Options} (ho : o.update_mode = .full) :
    busyPdu.ser.length = 736 ∧ (Dis.pdu env.toEnv).run busyPdu.ser = .ok busyPdu [] ∧
    ∃ q, pduEnc env o now s busyPdu = some (q, .unaffected, s) ∧ octets q.lenBits = 742 := by
  refine ⟨by decide +kernel, by have := pdu_ser (busy_wf env.toEnv) []; rwa [List.append_nil] at this, ?_⟩
  have hb : bodyEnc env o now s busyPdu.body = some (eeEncodeBody o now s busyEmission) := rfl
  have hr : (eeEnc o now (s.ee busyEmission.emitting_entity_id) busyEmission).2 = .unaffected := by unfold eeEnc; rw [ho]
  refine ⟨Cdis.CdisPdu.finalize (headerEnc busyPdu.header) (eeEncodeBody o now s busyEmission).1 none, ?_, ?_⟩
  · unfold pduEnc
    rw [hb]
    simp only [Option.map_some, eeEncodeBody, hr]
    rfl
  · have := busy_bits now (s.ee busyEmission.emitting_entity_id) o ho
    have e : (Cdis.CdisPdu.finalize (headerEnc busyPdu.header) (eeEncodeBody o now s busyEmission).1 none).lenBits =
      67 + (eeEnc o now (s.ee busyEmission.emitting_entity_id) busyEmission).1.lenBits := rfl
    rw [e, this]
    rfl
/-- **C67, violated.** The gateway makes 742 octets of these 736, whatever it has handled before. -/
theorem C67_gateway_violated {env : Codec.Env} {o : Options} (ho : o.update_mode = .full) {clock : Nat → Nat} {e e' : Encoder} {out : Bytes} {es : List Event}
    (h : encodeBuffer env o clock e busyPdu.ser = (es, some (out, e'))) : out.length = 742 := by
  have hp : Dis.parse env.toEnv busyPdu.ser = .ok [busyPdu] := by
    have := C17_packet_round_trip env.toEnv (ps := [busyPdu]) (by intro p hp; rw [List.mem_singleton.1 hp]; exact busy_wf _) (by simp) [] (by simp)
    simpa using this
  obtain ⟨mid, -, ⟨hn, -⟩ | ⟨ps, cs, hq, -, hs, hw⟩⟩ := C42_packet h
  · rw [hp] at hn; cases hn
  · rw [hp] at hq
    cases hq
    obtain ⟨-, -, q, hq, hl⟩ := C67_emission_violated env (clock 0) e.state ho
    have hst : ((stamp clock [busyPdu]).filter fun x => decide (Carried x.2.header.pdu_type.toNat)) = [(clock 0, busyPdu)] := by
      simp [stamp, List.zipIdx, show Carried busyPdu.header.pdu_type.toNat from by decide]
    rw [hst] at hs
    simp only [encStream, hq, Option.bind_some, Option.map_some, Option.some.injEq, Prod.mk.injEq] at hs
    rw [(C42_written hw).1, ← hs.1]
    simpa using hl

/-- system types are neither transponders nor interrogators -/
def vagueEnv : Dis.Env := { sampleEnv with iffClass := fun _ => .undetermined }
/-- an IFF PDU with layers 1 and 3, the basic data of which are not read -/
def vagueIff : Bytes :=
  Pdu.ser ⟨bigHeader 28, .iff ⟨⟨⟨65535, 65535⟩, 65535⟩, ⟨⟨65535, 65535⟩, 65535⟩, ⟨0x46EA6000, 0x46EA6000, 0x46EA6000⟩,
    ⟨200, 12, 13, [1, 0, 0, 0, 1, 0, 1, 0]⟩, 14, 15,
    ⟨[1, 0, 1, 0, 1, 0, 0, 0], 16, [1, 0, 1, 0, 0, 0, 0], 17, 18, 19, 20, 21, 22, 23⟩, none, none, none, none⟩⟩
  ++ [3, 0, 0, 12, 255, 255, 255, 255, 0, 0, 0, 0]
/-- **C67, violated.** An IFF PDU of 72 octets, of a system type without known basic data, becomes 73 octets: the basic data of layer 3, of which
none was there, are made up. -/
theorem C67_iff_violated : vagueIff.length = 72 ∧ ∃ p q r s, (Dis.pdu vagueEnv).run vagueIff = .ok p [] ∧
    pduEnc { codecEnv with toEnv := vagueEnv } {} 0 {} p = some (q, r, s) ∧ octets q.lenBits = 73 ∧ octets q.ser.length = 73 := by
  refine ⟨by decide +kernel, _, _, _, _, rfl, rfl, ?_, ?_⟩ <;> decide +kernel
end Verif.Props
