import Verif.Props.CodecPipeline

/-! # Electromagnetic emission PDUs through the encoder and the decoder (C38) -/

set_option linter.unusedSimpArgs false

namespace Verif.Props
open Verif.Codec

/-! ## Lists and indices -/

theorem mem_dedup {α : Type} [DecidableEq α] {a : α} : ∀ {l : List α}, a ∈ dedup l ↔ a ∈ l
  | [] => by simp [dedup]
  | [b] => by simp [dedup]
  | b :: c :: l => by
    rw [dedup]
    split
    · rename_i h
      subst h
      rw [mem_dedup]
      simp
    · rw [List.mem_cons, mem_dedup, List.mem_cons (l := c :: l)]

theorem length_dedup {α : Type} [DecidableEq α] : ∀ (l : List α), (dedup l).length ≤ l.length
  | [] => by simp [dedup]
  | [b] => by simp [dedup]
  | b :: c :: l => by
    have := length_dedup (c :: l)
    rw [dedup]
    split
    · simp only [List.length_cons] at *; omega
    · simp only [List.length_cons] at *; omega

theorem mem_sortDedup {α : Type} [DecidableEq α] {key : α → List Int} {l : List α} {a : α} : a ∈ sortDedup key l ↔ a ∈ l := by
  unfold sortDedup
  rw [mem_dedup, List.mem_mergeSort]

theorem length_sortDedup {α : Type} [DecidableEq α] (key : α → List Int) (l : List α) : (sortDedup key l).length ≤ l.length := by
  unfold sortDedup
  refine Nat.le_trans (length_dedup _) ?_
  rw [List.length_mergeSort]

theorem idxOf_some {α : Type} [DecidableEq α] {a : α} {l : List α} (h : a ∈ l) :
    ∃ i, l.idxOf? a = some i ∧ i < l.length ∧ l[i]? = some a := by
  induction l with
  | nil => simp at h
  | cons b l ih =>
    by_cases hb : b = a
    · refine ⟨0, ?_, by simp, by simp [hb]⟩
      simp [List.idxOf?_cons, hb]
    · have : a ∈ l := by
        rcases List.mem_cons.1 h with h | h
        · exact absurd h.symm hb
        · exact h
      obtain ⟨i, h1, h2, h3⟩ := ih this
      refine ⟨i + 1, ?_, by simp only [List.length_cons]; omega, by simpa using h3⟩
      simp [List.idxOf?_cons, hb, h1]

theorem idxOf_get {α : Type} [DecidableEq α] {a : α} {l : List α} (hl : l.length ≤ 256) {i : Nat} (h : l.idxOf? a = some i) :
    l[i % 256]? = some a := by
  have hm : a ∈ l := by
    by_contra hn
    rw [List.idxOf?_eq_none_iff.2 hn] at h
    cases h
  obtain ⟨j, h1, h2, h3⟩ := idxOf_some hm
  rw [h] at h1
  cases h1
  rw [Nat.mod_eq_of_lt (by omega)]
  exact h3

/-! ## One beam -/

/-- The values of a beam that C-DIS can carry. -/
def beamImage (b : Dis.Beam) : Dis.Beam :=
  { b with
    parameter_data := paramDec (paramEnc b.parameter_data), beam_data := beamDec (beamEnc b.beam_data),
    high_density_track_jam := if 15 < b.track_jam_data.length then 1 else b.high_density_track_jam,
    beam_status := if b.beam_status = 0 then 0 else 1,
    track_jam_data := if 15 < b.track_jam_data.length then [] else b.track_jam_data }

/-- A beam as a partial update leaves it: no jamming technique, no emitter and beam numbers of the tracks. -/
def beamStrip (b : Dis.Beam) : Dis.Beam :=
  { b with jamming_technique := ⟨0, 0, 0, 0⟩, track_jam_data := b.track_jam_data.map fun t => { t with emitter := 0, beam := 0 } }

theorem trackJam_rt {full : Bool} {pairs : List Cdis.SiteAppPair} (hl : pairs.length ≤ 256) {t : Dis.TrackJam}
    (h : pairEnc t.entity_id.simulation_address ∈ pairs) :
    trackJamDec pairs (trackJamEnc full pairs t) = if full then t else { t with emitter := 0, beam := 0 } := by
  obtain ⟨i, h1, h2, h3⟩ := idxOf_some h
  obtain ⟨⟨⟨a, b⟩, e⟩, em, bm⟩ := t
  unfold trackJamEnc trackJamDec
  rw [h1]
  simp only [Option.getD_some]
  rw [idxOf_get hl h1]
  cases full <;> simp [pairEnc]

theorem beam_rt {full : Bool} {ps : List Cdis.FundamentalParameter} {bs : List Cdis.BeamData} {pairs : List Cdis.SiteAppPair}
    (hps : ps.length ≤ 256) (hbs : bs.length ≤ 256) (hpairs : pairs.length ≤ 256) {b : Dis.Beam}
    {fp : Dis.FundamentalParameterData} {fb : Dis.BeamData}
    (h1 : paramEnc b.parameter_data ∈ ps ∨ full = false ∧ fp = paramDec (paramEnc b.parameter_data))
    (h2 : beamEnc b.beam_data ∈ bs ∨ full = false ∧ fb = beamDec (beamEnc b.beam_data))
    (h3 : ∀ t ∈ b.track_jam_data, pairEnc t.entity_id.simulation_address ∈ pairs) :
    eeBeamDec fp fb ps bs pairs (eeBeamEnc full ps bs pairs b) = beamImage (if full then b else beamStrip b) := by
  have ht : (b.track_jam_data.map (trackJamEnc full pairs)).map (trackJamDec pairs) =
      if full then b.track_jam_data else (beamStrip b).track_jam_data := by
    cases full
    · simp only [List.map_map, beamStrip, Bool.false_eq_true, if_false]
      apply List.map_congr_left
      intro t hm
      simp only [Function.comp]
      rw [trackJam_rt hpairs (h3 t hm)]
      rfl
    · simp only [List.map_map, if_true]
      conv_rhs => rw [← List.map_id b.track_jam_data]
      apply List.map_congr_left
      intro t hm
      simp only [Function.comp]
      rw [trackJam_rt hpairs (h3 t hm)]
      rfl
  have hp : (match (if full then some ((ps.idxOf? (paramEnc b.parameter_data)).getD 0 % 256)
        else (ps.idxOf? (paramEnc b.parameter_data)).map (· % 256)) with
      | none => fp
      | some i => paramDec (ps[i]?.getD defaultParam)) = paramDec (paramEnc b.parameter_data) := by
    cases hi : ps.idxOf? (paramEnc b.parameter_data) with
    | none =>
      rcases h1 with h1 | ⟨h1, h1'⟩
      · obtain ⟨i, g, -⟩ := idxOf_some h1
        rw [hi] at g
        cases g
      · subst h1
        simp [h1']
    | some i =>
      have := idxOf_get hps hi
      cases full <;> simp [this]
  have hb : (match (if full then some ((bs.idxOf? (beamEnc b.beam_data)).getD 0 % 256)
        else (bs.idxOf? (beamEnc b.beam_data)).map (· % 256)) with
      | none => fb
      | some i => beamDec (bs[i]?.getD defaultBeamData)) = beamDec (beamEnc b.beam_data) := by
    cases hi : bs.idxOf? (beamEnc b.beam_data) with
    | none =>
      rcases h2 with h2 | ⟨h2, h2'⟩
      · obtain ⟨i, g, -⟩ := idxOf_some h2
        rw [hi] at g
        cases g
      · subst h2
        simp [h2']
    | some i =>
      have := idxOf_get hbs hi
      cases full <;> simp [this]
  obtain ⟨n, pi, pd, bd, bf, hd, st, ⟨k, c, sc, sp⟩, tj⟩ := b
  simp only at ht hp hb
  have e : eeBeamDec fp fb ps bs pairs (eeBeamEnc full ps bs pairs ⟨n, pi, pd, bd, bf, hd, st, ⟨k, c, sc, sp⟩, tj⟩) =
      ⟨UInt8.ofNat n.toNat, UInt16.ofNat pi.toNat, paramDec (paramEnc pd), beamDec (beamEnc bd), UInt8.ofNat bf.toNat,
       UInt8.ofNat (if decide (15 < tj.length) then 1 else hd.toNat), if decide (st = 0) then 0 else 1,
       ⟨UInt8.ofNat ((if full then some k.toNat else none).getD 0), UInt8.ofNat ((if full then some c.toNat else none).getD 0),
        UInt8.ofNat ((if full then some sc.toNat else none).getD 0), UInt8.ofNat ((if full then some sp.toNat else none).getD 0)⟩,
       (if decide (15 < tj.length) then [] else tj.map (trackJamEnc full pairs)).map (trackJamDec pairs)⟩ := by
    unfold eeBeamDec eeBeamEnc
    rw [Dis.Beam.mk.injEq]
    exact ⟨rfl, rfl, hp, hb, rfl, rfl, rfl, rfl, rfl⟩
  rw [e]
  by_cases hmany : 15 < tj.length
  · cases full <;> simp [beamImage, beamStrip, hmany]
  · have hd : decide (15 < tj.length) = false := by simpa using hmany
    simp only [hd, Bool.false_eq_true, if_false, ht]
    cases full <;> simp [beamImage, beamStrip, hmany]

/-! ## Full updates -/

/-- At most 256 beams and at most 256 tracks, so that their parameters can be referred to by an octet. -/
def EeSmall (x : Dis.ElectromagneticEmission) : Prop :=
  (allBeams x).length ≤ 256 ∧ ((allBeams x).flatMap fun p => p.2.track_jam_data).length ≤ 256

theorem pairsOf_small {x : Dis.ElectromagneticEmission} (h : EeSmall x) : (pairsOf x).length ≤ 256 := by
  unfold pairsOf
  refine Nat.le_trans (length_sortDedup _ _) ?_
  refine Nat.le_trans (Nat.le_of_eq ?_) h.2
  simp [List.length_flatMap]
theorem paramsFull_small {x : Dis.ElectromagneticEmission} (h : EeSmall x) : (paramsFull x).length ≤ 256 := by
  unfold paramsFull
  refine Nat.le_trans (length_sortDedup _ _) ?_
  simpa using h.1
theorem beamsFull_small {x : Dis.ElectromagneticEmission} (h : EeSmall x) : (beamsFull x).length ≤ 256 := by
  unfold beamsFull
  refine Nat.le_trans (length_sortDedup _ _) ?_
  simpa using h.1
theorem paramsPartial_small {x : Dis.ElectromagneticEmission} (h : EeSmall x) (st : EeEncState) :
    (paramsPartial st x).length ≤ 256 := by
  unfold paramsPartial
  refine Nat.le_trans (length_sortDedup _ _) ?_
  rw [List.length_map]
  exact Nat.le_trans (List.length_filter_le _ _) h.1
theorem beamsPartial_small {x : Dis.ElectromagneticEmission} (h : EeSmall x) (st : EeEncState) :
    (beamsPartial st x).length ≤ 256 := by
  unfold beamsPartial
  refine Nat.le_trans (length_sortDedup _ _) ?_
  rw [List.length_map]
  exact Nat.le_trans (List.length_filter_le _ _) h.1

theorem mem_allBeams {x : Dis.ElectromagneticEmission} {s : Dis.EmitterSystem} {b : Dis.Beam} (hs : s ∈ x.emitter_systems)
    (hb : b ∈ s.beams) : (s.number, b) ∈ allBeams x := by
  unfold allBeams
  rw [List.mem_flatMap]
  exact ⟨s, hs, List.mem_map.2 ⟨b, hb, rfl⟩⟩

theorem mem_pairsOf {x : Dis.ElectromagneticEmission} {n : UInt8} {b : Dis.Beam} (hb : (n, b) ∈ allBeams x) {t : Dis.TrackJam}
    (ht : t ∈ b.track_jam_data) : pairEnc t.entity_id.simulation_address ∈ pairsOf x := by
  unfold pairsOf
  rw [mem_sortDedup, List.mem_flatMap]
  exact ⟨_, hb, List.mem_map.2 ⟨t, ht, rfl⟩⟩

/-- The values of an emitter system that C-DIS can carry: the location in whole metres. -/
def systemImage (s : Dis.EmitterSystem) : Dis.EmitterSystem :=
  { s with
    location := coordDec ⟨i16Sat (v32 s.location.first), i16Sat (v32 s.location.second), i16Sat (v32 s.location.third)⟩ METER,
    beams := s.beams.map beamImage }
/-- The values of an emission PDU that C-DIS can carry. -/
def eeImage (x : Dis.ElectromagneticEmission) : Dis.ElectromagneticEmission :=
  { x with emitter_systems := x.emitter_systems.map systemImage }

theorem evid_rt (e : Dis.EventId) : evidDec (evidEnc e) = e := by
  obtain ⟨⟨a, b⟩, c⟩ := e
  simp [evidDec, evidEnc]

theorem ee_full_rt {x : Dis.ElectromagneticEmission} (hs : EeSmall x) {o : Options} (hm : o.update_mode = .full) (o' : Options)
    (now : Nat) (st : Option EeEncState) (st' : Option EeDecState) : (eeDec o' st' (eeEnc o now st x).1).1 = eeImage x := by
  unfold eeEnc
  simp only [hm]
  unfold eeDec eeImage
  simp only [Bool.true_eq_false, and_false, if_false, eid_rt, evid_rt, UInt8.ofNat_toNat, List.map_map]
  congr 1
  apply List.map_congr_left
  intro s hs'
  simp only [Function.comp, eeSystemDec, eeSystemEnc, systemImage, Option.map_some, Option.getD_some, if_true, UInt8.ofNat_toNat,
    UInt16.ofNat_toNat, List.map_map]
  congr 1
  apply List.map_congr_left
  intro b hb
  simp only [Function.comp]
  have hm := mem_allBeams hs' hb
  refine beam_rt (full := true) (paramsFull_small hs) (beamsFull_small hs) (pairsOf_small hs) ?_ ?_ ?_
  · left
    unfold paramsFull
    rw [mem_sortDedup]
    exact List.mem_map.2 ⟨_, hm, rfl⟩
  · left
    unfold beamsFull
    rw [mem_sortDedup]
    exact List.mem_map.2 ⟨_, hm, rfl⟩
  · intro t ht
    exact mem_pairsOf hm ht

/-- A full update of an emission PDU of at most 256 beams and tracks carries every system, beam and track. -/
theorem C38_emission_full {env : Env} {o : Options} {x : Dis.ElectromagneticEmission} (hs : EeSmall x) :
    oneShot env o (.electromagneticEmission x) = some (.electromagneticEmission (eeImage x)) := by
  unfold oneShot
  simp only [bodyEnc, eeEncodeBody, Option.map_some, bodyDec, eeDecodeBody]
  rw [ee_full_rt hs rfl]

/-! ## Partial updates -/

theorem ee_key {o : Options} {t : Nat} {st : Option EeEncState} {x : Dis.ElectromagneticEmission} :
    eidDec (eeEnc o t st x).1.emitting_id = x.emitting_entity_id := by
  unfold eeEnc
  dsimp only
  split
  · exact eid_rt _
  · exact eid_rt _
  · split <;> exact eid_rt _

theorem ee_bridge {env : Env} {o o' : Options} (e : Dis.EntityId) (now : Nat) (s : EncState) (b : Dis.Body) (c : Cdis.CdisBody)
    (r : StateResult) (s' : EncState) (d : DecState) (h : bodyEnc env o now s b = some (c, r, s')) :
    EeFullSent e b c ↔ EeFullGot e c (bodyDec env o' d c).1 := by
  have key : ∀ x y, b = .electromagneticEmission x → c = .electromagneticEmission y →
      eidDec y.emitting_id = x.emitting_entity_id := by
    rintro x y rfl rfl
    simp only [bodyEnc, eeEncodeBody, Option.some.injEq, Prod.mk.injEq, Cdis.CdisBody.electromagneticEmission.injEq] at h
    rw [← h.1]
    exact ee_key
  constructor
  · rintro ⟨x, y, rfl, rfl, h3, h4⟩
    exact ⟨y, _, rfl, rfl, by rw [key x y rfl rfl, h3], h4⟩
  · rintro ⟨y, x', rfl, h2, h3, h4⟩
    cases b with
    | electromagneticEmission x => exact ⟨x, y, rfl, rfl, by rw [← key x y rfl rfl, h3], h4⟩
    | _ => simp [bodyEnc, esEncodeBody, eeEncodeBody, desEncodeBody, txEncodeBody, iffEncodeBody] at h

theorem feq_v32 {a b : UInt32} (h : feq a b = true) : v32 a = v32 b := by
  unfold feq at h
  simp at h
  exact h.2

theorem paramEq_enc {a b : Dis.FundamentalParameterData} (h : paramEq a b = true) : paramEnc a = paramEnc b := by
  unfold paramEq at h
  simp only [Bool.and_eq_true] at h
  obtain ⟨⟨⟨⟨h1, h2⟩, h3⟩, h4⟩, h5⟩ := h
  unfold paramEnc freqEnc pulseEnc
  rw [feq_v32 h1, feq_v32 h2, feq_v32 h3, feq_v32 h4, feq_v32 h5]

theorem beamDataEq_enc {a b : Dis.BeamData} (h : beamDataEq a b = true) : beamEnc a = beamEnc b := by
  unfold beamDataEq at h
  simp only [Bool.and_eq_true] at h
  obtain ⟨⟨⟨⟨h1, h2⟩, h3⟩, h4⟩, h5⟩ := h
  unfold beamEnc beamAngleEnc sweepEnc
  rw [feq_v32 h1, feq_v32 h2, feq_v32 h3, feq_v32 h4, feq_v32 h5]

theorem allBeams_image (x : Dis.ElectromagneticEmission) :
    allBeams (eeImage x) = (allBeams x).map fun p => (p.1, beamImage p.2) := by
  unfold allBeams eeImage
  simp [List.flatMap_map, List.map_flatMap, systemImage]
  rfl

theorem find_map_key {α : Type} {f : α → α} {p : α → Bool} (h : ∀ a, p (f a) = p a) (l : List α) :
    (l.map f).find? p = (l.find? p).map f := by
  induction l with
  | nil => rfl
  | cons a l ih =>
    simp only [List.map_cons, List.find?_cons, h]
    cases p a
    · exact ih
    · rfl

theorem lastParam_image (x : Dis.ElectromagneticEmission) (k : UInt8 × UInt8) :
    lastParam (eeImage x) k = (lastParam x k).map fun p => paramDec (paramEnc p) := by
  unfold lastParam
  rw [allBeams_image, ← List.map_reverse, find_map_key (by intro a; rfl), Option.map_map, Option.map_map]
  rfl
theorem lastBeamData_image (x : Dis.ElectromagneticEmission) (k : UInt8 × UInt8) :
    lastBeamData (eeImage x) k = (lastBeamData x k).map fun p => beamDec (beamEnc p) := by
  unfold lastBeamData
  rw [allBeams_image, ← List.map_reverse, find_map_key (by intro a; rfl), Option.map_map, Option.map_map]
  rfl
theorem lastSystem_image (x : Dis.ElectromagneticEmission) (n : UInt8) :
    lastSystem (eeImage x) n = (lastSystem x n).map systemImage := by
  unfold lastSystem eeImage
  rw [← List.map_reverse, find_map_key (by intro a; rfl)]

/-- The emission PDU that a receiver of partial updates is meant to know: the systems' names, functions and locations as of
`xj`; no jamming techniques and no emitter and beam numbers of tracks. -/
def eeMerge (x xj : Dis.ElectromagneticEmission) : Dis.ElectromagneticEmission :=
  { x with emitter_systems := x.emitter_systems.map fun s =>
      { s with
        name := match lastSystem xj s.number with | some o => o.name | none => 0
        function := match lastSystem xj s.number with | some o => o.function | none => 0
        location := match lastSystem xj s.number with | some o => o.location | none => ⟨0, 0, 0⟩
        beams := s.beams.map beamStrip } }

/-- Every beam of `x` was there in `xj`. -/
def BeamsKnown (x xj : Dis.ElectromagneticEmission) : Prop :=
  ∀ p ∈ allBeams x, ∃ q ∈ allBeams xj, q.1 = p.1 ∧ q.2.number = p.2.number

theorem lastBeam_some {xj : Dis.ElectromagneticEmission} {k : UInt8 × UInt8} (h : ∃ q ∈ allBeams xj, q.1 = k.1 ∧ q.2.number = k.2) :
    ∃ q, (allBeams xj).reverse.find? (fun p => decide ((p.1, p.2.number) = k)) = some q := by
  obtain ⟨q, h1, h2, h3⟩ := h
  rw [← Option.isSome_iff_exists, List.find?_isSome]
  exact ⟨q, by simpa using h1, by simp [h2, h3]⟩

theorem i16Sat_zero : coordDec ⟨i16Sat (v32 0), i16Sat (v32 0), i16Sat (v32 0)⟩ METER = ⟨0, 0, 0⟩ := by decide +kernel

theorem ee_partial_rt {x xj : Dis.ElectromagneticEmission} (hs : EeSmall x) (hk : BeamsKnown x xj) {o : Options}
    (hm : o.update_mode = .partial) {t : Nat} {st : EeEncState} (h1 : st.params = setParams xj) (h2 : st.beams = setBeams xj)
    (hf : (eeEnc o t (some st) x).1.full_update_flag = false) :
    (eeDec o (some (.of (eeImage xj))) (eeEnc o t (some st) x).1).1 = eeImage (eeMerge x xj) := by
  unfold eeEnc at hf ⊢
  simp only [hm] at hf ⊢
  split at hf
  · simp at hf
  rename_i ht
  rw [if_neg ht]
  unfold eeDec eeImage
  simp only [hm, and_self, if_true, eid_rt, evid_rt, UInt8.ofNat_toNat, List.map_map, eeMerge, Dis.ElectromagneticEmission.mk.injEq,
    true_and]
  apply List.map_congr_left
  intro s hs'
  simp only [Function.comp, eeSystemDec, eeSystemEnc, systemImage, Option.map_none, Option.getD_none, Bool.false_eq_true, if_false,
    UInt8.ofNat_toNat, UInt16.ofNat_toNat, List.map_map, Option.bind_some]
  have hsys : (EeDecState.of { xj with emitter_systems := xj.emitter_systems.map systemImage }).systems s.number =
      (lastSystem xj s.number).map fun s => ⟨(systemImage s).name, (systemImage s).function, (systemImage s).location⟩ := by
    change setSystems (eeImage xj) s.number = _
    rw [setSystems_eq, lastSystem_image, Option.map_map]
    rfl
  rw [hsys]
  have hbeams : s.beams.map ((fun b => eeBeamDec
        (((EeDecState.of { xj with emitter_systems := xj.emitter_systems.map systemImage }).params
          (s.number, UInt8.ofNat b.beam_id)).getD zeroParam)
        (((EeDecState.of { xj with emitter_systems := xj.emitter_systems.map systemImage }).beams
          (s.number, UInt8.ofNat b.beam_id)).getD zeroBeamData)
        (paramsPartial st x) (beamsPartial st x) (pairsOf x) b) ∘
        eeBeamEnc false (paramsPartial st x) (beamsPartial st x) (pairsOf x)) = s.beams.map (beamImage ∘ beamStrip) := by
    apply List.map_congr_left
    intro b hb
    have hmem := mem_allBeams hs' hb
    obtain ⟨q, hq⟩ := lastBeam_some (k := (s.number, b.number)) (hk _ hmem)
    have hp1 : lastParam xj (s.number, b.number) = some q.2.parameter_data := by
      unfold lastParam; rw [hq]; rfl
    have hp2 : lastBeamData xj (s.number, b.number) = some q.2.beam_data := by
      unfold lastBeamData; rw [hq]; rfl
    have hn : UInt8.ofNat (eeBeamEnc false (paramsPartial st x) (beamsPartial st x) (pairsOf x) b).beam_id = b.number := by
      simp [eeBeamEnc]
    simp only [Function.comp, hn]
    have e1 : (EeDecState.of { xj with emitter_systems := xj.emitter_systems.map systemImage }).params (s.number, b.number) =
        some (paramDec (paramEnc q.2.parameter_data)) := by
      change setParams (eeImage xj) _ = _
      rw [setParams_eq, lastParam_image, hp1]
      rfl
    have e2 : (EeDecState.of { xj with emitter_systems := xj.emitter_systems.map systemImage }).beams (s.number, b.number) =
        some (beamDec (beamEnc q.2.beam_data)) := by
      change setBeams (eeImage xj) _ = _
      rw [setBeams_eq, lastBeamData_image, hp2]
      rfl
    rw [e1, e2, Option.getD_some, Option.getD_some]
    refine beam_rt (full := false) (paramsPartial_small hs st) (beamsPartial_small hs st) (pairsOf_small hs) ?_ ?_ ?_
    · cases hpe : paramEq q.2.parameter_data b.parameter_data with
      | true =>
        right
        exact ⟨rfl, by rw [paramEq_enc hpe]⟩
      | false =>
        left
        unfold paramsPartial
        rw [mem_sortDedup]
        refine List.mem_map.2 ⟨(s.number, b), List.mem_filter.2 ⟨hmem, ?_⟩, rfl⟩
        rw [h1, setParams_eq, hp1]
        simp [hpe]
    · cases hpe : beamDataEq q.2.beam_data b.beam_data with
      | true =>
        right
        exact ⟨rfl, by rw [beamDataEq_enc hpe]⟩
      | false =>
        left
        unfold beamsPartial
        rw [mem_sortDedup]
        refine List.mem_map.2 ⟨(s.number, b), List.mem_filter.2 ⟨hmem, ?_⟩, rfl⟩
        rw [h2, setBeams_eq, hp2]
        simp [hpe]
    · intro t ht
      exact mem_pairsOf hmem ht
  rw [hbeams]
  cases lastSystem xj s.number with
  | none =>
    simp only [Option.map_none, Option.getD_none, zeroVec, i16Sat_zero]
  | some so => simp only [Option.map_some, Option.getD_some, systemImage]

theorem eeVal_of {t : Nat} {b : Dis.Body} {x : Dis.ElectromagneticEmission} (h : b = .electromagneticEmission x) :
    eeVal t b = .of t x := by
  subst h; rfl

/-- Emission PDUs of at most 256 beams and tracks, encoder and decoder in partial-update mode, every history and clock: the
decoded PDU carries every system, beam and track if a full update was sent; otherwise a full update of the entity went before
within the heartbeat period, and if all beams were in it, the decoded PDU has the *current* parameters of every beam. -/
theorem C38_end_to_end_emission {env : Env} {o : Options} (hm : o.update_mode = .partial) {hist : List (Nat × Dis.Pdu)}
    {s' : EncState} {out : List Cdis.CdisPdu} {d' : DecState} {dec : List Dis.Pdu} (h : encStream env o {} hist = some (out, s'))
    (hd : decStream env o {} out = (dec, d')) {i t p x} (hi : hist[i]? = some (t, p)) (hx : p.body = .electromagneticEmission x)
    (hs : EeSmall x) :
    ∃ q, dec[i]? = some q ∧
      (EncAt (EeFullSent x.emitting_entity_id) hist out i ∧ q.body = .electromagneticEmission (eeImage x) ∨
       ∃ j tj pj xj, LastBefore (EncAt (EeFullSent x.emitting_entity_id) hist out) i j ∧
        hist[j]? = some (tj, pj) ∧ pj.body = .electromagneticEmission xj ∧ timedOut o.heartbeats.ee o.mplier t tj = false ∧
        (EeSmall xj → BeamsKnown x xj → q.body = .electromagneticEmission (eeImage (eeMerge x xj)))) := by
  obtain ⟨c, y, h1, h2, h3⟩ := C37_emission hm h hi hx
  obtain ⟨si, c', r, s1, e2, e1, em⟩ := enc_memory_at (fun s => s.ee x.emitting_entity_id)
    (EeFullSent x.emitting_entity_id) eeVal (fun now s b c r s' hb => ee_step hm _ now s b c r s' hb) rfl h hi
  rw [h1] at e1
  cases e1
  have e3 := (decStream_at (env := env) (o := o) (s := {}) h1).2
  rw [hd] at e3
  refine ⟨_, e3, ?_⟩
  have hb : ∀ m, EncAt (EeFullSent x.emitting_entity_id) hist out m ↔ DecAt (EeFullGot x.emitting_entity_id) out dec m :=
    enc_dec_at (fun now s b c r s' d hh => ee_bridge _ now s b c r s' d hh) h hd
  cases hf : y.full_update_flag with
  | true =>
    left
    refine ⟨⟨t, p, c, hi, h1, x, y, hx, h2, rfl, hf⟩, ?_⟩
    obtain ⟨t', p', q, a1, a2, a3⟩ := C38_self_contained h hd h1 (by rw [h2]; exact hf)
    rw [hi] at a1
    cases a1
    rw [e3] at a2
    cases a2
    rw [hx, C38_emission_full hs] at a3
    exact (Option.some.inj a3).symm
  | false =>
    right
    obtain ⟨j, tj, pj, b1, b2, b3⟩ := h3.1 hf
    rw [hx, h2] at e2
    simp only [bodyEnc, eeEncodeBody, Option.some.injEq, Prod.mk.injEq, Cdis.CdisBody.electromagneticEmission.injEq] at e2
    have g1 := e2.1
    subst g1
    obtain ⟨sd, hsd, -, hl⟩ := dec_memory_at (fun s => s.ee x.emitting_entity_id) (EeFullGot x.emitting_entity_id)
      bodyEe (fun s c => ee_dec_step hm _ s c) rfl hd h1
    rcases hl with ⟨j', pj', l1, l2, l3⟩ | ⟨l1, -⟩
    swap
    · exact absurd ((hb j).1 b1.2.1) (l1 j b1.1)
    have hjj : LastBefore (EncAt (EeFullSent x.emitting_entity_id) hist out) i j' :=
      ⟨l1.1, (hb j').2 l1.2.1, fun m hm1 hm2 hm3 => l1.2.2 m hm1 hm2 ((hb m).1 hm3)⟩
    obtain rfl := b1.unique hjj
    rcases em with ⟨j'', tj'', pj'', m1, m2, m3⟩ | ⟨m1, -⟩
    swap
    · exact absurd b1.2.1 (m1 j b1.1)
    obtain rfl := b1.unique m1
    rw [b2] at m2
    cases m2
    obtain ⟨zj, hzj⟩ := EeFullGot.body l1.2.1 l2
    obtain ⟨tj', qj, cj, u1, u2, xj, yj, u3, u4, u5, u6⟩ := b1.2.1
    rw [b2] at u1
    cases u1
    refine ⟨j, tj, pj, xj, b1, b2, u3, b3, fun hsj hk => ?_⟩
    obtain ⟨t', p', q, a1, a2, a3⟩ := C38_self_contained h hd u2 (by rw [u4]; exact u6)
    rw [b2] at a1
    cases a1
    rw [l2] at a2
    cases a2
    rw [u3, hzj, C38_emission_full hsj] at a3
    have hz : zj = eeImage xj := by
      simpa using a3.symm
    rw [bodyEe_of hzj, hz] at l3
    try simp only at l3 m3
    rw [eeVal_of u3] at m3
    simp only [pduDec, Dis.Pdu.finalizeFromParts, h2, bodyDec, eeDecodeBody]
    rw [ee_key, ← hsd, l3, m3]
    rw [m3] at hf
    rw [ee_partial_rt hs hk hm rfl rfl hf]

/-! ## What is lost: concrete histories -/

/-- What comes out of a decoder that gets everything an encoder sends, both in partial-update mode. -/
def throughBoth (hist : List (Nat × Dis.Pdu)) : Option (List Dis.Body) :=
  (encStream codecEnv { update_mode := .partial } {} hist).map fun r =>
    (decStream codecEnv { update_mode := .partial } {} r.1).1.map (·.body)
def markingOf : Dis.Body → Bytes
  | .entityState x => x.entity_marking.marking_string
  | _ => []
def forceOf : Dis.Body → UInt8
  | .entityState x => x.force_id
  | _ => 0
def sysTypeOf : Dis.Body → UInt16
  | .iff x => x.system_id.system_type
  | _ => 0
def beamParams : Dis.Body → List Dis.FundamentalParameterData
  | .electromagneticEmission x => (allBeams x).map (·.2.parameter_data)
  | _ => []
def tankWith (marking : Bytes) (force : UInt8) : Dis.Pdu :=
  ⟨sampleFor 1, .entityState { sample_entityState with entity_marking := ⟨1, marking⟩, force_id := force }⟩

/-- The marking changes from "AAA" to "BBB" and a full update with the new one is sent after 30 seconds; the partial update
that follows is decoded with the old marking. -/
theorem C38_marking_stale : (throughBoth
    [(0, tankWith [65, 65, 65] 5), (30000000000, tankWith [66, 66, 66] 5), (31000000000, tankWith [66, 66, 66] 5)]).map
    (fun l => l.map markingOf) = some [[65, 65, 65], [66, 66, 66], [65, 65, 65]] := by decide +kernel
/-- The force of an entity changes; until the next full update the receiver sees the old one. -/
theorem C38_change_is_delayed : (throughBoth
    [(0, tankWith [65] 1), (1000000000, tankWith [65] 2), (30000000000, tankWith [65] 2)]).map
    (fun l => l.map forceOf) = some [1, 1, 2] := by decide +kernel
/-- An IFF system id is lost in every PDU but those that carry it. -/
theorem C38_iff_lost : (throughBoth (sampleHistory (.iff sample_iff) 28)).map (fun l => l.map sysTypeOf) =
    some [sample_iff.system_id.system_type, 0, 0, sample_iff.system_id.system_type, 0] ∧
    sample_iff.system_id.system_type ≠ 0 := by decide +kernel
/-- A beam of unit parameters (1.0 each). -/
def unitBeam (n : UInt8) (power : UInt32) : Dis.Beam :=
  ⟨n, 0, ⟨0x3F800000, 0x3F800000, power, 0x3F800000, 0x3F800000⟩, ⟨0, 0, 0, 0, 0⟩, 0, 0, 0, ⟨0, 0, 0, 0⟩, []⟩
def emissionOf (beams : List Dis.Beam) : Dis.Pdu :=
  ⟨sampleFor 23, .electromagneticEmission ⟨⟨⟨2, 3⟩, 4⟩, ⟨⟨5, 6⟩, 7⟩, 0, [⟨9, 10, 11, ⟨0, 0, 0⟩, beams⟩]⟩⟩
/-- A beam that appears between two full updates is decoded with all parameters zero; a beam that was there and changes
its power is decoded correctly. -/
theorem C38_new_beam_lost : (throughBoth [(0, emissionOf [unitBeam 1 0x3F800000]),
      (1000000000, emissionOf [unitBeam 1 0x40000000, unitBeam 2 0x3F800000])]).map (fun l => l.map beamParams) =
    some [[⟨0x3F800000, 0x3F800000, 0x3F800000, 0x3F800000, 0x3F800000⟩],
      [⟨0x3F800000, 0x3F800000, 0x40000000, 0x3F800000, 0x3F800000⟩, ⟨0, 0, 0, 0, 0⟩]] := by decide +kernel

example : EeSmall sample_electromagneticEmission ∧ BeamsKnown sample_electromagneticEmission sample_electromagneticEmission := by
  refine ⟨⟨by decide, by decide⟩, fun p hp => ⟨p, hp, rfl, rfl⟩⟩

end Verif.Props
