import Verif.Props.Rate
import Verif.Props.Bodies
import Mathlib.Data.List.Dedup
import Mathlib.Data.List.Nodup
import Mathlib.Data.List.Range
import Mathlib.Tactic.Tauto

/-! # C69: what the codec remembers -/

namespace Verif.Props
open Verif.Codec

/-! ## Specification -/

/-- The encoder holds an entry for `a`. -/
def remembers (s : EncState) : Subject → Bool
  | .entityState e => (s.es e).isSome
  | .emission e => (s.ee e).isSome
  | .designator e => (s.designator e).isSome
  | .transmitter e n => (s.transmitter (e, n)).isSome
  | .iff e => (s.iff e).isSome
/-- The decoder holds an entry for `a`. -/
def recalls (s : DecState) : Subject → Bool
  | .entityState e => (s.es e).isSome
  | .emission e => (s.ee e).isSome
  | .designator e => (s.designator e).isSome
  | .transmitter e n => (s.transmitter (e, n)).isSome
  | .iff e => (s.iff e).isSome
/-- What an encoder makes entries for: everything in partial-update mode, and designators, radios and IFF systems in full-update mode as well. -/
def keeps (o : Options) : Subject → Bool
  | .entityState _ => o.update_mode = .partial
  | .emission _ => o.update_mode = .partial
  | _ => true
/-- The subject of a C-DIS PDU whose full-update flag is set and that is one the decoder makes an entry for: in full-update mode only designators. -/
def keptFrom (o : Options) : Cdis.CdisBody → Option Subject
  | .entityState y => if o.update_mode = .partial ∧ y.full_update_flag = true then some (.entityState (eidDec y.entity_id)) else none
  | .electromagneticEmission y => if o.update_mode = .partial ∧ y.full_update_flag = true then some (.emission (eidDec y.emitting_id)) else none
  | .designator y => if y.full_update_flag = true then some (.designator (eidDec y.designating_entity_id)) else none
  | .transmitter y =>
    if o.update_mode = .partial ∧ y.full_update_flag = true then some (.transmitter (eidDec y.radio_reference_id) (UInt16.ofNat y.radio_number)) else none
  | .iff y => if o.update_mode = .partial ∧ y.full_update_flag = true then some (.iff (eidDec y.emitting_entity_id)) else none
  | _ => none
/-- The different subjects of a history that entries are made for. -/
def subjectsOf (o : Options) (hist : List (Nat × Dis.Pdu)) : List Subject :=
  ((hist.filterMap fun e => subjectOf e.2.body).filter (keeps o)).dedup

/-! ## Steps -/

theorem set_isSome {K V : Type} [DecidableEq K] (m : Map K V) (k e : K) (v : V) : ((m.set k v) e).isSome = ((m e).isSome || decide (k = e)) := by
  unfold Map.set
  by_cases h : e = k
  · rw [if_pos h]; simp [h]
  · rw [if_neg h]
    have : ¬ k = e := fun h' => h h'.symm
    simp [this]

theorem es_stores {env : Env} {o : Options} {now : Nat} {st : Option Nat} {x : Dis.EntityState} {r : Cdis.EntityState × StateResult}
    (h : esEnc env o now st x = some r) : (r.2 = .entityState → o.update_mode = .partial) ∧
      (o.update_mode = .partial → r.2 = .entityState ∨ st.isSome = true) := by
  unfold esEnc at h
  dsimp only at h
  split at h
  · rename_i hc
    simp only [Option.some.injEq] at h
    subst h
    constructor
    · intro h; exact absurd h (by simp)
    · intro _
      right
      obtain ⟨_, hc⟩ := hc
      cases st with
      | none => cases hc
      | some v => rfl
  · cases hmk : Cdis.Marking.new (markingChars x.entity_marking.marking_string) with
    | none => rw [hmk] at h; cases h
    | some m =>
      rw [hmk, Option.map_some, Option.some.injEq] at h
      subst h
      dsimp only
      split
      · rename_i hm; exact ⟨fun _ => hm, fun _ => .inl rfl⟩
      · rename_i hm; exact ⟨fun h => (by cases h), fun h => absurd h hm⟩
theorem ee_stores (o : Options) (now : Nat) (st : Option EeEncState) (x : Dis.ElectromagneticEmission) :
    ((eeEnc o now st x).2 = .ee → o.update_mode = .partial) ∧ (o.update_mode = .partial → (eeEnc o now st x).2 = .ee ∨ st.isSome = true) := by
  unfold eeEnc
  cases o.update_mode with
  | full => exact ⟨fun h => (by cases h), fun h => (by cases h)⟩
  | «partial» =>
    cases st with
    | none => exact ⟨fun _ => rfl, fun _ => .inl rfl⟩
    | some v => exact ⟨fun _ => rfl, fun _ => .inr rfl⟩
theorem des_stores (env : Env) (o : Options) (now : Nat) (st : Option Nat) (x : Dis.Designator) :
    (desEnc env o now st x).2 = .designator ∨ st.isSome = true := by
  unfold desEnc
  dsimp only
  split
  · rename_i hc
    right
    cases st with
    | none => cases hc.2
    | some v => rfl
  · left; rfl
theorem tx_stores (env : Env) (o : Options) (now : Nat) (st : Option Nat) (x : Dis.Transmitter) :
    (txEnc env o now st x).2 = .transmitter ∨ st.isSome = true := by
  unfold txEnc
  dsimp only
  split
  · rename_i hc
    right
    cases st with
    | none => cases hc.2
    | some v => rfl
  · left; rfl
theorem iff_stores (o : Options) (now : Nat) (st : Option Nat) (x : Dis.Iff) : (iffEnc o now st x).2 = .iff ∨ st.isSome = true := by
  cases st with
  | none =>
    left
    unfold iffEnc
    simp
  | some v => right; rfl

theorem remembers_step {env : Env} {o : Options} {now : Nat} {s s' : EncState} {b : Dis.Body} {c : Cdis.CdisBody} {r : StateResult}
    (h : bodyEnc env o now s b = some (c, r, s')) (a : Subject) :
    remembers s' a = (remembers s a || (keeps o a && decide (subjectOf b = some a))) := by
  cases b with
  | entityState x =>
    simp only [bodyEnc, esEncodeBody, Option.map_eq_some_iff] at h
    obtain ⟨q, hq, h⟩ := h
    have hs := es_stores hq
    cases h
    simp only [subjectOf]
    split
    · rename_i hr
      cases a <;> simp [remembers, set_isSome, keeps, hs.1 hr]
    · rename_i hr
      cases a with
      | entityState e =>
        by_cases he : x.entity_id = e
        · by_cases hm : o.update_mode = .partial
          · rcases hs.2 hm with h1 | h1
            · exact absurd h1 hr
            · rw [he] at h1
              simp [remembers, h1]
          · simp [keeps, hm]
        · simp [he]
      | _ => simp
  | electromagneticEmission x =>
    simp only [bodyEnc, eeEncodeBody, Option.some.injEq] at h
    have hs := ee_stores o now (s.ee x.emitting_entity_id) x
    cases h
    simp only [subjectOf]
    split
    · rename_i hr
      cases a <;> simp [remembers, set_isSome, keeps, hs.1 hr]
    · rename_i hr
      cases a with
      | emission e =>
        by_cases he : x.emitting_entity_id = e
        · by_cases hm : o.update_mode = .partial
          · rcases hs.2 hm with h1 | h1
            · exact absurd h1 hr
            · rw [he] at h1
              simp [remembers, h1]
          · simp [keeps, hm]
        · simp [he]
      | _ => simp
  | designator x =>
    simp only [bodyEnc, desEncodeBody, Option.some.injEq] at h
    have hs := des_stores env o now (s.designator x.designating_entity_id) x
    cases h
    simp only [subjectOf]
    split
    · cases a <;> simp [remembers, set_isSome, keeps]
    · rename_i hr
      cases a with
      | designator e =>
        by_cases he : x.designating_entity_id = e
        · rcases hs with h1 | h1
          · exact absurd h1 hr
          · rw [he] at h1
            simp [remembers, h1]
        · simp [he]
      | _ => simp
  | transmitter x =>
    simp only [bodyEnc, txEncodeBody, Option.some.injEq] at h
    have hs := tx_stores env o now (s.transmitter (x.radio_reference_id, x.radio_number)) x
    cases h
    simp only [subjectOf]
    split
    · cases a <;> simp [remembers, set_isSome, keeps]
    · rename_i hr
      cases a with
      | transmitter e n =>
        by_cases he : x.radio_reference_id = e ∧ x.radio_number = n
        · rcases hs with h1 | h1
          · exact absurd h1 hr
          · rw [he.1, he.2] at h1
            simp [remembers, h1]
        · simp [he]
      | _ => simp
  | iff x =>
    simp only [bodyEnc, iffEncodeBody, Option.some.injEq] at h
    have hs := iff_stores o now (s.iff x.emitting_entity_id) x
    cases h
    simp only [subjectOf]
    split
    · cases a <;> simp [remembers, set_isSome, keeps]
    · rename_i hr
      cases a with
      | iff e =>
        by_cases he : x.emitting_entity_id = e
        · rcases hs with h1 | h1
          · exact absurd h1 hr
          · rw [he] at h1
            simp [remembers, h1]
        · simp [he]
      | _ => simp
  | _ => cases h; simp [subjectOf]

theorem recalls_step (env : Env) (o : Options) (s : DecState) (b : Cdis.CdisBody) (a : Subject) :
    recalls (bodyDec env o s b).2.2 a = (recalls s a || decide (keptFrom o b = some a)) := by
  cases b with
  | entityState y =>
    by_cases hc : o.update_mode = .partial ∧ y.full_update_flag = true
    · simp only [bodyDec, esDecodeBody, esDec, keptFrom, if_pos hc]
      cases a <;> simp [recalls, set_isSome]
    · simp only [bodyDec, esDecodeBody, esDec, keptFrom, if_neg hc]
      simp
  | electromagneticEmission y =>
    by_cases hc : o.update_mode = .partial ∧ y.full_update_flag = true
    · simp only [bodyDec, eeDecodeBody, eeDec, keptFrom, if_pos hc]
      cases a <;> simp [recalls, set_isSome]
    · simp only [bodyDec, eeDecodeBody, eeDec, keptFrom, if_neg hc]
      simp
  | designator y =>
    by_cases hc : y.full_update_flag = true
    · simp only [bodyDec, desDecodeBody, desDec, keptFrom, if_pos hc]
      cases a <;> simp [recalls, set_isSome]
    · simp only [bodyDec, desDecodeBody, desDec, keptFrom, if_neg hc]
      simp
  | transmitter y =>
    by_cases hc : o.update_mode = .partial ∧ y.full_update_flag = true
    · simp only [bodyDec, txDecodeBody, txDec, keptFrom, if_pos hc]
      cases a <;> simp [recalls, set_isSome]
    · simp only [bodyDec, txDecodeBody, txDec, keptFrom, if_neg hc]
      simp
  | iff y =>
    by_cases hc : o.update_mode = .partial ∧ y.full_update_flag = true
    · simp only [bodyDec, iffDecodeBody, iffDec, keptFrom, if_pos hc]
      cases a <;> simp [recalls, set_isSome]
    · simp only [bodyDec, iffDecodeBody, iffDec, keptFrom, if_neg hc]
      simp
  | _ => simp [bodyDec, keptFrom]

/-! ## Claims -/

/-- **C69.** What an encoder remembers after any history, besides what it remembered before: the subjects of the PDUs it has encoded, all of them,
however long ago; in full-update mode without entities and emitters. -/
theorem C69_encoder {env : Env} {o : Options} {s s' : EncState} {hist : List (Nat × Dis.Pdu)} {out : List Cdis.CdisPdu}
    (h : encStream env o s hist = some (out, s')) (a : Subject) :
    remembers s' a = true ↔ remembers s a = true ∨ (keeps o a = true ∧ ∃ e ∈ hist, subjectOf e.2.body = some a) := by
  induction hist generalizing s out with
  | nil => cases h; simp
  | cons e l ih =>
    obtain ⟨now, p⟩ := e
    simp only [encStream, pduEnc, Option.bind_eq_some_iff, Option.map_eq_some_iff] at h
    obtain ⟨q, ⟨⟨b, r, s1⟩, hb, rfl⟩, ⟨out1, s2⟩, h2, h3⟩ := h
    cases h3
    rw [ih h2, remembers_step hb]
    simp only [Bool.or_eq_true, Bool.and_eq_true, decide_eq_true_eq, List.mem_cons, exists_eq_or_imp]
    tauto
/-- **C69.** So it holds exactly as many entries as there were different subjects: these, each once. -/
theorem C69_entries {env : Env} {o : Options} {s : EncState} {hist : List (Nat × Dis.Pdu)} {out : List Cdis.CdisPdu}
    (h : encStream env o {} hist = some (out, s)) : (subjectsOf o hist).Nodup ∧ ∀ a, a ∈ subjectsOf o hist ↔ remembers s a = true := by
  refine ⟨List.nodup_dedup _, fun a => ?_⟩
  rw [C69_encoder h]
  unfold subjectsOf
  simp only [List.mem_dedup, List.mem_filter, List.mem_filterMap]
  have : remembers {} a = false := by cases a <;> rfl
  rw [this]
  constructor
  · rintro ⟨h1, h2⟩; exact .inr ⟨h2, h1⟩
  · rintro (h1 | ⟨h1, h2⟩)
    · cases h1
    · exact ⟨h2, h1⟩
/-- **C69.** The same for a decoder: it remembers the subject of every full update it ever got (of designators only, in full-update mode). -/
theorem C69_decoder (env : Env) (o : Options) (s : DecState) (inp : List Cdis.CdisPdu) (a : Subject) :
    recalls (decStream env o s inp).2 a = true ↔ recalls s a = true ∨ ∃ c ∈ inp, keptFrom o c.body = some a := by
  induction inp generalizing s with
  | nil => simp [decStream]
  | cons c l ih =>
    simp only [decStream, pduDec]
    rw [ih, recalls_step]
    simp only [Bool.or_eq_true, decide_eq_true_eq, List.mem_cons, exists_eq_or_imp]
    tauto

/-! ## Violations -/

/-- the `k`-th entity: a site, an application and an entity number -/
def visitor (k : Nat) : Dis.EntityId := ⟨⟨UInt16.ofNat (k / 2 ^ 32), UInt16.ofNat (k / 2 ^ 16)⟩, UInt16.ofNat k⟩
/-- `n` entities, each of which points its designator once and is never heard of again; one in an hour -/
def visitors (n : Nat) : List (Nat × Dis.Pdu) :=
  (List.range n).map fun k => (k * 3600 * 10 ^ 9, ⟨sampleFor 24, .designator { sample_designator with designating_entity_id := visitor k }⟩)

theorem visitor_inj {j k : Nat} (hj : j < 2 ^ 48) (hk : k < 2 ^ 48) (h : visitor j = visitor k) : j = k := by
  simp only [visitor, Dis.EntityId.mk.injEq, Dis.SimulationAddress.mk.injEq] at h
  have h1 := congrArg UInt16.toNat h.1.1
  have h2 := congrArg UInt16.toNat h.1.2
  have h3 := congrArg UInt16.toNat h.2
  simp only [UInt16.toNat_ofNat'] at h1 h2 h3
  omega
theorem stream_visitors (env : Env) (o : Options) (s : EncState) (l : List Nat) (f : Nat → Nat × Dis.Pdu)
    (hf : ∀ k, ∃ x, (f k).2.body = .designator x) : ∃ out s', encStream env o s (l.map f) = some (out, s') := by
  induction l generalizing s with
  | nil => exact ⟨_, _, rfl⟩
  | cons k l ih =>
    obtain ⟨x, hx⟩ := hf k
    obtain ⟨out, s', h⟩ := ih (desEncodeBody env o (f k).1 s x).2.2
    refine ⟨Cdis.CdisPdu.finalize (headerEnc (f k).2.header) (desEncodeBody env o (f k).1 s x).1 none :: out, s', ?_⟩
    rw [List.map_cons]
    generalize hfk : f k = e at *
    obtain ⟨t, p⟩ := e
    simp only [encStream, pduEnc]
    dsimp only at hx
    rw [hx]
    simp only [bodyEnc, Option.map_some, Option.bind_some]
    rw [h]
    rfl
/-- **C69, violated.** In any mode, after any time: an encoder that `n` entities have passed by, one in an hour, holds `n` entries, whatever else it is
fed.  The PDUs are ones that are read back from the wire as they are. -/
theorem C69_violated (env : Env) (o : Options) {n : Nat} (hn : n ≤ 2 ^ 48) : (∀ e ∈ visitors n, e.2.Wf env.toEnv) ∧
    ∃ out s, encStream env o {} (visitors n) = some (out, s) ∧
    ∀ hist out' s', encStream env o s hist = some (out', s') →
      ((List.range n).map visitor).Nodup ∧ ∀ e ∈ (List.range n).map visitor, remembers s' (.designator e) = true := by
  obtain ⟨out, s, h⟩ := stream_visitors env o {} (List.range n)
    (fun k => (k * 3600 * 10 ^ 9, ⟨sampleFor 24, .designator { sample_designator with designating_entity_id := visitor k }⟩)) (fun k => ⟨_, rfl⟩)
  refine ⟨fun e he => ?_, out, s, h, fun hist out' s' h' => ⟨?_, ?_⟩⟩
  · obtain ⟨k, -, rfl⟩ := List.mem_map.1 he
    exact ⟨sampleFor_wf 24, rfl⟩
  · refine List.Nodup.map_on ?_ List.nodup_range
    intro j hj k hk e
    rw [List.mem_range] at hj hk
    exact visitor_inj (by omega) (by omega) e
  · intro e he
    obtain ⟨k, hk, rfl⟩ := List.mem_map.1 he
    rw [C69_encoder h']
    left
    rw [C69_encoder h]
    right
    exact ⟨rfl, _, List.mem_map.2 ⟨k, hk, rfl⟩, rfl⟩

/-- Seven days of such visitors. -/
example : (visitors 168).length = 168 ∧ Forward (visitors 3) := by
  refine ⟨by simp [visitors], ?_, by decide +kernel⟩
  intro i j ti tj pi pj hij h1 h2
  rcases i with _ | _ | _ | i <;> rcases j with _ | _ | _ | j <;> simp [visitors, List.range, List.range.loop] at h1 h2 <;> omega

end Verif.Props
