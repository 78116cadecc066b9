import Verif.Props.Packets
import Verif.Props.CdisPdu
import Verif.Props.CdisEmission
import Verif.Props.Bodies

/-! # C72: no two PDUs look alike on the wire -/

namespace Verif.Props
open Verif.Dis

/-- **C72.** The octets of one PDU are never the beginning of those of another, whatever follows either: what is written says by itself which PDU it is and
where it ends. -/
theorem C72_dis (env : Env) {p q : Pdu} (hp : p.Wf env) (hq : q.Wf env) {r r' : Bytes} (h : p.ser ++ r = q.ser ++ r') : p = q ∧ r = r' := by
  have h1 := pdu_ser hp r
  rw [h, pdu_ser hq r'] at h1
  injection h1 with h2 h3
  exact ⟨h2.symm, h3.symm⟩

/-- **C72**, datagrams: the octets of a datagram determine the PDUs in it, their number and their order. -/
theorem C72_datagram (env : Env) {ps qs : List Pdu} (hp : ∀ p ∈ ps, p.Wf env) (hq : ∀ q ∈ qs, q.Wf env)
    (h : ps.flatMap Pdu.ser = qs.flatMap Pdu.ser) : ps = qs := by
  induction ps generalizing qs with
  | nil =>
    cases qs with
    | nil => rfl
    | cons q qs =>
      have := congrArg List.length h
      simp [Pdu.ser, PduHeader.length_ser] at this
      omega
  | cons p ps ih =>
    cases qs with
    | nil =>
      have := congrArg List.length h
      simp [Pdu.ser, PduHeader.length_ser] at this
    | cons q qs =>
      rw [List.flatMap_cons, List.flatMap_cons] at h
      obtain ⟨rfl, h'⟩ := C72_dis env (hp p (by simp)) (hq q (by simp)) h
      rw [ih (fun p hm => hp p (by simp [hm])) (fun p hm => hq p (by simp [hm])) h']

/-- **C72**, C-DIS: the same for the bits of a C-DIS PDU, up to what C-DIS rounds (`wire`: the world coordinates). -/
theorem C72_cdis (env : Env) {p q : Cdis.CdisPdu} (hp : p.Wf env) (hq : q.Wf env) {r r' : Cdis.Bits} (h : p.ser ++ r = q.ser ++ r') :
    p.wire = q.wire ∧ r = r' := by
  have h1 := Cdis.CdisPdu.run hp r
  rw [h, Cdis.CdisPdu.run hq r'] at h1
  injection h1 with h2 h3
  exact ⟨h2.symm, h3.symm⟩

/-- **C72**, C-DIS datagrams: the octets, the last one filled up with zeros, determine the PDUs. -/
theorem C72_cdis_datagram (env : Env) {ps qs : List Cdis.CdisPdu} (hp : ∀ p ∈ ps, p.Wf env) (hq : ∀ q ∈ qs, q.Wf env) (hn : ps ≠ []) (hm : qs ≠ [])
    (h : packBits (ps.flatMap Cdis.CdisPdu.ser) = packBits (qs.flatMap Cdis.CdisPdu.ser)) : ps.map Cdis.CdisPdu.wire = qs.map Cdis.CdisPdu.wire := by
  have h1 := C36_octets ps hn hp
  rw [h, C36_octets qs hm hq] at h1
  exact (Option.some.inj h1).symm

/-- **C72**, violated in C-DIS: two Electromagnetic Emission PDUs that differ only in the numbers of their emitters are the same bits. -/
theorem C72_emitters_violated (h : Cdis.CdisHeader) (v : Cdis.ElectromagneticEmission) (n : Nat) :
    (⟨h, .electromagneticEmission { v with emitter_systems := v.emitter_systems.map fun s => { s with number := n } }⟩ : Cdis.CdisPdu).ser =
      (⟨h, .electromagneticEmission v⟩ : Cdis.CdisPdu).ser := by
  have e : (v.emitter_systems.map fun s => ({ s with number := n } : Cdis.EmitterSystem)).flatMap Cdis.EmitterSystem.ser =
      v.emitter_systems.flatMap Cdis.EmitterSystem.ser := by
    rw [List.flatMap_map]
    exact List.flatMap_congr fun s _ => C35_emitter_number_violated s n
  simp only [Cdis.CdisPdu.ser, Cdis.CdisBody.ser, Cdis.ElectromagneticEmission.ser, e, Cdis.wCount8, List.length_map]

/-- **C72**, violated in DIS, if harmlessly: a marking and the same one with a space after it are the same octets. -/
theorem C72_space_violated (h : PduHeader) (x : EntityState) (m : Bytes) (hm : m.length < 11) (cs : UInt8) :
    (⟨h, .entityState { x with entity_marking := ⟨cs, m ++ [0x20]⟩ }⟩ : Pdu).ser = (⟨h, .entityState { x with entity_marking := ⟨cs, m⟩ }⟩ : Pdu).ser := by
  have e : EntityMarking.ser ⟨cs, m ++ [0x20]⟩ = EntityMarking.ser ⟨cs, m⟩ := by
    simp only [EntityMarking.ser, List.length_append, List.length_singleton, List.append_assoc, List.append_cancel_left_eq]
    obtain ⟨k, hk⟩ : ∃ k, 11 - m.length = k + 1 := ⟨10 - m.length, by omega⟩
    have hk' : 11 - (m.length + 1) = k := by omega
    rw [hk, hk', List.replicate_succ]
    rfl
  simp only [Pdu.ser, Body.ser, EntityState.ser, e]

/-! The hypotheses are met: two PDUs that differ in one field. -/
example : (⟨sampleFor 4, .collision sample_collision⟩ : Pdu).ser ≠ (⟨sampleFor 4, .collision { sample_collision with mass := 7 }⟩ : Pdu).ser := by
  intro h
  have := (C72_dis sampleEnv (p := ⟨sampleFor 4, .collision sample_collision⟩) (q := ⟨sampleFor 4, .collision { sample_collision with mass := 7 }⟩)
    ⟨sampleFor_wf 4, rfl⟩ ⟨sampleFor_wf 4, rfl⟩ (r := []) (r' := []) (by rw [List.append_nil, List.append_nil, h])).1
  exact absurd this (by decide +kernel)

end Verif.Props
