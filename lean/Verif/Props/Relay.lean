import Verif.Dis.Pdu
import Verif.Dis.HeaderLemmas
import Verif.Dis.ReadsMgmt
import Verif.Props.Packets

/-!
# C54: relaying a PDU

A program that reads a PDU, whatever its octets, and writes it again (a recorder, a bridge, a filter).  The round trips of
C08 to C15 start from a PDU that is well formed; here the start is any input at all that the library accepts, and the
theorems say what arrives at the other end and which octets may have changed.
-/

namespace Verif.Props
open Verif Verif.Dis

/-! ## Specification -/

/-- What must hold of a PDU that was read, for it to survive being written: the cases left out are those in which the codec
loses information (C04, C05, C07 to C15).  Nothing is required of 28 of the 52 kinds. -/
def Relayable (env : Env) (h : PduHeader) : Body → Prop
  | .other _ => 12 ≤ h.pdu_length.toNat
  | .unsupported _ => False
  | .entityState x => (h.protocol_version = 6 ∨ h.protocol_version = 7) ∧ x.entity_marking.Wf ∧
      VariableParameters.NoSeparation x.variable_parameters
  | .detonation x => x.descriptor.NotExplosion ∧ VariableParameters.NoSeparation x.variable_parameters
  | .entityStateUpdate x => VariableParameters.NoSeparation x.variable_parameters
  | .actionRequest x => Datums.Clean x.variable_datum_records
  | .actionResponse x => Datums.Clean x.variable_datum_records
  | .setData x => Datums.Clean x.variable_datum_records
  | .data x => Datums.Clean x.variable_datum_records
  | .eventReport x => Datums.Clean x.variable_datum_records
  | .comment x => Datums.Clean x.variable_datum_records
  | .actionRequestR x => Datums.Clean x.variable_datum_records
  | .actionResponseR _ => False
  | .setDataR x => Datums.Clean x.variable_datum_records
  | .dataR x => Datums.Clean x.variable_datum_records
  | .eventReportR x => Datums.Clean x.variable_datum_records
  | .commentR x => Datums.Clean x.variable_datum_records
  | .transmitter x => ∀ p ∈ x.variable_transmitter_parameters, p.Wf
  | .signal x => x.data.length % 4 = 0
  | .iff x => x.Clean env
  | .underwaterAcoustic x => ∀ a ∈ x.apas, a.Zero
  | .aggregateState x => x.Clean
  | .transferOwnership x => ∀ s ∈ x.record_specification, s.Small
  | .recordR x => ∀ s ∈ x.record_specification, s.Small
  | .setRecordR x => ∀ s ∈ x.record_specification, s.Small
  | .«attribute» x => x.Clean
  | _ => True

/-- the two kinds of which the reader drops the fixed datum records -/
def NotComment : Body → Prop
  | .comment _ => False
  | .commentR _ => False
  | _ => True

/-- the kinds written octet for octet, except that bits without a meaning are cleared -/
def Copied : Body → Prop
  | .comment _ | .commentR _ => False
  | .entityState _ | .electromagneticEmission _ | .transmitter _ | .signal _ | .iff _ | .underwaterAcoustic _
  | .aggregateState _ | .transferOwnership _ | .recordR _ | .setRecordR _ => False
  | _ => True

/-- `w` is written for what was read from `c` -/
def BodyRelayed (env : Env) (h : PduHeader) (c : Bytes) (b : Body) : Prop :=
  (∀ r, (parseBody env h).run (b.ser h.protocol_version ++ r) = .ok b r) ∧ (b.ser h.protocol_version).length ≤ c.length ∧
  (NotComment b → (b.ser h.protocol_version).length = c.length) ∧ (Copied b → Clears (b.ser h.protocol_version) c)

theorem copied {env : Env} {h : PduHeader} {c : Bytes} {b : Body} (hc : Clears (b.ser h.protocol_version) c) (hw : b.Wf env h)
    (_ : True) : BodyRelayed env h c b := ⟨parseBody_ser hw, Nat.le_of_eq hc.length, fun _ => hc.length, fun _ => hc⟩
theorem sized {env : Env} {h : PduHeader} {c : Bytes} {b : Body} (hc : (b.ser h.protocol_version).length = c.length) (hw : b.Wf env h)
    (_ : True) (hb : Copied b → False) : BodyRelayed env h c b := ⟨parseBody_ser hw, Nat.le_of_eq hc, fun _ => hc, fun hh => (hb hh).elim⟩

/-- Action Response-R is stored as an Action Response, which is written with the same octets -/
theorem relay_57 {env : Env} {h : PduHeader} {c : Bytes} {x : ActionResponseR} (ht : h.pdu_type = 57) (hc : Clears x.ser c) (hw : x.Wf) :
    BodyRelayed env h c (.actionResponse x.asActionResponse) := by
  have e : Body.ser h.protocol_version (.actionResponse x.asActionResponse) = x.ser := rfl
  refine ⟨fun r => ?_, Nat.le_of_eq (by rw [e]; exact hc.length), fun _ => by rw [e]; exact hc.length, fun _ => by rw [e]; exact hc⟩
  rw [parseBody_actionResponseR env ht, e, P.run_bind, ActionResponseR.parse_ser hw]
  rfl

/-! ## The body -/

set_option maxHeartbeats 2000000 in
theorem takes_body (env : Env) (h : PduHeader) : Takes (parseBody env h) (fun c b => Relayable env h b → BodyRelayed env h c b) := by
  unfold parseBody
  refine Takes.ite (fun ht => Takes.bind Rd.spec fun _ x e => Takes.pure ?_) fun n1 => ?_
  · exact fun hR => sized (by rw [List.append_nil]; exact e.1 hR) ⟨ht, e.2 hR, hR.2.2⟩ trivial id
  refine Takes.ite (fun ht => Takes.bind Rd.spec fun _ x e => Takes.pure ?_) fun n2 => ?_
  · exact fun _ => copied (by rw [List.append_nil]; exact e.1) ⟨ht, e.2⟩ trivial
  refine Takes.ite (fun ht => Takes.bind Rd.spec fun _ x e => Takes.pure ?_) fun n3 => ?_
  · exact fun hR => copied (by rw [List.append_nil]; exact e.1 hR.1 hR.2) ⟨ht, e.2.1, hR.1, e.2.2, hR.2⟩ trivial
  refine Takes.ite (fun ht => Takes.bind Rd.spec fun _ x e => Takes.pure ?_) fun n4 => ?_
  · exact fun _ => copied (by rw [List.append_nil]; exact e) ht trivial
  refine Takes.ite (fun ht => Takes.bind Rd.spec fun _ x e => Takes.pure ?_) fun n5 => ?_
  · exact fun _ => copied (by rw [List.append_nil]; exact e.1) ⟨ht, e.2⟩ trivial
  refine Takes.ite (fun ht => Takes.bind Rd.spec fun _ x e => Takes.pure ?_) fun n6 => ?_
  · exact fun _ => copied (by rw [List.append_nil]; exact e.1) ⟨ht, e.2⟩ trivial
  refine Takes.ite (fun ht => Takes.bind Rd.spec fun _ x e => Takes.pure ?_) fun n7 => ?_
  · exact fun _ => copied (by rw [List.append_nil]; exact e.1) ⟨ht, e.2⟩ trivial
  refine Takes.ite (fun ht => Takes.bind Rd.spec fun _ x e => Takes.pure ?_) fun n8 => ?_
  · exact fun _ => copied (by rw [List.append_nil]; exact e) ht trivial
  refine Takes.ite (fun ht => Takes.bind Rd.spec fun _ x e => Takes.pure ?_) fun n9 => ?_
  · exact fun _ => copied (by rw [List.append_nil]; exact e) ht trivial
  refine Takes.ite (fun ht => Takes.bind Rd.spec fun _ x e => Takes.pure ?_) fun n10 => ?_
  · exact fun _ => copied (by rw [List.append_nil]; exact e) ht trivial
  refine Takes.ite (fun ht => Takes.bind Rd.spec fun _ x e => Takes.pure ?_) fun n11 => ?_
  · exact fun _ => copied (by rw [List.append_nil]; exact e) ht trivial
  refine Takes.ite (fun ht => Takes.bind Rd.spec fun _ x e => Takes.pure ?_) fun n12 => ?_
  · exact fun _ => copied (by rw [List.append_nil]; exact e) ht trivial
  refine Takes.ite (fun ht => Takes.bind Rd.spec fun _ x e => Takes.pure ?_) fun n13 => ?_
  · exact fun _ => copied (by rw [List.append_nil]; exact e) ht trivial
  refine Takes.ite (fun ht => Takes.bind Rd.spec fun _ x e => Takes.pure ?_) fun n14 => ?_
  · exact fun _ => copied (by rw [List.append_nil]; exact e) ht trivial
  refine Takes.ite (fun ht => Takes.bind Rd.spec fun _ x e => Takes.pure ?_) fun n15 => ?_
  · exact fun _ => copied (by rw [List.append_nil]; exact e) ht trivial
  refine Takes.ite (fun ht => Takes.bind Rd.spec fun _ x e => Takes.pure ?_) fun n16 => ?_
  · exact fun hR => copied (by rw [List.append_nil]; exact e.1 hR) ⟨ht, e.2 hR⟩ trivial
  refine Takes.ite (fun ht => Takes.bind Rd.spec fun _ x e => Takes.pure ?_) fun n17 => ?_
  · exact fun hR => copied (by rw [List.append_nil]; exact e.1 hR) ⟨ht, e.2 hR⟩ trivial
  refine Takes.ite (fun ht => Takes.bind Rd.spec fun _ x e => Takes.pure ?_) fun n18 => ?_
  · exact fun _ => copied (by rw [List.append_nil]; exact e.1) ⟨ht, e.2⟩ trivial
  refine Takes.ite (fun ht => Takes.bind Rd.spec fun _ x e => Takes.pure ?_) fun n19 => ?_
  · exact fun hR => copied (by rw [List.append_nil]; exact e.1 hR) ⟨ht, e.2 hR⟩ trivial
  refine Takes.ite (fun ht => Takes.bind Rd.spec fun _ x e => Takes.pure ?_) fun n20 => ?_
  · exact fun hR => copied (by rw [List.append_nil]; exact e.1 hR) ⟨ht, e.2 hR⟩ trivial
  refine Takes.ite (fun ht => Takes.bind Rd.spec fun _ x e => Takes.pure ?_) fun n21 => ?_
  · exact fun hR => copied (by rw [List.append_nil]; exact e.1 hR) ⟨ht, e.2 hR⟩ trivial
  refine Takes.ite (fun ht => Takes.bind Rd.spec fun _ x e => Takes.pure ?_) fun n22 => ?_
  · exact fun hR => ⟨parseBody_ser ⟨ht, e.2 hR⟩, by rw [List.append_nil]; exact e.1 hR, fun hh => hh.elim, fun hh => hh.elim⟩
  refine Takes.ite (fun ht => Takes.bind Rd.spec fun _ x e => Takes.pure ?_) fun n23 => ?_
  · exact fun _ => sized (by rw [List.append_nil]; exact e.1 trivial) ⟨ht, e.2⟩ trivial id
  refine Takes.ite (fun ht => Takes.bind Rd.spec fun _ x e => Takes.pure ?_) fun n24 => ?_
  · exact fun _ => copied (by rw [List.append_nil]; exact e) ht trivial
  refine Takes.ite (fun ht => Takes.bind Rd.spec fun _ x e => Takes.pure ?_) fun n25 => ?_
  · exact fun hR => sized (by rw [List.append_nil]; exact e.1 hR) ⟨ht, e.2 hR⟩ trivial id
  refine Takes.ite (fun ht => Takes.bind Rd.spec fun _ x e => Takes.pure ?_) fun n26 => ?_
  · exact fun hR => sized (by rw [List.append_nil]; exact e.1 hR) ⟨ht, e.2, hR⟩ trivial id
  refine Takes.ite (fun ht => Takes.bind Rd.spec fun _ x e => Takes.pure ?_) fun n27 => ?_
  · exact fun _ => copied (by rw [List.append_nil]; exact e) ht trivial
  refine Takes.ite (fun ht => Takes.bind Rd.spec fun _ x e => Takes.pure ?_) fun n28 => ?_
  · exact fun hR => sized (by rw [List.append_nil]; exact e.1 hR) ⟨ht, e.2 hR⟩ trivial id
  refine Takes.ite (fun ht => Takes.bind Rd.spec fun _ x e => Takes.pure ?_) fun n29 => ?_
  · exact fun hR => sized (by rw [List.append_nil]; exact e.1 trivial) ⟨ht, e.2, hR⟩ trivial id
  refine Takes.ite (fun ht => Takes.bind Rd.spec fun _ x e => Takes.pure ?_) fun n30 => ?_
  · exact fun _ => copied (by rw [List.append_nil]; exact e.1) ⟨ht, e.2⟩ trivial
  refine Takes.ite (fun ht => Takes.bind Rd.spec fun _ x e => Takes.pure ?_) fun n33 => ?_
  · exact fun hR => sized (by rw [List.append_nil]; exact e.1 hR) ⟨ht, e.2 hR⟩ trivial id
  refine Takes.ite (fun ht => Takes.bind Rd.spec fun _ x e => Takes.pure ?_) fun n34 => ?_
  · exact fun _ => copied (by rw [List.append_nil]; exact e.1) ⟨ht, e.2⟩ trivial
  refine Takes.ite (fun ht => Takes.bind Rd.spec fun _ x e => Takes.pure ?_) fun n35 => ?_
  · exact fun hR => sized (by rw [List.append_nil]; exact e.1) ⟨ht, e.2 hR⟩ trivial id
  refine Takes.ite (fun ht => Takes.bind Rd.spec fun _ x e => Takes.pure ?_) fun n36 => ?_
  · exact fun _ => copied (by rw [List.append_nil]; exact e) ht trivial
  refine Takes.ite (fun ht => Takes.bind Rd.spec fun _ x e => Takes.pure ?_) fun n51 => ?_
  · exact fun _ => copied (by rw [List.append_nil]; exact e) ht trivial
  refine Takes.ite (fun ht => Takes.bind Rd.spec fun _ x e => Takes.pure ?_) fun n52 => ?_
  · exact fun _ => copied (by rw [List.append_nil]; exact e) ht trivial
  refine Takes.ite (fun ht => Takes.bind Rd.spec fun _ x e => Takes.pure ?_) fun n53 => ?_
  · exact fun _ => copied (by rw [List.append_nil]; exact e) ht trivial
  refine Takes.ite (fun ht => Takes.bind Rd.spec fun _ x e => Takes.pure ?_) fun n54 => ?_
  · exact fun _ => copied (by rw [List.append_nil]; exact e) ht trivial
  refine Takes.ite (fun ht => Takes.bind Rd.spec fun _ x e => Takes.pure ?_) fun n55 => ?_
  · exact fun _ => copied (by rw [List.append_nil]; exact e) ht trivial
  refine Takes.ite (fun ht => Takes.bind Rd.spec fun _ x e => Takes.pure ?_) fun n56 => ?_
  · exact fun hR => copied (by rw [List.append_nil]; exact e.1 hR) ⟨ht, e.2 hR⟩ trivial
  refine Takes.ite (fun ht => Takes.bind Rd.spec fun _ x e => Takes.pure ?_) fun n57 => ?_
  · exact fun hR => relay_57 ht (by rw [List.append_nil]; exact e.1 hR) (e.2 hR)
  refine Takes.ite (fun ht => Takes.bind Rd.spec fun _ x e => Takes.pure ?_) fun n58 => ?_
  · exact fun _ => copied (by rw [List.append_nil]; exact e.1) ⟨ht, e.2⟩ trivial
  refine Takes.ite (fun ht => Takes.bind Rd.spec fun _ x e => Takes.pure ?_) fun n59 => ?_
  · exact fun hR => copied (by rw [List.append_nil]; exact e.1 hR) ⟨ht, e.2 hR⟩ trivial
  refine Takes.ite (fun ht => Takes.bind Rd.spec fun _ x e => Takes.pure ?_) fun n60 => ?_
  · exact fun hR => copied (by rw [List.append_nil]; exact e.1 hR) ⟨ht, e.2 hR⟩ trivial
  refine Takes.ite (fun ht => Takes.bind Rd.spec fun _ x e => Takes.pure ?_) fun n61 => ?_
  · exact fun hR => copied (by rw [List.append_nil]; exact e.1 hR) ⟨ht, e.2 hR⟩ trivial
  refine Takes.ite (fun ht => Takes.bind Rd.spec fun _ x e => Takes.pure ?_) fun n62 => ?_
  · exact fun hR => ⟨parseBody_ser ⟨ht, e.2 hR⟩, by rw [List.append_nil]; exact e.1 hR, fun hh => hh.elim, fun hh => hh.elim⟩
  refine Takes.ite (fun ht => Takes.bind Rd.spec fun _ x e => Takes.pure ?_) fun n63 => ?_
  · exact fun hR => sized (by rw [List.append_nil]; exact e.1) ⟨ht, e.2 hR⟩ trivial id
  refine Takes.ite (fun ht => Takes.bind Rd.spec fun _ x e => Takes.pure ?_) fun n64 => ?_
  · exact fun hR => sized (by rw [List.append_nil]; exact e.1) ⟨ht, e.2 hR⟩ trivial id
  refine Takes.ite (fun ht => Takes.bind Rd.spec fun _ x e => Takes.pure ?_) fun n65 => ?_
  · exact fun _ => copied (by rw [List.append_nil]; exact e.1) ⟨ht, e.2⟩ trivial
  refine Takes.ite (fun ht => Takes.bind Rd.spec fun _ x e => Takes.pure ?_) fun n66 => ?_
  · exact fun _ => copied (by rw [List.append_nil]; exact e) ht trivial
  refine Takes.ite (fun ht => Takes.bind Rd.spec fun _ x e => Takes.pure ?_) fun n67 => ?_
  · exact fun hR => copied (by rw [List.append_nil]; exact e.1 hR) ⟨ht, e.2, hR⟩ trivial
  refine Takes.ite (fun ht => Takes.bind Rd.spec fun _ x e => Takes.pure ?_) fun n72 => ?_
  · exact fun hR => copied (by rw [List.append_nil]; exact e.1 hR) ⟨ht, e.2 hR⟩ trivial
  refine Takes.bind Rd.spec fun _ x e => Takes.pure fun hR => ?_
  refine copied (by rw [List.append_nil, e.1]; exact Clears.refl _) ⟨?_, e.2.2.1, e.2.2.2, ?_⟩ trivial
  · simp only [supportedTypes, List.mem_cons, List.not_mem_nil, n1, n2, n3, n4, n5, n6, n7, n8, n9, n10, n11, n12, n13, n14, n15, n16, n17, n18, n19, n20, n21, n22, n23, n24, n25, n26, n27, n28, n29, n30, n33, n34, n35, n36, n51, n52, n53, n54, n55, n56, n57, n58, n59, n60, n61, n62, n63, n64, n65, n66, n67, n72, or_false, not_false_eq_true]
  · have hR : 12 ≤ h.pdu_length.toNat := hR
    have := e.2.1
    omega

/-- **C23**, the other way round: the body of any PDU read from any input is of the kind its header announces, with the exception
that an Action Response-R is stored as an Action Response; only a type without a body of its own gives `Other`. -/
theorem C23_body_of_type {env : Env} {h : PduHeader} {bs rest : Bytes} {b : Body} (e : (parseBody env h).run bs = .ok b rest) :
    (h.pdu_type ∈ supportedTypes → h.pdu_type ≠ 57 → b.pduType = h.pdu_type) ∧ (h.pdu_type = 57 → b.pduType = 17) ∧
    (h.pdu_type ∉ supportedTypes → ∃ o, b = .other o) := by
  have key : Takes (parseBody env h) (fun _ b => (h.pdu_type ∈ supportedTypes → h.pdu_type ≠ 57 → b.pduType = h.pdu_type) ∧
      (h.pdu_type = 57 → b.pduType = 17) ∧ (h.pdu_type ∉ supportedTypes → ∃ o, b = .other o)) := by
    unfold parseBody
    refine Takes.ite (fun ht => Takes.bind Rd.spec fun _ x _ => Takes.pure ?_) fun n1 => ?_
    · exact ⟨fun _ _ => ht.symm, fun h57 => absurd (ht.symm.trans h57) (by decide), fun hn => absurd (by rw [ht]; decide) hn⟩
    refine Takes.ite (fun ht => Takes.bind Rd.spec fun _ x _ => Takes.pure ?_) fun n2 => ?_
    · exact ⟨fun _ _ => ht.symm, fun h57 => absurd (ht.symm.trans h57) (by decide), fun hn => absurd (by rw [ht]; decide) hn⟩
    refine Takes.ite (fun ht => Takes.bind Rd.spec fun _ x _ => Takes.pure ?_) fun n3 => ?_
    · exact ⟨fun _ _ => ht.symm, fun h57 => absurd (ht.symm.trans h57) (by decide), fun hn => absurd (by rw [ht]; decide) hn⟩
    refine Takes.ite (fun ht => Takes.bind Rd.spec fun _ x _ => Takes.pure ?_) fun n4 => ?_
    · exact ⟨fun _ _ => ht.symm, fun h57 => absurd (ht.symm.trans h57) (by decide), fun hn => absurd (by rw [ht]; decide) hn⟩
    refine Takes.ite (fun ht => Takes.bind Rd.spec fun _ x _ => Takes.pure ?_) fun n5 => ?_
    · exact ⟨fun _ _ => ht.symm, fun h57 => absurd (ht.symm.trans h57) (by decide), fun hn => absurd (by rw [ht]; decide) hn⟩
    refine Takes.ite (fun ht => Takes.bind Rd.spec fun _ x _ => Takes.pure ?_) fun n6 => ?_
    · exact ⟨fun _ _ => ht.symm, fun h57 => absurd (ht.symm.trans h57) (by decide), fun hn => absurd (by rw [ht]; decide) hn⟩
    refine Takes.ite (fun ht => Takes.bind Rd.spec fun _ x _ => Takes.pure ?_) fun n7 => ?_
    · exact ⟨fun _ _ => ht.symm, fun h57 => absurd (ht.symm.trans h57) (by decide), fun hn => absurd (by rw [ht]; decide) hn⟩
    refine Takes.ite (fun ht => Takes.bind Rd.spec fun _ x _ => Takes.pure ?_) fun n8 => ?_
    · exact ⟨fun _ _ => ht.symm, fun h57 => absurd (ht.symm.trans h57) (by decide), fun hn => absurd (by rw [ht]; decide) hn⟩
    refine Takes.ite (fun ht => Takes.bind Rd.spec fun _ x _ => Takes.pure ?_) fun n9 => ?_
    · exact ⟨fun _ _ => ht.symm, fun h57 => absurd (ht.symm.trans h57) (by decide), fun hn => absurd (by rw [ht]; decide) hn⟩
    refine Takes.ite (fun ht => Takes.bind Rd.spec fun _ x _ => Takes.pure ?_) fun n10 => ?_
    · exact ⟨fun _ _ => ht.symm, fun h57 => absurd (ht.symm.trans h57) (by decide), fun hn => absurd (by rw [ht]; decide) hn⟩
    refine Takes.ite (fun ht => Takes.bind Rd.spec fun _ x _ => Takes.pure ?_) fun n11 => ?_
    · exact ⟨fun _ _ => ht.symm, fun h57 => absurd (ht.symm.trans h57) (by decide), fun hn => absurd (by rw [ht]; decide) hn⟩
    refine Takes.ite (fun ht => Takes.bind Rd.spec fun _ x _ => Takes.pure ?_) fun n12 => ?_
    · exact ⟨fun _ _ => ht.symm, fun h57 => absurd (ht.symm.trans h57) (by decide), fun hn => absurd (by rw [ht]; decide) hn⟩
    refine Takes.ite (fun ht => Takes.bind Rd.spec fun _ x _ => Takes.pure ?_) fun n13 => ?_
    · exact ⟨fun _ _ => ht.symm, fun h57 => absurd (ht.symm.trans h57) (by decide), fun hn => absurd (by rw [ht]; decide) hn⟩
    refine Takes.ite (fun ht => Takes.bind Rd.spec fun _ x _ => Takes.pure ?_) fun n14 => ?_
    · exact ⟨fun _ _ => ht.symm, fun h57 => absurd (ht.symm.trans h57) (by decide), fun hn => absurd (by rw [ht]; decide) hn⟩
    refine Takes.ite (fun ht => Takes.bind Rd.spec fun _ x _ => Takes.pure ?_) fun n15 => ?_
    · exact ⟨fun _ _ => ht.symm, fun h57 => absurd (ht.symm.trans h57) (by decide), fun hn => absurd (by rw [ht]; decide) hn⟩
    refine Takes.ite (fun ht => Takes.bind Rd.spec fun _ x _ => Takes.pure ?_) fun n16 => ?_
    · exact ⟨fun _ _ => ht.symm, fun h57 => absurd (ht.symm.trans h57) (by decide), fun hn => absurd (by rw [ht]; decide) hn⟩
    refine Takes.ite (fun ht => Takes.bind Rd.spec fun _ x _ => Takes.pure ?_) fun n17 => ?_
    · exact ⟨fun _ _ => ht.symm, fun h57 => absurd (ht.symm.trans h57) (by decide), fun hn => absurd (by rw [ht]; decide) hn⟩
    refine Takes.ite (fun ht => Takes.bind Rd.spec fun _ x _ => Takes.pure ?_) fun n18 => ?_
    · exact ⟨fun _ _ => ht.symm, fun h57 => absurd (ht.symm.trans h57) (by decide), fun hn => absurd (by rw [ht]; decide) hn⟩
    refine Takes.ite (fun ht => Takes.bind Rd.spec fun _ x _ => Takes.pure ?_) fun n19 => ?_
    · exact ⟨fun _ _ => ht.symm, fun h57 => absurd (ht.symm.trans h57) (by decide), fun hn => absurd (by rw [ht]; decide) hn⟩
    refine Takes.ite (fun ht => Takes.bind Rd.spec fun _ x _ => Takes.pure ?_) fun n20 => ?_
    · exact ⟨fun _ _ => ht.symm, fun h57 => absurd (ht.symm.trans h57) (by decide), fun hn => absurd (by rw [ht]; decide) hn⟩
    refine Takes.ite (fun ht => Takes.bind Rd.spec fun _ x _ => Takes.pure ?_) fun n21 => ?_
    · exact ⟨fun _ _ => ht.symm, fun h57 => absurd (ht.symm.trans h57) (by decide), fun hn => absurd (by rw [ht]; decide) hn⟩
    refine Takes.ite (fun ht => Takes.bind Rd.spec fun _ x _ => Takes.pure ?_) fun n22 => ?_
    · exact ⟨fun _ _ => ht.symm, fun h57 => absurd (ht.symm.trans h57) (by decide), fun hn => absurd (by rw [ht]; decide) hn⟩
    refine Takes.ite (fun ht => Takes.bind Rd.spec fun _ x _ => Takes.pure ?_) fun n23 => ?_
    · exact ⟨fun _ _ => ht.symm, fun h57 => absurd (ht.symm.trans h57) (by decide), fun hn => absurd (by rw [ht]; decide) hn⟩
    refine Takes.ite (fun ht => Takes.bind Rd.spec fun _ x _ => Takes.pure ?_) fun n24 => ?_
    · exact ⟨fun _ _ => ht.symm, fun h57 => absurd (ht.symm.trans h57) (by decide), fun hn => absurd (by rw [ht]; decide) hn⟩
    refine Takes.ite (fun ht => Takes.bind Rd.spec fun _ x _ => Takes.pure ?_) fun n25 => ?_
    · exact ⟨fun _ _ => ht.symm, fun h57 => absurd (ht.symm.trans h57) (by decide), fun hn => absurd (by rw [ht]; decide) hn⟩
    refine Takes.ite (fun ht => Takes.bind Rd.spec fun _ x _ => Takes.pure ?_) fun n26 => ?_
    · exact ⟨fun _ _ => ht.symm, fun h57 => absurd (ht.symm.trans h57) (by decide), fun hn => absurd (by rw [ht]; decide) hn⟩
    refine Takes.ite (fun ht => Takes.bind Rd.spec fun _ x _ => Takes.pure ?_) fun n27 => ?_
    · exact ⟨fun _ _ => ht.symm, fun h57 => absurd (ht.symm.trans h57) (by decide), fun hn => absurd (by rw [ht]; decide) hn⟩
    refine Takes.ite (fun ht => Takes.bind Rd.spec fun _ x _ => Takes.pure ?_) fun n28 => ?_
    · exact ⟨fun _ _ => ht.symm, fun h57 => absurd (ht.symm.trans h57) (by decide), fun hn => absurd (by rw [ht]; decide) hn⟩
    refine Takes.ite (fun ht => Takes.bind Rd.spec fun _ x _ => Takes.pure ?_) fun n29 => ?_
    · exact ⟨fun _ _ => ht.symm, fun h57 => absurd (ht.symm.trans h57) (by decide), fun hn => absurd (by rw [ht]; decide) hn⟩
    refine Takes.ite (fun ht => Takes.bind Rd.spec fun _ x _ => Takes.pure ?_) fun n30 => ?_
    · exact ⟨fun _ _ => ht.symm, fun h57 => absurd (ht.symm.trans h57) (by decide), fun hn => absurd (by rw [ht]; decide) hn⟩
    refine Takes.ite (fun ht => Takes.bind Rd.spec fun _ x _ => Takes.pure ?_) fun n33 => ?_
    · exact ⟨fun _ _ => ht.symm, fun h57 => absurd (ht.symm.trans h57) (by decide), fun hn => absurd (by rw [ht]; decide) hn⟩
    refine Takes.ite (fun ht => Takes.bind Rd.spec fun _ x _ => Takes.pure ?_) fun n34 => ?_
    · exact ⟨fun _ _ => ht.symm, fun h57 => absurd (ht.symm.trans h57) (by decide), fun hn => absurd (by rw [ht]; decide) hn⟩
    refine Takes.ite (fun ht => Takes.bind Rd.spec fun _ x _ => Takes.pure ?_) fun n35 => ?_
    · exact ⟨fun _ _ => ht.symm, fun h57 => absurd (ht.symm.trans h57) (by decide), fun hn => absurd (by rw [ht]; decide) hn⟩
    refine Takes.ite (fun ht => Takes.bind Rd.spec fun _ x _ => Takes.pure ?_) fun n36 => ?_
    · exact ⟨fun _ _ => ht.symm, fun h57 => absurd (ht.symm.trans h57) (by decide), fun hn => absurd (by rw [ht]; decide) hn⟩
    refine Takes.ite (fun ht => Takes.bind Rd.spec fun _ x _ => Takes.pure ?_) fun n51 => ?_
    · exact ⟨fun _ _ => ht.symm, fun h57 => absurd (ht.symm.trans h57) (by decide), fun hn => absurd (by rw [ht]; decide) hn⟩
    refine Takes.ite (fun ht => Takes.bind Rd.spec fun _ x _ => Takes.pure ?_) fun n52 => ?_
    · exact ⟨fun _ _ => ht.symm, fun h57 => absurd (ht.symm.trans h57) (by decide), fun hn => absurd (by rw [ht]; decide) hn⟩
    refine Takes.ite (fun ht => Takes.bind Rd.spec fun _ x _ => Takes.pure ?_) fun n53 => ?_
    · exact ⟨fun _ _ => ht.symm, fun h57 => absurd (ht.symm.trans h57) (by decide), fun hn => absurd (by rw [ht]; decide) hn⟩
    refine Takes.ite (fun ht => Takes.bind Rd.spec fun _ x _ => Takes.pure ?_) fun n54 => ?_
    · exact ⟨fun _ _ => ht.symm, fun h57 => absurd (ht.symm.trans h57) (by decide), fun hn => absurd (by rw [ht]; decide) hn⟩
    refine Takes.ite (fun ht => Takes.bind Rd.spec fun _ x _ => Takes.pure ?_) fun n55 => ?_
    · exact ⟨fun _ _ => ht.symm, fun h57 => absurd (ht.symm.trans h57) (by decide), fun hn => absurd (by rw [ht]; decide) hn⟩
    refine Takes.ite (fun ht => Takes.bind Rd.spec fun _ x _ => Takes.pure ?_) fun n56 => ?_
    · exact ⟨fun _ _ => ht.symm, fun h57 => absurd (ht.symm.trans h57) (by decide), fun hn => absurd (by rw [ht]; decide) hn⟩
    refine Takes.ite (fun ht => Takes.bind Rd.spec fun _ x _ => Takes.pure ?_) fun n57 => ?_
    · exact ⟨fun _ hn => absurd ht hn, fun _ => rfl, fun hn => absurd (by rw [ht]; decide) hn⟩
    refine Takes.ite (fun ht => Takes.bind Rd.spec fun _ x _ => Takes.pure ?_) fun n58 => ?_
    · exact ⟨fun _ _ => ht.symm, fun h57 => absurd (ht.symm.trans h57) (by decide), fun hn => absurd (by rw [ht]; decide) hn⟩
    refine Takes.ite (fun ht => Takes.bind Rd.spec fun _ x _ => Takes.pure ?_) fun n59 => ?_
    · exact ⟨fun _ _ => ht.symm, fun h57 => absurd (ht.symm.trans h57) (by decide), fun hn => absurd (by rw [ht]; decide) hn⟩
    refine Takes.ite (fun ht => Takes.bind Rd.spec fun _ x _ => Takes.pure ?_) fun n60 => ?_
    · exact ⟨fun _ _ => ht.symm, fun h57 => absurd (ht.symm.trans h57) (by decide), fun hn => absurd (by rw [ht]; decide) hn⟩
    refine Takes.ite (fun ht => Takes.bind Rd.spec fun _ x _ => Takes.pure ?_) fun n61 => ?_
    · exact ⟨fun _ _ => ht.symm, fun h57 => absurd (ht.symm.trans h57) (by decide), fun hn => absurd (by rw [ht]; decide) hn⟩
    refine Takes.ite (fun ht => Takes.bind Rd.spec fun _ x _ => Takes.pure ?_) fun n62 => ?_
    · exact ⟨fun _ _ => ht.symm, fun h57 => absurd (ht.symm.trans h57) (by decide), fun hn => absurd (by rw [ht]; decide) hn⟩
    refine Takes.ite (fun ht => Takes.bind Rd.spec fun _ x _ => Takes.pure ?_) fun n63 => ?_
    · exact ⟨fun _ _ => ht.symm, fun h57 => absurd (ht.symm.trans h57) (by decide), fun hn => absurd (by rw [ht]; decide) hn⟩
    refine Takes.ite (fun ht => Takes.bind Rd.spec fun _ x _ => Takes.pure ?_) fun n64 => ?_
    · exact ⟨fun _ _ => ht.symm, fun h57 => absurd (ht.symm.trans h57) (by decide), fun hn => absurd (by rw [ht]; decide) hn⟩
    refine Takes.ite (fun ht => Takes.bind Rd.spec fun _ x _ => Takes.pure ?_) fun n65 => ?_
    · exact ⟨fun _ _ => ht.symm, fun h57 => absurd (ht.symm.trans h57) (by decide), fun hn => absurd (by rw [ht]; decide) hn⟩
    refine Takes.ite (fun ht => Takes.bind Rd.spec fun _ x _ => Takes.pure ?_) fun n66 => ?_
    · exact ⟨fun _ _ => ht.symm, fun h57 => absurd (ht.symm.trans h57) (by decide), fun hn => absurd (by rw [ht]; decide) hn⟩
    refine Takes.ite (fun ht => Takes.bind Rd.spec fun _ x _ => Takes.pure ?_) fun n67 => ?_
    · exact ⟨fun _ _ => ht.symm, fun h57 => absurd (ht.symm.trans h57) (by decide), fun hn => absurd (by rw [ht]; decide) hn⟩
    refine Takes.ite (fun ht => Takes.bind Rd.spec fun _ x _ => Takes.pure ?_) fun n72 => ?_
    · exact ⟨fun _ _ => ht.symm, fun h57 => absurd (ht.symm.trans h57) (by decide), fun hn => absurd (by rw [ht]; decide) hn⟩
    refine Takes.bind Rd.spec fun _ x _ => Takes.pure ⟨fun hs => ?_, fun h57 => absurd h57 n57, fun _ => ⟨x, rfl⟩⟩
    simp only [supportedTypes, List.mem_cons, List.not_mem_nil, n1, n2, n3, n4, n5, n6, n7, n8, n9, n10, n11, n12, n13, n14, n15, n16, n17, n18, n19, n20, n21, n22, n23, n24, n25, n26, n27, n28, n29, n30, n33, n34, n35, n36, n51, n52, n53, n54, n55, n56, n57, n58, n59, n60, n61, n62, n63, n64, n65, n66, n67, n72, or_false] at hs
  obtain ⟨_, _, hq⟩ := key _ _ _ e
  exact hq

/-! ## The header -/

/-- the PDU as it arrives: the padding of its header is written as zero -/
def Relayed (p : Pdu) : Pdu := { p with header := { p.header with padding := 0 } }

theorem relayed_ser (p : Pdu) : (Relayed p).ser = p.ser := rfl

theorem takes_header : Takes PduHeader.parse (fun c h => Clears h.ser c ∧
    (1 ≤ h.protocol_version.toNat → h.protocol_version.toNat ≤ 7 → PduHeader.Wf { h with padding := 0 })) := by
  unfold PduHeader.parse
  refine Takes.bind Rd.spec fun _ v e1 => Takes.bind Rd.spec fun _ x e2 => Takes.bind Rd.spec fun _ t e3 =>
    Takes.bind Rd.spec fun _ f e4 => Takes.bind Rd.spec fun _ ts e5 => Takes.bind Rd.spec fun _ l e6 => ?_
  subst e1 e2 e3 e4 e5 e6
  refine Takes.ite (fun hv => Takes.bind Rd.spec fun _ pd e => Takes.pure ⟨?_, fun _ _ => ⟨rfl, .inr ⟨hv.1, hv.2, rfl⟩⟩⟩) fun hv =>
    Takes.bind Rd.spec fun _ s e => Takes.bind Rd.spec fun _ pd e' => Takes.pure ⟨?_, fun h1 h7 => ⟨rfl, .inl ⟨?_, _, rfl, C02_read_wf t s⟩⟩⟩
  · subst e
    have h7 : v ≠ 7 := fun h => by subst h; exact absurd hv.2 (by decide)
    simp only [PduHeader.ser, h7, if_false, List.append_nil, List.append_assoc]
    repeat' (first | exact Clears.refl _ | exact Clears.e16_zero | apply Clears.append)
  · subst e e'
    by_cases h7 : v = 7
    · subst h7
      simp only [PduHeader.ser, if_true, List.append_nil, List.append_assoc]
      repeat' (first | exact Clears.refl _ | exact Clears.e8_zero | apply Clears.append)
      refine Clears.e8_and (UInt8.toNat.inj ?_)
      rw [UInt8.toNat_and, C02_octet_round_trip, Nat.and_assoc, Nat.and_comm (definedBits _), ← Nat.and_assoc, Nat.and_self]
    · simp only [PduHeader.ser, h7, if_false, List.append_nil, List.append_assoc]
      repeat' (first | exact Clears.refl _ | exact Clears.zeros (n := 2) rfl | apply Clears.append)
  · apply UInt8.toNat.inj
    simp only at h1 h7 ⊢
    show v.toNat = 7
    omega

/-! ## The PDU -/

theorem relay_facts {env : Env} {bs rest : Bytes} {p : Pdu} (h : (pdu env).run bs = .ok p rest)
    (hr : Relayable env p.header p.body) : ∃ c, bs = c ++ rest ∧
    (1 ≤ p.header.protocol_version.toNat → p.header.protocol_version.toNat ≤ 7 → ∀ r, (pdu env).run (p.ser ++ r) = .ok (Relayed p) r) ∧
    p.ser.length ≤ c.length ∧ (NotComment p.body → p.ser.length = c.length) ∧ (Copied p.body → Clears p.ser c) := by
  obtain ⟨mid, h1, h2⟩ := pdu_split h
  obtain ⟨c1, e1, f1, f2⟩ := takes_header _ _ _ h1
  obtain ⟨c2, e2, g⟩ := takes_body env p.header _ _ _ h2
  obtain ⟨g1, g2, g3, g4⟩ := g hr
  have hl := f1.length
  refine ⟨c1 ++ c2, by rw [e1, e2, List.append_assoc], fun a b r => ?_, ?_, fun hn => ?_, fun hc => ?_⟩
  · have hs : ({ p.header with padding := 0 } : PduHeader).ser = p.header.ser := rfl
    have hb : parseBody env { p.header with padding := 0 } = parseBody env p.header := rfl
    have hh := PduHeader.parse_ser (f2 a b) (p.body.ser p.header.protocol_version ++ r)
    rw [hs] at hh
    simp only [pdu, Pdu.ser, List.append_assoc, P.run_bind, hh, Res.andThen, hb, g1, P.run_pure]
    rfl
  · simp only [Pdu.ser, List.length_append]; omega
  · have := g3 hn; simp only [Pdu.ser, List.length_append]; omega
  · exact Clears.append f1 (g4 hc)

/-- **C54.** A PDU read from any input, of protocol version 1 to 7, and written again, is read as the same PDU by whoever
receives it (whatever follows it). -/
theorem C54_relay {env : Env} {bs rest : Bytes} {p : Pdu} (h : (pdu env).run bs = .ok p rest)
    (hv : 1 ≤ p.header.protocol_version.toNat ∧ p.header.protocol_version.toNat ≤ 7) (hr : Relayable env p.header p.body)
    (r : Bytes) : (pdu env).run (p.ser ++ r) = .ok { p with header := { p.header with padding := 0 } } r := by
  obtain ⟨c, _, hw, _⟩ := relay_facts h hr
  exact hw hv.1 hv.2 r

/-- **C54**, size: the PDU is written with as many octets as were read for it, except that Comment PDUs may shrink. -/
theorem C54_size {env : Env} {bs rest : Bytes} {p : Pdu} (h : (pdu env).run bs = .ok p rest)
    (hr : Relayable env p.header p.body) : p.ser.length ≤ bs.length - rest.length ∧
    (NotComment p.body → p.ser.length = bs.length - rest.length) := by
  obtain ⟨c, e, _, h1, h2, _⟩ := relay_facts h hr
  have : bs.length = c.length + rest.length := by rw [e, List.length_append]
  exact ⟨by omega, fun hn => by have := h2 hn; omega⟩

/-- **C54**, so a length field that was right is still right. -/
theorem C54_length_field {env : Env} {bs rest : Bytes} {p : Pdu} (h : (pdu env).run bs = .ok p rest)
    (hr : Relayable env p.header p.body) (hn : NotComment p.body) (hl : p.header.pdu_length.toNat = bs.length - rest.length) :
    p.header.pdu_length.toNat = p.ser.length := by rw [hl, (C54_size h hr).2 hn]

/-- **C54**, octets: all kinds of PDU but twelve are written octet for octet as they came in, except that bits may be cleared: no bit
is ever set, moved or added. -/
theorem C54_octets {env : Env} {bs rest : Bytes} {p : Pdu} (h : (pdu env).run bs = .ok p rest)
    (hr : Relayable env p.header p.body) (hc : Copied p.body) : ∃ c, bs = c ++ rest ∧ c.length = p.ser.length ∧
    ∀ (i : Nat) (hi : i < c.length) (hj : i < p.ser.length), p.ser[i] &&& c[i] = p.ser[i] := by
  obtain ⟨c, e, _, _, _, h3⟩ := relay_facts h hr
  have hC := h3 hc
  exact ⟨c, e, hC.length.symm, fun i hi hj => List.Forall₂.get hC hj hi⟩

/-- **C54**, the second hop changes nothing: what the receiver writes is, octet for octet, what it read. -/
theorem C54_second_hop {env : Env} {bs rest : Bytes} {p q : Pdu} (h : (pdu env).run bs = .ok p rest)
    (hv : 1 ≤ p.header.protocol_version.toNat ∧ p.header.protocol_version.toNat ≤ 7) (hr : Relayable env p.header p.body)
    {r r' : Bytes} (hq : (pdu env).run (p.ser ++ r) = .ok q r') : q.ser = p.ser ∧ r' = r := by
  rw [C54_relay h hv hr] at hq
  cases hq
  exact ⟨rfl, rfl⟩

/-- **C54**, packets: whatever was in a packet, the PDUs found in it and written one after the other are all found again. -/
theorem C54_packet {env : Env} {bs : Bytes} {ps : List Pdu} (h : parse env bs = .ok ps)
    (hp : ∀ p ∈ ps, (1 ≤ p.header.protocol_version.toNat ∧ p.header.protocol_version.toNat ≤ 7) ∧ Relayable env p.header p.body) :
    parse env (ps.flatMap Pdu.ser) = .ok (ps.map fun p => { p with header := { p.header with padding := 0 } }) := by
  unfold parse at h
  cases e : (parsePackets env).run bs with
  | err => rw [e] at h; cases h
  | panic => rw [e] at h; cases h
  | ok qs r =>
    rw [e] at h
    have hq : qs = ps := Outcome.ok.inj h
    subst hq
    obtain ⟨hR, hne, hE⟩ := (parsePackets_iff env _ _ _).1 e
    have hw : Reads env (qs.flatMap Pdu.ser) (qs.map Relayed) [] := by
      clear h e hne hE
      induction hR with
      | nil => exact .nil _
      | cons h1 _ ih =>
        obtain ⟨hv, hr⟩ := hp _ (List.mem_cons_self ..)
        exact .cons (C54_relay h1 hv hr _) (ih fun q hq => hp q (List.mem_cons_of_mem _ hq))
    unfold parse
    rw [(parsePackets_iff env _ _ []).2 ⟨hw, by simpa using hne, pdu_short (by decide)⟩]
    rfl

/-! ## Non-vacuity -/

/-- a Receiver PDU (version 7) whose status octet, header padding and body padding carry stray bits -/
def dirtyReceiver : Bytes :=
  [7, 1, 27, 4, 0, 0, 0, 9, 0, 36, 0xFF, 0xAA, 0, 1, 0, 2, 0, 3, 0, 4, 0, 1, 0xBE, 0xEF, 0x41, 0, 0, 0, 0, 5, 0, 6, 0, 7, 0, 8]
/-- what is written for it -/
def cleanReceiver : Bytes :=
  [7, 1, 27, 4, 0, 0, 0, 9, 0, 36, 0x3F, 0, 0, 1, 0, 2, 0, 3, 0, 4, 0, 1, 0, 0, 0x41, 0, 0, 0, 0, 5, 0, 6, 0, 7, 0, 8]

-- it is read, relayable and of a kind that is copied; the stray bits are gone after the first hop, and only those
example : ∃ p, (pdu sampleEnv).run dirtyReceiver = .ok p [] ∧ Relayable sampleEnv p.header p.body ∧ Copied p.body ∧ NotComment p.body ∧
    p.header.protocol_version = 7 ∧ p.header.padding = 0xAA ∧ p.ser = cleanReceiver :=
  ⟨_, rfl, trivial, trivial, trivial, rfl, rfl, by decide⟩
-- a PDU with a condition: a Signal PDU with four octets of data
example : ∃ p, (pdu sampleEnv).run [6, 1, 26, 4, 0, 0, 0, 9, 0, 36, 0, 1, 0, 1, 0, 2, 0, 3, 0, 4, 0, 2, 0, 0, 0, 0, 0x1F, 0x40, 0, 32, 0, 4, 9, 8, 7, 6]
      = .ok p [] ∧ Relayable sampleEnv p.header p.body :=
  ⟨_, rfl, by show (List.length _) % 4 = 0; decide⟩

-- an Action Response-R PDU is taken for an Action Response, and survives all the same
example : ∃ p, (pdu sampleEnv).run [7, 1, 57, 10, 0, 0, 0, 9, 0, 40, 0, 0, 0, 1, 0, 2, 0, 3, 0, 1, 0, 2, 0, 4, 0, 0, 0, 9, 0, 0, 0, 1,
      0, 0, 0, 0, 0, 0, 0, 0] = .ok p [] ∧ p.header.pdu_type = 57 ∧ Relayable sampleEnv p.header p.body :=
  ⟨_, rfl, rfl, fun _ h => nomatch h⟩

/-- a Fire PDU of version 8, fire type indicator set -/
def fireV8 : Bytes := [8, 1, 2, 2, 0, 0, 0, 9, 0, 96, 0x10, 0] ++ List.replicate 84 1

/-- **C54** needs its condition on the version: a version 8 Fire PDU with the fire type indicator set (an expendable) is written
without it, so the receiver reads a munition. -/
theorem C54_version_8 : ∃ (bs : Bytes) (p q : Pdu), (pdu sampleEnv).run bs = .ok p [] ∧ p.header.protocol_version = 8 ∧
    Relayable sampleEnv p.header p.body ∧ (pdu sampleEnv).run p.ser = .ok q [] ∧ q.body ≠ p.body :=
  ⟨fireV8, _, _, rfl, rfl, trivial, rfl, by decide⟩

end Verif.Props
