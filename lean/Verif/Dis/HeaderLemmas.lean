import Verif.Dis.Header

namespace Verif.Dis
open Verif.P
set_option linter.unusedSimpArgs false
set_option linter.unusedVariables false

/-- walk down a chain of `if`s whose conditions `omega` can decide -/
macro "ifs_omega" : tactic => `(tactic|
  ((repeat (first | refine (if_neg (by omega)).trans ?_ | (refine (if_pos (by omega)).trans ?_))); try rfl))

theorem indicator_none {u : Prop} {w : Nat} {o : Option UInt8} (h : indicatorOk u w o) (hu : ¬ u) : o = none := by
  cases o with
  | none => rfl
  | some v => exact absurd (h.1.2 (by simp)) hu
theorem indicator_some {u : Prop} {w : Nat} {o : Option UInt8} (h : indicatorOk u w o) (hu : u) :
    ∃ v : UInt8, o = some v ∧ v.toNat < 2 ^ w := by
  cases o with
  | none => exact absurd rfl (h.1.1 hu)
  | some v => exact ⟨v, rfl, h.2 v rfl⟩

/-- the indicators survive being packed into one octet -/
theorem pack (c l t x : UInt8) (hc : c.toNat < 2) (hl : l.toNat < 4) (ht : t.toNat < 2) (hx : x.toNat < 4) :
    let b := (x <<< 4) ||| (c <<< 3) ||| (l <<< 1) ||| t
    statusTei b = t ∧ statusLvc b = l ∧ statusCei b = c ∧ statusDti b = x ∧ statusRai b = x ∧ statusIai b = x ∧
    b.toNat = t.toNat + 2 * l.toNat + 8 * c.toNat + 16 * x.toNat := by
  revert c l t x
  have key : ∀ (c : Fin 2) (l : Fin 4) (t : Fin 2) (x : Fin 4),
      let c := UInt8.ofNat c.val; let l := UInt8.ofNat l.val
      let t := UInt8.ofNat t.val; let x := UInt8.ofNat x.val
      let b := (x <<< 4) ||| (c <<< 3) ||| (l <<< 1) ||| t
      statusTei b = t ∧ statusLvc b = l ∧ statusCei b = c ∧ statusDti b = x ∧ statusRai b = x ∧ statusIai b = x ∧
      b.toNat = t.toNat + 2 * l.toNat + 8 * c.toNat + 16 * x.toNat := by decide
  intro c l t x hc hl ht hx
  have := key ⟨c.toNat, hc⟩ ⟨l.toNat, hl⟩ ⟨t.toNat, ht⟩ ⟨x.toNat, hx⟩
  simpa using this

theorem pack0 (c l t : UInt8) (hc : c.toNat < 2) (hl : l.toNat < 4) (ht : t.toNat < 2) :
    let b := (c <<< 3) ||| (l <<< 1) ||| t
    statusTei b = t ∧ statusLvc b = l ∧ statusCei b = c ∧
    b.toNat = t.toNat + 2 * l.toNat + 8 * c.toNat := by
  have h := pack c l t 0 hc hl ht (by decide)
  simp only [show (0 : UInt8) <<< 4 = 0 from rfl, UInt8.zero_or] at h
  exact ⟨h.1, h.2.1, h.2.2.1, by have := h.2.2.2.2.2.2; simpa using this⟩

theorem pack_fti (c l x : UInt8) (hc : c.toNat < 2) (hl : l.toNat < 4) (hx : x.toNat < 2) :
    let b := (x <<< 4) ||| (c <<< 3) ||| (l <<< 1)
    statusLvc b = l ∧ statusCei b = c ∧ statusFti b = x ∧
    b.toNat = 2 * l.toNat + 8 * c.toNat + 16 * x.toNat := by
  revert c l x
  have key : ∀ (c : Fin 2) (l : Fin 4) (x : Fin 2),
      let c := UInt8.ofNat c.val; let l := UInt8.ofNat l.val; let x := UInt8.ofNat x.val
      let b := (x <<< 4) ||| (c <<< 3) ||| (l <<< 1)
      statusLvc b = l ∧ statusCei b = c ∧ statusFti b = x ∧
      b.toNat = 2 * l.toNat + 8 * c.toNat + 16 * x.toNat := by decide
  intro c l x hc hl hx
  have := key ⟨c.toNat, hc⟩ ⟨l.toNat, hl⟩ ⟨x.toNat, hx⟩
  simpa using this

theorem pack_iff (c l t i a : UInt8) (hc : c.toNat < 2) (hl : l.toNat < 4) (ht : t.toNat < 2) (hi : i.toNat < 2)
    (ha : a.toNat < 2) :
    let b := (a <<< 5) ||| (i <<< 4) ||| (c <<< 3) ||| (l <<< 1) ||| t
    statusTei b = t ∧ statusLvc b = l ∧ statusCei b = c ∧ statusIsm b = i ∧ statusAii b = a ∧
    b.toNat = t.toNat + 2 * l.toNat + 8 * c.toNat + 16 * i.toNat + 32 * a.toNat := by
  revert c l t i a
  have key : ∀ (c : Fin 2) (l : Fin 4) (t : Fin 2) (i : Fin 2) (a : Fin 2),
      let c := UInt8.ofNat c.val; let l := UInt8.ofNat l.val
      let t := UInt8.ofNat t.val; let i := UInt8.ofNat i.val; let a := UInt8.ofNat a.val
      let b := (a <<< 5) ||| (i <<< 4) ||| (c <<< 3) ||| (l <<< 1) ||| t
      statusTei b = t ∧ statusLvc b = l ∧ statusCei b = c ∧ statusIsm b = i ∧ statusAii b = a ∧
      b.toNat = t.toNat + 2 * l.toNat + 8 * c.toNat + 16 * i.toNat + 32 * a.toNat := by decide
  intro c l t i a hc hl ht hi ha
  have := key ⟨c.toNat, hc⟩ ⟨l.toNat, hl⟩ ⟨t.toNat, ht⟩ ⟨i.toNat, hi⟩ ⟨a.toNat, ha⟩
  simpa using this

/-- the case distinction on PDU types used by the proofs below -/
theorem type_classes (t : Nat) :
    (t = 0 ∨ 72 < t) ∨
    (t = 72) ∨
    (t = 1 ∨ t = 23 ∨ t = 24 ∨ t = 41 ∨ t = 67) ∨
    (t = 2) ∨
    (t = 3) ∨
    (t = 25 ∨ t = 26 ∨ t = 27) ∨
    (t = 31 ∨ t = 32) ∨
    (t = 28) ∨
    ((4 ≤ t ∧ t ≤ 22) ∨ (29 ≤ t ∧ t ≤ 30) ∨ (33 ≤ t ∧ t ≤ 40) ∨ (42 ≤ t ∧ t ≤ 66) ∨ (68 ≤ t ∧ t ≤ 71)) := by omega

theorem status_0 (s : PduStatus) (p : UInt8) (h : s.Wf p) (hc : let t := p.toNat; t = 0 ∨ 72 < t) :
    parsePduStatusFields p (serializePduStatus s p) = s ∧ (serializePduStatus s p).toNat = s.octet := by
  simp only at hc
  obtain ⟨a_tei, a_lvc, a_cei, a_fti, a_dti, a_rai, a_iai, a_ism, a_aii⟩ := h
  obtain ⟨o_tei, o_lvc, o_cei, o_fti, o_dti, o_rai, o_iai, o_ism, o_aii⟩ := s
  simp only at a_tei a_lvc a_cei a_fti a_dti a_rai a_iai a_ism a_aii
  obtain rfl := indicator_none a_tei (by simp only [usesTei, List.mem_cons, List.not_mem_nil, or_false]; omega)
  obtain rfl := indicator_none a_lvc (by simp only [usesLvc, List.mem_cons, List.not_mem_nil, or_false]; omega)
  obtain rfl := indicator_none a_cei (by simp only [usesCei, List.mem_cons, List.not_mem_nil, or_false]; omega)
  obtain rfl := indicator_none a_fti (by simp only [usesFti, List.mem_cons, List.not_mem_nil, or_false]; omega)
  obtain rfl := indicator_none a_dti (by simp only [usesDti, List.mem_cons, List.not_mem_nil, or_false]; omega)
  obtain rfl := indicator_none a_rai (by simp only [usesRai, List.mem_cons, List.not_mem_nil, or_false]; omega)
  obtain rfl := indicator_none a_iai (by simp only [usesIai, List.mem_cons, List.not_mem_nil, or_false]; omega)
  obtain rfl := indicator_none a_ism (by simp only [usesIsm, List.mem_cons, List.not_mem_nil, or_false]; omega)
  obtain rfl := indicator_none a_aii (by simp only [usesAii, List.mem_cons, List.not_mem_nil, or_false]; omega)
  clear a_tei a_lvc a_cei a_fti a_dti a_rai a_iai a_ism a_aii
  generalize ht : p.toNat = t at hc
  have e : serializePduStatus {} p = 0 := by
    unfold serializePduStatus; dsimp only; ifs_omega
  have e2 : parsePduStatusFields p 0 = {} := by
    unfold parsePduStatusFields; dsimp only; ifs_omega
  rw [e, e2]; exact ⟨rfl, rfl⟩

theorem status_72 (s : PduStatus) (p : UInt8) (h : s.Wf p) (hc : let t := p.toNat; t = 72) :
    parsePduStatusFields p (serializePduStatus s p) = s ∧ (serializePduStatus s p).toNat = s.octet := by
  simp only at hc
  obtain ⟨a_tei, a_lvc, a_cei, a_fti, a_dti, a_rai, a_iai, a_ism, a_aii⟩ := h
  obtain ⟨o_tei, o_lvc, o_cei, o_fti, o_dti, o_rai, o_iai, o_ism, o_aii⟩ := s
  simp only at a_tei a_lvc a_cei a_fti a_dti a_rai a_iai a_ism a_aii
  obtain rfl := indicator_none a_tei (by simp only [usesTei, List.mem_cons, List.not_mem_nil, or_false]; omega)
  obtain ⟨v_lvc, rfl, h_lvc⟩ := indicator_some a_lvc (by simp only [usesLvc, List.mem_cons, List.not_mem_nil, or_false]; omega)
  obtain rfl := indicator_none a_cei (by simp only [usesCei, List.mem_cons, List.not_mem_nil, or_false]; omega)
  obtain rfl := indicator_none a_fti (by simp only [usesFti, List.mem_cons, List.not_mem_nil, or_false]; omega)
  obtain rfl := indicator_none a_dti (by simp only [usesDti, List.mem_cons, List.not_mem_nil, or_false]; omega)
  obtain rfl := indicator_none a_rai (by simp only [usesRai, List.mem_cons, List.not_mem_nil, or_false]; omega)
  obtain rfl := indicator_none a_iai (by simp only [usesIai, List.mem_cons, List.not_mem_nil, or_false]; omega)
  obtain rfl := indicator_none a_ism (by simp only [usesIsm, List.mem_cons, List.not_mem_nil, or_false]; omega)
  obtain rfl := indicator_none a_aii (by simp only [usesAii, List.mem_cons, List.not_mem_nil, or_false]; omega)
  clear a_tei a_lvc a_cei a_fti a_dti a_rai a_iai a_ism a_aii
  have k := pack0 0 v_lvc 0 (by decide) h_lvc (by decide)
  generalize ht : p.toNat = t at hc
  rcases hc with rfl <;>
  simp (decide := true) only [parsePduStatusFields, serializePduStatus, ht, if_true, if_false, PduStatus.octet, Option.elim] at k ⊢ <;>
  simp_all (decide := true)

theorem status_tcl (s : PduStatus) (p : UInt8) (h : s.Wf p) (hc : let t := p.toNat; t = 1 ∨ t = 23 ∨ t = 24 ∨ t = 41 ∨ t = 67) :
    parsePduStatusFields p (serializePduStatus s p) = s ∧ (serializePduStatus s p).toNat = s.octet := by
  simp only at hc
  obtain ⟨a_tei, a_lvc, a_cei, a_fti, a_dti, a_rai, a_iai, a_ism, a_aii⟩ := h
  obtain ⟨o_tei, o_lvc, o_cei, o_fti, o_dti, o_rai, o_iai, o_ism, o_aii⟩ := s
  simp only at a_tei a_lvc a_cei a_fti a_dti a_rai a_iai a_ism a_aii
  obtain ⟨v_tei, rfl, h_tei⟩ := indicator_some a_tei (by simp only [usesTei, List.mem_cons, List.not_mem_nil, or_false]; omega)
  obtain ⟨v_lvc, rfl, h_lvc⟩ := indicator_some a_lvc (by simp only [usesLvc, List.mem_cons, List.not_mem_nil, or_false]; omega)
  obtain ⟨v_cei, rfl, h_cei⟩ := indicator_some a_cei (by simp only [usesCei, List.mem_cons, List.not_mem_nil, or_false]; omega)
  obtain rfl := indicator_none a_fti (by simp only [usesFti, List.mem_cons, List.not_mem_nil, or_false]; omega)
  obtain rfl := indicator_none a_dti (by simp only [usesDti, List.mem_cons, List.not_mem_nil, or_false]; omega)
  obtain rfl := indicator_none a_rai (by simp only [usesRai, List.mem_cons, List.not_mem_nil, or_false]; omega)
  obtain rfl := indicator_none a_iai (by simp only [usesIai, List.mem_cons, List.not_mem_nil, or_false]; omega)
  obtain rfl := indicator_none a_ism (by simp only [usesIsm, List.mem_cons, List.not_mem_nil, or_false]; omega)
  obtain rfl := indicator_none a_aii (by simp only [usesAii, List.mem_cons, List.not_mem_nil, or_false]; omega)
  clear a_tei a_lvc a_cei a_fti a_dti a_rai a_iai a_ism a_aii
  have k := pack0 v_cei v_lvc v_tei h_cei h_lvc h_tei
  generalize ht : p.toNat = t at hc
  rcases hc with rfl | rfl | rfl | rfl | rfl <;>
  simp (decide := true) only [parsePduStatusFields, serializePduStatus, ht, if_true, if_false, PduStatus.octet, Option.elim] at k ⊢ <;>
  simp_all (decide := true)

theorem status_fire (s : PduStatus) (p : UInt8) (h : s.Wf p) (hc : let t := p.toNat; t = 2) :
    parsePduStatusFields p (serializePduStatus s p) = s ∧ (serializePduStatus s p).toNat = s.octet := by
  simp only at hc
  obtain ⟨a_tei, a_lvc, a_cei, a_fti, a_dti, a_rai, a_iai, a_ism, a_aii⟩ := h
  obtain ⟨o_tei, o_lvc, o_cei, o_fti, o_dti, o_rai, o_iai, o_ism, o_aii⟩ := s
  simp only at a_tei a_lvc a_cei a_fti a_dti a_rai a_iai a_ism a_aii
  obtain rfl := indicator_none a_tei (by simp only [usesTei, List.mem_cons, List.not_mem_nil, or_false]; omega)
  obtain ⟨v_lvc, rfl, h_lvc⟩ := indicator_some a_lvc (by simp only [usesLvc, List.mem_cons, List.not_mem_nil, or_false]; omega)
  obtain ⟨v_cei, rfl, h_cei⟩ := indicator_some a_cei (by simp only [usesCei, List.mem_cons, List.not_mem_nil, or_false]; omega)
  obtain ⟨v_fti, rfl, h_fti⟩ := indicator_some a_fti (by simp only [usesFti, List.mem_cons, List.not_mem_nil, or_false]; omega)
  obtain rfl := indicator_none a_dti (by simp only [usesDti, List.mem_cons, List.not_mem_nil, or_false]; omega)
  obtain rfl := indicator_none a_rai (by simp only [usesRai, List.mem_cons, List.not_mem_nil, or_false]; omega)
  obtain rfl := indicator_none a_iai (by simp only [usesIai, List.mem_cons, List.not_mem_nil, or_false]; omega)
  obtain rfl := indicator_none a_ism (by simp only [usesIsm, List.mem_cons, List.not_mem_nil, or_false]; omega)
  obtain rfl := indicator_none a_aii (by simp only [usesAii, List.mem_cons, List.not_mem_nil, or_false]; omega)
  clear a_tei a_lvc a_cei a_fti a_dti a_rai a_iai a_ism a_aii
  have k := pack_fti v_cei v_lvc v_fti h_cei h_lvc h_fti
  generalize ht : p.toNat = t at hc
  rcases hc with rfl <;>
  simp (decide := true) only [parsePduStatusFields, serializePduStatus, ht, if_true, if_false, PduStatus.octet, Option.elim] at k ⊢ <;>
  simp_all (decide := true)

theorem status_det (s : PduStatus) (p : UInt8) (h : s.Wf p) (hc : let t := p.toNat; t = 3) :
    parsePduStatusFields p (serializePduStatus s p) = s ∧ (serializePduStatus s p).toNat = s.octet := by
  simp only at hc
  obtain ⟨a_tei, a_lvc, a_cei, a_fti, a_dti, a_rai, a_iai, a_ism, a_aii⟩ := h
  obtain ⟨o_tei, o_lvc, o_cei, o_fti, o_dti, o_rai, o_iai, o_ism, o_aii⟩ := s
  simp only at a_tei a_lvc a_cei a_fti a_dti a_rai a_iai a_ism a_aii
  obtain rfl := indicator_none a_tei (by simp only [usesTei, List.mem_cons, List.not_mem_nil, or_false]; omega)
  obtain ⟨v_lvc, rfl, h_lvc⟩ := indicator_some a_lvc (by simp only [usesLvc, List.mem_cons, List.not_mem_nil, or_false]; omega)
  obtain ⟨v_cei, rfl, h_cei⟩ := indicator_some a_cei (by simp only [usesCei, List.mem_cons, List.not_mem_nil, or_false]; omega)
  obtain rfl := indicator_none a_fti (by simp only [usesFti, List.mem_cons, List.not_mem_nil, or_false]; omega)
  obtain ⟨v_dti, rfl, h_dti⟩ := indicator_some a_dti (by simp only [usesDti, List.mem_cons, List.not_mem_nil, or_false]; omega)
  obtain rfl := indicator_none a_rai (by simp only [usesRai, List.mem_cons, List.not_mem_nil, or_false]; omega)
  obtain rfl := indicator_none a_iai (by simp only [usesIai, List.mem_cons, List.not_mem_nil, or_false]; omega)
  obtain rfl := indicator_none a_ism (by simp only [usesIsm, List.mem_cons, List.not_mem_nil, or_false]; omega)
  obtain rfl := indicator_none a_aii (by simp only [usesAii, List.mem_cons, List.not_mem_nil, or_false]; omega)
  clear a_tei a_lvc a_cei a_fti a_dti a_rai a_iai a_ism a_aii
  have k := pack v_cei v_lvc 0 v_dti h_cei h_lvc (by decide) h_dti
  generalize ht : p.toNat = t at hc
  rcases hc with rfl <;>
  simp (decide := true) only [parsePduStatusFields, serializePduStatus, ht, if_true, if_false, PduStatus.octet, Option.elim] at k ⊢ <;>
  simp_all (decide := true)

theorem status_radio (s : PduStatus) (p : UInt8) (h : s.Wf p) (hc : let t := p.toNat; t = 25 ∨ t = 26 ∨ t = 27) :
    parsePduStatusFields p (serializePduStatus s p) = s ∧ (serializePduStatus s p).toNat = s.octet := by
  simp only at hc
  obtain ⟨a_tei, a_lvc, a_cei, a_fti, a_dti, a_rai, a_iai, a_ism, a_aii⟩ := h
  obtain ⟨o_tei, o_lvc, o_cei, o_fti, o_dti, o_rai, o_iai, o_ism, o_aii⟩ := s
  simp only at a_tei a_lvc a_cei a_fti a_dti a_rai a_iai a_ism a_aii
  obtain ⟨v_tei, rfl, h_tei⟩ := indicator_some a_tei (by simp only [usesTei, List.mem_cons, List.not_mem_nil, or_false]; omega)
  obtain ⟨v_lvc, rfl, h_lvc⟩ := indicator_some a_lvc (by simp only [usesLvc, List.mem_cons, List.not_mem_nil, or_false]; omega)
  obtain ⟨v_cei, rfl, h_cei⟩ := indicator_some a_cei (by simp only [usesCei, List.mem_cons, List.not_mem_nil, or_false]; omega)
  obtain rfl := indicator_none a_fti (by simp only [usesFti, List.mem_cons, List.not_mem_nil, or_false]; omega)
  obtain rfl := indicator_none a_dti (by simp only [usesDti, List.mem_cons, List.not_mem_nil, or_false]; omega)
  obtain ⟨v_rai, rfl, h_rai⟩ := indicator_some a_rai (by simp only [usesRai, List.mem_cons, List.not_mem_nil, or_false]; omega)
  obtain rfl := indicator_none a_iai (by simp only [usesIai, List.mem_cons, List.not_mem_nil, or_false]; omega)
  obtain rfl := indicator_none a_ism (by simp only [usesIsm, List.mem_cons, List.not_mem_nil, or_false]; omega)
  obtain rfl := indicator_none a_aii (by simp only [usesAii, List.mem_cons, List.not_mem_nil, or_false]; omega)
  clear a_tei a_lvc a_cei a_fti a_dti a_rai a_iai a_ism a_aii
  have k := pack v_cei v_lvc v_tei v_rai h_cei h_lvc h_tei h_rai
  generalize ht : p.toNat = t at hc
  rcases hc with rfl | rfl | rfl <;>
  simp (decide := true) only [parsePduStatusFields, serializePduStatus, ht, if_true, if_false, PduStatus.octet, Option.elim] at k ⊢ <;>
  simp_all (decide := true)

theorem status_intercom (s : PduStatus) (p : UInt8) (h : s.Wf p) (hc : let t := p.toNat; t = 31 ∨ t = 32) :
    parsePduStatusFields p (serializePduStatus s p) = s ∧ (serializePduStatus s p).toNat = s.octet := by
  simp only at hc
  obtain ⟨a_tei, a_lvc, a_cei, a_fti, a_dti, a_rai, a_iai, a_ism, a_aii⟩ := h
  obtain ⟨o_tei, o_lvc, o_cei, o_fti, o_dti, o_rai, o_iai, o_ism, o_aii⟩ := s
  simp only at a_tei a_lvc a_cei a_fti a_dti a_rai a_iai a_ism a_aii
  obtain ⟨v_tei, rfl, h_tei⟩ := indicator_some a_tei (by simp only [usesTei, List.mem_cons, List.not_mem_nil, or_false]; omega)
  obtain ⟨v_lvc, rfl, h_lvc⟩ := indicator_some a_lvc (by simp only [usesLvc, List.mem_cons, List.not_mem_nil, or_false]; omega)
  obtain ⟨v_cei, rfl, h_cei⟩ := indicator_some a_cei (by simp only [usesCei, List.mem_cons, List.not_mem_nil, or_false]; omega)
  obtain rfl := indicator_none a_fti (by simp only [usesFti, List.mem_cons, List.not_mem_nil, or_false]; omega)
  obtain rfl := indicator_none a_dti (by simp only [usesDti, List.mem_cons, List.not_mem_nil, or_false]; omega)
  obtain rfl := indicator_none a_rai (by simp only [usesRai, List.mem_cons, List.not_mem_nil, or_false]; omega)
  obtain ⟨v_iai, rfl, h_iai⟩ := indicator_some a_iai (by simp only [usesIai, List.mem_cons, List.not_mem_nil, or_false]; omega)
  obtain rfl := indicator_none a_ism (by simp only [usesIsm, List.mem_cons, List.not_mem_nil, or_false]; omega)
  obtain rfl := indicator_none a_aii (by simp only [usesAii, List.mem_cons, List.not_mem_nil, or_false]; omega)
  clear a_tei a_lvc a_cei a_fti a_dti a_rai a_iai a_ism a_aii
  have k := pack v_cei v_lvc v_tei v_iai h_cei h_lvc h_tei h_iai
  generalize ht : p.toNat = t at hc
  rcases hc with rfl | rfl <;>
  simp (decide := true) only [parsePduStatusFields, serializePduStatus, ht, if_true, if_false, PduStatus.octet, Option.elim] at k ⊢ <;>
  simp_all (decide := true)

theorem status_iff (s : PduStatus) (p : UInt8) (h : s.Wf p) (hc : let t := p.toNat; t = 28) :
    parsePduStatusFields p (serializePduStatus s p) = s ∧ (serializePduStatus s p).toNat = s.octet := by
  simp only at hc
  obtain ⟨a_tei, a_lvc, a_cei, a_fti, a_dti, a_rai, a_iai, a_ism, a_aii⟩ := h
  obtain ⟨o_tei, o_lvc, o_cei, o_fti, o_dti, o_rai, o_iai, o_ism, o_aii⟩ := s
  simp only at a_tei a_lvc a_cei a_fti a_dti a_rai a_iai a_ism a_aii
  obtain ⟨v_tei, rfl, h_tei⟩ := indicator_some a_tei (by simp only [usesTei, List.mem_cons, List.not_mem_nil, or_false]; omega)
  obtain ⟨v_lvc, rfl, h_lvc⟩ := indicator_some a_lvc (by simp only [usesLvc, List.mem_cons, List.not_mem_nil, or_false]; omega)
  obtain ⟨v_cei, rfl, h_cei⟩ := indicator_some a_cei (by simp only [usesCei, List.mem_cons, List.not_mem_nil, or_false]; omega)
  obtain rfl := indicator_none a_fti (by simp only [usesFti, List.mem_cons, List.not_mem_nil, or_false]; omega)
  obtain rfl := indicator_none a_dti (by simp only [usesDti, List.mem_cons, List.not_mem_nil, or_false]; omega)
  obtain rfl := indicator_none a_rai (by simp only [usesRai, List.mem_cons, List.not_mem_nil, or_false]; omega)
  obtain rfl := indicator_none a_iai (by simp only [usesIai, List.mem_cons, List.not_mem_nil, or_false]; omega)
  obtain ⟨v_ism, rfl, h_ism⟩ := indicator_some a_ism (by simp only [usesIsm, List.mem_cons, List.not_mem_nil, or_false]; omega)
  obtain ⟨v_aii, rfl, h_aii⟩ := indicator_some a_aii (by simp only [usesAii, List.mem_cons, List.not_mem_nil, or_false]; omega)
  clear a_tei a_lvc a_cei a_fti a_dti a_rai a_iai a_ism a_aii
  have k := pack_iff v_cei v_lvc v_tei v_ism v_aii h_cei h_lvc h_tei h_ism h_aii
  generalize ht : p.toNat = t at hc
  rcases hc with rfl <;>
  simp (decide := true) only [parsePduStatusFields, serializePduStatus, ht, if_true, if_false, PduStatus.octet, Option.elim] at k ⊢ <;>
  simp_all (decide := true)

theorem status_rest (s : PduStatus) (p : UInt8) (h : s.Wf p) (hc : let t := p.toNat; (4 ≤ t ∧ t ≤ 22) ∨ (29 ≤ t ∧ t ≤ 30) ∨ (33 ≤ t ∧ t ≤ 40) ∨ (42 ≤ t ∧ t ≤ 66) ∨ (68 ≤ t ∧ t ≤ 71)) :
    parsePduStatusFields p (serializePduStatus s p) = s ∧ (serializePduStatus s p).toNat = s.octet := by
  simp only at hc
  obtain ⟨a_tei, a_lvc, a_cei, a_fti, a_dti, a_rai, a_iai, a_ism, a_aii⟩ := h
  obtain ⟨o_tei, o_lvc, o_cei, o_fti, o_dti, o_rai, o_iai, o_ism, o_aii⟩ := s
  simp only at a_tei a_lvc a_cei a_fti a_dti a_rai a_iai a_ism a_aii
  obtain rfl := indicator_none a_tei (by simp only [usesTei, List.mem_cons, List.not_mem_nil, or_false]; omega)
  obtain ⟨v_lvc, rfl, h_lvc⟩ := indicator_some a_lvc (by simp only [usesLvc, List.mem_cons, List.not_mem_nil, or_false]; omega)
  obtain ⟨v_cei, rfl, h_cei⟩ := indicator_some a_cei (by simp only [usesCei, List.mem_cons, List.not_mem_nil, or_false]; omega)
  obtain rfl := indicator_none a_fti (by simp only [usesFti, List.mem_cons, List.not_mem_nil, or_false]; omega)
  obtain rfl := indicator_none a_dti (by simp only [usesDti, List.mem_cons, List.not_mem_nil, or_false]; omega)
  obtain rfl := indicator_none a_rai (by simp only [usesRai, List.mem_cons, List.not_mem_nil, or_false]; omega)
  obtain rfl := indicator_none a_iai (by simp only [usesIai, List.mem_cons, List.not_mem_nil, or_false]; omega)
  obtain rfl := indicator_none a_ism (by simp only [usesIsm, List.mem_cons, List.not_mem_nil, or_false]; omega)
  obtain rfl := indicator_none a_aii (by simp only [usesAii, List.mem_cons, List.not_mem_nil, or_false]; omega)
  clear a_tei a_lvc a_cei a_fti a_dti a_rai a_iai a_ism a_aii
  have k := pack0 v_cei v_lvc 0 h_cei h_lvc (by decide)
  generalize ht : p.toNat = t at hc
  have e : serializePduStatus { lvc_indicator := some v_lvc, coupled_extension_indicator := some v_cei } p
      = v_cei <<< 3 ||| v_lvc <<< 1 := by
    unfold serializePduStatus; dsimp only; rcases hc with hc | hc | hc | hc | hc <;> ifs_omega
  have e2 : ∀ b, parsePduStatusFields p b
      = { lvc_indicator := some (statusLvc b), coupled_extension_indicator := some (statusCei b) } := by
    intro b; unfold parsePduStatusFields; dsimp only; rcases hc with hc | hc | hc | hc | hc <;> ifs_omega
  rw [e, e2]
  simp_all [PduStatus.octet]

theorem PduStatus.parse_ser {s : PduStatus} {p : UInt8} (h : s.Wf p) :
    parsePduStatusFields p (serializePduStatus s p) = s ∧ (serializePduStatus s p).toNat = s.octet := by
  rcases type_classes p.toNat with h' | h' | h' | h' | h' | h' | h' | h' | h'
  · exact status_0 s p h h'
  · exact status_72 s p h h'
  · exact status_tcl s p h h'
  · exact status_fire s p h h'
  · exact status_det s p h h'
  · exact status_radio s p h h'
  · exact status_intercom s p h h'
  · exact status_iff s p h h'
  · exact status_rest s p h h'

instance : Stable PduHeader.parse := by unfold PduHeader.parse; parser_ok
instance : Safe PduHeader.parse := by unfold PduHeader.parse; parser_ok

@[len] theorem PduHeader.length_ser (h : PduHeader) : h.ser.length = 12 := by
  unfold PduHeader.ser
  split
  · split <;> lenp [length_e8]
  · lenp [length_e8]

theorem PduHeader.parse_ser {h : PduHeader} (hw : h.Wf) (r : Bytes) :
    PduHeader.parse.run (h.ser ++ r) = .ok h r := by
  obtain ⟨hp, ⟨hv, s, hs, hsw⟩ | ⟨h1, h6, hs⟩⟩ := hw
  · obtain ⟨ver, ex, ty, fam, ts, ln, st, pd⟩ := h
    simp only at hp hv hs hsw
    subst hp hv hs
    rtp [PduHeader.ser, if_true, PduHeader.parse]
    simp (decide := true) only [if_false, rt, (PduStatus.parse_ser hsw).1]; rfl
  · obtain ⟨ver, ex, ty, fam, ts, ln, st, pd⟩ := h
    simp only at hp h1 h6 hs
    subst hp hs
    have hne : ¬ ver = 7 := by rintro rfl; simp at h6
    rtp [PduHeader.ser, if_neg hne, PduHeader.parse]
    simp only [h1, h6, and_self, if_true, rt]

end Verif.Dis
