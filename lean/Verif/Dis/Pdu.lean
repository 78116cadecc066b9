import Verif.Dis.Body

/-!
# PDUs and packets

File names in the comments are relative to dis-rs/src/common.
-/

set_option linter.unusedSimpArgs false
set_option linter.unusedVariables false

namespace Verif.Dis
open Verif.P

/-- model.rs:66-70 -/
structure Pdu where
  header : PduHeader
  body : Body
  deriving Repr, DecidableEq

/-- model.rs:84-86 `pdu_length` (16-bit arithmetic) -/
def Pdu.pduLength (p : Pdu) : UInt16 := UInt16.ofNat (12 + p.body.bodyLen)

/-- model.rs:73-82 `finalize_from_parts`, with model.rs:135-150 `with_pdu_type`, `with_time_stamp`, `with_length`
(`ts` is the raw timestamp; 16-bit arithmetic on the length) -/
def Pdu.finalizeFromParts (header : PduHeader) (body : Body) (ts : UInt32) : Pdu :=
  ⟨{ header with pdu_type := body.pduType, protocol_family := familyOfType body.pduType, time_stamp := ts,
                 pdu_length := UInt16.ofNat (12 + body.bodyLen) }, body⟩

/-- the octets written by `Pdu::serialize` (writer.rs:40-112) -/
def Pdu.ser (p : Pdu) : Bytes := p.header.ser ++ p.body.ser p.header.protocol_version

/-- writer.rs:36-114 `Pdu::serialize`: `capacity` is the capacity of the buffer and `buf` its contents.  An error
carries the length and the capacity; success the new contents and the returned count (16 bits). -/
def Pdu.serialize (p : Pdu) (buf : Bytes) (capacity : Nat) : Except (UInt16 × Nat) (Bytes × UInt16) :=
  if p.pduLength.toNat > capacity then .error (p.pduLength, capacity)
  else .ok (buf ++ p.ser, UInt16.ofNat (p.header.cnt + p.body.cnt))

/-- parser.rs:124-141 `pdu` -/
def pdu (env : Env) : BP Pdu := do
  let h ← PduHeader.parse
  let b ← parseBody env h
  pure ⟨h, b⟩

/-- parser.rs:70-75 `parse_multiple_pdu` and mod.rs:117-119 `parse` (what remains of the input is not returned by
the code; it is kept here for the statements) -/
def parsePackets (env : Env) : BP (List Pdu) := P.many1 (pdu env)

/-- mod.rs:117-119 `parse`: `Ok(pdus)`, `Err(ParseError)` or a panic -/
inductive Outcome (α : Type) where
  | ok (value : α)
  | error
  | panic
  deriving Repr, DecidableEq

/-- mod.rs:117-119, parser.rs:70-75 -/
def parse (env : Env) (input : Bytes) : Outcome (List Pdu) :=
  match (parsePackets env).run input with
  | .ok pdus _ => .ok pdus
  | .err => .error
  | .panic => .panic
/-- mod.rs:126-131 `parse_v6` -/
def parseV6 (env : Env) (input : Bytes) : Outcome (List Pdu) :=
  match parse env input with
  | .ok pdus => .ok (pdus.filter fun p => p.header.protocol_version = 6)
  | .error => .error
  | .panic => .panic
/-- mod.rs:138-143 `parse_v7` -/
def parseV7 (env : Env) (input : Bytes) : Outcome (List Pdu) :=
  match parse env input with
  | .ok pdus => .ok (pdus.filter fun p => p.header.protocol_version = 7)
  | .error => .error
  | .panic => .panic

/-- parser.rs:315-326 `skip_body` and parser.rs:186-190 `pdu_header_skip_body` -/
def headerSkipBody : BP PduHeader := do
  let h ← PduHeader.parse
  let _body ← P.take (h.pdu_length.toNat - 12)
  pure h

/-! ## Specification -/

/-- A PDU that can be written and read back: the header and the body are well formed. -/
def Pdu.Wf (env : Env) (p : Pdu) : Prop := p.header.Wf ∧ p.body.Wf env p.header

/-- `Reads env bs ps r`: the input `bs` is the PDUs `ps`, one after the other, followed by `r`. -/
inductive Reads (env : Env) : Bytes → List Pdu → Bytes → Prop
  | nil (r : Bytes) : Reads env r [] r
  | cons {bs mid r : Bytes} {p : Pdu} {ps : List Pdu} :
      (pdu env).run bs = .ok p mid → Reads env mid ps r → Reads env bs (p :: ps) r

/-! ## Lemmas -/

instance (env) : Stable (pdu env) := by unfold pdu; parser_ok

theorem pdu_ser {env : Env} {p : Pdu} (h : p.Wf env) (r : Bytes) : (pdu env).run (p.ser ++ r) = .ok p r := by
  obtain ⟨hd, b⟩ := p
  obtain ⟨h1, h2⟩ := h
  simp only at h1 h2
  simp only [pdu, Pdu.ser, List.append_assoc, P.run_bind, PduHeader.parse_ser h1, Res.andThen, parseBody_ser h2, rt]

theorem take_consumes {n : Nat} {bs a r : Bytes} (h : (P.take n : BP Bytes).run bs = .ok a r) :
    bs.length = r.length + n := by
  unfold P.take at h
  by_cases hn : n ≤ bs.length
  · simp only [hn, if_true, Res.ok.injEq] at h
    rw [← h.2, List.length_drop]; omega
  · simp [hn] at h

theorem bind_ok {α β : Type} {m : BP α} {f : α → BP β} {bs : Bytes} {b : β} {r : Bytes}
    (h : (m >>= f).run bs = .ok b r) : ∃ a mid, m.run bs = .ok a mid ∧ (f a).run mid = .ok b r := by
  rw [P.run_bind] at h
  cases hm : m.run bs with
  | ok a mid => rw [hm] at h; exact ⟨a, mid, rfl, h⟩
  | err => rw [hm] at h; cases h
  | panic => rw [hm] at h; cases h

/-- `p` consumes exactly `n` octets whenever it succeeds. -/
class Exact {α : Type} (p : BP α) (n : outParam Nat) : Prop where
  spec : ∀ bs a r, p.run bs = .ok a r → bs.length = r.length + n
theorem Exact.bind {α β : Type} {m : BP α} {f : α → BP β} {k n : Nat} (hm : Exact m k) (hf : ∀ a, Exact (f a) n) :
    Exact (m >>= f) (k + n) where
  spec bs b r h := by
    obtain ⟨a, mid, h1, h2⟩ := bind_ok h
    have e1 := hm.spec _ _ _ h1
    have e2 := (hf a).spec _ _ _ h2
    omega
instance {α : Type} (a : α) : Exact (pure a : BP α) 0 where
  spec bs b r h := by simp only [P.run_pure, Res.ok.injEq] at h; rw [h.2]; rfl
instance : Exact be_u8 1 where
  spec bs a r h := by
    match bs, h with
    | _ :: _, h => simp only [be_u8, Res.ok.injEq] at h; rw [← h.2]; rfl
instance : Exact be_u16 2 where
  spec bs a r h := by
    match bs, h with
    | _ :: _ :: _, h => simp only [be_u16, Res.ok.injEq] at h; rw [← h.2]; rfl
instance : Exact be_u32 4 where
  spec bs a r h := by
    match bs, h with
    | _ :: _ :: _ :: _ :: _, h => simp only [be_u32, Res.ok.injEq] at h; rw [← h.2]; rfl
instance (n : Nat) : Exact (P.take n : BP Bytes) n where
  spec bs a r h := take_consumes h
instance {α : Type} {p q : BP α} {c : Prop} [Decidable c] {n : Nat} [hp : Exact p n] [hq : Exact q n] :
    Exact (if c then p else q) n := by split <;> assumption

theorem PduHeader.parse_exact : Exact PduHeader.parse 12 := by
  unfold PduHeader.parse
  refine Exact.bind (k := 1) (n := 11) inferInstance fun _ => ?_
  refine Exact.bind (k := 1) (n := 10) inferInstance fun _ => ?_
  refine Exact.bind (k := 1) (n := 9) inferInstance fun _ => ?_
  refine Exact.bind (k := 1) (n := 8) inferInstance fun _ => ?_
  refine Exact.bind (k := 4) (n := 4) inferInstance fun _ => ?_
  refine Exact.bind (k := 2) (n := 2) inferInstance fun _ => ?_
  split
  · exact Exact.bind (k := 2) (n := 0) inferInstance fun _ => inferInstance
  · exact Exact.bind (k := 1) (n := 1) inferInstance fun _ => Exact.bind (k := 1) (n := 0) inferInstance fun _ => inferInstance

/-- A parsed PDU consumes its header and a prefix of what follows. -/
theorem pdu_split {env : Env} {bs r : Bytes} {p : Pdu} (h : (pdu env).run bs = .ok p r) :
    ∃ mid, PduHeader.parse.run bs = .ok p.header mid ∧ (parseBody env p.header).run mid = .ok p.body r := by
  unfold pdu at h
  obtain ⟨hd, mid, h1, h2⟩ := bind_ok h
  obtain ⟨b, mid2, h3, h4⟩ := bind_ok h2
  simp only [P.run_pure, Res.ok.injEq] at h4
  obtain ⟨rfl, rfl⟩ := h4
  exact ⟨mid, h1, h3⟩

theorem pdu_consumes {env : Env} {bs r : Bytes} {p : Pdu} (h : (pdu env).run bs = .ok p r) :
    r.length + 12 ≤ bs.length := by
  obtain ⟨mid, h1, h2⟩ := pdu_split h
  have e1 := PduHeader.parse_exact.spec _ _ _ h1
  obtain ⟨c, e2, _⟩ := Stable.spec _ _ _ h2
  rw [e2, List.length_append] at e1
  omega

/-- The loop of `many1` finds exactly the consecutive PDUs, up to the first failure. -/
theorem manyLoop_reads {env : Env} : ∀ (fuel : Nat) (bs : Bytes), bs.length < fuel → ∀ ps r,
    (P.manyLoop (pdu env) fuel bs = .ok ps r ↔ Reads env bs ps r ∧ (pdu env).run r = .err) := by
  intro fuel
  induction fuel with
  | zero => intro bs h; omega
  | succ fuel ih =>
    intro bs hl ps r
    unfold P.manyLoop
    cases hp : (pdu env).run bs with
    | err =>
      constructor
      · intro h
        simp only [Res.ok.injEq] at h
        obtain ⟨rfl, rfl⟩ := h
        exact ⟨.nil _, hp⟩
      · rintro ⟨h, _⟩
        cases h with
        | nil => rfl
        | cons h1 _ => rw [hp] at h1; cases h1
    | panic =>
      constructor
      · intro h; cases h
      · rintro ⟨h, h2⟩
        cases h with
        | nil => rw [hp] at h2; cases h2
        | cons h1 _ => rw [hp] at h1; cases h1
    | ok a mid =>
      have hc := pdu_consumes hp
      simp only
      rw [if_neg (by omega)]
      have := ih mid (by omega)
      constructor
      · intro h
        cases hm : P.manyLoop (pdu env) fuel mid with
        | err => rw [hm] at h; cases h
        | panic => rw [hm] at h; cases h
        | ok as r' =>
          rw [hm] at h
          simp only [Res.andThen, Res.ok.injEq] at h
          obtain ⟨rfl, rfl⟩ := h
          have := (this as r').1 hm
          exact ⟨.cons hp this.1, this.2⟩
      · rintro ⟨h, h2⟩
        cases h with
        | nil => rw [hp] at h2; cases h2
        | cons h1 h3 =>
          rw [hp] at h1
          simp only [Res.ok.injEq] at h1
          obtain ⟨rfl, rfl⟩ := h1
          rw [(this _ _).2 ⟨h3, h2⟩]
          rfl

/-- `parse` succeeds exactly when the input starts with at least one PDU, and it returns all the consecutive PDUs
up to the first that cannot be read. -/
theorem parsePackets_iff (env : Env) (bs : Bytes) (ps : List Pdu) (r : Bytes) :
    (parsePackets env).run bs = .ok ps r ↔ Reads env bs ps r ∧ ps ≠ [] ∧ (pdu env).run r = .err := by
  unfold parsePackets P.many1
  simp only
  cases hp : (pdu env).run bs with
  | err =>
    constructor
    · intro h; cases h
    · rintro ⟨h, h2, _⟩
      cases h with
      | nil => exact absurd rfl h2
      | cons h1 _ => rw [hp] at h1; cases h1
  | panic =>
    constructor
    · intro h; cases h
    · rintro ⟨h, h2, _⟩
      cases h with
      | nil => exact absurd rfl h2
      | cons h1 _ => rw [hp] at h1; cases h1
  | ok a mid =>
    have := manyLoop_reads (env := env) mid.length.succ mid (Nat.lt_succ_self _)
    simp only
    constructor
    · intro h
      cases hm : P.manyLoop (pdu env) mid.length.succ mid with
      | err => rw [hm] at h; cases h
      | panic => rw [hm] at h; cases h
      | ok as r' =>
        rw [hm] at h
        simp only [Res.andThen, Res.ok.injEq] at h
        obtain ⟨rfl, rfl⟩ := h
        have := (this as r').1 hm
        exact ⟨.cons hp this.1, by simp, this.2⟩
    · rintro ⟨h, h2, h4⟩
      cases h with
      | nil => exact absurd rfl h2
      | cons h1 h3 =>
        rw [hp] at h1
        simp only [Res.ok.injEq] at h1
        obtain ⟨rfl, rfl⟩ := h1
        rw [(this _ _).2 ⟨h3, h4⟩]
        rfl

theorem reads_ser {env : Env} {ps : List Pdu} (h : ∀ p ∈ ps, p.Wf env) (r : Bytes) :
    Reads env (ps.flatMap Pdu.ser ++ r) ps r := by
  induction ps with
  | nil => exact .nil r
  | cons p ps ih =>
    rw [List.flatMap_cons, List.append_assoc]
    exact .cons (pdu_ser (h p (by simp)) _) (ih fun q hq => h q (by simp [hq]))

theorem header_short {bs : Bytes} (h : bs.length < 12) : PduHeader.parse.run bs = .err := by
  cases hp : PduHeader.parse.run bs with
  | err => rfl
  | panic => exact absurd hp (Safe.spec bs)
  | ok a r => have := PduHeader.parse_exact.spec _ _ _ hp; omega
theorem pdu_short {env : Env} {bs : Bytes} (h : bs.length < 12) : (pdu env).run bs = .err := by
  unfold pdu
  rw [P.run_bind, header_short h]; rfl

/-- A panic of the PDU parser is a panic of a body parser. -/
theorem pdu_panic {env : Env} {bs : Bytes} (h : (pdu env).run bs = .panic) :
    ∃ hd mid, PduHeader.parse.run bs = .ok hd mid ∧ (parseBody env hd).run mid = .panic := by
  unfold pdu at h
  rw [P.run_bind] at h
  cases hp : PduHeader.parse.run bs with
  | err => rw [hp] at h; cases h
  | panic => exact absurd hp (Safe.spec bs)
  | ok hd mid =>
    rw [hp] at h
    simp only [Res.andThen, P.run_bind] at h
    refine ⟨hd, mid, rfl, ?_⟩
    cases hb : (parseBody env hd).run mid with
    | err => rw [hb] at h; cases h
    | panic => rfl
    | ok b r => rw [hb] at h; cases h

/-- ... and a panic of `parse` is one of the PDU parser, after some PDUs. -/
theorem manyLoop_panic {env : Env} : ∀ (fuel : Nat) (bs : Bytes), P.manyLoop (pdu env) fuel bs = .panic →
    ∃ ps r, Reads env bs ps r ∧ (pdu env).run r = .panic := by
  intro fuel
  induction fuel with
  | zero => intro bs h; cases h
  | succ fuel ih =>
    intro bs h
    unfold P.manyLoop at h
    cases hp : (pdu env).run bs with
    | err => rw [hp] at h; cases h
    | panic => exact ⟨[], bs, .nil _, hp⟩
    | ok a mid =>
      rw [hp] at h
      simp only at h
      rw [if_neg (by have := pdu_consumes hp; omega)] at h
      cases hm : P.manyLoop (pdu env) fuel mid with
      | err => rw [hm] at h; cases h
      | ok as r => rw [hm] at h; cases h
      | panic =>
        obtain ⟨ps, r, h1, h2⟩ := ih mid hm
        exact ⟨a :: ps, r, .cons hp h1, h2⟩
theorem parsePackets_panic {env : Env} {bs : Bytes} (h : (parsePackets env).run bs = .panic) :
    ∃ ps r, Reads env bs ps r ∧ (pdu env).run r = .panic := by
  unfold parsePackets P.many1 at h
  simp only at h
  cases hp : (pdu env).run bs with
  | err => rw [hp] at h; cases h
  | panic => exact ⟨[], bs, .nil _, hp⟩
  | ok a mid =>
    rw [hp] at h
    simp only at h
    cases hm : P.manyLoop (pdu env) mid.length.succ mid with
    | err => rw [hm] at h; cases h
    | ok as r => rw [hm] at h; cases h
    | panic =>
      obtain ⟨ps, r, h1, h2⟩ := manyLoop_panic _ _ hm
      exact ⟨a :: ps, r, .cons hp h1, h2⟩

theorem Reads.length {env : Env} {bs r : Bytes} {ps : List Pdu} (h : Reads env bs ps r) :
    r.length + 12 * ps.length ≤ bs.length := by
  induction h with
  | nil r => simp
  | cons h1 _ ih =>
    have := pdu_consumes h1
    simp only [List.length_cons]
    omega

/-- Consecutive PDUs are determined by the input and their number. -/
theorem Reads.prefix {env : Env} {bs r r' : Bytes} {ps qs : List Pdu} (h : Reads env bs ps r) (h' : Reads env bs (ps ++ qs) r') :
    Reads env r qs r' := by
  induction h with
  | nil r => exact h'
  | cons h1 _ ih =>
    cases h' with
    | cons h2 h3 =>
      rw [h1] at h2
      simp only [Res.ok.injEq] at h2
      obtain ⟨_, rfl⟩ := h2
      exact ih h3

end Verif.Dis
