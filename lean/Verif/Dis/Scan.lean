import Verif.Dis.Pdu

/-!
# Reading headers only

File names in the comments are relative to dis-rs/src/common.
-/

namespace Verif.Dis
open Verif.P

/-- errors.rs: the errors the header readers report -/
inductive ScanError where
  | insufficientHeaderLength (len : UInt16)
  | insufficientPduLength (expected found : UInt16)
  | parseError
  deriving Repr, DecidableEq

/-- parser.rs:86-98 `parse_multiple_header`.  Every failure of `be_u8`, `be_u16`, `be_u32` and `take` has the code Eof;
`many1` fails with the code of the first attempt, or with the code Many1 when an attempt succeeds without consuming
(which cannot happen: a header is twelve octets). -/
def parseMultipleHeader (input : Bytes) : Except ScanError (List PduHeader) :=
  match headerSkipBody.run input with
  | .err => .error (.insufficientHeaderLength (UInt16.ofNat input.length))
  | .panic => .error .parseError
  | .ok _ _ =>
    match (P.many1 headerSkipBody).run input with
    | .ok hs _ => .ok hs
    | _ => .error .parseError

/-- parser.rs:102-122 `parse_header` -/
def parseHeader (input : Bytes) : Except ScanError PduHeader :=
  match PduHeader.parse.run input with
  | .ok h rest =>
    match (P.take (h.pdu_length.toNat - 12) : BP Bytes).run rest with
    | .err => .error (.insufficientPduLength (h.pdu_length - 12) (UInt16.ofNat rest.length))
    | _ => .ok h
  | .err => .error (.insufficientHeaderLength (UInt16.ofNat input.length))
  | .panic => .error .parseError

/-! ## Lemmas -/

/-- twelve octets are enough for a header, and the header is determined by them -/
theorem header_long {bs : Bytes} (h : 12 ≤ bs.length) :
    ∃ hd, (∀ r, PduHeader.parse.run (bs.take 12 ++ r) = .ok hd r) ∧
      hd.pdu_length.toNat = (bs.getD 8 0).toNat * 256 + (bs.getD 9 0).toNat ∧ hd.pdu_type = bs.getD 2 0 := by
  match bs, h with
  | a0 :: a1 :: a2 :: a3 :: a4 :: a5 :: a6 :: a7 :: a8 :: a9 :: a10 :: a11 :: rest, _ =>
    have e : (UInt16.ofNat (a8.toNat * 256 + a9.toNat)).toNat = a8.toNat * 256 + a9.toNat := by
      have := a8.toNat_lt; have := a9.toNat_lt
      exact toNat_u16_ofNat (by omega)
    simp only [PduHeader.parse, P.run_bind, be_u8, be_u16, be_u32, Res.andThen, List.take, List.cons_append, List.nil_append]
    split
    · exact ⟨_, fun _ => rfl, e, rfl⟩
    · exact ⟨_, fun _ => rfl, e, rfl⟩

end Verif.Dis
