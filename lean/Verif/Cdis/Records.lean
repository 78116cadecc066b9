import Verif.Cdis.VarInt
import Verif.Core.Float
import Verif.Props.Header

/-! # C-DIS records (cdis-assemble/src/records/{model,parser,writer}.rs)

Conventions: for a record `T`, `T.ser` is what `serialize` writes, `T.parse` is the parser, `T.lenBits` is
`record_length()` and `T.Wf` says that every field is in the range its wire field can hold.  Enumerations are modelled
by the number they are written as (all the `From` pairs involved are inverse to each other, see C25). -/

namespace Verif.Cdis
open Verif.P

attribute [rt high] rU_run rS_run rUV8_run rUV16_run rUV32_run sv12_run sv13_run sv14_run sv16_run sv24_run
attribute [len] length_wU length_wS length_wUV8 UV4.length_ser length_sv12 length_sv13 length_sv14 length_sv16
  length_sv24 List.length_append List.length_nil

/-! ## Optional fields -/

/-- writing.rs:101-103 `serialize_when_present` -/
def wOpt {α : Type} (w : α → Bits) : Option α → Bits
  | some x => w x
  | none => []

/-- parsing.rs:100-117 `parse_field_when_present`, 119-144 `field_present`: the field is read when its bit in the
fields present flags is set. -/
def rWhen {α : Type} (c : Bool) (p : BitP α) : BitP (Option α) :=
  if c then do
    let x ← p
    pure (some x)
  else pure none

/-- The bits an optional field takes. -/
def lOpt {α : Type} (l : α → Nat) : Option α → Nat
  | some x => l x
  | none => 0

/-- A present field satisfies `q`. -/
def OptAll {α : Type} (q : α → Prop) : Option α → Prop
  | some x => q x
  | none => True

instance {α : Type} (q : α → Prop) [DecidablePred q] (o : Option α) : Decidable (OptAll q o) :=
  match o with
  | some x => inferInstanceAs (Decidable (q x))
  | none => inferInstanceAs (Decidable True)

theorem rWhen_run {α : Type} {p : BitP α} {w : α → Bits} {q : α → Prop}
    (hp : ∀ x, q x → ∀ r, p.run (w x ++ r) = .ok x r) (o : Option α) (h : OptAll q o) (r : Bits) :
    (rWhen o.isSome p).run (wOpt w o ++ r) = .ok o r := by
  cases o with
  | none => simp [rWhen, wOpt]
  | some x => simp [rWhen, wOpt, hp x h]

theorem length_wOpt {α : Type} {w : α → Bits} {l : α → Nat} (h : ∀ x, (w x).length = l x) (o : Option α) :
    (wOpt w o).length = lOpt l o := by
  cases o with
  | none => rfl
  | some x => exact h x

instance {α : Type} (c : Bool) (p : BitP α) [P.Stable p] : P.Stable (rWhen c p) := by unfold rWhen; parser_ok
instance {α : Type} (c : Bool) (p : BitP α) [P.Safe p] : P.Safe (rWhen c p) := by unfold rWhen; parser_ok

/-! ## Flag words -/

/-- A flag value or zero: `if cond { BIT } else { 0 }` in the `fields_present_field` functions. -/
def flag (c : Bool) (m : Nat) : Nat := if c then m else 0
/-- `fields_present & BIT != 0` (parsing.rs:119-144) -/
def has (fp m : Nat) : Bool := decide (fp &&& m ≠ 0)

/-- The mask of bit `k`. -/
def bit (k : Nat) : Nat := 2 ^ k

theorem has_bit (fp k : Nat) : has fp (bit k) = fp.testBit k := by
  unfold has bit
  by_cases h : fp.testBit k
  · rw [h, decide_eq_true_eq]
    intro e
    have : (fp &&& 2 ^ k).testBit k = true := by simp [Nat.testBit_and, h]
    rw [e] at this; simp at this
  · have e : fp &&& 2 ^ k = 0 := by
      apply Nat.eq_of_testBit_eq
      intro i
      rw [Nat.testBit_and, Nat.testBit_two_pow]
      by_cases hi : k = i
      · subst hi; simp [h]
      · simp [hi]
    simp [e, h]

theorem testBit_flag (c : Bool) (k j : Nat) : (flag c (bit k)).testBit j = (c && decide (k = j)) := by
  cases c <;> simp [flag, bit, Nat.testBit_two_pow]

theorem flag_lt (c : Bool) (k n : Nat) (h : k < n) : flag c (bit k) < 2 ^ n := by
  cases c
  · simpa [flag] using Nat.two_pow_pos n
  · simpa [flag, bit] using Nat.pow_lt_pow_right (by decide) h

/-- Evaluate a test of a flag word. -/
macro "flag_bits" : tactic => `(tactic| simp (decide := true) [has_bit, testBit_flag, Nat.testBit_or, -Nat.testBit_zero])
/-- Bound a flag word. -/
macro "flag_bound" : tactic => `(tactic| (repeat' apply Nat.or_lt_two_pow) <;> exact flag_lt _ _ _ (by decide))

/-! ## Header -/

/-- records/model.rs:21-28 `CdisHeader`; the protocol version and the PDU type are the numbers they are written as,
the time stamp is its raw value. -/
structure CdisHeader where
  protocol_version : Nat
  exercise_id : Nat
  pdu_type : Nat
  timestamp : Nat
  length : Nat
  pdu_status : Dis.PduStatus
  deriving Repr, DecidableEq

/-- records/writer.rs:10-22 -/
def CdisHeader.ser (h : CdisHeader) : Bits :=
  wU 2 h.protocol_version ++ wUV8 h.exercise_id ++ wU 8 h.pdu_type ++ wU 26 h.timestamp ++ wU 14 h.length
    ++ wU 8 (Dis.serializePduStatus h.pdu_status (UInt8.ofNat h.pdu_type)).toNat
/-- records/parser.rs:18-35 -/
def CdisHeader.parse : BitP CdisHeader := do
  let protocol_version ← rU 2
  let exercise_id ← rUV8
  let pdu_type ← rU 8
  let timestamp ← rU 26
  let length ← rU 14
  let pdu_status ← rU 8
  pure ⟨protocol_version, exercise_id, pdu_type, timestamp, length,
    Dis.parsePduStatusFields (UInt8.ofNat pdu_type) (UInt8.ofNat pdu_status)⟩
/-- records/model.rs:30-35 -/
def CdisHeader.lenBits (h : CdisHeader) : Nat := 58 + lUV8 h.exercise_id

/-- Every field of the header fits its wire field. -/
structure CdisHeader.Wf (h : CdisHeader) : Prop where
  version : h.protocol_version < 2 ^ 2
  exercise : h.exercise_id < 256
  type : h.pdu_type < 2 ^ 8
  time : h.timestamp < 2 ^ 26
  len : h.length < 2 ^ 14
  status : h.pdu_status.Wf (UInt8.ofNat h.pdu_type)

theorem CdisHeader.run {h : CdisHeader} (w : h.Wf) (r : Bits) : CdisHeader.parse.run (h.ser ++ r) = .ok h r := by
  obtain ⟨h1, h2, h3, h4, h5, h6⟩ := w
  have hs : (Dis.serializePduStatus h.pdu_status (UInt8.ofNat h.pdu_type)).toNat < 2 ^ 8 := UInt8.toNat_lt _
  simp only [CdisHeader.parse, CdisHeader.ser, List.append_assoc, rt, *]
  rw [UInt8.ofNat_toNat, (Verif.Props.C02_status_round_trip h6).1]
theorem CdisHeader.length_ser (h : CdisHeader) : h.ser.length = h.lenBits := by
  simp only [CdisHeader.ser, CdisHeader.lenBits, len]; omega
instance : P.Stable CdisHeader.parse := by unfold CdisHeader.parse; parser_ok
instance : P.Safe CdisHeader.parse := by unfold CdisHeader.parse; parser_ok

/-! ## Vectors, identifiers, types -/

/-- records/model.rs:210-214 (SVINT12), 336-340 and 497-501 (SVINT16), 471-475 (SVINT14): three signed numbers. -/
structure Vec3 where
  x : Int
  y : Int
  z : Int
  deriving Repr, DecidableEq

/-- records/writer.rs:24-33, 35-44, 46-55, 84-93: the three components; `t` is the variable length integer used. -/
def Vec3.ser (t : SV4) (v : Vec3) : Bits := t.ser v.x ++ t.ser v.y ++ t.ser v.z
/-- records/parser.rs:37-57, 122-142 -/
def Vec3.parse (t : SV4) : BitP Vec3 := do
  let x ← t.parse
  let y ← t.parse
  let z ← t.parse
  pure ⟨x, y, z⟩
/-- records/model.rs:226-232, 352-358, 487-493, 509-515 -/
def Vec3.lenBits (t : SV4) (v : Vec3) : Nat := t.lenBits v.x + t.lenBits v.y + t.lenBits v.z
def Vec3.In (n : Nat) (v : Vec3) : Prop := InS n v.x ∧ InS n v.y ∧ InS n v.z
instance (n : Nat) (v : Vec3) : Decidable (v.In n) := inferInstanceAs (Decidable (_ ∧ _))

theorem Vec3.run12 {v : Vec3} (h : v.In 12) (r : Bits) : (Vec3.parse sv12).run (v.ser sv12 ++ r) = .ok v r := by
  obtain ⟨h1, h2, h3⟩ := h
  simp only [Vec3.parse, Vec3.ser, List.append_assoc, rt, *]
theorem Vec3.run14 {v : Vec3} (h : v.In 14) (r : Bits) : (Vec3.parse sv14).run (v.ser sv14 ++ r) = .ok v r := by
  obtain ⟨h1, h2, h3⟩ := h
  simp only [Vec3.parse, Vec3.ser, List.append_assoc, rt, *]
theorem Vec3.run16 {v : Vec3} (h : v.In 16) (r : Bits) : (Vec3.parse sv16).run (v.ser sv16 ++ r) = .ok v r := by
  obtain ⟨h1, h2, h3⟩ := h
  simp only [Vec3.parse, Vec3.ser, List.append_assoc, rt, *]
theorem Vec3.length_ser {t : SV4} (ht : t.Pos) (v : Vec3) : (v.ser t).length = v.lenBits t := by
  simp only [Vec3.ser, Vec3.lenBits, List.length_append, SV4.length_ser ht]
theorem Vec3.length12 (v : Vec3) : (v.ser sv12).length = v.lenBits sv12 := Vec3.length_ser (by decide) v
theorem Vec3.length14 (v : Vec3) : (v.ser sv14).length = v.lenBits sv14 := Vec3.length_ser (by decide) v
theorem Vec3.length16 (v : Vec3) : (v.ser sv16).length = v.lenBits sv16 := Vec3.length_ser (by decide) v
instance (t : SV4) : P.Stable (Vec3.parse t) := by unfold Vec3.parse; parser_ok
instance (t : SV4) : P.Safe (Vec3.parse t) := by unfold Vec3.parse; parser_ok

/-- records/model.rs:362-366 `EntityId` (also used for event ids) -/
structure EntityId where
  site : Nat
  application : Nat
  entity : Nat
  deriving Repr, DecidableEq
/-- records/writer.rs:57-66 -/
def EntityId.ser (v : EntityId) : Bits := wUV16 v.site ++ wUV16 v.application ++ wUV16 v.entity
/-- records/parser.rs:59-68 -/
def EntityId.parse : BitP EntityId := do
  let site ← rUV16
  let application ← rUV16
  let entity ← rUV16
  pure ⟨site, application, entity⟩
/-- records/parser.rs:70-79 -/
def EntityId.parseUncompressed : BitP EntityId := do
  let site ← rU 16
  let application ← rU 16
  let entity ← rU 16
  pure ⟨site, application, entity⟩
/-- records/model.rs:410-416 -/
def EntityId.lenBits (v : EntityId) : Nat := lUV16 v.site + lUV16 v.application + lUV16 v.entity
def EntityId.Wf (v : EntityId) : Prop := v.site < 65536 ∧ v.application < 65536 ∧ v.entity < 65536
instance (v : EntityId) : Decidable v.Wf := inferInstanceAs (Decidable (_ ∧ _))
theorem EntityId.run {v : EntityId} (h : v.Wf) (r : Bits) : EntityId.parse.run (v.ser ++ r) = .ok v r := by
  obtain ⟨h1, h2, h3⟩ := h
  simp only [EntityId.parse, EntityId.ser, List.append_assoc, rt, *]
theorem EntityId.length_ser (v : EntityId) : v.ser.length = v.lenBits := by
  simp only [EntityId.ser, EntityId.lenBits, len]
instance : P.Stable EntityId.parse := by unfold EntityId.parse; parser_ok
instance : P.Safe EntityId.parse := by unfold EntityId.parse; parser_ok
instance : P.Stable EntityId.parseUncompressed := by unfold EntityId.parseUncompressed; parser_ok
instance : P.Safe EntityId.parseUncompressed := by unfold EntityId.parseUncompressed; parser_ok

/-- records/model.rs:420-428 `EntityType` -/
structure EntityType where
  kind : Nat
  domain : Nat
  country : Nat
  category : Nat
  subcategory : Nat
  specific : Nat
  extra : Nat
  deriving Repr, DecidableEq
/-- records/writer.rs:68-82 -/
def EntityType.ser (v : EntityType) : Bits :=
  wU 4 v.kind ++ wU 4 v.domain ++ wU 9 v.country ++ wUV8 v.category ++ wUV8 v.subcategory ++ wUV8 v.specific
    ++ wUV8 v.extra
/-- records/parser.rs:81-98 -/
def EntityType.parse : BitP EntityType := do
  let kind ← rU 4
  let domain ← rU 4
  let country ← rU 9
  let category ← rUV8
  let subcategory ← rUV8
  let specific ← rUV8
  let extra ← rUV8
  pure ⟨kind, domain, country, category, subcategory, specific, extra⟩
/-- records/parser.rs:100-120 -/
def EntityType.parseUncompressed : BitP EntityType := do
  let kind ← rU 8
  let domain ← rU 8
  let country ← rU 16
  let category ← rU 8
  let subcategory ← rU 8
  let specific ← rU 8
  let extra ← rU 8
  pure ⟨kind, domain, country, category, subcategory, specific, extra⟩
/-- records/model.rs:444-453 -/
def EntityType.lenBits (v : EntityType) : Nat :=
  17 + lUV8 v.category + lUV8 v.subcategory + lUV8 v.specific + lUV8 v.extra
def EntityType.Wf (v : EntityType) : Prop :=
  v.kind < 2 ^ 4 ∧ v.domain < 2 ^ 4 ∧ v.country < 2 ^ 9 ∧ v.category < 256 ∧ v.subcategory < 256 ∧ v.specific < 256
    ∧ v.extra < 256
instance (v : EntityType) : Decidable v.Wf := inferInstanceAs (Decidable (_ ∧ _))
theorem EntityType.run {v : EntityType} (h : v.Wf) (r : Bits) : EntityType.parse.run (v.ser ++ r) = .ok v r := by
  obtain ⟨h1, h2, h3, h4, h5, h6, h7⟩ := h
  simp only [EntityType.parse, EntityType.ser, List.append_assoc, rt, *]
theorem EntityType.length_ser (v : EntityType) : v.ser.length = v.lenBits := by
  simp only [EntityType.ser, EntityType.lenBits, len]
instance : P.Stable EntityType.parse := by unfold EntityType.parse; parser_ok
instance : P.Safe EntityType.parse := by unfold EntityType.parse; parser_ok
instance : P.Stable EntityType.parseUncompressed := by unfold EntityType.parseUncompressed; parser_ok
instance : P.Safe EntityType.parseUncompressed := by unfold EntityType.parseUncompressed; parser_ok

/-- records/model.rs:523-527 `Orientation` -/
structure Orientation where
  psi : Int
  theta : Int
  phi : Int
  deriving Repr, DecidableEq
/-- records/writer.rs:106-115 -/
def Orientation.ser (v : Orientation) : Bits := wS 13 v.psi ++ wS 13 v.theta ++ wS 13 v.phi
/-- records/parser.rs:144-153 -/
def Orientation.parse : BitP Orientation := do
  let psi ← rS 13
  let theta ← rS 13
  let phi ← rS 13
  pure ⟨psi, theta, phi⟩
/-- records/model.rs:539-543 -/
def Orientation.lenBits (_ : Orientation) : Nat := 39
def Orientation.Wf (v : Orientation) : Prop := InS 13 v.psi ∧ InS 13 v.theta ∧ InS 13 v.phi
instance (v : Orientation) : Decidable v.Wf := inferInstanceAs (Decidable (_ ∧ _))
theorem Orientation.run {v : Orientation} (h : v.Wf) (r : Bits) : Orientation.parse.run (v.ser ++ r) = .ok v r := by
  obtain ⟨h1, h2, h3⟩ := h
  simp only [Orientation.parse, Orientation.ser, List.append_assoc, rt, *]
theorem Orientation.length_ser (v : Orientation) : v.ser.length = v.lenBits := by
  simp only [Orientation.ser, Orientation.lenBits, List.length_append, length_wS _ (by decide : 0 < 13)]
instance : P.Stable Orientation.parse := by unfold Orientation.parse; parser_ok
instance : P.Safe Orientation.parse := by unfold Orientation.parse; parser_ok

/-! ## World coordinates -/

/-- records/model.rs:955-959 `WorldCoordinates`: latitude and longitude are `f32`. -/
structure WorldCoordinates where
  latitude : Rat
  longitude : Rat
  altitude_msl : Int
  deriving Repr, DecidableEq
/-- records/parser.rs:166 `WORLD_COORDINATES_LAT_SCALE`: `((2^30) - 1) as f32 / (PI / 2.0)`, where `^` is
exclusive or, so that the numerator is `28 - 1`. -/
def latScale : Rat := f32 (27 / f32 (f32PI / 2))
/-- records/parser.rs:167 `WORLD_COORDINATES_LON_SCALE`: the numerator is `(2 xor 31) - 1 = 28`. -/
def lonScale : Rat := f32 (28 / f32PI)
/-- records/writer.rs:95-104 -/
def WorldCoordinates.ser (v : WorldCoordinates) : Bits :=
  wS 31 (asI32 v.latitude) ++ wS 32 (asI32 v.longitude) ++ sv24.ser v.altitude_msl
/-- records/parser.rs:169-181 -/
def WorldCoordinates.parse : BitP WorldCoordinates := do
  let latitude ← rS 31
  let longitude ← rS 32
  let altitude_msl ← sv24.parse
  pure ⟨f32 (f32 latitude / latScale), f32 (f32 longitude / lonScale), altitude_msl⟩
/-- records/model.rs:971-976 -/
def WorldCoordinates.lenBits (v : WorldCoordinates) : Nat := 63 + sv24.lenBits v.altitude_msl
/-- The coordinates that survive being written and read: the two scalings, which differ by a factor, must both give
the number back (this holds for zero). -/
def WorldCoordinates.Wf (v : WorldCoordinates) : Prop :=
  InS 31 (asI32 v.latitude) ∧ In24 v.altitude_msl ∧
  f32 (f32 (asI32 v.latitude) / latScale) = v.latitude ∧ f32 (f32 (asI32 v.longitude) / lonScale) = v.longitude
instance (v : WorldCoordinates) : Decidable v.Wf := inferInstanceAs (Decidable (_ ∧ _))

theorem asI32_in (x : Rat) : InS 32 (asI32 x) := by
  unfold asI32 castSat InS
  generalize truncRat x = t
  omega

/-- What arrives when world coordinates are written and read, whatever they are. -/
theorem WorldCoordinates.run_raw {v : WorldCoordinates} (hl : InS 31 (asI32 v.latitude)) (ha : In24 v.altitude_msl)
    (r : Bits) : WorldCoordinates.parse.run (v.ser ++ r) =
      .ok ⟨f32 (f32 (asI32 v.latitude) / latScale), f32 (f32 (asI32 v.longitude) / lonScale), v.altitude_msl⟩ r := by
  have h32 := asI32_in v.longitude
  unfold WorldCoordinates.ser
  generalize asI32 v.latitude = a at *
  generalize asI32 v.longitude = b at *
  simp only [WorldCoordinates.parse, List.append_assoc, rt, *]
theorem WorldCoordinates.run {v : WorldCoordinates} (h : v.Wf) (r : Bits) :
    WorldCoordinates.parse.run (v.ser ++ r) = .ok v r := by
  obtain ⟨h1, h2, h3, h4⟩ := h
  rw [WorldCoordinates.run_raw h1 h2, h3, h4]
theorem WorldCoordinates.length_ser (v : WorldCoordinates) : v.ser.length = v.lenBits := by
  simp only [WorldCoordinates.ser, WorldCoordinates.lenBits, List.length_append, length_wS _ (by decide : 0 < 31),
    length_wS _ (by decide : 0 < 32), length_sv24]
instance : P.Stable WorldCoordinates.parse := by unfold WorldCoordinates.parse; parser_ok
instance : P.Safe WorldCoordinates.parse := by unfold WorldCoordinates.parse; parser_ok

end Verif.Cdis
