import Verif.Cdis.Records2

/-! # C-DIS simulation management bodies -/

namespace Verif.Cdis
open Verif.P

attribute [rt high] VariableParameter.run

/-! ## Lists -/

theorem length_flatMap_sum {α : Type} {w : α → Bits} {l : α → Nat} {q : α → Prop} (h : ∀ x, q x → (w x).length = l x)
    (xs : List α) (hq : ∀ x ∈ xs, q x) : (xs.flatMap w).length = (xs.map l).sum := by
  induction xs with
  | nil => rfl
  | cons x xs ih =>
    simp only [List.flatMap_cons, List.length_append, List.map_cons, List.sum_cons, h x (hq x (by simp)),
      ih fun y hy => hq y (by simp [hy])]

/-- `UVINT8::from(list.len() as u8)` and the other counts written with `as u8`: the low eight bits of the length. -/
def wCount8 {α : Type} (l : List α) : Bits := wUV8 (l.length % 256)
/-- The count is written only for a list that is not empty. -/
def wCountOpt {α : Type} (l : List α) : Bits := if l.isEmpty then [] else wCount8 l
/-- Read a count that is present when `c`, and then (elsewhere) as many elements as it says. -/
def rCountOpt (c : Bool) : BitP Nat := do
  let n ← rWhen c rUV8
  pure (n.getD 0)
instance (c : Bool) : P.Stable (rCountOpt c) := by unfold rCountOpt; parser_ok
instance (c : Bool) : P.Safe (rCountOpt c) := by unfold rCountOpt; parser_ok

theorem rCountOpt_run {α : Type} (l : List α) (h : l.length < 256) (r : Bits) :
    (rCountOpt !l.isEmpty).run (wCountOpt l ++ r) = .ok l.length r := by
  cases l with
  | nil => simp [rCountOpt, rWhen, wCountOpt]
  | cons x xs =>
    simp only [List.isEmpty_cons, Bool.not_false, rCountOpt, rWhen, wCountOpt, Bool.false_eq_true, if_false, if_true,
      wCount8, Nat.mod_eq_of_lt h, rt, rUV8_run _ _ h, Option.getD_some]

/-! ## Clock time, time stamps -/

/-- dis-rs/src/common/model.rs `ClockTime`: hour (i32) and time past the hour (u32) -/
structure ClockTime where
  hour : Int
  time_past_hour : Nat
  deriving Repr, DecidableEq
/-- types/writer.rs:101-106 -/
def ClockTime.ser (v : ClockTime) : Bits := wS 32 v.hour ++ wU 32 v.time_past_hour
/-- types/parser.rs:89-95: the hour is taken into an `i32` -/
def ClockTime.parse : BitP ClockTime := do
  let hour ← rI 32
  let time_past_hour ← rU 32
  pure ⟨hour, time_past_hour⟩
def ClockTime.Wf (v : ClockTime) : Prop := InS 32 v.hour ∧ v.time_past_hour < 2 ^ 32
instance (v : ClockTime) : Decidable v.Wf := inferInstanceAs (Decidable (_ ∧ _))
theorem ClockTime.run {v : ClockTime} (h : v.Wf) (r : Bits) : ClockTime.parse.run (v.ser ++ r) = .ok v r := by
  obtain ⟨h1, h2⟩ := h
  simp only [ClockTime.parse, ClockTime.ser, List.append_assoc, rt, rI_run 32 v.hour _ (by decide) h1, h2]
theorem ClockTime.length_ser (v : ClockTime) : v.ser.length = 64 := by
  simp only [ClockTime.ser, List.length_append, length_wS _ (by decide : 0 < 32), length_wU]
instance : P.Stable ClockTime.parse := by unfold ClockTime.parse; parser_ok
instance : P.Safe ClockTime.parse := by unfold ClockTime.parse; parser_ok

/-- records/model.rs:73-76 `CdisTimeStamp`; the nanoseconds, which are computed from the units, are left out. -/
structure CdisTimeStamp where
  absolute : Bool
  units : Nat
  deriving Repr, DecidableEq
/-- records/model.rs:152-165 `From<CdisTimeStamp> for TimeStamp` -/
def CdisTimeStamp.raw (v : CdisTimeStamp) : Nat := if v.absolute then (v.units <<< 1) ||| 1 else v.units <<< 1
/-- records/model.rs:132-144 `From<u32> for CdisTimeStamp` -/
def CdisTimeStamp.ofRaw (raw : Nat) : CdisTimeStamp := ⟨decide (raw &&& 1 = 1), raw >>> 1⟩
theorem CdisTimeStamp.raw_eq (v : CdisTimeStamp) : v.raw = 2 * v.units + v.absolute.toNat := by
  unfold CdisTimeStamp.raw
  have h2 : v.units <<< 1 ||| 1 = v.units <<< 1 + 1 := (Nat.shiftLeft_add_eq_or_of_lt (i := 1) (by decide) v.units).symm
  rw [h2, Nat.shiftLeft_eq]
  cases v.absolute <;> simp <;> omega
theorem CdisTimeStamp.ofRaw_raw (v : CdisTimeStamp) : CdisTimeStamp.ofRaw v.raw = v := by
  unfold CdisTimeStamp.ofRaw
  rw [Nat.and_one_is_mod, Nat.shiftRight_eq_div_pow, CdisTimeStamp.raw_eq]
  cases v with | mk a u => cases a <;> simp <;> omega

/-! ## Datums -/

/-- dis-rs/src/common/model.rs `FixedDatum` -/
structure FixedDatum where
  datum_id : Nat
  datum_value : Nat
  deriving Repr, DecidableEq
/-- records/writer.rs:232-240 -/
def FixedDatum.ser (v : FixedDatum) : Bits := wU 32 v.datum_id ++ wU 32 v.datum_value
/-- records/parser.rs:441-448 -/
def FixedDatum.parse : BitP FixedDatum := do
  let datum_id ← rU 32
  let datum_value ← rU 32
  pure ⟨datum_id, datum_value⟩
def FixedDatum.Wf (v : FixedDatum) : Prop := v.datum_id < 2 ^ 32 ∧ v.datum_value < 2 ^ 32
instance (v : FixedDatum) : Decidable v.Wf := inferInstanceAs (Decidable (_ ∧ _))

/-- dis-rs/src/common/model.rs `VariableDatum`; octets are numbers below 256. -/
structure VariableDatum where
  datum_id : Nat
  datum_value : List Nat
  deriving Repr, DecidableEq
/-- records/writer.rs:242-254: the length in bits, 16383 when it exceeds an `u16`, in 14 bits -/
def VariableDatum.ser (v : VariableDatum) : Bits :=
  wU 32 v.datum_id ++ wU 14 (if v.datum_value.length * 8 < 65536 then v.datum_value.length * 8 else 16383)
    ++ v.datum_value.flatMap (wU 8)
/-- records/parser.rs:450-465 -/
def VariableDatum.parse : BitP VariableDatum := do
  let datum_id ← rU 32
  let bits ← rU 14
  let datum_value ← P.count (rU 8) (bits / 8)
  if bits % 8 ≠ 0 then
    let last ← rU (bits % 8)
    pure ⟨datum_id, datum_value ++ [last <<< (8 - bits % 8) % 256]⟩
  else pure ⟨datum_id, datum_value⟩
/-- records/model.rs:294-299 -/
def VariableDatum.lenBits (v : VariableDatum) : Nat := 32 + 14 + v.datum_value.length * 8
def VariableDatum.Wf (v : VariableDatum) : Prop :=
  v.datum_id < 2 ^ 32 ∧ v.datum_value.length < 2048 ∧ ∀ b ∈ v.datum_value, b < 2 ^ 8
instance (v : VariableDatum) : Decidable v.Wf := inferInstanceAs (Decidable (_ ∧ _))

theorem run_octets {l : List Nat} (h : ∀ b ∈ l, b < 2 ^ 8) (n : Nat) (hn : n = l.length) (r : Bits) :
    (P.count (rU 8) n).run (l.flatMap (wU 8) ++ r) = .ok l r :=
  run_count' l r n hn fun b hb r => rU_run 8 b r (h b hb)

theorem FixedDatum.run {v : FixedDatum} (h : v.Wf) (r : Bits) : FixedDatum.parse.run (v.ser ++ r) = .ok v r := by
  obtain ⟨h1, h2⟩ := h
  simp only [FixedDatum.parse, FixedDatum.ser, List.append_assoc, rt, *]
theorem FixedDatum.length_ser (v : FixedDatum) : v.ser.length = 64 := by simp only [FixedDatum.ser, len]
theorem VariableDatum.run {v : VariableDatum} (h : v.Wf) (r : Bits) : VariableDatum.parse.run (v.ser ++ r) = .ok v r := by
  obtain ⟨h1, h2, h3⟩ := h
  have e1 : v.datum_value.length * 8 < 65536 := by omega
  have e2 : v.datum_value.length * 8 < 2 ^ 14 := by omega
  have e3 : ¬ (v.datum_value.length * 8 % 8 ≠ 0) := by omega
  simp only [VariableDatum.parse, VariableDatum.ser, List.append_assoc, rt, h1, e1, if_true, e2,
    run_octets h3 (v.datum_value.length * 8 / 8) (by omega) r, e3, if_false]
theorem VariableDatum.length_ser (v : VariableDatum) : v.ser.length = v.lenBits := by
  simp only [VariableDatum.ser, VariableDatum.lenBits, len, length_flatMap_wU]
instance : P.Stable FixedDatum.parse := by unfold FixedDatum.parse; parser_ok
instance : P.Safe FixedDatum.parse := by unfold FixedDatum.parse; parser_ok
instance : P.Stable VariableDatum.parse := by unfold VariableDatum.parse; parser_ok
instance : P.Safe VariableDatum.parse := by unfold VariableDatum.parse; parser_ok

/-- dis-rs/src/common/model.rs `DatumSpecification` -/
structure Datums where
  fixed : List FixedDatum
  var : List VariableDatum
  deriving Repr, DecidableEq
/-- `fields_present_field` of the seven bodies with datums, e.g. action_request/model.rs:20-23 -/
def Datums.fp (v : Datums) : Nat := flag (!v.fixed.isEmpty) (bit 1) ||| flag (!v.var.isEmpty) (bit 0)
/-- The tail of the seven writers, e.g. action_request/writer.rs:17-27: counts of the lists that are not empty, then
the records. -/
def Datums.ser (v : Datums) : Bits :=
  wCountOpt v.fixed ++ wCountOpt v.var ++ v.fixed.flatMap FixedDatum.ser ++ v.var.flatMap VariableDatum.ser
/-- The tail of the seven parsers, e.g. action_request/parser.rs:20-36 -/
def Datums.parse (fp : Nat) : BitP Datums := do
  let nf ← rCountOpt (has fp (bit 1))
  let nv ← rCountOpt (has fp (bit 0))
  let fixed ← P.count FixedDatum.parse nf
  let var ← P.count VariableDatum.parse nv
  pure ⟨fixed, var⟩
/-- records/model.rs:277-284: both counts are always included, saturated at 255. -/
def Datums.lenBits (v : Datums) : Nat :=
  lUV8 (min v.fixed.length 255) + lUV8 (min v.var.length 255) + (v.fixed.map fun _ => 64).sum
    + (v.var.map VariableDatum.lenBits).sum
def Datums.Wf (v : Datums) : Prop :=
  v.fixed.length < 256 ∧ v.var.length < 256 ∧ (∀ d ∈ v.fixed, d.Wf) ∧ ∀ d ∈ v.var, d.Wf
instance (v : Datums) : Decidable v.Wf := inferInstanceAs (Decidable (_ ∧ _))

theorem Datums.fp_lt (v : Datums) : v.fp < 2 ^ 2 := by
  unfold Datums.fp; flag_bound
theorem Datums.has_fixed (v : Datums) : has v.fp (bit 1) = !v.fixed.isEmpty := by
  unfold Datums.fp; flag_bits
theorem Datums.has_var (v : Datums) : has v.fp (bit 0) = !v.var.isEmpty := by
  unfold Datums.fp; flag_bits
theorem Datums.run {v : Datums} (h : v.Wf) (r : Bits) : (Datums.parse v.fp).run (v.ser ++ r) = .ok v r := by
  obtain ⟨h1, h2, h3, h4⟩ := h
  simp only [Datums.parse, Datums.ser, List.append_assoc, P.run_bind, Datums.has_fixed, Datums.has_var,
    rCountOpt_run _ h1, rCountOpt_run _ h2, Res.andThen_ok,
    run_count v.fixed _ fun x hx r => FixedDatum.run (h3 x hx) r,
    run_count v.var _ fun x hx r => VariableDatum.run (h4 x hx) r, P.run_pure]

/-- The bits of a count that is written only for a list that is not empty. -/
def countOptBits {α : Type} (l : List α) : Nat := if l.isEmpty then 0 else lUV8 (l.length % 256)
theorem length_wCountOpt {α : Type} (l : List α) : (wCountOpt l).length = countOptBits l := by
  unfold wCountOpt countOptBits wCount8
  split
  · rfl
  · exact length_wUV8 _
/-- The number of bits really written. -/
theorem Datums.length_ser_raw (v : Datums) : v.ser.length =
    countOptBits v.fixed + countOptBits v.var + (v.fixed.map fun _ => 64).sum + (v.var.map VariableDatum.lenBits).sum := by
  simp only [Datums.ser, List.length_append, length_wCountOpt,
    length_flatMap_sum (q := fun _ => True) (fun x _ => FixedDatum.length_ser x) v.fixed fun _ _ => trivial,
    length_flatMap_sum (q := fun _ => True) (fun x _ => VariableDatum.length_ser x) v.var fun _ _ => trivial]
/-- The announced length is right when both lists are non-empty and countable. -/
theorem Datums.length_ser {v : Datums} (hf : v.fixed ≠ []) (hv : v.var ≠ []) (h1 : v.fixed.length < 256)
    (h2 : v.var.length < 256) : v.ser.length = v.lenBits := by
  rw [Datums.length_ser_raw]
  unfold Datums.lenBits countOptBits
  rw [if_neg (by simp [hf]), if_neg (by simp [hv]), Nat.mod_eq_of_lt h1, Nat.mod_eq_of_lt h2,
    Nat.min_eq_left (by omega), Nat.min_eq_left (by omega)]
/-- Each empty list makes the announced length five bits too large. -/
theorem Datums.length_excess {v : Datums} (h1 : v.fixed.length < 256) (h2 : v.var.length < 256) :
    v.ser.length + (if v.fixed.isEmpty then 5 else 0) + (if v.var.isEmpty then 5 else 0) = v.lenBits := by
  rw [Datums.length_ser_raw]
  unfold Datums.lenBits countOptBits
  rw [Nat.mod_eq_of_lt h1, Nat.mod_eq_of_lt h2, Nat.min_eq_left (by omega), Nat.min_eq_left (by omega)]
  have e : lUV8 0 = 5 := rfl
  cases hf : v.fixed with
  | nil => cases hv : v.var with
    | nil => simp [e]
    | cons y ys => simp [e]; omega
  | cons x xs => cases hv : v.var with
    | nil => simp [e]; omega
    | cons y ys => simp
instance (fp : Nat) : P.Stable (Datums.parse fp) := by unfold Datums.parse; parser_ok
instance (fp : Nat) : P.Safe (Datums.parse fp) := by unfold Datums.parse; parser_ok

/-! ## Bodies -/

/-- create_entity/model.rs:6-10, remove_entity/model.rs:6-10 -/
structure CreateRemove where
  originating_id : EntityId
  receiving_id : EntityId
  request_id : Nat
  deriving Repr, DecidableEq
/-- create_entity/writer.rs:5-14, remove_entity/writer.rs:5-14 -/
def CreateRemove.ser (v : CreateRemove) : Bits := v.originating_id.ser ++ v.receiving_id.ser ++ wUV32 v.request_id
/-- create_entity/parser.rs:8-18, remove_entity/parser.rs:8-18 -/
def CreateRemove.parse : BitP CreateRemove := do
  let originating_id ← EntityId.parse
  let receiving_id ← EntityId.parse
  let request_id ← rUV32
  pure ⟨originating_id, receiving_id, request_id⟩
/-- create_entity/model.rs:21-25, remove_entity/model.rs:21-25 -/
def CreateRemove.lenBits (v : CreateRemove) : Nat :=
  v.originating_id.lenBits + v.receiving_id.lenBits + lUV32 v.request_id
def CreateRemove.Wf (v : CreateRemove) : Prop :=
  v.originating_id.Wf ∧ v.receiving_id.Wf ∧ v.request_id < 4294967296
instance (v : CreateRemove) : Decidable v.Wf := inferInstanceAs (Decidable (_ ∧ _))
theorem CreateRemove.run {v : CreateRemove} (h : v.Wf) (r : Bits) : CreateRemove.parse.run (v.ser ++ r) = .ok v r := by
  obtain ⟨h1, h2, h3⟩ := h
  simp only [CreateRemove.parse, CreateRemove.ser, List.append_assoc, rt, *]
theorem CreateRemove.length_ser (v : CreateRemove) : v.ser.length = v.lenBits := by
  simp only [CreateRemove.ser, CreateRemove.lenBits, len]
instance : P.Stable CreateRemove.parse := by unfold CreateRemove.parse; parser_ok
instance : P.Safe CreateRemove.parse := by unfold CreateRemove.parse; parser_ok

/-- start_resume/model.rs:7-13 -/
structure StartResume where
  originating_id : EntityId
  receiving_id : EntityId
  real_world_time : ClockTime
  simulation_time : ClockTime
  request_id : Nat
  deriving Repr, DecidableEq
/-- start_resume/writer.rs:6-17 -/
def StartResume.ser (v : StartResume) : Bits :=
  v.originating_id.ser ++ v.receiving_id.ser ++ v.real_world_time.ser ++ v.simulation_time.ser ++ wUV32 v.request_id
/-- start_resume/parser.rs:8-24 -/
def StartResume.parse : BitP StartResume := do
  let originating_id ← EntityId.parse
  let receiving_id ← EntityId.parse
  let real_world_time ← ClockTime.parse
  let simulation_time ← ClockTime.parse
  let request_id ← rUV32
  pure ⟨originating_id, receiving_id, real_world_time, simulation_time, request_id⟩
/-- start_resume/model.rs:24-31 -/
def StartResume.lenBits (v : StartResume) : Nat :=
  v.originating_id.lenBits + v.receiving_id.lenBits + 64 + 64 + lUV32 v.request_id
def StartResume.Wf (v : StartResume) : Prop :=
  v.originating_id.Wf ∧ v.receiving_id.Wf ∧ v.real_world_time.Wf ∧ v.simulation_time.Wf ∧ v.request_id < 4294967296
instance (v : StartResume) : Decidable v.Wf := inferInstanceAs (Decidable (_ ∧ _))
theorem StartResume.run {v : StartResume} (h : v.Wf) (r : Bits) : StartResume.parse.run (v.ser ++ r) = .ok v r := by
  obtain ⟨h1, h2, h3, h4, h5⟩ := h
  simp only [StartResume.parse, StartResume.ser, List.append_assoc, rt, ClockTime.run h3, ClockTime.run h4, *]
theorem StartResume.length_ser (v : StartResume) : v.ser.length = v.lenBits := by
  simp only [StartResume.ser, StartResume.lenBits, len, ClockTime.length_ser]
instance : P.Stable StartResume.parse := by unfold StartResume.parse; parser_ok
instance : P.Safe StartResume.parse := by unfold StartResume.parse; parser_ok

/-- stop_freeze/model.rs:8-15; the frozen behaviour is three flags. -/
structure StopFreeze where
  originating_id : EntityId
  receiving_id : EntityId
  real_world_time : ClockTime
  reason : Nat
  run_simulation_clock : Bool
  transmit_updates : Bool
  process_updates : Bool
  request_id : Nat
  deriving Repr, DecidableEq
/-- stop_freeze/writer.rs:8-34 -/
def StopFreeze.ser (v : StopFreeze) : Bits :=
  v.originating_id.ser ++ v.receiving_id.ser ++ v.real_world_time.ser ++ wU 4 v.reason
    ++ wU 1 v.run_simulation_clock.toNat ++ wU 1 v.transmit_updates.toNat ++ wU 1 v.process_updates.toNat
    ++ wUV32 v.request_id
/-- stop_freeze/parser.rs:11-46 -/
def StopFreeze.parse : BitP StopFreeze := do
  let originating_id ← EntityId.parse
  let receiving_id ← EntityId.parse
  let real_world_time ← ClockTime.parse
  let reason ← rU 4
  let a ← rU 1
  let b ← rU 1
  let c ← rU 1
  let request_id ← rUV32
  pure ⟨originating_id, receiving_id, real_world_time, reason, a != 0, b != 0, c != 0, request_id⟩
/-- stop_freeze/model.rs:26-34 -/
def StopFreeze.lenBits (v : StopFreeze) : Nat :=
  v.originating_id.lenBits + v.receiving_id.lenBits + 64 + 7 + lUV32 v.request_id
def StopFreeze.Wf (v : StopFreeze) : Prop :=
  v.originating_id.Wf ∧ v.receiving_id.Wf ∧ v.real_world_time.Wf ∧ v.reason < 2 ^ 4 ∧ v.request_id < 4294967296
instance (v : StopFreeze) : Decidable v.Wf := inferInstanceAs (Decidable (_ ∧ _))
theorem toNat_lt_pow (b : Bool) : b.toNat < 2 ^ 1 := by cases b <;> decide
theorem toNat_bne (b : Bool) : (b.toNat != 0) = b := by cases b <;> rfl
theorem StopFreeze.run {v : StopFreeze} (h : v.Wf) (r : Bits) : StopFreeze.parse.run (v.ser ++ r) = .ok v r := by
  obtain ⟨h1, h2, h3, h4, h5⟩ := h
  simp only [StopFreeze.parse, StopFreeze.ser, List.append_assoc, rt, ClockTime.run h3, toNat_lt_pow, toNat_bne, *]
theorem StopFreeze.length_ser (v : StopFreeze) : v.ser.length = v.lenBits := by
  simp only [StopFreeze.ser, StopFreeze.lenBits, len, ClockTime.length_ser]
instance : P.Stable StopFreeze.parse := by unfold StopFreeze.parse; parser_ok
instance : P.Safe StopFreeze.parse := by unfold StopFreeze.parse; parser_ok

/-- acknowledge/model.rs:7-13 -/
structure Acknowledge where
  originating_id : EntityId
  receiving_id : EntityId
  acknowledge_flag : Nat
  response_flag : Nat
  request_id : Nat
  deriving Repr, DecidableEq
/-- acknowledge/writer.rs:6-19 -/
def Acknowledge.ser (v : Acknowledge) : Bits :=
  v.originating_id.ser ++ v.receiving_id.ser ++ wU 3 v.acknowledge_flag ++ wU 2 v.response_flag ++ wUV32 v.request_id
/-- acknowledge/parser.rs:11-29 -/
def Acknowledge.parse : BitP Acknowledge := do
  let originating_id ← EntityId.parse
  let receiving_id ← EntityId.parse
  let acknowledge_flag ← rU 3
  let response_flag ← rU 2
  let request_id ← rUV32
  pure ⟨originating_id, receiving_id, acknowledge_flag, response_flag, request_id⟩
/-- acknowledge/model.rs:24-30 -/
def Acknowledge.lenBits (v : Acknowledge) : Nat :=
  v.originating_id.lenBits + v.receiving_id.lenBits + 5 + lUV32 v.request_id
def Acknowledge.Wf (v : Acknowledge) : Prop :=
  v.originating_id.Wf ∧ v.receiving_id.Wf ∧ v.acknowledge_flag < 2 ^ 3 ∧ v.response_flag < 2 ^ 2
    ∧ v.request_id < 4294967296
instance (v : Acknowledge) : Decidable v.Wf := inferInstanceAs (Decidable (_ ∧ _))
theorem Acknowledge.run {v : Acknowledge} (h : v.Wf) (r : Bits) : Acknowledge.parse.run (v.ser ++ r) = .ok v r := by
  obtain ⟨h1, h2, h3, h4, h5⟩ := h
  simp only [Acknowledge.parse, Acknowledge.ser, List.append_assoc, rt, *]
theorem Acknowledge.length_ser (v : Acknowledge) : v.ser.length = v.lenBits := by
  simp only [Acknowledge.ser, Acknowledge.lenBits, len]
instance : P.Stable Acknowledge.parse := by unfold Acknowledge.parse; parser_ok
instance : P.Safe Acknowledge.parse := by unfold Acknowledge.parse; parser_ok

/-- action_request/model.rs:7-13, action_response/model.rs:7-13 (where the second number is the request status) -/
structure Action where
  originating_id : EntityId
  receiving_id : EntityId
  request_id : Nat
  action_id : Nat
  datums : Datums
  deriving Repr, DecidableEq
/-- action_request/writer.rs:7-31, action_response/writer.rs:7-31 -/
def Action.ser (v : Action) : Bits :=
  wU 2 v.datums.fp ++ v.originating_id.ser ++ v.receiving_id.ser ++ wUV32 v.request_id ++ wUV32 v.action_id ++ v.datums.ser
/-- action_request/parser.rs:12-45, action_response/parser.rs:12-45 -/
def Action.parse : BitP Action := do
  let fp ← rU 2
  let originating_id ← EntityId.parse
  let receiving_id ← EntityId.parse
  let request_id ← rUV32
  let action_id ← rUV32
  let datums ← Datums.parse fp
  pure ⟨originating_id, receiving_id, request_id, action_id, datums⟩
/-- action_request/model.rs:25-32, action_response/model.rs:25-32 -/
def Action.lenBits (v : Action) : Nat :=
  2 + v.originating_id.lenBits + v.receiving_id.lenBits + lUV32 v.request_id + lUV32 v.action_id + v.datums.lenBits
def Action.Wf (v : Action) : Prop :=
  v.originating_id.Wf ∧ v.receiving_id.Wf ∧ v.request_id < 4294967296 ∧ v.action_id < 4294967296 ∧ v.datums.Wf
instance (v : Action) : Decidable v.Wf := inferInstanceAs (Decidable (_ ∧ _))
theorem Action.run {v : Action} (h : v.Wf) (r : Bits) : Action.parse.run (v.ser ++ r) = .ok v r := by
  obtain ⟨h1, h2, h3, h4, h5⟩ := h
  simp only [Action.parse, Action.ser, List.append_assoc, rt, Datums.fp_lt, Datums.run h5, *]
instance : P.Stable Action.parse := by unfold Action.parse; parser_ok
instance : P.Safe Action.parse := by unfold Action.parse; parser_ok

/-- data/model.rs:7-12, set_data/model.rs:7-12, event_report/model.rs:7-12 (where the number is the event type) -/
structure DataBody where
  originating_id : EntityId
  receiving_id : EntityId
  number : Nat
  datums : Datums
  deriving Repr, DecidableEq
/-- data/writer.rs:7-30, set_data/writer.rs:7-30, event_report/writer.rs:7-30 -/
def DataBody.ser (v : DataBody) : Bits :=
  wU 2 v.datums.fp ++ v.originating_id.ser ++ v.receiving_id.ser ++ wUV32 v.number ++ v.datums.ser
/-- data/parser.rs:12-43, set_data/parser.rs:12-43, event_report/parser.rs:12-43 -/
def DataBody.parse : BitP DataBody := do
  let fp ← rU 2
  let originating_id ← EntityId.parse
  let receiving_id ← EntityId.parse
  let number ← rUV32
  let datums ← Datums.parse fp
  pure ⟨originating_id, receiving_id, number, datums⟩
/-- data/model.rs:24-30, set_data/model.rs:24-30, event_report/model.rs:24-30 -/
def DataBody.lenBits (v : DataBody) : Nat :=
  2 + v.originating_id.lenBits + v.receiving_id.lenBits + lUV32 v.number + v.datums.lenBits
def DataBody.Wf (v : DataBody) : Prop :=
  v.originating_id.Wf ∧ v.receiving_id.Wf ∧ v.number < 4294967296 ∧ v.datums.Wf
instance (v : DataBody) : Decidable v.Wf := inferInstanceAs (Decidable (_ ∧ _))
theorem DataBody.run {v : DataBody} (h : v.Wf) (r : Bits) : DataBody.parse.run (v.ser ++ r) = .ok v r := by
  obtain ⟨h1, h2, h3, h5⟩ := h
  simp only [DataBody.parse, DataBody.ser, List.append_assoc, rt, Datums.fp_lt, Datums.run h5, *]
instance : P.Stable DataBody.parse := by unfold DataBody.parse; parser_ok
instance : P.Safe DataBody.parse := by unfold DataBody.parse; parser_ok

/-- comment/model.rs:6-10 -/
structure Comment where
  originating_id : EntityId
  receiving_id : EntityId
  datums : Datums
  deriving Repr, DecidableEq
/-- comment/writer.rs:7-29 -/
def Comment.ser (v : Comment) : Bits :=
  wU 2 v.datums.fp ++ v.originating_id.ser ++ v.receiving_id.ser ++ v.datums.ser
/-- comment/parser.rs:12-41 -/
def Comment.parse : BitP Comment := do
  let fp ← rU 2
  let originating_id ← EntityId.parse
  let receiving_id ← EntityId.parse
  let datums ← Datums.parse fp
  pure ⟨originating_id, receiving_id, datums⟩
/-- comment/model.rs:22-27 -/
def Comment.lenBits (v : Comment) : Nat := 2 + v.originating_id.lenBits + v.receiving_id.lenBits + v.datums.lenBits
def Comment.Wf (v : Comment) : Prop := v.originating_id.Wf ∧ v.receiving_id.Wf ∧ v.datums.Wf
instance (v : Comment) : Decidable v.Wf := inferInstanceAs (Decidable (_ ∧ _))
theorem Comment.run {v : Comment} (h : v.Wf) (r : Bits) : Comment.parse.run (v.ser ++ r) = .ok v r := by
  obtain ⟨h1, h2, h5⟩ := h
  simp only [Comment.parse, Comment.ser, List.append_assoc, rt, Datums.fp_lt, Datums.run h5, *]
instance : P.Stable Comment.parse := by unfold Comment.parse; parser_ok
instance : P.Safe Comment.parse := by unfold Comment.parse; parser_ok

/-- data_query/model.rs:9-16 -/
structure DataQuery where
  originating_id : EntityId
  receiving_id : EntityId
  request_id : Nat
  time_interval : CdisTimeStamp
  fixed_datum_ids : List Nat
  variable_datum_ids : List Nat
  deriving Repr, DecidableEq
/-- data_query/model.rs:23-26 -/
def DataQuery.fp (v : DataQuery) : Nat :=
  flag (!v.fixed_datum_ids.isEmpty) (bit 1) ||| flag (!v.variable_datum_ids.isEmpty) (bit 0)
/-- data_query/writer.rs:8-33 -/
def DataQuery.ser (v : DataQuery) : Bits :=
  (wU 2 v.fp ++ v.originating_id.ser ++ v.receiving_id.ser ++ wUV32 v.request_id ++ wU 26 v.time_interval.raw)
    ++ (wCountOpt v.fixed_datum_ids ++ wCountOpt v.variable_datum_ids ++ v.fixed_datum_ids.flatMap (wU 32)
    ++ v.variable_datum_ids.flatMap (wU 32))
/-- data_query/parser.rs:13-48 -/
def DataQuery.parse : BitP DataQuery := do
  let fp ← rU 2
  let originating_id ← EntityId.parse
  let receiving_id ← EntityId.parse
  let request_id ← rUV32
  let time_interval ← rU 26
  let nf ← rCountOpt (has fp (bit 1))
  let nv ← rCountOpt (has fp (bit 0))
  let fixed ← P.count (rU 32) nf
  let var ← P.count (rU 32) nv
  pure ⟨originating_id, receiving_id, request_id, CdisTimeStamp.ofRaw time_interval, fixed, var⟩
/-- data_query/model.rs:28-38 -/
def DataQuery.lenBits (v : DataQuery) : Nat :=
  2 + v.originating_id.lenBits + v.receiving_id.lenBits + lUV32 v.request_id + 26
    + lUV8 (min v.fixed_datum_ids.length 255) + lUV8 (min v.variable_datum_ids.length 255)
    + v.fixed_datum_ids.length * 32 + v.variable_datum_ids.length * 32
def DataQuery.Wf (v : DataQuery) : Prop :=
  v.originating_id.Wf ∧ v.receiving_id.Wf ∧ v.request_id < 4294967296 ∧ v.time_interval.units < 2 ^ 25
    ∧ v.fixed_datum_ids.length < 256 ∧ v.variable_datum_ids.length < 256
    ∧ (∀ d ∈ v.fixed_datum_ids, d < 2 ^ 32) ∧ ∀ d ∈ v.variable_datum_ids, d < 2 ^ 32
instance (v : DataQuery) : Decidable v.Wf := inferInstanceAs (Decidable (_ ∧ _))
theorem DataQuery.fp_lt (v : DataQuery) : v.fp < 2 ^ 2 := by
  unfold DataQuery.fp; flag_bound
theorem DataQuery.has_fixed (v : DataQuery) : has v.fp (bit 1) = !v.fixed_datum_ids.isEmpty := by
  unfold DataQuery.fp; flag_bits
theorem DataQuery.has_var (v : DataQuery) : has v.fp (bit 0) = !v.variable_datum_ids.isEmpty := by
  unfold DataQuery.fp; flag_bits
theorem DataQuery.run {v : DataQuery} (h : v.Wf) (r : Bits) : DataQuery.parse.run (v.ser ++ r) = .ok v r := by
  obtain ⟨h1, h2, h3, h4, h5, h6, h7, h8⟩ := h
  have e : v.time_interval.raw < 2 ^ 26 := by
    rw [CdisTimeStamp.raw_eq]; have := toNat_lt_pow v.time_interval.absolute; omega
  simp only [DataQuery.parse, DataQuery.ser, List.append_assoc, rt, DataQuery.fp_lt, DataQuery.has_fixed,
    DataQuery.has_var, rCountOpt_run _ h5, rCountOpt_run _ h6, h1, h2, h3, e,
    run_count v.fixed_datum_ids _ fun x hx r => rU_run 32 x r (h7 x hx),
    run_count v.variable_datum_ids _ fun x hx r => rU_run 32 x r (h8 x hx), CdisTimeStamp.ofRaw_raw]
instance : P.Stable DataQuery.parse := by unfold DataQuery.parse; parser_ok
instance : P.Safe DataQuery.parse := by unfold DataQuery.parse; parser_ok

/-- The lengths announced by the bodies with datums, against the bits written. -/
theorem Action.length_excess {v : Action} (h1 : v.datums.fixed.length < 256) (h2 : v.datums.var.length < 256) :
    v.ser.length + (if v.datums.fixed.isEmpty then 5 else 0) + (if v.datums.var.isEmpty then 5 else 0) = v.lenBits := by
  have := Datums.length_excess h1 h2
  simp only [Action.ser, Action.lenBits, len, lUV32]; omega
theorem DataBody.length_excess {v : DataBody} (h1 : v.datums.fixed.length < 256) (h2 : v.datums.var.length < 256) :
    v.ser.length + (if v.datums.fixed.isEmpty then 5 else 0) + (if v.datums.var.isEmpty then 5 else 0) = v.lenBits := by
  have := Datums.length_excess h1 h2
  simp only [DataBody.ser, DataBody.lenBits, len, lUV32]; omega
theorem Comment.length_excess {v : Comment} (h1 : v.datums.fixed.length < 256) (h2 : v.datums.var.length < 256) :
    v.ser.length + (if v.datums.fixed.isEmpty then 5 else 0) + (if v.datums.var.isEmpty then 5 else 0) = v.lenBits := by
  have := Datums.length_excess h1 h2
  simp only [Comment.ser, Comment.lenBits, len]; omega
theorem countOptBits_excess {α : Type} {l : List α} (h : l.length < 256) :
    countOptBits l + (if l.isEmpty then 5 else 0) = lUV8 (min l.length 255) := by
  unfold countOptBits
  rw [Nat.mod_eq_of_lt h, Nat.min_eq_left (by omega)]
  have e : lUV8 0 = 5 := rfl
  cases l with
  | nil => simp [e]
  | cons x xs => simp
theorem DataQuery.length_excess {v : DataQuery} (h1 : v.fixed_datum_ids.length < 256)
    (h2 : v.variable_datum_ids.length < 256) :
    v.ser.length + (if v.fixed_datum_ids.isEmpty then 5 else 0) + (if v.variable_datum_ids.isEmpty then 5 else 0)
      = v.lenBits := by
  have e1 := countOptBits_excess h1
  have e2 := countOptBits_excess h2
  simp only [DataQuery.ser, DataQuery.lenBits, len, length_flatMap_wU, length_wCountOpt, lUV32]; omega

end Verif.Cdis
