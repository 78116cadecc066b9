import Verif.Cdis.Pdu
import Mathlib.Tactic.CasesM

/-! # What the C-DIS reader guarantees about the values it returns

A small program logic (no model content): `Gives p Q` says that whatever `p` reads satisfies `Q`. -/

namespace Verif.Cdis
open Verif Verif.P

/-- whatever `p` reads satisfies `Q` -/
def Gives {α : Type} (p : BitP α) (Q : α → Prop) : Prop := ∀ b a r, p.run b = .ok a r → Q a
/-- `Gives` with the postcondition found by instance search -/
class Gv {α : Type} (p : BitP α) (Q : outParam (α → Prop)) : Prop where
  spec : Gives p Q

theorem Gives.bind {α β : Type} {m : BitP α} {f : α → BitP β} {Q : α → Prop} {S : β → Prop} (hm : Gives m Q)
    (hf : ∀ a, Q a → Gives (f a) S) : Gives (m >>= f) S := by
  intro bs b r e
  rw [P.run_bind] at e
  cases h : m.run bs with
  | err => rw [h] at e; cases e
  | panic => rw [h] at e; cases e
  | ok a mid => rw [h] at e; exact hf a (hm _ _ _ h) _ _ _ e
theorem Gives.pure {α : Type} {a : α} {Q : α → Prop} (h : Q a) : Gives (pure a : BitP α) Q := by
  intro b x r e
  simp only [P.run_pure, Res.ok.injEq] at e
  exact e.1 ▸ h
theorem Gives.mono {α : Type} {p : BitP α} {Q S : α → Prop} (h : Gives p Q) (hq : ∀ a, Q a → S a) : Gives p S :=
  fun b a r e => hq a (h b a r e)
theorem Gives.trivial {α : Type} (p : BitP α) : Gives p fun _ => True := fun _ _ _ _ => True.intro

/-- the steps of a reader, up to its result -/
macro "gv_steps" : tactic => `(tactic| (repeat (refine Gives.bind Gv.spec fun _ _ => ?_)))
/-- a reader whose steps give all that is needed -/
macro "gv_plain" : tactic => `(tactic| (gv_steps; refine Gives.pure ?_; (try casesm* _ ∧ _); (repeat' first | assumption | apply And.intro) <;> (simp only [*]; done)))

instance gv_rU (n : Nat) : Gv (rU n) (· < 2 ^ n) where
  spec b a r h := by
    unfold rU P.take at h
    rw [P.run_bind] at h
    simp only at h
    split at h
    · simp only [Res.andThen_ok, P.run_pure, Res.ok.injEq] at h
      have := ofBits_lt (b.take n)
      rw [List.length_take, Nat.min_eq_left (by assumption)] at this
      rw [← h.1]; exact this
    · cases h
instance : Gv rUV8 (· < 256) where
  spec := by
    unfold rUV8
    refine Gives.bind Gv.spec fun f _ => Gives.mono Gv.spec fun a h => ?_
    unfold uv8Bits at h
    split at h <;> omega
instance : Gv rUV16 (· < 65536) where
  spec := by
    unfold rUV16 UV4.parse
    refine Gives.bind Gv.spec fun f _ => Gives.mono Gv.spec fun a h => ?_
    unfold UV4.bits uv16 at h
    (repeat' split at h) <;> simp only at h <;> omega
instance : Gv rUV32 (· < 4294967296) where
  spec := by
    unfold rUV32 UV4.parse
    refine Gives.bind Gv.spec fun f _ => Gives.mono Gv.spec fun a h => ?_
    unfold UV4.bits uv32 at h
    (repeat' split at h) <;> simp only at h <;> omega
theorem gives_rS (n : Nat) : Gives (rS n) (InS n) := by
  unfold rS
  refine Gives.bind Gv.spec fun s _ => Gives.bind Gv.spec fun v h => Gives.pure ?_
  have h' : (v : Int) < 2 ^ (n - 1) := by exact_mod_cast h
  have h0 : (0 : Int) ≤ v := Int.natCast_nonneg v
  unfold InS
  split <;> constructor <;> omega
instance (n : Nat) : Gv (rS n) (InS n) := ⟨gives_rS n⟩
instance : Gv (rI 32) (InS 32) where
  spec := by
    unfold rI
    refine Gives.bind Gv.spec fun v h => Gives.pure ?_
    unfold InS
    split <;> constructor <;> simp only [Nat.reduceSub, Nat.reducePow, Int.reducePow] at * <;> omega
theorem SV4.gives {t : SV4} {lo hi : Int} (ht : ∀ r ∈ [t.r0, t.r1, t.r2, t.r3], r.min ≤ 0 ∧ lo ≤ r.min ∧ (2 : Int) ^ (r.size - 1) ≤ hi) :
    Gives t.parse fun v => lo ≤ v ∧ v < hi := by
  unfold SV4.parse
  refine Gives.bind Gv.spec fun f _ => Gives.bind Gv.spec fun s _ => Gives.bind Gv.spec fun v h => Gives.pure ?_
  have h' : (v : Int) < 2 ^ ((t.row f).size - 1) := by exact_mod_cast h
  obtain ⟨h0, hl, hh⟩ : (t.row f).min ≤ 0 ∧ lo ≤ (t.row f).min ∧ (2 : Int) ^ ((t.row f).size - 1) ≤ hi := by
    unfold SV4.row
    repeat' split
    all_goals exact ht _ (by simp)
  split <;> constructor <;> omega
instance : Gv sv12.parse (InS 12) := ⟨SV4.gives (by decide)⟩
instance : Gv sv13.parse (InS 13) := ⟨SV4.gives (by decide)⟩
instance : Gv sv14.parse (InS 14) := ⟨SV4.gives (by decide)⟩
instance : Gv sv16.parse (InS 16) := ⟨SV4.gives (by decide)⟩
instance {α : Type} (c : Bool) (p : BitP α) (Q : α → Prop) [h : Gv p Q] : Gv (rWhen c p) (fun o => OptAll Q o ∧ o.isSome = c) where
  spec := by
    unfold rWhen
    split
    · refine Gives.bind h.spec fun a ha => Gives.pure ⟨?_, ?_⟩
      · exact ha
      · rename_i hc; rw [hc]; rfl
    · refine Gives.pure ⟨?_, ?_⟩
      · exact True.intro
      · rename_i hc; cases c <;> simp_all
theorem Gives.count {α : Type} {p : BitP α} {Q : α → Prop} (h : Gives p Q) (n : Nat) : Gives (P.count p n) fun l => l.length = n ∧ ∀ x ∈ l, Q x := by
  induction n with
  | zero => exact Gives.pure ⟨rfl, by simp⟩
  | succ n ih =>
    unfold P.count
    refine Gives.bind h fun a ha => Gives.bind ih fun l hl => Gives.pure ⟨by simp [hl.1], ?_⟩
    intro x hx
    rcases List.mem_cons.1 hx with rfl | hx
    · exact ha
    · exact hl.2 x hx
instance {α : Type} (p : BitP α) (Q : α → Prop) (n : Nat) [h : Gv p Q] : Gv (P.count p n) (fun l => l.length = n ∧ ∀ x ∈ l, Q x) := ⟨h.spec.count n⟩

theorem hi_bit (u : Nat) : (u &&& 2) >>> 1 < 2 := by
  have : u &&& 2 ≤ 2 := Nat.and_le_right
  rw [Nat.shiftRight_eq_div_pow]; omega
theorem lo_bit (u : Nat) : u &&& 1 < 2 := by
  have : u &&& 1 ≤ 1 := Nat.and_le_right
  omega

/-! ## Records -/

instance : Gv EntityId.parse EntityId.Wf := ⟨by unfold EntityId.parse EntityId.Wf; gv_plain⟩
instance : Gv EntityType.parse EntityType.Wf := ⟨by unfold EntityType.parse EntityType.Wf; gv_plain⟩
instance : Gv Orientation.parse Orientation.Wf := ⟨by unfold Orientation.parse Orientation.Wf; gv_plain⟩
instance : Gv (Vec3.parse sv12) (Vec3.In 12) := ⟨by unfold Vec3.parse Vec3.In; gv_plain⟩
instance : Gv (Vec3.parse sv14) (Vec3.In 14) := ⟨by unfold Vec3.parse Vec3.In; gv_plain⟩
instance : Gv (Vec3.parse sv16) (Vec3.In 16) := ⟨by unfold Vec3.parse Vec3.In; gv_plain⟩
instance : Gv ClockTime.parse ClockTime.Wf := ⟨by unfold ClockTime.parse ClockTime.Wf; gv_plain⟩
instance : Gv FixedDatum.parse FixedDatum.Wf := ⟨by unfold FixedDatum.parse FixedDatum.Wf; gv_plain⟩
instance : Gv EncodingScheme.parse EncodingScheme.Wf := ⟨by unfold EncodingScheme.parse EncodingScheme.Wf; gv_plain⟩
instance : Gv BeamAntennaPattern.parse BeamAntennaPattern.Wf := ⟨by unfold BeamAntennaPattern.parse BeamAntennaPattern.Wf; gv_plain⟩
instance (m : Nat) : Gv (DecFloat.parse m) (DecFloat.Wf m) := ⟨by unfold DecFloat.parse DecFloat.Wf; gv_plain⟩
instance : Gv ModulationType.parse ModulationType.Wf := ⟨by unfold ModulationType.parse ModulationType.Wf; gv_plain⟩
instance : Gv ExplosiveForceFloat.parse ExplosiveForceFloat.Wf := ⟨by unfold ExplosiveForceFloat.parse ExplosiveForceFloat.Wf; gv_plain⟩
instance : Gv FundamentalParameter.parse FundamentalParameter.Wf := ⟨by unfold FundamentalParameter.parse FundamentalParameter.Wf; gv_plain⟩
instance : Gv SiteAppPair.parse SiteAppPair.Wf := ⟨by unfold SiteAppPair.parse SiteAppPair.Wf; gv_plain⟩
instance : Gv BeamData.parse BeamData.Fits := ⟨by unfold BeamData.parse BeamData.Fits; gv_plain⟩
instance : Gv LayerHeader.parse LayerHeader.Wf := ⟨by unfold LayerHeader.parse LayerHeader.Wf; gv_plain⟩
instance : Gv SystemId.parse SystemId.Wf := ⟨by unfold SystemId.parse SystemId.Wf; gv_plain⟩
instance : Gv IffFundamentalParameterData.parse IffFundamentalParameterData.Wf :=
  ⟨by unfold IffFundamentalParameterData.parse IffFundamentalParameterData.Wf; gv_plain⟩
instance : Gv VTP.parse VTP.Wf where
  spec := by
    unfold VTP.parse VTP.Wf
    gv_steps
    refine Gives.pure ?_
    try casesm* _ ∧ _
    refine ⟨by assumption, ?_, by assumption⟩
    simp only [*]
    omega
instance : Gv IffDataRecord.parse IffDataRecord.Wf where
  spec := by
    unfold IffDataRecord.parse IffDataRecord.Wf
    gv_steps
    refine Gives.pure ?_
    try casesm* _ ∧ _
    refine ⟨by assumption, ?_, by assumption⟩
    simp only [*]
    omega
instance (flag : Nat) : Gv (rIffRecords flag) IffRecordsOk where
  spec := by
    unfold rIffRecords
    split
    · refine Gives.bind Gv.spec fun n hn => Gives.mono Gv.spec fun l hl => ⟨?_, hl.2⟩
      rw [hl.1]; exact hn
    · exact Gives.pure ⟨by decide, by simp⟩
instance (fp : Nat) : Gv (OperationalData.parse fp) OperationalData.Wf where
  spec := by
    unfold OperationalData.parse OperationalData.Wf
    gv_steps
    refine Gives.pure ?_
    try casesm* _ ∧ _
    (repeat' first | assumption | (exact Nat.mod_lt _ (by decide)) | apply And.intro)
instance (c : Bool) : Gv (rCountOpt c) (· < 256) where
  spec := by
    unfold rCountOpt
    refine Gives.bind Gv.spec fun n hn => Gives.pure ?_
    cases n with
    | none => decide
    | some v => exact hn.1
instance (c : Bool) : Gv (rCount8Opt c) (· < 256) where
  spec := by
    unfold rCount8Opt
    refine Gives.bind Gv.spec fun n hn => Gives.pure ?_
    cases n with
    | none => decide
    | some v => exact hn.1
instance (c : Bool) : Gv (rModParams c) (fun l => l.length < 256 ∧ ∀ b ∈ l, b < 2 ^ 8) where
  spec := by
    unfold rModParams
    refine Gives.bind Gv.spec fun n hn => ?_
    split
    · refine Gives.mono Gv.spec fun l hl => ⟨?_, hl.2⟩
      rw [hl.1]
      cases n with
      | none => decide
      | some v => exact hn.1
    · exact Gives.pure ⟨by decide, by simp⟩
/-- variable datums as the reader makes them: one of 2048 octets is possible, of 16377 to 16383 bits -/
def VariableDatum.Read (v : VariableDatum) : Prop := v.datum_id < 2 ^ 32 ∧ v.datum_value.length ≤ 2048 ∧ ∀ b ∈ v.datum_value, b < 2 ^ 8
instance : Gv VariableDatum.parse VariableDatum.Read where
  spec := by
    unfold VariableDatum.parse VariableDatum.Read
    refine Gives.bind Gv.spec fun i hi => Gives.bind Gv.spec fun n hn => Gives.bind Gv.spec fun l hl => ?_
    split
    · refine Gives.bind Gv.spec fun x hx => Gives.pure ⟨hi, ?_, ?_⟩
      · simp only [List.length_append, List.length_singleton, hl.1]; omega
      · intro b hb
        rcases List.mem_append.1 hb with hb | hb
        · exact hl.2 b hb
        · rw [List.mem_singleton.1 hb]
          exact Nat.mod_lt _ (by decide)
    · refine Gives.pure ⟨hi, ?_, hl.2⟩
      simp only [hl.1]; omega
def Datums.Read (v : Datums) : Prop := v.fixed.length < 256 ∧ v.var.length < 256 ∧ (∀ d ∈ v.fixed, d.Wf) ∧ ∀ d ∈ v.var, d.Read
instance (fp : Nat) : Gv (Datums.parse fp) Datums.Read := ⟨by unfold Datums.parse Datums.Read; gv_plain⟩
theorem Datums.Read.wf {v : Datums} (h : v.Read) (hs : ∀ d ∈ v.var, d.datum_value.length < 2048) : v.Wf :=
  ⟨h.1, h.2.1, h.2.2.1, fun d hd => ⟨(h.2.2.2 d hd).1, hs d hd, (h.2.2.2 d hd).2.2⟩⟩

end Verif.Cdis
