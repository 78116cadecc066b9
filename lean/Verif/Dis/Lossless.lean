import Verif.Dis.Pdu

/-!
# Nothing read is lost: the parser's input is the writer's output followed by the rest
-/

namespace Verif.Dis
open Verif.P

/-- Whatever `p` accepts is what `s` writes for the value it returns, followed by the rest. -/
class Lossless {α : Type} (p : BP α) (s : outParam (α → Bytes)) : Prop where
  spec : ∀ bs a r, p.run bs = .ok a r → bs = s a ++ r

/-- The same, when `pre` was read before. -/
def LosslessAfter {α : Type} (pre : Bytes) (p : BP α) (s : α → Bytes) : Prop :=
  ∀ bs a r, p.run bs = .ok a r → pre ++ bs = s a ++ r

theorem LosslessAfter.bind {α β : Type} {pre : Bytes} {m : BP α} {f : α → BP β} {sm : α → Bytes} {s : β → Bytes}
    (hm : Lossless m sm) (hf : ∀ a, LosslessAfter (pre ++ sm a) (f a) s) : LosslessAfter pre (m >>= f) s := by
  intro bs b r h
  obtain ⟨a, mid, h1, h2⟩ := bind_ok h
  have e := hm.spec _ _ _ h1
  have := hf a mid b r h2
  rw [e, ← List.append_assoc]; exact this

theorem LosslessAfter.pure {α : Type} {pre : Bytes} {a : α} {s : α → Bytes} (h : pre = s a) :
    LosslessAfter pre (Pure.pure a : BP α) s := by
  intro bs b r h'
  simp only [P.run_pure, Res.ok.injEq] at h'
  obtain ⟨rfl, rfl⟩ := h'
  rw [h]

theorem Lossless.of {α : Type} {p : BP α} {s : α → Bytes} (h : LosslessAfter [] p s) : Lossless p s :=
  ⟨fun bs a r hp => by simpa using h bs a r hp⟩

instance : Lossless be_u8 e8 where
  spec bs a r h := by
    match bs, h with
    | _ :: _, h => simp only [be_u8, Res.ok.injEq] at h; rw [← h.1, ← h.2]; rfl
instance : Lossless be_u16 e16 where
  spec bs a r h := by
    match bs, h with
    | x :: y :: _, h =>
      simp only [be_u16, Res.ok.injEq] at h
      rw [← h.1, ← h.2]
      have := x.toNat_lt; have := y.toNat_lt
      have e : (UInt16.ofNat (x.toNat * 256 + y.toNat)).toNat = x.toNat * 256 + y.toNat := by
        rw [UInt16.toNat_ofNat']; omega
      simp only [e16, e, List.cons_append, List.nil_append, List.cons.injEq, and_true]
      refine ⟨?_, ?_⟩ <;> apply UInt8.toNat.inj <;> rw [UInt8.toNat_ofNat'] <;> omega
instance : Lossless be_u32 e32 where
  spec bs a r h := by
    match bs, h with
    | x :: y :: z :: w :: _, h =>
      simp only [be_u32, Res.ok.injEq] at h
      rw [← h.1, ← h.2]
      have := x.toNat_lt; have := y.toNat_lt; have := z.toNat_lt; have := w.toNat_lt
      have e : (UInt32.ofNat (x.toNat * 16777216 + y.toNat * 65536 + z.toNat * 256 + w.toNat)).toNat
          = x.toNat * 16777216 + y.toNat * 65536 + z.toNat * 256 + w.toNat := by
        rw [UInt32.toNat_ofNat']; omega
      simp only [e32, e, List.cons_append, List.nil_append, List.cons.injEq, and_true]
      refine ⟨?_, ?_, ?_, ?_⟩ <;> apply UInt8.toNat.inj <;> rw [UInt8.toNat_ofNat'] <;> omega
instance : Lossless be_u64 e64 where
  spec bs a r h := by
    match bs, h with
    | a1 :: a2 :: a3 :: a4 :: a5 :: a6 :: a7 :: a8 :: _, h =>
      simp only [be_u64, Res.ok.injEq] at h
      rw [← h.1, ← h.2]
      have := a1.toNat_lt; have := a2.toNat_lt; have := a3.toNat_lt; have := a4.toNat_lt
      have := a5.toNat_lt; have := a6.toNat_lt; have := a7.toNat_lt; have := a8.toNat_lt
      have e : (UInt64.ofNat (a1.toNat * 72057594037927936 + a2.toNat * 281474976710656
          + a3.toNat * 1099511627776 + a4.toNat * 4294967296
          + a5.toNat * 16777216 + a6.toNat * 65536 + a7.toNat * 256 + a8.toNat)).toNat
          = a1.toNat * 72057594037927936 + a2.toNat * 281474976710656
          + a3.toNat * 1099511627776 + a4.toNat * 4294967296
          + a5.toNat * 16777216 + a6.toNat * 65536 + a7.toNat * 256 + a8.toNat := by
        rw [UInt64.toNat_ofNat']; omega
      simp only [e64, e, List.cons_append, List.nil_append, List.cons.injEq, and_true]
      refine ⟨?_, ?_, ?_, ?_, ?_, ?_, ?_, ?_⟩ <;> apply UInt8.toNat.inj <;> rw [UInt8.toNat_ofNat'] <;> omega

macro "lossless" "[" ls:Lean.Parser.Tactic.simpLemma,* "]" : tactic => `(tactic| (
  apply Lossless.of
  simp only [$ls,*]
  repeat (refine LosslessAfter.bind inferInstance fun _ => ?_)
  refine LosslessAfter.pure ?_
  simp only [$ls,*, List.append_assoc, List.nil_append]))

instance : Lossless SimulationAddress.parse SimulationAddress.ser := by lossless [SimulationAddress.parse, SimulationAddress.ser]
instance : Lossless EntityId.parse EntityId.ser := by lossless [EntityId.parse, EntityId.ser]
instance : Lossless EventId.parse EventId.ser := by lossless [EventId.parse, EventId.ser, SimulationAddress.ser]
instance : Lossless VectorF32.parse VectorF32.ser := by lossless [VectorF32.parse, VectorF32.ser]
instance : Lossless Location.parse Location.ser := by lossless [Location.parse, Location.ser]
instance : Lossless Orientation.parse Orientation.ser := by lossless [Orientation.parse, Orientation.ser]
instance : Lossless EntityType.parse EntityType.ser := by lossless [EntityType.parse, EntityType.ser]
instance : Lossless MunitionDescriptor.parse MunitionDescriptor.ser := by lossless [MunitionDescriptor.parse, MunitionDescriptor.ser]
instance : Lossless ClockTime.parse ClockTime.ser := by lossless [ClockTime.parse, ClockTime.ser]
instance : Lossless FixedDatum.parse FixedDatum.ser := by lossless [FixedDatum.parse, FixedDatum.ser]
instance : Lossless BeamData.parse BeamData.ser := by lossless [BeamData.parse, BeamData.ser]
instance : Lossless SupplyQuantity.parse SupplyQuantity.ser := by lossless [SupplyQuantity.parse, SupplyQuantity.ser]
instance : Lossless AttachedPart.parse AttachedPart.ser := by lossless [AttachedPart.parse, AttachedPart.ser]
instance : Lossless EntityAssociationParameter.parse EntityAssociationParameter.ser := by
  lossless [EntityAssociationParameter.parse, EntityAssociationParameter.ser]

end Verif.Dis
