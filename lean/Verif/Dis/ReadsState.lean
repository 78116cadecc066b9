import Verif.Dis.ReadsBodies2

/-!
# What the readers take and guarantee: entity state, radio, IFF

No model content.
-/

set_option linter.unusedSimpArgs false

namespace Verif.Dis

/-! ## Entity state -/

instance (env : Env) (t : EntityType) : Rd (EntityAppearance.parse env t) (fun c x => Clears x.ser c ∧ x.Wf env t) := by
  refine ⟨?_⟩; unfold EntityAppearance.parse; rd_steps
  subst_vars
  unfold EntityAppearance.fromBytes EntityAppearance.ser EntityAppearance.Wf
  cases h : entityClass t <;> simp only [List.append_nil] <;>
    first
    | exact ⟨Clears.refl _, by trivial, fun h => absurd rfl h⟩
    | (refine ⟨Clears.e32_and ?_, by trivial, fun _ => ?_⟩
       · rw [UInt32.and_assoc, UInt32.and_comm (env.appearanceMask _), ← UInt32.and_assoc, UInt32.and_self]
       · rw [UInt32.and_assoc, UInt32.and_self])

theorem ofV6_mask (x : CapabilitiesV6) : (EntityCapabilities.ofV6 x).raw &&& 0xf0000000 = (EntityCapabilities.ofV6 x).raw := by
  obtain ⟨a, b, c, d⟩ := x
  cases a <;> cases b <;> cases c <;> cases d <;> decide

instance (env : Env) (ver : UInt8) (t : EntityType) : Rd (EntityCapabilities.parse env ver t) (fun c x => c.length = 4 ∧
    (ver = 6 ∨ ver = 7 → x.Wf env ver t)) := by
  refine ⟨?_⟩; unfold EntityCapabilities.parse CapabilitiesV6.parse
  refine Takes.ite (fun h7 => ?_) (fun h7 => ?_)
  · rd_steps
    subst_vars
    refine ⟨rfl, fun _ => ?_⟩
    unfold EntityCapabilities.fromBytes EntityCapabilities.Wf
    split
    · exact .inl ⟨rfl, ‹_›, rfl⟩
    · refine .inr (.inl ⟨rfl, ‹_›, ?_⟩)
      cases h : entityClass t <;> simp only [] <;>
        first
        | exact ⟨by trivial, fun h => absurd rfl h⟩
        | exact ⟨by trivial, fun _ => by rw [UInt32.and_assoc, UInt32.and_self]⟩
  · refine Takes.bind (Q := fun c _ => c.length = 4) ?_ fun c x h => Takes.pure ?_
    · rd_steps
      rename_i h
      rw [List.length_append, List.length_append, h.1, h.2]
      subst_vars; rfl
    · refine ⟨by simpa using h, fun h6 => .inr (.inr ⟨by rcases h6 with h6 | h6; exacts [h6, absurd h6 h7], rfl, ofV6_mask x⟩)⟩

/-- Octets that are all ASCII make a marking that can be written. -/
theorem sanitize_ascii (env : Env) {buf : Bytes} (h : ∀ b ∈ buf, b.toNat < 128) :
    (sanitizeMarking env buf).length ≤ buf.length ∧ (∀ b ∈ sanitizeMarking env buf, b.toNat < 128) ∧
    (∀ b, (sanitizeMarking env buf).getLast? = some b → isAlnum b = true) := by
  unfold sanitizeMarking
  rw [if_pos (by rw [List.all_eq_true]; intro b hb; simpa using h b hb)]
  refine ⟨?_, ?_, ?_⟩
  · rw [List.length_reverse, ← List.length_reverse (as := buf)]
    exact (List.dropWhile_sublist _).length_le
  · intro b hb
    exact h b (List.mem_reverse.1 ((List.dropWhile_sublist _).subset (List.mem_reverse.1 hb)))
  · intro b hb
    rw [List.getLast?_reverse] at hb
    have := List.head?_dropWhile_not (fun b => !isAlnum b) buf.reverse
    rw [hb] at this
    simpa using this

instance (env : Env) : Rd (EntityMarking.parse env) (fun c x => c.length = 12 ∧ ((∀ b ∈ c.drop 1, b.toNat < 128) → x.Wf)) := by
  refine ⟨?_⟩; unfold EntityMarking.parse; rd_steps
  rename_i h0 c b h
  obtain ⟨hc, hb⟩ := h
  subst c h0
  refine ⟨by simp [hb, length_e8], fun ha => ?_⟩
  have ha' : ∀ x ∈ b, x.toNat < 128 := fun x hx => ha x (by
    simp only [e8, List.append_nil, List.cons_append, List.nil_append, List.drop_succ_cons, List.drop_zero]; exact hx)
  obtain ⟨h1, h2, h3⟩ := sanitize_ascii env ha'
  exact ⟨by simp only; omega, h2, h3⟩

instance (a : UInt8) : Rd (DrOtherParameters.parse a) (fun c x => c.length = 15 ∧ ∀ l v, DrParameters.Wf ⟨a, x, l, v⟩) := by
  refine ⟨?_⟩; unfold DrOtherParameters.parse; rd_steps
  · subst_vars
    refine ⟨rfl, fun _ _ => ?_⟩
    simp only [DrParameters.Wf, List.mem_cons, List.not_mem_nil, or_false]; assumption
  · subst_vars
    refine ⟨rfl, fun _ _ => ?_⟩
    simp only [DrParameters.Wf, List.mem_cons, List.not_mem_nil, or_false]; assumption
  · rename_i h
    obtain ⟨rfl, hb⟩ := h
    exact ⟨by simpa using hb, fun _ _ => ⟨by simp only; omega, hb⟩⟩
instance : Rd DrParameters.parse (fun c x => c.length = 40 ∧ x.Wf) := by
  refine ⟨?_⟩; unfold DrParameters.parse
  refine Takes.bind Rd.spec fun _ _ h0 => ?_
  refine Takes.bind Rd.spec fun _ _ h1 => ?_
  refine Takes.bind Rd.spec fun _ _ h2 => ?_
  refine Takes.bind Rd.spec fun _ _ h3 => Takes.pure ?_
  have := h2.length; have := h3.length
  subst h0
  simp only [VectorF32.length_ser] at *
  refine ⟨?_, h1.2 _ _⟩
  simp only [List.length_append, length_e8, List.length_nil]; omega

theorem and_of_right {p q : Prop} (hq : q) (hp : q → p) : p ∧ q := ⟨hp hq, hq⟩

/-- what may be lost: a marking that is not text, separation parameters, other protocol versions -/
def EntityState.Clean (ver : UInt8) (x : EntityState) : Prop :=
  (ver = 6 ∨ ver = 7) ∧ x.entity_marking.Wf ∧ VariableParameters.NoSeparation x.variable_parameters

instance (env : Env) (ver : UInt8) : Rd (EntityState.parse env ver) (fun c x => (x.Clean ver → (x.ser ver).length = c.length) ∧
    (x.Clean ver → x.Wf env ver)) := by
  refine ⟨?_⟩; unfold EntityState.parse
  refine Takes.bind Rd.spec fun _ _ h1 => ?_
  refine Takes.bind Rd.spec fun _ _ h2 => ?_
  refine Takes.bind Rd.spec fun _ n h3 => ?_
  refine Takes.bind Rd.spec fun _ t h4 => ?_
  refine Takes.bind Rd.spec fun _ _ h5 => ?_
  refine Takes.bind Rd.spec fun _ _ h6 => ?_
  refine Takes.bind Rd.spec fun _ _ h7 => ?_
  refine Takes.bind Rd.spec fun _ _ h8 => ?_
  refine Takes.bind Rd.spec fun _ _ h9 => ?_
  refine Takes.bind Rd.spec fun _ _ ha => ?_
  refine Takes.bind Rd.spec fun _ _ hb => ?_
  refine Takes.bind Rd.spec fun _ _ hc => ?_
  refine Takes.bind Rd.spec fun _ l hd => Takes.pure ?_
  refine and_of_right ?_ fun hw hK => ?_
  · exact fun hK => ⟨h9.2, ha.2, hK.2.1, hc.2 hK.1, by simp only [hd.2.1]; exact u8_le _, hd.2.2⟩
  · have e1 := EntityState.length_ser (hw hK)
    have e2 := (hd.1 hK.2.2).length
    have e3 := length_vps (hw hK).vps
    have := h1.length; have := h4.length; have := h5.length; have := h6.length; have := h7.length; have := h8.length
    have := h9.1.length; have := ha.1; have := hb.1; have := hc.1
    subst h2 h3
    simp only [VectorF32.length_ser, EntityId.length_ser, EntityType.length_ser, Location.length_ser, Orientation.length_ser,
      EntityAppearance.length_ser, serList] at *
    rw [e1]
    simp only [EntityState.bodyLen, List.length_append, length_e8, List.length_nil]; omega

/-! ## Packed records -/

theorem pack_unpack_and (L : Layout) (w : Nat) :
    Verif.pack L.writer (unpack L.reader w) &&& w = Verif.pack L.writer (unpack L.reader w) := by
  apply Nat.eq_of_testBit_eq
  intro i
  rw [Nat.testBit_and, testBit_pack_unpack]
  cases w.testBit i <;> simp

theorem takes_unpack8 {R : List RField} {W : List Nat} (L : Layout) (hR : R = L.reader) (hW : W = L.writer) (ho : L.Ordered 8) :
    Takes (unpack8 R) (fun c v => Clears (pack8 W v) c ∧ L.Fits v) := by
  subst hR hW
  unfold unpack8; rd_steps
  subst_vars
  refine ⟨?_, fits_unpack _ _⟩
  rw [List.append_nil]
  refine Clears.e8_and (UInt8.toNat.inj ?_)
  rw [UInt8.toNat_and, toNat_u8_ofNat (pack_lt ho (fits_unpack _ _))]
  exact pack_unpack_and _ _
theorem takes_unpack16 {R : List RField} {W : List Nat} (L : Layout) (hR : R = L.reader) (hW : W = L.writer) (ho : L.Ordered 16) :
    Takes (unpack16 R) (fun c v => Clears (pack16 W v) c ∧ L.Fits v) := by
  subst hR hW
  unfold unpack16; rd_steps
  subst_vars
  refine ⟨?_, fits_unpack _ _⟩
  rw [List.append_nil]
  refine Clears.e16_and (UInt16.toNat.inj ?_)
  rw [UInt16.toNat_and, toNat_u16_ofNat (pack_lt ho (fits_unpack _ _))]
  exact pack_unpack_and _ _
theorem takes_unpack32 {R : List RField} {W : List Nat} (L : Layout) (hR : R = L.reader) (hW : W = L.writer) (ho : L.Ordered 32) :
    Takes (unpack32 R) (fun c v => Clears (pack32 W v) c ∧ L.Fits v) := by
  subst hR hW
  unfold unpack32; rd_steps
  subst_vars
  refine ⟨?_, fits_unpack _ _⟩
  rw [List.append_nil]
  refine Clears.e32_and (UInt32.toNat.inj ?_)
  rw [UInt32.toNat_and, toNat_u32_ofNat (pack_lt ho (fits_unpack _ _))]
  exact pack_unpack_and _ _

theorem fits_set : ∀ {L : Layout} {v : Packed} (i c : Nat), L.Fits v → c < 2 ^ (L.getD i (0, 0)).2 → L.Fits (v.set i c)
  | [], [], _, _, _, _ => trivial
  | (_, _) :: _, _ :: _, 0, _, h, hc => ⟨hc, h.2⟩
  | (_, _) :: _, _ :: _, i + 1, c, h, hc => ⟨h.1, fits_set i c h.2 hc⟩

/-- a record in which one field is not read -/
theorem takes_unpack8_const {R : List RField} (L : Layout) (i k : Nat) (hR : R = L.reader.set i (.const k)) (hi : i < L.length)
    (hk : k < 2 ^ (L.getD i (0, 0)).2) : Takes (unpack8 R) (fun c v => c.length = 1 ∧ L.Fits v ∧ v.getD i 0 = k) := by
  subst hR
  unfold unpack8; rd_steps
  subst_vars
  rw [unpack_set]
  refine ⟨rfl, fits_set i k (fits_unpack _ _) hk, ?_⟩
  have : i < (unpack L.reader (by assumption : UInt8).toNat).length := by rw [(fits_unpack L _).length]; exact hi
  simp only [List.getD_eq_getElem?_getD]
  rw [List.getElem?_set_self this]; rfl

/-! ## Radio -/

instance : Rd (unpack16 SpreadSpectrum.rd) (fun c v => Clears (pack16 SpreadSpectrum.wr v) c ∧ SpreadSpectrum.layout.Fits v) :=
  ⟨takes_unpack16 _ (by decide) (by decide) (by decide)⟩
instance : Rd (unpack16 CryptoKeyId.rd) (fun c v => Clears (pack16 CryptoKeyId.wr v) c ∧ CryptoKeyId.layout.Fits v) :=
  ⟨takes_unpack16 _ (by decide) (by decide) (by decide)⟩
instance : Rd ModulationType.parse (fun c x => c.length = 8 ∧ SpreadSpectrum.layout.Fits x.spread_spectrum ∧ x.major.toNat ≤ 9 ∧
    (x.major = 0 → x.detail = 0)) := by
  refine ⟨?_⟩; unfold ModulationType.parse
  refine Takes.bind Rd.spec fun _ _ h1 => ?_
  rd_steps
  have := h1.1.length
  rename_i m _ _ _ _ _ _ _
  subst_vars
  rw [length_pack16] at this
  refine ⟨by simp only [List.length_append, length_e16, List.length_nil]; omega, ?_⟩
  by_cases h0 : m = 0
  · rw [if_pos h0]; exact ⟨h1.2, (by decide : (0 : UInt16).toNat ≤ 9), fun _ => rfl⟩
  · rw [if_neg h0]
    by_cases h8 : m.toNat ≤ 8
    · rw [if_pos h8]; exact ⟨h1.2, Nat.le_succ_of_le h8, fun h => absurd h h0⟩
    · rw [if_neg h8]; exact ⟨h1.2, (by decide : (9 : UInt16).toNat ≤ 9), fun h => absurd h (by decide : ¬ (9 : UInt16) = 0)⟩
instance : Rd BeamAntennaPattern.parse (fun c x => Clears x.ser c) := by rd_plain BeamAntennaPattern.parse BeamAntennaPattern.ser
instance : Rd Receiver.parse (fun c x => Clears x.ser c) := by rd_plain Receiver.parse Receiver.ser

instance rdVariableTransmitter (checked : Bool) : Rd (VariableTransmitterParameter.parse checked) (fun c x => (x.Wf → x.ser.length = c.length) ∧ True) := by
  refine ⟨?_⟩; unfold VariableTransmitterParameter.parse; rd_steps
  rename_i h1 _ _ h2 _ _ f h
  obtain ⟨hc, hl⟩ := h
  refine ⟨fun hw => ?_, trivial⟩
  have e1 : (6 + f.length) % 8 = 0 := hw.1
  rw [h1, h2, hc]
  simp only [VariableTransmitterParameter.ser, lengthPaddedToNum, List.length_append, length_e32, length_e16, length_zeros,
    List.length_nil, if_pos e1]
  omega

/-- an optional part -/
instance {α : Type} (flag : Prop) [Decidable flag] {p : BP α} {Q : Bytes → α → Prop} [h : Rd p Q] :
    Rd (optionally flag p) (fun c o => (flag ↔ o ≠ none) ∧ ((o = none ∧ c = []) ∨ ∃ a, o = some a ∧ Q c a)) := by
  refine ⟨?_⟩; unfold optionally
  refine Takes.ite (fun hf => ?_) (fun hf => ?_)
  · refine Takes.bind Rd.spec fun c a h => Takes.pure ⟨by simp [hf], .inr ⟨a, rfl, by rw [List.append_nil]; exact h⟩⟩
  · exact Takes.pure ⟨by simp [hf], .inl ⟨rfl, rfl⟩⟩

/-- variable transmitter parameters are whole 8-octet words -/
def Transmitter.Clean (x : Transmitter) : Prop := ∀ p ∈ x.variable_transmitter_parameters, p.Wf

instance (checked : Bool) (ver : UInt8) : Rd (Transmitter.parse checked ver) (fun c x => (x.Clean → x.ser.length = c.length) ∧
    (x.Clean → x.Wf ver)) := by
  refine ⟨?_⟩; unfold Transmitter.parse
  refine Takes.bind Rd.spec fun _ _ h1 => ?_
  refine Takes.bind Rd.spec fun _ _ h2 => ?_
  refine Takes.bind Rd.spec fun _ _ h3 => ?_
  refine Takes.bind Rd.spec fun _ _ h4 => ?_
  refine Takes.bind Rd.spec fun _ _ h5 => ?_
  refine Takes.bind Rd.spec fun _ n h6 => ?_
  refine Takes.bind Rd.spec fun _ _ h7 => ?_
  refine Takes.bind Rd.spec fun _ _ h8 => ?_
  refine Takes.bind Rd.spec fun _ _ h9 => ?_
  refine Takes.bind Rd.spec fun _ apl ha => ?_
  refine Takes.bind Rd.spec fun _ _ hb => ?_
  refine Takes.bind Rd.spec fun _ _ hc => ?_
  refine Takes.bind Rd.spec fun _ _ hd => ?_
  refine Takes.bind Rd.spec fun _ _ he => ?_
  refine Takes.bind Rd.spec fun _ _ hf => ?_
  refine Takes.bind Rd.spec fun _ _ hg => ?_
  refine Takes.bind Rd.spec fun _ len hh => ?_
  refine Takes.bind Rd.spec fun _ _ hi => ?_
  refine Takes.bind Rd.spec fun _ _ hj => ?_
  refine Takes.bind Rd.spec fun cm mp hk => ?_
  refine Takes.bind Rd.spec fun ca ap hl => ?_
  refine Takes.bind Rd.spec fun cv vtp hm => Takes.pure ?_
  have em : (optSer id mp).length = cm.length := by
    rcases hk.2 with ⟨rfl, rfl⟩ | ⟨a, rfl, h⟩
    · rfl
    · rw [h.1]; rfl
  have ea : (optSer BeamAntennaPattern.ser ap).length = ca.length := by
    rcases hl.2 with ⟨rfl, rfl⟩ | ⟨a, rfl, h⟩
    · rfl
    · exact h.length
  refine ⟨fun hK => ?_, fun hK => ⟨he.2.1, he.2.2.1, he.2.2.2, hg.2, ?_, ?_, ?_, hK⟩⟩
  · have e2 := hm.1 hK
    have := h1.length; have := h3.length; have := h7.length; have := h8.length; have := he.1; have := hg.1.length
    subst h2 h4 h5 h6 h9 ha hb hc hd hf hh hi hj
    simp only [VectorF32.length_ser, EntityId.length_ser, EntityType.length_ser, Location.length_ser, length_pack16] at *
    simp only [Transmitter.ser, serList, List.length_append, length_e8, length_e16, length_e32, length_e64, List.length_nil, em, ea, e2,
      VectorF32.length_ser, EntityId.length_ser, EntityType.length_ser, Location.length_ser, length_pack16, ModulationType.length_ser]
    omega
  · intro m hm
    rcases hk.2 with ⟨h, _⟩ | ⟨a, h, h'⟩
    · simp only [h] at hm; cases hm
    · have hp := hk.1.2 (by rw [h]; simp)
      simp only [h] at hm; cases hm
      have := u8_le len
      omega
  · by_cases h7 : ver = 7
    · exact .inl h7
    · rw [if_neg h7] at hm
      exact .inr (List.eq_nil_of_length_eq_zero hm.2.1)
  · have := n.toNat_lt
    simp only [hm.2.1]
    split <;> omega

theorem takes_slice (data : Bytes) (i : Nat) : Takes (sliceU32 data i) (fun c u => c = [] ∧ ∃ rest, data.drop i = e32 u ++ rest) := by
  unfold sliceU32
  split
  · rename_i v r h
    obtain ⟨c, h1, h2⟩ := (inferInstance : Rd be_u32 _).spec _ _ _ h
    exact Takes.pure ⟨rfl, r, by rw [h1, h2]⟩
  · exact Takes.panic
instance (data : Bytes) (i : Nat) : Rd (sliceU32 data i) (fun c u => c = [] ∧ ∃ rest, data.drop i = e32 u ++ rest) := ⟨takes_slice data i⟩

theorem and3fff (w : UInt16) : (w &&& 0x3fff).toNat < 16384 := by
  rw [UInt16.toNat_and, show (0x3fff : UInt16).toNat = 2 ^ 14 - 1 from rfl, Nat.and_two_pow_sub_one_eq_mod]; omega
theorem shr14 (w : UInt16) : (w >>> 14).toNat < 4 := by
  have := w.toNat_lt
  rw [UInt16.toNat_shiftRight, show (14 : UInt16).toNat % 16 = 14 from rfl, Nat.shiftRight_eq_div_pow]; omega
theorem slices {data : Bytes} {a b c : UInt32} {r s t : Bytes} (h0 : data.drop 0 = e32 a ++ r) (h4 : data.drop 4 = e32 b ++ s)
    (h8 : data.drop 8 = e32 c ++ t) : data = e32 a ++ e32 b ++ e32 c ++ t := by
  have e0 : data = e32 a ++ r := h0
  have er : r = e32 b ++ s := by rw [e0] at h4; exact h4
  have es : s = e32 c ++ t := by rw [e0, er] at h8; exact h8
  rw [e0, er, es]; simp only [List.append_assoc]

instance (w : UInt16) (data : Bytes) : Rd (EncodingScheme.parse w data) (fun c x => c = [] ∧ x.Wf data) := by
  refine ⟨?_⟩; unfold EncodingScheme.parse
  have hs := shr14 w
  refine Takes.ite (fun h0 => Takes.pure ⟨rfl, h0, and3fff w⟩) fun h0 => ?_
  refine Takes.ite (fun h1 => Takes.pure ⟨rfl, h1, and3fff w⟩) fun h1 => ?_
  refine Takes.ite (fun h2 => ?_) fun h2 => ?_
  · refine Takes.bind Rd.spec fun _ u h => Takes.pure ⟨by rw [h.1]; rfl, h2, h.2⟩
  refine Takes.ite (fun h3 => ?_) fun h3 => ?_
  · refine Takes.bind Rd.spec fun _ a ha => ?_
    refine Takes.bind Rd.spec fun _ b hb => ?_
    refine Takes.bind Rd.spec fun _ c hc => Takes.pure ⟨by rw [ha.1, hb.1, hc.1]; rfl, h3, ?_⟩
    obtain ⟨-, _, ha⟩ := ha
    obtain ⟨-, _, hb⟩ := hb
    obtain ⟨-, t, hc⟩ := hc
    exact ⟨t, slices ha hb hc⟩
  · exfalso
    have h0' : (w >>> 14).toNat ≠ 0 := fun h => h0 (UInt16.toNat_inj.1 h)
    have h1' : (w >>> 14).toNat ≠ 1 := fun h => h1 (UInt16.toNat_inj.1 h)
    have h2' : (w >>> 14).toNat ≠ 2 := fun h => h2 (UInt16.toNat_inj.1 h)
    have h3' : (w >>> 14).toNat ≠ 3 := fun h => h3 (UInt16.toNat_inj.1 h)
    omega

instance : Rd Signal.parse (fun c x => (x.data.length % 4 = 0 → x.ser.length = c.length) ∧ x.Wf) := by
  refine ⟨?_⟩; unfold Signal.parse
  refine Takes.bind Rd.spec fun _ _ h1 => ?_
  refine Takes.bind Rd.spec fun _ _ h2 => ?_
  refine Takes.bind Rd.spec fun _ _ h3 => ?_
  refine Takes.bind Rd.spec fun _ _ h4 => ?_
  refine Takes.bind Rd.spec fun _ _ h5 => ?_
  refine Takes.bind Rd.spec fun _ n h6 => ?_
  refine Takes.bind Rd.spec fun _ _ h7 => ?_
  refine Takes.bind Rd.spec fun _ d h8 => ?_
  refine Takes.bind Rd.spec fun _ e h9 => Takes.pure ?_
  have := n.toNat_lt
  refine ⟨fun hK => ?_, h9.2, by simp only [h8.2]; omega⟩
  have hl := h1.length
  subst h2 h3 h4 h5 h6 h7
  simp only [EntityId.length_ser] at hl
  simp only [Signal.ser, lengthPaddedToNum, List.length_append, length_e16, length_e32, length_zeros, EntityId.length_ser, h8.1, h9.1,
    List.length_nil]
  simp only at hK
  rw [if_pos hK]
  omega

end Verif.Dis
