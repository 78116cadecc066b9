import Verif.Dis.Enums

/-!
# C25, C26: enumerations and bit fields
-/

namespace Verif.Props
open Verif Verif.Dis

/-! ## Specification -/

/-- Some arm of the table accepts the raw value. -/
def Listed (t : EnumTable) (v : Nat) : Prop := ∃ it ∈ t.items, it.matches t.size v = true
/-- The table has no cross references. -/
def NoCrossRef (t : EnumTable) : Prop := ∀ it ∈ t.items, ∀ a, it ≠ .crossRef a
/-- No raw value is accepted by two items. -/
def Unambiguous (t : EnumTable) : Prop :=
  ∀ (i j : Nat) (a b : EnumItem) (v : Nat), t.items[i]? = some a → t.items[j]? = some b →
    a.matches t.size v = true → b.matches t.size v = true → i = j
/-- A value of the generated enumeration that stands for its own raw value: a named variant of the table, a range variant
with a value in its range, or `Unspecified` with a value that is not listed. -/
def Canonical (t : EnumTable) : Variant → Prop
  | .basic i => ∃ a, t.items[i]? = some (.basic a)
  | .range i v => ∃ a b, t.items[i]? = some (.range a b) ∧ literal t.size a ≤ v ∧ v ≤ literal t.size b
  | .crossRef _ _ => False
  | .unspecified v => ¬ Listed t v

/-! ## C25 -/

theorem fromArms_spec (size v : Nat) : ∀ (items : List EnumItem) (k : Nat),
    (∃ (j : Nat) (it : EnumItem), items[j]? = some it ∧ it.matches size v = true ∧ (∀ i < j, ∀ b : EnumItem, items[i]? = some b → b.matches size v = false)
      ∧ fromArms size v items k = (match it with
        | .basic _ => Variant.basic (k + j)
        | .range _ _ => .range (k + j) v
        | .crossRef _ => .crossRef (k + j) 0))
    ∨ ((∀ it ∈ items, it.matches size v = false) ∧ fromArms size v items k = .unspecified v) := by
  intro items
  induction items with
  | nil => intro k; exact .inr ⟨by simp, rfl⟩
  | cons it rest ih =>
    intro k
    by_cases hm : it.matches size v = true
    · refine .inl ⟨0, it, rfl, hm, by intro i hi; omega, ?_⟩
      unfold fromArms
      rw [if_pos hm]
      rfl
    · have hm' : it.matches size v = false := by simpa using hm
      have hu : fromArms size v (it :: rest) k = fromArms size v rest (k + 1) := by
        rw [fromArms.eq_def]; simp only [hm, if_false, Bool.false_eq_true]
      rw [hu]
      rcases ih (k + 1) with ⟨j, b, h1, h2, h3, h4⟩ | ⟨h1, h2⟩
      · refine .inl ⟨j + 1, b, by simpa using h1, h2, ?_, ?_⟩
        · intro i hi c hc
          cases i with
          | zero => simp only [List.getElem?_cons_zero, Option.some.injEq] at hc; rw [← hc]; exact hm'
          | succ i => exact h3 i (by omega) c (by simpa using hc)
        · rw [h4]
          have : k + 1 + j = k + (j + 1) := by omega
          rw [this]
      · refine .inr ⟨?_, h2⟩
        intro x hx
        rcases List.mem_cons.1 hx with rfl | hx
        · exact hm'
        · exact h1 x hx

/-- **C25**: for every table without cross references and every raw value, converting to the enumeration and back gives the
raw value (whether it is named, in a range or unknown, and even if the table is ambiguous). -/
theorem C25_raw_round_trip (t : EnumTable) (ht : NoCrossRef t) (v : Nat) : t.toRaw (t.ofRaw v) = v := by
  unfold EnumTable.ofRaw
  rcases fromArms_spec t.size v t.items 0 with ⟨j, it, h1, h2, _, h4⟩ | ⟨_, h2⟩
  · rw [h4]
    cases it with
    | basic a =>
      simp only [Nat.zero_add, EnumTable.toRaw, h1]
      simp only [EnumItem.matches, beq_iff_eq] at h2
      exact h2.symm
    | range a b => rfl
    | crossRef a => exact absurd rfl (ht _ (List.mem_of_getElem? h1) a)
  · rw [h2]; rfl

/-- **C25**: for every unambiguous table, every canonical value of the enumeration is recovered from its raw value. -/
theorem C25_variant_round_trip (t : EnumTable) (ht : Unambiguous t) (x : Variant) (hx : Canonical t x) :
    t.ofRaw (t.toRaw x) = x := by
  unfold EnumTable.ofRaw
  cases x with
  | basic i =>
    obtain ⟨a, ha⟩ := hx
    have hv : t.toRaw (.basic i) = literal t.size a := by simp only [EnumTable.toRaw, ha]
    rw [hv]
    have hm : (EnumItem.basic a).matches t.size (literal t.size a) = true := by simp [EnumItem.matches]
    rcases fromArms_spec t.size (literal t.size a) t.items 0 with ⟨j, it, h1, h2, _, h4⟩ | ⟨h1, _⟩
    · have := ht i j _ _ _ ha h1 hm h2
      subst this
      rw [ha] at h1
      simp only [Option.some.injEq] at h1
      subst h1
      rw [h4, Nat.zero_add]
    · rw [h1 _ (List.mem_of_getElem? ha)] at hm; cases hm
  | range i v =>
    obtain ⟨a, b, ha, hl, hh⟩ := hx
    have hm : (EnumItem.range a b).matches t.size v = true := by simp [EnumItem.matches, hl, hh]
    show fromArms t.size v t.items 0 = _
    rcases fromArms_spec t.size v t.items 0 with ⟨j, it, h1, h2, _, h4⟩ | ⟨h1, _⟩
    · have := ht i j _ _ _ ha h1 hm h2
      subst this
      rw [ha] at h1
      simp only [Option.some.injEq] at h1
      subst h1
      rw [h4, Nat.zero_add]
    · rw [h1 _ (List.mem_of_getElem? ha)] at hm; cases hm
  | crossRef i c => exact hx.elim
  | unspecified v =>
    show fromArms t.size v t.items 0 = _
    rcases fromArms_spec t.size v t.items 0 with ⟨j, it, h1, h2, _, _⟩ | ⟨_, h2⟩
    · exact absurd ⟨it, List.mem_of_getElem? h1, h2⟩ hx
    · exact h2

/-- **C25**: reading never yields a non-canonical value, so distinct raw values give distinct enumeration values. -/
theorem C25_read_canonical (t : EnumTable) (ht : NoCrossRef t) (v w : Nat) :
    Canonical t (t.ofRaw v) ∧ (t.ofRaw v = t.ofRaw w → v = w) := by
  constructor
  · unfold EnumTable.ofRaw
    rcases fromArms_spec t.size v t.items 0 with ⟨j, it, h1, h2, _, h4⟩ | ⟨h1, h2⟩
    · rw [h4]
      cases it with
      | basic a => exact ⟨a, by simpa using h1⟩
      | range a b =>
        simp only [EnumItem.matches, Bool.and_eq_true, decide_eq_true_eq] at h2
        exact ⟨a, b, by simpa using h1, h2.1, h2.2⟩
      | crossRef a => exact absurd rfl (ht _ (List.mem_of_getElem? h1) a)
    · rw [h2]
      rintro ⟨it, hi, hm⟩
      rw [h1 it hi] at hm; cases hm
  · intro h
    rw [← C25_raw_round_trip t ht v, ← C25_raw_round_trip t ht w, h]

/-- **C25 is violated** for enumerations with cross references (the entity capabilities): a raw value that selects a cross
reference comes back as 0. -/
theorem C25_crossref_lost (t : EnumTable) {i : Nat} {a : Nat} (hi : t.items[i]? = some (.crossRef a))
    (hf : ∀ j < i, ∀ b, t.items[j]? = some b → b.matches t.size (literal t.size a) = false) :
    t.toRaw (t.ofRaw (literal t.size a)) = 0 := by
  have hm : (EnumItem.crossRef a).matches t.size (literal t.size a) = true := by simp [EnumItem.matches]
  unfold EnumTable.ofRaw
  rcases fromArms_spec t.size (literal t.size a) t.items 0 with ⟨j, it, h1, h2, h3, h4⟩ | ⟨h1, _⟩
  · have hij : j = i := by
      rcases Nat.lt_trichotomy i j with h | h | h
      · rw [h3 i h _ hi] at hm; cases hm
      · exact h.symm
      · rw [hf j h _ h1] at h2; cases h2
    subst hij
    rw [hi] at h1
    simp only [Option.some.injEq] at h1
    subst h1
    rw [h4]; rfl
  · rw [h1 _ (List.mem_of_getElem? hi)] at hm; cases hm

/-- a table with names, a range and unknown values, as for countries or PDU types -/
def sampleTable : EnumTable := ⟨8, [.basic 0, .basic 1, .range 10 19, .basic 72]⟩
theorem sampleTable_noCrossRef : NoCrossRef sampleTable := by
  intro it h a e; subst e; simp [sampleTable] at h
theorem sampleTable_unambiguous : Unambiguous sampleTable := by
  have key : ∀ i < 4, ∀ j < 4, i ≠ j → ∀ a b, sampleTable.items[i]? = some a → sampleTable.items[j]? = some b → ∀ v,
      ¬ (a.matches 8 v = true ∧ b.matches 8 v = true) := by
    intro i hi j hj hij a b ha hb v
    have hi' : i = 0 ∨ i = 1 ∨ i = 2 ∨ i = 3 := by omega
    have hj' : j = 0 ∨ j = 1 ∨ j = 2 ∨ j = 3 := by omega
    rcases hi' with rfl | rfl | rfl | rfl <;> rcases hj' with rfl | rfl | rfl | rfl <;>
      simp only [sampleTable, List.getElem?_cons_zero, List.getElem?_cons_succ, Option.some.injEq] at ha hb <;> subst ha <;> subst hb <;>
      first | exact absurd rfl hij | (simp [EnumItem.matches, literal, typeWidth]; omega)
  intro i j a b v ha hb h1 h2
  have hi : i < 4 := by have := (List.getElem?_eq_some_iff.1 ha).1; simpa [sampleTable] using this
  have hj : j < 4 := by have := (List.getElem?_eq_some_iff.1 hb).1; simpa [sampleTable] using this
  by_cases hij : i = j
  · exact hij
  · exact absurd ⟨h1, h2⟩ (key i hi j hj hij a b ha hb v)
example : sampleTable.ofRaw 15 = .range 2 15 ∧ sampleTable.ofRaw 1 = .basic 1 ∧ sampleTable.ofRaw 200 = .unspecified 200 := by decide
example : Canonical sampleTable (.range 2 15) := ⟨10, 19, rfl, by decide, by decide⟩

/-! ## C26 -/

/-- The bits of a field: `length` bits starting `shift` bits above the least significant one. -/
def BitItem.owns (size : Nat) (f : BitItem) (i : Nat) : Prop := f.shift size ≤ i ∧ i < f.shift size + f.length
/-- The table describes a word of the integer type: fields lie inside it and do not overlap, flags have one bit, and an
enumeration field is no wider than the integer type of the enumeration, which has no cross references. -/
structure ValidBits (t : BitTable) : Prop where
  word : typeWidth t.size = t.size
  inside : ∀ f ∈ t.fields, f.length + f.position ≤ t.size
  disjoint : t.fields.Pairwise fun f g => ∀ i, ¬ (BitItem.owns t.size f i ∧ BitItem.owns t.size g i)
  flags : ∀ f ∈ t.fields, f.xref = none → f.length = 1
  enums : ∀ f ∈ t.fields, ∀ e, f.xref = some e → f.length ≤ typeWidth e.size ∧ NoCrossRef e ∧ Unambiguous e
/-- A record of a table: flags where the table has flags, and canonical enumeration values that fit their field. -/
inductive FitsBits : List BitItem → List FieldValue → Prop
  | nil : FitsBits [] []
  | flag {f fs vs} (b : Bool) : f.xref = none → FitsBits fs vs → FitsBits (f :: fs) (.flag b :: vs)
  | enum {f fs vs e} (x : Variant) : f.xref = some e → Canonical e x → e.toRaw x < 2 ^ f.length → FitsBits fs vs →
      FitsBits (f :: fs) (.enum x :: vs)

/-- the raw value of a field -/
def rawOf (f : BitItem) (v : FieldValue) : Nat :=
  match v, f.xref with
  | .enum x, some t => t.toRaw x
  | .flag b, _ => b.toNat
  | .enum _, none => 0

theorem testBit_write {size : Nat} {f : BitItem} {v : FieldValue} (hw : typeWidth size = size) (hin : f.length + f.position ≤ size)
    (hr : rawOf f v < 2 ^ f.length) (i : Nat) :
    (f.write size v).testBit i = (decide (f.shift size ≤ i) && (rawOf f v).testBit (i - f.shift size)) := by
  have hlt : rawOf f v < 2 ^ size := Nat.lt_of_lt_of_le hr (Nat.pow_le_pow_right (by omega) (by omega))
  show ((rawOf f v % 2 ^ typeWidth size) <<< f.shift size % 2 ^ typeWidth size).testBit i = _
  rw [hw, Nat.mod_eq_of_lt hlt, Nat.testBit_mod_two_pow, Nat.testBit_shiftLeft]
  by_cases h1 : f.shift size ≤ i
  · by_cases h2 : i < size
    · simp [h1, h2]
    · have : (rawOf f v).testBit (i - f.shift size) = false := by
        apply Nat.testBit_lt_two_pow
        apply Nat.lt_of_lt_of_le hr
        apply Nat.pow_le_pow_right (by omega)
        unfold BitItem.shift at *
        omega
      simp [h2, this]
  · simp [h1]

theorem write_outside {size : Nat} {f : BitItem} {v : FieldValue} (hw : typeWidth size = size) (hin : f.length + f.position ≤ size)
    (hr : rawOf f v < 2 ^ f.length) {i : Nat} (h : ¬ BitItem.owns size f i) : (f.write size v).testBit i = false := by
  rw [testBit_write hw hin hr]
  by_cases h1 : f.shift size ≤ i
  · have : (rawOf f v).testBit (i - f.shift size) = false := by
      apply Nat.testBit_lt_two_pow
      apply Nat.lt_of_lt_of_le hr
      apply Nat.pow_le_pow_right (by omega)
      unfold BitItem.owns at h
      omega
    simp [this]
  · simp [h1]

theorem testBit_field (w s n i : Nat) : ((w >>> s) &&& (2 ^ n - 1)).testBit i = (decide (i < n) && w.testBit (s + i)) := by
  rw [Nat.testBit_and, Nat.testBit_shiftRight, Nat.testBit_two_pow_sub_one, Bool.and_comm]

theorem field_lt (w s n : Nat) : (w >>> s) &&& (2 ^ n - 1) < 2 ^ n := by
  rw [Nat.and_two_pow_sub_one_eq_mod]; exact Nat.mod_lt _ (Nat.two_pow_pos n)

/-- Reading a field only looks at the bits it owns. -/
theorem read_congr {size : Nat} {f : BitItem} {w w' : Nat} (h : ∀ i, BitItem.owns size f i → w.testBit i = w'.testBit i) :
    f.read size w = f.read size w' := by
  have : (w >>> f.shift size) &&& (2 ^ f.length - 1) = (w' >>> f.shift size) &&& (2 ^ f.length - 1) := by
    apply Nat.eq_of_testBit_eq
    intro i
    rw [testBit_field, testBit_field]
    by_cases hi : i < f.length
    · rw [h (f.shift size + i) (by unfold BitItem.owns; omega)]
    · simp [hi]
  unfold BitItem.read
  rw [this]

/-- A field written alone is read back. -/
theorem read_write {t : BitTable} (ht : ValidBits t) {f : BitItem} (hf : f ∈ t.fields) {v : FieldValue} (hv : FitsBits [f] [v]) {w : Nat}
    (h : ∀ i, BitItem.owns t.size f i → w.testBit i = (f.write t.size v).testBit i) : f.read t.size w = v := by
  have hr : rawOf f v < 2 ^ f.length := by
    cases hv with
    | flag b hx _ => rw [ht.flags f hf hx]; cases b <;> simp [rawOf]
    | enum x hx _ hl _ => simpa [rawOf, hx] using hl
  have e : (w >>> f.shift t.size) &&& (2 ^ f.length - 1) = rawOf f v := by
    apply Nat.eq_of_testBit_eq
    intro i
    rw [testBit_field]
    by_cases hi : i < f.length
    · rw [h _ (by unfold BitItem.owns; omega), testBit_write ht.word (ht.inside f hf) hr]
      simp [hi]
    · have : (rawOf f v).testBit i = false := by
        apply Nat.testBit_lt_two_pow
        exact Nat.lt_of_lt_of_le hr (Nat.pow_le_pow_right (by omega) (by omega))
      simp [hi, this]
  unfold BitItem.read
  rw [e]
  cases hv with
  | flag b hx _ =>
    simp only [hx, rawOf]
    cases b <;> rfl
  | enum x hx hc hl _ =>
    obtain ⟨h1, h2, h3⟩ := ht.enums f hf _ hx
    simp only [hx, rawOf]
    rw [Nat.mod_eq_of_lt (Nat.lt_of_lt_of_le hl (Nat.pow_le_pow_right (by omega) h1)), C25_variant_round_trip _ h3 x hc]

theorem writeFields_outside {t : BitTable} (ht : ValidBits t) {i : Nat} : ∀ {fs : List BitItem} {vs : List FieldValue}, (∀ f ∈ fs, f ∈ t.fields) → FitsBits fs vs →
    (∀ f ∈ fs, ¬ BitItem.owns t.size f i) → (writeFields t.size fs vs).testBit i = false := by
  intro fs
  induction fs with
  | nil => intro vs _ _ _; cases vs <;> simp [writeFields]
  | cons f fs ih =>
    intro vs hm hv ho
    have hr : ∀ {v}, FitsBits [f] [v] → rawOf f v < 2 ^ f.length := by
      intro v hv
      cases hv with
      | flag b hx _ => rw [ht.flags f (hm f (by simp)) hx]; cases b <;> simp [rawOf]
      | enum x hx _ hl _ => simpa [rawOf, hx] using hl
    have step : ∀ {v vs}, FitsBits [f] [v] → FitsBits fs vs → (writeFields t.size (f :: fs) (v :: vs)).testBit i = false := by
      intro v vs h1 h2
      rw [writeFields, Nat.testBit_or, write_outside ht.word (ht.inside f (hm f (by simp))) (hr h1) (ho f (by simp)),
        ih (fun g hg => hm g (by simp [hg])) h2 (fun g hg => ho g (by simp [hg]))]
      rfl
    cases hv with
    | flag b hx h => exact step (.flag b hx .nil) h
    | enum x hx hc hl h => exact step (.enum x hx hc hl .nil) h

theorem readFields {t : BitTable} (ht : ValidBits t) : ∀ {fs : List BitItem} {vs : List FieldValue}, (∀ f ∈ fs, f ∈ t.fields) →
    (fs.Pairwise fun f g => ∀ i, ¬ (BitItem.owns t.size f i ∧ BitItem.owns t.size g i)) → FitsBits fs vs →
    ∀ w, (∀ f ∈ fs, ∀ i, BitItem.owns t.size f i → w.testBit i = (writeFields t.size fs vs).testBit i) →
    fs.map (BitItem.read t.size w) = vs := by
  intro fs
  induction fs with
  | nil => intro vs _ _ hv w _; cases hv; rfl
  | cons f fs ih =>
    intro vs hm hd hv w hw
    have hd' := List.pairwise_cons.1 hd
    have step : ∀ {v vs'}, vs = v :: vs' → FitsBits [f] [v] → FitsBits fs vs' → (f :: fs).map (BitItem.read t.size w) = v :: vs' := by
      intro v vs' e h1 h2
      subst e
      have hr : rawOf f v < 2 ^ f.length := by
        cases h1 with
        | flag b hx _ => rw [ht.flags f (hm f (by simp)) hx]; cases b <;> simp [rawOf]
        | enum x hx _ hl _ => simpa [rawOf, hx] using hl
      rw [List.map_cons]
      congr 1
      · apply read_write ht (hm f (by simp)) h1
        intro i hi
        rw [hw f (by simp) i hi, writeFields, Nat.testBit_or,
          writeFields_outside ht (fun g hg => hm g (by simp [hg])) h2 (fun g hg ho => hd'.1 g hg i ⟨hi, ho⟩), Bool.or_false]
      · apply ih (fun g hg => hm g (by simp [hg])) hd'.2 h2
        intro g hg i hi
        rw [hw g (by simp [hg]) i hi, writeFields, Nat.testBit_or,
          write_outside ht.word (ht.inside f (hm f (by simp))) hr (fun ho => hd'.1 g hg i ⟨ho, hi⟩), Bool.false_or]
    cases hv with
    | flag b hx h => exact step rfl (.flag b hx .nil) h
    | enum x hx hc hl h => exact step rfl (.enum x hx hc hl .nil) h

/-- **C26**: for every valid bit-field table and every record whose values fit, the integer reads back as the record. -/
theorem C26_record_round_trip (t : BitTable) (ht : ValidBits t) (x : List FieldValue) (hx : FitsBits t.fields x) :
    t.ofRaw (t.toRaw x) = x :=
  readFields ht (fun _ h => h) ht.disjoint hx _ (fun _ _ _ _ => rfl)

/-- Every field read from a word fits, and writing it gives the bits it owns. -/
theorem write_read {t : BitTable} (ht : ValidBits t) {f : BitItem} (hf : f ∈ t.fields) (w i : Nat) :
    (f.write t.size (f.read t.size w)).testBit i = (decide (f.shift t.size ≤ i ∧ i < f.shift t.size + f.length) && w.testBit i) := by
  have hraw : rawOf f (f.read t.size w) = (w >>> f.shift t.size) &&& (2 ^ f.length - 1) := by
    have hlt := field_lt w (f.shift t.size) f.length
    unfold BitItem.read
    generalize (w >>> f.shift t.size) &&& (2 ^ f.length - 1) = raw at *
    cases hx : f.xref with
    | none =>
      rw [ht.flags f hf hx] at hlt
      have : raw = 0 ∨ raw = 1 := by omega
      rcases this with rfl | rfl <;> simp [rawOf]
    | some e =>
      obtain ⟨h1, h2, _⟩ := ht.enums f hf _ hx
      simp only [rawOf, hx]
      rw [Nat.mod_eq_of_lt (Nat.lt_of_lt_of_le hlt (Nat.pow_le_pow_right (by omega) h1)), C25_raw_round_trip _ h2]
  have hlt : rawOf f (f.read t.size w) < 2 ^ f.length := by rw [hraw]; exact field_lt _ _ _
  rw [testBit_write ht.word (ht.inside f hf) hlt, hraw, testBit_field]
  by_cases h1 : f.shift t.size ≤ i
  · by_cases h2 : i < f.shift t.size + f.length
    · have h3 : i - f.shift t.size < f.length := by omega
      have h4 : f.shift t.size + (i - f.shift t.size) = i := by omega
      simp [h1, h2, h3, h4]
    · have h3 : ¬ i - f.shift t.size < f.length := by omega
      simp [h2, h3]
  · simp [h1]

/-- **C26**: converting a word to the record and back keeps exactly the bits that belong to fields: bit `i` survives if and
only if some field owns it, and all other bits become zero. -/
theorem C26_word_round_trip (t : BitTable) (ht : ValidBits t) (w i : Nat) :
    (t.toRaw (t.ofRaw w)).testBit i = true ↔ w.testBit i = true ∧ ∃ f ∈ t.fields, BitItem.owns t.size f i := by
  have key : ∀ fs : List BitItem, (∀ f ∈ fs, f ∈ t.fields) →
      ((writeFields t.size fs (fs.map (BitItem.read t.size w))).testBit i = true ↔
        w.testBit i = true ∧ ∃ f ∈ fs, BitItem.owns t.size f i) := by
    intro fs
    induction fs with
    | nil => intro _; simp [writeFields]
    | cons f fs ih =>
      intro hm
      rw [List.map_cons, writeFields, Nat.testBit_or, Bool.or_eq_true, write_read ht (hm f (by simp)),
        ih (fun g hg => hm g (by simp [hg]))]
      simp only [Bool.and_eq_true, decide_eq_true_eq, List.mem_cons, exists_eq_or_imp, BitItem.owns]
      constructor
      · rintro (⟨a, b⟩ | ⟨a, b⟩)
        · exact ⟨b, .inl a⟩
        · exact ⟨a, .inr b⟩
      · rintro ⟨a, b | b⟩
        · exact .inl ⟨b, a⟩
        · exact .inr ⟨a, b⟩
  exact key t.fields (fun _ h => h)

/-- **C26**: setting one field of a record changes no other field (fields never overlap). -/
theorem C26_fields_independent (t : BitTable) (ht : ValidBits t) (x y : List FieldValue) (hx : FitsBits t.fields x) (hy : FitsBits t.fields y)
    (k : Nat) (h : x[k]? = y[k]?) : (t.ofRaw (t.toRaw x))[k]? = (t.ofRaw (t.toRaw y))[k]? := by
  rw [C26_record_round_trip t ht x hx, C26_record_round_trip t ht y hy, h]

/-- **C26 fails** for a table with a flag of two bits (the validity condition on flags is needed): 2 reads as `true`, which is
written as 1. -/
theorem C26_wide_flag_lost : (⟨8, [⟨0, 2, none⟩]⟩ : BitTable).toRaw ((⟨8, [⟨0, 2, none⟩]⟩ : BitTable).ofRaw 0x80) = 0x40 := by decide

/-- a table with flags and enumeration fields, like the appearance records -/
def sampleBits : BitTable := ⟨32, [⟨0, 1, none⟩, ⟨1, 1, none⟩, ⟨3, 4, some sampleTable⟩, ⟨16, 1, none⟩]⟩
theorem sampleBits_valid : ValidBits sampleBits where
  word := by decide
  inside := by intro f hf; simp [sampleBits] at hf; rcases hf with rfl | rfl | rfl | rfl <;> simp [sampleBits]
  disjoint := by
    simp only [sampleBits, List.pairwise_cons, List.mem_cons, List.not_mem_nil, or_false, forall_eq_or_imp, forall_eq,
      BitItem.owns, BitItem.shift, List.Pairwise.nil, and_true]
    refine ⟨⟨?_, ?_, ?_⟩, ⟨?_, ?_⟩, ?_, fun _ h => h.elim⟩ <;> intros <;> omega
  flags := by intro f hf h; simp [sampleBits] at hf; rcases hf with rfl | rfl | rfl | rfl <;> first | rfl | cases h
  enums := by
    intro f hf e he
    simp [sampleBits] at hf
    rcases hf with rfl | rfl | rfl | rfl <;> simp only [Option.some.injEq, reduceCtorEq] at he
    subst he
    exact ⟨by decide, sampleTable_noCrossRef, sampleTable_unambiguous⟩
example : FitsBits sampleBits.fields [.flag true, .flag false, .enum (.range 2 15), .flag true] :=
  .flag _ rfl (.flag _ rfl (.enum _ rfl ⟨10, 19, rfl, by decide, by decide⟩ (by decide) (.flag _ rfl .nil)))

end Verif.Props
