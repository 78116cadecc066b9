import Verif.Dis.EntityInfo

/-!
# Text from received octets

`String::from_utf8_lossy` of the Rust standard library and `sanitize_marking` (common/parser.rs:741-746) on it.
-/

namespace Verif.Dis

/-- The octets of a `String` of the given characters (UTF-8, as Lean's own encoder gives it). -/
def textOctets (l : List Char) : Bytes := l.flatMap String.utf8EncodeChar

/-- U+FFFD, the replacement character -/
def replacement : Char := Char.ofNat 0xFFFD

/-- a continuation octet (`byte & 192 == 128`) -/
def isCont (b : UInt8) : Bool := 0x80 ≤ b.toNat && b.toNat ≤ 0xBF
/-- the octets that may follow the first octet `a` of three -/
def second3 (a b : UInt8) : Bool :=
  if a.toNat = 0xE0 then 0xA0 ≤ b.toNat && b.toNat ≤ 0xBF
  else if a.toNat = 0xED then 0x80 ≤ b.toNat && b.toNat ≤ 0x9F
  else isCont b
/-- the octets that may follow the first octet `a` of four -/
def second4 (a b : UInt8) : Bool :=
  if a.toNat = 0xF0 then 0x90 ≤ b.toNat && b.toNat ≤ 0xBF
  else if a.toNat = 0xF4 then 0x80 ≤ b.toNat && b.toNat ≤ 0x8F
  else isCont b

/-- One round of `Utf8Chunks` (the standard library's core/src/str/lossy.rs): the character made from the front of `a :: rest` and the
number of octets of `rest` it takes.  What is not a character becomes U+FFFD; it is the longest beginning of a character, or one octet.
`safe_get` gives 0, which continues nothing, past the end. -/
def lossyStep (a : UInt8) (rest : Bytes) : Char × Nat :=
  let b := rest.getD 0 0
  let c := rest.getD 1 0
  let d := rest.getD 2 0
  if a.toNat < 0x80 then (Char.ofNat a.toNat, 0)
  else if a.toNat < 0xC2 then (replacement, 0)
  else if a.toNat < 0xE0 then
    if isCont b then (Char.ofNat ((a.toNat - 0xC0) * 64 + (b.toNat - 0x80)), 1) else (replacement, 0)
  else if a.toNat < 0xF0 then
    if second3 a b then
      if isCont c then (Char.ofNat ((a.toNat - 0xE0) * 4096 + (b.toNat - 0x80) * 64 + (c.toNat - 0x80)), 2) else (replacement, 1)
    else (replacement, 0)
  else if a.toNat < 0xF5 then
    if second4 a b then
      if isCont c then
        if isCont d then
          (Char.ofNat ((a.toNat - 0xF0) * 262144 + (b.toNat - 0x80) * 4096 + (c.toNat - 0x80) * 64 + (d.toNat - 0x80)), 3)
        else (replacement, 2)
      else (replacement, 1)
    else (replacement, 0)
  else (replacement, 0)

/-- `String::from_utf8_lossy`, in at most `n` rounds -/
def lossyGo : Nat → Bytes → List Char
  | 0, _ => []
  | _ + 1, [] => []
  | n + 1, a :: rest => (lossyStep a rest).1 :: lossyGo n (rest.drop (lossyStep a rest).2)
/-- `String::from_utf8_lossy` -/
def fromUtf8Lossy (b : Bytes) : List Char := lossyGo b.length b

/-- common/parser.rs:741-746 `sanitize_marking`.  `alnum` is `char::is_alphanumeric`.  Simplification: `trim_end`, which comes first,
removes white space, none of which is alphanumeric. -/
def sanitizeLossy (alnum : Char → Bool) (buf : Bytes) : Bytes :=
  textOctets ((fromUtf8Lossy buf).reverse.dropWhile (fun c => !alnum c)).reverse

/-- `alnum` is `char::is_alphanumeric`: on ASCII the letters and digits, and not the replacement character. -/
structure IsAlphanumeric (alnum : Char → Bool) : Prop where
  ascii : ∀ c : Char, c.toNat < 128 → alnum c = c.isAlphanum
  replacement : alnum replacement = false

/-- The reader's environment uses the standard library's decoding. -/
structure Sanitizes (alnum : Char → Bool) (env : Env) : Prop where
  unicode : IsAlphanumeric alnum
  lossy : ∀ b, env.sanitizeNonAscii b = sanitizeLossy alnum b

/-! ## Lemmas -/

theorem lossyGo_nil (n : Nat) : lossyGo n [] = [] := by cases n <;> rfl
theorem lossyGo_enough {n m : Nat} : ∀ {b : Bytes}, b.length ≤ n → b.length ≤ m → lossyGo n b = lossyGo m b := by
  induction n generalizing m with
  | zero =>
    intro b h1 h2
    obtain rfl : b = [] := List.length_eq_zero_iff.1 (by omega)
    rw [lossyGo_nil, lossyGo_nil]
  | succ n ih =>
    intro b h1 h2
    match b, m with
    | [], _ => rw [lossyGo_nil, lossyGo_nil]
    | a :: rest, 0 => simp at h2
    | a :: rest, m + 1 =>
      simp only [lossyGo]
      rw [ih (m := m)]
      · simp at h1 ⊢; omega
      · simp at h2 ⊢; omega
theorem lossy_cons (a : UInt8) (rest : Bytes) :
    fromUtf8Lossy (a :: rest) = (lossyStep a rest).1 :: fromUtf8Lossy (rest.drop (lossyStep a rest).2) := by
  show lossyGo (rest.length + 1) (a :: rest) = _
  simp only [lossyGo, fromUtf8Lossy]
  rw [lossyGo_enough (n := rest.length)]
  · simp
  · exact Nat.le_refl _

theorem ofNat_val (c : Char) : Char.ofNat c.val.toNat = c := by
  exact Char.ofNat_toNat c

theorem pair_eq {m n k : Nat} {c : Char} (h : m = n) (hc : Char.ofNat n = c) : (Char.ofNat m, k) = (c, k) := by rw [h, hc]

/-- A character is read from its encoding. -/
theorem step_encode (c : Char) (r : Bytes) :
    ∃ a t, String.utf8EncodeChar c = a :: t ∧ lossyStep a (t ++ r) = (c, t.length) := by
  have hv : c.val.toNat < 0xD800 ∨ (0xDFFF < c.val.toNat ∧ c.val.toNat < 0x110000) := c.valid
  unfold String.utf8EncodeChar
  dsimp only
  generalize hn : c.val.toNat = n at hv ⊢
  have hc : Char.ofNat n = c := by rw [← hn]; exact ofNat_val c
  split
  · refine ⟨_, _, rfl, ?_⟩
    simp only [lossyStep, List.length_nil, UInt8.toNat_ofNat']
    rw [if_pos (by omega), Nat.mod_eq_of_lt (by omega), hc]
  · split
    · refine ⟨_, _, rfl, ?_⟩
      simp only [lossyStep, isCont, List.length_cons, List.length_nil, UInt8.toNat_ofNat', List.cons_append, List.getD_cons_zero,
        Bool.and_eq_true, decide_eq_true_eq]
      rw [if_neg (by omega), if_neg (by omega), if_pos (by omega), if_pos (by omega)]
      refine pair_eq ?_ hc
      omega
    · split
      · refine ⟨_, _, rfl, ?_⟩
        simp only [lossyStep, isCont, second3, List.length_cons, List.length_nil, UInt8.toNat_ofNat', List.cons_append,
          List.getD_cons_zero, List.getD_cons_succ, Bool.and_eq_true, decide_eq_true_eq]
        rw [if_neg (by omega), if_neg (by omega), if_neg (by omega), if_pos (by omega), if_pos, if_pos (by omega)]
        · refine pair_eq ?_ hc
          omega
        · split
          · simp only [Bool.and_eq_true, decide_eq_true_eq]; omega
          · split <;> simp only [Bool.and_eq_true, decide_eq_true_eq] <;> omega
      · refine ⟨_, _, rfl, ?_⟩
        simp only [lossyStep, isCont, second4, List.length_cons, List.length_nil, UInt8.toNat_ofNat', List.cons_append,
          List.getD_cons_zero, List.getD_cons_succ, Bool.and_eq_true, decide_eq_true_eq]
        rw [if_neg (by omega), if_neg (by omega), if_neg (by omega), if_neg (by omega), if_pos (by omega), if_pos, if_pos (by omega),
          if_pos (by omega)]
        · refine pair_eq ?_ hc
          omega
        · split
          · simp only [Bool.and_eq_true, decide_eq_true_eq]; omega
          · split <;> simp only [Bool.and_eq_true, decide_eq_true_eq] <;> omega

/-- Valid text is read as it is, whatever follows it. -/
theorem lossy_octets (l : List Char) (r : Bytes) : fromUtf8Lossy (textOctets l ++ r) = l ++ fromUtf8Lossy r := by
  induction l with
  | nil => rfl
  | cons c l ih =>
    obtain ⟨a, t, e, h⟩ := step_encode c (textOctets l ++ r)
    have : textOctets (c :: l) ++ r = a :: (t ++ (textOctets l ++ r)) := by
      simp only [textOctets, List.flatMap_cons, e, List.cons_append, List.append_assoc]
    rw [this, lossy_cons, h]
    simp only [List.drop_left, ih, List.cons_append]

theorem val_ofNat {n : Nat} (h : n < 0xD800 ∨ (0xDFFF < n ∧ n < 0x110000)) : (Char.ofNat n).val.toNat = n := by
  have hv : n.isValidChar := h
  rw [Char.ofNat, dif_pos hv]
  rfl

theorem octet_eq {a : UInt8} {n : Nat} (h : n = a.toNat) : UInt8.ofNat n = a := by rw [h, UInt8.ofNat_toNat]

theorem encode1 {a : UInt8} (h : a.toNat < 0x80) : String.utf8EncodeChar (Char.ofNat a.toNat) = [a] := by
  unfold String.utf8EncodeChar
  dsimp only
  rw [val_ofNat (by omega), if_pos (by omega), UInt8.ofNat_toNat]
theorem encode2 {a b : UInt8} {n : Nat} (h1 : 0xC2 ≤ a.toNat) (h2 : a.toNat < 0xE0) (hb : 0x80 ≤ b.toNat ∧ b.toNat ≤ 0xBF)
    (hn : n = (a.toNat - 0xC0) * 64 + (b.toNat - 0x80)) : String.utf8EncodeChar (Char.ofNat n) = [a, b] := by
  unfold String.utf8EncodeChar
  dsimp only
  rw [val_ofNat (by omega), if_neg (by omega), if_pos (by omega)]
  rw [octet_eq (a := a) (by omega), octet_eq (a := b) (by omega)]
theorem encode3 {a b c : UInt8} {n : Nat} (h1 : 0xE0 ≤ a.toNat) (h2 : a.toNat < 0xF0) (hb : second3 a b = true)
    (hc : 0x80 ≤ c.toNat ∧ c.toNat ≤ 0xBF)
    (hn : n = (a.toNat - 0xE0) * 4096 + (b.toNat - 0x80) * 64 + (c.toNat - 0x80)) :
    String.utf8EncodeChar (Char.ofNat n) = [a, b, c] := by
  have hb : 0x80 ≤ b.toNat ∧ b.toNat ≤ 0xBF ∧ (a.toNat = 0xE0 → 0xA0 ≤ b.toNat) ∧ (a.toNat = 0xED → b.toNat ≤ 0x9F) := by
    unfold second3 isCont at hb
    split at hb
    · simp only [Bool.and_eq_true, decide_eq_true_eq] at hb; omega
    · split at hb <;> simp only [Bool.and_eq_true, decide_eq_true_eq] at hb <;> omega
  unfold String.utf8EncodeChar
  dsimp only
  rw [val_ofNat (by omega), if_neg (by omega), if_neg (by omega), if_pos (by omega)]
  rw [octet_eq (a := a) (by omega), octet_eq (a := b) (by omega), octet_eq (a := c) (by omega)]
theorem encode4 {a b c d : UInt8} {n : Nat} (h1 : 0xF0 ≤ a.toNat) (h2 : a.toNat < 0xF5) (hb : second4 a b = true)
    (hc : 0x80 ≤ c.toNat ∧ c.toNat ≤ 0xBF) (hd : 0x80 ≤ d.toNat ∧ d.toNat ≤ 0xBF)
    (hn : n = (a.toNat - 0xF0) * 262144 + (b.toNat - 0x80) * 4096 + (c.toNat - 0x80) * 64 + (d.toNat - 0x80)) :
    String.utf8EncodeChar (Char.ofNat n) = [a, b, c, d] := by
  have hb : 0x80 ≤ b.toNat ∧ b.toNat ≤ 0xBF ∧ (a.toNat = 0xF0 → 0x90 ≤ b.toNat) ∧ (a.toNat = 0xF4 → b.toNat ≤ 0x8F) := by
    unfold second4 isCont at hb
    split at hb
    · simp only [Bool.and_eq_true, decide_eq_true_eq] at hb; omega
    · split at hb <;> simp only [Bool.and_eq_true, decide_eq_true_eq] at hb <;> omega
  unfold String.utf8EncodeChar
  dsimp only
  rw [val_ofNat (by omega), if_neg (by omega), if_neg (by omega), if_neg (by omega)]
  rw [octet_eq (a := a) (by omega), octet_eq (a := b) (by omega), octet_eq (a := c) (by omega), octet_eq (a := d) (by omega)]

theorem cont_iff {b : UInt8} (h : isCont b = true) : 0x80 ≤ b.toNat ∧ b.toNat ≤ 0xBF := by
  simpa only [isCont, Bool.and_eq_true, decide_eq_true_eq] using h
theorem zero_no_cont : isCont 0 = false ∧ (∀ a, second3 a 0 = false) ∧ ∀ a, second4 a 0 = false := by
  refine ⟨by decide, fun a => ?_, fun a => ?_⟩
  · unfold second3; split
    · rfl
    · split <;> rfl
  · unfold second4; split
    · rfl
    · split <;> rfl

/-- What one round takes is there, and it is the encoding of the character or at most three octets that become U+FFFD. -/
theorem step_size (a : UInt8) (rest : Bytes) : (lossyStep a rest).2 ≤ rest.length ∧
    ((lossyStep a rest).1 = replacement ∧ (lossyStep a rest).2 ≤ 2 ∨
      String.utf8EncodeChar (lossyStep a rest).1 = a :: rest.take (lossyStep a rest).2) := by
  have bad : ∀ k, k ≤ rest.length → k ≤ 2 → ((replacement, k) : Char × Nat).2 ≤ rest.length ∧ (((replacement, k) : Char × Nat).1 = replacement ∧
      ((replacement, k) : Char × Nat).2 ≤ 2 ∨ String.utf8EncodeChar ((replacement, k) : Char × Nat).1 = a :: rest.take ((replacement, k) : Char × Nat).2) :=
    fun k h1 h2 => ⟨h1, Or.inl ⟨rfl, h2⟩⟩
  obtain ⟨z1, z2, z3⟩ := zero_no_cont
  simp only [lossyStep]
  split
  · exact ⟨Nat.zero_le _, Or.inr (encode1 (by assumption))⟩
  split
  · exact bad 0 (by omega) (by omega)
  split
  · split
    case isFalse => exact bad 0 (by omega) (by omega)
    case isTrue h =>
    match rest with
    | [] => simp [z1] at h
    | b :: r => refine ⟨by simp, Or.inr ?_⟩; dsimp only; exact encode2 (by omega) (by omega) (cont_iff h) rfl
  split
  · split
    case isFalse => exact bad 0 (by omega) (by omega)
    case isTrue hb =>
    match rest with
    | [] => simp [z2] at hb
    | b :: r =>
      split
      case isFalse => exact bad 1 (by simp) (by omega)
      case isTrue h =>
      match r with
      | [] => simp [z1] at h
      | c :: r => refine ⟨by simp, Or.inr ?_⟩; dsimp only; exact encode3 (by omega) (by omega) hb (cont_iff h) rfl
  split
  · split
    case isFalse => exact bad 0 (by omega) (by omega)
    case isTrue hb =>
    match rest with
    | [] => simp [z3] at hb
    | b :: r =>
      split
      case isFalse => exact bad 1 (by simp) (by omega)
      case isTrue h =>
      match r with
      | [] => simp [z1] at h
      | c :: r =>
        split
        case isFalse => exact bad 2 (by simp) (by omega)
        case isTrue h' =>
        match r with
        | [] => simp [z1] at h'
        | d :: r => refine ⟨by simp, Or.inr ?_⟩; dsimp only; exact encode4 (by omega) (by omega) hb (cont_iff h) (cont_iff h') rfl
  · exact bad 0 (by omega) (by omega)

/-- No continuation octet follows. -/
theorem step_isolated {a : UInt8} {rest : Bytes} (h : 0x80 ≤ a.toNat) (hr : (rest.getD 0 0).toNat < 0x80) :
    lossyStep a rest = (replacement, 0) := by
  have h1 : isCont (rest.getD 0 0) = false := by
    unfold isCont; simp only [Bool.and_eq_false_iff, decide_eq_false_iff_not]; omega
  have h2 : second3 a (rest.getD 0 0) = false := by
    unfold second3; split
    · simp only [Bool.and_eq_false_iff, decide_eq_false_iff_not]; omega
    · split
      · simp only [Bool.and_eq_false_iff, decide_eq_false_iff_not]; omega
      · exact h1
  have h3 : second4 a (rest.getD 0 0) = false := by
    unfold second4; split
    · simp only [Bool.and_eq_false_iff, decide_eq_false_iff_not]; omega
    · split
      · simp only [Bool.and_eq_false_iff, decide_eq_false_iff_not]; omega
      · exact h1
  simp only [lossyStep, h1, h2, h3, Bool.false_eq_true, if_false]
  rw [if_neg (by omega)]
  simp

/-- the character made from an octet that is no part of a longer sequence -/
def lone (b : UInt8) : Char := if b.toNat < 128 then Char.ofNat b.toNat else replacement
/-- every octet outside ASCII is followed by one of ASCII, or by nothing -/
def Isolated (s : Bytes) : Prop := ∀ i, 128 ≤ (s.getD i 0).toNat → (s.getD (i + 1) 0).toNat < 128

theorem lossy_isolated : ∀ {s : Bytes}, Isolated s → fromUtf8Lossy s = s.map lone
  | [], _ => rfl
  | a :: r, h => by
    have hr : Isolated r := fun i hi => by
      have := h (i + 1); simp only [List.getD_cons_succ] at this; exact this hi
    rw [lossy_cons, List.map_cons]
    by_cases ha : a.toNat < 128
    · have : lossyStep a r = (Char.ofNat a.toNat, 0) := by simp only [lossyStep]; rw [if_pos ha]
      rw [this, lone, if_pos ha]; simp only [List.drop_zero, lossy_isolated hr]
    · have h0 := h 0
      simp only [List.getD_cons_zero, List.getD_cons_succ, Nat.zero_add] at h0
      rw [step_isolated (by omega) (h0 (by omega)), lone, if_neg ha]
      simp only [List.drop_zero, lossy_isolated hr]

theorem ascii_encode : ∀ n < 128, String.utf8EncodeChar (Char.ofNat n) = [UInt8.ofNat n] := by decide +kernel
theorem ascii_toNat : ∀ n < 128, (Char.ofNat n).toNat = n := by decide +kernel
theorem ascii_alnum : ∀ i : Fin 128, isAlnum (UInt8.ofNat i) = (Char.ofNat i).isAlphanum := by decide +kernel

theorem isolated_ascii {b : Bytes} (hb : ∀ x ∈ b, x.toNat < 128) : Isolated b := fun i h => by
  exfalso
  rw [List.getD_eq_getElem?_getD] at h
  cases e : b[i]? with
  | none => rw [e] at h; simp at h
  | some x => rw [e] at h; have := hb x (List.mem_of_getElem? e); simp at h; omega
theorem lossy_ascii {b : Bytes} (hb : ∀ x ∈ b, x.toNat < 128) : fromUtf8Lossy b = b.map fun x => Char.ofNat x.toNat := by
  rw [lossy_isolated (isolated_ascii hb)]
  exact List.map_congr_left fun x hx => by rw [lone, if_pos (hb x hx)]

/-- On ASCII the two models of `sanitize_marking` agree. -/
theorem sanitizeLossy_ascii {alnum : Char → Bool} (ha : IsAlphanumeric alnum) {b : Bytes} (hb : ∀ x ∈ b, x.toNat < 128) :
    sanitizeLossy alnum b = (b.reverse.dropWhile (fun c => !isAlnum c)).reverse := by
  have hi := isolated_ascii hb
  have key : ∀ x ∈ b, lone x = Char.ofNat x.toNat ∧ alnum (lone x) = isAlnum x := by
    intro x hx
    have hx := hb x hx
    have e : lone x = Char.ofNat x.toNat := by rw [lone, if_pos hx]
    refine ⟨e, ?_⟩
    have h2 := ascii_alnum ⟨x.toNat, hx⟩
    simp only [UInt8.ofNat_toNat] at h2
    rw [e, ha.ascii _ (by rw [ascii_toNat _ hx]; exact hx), h2]
  unfold sanitizeLossy
  rw [lossy_isolated hi]
  have oct : ∀ l : Bytes, (∀ x ∈ l, x ∈ b) → textOctets (l.map lone) = l := by
    intro l
    induction l with
    | nil => intro _; rfl
    | cons x l ih =>
      intro h
      have hx := h x (by simp)
      rw [List.map_cons, textOctets, List.flatMap_cons, (key x hx).1, ascii_encode _ (hb x hx), UInt8.ofNat_toNat]
      exact congrArg (x :: ·) (ih fun y hy => h y (by simp [hy]))
  have drop : ∀ l : Bytes, (∀ x ∈ l, x ∈ b) → (l.map lone).dropWhile (fun c => !alnum c) = (l.dropWhile (fun c => !isAlnum c)).map lone := by
    intro l
    induction l with
    | nil => intro _; rfl
    | cons x l ih =>
      intro h
      have hx := h x (by simp)
      rw [List.map_cons, List.dropWhile_cons, List.dropWhile_cons, (key x hx).2]
      split
      · exact ih fun y hy => h y (by simp [hy])
      · rfl
  rw [← List.map_reverse, drop _ (by simp), ← List.map_reverse, oct]
  intro x hx
  rw [List.mem_reverse] at hx
  have := (List.dropWhile_sublist _).subset hx
  simpa using this

theorem sanitize_eq {alnum : Char → Bool} {env : Env} (h : Sanitizes alnum env) (b : Bytes) :
    sanitizeMarking env b = sanitizeLossy alnum b := by
  unfold sanitizeMarking
  split
  case isTrue hb =>
    rw [List.all_eq_true] at hb
    rw [sanitizeLossy_ascii h.unicode fun x hx => by simpa using hb x hx]
  case isFalse => exact h.lossy b

/-- The field falls into pieces, each the encoding of the character made from it, or one to three octets that become U+FFFD. -/
theorem lossy_pieces (b : Bytes) : ∃ ps : List (Bytes × Char), b = ps.flatMap (·.1) ∧ fromUtf8Lossy b = ps.map (·.2) ∧
    ∀ p ∈ ps, p.1 = String.utf8EncodeChar p.2 ∨ (p.2 = replacement ∧ 1 ≤ p.1.length ∧ p.1.length ≤ 3) := by
  generalize hn : b.length = n
  induction n using Nat.strongRecOn generalizing b with
  | _ n ih =>
  match b with
  | [] => exact ⟨[], rfl, rfl, by simp⟩
  | a :: rest =>
    obtain ⟨h1, h2⟩ := step_size a rest
    obtain ⟨ps, e1, e2, e3⟩ := ih (rest.drop (lossyStep a rest).2).length (by simp at hn ⊢; omega) _ rfl
    refine ⟨(a :: rest.take (lossyStep a rest).2, (lossyStep a rest).1) :: ps, ?_, ?_, ?_⟩
    · simp only [List.flatMap_cons, ← e1, List.cons_append, List.take_append_drop]
    · rw [lossy_cons, List.map_cons, e2]
    · intro p hp
      rcases List.mem_cons.1 hp with rfl | hp
      · rcases h2 with ⟨h2, h3⟩ | h2
        · right
          refine ⟨h2, by simp, ?_⟩
          simp only [List.length_cons, List.length_take]; omega
        · left; exact h2.symm
      · exact e3 p hp

theorem textOctets_append (a b : List Char) : textOctets (a ++ b) = textOctets a ++ textOctets b := by simp [textOctets]
theorem textOctets_cons (c : Char) (l : List Char) : textOctets (c :: l) = String.utf8EncodeChar c ++ textOctets l := by simp [textOctets]
theorem replacement_octets : String.utf8EncodeChar replacement = [0xEF, 0xBF, 0xBD] := by decide +kernel
/-- The text never has fewer octets than the field, nor more than three times as many. -/
theorem lossy_length (b : Bytes) : b.length ≤ (textOctets (fromUtf8Lossy b)).length ∧ (textOctets (fromUtf8Lossy b)).length ≤ 3 * b.length := by
  obtain ⟨ps, e1, e2, e3⟩ := lossy_pieces b
  rw [e2, e1]
  clear e1 e2
  induction ps with
  | nil => exact ⟨Nat.le_refl _, Nat.le_refl _⟩
  | cons p ps ih =>
    have := ih fun q hq => e3 q (by simp [hq])
    simp only [List.map_cons, textOctets_cons, List.flatMap_cons, List.length_append]
    rcases e3 p (by simp) with h | ⟨h, h1, h2⟩
    · rw [h]; omega
    · rw [h, replacement_octets]; simp only [List.length_cons, List.length_nil]; omega

/-- The text of a marking: `l` without the characters at its end that are not alphanumeric. -/
def strip (alnum : Char → Bool) (l : List Char) : List Char := (l.reverse.dropWhile (fun c => !alnum c)).reverse
theorem strip_prefix (alnum : Char → Bool) (l : List Char) : ∃ t, l = strip alnum l ++ t ∧ ∀ c ∈ t, alnum c = false := by
  refine ⟨(l.reverse.takeWhile (fun c => !alnum c)).reverse, ?_, ?_⟩
  · rw [strip, ← List.reverse_append, List.takeWhile_append_dropWhile, List.reverse_reverse]
  · intro c hc
    rw [List.mem_reverse] at hc
    have := List.all_eq_true.1 (List.all_takeWhile (p := fun c => !alnum c) (l := l.reverse)) c hc
    simpa using this
theorem strip_append {alnum : Char → Bool} {l t : List Char} (ht : ∀ c ∈ t, alnum c = false) : strip alnum (l ++ t) = strip alnum l := by
  unfold strip
  rw [List.reverse_append]
  have : ∀ (a b : List Char), (∀ c ∈ a, alnum c = false) → (a ++ b).dropWhile (fun c => !alnum c) = b.dropWhile (fun c => !alnum c) := by
    intro a b h
    induction a with
    | nil => rfl
    | cons c a ih =>
      rw [List.cons_append, List.dropWhile_cons, h c (by simp)]
      exact ih fun x hx => h x (by simp [hx])
  rw [this _ _ fun c hc => ht c (by simpa using hc)]
theorem strip_self {alnum : Char → Bool} {l : List Char} (h : ∀ c, l.getLast? = some c → alnum c = true) : strip alnum l = l := by
  unfold strip
  cases e : l.reverse with
  | nil => rw [List.reverse_eq_nil_iff] at e; subst e; rfl
  | cons c r =>
    have : alnum c = true := h c (by rw [← List.head?_reverse, e]; rfl)
    rw [List.dropWhile_cons, this]
    simp [← e]
/-- A field that is text is read as that text, stripped; it keeps within the field. -/
theorem sanitize_text (alnum : Char → Bool) (l : List Char) :
    sanitizeLossy alnum (textOctets l) = textOctets (strip alnum l) ∧ (textOctets (strip alnum l)).length ≤ (textOctets l).length := by
  have e := lossy_octets l []
  rw [List.append_nil, show fromUtf8Lossy [] = [] from rfl, List.append_nil] at e
  refine ⟨by rw [sanitizeLossy, e]; rfl, ?_⟩
  obtain ⟨t, h, -⟩ := strip_prefix alnum l
  have := congrArg (fun l => (textOctets l).length) h
  simp only [textOctets_append, List.length_append] at this
  omega

end Verif.Dis
