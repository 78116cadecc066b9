import Verif.Core.Parser

/-! # `many1` of a parser that makes progress -/

namespace Verif
variable {τ α : Type}

/-- `p` consumes at least `k` tokens whenever it succeeds. -/
def Consumes (k : Nat) (p : P τ α) : Prop := ∀ b a r, p.run b = .ok a r → r.length + k ≤ b.length

/-- `Steps p b as r`: the input `b` is a sequence of inputs on which `p` yields `as`, followed by `r`. -/
inductive Steps (p : P τ α) : List τ → List α → List τ → Prop
  | nil (r : List τ) : Steps p r [] r
  | cons {b mid r : List τ} {a : α} {as : List α} : p.run b = .ok a mid → Steps p mid as r → Steps p b (a :: as) r

theorem manyLoop_steps {p : P τ α} (hp : Consumes 1 p) : ∀ (fuel : Nat) (b : List τ), b.length < fuel → ∀ as r,
    (P.manyLoop p fuel b = .ok as r ↔ Steps p b as r ∧ p.run r = .err) := by
  intro fuel
  induction fuel with
  | zero => intro b h; omega
  | succ n ih =>
    intro b hb as r
    unfold P.manyLoop
    cases h : p.run b with
    | err =>
      simp only [Res.ok.injEq]
      constructor
      · rintro ⟨rfl, rfl⟩; exact ⟨.nil _, h⟩
      · rintro ⟨s, e⟩
        cases s with
        | nil => exact ⟨rfl, rfl⟩
        | cons s _ => rw [h] at s; cases s
    | panic =>
      constructor
      · intro h; cases h
      · rintro ⟨s, e⟩
        cases s with
        | nil => rw [h] at e; cases e
        | cons s _ => rw [h] at s; cases s
    | ok a mid =>
      have hl := hp _ _ _ h
      dsimp only
      rw [if_neg (by omega)]
      constructor
      · intro e
        cases hm : P.manyLoop p n mid with
        | err => rw [hm] at e; cases e
        | panic => rw [hm] at e; cases e
        | ok xs r' =>
          rw [hm] at e
          simp only [Res.andThen_ok, Res.ok.injEq] at e
          obtain ⟨rfl, rfl⟩ := e
          have := (ih mid (by omega) xs r').1 hm
          exact ⟨.cons h this.1, this.2⟩
      · rintro ⟨s, e⟩
        cases s with
        | nil => rw [h] at e; cases e
        | cons s t =>
          rw [h] at s
          simp only [Res.ok.injEq] at s
          obtain ⟨rfl, rfl⟩ := s
          rw [(ih _ (by omega) _ _).2 ⟨t, e⟩]
          rfl

/-- `many1 p` finds the maximal sequence of results, up to the first failure. -/
theorem many1_steps {p : P τ α} (hp : Consumes 1 p) (b r : List τ) (as : List α) :
    (P.many1 p).run b = .ok as r ↔ Steps p b as r ∧ as ≠ [] ∧ p.run r = .err := by
  unfold P.many1
  dsimp only
  cases h : p.run b with
  | err =>
    constructor
    · intro h; cases h
    · rintro ⟨s, hn, _⟩
      cases s with
      | nil => exact absurd rfl hn
      | cons s _ => rw [h] at s; cases s
  | panic =>
    constructor
    · intro h; cases h
    · rintro ⟨s, hn, _⟩
      cases s with
      | nil => exact absurd rfl hn
      | cons s _ => rw [h] at s; cases s
  | ok a mid =>
    have e := manyLoop_steps hp mid.length.succ mid (Nat.lt_succ_self _)
    dsimp only
    constructor
    · intro h1
      cases hm : P.manyLoop p mid.length.succ mid with
      | err => rw [hm] at h1; cases h1
      | panic => rw [hm] at h1; cases h1
      | ok xs r' =>
        rw [hm] at h1
        simp only [Res.andThen_ok, Res.ok.injEq] at h1
        obtain ⟨rfl, rfl⟩ := h1
        have := (e xs r').1 hm
        exact ⟨.cons h this.1, by simp, this.2⟩
    · rintro ⟨s, hn, he⟩
      cases s with
      | nil => exact absurd rfl hn
      | cons s t =>
        rw [h] at s
        simp only [Res.ok.injEq] at s
        obtain ⟨rfl, rfl⟩ := s
        rw [(e _ _).2 ⟨t, he⟩]
        rfl

theorem manyLoop_total {p : P τ α} (hp : Consumes 1 p) (hs : P.Safe p) : ∀ (fuel : Nat) (b : List τ),
    ∃ as r, P.manyLoop p fuel b = .ok as r := by
  intro fuel
  induction fuel with
  | zero => intro b; exact ⟨_, _, rfl⟩
  | succ n ih =>
    intro b
    unfold P.manyLoop
    cases h : p.run b with
    | err => exact ⟨_, _, rfl⟩
    | panic => exact absurd h (hs.spec b)
    | ok a mid =>
      have hl := hp _ _ _ h
      obtain ⟨as, r, e⟩ := ih mid
      dsimp only
      rw [if_neg (by omega), e]
      exact ⟨_, _, rfl⟩

/-- Without panics, `many1 p` fails exactly when the first `p` fails. -/
theorem many1_err {p : P τ α} (hp : Consumes 1 p) (hs : P.Safe p) (b : List τ) :
    ((P.many1 p).run b = .err ↔ p.run b = .err) ∧ (P.many1 p).run b ≠ .panic := by
  unfold P.many1
  dsimp only
  cases h : p.run b with
  | err => simp
  | panic => exact absurd h (hs.spec b)
  | ok a mid =>
    obtain ⟨as, r, e⟩ := manyLoop_total hp hs mid.length.succ mid
    dsimp only
    rw [e]
    simp

theorem Steps.length {k : Nat} {p : P τ α} (hp : Consumes k p) {b r : List τ} {as : List α} (h : Steps p b as r) :
    k * as.length + r.length ≤ b.length := by
  induction h with
  | nil => simp
  | cons h _ ih =>
    have := hp _ _ _ h
    simp only [List.length_cons, Nat.mul_add, Nat.mul_one]
    omega
theorem Steps.append {p : P τ α} {b m r : List τ} {as bs : List α} (h : Steps p b as m) (h' : Steps p m bs r) :
    Steps p b (as ++ bs) r := by
  induction h with
  | nil => exact h'
  | cons h _ ih => exact .cons h (ih h')
/-- What is read does not depend on what follows. -/
theorem Steps.stable {p : P τ α} (hp : P.Stable p) {b r : List τ} {as : List α} (h : Steps p b as r) :
    ∃ c, b = c ++ r ∧ ∀ r', Steps p (c ++ r') as r' := by
  induction h with
  | nil => exact ⟨[], rfl, fun r' => .nil r'⟩
  | cons h _ ih =>
    obtain ⟨c, e, s⟩ := ih
    obtain ⟨d, e', s'⟩ := hp.spec _ _ _ h
    refine ⟨d ++ c, by rw [e', e, List.append_assoc], fun r' => ?_⟩
    rw [List.append_assoc]
    exact .cons (s' _) (s r')
theorem Steps.det {p : P τ α} {b r r' : List τ} {as bs : List α} (h : Steps p b as r) (h' : Steps p b bs r')
    (e : p.run r = .err) (e' : p.run r' = .err) : as = bs ∧ r = r' := by
  induction h generalizing bs with
  | nil =>
    cases h' with
    | nil => exact ⟨rfl, rfl⟩
    | cons h _ => rw [e] at h; cases h
  | cons h _ ih =>
    cases h' with
    | nil => rw [e'] at h; cases h
    | cons g t =>
      rw [h] at g
      simp only [Res.ok.injEq] at g
      obtain ⟨rfl, rfl⟩ := g
      obtain ⟨rfl, rfl⟩ := ih t e
      exact ⟨rfl, rfl⟩

/-- Postconditions of a parser. -/
def Ens (p : P τ α) (q : α → Prop) : Prop := ∀ b a r, p.run b = .ok a r → q a
theorem Ens.pure {a : α} {q : α → Prop} (h : q a) : Ens (pure a : P τ α) q := by
  intro b x r e
  simp only [P.run_pure, Res.ok.injEq] at e
  rw [← e.1]; exact h
theorem Ens.fail {q : α → Prop} : Ens (P.fail : P τ α) q := by
  intro b x r e; simp at e
theorem Ens.bind {β : Type} {m : P τ α} {f : α → P τ β} {q : α → Prop} {s : β → Prop} (hm : Ens m q)
    (hf : ∀ a, q a → Ens (f a) s) : Ens (m >>= f) s := by
  intro b x r e
  rw [P.run_bind] at e
  cases h : m.run b with
  | err => rw [h] at e; cases e
  | panic => rw [h] at e; cases e
  | ok a mid =>
    rw [h] at e
    exact hf a (hm _ _ _ h) _ _ _ e
theorem Ens.any (p : P τ α) : Ens p fun _ => True := fun _ _ _ _ => trivial
theorem Ens.skip {β : Type} {m : P τ α} {f : α → P τ β} {s : β → Prop} (hf : ∀ a, Ens (f a) s) : Ens (m >>= f) s :=
  Ens.bind (Ens.any m) fun a _ => hf a

end Verif
