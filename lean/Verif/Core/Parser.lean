import Verif.Core.Attr

/-!
# Parser model

`nom` parsers (`Fn(Input) -> IResult<Input, Output>`) are modelled as functions from the
remaining input (a list of tokens: octets for DIS, bits for C-DIS) to a result.

Simplifications: nom's `Err::Error`/`Err::Failure`/`Err::Incomplete` payloads are not modelled; the code
under study only uses the *complete* parsers, which only produce `Err::Error`, and only looks at the
error kind in the (crate private) header walkers.  A Rust panic (slice index out of range, integer
overflow in a build with overflow checks) is the separate outcome `panic`.
-/

namespace Verif

/-- Result of running a parser: models `IResult<I, O>` plus the possibility of a Rust panic. -/
inductive Res (τ : Type) (α : Type) where
  | ok (value : α) (rest : List τ)
  | err
  | panic
  deriving Repr, DecidableEq

namespace Res

/-- Sequencing of results (the `?` operator in the Rust parsers). -/
def andThen {τ α β : Type} (r : Res τ α) (f : α → List τ → Res τ β) : Res τ β :=
  match r with
  | ok a rest => f a rest
  | err => err
  | panic => panic

@[simp, rt] theorem andThen_ok {τ α β : Type} (a : α) (r : List τ) (f : α → List τ → Res τ β) :
    (Res.ok a r).andThen f = f a r := id rfl
@[simp, rt] theorem andThen_err {τ α β : Type} (f : α → List τ → Res τ β) :
    (Res.err).andThen f = Res.err := id rfl
@[simp, rt] theorem andThen_panic {τ α β : Type} (f : α → List τ → Res τ β) :
    (Res.panic).andThen f = Res.panic := id rfl

end Res

/-- A nom parser over tokens `τ` producing `α`. -/
structure P (τ : Type) (α : Type) where
  run : List τ → Res τ α

namespace P

variable {τ α β : Type}

instance : Monad (P τ) where
  pure a := ⟨fun bs => .ok a bs⟩
  bind m f := ⟨fun bs => (m.run bs).andThen fun a r => (f a).run r⟩

@[simp, rt] theorem run_pure (a : α) (bs : List τ) : (pure a : P τ α).run bs = .ok a bs := id rfl

@[simp, rt] theorem run_bind (m : P τ α) (f : α → P τ β) (bs : List τ) :
    (m >>= f).run bs = (m.run bs).andThen fun a r => (f a).run r := id rfl

/-- A parser that always reports `nom::Err::Error`. -/
def fail : P τ α := ⟨fun _ => .err⟩
@[simp, rt] theorem run_fail (bs : List τ) : (fail : P τ α).run bs = .err := id rfl

/-- A Rust panic. -/
def panic : P τ α := ⟨fun _ => .panic⟩
@[simp, rt] theorem run_panic (bs : List τ) : (panic : P τ α).run bs = .panic := id rfl

/-- `nom::bytes::complete::take(n)`: the next `n` tokens, or an error when there are fewer. -/
def take (n : Nat) : P τ (List τ) :=
  ⟨fun bs => if n ≤ bs.length then .ok (bs.take n) (bs.drop n) else .err⟩

/-- `nom::multi::count(p, n)`: exactly `n` applications of `p`, failing as soon as one fails. -/
def count (p : P τ α) : Nat → P τ (List α)
  | 0 => pure []
  | n + 1 => do
    let a ← p
    let as ← count p n
    pure (a :: as)

/-- The repetition loop of nom 7's `many1` after the first success: keep applying `p` until it
reports an error (the input before the failing attempt is returned); a success that does not
consume input is an error.  `fuel` bounds the iterations; `many1` supplies enough. -/
def manyLoop (p : P τ α) : Nat → List τ → Res τ (List α)
  | 0, bs => .ok [] bs
  | fuel + 1, bs =>
    match p.run bs with
    | .err => .ok [] bs
    | .panic => .panic
    | .ok a r =>
      if r.length = bs.length then .err
      else (manyLoop p fuel r).andThen fun as r' => .ok (a :: as) r'

/-- `nom::multi::many1(p)`. -/
def many1 (p : P τ α) : P τ (List α) :=
  ⟨fun bs =>
    match p.run bs with
    | .err => .err
    | .panic => .panic
    | .ok a r => (manyLoop p r.length.succ r).andThen fun as r' => .ok (a :: as) r'⟩

/-! ## Read-after-write lemmas -/

theorem run_take (l r : List τ) (n : Nat) (h : l.length = n) :
    (take n).run (l ++ r) = .ok l r := by
  subst h; simp [take]

theorem run_take_of_le (n : Nat) (bs : List τ) (h : n ≤ bs.length) :
    (take n).run bs = .ok (bs.take n) (bs.drop n) := by simp [take, h]

@[rt] theorem run_take_zero (bs : List τ) : (take 0 : P τ (List τ)).run bs = .ok [] bs := by
  simp [take]

@[rt] theorem count_zero (p : P τ α) : count p 0 = pure [] := rfl

/-- Reading back a list of records: if every element of `l` is read back from what `s` wrote for
it, then `count` reads back the list. -/
theorem run_count {p : P τ α} {s : α → List τ} (l : List α) (r : List τ)
    (h : ∀ x ∈ l, ∀ r, p.run (s x ++ r) = .ok x r) :
    (count p l.length).run (l.flatMap s ++ r) = .ok l r := by
  induction l with
  | nil => simp [count]
  | cons x xs ih =>
    have hx := h x (by simp)
    have ih' := ih (fun y hy => h y (by simp [hy]))
    simp only [List.length_cons, count, List.flatMap_cons, List.append_assoc, run_bind, hx,
      Res.andThen_ok, ih', run_pure]

theorem run_count' {p : P τ α} {s : α → List τ} (l : List α) (r : List τ) (n : Nat)
    (hn : n = l.length)
    (h : ∀ x ∈ l, ∀ r, p.run (s x ++ r) = .ok x r) :
    (count p n).run (l.flatMap s ++ r) = .ok l r := by
  subst hn; exact run_count l r h

/-! ## Stability: the outcome depends on the consumed tokens only -/

/-- `p` only looks at what it consumes: on success the input splits into a consumed part `c` and
the returned rest, and the same value is produced from `c` followed by anything else; a panic does not depend on
what follows either. -/
class Stable (p : P τ α) : Prop where
  spec : ∀ bs a r, p.run bs = .ok a r → ∃ c, bs = c ++ r ∧ ∀ r', p.run (c ++ r') = .ok a r'
  crash : ∀ bs e, p.run bs = .panic → p.run (bs ++ e) = .panic

instance (a : α) : Stable (pure a : P τ α) where
  spec bs b r h := by
    simp only [run_pure, Res.ok.injEq] at h
    exact ⟨[], by simp [h.2], by intro r'; simp [h.1]⟩
  crash bs e h := by simp at h

instance : Stable (fail : P τ α) where
  spec bs b r h := by simp at h
  crash bs e h := by simp at h

instance : Stable (panic : P τ α) where
  spec bs b r h := by simp at h
  crash bs e h := by simp

theorem Stable.bind {m : P τ α} {f : α → P τ β} (hm : Stable m) (hf : ∀ a, Stable (f a)) :
    Stable (m >>= f) where
  spec bs b r h := by
    rw [run_bind] at h
    cases hmr : m.run bs with
    | err => rw [hmr] at h; simp at h
    | panic => rw [hmr] at h; simp at h
    | ok a r1 =>
      rw [hmr] at h
      simp only [Res.andThen_ok] at h
      obtain ⟨c1, e1, s1⟩ := hm.spec _ _ _ hmr
      obtain ⟨c2, e2, s2⟩ := (hf a).spec _ _ _ h
      refine ⟨c1 ++ c2, by rw [e1, e2, List.append_assoc], fun r' => ?_⟩
      rw [List.append_assoc, run_bind, s1]
      simp only [Res.andThen_ok, s2]
  crash bs e h := by
    rw [run_bind] at h ⊢
    cases hmr : m.run bs with
    | err => rw [hmr] at h; simp at h
    | panic => rw [hm.crash _ e hmr]; rfl
    | ok a r1 =>
      rw [hmr] at h
      simp only [Res.andThen_ok] at h
      obtain ⟨c1, e1, s1⟩ := hm.spec _ _ _ hmr
      rw [e1, List.append_assoc, s1]
      exact (hf a).crash _ _ h

instance (n : Nat) : Stable (take n : P τ (List τ)) where
  spec bs a r h := by
    unfold take at h
    by_cases hn : n ≤ bs.length
    · simp only [hn, if_true, Res.ok.injEq] at h
      refine ⟨bs.take n, ?_, fun r' => ?_⟩
      · rw [← h.2, List.take_append_drop]
      · rw [← h.1]; apply run_take; simp [hn]
    · simp [hn] at h
  crash bs e h := by
    unfold take at h; dsimp only at h; split at h <;> cases h

theorem Stable.count {p : P τ α} (hp : Stable p) (n : Nat) : Stable (P.count p n) := by
  induction n with
  | zero => unfold P.count; infer_instance
  | succ n ih =>
    unfold P.count
    exact Stable.bind hp fun a => Stable.bind ih fun as => inferInstance

instance {p : P τ α} [hp : Stable p] (n : Nat) : Stable (P.count p n) := hp.count n

theorem Stable.ite {p q : P τ α} {c : Prop} [Decidable c] (hp : Stable p) (hq : Stable q) :
    Stable (if c then p else q) := by split <;> assumption

/-- An input on which `p` succeeds and consumes everything: every strict prefix of it is an error. -/
theorem Stable.prefix_err {p : P τ α} (hp : Stable p) {bs : List τ} {a : α} (h : p.run bs = .ok a []) {c d : List τ}
    (e : bs = c ++ d) (hd : d ≠ []) : p.run c = .err := by
  subst e
  cases hc : p.run c with
  | err => rfl
  | panic => rw [hp.crash _ d hc] at h; cases h
  | ok b r =>
    obtain ⟨c', e', s'⟩ := hp.spec _ _ _ hc
    rw [e', List.append_assoc, s'] at h
    simp only [Res.ok.injEq, List.append_eq_nil_iff] at h
    exact absurd h.2.2 hd

/-! ## Safety: no Rust panic -/

/-- `p` does not panic on any input. -/
class Safe (p : P τ α) : Prop where
  spec : ∀ bs, p.run bs ≠ .panic

instance (a : α) : Safe (pure a : P τ α) where
  spec bs := by simp

instance : Safe (fail : P τ α) where
  spec bs := by simp

theorem Safe.bind {m : P τ α} {f : α → P τ β} (hm : Safe m) (hf : ∀ a, Safe (f a)) :
    Safe (m >>= f) where
  spec bs := by
    rw [run_bind]
    cases hmr : m.run bs with
    | err => simp
    | panic => exact absurd hmr (hm.spec bs)
    | ok a r1 => simpa using (hf a).spec r1

instance (n : Nat) : Safe (take n : P τ (List τ)) where
  spec bs := by unfold take; dsimp only; split <;> simp

theorem Safe.count {p : P τ α} (hp : Safe p) (n : Nat) : Safe (P.count p n) := by
  induction n with
  | zero => unfold P.count; infer_instance
  | succ n ih =>
    unfold P.count
    exact Safe.bind hp fun a => Safe.bind ih fun as => inferInstance

instance {p : P τ α} [hp : Safe p] (n : Nat) : Safe (P.count p n) := hp.count n

theorem Safe.ite {p q : P τ α} {c : Prop} [Decidable c] (hp : Safe p) (hq : Safe q) :
    Safe (if c then p else q) := by split <;> assumption

end P

/-- Discharge `Stable`/`Safe` goals of parsers built with `do`, `if` and `match`. -/
macro "parser_ok" : tactic => `(tactic|
  repeat' (first
    | infer_instance
    | apply P.Stable.bind
    | apply P.Safe.bind
    | apply P.Stable.ite
    | apply P.Safe.ite
    | intro _
    | split))

end Verif
