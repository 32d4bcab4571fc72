/-!
# Semantics of the C subset used by the library

A computation either diverges (`none`), ends in undefined behaviour (`error u`), or returns a
value together with its leakage trace.  This file is the semantic base of the whole model: it does
not correspond to a part of /repo but to the C11 standard (array bounds 6.5.6/8, signed overflow
6.5/5, shifts 6.5.7/3-4) as the code of /repo uses it.
-/

namespace Frodo

/-- Kinds of undefined behaviour that the model distinguishes.
(C11 6.5.6p8, 6.5p5, 6.5.7p3; `assert` as used in /repo/src/aes/aes.c:35, 66; alignment as required by
`_mm256_load_si256` in /repo/src/frodo_macrify.c:255-261; overlapping ranges of `memcpy`, C11 7.24.2.1p2.)  A failed `assert` and `aborted`, the call of
`abort` in `handleErrors` (/repo/src/aes/aes.c:79-83), are not undefined but end the program without
a return to the caller. -/
inductive UB where
  | oobRead | oobWrite | overflow | badShift | misaligned | overlap | assertFailed | aborted
  deriving DecidableEq, Repr

/-- Observable leakage: the index of every array access, every pointer offset formed, every branch
outcome, and extent of block operations (`memcpy`/`memset`).  Models the "constant time" discipline announced in
/repo/README.md ("protected against timing and cache attacks"). -/
inductive Event where
  | read (i : Nat) | write (i : Nat) | branch (b : Bool) | block (off len : Nat)
  | addr (off : Nat)
  deriving DecidableEq, Repr

/-- C computations (semantic base, not a part of /repo): divergence, undefined behaviour, or a
normal return with the trace. -/
inductive C (α : Type) : Type where
  | div : C α
  | ub (u : UB) : C α
  | ok (a : α) (t : List Event) : C α

namespace C

/-- Sequencing (semantic base, not a part of /repo): traces are concatenated. -/
def bind' (m : C α) (f : α → C β) : C β :=
  match m with
  | div => div
  | ub u => ub u
  | ok a t =>
    match f a with
    | div => div
    | ub u => ub u
    | ok b t' => ok b (t ++ t')

instance : Monad C where
  pure a := ok a []
  bind := bind'

theorem pure_def (a : α) : (pure a : C α) = ok a [] := rfl

theorem bind_def (m : C α) (f : α → C β) : (m >>= f) = bind' m f := rfl

instance : LawfulMonad C := LawfulMonad.mk'
  (id_map := by
    intro α x
    show bind' x (fun a => ok (id a) []) = x
    cases x <;> simp [bind'])
  (pure_bind := by
    intro α β x f
    simp only [bind_def, pure_def, bind']
    cases f x <;> simp)
  (bind_assoc := by
    intro α β γ x f g
    simp only [bind_def]
    cases x with
    | div => rfl
    | ub u => rfl
    | ok a t =>
      simp only [bind']
      cases f a with
      | div => rfl
      | ub u => rfl
      | ok b t' =>
        simp only []
        cases g b <;> simp)
  (bind_pure_comp := by intros; rfl)

instance : Lean.Order.CCPO (C α) := inferInstanceAs (Lean.Order.CCPO (Lean.Order.FlatOrder C.div))

instance : Lean.Order.MonoBind C where
  bind_mono_left := by
    intro α β a₁ a₂ f h
    cases h with
    | bot => exact Lean.Order.FlatOrder.rel.bot
    | refl => exact Lean.Order.FlatOrder.rel.refl
  bind_mono_right := by
    intro α β a f₁ f₂ h
    cases a with
    | div => exact Lean.Order.FlatOrder.rel.refl
    | ub u => exact Lean.Order.FlatOrder.rel.refl
    | ok a t =>
      simp only [bind_def, bind']
      have h' := h a
      revert h'
      generalize f₁ a = x
      generalize f₂ a = y
      intro h'
      cases h' with
      | bot => exact Lean.Order.FlatOrder.rel.bot
      | refl => exact Lean.Order.FlatOrder.rel.refl

/-- Record one leakage event (semantic base, not a part of /repo). -/
def emit (e : Event) : C Unit := ok () [e]

/-- A condition that must hold, else undefined behaviour `u` (semantic base). -/
def require (p : Prop) [Decidable p] (u : UB) : C Unit := if p then pure () else ub u

end C

open C

/-! ## Arrays -/

/-- `l[i]` read through a pointer into a buffer with contents `l` (C11 6.5.2.1). -/
def rd (l : List α) (i : Nat) : C α :=
  match l[i]? with
  | some a => do emit (.read i); pure a
  | none => ub .oobRead

/-- `l[i] = v` (C11 6.5.2.1, 6.5.16). -/
def wr (l : List α) (i : Nat) (v : α) : C (List α) :=
  if i < l.length then do emit (.write i); pure (l.set i v) else ub .oobWrite

/-- `memset(l, v, n)` in elements of `l` (C11 7.24.6.1). -/
def memset (l : List α) (v : α) (n : Nat) : C (List α) :=
  if n ≤ l.length then do emit (.block 0 n); pure (List.replicate n v ++ l.drop n)
  else ub .oobWrite

/-- `memcpy(&dst[doff], &src[soff], n)` (C11 7.24.2.1). -/
def memcpy (dst : List α) (doff : Nat) (src : List α) (soff n : Nat) : C (List α) :=
  if soff + n ≤ src.length then
    if doff + n ≤ dst.length then do
      emit (.block soff n)
      emit (.block doff n)
      pure (dst.take doff ++ (src.drop soff).take n ++ dst.drop (doff + n))
    else ub .oobWrite
  else ub .oobRead

/-- `&l[off]` as a pointer for reading: the buffer from `off` on (C11 6.5.6p8). -/
def ptr (l : List α) (off : Nat) : C (List α) :=
  if off ≤ l.length then do emit (.addr off); pure (l.drop off) else ub .oobRead

/-- Call `f(&l[off])` where `f` writes through the pointer (C11 6.5.6p8). -/
def atPtr (l : List α) (off : Nat) (f : List α → C (List α)) : C (List α) :=
  if off ≤ l.length then do
    emit (.addr off)
    let s ← f (l.drop off)
    pure (l.take off ++ s)
  else ub .oobWrite

/-! ## `int` arithmetic, 32 bits -/

/-- Range of `int`; /repo assumes 32-bit `int` (C11 5.2.4.2.1). -/
def inInt (x : Int) : Prop := -2147483648 ≤ x ∧ x ≤ 2147483647

instance (x : Int) : Decidable (inInt x) := by unfold inInt; infer_instance

/-- Result of a signed operation, undefined if out of range (C11 6.5p5). -/
def int (x : Int) : C Int := if inInt x then pure x else ub .overflow

/-- `a << k` on `int` (C11 6.5.7p4). -/
def ishl (a : Int) (k : Int) : C Int :=
  if 0 ≤ k ∧ k < 32 then
    if 0 ≤ a then int (a * 2 ^ k.toNat) else ub .overflow
  else ub .badShift

/-- `a >> k` on `int` (C11 6.5.7p5; arithmetic shift for negative `a`, as every supported compiler
does). -/
def ishr (a : Int) (k : Int) : C Int :=
  if 0 ≤ k ∧ k < 32 then pure (a / 2 ^ k.toNat) else ub .badShift

/-! ## Control flow -/

/-- `if (b) t else e`; the outcome leaks (C11 6.8.4.1). -/
def ifC (b : Bool) (t e : C α) : C α := do
  emit (.branch b)
  if b then t else e

/-- The body of `forC`: `k` further iterations starting with index `i`, stepping by `step`
(C11 6.8.5.3). -/
def forLoop (step : Nat) (body : Nat → σ → C σ) : Nat → Nat → σ → C σ
  | 0, _, s => do emit (.branch false); pure s
  | k + 1, i, s => do
    emit (.branch true)
    let s ← body i s
    forLoop step body k (i + step) s

/-- `for (i = lo; i < hi; i += step) body` with a counter that the body does not change
(C11 6.8.5.3). -/
def forC (lo hi step : Nat) (s : σ) (body : Nat → σ → C σ) : C σ :=
  forLoop step body ((hi - lo + (step - 1)) / step) lo s

/-- `while (cond) body` (C11 6.8.5.1). -/
def whileC (cond : σ → Bool) (body : σ → C σ) (s : σ) : C σ := do
  emit (.branch (cond s))
  if cond s then
    let s ← body s
    whileC cond body s
  else pure s
partial_fixpoint

/-- `for (unsigned int i = 0; i < n; ++i) body` where `n` has a wider type: the counter is computed
modulo 2^32 (C11 6.2.5p9), so that the loop does not end if `n` is 2^32 or more. -/
def forU32 (n : Nat) (s : σ) (body : Nat → σ → C σ) : C σ := do
  let r ← whileC (fun x : Nat × σ => decide (x.1 < n))
    (fun x => do
      let s ← body x.1 x.2
      pure ((x.1 + 1) % 2 ^ 32, s)) (0, s)
  pure r.2

end Frodo
