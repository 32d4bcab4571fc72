import Verif.Model.MatrixA
import Verif.Proof.CtOssl
import Verif.Proof.CtKeccak
import Verif.Proof.CtKeccak4x

/-! # Traces of the products with `A`

The matrix `A` is public.  The traces depend on its seed only with the portable AES and with
OpenSSL, of whose leakage nothing is known. -/

namespace Frodo

open Spec (MatGen)

/-- Two executions of the part that generates `A` have the same data (proof device). -/
def Build.same (B : Build) {α : Type} (x y : α) : Prop := B.gen = .aes → B.aes ≠ .ni → x = y

/-- The seeds may differ unless the build uses the portable AES or OpenSSL. -/
def Build.sameSeed (B : Build) (x y : List U8) : Prop := B.same (x.take 16) (y.take 16)

theorem Rel.asBytes {a : Arch} {l l' : List U16} {i : Nat} {f g : List U8 → C (List U8)}
    {R : List U8 → List U8 → Prop} (h : Rel (f (toBytes a (l.drop i))) (g (toBytes a (l'.drop i))) R) :
    Rel (Frodo.asBytes a l i f) (Frodo.asBytes a l' i g)
      (fun x y => ∃ b b', R b b' ∧ x = l.take i ++ ofBytes a b ∧ y = l'.take i ++ ofBytes a b') := by
  unfold Frodo.asBytes
  split
  · split
    · refine Rel.bind (Rel.emit _) fun _ _ _ => ?_
      refine Rel.bind h fun b b' hb => ?_
      exact Rel.pure ⟨b, b', hb, rfl, rfl⟩
    · exact Rel.ub_right
  · exact Rel.ub_left

theorem Rel.asBytes_same {a : Arch} {p : Prop} {l l' : List U16} {i : Nat}
    {f g : List U8 → C (List U8)} (hl : p → l = l')
    (h : Rel (f (toBytes a (l.drop i))) (g (toBytes a (l'.drop i))) (fun x y => p → x = y)) :
    Rel (Frodo.asBytes a l i f) (Frodo.asBytes a l' i g) (fun x y => p → x = y) := by
  refine (Rel.asBytes h).mono ?_
  rintro x y ⟨b, b', hb, rfl, rfl⟩ hp
  rw [hb hp, hl hp]

theorem store16_rel {a : Arch} {l l' : List U8} {x x' : U16} :
    SameTrace (store16 a l x) (store16 a l' x') := by
  unfold store16
  ct_steps

theorem shakeRow_rel {B : Build} {E E' : Env} {P : Params} {i r : Nat} {s s' : List U16 × List U8} :
    SameTrace (shakeRow B E P i r s) (shakeRow B E' P i r s') := by
  obtain ⟨A, sep⟩ := s
  obtain ⟨A', sep'⟩ := s'
  unfold shakeRow
  refine Rel.bind store16_rel fun _ _ _ => ?_
  refine Rel.bind (Rel.asBytes shake128_rel) fun _ _ _ => Rel.pure trivial

theorem seeds4_rel {E E' : Env} {P : Params} {s s' : List U8} :
    SameTrace (seeds4 E P s) (seeds4 E' P s') := by
  unfold seeds4
  ct_steps

theorem shakeRows4_rel {B : Build} {E E' : Env} {P : Params} {i r : Nat}
    {s s' : List U16 × Four (List U8)} :
    SameTrace (shakeRows4 B E P i r s) (shakeRows4 B E' P i r s') := by
  obtain ⟨A, sep⟩ := s
  obtain ⟨A', sep'⟩ := s'
  unfold shakeRows4
  refine Rel.bind store16_rel fun _ _ _ => ?_
  refine Rel.bind store16_rel fun _ _ _ => ?_
  refine Rel.bind store16_rel fun _ _ _ => ?_
  refine Rel.bind store16_rel fun _ _ _ => ?_
  refine Rel.bind Rel.require fun _ _ _ => ?_
  refine Rel.bind shake128_4x_rel fun _ _ _ => Rel.pure trivial

/-! ## Reference -/

theorem genA_memory_rel {B : Build} {E E' : Env} {P : Params} {s s' : List U8}
    (hs : B.sameSeed s s') : SameTrace (genA_memory B E P s) (genA_memory B E' P s') := by
  unfold genA_memory
  cases hg : B.gen
  · simp only
    refine Rel.bind Rel.refl ?_
    rintro A _ rfl
    refine Rel.bind (setup128_rel fun h => hs hg h) fun k k' hk => ?_
    refine Rel.bind (Rel.asBytes (encrypt128_inplace_rel hk fun _ => rfl)) fun _ _ _ => ?_
    exact Rel.pure trivial
  · simp only
    ct_step
    ct_step
    refine Rel.bind (R := fun _ _ => True) (Rel.for rfl rfl rfl trivial ?_) fun _ _ _ =>
      Rel.pure trivial
    intro i s t _
    exact shakeRow_rel

theorem genA_reference_rel {B : Build} {E E' : Env} {P : Params} {s s' : List U8}
    (hs : B.sameSeed s s') : SameTrace (genA_reference B E P s) (genA_reference B E' P s') := by
  unfold genA_reference
  refine Rel.bind (genA_memory_rel hs) ?_
  rintro ⟨A, k⟩ ⟨A', k'⟩ _
  simp only
  ct_for
  · ct_steps
  · exact Rel.pure trivial

theorem freeSched_rel {B : Build} {k k' : Sched} :
    SameTrace (freeSched B k) (freeSched B k') := by
  unfold freeSched
  cases B.gen
  · exact free128_rel
  · exact Rel.pure trivial

theorem as_plus_e_reference_rel {B : Build} {E E' : Env} {P : Params} {out out' s s' e e' : List U16}
    {seed seed' : List U8} (hs : B.sameSeed seed seed') :
    SameTrace (as_plus_e_reference B E P out s e seed)
      (as_plus_e_reference B E' P out' s' e' seed') := by
  unfold as_plus_e_reference as_plus_e_reference_full
  refine Rel.bind (R := fun _ _ => True) ?_ fun _ _ _ => Rel.pure trivial
  refine Rel.bind (genA_reference_rel hs) ?_
  rintro ⟨A, k⟩ ⟨A', k'⟩ _
  simp only
  ct_step
  ct_for
  · ct_for
    ct_for
    · ct_steps
    · ct_steps
  · exact Rel.bind freeSched_rel fun _ _ _ => Rel.pure trivial

theorem sa_plus_e_reference_rel {B : Build} {E E' : Env} {P : Params} {out out' s s' e e' : List U16}
    {seed seed' : List U8} (hs : B.sameSeed seed seed') :
    SameTrace (sa_plus_e_reference B E P out s e seed)
      (sa_plus_e_reference B E' P out' s' e' seed') := by
  unfold sa_plus_e_reference sa_plus_e_reference_full
  refine Rel.bind (R := fun _ _ => True) ?_ fun _ _ _ => Rel.pure trivial
  refine Rel.bind (genA_reference_rel hs) ?_
  rintro ⟨A, k⟩ ⟨A', k'⟩ _
  simp only
  ct_step
  ct_for
  · ct_for
    ct_for
    · ct_steps
    · ct_steps
  · exact Rel.bind freeSched_rel fun _ _ _ => Rel.pure trivial

/-! ## Optimised -/

theorem as_accumulate_rel {B : Build} {P : Params} {s s' : List U16} {i : Nat}
    {A A' o o' : List U16} (hA : B.same A A') :
    Rel (as_accumulate B P s i A o) (as_accumulate B P s' i A' o') (fun x y => B.same x.1 y.1) := by
  unfold as_accumulate
  refine Rel.bind (R := B.same) ?_ fun A A' hA => ?_
  · by_cases h : B.gen = .aes ∧ B.aes ≠ .ni
    · rw [hA h.1 h.2]
      exact Rel.refl.mono fun _ _ h _ _ => h
    · refine Rel.mono (R := fun _ _ => True) ?_ fun _ _ _ h1 h2 => absurd ⟨h1, h2⟩ h
      ct_for
      ct_steps
  · refine Rel.bind (R := fun _ _ => True) ?_ fun _ _ _ => Rel.pure hA
    ct_for
    ct_for
    · ct_steps
    · ct_steps

theorem as_loop_rel {γ : Type} {B : Build} {P : Params} {s s' : List U16} {A A' o o' : List U16}
    {gen gen' : Nat → List U16 × γ → C (List U16 × γ)} {g g' : γ} (G : γ → γ → Prop)
    (hgen : ∀ i A A' g g', B.same A A' → G g g' →
      Rel (gen i (A, g)) (gen' i (A', g')) (fun x y => B.same x.1 y.1 ∧ G x.2 y.2))
    (hA : B.same A A') (hg : G g g') :
    SameTrace (as_loop B P s gen A g o) (as_loop B P s' gen' A' g' o') := by
  unfold as_loop
  refine Rel.bind (R := fun _ _ => True) (Rel.mono (Rel.for
    (I := fun x y : List U16 × γ × List U16 => B.same x.1 y.1 ∧ G x.2.1 y.2.1)
      rfl rfl rfl ⟨hA, hg⟩ ?_) fun _ _ _ => trivial) fun _ _ _ => Rel.pure trivial
  rintro i ⟨A, g, o⟩ ⟨A', g', o'⟩ ⟨hA, hg⟩
  simp only at hA hg ⊢
  refine Rel.bind (hgen i A A' g g' hA hg) ?_
  rintro ⟨A, g⟩ ⟨A', g'⟩ ⟨hA, hg⟩
  refine Rel.bind (as_accumulate_rel hA) ?_
  rintro ⟨A, o⟩ ⟨A', o'⟩ hA
  exact Rel.pure ⟨hA, hg⟩

theorem ecb_gen_rel {B : Build} {E E' : Env} {A A' : List U16} {X : List U16} {n : Nat}
    {k k' : Sched} (hA : B.aes.same A A') (hk : B.aes.same k k') :
    Rel (asBytes B.arch A 0 fun b => encrypt128 B.aes E (toBytes B.arch X) n k b)
      (asBytes B.arch A' 0 fun b => encrypt128 B.aes E' (toBytes B.arch X) n k' b)
      B.aes.same :=
  Rel.asBytes_same (p := B.aes ≠ .ni) hA
    (encrypt128_rel (fun _ => rfl) hk fun h => by rw [hA h])

theorem as_gen_aes_rel {B : Build} {E E' : Env} {P : Params} {k k' : Sched} {i : Nat}
    {A A' X X' : List U16} (hg : B.gen = .aes) (hk : B.aes.same k k') (hA : B.same A A')
    (hX : X = X') :
    Rel (as_gen_aes B E P k i (A, X)) (as_gen_aes B E' P k' i (A', X'))
      (fun x y => B.same x.1 y.1 ∧ x.2 = y.2) := by
  subst hX
  unfold as_gen_aes
  simp only
  refine Rel.bind Rel.refl ?_
  rintro X _ rfl
  refine Rel.bind (ecb_gen_rel (fun h => hA hg h) hk) fun A A' hA => ?_
  exact Rel.pure ⟨fun _ => hA, rfl⟩

theorem sa_gen_aes_rel {B : Build} {E E' : Env} {P : Params} {k k' : Sched} {i : Nat}
    {A A' X X' : List U16} (hg : B.gen = .aes) (hk : B.aes.same k k') (hA : B.same A A')
    (hX : X = X') :
    Rel (sa_gen_aes B E P k i (A, X)) (sa_gen_aes B E' P k' i (A', X'))
      (fun x y => B.same x.1 y.1 ∧ x.2 = y.2) := by
  subst hX
  unfold sa_gen_aes
  simp only
  refine Rel.bind Rel.refl ?_
  rintro X _ rfl
  refine Rel.bind (ecb_gen_rel (fun h => hA hg h) hk) fun A A' hA => ?_
  exact Rel.pure ⟨fun _ => hA, rfl⟩

theorem SameTrace.shake {α : Type} {B : Build} (hg : B.gen = .shake) {m m' : C (List U16 × α)}
    (h : SameTrace m m') : Rel m m' (fun x y => B.same x.1 y.1 ∧ True) :=
  Rel.mono h fun _ _ _ => ⟨fun h => (by rw [hg] at h; cases h), trivial⟩

theorem as_gen_shake_rel {B : Build} {E E' : Env} {P : Params} {i : Nat}
    {s s' : List U16 × List U8} :
    SameTrace (as_gen_shake B E P i s) (as_gen_shake B E' P i s') := by
  unfold as_gen_shake
  refine Rel.bind shakeRow_rel fun _ _ _ => ?_
  refine Rel.bind shakeRow_rel fun _ _ _ => ?_
  refine Rel.bind shakeRow_rel fun _ _ _ => ?_
  exact shakeRow_rel

theorem sa_gen_shake_rel {B : Build} {E E' : Env} {P : Params} {i : Nat}
    {s s' : List U16 × List U8} :
    SameTrace (sa_gen_shake B E P i s) (sa_gen_shake B E' P i s') := by
  unfold sa_gen_shake
  refine Rel.bind shakeRow_rel fun _ _ _ => ?_
  refine Rel.bind shakeRow_rel fun _ _ _ => ?_
  refine Rel.bind shakeRow_rel fun _ _ _ => ?_
  refine Rel.bind shakeRow_rel fun _ _ _ => ?_
  refine Rel.bind shakeRow_rel fun _ _ _ => ?_
  refine Rel.bind shakeRow_rel fun _ _ _ => ?_
  refine Rel.bind shakeRow_rel fun _ _ _ => ?_
  exact shakeRow_rel

theorem sa_gen_shake4_rel {B : Build} {E E' : Env} {P : Params} {i : Nat}
    {s s' : List U16 × Four (List U8)} :
    SameTrace (sa_gen_shake4 B E P i s) (sa_gen_shake4 B E' P i s') := by
  unfold sa_gen_shake4
  refine Rel.bind shakeRows4_rel fun _ _ _ => ?_
  exact shakeRows4_rel

theorem as_plus_e_optimized_rel {B : Build} {E E' : Env} {P : Params} {a a' b b' : Nat} {out out' s s' e e' : List U16}
    {seed seed' : List U8} (hs : B.sameSeed seed seed') :
    SameTrace (as_plus_e_optimized B E P a b out s e seed)
      (as_plus_e_optimized B E' P a' b' out' s' e' seed') := by
  unfold as_plus_e_optimized as_plus_e_optimized_full
  refine Rel.bind (R := fun _ _ => True) ?_ fun _ _ _ => Rel.pure trivial
  ct_for
  · ct_steps
  cases hg : B.gen
  · simp only
    refine Rel.bind (setup128_rel fun h => hs hg h) fun k k' hk => ?_
    refine Rel.bind Rel.refl ?_
    rintro X _ rfl
    refine Rel.bind (as_loop_rel (· = ·) (fun i A A' X X' hA hX => as_gen_aes_rel hg hk hA hX)
      (fun _ _ => rfl) rfl) fun _ _ _ => ?_
    exact Rel.bind free128_rel fun _ _ _ => Rel.pure trivial
  · simp only
    cases B.impl
    · simp only
      ct_step
      ct_step
      refine Rel.bind (as_loop_rel (fun _ _ => True) (fun i A A' g g' _ _ => as_gen_shake_rel.shake hg)
        (fun _ _ => rfl) trivial) fun _ _ _ => Rel.pure trivial
    · simp only
      ct_step
      ct_step
      refine Rel.bind (as_loop_rel (fun _ _ => True) (fun i A A' g g' _ _ => as_gen_shake_rel.shake hg)
        (fun _ _ => rfl) trivial) fun _ _ _ => Rel.pure trivial
    · simp only
      refine Rel.bind seeds4_rel fun _ _ _ => ?_
      refine Rel.bind (as_loop_rel (fun _ _ => True) (fun i A A' g g' _ _ => shakeRows4_rel.shake hg)
        (fun _ _ => rfl) trivial) fun _ _ _ => Rel.pure trivial

theorem mm256_load_rel {a a' : Nat} {l l' : List U16} {i : Nat} :
    SameTrace (mm256_load a l i) (mm256_load a' l' i) := by
  unfold mm256_load
  refine Rel.bind Rel.require fun _ _ _ => ?_
  refine Rel.bind Rel.require fun _ _ _ => ?_
  refine Rel.bind (Rel.emit _) fun _ _ _ => Rel.pure trivial

theorem mm256_store_rel {a a' : Nat} {l l' : List U16} {i : Nat} {v v' : V16} :
    SameTrace (mm256_store a l i v) (mm256_store a' l' i v') := by
  unfold mm256_store
  refine Rel.bind Rel.require fun _ _ _ => ?_
  refine Rel.bind Rel.require fun _ _ _ => ?_
  refine Rel.bind (Rel.emit _) fun _ _ _ => Rel.pure trivial

theorem sa_accumulate_rel {B : Build} {E E' : Env} {P : Params} {a a' : Nat} {s s' : List U16}
    {i : Nat} {A A' e e' : List U16} :
    SameTrace (sa_accumulate B E P a s i A e) (sa_accumulate B E' P a' s' i A' e') := by
  have hgeneric : SameTrace (sa_accumulate_generic E P s i A e)
      (sa_accumulate_generic E' P s' i A' e') := by
    unfold sa_accumulate_generic
    ct_for
    ct_for
    · ct_steps
    · ct_for
      ct_step
      ct_for
      · ct_steps
      · ct_steps
  unfold sa_accumulate
  cases B.impl
  · exact hgeneric
  · exact hgeneric
  · simp only
    unfold sa_accumulate_avx2
    ct_for
    ct_for
    · ct_steps
    · ct_for
      refine Rel.bind mm256_load_rel fun _ _ _ => ?_
      ct_for
      · refine Rel.bind mm256_load_rel fun _ _ _ => ?_
        ct_steps
      · exact mm256_store_rel

theorem sa_loop_rel {γ : Type} {B : Build} {E E' : Env} {P : Params} {a a' : Nat} {s s' : List U16}
    {A A' e e' : List U16}
    {gen gen' : Nat → List U16 × γ → C (List U16 × γ)} {g g' : γ} (G : γ → γ → Prop)
    (hgen : ∀ i A A' g g', B.same A A' → G g g' →
      Rel (gen i (A, g)) (gen' i (A', g')) (fun x y => B.same x.1 y.1 ∧ G x.2 y.2))
    (hA : B.same A A') (hg : G g g') :
    SameTrace (sa_loop B E P a s gen A g e) (sa_loop B E' P a' s' gen' A' g' e') := by
  unfold sa_loop
  refine Rel.bind (R := fun _ _ => True) (Rel.mono (Rel.for
    (I := fun x y : List U16 × γ × List U16 => B.same x.1 y.1 ∧ G x.2.1 y.2.1)
      rfl rfl rfl ⟨hA, hg⟩ ?_) fun _ _ _ => trivial) fun _ _ _ => Rel.pure trivial
  rintro i ⟨A, g, o⟩ ⟨A', g', o'⟩ ⟨hA, hg⟩
  simp only at hA hg ⊢
  refine Rel.bind (hgen i A A' g g' hA hg) ?_
  rintro ⟨A, g⟩ ⟨A', g'⟩ ⟨hA, hg⟩
  refine Rel.bind sa_accumulate_rel fun _ _ _ => ?_
  exact Rel.pure ⟨hA, hg⟩

theorem sa_plus_e_optimized_rel {B : Build} {E E' : Env} {P : Params} {a a' : Nat}
    {out out' s s' e e' : List U16} {seed seed' : List U8} (hs : B.sameSeed seed seed') :
    SameTrace (sa_plus_e_optimized B E P a out s e seed)
      (sa_plus_e_optimized B E' P a' out' s' e' seed') := by
  unfold sa_plus_e_optimized sa_plus_e_optimized_full
  refine Rel.bind (R := fun _ _ => True) ?_ fun _ _ _ => Rel.pure trivial
  refine Rel.bind (R := fun _ _ => True) ?_ ?_
  · unfold sa_plus_e_core
    simp only
    cases hg : B.gen
    · simp only
      refine Rel.bind (setup128_rel fun h => hs hg h) fun k k' hk => ?_
      refine Rel.bind Rel.refl ?_
      rintro X _ rfl
      refine Rel.bind (sa_loop_rel (· = ·) (fun i A A' X X' hA hX => sa_gen_aes_rel hg hk hA hX)
        (fun _ _ => rfl) rfl) fun _ _ _ => Rel.pure trivial
    · simp only
      cases B.impl
      · simp only
        ct_step
        ct_step
        refine Rel.bind (sa_loop_rel (fun _ _ => True) (fun i A A' g g' _ _ =>
          sa_gen_shake_rel.shake hg) (fun _ _ => rfl) trivial) fun _ _ _ => Rel.pure trivial
      · simp only
        ct_step
        ct_step
        refine Rel.bind (sa_loop_rel (fun _ _ => True) (fun i A A' g g' _ _ =>
          sa_gen_shake_rel.shake hg) (fun _ _ => rfl) trivial) fun _ _ _ => Rel.pure trivial
      · simp only
        refine Rel.bind seeds4_rel fun _ _ _ => ?_
        refine Rel.bind (sa_loop_rel (fun _ _ => True) (fun i A A' g g' _ _ =>
          sa_gen_shake4_rel.shake hg) (fun _ _ => rfl) trivial) fun _ _ _ => Rel.pure trivial
  · rintro ⟨e, k⟩ ⟨e', k'⟩ _
    simp only
    ct_step
    exact Rel.bind freeSched_rel fun _ _ _ => Rel.pure trivial

theorem frodo_mul_add_as_plus_e_rel {B : Build} {E E' : Env} {P : Params} {a a' b b' : Nat}
    {out out' s s' e e' : List U16} {seed seed' : List U8} (hs : B.sameSeed seed seed') :
    SameTrace (frodo_mul_add_as_plus_e B E P a b out s e seed)
      (frodo_mul_add_as_plus_e B E' P a' b' out' s' e' seed') := by
  unfold frodo_mul_add_as_plus_e
  cases B.impl
  · exact as_plus_e_reference_rel hs
  · exact as_plus_e_optimized_rel hs
  · exact as_plus_e_optimized_rel hs

theorem frodo_mul_add_sa_plus_e_rel {B : Build} {E E' : Env} {P : Params} {a a' : Nat}
    {out out' s s' e e' : List U16} {seed seed' : List U8} (hs : B.sameSeed seed seed') :
    SameTrace (frodo_mul_add_sa_plus_e B E P a out s e seed)
      (frodo_mul_add_sa_plus_e B E' P a' out' s' e' seed') := by
  unfold frodo_mul_add_sa_plus_e
  cases B.impl
  · exact Rel.bind (sa_plus_e_reference_rel hs) fun _ _ _ => Rel.pure trivial
  · exact sa_plus_e_optimized_rel hs
  · exact sa_plus_e_optimized_rel hs

end Frodo
