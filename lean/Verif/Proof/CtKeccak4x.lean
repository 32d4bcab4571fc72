import Verif.Proof.CtKeccak
import Verif.Proof.Keccak4x

/-! # Leakage of the four-way Keccak code: depends on lengths only -/

namespace Frodo

theorem LOAD256_rel {s s' : List U64} {i : Nat} : SameTrace (LOAD256 s i) (LOAD256 s' i) := by
  unfold LOAD256
  refine Rel.bind Rel.require fun _ _ _ => ?_
  refine Rel.bind (Rel.emit _) fun _ _ _ => ?_
  exact Rel.pure trivial

theorem STORE256_rel {s s' : List U64} {i : Nat} {v v' : V256} :
    SameTrace (STORE256 s i v) (STORE256 s' i v') := by
  unfold STORE256
  refine Rel.bind Rel.require fun _ _ _ => ?_
  refine Rel.bind (Rel.emit _) fun _ _ _ => ?_
  exact Rel.pure trivial

theorem copyFromState4x_rel {s s' : List U64} :
    SameTrace (copyFromState4x s) (copyFromState4x s') := by
  unfold copyFromState4x SameTrace
  repeat (refine Rel.bind LOAD256_rel fun _ _ _ => ?_)
  exact Rel.pure trivial

theorem copyToState4x_rel {s s' : List U64} {a a' : VLanes} :
    SameTrace (copyToState4x s a) (copyToState4x s' a') := by
  unfold copyToState4x SameTrace
  repeat (refine Rel.bind STORE256_rel fun _ _ _ => ?_)
  exact STORE256_rel

theorem Rel.foldlM {σ τ : Type} {f : σ → Nat → C σ} {g : τ → Nat → C τ}
    (h : ∀ i s t, SameTrace (f s i) (g t i)) (l : List Nat) (s : σ) (t : τ) :
    SameTrace (l.foldlM f s) (l.foldlM g t) := by
  induction l generalizing s t with
  | nil => exact Rel.pure trivial
  | cons a l ih => exact Rel.bind (h a s t) fun _ _ _ => ih _ _

theorem rounds24_rel {v v' : VLanes} : SameTrace (rounds24 v) (rounds24 v') := by
  unfold rounds24 CONST256_64
  refine Rel.bind (Rel.foldlM ?_ _ _ _) ?_
  · rintro i ⟨v, c⟩ ⟨v', c'⟩
    unfold SameTrace
    simp only [bind_assoc]
    ct_steps
  · rintro ⟨v, c⟩ ⟨v', c'⟩ _
    simp only [bind_assoc]
    ct_steps

theorem PermuteAll_rel {E E' : Env} {s s' : List U64} :
    SameTrace (KeccakP1600times4_PermuteAll_24rounds E s)
      (KeccakP1600times4_PermuteAll_24rounds E' s') := by
  unfold KeccakP1600times4_PermuteAll_24rounds
  refine Rel.bind Rel.require fun _ _ _ => ?_
  refine Rel.bind copyFromState4x_rel fun _ _ _ => ?_
  refine Rel.bind rounds24_rel fun _ _ _ => ?_
  exact copyToState4x_rel

theorem xorBlock4x_rel {s s' : List U64} {r : Nat} {m m' : Four (List U8)} :
    SameTrace (xorBlock4x s r m) (xorBlock4x s' r m') := by
  unfold xorBlock4x
  refine Rel.for rfl rfl rfl trivial ?_
  intro i s t _
  repeat (first | ct_step | refine Rel.bind load64_rel fun _ _ _ => ?_)

theorem keccak_absorb4x_rel {E E' : Env} {s s' : List U64} {r : Nat} {m m' : Four (List U8)} {n : Nat}
    {p p' : U8} : SameTrace (keccak_absorb4x E s r m n p) (keccak_absorb4x E' s' r m' n p') := by
  unfold keccak_absorb4x
  refine Rel.bind (R := fun st st' : Absorb4St => st.mlen = st'.mlen) ?_ ?_
  · refine Rel.while (I := fun st st' : Absorb4St => st.mlen = st'.mlen) ?_ ?_ _ _ rfl
    · intro st st' h; simp only [h]
    · intro st st' h _
      refine Rel.bind xorBlock4x_rel fun _ _ _ => ?_
      refine Rel.bind PermuteAll_rel fun _ _ _ => ?_
      ct_steps
      exact Rel.pure (by simp [h])
  · rintro ⟨s, m, n⟩ ⟨s', m', n'⟩ h
    simp only at h
    subst h
    refine Rel.bind (R := fun _ _ => True) (Rel.for rfl rfl rfl trivial ?_) fun _ _ _ => ?_
    · intro i s t _
      ct_steps
    refine Rel.bind (R := fun _ _ => True) (Rel.for rfl rfl rfl trivial ?_) fun _ _ _ => ?_
    · intro i s t _
      ct_steps
    ct_steps
    exact xorBlock4x_rel

theorem keccak_squeezeblocks4x_rel {E E' : Env} {h h' : Four (List U8)} {n : Nat} {s s' : List U64}
    {r : Nat} :
    SameTrace (keccak_squeezeblocks4x E h n s r) (keccak_squeezeblocks4x E' h' n s' r) := by
  unfold keccak_squeezeblocks4x
  refine Rel.bind (R := fun _ _ => True) ?_ fun _ _ _ => Rel.pure trivial
  refine Rel.mono (Rel.while
    (I := fun st st' : Squeeze4St => st.nblocks = st'.nblocks ∧ st.off = st'.off) ?_ ?_ _ _
      ⟨rfl, rfl⟩) fun _ _ _ => trivial
  · intro st st' h; simp only [h]
  · rintro ⟨h, o, n, s⟩ ⟨h', o', n', s'⟩ ⟨h1, h2⟩ _
    simp only at h1 h2
    subst h1 h2
    refine Rel.bind PermuteAll_rel fun _ _ _ => ?_
    refine Rel.bind (R := fun _ _ => True) (Rel.for rfl rfl rfl trivial ?_) fun _ _ _ => ?_
    · intro i s t _
      repeat (first | ct_step | refine Rel.bind (Rel.atPtr (R := fun _ _ => True) rfl store64_rel) fun _ _ _ => ?_)
    exact Rel.pure ⟨rfl, rfl⟩

theorem shake128_4x_rel {E E' : Env} {o o' : Four (List U8)} {n : Nat} {i i' : Four (List U8)} {l : Nat} :
    SameTrace (shake128_4x E o n i l) (shake128_4x E' o' n i' l) := by
  unfold shake128_4x shake128_absorb4x
  simp only [bind_assoc]
  refine Rel.bind (R := fun _ _ => True) (Rel.for rfl rfl rfl trivial ?_) fun _ _ _ => ?_
  · intro i s t _
    refine Rel.bind LOAD256_rel fun _ _ _ => ?_
    refine Rel.bind LOAD256_rel fun _ _ _ => ?_
    exact STORE256_rel
  refine Rel.bind keccak_absorb4x_rel fun _ _ _ => ?_
  refine Rel.bind keccak_squeezeblocks4x_rel ?_
  rintro ⟨o, s⟩ ⟨o', s'⟩ _
  refine Rel.ifC rfl (fun _ => ?_) (fun _ => Rel.pure trivial)
  refine Rel.bind keccak_squeezeblocks4x_rel ?_
  rintro ⟨o, s⟩ ⟨o', s'⟩ _
  refine Rel.for rfl rfl rfl trivial ?_
  intro i s t _
  ct_steps

end Frodo
