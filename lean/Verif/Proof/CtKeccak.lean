import Verif.Model.Keccak
import Verif.C.Ct

/-! # Leakage of the Keccak code: depends on lengths only -/

namespace Frodo

theorem copyFromState_rel {s s' : List U64} : SameTrace (copyFromState s) (copyFromState s') := by
  unfold copyFromState SameTrace
  ct_steps

theorem copyToState_rel {s s' : List U64} {a a' : Lanes} :
    SameTrace (copyToState s a) (copyToState s' a') := by
  unfold copyToState SameTrace
  ct_steps

theorem KeccakF_rel {s s' : List U64} :
    SameTrace (KeccakF1600_StatePermute s) (KeccakF1600_StatePermute s') := by
  unfold KeccakF1600_StatePermute
  refine Rel.bind copyFromState_rel fun a a' _ => ?_
  refine Rel.bind (R := fun _ _ => True) (Rel.for rfl rfl rfl trivial ?_) fun b b' _ => ?_
  · intro i s t _
    ct_steps
  · exact copyToState_rel

theorem load64_rel {x x' : List U8} : SameTrace (load64 x) (load64 x') := by
  unfold load64
  refine Rel.for rfl rfl rfl trivial ?_
  intro i s t _
  ct_steps

theorem store64_rel {x x' : List U8} {u u' : U64} : SameTrace (store64 x u) (store64 x' u') := by
  unfold store64
  refine Rel.bind (R := fun _ _ => True) (Rel.for rfl rfl rfl trivial ?_) fun b b' _ => ?_
  · intro i s t _
    ct_steps
  · ct_steps

theorem xorBlock_rel {s s' : List U64} {r : Nat} {m m' : List U8} :
    SameTrace (xorBlock s r m) (xorBlock s' r m') := by
  unfold xorBlock
  refine Rel.for rfl rfl rfl trivial ?_
  intro i s t _
  ct_steps
  refine Rel.bind load64_rel fun _ _ _ => ?_
  ct_steps

theorem keccak_absorb_rel {J J' : Junk} {s s' : List U64} {r : Nat} {m m' : List U8} {n : Nat}
    {p p' : U8} : SameTrace (keccak_absorb J s r m n p) (keccak_absorb J' s' r m' n p') := by
  unfold keccak_absorb
  refine Rel.bind (R := fun st st' : AbsorbSt => st.mlen = st'.mlen) ?_ ?_
  · refine Rel.while (I := fun st st' : AbsorbSt => st.mlen = st'.mlen) ?_ ?_ _ _ rfl
    · intro st st' h; simp only [h]
    · intro st st' h _
      refine Rel.bind xorBlock_rel fun _ _ _ => ?_
      refine Rel.bind KeccakF_rel fun _ _ _ => ?_
      ct_steps
      exact Rel.pure (by simp [h])
  · rintro ⟨s, m, n⟩ ⟨s', m', n'⟩ h
    simp only at h
    subst h
    refine Rel.bind (R := fun _ _ => True) (Rel.for rfl rfl rfl trivial ?_) fun _ _ _ => ?_
    · intro i s t _
      ct_steps
    refine Rel.bind (R := fun _ _ => True) (Rel.for rfl rfl rfl trivial ?_) fun _ _ _ => ?_
    · intro i s t _
      ct_steps
    ct_steps
    exact xorBlock_rel

theorem keccak_squeezeblocks_rel {h h' : List U8} {n : Nat} {s s' : List U64} {r : Nat} :
    SameTrace (keccak_squeezeblocks h n s r) (keccak_squeezeblocks h' n s' r) := by
  unfold keccak_squeezeblocks
  refine Rel.bind (R := fun _ _ => True) ?_ fun _ _ _ => Rel.pure trivial
  refine Rel.mono (Rel.while
    (I := fun st st' : SqueezeSt => st.nblocks = st'.nblocks ∧ st.off = st'.off) ?_ ?_ _ _
      ⟨rfl, rfl⟩) fun _ _ _ => trivial
  · intro st st' h; simp only [h]
  · rintro ⟨h, o, n, s⟩ ⟨h', o', n', s'⟩ ⟨h1, h2⟩ _
    simp only at h1 h2
    subst h1 h2
    refine Rel.bind KeccakF_rel fun _ _ _ => ?_
    refine Rel.bind (R := fun _ _ => True) (Rel.for rfl rfl rfl trivial ?_) fun _ _ _ => ?_
    · intro i s t _
      ct_steps
      refine Rel.mono (Rel.atPtr (R := fun _ _ => True) rfl ?_) fun _ _ _ => trivial
      exact store64_rel
    exact Rel.pure ⟨rfl, rfl⟩

theorem shake128_rel {J J' : Junk} {o o' : List U8} {n : Nat} {i i' : List U8} {l : Nat} :
    SameTrace (shake128 J o n i l) (shake128 J' o' n i' l) := by
  unfold shake128
  refine Rel.bind keccak_absorb_rel fun _ _ _ => ?_
  refine Rel.bind keccak_squeezeblocks_rel ?_
  rintro ⟨o, s⟩ ⟨o', s'⟩ _
  refine Rel.ifC rfl (fun _ => ?_) (fun _ => Rel.pure trivial)
  refine Rel.bind keccak_squeezeblocks_rel ?_
  rintro ⟨o, s⟩ ⟨o', s'⟩ _
  refine Rel.for rfl rfl rfl trivial ?_
  intro i s t _
  ct_steps

theorem shake256_rel {J J' : Junk} {o o' : List U8} {n : Nat} {i i' : List U8} {l : Nat} :
    SameTrace (shake256 J o n i l) (shake256 J' o' n i' l) := by
  unfold shake256
  refine Rel.bind (R := fun _ _ => True) (Rel.for rfl rfl rfl trivial ?_) fun _ _ _ => ?_
  · intro i s t _
    ct_steps
  refine Rel.bind keccak_absorb_rel fun _ _ _ => ?_
  refine Rel.bind keccak_squeezeblocks_rel ?_
  rintro ⟨o, s⟩ ⟨o', s'⟩ _
  refine Rel.ifC rfl (fun _ => ?_) (fun _ => Rel.pure trivial)
  refine Rel.bind keccak_squeezeblocks_rel ?_
  rintro ⟨o, s⟩ ⟨o', s'⟩ _
  refine Rel.for rfl rfl rfl trivial ?_
  intro i s t _
  ct_steps

end Frodo
