import Verif.C.Ct
import Verif.Model.Matrix

namespace Frodo

/-- A counting loop whose traces do not depend on the state. -/
macro "ct_for" : tactic => `(tactic| first
  | refine Rel.bind (R := fun _ _ => True) (Rel.for rfl rfl rfl trivial (fun _ _ _ _ => ?_))
      (fun _ _ _ => ?_)
  | refine Rel.for (I := fun _ _ => True) rfl rfl rfl trivial (fun _ _ _ _ => ?_))

theorem qMask_rel {P : Params} : SameTrace (qMask P) (qMask P) := by
  unfold qMask
  ct_step
  exact Rel.int.same

theorem frodo_mul_bs_rel {P : Params} {out out' b b' s s' : List U16} :
    SameTrace (frodo_mul_bs P out b s) (frodo_mul_bs P out' b' s') := by
  unfold frodo_mul_bs
  ct_for
  ct_for
  ct_step
  ct_for
  · ct_steps
  · ct_step
    refine Rel.bind qMask_rel fun _ _ _ => ?_
    ct_steps

theorem frodo_mul_add_sb_plus_e_rel {P : Params} {out out' b b' s s' e e' : List U16} :
    SameTrace (frodo_mul_add_sb_plus_e P out b s e) (frodo_mul_add_sb_plus_e P out' b' s' e') := by
  unfold frodo_mul_add_sb_plus_e
  ct_for
  ct_for
  ct_step
  ct_step
  ct_for
  · ct_steps
  · ct_step
    refine Rel.bind qMask_rel fun _ _ _ => ?_
    ct_steps

theorem frodo_add_rel {P : Params} {out out' : List U16} {a a' b b' : Operand} :
    SameTrace (frodo_add P out a b) (frodo_add P out' a' b') := by
  unfold frodo_add
  ct_for
  ct_steps
  refine Rel.bind qMask_rel fun _ _ _ => ?_
  ct_steps

theorem frodo_sub_rel {P : Params} {out out' : List U16} {a a' b b' : Operand} :
    SameTrace (frodo_sub P out a b) (frodo_sub P out' a' b') := by
  unfold frodo_sub
  ct_for
  ct_steps
  refine Rel.bind qMask_rel fun _ _ _ => ?_
  ct_steps

theorem shl64_rel {a b : U64} {k : Nat} : SameTrace (shl64 a k) (shl64 b k) := by
  unfold shl64
  split
  · exact Rel.pure trivial
  · exact Rel.ub_left

theorem shr64_rel {a b : U64} {k : Nat} : SameTrace (shr64 a k) (shr64 b k) := by
  unfold shr64
  split
  · exact Rel.pure trivial
  · exact Rel.ub_left

theorem frodo_key_encode_rel {P : Params} {out out' : List U16} {inp inp' : List U8} :
    SameTrace (frodo_key_encode P out inp) (frodo_key_encode P out' inp') := by
  unfold frodo_key_encode
  refine Rel.bind shl64_rel fun _ _ _ => ?_
  refine Rel.bind (R := fun s t => s.2 = t.2) (Rel.for rfl rfl rfl rfl ?_) fun _ _ _ =>
    Rel.pure trivial
  rintro i ⟨o, pos⟩ ⟨o', pos'⟩ h
  simp only at h
  subst h
  ct_for
  · ct_step
    refine Rel.bind shl64_rel fun _ _ _ => ?_
    ct_steps
  · refine Rel.bind (R := fun s t => s.2.2 = t.2.2) (Rel.for rfl rfl rfl rfl ?_) ?_
    · rintro j ⟨o, tp, pos⟩ ⟨o', tp', pos'⟩ h
      simp only at h
      subst h
      ct_step
      refine Rel.bind shl64_rel fun _ _ _ => ?_
      ct_step
      refine Rel.bind shr64_rel fun _ _ _ => ?_
      exact Rel.pure rfl
    · rintro ⟨o, tp, pos⟩ ⟨o', tp', pos'⟩ h
      exact Rel.pure h

theorem frodo_key_decode_rel {P : Params} {out out' : List U8} {inp inp' : List U16} :
    SameTrace (frodo_key_decode P out inp) (frodo_key_decode P out' inp') := by
  unfold frodo_key_decode
  ct_steps
  refine Rel.bind (R := fun s t => s.2 = t.2) (Rel.for rfl rfl rfl rfl ?_) fun _ _ _ =>
    Rel.pure trivial
  rintro i ⟨o, pos⟩ ⟨o', pos'⟩ h
  simp only at h
  subst h
  refine Rel.bind (R := fun s t => s.2 = t.2) (Rel.for rfl rfl rfl rfl ?_) ?_
  · rintro j ⟨tl, pos⟩ ⟨tl', pos'⟩ h
    simp only at h
    subst h
    ct_steps
    refine Rel.bind shl64_rel fun _ _ _ => ?_
    exact Rel.pure rfl
  · rintro ⟨tl, pos⟩ ⟨tl', pos'⟩ h
    simp only at h
    subst h
    ct_for
    · refine Rel.bind shr64_rel fun _ _ _ => ?_
      ct_steps
    · exact Rel.pure rfl

end Frodo
