import Verif.Proof.Kem
import Verif.Proof.CtMatrixA
import Verif.Proof.CtMatrix
import Verif.Proof.CtUtil

/-! # Traces of the KEM -/

namespace Frodo

/-- Results known from functional correctness can be used in a relational proof. -/
theorem Rel.strengthen {α β : Type} {m₁ : C α} {m₂ : C β} {R : α → β → Prop} {p : α → Prop}
    {q : β → Prop} (h : Rel m₁ m₂ R) (h1 : ∀ a t, m₁ = .ok a t → p a)
    (h2 : ∀ b t, m₂ = .ok b t → q b) : Rel m₁ m₂ (fun a b => R a b ∧ p a ∧ q b) := by
  intro a₁ t₁ a₂ t₂ e1 e2
  exact ⟨(h _ _ _ _ e1 e2).1, (h _ _ _ _ e1 e2).2, h1 _ _ e1, h2 _ _ e2⟩

theorem Ret.elim {α : Type} {m : C α} {p : α → Prop} (h : Ret m p) : ∀ a t, m = .ok a t → p a := by
  rintro a t e
  obtain ⟨a', t', e', hp⟩ := h
  rw [e] at e'
  injection e' with e1
  rwa [e1]

theorem shake_rel {P : Params} {J J' : Junk} {o o' : List U8} {n : Nat} {i i' : List U8} {l : Nat} :
    SameTrace (shake P J o n i l) (shake P J' o' n i' l) := by
  unfold shake
  cases P.shake
  · exact shake128_rel
  · exact shake256_rel

theorem leLoop_rel {a : Arch} {l l' : List U16} {n : Nat} :
    SameTrace (leLoop a l n) (leLoop a l' n) := by
  unfold leLoop
  refine Rel.for (I := fun _ _ => True) rfl rfl rfl trivial ?_
  intros
  ct_steps

theorem toLeLoop_rel {a : Arch} {l l' : List U16} {n : Nat} :
    SameTrace (toLeLoop a l n) (toLeLoop a l' n) := by
  unfold toLeLoop
  refine Rel.for (I := fun _ _ => True) rfl rfl rfl trivial ?_
  intros
  ct_steps

theorem atPtr_rel {α : Type} {l l' : List α} {i : Nat} {f g : List α → C (List α)}
    (h : SameTrace (f (l.drop i)) (g (l'.drop i))) :
    SameTrace (atPtr l i f) (atPtr l' i g) := (Rel.atPtr rfl h).same

theorem asBytes_rel {a : Arch} {l l' : List U16} {i : Nat} {f g : List U8 → C (List U8)}
    (h : SameTrace (f (toBytes a (l.drop i))) (g (toBytes a (l'.drop i)))) :
    SameTrace (asBytes a l i f) (asBytes a l' i g) := (Rel.asBytes h).same

theorem expandNoise_rel {B : Build} {E E' : Env} {P : Params} {d : U8} {s s' : List U8} {n : Nat} :
    SameTrace (expandNoise B E P d s n) (expandNoise B E' P d s' n) := by
  unfold expandNoise
  ct_steps
  refine Rel.bind (asBytes_rel shake_rel) fun _ _ _ => ?_
  refine Rel.bind leLoop_rel fun _ _ _ => ?_
  refine Rel.bind frodo_sample_n_rel fun _ _ _ => ?_
  refine Rel.bind (atPtr_rel frodo_sample_n_rel) fun _ _ _ => ?_
  ct_steps

theorem clearWords_rel {a : Arch} {l l' : List U16} {i n : Nat} :
    SameTrace (clearWords a l i n) (clearWords a l' i n) := asBytes_rel clear_bytes_rel

theorem mulSA_rel {B : Build} {E E' : Env} {P : Params} {Bp Bp' Sp Sp' : List U16}
    {seed seed' : List U8} (hs : B.sameSeed seed seed') :
    SameTrace (mulSA B E P Bp Sp seed) (mulSA B E' P Bp' Sp' seed') := by
  unfold mulSA
  ct_steps
  refine Rel.bind (frodo_mul_add_sa_plus_e_rel hs) fun _ _ _ => ?_
  ct_steps

theorem encryptMu_rel {P : Params} {a a' : Nat} {Sp Sp' Bm Bm' V V' Cm Cm' : List U16} {pkb pkb' mu mu' : List U8} :
    SameTrace (encryptMu P a Sp Bm V Cm pkb mu) (encryptMu P a' Sp' Bm' V' Cm' pkb' mu') := by
  unfold encryptMu
  refine Rel.bind (atPtr_rel frodo_sample_n_rel) fun _ _ _ => ?_
  refine Rel.bind frodo_unpack_rel fun _ _ _ => ?_
  ct_steps
  refine Rel.bind frodo_mul_add_sb_plus_e_rel fun _ _ _ => ?_
  ct_step
  refine Rel.bind frodo_key_encode_rel fun _ _ _ => ?_
  refine Rel.bind frodo_add_rel fun _ _ _ => ?_
  ct_steps

theorem crypto_kem_keypair_rel {B : Build} {E E' : Env} {P : Params} {rb rb' : RandomBytes}
    {pk pk' sk sk' : List U8} (hA : P.seedA = 16)
    (hl : 16 ≤ pk.length) (hl' : 16 ≤ pk'.length)
    (hrb : Rel (rb (uninit E.junk 41 8 (2 * P.bytes + P.seedA)) (P.bytes + P.bytes + P.seedA))
      (rb' (uninit E'.junk 41 8 (2 * P.bytes + P.seedA)) (P.bytes + P.bytes + P.seedA))
      (fun r r' => 2 * P.bytes + P.seedA ≤ r.1.length ∧ 2 * P.bytes + P.seedA ≤ r'.1.length ∧
        B.same (P.shake.fn ((r.1.drop (2 * P.bytes)).take P.seedA) P.seedA)
          (P.shake.fn ((r'.1.drop (2 * P.bytes)).take P.seedA) P.seedA))) :
    SameTrace (crypto_kem_keypair B E P rb pk sk) (crypto_kem_keypair B E' P rb' pk' sk') := by
  unfold crypto_kem_keypair
  refine Rel.bind hrb ?_
  rintro ⟨R, rv⟩ ⟨R', rv'⟩ ⟨l1, l2, hs⟩
  simp only at l1 l2 hs ⊢
  refine Rel.bind (Rel.ptr rfl) ?_
  rintro _ _ ⟨rfl, rfl⟩
  refine Rel.bind (shake_rel.strengthen
    (shake_ret (by rw [List.length_drop]; omega) (by omega)).elim
    (shake_ret (by rw [List.length_drop]; omega) (by omega)).elim) ?_
  rintro _ _ ⟨-, rfl, rfl⟩
  have hsame : B.sameSeed (P.shake.fn ((R.drop (2 * P.bytes)).take P.seedA) P.seedA ++
      pk.drop P.seedA) (P.shake.fn ((R'.drop (2 * P.bytes)).take P.seedA) P.seedA ++
      pk'.drop P.seedA) := by
    intro h1 h2
    rw [List.take_left' (by rw [length_shakeFn, hA]), List.take_left' (by rw [length_shakeFn, hA])]
    exact hs h1 h2
  ct_steps
  refine Rel.bind expandNoise_rel fun _ _ _ => ?_
  ct_steps
  refine Rel.bind (frodo_mul_add_as_plus_e_rel hsame) fun _ _ _ => ?_
  refine Rel.bind (atPtr_rel frodo_pack_rel) fun _ _ _ => ?_
  ct_steps
  refine Rel.bind toLeLoop_rel fun _ _ _ => ?_
  ct_steps
  refine Rel.bind (atPtr_rel shake_rel) fun _ _ _ => ?_
  refine Rel.bind clearWords_rel fun _ _ _ => ?_
  refine Rel.bind clearWords_rel fun _ _ _ => ?_
  refine Rel.bind clear_bytes_rel fun _ _ _ => ?_
  refine Rel.bind clear_bytes_rel fun _ _ _ => ?_
  ct_steps

theorem crypto_kem_enc_rel {B : Build} {E E' : Env} {P : Params} {rb rb' : RandomBytes}
    {ct ct' ss ss' pk pk' : List U8} (hs : B.sameSeed pk pk')
    (hrb : ∀ b b' n, SameTrace (rb b n) (rb' b' n)) :
    SameTrace (crypto_kem_enc B E P rb ct ss pk) (crypto_kem_enc B E' P rb' ct' ss' pk') := by
  unfold crypto_kem_enc
  refine Rel.bind shake_rel fun _ _ _ => ?_
  ct_steps
  refine Rel.bind (hrb _ _ _) fun _ _ _ => ?_
  refine Rel.bind shake_rel fun _ _ _ => ?_
  refine Rel.bind expandNoise_rel fun _ _ _ => ?_
  refine Rel.bind (mulSA_rel hs) fun _ _ _ => ?_
  refine Rel.bind frodo_pack_rel fun _ _ _ => ?_
  ct_steps
  refine Rel.bind encryptMu_rel fun _ _ _ => ?_
  refine Rel.bind (atPtr_rel frodo_pack_rel) fun _ _ _ => ?_
  ct_steps
  refine Rel.bind shake_rel fun _ _ _ => ?_
  refine Rel.bind clearWords_rel fun _ _ _ => ?_
  refine Rel.bind clearWords_rel fun _ _ _ => ?_
  refine Rel.bind clearWords_rel fun _ _ _ => ?_
  refine Rel.bind clearWords_rel fun _ _ _ => ?_
  refine Rel.bind (atPtr_rel clear_bytes_rel) fun _ _ _ => ?_
  refine Rel.bind clear_bytes_rel fun _ _ _ => ?_
  refine Rel.bind (atPtr_rel clear_bytes_rel) fun _ _ _ => ?_
  refine Rel.bind clear_bytes_rel fun _ _ _ => ?_
  ct_steps

theorem reduceLoop_rel {P : Params} {l l' : List U16} :
    SameTrace (reduceLoop P l) (reduceLoop P l') := by
  unfold reduceLoop
  refine Rel.for (I := fun _ _ => True) rfl rfl rfl trivial ?_
  intros
  ct_steps
  refine Rel.bind qMask_rel fun _ _ _ => ?_
  ct_steps

theorem loadS_rel {B : Build} {E E' : Env} {P : Params} {a a' : Nat} {sk sk' : List U8} :
    SameTrace (loadS B E P a sk) (loadS B E' P a' sk') := by
  unfold loadS
  ct_steps
  refine Rel.for (I := fun _ _ => True) rfl rfl rfl trivial ?_
  intros
  ct_steps

theorem decryptMu_rel {P : Params} {a a' : Nat} {S S' : List U16} {G G' ct ct' : List U8} :
    SameTrace (decryptMu P a S G ct) (decryptMu P a' S' G' ct') := by
  unfold decryptMu
  refine Rel.bind frodo_unpack_rel fun _ _ _ => ?_
  ct_steps
  refine Rel.bind frodo_unpack_rel fun _ _ _ => ?_
  refine Rel.bind frodo_mul_bs_rel fun _ _ _ => ?_
  refine Rel.bind frodo_sub_rel fun _ _ _ => ?_
  ct_step
  refine Rel.bind (atPtr_rel frodo_key_decode_rel) fun _ _ _ => ?_
  ct_steps

theorem crypto_kem_dec_rel {B : Build} {E E' : Env} {P : Params} {a a' : Nat}
    {ss ss' ct ct' sk sk' : List U8} (hs : B.sameSeed (sk.drop P.bytes) (sk'.drop P.bytes)) :
    SameTrace (crypto_kem_dec B E P a ss ct sk) (crypto_kem_dec B E' P a' ss' ct' sk') := by
  unfold crypto_kem_dec
  refine Rel.bind loadS_rel fun _ _ _ => ?_
  refine Rel.bind decryptMu_rel fun _ _ _ => ?_
  ct_steps
  refine Rel.bind shake_rel fun _ _ _ => ?_
  refine Rel.bind expandNoise_rel fun _ _ _ => ?_
  refine Rel.bind (Rel.ptr rfl) ?_
  rintro _ _ ⟨rfl, rfl⟩
  refine Rel.bind (mulSA_rel hs) fun _ _ _ => ?_
  ct_steps
  refine Rel.bind encryptMu_rel fun _ _ _ => ?_
  ct_steps
  refine Rel.bind reduceLoop_rel fun _ _ _ => ?_
  refine Rel.bind ct_verify_rel fun _ _ _ => ?_
  refine Rel.bind ct_verify_rel fun _ _ _ => ?_
  ct_steps
  refine Rel.bind (atPtr_rel ct_select_rel) fun _ _ _ => ?_
  refine Rel.bind shake_rel fun _ _ _ => ?_
  refine Rel.bind clearWords_rel fun _ _ _ => ?_
  refine Rel.bind clearWords_rel fun _ _ _ => ?_
  refine Rel.bind clearWords_rel fun _ _ _ => ?_
  refine Rel.bind clearWords_rel fun _ _ _ => ?_
  refine Rel.bind clearWords_rel fun _ _ _ => ?_
  refine Rel.bind (atPtr_rel clear_bytes_rel) fun _ _ _ => ?_
  refine Rel.bind clear_bytes_rel fun _ _ _ => ?_
  refine Rel.bind (atPtr_rel clear_bytes_rel) fun _ _ _ => ?_
  refine Rel.bind clear_bytes_rel fun _ _ _ => ?_
  ct_steps

end Frodo
