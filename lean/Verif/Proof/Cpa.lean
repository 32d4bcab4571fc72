import Verif.Spec.Security
import Verif.Proof.Prob
import Verif.Proof.Failure
import Verif.Proof.KemSpec

/-! # Encryption is as secure as LWE -/

namespace Frodo

open Spec

noncomputable section

variable {K : KemParams} {Ω : Type}

instance (l : Nat) : Finite (List.Vector U8 l) := inferInstance
instance (l : Nat) : Nonempty (List.Vector U8 l) := ⟨Spec.vec l []⟩
instance (m n : Nat) : Finite (Mat K m n) := by unfold Mat; infer_instance
instance (m n : Nat) : Nonempty (Mat K m n) := ⟨0⟩

theorem toList_vec {l : Nat} {b : List U8} (h : b.length = l) : (Spec.vec l b).toList = b := by
  show (b ++ List.replicate l 0).take l = b
  exact List.take_left' h

theorem vec_toList {l : Nat} (v : List.Vector U8 l) (x : List U8) : Spec.vec l (v.toList ++ x) = v := by
  apply Subtype.ext
  show ((v.toList ++ x) ++ List.replicate l 0).take l = v.toList
  rw [List.append_assoc]
  exact List.take_left' v.toList_length

theorem unpack_pkBytes (h : KWF K) (seedA : List.Vector U8 K.lenA) (B : Mat K K.n K.nbar) :
    Spec.vec K.lenA (pkBytes K seedA B) = seedA ∧
      unpackMat K.D K.n K.nbar ((pkBytes K seedA B).drop K.lenA) = B := by
  refine ⟨vec_toList _ _, ?_⟩
  unfold pkBytes
  rw [List.drop_left' seedA.toList_length,
    unpackMat_packMat h.D_pos h.D_le ⟨K.lenB, by rw [← h.dvdB]; ring⟩]

theorem toList_ctBytes (M : Mat K K.nbar K.n × Mat K K.nbar K.nbar) :
    (ctBytes K M).toList = packMat M.1 ++ packMat M.2 := by
  refine toList_vec ?_
  rw [List.length_append, length_packMat, length_packMat, Nat.mul_right_comm]; rfl

/-- The attack on the message `b`. -/
def cpaB (D : FrodoCpa K Ω) (b : Bool) [Finite Ω] : ℚ :=
  ex fun ω => ex fun seedA => ex fun r : List.Vector U8 K.lenR => ex fun r' =>
    ind (onKey D b (ω, r') seedA (lweKey K seedA r))

/-- The attack on the message `b` for a uniform public key. -/
def cpaU (D : FrodoCpa K Ω) (b : Bool) [Finite Ω] : ℚ :=
  ex fun ω => ex fun seedA => ex fun B : Mat K K.n K.nbar => ex fun r' =>
    ind (onKey D b (ω, r') seedA B)

/-- The attack on the message `b` for a uniform public key and a uniform ciphertext. -/
def cpaV (D : FrodoCpa K Ω) (b : Bool) [Finite Ω] : ℚ :=
  ex fun ω => ex fun seedA => ex fun B : Mat K K.n K.nbar => ex fun B' : Mat K K.nbar K.n =>
    ex fun V : Mat K K.nbar K.nbar => ind (onEnc D b ω seedA B (B', V))

theorem advCpa_eq [Finite Ω] (h : KWF K) (D : FrodoCpa K Ω) :
    advCpa (frodoPke K) D = |cpaB D false - cpaB D true| := by
  have e : ∀ k, (frodoPke K).enc ((frodoPke K).pk k) = encr K k.1 (lweKey K k.1 k.2) := by
    intro k
    have := unpack_pkBytes h k.1 (lweKey K k.1 k.2)
    unfold frodoPke
    simp only
    rw [this.1, this.2]
  unfold advCpa cpaB
  rw [Pr_eq, Pr_eq]
  simp only [ex_prod, e]
  rfl

theorem advKey_eq [Finite Ω] (D : FrodoCpa K Ω) (b : Bool) :
    advKey K (onKey D b) = |cpaB D b - cpaU D b| := by
  unfold advKey cpaB cpaU
  rw [Pr_eq, Pr_eq]
  simp only [ex_prod]
  congr 2
  · refine ex_congr fun ω => ?_
    rw [ex_comm]
    refine ex_congr fun sA => ?_
    rw [ex_comm]
  · refine ex_congr fun ω => ?_
    rw [ex_comm]
    refine ex_congr fun sA => ?_
    rw [ex_comm]

theorem advEnc_eq [Finite Ω] (D : FrodoCpa K Ω) (b : Bool) :
    advEnc K (onEnc D b) = |cpaU D b - cpaV D b| := by
  unfold advEnc cpaU cpaV
  rw [Pr_eq, Pr_eq]
  simp only [ex_prod]
  rfl

/-- A uniform ciphertext does not depend on the message. -/
theorem cpaV_eq [Finite Ω] (D : FrodoCpa K Ω) : cpaV D false = cpaV D true := by
  unfold cpaV
  refine ex_congr fun ω => ex_congr fun sA => ex_congr fun B => ex_congr fun B' => ?_
  generalize hm0 : D.message false ω (pkBytes K sA B) = m0
  generalize hm1 : D.message true ω (pkBytes K sA B) = m1
  rw [← ex_equiv (Equiv.addRight (encode K.D K.B K.nbar K.nbar m1.toList - encode K.D K.B K.nbar K.nbar m0.toList))]
  refine ex_congr fun V => ind_congr ?_
  simp only [onEnc, hm0, hm1, Equiv.coe_addRight]
  rw [add_assoc, sub_add_cancel]

theorem advCpa_le [Finite Ω] (h : KWF K) (D : FrodoCpa K Ω) : advCpa (frodoPke K) D ≤
    advKey K (onKey D false) + advEnc K (onEnc D false) + advEnc K (onEnc D true) + advKey K (onKey D true) := by
  rw [advCpa_eq h, advKey_eq, advKey_eq, advEnc_eq, advEnc_eq, cpaV_eq D]
  have h1 := abs_add_le (cpaB D false - cpaU D false) (cpaU D false - cpaV D true)
  have h2 := abs_add_le (cpaV D true - cpaU D true) (cpaU D true - cpaB D true)
  have h3 := abs_add_le (cpaB D false - cpaU D false + (cpaU D false - cpaV D true))
    (cpaV D true - cpaU D true + (cpaU D true - cpaB D true))
  rw [abs_sub_comm (cpaU D true) (cpaV D true), abs_sub_comm (cpaB D true) (cpaU D true)]
  have e : cpaB D false - cpaB D true = cpaB D false - cpaU D false + (cpaU D false - cpaV D true) +
    (cpaV D true - cpaU D true + (cpaU D true - cpaB D true)) := by ring
  rw [e]
  linarith

end

end Frodo
