import Verif.Proof.MatrixA2

/-! # From arithmetic modulo 2^16 to arithmetic modulo q -/

namespace Frodo

open Spec

/-- Reduction modulo `2^D` of matrices modulo `2^16` (proof device). -/
def redQ {D : Nat} (hD : D ≤ 16) {r c : Nat} (M : Matrix (Fin r) (Fin c) (ZMod (2 ^ 16))) :
    Matrix (Fin r) (Fin c) (ZMod (2 ^ D)) :=
  M.map (ZMod.castHom (pow_dvd_pow 2 hD) (ZMod (2 ^ D)))

theorem redQ_toMat {D : Nat} (hD : D ≤ 16) (r c : Nat) (l : List U16) :
    redQ hD (toMat 16 r c l) = toMat D r c l := by
  ext i j
  simp only [redQ, Matrix.map_apply, toMat, Matrix.of_apply]
  rw [map_natCast]

theorem redQ_genA {D : Nat} (hD : D ≤ 16) (g : MatGen) (n : Nat) (seed : List U8) :
    redQ hD (genA g 16 n seed) = genA g D n seed := by
  ext i j
  simp only [redQ, Matrix.map_apply, genA, Matrix.of_apply]
  rw [map_natCast]

theorem redQ_add {D : Nat} (hD : D ≤ 16) {r c : Nat} (M N : Matrix (Fin r) (Fin c) (ZMod (2 ^ 16))) :
    redQ hD (M + N) = redQ hD M + redQ hD N := by
  unfold redQ
  exact Matrix.map_add _ (map_add _) _ _

theorem redQ_mul {D : Nat} (hD : D ≤ 16) {r m c : Nat} (M : Matrix (Fin r) (Fin m) (ZMod (2 ^ 16)))
    (N : Matrix (Fin m) (Fin c) (ZMod (2 ^ 16))) :
    redQ hD (M * N) = redQ hD M * redQ hD N := by
  unfold redQ
  exact Matrix.map_mul

theorem redQ_transpose {D : Nat} (hD : D ≤ 16) {r c : Nat}
    (M : Matrix (Fin r) (Fin c) (ZMod (2 ^ 16))) :
    redQ hD M.transpose = (redQ hD M).transpose := by
  unfold redQ
  exact Matrix.transpose_map.symm

theorem toMat_asResult {P : Params} (hD : P.logq ≤ 16) (g : MatGen) (seed : List U8)
    (s e out : List U16) :
    toMat P.logq P.n P.nbar (asResult g P seed s e out) =
      genA g P.logq P.n (seed.take 16) * (toMat P.logq P.nbar P.n s).transpose +
        toMat P.logq P.n P.nbar e := by
  unfold asResult
  rw [← redQ_toMat hD, toMat_ofMat (le_refl 16), redQ_add, redQ_mul, redQ_genA, redQ_transpose,
    redQ_toMat, redQ_toMat]

theorem toMat_saResult {P : Params} (hD : P.logq ≤ 16) (g : MatGen) (seed : List U8)
    (s e out : List U16) :
    toMat P.logq P.nbar P.n (saResult g P seed s e out) =
      toMat P.logq P.nbar P.n s * genA g P.logq P.n (seed.take 16) + toMat P.logq P.nbar P.n e := by
  unfold saResult
  rw [← redQ_toMat hD, toMat_ofMat (le_refl 16), redQ_add, redQ_mul, redQ_genA,
    redQ_toMat, redQ_toMat]

theorem length_asResult (g : MatGen) (P : Params) (seed : List U8) (s e out : List U16)
    (h : P.n * P.nbar ≤ out.length) : (asResult g P seed s e out).length = out.length := by
  unfold asResult
  rw [List.length_append, length_ofMat, List.length_drop]; omega

theorem length_saResult (g : MatGen) (P : Params) (seed : List U8) (s e out : List U16)
    (h : P.nbar * P.n ≤ out.length) : (saResult g P seed s e out).length = out.length := by
  unfold saResult
  rw [List.length_append, length_ofMat, List.length_drop]; omega

end Frodo
