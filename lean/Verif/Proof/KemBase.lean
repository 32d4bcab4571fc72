import Verif.Model.Kem
import Verif.Spec.Kem
import Verif.Props.MatrixA
import Verif.Proof.Util
import Verif.Proof.Pack
import Verif.Proof.Unpack
import Verif.Proof.Code

/-! # Building blocks of the KEM -/

namespace Frodo

open Spec

/-- The extendable output function that the macro `shake` stands for. -/
def ShakeVar.fn : ShakeVar → List U8 → Nat → List U8
  | .shake128 => SHAKE128
  | .shake256 => SHAKE256

/-- The matrix that `frodo_mul_add_sa_plus_e` of a build multiplies with. -/
def Build.matA (B : Build) (D n : Nat) (seedA : List U8) : Matrix (Fin n) (Fin n) (ZMod (2 ^ D)) :=
  if B.impl = .reference ∨ B.arch = .le then genA B.gen D n seedA
  else Matrix.of fun i j => (Props.byteSwap (genWord B.gen n seedA i j) : ZMod (2 ^ D))

theorem Build.matA_good {B : Build} (h : B.impl = .reference ∨ B.arch = .le) (D n : Nat)
    (seedA : List U8) : B.matA D n seedA = genA B.gen D n seedA := if_pos h

theorem redQ_matA {D : Nat} (hD : D ≤ 16) (B : Build) (n : Nat) (seed : List U8) :
    redQ hD (B.matA 16 n seed) = B.matA D n seed := by
  unfold Build.matA
  split
  · exact redQ_genA hD _ _ _
  · ext i j
    simp only [redQ, Matrix.map_apply, Matrix.of_apply]
    rw [map_natCast]

theorem length_shakeFn (v : ShakeVar) (m : List U8) (n : Nat) : (v.fn m n).length = n := by
  cases v <;> simp [ShakeVar.fn, SHAKE128, SHAKE256, bitsToBytes]

theorem shake_ret {P : Params} {J : Junk} {output : List U8} {outlen : Nat} {input : List U8}
    {inlen : Nat} (hi : inlen ≤ input.length) (ho : outlen ≤ output.length) :
    Ret (shake P J output outlen input inlen)
      (· = P.shake.fn (input.take inlen) outlen ++ output.drop outlen) := by
  unfold shake
  cases P.shake
  · exact shake128_ret hi ho
  · exact shake256_ret hi ho

/-- A loop that applies a function to the first `len` elements. -/
theorem mapLoop_ret {f : U16 → U16} {l : List U16} {len : Nat} (h : len ≤ l.length) :
    Ret (forC 0 len 1 l fun i l => do
      let x ← rd l i
      wr l i (f x)) (· = (l.take len).map f ++ l.drop len) := by
  refine Ret.for1 (fun k (l' : List U16) => l'.length = l.length ∧ ∀ i, nth l' i =
    if i < k then f (nth l i) else nth l i) ⟨rfl, by simp⟩ ?_ ?_
  · rintro k l' hk ⟨hl, hI⟩
    simp only [wp]
    refine ⟨by omega, by omega, by simpa using hl, ?_⟩
    intro i
    by_cases hik : i = k
    · subst hik
      rw [nth_set_eq (by omega), hI, if_neg (by omega), if_pos (by omega)]
    · rw [nth_set_ne (by omega), hI]
      by_cases h1 : i < k
      · rw [if_pos h1, if_pos (by omega)]
      · rw [if_neg h1, if_neg (by omega)]
  · rintro l' ⟨hl, hI⟩
    apply ext_nth
    · simp; omega
    · intro i hi
      rw [hI, nth_append, List.length_map, List.length_take, Nat.min_eq_left h]
      by_cases h1 : i < len
      · rw [if_pos h1, if_pos h1, nth_map, if_pos (by rw [List.length_take]; omega), nth_take, if_pos h1]
      · rw [if_neg h1, if_neg h1, nth_drop]; congr 1; omega

theorem leLoop_ret {a : Arch} {l : List U16} {len : Nat} (h : len ≤ l.length) :
    Ret (leLoop a l len) (· = (l.take len).map (LE_TO_UINT16 a) ++ l.drop len) := mapLoop_ret h

theorem toLeLoop_ret {a : Arch} {l : List U16} {len : Nat} (h : len ≤ l.length) :
    Ret (toLeLoop a l len) (· = (l.take len).map (UINT16_TO_LE a) ++ l.drop len) := mapLoop_ret h

/-- `frodo_mul_add_sa_plus_e` of every build. -/
theorem frodo_mul_add_sa_plus_e_any {B : Build} {E : Env} {P : Params} {eAddr : Nat}
    {out s e : List U16} {seed : List U8} (hP : P.WF) (ha : B.alignedSa E eAddr)
    (hseed : 16 ≤ seed.length) (hout : P.nbar * P.n ≤ out.length) (hs : P.nbar * P.n ≤ s.length)
    (he : P.nbar * P.n ≤ e.length) :
    Ret (frodo_mul_add_sa_plus_e B E P eAddr out s e seed) (fun r =>
      r.1 = ofMat (toMat 16 P.nbar P.n s * B.matA 16 P.n (seed.take 16)
          + toMat 16 P.nbar P.n e) ++ out.drop (P.nbar * P.n) ∧
      ∃ X : List U16, X.length = P.nbar * P.n ∧ r.2 = X ++ e.drop (P.nbar * P.n)) := by
  by_cases h : B.impl = .reference ∨ B.arch = .le
  · rw [Build.matA_good h]
    refine (frodo_mul_add_sa_plus_e_ret hP h hseed ha hout hs he).mono fun r hr => ⟨hr.1, ?_⟩
    rw [hr.2]
    split
    · exact ⟨e.take (P.nbar * P.n), by rw [List.length_take]; omega,
        (List.take_append_drop _ _).symm⟩
    · exact ⟨_, length_ofMat _, rfl⟩
  · have hi : B.impl ≠ .reference := fun hi => h (.inl hi)
    have hb : B.arch = .be := by
      cases hb : B.arch
      · exact absurd (.inr hb) h
      · rfl
    have hm : B.matA 16 P.n (seed.take 16) = Matrix.of fun i j : Fin P.n =>
        (Props.byteSwap (genWord B.gen P.n (seed.take 16) i j) : ZMod (2 ^ 16)) := if_neg h
    rw [hm]
    refine ((Props.C09_sa_plus_e_big_endian B E P eAddr out s e seed hP hi hb ha hseed hout hs he).and
      (Q := fun r => ∃ X : List U16, X.length = P.nbar * P.n ∧ r.2 = X ++ e.drop (P.nbar * P.n))
      ?_)
    have hopt : frodo_mul_add_sa_plus_e B E P eAddr out s e seed =
        sa_plus_e_optimized B E P eAddr out s e seed := by
      unfold frodo_mul_add_sa_plus_e
      cases h : B.impl
      · exact absurd h hi
      · rfl
      · rfl
    rw [hopt]
    exact (sa_plus_e_optimized_ret hP hseed ha hout hs he).mono fun r h => ⟨_, length_ofMat _, h.2⟩

/-! ## Noise -/

/-- The words of a pseudorandom string, the first `m` of them sampled (proof device). -/
def noiseW (T : List Nat) (r : List U8) (len m : Nat) : List U16 :=
  (List.range len).map fun i =>
    if i < m then BitVec.ofInt 16 (sample T (word16 r i)) else BitVec.ofNat 16 (word16 r i)

theorem length_noiseW (T : List Nat) (r : List U8) (len m : Nat) :
    (noiseW T r len m).length = len := by simp [noiseW]

theorem nth_noiseW {T : List Nat} {r : List U8} {len m i : Nat} (h : i < len) :
    nth (noiseW T r len m) i =
      if i < m then BitVec.ofInt 16 (sample T (word16 r i)) else BitVec.ofNat 16 (word16 r i) := by
  unfold noiseW
  rw [nth_range_map, if_pos h]

theorem word16_lt (r : List U8) (i : Nat) : word16 r i < 2 ^ 16 := by
  unfold word16
  have := (nth r (2 * i)).isLt
  have := (nth r (2 * i + 1)).isLt
  omega

theorem ofBytes_le_eq {r : List U8} {len : Nat} (h : r.length = 2 * len) (T : List Nat) :
    ofBytes .le r = noiseW T r len 0 := by
  apply ext_nth
  · rw [length_ofBytes .le len r h, length_noiseW]
  · intro i hi
    rw [length_ofBytes .le len r h] at hi
    rw [nth_ofBytes .le i len r h hi, nth_noiseW hi, if_neg (by omega)]
    apply BitVec.eq_of_toNat_eq
    rw [toNat_join, BitVec.toNat_ofNat, Nat.mod_eq_of_lt (word16_lt r i)]
    rfl

theorem Params.WF.nn_lt {P : Params} (hP : P.WF) : P.n * P.nbar < 2 ^ 30 :=
  Nat.mul_lt_mul_of_lt_of_lt (c := 2 ^ 15) (d := 2 ^ 15) hP.n_lt hP.nbar_lt

theorem Params.WF.bb_lt {P : Params} (hP : P.WF) : P.nbar * P.nbar < 2 ^ 30 :=
  Nat.mul_lt_mul_of_lt_of_lt (c := 2 ^ 15) (d := 2 ^ 15) hP.nbar_lt hP.nbar_lt

/-- Sampling a further segment. -/
theorem sample_noiseW {T : List U16} {r : List U8} {len m k : Nat} (h : m + k ≤ len)
    (hk : k < 2 ^ 32)
    {hcdf : ∀ c ∈ T, c.toNat < 2 ^ 15} {hlen : T.length < 2 ^ 15} :
    Ret (atPtr (noiseW (T.map BitVec.toNat) r len m) m fun b => frodo_sample_n T b k)
      (· = noiseW (T.map BitVec.toNat) r len (m + k)) := by
  simp only [wp]
  rw [length_noiseW]
  refine ⟨by omega, ?_⟩
  refine (frodo_sample_n_ret hcdf hlen (by rw [List.length_drop, length_noiseW]; omega)
    hk).of_eq ?_
  apply ext_nth
  · simp [length_noiseW]; omega
  · intro i hi
    have hi' : i < len := by
      simp only [List.length_append, List.length_take, List.length_map, List.length_drop,
        length_noiseW] at hi
      omega
    rw [nth_noiseW hi']
    simp only [nth_append, List.length_take, length_noiseW, List.length_map, List.length_drop]
    rw [Nat.min_eq_left (show m ≤ len by omega), Nat.min_eq_left (show k ≤ len - m by omega)]
    by_cases h1 : i < m
    · rw [if_pos h1, nth_take, if_pos h1, nth_noiseW hi', if_pos h1, if_pos (by omega)]
    · rw [if_neg h1]
      by_cases h2 : i - m < k
      · rw [if_pos h2, if_pos (by omega), nth_map, if_pos (by
          rw [List.length_take, List.length_drop, length_noiseW]; omega), nth_take, if_pos h2,
          nth_drop, show m + (i - m) = i by omega, nth_noiseW hi', if_neg h1, BitVec.toNat_ofNat,
          Nat.mod_eq_of_lt (word16_lt r i)]
      · rw [if_neg h2, if_neg (by omega), nth_drop, nth_drop, show m + (k + (i - m - k)) = i by omega,
          nth_noiseW hi', if_neg h1]

theorem sample_noiseW0 {T : List U16} {r : List U8} {len k : Nat} (h : k ≤ len)
    (hk : k < 2 ^ 32) {hcdf : ∀ c ∈ T, c.toNat < 2 ^ 15} {hlen : T.length < 2 ^ 15} :
    Ret (frodo_sample_n T (noiseW (T.map BitVec.toNat) r len 0) k)
      (· = noiseW (T.map BitVec.toNat) r len k) := by
  have := sample_noiseW (T := T) (r := r) (len := len) (m := 0) (k := k) (by omega) hk
    (hcdf := hcdf) (hlen := hlen)
  simp only [wp] at this
  simpa using this.2

theorem zq_ofInt {D : Nat} (hD : D ≤ 16) (z : ℤ) : zq D (BitVec.ofInt 16 z) = (z : ZMod (2 ^ D)) := by
  unfold zq
  rw [BitVec.toNat_ofInt]
  have h1 : ((z % (2 ^ 16 : ℤ)).toNat : ℤ) = z % 2 ^ 16 := Int.toNat_of_nonneg (by omega)
  have h2 : (((z % ((2 ^ 16 : ℕ) : ℤ)).toNat : ℕ) : ZMod (2 ^ D)) =
      ((z % (2 ^ 16 : ℤ) : ℤ) : ZMod (2 ^ D)) := by
    rw [← h1, Int.cast_natCast]; rfl
  rw [h2, ZMod.intCast_eq_intCast_iff]
  have hd : ((2 ^ D : ℕ) : ℤ) ∣ (2 ^ 16 : ℤ) := by
    exact_mod_cast pow_dvd_pow 2 hD
  exact (Int.mod_modEq z _).of_dvd hd

/-- A segment of sampled words as a matrix. -/
theorem toMat_noise {D : Nat} (hD : D ≤ 16) {T : List Nat} {r : List U8} {rr cc off : Nat}
    {l : List U16} (h : ∀ k, k < rr * cc → nth l k = BitVec.ofInt 16 (sample T (word16 r (off + k)))) :
    toMat D rr cc l = modQ D (sampleMatrix T rr cc r off) := by
  ext i j
  rw [toMat_apply, h _ (idx_lt i.isLt j.isLt)]
  show zq D _ = _
  rw [zq_ofInt hD]
  rfl

theorem length_expand {P : Params} {m : List U8} {len : Nat} :
    (P.shake.fn m (len * 2)).length = 2 * len := by rw [length_shakeFn]; omega

theorem expandNoise_ret {B : Build} {E : Env} {P : Params} {dom : U8} {src : List U8} {len : Nat}
    (hP : P.WF) (hs : P.bytes ≤ src.length) (hl : 2 * (P.n * P.nbar) ≤ len) :
    Ret (expandNoise B E P dom src len) (· = (dom :: src.take P.bytes,
      noiseW (P.cdf.map BitVec.toNat) (P.shake.fn (dom :: src.take P.bytes) (len * 2)) len
        (P.n * P.nbar + P.n * P.nbar))) := by
  unfold expandNoise
  simp only [wp, length_uninit, List.length_set]
  refine ⟨by omega, by omega, by omega, ?_⟩
  have hinp : (((uninit E.junk 40 8 (1 + P.bytes)).set 0 dom).take 1 ++ (src.drop 0).take P.bytes ++
      ((uninit E.junk 40 8 (1 + P.bytes)).set 0 dom).drop (1 + P.bytes)) =
      dom :: src.take P.bytes := by
    have h0 : 0 < (uninit E.junk 40 8 (1 + P.bytes)).length := by rw [length_uninit]; omega
    have h1 : ((uninit E.junk 40 8 (1 + P.bytes)).set 0 dom).length = 1 + P.bytes := by simp
    have h2 : ((uninit E.junk 40 8 (1 + P.bytes)).set 0 dom).take 1 = [dom] := by
      cases h : uninit E.junk 40 8 (1 + P.bytes) with
      | nil => rw [h] at h0; simp at h0
      | cons x l => rfl
    rw [h2, List.drop_eq_nil_of_le (as := List.set _ _ _) (by omega), List.append_nil, List.drop_zero]; rfl
  rw [hinp]
  have hil : (dom :: src.take P.bytes).length = 1 + P.bytes := by simp; omega
  refine Ret.bind_eq (Ret_asBytes_eq (n := len) (v := P.shake.fn (dom :: src.take P.bytes) (len * 2))
    (by simp) length_expand fun b hb => ?_) ?_
  · have := shake_ret (P := P) (J := E.junk) (output := b) (outlen := len * 2)
      (input := dom :: src.take P.bytes) (inlen := 1 + P.bytes) (by omega)
      (by simp at hb; omega)
    rw [← hil, List.take_length, hil] at this
    rw [Nat.mul_comm 2 len]
    exact this
  · simp only [List.take_zero, List.nil_append, Nat.zero_add]
    rw [List.drop_eq_nil_of_le (by simp), List.append_nil]
    refine Ret.bind_eq (leLoop_ret (by rw [length_ofBytes B.arch len _ length_expand])) ?_
    rw [List.take_of_length_le (by rw [length_ofBytes B.arch len _ length_expand]),
      List.drop_eq_nil_of_le (by rw [length_ofBytes B.arch len _ length_expand]), List.append_nil,
      ofBytes_le, ofBytes_le_eq length_expand (P.cdf.map BitVec.toNat)]
    refine Ret.bind_eq (sample_noiseW0 (hcdf := hP.cdf) (hlen := hP.cdf_len) (by omega)
      (by have := hP.nn_lt; omega)) ?_
    refine Ret.bind_eq (sample_noiseW (hcdf := hP.cdf) (hlen := hP.cdf_len) (by omega)
      (by have := hP.nn_lt; omega)) ?_
    simp only [wp]

end Frodo
