import Verif.Proof.FailureNum
import Verif.Props.Kem

/-! # The rate of decryption failures

The noise is sampled from two strings of bytes, `r` in key generation and `r'` in encryption, which the
scheme obtains from SHAKE.  The theorems of this file count pairs of strings. -/

namespace Frodo.Props

open Spec

/-- C02, FrodoKEM-640: out of `2^138` pairs of noise strings at most one exceeds the bound of C01. -/
theorem C02_640 (g : MatGen) :
    Nat.card {p : Strings (Frodo640 g) //
      ¬ Within (Frodo640 g) (noiseOf (Frodo640 g) p.1.toList p.2.toList)}
      * 2 ^ 138 ≤ Nat.card (Strings (Frodo640 g)) :=
  fail_strings_nat (Frodo640 g) chi640 12 23 22 14 59034 9 10
    [true, false, true, false, false, false, false, false, false, false, false] 40 1012 12 138 rfl rfl C24_noise640 (by decide) (by decide)
    rfl (by decide) (show psiNat chi640 12 23 22 14 0 9 ^ (2 * 640) * phiNat chi640 12 23 22 14 0 + 2 ≤ 2 ^ 59034 by
      decide +kernel)
    (show (2 ^ 12 + (2 * 640 * (12 * 12) + 12) + 1012) % 2 ^ 10 = 0 by decide)
    (show 2 * 8 ^ 2 * 2 ^ 138 * 22 ^ 2 ^ 12 * tailNat chi640 12 23 22 14 59034 9 10
      [true, false, true, false, false, false, false, false, false, false, false] 40 1012 ≤
        23 ^ 2 ^ 12 * 2 ^ 40 * (2 ^ 14) ^ (2 * 640 + 1) * 2 ^ (16 * (4 * 640 + 1)) by decide +kernel)

/-- C02, FrodoKEM-976: at most one in `2^199`. -/
theorem C02_976 (g : MatGen) :
    Nat.card {p : Strings (Frodo976 g) //
      ¬ Within (Frodo976 g) (noiseOf (Frodo976 g) p.1.toList p.2.toList)}
      * 2 ^ 199 ≤ Nat.card (Strings (Frodo976 g)) :=
  fail_strings_nat (Frodo976 g) chi976 10 16 15 14 90004 8 10
    [true, true, true, true, false, true, false, false, false, false, false] 40 374 12 199 rfl rfl C24_noise976 (by decide) (by decide)
    rfl (by decide) (show psiNat chi976 10 16 15 14 0 8 ^ (2 * 976) * phiNat chi976 10 16 15 14 0 + 2 ≤ 2 ^ 90004 by
      decide +kernel)
    (show (2 ^ 12 + (2 * 976 * (10 * 10) + 10) + 374) % 2 ^ 10 = 0 by decide)
    (show 2 * 8 ^ 2 * 2 ^ 199 * 15 ^ 2 ^ 12 * tailNat chi976 10 16 15 14 90004 8 10
      [true, true, true, true, false, true, false, false, false, false, false] 40 374 ≤
        16 ^ 2 ^ 12 * 2 ^ 40 * (2 ^ 14) ^ (2 * 976 + 1) * 2 ^ (16 * (4 * 976 + 1)) by decide +kernel)

/-- C02, FrodoKEM-1344: at most one in `2^252`. -/
theorem C02_1344 (g : MatGen) :
    Nat.card {p : Strings (Frodo1344 g) //
      ¬ Within (Frodo1344 g) (noiseOf (Frodo1344 g) p.1.toList p.2.toList)}
      * 2 ^ 252 ≤ Nat.card (Strings (Frodo1344 g)) :=
  fail_strings_nat (Frodo1344 g) chi1344 6 20 17 14 123906 7 9
    [true, false, true, false, true, false, false, false, false, false, false, false] 40 506 11 252 rfl rfl C24_noise1344 (by decide) (by decide)
    rfl (by decide) (show psiNat chi1344 6 20 17 14 0 7 ^ (2 * 1344) * phiNat chi1344 6 20 17 14 0 + 2 ≤ 2 ^ 123906 by
      decide +kernel)
    (show (2 ^ 11 + (2 * 1344 * (6 * 6) + 6) + 506) % 2 ^ 9 = 0 by decide)
    (show 2 * 8 ^ 2 * 2 ^ 252 * 17 ^ 2 ^ 11 * tailNat chi1344 6 20 17 14 123906 7 9
      [true, false, true, false, true, false, false, false, false, false, false, false] 40 506 ≤
        20 ^ 2 ^ 11 * 2 ^ 40 * (2 ^ 14) ^ (2 * 1344 + 1) * 2 ^ (16 * (4 * 1344 + 1)) by decide +kernel)

/-- The exponents of C02. -/
def failExp (n : Nat) : Nat := if n = 640 then 138 else if n = 976 then 199 else 252

example : failExp 640 = 138 ∧ failExp 976 = 199 ∧ failExp 1344 = 252 := by decide

theorem C02_all {P : Params} {K : KemParams} {g : MatGen} (hS : Standard P g K) :
    Nat.card {p : Strings K // ¬ Within K (noiseOf K p.1.toList p.2.toList)} * 2 ^ failExp K.n ≤
      Nat.card (Strings K) := by
  cases hS
  · exact C02_640 g
  · exact C02_976 g
  · exact C02_1344 g

/-- The number of pairs of noise strings: they are strings of `8 * (lenR + lenR')` bits. -/
example (g : MatGen) : Nat.card (Strings (Frodo640 g)) = 2 ^ (8 * (20480 + 20608)) :=
  (card_strings _).trans (congrArg (2 ^ ·) (by cases g <;> decide))

/-- The noise that C02 bounds is the noise of C01 when the strings are those of the scheme. -/
theorem C02_noise (K : KemParams) (seedSE pk mu : List U8) : NoiseBound K seedSE pk mu ↔
    Within K (noiseOf K (K.shake (0x5F :: seedSE) K.lenR)
      (K.shake (0x96 :: (deriveSeeds K (K.shake pk K.len) mu).1) K.lenR')) := Iff.rfl

theorem card_mono {K : KemParams} {Q Q' : Strings K → Prop} (h : ∀ p, Q p → Q' p) :
    Nat.card {p // Q p} ≤ Nat.card {p // Q' p} :=
  Nat.card_le_card_of_injective (fun p => ⟨p.1, h _ p.2⟩) fun _ _ e =>
    Subtype.ext (congrArg (fun q : {p // Q' p} => q.1) e)

/-- What the holder of the secret key decodes is right for small noise. -/
theorem transmit_eq {K : KemParams} (hk : KWF K) (A : Matrix (Fin K.n) (Fin K.n) (ZMod (2 ^ K.D)))
    (r r' mu : List U8) (hmu : mu.length = K.len) (hw : Within K (noiseOf K r r')) : transmit K A r r' mu = mu := by
  have e : transmit K A r r' mu = decode K.B (encode K.D K.B K.nbar K.nbar mu +
      modQ K.D (noiseOf K r r')) := by
    unfold transmit
    simp only
    congr 1
    rw [show modQ K.D (noiseOf K r r') = modQ K.D (sampleMatrix K.T K.nbar K.n r' 0) *
        modQ K.D (sampleMatrix K.T K.n K.nbar r (K.n * K.nbar)) +
        modQ K.D (sampleMatrix K.T K.nbar K.nbar r' (2 * K.n * K.nbar)) -
        modQ K.D (sampleMatrix K.T K.nbar K.n r' (K.n * K.nbar)) *
          (modQ K.D (sampleMatrix K.T K.nbar K.n r 0)).transpose by
      ext i j
      simp [noiseOf, modQ, Matrix.mul_apply]]
    rw [Matrix.mul_add, Matrix.add_mul, Matrix.mul_assoc]
    abel
  rw [e, decode_encode_iff hk.B_pos hk.B_lt (hk.nbar8.mul_right _) _ _ (by rw [hmu, hk.len])]
  exact fun i j => ⟨_, (hw i j).1, (hw i j).2, rfl⟩

/-- C02 for the encryption scheme: for every matrix `A` and every message, out of `2^k` pairs of noise
strings at most one makes the receiver decode something else than the message. -/
theorem C02_transmit {P : Params} {K : KemParams} {g : MatGen} (hS : Standard P g K)
    (A : Matrix (Fin K.n) (Fin K.n) (ZMod (2 ^ K.D))) (mu : List U8) (hmu : mu.length = K.len) :
    Nat.card {p : Strings K // transmit K A p.1.toList p.2.toList mu ≠ mu} * 2 ^ failExp K.n ≤
      Nat.card (Strings K) := by
  exact (Nat.mul_le_mul_right _ (card_mono fun p hp hw => hp (transmit_eq hS.kwf A _ _ mu hmu hw))).trans
    (C02_all hS)

/-- The function that answers queries for noise strings with `r` and `r'` and other queries like
`H`. -/
def oracle (K : KemParams) (H : List U8 → Nat → List U8) (r r' m : List U8) (l : Nat) : List U8 :=
  if m.head? = some 0x5F ∧ m.length = K.len + 1 ∧ l = K.lenR then r
  else if m.head? = some 0x96 ∧ m.length = K.len + 1 ∧ l = K.lenR' then r'
  else H m l

/-- C02 for FrodoKEM with a random oracle: whatever the seeds, the message and the answers to other
queries, out of `2^k` answers to the two queries for noise at most one makes decapsulation of an honest
ciphertext disagree with encapsulation. -/
theorem C02_kem {P : Params} {K : KemParams} {g : MatGen} (hS : Standard P g K)
    (H : List U8 → Nat → List U8) (hH : ∀ m l, (H m l).length = l) (s seedSE z mu : List U8)
    (hs : s.length = K.len) (hse : seedSE.length = K.len) (hmu : mu.length = K.len) :
    Nat.card {p : Strings K //
      let K' := { K with shake := oracle K H p.1.toList p.2.toList }
      decaps K' (encaps K' (keygen K' s seedSE z).1 mu).1 (keygen K' s seedSE z).2 ≠
        (encaps K' (keygen K' s seedSE z).1 mu).2} * 2 ^ failExp K.n ≤
      Nat.card (Strings K) := by
  refine (Nat.mul_le_mul_right _ (card_mono fun p hp hw => hp ?_)).trans (C02_all hS)
  obtain ⟨⟨r, hr⟩, ⟨r', hr'⟩⟩ := p
  have hk := hS.kwf
  have hlen : ∀ m l, (oracle K H r r' m l).length = l := by
    intro m l
    unfold oracle
    split
    · next h => rw [hr, h.2.2]
    · split
      · next h => rw [hr', h.2.2]
      · exact hH m l
  have hk' : KWF { K with shake := oracle K H r r' } :=
    ⟨hk.D_pos, hk.D_le, hk.B_pos, hk.B_lt, hk.nbar8, hk.len, hlen⟩
  refine decaps_encaps hk' hs hmu fun i j => ?_
  have hsd : ∀ pkh, (deriveSeeds { K with shake := oracle K H r r' } pkh mu).1.length = K.len := by
    intro pkh
    show (List.take K.len (oracle K H r r' (pkh ++ mu) (2 * K.len))).length = K.len
    rw [List.length_take, hlen]
    omega
  have e : ∀ sd : List U8, sd.length = K.len →
      totalNoise { K with shake := oracle K H r r' } seedSE sd = noiseOf K r r' := by
    intro sd hsd
    have e1 : oracle K H r r' (0x5F :: seedSE) (2 * K.n * K.nbar * 2) = r :=
      if_pos ⟨rfl, by rw [List.length_cons, hse], rfl⟩
    have e2 : oracle K H r r' (0x96 :: sd) ((2 * K.n + K.nbar) * K.nbar * 2) = r' := by
      unfold oracle
      rw [if_neg (fun h => absurd h.1 (by simp)),
        if_pos ⟨rfl, by rw [List.length_cons, hsd], rfl⟩]
    unfold totalNoise noiseOf encapsNoise keygenNoise
    simp only [e1, e2]
  rw [e _ (hsd _)]
  exact ⟨_, (hw i j).1, (hw i j).2, rfl⟩

theorem sampleMatrix_const {T : List Nat} {m n off : Nat} {r : List U8} {b : U8}
    (h : ∀ i, 2 * off ≤ i → i < 2 * off + 2 * (m * n) → nth r i = b) (i : Fin m) (j : Fin n) :
    sampleMatrix T m n r off i j = sample T (257 * b.toNat) := by
  have := mul_add_lt i.2 j.2
  unfold sampleMatrix word16
  rw [Matrix.of_apply, h _ (by omega) (by omega), h _ (by omega) (by omega)]
  congr 1
  omega

/-- C02 cannot be strengthened to zero: in each parameter set there are noise strings beyond the bound
(and within it). -/
theorem C02_failures_exist {P : Params} {K : KemParams} {g : MatGen} (hS : Standard P g K) :
    0 < Nat.card {p : Strings K // ¬ Within K (noiseOf K p.1.toList p.2.toList)} ∧
    0 < Nat.card {p : Strings K // Within K (noiseOf K p.1.toList p.2.toList)} := by
  have hn8 : K.nbar = 8 := by cases hS <;> rfl
  have hzero : sample K.T (257 * (0 : U8).toNat) = 0 := by cases hS <;> cases g <;> decide
  have hbig : 2 ^ K.D ≤ 2 ^ (K.B + 1) *
      ((K.n : ℤ) * (sample K.T (257 * (0xFE : U8).toNat) * sample K.T (257 * (0xFE : U8).toNat))) := by
    cases hS <;> cases g <;> decide
  have l1 : (List.replicate K.lenR (0xFE : U8)).length = K.lenR := List.length_replicate
  have l2 : (List.replicate (2 * (K.nbar * K.n)) (0xFE : U8) ++
      List.replicate (K.lenR' - 2 * (K.nbar * K.n)) 0).length = K.lenR' := by
    rw [List.length_append, List.length_replicate, List.length_replicate]
    have : K.lenR' = 2 * (2 * (K.nbar * K.n)) + 2 * (K.nbar * K.nbar) := by
      unfold KemParams.lenR'; ring
    omega
  have l3 : (List.replicate K.lenR (0 : U8)).length = K.lenR := List.length_replicate
  have l4 : (List.replicate K.lenR' (0 : U8)).length = K.lenR' := List.length_replicate
  have hz : ∀ N i, nth (List.replicate N (0 : U8)) i = 0 := by
    intro N i
    rw [nth_replicate]; split <;> rfl
  have j0 : Fin K.nbar := ⟨0, by omega⟩
  rw [Nat.card_pos_iff, Nat.card_pos_iff]
  refine ⟨⟨⟨⟨(⟨_, l1⟩, ⟨_, l2⟩), fun h => ?_⟩⟩, inferInstance⟩,
    ⟨⟨⟨(⟨_, l3⟩, ⟨_, l4⟩), fun i j => ?_⟩⟩, inferInstance⟩⟩
  · have h := (h j0 j0).2
    have e : noiseOf K (List.replicate K.lenR (0xFE : U8)) (List.replicate (2 * (K.nbar * K.n)) (0xFE : U8) ++
        List.replicate (K.lenR' - 2 * (K.nbar * K.n)) 0) j0 j0 = (K.n : ℤ) *
          (sample K.T (257 * (0xFE : U8).toNat) * sample K.T (257 * (0xFE : U8).toNat)) := by
      have c : K.n * K.nbar = K.nbar * K.n := Nat.mul_comm _ _
      have d : 2 * K.n * K.nbar = 2 * (K.nbar * K.n) := by ring
      have hE : ∀ i, 2 * (K.nbar * K.n) ≤ i → nth (List.replicate (2 * (K.nbar * K.n)) (0xFE : U8) ++
          List.replicate (K.lenR' - 2 * (K.nbar * K.n)) 0) i = 0 := by
        intro i hi
        rw [nth_append, if_neg (by rw [List.length_replicate]; omega), hz]
      unfold noiseOf
      rw [Matrix.sub_apply, Matrix.add_apply, Matrix.mul_apply, Matrix.mul_apply]
      have s1 := fun j => sampleMatrix_const (T := K.T) (m := K.nbar) (n := K.n) (off := 0)
        (r := List.replicate (2 * (K.nbar * K.n)) (0xFE : U8) ++
          List.replicate (K.lenR' - 2 * (K.nbar * K.n)) 0) (b := 0xFE) (by
          intro i _ hi
          rw [nth_append, if_pos (by rw [List.length_replicate]; omega), nth_replicate,
            if_pos (by omega)]) j0 j
      have s2 := fun i => sampleMatrix_const (T := K.T) (m := K.n) (n := K.nbar)
        (off := K.n * K.nbar) (r := List.replicate K.lenR (0xFE : U8)) (b := 0xFE) (by
          intro i _ hi
          rw [nth_replicate, if_pos (by unfold KemParams.lenR; rw [d]; omega)]) i j0
      have s3 := sampleMatrix_const (T := K.T) (m := K.nbar) (n := K.nbar)
        (off := 2 * K.n * K.nbar) (r := List.replicate (2 * (K.nbar * K.n)) (0xFE : U8) ++
          List.replicate (K.lenR' - 2 * (K.nbar * K.n)) 0) (b := 0) (by
          intro i hi _
          exact hE i (by omega)) j0 j0
      have s4 := fun j => sampleMatrix_const (T := K.T) (m := K.nbar) (n := K.n)
        (off := K.n * K.nbar) (r := List.replicate (2 * (K.nbar * K.n)) (0xFE : U8) ++
          List.replicate (K.lenR' - 2 * (K.nbar * K.n)) 0) (b := 0) (by
          intro i hi _
          exact hE i (by omega)) j0 j
      simp only [s1, s2, s3, s4, hzero, zero_mul, Finset.sum_const_zero, add_zero, sub_zero,
        Finset.sum_const, Finset.card_univ, Fintype.card_fin, nsmul_eq_mul]
    change 2 ^ (K.B + 1) * noiseOf K (List.replicate K.lenR (0xFE : U8))
      (List.replicate (2 * (K.nbar * K.n)) (0xFE : U8) ++
        List.replicate (K.lenR' - 2 * (K.nbar * K.n)) 0) j0 j0 < 2 ^ K.D at h
    rw [e] at h
    omega
  · have e : noiseOf K (List.replicate K.lenR (0 : U8)) (List.replicate K.lenR' (0 : U8)) i j = 0 := by
      unfold noiseOf
      rw [Matrix.sub_apply, Matrix.add_apply, Matrix.mul_apply, Matrix.mul_apply]
      have s : ∀ (m n off N : Nat) (i : Fin m) (j : Fin n),
          sampleMatrix K.T m n (List.replicate N (0 : U8)) off i j = 0 := by
        intro m n off N i j
        rw [sampleMatrix_const (b := 0) (fun i _ _ => hz N i), hzero]
      simp only [s, zero_mul, Finset.sum_const_zero, add_zero, sub_zero]
    show -(2 ^ K.D : ℤ) ≤ 2 ^ (K.B + 1) * noiseOf K (List.replicate K.lenR (0 : U8))
      (List.replicate K.lenR' (0 : U8)) i j ∧ 2 ^ (K.B + 1) * noiseOf K (List.replicate K.lenR (0 : U8))
      (List.replicate K.lenR' (0 : U8)) i j < 2 ^ K.D
    rw [e]
    have : (0 : ℤ) < 2 ^ K.D := by positivity
    constructor <;> omega

/-- The hypotheses of C02_kem can be met: an oracle with answers of the right length. -/
example : ∃ H : List U8 → Nat → List U8, ∀ m l, (H m l).length = l :=
  ⟨fun _ l => List.replicate l 0xA5, fun _ _ => List.length_replicate⟩

end Frodo.Props
