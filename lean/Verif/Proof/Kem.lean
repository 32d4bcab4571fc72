import Verif.Proof.KemBase

/-! # The KEM computes the specified functions -/

namespace Frodo

open Spec

/-- The parameters in the sense of the specification. -/
def Params.kem (P : Params) (A : List U8 → Matrix (Fin P.n) (Fin P.n) (ZMod (2 ^ P.logq))) :
    KemParams where
  D := P.logq
  n := P.n
  nbar := P.nbar
  B := P.B
  lenA := P.seedA
  len := P.bytes
  T := P.cdf.map BitVec.toNat
  A := A
  shake := P.shake.fn

theorem idx_split {k r c : Nat} (h : k < r * c) :
    k / c < r ∧ k % c < c ∧ k = k / c * c + k % c := by
  have hc : 0 < c := by
    rcases Nat.eq_zero_or_pos c with rfl | h'
    · simp at h
    · exact h'
  exact ⟨Nat.div_lt_of_lt_mul (by rwa [Nat.mul_comm]), Nat.mod_lt _ hc,
    by rw [Nat.mul_comm, Nat.div_add_mod]⟩

/-! ## Segments of buffers -/

theorem fill_take {α : Type} {X l : List α} {k : Nat} (h : X.length = k) :
    (X ++ l.drop k).take k = X := by
  rw [← h, List.take_left']; rfl

theorem fill_drop {α : Type} {X l : List α} {k : Nat} (m : Nat) (h : X.length = k) :
    (X ++ l.drop k).drop (k + m) = l.drop (k + m) := by
  rw [List.drop_append, List.drop_eq_nil_of_le (by omega), List.nil_append, h, List.drop_drop]
  congr 1; omega

theorem fill_drop0 {α : Type} {X l : List α} {k : Nat} (h : X.length = k) :
    (X ++ l.drop k).drop k = l.drop k := fill_drop 0 h

/-! ## Packing -/

theorem pack_congr {D m : Nat} {l l' : List U16} (hD : 1 ≤ D) (hl : l.length = l'.length)
    (h : ∀ i, i < l.length → (nth l i).toNat % 2 ^ D = (nth l' i).toNat % 2 ^ D) :
    pack D m l = pack D m l' := by
  apply ext_nth
  · simp
  · intro i hi
    rw [length_pack] at hi
    apply BitVec.eq_of_toNat_eq
    apply Nat.eq_of_testBit_eq
    intro k
    by_cases hk : k < 8
    · rw [pack_testBit _ hi hk, pack_testBit _ hi hk, stream16_getD hD, stream16_getD hD, ← hl]
      generalize 8 * i + (7 - k) = t
      by_cases ht : t < D * l.length
      · have h1 := h (t / D) (Nat.div_lt_of_lt_mul ht)
        have h2 : ∀ x : Nat, x.testBit (D - 1 - t % D) = (x % 2 ^ D).testBit (D - 1 - t % D) := by
          intro x
          rw [Nat.testBit_mod_two_pow]
          simp; omega
        rw [h2, h1, ← h2]
      · simp [ht]
    · rw [Nat.testBit_lt_two_pow, Nat.testBit_lt_two_pow]
      · exact lt_of_lt_of_le (BitVec.isLt _) (Nat.pow_le_pow_right (by omega) (by omega))
      · exact lt_of_lt_of_le (BitVec.isLt _) (Nat.pow_le_pow_right (by omega) (by omega))

theorem ofNat_val_toNat {D : Nat} (hD : D ≤ 16) (x : ZMod (2 ^ D)) :
    (BitVec.ofNat 16 x.val).toNat = x.val := by
  have : NeZero (2 ^ D) := ⟨by positivity⟩
  have h1 := ZMod.val_lt x
  have h2 : 2 ^ D ≤ 2 ^ 16 := Nat.pow_le_pow_right (by omega) hD
  rw [BitVec.toNat_ofNat, Nat.mod_eq_of_lt (by omega)]

/-- Packing an array is packing the matrix that it stores modulo `q`. -/
theorem pack_toMat {D m r c : Nat} {l : List U16} (h1 : 1 ≤ D) (hD : D ≤ 16) (hl : l.length = r * c) :
    pack D m l = pack D m (ofMat (toMat D r c l)) := by
  apply pack_congr h1
  · rw [hl, length_ofMat]
  · intro k hk
    rw [hl] at hk
    obtain ⟨hi, hj, e⟩ := idx_split hk
    rw [e, nth_ofMat _ hi hj, ofNat_val_toNat hD, toMat_apply]
    show _ = (zq D _).val % _
    unfold zq
    rw [ZMod.val_natCast, Nat.mod_mod]

theorem length_packMat {D r c : Nat} (M : Matrix (Fin r) (Fin c) (ZMod (2 ^ D))) :
    (packMat M).length = D * r * c / 8 := by unfold packMat; rw [length_pack]

/-! ## The secret matrix in the secret key -/

theorem length_encodeS {m n : Nat} (M : Matrix (Fin m) (Fin n) ℤ) :
    (encodeS M).length = 2 * (m * n) := by
  unfold encodeS
  rw [length_flatMap_const _ _ (n * 2), List.length_finRange]
  · ring
  · intro i _
    rw [length_flatMap_const _ _ 2 (by intros; rfl), List.length_finRange]

theorem le16_eq (z : ℤ) : le16 (z % 2 ^ 16).toNat = bytes16 .le (BitVec.ofInt 16 z) := by
  have h : (BitVec.ofInt 16 z).toNat = (z % 2 ^ 16).toNat := BitVec.toNat_ofInt _
  unfold le16 bytes16
  rw [← h]
  generalize BitVec.ofInt 16 z = x
  congr 1
  congr 1
  apply BitVec.eq_of_toNat_eq
  simp only [BitVec.toNat_ofNat, BitVec.toNat_setWidth, BitVec.toNat_ushiftRight,
    Nat.shiftRight_eq_div_pow]

theorem encodeS_eq {m n : Nat} (M : Matrix (Fin m) (Fin n) ℤ) {l : List U16} (hl : l.length = m * n)
    (h : ∀ i j, nth l (i.val * n + j.val) = BitVec.ofInt 16 (M i j)) :
    encodeS M = toBytes .le l := by
  have e : l = (List.finRange m).flatMap fun i => (List.finRange n).map fun j =>
      BitVec.ofInt 16 (M i j) := by
    apply ext_nth
    · rw [hl, length_flatMap_const _ _ n (by simp)]; simp
    · intro k hk
      rw [hl] at hk
      obtain ⟨hi, hj, e⟩ := idx_split hk
      have : Inhabited (Fin m) := ⟨⟨_, hi⟩⟩
      have h' := h ⟨_, hi⟩ ⟨_, hj⟩
      rw [e, h', nth_flatMap_const _ _ n (by simp) _ _ (by simpa using hi) hj,
        nth_finRange_map _ hj, nth_eq_getElem (by simpa using hi)]
      simp
  rw [e]
  unfold encodeS toBytes
  rw [List.flatMap_assoc]
  congr 1
  funext i
  rw [List.flatMap_map]
  congr 1
  funext j
  exact le16_eq _

/-! ## Clearing -/

theorem toBytes_zero (a : Arch) (n : Nat) :
    ofBytes a (List.replicate (2 * n) 0) = List.replicate n 0 := by
  induction n with
  | zero => rfl
  | succ n ih =>
    rw [show 2 * (n + 1) = 2 * n + 1 + 1 by omega, List.replicate_succ, List.replicate_succ, ofBytes, ih,
      List.replicate_succ]
    congr 1
    cases a <;> decide

theorem clearWords_ret {a : Arch} {l : List U16} {off len : Nat} (h : off + len ≤ l.length) :
    Ret (clearWords a l off len)
      (· = l.take off ++ List.replicate len 0 ++ l.drop (off + len)) := by
  unfold clearWords
  rw [← toBytes_zero a len]
  refine Ret_asBytes_eq h (by simp) fun b hb => ?_
  rw [Nat.mul_comm len 2]
  exact clear_bytes_ret (by omega)

/-! ## Key generation -/

theorem keygen_eq (P : Params) (A : List U8 → Matrix (Fin P.n) (Fin P.n) (ZMod (2 ^ P.logq)))
    (s sd z : List U8) : keygen (P.kem A) s sd z =
    (P.shake.fn z P.seedA ++ packMat (A (P.shake.fn z P.seedA) *
        (modQ P.logq (sampleMatrix (P.cdf.map BitVec.toNat) P.nbar P.n
          (P.shake.fn (0x5F :: sd) (2 * P.n * P.nbar * 2)) 0)).transpose +
        modQ P.logq (sampleMatrix (P.cdf.map BitVec.toNat) P.n P.nbar
          (P.shake.fn (0x5F :: sd) (2 * P.n * P.nbar * 2)) (P.n * P.nbar))),
      s ++ (P.shake.fn z P.seedA ++ packMat (A (P.shake.fn z P.seedA) *
        (modQ P.logq (sampleMatrix (P.cdf.map BitVec.toNat) P.nbar P.n
          (P.shake.fn (0x5F :: sd) (2 * P.n * P.nbar * 2)) 0)).transpose +
        modQ P.logq (sampleMatrix (P.cdf.map BitVec.toNat) P.n P.nbar
          (P.shake.fn (0x5F :: sd) (2 * P.n * P.nbar * 2)) (P.n * P.nbar)))) ++
      encodeS (sampleMatrix (P.cdf.map BitVec.toNat) P.nbar P.n
          (P.shake.fn (0x5F :: sd) (2 * P.n * P.nbar * 2)) 0) ++
      P.shake.fn (P.shake.fn z P.seedA ++ packMat (A (P.shake.fn z P.seedA) *
        (modQ P.logq (sampleMatrix (P.cdf.map BitVec.toNat) P.nbar P.n
          (P.shake.fn (0x5F :: sd) (2 * P.n * P.nbar * 2)) 0)).transpose +
        modQ P.logq (sampleMatrix (P.cdf.map BitVec.toNat) P.n P.nbar
          (P.shake.fn (0x5F :: sd) (2 * P.n * P.nbar * 2)) (P.n * P.nbar)))) P.bytes) := rfl

/-- The result of `crypto_kem_keypair` in every build, for whatever bytes `R` are in the buffer after
the call of `randombytes`. -/
theorem crypto_kem_keypair_ret {B : Build} {E : Env} {P : Params} {rb : RandomBytes}
    {pk sk R : List U8} (hP : P.WF) (ha : B.alignedAs E (E.addr .B) (E.addr .S + 2 * (P.n * P.nbar)))
    (hrb : Ret (rb (uninit E.junk 41 8 (2 * P.bytes + P.seedA)) (P.bytes + P.bytes + P.seedA))
      (·.1 = R)) (hR : R.length = 2 * P.bytes + P.seedA)
    (hpk : P.pkBytes ≤ pk.length) (hsk : P.skBytes ≤ sk.length) :
    Ret (crypto_kem_keypair B E P rb pk sk) (fun o =>
      o.pk = (keygen (P.kem (genA B.gen P.logq P.n)) (R.take P.bytes)
        ((R.drop P.bytes).take P.bytes) (R.drop (2 * P.bytes))).1 ++ pk.drop P.pkBytes ∧
      o.sk = (keygen (P.kem (genA B.gen P.logq P.n)) (R.take P.bytes)
        ((R.drop P.bytes).take P.bytes) (R.drop (2 * P.bytes))).2 ++ sk.drop P.skBytes ∧
      o.S = List.replicate (2 * P.n * P.nbar) 0 ∧
      o.randomness = List.replicate (2 * P.bytes) 0 ++ R.drop (2 * P.bytes) ∧
      o.shake_input_seedSE = List.replicate (1 + P.bytes) 0 ∧
      o.ret = 0) := by
  have hA := hP.seedA
  have hpkl := hP.pk
  have hskl := hP.sk
  have e2 : 2 * P.n * P.nbar = 2 * (P.n * P.nbar) := Nat.mul_assoc _ _ _
  have ec : P.nbar * P.n = P.n * P.nbar := Nat.mul_comm _ _
  have hq : 1 ≤ P.logq := by have := hP.B_lt; omega
  unfold crypto_kem_keypair
  refine hrb.bind fun x hx => ?_
  obtain ⟨R', rv⟩ := x
  simp only at hx
  subst hx
  simp only [wp]
  refine ⟨by omega, ?_⟩
  refine Ret.bind_eq (shake_ret (by rw [List.length_drop]; omega) (by omega)) ?_
  simp only [wp]
  refine ⟨by omega, ?_⟩
  have hz : (R'.drop (2 * P.bytes)).take P.seedA = R'.drop (2 * P.bytes) :=
    List.take_of_length_le (by rw [List.length_drop]; omega)
  rw [hz, e2]
  refine Ret.bind_eq (expandNoise_ret hP (by rw [List.length_drop]; omega) (Nat.le_refl _)) ?_
  simp only
  generalize hsA : P.shake.fn (R'.drop (2 * P.bytes)) P.seedA = sA
  have lsA : sA.length = P.seedA := by rw [← hsA]; exact length_shakeFn _ _ _
  generalize hsd : (R'.drop P.bytes).take P.bytes = sd
  have lsd : sd.length = P.bytes := by rw [← hsd, List.length_take, List.length_drop]; omega
  generalize hr : P.shake.fn (0x5F :: sd) (2 * (P.n * P.nbar) * 2) = r
  generalize hT : P.cdf.map BitVec.toNat = T
  generalize hW : noiseW T r (2 * (P.n * P.nbar)) (P.n * P.nbar + P.n * P.nbar) = W
  have lW : W.length = 2 * (P.n * P.nbar) := by rw [← hW]; exact length_noiseW _ _ _ _
  have nW : ∀ k, k < 2 * (P.n * P.nbar) → nth W k = BitVec.ofInt 16 (sample T (word16 r k)) := by
    intro k hk
    rw [← hW, nth_noiseW hk, if_pos (by omega)]
  simp only [wp]
  refine ⟨by omega, ?_⟩
  refine Ret.bind_eq (frodo_mul_add_as_plus_e_ret hP (by simp; omega) ha (by simp)
    (by omega) (by rw [List.length_drop]; omega)) ?_
  have htk : (sA ++ pk.drop P.seedA).take 16 = sA := by
    rw [← hA]; exact fill_take lsA
  generalize hBm : asResult B.gen P (sA ++ pk.drop P.seedA) W (W.drop (P.n * P.nbar))
    (List.replicate (P.n * P.nbar) 0) = Bm
  have lBm : Bm.length = P.n * P.nbar := by
    rw [← hBm, length_asResult _ _ _ _ _ _ (by simp)]; simp
  have mBm : toMat P.logq P.n P.nbar Bm = genA B.gen P.logq P.n sA *
      (modQ P.logq (sampleMatrix T P.nbar P.n r 0)).transpose +
      modQ P.logq (sampleMatrix T P.n P.nbar r (P.n * P.nbar)) := by
    rw [← hBm, toMat_asResult hP.logq_le, htk]
    congr 1
    · congr 2
      refine toMat_noise hP.logq_le fun k hk => ?_
      rw [nW k (by omega), Nat.zero_add]
    · refine toMat_noise hP.logq_le fun k hk => ?_
      rw [nth_drop, nW _ (by omega)]
  simp only [wp]
  refine ⟨by simp; omega, ?_⟩
  rw [fill_take lsA, fill_drop0 lsA]
  refine Ret.bind_eq (frodo_pack_ret hq hP.logq_le (by omega) (by rw [List.length_drop]; omega)) ?_
  have hb : pack P.logq (P.pkBytes - P.seedA) (Bm.take (P.n * P.nbar)) =
      packMat (genA B.gen P.logq P.n sA *
      (modQ P.logq (sampleMatrix T P.nbar P.n r 0)).transpose +
      modQ P.logq (sampleMatrix T P.n P.nbar r (P.n * P.nbar))) := by
    rw [List.take_of_length_le (by omega), pack_toMat hq hP.logq_le (r := P.n) (c := P.nbar) lBm, mBm,
      hpkl, Nat.add_sub_cancel_left]
    rfl
  rw [hb]
  generalize hbb : packMat (genA B.gen P.logq P.n sA *
      (modQ P.logq (sampleMatrix T P.nbar P.n r 0)).transpose +
      modQ P.logq (sampleMatrix T P.n P.nbar r (P.n * P.nbar))) = b
  have lb : b.length = P.pkBytes - P.seedA := by
    rw [← hbb, length_packMat]; omega
  rw [List.drop_drop, show P.seedA + (P.pkBytes - P.seedA) = P.pkBytes by omega, ← List.append_assoc]
  have lpk : (sA ++ b).length = P.pkBytes := by rw [List.length_append]; omega
  simp only [wp, List.take_zero, List.drop_zero, List.nil_append, Nat.zero_add]
  refine ⟨by omega, by omega, by simp; omega, by simp; omega, ?_⟩
  rw [fill_take (X := sA ++ b) lpk]
  have l0 : (R'.take P.bytes).length = P.bytes := by rw [List.length_take]; omega
  rw [fill_take l0, fill_drop _ l0]
  refine Ret.bind_eq (toLeLoop_ret (by omega)) ?_
  have lS : (R'.take P.bytes ++ (sA ++ b)).length = P.bytes + P.pkBytes := by
    rw [List.length_append]; omega
  have lS2 : ((W.take (P.n * P.nbar)).map (UINT16_TO_LE B.arch) ++ W.drop (P.n * P.nbar)).length =
      2 * (P.n * P.nbar) := by
    simp; omega
  rw [Ret_memcpy_bind]
  refine ⟨by rw [length_toBytes, lS2]; omega, by rw [List.length_append, List.length_drop]; omega, ?_⟩
  rw [fill_take lS, fill_drop _ lS, List.drop_zero, toBytes_append, toBytes_swap]
  have lW1 : (toBytes .le (W.take (P.n * P.nbar))).length = 2 * (P.n * P.nbar) := by
    rw [length_toBytes, List.length_take]; omega
  rw [List.take_left' lW1]
  have hSt : encodeS (sampleMatrix T P.nbar P.n r 0) = toBytes .le (W.take (P.n * P.nbar)) := by
    refine encodeS_eq _ (by rw [List.length_take]; omega) fun i j => ?_
    have := idx_lt i.isLt j.isLt
    rw [nth_take, if_pos (by omega), nW _ (by omega)]
    show _ = BitVec.ofInt 16 (sample T (word16 r (0 + _)))
    rw [Nat.zero_add]
  rw [← hSt]
  have lE := length_encodeS (sampleMatrix T P.nbar P.n r 0)
  have l3 : (R'.take P.bytes ++ (sA ++ b) ++ encodeS (sampleMatrix T P.nbar P.n r 0)).length =
      P.bytes + P.pkBytes + 2 * (P.n * P.nbar) := by
    rw [List.length_append, lS, lE]; omega
  rw [Ret_atPtr_bind]
  refine ⟨by rw [List.length_append, List.length_drop]; omega, ?_⟩
  rw [fill_take l3, fill_drop0 l3]
  refine Ret.bind_eq (shake_ret (by rw [List.length_append]; omega)
    (by rw [List.length_drop]; omega)) ?_
  rw [fill_take lpk, List.drop_drop]
  refine Ret.bind_eq (clearWords_ret (by omega)) ?_
  have lS4 : (List.replicate (P.n * P.nbar) (0 : U16) ++
      (((W.take (P.n * P.nbar)).map (UINT16_TO_LE B.arch) ++ W.drop (P.n * P.nbar))).drop
        (P.n * P.nbar)).length = 2 * (P.n * P.nbar) := by
    simp; omega
  rw [List.take_zero, List.nil_append, Nat.zero_add]
  refine Ret.bind_eq (clearWords_ret (by omega)) ?_
  rw [fill_take (X := List.replicate (P.n * P.nbar) (0 : U16)) (by simp),
    List.drop_eq_nil_of_le (as := List.replicate (P.n * P.nbar) (0 : U16) ++ _) (by omega),
    List.append_nil, ← List.replicate_add]
  refine Ret.bind_eq (clear_bytes_ret (by omega)) ?_
  refine Ret.bind_eq (clear_bytes_ret (by simp; omega)) ?_
  simp only [wp]
  have hkg : keygen (P.kem (genA B.gen P.logq P.n)) (R'.take P.bytes) sd (R'.drop (2 * P.bytes)) =
      (sA ++ b, R'.take P.bytes ++ (sA ++ b) ++ encodeS (sampleMatrix T P.nbar P.n r 0) ++
        P.shake.fn (sA ++ b) P.bytes) := by
    rw [keygen_eq, hsA, hT, e2, hr, hbb]
  rw [hkg]
  refine ⟨rfl, ?_, ?_, trivial, ?_, trivial⟩
  · rw [hskl, e2]; simp only [List.append_assoc]
  · rw [Nat.two_mul]
  · rw [List.drop_eq_nil_of_le (by simp; omega), List.append_nil]

end Frodo
