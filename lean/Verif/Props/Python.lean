import Verif.Proof.PyDecode
import Verif.Props.Kem

/-! # The C code and the Python reference implementation -/

namespace Frodo.Props

open Spec

/-- The construction of a `FrodoKEM` object (/repo/python3/frodokem.py:19-157), the generator of `A`,
and the specified KEM that belongs to them. -/
inductive StandardPy : C Py.Obj → MatGen → KemParams → Prop where
  | frodo640 (g : MatGen) : StandardPy (Py.frodo640 g) g (Frodo640 g)
  | frodo976 (g : MatGen) : StandardPy (Py.frodo976 g) g (Frodo976 g)
  | frodo1344 (g : MatGen) : StandardPy (Py.frodo1344 g) g (Frodo1344 g)

theorem frodo640_obj (g : MatGen) : Ret (Py.frodo640 g) (· = Py.objOf (Frodo640 g) g) := by
  unfold Py.frodo640
  refine Ret.bind_eq (v := [4643, 13363, 20579, 25843, 29227, 31145, 32103, 32525, 32689, 32745, 32762, 32766, 32767]) ⟨_, _, by with_unfolding_all rfl, rfl⟩ ?_
  refine ⟨_, _, rfl, ?_⟩
  beta_reduce
  rw [Py.objOf, Py.Obj.mk.injEq]
  refine ⟨?_, ?_, ?_, ?_, ?_, ?_, ?_, ?_, ?_, ?_, ?_, ?_, ?_, ?_, ?_, ?_, ?_, ?_, ?_, ?_, ?_⟩
  iterate 15 rfl
  · rw [KemParams.lenB]
    exact (by decide : 19888 = 16 + (16 + 15 * 640 * 8 / 8) + 2 * 640 * 8 + 16)
  · rw [KemParams.lenB]; exact (by decide : 9616 = 16 + 15 * 640 * 8 / 8)
  · rw [KemParams.lenB, KemParams.lenC]
    exact (by decide : 9720 = 15 * 640 * 8 / 8 + 15 * 8 * 8 / 8)
  iterate 3 rfl

theorem frodo976_obj (g : MatGen) : Ret (Py.frodo976 g) (· = Py.objOf (Frodo976 g) g) := by
  unfold Py.frodo976
  refine Ret.bind_eq (v := [5638, 15915, 23689, 28571, 31116, 32217, 32613, 32731, 32760, 32766, 32767]) ⟨_, _, by with_unfolding_all rfl, rfl⟩ ?_
  refine ⟨_, _, rfl, ?_⟩
  beta_reduce
  rw [Py.objOf, Py.Obj.mk.injEq]
  refine ⟨?_, ?_, ?_, ?_, ?_, ?_, ?_, ?_, ?_, ?_, ?_, ?_, ?_, ?_, ?_, ?_, ?_, ?_, ?_, ?_, ?_⟩
  iterate 15 rfl
  · rw [KemParams.lenB]
    exact (by decide : 31296 = 24 + (16 + 16 * 976 * 8 / 8) + 2 * 976 * 8 + 24)
  · rw [KemParams.lenB]; exact (by decide : 15632 = 16 + 16 * 976 * 8 / 8)
  · rw [KemParams.lenB, KemParams.lenC]
    exact (by decide : 15744 = 16 * 976 * 8 / 8 + 16 * 8 * 8 / 8)
  iterate 3 rfl

theorem frodo1344_obj (g : MatGen) : Ret (Py.frodo1344 g) (· = Py.objOf (Frodo1344 g) g) := by
  unfold Py.frodo1344
  refine Ret.bind_eq (v := [9142, 23462, 30338, 32361, 32725, 32765, 32767]) ⟨_, _, by with_unfolding_all rfl, rfl⟩ ?_
  refine ⟨_, _, rfl, ?_⟩
  beta_reduce
  rw [Py.objOf, Py.Obj.mk.injEq]
  refine ⟨?_, ?_, ?_, ?_, ?_, ?_, ?_, ?_, ?_, ?_, ?_, ?_, ?_, ?_, ?_, ?_, ?_, ?_, ?_, ?_, ?_⟩
  iterate 15 rfl
  · rw [KemParams.lenB]
    exact (by decide : 43088 = 32 + (16 + 16 * 1344 * 8 / 8) + 2 * 1344 * 8 + 32)
  · rw [KemParams.lenB]; exact (by decide : 21520 = 16 + 16 * 1344 * 8 / 8)
  · rw [KemParams.lenB, KemParams.lenC]
    exact (by decide : 21632 = 16 * 1344 * 8 / 8 + 16 * 8 * 8 / 8)
  iterate 3 rfl

theorem StandardPy.obj {mk : C Py.Obj} {g : MatGen} {K : KemParams} (h : StandardPy mk g K) :
    Ret mk (· = Py.objOf K g) := by
  cases h
  · exact frodo640_obj _
  · exact frodo976_obj _
  · exact frodo1344_obj _

theorem StandardPy.pwf {mk : C Py.Obj} {g : MatGen} {K : KemParams} (h : StandardPy mk g K) :
    Py.PWF K g := by
  cases h
  · exact { (Standard.frodo640 g).kwf with
      n_pos := (by decide : 0 < 640), nbar_pos := (by decide : 0 < 8), n8 := (by decide : 8 ∣ 640)
      n_le := (by decide : 640 ≤ 65536), lenA16 := rfl, T_le := (by decide : 13 ≤ 32767), A := rfl }
  · exact { (Standard.frodo976 g).kwf with
      n_pos := (by decide : 0 < 976), nbar_pos := (by decide : 0 < 8), n8 := (by decide : 8 ∣ 976)
      n_le := (by decide : 976 ≤ 65536), lenA16 := rfl, T_le := (by decide : 11 ≤ 32767), A := rfl }
  · exact { (Standard.frodo1344 g).kwf with
      n_pos := (by decide : 0 < 1344), nbar_pos := (by decide : 0 < 8), n8 := (by decide : 8 ∣ 1344)
      n_le := (by decide : 1344 ≤ 65536), lenA16 := rfl, T_le := (by decide : 7 ≤ 32767), A := rfl }

/-- C45, key generation.  On the bytes that `randombytes` delivers to the C code, the Python code
computes the keys of Algorithm 12. -/
theorem C45_python_keygen {mk : C Py.Obj} {g : MatGen} {K : KemParams} (hY : StandardPy mk g K)
    (s seedSE z : List U8) (hs : s.length = K.len) (hse : seedSE.length = K.len)
    (hz : z.length = K.lenA) :
    Ret (mk >>= fun o => Py.kem_keygen o (s ++ seedSE ++ z)) (· = keygen K s seedSE z) :=
  Ret.bind_eq hY.obj (Py.kem_keygen_ret hY.pwf hs hse hz)

/-- C45, encapsulation: Algorithm 13. -/
theorem C45_python_encaps {mk : C Py.Obj} {g : MatGen} {K : KemParams} (hY : StandardPy mk g K)
    (pk mu : List U8) (hpk : pk.length = K.lenA + K.lenB) (hmu : mu.length = K.len) :
    Ret (mk >>= fun o => Py.kem_encaps o pk mu) (· = encaps K pk mu) :=
  Ret.bind_eq hY.obj (Py.kem_encaps_ret hY.pwf hpk hmu)

/-- C45, decapsulation: Algorithm 14 with a decoder that rounds halves to the even neighbour. -/
theorem C45_python_decaps {mk : C Py.Obj} {g : MatGen} {K : KemParams} (hY : StandardPy mk g K)
    (sk ct : List U8) (hct : ct.length = K.lenB + K.lenC)
    (hsk : sk.length = K.len + (K.lenA + K.lenB) + 2 * K.n * K.nbar + K.len) :
    Ret (mk >>= fun o => Py.kem_decaps o sk ct) (· = decapsWith K (decodeEven K.B) ct sk) :=
  Ret.bind_eq hY.obj (Py.kem_decaps_ret hY.pwf hct hsk)

/-- C45.  The C code, in any build, and the Python code generate the same keys from the same
randomness. -/
theorem C45_keygen {mk : C Py.Obj} {P : Params} {K : KemParams} (B : Build) (E : Env)
    (rb : RandomBytes) (pk sk s seedSE z : List U8) (hS : Standard P B.gen K)
    (hY : StandardPy mk B.gen K) (ha : AlignedKeypair B E P)
    (hs : s.length = K.len) (hse : seedSE.length = K.len) (hz : z.length = K.lenA)
    (hrb : Fills rb (s ++ seedSE ++ z)) (hpk : pk.length = P.pkBytes) (hsk : sk.length = P.skBytes) :
    Ret (do
      let o ← mk
      let p ← Py.kem_keygen o (s ++ seedSE ++ z)
      let c ← crypto_kem_keypair B E P rb pk sk
      pure (p, c)) (fun r => r.2.pk = r.1.1 ∧ r.2.sk = r.1.2) := by
  refine Ret.bind_eq hY.obj (Ret.bind_eq (Py.kem_keygen_ret hY.pwf hs hse hz) ?_)
  refine (C05_keypair B E rb pk sk s seedSE z hS ha hs hse hz hrb (by omega) (by omega)).bind
    fun c hc => ?_
  rw [List.drop_eq_nil_of_le (by omega), List.append_nil, List.drop_eq_nil_of_le (by omega),
    List.append_nil] at hc
  exact ⟨_, _, rfl, hc.1, hc.2.1⟩

/-- C45.  The C code, in any good build, and the Python code compute the same ciphertext and shared
secret from the same public key and message. -/
theorem C45_encaps {mk : C Py.Obj} {P : Params} {K : KemParams} (B : Build) (E : Env)
    (rb : RandomBytes) (ct ss pk mu : List U8) (hS : Standard P B.gen K)
    (hY : StandardPy mk B.gen K) (hB : Good B) (ha : AlignedKem B E P)
    (hmu : mu.length = K.len) (hrb : Fills rb mu)
    (hpk : pk.length = P.pkBytes) (hct : ct.length = P.ctBytes) (hss : ss.length = P.bytes) :
    Ret (do
      let o ← mk
      let p ← Py.kem_encaps o pk mu
      let c ← crypto_kem_enc B E P rb ct ss pk
      pure (p, c)) (fun r => r.2.ct = r.1.1 ∧ r.2.ss = r.1.2) := by
  refine Ret.bind_eq hY.obj (Ret.bind_eq
    (Py.kem_encaps_ret hY.pwf (by rw [hpk, hS.pkLen]) hmu) ?_)
  refine (C06_enc B E rb ct ss pk mu hS hB ha hmu hrb (by omega) (by omega) (by omega)).bind
    fun c hc => ?_
  rw [List.drop_eq_nil_of_le (by omega), List.append_nil, List.drop_eq_nil_of_le (by omega),
    List.append_nil, List.take_of_length_le (by omega)] at hc
  exact ⟨_, _, rfl, hc.1, hc.2.1⟩

/-- C45.  The decoders of C and of Python differ on a matrix exactly if an entry lies half-way
between an even quotient and the next one. -/
theorem C45_decoders {P : Params} {g : MatGen} {K : KemParams} (hS : Standard P g K)
    (M : Matrix (Fin K.nbar) (Fin K.nbar) (ZMod (2 ^ K.D))) :
    decodeEven K.B M = decode K.B M ↔ ∀ i j, ¬halfAboveEven K.D K.B (M i j).val :=
  decodeEven_eq_iff hS.kwf.B_pos hS.kwf.B_lt (hS.kwf.nbar8.mul_right _) M

/-- C45.  The C code, in any good build, and the Python code decapsulate to the same shared secret,
for all secret keys and ciphertexts for which no entry of `C - B'S` lies half-way between an even
quotient and the next one. -/
theorem C45_decaps {mk : C Py.Obj} {P : Params} {K : KemParams} (B : Build) (E : Env) (skAddr : Nat)
    (ss ct sk : List U8) (hS : Standard P B.gen K) (hY : StandardPy mk B.gen K) (hB : Good B)
    (ha : AlignedKem B E P) (hal : skAddr % 2 = 0)
    (hss : ss.length = P.bytes) (hct : ct.length = P.ctBytes) (hsk : sk.length = P.skBytes)
    (hm : ∀ i j, ¬halfAboveEven K.D K.B (decapsM K ct (parseSk K sk).St i j).val) :
    Ret (do
      let o ← mk
      let p ← Py.kem_decaps o sk ct
      let c ← crypto_kem_dec B E P skAddr ss ct sk
      pure (p, c)) (fun r => r.2.ss = r.1) := by
  refine Ret.bind_eq hY.obj (Ret.bind_eq
    (Py.kem_decaps_ret hY.pwf (by rw [hct, hS.ctLen]) (by rw [hsk, hS.skLen])) ?_)
  refine (C07_dec B E skAddr ss ct sk hS hB ha hal (by omega) (by omega) (by omega)).bind
    fun c hc => ?_
  rw [List.drop_eq_nil_of_le (by omega), List.append_nil, List.take_of_length_le (by omega),
    List.take_of_length_le (by omega)] at hc
  refine ⟨_, _, rfl, ?_⟩
  show c.ss = _
  rw [hc.1]
  unfold decapsWith
  simp only
  rw [(C45_decoders hS _).2 hm]
  rfl

/-- C45, the other side: for every secret key there is a ciphertext that C and Python decode to
different messages. -/
theorem C45_decoders_differ {P : Params} {g : MatGen} {K : KemParams} (hS : Standard P g K)
    (sk : List U8) : ∃ ct, ct.length = P.ctBytes ∧
      decodeEven K.B (decapsM K ct (parseSk K sk).St) ≠ decode K.B (decapsM K ct (parseSk K sk).St) := by
  have hk := hS.kwf
  let M : Matrix (Fin K.nbar) (Fin K.n) (ZMod (2 ^ K.D)) ×
      Matrix (Fin K.nbar) (Fin K.nbar) (ZMod (2 ^ K.D)) :=
    (0, Matrix.of fun _ _ => ((2 ^ (K.D - K.B - 1) : Nat) : ZMod (2 ^ K.D)))
  have e : decapsM K (packMat M.1 ++ packMat M.2) (parseSk K sk).St = M.2 := by
    unfold decapsM
    rw [parseCt_pack hk]
    show M.2 - 0 * _ = M.2
    rw [Matrix.zero_mul, sub_zero]
  refine ⟨packMat M.1 ++ packMat M.2, ?_, ?_⟩
  · rw [hS.ctLen, List.length_append, length_packMat, length_packMat, KemParams.lenB, KemParams.lenC,
      show K.D * K.nbar * K.n = K.D * K.n * K.nbar by ring]
  · rw [e, Ne, C45_decoders hS]
    have hn : 0 < K.nbar := by cases hS <;> exact (by decide : 0 < 8)
    intro h
    refine h ⟨0, hn⟩ ⟨0, hn⟩ ((halfAboveEven_iff hk.B_lt).2 ⟨0, ?_⟩)
    show (((2 ^ (K.D - K.B - 1) : Nat) : ZMod (2 ^ K.D))).val = _
    rw [ZMod.val_natCast, Nat.mod_eq_of_lt (Nat.pow_lt_pow_right (by omega) (by have := hk.B_lt; omega))]
    omega

/-- C45, honest ciphertexts: Python recovers the message if and only if each entry of the noise is
congruent to an integer of the closed interval for even parts of the message and of the open interval
for odd parts, where C needs the same half-open interval for all (`C01_decrypts_iff`). -/
theorem C45_python_decrypts_iff {P : Params} {K : KemParams} {g : MatGen} (hS : Standard P g K)
    (s seedSE z mu : List U8) (hs : s.length = K.len) (hmu : mu.length = K.len) :
    decodeEven K.B (decapsM K (encaps K (keygen K s seedSE z).1 mu).1
      (parseSk K (keygen K s seedSE z).2).St) = mu ↔
    ∀ i j : Fin K.nbar, tolerableEven K.D K.B (msgPart K.B mu (i * K.nbar + j)) ((totalNoise K seedSE (deriveSeeds K
      (K.shake (keygen K s seedSE z).1 K.len) mu).1 i j : ℤ) : ZMod (2 ^ K.D)) := by
  have hk := hS.kwf
  have h := decapsM_encrypt hk s seedSE z mu
    (deriveSeeds K (K.shake (keygen K s seedSE z).1 K.len) mu).1
  have e : (encaps K (keygen K s seedSE z).1 mu).1 =
      packMat (encrypt K (keygen K s seedSE z).1 mu
        (deriveSeeds K (K.shake (keygen K s seedSE z).1 K.len) mu).1).1 ++
      packMat (encrypt K (keygen K s seedSE z).1 mu
        (deriveSeeds K (K.shake (keygen K s seedSE z).1 K.len) mu).1).2 := rfl
  rw [parse_keygen hk hs]
  simp only
  rw [e, h, decodeEven_encode_iff hk.B_pos hk.B_lt (hk.nbar8.mul_right _) _ _ (by rw [hmu, hk.len])]
  rfl

/-- On the boundary: an odd part with noise `-q/2^(B+1)` is decoded to itself by C and to the
predecessor by Python; an even part with noise `q/2^(B+1)` is decoded to the successor by C and to itself
by Python (here for FrodoKEM-640). -/
example : dc 15 2 (1 * 2 ^ 13 - 2 ^ 12) = 1 ∧ dcEven 15 2 (1 * 2 ^ 13 - 2 ^ 12) = 0 ∧
    dc 15 2 (2 * 2 ^ 13 + 2 ^ 12) = 3 ∧ dcEven 15 2 (2 * 2 ^ 13 + 2 ^ 12) = 2 := by
  rw [dc_eq (by omega), dc_eq (by omega), dcEven_floor (by omega), dcEven_floor (by omega)]
  decide

/-- The hypothesis of `C45_decaps` is met, for instance, by a ciphertext of zeros under any secret key. -/
example (sk : List U8) (i j : Fin 8) : ¬halfAboveEven 15 2
    (decapsM (Frodo640 .shake) (packMat (0 : Matrix (Fin 8) (Fin 640) (ZMod (2 ^ 15))) ++
      packMat (0 : Matrix (Fin 8) (Fin 8) (ZMod (2 ^ 15)))) (parseSk (Frodo640 .shake) sk).St i j).val := by
  have e := parseCt_pack (K := Frodo640 .shake) (Standard.frodo640 .shake).kwf (0, 0)
  unfold decapsM
  simp only at e
  rw [show parseCt (Frodo640 .shake) (packMat (0 : Matrix (Fin 8) (Fin 640) (ZMod (2 ^ 15))) ++
      packMat (0 : Matrix (Fin 8) (Fin 8) (ZMod (2 ^ 15)))) = (0, 0) from e]
  rw [Matrix.zero_mul, sub_zero, halfAboveEven_iff (by omega)]
  rintro ⟨k, hk⟩
  have h0 : (0 : ZMod (2 ^ 15)).val = (4 * k + 1) * 2 ^ (15 - 2 - 1) := hk
  rw [ZMod.val_zero] at h0
  omega

/-- C45, interoperation.  Keys generated by the C code; encapsulation by Python; the shared secret is
recovered by C and by Python alike if the noise is strictly within bounds. -/
theorem C45_interop {mk : C Py.Obj} {P : Params} {K : KemParams} (B B' : Build) (E E' : Env)
    (rb : RandomBytes) (skAddr : Nat) (pk sk ss s seedSE z mu : List U8)
    (hS : Standard P B.gen K) (hY : StandardPy mk B.gen K) (hg : B'.gen = B.gen)
    (hB : Good B') (ha : AlignedKeypair B E P) (ha' : AlignedKem B' E' P) (hal : skAddr % 2 = 0)
    (hs : s.length = K.len) (hse : seedSE.length = K.len) (hz : z.length = K.lenA)
    (hmu : mu.length = K.len) (hrb : Fills rb (s ++ seedSE ++ z))
    (hpk : pk.length = P.pkBytes) (hsk : sk.length = P.skBytes) (hss : ss.length = P.bytes)
    (hn : ∀ i j, |2 ^ (K.B + 1) * totalNoise K seedSE (deriveSeeds K
      (K.shake (keygen K s seedSE z).1 K.len) mu).1 i j| < (2 ^ K.D : ℤ)) :
    Ret (do
      let kp ← crypto_kem_keypair B E P rb pk sk
      let o ← mk
      let en ← Py.kem_encaps o kp.pk mu
      let py ← Py.kem_decaps o kp.sk en.1
      let c ← crypto_kem_dec B' E' P skAddr ss en.1 kp.sk
      pure (en.2, py, c.ss)) (fun r => r.2.1 = r.1 ∧ r.2.2 = r.1) := by
  have hS' : Standard P B'.gen K := by rw [hg]; exact hS
  have hk := hS.kwf
  have lpk : (keygen K s seedSE z).1.length = P.pkBytes := by
    rw [length_keygen_pk hk, hS.pkLen]
  have lsk : (keygen K s seedSE z).2.length = P.skBytes := by
    rw [length_keygen_sk hk hs, hS.skLen]
  have lct : (encaps K (keygen K s seedSE z).1 mu).1.length = P.ctBytes := by
    rw [length_encaps_ct, hS.ctLen]
  have hd := decaps_encaps hk (z := z) hs hmu
    (fun i j => ⟨_, (abs_lt.1 (hn i j)).1.le, (abs_lt.1 (hn i j)).2, rfl⟩)
  have hpy := (C45_python_decrypts_iff hS s seedSE z mu hs hmu).2 (fun i j =>
    ⟨_, rfl, fun _ => ⟨(abs_lt.1 (hn i j)).1.le, (abs_lt.1 (hn i j)).2.le⟩, fun _ => abs_lt.1 (hn i j)⟩)
  have hc := (C01_decrypts_iff hS s seedSE z mu hmu).2
    (fun i j => ⟨_, (abs_lt.1 (hn i j)).1.le, (abs_lt.1 (hn i j)).2, rfl⟩)
  have heq : decapsWith K (decodeEven K.B) (encaps K (keygen K s seedSE z).1 mu).1
      (keygen K s seedSE z).2 = (encaps K (keygen K s seedSE z).1 mu).2 := by
    rw [← hd, decaps_eq]
    have hc' : decrypt K (encaps K (keygen K s seedSE z).1 mu).1
        (parseSk K (keygen K s seedSE z).2).St = mu := by
      rw [parse_keygen hk hs]; exact hc
    unfold decapsWith
    simp only
    rw [hpy, hc']
  refine (C05_keypair B E rb pk sk s seedSE z hS ha hs hse hz hrb (by omega) (by omega)).bind
    fun kp hkp => ?_
  rw [List.drop_eq_nil_of_le (by omega), List.append_nil, List.drop_eq_nil_of_le (by omega),
    List.append_nil] at hkp
  rw [hkp.1, hkp.2.1]
  refine Ret.bind_eq hY.obj (Ret.bind_eq
    (Py.kem_encaps_ret hY.pwf (by rw [lpk, hS.pkLen]) hmu) (Ret.bind_eq
    (Py.kem_decaps_ret hY.pwf (by rw [lct, hS.ctLen]) (by rw [lsk, hS.skLen])) ?_))
  refine (C07_dec B' E' skAddr ss _ _ hS' hB ha' hal (by omega)
    (by rw [lct]) (by rw [lsk])).bind fun de hde => ?_
  rw [List.drop_eq_nil_of_le (by omega), List.append_nil, List.take_of_length_le (by omega),
    List.take_of_length_le (by omega), hd] at hde
  exact ⟨_, _, rfl, heq, hde.1⟩

end Frodo.Props
