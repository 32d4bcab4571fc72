import Verif.C.Lex
import Verif.Model.NistKat
import Verif.Proof.NistVector
import Verif.Props.Kat
import Verif.Props.Python

/-! # C54: the known answers of the Python code -/

namespace Frodo.Props
open Frodo Frodo.Spec

theorem Ret_of_result {α : Type} {m : C α} {v : α} (h : resultOf m = some v) : Ret m (· = v) := by
  cases m with
  | div => cases h
  | ub u => cases h
  | ok a t =>
    injection h with h
    exact ⟨a, t, rfl, h⟩

/-- A request of another length than that of the next output fails. -/
theorem Rng_wrong_length {r : Py.Rng} {i n : Nat} {x : List U8} {l : List (List U8)}
    (hi : r.current_outputs = some i) (hp : r.possible_outputs[i]? = some (x :: l)) (hn : n ≠ x.length) :
    r.randombytes n = .ub .assertFailed := by
  have hc : Ret (r.choose n) (· = r) := by
    unfold Py.Rng.choose
    rw [Ret_ifC, hi]
    exact ⟨_, [], rfl, rfl⟩
  refine hc.bind_ub ?_
  rintro _ rfl
  rw [hi]
  refine Ret.bind_ub (Q := (· = x :: l)) ?_ ?_
  · unfold rd
    rw [show (some i).getD 0 = i from rfl, hp]
    exact ⟨_, _, rfl, rfl⟩
  rintro _ rfl
  refine Ret.bind_ub (Q := fun _ => True) ⟨(), [], if_pos (by simp), trivial⟩ ?_
  rintro _ -
  refine Ret.bind_ub (Q := (· = x)) ⟨_, _, rfl, rfl⟩ ?_
  rintro _ rfl
  rw [C.require, if_neg hn]
  rfl

/-- The three requests of FrodoKEM, with what the generator of the C tests returns. -/
theorem katRandom {mk : C Py.Obj} {g : MatGen} {K : KemParams} (hY : StandardPy mk g K) :
    ∃ r' r'', Ret (Py.Rng.init.randombytes (2 * K.len + K.lenA)) (· =
      ((drbgGenerate (drbgInit nistSeed (List.replicate 48 0)).1
        (drbgInit nistSeed (List.replicate 48 0)).2 (2 * K.len + K.lenA)).1, r')) ∧
    Ret (r'.randombytes K.len) (· =
      ((drbgGenerate (drbgGenerate (drbgInit nistSeed (List.replicate 48 0)).1
        (drbgInit nistSeed (List.replicate 48 0)).2 (2 * K.len + K.lenA)).2.1
        (drbgGenerate (drbgInit nistSeed (List.replicate 48 0)).1
        (drbgInit nistSeed (List.replicate 48 0)).2 (2 * K.len + K.lenA)).2.2 K.len).1, r'')) ∧
    (∀ n, n ≠ K.len → r'.randombytes n = .ub .assertFailed) ∧
    ∀ n, r''.randombytes n = .ub .assertFailed := by
  rw [kat_init]
  cases hY
  · refine ⟨⟨some 0, Py.Rng.init.possible_outputs.set 0 (((Py.Rng.init).possible_outputs.getD 0 []).drop 1)⟩,
      ⟨some 0, Py.Rng.init.possible_outputs.set 0 []⟩, Ret_of_result ?_, Ret_of_result ?_, fun n hn => ?_,
      fun n => ?_⟩
    · show resultOf (Py.Rng.randombytes _ 48) = some ((drbgGenerate katKey katV 48).1, _)
      rw [kat_gen640]
      kernel_rfl
    · show resultOf (Py.Rng.randombytes _ 16) = some ((drbgGenerate (drbgGenerate katKey katV 48).2.1
        (drbgGenerate katKey katV 48).2.2 16).1, _)
      rw [kat_gen640]
      simp only
      rw [kat_mu640]
      kernel_rfl
    · exact Rng_wrong_length (x := _) (l := []) rfl rfl (by rwa [show List.length _ = 16 by decide +kernel])
    · rfl
  · refine ⟨⟨some 1, Py.Rng.init.possible_outputs.set 1 (((Py.Rng.init).possible_outputs.getD 1 []).drop 1)⟩,
      ⟨some 1, Py.Rng.init.possible_outputs.set 1 []⟩, Ret_of_result ?_, Ret_of_result ?_, fun n hn => ?_,
      fun n => ?_⟩
    · show resultOf (Py.Rng.randombytes _ 64) = some ((drbgGenerate katKey katV 64).1, _)
      rw [kat_gen976]
      kernel_rfl
    · show resultOf (Py.Rng.randombytes _ 24) = some ((drbgGenerate (drbgGenerate katKey katV 64).2.1
        (drbgGenerate katKey katV 64).2.2 24).1, _)
      rw [kat_gen976]
      simp only
      rw [kat_mu976]
      kernel_rfl
    · exact Rng_wrong_length (x := _) (l := []) rfl rfl (by rwa [show List.length _ = 24 by decide +kernel])
    · rfl
  · refine ⟨⟨some 2, Py.Rng.init.possible_outputs.set 2 (((Py.Rng.init).possible_outputs.getD 2 []).drop 1)⟩,
      ⟨some 2, Py.Rng.init.possible_outputs.set 2 []⟩, Ret_of_result ?_, Ret_of_result ?_, fun n hn => ?_,
      fun n => ?_⟩
    · show resultOf (Py.Rng.randombytes _ 80) = some ((drbgGenerate katKey katV 80).1, _)
      rw [kat_gen1344]
      kernel_rfl
    · show resultOf (Py.Rng.randombytes _ 32) = some ((drbgGenerate (drbgGenerate katKey katV 80).2.1
        (drbgGenerate katKey katV 80).2.2 32).1, _)
      rw [kat_gen1344]
      simp only
      rw [kat_mu1344]
      kernel_rfl
    · exact Rng_wrong_length (x := _) (l := []) rfl rfl (by rwa [show List.length _ = 32 by decide +kernel])
    · rfl

/-- C54 (randomness): the outputs written down in nist_kat.py are those of CTR_DRBG with the first seed
of NIST, for the requests of all parameter sets; a third request fails. -/
theorem C54_randombytes {mk : C Py.Obj} {g : MatGen} {K : KemParams} (hY : StandardPy mk g K) (n : Nat) :
    Ret (do
      let (a, r) ← Py.Rng.init.randombytes (2 * K.len + K.lenA)
      let (b, r) ← r.randombytes K.len
      pure ([a, b], r)) (fun o =>
        o.1 = drbgOutputs (drbgInit nistSeed (List.replicate 48 0)).1
          (drbgInit nistSeed (List.replicate 48 0)).2 [2 * K.len + K.lenA, K.len] ∧
        o.2.randombytes n = .ub .assertFailed) := by
  obtain ⟨r', r'', h1, h2, -, h3⟩ := katRandom hY
  refine h1.bind_eq ?_
  simp only
  refine h2.bind_eq ?_
  exact ⟨_, [], rfl, rfl, h3 n⟩

/-- C54 (length of the second request): after the request of key generation, one of another length than
that of `mu` fails. -/
theorem C54_second_length {mk : C Py.Obj} {g : MatGen} {K : KemParams} (hY : StandardPy mk g K) {n : Nat}
    (hn : n ≠ K.len) : Ret (Py.Rng.init.randombytes (2 * K.len + K.lenA)) (fun o =>
      o.2.randombytes n = .ub .assertFailed) := by
  obtain ⟨r', r'', h1, -, h2, -⟩ := katRandom hY
  exact h1.of_eq (h2 n hn)

/-- C54 (other lengths): the first request fails unless it is for 48, 64 or 80 bytes. -/
theorem C54_other_length (n : Nat) (h : n ≠ 48 ∧ n ≠ 64 ∧ n ≠ 80) :
    Py.Rng.init.randombytes n = .ub .assertFailed := by
  have hp : ∀ i, i < 3 → ∃ o x l, nth Py.Rng.init.possible_outputs i = o ∧ o = x :: l ∧
      (x.length = 48 ∨ x.length = 64 ∨ x.length = 80) := by
    intro i hi
    have : i = 0 ∨ i = 1 ∨ i = 2 := by omega
    rcases this with rfl | rfl | rfl <;> exact ⟨_, _, _, rfl, rfl, by decide +kernel⟩
  have hl : Ret (forC 0 Py.Rng.init.possible_outputs.length 1 Py.Rng.init.current_outputs fun i cur => do
        let o ← rd Py.Rng.init.possible_outputs i
        let x ← rd o 0
        ifC (decide (n = x.length)) (pure (some i)) (pure cur)) (· = none) := by
    refine Ret.for1 (fun _ cur => cur = none) rfl ?_ (fun _ h => h)
    rintro i cur hi rfl
    obtain ⟨o, x, l, h1, h2, h3⟩ := hp i hi
    rw [Ret_rd_bind]
    refine ⟨hi, ?_⟩
    rw [h1, h2, Ret_rd_bind]
    refine ⟨by simp, ?_⟩
    rw [nth_cons_zero, Ret_ifC, if_neg (by simp; omega)]
    exact ⟨_, [], rfl, rfl⟩
  unfold Py.Rng.randombytes Py.Rng.choose
  have : ∀ c : C Py.Rng, c = .ub .assertFailed → ∀ f : Py.Rng → C (List U8 × Py.Rng),
      (c >>= f) = .ub .assertFailed := by rintro _ rfl f; rfl
  refine this _ ?_ _
  have h2 := hl.bind_ub (f := fun cur => do
      C.require (cur.isSome = true) .assertFailed
      pure (⟨cur, Py.Rng.init.possible_outputs⟩ : Py.Rng)) (u := .assertFailed) (by rintro _ rfl; rfl)
  unfold ifC
  rw [show Py.Rng.init.current_outputs.isNone = true from rfl]
  simp only [if_true]
  exact Ret.bind_ub (Q := fun _ => True) ⟨_, _, rfl, trivial⟩ fun _ _ => h2

theorem hexUpper_eq (l : List U8) : Py.hexUpper l = hexText l := by
  have h : ∀ b : U8, ([BitVec.ofNat 8 (if b.toNat >>> 4 < 10 then 0x30 + b.toNat >>> 4 else
      0x41 + (b.toNat >>> 4 - 10)), BitVec.ofNat 8 (if b.toNat &&& 0xF < 10 then 0x30 + (b.toNat &&& 0xF) else
      0x41 + ((b.toNat &&& 0xF) - 10))] : List U8) = hexByte b := by decide +kernel
  unfold Py.hexUpper hexText
  simp only
  rw [List.flatMap_def]
  congr 1
  exact List.map_congr_left fun b _ => h b

theorem hexText_inj {a b : List U8} (h : hexText a = hexText b) : a = b := by
  have hl : ∀ l : List U8, (hexText l).length = 2 * l.length := by
    intro l
    induction l with
    | nil => rfl
    | cons x l ih =>
      rw [show hexText (x :: l) = hexByte x ++ hexText l from rfl, List.length_append, ih]
      show 2 + _ = _
      rw [List.length_cons]
      omega
  have e := congrArg List.length h
  rw [hl, hl] at e
  exact beVal_inj (by omega) (by rw [← hexNum_hexText, ← hexNum_hexText, h])

/-- The text that the Python program is to print. -/
def katText (variant : List U8) (a : List U8 × List U8 × List U8 × List U8) : List U8 :=
  txt "===============================================\n".toList ++ variant ++
  txt "\ncount = 0\nseed = <unspecified>\npk = ".toList ++ hexText a.1 ++
  txt "\nsk = ".toList ++ hexText a.2.1 ++
  txt "\nct = ".toList ++ hexText a.2.2.1 ++
  txt "\nss = ".toList ++ hexText a.2.2.2 ++ [10]

/-- C54.  `NISTKAT.run` prints the known answers of the specification for the first seed of NIST; it
fails exactly if the shared secret of Python's decapsulation is another one. -/
theorem C54_run {mk : C Py.Obj} {g : MatGen} {K : KemParams} (hY : StandardPy mk g K)
    (variant : List U8) :
    (decapsWith K (decodeEven K.B) (katSpec K nistSeed).2.2.1 (katSpec K nistSeed).2.1 =
        (katSpec K nistSeed).2.2.2 →
      Ret (mk >>= fun o => Py.run o variant) (· = katText variant (katSpec K nistSeed))) ∧
    (decapsWith K (decodeEven K.B) (katSpec K nistSeed).2.2.1 (katSpec K nistSeed).2.1 ≠
        (katSpec K nistSeed).2.2.2 →
      (mk >>= fun o => Py.run o variant) = .ub .assertFailed) := by
  obtain ⟨r', r'', h1, h2, -⟩ := katRandom hY
  have ek : katSpec K nistSeed = katSpec K nistSeed := rfl
  conv_rhs at ek => unfold katSpec
  simp only at ek
  generalize hG : drbgGenerate (drbgInit nistSeed (List.replicate 48 0)).1
    (drbgInit nistSeed (List.replicate 48 0)).2 (2 * K.len + K.lenA) = G at h1 h2 ek
  have hGl : G.1.length = 2 * K.len + K.lenA := by rw [← hG]; exact (length_drbgGenerate _ _ _).1
  have hmu := (length_drbgGenerate G.2.1 G.2.2 K.len).1
  generalize (drbgGenerate G.2.1 G.2.2 K.len).1 = mu at h2 hmu ek
  have hsp : G.1 = G.1.take K.len ++ (G.1.drop K.len).take K.len ++ G.1.drop (2 * K.len) := by
    rw [Nat.two_mul K.len, ← List.drop_drop, List.append_assoc, List.take_append_drop,
      List.take_append_drop]
  have hs0 : (G.1.take K.len).length = K.len := by rw [List.length_take]; omega
  have hg := Py.kem_keygen_ret (s := G.1.take K.len) (seedSE := (G.1.drop K.len).take K.len)
    (z := G.1.drop (2 * K.len)) hY.pwf hs0
    (by rw [List.length_take, List.length_drop]; omega) (by rw [List.length_drop]; omega)
  rw [← hsp] at hg
  have hkw := hY.pwf.toKWF
  have hpl := length_keygen_pk hkw (G.1.take K.len) ((G.1.drop K.len).take K.len) (G.1.drop (2 * K.len))
  have hkl := length_keygen_sk hkw hs0 ((G.1.drop K.len).take K.len) (G.1.drop (2 * K.len))
  generalize keygen K (G.1.take K.len) ((G.1.drop K.len).take K.len) (G.1.drop (2 * K.len)) = kp
    at hg hpl hkl ek
  have he := Py.kem_encaps_ret (pk := kp.1) (mu := mu) hY.pwf hpl hmu
  have hcl := length_encaps_ct K kp.1 mu
  generalize encaps K kp.1 mu = en at he hcl ek
  have hd := Py.kem_decaps_ret (ct := en.1) (sk := kp.2) hY.pwf hcl hkl
  have hn : (Py.objOf K g).len_s_bytes + (Py.objOf K g).len_seedSE_bytes + (Py.objOf K g).len_z_bytes =
      2 * K.len + K.lenA := by
    show K.len + K.len + K.lenA = _
    omega
  rw [ek]
  simp only
  constructor
  · intro hdec
    refine Ret.bind_eq hY.obj ?_
    unfold Py.run
    rw [hn]
    refine h1.bind_eq (hg.bind_eq ?_)
    refine h2.bind_eq (he.bind_eq ?_)
    refine hd.bind_eq ?_
    rw [hdec, Ret_require_bind]
    refine ⟨rfl, _, [], rfl, ?_⟩
    simp only [hexUpper_eq]
    unfold katText
    simp [Py.ascii, txt]
  · intro hdec
    refine Ret.bind_ub hY.obj ?_
    rintro o rfl
    unfold Py.run
    rw [hn]
    refine h1.bind_ub ?_
    rintro _ rfl
    refine hg.bind_ub ?_
    rintro _ rfl
    refine h2.bind_ub ?_
    rintro _ rfl
    refine he.bind_ub ?_
    rintro _ rfl
    refine hd.bind_ub ?_
    rintro _ rfl
    unfold C.require
    rw [if_neg (by rw [hexUpper_eq, hexUpper_eq]; intro h; exact hdec (hexText_inj h).symm)]
    rfl

/-- C54 (agreement): what the Python program prints are the values of a round of the C test with the
first seed of NIST, in every good build. -/
theorem C54_agree {mk : C Py.Obj} {P : Params} {K : KemParams} (B : Build) (E : Env) (A : AesBackend)
    (a : Nat) (ctx : Drbg) (pk sk ct ss variant : List U8) (hS : Standard P B.gen K)
    (hY : StandardPy mk B.gen K) (hB : Good B)
    (hal : AlignedAll B E P) (ha : A.ready E.ossl a) (hk : ctx.key.length = 32) (hV : ctx.V.length = 16)
    (hpk : pk.length = P.pkBytes) (hsk : sk.length = P.skBytes)
    (hct : ct.length = P.ctBytes) (hss : ss.length = P.bytes)
    (hd : decapsWith K (decodeEven K.B) (katSpec K nistSeed).2.2.1 (katSpec K nistSeed).2.1 =
      (katSpec K nistSeed).2.2.2) :
    Ret (do
      let o ← mk
      let py ← Py.run o variant
      let c ← katRound B E P A a ctx nistSeed pk sk ct ss
      pure (py, c)) (fun r => r.1 = katText variant (r.2.pk, r.2.sk, r.2.ct, r.2.ss)) := by
  have h1 := (C54_run hY variant).1 hd
  rw [← bind_assoc]
  refine h1.bind_eq ?_
  refine (C48_kat B E A a ctx nistSeed pk sk ct ss hS hB hal ha hk hV rfl hpk hsk hct hss).bind ?_
  intro r hr
  exact ⟨_, [], rfl, congrArg (katText variant) hr.symm⟩

/-! ## Concrete cases -/

/-- The lengths of the three parameter sets. -/
example : (2 * (Frodo640 .aes).len + (Frodo640 .aes).lenA = 48 ∧ (Frodo640 .aes).len = 16) ∧
    (2 * (Frodo976 .aes).len + (Frodo976 .aes).lenA = 64 ∧ (Frodo976 .aes).len = 24) ∧
    (2 * (Frodo1344 .aes).len + (Frodo1344 .aes).lenA = 80 ∧ (Frodo1344 .aes).len = 32) :=
  ⟨⟨rfl, rfl⟩, ⟨rfl, rfl⟩, ⟨rfl, rfl⟩⟩

/-- A request for 47 bytes. -/
example : Py.Rng.init.randombytes 47 = .ub .assertFailed := C54_other_length 47 (by decide)

/-- A second request of the wrong length. -/
example : (Py.Rng.init.randombytes 48 >>= fun r => r.2.randombytes 17) = .ub .assertFailed :=
  (C54_second_length (.frodo640 .aes) (n := 17) (by decide)).bind_ub fun _ h => h

example : Py.hexUpper [0x0f, 0xa5] = txt ['0', 'F', 'A', '5'] := by decide

/-- The lines of the answers can be read by the C test. -/
example (d t : List U8) : hexField (txt ['p', 'k', ' ', '=', ' ']) d.length
    (txt ['p', 'k', ' ', '=', ' '] ++ (Py.hexUpper d ++ 10 :: t)) = some (d, t) := by
  rw [hexUpper_eq]
  exact hexField_here rfl

end Frodo.Props
