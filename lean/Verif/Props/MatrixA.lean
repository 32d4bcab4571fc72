import Verif.Proof.ModQ
import Verif.Proof.CtMatrixA
import Verif.Proof.Vectors

/-! # Properties of the products with the public matrix A -/

namespace Frodo.Props

open Spec

/-- C28.  Every build (reference, portable, AVX2; portable AES, AES-NI or SHAKE128; both byte orders)
computes `A*s + e` modulo `2^16`, where `A` is Frodo.Gen of the first 16 bytes of the seed and the
array `s` holds the transposed secret; nothing is written beyond the `n * nbar` outputs. -/
theorem C28_as_plus_e (B : Build) (E : Env) (P : Params) (outAddr eAddr : Nat) (out s e : List U16) (seed : List U8)
    (hP : P.WF) (ha : B.alignedAs E outAddr eAddr) (hseed : 16 ≤ seed.length) (hout : P.n * P.nbar ≤ out.length)
    (hs : P.nbar * P.n ≤ s.length) (he : P.n * P.nbar ≤ e.length) :
    Ret (frodo_mul_add_as_plus_e B E P outAddr eAddr out s e seed)
      (· = ofMat (genA B.gen 16 P.n (seed.take 16) * (toMat 16 P.nbar P.n s).transpose
          + toMat 16 P.n P.nbar e)
        ++ out.drop (P.n * P.nbar)) :=
  frodo_mul_add_as_plus_e_ret hP hseed ha hout hs he

/-- C28 modulo `q`. -/
theorem C28_as_plus_e_mod_q (B : Build) (E : Env) (P : Params) (outAddr eAddr : Nat) (out s e : List U16) (seed : List U8)
    (hP : P.WF) (ha : B.alignedAs E outAddr eAddr) (hseed : 16 ≤ seed.length) (hout : P.n * P.nbar ≤ out.length)
    (hs : P.nbar * P.n ≤ s.length) (he : P.n * P.nbar ≤ e.length) :
    Ret (frodo_mul_add_as_plus_e B E P outAddr eAddr out s e seed) (fun r => toMat P.logq P.n P.nbar r =
      genA B.gen P.logq P.n (seed.take 16) * (toMat P.logq P.nbar P.n s).transpose
        + toMat P.logq P.n P.nbar e) :=
  (frodo_mul_add_as_plus_e_ret hP hseed ha hout hs he).mono fun r h => by
    subst h; exact toMat_asResult hP.logq_le _ _ _ _ _

/-- C29.  On a little-endian target every build, and on a big-endian target the reference build,
computes `s*A + e` modulo `2^16`.  The optimised builds leave the result in `e` as well, the
reference build leaves `e` unchanged. -/
theorem C29_sa_plus_e (B : Build) (E : Env) (P : Params) (eAddr : Nat) (out s e : List U16)
    (seed : List U8) (hP : P.WF) (hB : B.impl = .reference ∨ B.arch = .le) (ha : B.alignedSa E eAddr)
    (hseed : 16 ≤ seed.length) (hout : P.nbar * P.n ≤ out.length) (hs : P.nbar * P.n ≤ s.length)
    (he : P.nbar * P.n ≤ e.length) :
    Ret (frodo_mul_add_sa_plus_e B E P eAddr out s e seed) (fun r =>
      r.1 = ofMat (toMat 16 P.nbar P.n s * genA B.gen 16 P.n (seed.take 16)
          + toMat 16 P.nbar P.n e) ++ out.drop (P.nbar * P.n) ∧
      r.2 = if B.impl = .reference then e else
        ofMat (toMat 16 P.nbar P.n s * genA B.gen 16 P.n (seed.take 16)
          + toMat 16 P.nbar P.n e) ++ e.drop (P.nbar * P.n)) :=
  frodo_mul_add_sa_plus_e_ret hP hB hseed ha hout hs he

/-- C29 modulo `q`. -/
theorem C29_sa_plus_e_mod_q (B : Build) (E : Env) (P : Params) (eAddr : Nat) (out s e : List U16)
    (seed : List U8) (hP : P.WF) (hB : B.impl = .reference ∨ B.arch = .le) (ha : B.alignedSa E eAddr)
    (hseed : 16 ≤ seed.length) (hout : P.nbar * P.n ≤ out.length) (hs : P.nbar * P.n ≤ s.length)
    (he : P.nbar * P.n ≤ e.length) :
    Ret (frodo_mul_add_sa_plus_e B E P eAddr out s e seed) (fun r =>
      toMat P.logq P.nbar P.n r.1 =
        toMat P.logq P.nbar P.n s * genA B.gen P.logq P.n (seed.take 16)
          + toMat P.logq P.nbar P.n e) :=
  (frodo_mul_add_sa_plus_e_ret hP hB hseed ha hout hs he).mono fun r h => by
    rw [h.1]; exact toMat_saResult hP.logq_le _ _ _ _ _

/-- An environment with all objects at addresses that are multiples of 4096 and with an OpenSSL that
works. -/
def E0 : Env := ⟨fun _ _ => 0xA5, fun _ => 4096, .ok⟩

theorem ready_ok (A : AesBackend) {O : OsslRun} {a : Nat} (hO : O = .ok) (ha : a % 16 = 0) :
    A.ready O a := by
  cases A with
  | standalone I => exact fun _ => ha
  | openssl L => exact hO ▸ OsslRun.works_ok

theorem E0_ready (A : AesBackend) : A.ready E0.ossl (E0.addr .aesSched) := ready_ok A rfl rfl

theorem E0_gen (B : Build) : B.alignedGen E0 :=
  ⟨fun _ => E0_ready _, fun _ _ => ⟨rfl, rfl⟩, fun _ _ _ => show 4096 % 2 = 0 from rfl⟩

/-- The hypotheses of C28 and C29 hold in every build for FrodoKEM-640 with the buffer sizes of
kem.c, and fail for AVX2 with SHAKE128 if the tables are at an address that C allows. -/
example (B : Build) : B.alignedAs E0 4096 (4096 + 2 * 640 * 8) ∧ B.alignedSa E0 (4096 + 2 * 640 * 8) ∧ frodo640.WF ∧
    640 * 8 ≤ (List.replicate 5120 (7 : U16)).length ∧
    ¬ Build.alignedGen ⟨.le, .avx2, .c, .shake⟩ ⟨fun _ _ => 0, fun _ => 8, .ok⟩ := by
  refine ⟨⟨E0_gen B, fun _ => ⟨rfl, rfl⟩⟩, ⟨E0_gen B, fun _ => ⟨rfl, rfl⟩⟩, frodo640_WF, ?_, ?_⟩
  · rw [List.length_replicate]
  · intro h
    exact absurd (h.2.1 rfl rfl) (by simp [Env.rhoAligned])

/-- C46 for `A*s + e`: in every build that uses AES, the array that held the expanded key of the seed
consists of zeros when the function returns (with OpenSSL, the context is freed), and the function
computes what C28 says. -/
theorem C46_as_plus_e (B : Build) (E : Env) (P : Params) (outAddr eAddr : Nat) (out s e : List U16) (seed : List U8)
    (hP : P.WF) (hg : B.gen = .aes) (ha : B.alignedGen E) (h32 : outAddr % 4 = 0 ∧ eAddr % 4 = 0) (hseed : 16 ≤ seed.length)
    (hout : P.n * P.nbar ≤ out.length) (hs : P.nbar * P.n ≤ s.length)
    (he : P.n * P.nbar ≤ e.length) :
    Ret (as_plus_e_reference_full B E P out s e seed) (·.2 = B.aes.freed 176) ∧
    Ret (as_plus_e_optimized_full B E P outAddr eAddr out s e seed) (·.2 = B.aes.freed 176) :=
  ⟨(as_plus_e_reference_full_ret hP hseed ha hout hs he).mono fun _ h => h.2 hg,
    (as_plus_e_optimized_full_ret hP hseed ha h32 hout hs he).mono fun _ h => h.2 hg⟩

/-- C46 for `s*A + e`. -/
theorem C46_sa_plus_e (B : Build) (E : Env) (P : Params) (eAddr : Nat) (out s e : List U16)
    (seed : List U8) (hP : P.WF) (hg : B.gen = .aes) (ha : B.alignedSa E eAddr)
    (hseed : 16 ≤ seed.length) (hout : P.nbar * P.n ≤ out.length) (hs : P.nbar * P.n ≤ s.length)
    (he : P.nbar * P.n ≤ e.length) :
    Ret (sa_plus_e_reference_full B E P out s e seed) (·.2 = B.aes.freed 176) ∧
    Ret (sa_plus_e_optimized_full B E P eAddr out s e seed) (·.2 = B.aes.freed 176) :=
  ⟨(sa_plus_e_reference_full_ret hP hseed ha.1 hout hs he).mono fun _ h => h.2 hg,
    (sa_plus_e_optimized_full_ret hP hseed ha hout hs he).mono fun _ h => h.2 hg⟩

/-- C08 for the products with `A`: any two builds with the same generator give the same bytes. -/
theorem C08_products_agree (B B' : Build) (E E' : Env) (P : Params) (outAddr outAddr' eAddr eAddr' : Nat)
    (out s e : List U16) (seed : List U8) (hP : P.WF) (hg : B.gen = B'.gen)
    (hB : B.arch = .le) (hB' : B'.arch = .le) (ha : B.alignedSa E eAddr)
    (ha' : B'.alignedSa E' eAddr') (has : B.alignedAs E outAddr eAddr)
    (has' : B'.alignedAs E' outAddr' eAddr')
    (hseed : 16 ≤ seed.length) (hout : P.nbar * P.n ≤ out.length) (hs : P.nbar * P.n ≤ s.length)
    (he : P.nbar * P.n ≤ e.length) :
    (∃ v, Ret (frodo_mul_add_as_plus_e B E P outAddr eAddr out s e seed) (· = v) ∧
      Ret (frodo_mul_add_as_plus_e B' E' P outAddr' eAddr' out s e seed) (· = v)) ∧
    (∃ v, Ret (frodo_mul_add_sa_plus_e B E P eAddr out s e seed) (·.1 = v) ∧
      Ret (frodo_mul_add_sa_plus_e B' E' P eAddr' out s e seed) (·.1 = v)) := by
  have c := Nat.mul_comm P.n P.nbar
  refine ⟨⟨_, frodo_mul_add_as_plus_e_ret hP hseed has (by omega) hs (by omega),
    (frodo_mul_add_as_plus_e_ret hP hseed has' (by omega) hs (by omega)).of_eq (by rw [hg])⟩,
    ⟨_, (frodo_mul_add_sa_plus_e_ret hP (.inr hB) hseed ha hout hs he).mono fun _ h => h.1,
    (frodo_mul_add_sa_plus_e_ret hP (.inr hB') hseed ha' hout hs he).mono fun _ h => by
      rw [h.1, hg]⟩⟩

/-- C09, `A*s + e`: the byte order of the target does not matter, in every build. -/
theorem C09_as_plus_e (B : Build) (E E' : Env) (P : Params) (outAddr eAddr outAddr' eAddr' : Nat) (out s e : List U16) (seed : List U8)
    (a : Arch) (hP : P.WF) (ha : B.alignedAs E outAddr eAddr) (ha' : B.alignedAs E' outAddr' eAddr')
    (hseed : 16 ≤ seed.length) (hout : P.n * P.nbar ≤ out.length)
    (hs : P.nbar * P.n ≤ s.length) (he : P.n * P.nbar ≤ e.length) :
    ∃ v, Ret (frodo_mul_add_as_plus_e B E P outAddr eAddr out s e seed) (· = v) ∧
      Ret (frodo_mul_add_as_plus_e { B with arch := a } E' P outAddr' eAddr' out s e seed) (· = v) :=
  ⟨_, frodo_mul_add_as_plus_e_ret hP hseed ha hout hs he,
    frodo_mul_add_as_plus_e_ret (B := { B with arch := a }) hP hseed ha' hout hs he⟩

/-- C09, `s*A + e`: the byte order of the target does not matter in the reference build. -/
theorem C09_sa_plus_e_reference (B : Build) (E E' : Env) (P : Params) (eAddr eAddr' : Nat)
    (out s e : List U16) (seed : List U8) (a : Arch) (hP : P.WF) (hB : B.impl = .reference)
    (ha : B.alignedSa E eAddr) (ha' : B.alignedSa E' eAddr')
    (hseed : 16 ≤ seed.length) (hout : P.nbar * P.n ≤ out.length)
    (hs : P.nbar * P.n ≤ s.length) (he : P.nbar * P.n ≤ e.length) :
    ∃ v, Ret (frodo_mul_add_sa_plus_e B E P eAddr out s e seed) (· = v) ∧
      Ret (frodo_mul_add_sa_plus_e { B with arch := a } E' P eAddr' out s e seed) (· = v) := by
  have h : ∀ {B : Build} {E : Env} {eAddr : Nat}, B.impl = .reference → B.alignedSa E eAddr →
      Ret (frodo_mul_add_sa_plus_e B E P eAddr out s e seed)
        (· = (saResult B.gen P seed s e out, e)) := fun hB ha =>
    (frodo_mul_add_sa_plus_e_ret hP (.inl hB) hseed ha hout hs he).mono fun x hx =>
      Prod.ext hx.1 (by rw [hx.2, if_pos hB])
  exact ⟨_, h hB ha, h (B := { B with arch := a }) hB ha'⟩

/-- The integer with the two bytes of a 16-bit integer exchanged. -/
def byteSwap (x : Nat) : Nat := 256 * (x % 256) + x / 256 % 256

/-- C09 is false for the optimised code: on a big-endian target `frodo_mul_add_sa_plus_e` computes
`s*A' + e`, where the bytes of every entry of `A'` are exchanged. -/
theorem C09_sa_plus_e_big_endian (B : Build) (E : Env) (P : Params) (eAddr : Nat)
    (out s e : List U16) (seed : List U8) (hP : P.WF) (hB : B.impl ≠ .reference) (hbe : B.arch = .be)
    (ha : B.alignedSa E eAddr) (hseed : 16 ≤ seed.length) (hout : P.nbar * P.n ≤ out.length)
    (hs : P.nbar * P.n ≤ s.length) (he : P.nbar * P.n ≤ e.length) :
    Ret (frodo_mul_add_sa_plus_e B E P eAddr out s e seed) (fun r => r.1 =
      ofMat (toMat 16 P.nbar P.n s * (Matrix.of fun i j : Fin P.n =>
          (byteSwap (genWord B.gen P.n (seed.take 16) i j) : ZMod (2 ^ 16)))
        + toMat 16 P.nbar P.n e) ++ out.drop (P.nbar * P.n)) := by
  have hsw : ∀ x : Nat, zq 16 (LE_TO_UINT16 B.arch (BitVec.ofNat 16 x)) =
      (byteSwap x : ZMod (2 ^ 16)) := by
    intro x
    have e : LE_TO_UINT16 .be (BitVec.ofNat 16 x) =
        join16 .le (BitVec.ofNat 8 (x / 256)) (BitVec.ofNat 8 x) := by
      rw [← le_join .be]
      congr 1
      have hx := join_bytes .le (BitVec.ofNat 16 x)
      rw [← hx]
      show join16 .le ((BitVec.ofNat 16 x).setWidth 8) ((BitVec.ofNat 16 x >>> 8).setWidth 8) = _
      have e1 : (BitVec.ofNat 16 x).setWidth 8 = BitVec.ofNat 8 x := by
        apply BitVec.eq_of_toNat_eq
        simp only [BitVec.toNat_setWidth, BitVec.toNat_ofNat]
        omega
      have e2 : (BitVec.ofNat 16 x >>> 8).setWidth 8 = BitVec.ofNat 8 (x / 256) := by
        apply BitVec.eq_of_toNat_eq
        simp only [BitVec.toNat_setWidth, BitVec.toNat_ushiftRight, BitVec.toNat_ofNat,
          Nat.shiftRight_eq_div_pow]
        omega
      rw [e1, e2]
      rfl
    rw [hbe, e]
    unfold zq byteSwap
    rw [toNat_join, BitVec.toNat_ofNat, BitVec.toNat_ofNat, Nat.add_comm]
  have hopt : frodo_mul_add_sa_plus_e B E P eAddr out s e seed =
      sa_plus_e_optimized B E P eAddr out s e seed := by
    unfold frodo_mul_add_sa_plus_e
    cases h : B.impl
    · exact absurd h hB
    · rfl
    · rfl
  rw [hopt]
  refine (sa_plus_e_optimized_ret hP hseed ha hout hs he).mono fun r h => ?_
  rw [h.1]
  unfold saMem wordM
  simp only [hsw]

/-- C09, a concrete failure: with the all-zero seed, AES and a single non-zero secret, the portable
optimised code gives different results on the two byte orders, for FrodoKEM-640. -/
theorem C09_counterexample : ∃ (s e out : List U16) (seed : List U8),
    s.length = 5120 ∧ e.length = 5120 ∧ out.length = 5120 ∧ seed.length = 16 ∧
    ∃ v w, v ≠ w ∧
      Ret (frodo_mul_add_sa_plus_e ⟨.le, .generic, .c, .aes⟩ E0 frodo640 0 out s e seed) (·.1 = v) ∧
      Ret (frodo_mul_add_sa_plus_e ⟨.be, .generic, .c, .aes⟩ E0 frodo640 0 out s e seed)
        (·.1 = w) := by
  have hl : (List.replicate 5120 (0 : U16)).length = 5120 := List.length_replicate
  have hk : (List.replicate 16 (0 : U8)).length = 16 := List.length_replicate
  have hl' : ((1 : U16) :: List.replicate 5119 (0 : U16)).length = 5120 := by
    rw [List.length_cons, List.length_replicate]
  have hn : frodo640.nbar * frodo640.n = 5120 := rfl
  refine ⟨1 :: List.replicate 5119 0, List.replicate 5120 0, List.replicate 5120 0,
    List.replicate 16 0, hl', hl, hl, hk, _, _, ?_,
    (C29_sa_plus_e ⟨.le, .generic, .c, .aes⟩ E0 frodo640 0 _ _ _ _ frodo640_WF (.inr rfl)
      (by simp [Build.alignedSa, Build.alignedGen, AesBackend.ready, AesImpl.aligned]) (by omega) (by omega)
      (by omega) (by omega)).mono fun _ h => h.1,
    C09_sa_plus_e_big_endian ⟨.be, .generic, .c, .aes⟩ E0 frodo640 0 _ _ _ _ frodo640_WF
      (fun h => nomatch h) rfl
      (by simp [Build.alignedSa, Build.alignedGen, AesBackend.ready, AesImpl.aligned]) (by omega) (by omega)
      (by omega) (by omega)⟩
  intro h
  have h' := congrArg (toMat 16 frodo640.nbar frodo640.n) h
  rw [toMat_ofMat (le_refl 16), toMat_ofMat (le_refl 16)] at h'
  have h2 := add_right_cancel h'
  have h3 := congrFun (congrFun h2 ⟨0, by decide⟩) ⟨0, by decide⟩
  rw [Matrix.mul_apply, Matrix.mul_apply] at h3
  have hs : ∀ (f : Fin frodo640.n → ZMod (2 ^ 16)),
      ∑ j, toMat 16 frodo640.nbar frodo640.n (1 :: List.replicate 5119 0) ⟨0, by decide⟩ j * f j =
        f ⟨0, by decide⟩ := by
    intro f
    rw [Finset.sum_eq_single ⟨0, by decide⟩]
    · rw [toMat_apply]
      show zq 16 1 * _ = _
      simp [zq]
    · intro j _ hj
      have hj0 : j.val ≠ 0 := fun h => hj (Fin.ext h)
      rw [toMat_apply]
      have : nth ((1 : U16) :: List.replicate 5119 0) (0 * frodo640.n + j.val) = 0 := by
        rw [Nat.zero_mul, Nat.zero_add]
        obtain ⟨k, hk⟩ := Nat.exists_eq_succ_of_ne_zero hj0
        rw [hk]
        show nth (List.replicate 5119 (0 : U16)) k = 0
        rw [nth_replicate]
        split <;> rfl
      rw [this]
      simp [zq]
    · intro h
      exact absurd (Finset.mem_univ _) h
  rw [hs, hs] at h3
  have hw : genWord .aes frodo640.n ((List.replicate 16 0).take 16) 0 0 = 0xe966 := by
    unfold genWord
    have e1 : (le16 0 ++ le16 (8 * (0 / 8)) ++ List.replicate 12 0 : List U8) =
      List.replicate 16 0 := by decide
    have e2 : (List.replicate 16 (0 : U8)).take 16 = List.replicate 16 0 := by decide
    simp only [e1, e2, AES128_zero]
    decide
  simp only [genA, Matrix.of_apply] at h3
  rw [hw, ZMod.natCast_eq_natCast_iff'] at h3
  exact absurd h3 (by decide)

/-- C14 for `A*s + e`: the trace does not depend on the secret `s`, the error `e` or anything else
except, with the portable AES and with OpenSSL (of which nothing is known), the public seed. -/
theorem C14_as_plus_e_trace (B : Build) (E E' : Env) (P : Params) (outAddr eAddr outAddr' eAddr' : Nat) (out out' s s' e e' : List U16)
    (seed seed' : List U8) (hP : P.WF) (ha : B.alignedAs E outAddr eAddr) (ha' : B.alignedAs E' outAddr' eAddr')
    (hss : B.gen = .aes → B.aes ≠ .ni → seed.take 16 = seed'.take 16)
    (h1 : 16 ≤ seed.length) (h1' : 16 ≤ seed'.length) (h2 : P.n * P.nbar ≤ out.length)
    (h2' : P.n * P.nbar ≤ out'.length) (h3 : P.nbar * P.n ≤ s.length)
    (h3' : P.nbar * P.n ≤ s'.length) (h4 : P.n * P.nbar ≤ e.length)
    (h4' : P.n * P.nbar ≤ e'.length) :
    ∃ t, traceOf (frodo_mul_add_as_plus_e B E P outAddr eAddr out s e seed) = some t ∧
      traceOf (frodo_mul_add_as_plus_e B E' P outAddr' eAddr' out' s' e' seed') = some t :=
  (frodo_mul_add_as_plus_e_rel hss).trace_eq (frodo_mul_add_as_plus_e_ret hP h1 ha h2 h3 h4)
    (frodo_mul_add_as_plus_e_ret hP h1' ha' h2' h3' h4')

/-- C14 for `s*A + e`. -/
theorem C14_sa_plus_e_trace (B : Build) (E E' : Env) (P : Params) (eAddr eAddr' : Nat)
    (out out' s s' e e' : List U16) (seed seed' : List U8) (hP : P.WF)
    (hB : B.impl = .reference ∨ B.arch = .le) (ha : B.alignedSa E eAddr)
    (ha' : B.alignedSa E' eAddr')
    (hss : B.gen = .aes → B.aes ≠ .ni → seed.take 16 = seed'.take 16)
    (h1 : 16 ≤ seed.length) (h1' : 16 ≤ seed'.length) (h2 : P.nbar * P.n ≤ out.length)
    (h2' : P.nbar * P.n ≤ out'.length) (h3 : P.nbar * P.n ≤ s.length)
    (h3' : P.nbar * P.n ≤ s'.length) (h4 : P.nbar * P.n ≤ e.length)
    (h4' : P.nbar * P.n ≤ e'.length) :
    ∃ t, traceOf (frodo_mul_add_sa_plus_e B E P eAddr out s e seed) = some t ∧
      traceOf (frodo_mul_add_sa_plus_e B E' P eAddr' out' s' e' seed') = some t :=
  (frodo_mul_add_sa_plus_e_rel hss).trace_eq
    (frodo_mul_add_sa_plus_e_ret hP hB h1 ha h2 h3 h4)
    (frodo_mul_add_sa_plus_e_ret hP hB h1' ha' h2' h3' h4')

/-- The portable AES does leak its key through the S-box lookups: two seeds with different traces.
So the hypothesis on the seeds is needed (the seed is public). -/
theorem C14_aes_leaks_key : traceOf (aes128_load_schedule_c (fun _ _ => 0) (List.replicate 16 0)
      (List.replicate 176 0)) ≠
    traceOf (aes128_load_schedule_c (fun _ _ => 0) (List.replicate 16 1) (List.replicate 176 0)) := by
  decide +kernel

end Frodo.Props
