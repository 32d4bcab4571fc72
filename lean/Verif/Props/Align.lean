import Verif.Proof.Align
import Verif.Props.Kem2

/-! # Alignment: exactly which addresses the library needs -/

namespace Frodo.Props

open Spec

/-- The addresses that the generation of `A` needs, spelled out: the expanded AES key for AES-NI, the
tables of the vectorised Keccak, and the byte arrays `seed_A_separated…` that are accessed as
`uint16_t`. -/
def GenAddresses (B : Build) (E : Env) : Prop :=
  (B.gen = .aes → B.aes = .standalone .ni → E.addr .aesSched % 16 = 0) ∧
  (B.gen = .shake → B.impl = .avx2 → E.addr .rho8 % 32 = 0 ∧ E.addr .rho56 % 32 = 0) ∧
  (B.gen = .shake → E.addr (.sep 0) % 2 = 0) ∧
  (B.gen = .shake → B.impl = .avx2 →
    E.addr (.sep 1) % 2 = 0 ∧ E.addr (.sep 2) % 2 = 0 ∧ E.addr (.sep 3) % 2 = 0)

/-- The AES of the library is used, or none (with OpenSSL see C49). -/
def OwnAes (B : Build) : Prop := ∀ L, B.gen = .aes → B.aes ≠ .openssl L

theorem OwnAes.own {B : Build} (h : OwnAes B) : B.own := by
  intro hg
  cases hA : B.aes with
  | standalone I => exact ⟨I, rfl⟩
  | openssl L => exact absurd hA (h L hg)

theorem gen_iff {B : Build} {E : Env} (hB : OwnAes B) : B.alignedGen E ↔ GenAddresses B E := by
  constructor
  · rintro ⟨h1, h2, h3⟩
    refine ⟨fun hg hA => ?_, fun hg hi => h2 hi hg, fun hg => h3 hg 0 (.inl rfl), fun hg hi =>
      ⟨h3 hg 1 (.inr hi), h3 hg 2 (.inr hi), h3 hg 3 (.inr hi)⟩⟩
    have := h1 hg
    rw [hA] at this
    exact this rfl
  · rintro ⟨h1, h2, h3, h4⟩
    refine ⟨fun hg => ?_, fun hi hg => h2 hg hi, fun hg k hk => ?_⟩
    · obtain ⟨I, hI⟩ := hB.own hg
      rw [hI]
      exact fun h => h1 hg (by rw [hI, h])
    · rcases hk with rfl | hi
      · exact h3 hg
      · obtain ⟨a, b, c⟩ := h4 hg hi
        match k with
        | 0 => exact h3 hg
        | 1 => exact a
        | 2 => exact b
        | 3 => exact c

theorem Safe.needs {α : Type} {m : C α} {Q : Prop} (h : Safe m) (hn : Needs m Q) : Q := by
  cases hm : m with
  | div => exact absurd hm h.1
  | ub u => exact absurd hm (h.2 u)
  | ok a t => exact hn a t hm

theorem standard_sizes {P : Params} {g : MatGen} {K : KemParams} (hS : Standard P g K) :
    168 ≤ 2 * P.n ∧ 0 < P.nbar ∧ 2 * (P.n * P.nbar) % 32 = 0 ∧ P.bytes % 2 = 0 ∧
      (P.bytes + P.pkBytes) % 2 = 0 := by
  cases hS <;> decide

/-- C55.  Key generation is free of undefined behaviour if and only if the generation of `A` has the
addresses it needs and, in the optimised builds, the arrays `B` and `S` of `uint16_t`, which are copied as
`uint32_t`, are at multiples of 4. -/
theorem C55_keypair {P : Params} {K : KemParams} (B : Build) (E : Env) (rb : RandomBytes)
    (pk sk : List U8) (hS : Standard P B.gen K) (hB : OwnAes B) (hrb : Behaves rb)
    (hpk : P.pkBytes ≤ pk.length) (hsk : P.skBytes ≤ sk.length) :
    Safe (crypto_kem_keypair B E P rb pk sk) ↔ GenAddresses B E ∧
      (B.impl ≠ .reference → E.addr .B % 4 = 0 ∧ E.addr .S % 4 = 0) := by
  obtain ⟨h1, h2, h3, -, -⟩ := standard_sizes hS
  have key : AlignedKeypair B E P ↔ GenAddresses B E ∧
      (B.impl ≠ .reference → E.addr .B % 4 = 0 ∧ E.addr .S % 4 = 0) := by
    unfold AlignedKeypair Build.alignedAs
    rw [gen_iff hB, show (E.addr .S + 2 * (P.n * P.nbar)) % 4 = E.addr .S % 4 by omega]
  rw [← key]
  exact ⟨fun h => h.needs (Needs.keypair h1 h2 hB.own), fun h => C11_keypair B E rb pk sk hS h hrb hpk hsk⟩

theorem kem_iff {P : Params} {K : KemParams} {B : Build} {E : Env} (hS : Standard P B.gen K)
    (hB : OwnAes B) : AlignedKem B E P ↔ GenAddresses B E ∧
      (B.impl = .avx2 → E.addr .A % 32 = 0 ∧ E.addr .Sp % 32 = 0) ∧ E.addr .G2in % 2 = 0 := by
  obtain ⟨-, -, h3, h4, -⟩ := standard_sizes hS
  unfold AlignedKem Build.alignedSa
  rw [gen_iff hB, show (E.addr .Sp + 2 * (P.n * P.nbar)) % 32 = E.addr .Sp % 32 by omega,
    show (E.addr .G2in + P.bytes) % 2 = E.addr .G2in % 2 by omega, and_assoc]

/-- C55 for encapsulation: the array `G2in` of bytes, whose second half is accessed as `uint16_t`, must
be at an even address, in every build; with AVX2 the arrays `A` and `Sp` must be at multiples of 32. -/
theorem C55_enc {P : Params} {K : KemParams} (B : Build) (E : Env) (rb : RandomBytes)
    (ct ss pk : List U8) (hS : Standard P B.gen K) (hB : OwnAes B) (hrb : Behaves rb)
    (hpk : P.pkBytes ≤ pk.length) (hct : P.ctBytes ≤ ct.length) (hss : P.bytes ≤ ss.length) :
    Safe (crypto_kem_enc B E P rb ct ss pk) ↔ GenAddresses B E ∧
      (B.impl = .avx2 → E.addr .A % 32 = 0 ∧ E.addr .Sp % 32 = 0) ∧ E.addr .G2in % 2 = 0 := by
  obtain ⟨h1, h2, -⟩ := standard_sizes hS
  rw [← kem_iff hS hB]
  exact ⟨fun h => h.needs (Needs.enc h1 h2 hB.own),
    fun h => C11_enc B E rb ct ss pk hS h hrb hpk hct hss⟩

/-- C55 for decapsulation: in addition, the secret key must be at an even address. -/
theorem C55_dec {P : Params} {K : KemParams} (B : Build) (E : Env) (skAddr : Nat)
    (ss ct sk : List U8) (hS : Standard P B.gen K) (hB : OwnAes B)
    (hss : P.bytes ≤ ss.length) (hct : P.ctBytes ≤ ct.length) (hsk : P.skBytes ≤ sk.length) :
    Safe (crypto_kem_dec B E P skAddr ss ct sk) ↔ (GenAddresses B E ∧
      (B.impl = .avx2 → E.addr .A % 32 = 0 ∧ E.addr .Sp % 32 = 0) ∧ E.addr .G2in % 2 = 0) ∧
      skAddr % 2 = 0 := by
  obtain ⟨h1, h2, -, -, h5⟩ := standard_sizes hS
  rw [← kem_iff hS hB, show skAddr % 2 = (skAddr + (P.bytes + P.pkBytes)) % 2 by omega]
  exact ⟨fun h => h.needs (Needs.dec h1 h2 hB.own),
    fun h => C11_dec B E skAddr ss ct sk hS h.1 (by omega) hss hct hsk⟩

/-- What the declarations of the library guarantee about the addresses if every object is only aligned as
its type and its attributes demand (C11 6.2.8; 1 for `uint8_t`, 2 for `uint16_t`, 8 for `UINT64`, 32 for the arrays with
`ALIGN_HEADER(32)`: /repo/src/kem.c:25-26, 88, 91, 161, 173; /repo/src/frodo_macrify.c:35, 66, 133;
/repo/src/sha3/keccak4x/KeccakP-1600-times4-SIMD256.c:49-50). -/
def DeclaredAlignment (E : Env) : Prop :=
  E.addr .rho8 % 8 = 0 ∧ E.addr .rho56 % 8 = 0 ∧ E.addr .A % 32 = 0 ∧ E.addr .Sp % 32 = 0 ∧
  E.addr .B % 2 = 0 ∧ E.addr .S % 2 = 0

/-- C55, the declarations do not suffice: in every build with the library's own AES, and with any of the
three parameter sets, there is an environment that respects the declared alignment in which encapsulation
is undefined for all inputs. -/
theorem C55_declared_insufficient {P : Params} {K : KemParams} (B : Build)
    (hS : Standard P B.gen K) (hB : OwnAes B) : ∃ E, DeclaredAlignment E ∧
    ∀ rb ct ss pk, Behaves rb → P.pkBytes ≤ pk.length → P.ctBytes ≤ ct.length → P.bytes ≤ ss.length →
      ¬ Safe (crypto_kem_enc B E P rb ct ss pk) := by
  refine ⟨⟨fun _ _ => 0, fun o => if o = .G2in then 4097 else 4096, .ok⟩,
    ⟨rfl, rfl, rfl, rfl, rfl, rfl⟩, fun rb ct ss pk hrb hpk hct hss h => ?_⟩
  have h' := ((C55_enc B _ rb ct ss pk hS hB hrb hpk hct hss).1 h).2.2
  exact absurd h' (by decide)

/-- C55, the portable optimised build with AES: the declared alignment leaves key generation undefined if
`B` is at an address that is 2 modulo 4, and everything else is aligned. -/
theorem C55_keypair_uint32 {K : KemParams} (hS : Standard frodo640 .aes K) (rb : RandomBytes)
    (pk sk : List U8) (hrb : Behaves rb) (hpk : frodo640.pkBytes ≤ pk.length)
    (hsk : frodo640.skBytes ≤ sk.length) :
    ∃ E, DeclaredAlignment E ∧ ¬ Safe (crypto_kem_keypair ⟨.le, .generic, .c, .aes⟩ E frodo640 rb pk sk) ∧
      Safe (crypto_kem_keypair ⟨.le, .reference, .c, .aes⟩ E frodo640 rb pk sk) := by
  refine ⟨⟨fun _ _ => 0, fun o => if o = .B then 4098 else 4096, .ok⟩, ⟨rfl, rfl, rfl, rfl, rfl, rfl⟩, ?_, ?_⟩
  · rw [C55_keypair ⟨.le, .generic, .c, .aes⟩ _ rb pk sk hS (fun _ _ h => nomatch h) hrb hpk hsk]
    exact fun h => absurd (h.2 (fun h => nomatch h)).1 (by decide)
  · rw [C55_keypair ⟨.le, .reference, .c, .aes⟩ _ rb pk sk hS (fun _ _ h => nomatch h) hrb hpk hsk]
    exact ⟨⟨fun _ h => (nomatch h), fun h => (nomatch h), fun h => (nomatch h), fun h => (nomatch h)⟩,
      fun h => absurd rfl h⟩

/-- The conditions of C55 hold in the environment `E0`, in every build with the library's own AES, and
the hypotheses can be met. -/
example (B : Build) (hB : OwnAes B) : GenAddresses B E0 ∧ DeclaredAlignment E0 ∧
    Safe (crypto_kem_dec B E0 frodo976 4096 (List.replicate 24 0) (List.replicate 15744 7)
      (List.replicate 31296 9)) ∧
    ¬ Safe (crypto_kem_dec B E0 frodo976 4097 (List.replicate 24 0) (List.replicate 15744 7)
      (List.replicate 31296 9)) := by
  have h1 : GenAddresses B E0 := (gen_iff hB).1 (E0_gen B)
  have hl : ∀ n (x : U8), (List.replicate n x).length = n := fun _ _ => List.length_replicate
  have key := fun a => C55_dec B E0 a (List.replicate 24 0) (List.replicate 15744 7)
    (List.replicate 31296 9) (.frodo976 _) hB (Nat.le_of_eq (hl _ _).symm)
    (Nat.le_of_eq (hl _ _).symm) (Nat.le_of_eq (hl _ _).symm)
  refine ⟨h1, ⟨rfl, rfl, rfl, rfl, rfl, rfl⟩, ?_, ?_⟩
  · rw [key]
    exact ⟨⟨h1, fun _ => ⟨rfl, rfl⟩, rfl⟩, rfl⟩
  · rw [key]
    exact fun h => absurd h.2 (by decide)

end Frodo.Props
