import Verif.Proof.OsslFail
import Verif.Props.Kem

/-! # Failures of OpenSSL (C49)

`{ E with ossl := .ok }` is the execution `E` with the same contents of uninitialised objects and the
same addresses, in which OpenSSL does what it is asked for. -/

namespace Frodo.Props
open Frodo Frodo.Spec

/-- C49 for key generation: whatever OpenSSL does, the process is aborted or does exactly what it does
with an OpenSSL that never fails, for all inputs and parameters. -/
theorem C49_keypair (B : Build) (E : Env) (P : Params) (rb : RandomBytes) (pk sk : List U8) :
    crypto_kem_keypair B E P rb pk sk = .ub .aborted ∨
      crypto_kem_keypair B E P rb pk sk = crypto_kem_keypair B { E with ossl := .ok } P rb pk sk :=
  AbortOr.keypair

/-- C49 for encapsulation. -/
theorem C49_enc (B : Build) (E : Env) (P : Params) (rb : RandomBytes) (ct ss pk : List U8) :
    crypto_kem_enc B E P rb ct ss pk = .ub .aborted ∨
      crypto_kem_enc B E P rb ct ss pk = crypto_kem_enc B { E with ossl := .ok } P rb ct ss pk :=
  AbortOr.enc

/-- C49 for decapsulation. -/
theorem C49_dec (B : Build) (E : Env) (P : Params) (skAddr : Nat) (ss ct sk : List U8) :
    crypto_kem_dec B E P skAddr ss ct sk = .ub .aborted ∨
      crypto_kem_dec B E P skAddr ss ct sk = crypto_kem_dec B { E with ossl := .ok } P skAddr ss ct sk :=
  AbortOr.dec

/-- C49, together with C05, C06 and C07: whatever OpenSSL does, a result that is returned is the
specified one. -/
theorem C49_correct {P : Params} {K : KemParams} (B : Build) (E : Env) (rb rb' : RandomBytes)
    (skAddr : Nat) (pk sk pk' ct ss ct' sk' ss' s seedSE z mu : List U8) (hS : Standard P B.gen K)
    (hB : Good B) (ha : AlignedAll B { E with ossl := .ok } P) (hal : skAddr % 2 = 0)
    (hs : s.length = K.len) (hse : seedSE.length = K.len) (hz : z.length = K.lenA)
    (hmu : mu.length = K.len) (hrb : Fills rb (s ++ seedSE ++ z)) (hrb' : Fills rb' mu)
    (hpk : pk.length = P.pkBytes) (hsk : sk.length = P.skBytes) (hpk' : pk'.length = P.pkBytes)
    (hct : ct.length = P.ctBytes) (hss : ss.length = P.bytes)
    (hct' : ct'.length = P.ctBytes) (hsk' : sk'.length = P.skBytes) (hss' : ss'.length = P.bytes) :
    (∀ o t, crypto_kem_keypair B E P rb pk sk = .ok o t → (o.pk, o.sk) = keygen K s seedSE z ∧ o.ret = 0) ∧
    (∀ o t, crypto_kem_enc B E P rb' ct ss pk' = .ok o t → (o.ct, o.ss) = encaps K pk' mu ∧ o.ret = 0) ∧
    (∀ o t, crypto_kem_dec B E P skAddr ss' ct' sk' = .ok o t →
      o.ss = decaps K ct' sk' ∧ o.ret = 0) := by
  refine ⟨fun o t h => ?_, fun o t h => ?_, fun o t h => ?_⟩
  · rcases C49_keypair B E P rb pk sk with h1 | h1
    · rw [h1] at h; cases h
    · obtain ⟨o', t', h2, h3⟩ := C05_keypair B { E with ossl := .ok } rb pk sk s seedSE z hS ha.1 hs hse hz
        hrb (by omega) (by omega)
      rw [← h1, h] at h2
      cases h2
      rw [List.drop_eq_nil_of_le (by omega), List.drop_eq_nil_of_le (by omega), List.append_nil,
        List.append_nil] at h3
      exact ⟨by rw [h3.1, h3.2.1], h3.2.2⟩
  · rcases C49_enc B E P rb' ct ss pk' with h1 | h1
    · rw [h1] at h; cases h
    · obtain ⟨o', t', h2, h3⟩ := C06_enc B { E with ossl := .ok } rb' ct ss pk' mu hS hB ha.2 hmu
        hrb' (by omega) (by omega) (by omega)
      rw [← h1, h] at h2
      cases h2
      rw [List.drop_eq_nil_of_le (by omega), List.drop_eq_nil_of_le (by omega), List.append_nil,
        List.append_nil, List.take_of_length_le (by omega)] at h3
      exact ⟨by rw [h3.1, h3.2.1], h3.2.2⟩
  · rcases C49_dec B E P skAddr ss' ct' sk' with h1 | h1
    · rw [h1] at h; cases h
    · obtain ⟨o', t', h2, h3⟩ := C07_dec B { E with ossl := .ok } skAddr ss' ct' sk' hS hB ha.2 hal
        (by omega) (by omega) (by omega)
      rw [← h1, h] at h2
      cases h2
      rw [List.drop_eq_nil_of_le (by omega), List.append_nil, List.take_of_length_le (by omega),
        List.take_of_length_le (by omega)] at h3
      exact h3

/-- C49, a failure is noticed: if one of the three functions of OpenSSL fails whenever it is called, then
all three functions abort instead of returning. -/
theorem C49_aborts {P : Params} {K : KemParams} (B : Build) (E : Env) (L : OsslCode)
    (rb rb' : RandomBytes)
    (skAddr : Nat) (pk sk pk' ct ss ct' sk' ss' s seedSE z mu : List U8) (hS : Standard P B.gen K)
    (hB : Good B) (ha : AlignedAll B { E with ossl := .ok } P) (hal : skAddr % 2 = 0)
    (hs : s.length = K.len) (hse : seedSE.length = K.len) (hz : z.length = K.lenA)
    (hmu : mu.length = K.len) (hrb : Fills rb (s ++ seedSE ++ z)) (hrb' : Fills rb' mu)
    (hpk : pk.length = P.pkBytes) (hsk : sk.length = P.skBytes) (hpk' : pk'.length = P.pkBytes)
    (hct : ct.length = P.ctBytes) (hss : ss.length = P.bytes)
    (hct' : ct'.length = P.ctBytes) (hsk' : sk'.length = P.skBytes) (hss' : ss'.length = P.bytes)
    (hg : B.gen = .aes) (hL : B.aes = .openssl L)
    (hO : (∀ d, E.ossl.new d = false) ∨ (∀ k, E.ossl.init .aes_128_ecb k = false) ∨
      ∀ k d, E.ossl.update .aes_128_ecb k d = false) :
    crypto_kem_keypair B E P rb pk sk = .ub .aborted ∧
    crypto_kem_enc B E P rb' ct ss pk' = .ub .aborted ∧
    crypto_kem_dec B E P skAddr ss' ct' sk' = .ub .aborted := by
  have hn : 0 < P.n := by cases hS <;> decide
  refine ⟨?_, ?_, ?_⟩
  · obtain ⟨o, t, h, -⟩ := C05_keypair B { E with ossl := .ok } rb pk sk s seedSE z hS ha.1 hs hse hz
      hrb (by omega) (by omega)
    exact Aborts.keypair hn hg hL hO o t h
  · obtain ⟨o, t, h, -⟩ := C06_enc B { E with ossl := .ok } rb' ct ss pk' mu hS hB ha.2 hmu
      hrb' (by omega) (by omega) (by omega)
    exact Aborts.enc hn hg hL hO o t h
  · obtain ⟨o, t, h, -⟩ := C07_dec B { E with ossl := .ok } skAddr ss' ct' sk' hS hB ha.2 hal
      (by omega) (by omega) (by omega)
    exact Aborts.dec hn hg hL hO o t h

/-- An OpenSSL that never leaks and, in `Ebad`, has no memory left. -/
def quiet : OsslCode := ⟨fun _ _ => [], fun _ _ _ => []⟩

def Ebad : Env := { E0 with ossl := ⟨fun _ => false, fun _ _ => true, fun _ _ _ => true⟩ }

/-- Both alternatives of C49 occur, and all hypotheses of C49_aborts can be met. -/
example : (crypto_kem_dec ⟨.le, .generic, .openssl quiet, .aes⟩ Ebad frodo640 0 (List.replicate 16 0)
      (List.replicate 9720 7) (List.replicate 19888 9) = .ub .aborted) ∧
    ∃ o t, crypto_kem_dec ⟨.le, .generic, .openssl quiet, .aes⟩ E0 frodo640 0 (List.replicate 16 0)
      (List.replicate 9720 7) (List.replicate 19888 9) = .ok o t := by
  have ha : AlignedAll ⟨.le, .generic, .openssl quiet, .aes⟩ E0 frodo640 :=
    (E0_all _)
  have hl : ∀ n (x : U8), (List.replicate n x).length = n := fun _ _ => List.length_replicate
  constructor
  · exact (C49_aborts ⟨.le, .generic, .openssl quiet, .aes⟩ Ebad quiet
      (rbConst (List.replicate 16 1 ++ List.replicate 16 2 ++ List.replicate 16 3))
      (rbConst (List.replicate 16 1)) 0 (List.replicate 9616 0) (List.replicate 19888 0)
      (List.replicate 9616 5) (List.replicate 9720 0) (List.replicate 16 0) (List.replicate 9720 7)
      (List.replicate 19888 9) (List.replicate 16 0) (List.replicate 16 1) (List.replicate 16 2)
      (List.replicate 16 3) (List.replicate 16 1) (.frodo640 _) (.inr rfl) ha rfl (hl _ _) (hl _ _)
      (hl _ _) (hl _ _) (fills_const _) (fills_const _) (hl _ _) (hl _ _) (hl _ _) (hl _ _) (hl _ _)
      (hl _ _) (hl _ _) (hl _ _) rfl rfl (.inl fun _ => rfl)).2.2
  · obtain ⟨o, t, h, -⟩ := C07_dec ⟨.le, .generic, .openssl quiet, .aes⟩ E0 0 (List.replicate 16 0)
      (List.replicate 9720 7) (List.replicate 19888 9) (.frodo640 _) (.inr rfl) ha.2 rfl
      (Nat.le_of_eq (hl _ _).symm) (Nat.le_of_eq (hl _ _).symm) (Nat.le_of_eq (hl _ _).symm)
    exact ⟨o, t, h⟩

/-- The hypotheses of C49_correct hold for every OpenSSL, whether it works or not. -/
example (B : Build) (O : OsslRun) : AlignedAll B { { E0 with ossl := O } with ossl := .ok } frodo640 :=
  show AlignedAll B E0 frodo640 from (E0_all _)

end Frodo.Props
