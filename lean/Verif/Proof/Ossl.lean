import Verif.Model.Ossl
import Verif.Proof.AesNi

/-! # The AES back ends, OpenSSL included, compute AES -/

namespace Frodo

open Spec

theorem Ret_leak_bind {β : Type} {t : List Event} {f : Unit → C β} {P : β → Prop} :
    Ret (C.ok () t >>= f) P ↔ Ret (f ()) P := by
  rw [Ret_bind_iff]
  constructor
  · rintro ⟨a, t, h, hp⟩; exact hp
  · intro h; exact ⟨(), t, rfl, h⟩

theorem keyWord_take {Nk : Nat} (hN : 0 < Nk) (key : List U8) (i : Nat) :
    keyWord Nk (key.take (4 * Nk)) i = keyWord Nk key i := by
  induction i using Nat.strong_induction_on with
  | _ i ih =>
    rw [keyWord.eq_1 Nk (key.take (4 * Nk)), keyWord.eq_1 Nk key]
    by_cases h : i < Nk
    · rw [dif_pos (Or.inl h), dif_pos (Or.inl h)]
      funext j
      rw [nth_take, if_pos (by omega)]
    · rw [dif_neg (by omega), dif_neg (by omega), ih (i - 1) (by omega), ih (i - Nk) (by omega)]

theorem AES128_key_take (key block : List U8) : AES128 (key.take 16) block = AES128 key block := by
  unfold AES128 aes
  rw [show keyWord 4 (key.take 16) = keyWord 4 key from
    funext (keyWord_take (Nk := 4) (by omega) key)]

theorem AES256_key_take (key block : List U8) : AES256 (key.take 32) block = AES256 key block := by
  unfold AES256 aes
  rw [show keyWord 8 (key.take 32) = keyWord 8 key from
    funext (keyWord_take (Nk := 8) (by omega) key)]

theorem evp_block (c : EvpCipher) (key : List U8) : c.block (key.take c.keyLen) = c.block key := by
  cases c
  · exact funext (AES128_key_take key)
  · exact funext (AES256_key_take key)

/-- All calls of OpenSSL succeed. -/
def OsslRun.works (O : OsslRun) : Prop :=
  (∀ d, O.new d = true) ∧ (∀ c k, O.init c k = true) ∧ ∀ c k d, O.update c k d = true

theorem OsslRun.works_ok : OsslRun.ok.works := ⟨fun _ => rfl, fun _ _ => rfl, fun _ _ _ => rfl⟩

theorem evpSetup_ret {L : OsslCode} {O : OsslRun} {c : EvpCipher} {key data : List U8} (hO : O.works)
    (hk : c.keyLen ≤ key.length) :
    Ret (evpSetup L O c key data) (· = ⟨some (c, key.take c.keyLen)⟩) := by
  unfold evpSetup EVP_CIPHER_CTX_new EVP_EncryptInit_ex
  simp only [wp, hO.1, hO.2.1, if_true, Ret_leak_bind]
  exact ⟨hk, by simp [wp]⟩

theorem evpUpdate_ret {L : OsslCode} {O : OsslRun} {c : EvpCipher} {key out inp : List U8} {n : Nat}
    (hO : O.works) (hn : 16 * n < 2 ^ 31) (hi : 16 * n ≤ inp.length) (ho : 16 * n ≤ out.length) :
    Ret (evpUpdate L O ⟨some (c, key.take c.keyLen)⟩ out inp (16 * n))
      (· = ecb (c.block key) n inp ++ out.drop (16 * n)) := by
  unfold evpUpdate EVP_EncryptUpdate
  simp only [wp, hO.2.2, if_true, Ret_leak_bind]
  refine ⟨hn, by omega, hi, ho, ?_⟩
  rw [evp_block, Nat.mul_div_cancel_left _ (by omega : 0 < 16)]
  simp [wp]

/-! ## The choice of the back end -/

/-- What a back end needs: alignment of the schedule for AES-NI, success of the calls for OpenSSL. -/
def AesBackend.ready (A : AesBackend) (O : OsslRun) (a : Nat) : Prop :=
  match A with
  | .standalone I => I.aligned a
  | .openssl _ => O.works

/-- The key schedule of AES128 in the representation of the back end (proof device). -/
def AesBackend.sched128 (A : AesBackend) (key : List U8) : Sched :=
  match A with
  | .standalone _ => .bytes (schedBytes 4 44 key)
  | .openssl _ => .evp ⟨some (.aes_128_ecb, key.take 16)⟩

/-- What remains of the object after it is freed: zero bytes, or nothing. -/
def AesBackend.freed (A : AesBackend) (n : Nat) : Sched :=
  match A with
  | .standalone _ => .bytes (List.replicate n 0)
  | .openssl _ => .gone

theorem setup128_ret {A : AesBackend} {E : Env} {key : List U8}
    (ha : A.ready E.ossl (E.addr .aesSched)) (hk : 16 ≤ key.length) :
    Ret (setup128 A E key) (· = A.sched128 key) := by
  cases A with
  | standalone I =>
    refine (AES128_load_schedule_ret ha hk (by simp)).bind_eq ?_
    simp only [wp]
    rw [List.drop_eq_nil_of_le (by simp), List.append_nil]
    rfl
  | openssl L =>
    refine (evpSetup_ret (c := .aes_128_ecb) ha hk).bind_eq ?_
    simp only [wp]
    rfl

theorem encrypt128_ret {A : AesBackend} {E : Env} {n : Nat} {pt ct key : List U8}
    (ha : A.ready E.ossl (E.addr .aesSched)) (hn : 16 * n < 2 ^ 31)
    (hpt : 16 * n ≤ pt.length) (hct : 16 * n ≤ ct.length) :
    Ret (encrypt128 A E pt (16 * n) (A.sched128 key) ct)
      (· = ecb (AES128 key) n pt ++ ct.drop (16 * n)) := by
  cases A with
  | standalone I =>
    have := AES128_ECB_ret (I := I) (key := key) (l := []) ha hpt hct
    rw [List.append_nil] at this
    exact this
  | openssl L => exact evpUpdate_ret (c := .aes_128_ecb) ha hn hpt hct

theorem encrypt128_inplace_ret {A : AesBackend} {E : Env} {n : Nat} {buf key : List U8}
    (ha : A.ready E.ossl (E.addr .aesSched)) (hn : 16 * n < 2 ^ 31) (hb : 16 * n ≤ buf.length) :
    Ret (encrypt128_inplace A E (16 * n) (A.sched128 key) buf)
      (· = ecb (AES128 key) n buf ++ buf.drop (16 * n)) := by
  cases A with
  | standalone I =>
    have := AES128_ECB_inplace_ret (I := I) (key := key) (l := []) ha hb
    rw [List.append_nil] at this
    exact this
  | openssl L => exact evpUpdate_ret (c := .aes_128_ecb) ha hn hb hb

theorem free128_ret {A : AesBackend} {key : List U8} :
    Ret (free128 A (A.sched128 key)) (· = A.freed 176) := by
  cases A with
  | standalone I =>
    simp only [AesBackend.sched128, free128, AES128_free_schedule, wp]
    refine ⟨by simp [length_schedBytes], ?_⟩
    rw [List.drop_eq_nil_of_le (by simp [length_schedBytes]), List.append_nil]
    rfl
  | openssl L =>
    simp only [AesBackend.sched128, free128, wp]
    rfl

end Frodo
