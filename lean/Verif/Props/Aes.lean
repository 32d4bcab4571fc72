import Verif.Proof.AesNi

/-! # Properties of the AES code -/

namespace Frodo.Props

open C

/-- C37 (AES-128): loading the schedule of a 16-byte key and encrypting one block with the portable
code gives the FIPS 197 cipher, for every key, block, previous contents of the schedule and output
buffers; bytes beyond the block are untouched. -/
theorem C37_aes128 (J : Junk) (key rk inp out : List U8) (hk : key.length = 16)
    (hrk : rk.length = 176) (hi : 16 ≤ inp.length) (ho : 16 ≤ out.length) :
    Ret (do let rk ← aes128_load_schedule_c J key rk; aes128_enc_c inp rk out)
      (· = Spec.AES128 key (inp.take 16) ++ out.drop 16) := by
  have h1 := AES128_load_schedule_ret (I := .c) (J := J) (a := 0) (key := key) (rk := rk)
    (by intro h; cases h) (by omega) (by omega)
  refine h1.bind_eq ?_
  rw [AES128_take]
  exact aes128_enc_ret (I := .c) (a := 0) (by intro h; cases h) hi ho

example := C37_aes128 (fun _ _ => 9) (List.replicate 16 3) (List.replicate 176 7)
  (List.replicate 16 5) (List.replicate 17 6) (by rw [List.length_replicate] <;> decide) (by rw [List.length_replicate] <;> decide) (by rw [List.length_replicate] <;> decide) (by rw [List.length_replicate] <;> decide)

/-- C37 (AES-256). -/
theorem C37_aes256 (J : Junk) (key rk inp out : List U8) (hk : key.length = 32)
    (hrk : rk.length = 240) (hi : 16 ≤ inp.length) (ho : 16 ≤ out.length) :
    Ret (do let rk ← aes256_load_schedule_c J key rk; aes256_enc_c inp rk out)
      (· = Spec.AES256 key (inp.take 16) ++ out.drop 16) := by
  have h1 := AES256_load_schedule_ret (I := .c) (J := J) (a := 0) (key := key) (rk := rk)
    (by intro h; cases h) (by omega) (by omega)
  refine h1.bind_eq ?_
  rw [AES256_take]
  exact aes256_enc_ret (I := .c) (a := 0) (by intro h; cases h) hi ho

example := C37_aes256 (fun _ _ => 9) (List.replicate 32 3) (List.replicate 240 7)
  (List.replicate 16 5) (List.replicate 17 6) (by rw [List.length_replicate] <;> decide) (by rw [List.length_replicate] <;> decide) (by rw [List.length_replicate] <;> decide) (by rw [List.length_replicate] <;> decide)

/-- C37 (S-box): the inverse used in the specification of the S-box is the inverse of GF(2^8). -/
theorem C37_inverse (x : U8) (hx : x ≠ 0) : Spec.gmul x (Spec.ginv x) = 1 := gmul_ginv x hx

/-- C38 (key schedules): with a 16-byte aligned buffer, the AES-NI key schedule leaves the same bytes
in memory as the portable one. -/
theorem C38_schedule128 (J : Junk) (a : Nat) (key rk : List U8) (ha : a % 16 = 0)
    (hk : 16 ≤ key.length) (hrk : 176 ≤ rk.length) :
    ∃ v, Ret (aes128_load_schedule_ni a key rk) (· = v) ∧
      Ret (aes128_load_schedule_c J key rk) (· = v) :=
  ⟨_, aes128_load_schedule_ni_ret ha hk hrk,
    AES128_load_schedule_ret (I := .c) (a := 0) (by intro h; cases h) hk hrk⟩

/-- C38 (key schedules, 256 bit). -/
theorem C38_schedule256 (J : Junk) (a : Nat) (key rk : List U8) (ha : a % 16 = 0)
    (hk : 32 ≤ key.length) (hrk : 240 ≤ rk.length) :
    ∃ v, Ret (aes256_load_schedule_ni a key rk) (· = v) ∧
      Ret (aes256_load_schedule_c J key rk) (· = v) :=
  ⟨_, aes256_load_schedule_ni_ret ha hk hrk,
    AES256_load_schedule_ret (I := .c) (a := 0) (by intro h; cases h) hk hrk⟩

/-- C38 (encryption): for every contents of the schedule (also one that is not an expanded key) both
back ends encrypt a block to the same bytes. -/
theorem C38_enc128 (a : Nat) (inp sch out : List U8) (ha : a % 16 = 0) (hi : 16 ≤ inp.length)
    (hs : 176 ≤ sch.length) (ho : 16 ≤ out.length) :
    ∃ v, Ret (aes128_enc_ni a inp sch out) (· = v) ∧ Ret (aes128_enc_c inp sch out) (· = v) :=
  ⟨_, aes128_enc_ni_ret ha hi hs ho, aes128_enc_c_ret hi hs ho⟩

/-- C38 (encryption, 256 bit). -/
theorem C38_enc256 (a : Nat) (inp sch out : List U8) (ha : a % 16 = 0) (hi : 16 ≤ inp.length)
    (hs : 240 ≤ sch.length) (ho : 16 ≤ out.length) :
    ∃ v, Ret (aes256_enc_ni a inp sch out) (· = v) ∧ Ret (aes256_enc_c inp sch out) (· = v) :=
  ⟨_, aes256_enc_ni_ret ha hi hs ho, aes256_enc_c_ret hi hs ho⟩

/-- C38: the AES-NI schedule is not correct at an address that is not a multiple of 16 (the code
does not request the alignment, it relies on the ABI). -/
theorem C38_misaligned (a : Nat) (key rk : List U8) (ha : a % 16 ≠ 0) (hk : 16 ≤ key.length) :
    aes128_load_schedule_ni a key rk = .ub .misaligned := by
  unfold aes128_load_schedule_ni mm_loadu mm_put require
  simp [hk, ha, bind_def, pure_def, bind', emit]

example := C38_misaligned 8 (List.replicate 16 3) (List.replicate 176 7) (by decide) (by rw [List.length_replicate] <;> decide)

example := C38_schedule128 (fun _ _ => 9) 32 (List.replicate 16 3) (List.replicate 176 7)
  (by decide) (by rw [List.length_replicate] <;> decide) (by rw [List.length_replicate] <;> decide)

example := C38_schedule256 (fun _ _ => 9) 32 (List.replicate 32 3) (List.replicate 240 7)
  (by decide) (by rw [List.length_replicate] <;> decide) (by rw [List.length_replicate] <;> decide)

example := C38_enc128 32 (List.replicate 16 3) (List.replicate 176 7) (List.replicate 16 0)
  (by decide) (by rw [List.length_replicate] <;> decide) (by rw [List.length_replicate] <;> decide) (by rw [List.length_replicate] <;> decide)

example := C38_enc256 32 (List.replicate 16 3) (List.replicate 240 7) (List.replicate 16 0)
  (by decide) (by rw [List.length_replicate] <;> decide) (by rw [List.length_replicate] <;> decide) (by rw [List.length_replicate] <;> decide)

/-- C39 (separate buffers): with the schedule of `key` in memory, `AES128_ECB_enc_sch` encrypts each
of the `n` blocks with AES-128 and leaves the rest of the output buffer alone. -/
theorem C39_ecb128 (I : AesImpl) (J : Junk) (a n : Nat) (key rk pt ct : List U8)
    (ha : I.aligned a) (hk : key.length = 16) (hrk : rk.length = 176)
    (hpt : 16 * n ≤ pt.length) (hct : 16 * n ≤ ct.length) :
    Ret (do let rk ← AES128_load_schedule I J a key rk
            AES128_ECB_enc_sch I a pt (16 * n) rk ct)
      (· = Spec.ecb (Spec.AES128 key) n pt ++ ct.drop (16 * n)) :=
  (AES128_load_schedule_ret ha (by omega) (by omega)).bind_eq (AES128_ECB_ret ha hpt hct)

/-- C39 (in place), as `frodo_macrify_reference.c` calls it. -/
theorem C39_ecb128_inplace (I : AesImpl) (J : Junk) (a n : Nat) (key rk buf : List U8)
    (ha : I.aligned a) (hk : key.length = 16) (hrk : rk.length = 176)
    (hb : 16 * n ≤ buf.length) :
    Ret (do let rk ← AES128_load_schedule I J a key rk
            AES128_ECB_enc_sch_inplace I a (16 * n) rk buf)
      (· = Spec.ecb (Spec.AES128 key) n buf ++ buf.drop (16 * n)) :=
  (AES128_load_schedule_ret ha (by omega) (by omega)).bind_eq (AES128_ECB_inplace_ret ha hb)

/-- C39 (AES-256, used by the test generator). -/
theorem C39_ecb256 (I : AesImpl) (J : Junk) (a n : Nat) (key rk pt ct : List U8)
    (ha : I.aligned a) (hk : key.length = 32) (hrk : rk.length = 240)
    (hpt : 16 * n ≤ pt.length) (hct : 16 * n ≤ ct.length) :
    Ret (do let rk ← AES256_load_schedule I J a key rk
            AES256_ECB_enc_sch I a pt (16 * n) rk ct)
      (· = Spec.ecb (Spec.AES256 key) n pt ++ ct.drop (16 * n)) :=
  (AES256_load_schedule_ret ha (by omega) (by omega)).bind_eq (AES256_ECB_ret ha hpt hct)

example := C39_ecb128 .ni (fun _ _ => 9) 32 2 (List.replicate 16 3) (List.replicate 176 7)
  (List.replicate 33 5) (List.replicate 40 6) (fun _ => rfl) (by rw [List.length_replicate] <;> decide) (by rw [List.length_replicate] <;> decide) (by rw [List.length_replicate] <;> decide) (by rw [List.length_replicate] <;> decide)

example := C39_ecb128_inplace .c (fun _ _ => 9) 7 2 (List.replicate 16 3) (List.replicate 176 7)
  (List.replicate 33 5) (by intro h; cases h) (by rw [List.length_replicate] <;> decide) (by rw [List.length_replicate] <;> decide) (by rw [List.length_replicate] <;> decide)

example := C39_ecb256 .c (fun _ _ => 9) 7 1 (List.replicate 32 3) (List.replicate 240 7)
  (List.replicate 16 5) (List.replicate 16 6) (by intro h; cases h) (by rw [List.length_replicate] <;> decide) (by rw [List.length_replicate] <;> decide) (by rw [List.length_replicate] <;> decide)
  (by rw [List.length_replicate] <;> decide)

/-- C39: the assertion fails if and only if the length is not a multiple of 16 (given buffers large
enough). -/
theorem C39_assert (I : AesImpl) (a len : Nat) (key l pt ct : List U8) (ha : I.aligned a)
    (hpt : len ≤ pt.length) (hct : len ≤ ct.length) :
    AES128_ECB_enc_sch I a pt len (schedBytes 4 44 key ++ l) ct = .ub .assertFailed ↔
      len % 16 ≠ 0 := by
  constructor
  · intro h h0
    have := AES128_ECB_ret (I := I) (a := a) (n := len / 16) (pt := pt) (ct := ct) (key := key)
      (l := l) ha (by omega) (by omega)
    rw [show 16 * (len / 16) = len by omega] at this
    obtain ⟨x, t, h1, _⟩ := this
    rw [h] at h1
    cases h1
  · intro h
    unfold AES128_ECB_enc_sch require
    rw [if_neg h]
    rfl

example := C39_assert .c 7 17 (List.replicate 16 3) [] (List.replicate 20 5) (List.replicate 20 6)
  (by intro h; cases h) (by rw [List.length_replicate] <;> decide) (by rw [List.length_replicate] <;> decide)

/-- C46: freeing a schedule zeroes exactly its 176 bytes. -/
theorem C46_free128 (sch : List U8) (h : 176 ≤ sch.length) :
    Ret (AES128_free_schedule sch) (· = List.replicate 176 0 ++ sch.drop 176) := by
  unfold AES128_free_schedule
  rw [Ret_memset]
  exact ⟨h, rfl⟩

/-- C46: freeing a schedule zeroes exactly its 240 bytes. -/
theorem C46_free256 (sch : List U8) (h : 240 ≤ sch.length) :
    Ret (AES256_free_schedule sch) (· = List.replicate 240 0 ++ sch.drop 240) := by
  unfold AES256_free_schedule
  rw [Ret_memset]
  exact ⟨h, rfl⟩

example := C46_free128 (List.replicate 180 7) (by rw [List.length_replicate] <;> decide)
example := C46_free256 (List.replicate 250 7) (by rw [List.length_replicate] <;> decide)

end Frodo.Props
