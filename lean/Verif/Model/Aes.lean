import Verif.C.Junk
import Verif.Spec.Aes

/-! # Model of /repo/src/aes/aes_c.c, /repo/src/aes/aes_ni.c and /repo/src/aes/aes.c

`*state` is the buffer `st` through which the pointer `state` points: `(*state)[i][j]` is byte
`4 * i + j`.  Exclusive or of `uint8_t` values is taken on 8 bits (promotion to `int` and conversion
back do not change it).  The counters `uint8_t i, j, round` and `uint32_t i` stay below 60, so they
are natural numbers. -/

namespace Frodo

open C

/-- `sbox` (/repo/src/aes/aes_c.c:27-44). -/
def sbox : List U8 := [
  0x63, 0x7c, 0x77, 0x7b, 0xf2, 0x6b, 0x6f, 0xc5, 0x30, 0x01, 0x67, 0x2b, 0xfe, 0xd7, 0xab, 0x76,
  0xca, 0x82, 0xc9, 0x7d, 0xfa, 0x59, 0x47, 0xf0, 0xad, 0xd4, 0xa2, 0xaf, 0x9c, 0xa4, 0x72, 0xc0,
  0xb7, 0xfd, 0x93, 0x26, 0x36, 0x3f, 0xf7, 0xcc, 0x34, 0xa5, 0xe5, 0xf1, 0x71, 0xd8, 0x31, 0x15,
  0x04, 0xc7, 0x23, 0xc3, 0x18, 0x96, 0x05, 0x9a, 0x07, 0x12, 0x80, 0xe2, 0xeb, 0x27, 0xb2, 0x75,
  0x09, 0x83, 0x2c, 0x1a, 0x1b, 0x6e, 0x5a, 0xa0, 0x52, 0x3b, 0xd6, 0xb3, 0x29, 0xe3, 0x2f, 0x84,
  0x53, 0xd1, 0x00, 0xed, 0x20, 0xfc, 0xb1, 0x5b, 0x6a, 0xcb, 0xbe, 0x39, 0x4a, 0x4c, 0x58, 0xcf,
  0xd0, 0xef, 0xaa, 0xfb, 0x43, 0x4d, 0x33, 0x85, 0x45, 0xf9, 0x02, 0x7f, 0x50, 0x3c, 0x9f, 0xa8,
  0x51, 0xa3, 0x40, 0x8f, 0x92, 0x9d, 0x38, 0xf5, 0xbc, 0xb6, 0xda, 0x21, 0x10, 0xff, 0xf3, 0xd2,
  0xcd, 0x0c, 0x13, 0xec, 0x5f, 0x97, 0x44, 0x17, 0xc4, 0xa7, 0x7e, 0x3d, 0x64, 0x5d, 0x19, 0x73,
  0x60, 0x81, 0x4f, 0xdc, 0x22, 0x2a, 0x90, 0x88, 0x46, 0xee, 0xb8, 0x14, 0xde, 0x5e, 0x0b, 0xdb,
  0xe0, 0x32, 0x3a, 0x0a, 0x49, 0x06, 0x24, 0x5c, 0xc2, 0xd3, 0xac, 0x62, 0x91, 0x95, 0xe4, 0x79,
  0xe7, 0xc8, 0x37, 0x6d, 0x8d, 0xd5, 0x4e, 0xa9, 0x6c, 0x56, 0xf4, 0xea, 0x65, 0x7a, 0xae, 0x08,
  0xba, 0x78, 0x25, 0x2e, 0x1c, 0xa6, 0xb4, 0xc6, 0xe8, 0xdd, 0x74, 0x1f, 0x4b, 0xbd, 0x8b, 0x8a,
  0x70, 0x3e, 0xb5, 0x66, 0x48, 0x03, 0xf6, 0x0e, 0x61, 0x35, 0x57, 0xb9, 0x86, 0xc1, 0x1d, 0x9e,
  0xe1, 0xf8, 0x98, 0x11, 0x69, 0xd9, 0x8e, 0x94, 0x9b, 0x1e, 0x87, 0xe9, 0xce, 0x55, 0x28, 0xdf,
  0x8c, 0xa1, 0x89, 0x0d, 0xbf, 0xe6, 0x42, 0x68, 0x41, 0x99, 0x2d, 0x0f, 0xb0, 0x54, 0xbb, 0x16]

/-- `Rcon` (/repo/src/aes/aes_c.c:48). -/
def rcon : List U8 := [0x8d, 0x01, 0x02, 0x04, 0x08, 0x10, 0x20, 0x40, 0x80, 0x1b, 0x36]

/-- `getSBoxValue` (/repo/src/aes/aes_c.c:51-54). -/
def getSBoxValue (num : U8) : C U8 := rd sbox num.toNat

/-- `RotWord` and `SubWord` and addition of `Rcon` to `tempa`
(/repo/src/aes/aes_c.c:90-110, 163-183). -/
def schedRot (tempa : List U8) (i Nk : Nat) : C (List U8) := do
  let k ← rd tempa 0
  let tempa ← wr tempa 0 (← rd tempa 1)
  let tempa ← wr tempa 1 (← rd tempa 2)
  let tempa ← wr tempa 2 (← rd tempa 3)
  let tempa ← wr tempa 3 k
  let tempa ← wr tempa 0 (← getSBoxValue (← rd tempa 0))
  let tempa ← wr tempa 1 (← getSBoxValue (← rd tempa 1))
  let tempa ← wr tempa 2 (← getSBoxValue (← rd tempa 2))
  let tempa ← wr tempa 3 (← getSBoxValue (← rd tempa 3))
  let a ← rd tempa 0
  let r ← rd rcon (i / Nk)
  wr tempa 0 (a ^^^ r)

/-- `SubWord` on `tempa` (/repo/src/aes/aes_c.c:115-120, 188-193). -/
def schedSub (tempa : List U8) : C (List U8) := do
  let tempa ← wr tempa 0 (← getSBoxValue (← rd tempa 0))
  let tempa ← wr tempa 1 (← getSBoxValue (← rd tempa 1))
  let tempa ← wr tempa 2 (← getSBoxValue (← rd tempa 2))
  wr tempa 3 (← getSBoxValue (← rd tempa 3))

/-- Body of the second loop of the key schedules (/repo/src/aes/aes_c.c:77-126, 150-199). -/
def schedStep (Nk i : Nat) (s : List U8 × List U8) : C (List U8 × List U8) := do
  let (rk, tempa) := s
  let tempa ← wr tempa 0 (← rd rk ((i - 1) * 4 + 0))
  let tempa ← wr tempa 1 (← rd rk ((i - 1) * 4 + 1))
  let tempa ← wr tempa 2 (← rd rk ((i - 1) * 4 + 2))
  let tempa ← wr tempa 3 (← rd rk ((i - 1) * 4 + 3))
  let tempa ← ifC (i % Nk == 0) (schedRot tempa i Nk) (pure tempa)
  let tempa ← ifC (i % Nk == 4) (schedSub tempa) (pure tempa)
  let rk ← wr rk (i * 4 + 0) ((← rd rk ((i - Nk) * 4 + 0)) ^^^ (← rd tempa 0))
  let rk ← wr rk (i * 4 + 1) ((← rd rk ((i - Nk) * 4 + 1)) ^^^ (← rd tempa 1))
  let rk ← wr rk (i * 4 + 2) ((← rd rk ((i - Nk) * 4 + 2)) ^^^ (← rd tempa 2))
  let rk ← wr rk (i * 4 + 3) ((← rd rk ((i - Nk) * 4 + 3)) ^^^ (← rd tempa 3))
  pure (rk, tempa)

/-- The key schedules, which differ only in the constants `Nk` and `Nr`
(/repo/src/aes/aes_c.c:58-127 and 131-200); `Nb = 4` (/repo/src/aes/aes_c.c:12).
`tempa` is not initialised. -/
def load_schedule_c (J : Junk) (Nk Nr : Nat) (key rk : List U8) : C (List U8) := do
  let rk ← forC 0 Nk 1 rk fun i rk => do
    let rk ← wr rk (i * 4 + 0) (← rd key (i * 4 + 0))
    let rk ← wr rk (i * 4 + 1) (← rd key (i * 4 + 1))
    let rk ← wr rk (i * 4 + 2) (← rd key (i * 4 + 2))
    wr rk (i * 4 + 3) (← rd key (i * 4 + 3))
  let s ← forC Nk (4 * (Nr + 1)) 1 (rk, uninit J 0 8 4) (schedStep Nk)
  pure s.1

/-- `aes128_load_schedule_c` (/repo/src/aes/aes_c.c:58-127). -/
def aes128_load_schedule_c (J : Junk) (key rk : List U8) : C (List U8) :=
  load_schedule_c J 4 10 key rk

/-- `aes256_load_schedule_c` (/repo/src/aes/aes_c.c:131-200). -/
def aes256_load_schedule_c (J : Junk) (key rk : List U8) : C (List U8) :=
  load_schedule_c J 8 14 key rk

/-- `AddRoundKey` (/repo/src/aes/aes_c.c:205-215). -/
def addRoundKey_c (rk : List U8) (round : Nat) (st : List U8) : C (List U8) :=
  forC 0 4 1 st fun i st => forC 0 4 1 st fun j st => do
    let a ← rd st (4 * i + j)
    let k ← rd rk (round * 4 * 4 + i * 4 + j)
    wr st (4 * i + j) (a ^^^ k)

/-- `SubBytes` (/repo/src/aes/aes_c.c:220-230). -/
def subBytes_c (st : List U8) : C (List U8) :=
  forC 0 4 1 st fun i st => forC 0 4 1 st fun j st => do
    let a ← rd st (4 * j + i)
    let v ← getSBoxValue a
    wr st (4 * j + i) v

/-- `ShiftRows` (/repo/src/aes/aes_c.c:236-262). -/
def shiftRows_c (st : List U8) : C (List U8) := do
  let temp ← rd st (4 * 0 + 1)
  let st ← wr st (4 * 0 + 1) (← rd st (4 * 1 + 1))
  let st ← wr st (4 * 1 + 1) (← rd st (4 * 2 + 1))
  let st ← wr st (4 * 2 + 1) (← rd st (4 * 3 + 1))
  let st ← wr st (4 * 3 + 1) temp
  let temp ← rd st (4 * 0 + 2)
  let st ← wr st (4 * 0 + 2) (← rd st (4 * 2 + 2))
  let st ← wr st (4 * 2 + 2) temp
  let temp ← rd st (4 * 1 + 2)
  let st ← wr st (4 * 1 + 2) (← rd st (4 * 3 + 2))
  let st ← wr st (4 * 3 + 2) temp
  let temp ← rd st (4 * 0 + 3)
  let st ← wr st (4 * 0 + 3) (← rd st (4 * 3 + 3))
  let st ← wr st (4 * 3 + 3) (← rd st (4 * 2 + 3))
  let st ← wr st (4 * 2 + 3) (← rd st (4 * 1 + 3))
  wr st (4 * 1 + 3) temp

/-- `xtime` (/repo/src/aes/aes_c.c:265-268). -/
def xtime_c (x : U8) : C U8 := do
  let a ← ishl x 1
  let b ← ishr x 7
  let c ← int (iand b 1 * 0x1b)
  pure (u8 (ixor a c))

/-- Body of the loop of `MixColumns` (/repo/src/aes/aes_c.c:277-284). -/
def mixColumn_c (i : Nat) (st : List U8) : C (List U8) := do
  let t ← rd st (4 * i + 0)
  let tmp := (← rd st (4 * i + 0)) ^^^ (← rd st (4 * i + 1)) ^^^ (← rd st (4 * i + 2)) ^^^
    (← rd st (4 * i + 3))
  let tm ← xtime_c ((← rd st (4 * i + 0)) ^^^ (← rd st (4 * i + 1)))
  let st ← wr st (4 * i + 0) ((← rd st (4 * i + 0)) ^^^ (tm ^^^ tmp))
  let tm ← xtime_c ((← rd st (4 * i + 1)) ^^^ (← rd st (4 * i + 2)))
  let st ← wr st (4 * i + 1) ((← rd st (4 * i + 1)) ^^^ (tm ^^^ tmp))
  let tm ← xtime_c ((← rd st (4 * i + 2)) ^^^ (← rd st (4 * i + 3)))
  let st ← wr st (4 * i + 2) ((← rd st (4 * i + 2)) ^^^ (tm ^^^ tmp))
  let tm ← xtime_c ((← rd st (4 * i + 3)) ^^^ t)
  wr st (4 * i + 3) ((← rd st (4 * i + 3)) ^^^ (tm ^^^ tmp))

/-- `MixColumns` (/repo/src/aes/aes_c.c:272-285). -/
def mixColumns_c (st : List U8) : C (List U8) := forC 0 4 1 st mixColumn_c

/-- `Cipher` (/repo/src/aes/aes_c.c:289-312). -/
def cipher_c (rk : List U8) (Nr : Nat) (st : List U8) : C (List U8) := do
  let st ← addRoundKey_c rk 0 st
  let st ← forC 1 Nr 1 st fun round st => do
    let st ← subBytes_c st
    let st ← shiftRows_c st
    let st ← mixColumns_c st
    addRoundKey_c rk round st
  let st ← subBytes_c st
  let st ← shiftRows_c st
  addRoundKey_c rk Nr st

/-- `aes128_enc_c` (/repo/src/aes/aes_c.c:315-322).  When `input` and `output` are the same pointer
both arguments are the same list; `memcpy` of a block onto itself leaves it unchanged (strictly,
C11 7.24.2.1 does not allow the overlap, see DESIGN.md). -/
def aes128_enc_c (input schedule output : List U8) : C (List U8) := do
  let output ← memcpy output 0 input 0 16
  cipher_c schedule 10 output

/-- `aes256_enc_c` (/repo/src/aes/aes_c.c:325-333). -/
def aes256_enc_c (input schedule output : List U8) : C (List U8) := do
  let output ← memcpy output 0 input 0 16
  cipher_c schedule 14 output

/-! ## AES-NI -/

/-- `__m128i`, as its 16 bytes, least significant first (/repo/src/aes/aes_ni.c:10). -/
abbrev M128 := Fin 16 → U8

/-- Double word `d` of a vector (/repo/src/aes/aes_ni.c:14: `_mm_shuffle_epi32`). -/
def M128.dword (x : M128) (d : Fin 4) : Fin 4 → U8 := fun b => x ⟨4 * d + b, by omega⟩

/-- Vector from its double words (/repo/src/aes/aes_ni.c:14). -/
def M128.ofDwords (f : Fin 4 → Fin 4 → U8) : M128 := fun t => f ⟨t / 4, by omega⟩ ⟨t % 4, by omega⟩

/-- `_mm_xor_si128` (/repo/src/aes/aes_ni.c:11; Intel SDM, PXOR). -/
def mm_xor (a b : M128) : M128 := fun t => a t ^^^ b t

/-- `_mm_slli_si128(a, n)` (/repo/src/aes/aes_ni.c:11; Intel SDM, PSLLDQ): shift left by bytes. -/
def mm_slli (a : M128) (n : Nat) : M128 := fun t =>
  if h : n ≤ t.val then a ⟨t - n, by omega⟩ else 0

/-- `_mm_shuffle_epi32(a, _MM_SHUFFLE(z, y, x, w))` (/repo/src/aes/aes_ni.c:14,23; Intel SDM,
PSHUFD). -/
def mm_shuffle (a : M128) (z y x w : Fin 4) : M128 :=
  M128.ofDwords fun d => a.dword (match d with | 0 => w | 1 => x | 2 => y | 3 => z)

/-- `_mm_aeskeygenassist_si128` (/repo/src/aes/aes_ni.c:28-30; Intel SDM, AESKEYGENASSIST). -/
def mm_keygenassist (a : M128) (imm : U8) : M128 :=
  let rc : Spec.AWord := fun j => if j = 0 then imm else 0
  M128.ofDwords fun d =>
    match d with
    | 0 => Spec.SubWord (a.dword 1)
    | 1 => Spec.xorWord (Spec.RotWord (Spec.SubWord (a.dword 1))) rc
    | 2 => Spec.SubWord (a.dword 3)
    | 3 => Spec.xorWord (Spec.RotWord (Spec.SubWord (a.dword 3))) rc

/-- The AES state held in a vector (/repo/src/aes/aes_ni.c:74; Intel SDM, AES data structure). -/
def M128.state (a : M128) : Spec.AState := fun r c => a.dword c r

/-- The vector that holds an AES state (/repo/src/aes/aes_ni.c:74). -/
def M128.ofState (s : Spec.AState) : M128 := M128.ofDwords fun c r => s r c

/-- `_mm_aesenc_si128` (/repo/src/aes/aes_ni.c:74; Intel SDM, AESENC). -/
def mm_aesenc (a k : M128) : M128 :=
  mm_xor (M128.ofState (Spec.MixColumns (Spec.SubBytes (Spec.ShiftRows a.state)))) k

/-- `_mm_aesenclast_si128` (/repo/src/aes/aes_ni.c:76; Intel SDM, AESENCLAST). -/
def mm_aesenclast (a k : M128) : M128 :=
  mm_xor (M128.ofState (Spec.SubBytes (Spec.ShiftRows a.state))) k

/-- `_mm_loadu_si128(p + off)` (/repo/src/aes/aes_ni.c:34; Intel SDM, MOVDQU). -/
def mm_loadu (l : List U8) (off : Nat) : C M128 := do
  let _ ← require (off + 16 ≤ l.length) .oobRead
  emit (.block off 16)
  pure fun t => nth l (off + t)

/-- `_mm_storeu_si128(p + off, v)` (/repo/src/aes/aes_ni.c:78; Intel SDM, MOVDQU). -/
def mm_storeu (l : List U8) (off : Nat) (v : M128) : C (List U8) := do
  let _ ← require (off + 16 ≤ l.length) .oobWrite
  emit (.block off 16)
  pure (l.take off ++ (List.finRange 16).map v ++ l.drop (off + 16))

/-- Reading `schedule[i]` (/repo/src/aes/aes_ni.c:35,72): an aligned access through `__m128i *`;
`addr` is the address of the buffer. -/
def mm_get (addr : Nat) (l : List U8) (i : Nat) : C M128 := do
  let _ ← require (addr % 16 = 0) .misaligned
  mm_loadu l (16 * i)

/-- Writing `schedule[i] = v` (/repo/src/aes/aes_ni.c:34): an aligned access. -/
def mm_put (addr : Nat) (l : List U8) (i : Nat) (v : M128) : C (List U8) := do
  let _ ← require (addr % 16 = 0) .misaligned
  mm_storeu l (16 * i) v

/-- `key_expand` (/repo/src/aes/aes_ni.c:10-16). -/
def key_expand (key keygened : M128) : M128 :=
  let key := mm_xor key (mm_slli key 4)
  let key := mm_xor key (mm_slli key 4)
  let key := mm_xor key (mm_slli key 4)
  let keygened := mm_shuffle keygened 3 3 3 3
  mm_xor key keygened

/-- `key_expand1` (/repo/src/aes/aes_ni.c:19-25). -/
def key_expand1 (key keygened : M128) : M128 :=
  let key := mm_xor key (mm_slli key 4)
  let key := mm_xor key (mm_slli key 4)
  let key := mm_xor key (mm_slli key 4)
  let keygened := mm_shuffle keygened 2 2 2 2
  mm_xor key keygened

/-- `schedule[j] = key_exp(schedule[i], rcon)` (/repo/src/aes/aes_ni.c:28, 35-44). -/
def key_exp_ni (addr : Nat) (s : List U8) (j i : Nat) (rc : U8) : C (List U8) := do
  let k ← mm_get addr s i
  mm_put addr s j (key_expand k (mm_keygenassist k rc))

/-- `schedule[j] = key_exp256(schedule[i], schedule[r], rcon)` (/repo/src/aes/aes_ni.c:29, 52-64). -/
def key_exp256_ni (addr : Nat) (s : List U8) (j i r : Nat) (rc : U8) : C (List U8) := do
  let k ← mm_get addr s i
  let x ← mm_get addr s r
  mm_put addr s j (key_expand k (mm_keygenassist x rc))

/-- `schedule[j] = key_exp256b(schedule[i], schedule[r], rcon)`
(/repo/src/aes/aes_ni.c:30, 53-63). -/
def key_exp256b_ni (addr : Nat) (s : List U8) (j i r : Nat) (rc : U8) : C (List U8) := do
  let k ← mm_get addr s i
  let x ← mm_get addr s r
  mm_put addr s j (key_expand1 k (mm_keygenassist x rc))

/-- `aes128_load_schedule_ni` (/repo/src/aes/aes_ni.c:32-45). -/
def aes128_load_schedule_ni (addr : Nat) (key s : List U8) : C (List U8) := do
  let k ← mm_loadu key 0
  let s ← mm_put addr s 0 k
  let s ← key_exp_ni addr s 1 0 0x01
  let s ← key_exp_ni addr s 2 1 0x02
  let s ← key_exp_ni addr s 3 2 0x04
  let s ← key_exp_ni addr s 4 3 0x08
  let s ← key_exp_ni addr s 5 4 0x10
  let s ← key_exp_ni addr s 6 5 0x20
  let s ← key_exp_ni addr s 7 6 0x40
  let s ← key_exp_ni addr s 8 7 0x80
  let s ← key_exp_ni addr s 9 8 0x1b
  key_exp_ni addr s 10 9 0x36

/-- `aes256_load_schedule_ni` (/repo/src/aes/aes_ni.c:48-65). -/
def aes256_load_schedule_ni (addr : Nat) (key s : List U8) : C (List U8) := do
  let k ← mm_loadu key 0
  let s ← mm_put addr s 0 k
  let k ← mm_loadu key 16
  let s ← mm_put addr s 1 k
  let s ← key_exp256_ni addr s 2 0 1 0x01
  let s ← key_exp256b_ni addr s 3 1 2 0x00
  let s ← key_exp256_ni addr s 4 2 3 0x02
  let s ← key_exp256b_ni addr s 5 3 4 0x00
  let s ← key_exp256_ni addr s 6 4 5 0x04
  let s ← key_exp256b_ni addr s 7 5 6 0x00
  let s ← key_exp256_ni addr s 8 6 7 0x08
  let s ← key_exp256b_ni addr s 9 7 8 0x00
  let s ← key_exp256_ni addr s 10 8 9 0x10
  let s ← key_exp256b_ni addr s 11 9 10 0x00
  let s ← key_exp256_ni addr s 12 10 11 0x20
  let s ← key_exp256b_ni addr s 13 11 12 0x00
  key_exp256_ni addr s 14 12 13 0x40

/-- `aes128_enc_ni` (/repo/src/aes/aes_ni.c:68-79). -/
def aes128_enc_ni (addr : Nat) (plaintext schedule ciphertext : List U8) : C (List U8) := do
  let m ← mm_loadu plaintext 0
  let k ← mm_get addr schedule 0
  let m := mm_xor m k
  let m ← forC 1 10 1 m fun i m => do
    let k ← mm_get addr schedule i
    pure (mm_aesenc m k)
  let k ← mm_get addr schedule 10
  mm_storeu ciphertext 0 (mm_aesenclast m k)

/-- `aes256_enc_ni` (/repo/src/aes/aes_ni.c:82-93). -/
def aes256_enc_ni (addr : Nat) (plaintext schedule ciphertext : List U8) : C (List U8) := do
  let m ← mm_loadu plaintext 0
  let k ← mm_get addr schedule 0
  let m := mm_xor m k
  let m ← forC 1 14 1 m fun i m => do
    let k ← mm_get addr schedule i
    pure (mm_aesenc m k)
  let k ← mm_get addr schedule 14
  mm_storeu ciphertext 0 (mm_aesenclast m k)

/-! ## aes.c -/

/-- The two standalone back ends selected by `AES_ENABLE_NI` (/repo/src/aes/aes.c:17,26; set in
/repo/src/config.h:71). -/
inductive AesImpl where
  | c | ni
  deriving DecidableEq, Repr

/-- `AES128_load_schedule` (/repo/src/aes/aes.c:16-22); `addr` is the address of `schedule`. -/
def AES128_load_schedule (I : AesImpl) (J : Junk) (addr : Nat) (key schedule : List U8) :
    C (List U8) :=
  match I with
  | .ni => aes128_load_schedule_ni addr key schedule
  | .c => aes128_load_schedule_c J key schedule

/-- `aes128_enc` (/repo/src/aes/aes.c:25-31). -/
def aes128_enc (I : AesImpl) (addr : Nat) (plaintext schedule ciphertext : List U8) :
    C (List U8) :=
  match I with
  | .ni => aes128_enc_ni addr plaintext schedule ciphertext
  | .c => aes128_enc_c plaintext schedule ciphertext

/-- `AES128_ECB_enc_sch` (/repo/src/aes/aes.c:34-39) with separate buffers. -/
def AES128_ECB_enc_sch (I : AesImpl) (addr : Nat) (plaintext : List U8) (len : Nat)
    (schedule ciphertext : List U8) : C (List U8) := do
  let _ ← require (len % 16 = 0) .assertFailed
  forC 0 (len / 16) 1 ciphertext fun block ct => do
    let p ← ptr plaintext (16 * block)
    atPtr ct (16 * block) fun c => aes128_enc I addr p schedule c

/-- `AES128_ECB_enc_sch` (/repo/src/aes/aes.c:34-39) with `plaintext == ciphertext`, as called in
/repo/src/frodo_macrify_reference.c:33. -/
def AES128_ECB_enc_sch_inplace (I : AesImpl) (addr : Nat) (len : Nat)
    (schedule buf : List U8) : C (List U8) := do
  let _ ← require (len % 16 = 0) .assertFailed
  forC 0 (len / 16) 1 buf fun block ct => do
    let p ← ptr ct (16 * block)
    atPtr ct (16 * block) fun c => aes128_enc I addr p schedule c

/-- `AES128_free_schedule` (/repo/src/aes/aes.c:42-44). -/
def AES128_free_schedule (schedule : List U8) : C (List U8) := memset schedule 0 (16 * 11)

/-- `AES256_load_schedule` (/repo/src/aes/aes.c:47-53). -/
def AES256_load_schedule (I : AesImpl) (J : Junk) (addr : Nat) (key schedule : List U8) :
    C (List U8) :=
  match I with
  | .ni => aes256_load_schedule_ni addr key schedule
  | .c => aes256_load_schedule_c J key schedule

/-- `aes256_enc` (/repo/src/aes/aes.c:56-62). -/
def aes256_enc (I : AesImpl) (addr : Nat) (plaintext schedule ciphertext : List U8) :
    C (List U8) :=
  match I with
  | .ni => aes256_enc_ni addr plaintext schedule ciphertext
  | .c => aes256_enc_c plaintext schedule ciphertext

/-- `AES256_ECB_enc_sch` (/repo/src/aes/aes.c:65-70) with separate buffers. -/
def AES256_ECB_enc_sch (I : AesImpl) (addr : Nat) (plaintext : List U8) (len : Nat)
    (schedule ciphertext : List U8) : C (List U8) := do
  let _ ← require (len % 16 = 0) .assertFailed
  forC 0 (len / 16) 1 ciphertext fun block ct => do
    let p ← ptr plaintext (16 * block)
    atPtr ct (16 * block) fun c => aes256_enc I addr p schedule c

/-- `AES256_free_schedule` (/repo/src/aes/aes.c:73-75). -/
def AES256_free_schedule (schedule : List U8) : C (List U8) := memset schedule 0 (16 * 15)

end Frodo
