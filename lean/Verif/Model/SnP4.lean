import Verif.Model.Keccak4x

/-! # Model of the rest of /repo/src/sha3/keccak4x/KeccakP-1600-times4-SIMD256.c

The functions of the interface KeccakP-1600-times4-SnP.h that access the four states by bytes and by
lanes, the permutation with 12 rounds and the two fast loops.  The library itself calls only
`KeccakP1600times4_PermuteAll_24rounds` (Model/Keccak4x.lean).

The states are the array `ss` of 64-bit words at address `sAddr`; the platform is little-endian
(/repo/src/sha3/keccak4x/KeccakP-1600-times4-SIMD256.c:28-30), so that byte `i` of a word is the one of weight `256^i`.  Every
other buffer is a byte array with its address.  The arguments of type `unsigned int` are natural
numbers below 2^32; arithmetic on them is reduced modulo 2^32 where it can wrap. -/

namespace Frodo

/-- The value of an expression of type `unsigned int` (C11 6.2.5p9), as used in
/repo/src/sha3/keccak4x/KeccakP-1600-times4-SIMD256.c:37, 128-130, 880 etc. -/
def u32 (x : Nat) : Nat := x % 2 ^ 32

/-- The value of an expression of type `size_t` (64 bits), as used in /repo/src/sha3/keccak4x/KeccakP-1600-times4-SIMD256.c:910. -/
def sz64 (x : Int) : Nat := (x % 2 ^ 64).toNat

/-- The word of the eight bytes from position `p` on, little-endian
(/repo/src/sha3/keccak4x/KeccakP-1600-times4-SIMD256.c:28-30). -/
def le64 (l : List U8) (p : Nat) : U64 :=
  (List.range 8).foldl (fun x i => x ||| ((nth l (p + i)).setWidth 64 <<< (8 * i))) 0

/-- The eight bytes of a word in memory (/repo/src/sha3/keccak4x/KeccakP-1600-times4-SIMD256.c:28-30). -/
def bytes64 (u : U64) : List U8 := (List.range 8).map fun i => (u >>> (8 * i)).setWidth 8

/-- `*((const UINT64*)cur)` where `cur` is position `p` of a byte array at address `addr`
(/repo/src/sha3/keccak4x/KeccakP-1600-times4-SIMD256.c:109, 187, 364 and, through `curData0` etc., 133). -/
def ldU64 (addr : Nat) (l : List U8) (p : Nat) : C U64 := do
  C.require ((addr + p) % 8 = 0) .misaligned
  C.require (p + 8 ≤ l.length) .oobRead
  C.emit (.block p 8)
  pure (le64 l p)

/-- `*(UINT64*)cur = v` (/repo/src/sha3/keccak4x/KeccakP-1600-times4-SIMD256.c:280, 364 and, through `curData0` etc., 303-306). -/
def stU64 (addr : Nat) (l : List U8) (p : Nat) (v : U64) : C (List U8) := do
  C.require ((addr + p) % 8 = 0) .misaligned
  memcpy l p (bytes64 v) 0 8

/-- `LOAD256u` of the 32 bytes at position `p`, no alignment required
(/repo/src/sha3/keccak4x/KeccakP-1600-times4-SIMD256.c:44). -/
def LOAD256u (l : List U8) (p : Nat) : C V256 := do
  C.require (p + 32 ≤ l.length) .oobRead
  C.emit (.block p 32)
  pure fun t => le64 l (p + 8 * t)

/-- `STORE256u` at position `p` (/repo/src/sha3/keccak4x/KeccakP-1600-times4-SIMD256.c:52). -/
def STORE256u (l : List U8) (p : Nat) (v : V256) : C (List U8) :=
  memcpy l p (bytes64 (v 0) ++ bytes64 (v 1) ++ bytes64 (v 2) ++ bytes64 (v 3)) 0 32

/-- `LOAD4_64`, `_mm256_set_epi64x`: the first argument is the most significant word
(/repo/src/sha3/keccak4x/KeccakP-1600-times4-SIMD256.c:45). -/
def LOAD4_64 (a b c d : U64) : V256 := fun t => nth [d, c, b, a] t

/-- `UNPACKL`, `_mm256_unpacklo_epi64` (/repo/src/sha3/keccak4x/KeccakP-1600-times4-SIMD256.c:56). -/
def UNPACKL (a b : V256) : V256 := fun t => nth [a 0, b 0, a 2, b 2] t

/-- `UNPACKH`, `_mm256_unpackhi_epi64` (/repo/src/sha3/keccak4x/KeccakP-1600-times4-SIMD256.c:57). -/
def UNPACKH (a b : V256) : V256 := fun t => nth [a 1, b 1, a 3, b 3] t

/-- `PERM128`, `_mm256_permute2f128_ps`: each half of the result is one of the four halves of the
operands, chosen by bits 0-1 and 4-5 of the control, or zero if bit 3 or 7 is set
(/repo/src/sha3/keccak4x/KeccakP-1600-times4-SIMD256.c:58). -/
def PERM128 (a b : V256) (c : Nat) : V256 := fun t =>
  let s := if t.val < 2 then c % 16 else c / 16
  if s / 8 % 2 = 1 then 0
  else nth [a 0, a 1, a 2, a 3, b 0, b 1, b 2, b 3] (2 * (s % 4) + t % 2)

/-- `SHUFFLE64`, `_mm256_shuffle_pd`: words 0 and 2 of the result are words of `a`, words 1 and 3 words
of `b`, each from the same half; bit `t` of the control chooses (/repo/src/sha3/keccak4x/KeccakP-1600-times4-SIMD256.c:59). -/
def SHUFFLE64 (a b : V256) (c : Nat) : V256 := fun t =>
  nth (if t.val % 2 = 0 then [a 0, a 1, a 2, a 3] else [b 0, b 1, b 2, b 3])
    (2 * (t / 2) + c / 2 ^ t.val % 2)

/-- The variables `lanes0` to `lanes3` (/repo/src/sha3/keccak4x/KeccakP-1600-times4-SIMD256.c:131). -/
structure V4 where
  (l0 l1 l2 l3 : V256)

/-- Macro `UNINTLEAVE` (/repo/src/sha3/keccak4x/KeccakP-1600-times4-SIMD256.c:61-68). -/
def UNINTLEAVE (v : V4) : V4 :=
  let lanesL01 := UNPACKL v.l0 v.l1
  let lanesH01 := UNPACKH v.l0 v.l1
  let lanesL23 := UNPACKL v.l2 v.l3
  let lanesH23 := UNPACKH v.l2 v.l3
  { l0 := PERM128 lanesL01 lanesL23 0x20
    l2 := PERM128 lanesL01 lanesL23 0x31
    l1 := PERM128 lanesH01 lanesH23 0x20
    l3 := PERM128 lanesH01 lanesH23 0x31 }

/-- Macro `INTLEAVE` (/repo/src/sha3/keccak4x/KeccakP-1600-times4-SIMD256.c:70-77). -/
def INTLEAVE (v : V4) : V4 :=
  let lanesL01 := PERM128 v.l0 v.l2 0x20
  let lanesH01 := PERM128 v.l1 v.l3 0x20
  let lanesL23 := PERM128 v.l0 v.l2 0x31
  let lanesH23 := PERM128 v.l1 v.l3 0x31
  { l0 := SHUFFLE64 lanesL01 lanesH01 0x00
    l1 := SHUFFLE64 lanesL01 lanesH01 0x0F
    l2 := SHUFFLE64 lanesL23 lanesH23 0x00
    l3 := SHUFFLE64 lanesL23 lanesH23 0x0F }

/-! ## Bytes of one state -/

/-- Macro `laneIndex` (/repo/src/sha3/keccak4x/KeccakP-1600-times4-SIMD256.c:37). -/
def laneIndex (instanceIndex lanePosition : Nat) : Nat := u32 (u32 (lanePosition * 4) + instanceIndex)

/-- `KeccakP1600times4_InitializeAll` (/repo/src/sha3/keccak4x/KeccakP-1600-times4-SIMD256.c:83-86): `memset` of
`KeccakP1600times4_statesSizeInBytes` = 800 bytes, here 100 words. -/
def KeccakP1600times4_InitializeAll (ss : List U64) : C (List U64) := memset ss 0 100

/-- Macro `KeccakP1600times4_AddByte` (/repo/src/sha3/keccak4x/KeccakP-1600-times4-SnP.h:34-35); the
byte with index `b` of the array of words is byte `b % 8` of word `b / 8`. -/
def KeccakP1600times4_AddByte (ss : List U64) (instanceIndex : Nat) (byte : U8) (offset : Nat) :
    C (List U64) := do
  let b := instanceIndex * 8 + (offset / 8) * 4 * 8 + offset % 8
  let x ← rd ss (b / 8)
  let y ← rd (bytes64 x) (b % 8)
  let l ← wr (bytes64 x) (b % 8) (y ^^^ byte)
  wr ss (b / 8) (le64 l 0)

/-- The variables of the byte functions that change (/repo/src/sha3/keccak4x/KeccakP-1600-times4-SIMD256.c:90-94, 170-174,
246-248): the states, `sizeLeft`, `lanePosition` and the position of `curData`. -/
structure ByteSt where
  ss : List U64
  sizeLeft : Nat
  lanePosition : Nat
  cur : Nat

/-- The adjustment `if (bytesInLane > sizeLeft) bytesInLane = sizeLeft` of the initial value
`SnP_laneLengthInBytes - offsetInLane` (/repo/src/sha3/keccak4x/KeccakP-1600-times4-SIMD256.c:97-100, 177-179, 270-272,
351-354). -/
def bytesInLane (offsetInLane sizeLeft : Nat) : C Nat :=
  ifC (decide (8 - offsetInLane > sizeLeft)) (pure sizeLeft) (pure (8 - offsetInLane))

/-- `KeccakP1600times4_AddBytes` (/repo/src/sha3/keccak4x/KeccakP-1600-times4-SIMD256.c:88-121). -/
def KeccakP1600times4_AddBytes (sAddr : Nat) (ss : List U64) (instanceIndex : Nat) (dAddr : Nat)
    (data : List U8) (offset length : Nat) : C (List U64) := do
  C.require (sAddr % 8 = 0) .misaligned
  let offsetInLane := offset % 8
  let st : ByteSt := { ss := ss, sizeLeft := length, lanePosition := offset / 8, cur := 0 }
  let st ← ifC (decide (st.sizeLeft > 0 ∧ offsetInLane ≠ 0)) (do
    let n ← bytesInLane offsetInLane st.sizeLeft
    let lane ← memcpy (bytes64 0) offsetInLane data st.cur n
    let x ← rd st.ss (laneIndex instanceIndex st.lanePosition)
    let ss ← wr st.ss (laneIndex instanceIndex st.lanePosition) (x ^^^ le64 lane 0)
    pure { ss := ss, sizeLeft := st.sizeLeft - n, lanePosition := st.lanePosition + 1,
           cur := st.cur + n : ByteSt }) (pure st)
  let st ← whileC (fun st : ByteSt => decide (st.sizeLeft ≥ 8)) (fun st => do
    let lane ← ldU64 dAddr data st.cur
    let x ← rd st.ss (laneIndex instanceIndex st.lanePosition)
    let ss ← wr st.ss (laneIndex instanceIndex st.lanePosition) (x ^^^ lane)
    pure { ss := ss, sizeLeft := st.sizeLeft - 8, lanePosition := st.lanePosition + 1,
           cur := st.cur + 8 : ByteSt }) st
  ifC (decide (st.sizeLeft > 0)) (do
    let lane ← memcpy (bytes64 0) 0 data st.cur st.sizeLeft
    let x ← rd st.ss (laneIndex instanceIndex st.lanePosition)
    wr st.ss (laneIndex instanceIndex st.lanePosition) (x ^^^ le64 lane 0)) (pure st.ss)

/-- `KeccakP1600times4_OverwriteBytes` (/repo/src/sha3/keccak4x/KeccakP-1600-times4-SIMD256.c:168-197); the two calls of `memcpy`
change bytes of one word of the states. -/
def KeccakP1600times4_OverwriteBytes (sAddr : Nat) (ss : List U64) (instanceIndex : Nat) (dAddr : Nat)
    (data : List U8) (offset length : Nat) : C (List U64) := do
  C.require (sAddr % 8 = 0) .misaligned
  let offsetInLane := offset % 8
  let st : ByteSt := { ss := ss, sizeLeft := length, lanePosition := offset / 8, cur := 0 }
  let st ← ifC (decide (st.sizeLeft > 0 ∧ offsetInLane ≠ 0)) (do
    let n ← bytesInLane offsetInLane st.sizeLeft
    let x ← rd st.ss (laneIndex instanceIndex st.lanePosition)
    let lane ← memcpy (bytes64 x) offsetInLane data st.cur n
    let ss ← wr st.ss (laneIndex instanceIndex st.lanePosition) (le64 lane 0)
    pure { ss := ss, sizeLeft := st.sizeLeft - n, lanePosition := st.lanePosition + 1,
           cur := st.cur + n : ByteSt }) (pure st)
  let st ← whileC (fun st : ByteSt => decide (st.sizeLeft ≥ 8)) (fun st => do
    let lane ← ldU64 dAddr data st.cur
    let ss ← wr st.ss (laneIndex instanceIndex st.lanePosition) lane
    pure { ss := ss, sizeLeft := st.sizeLeft - 8, lanePosition := st.lanePosition + 1,
           cur := st.cur + 8 : ByteSt }) st
  ifC (decide (st.sizeLeft > 0)) (do
    let x ← rd st.ss (laneIndex instanceIndex st.lanePosition)
    let lane ← memcpy (bytes64 x) 0 data st.cur st.sizeLeft
    wr st.ss (laneIndex instanceIndex st.lanePosition) (le64 lane 0)) (pure st.ss)

/-- `KeccakP1600times4_OverwriteWithZeroes` (/repo/src/sha3/keccak4x/KeccakP-1600-times4-SIMD256.c:244-259); the component `cur`
is not used. -/
def KeccakP1600times4_OverwriteWithZeroes (sAddr : Nat) (ss : List U64) (instanceIndex byteCount : Nat) :
    C (List U64) := do
  C.require (sAddr % 8 = 0) .misaligned
  let st ← whileC (fun st : ByteSt => decide (st.sizeLeft ≥ 8)) (fun st => do
    let ss ← wr st.ss (laneIndex instanceIndex st.lanePosition) 0
    pure { st with ss := ss, sizeLeft := st.sizeLeft - 8, lanePosition := st.lanePosition + 1 })
    { ss := ss, sizeLeft := byteCount, lanePosition := 0, cur := 0 }
  ifC (decide (st.sizeLeft > 0)) (do
    let x ← rd st.ss (laneIndex instanceIndex st.lanePosition)
    let lane ← memset (bytes64 x) 0 st.sizeLeft
    wr st.ss (laneIndex instanceIndex st.lanePosition) (le64 lane 0)) (pure st.ss)

/-- The variables of the extraction functions that change (/repo/src/sha3/keccak4x/KeccakP-1600-times4-SIMD256.c:263-267,
343-348): the output, `sizeLeft`, `lanePosition` and the position of `curData` (`curInput` and
`curOutput`, which advance together). -/
structure ExtrSt where
  out : List U8
  sizeLeft : Nat
  lanePosition : Nat
  cur : Nat

/-- `KeccakP1600times4_ExtractBytes` (/repo/src/sha3/keccak4x/KeccakP-1600-times4-SIMD256.c:261-289). -/
def KeccakP1600times4_ExtractBytes (sAddr : Nat) (ss : List U64) (instanceIndex : Nat) (dAddr : Nat)
    (data : List U8) (offset length : Nat) : C (List U8) := do
  C.require (sAddr % 8 = 0) .misaligned
  let offsetInLane := offset % 8
  let st : ExtrSt := { out := data, sizeLeft := length, lanePosition := offset / 8, cur := 0 }
  let st ← ifC (decide (st.sizeLeft > 0 ∧ offsetInLane ≠ 0)) (do
    let n ← bytesInLane offsetInLane st.sizeLeft
    let x ← rd ss (laneIndex instanceIndex st.lanePosition)
    let out ← memcpy st.out st.cur (bytes64 x) offsetInLane n
    pure { out := out, sizeLeft := st.sizeLeft - n, lanePosition := st.lanePosition + 1,
           cur := st.cur + n : ExtrSt }) (pure st)
  let st ← whileC (fun st : ExtrSt => decide (st.sizeLeft ≥ 8)) (fun st => do
    let x ← rd ss (laneIndex instanceIndex st.lanePosition)
    let out ← stU64 dAddr st.out st.cur x
    pure { out := out, sizeLeft := st.sizeLeft - 8, lanePosition := st.lanePosition + 1,
           cur := st.cur + 8 : ExtrSt }) st
  ifC (decide (st.sizeLeft > 0)) (do
    let x ← rd ss (laneIndex instanceIndex st.lanePosition)
    memcpy st.out st.cur (bytes64 x) 0 st.sizeLeft) (pure st.out)

/-- The loop `do { *(curOutput++) = *(curInput++) ^ (unsigned char)lane; lane >>= 8; } while (--n != 0)`
(/repo/src/sha3/keccak4x/KeccakP-1600-times4-SIMD256.c:356-359, 373-376), entered only with `n` not 0. -/
def xorOutBytes (input out : List U8) (cur n : Nat) (lane : U64) : C (List U8) := do
  let r ← forC 0 n 1 (out, lane) fun i (out, lane) => do
    let b ← rd input (cur + i)
    let out ← wr out (cur + i) (b ^^^ lane.setWidth 8)
    pure (out, lane >>> 8)
  pure r.1

/-- `KeccakP1600times4_ExtractAndAddBytes` (/repo/src/sha3/keccak4x/KeccakP-1600-times4-SIMD256.c:341-378), `input` and `output`
not overlapping. -/
def KeccakP1600times4_ExtractAndAddBytes (sAddr : Nat) (ss : List U64) (instanceIndex : Nat)
    (iAddr : Nat) (input : List U8) (oAddr : Nat) (output : List U8) (offset length : Nat) :
    C (List U8) := do
  C.require (sAddr % 8 = 0) .misaligned
  let offsetInLane := offset % 8
  let st : ExtrSt := { out := output, sizeLeft := length, lanePosition := offset / 8, cur := 0 }
  let st ← ifC (decide (st.sizeLeft > 0 ∧ offsetInLane ≠ 0)) (do
    let x ← rd ss (laneIndex instanceIndex st.lanePosition)
    let n ← bytesInLane offsetInLane st.sizeLeft
    let out ← xorOutBytes input st.out st.cur n (x >>> (8 * offsetInLane))
    pure { out := out, sizeLeft := st.sizeLeft - n, lanePosition := st.lanePosition + 1,
           cur := st.cur + n : ExtrSt }) (pure st)
  let st ← whileC (fun st : ExtrSt => decide (st.sizeLeft ≥ 8)) (fun st => do
    let i ← ldU64 iAddr input st.cur
    let x ← rd ss (laneIndex instanceIndex st.lanePosition)
    let out ← stU64 oAddr st.out st.cur (i ^^^ x)
    pure { out := out, sizeLeft := st.sizeLeft - 8, lanePosition := st.lanePosition + 1,
           cur := st.cur + 8 : ExtrSt }) st
  ifC (decide (st.sizeLeft ≠ 0)) (do
    let x ← rd ss (laneIndex instanceIndex st.lanePosition)
    xorOutBytes input st.out st.cur st.sizeLeft x) (pure st.out)

/-! ## Lanes of all states -/

/-- The positions of `curData0` to `curData3`, pointers to `UINT64` made from
`data + laneOffset*k*SnP_laneLengthInBytes` (/repo/src/sha3/keccak4x/KeccakP-1600-times4-SIMD256.c:127-130, 203-206, 293-296,
382-389, 872-875); the products have type `unsigned int`. -/
def lanePtrs (dAddr : Nat) (data : List U8) (laneOffset : Nat) : C (Four Nat) := do
  let o1 := u32 (laneOffset * 8)
  let o2 := u32 (u32 (laneOffset * 2) * 8)
  let o3 := u32 (u32 (laneOffset * 3) * 8)
  C.require (o1 ≤ data.length ∧ o2 ≤ data.length ∧ o3 ≤ data.length) .oobRead
  C.require (dAddr % 8 = 0 ∧ (dAddr + o1) % 8 = 0 ∧ (dAddr + o2) % 8 = 0 ∧ (dAddr + o3) % 8 = 0)
    .misaligned
  pure ⟨0, o1, o2, o3⟩

/-- `LOAD4_64(curData3[i], curData2[i], curData1[i], curData0[i])`
(/repo/src/sha3/keccak4x/KeccakP-1600-times4-SIMD256.c:133, 209, 881-882). -/
def loadLane4 (dAddr : Nat) (data : List U8) (o : Four Nat) (i : Nat) : C V256 := do
  let d ← ldU64 dAddr data (o.x3 + 8 * i)
  let c ← ldU64 dAddr data (o.x2 + 8 * i)
  let b ← ldU64 dAddr data (o.x1 + 8 * i)
  let a ← ldU64 dAddr data (o.x0 + 8 * i)
  pure (LOAD4_64 d c b a)

/-- `lanes0 = LOAD256u(curData0[i])` to `lanes3 = LOAD256u(curData3[i])`
(/repo/src/sha3/keccak4x/KeccakP-1600-times4-SIMD256.c:135-138, 211-214, 408-411). -/
def loadLanes (data : List U8) (o : Four Nat) (i : Nat) : C V4 := do
  let l0 ← LOAD256u data (o.x0 + 8 * i)
  let l1 ← LOAD256u data (o.x1 + 8 * i)
  let l2 ← LOAD256u data (o.x2 + 8 * i)
  let l3 ← LOAD256u data (o.x3 + 8 * i)
  pure ⟨l0, l1, l2, l3⟩

/-- The control flow around the macros for one lane (`f`) and for four lanes (`f4`), textually the same
in four functions (/repo/src/sha3/keccak4x/KeccakP-1600-times4-SIMD256.c:145-163, 221-239, 318-336, 421-439). -/
def laneLoop (f4 f : Nat → σ → C σ) (laneCount : Nat) (s : σ) : C σ :=
  ifC (decide (laneCount ≥ 16)) (do
    let s ← f4 0 s
    let s ← f4 4 s
    let s ← f4 8 s
    let s ← f4 12 s
    ifC (decide (laneCount ≥ 20)) (do
      let s ← f4 16 s
      forC 20 laneCount 1 s f)
      (forC 16 laneCount 1 s f))
    (forC 0 laneCount 1 s f)

/-- `XOReq256(stateAsLanes[i], v)` (/repo/src/sha3/keccak4x/KeccakP-1600-times4-SIMD256.c:55, 133, 140-143). -/
def xorState (ss : List U64) (i : Nat) (v : V256) : C (List U64) := do
  let x ← LOAD256 ss i
  STORE256 ss i (XOR256 x v)

/-- Macro `Xor_In` (/repo/src/sha3/keccak4x/KeccakP-1600-times4-SIMD256.c:133). -/
def Xor_In (dAddr : Nat) (data : List U8) (o : Four Nat) (i : Nat) (ss : List U64) : C (List U64) := do
  let v ← loadLane4 dAddr data o i
  xorState ss i v

/-- Macro `Xor_In4` (/repo/src/sha3/keccak4x/KeccakP-1600-times4-SIMD256.c:135-143). -/
def Xor_In4 (data : List U8) (o : Four Nat) (i : Nat) (ss : List U64) : C (List U64) := do
  let v ← loadLanes data o i
  let v := INTLEAVE v
  let ss ← xorState ss (i + 0) v.l0
  let ss ← xorState ss (i + 1) v.l1
  let ss ← xorState ss (i + 2) v.l2
  xorState ss (i + 3) v.l3

/-- `KeccakP1600times4_AddLanesAll` (/repo/src/sha3/keccak4x/KeccakP-1600-times4-SIMD256.c:123-166). -/
def KeccakP1600times4_AddLanesAll (sAddr : Nat) (ss : List U64) (dAddr : Nat) (data : List U8)
    (laneCount laneOffset : Nat) : C (List U64) := do
  C.require (sAddr % 32 = 0) .misaligned
  let o ← lanePtrs dAddr data laneOffset
  laneLoop (Xor_In4 data o) (Xor_In dAddr data o) laneCount ss

/-- Macro `OverWr` (/repo/src/sha3/keccak4x/KeccakP-1600-times4-SIMD256.c:209). -/
def OverWr (dAddr : Nat) (data : List U8) (o : Four Nat) (i : Nat) (ss : List U64) : C (List U64) := do
  let v ← loadLane4 dAddr data o i
  STORE256 ss i v

/-- Macro `OverWr4` (/repo/src/sha3/keccak4x/KeccakP-1600-times4-SIMD256.c:211-219). -/
def OverWr4 (data : List U8) (o : Four Nat) (i : Nat) (ss : List U64) : C (List U64) := do
  let v ← loadLanes data o i
  let v := INTLEAVE v
  let ss ← STORE256 ss (i + 0) v.l0
  let ss ← STORE256 ss (i + 1) v.l1
  let ss ← STORE256 ss (i + 2) v.l2
  STORE256 ss (i + 3) v.l3

/-- `KeccakP1600times4_OverwriteLanesAll` (/repo/src/sha3/keccak4x/KeccakP-1600-times4-SIMD256.c:199-242). -/
def KeccakP1600times4_OverwriteLanesAll (sAddr : Nat) (ss : List U64) (dAddr : Nat) (data : List U8)
    (laneCount laneOffset : Nat) : C (List U64) := do
  C.require (sAddr % 32 = 0) .misaligned
  let o ← lanePtrs dAddr data laneOffset
  laneLoop (OverWr4 data o) (OverWr dAddr data o) laneCount ss

/-- Macro `Extr` (/repo/src/sha3/keccak4x/KeccakP-1600-times4-SIMD256.c:303-306). -/
def Extr (ss : List U64) (dAddr : Nat) (o : Four Nat) (i : Nat) (data : List U8) : C (List U8) := do
  let x ← rd ss (4 * i)
  let data ← stU64 dAddr data (o.x0 + 8 * i) x
  let x ← rd ss (4 * i + 1)
  let data ← stU64 dAddr data (o.x1 + 8 * i) x
  let x ← rd ss (4 * i + 2)
  let data ← stU64 dAddr data (o.x2 + 8 * i) x
  let x ← rd ss (4 * i + 3)
  stU64 dAddr data (o.x3 + 8 * i) x

/-- `lanes0 = LOAD256(stateAsLanes[i+0])` to `lanes3 = LOAD256(stateAsLanes[i+3])` and `UNINTLEAVE()`
(/repo/src/sha3/keccak4x/KeccakP-1600-times4-SIMD256.c:308-312, 403-407). -/
def loadStates (ss : List U64) (i : Nat) : C V4 := do
  let l0 ← LOAD256 ss (i + 0)
  let l1 ← LOAD256 ss (i + 1)
  let l2 ← LOAD256 ss (i + 2)
  let l3 ← LOAD256 ss (i + 3)
  pure (UNINTLEAVE ⟨l0, l1, l2, l3⟩)

/-- `STORE256u(curData0[i], lanes0)` to `STORE256u(curData3[i], lanes3)`
(/repo/src/sha3/keccak4x/KeccakP-1600-times4-SIMD256.c:313-316, 416-419). -/
def storeLanes (data : List U8) (o : Four Nat) (i : Nat) (v : V4) : C (List U8) := do
  let data ← STORE256u data (o.x0 + 8 * i) v.l0
  let data ← STORE256u data (o.x1 + 8 * i) v.l1
  let data ← STORE256u data (o.x2 + 8 * i) v.l2
  STORE256u data (o.x3 + 8 * i) v.l3

/-- Macro `Extr4` (/repo/src/sha3/keccak4x/KeccakP-1600-times4-SIMD256.c:308-316). -/
def Extr4 (ss : List U64) (o : Four Nat) (i : Nat) (data : List U8) : C (List U8) := do
  let v ← loadStates ss i
  storeLanes data o i v

/-- `KeccakP1600times4_ExtractLanesAll` (/repo/src/sha3/keccak4x/KeccakP-1600-times4-SIMD256.c:291-339). -/
def KeccakP1600times4_ExtractLanesAll (sAddr : Nat) (ss : List U64) (dAddr : Nat) (data : List U8)
    (laneCount laneOffset : Nat) : C (List U8) := do
  let o ← lanePtrs dAddr data laneOffset
  C.require (sAddr % 32 = 0) .misaligned
  laneLoop (Extr4 ss o) (Extr ss dAddr o) laneCount data

/-- Macro `ExtrXor` (/repo/src/sha3/keccak4x/KeccakP-1600-times4-SIMD256.c:396-400). -/
def ExtrXor (ss : List U64) (iAddr : Nat) (input : List U8) (oi : Four Nat) (oAddr : Nat) (oo : Four Nat)
    (i : Nat) (output : List U8) : C (List U8) := do
  let x ← ldU64 iAddr input (oi.x0 + 8 * i)
  let y ← rd ss (4 * i)
  let output ← stU64 oAddr output (oo.x0 + 8 * i) (x ^^^ y)
  let x ← ldU64 iAddr input (oi.x1 + 8 * i)
  let y ← rd ss (4 * i + 1)
  let output ← stU64 oAddr output (oo.x1 + 8 * i) (x ^^^ y)
  let x ← ldU64 iAddr input (oi.x2 + 8 * i)
  let y ← rd ss (4 * i + 2)
  let output ← stU64 oAddr output (oo.x2 + 8 * i) (x ^^^ y)
  let x ← ldU64 iAddr input (oi.x3 + 8 * i)
  let y ← rd ss (4 * i + 3)
  stU64 oAddr output (oo.x3 + 8 * i) (x ^^^ y)

/-- Macro `ExtrXor4` (/repo/src/sha3/keccak4x/KeccakP-1600-times4-SIMD256.c:402-419). -/
def ExtrXor4 (ss : List U64) (input : List U8) (oi oo : Four Nat) (i : Nat) (output : List U8) :
    C (List U8) := do
  let v ← loadStates ss i
  let w ← loadLanes input oi i
  storeLanes output oo i ⟨XOR256 v.l0 w.l0, XOR256 v.l1 w.l1, XOR256 v.l2 w.l2, XOR256 v.l3 w.l3⟩

/-- `KeccakP1600times4_ExtractAndAddLanesAll` (/repo/src/sha3/keccak4x/KeccakP-1600-times4-SIMD256.c:380-442), `input` and
`output` not overlapping. -/
def KeccakP1600times4_ExtractAndAddLanesAll (sAddr : Nat) (ss : List U64) (iAddr : Nat) (input : List U8)
    (oAddr : Nat) (output : List U8) (laneCount laneOffset : Nat) : C (List U8) := do
  let oi ← lanePtrs iAddr input laneOffset
  let oo ← lanePtrs oAddr output laneOffset
  C.require (sAddr % 32 = 0) .misaligned
  laneLoop (ExtrXor4 ss input oi oo) (ExtrXor ss iAddr input oi oAddr oo) laneCount output

/-! ## Permutation with 12 rounds, fast loops -/

/-- Macro `rounds12` with full unrolling
(/repo/src/sha3/keccak4x/KeccakP-1600-unrolling.macros:44-57, SIMD256-config.h:2), as `rounds24`. -/
def rounds12 (v : VLanes) : C VLanes := do
  let c := prepareTheta v
  let (v, c) ← (List.range 11).foldlM (fun (v, c) i => do
    let rc ← CONST256_64 (12 + i)
    pure (thetaRhoPiChiIotaPrepareTheta rc v c)) (v, c)
  let rc ← CONST256_64 23
  pure (thetaRhoPiChiIota rc v c)

/-- `KeccakP1600times4_PermuteAll_12rounds` (/repo/src/sha3/keccak4x/KeccakP-1600-times4-SIMD256.c:815-826); see
`KeccakP1600times4_PermuteAll_24rounds`. -/
def KeccakP1600times4_PermuteAll_12rounds (E : Env) (ss : List U64) : C (List U64) := do
  C.require (E.addr .rho8 % 32 = 0 ∧ E.addr .rho56 % 32 = 0) .misaligned
  let v ← copyFromState4x ss
  let v ← rounds12 v
  copyToState4x ss v

/-- The 21 uses of the macro `XOR_In` (/repo/src/sha3/keccak4x/KeccakP-1600-times4-SIMD256.c:881-904, 983-1006). -/
def xorIn21 (dAddr : Nat) (data : List U8) (o : Four Nat) (v : VLanes) : C VLanes := do
  let x ← loadLane4 dAddr data o 0
  let v := { v with ba := XOR256 v.ba x }
  let x ← loadLane4 dAddr data o 1
  let v := { v with be := XOR256 v.be x }
  let x ← loadLane4 dAddr data o 2
  let v := { v with bi := XOR256 v.bi x }
  let x ← loadLane4 dAddr data o 3
  let v := { v with bo := XOR256 v.bo x }
  let x ← loadLane4 dAddr data o 4
  let v := { v with bu := XOR256 v.bu x }
  let x ← loadLane4 dAddr data o 5
  let v := { v with ga := XOR256 v.ga x }
  let x ← loadLane4 dAddr data o 6
  let v := { v with ge := XOR256 v.ge x }
  let x ← loadLane4 dAddr data o 7
  let v := { v with gi := XOR256 v.gi x }
  let x ← loadLane4 dAddr data o 8
  let v := { v with go := XOR256 v.go x }
  let x ← loadLane4 dAddr data o 9
  let v := { v with gu := XOR256 v.gu x }
  let x ← loadLane4 dAddr data o 10
  let v := { v with ka := XOR256 v.ka x }
  let x ← loadLane4 dAddr data o 11
  let v := { v with ke := XOR256 v.ke x }
  let x ← loadLane4 dAddr data o 12
  let v := { v with ki := XOR256 v.ki x }
  let x ← loadLane4 dAddr data o 13
  let v := { v with ko := XOR256 v.ko x }
  let x ← loadLane4 dAddr data o 14
  let v := { v with ku := XOR256 v.ku x }
  let x ← loadLane4 dAddr data o 15
  let v := { v with ma := XOR256 v.ma x }
  let x ← loadLane4 dAddr data o 16
  let v := { v with me := XOR256 v.me x }
  let x ← loadLane4 dAddr data o 17
  let v := { v with mi := XOR256 v.mi x }
  let x ← loadLane4 dAddr data o 18
  let v := { v with mo := XOR256 v.mo x }
  let x ← loadLane4 dAddr data o 19
  let v := { v with mu := XOR256 v.mu x }
  let x ← loadLane4 dAddr data o 20
  pure { v with sa := XOR256 v.sa x }

/-- `curData += laneOffsetSerial` for a pointer to `UINT64` at position `p`
(/repo/src/sha3/keccak4x/KeccakP-1600-times4-SIMD256.c:906-909): the result must not be beyond the end of the array
(C11 6.5.6p8). -/
def advance (data : List U8) (p laneOffsetSerial : Nat) : C Nat := do
  C.require (p + 8 * laneOffsetSerial ≤ data.length) .oobRead
  pure (p + 8 * laneOffsetSerial)

/-- The variables of the first loop of the fast loops: the lanes in registers, the positions of
`curData0` to `curData3`, `dataByteLen` (/repo/src/sha3/keccak4x/KeccakP-1600-times4-SIMD256.c:871-911). -/
structure Fast21St where
  v : VLanes
  o : Four Nat
  dataByteLen : Nat

/-- The variables of the second loop: the states, the position of `data`, `dataByteLen`
(/repo/src/sha3/keccak4x/KeccakP-1600-times4-SIMD256.c:918-926). -/
structure FastSt where
  ss : List U64
  pos : Nat
  dataByteLen : Nat

/-- The bound `(laneOffsetParallel*3 + laneCount)*8` of type `unsigned int`
(/repo/src/sha3/keccak4x/KeccakP-1600-times4-SIMD256.c:880, 920). -/
def fastBound (laneOffsetParallel laneCount : Nat) : Nat :=
  u32 (u32 (u32 (laneOffsetParallel * 3) + laneCount) * 8)

/-- The text common to `KeccakF1600times4_FastLoop_Absorb` (/repo/src/sha3/keccak4x/KeccakP-1600-times4-SIMD256.c:828-928) and
`KeccakP1600times4_12rounds_FastLoop_Absorb` (930-1030), which differ in the macro `rounds` and in the
permutation `permute` only (the parts under `#if 0` are not compiled).  Result: the states and the value
returned. -/
def fastLoopAbsorb (rounds : VLanes → C VLanes) (permute : List U64 → C (List U64)) (E : Env)
    (sAddr : Nat) (ss : List U64) (laneCount laneOffsetParallel laneOffsetSerial dAddr : Nat)
    (data : List U8) (dataByteLen : Nat) : C (List U64 × Nat) :=
  ifC (decide (laneCount = 21)) (do
    let o ← lanePtrs dAddr data laneOffsetParallel
    C.require (sAddr % 32 = 0) .misaligned
    let v ← copyFromState4x ss
    let st ← whileC (fun st : Fast21St =>
        decide (st.dataByteLen ≥ fastBound laneOffsetParallel laneCount)) (fun st => do
      let v ← xorIn21 dAddr data st.o st.v
      C.require (E.addr .rho8 % 32 = 0 ∧ E.addr .rho56 % 32 = 0) .misaligned
      let v ← rounds v
      let o0 ← advance data st.o.x0 laneOffsetSerial
      let o1 ← advance data st.o.x1 laneOffsetSerial
      let o2 ← advance data st.o.x2 laneOffsetSerial
      let o3 ← advance data st.o.x3 laneOffsetSerial
      pure { v := v, o := ⟨o0, o1, o2, o3⟩,
             dataByteLen := sz64 (st.dataByteLen - u32 (laneOffsetSerial * 8)) : Fast21St })
      { v := v, o := o, dataByteLen := dataByteLen }
    let ss ← copyToState4x ss st.v
    pure (ss, st.o.x0))
    (do
    let st ← whileC (fun st : FastSt =>
        decide (st.dataByteLen ≥ fastBound laneOffsetParallel laneCount)) (fun st => do
      let ss ← KeccakP1600times4_AddLanesAll sAddr st.ss (dAddr + st.pos) (data.drop st.pos) laneCount
        laneOffsetParallel
      let ss ← permute ss
      C.require (st.pos + u32 (laneOffsetSerial * 8) ≤ data.length) .oobRead
      pure { ss := ss, pos := st.pos + u32 (laneOffsetSerial * 8),
             dataByteLen := sz64 (st.dataByteLen - u32 (laneOffsetSerial * 8)) : FastSt })
      { ss := ss, pos := 0, dataByteLen := dataByteLen }
    pure (st.ss, st.pos))

/-- `KeccakF1600times4_FastLoop_Absorb` (/repo/src/sha3/keccak4x/KeccakP-1600-times4-SIMD256.c:828-928). -/
def KeccakF1600times4_FastLoop_Absorb (E : Env) (sAddr : Nat) (ss : List U64)
    (laneCount laneOffsetParallel laneOffsetSerial dAddr : Nat) (data : List U8) (dataByteLen : Nat) :
    C (List U64 × Nat) :=
  fastLoopAbsorb rounds24 (KeccakP1600times4_PermuteAll_24rounds E) E sAddr ss laneCount
    laneOffsetParallel laneOffsetSerial dAddr data dataByteLen

/-- `KeccakP1600times4_12rounds_FastLoop_Absorb` (/repo/src/sha3/keccak4x/KeccakP-1600-times4-SIMD256.c:930-1030). -/
def KeccakP1600times4_12rounds_FastLoop_Absorb (E : Env) (sAddr : Nat) (ss : List U64)
    (laneCount laneOffsetParallel laneOffsetSerial dAddr : Nat) (data : List U8) (dataByteLen : Nat) :
    C (List U64 × Nat) :=
  fastLoopAbsorb rounds12 (KeccakP1600times4_PermuteAll_12rounds E) E sAddr ss laneCount
    laneOffsetParallel laneOffsetSerial dAddr data dataByteLen

end Frodo
