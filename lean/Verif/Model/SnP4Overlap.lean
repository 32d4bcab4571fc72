import Verif.Model.SnP4

/-! # `ExtractAndAdd` with input and output in one buffer

The two functions of /repo/src/sha3/keccak4x/KeccakP-1600-times4-SIMD256.c that read from one pointer and write through
another.  In Model/SnP4.lean the two areas are separate arrays; here both lie in one array `mem` at
address `mAddr`, the input from position `ip` on and the output from position `op` on, so that every
read sees the bytes written before.  The states are still a separate array. -/

namespace Frodo

/-- The loop `do { *(curOutput++) = *(curInput++) ^ (unsigned char)lane; lane >>= 8; } while (--n != 0)`
(/repo/src/sha3/keccak4x/KeccakP-1600-times4-SIMD256.c:356-359, 373-376) in one buffer. -/
def xorOutBytesMem (mem : List U8) (ip op cur n : Nat) (lane : U64) : C (List U8) := do
  let r ← forC 0 n 1 (mem, lane) fun i (mem, lane) => do
    let b ← rd mem (ip + (cur + i))
    let mem ← wr mem (op + (cur + i)) (b ^^^ lane.setWidth 8)
    pure (mem, lane >>> 8)
  pure r.1

/-- `KeccakP1600times4_ExtractAndAddBytes(states, instanceIndex, mem + ip, mem + op, offset, length)`
(/repo/src/sha3/keccak4x/KeccakP-1600-times4-SIMD256.c:341-378). -/
def KeccakP1600times4_ExtractAndAddBytes_mem (sAddr : Nat) (ss : List U64) (instanceIndex : Nat)
    (mAddr : Nat) (mem : List U8) (ip op : Nat) (offset length : Nat) : C (List U8) := do
  C.require (sAddr % 8 = 0) .misaligned
  let offsetInLane := offset % 8
  let st : ExtrSt := { out := mem, sizeLeft := length, lanePosition := offset / 8, cur := 0 }
  let st ← ifC (decide (st.sizeLeft > 0 ∧ offsetInLane ≠ 0)) (do
    let x ← rd ss (laneIndex instanceIndex st.lanePosition)
    let n ← bytesInLane offsetInLane st.sizeLeft
    let out ← xorOutBytesMem st.out ip op st.cur n (x >>> (8 * offsetInLane))
    pure { out := out, sizeLeft := st.sizeLeft - n, lanePosition := st.lanePosition + 1,
           cur := st.cur + n : ExtrSt }) (pure st)
  let st ← whileC (fun st : ExtrSt => decide (st.sizeLeft ≥ 8)) (fun st => do
    let i ← ldU64 mAddr st.out (ip + st.cur)
    let x ← rd ss (laneIndex instanceIndex st.lanePosition)
    let out ← stU64 mAddr st.out (op + st.cur) (i ^^^ x)
    pure { out := out, sizeLeft := st.sizeLeft - 8, lanePosition := st.lanePosition + 1,
           cur := st.cur + 8 : ExtrSt }) st
  ifC (decide (st.sizeLeft ≠ 0)) (do
    let x ← rd ss (laneIndex instanceIndex st.lanePosition)
    xorOutBytesMem st.out ip op st.cur st.sizeLeft x) (pure st.out)

/-- Macro `ExtrXor` (/repo/src/sha3/keccak4x/KeccakP-1600-times4-SIMD256.c:396-400) with `curInputk = curOutputk`. -/
def ExtrXorInPlace (ss : List U64) (dAddr : Nat) (o : Four Nat) (i : Nat) (data : List U8) : C (List U8) := do
  let x ← ldU64 dAddr data (o.x0 + 8 * i)
  let y ← rd ss (4 * i)
  let data ← stU64 dAddr data (o.x0 + 8 * i) (x ^^^ y)
  let x ← ldU64 dAddr data (o.x1 + 8 * i)
  let y ← rd ss (4 * i + 1)
  let data ← stU64 dAddr data (o.x1 + 8 * i) (x ^^^ y)
  let x ← ldU64 dAddr data (o.x2 + 8 * i)
  let y ← rd ss (4 * i + 2)
  let data ← stU64 dAddr data (o.x2 + 8 * i) (x ^^^ y)
  let x ← ldU64 dAddr data (o.x3 + 8 * i)
  let y ← rd ss (4 * i + 3)
  stU64 dAddr data (o.x3 + 8 * i) (x ^^^ y)

/-- `KeccakP1600times4_ExtractAndAddLanesAll(states, data, data, laneCount, laneOffset)`
(/repo/src/sha3/keccak4x/KeccakP-1600-times4-SIMD256.c:380-442).  `ExtrXor4` (lines 402-419) is as in Model/SnP4.lean, since it
loads all that it reads before it stores. -/
def KeccakP1600times4_ExtractAndAddLanesAll_inPlace (sAddr : Nat) (ss : List U64) (dAddr : Nat)
    (data : List U8) (laneCount laneOffset : Nat) : C (List U8) := do
  let o ← lanePtrs dAddr data laneOffset
  C.require (sAddr % 32 = 0) .misaligned
  laneLoop (fun i data => ExtrXor4 ss data o o i data) (ExtrXorInPlace ss dAddr o) laneCount data

end Frodo
