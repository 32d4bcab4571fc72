import Verif.C.Types

/-! # Model of /repo/src/util.c and /repo/src/noise.c

`size_t` counters are natural numbers: every object is smaller than 2^64 bytes, so they cannot wrap.
A `break` is modelled by a flag that ends the loop. -/

namespace Frodo

/-- Local variables of `frodo_pack` (/repo/src/util.c:18-21,35). -/
structure PackSt where
  out : List U8
  i : Nat
  j : Nat
  w : U16
  bits : Nat
  b : Nat
  brk : Bool

/-- Body of the inner loop of `frodo_pack` (/repo/src/util.c:37-53). -/
def packInner (inp : List U16) (inlen lsb : Nat) (s : PackSt) : C PackSt := do
  let nbits : Int ← ifC (decide ((8 : Int) - s.b < s.bits)) (pure (8 - s.b)) (pure s.bits)
  let one ← ishl 1 nbits
  let mask := u16 (one - 1)
  let sh ← ishr s.w (s.bits - nbits)
  let t := u8 (iand sh mask)
  let o ← rd s.out s.i
  let tl ← ishl t (8 - s.b - nbits)
  let v ← int (o + tl)
  let out ← wr s.out s.i (u8 v)
  let b := (u8 (s.b + nbits)).toNat
  let bits := (u8 (s.bits - nbits)).toNat
  let m ← ishl mask bits
  let w := u16 (iand s.w (inot m))
  let s := { s with out := out, w := w, bits := bits, b := b }
  ifC (bits == 0)
    (ifC (s.j < inlen)
      (do
        let w ← rd inp s.j
        pure { s with w := w, bits := lsb, j := s.j + 1 })
      (pure { s with brk := true }))
    (pure s)

/-- Body of the outer loop of `frodo_pack` (/repo/src/util.c:35-57). -/
def packOuter (inp : List U16) (inlen lsb : Nat) (s : PackSt) : C PackSt := do
  let s ← whileC (fun s => s.b < 8 && !s.brk) (packInner inp inlen lsb)
    { s with b := 0, brk := false }
  ifC (s.b == 8) (pure { s with i := s.i + 1 }) (pure s)

/-- `frodo_pack` (/repo/src/util.c:13-59). -/
def frodo_pack (out : List U8) (outlen : Nat) (inp : List U16) (inlen lsb : Nat) :
    C (List U8) := do
  let out ← memset out 0 outlen
  let s ← whileC (fun s => s.i < outlen && (s.j < inlen || (s.j == inlen && s.bits > 0)))
    (packOuter inp inlen lsb) { out := out, i := 0, j := 0, w := 0, bits := 0, b := 0, brk := false }
  pure s.out

/-- Local variables of `frodo_unpack` (/repo/src/util.c:67-70,84). -/
structure UnpackSt where
  out : List U16
  i : Nat
  j : Nat
  w : U8
  bits : Nat
  b : Nat
  brk : Bool

/-- Body of the inner loop of `frodo_unpack` (/repo/src/util.c:86-102). -/
def unpackInner (inp : List U8) (inlen lsb : Nat) (s : UnpackSt) : C UnpackSt := do
  let nbits : Int ← ifC (decide ((lsb : Int) - s.b < s.bits)) (pure (lsb - s.b)) (pure s.bits)
  let one ← ishl 1 nbits
  let mask := u16 (one - 1)
  let sh ← ishr s.w (s.bits - nbits)
  let t := u8 (iand sh mask)
  let o ← rd s.out s.i
  let tl ← ishl t (lsb - s.b - nbits)
  let v ← int (o + tl)
  let out ← wr s.out s.i (u16 v)
  let b := (u8 (s.b + nbits)).toNat
  let bits := (u8 (s.bits - nbits)).toNat
  let m ← ishl mask bits
  let w := u8 (iand s.w (inot m))
  let s := { s with out := out, w := w, bits := bits, b := b }
  ifC (bits == 0)
    (ifC (s.j < inlen)
      (do
        let w ← rd inp s.j
        pure { s with w := w, bits := 8, j := s.j + 1 })
      (pure { s with brk := true }))
    (pure s)

/-- Body of the outer loop of `frodo_unpack` (/repo/src/util.c:84-106). -/
def unpackOuter (inp : List U8) (inlen lsb : Nat) (s : UnpackSt) : C UnpackSt := do
  let s ← whileC (fun s => s.b < lsb && !s.brk) (unpackInner inp inlen lsb)
    { s with b := 0, brk := false }
  ifC (s.b == lsb) (pure { s with i := s.i + 1 }) (pure s)

/-- `frodo_unpack` (/repo/src/util.c:62-108). -/
def frodo_unpack (out : List U16) (outlen : Nat) (inp : List U8) (inlen lsb : Nat) :
    C (List U16) := do
  let out ← memset out 0 outlen
  let s ← whileC (fun s => s.i < outlen && (s.j < inlen || (s.j == inlen && s.bits > 0)))
    (unpackOuter inp inlen lsb)
    { out := out, i := 0, j := 0, w := 0, bits := 0, b := 0, brk := false }
  pure s.out

/-- `ct_verify` (/repo/src/util.c:111-122). -/
def ct_verify (a b : List U16) (len : Nat) : C Int := do
  let r ← forC 0 len 1 (0 : U16) fun i r => do
    let x ← rd a i
    let y ← rd b i
    pure (r ||| (x ^^^ y))
  let r1 ← ishr r 1
  let n1 ← int (-(i16 r1))
  let n2 ← int (-(i16 (iand r 1)))
  let v ← ishr (ior n1 n2) (8 * 2 - 1)
  let r := u16 v
  pure (i8 r)

/-- `ct_select` (/repo/src/util.c:125-132). -/
def ct_select (r a b : List U8) (len : Nat) (selector : Int) : C (List U8) :=
  forC 0 len 1 r fun i r => do
    let x ← rd a i
    let y ← rd b i
    wr r i (u8 (ior (iand (inot selector) x) (iand selector y)))

/-- `clear_bytes` (/repo/src/util.c:135-143). -/
def clear_bytes (mem : List U8) (n : Nat) : C (List U8) :=
  forC 0 n 1 mem fun i v => wr v i 0

/-- The body of the loop of `frodo_sample_n` (/repo/src/noise.c:17-27).  `cdf` is `CDF_TABLE`
(/repo/src/frodo640.c:28 etc.); the `unsigned int` counter `j` stays below `CDF_TABLE_LEN`. -/
def sampleBody (cdf : List U16) (i : Nat) (s : List U16) : C (List U16) := do
  let x ← rd s i
  let p ← ishr x 1
  let prnd := u16 p
  let y ← rd s i
  let sign := u16 (iand y 1)
  let sample ← forC 0 (cdf.length - 1) 1 (0 : U16) fun j sample => do
    let c ← rd cdf j
    let d ← int (c - prnd)
    let d ← ishr (u16 d) 15
    let v ← int (sample + d)
    pure (u16 v)
  let ns ← int (-(sign : Int))
  let v ← int (ixor ns sample + sign)
  wr s i (u16 v)

/-- `frodo_sample_n` (/repo/src/noise.c:10-29).  The counter `i` is an `unsigned int` while `n` is a
`size_t`. -/
def frodo_sample_n (cdf : List U16) (s : List U16) (n : Nat) : C (List U16) :=
  forU32 n s (sampleBody cdf)

end Frodo
