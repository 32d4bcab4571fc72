import Verif.C.Types
import Verif.C.Nth

/-! # Views of 16-bit words as bytes, and byte order

The code of /repo casts arrays of 16-bit words to byte pointers (for instance
/repo/src/frodo_macrify.c:60, 71-77) and the other way round (/repo/src/frodo_macrify.c:66-67). -/

namespace Frodo

/-- Byte order of the target (/repo/src/config.h:98-117). -/
inductive Arch where
  | le | be
  deriving DecidableEq, Repr

/-- The bytes that represent a `uint16_t` in memory (C11 6.2.6.1p4; byte order as distinguished in
/repo/src/config.h:98-117). -/
def bytes16 (a : Arch) (x : U16) : List U8 :=
  match a with
  | .le => [x.setWidth 8, (x >>> 8).setWidth 8]
  | .be => [(x >>> 8).setWidth 8, x.setWidth 8]

/-- The `uint16_t` represented by two bytes of memory (C11 6.2.6.1p4). -/
def join16 (a : Arch) (b0 b1 : U8) : U16 :=
  match a with
  | .le => b0.setWidth 16 ||| (b1.setWidth 16 <<< 8)
  | .be => b1.setWidth 16 ||| (b0.setWidth 16 <<< 8)

/-- An array of words seen through a byte pointer (C11 6.3.2.3p7). -/
def toBytes (a : Arch) (l : List U16) : List U8 := l.flatMap (bytes16 a)

/-- Bytes seen through a pointer to `uint16_t` (C11 6.2.6.1p4). -/
def ofBytes (a : Arch) : List U8 → List U16
  | b0 :: b1 :: l => join16 a b0 b1 :: ofBytes a l
  | _ => []

/-- Exchange of the two bytes, the macros of /repo/src/config.h:100-101. -/
def swap16 (n : U16) : U16 := ((n &&& 0xFF) <<< 8) ||| ((n &&& 0xFF00) >>> 8)

/-- `LE_TO_UINT16` (/repo/src/config.h:100, 103; the byte-wise form of line 106 gives the same value
on either byte order). -/
def LE_TO_UINT16 (a : Arch) (n : U16) : U16 :=
  match a with
  | .le => n
  | .be => swap16 n

/-- `UINT16_TO_LE` (/repo/src/config.h:101, 104; the byte-wise form of lines 107-113 gives the same
value on either byte order). -/
def UINT16_TO_LE (a : Arch) (n : U16) : U16 :=
  match a with
  | .le => n
  | .be => swap16 n

/-- Call `f((unsigned char *)(l + off))` where `f` writes through the pointer (C11 6.3.2.3p7). -/
def asBytes (a : Arch) (l : List U16) (off : Nat) (f : List U8 → C (List U8)) : C (List U16) :=
  if off ≤ l.length then do
    C.emit (.addr (2 * off))
    let b ← f (toBytes a (l.drop off))
    pure (l.take off ++ ofBytes a b)
  else C.ub .oobWrite

/-- `((uint16_t *)buf)[0] = x` on a byte array (/repo/src/frodo_macrify.c:67, 70). -/
def store16 (a : Arch) (buf : List U8) (x : U16) : C (List U8) := do
  let buf ← wr buf 0 (nth (bytes16 a x) 0)
  wr buf 1 (nth (bytes16 a x) 1)

end Frodo
