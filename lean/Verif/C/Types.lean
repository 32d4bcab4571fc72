import Verif.C.Monad

/-! # Integer types and conversions of C, as used in /repo -/

namespace Frodo

/-- `uint8_t`, `unsigned char` (/repo/src/util.c:13). -/
abbrev U8 := BitVec 8
/-- `uint16_t` (/repo/src/util.c:13). -/
abbrev U16 := BitVec 16
/-- `uint32_t` (/repo/src/aes/aes_c.c:60). -/
abbrev U32 := BitVec 32
/-- `uint64_t` (/repo/src/sha3/fips202.c:22). -/
abbrev U64 := BitVec 64

/-- Conversion of an `int` to `uint8_t` (C11 6.3.1.3p2). -/
def u8 (x : Int) : U8 := BitVec.ofInt 8 x
/-- Conversion of an `int` to `uint16_t` (C11 6.3.1.3p2). -/
def u16 (x : Int) : U16 := BitVec.ofInt 16 x
/-- Conversion of an `int` to `int8_t` (C11 6.3.1.3p3, two's complement as on every target). -/
def i8 (x : Int) : Int := (BitVec.ofInt 8 x).toInt
/-- Conversion of an `int` to `int16_t` (C11 6.3.1.3p3, two's complement as on every target). -/
def i16 (x : Int) : Int := (BitVec.ofInt 16 x).toInt

/-- Promotion of `uint8_t` to `int` (C11 6.3.1.1p2). -/
instance : Coe U8 Int := ⟨fun x => (x.toNat : Int)⟩
/-- Promotion of `uint16_t` to `int` (C11 6.3.1.1p2). -/
instance : Coe U16 Int := ⟨fun x => (x.toNat : Int)⟩

/-- `a | b` on `int` (C11 6.5.12). -/
def ior (a b : Int) : Int := (BitVec.ofInt 32 a ||| BitVec.ofInt 32 b).toInt
/-- `a & b` on `int` (C11 6.5.10). -/
def iand (a b : Int) : Int := (BitVec.ofInt 32 a &&& BitVec.ofInt 32 b).toInt
/-- `a ^ b` on `int` (C11 6.5.11). -/
def ixor (a b : Int) : Int := (BitVec.ofInt 32 a ^^^ BitVec.ofInt 32 b).toInt
/-- `~a` on `int` (C11 6.5.3.3). -/
def inot (a : Int) : Int := (~~~ BitVec.ofInt 32 a).toInt

end Frodo
