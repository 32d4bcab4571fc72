import Verif.Model.Keccak
import Verif.Model.Env
import Verif.C.Nth

/-! # Model of /repo/src/sha3/fips202x4.c and of the permutation it calls,
/repo/src/sha3/keccak4x/KeccakP-1600-times4-SIMD256.c (little-endian platforms with AVX2 only) -/

namespace Frodo

/-- `V256` (/repo/src/sha3/keccak4x/KeccakP-1600-times4-SIMD256.c:35): a vector register as four
64-bit words, least significant first. -/
abbrev V256 := Fin 4 → U64

/-- `XOR256` (/repo/src/sha3/keccak4x/KeccakP-1600-times4-SIMD256.c:54), `_mm256_xor_si256`. -/
def XOR256 (a b : V256) : V256 := fun t => a t ^^^ b t

/-- `ANDnu256` (/repo/src/sha3/keccak4x/KeccakP-1600-times4-SIMD256.c:40), `_mm256_andnot_si256`. -/
def ANDnu256 (a b : V256) : V256 := fun t => ~~~ a t &&& b t

/-- `ROL64in256` (/repo/src/sha3/keccak4x/KeccakP-1600-times4-SIMD256.c:46), from `_mm256_or_si256`, `_mm256_slli_epi64`,
`_mm256_srli_epi64`. -/
def ROL64in256 (a : V256) (o : Nat) : V256 := fun t => (a t <<< o) ||| (a t >>> (64 - o))

/-- Byte `k` (0 to 31) of a vector register (used by `_mm256_shuffle_epi8`,
/repo/src/sha3/keccak4x/KeccakP-1600-times4-SIMD256.c:47-48). -/
def V256.byte (a : V256) (k : Nat) : U8 := (a (Fin.ofNat 4 (k / 8)) >>> (8 * (k % 8))).setWidth 8

/-- `_mm256_shuffle_epi8(a, b)` as used in /repo/src/sha3/keccak4x/KeccakP-1600-times4-SIMD256.c:47-48: in each 128-bit half,
result byte `k` is zero if bit 7 of byte `k` of `b` is set, else the byte of that half of `a` selected
by the low four bits of byte `k` of `b`. -/
def mm256_shuffle_epi8 (a b : V256) : V256 := fun t =>
  let byte (k : Nat) : U8 :=
    if (b.byte k).getLsbD 7 then 0 else a.byte (16 * (k / 16) + (b.byte k).toNat % 16)
  (List.range 8).foldl (fun x i => x ||| ((byte (8 * t + i)).setWidth 64 <<< (8 * i))) 0

/-- `rho8` (/repo/src/sha3/keccak4x/KeccakP-1600-times4-SIMD256.c:49). -/
def rho8 : V256 := fun t => nth [0x0605040302010007, 0x0E0D0C0B0A09080F, 0x1615141312111017,
  0x1E1D1C1B1A19181F] t

/-- `rho56` (/repo/src/sha3/keccak4x/KeccakP-1600-times4-SIMD256.c:50). -/
def rho56 : V256 := fun t => nth [0x0007060504030201, 0x080F0E0D0C0B0A09, 0x1017161514131211,
  0x181F1E1D1C1B1A19] t

/-- `ROL64in256_8` (/repo/src/sha3/keccak4x/KeccakP-1600-times4-SIMD256.c:47). -/
def ROL64in256_8 (a : V256) : V256 := mm256_shuffle_epi8 a rho8

/-- `ROL64in256_56` (/repo/src/sha3/keccak4x/KeccakP-1600-times4-SIMD256.c:48). -/
def ROL64in256_56 (a : V256) : V256 := mm256_shuffle_epi8 a rho56

/-- The 25 lane variables `A##..` or `E##..` declared by `declareABCDE`
(/repo/src/sha3/keccak4x/KeccakP-1600-times4-SIMD256.c:444-462). -/
structure VLanes where
  (ba be bi bo bu : V256)
  (ga ge gi go gu : V256)
  (ka ke ki ko ku : V256)
  (ma me mi mo mu : V256)
  (sa se si so su : V256)

/-- The variables `Ca, Ce, Ci, Co, Cu` (/repo/src/sha3/keccak4x/KeccakP-1600-times4-SIMD256.c:455). -/
structure VCols where
  (a e i o u : V256)

/-- Macro `prepareTheta` (/repo/src/sha3/keccak4x/KeccakP-1600-times4-SIMD256.c:464-469). -/
def prepareTheta (v : VLanes) : VCols :=
  let Aba := v.ba
  let Abe := v.be
  let Abi := v.bi
  let Abo := v.bo
  let Abu := v.bu
  let Aga := v.ga
  let Age := v.ge
  let Agi := v.gi
  let Ago := v.go
  let Agu := v.gu
  let Aka := v.ka
  let Ake := v.ke
  let Aki := v.ki
  let Ako := v.ko
  let Aku := v.ku
  let Ama := v.ma
  let Ame := v.me
  let Ami := v.mi
  let Amo := v.mo
  let Amu := v.mu
  let Asa := v.sa
  let Ase := v.se
  let Asi := v.si
  let Aso := v.so
  let Asu := v.su
  let Ca := XOR256 Aba (XOR256 Aga (XOR256 Aka (XOR256 Ama Asa)))
  let Ce := XOR256 Abe (XOR256 Age (XOR256 Ake (XOR256 Ame Ase)))
  let Ci := XOR256 Abi (XOR256 Agi (XOR256 Aki (XOR256 Ami Asi)))
  let Co := XOR256 Abo (XOR256 Ago (XOR256 Ako (XOR256 Amo Aso)))
  let Cu := XOR256 Abu (XOR256 Agu (XOR256 Aku (XOR256 Amu Asu)))
  { a := Ca, e := Ce, i := Ci, o := Co, u := Cu }

/-- Macro `thetaRhoPiChiIotaPrepareTheta(i, A, E)`
(/repo/src/sha3/keccak4x/KeccakP-1600-times4-SIMD256.c:473-590); `v` are the lanes `A##..`, the
result the lanes `E##..` (every one assigned here) and the column parities; `rc` is
`CONST256_64(KeccakF1600RoundConstants[i])`.  The lanes `A##..` are dead afterwards: the next use of
the macro assigns all of them before any is read. -/
def thetaRhoPiChiIotaPrepareTheta (rc : V256) (v : VLanes) (c : VCols) : VLanes × VCols :=
  let Aba := v.ba
  let Abe := v.be
  let Abi := v.bi
  let Abo := v.bo
  let Abu := v.bu
  let Aga := v.ga
  let Age := v.ge
  let Agi := v.gi
  let Ago := v.go
  let Agu := v.gu
  let Aka := v.ka
  let Ake := v.ke
  let Aki := v.ki
  let Ako := v.ko
  let Aku := v.ku
  let Ama := v.ma
  let Ame := v.me
  let Ami := v.mi
  let Amo := v.mo
  let Amu := v.mu
  let Asa := v.sa
  let Ase := v.se
  let Asi := v.si
  let Aso := v.so
  let Asu := v.su
  let Ca := c.a
  let Ce := c.e
  let Ci := c.i
  let Co := c.o
  let Cu := c.u
  let Ce1 := ROL64in256 Ce 1
  let Da := XOR256 Cu Ce1
  let Ci1 := ROL64in256 Ci 1
  let De := XOR256 Ca Ci1
  let Co1 := ROL64in256 Co 1
  let Di := XOR256 Ce Co1
  let Cu1 := ROL64in256 Cu 1
  let Do := XOR256 Ci Cu1
  let Ca1 := ROL64in256 Ca 1
  let Du := XOR256 Co Ca1
  let Aba := XOR256 Aba Da
  let Bba := Aba
  let Age := XOR256 Age De
  let Bbe := ROL64in256 Age 44
  let Aki := XOR256 Aki Di
  let Bbi := ROL64in256 Aki 43
  let Eba := XOR256 Bba (ANDnu256 Bbe Bbi)
  let Eba := XOR256 Eba rc
  let Ca := Eba
  let Amo := XOR256 Amo Do
  let Bbo := ROL64in256 Amo 21
  let Ebe := XOR256 Bbe (ANDnu256 Bbi Bbo)
  let Ce := Ebe
  let Asu := XOR256 Asu Du
  let Bbu := ROL64in256 Asu 14
  let Ebi := XOR256 Bbi (ANDnu256 Bbo Bbu)
  let Ci := Ebi
  let Ebo := XOR256 Bbo (ANDnu256 Bbu Bba)
  let Co := Ebo
  let Ebu := XOR256 Bbu (ANDnu256 Bba Bbe)
  let Cu := Ebu
  let Abo := XOR256 Abo Do
  let Bga := ROL64in256 Abo 28
  let Agu := XOR256 Agu Du
  let Bge := ROL64in256 Agu 20
  let Aka := XOR256 Aka Da
  let Bgi := ROL64in256 Aka 3
  let Ega := XOR256 Bga (ANDnu256 Bge Bgi)
  let Ca := XOR256 Ca Ega
  let Ame := XOR256 Ame De
  let Bgo := ROL64in256 Ame 45
  let Ege := XOR256 Bge (ANDnu256 Bgi Bgo)
  let Ce := XOR256 Ce Ege
  let Asi := XOR256 Asi Di
  let Bgu := ROL64in256 Asi 61
  let Egi := XOR256 Bgi (ANDnu256 Bgo Bgu)
  let Ci := XOR256 Ci Egi
  let Ego := XOR256 Bgo (ANDnu256 Bgu Bga)
  let Co := XOR256 Co Ego
  let Egu := XOR256 Bgu (ANDnu256 Bga Bge)
  let Cu := XOR256 Cu Egu
  let Abe := XOR256 Abe De
  let Bka := ROL64in256 Abe 1
  let Agi := XOR256 Agi Di
  let Bke := ROL64in256 Agi 6
  let Ako := XOR256 Ako Do
  let Bki := ROL64in256 Ako 25
  let Eka := XOR256 Bka (ANDnu256 Bke Bki)
  let Ca := XOR256 Ca Eka
  let Amu := XOR256 Amu Du
  let Bko := ROL64in256_8 Amu
  let Eke := XOR256 Bke (ANDnu256 Bki Bko)
  let Ce := XOR256 Ce Eke
  let Asa := XOR256 Asa Da
  let Bku := ROL64in256 Asa 18
  let Eki := XOR256 Bki (ANDnu256 Bko Bku)
  let Ci := XOR256 Ci Eki
  let Eko := XOR256 Bko (ANDnu256 Bku Bka)
  let Co := XOR256 Co Eko
  let Eku := XOR256 Bku (ANDnu256 Bka Bke)
  let Cu := XOR256 Cu Eku
  let Abu := XOR256 Abu Du
  let Bma := ROL64in256 Abu 27
  let Aga := XOR256 Aga Da
  let Bme := ROL64in256 Aga 36
  let Ake := XOR256 Ake De
  let Bmi := ROL64in256 Ake 10
  let Ema := XOR256 Bma (ANDnu256 Bme Bmi)
  let Ca := XOR256 Ca Ema
  let Ami := XOR256 Ami Di
  let Bmo := ROL64in256 Ami 15
  let Eme := XOR256 Bme (ANDnu256 Bmi Bmo)
  let Ce := XOR256 Ce Eme
  let Aso := XOR256 Aso Do
  let Bmu := ROL64in256_56 Aso
  let Emi := XOR256 Bmi (ANDnu256 Bmo Bmu)
  let Ci := XOR256 Ci Emi
  let Emo := XOR256 Bmo (ANDnu256 Bmu Bma)
  let Co := XOR256 Co Emo
  let Emu := XOR256 Bmu (ANDnu256 Bma Bme)
  let Cu := XOR256 Cu Emu
  let Abi := XOR256 Abi Di
  let Bsa := ROL64in256 Abi 62
  let Ago := XOR256 Ago Do
  let Bse := ROL64in256 Ago 55
  let Aku := XOR256 Aku Du
  let Bsi := ROL64in256 Aku 39
  let Esa := XOR256 Bsa (ANDnu256 Bse Bsi)
  let Ca := XOR256 Ca Esa
  let Ama := XOR256 Ama Da
  let Bso := ROL64in256 Ama 41
  let Ese := XOR256 Bse (ANDnu256 Bsi Bso)
  let Ce := XOR256 Ce Ese
  let Ase := XOR256 Ase De
  let Bsu := ROL64in256 Ase 2
  let Esi := XOR256 Bsi (ANDnu256 Bso Bsu)
  let Ci := XOR256 Ci Esi
  let Eso := XOR256 Bso (ANDnu256 Bsu Bsa)
  let Co := XOR256 Co Eso
  let Esu := XOR256 Bsu (ANDnu256 Bsa Bse)
  let Cu := XOR256 Cu Esu
  ({ ba := Eba, be := Ebe, bi := Ebi, bo := Ebo, bu := Ebu, ga := Ega, ge := Ege, gi := Egi, go
   := Ego, gu := Egu, ka := Eka, ke := Eke, ki := Eki, ko := Eko, ku := Eku, ma := Ema, me :=
   Eme, mi := Emi, mo := Emo, mu := Emu, sa := Esa, se := Ese, si := Esi, so := Eso, su := Esu },
   { a := Ca, e := Ce, i := Ci, o := Co, u := Cu })

/-- Macro `thetaRhoPiChiIota(i, A, E)`
(/repo/src/sha3/keccak4x/KeccakP-1600-times4-SIMD256.c:594-685). -/
def thetaRhoPiChiIota (rc : V256) (v : VLanes) (c : VCols) : VLanes :=
  let Aba := v.ba
  let Abe := v.be
  let Abi := v.bi
  let Abo := v.bo
  let Abu := v.bu
  let Aga := v.ga
  let Age := v.ge
  let Agi := v.gi
  let Ago := v.go
  let Agu := v.gu
  let Aka := v.ka
  let Ake := v.ke
  let Aki := v.ki
  let Ako := v.ko
  let Aku := v.ku
  let Ama := v.ma
  let Ame := v.me
  let Ami := v.mi
  let Amo := v.mo
  let Amu := v.mu
  let Asa := v.sa
  let Ase := v.se
  let Asi := v.si
  let Aso := v.so
  let Asu := v.su
  let Ca := c.a
  let Ce := c.e
  let Ci := c.i
  let Co := c.o
  let Cu := c.u
  let Ce1 := ROL64in256 Ce 1
  let Da := XOR256 Cu Ce1
  let Ci1 := ROL64in256 Ci 1
  let De := XOR256 Ca Ci1
  let Co1 := ROL64in256 Co 1
  let Di := XOR256 Ce Co1
  let Cu1 := ROL64in256 Cu 1
  let Do := XOR256 Ci Cu1
  let Ca1 := ROL64in256 Ca 1
  let Du := XOR256 Co Ca1
  let Aba := XOR256 Aba Da
  let Bba := Aba
  let Age := XOR256 Age De
  let Bbe := ROL64in256 Age 44
  let Aki := XOR256 Aki Di
  let Bbi := ROL64in256 Aki 43
  let Eba := XOR256 Bba (ANDnu256 Bbe Bbi)
  let Eba := XOR256 Eba rc
  let Amo := XOR256 Amo Do
  let Bbo := ROL64in256 Amo 21
  let Ebe := XOR256 Bbe (ANDnu256 Bbi Bbo)
  let Asu := XOR256 Asu Du
  let Bbu := ROL64in256 Asu 14
  let Ebi := XOR256 Bbi (ANDnu256 Bbo Bbu)
  let Ebo := XOR256 Bbo (ANDnu256 Bbu Bba)
  let Ebu := XOR256 Bbu (ANDnu256 Bba Bbe)
  let Abo := XOR256 Abo Do
  let Bga := ROL64in256 Abo 28
  let Agu := XOR256 Agu Du
  let Bge := ROL64in256 Agu 20
  let Aka := XOR256 Aka Da
  let Bgi := ROL64in256 Aka 3
  let Ega := XOR256 Bga (ANDnu256 Bge Bgi)
  let Ame := XOR256 Ame De
  let Bgo := ROL64in256 Ame 45
  let Ege := XOR256 Bge (ANDnu256 Bgi Bgo)
  let Asi := XOR256 Asi Di
  let Bgu := ROL64in256 Asi 61
  let Egi := XOR256 Bgi (ANDnu256 Bgo Bgu)
  let Ego := XOR256 Bgo (ANDnu256 Bgu Bga)
  let Egu := XOR256 Bgu (ANDnu256 Bga Bge)
  let Abe := XOR256 Abe De
  let Bka := ROL64in256 Abe 1
  let Agi := XOR256 Agi Di
  let Bke := ROL64in256 Agi 6
  let Ako := XOR256 Ako Do
  let Bki := ROL64in256 Ako 25
  let Eka := XOR256 Bka (ANDnu256 Bke Bki)
  let Amu := XOR256 Amu Du
  let Bko := ROL64in256_8 Amu
  let Eke := XOR256 Bke (ANDnu256 Bki Bko)
  let Asa := XOR256 Asa Da
  let Bku := ROL64in256 Asa 18
  let Eki := XOR256 Bki (ANDnu256 Bko Bku)
  let Eko := XOR256 Bko (ANDnu256 Bku Bka)
  let Eku := XOR256 Bku (ANDnu256 Bka Bke)
  let Abu := XOR256 Abu Du
  let Bma := ROL64in256 Abu 27
  let Aga := XOR256 Aga Da
  let Bme := ROL64in256 Aga 36
  let Ake := XOR256 Ake De
  let Bmi := ROL64in256 Ake 10
  let Ema := XOR256 Bma (ANDnu256 Bme Bmi)
  let Ami := XOR256 Ami Di
  let Bmo := ROL64in256 Ami 15
  let Eme := XOR256 Bme (ANDnu256 Bmi Bmo)
  let Aso := XOR256 Aso Do
  let Bmu := ROL64in256_56 Aso
  let Emi := XOR256 Bmi (ANDnu256 Bmo Bmu)
  let Emo := XOR256 Bmo (ANDnu256 Bmu Bma)
  let Emu := XOR256 Bmu (ANDnu256 Bma Bme)
  let Abi := XOR256 Abi Di
  let Bsa := ROL64in256 Abi 62
  let Ago := XOR256 Ago Do
  let Bse := ROL64in256 Ago 55
  let Aku := XOR256 Aku Du
  let Bsi := ROL64in256 Aku 39
  let Esa := XOR256 Bsa (ANDnu256 Bse Bsi)
  let Ama := XOR256 Ama Da
  let Bso := ROL64in256 Ama 41
  let Ese := XOR256 Bse (ANDnu256 Bsi Bso)
  let Ase := XOR256 Ase De
  let Bsu := ROL64in256 Ase 2
  let Esi := XOR256 Bsi (ANDnu256 Bso Bsu)
  let Eso := XOR256 Bso (ANDnu256 Bsu Bsa)
  let Esu := XOR256 Bsu (ANDnu256 Bsa Bse)
  { ba := Eba, be := Ebe, bi := Ebi, bo := Ebo, bu := Ebu, ga := Ega, ge := Ege, gi := Egi, go
   := Ego, gu := Egu, ka := Eka, ke := Eke, ki := Eki, ko := Eko, ku := Eku, ma := Ema, me :=
   Eme, mi := Emi, mo := Emo, mu := Emu, sa := Esa, se := Ese, si := Esi, so := Eso, su := Esu }

/-- `KeccakF1600RoundConstants` (/repo/src/sha3/keccak4x/KeccakP-1600-times4-SIMD256.c:688-712). -/
def KeccakF1600RoundConstants : List U64 := [
  0x0000000000000001, 0x0000000000008082, 0x800000000000808a, 0x8000000080008000,
  0x000000000000808b, 0x0000000080000001, 0x8000000080008081, 0x8000000000008009,
  0x000000000000008a, 0x0000000000000088, 0x0000000080008009, 0x000000008000000a,
  0x000000008000808b, 0x800000000000008b, 0x8000000000008089, 0x8000000000008003,
  0x8000000000008002, 0x8000000000000080, 0x000000000000800a, 0x800000008000000a,
  0x8000000080008081, 0x8000000000008080, 0x0000000080000001, 0x8000000080008008]

/-- `CONST256_64(KeccakF1600RoundConstants[i])`, `_mm256_broadcast_sd`
(/repo/src/sha3/keccak4x/KeccakP-1600-times4-SIMD256.c:42). -/
def CONST256_64 (i : Nat) : C V256 := do
  let x ← rd KeccakF1600RoundConstants i
  pure fun _ => x

/-- `LOAD256(state[i])` (/repo/src/sha3/keccak4x/KeccakP-1600-times4-SIMD256.c:43).  The state is the array of 64-bit words
`ss` (see /repo/src/sha3/fips202x4.c:45); its alignment is that of the type `__m256i` (/repo/src/sha3/fips202x4.c:148). -/
def LOAD256 (ss : List U64) (i : Nat) : C V256 := do
  C.require (4 * i + 4 ≤ ss.length) .oobRead
  C.emit (.block (4 * i) 4)
  pure fun t => nth ss (4 * i + t)

/-- `STORE256(state[i], v)` (/repo/src/sha3/keccak4x/KeccakP-1600-times4-SIMD256.c:51). -/
def STORE256 (ss : List U64) (i : Nat) (v : V256) : C (List U64) := do
  C.require (4 * i + 4 ≤ ss.length) .oobWrite
  C.emit (.block (4 * i) 4)
  pure ((((ss.set (4 * i) (v 0)).set (4 * i + 1) (v 1)).set (4 * i + 2) (v 2)).set (4 * i + 3) (v 3))

/-- Macro `copyFromState` (/repo/src/sha3/keccak4x/KeccakP-1600-times4-SIMD256.c:714-739). -/
def copyFromState4x (ss : List U64) : C VLanes := do
  let ba ← LOAD256 ss 0
  let be ← LOAD256 ss 1
  let bi ← LOAD256 ss 2
  let bo ← LOAD256 ss 3
  let bu ← LOAD256 ss 4
  let ga ← LOAD256 ss 5
  let ge ← LOAD256 ss 6
  let gi ← LOAD256 ss 7
  let go ← LOAD256 ss 8
  let gu ← LOAD256 ss 9
  let ka ← LOAD256 ss 10
  let ke ← LOAD256 ss 11
  let ki ← LOAD256 ss 12
  let ko ← LOAD256 ss 13
  let ku ← LOAD256 ss 14
  let ma ← LOAD256 ss 15
  let me ← LOAD256 ss 16
  let mi ← LOAD256 ss 17
  let mo ← LOAD256 ss 18
  let mu ← LOAD256 ss 19
  let sa ← LOAD256 ss 20
  let se ← LOAD256 ss 21
  let si ← LOAD256 ss 22
  let so ← LOAD256 ss 23
  let su ← LOAD256 ss 24
  pure { ba, be, bi, bo, bu, ga, ge, gi, go, gu, ka, ke, ki, ko, ku, ma, me, mi, mo, mu,
         sa, se, si, so, su }

/-- Macro `copyToState` (/repo/src/sha3/keccak4x/KeccakP-1600-times4-SIMD256.c:741-766). -/
def copyToState4x (ss : List U64) (a : VLanes) : C (List U64) := do
  let ss ← STORE256 ss 0 a.ba
  let ss ← STORE256 ss 1 a.be
  let ss ← STORE256 ss 2 a.bi
  let ss ← STORE256 ss 3 a.bo
  let ss ← STORE256 ss 4 a.bu
  let ss ← STORE256 ss 5 a.ga
  let ss ← STORE256 ss 6 a.ge
  let ss ← STORE256 ss 7 a.gi
  let ss ← STORE256 ss 8 a.go
  let ss ← STORE256 ss 9 a.gu
  let ss ← STORE256 ss 10 a.ka
  let ss ← STORE256 ss 11 a.ke
  let ss ← STORE256 ss 12 a.ki
  let ss ← STORE256 ss 13 a.ko
  let ss ← STORE256 ss 14 a.ku
  let ss ← STORE256 ss 15 a.ma
  let ss ← STORE256 ss 16 a.me
  let ss ← STORE256 ss 17 a.mi
  let ss ← STORE256 ss 18 a.mo
  let ss ← STORE256 ss 19 a.mu
  let ss ← STORE256 ss 20 a.sa
  let ss ← STORE256 ss 21 a.se
  let ss ← STORE256 ss 22 a.si
  let ss ← STORE256 ss 23 a.so
  STORE256 ss 24 a.su

/-- Macro `rounds24` with full unrolling
(/repo/src/sha3/keccak4x/KeccakP-1600-unrolling.macros:16-42, SIMD256-config.h:2).  The 23 textual
uses of `thetaRhoPiChiIotaPrepareTheta` (alternating between the variables `A##..` and `E##..`) are
written as a loop without trace. -/
def rounds24 (v : VLanes) : C VLanes := do
  let c := prepareTheta v
  let (v, c) ← (List.range 23).foldlM (fun (v, c) i => do
    let rc ← CONST256_64 i
    pure (thetaRhoPiChiIotaPrepareTheta rc v c)) (v, c)
  let rc ← CONST256_64 23
  pure (thetaRhoPiChiIota rc v c)

/-- `KeccakP1600times4_PermuteAll_24rounds` (/repo/src/sha3/keccak4x/KeccakP-1600-times4-SIMD256.c:802-813).  The tables
`rho8` and `rho56` are read with aligned loads (lines 43, 47-50) although they are declared without
alignment attribute: their addresses are a parameter. -/
def KeccakP1600times4_PermuteAll_24rounds (E : Env) (ss : List U64) : C (List U64) := do
  C.require (E.addr .rho8 % 32 = 0 ∧ E.addr .rho56 % 32 = 0) .misaligned
  let v ← copyFromState4x ss
  let v ← rounds24 v
  copyToState4x ss v

/-- Four buffers with the same role (`m0, m1, m2, m3` etc., /repo/src/sha3/fips202x4.c:37-44, 100, 126-176). -/
structure Four (α : Type) where
  (x0 x1 x2 x3 : α)

/-- The loops `ss[4*i+t] ^= load64(mt + 8 * i)` (/repo/src/sha3/fips202x4.c:49-55 and 90-96). -/
def xorBlock4x (ss : List U64) (r : Nat) (m : Four (List U8)) : C (List U64) :=
  forC 0 (r / 8) 1 ss fun i ss => do
    let x ← rd ss (4 * i + 0)
    let p ← ptr m.x0 (8 * i)
    let v ← load64 p
    let ss ← wr ss (4 * i + 0) (x ^^^ v)
    let x ← rd ss (4 * i + 1)
    let p ← ptr m.x1 (8 * i)
    let v ← load64 p
    let ss ← wr ss (4 * i + 1) (x ^^^ v)
    let x ← rd ss (4 * i + 2)
    let p ← ptr m.x2 (8 * i)
    let v ← load64 p
    let ss ← wr ss (4 * i + 2) (x ^^^ v)
    let x ← rd ss (4 * i + 3)
    let p ← ptr m.x3 (8 * i)
    let v ← load64 p
    wr ss (4 * i + 3) (x ^^^ v)

/-- Local variables of `keccak_absorb4x` that change in its first loop (/repo/src/sha3/fips202x4.c:45-63). -/
structure Absorb4St where
  ss : List U64
  m : Four (List U8)
  mlen : Nat

/-- `keccak_absorb4x` (/repo/src/sha3/fips202x4.c:37-97).  `t0` to `t3` are uninitialised. -/
def keccak_absorb4x (E : Env) (ss : List U64) (r : Nat) (m : Four (List U8)) (mlen : Nat) (p : U8) :
    C (List U64) := do
  let t : Four (List U8) := ⟨uninit E.junk 20 8 200, uninit E.junk 21 8 200, uninit E.junk 22 8 200,
    uninit E.junk 23 8 200⟩
  let st ← whileC (fun st : Absorb4St => decide (st.mlen ≥ r)) (fun st => do
      let ss ← xorBlock4x st.ss r st.m
      let ss ← KeccakP1600times4_PermuteAll_24rounds E ss
      let m0 ← ptr st.m.x0 r
      let m1 ← ptr st.m.x1 r
      let m2 ← ptr st.m.x2 r
      let m3 ← ptr st.m.x3 r
      pure { ss := ss, m := ⟨m0, m1, m2, m3⟩, mlen := st.mlen - r })
    { ss := ss, m := m, mlen := mlen }
  let t ← forC 0 r 1 t fun i t => do
    let t0 ← wr t.x0 i 0
    let t1 ← wr t.x1 i 0
    let t2 ← wr t.x2 i 0
    let t3 ← wr t.x3 i 0
    pure ⟨t0, t1, t2, t3⟩
  let t ← forC 0 st.mlen 1 t fun i t => do
    let b ← rd st.m.x0 i
    let t0 ← wr t.x0 i b
    let b ← rd st.m.x1 i
    let t1 ← wr t.x1 i b
    let b ← rd st.m.x2 i
    let t2 ← wr t.x2 i b
    let b ← rd st.m.x3 i
    let t3 ← wr t.x3 i b
    pure ⟨t0, t1, t2, t3⟩
  let t0 ← wr t.x0 st.mlen p
  let t1 ← wr t.x1 st.mlen p
  let t2 ← wr t.x2 st.mlen p
  let t3 ← wr t.x3 st.mlen p
  let x ← rd t0 (r - 1)
  let t0 ← wr t0 (r - 1) (x ||| 128)
  let x ← rd t1 (r - 1)
  let t1 ← wr t1 (r - 1) (x ||| 128)
  let x ← rd t2 (r - 1)
  let t2 ← wr t2 (r - 1) (x ||| 128)
  let x ← rd t3 (r - 1)
  let t3 ← wr t3 (r - 1) (x ||| 128)
  xorBlock4x st.ss r ⟨t0, t1, t2, t3⟩

/-- Local variables of `keccak_squeezeblocks4x` (/repo/src/sha3/fips202x4.c:100-121); each pointer `ht` is the
buffer and the offset reached (the same for the four). -/
structure Squeeze4St where
  h : Four (List U8)
  off : Nat
  nblocks : Nat
  ss : List U64

/-- `keccak_squeezeblocks4x` (/repo/src/sha3/fips202x4.c:100-121).  The four output buffers must not overlap. -/
def keccak_squeezeblocks4x (E : Env) (h : Four (List U8)) (nblocks : Nat) (ss : List U64) (r : Nat) :
    C (Four (List U8) × List U64) := do
  let st ← whileC (fun st : Squeeze4St => decide (st.nblocks > 0)) (fun st => do
      let ss ← KeccakP1600times4_PermuteAll_24rounds E st.ss
      let h ← forC 0 (r >>> 3) 1 st.h fun i h => do
        let x ← rd ss (4 * i + 0)
        let h0 ← atPtr h.x0 (st.off + 8 * i) fun q => store64 q x
        let x ← rd ss (4 * i + 1)
        let h1 ← atPtr h.x1 (st.off + 8 * i) fun q => store64 q x
        let x ← rd ss (4 * i + 2)
        let h2 ← atPtr h.x2 (st.off + 8 * i) fun q => store64 q x
        let x ← rd ss (4 * i + 3)
        let h3 ← atPtr h.x3 (st.off + 8 * i) fun q => store64 q x
        pure ⟨h0, h1, h2, h3⟩
      pure { h := h, off := st.off + r, nblocks := st.nblocks - 1, ss := ss })
    { h := h, off := 0, nblocks := nblocks, ss := ss }
  pure (st.h, st.ss)

/-- `shake128_absorb4x` (/repo/src/sha3/fips202x4.c:126-135).  The state is zeroed by `s[i] ^ s[i]` on uninitialised
memory. -/
def shake128_absorb4x (E : Env) (ss : List U64) (inp : Four (List U8)) (inlen : Nat) :
    C (List U64) := do
  let ss ← forC 0 25 1 ss fun i ss => do
    let a ← LOAD256 ss i
    let b ← LOAD256 ss i
    STORE256 ss i (XOR256 a b)
  keccak_absorb4x E ss SHAKE128_RATE inp inlen 0x1F

/-- `shake128_squeezeblocks4x` (/repo/src/sha3/fips202x4.c:138-141). -/
def shake128_squeezeblocks4x (E : Env) (out : Four (List U8)) (outlen : Nat) (ss : List U64) :
    C (Four (List U8) × List U64) :=
  keccak_squeezeblocks4x E out (outlen / SHAKE128_RATE) ss SHAKE128_RATE

/-- `shake128_4x` (/repo/src/sha3/fips202x4.c:145-175). -/
def shake128_4x (E : Env) (out : Four (List U8)) (outlen : Nat) (inp : Four (List U8)) (inlen : Nat) :
    C (Four (List U8)) := do
  let ss := uninit E.junk 24 64 100
  let t : Four (List U8) := ⟨uninit E.junk 25 8 SHAKE128_RATE, uninit E.junk 26 8 SHAKE128_RATE,
    uninit E.junk 27 8 SHAKE128_RATE, uninit E.junk 28 8 SHAKE128_RATE⟩
  let ss ← shake128_absorb4x E ss inp inlen
  let (out, ss) ← keccak_squeezeblocks4x E out (outlen / SHAKE128_RATE) ss SHAKE128_RATE
  let off := outlen / SHAKE128_RATE * SHAKE128_RATE
  ifC (outlen % SHAKE128_RATE != 0)
    (do
      let (t, _) ← keccak_squeezeblocks4x E t 1 ss SHAKE128_RATE
      forC 0 (outlen % SHAKE128_RATE) 1 out fun i out => do
        let b ← rd t.x0 i
        let o0 ← wr out.x0 (off + i) b
        let b ← rd t.x1 i
        let o1 ← wr out.x1 (off + i) b
        let b ← rd t.x2 i
        let o2 ← wr out.x2 (off + i) b
        let b ← rd t.x3 i
        let o3 ← wr out.x3 (off + i) b
        pure ⟨o0, o1, o2, o3⟩)
    (pure out)

end Frodo
