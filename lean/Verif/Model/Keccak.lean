import Verif.C.Junk

/-! # Model of /repo/src/sha3/fips202.c -/

namespace Frodo

/-- Macro `ROL` (/repo/src/sha3/fips202.c:19). -/
def ROL (a : U64) (offset : Nat) : U64 := (a <<< offset) ^^^ (a >>> (64 - offset))

/-- The 25 lane variables of `KeccakF1600_StatePermute` (/repo/src/sha3/fips202.c:77-81, 84-88). -/
structure Lanes where
  (ba be bi bo bu : U64)
  (ga ge gi go gu : U64)
  (ka ke ki ko ku : U64)
  (ma me mi mo mu : U64)
  (sa se si so su : U64)

/-- First half of the loop body of `KeccakF1600_StatePermute` (/repo/src/sha3/fips202.c:119-213). -/
def roundAE (rc : U64) (s : Lanes) : Lanes :=
  let Aba := s.ba
  let Abe := s.be
  let Abi := s.bi
  let Abo := s.bo
  let Abu := s.bu
  let Aga := s.ga
  let Age := s.ge
  let Agi := s.gi
  let Ago := s.go
  let Agu := s.gu
  let Aka := s.ka
  let Ake := s.ke
  let Aki := s.ki
  let Ako := s.ko
  let Aku := s.ku
  let Ama := s.ma
  let Ame := s.me
  let Ami := s.mi
  let Amo := s.mo
  let Amu := s.mu
  let Asa := s.sa
  let Ase := s.se
  let Asi := s.si
  let Aso := s.so
  let Asu := s.su
  let BCa := Aba ^^^ Aga ^^^ Aka ^^^ Ama ^^^ Asa
  let BCe := Abe ^^^ Age ^^^ Ake ^^^ Ame ^^^ Ase
  let BCi := Abi ^^^ Agi ^^^ Aki ^^^ Ami ^^^ Asi
  let BCo := Abo ^^^ Ago ^^^ Ako ^^^ Amo ^^^ Aso
  let BCu := Abu ^^^ Agu ^^^ Aku ^^^ Amu ^^^ Asu
  let Da := BCu ^^^ (ROL BCe 1)
  let De := BCa ^^^ (ROL BCi 1)
  let Di := BCe ^^^ (ROL BCo 1)
  let Do := BCi ^^^ (ROL BCu 1)
  let Du := BCo ^^^ (ROL BCa 1)
  let Aba := Aba ^^^ Da
  let BCa := Aba
  let Age := Age ^^^ De
  let BCe := (ROL Age 44)
  let Aki := Aki ^^^ Di
  let BCi := (ROL Aki 43)
  let Amo := Amo ^^^ Do
  let BCo := (ROL Amo 21)
  let Asu := Asu ^^^ Du
  let BCu := (ROL Asu 14)
  let Eba := BCa ^^^ ((~~~BCe) &&& BCi)
  let Eba := Eba ^^^ rc
  let Ebe := BCe ^^^ ((~~~BCi) &&& BCo)
  let Ebi := BCi ^^^ ((~~~BCo) &&& BCu)
  let Ebo := BCo ^^^ ((~~~BCu) &&& BCa)
  let Ebu := BCu ^^^ ((~~~BCa) &&& BCe)
  let Abo := Abo ^^^ Do
  let BCa := (ROL Abo 28)
  let Agu := Agu ^^^ Du
  let BCe := (ROL Agu 20)
  let Aka := Aka ^^^ Da
  let BCi := (ROL Aka 3)
  let Ame := Ame ^^^ De
  let BCo := (ROL Ame 45)
  let Asi := Asi ^^^ Di
  let BCu := (ROL Asi 61)
  let Ega := BCa ^^^ ((~~~BCe) &&& BCi)
  let Ege := BCe ^^^ ((~~~BCi) &&& BCo)
  let Egi := BCi ^^^ ((~~~BCo) &&& BCu)
  let Ego := BCo ^^^ ((~~~BCu) &&& BCa)
  let Egu := BCu ^^^ ((~~~BCa) &&& BCe)
  let Abe := Abe ^^^ De
  let BCa := (ROL Abe 1)
  let Agi := Agi ^^^ Di
  let BCe := (ROL Agi 6)
  let Ako := Ako ^^^ Do
  let BCi := (ROL Ako 25)
  let Amu := Amu ^^^ Du
  let BCo := (ROL Amu 8)
  let Asa := Asa ^^^ Da
  let BCu := (ROL Asa 18)
  let Eka := BCa ^^^ ((~~~BCe) &&& BCi)
  let Eke := BCe ^^^ ((~~~BCi) &&& BCo)
  let Eki := BCi ^^^ ((~~~BCo) &&& BCu)
  let Eko := BCo ^^^ ((~~~BCu) &&& BCa)
  let Eku := BCu ^^^ ((~~~BCa) &&& BCe)
  let Abu := Abu ^^^ Du
  let BCa := (ROL Abu 27)
  let Aga := Aga ^^^ Da
  let BCe := (ROL Aga 36)
  let Ake := Ake ^^^ De
  let BCi := (ROL Ake 10)
  let Ami := Ami ^^^ Di
  let BCo := (ROL Ami 15)
  let Aso := Aso ^^^ Do
  let BCu := (ROL Aso 56)
  let Ema := BCa ^^^ ((~~~BCe) &&& BCi)
  let Eme := BCe ^^^ ((~~~BCi) &&& BCo)
  let Emi := BCi ^^^ ((~~~BCo) &&& BCu)
  let Emo := BCo ^^^ ((~~~BCu) &&& BCa)
  let Emu := BCu ^^^ ((~~~BCa) &&& BCe)
  let Abi := Abi ^^^ Di
  let BCa := (ROL Abi 62)
  let Ago := Ago ^^^ Do
  let BCe := (ROL Ago 55)
  let Aku := Aku ^^^ Du
  let BCi := (ROL Aku 39)
  let Ama := Ama ^^^ Da
  let BCo := (ROL Ama 41)
  let Ase := Ase ^^^ De
  let BCu := (ROL Ase 2)
  let Esa := BCa ^^^ ((~~~BCe) &&& BCi)
  let Ese := BCe ^^^ ((~~~BCi) &&& BCo)
  let Esi := BCi ^^^ ((~~~BCo) &&& BCu)
  let Eso := BCo ^^^ ((~~~BCu) &&& BCa)
  let Esu := BCu ^^^ ((~~~BCa) &&& BCe)
  { ba := Eba, be := Ebe, bi := Ebi, bo := Ebo, bu := Ebu,
    ga := Ega, ge := Ege, gi := Egi, go := Ego, gu := Egu,
    ka := Eka, ke := Eke, ki := Eki, ko := Eko, ku := Eku,
    ma := Ema, me := Eme, mi := Emi, mo := Emo, mu := Emu,
    sa := Esa, se := Ese, si := Esi, so := Eso, su := Esu }

/-- Second half of the loop body of `KeccakF1600_StatePermute` (/repo/src/sha3/fips202.c:214-307). -/
def roundEA (rc : U64) (s : Lanes) : Lanes :=
  let Eba := s.ba
  let Ebe := s.be
  let Ebi := s.bi
  let Ebo := s.bo
  let Ebu := s.bu
  let Ega := s.ga
  let Ege := s.ge
  let Egi := s.gi
  let Ego := s.go
  let Egu := s.gu
  let Eka := s.ka
  let Eke := s.ke
  let Eki := s.ki
  let Eko := s.ko
  let Eku := s.ku
  let Ema := s.ma
  let Eme := s.me
  let Emi := s.mi
  let Emo := s.mo
  let Emu := s.mu
  let Esa := s.sa
  let Ese := s.se
  let Esi := s.si
  let Eso := s.so
  let Esu := s.su
  let BCa := Eba ^^^ Ega ^^^ Eka ^^^ Ema ^^^ Esa
  let BCe := Ebe ^^^ Ege ^^^ Eke ^^^ Eme ^^^ Ese
  let BCi := Ebi ^^^ Egi ^^^ Eki ^^^ Emi ^^^ Esi
  let BCo := Ebo ^^^ Ego ^^^ Eko ^^^ Emo ^^^ Eso
  let BCu := Ebu ^^^ Egu ^^^ Eku ^^^ Emu ^^^ Esu
  let Da := BCu ^^^ (ROL BCe 1)
  let De := BCa ^^^ (ROL BCi 1)
  let Di := BCe ^^^ (ROL BCo 1)
  let Do := BCi ^^^ (ROL BCu 1)
  let Du := BCo ^^^ (ROL BCa 1)
  let Eba := Eba ^^^ Da
  let BCa := Eba
  let Ege := Ege ^^^ De
  let BCe := (ROL Ege 44)
  let Eki := Eki ^^^ Di
  let BCi := (ROL Eki 43)
  let Emo := Emo ^^^ Do
  let BCo := (ROL Emo 21)
  let Esu := Esu ^^^ Du
  let BCu := (ROL Esu 14)
  let Aba := BCa ^^^ ((~~~BCe) &&& BCi)
  let Aba := Aba ^^^ rc
  let Abe := BCe ^^^ ((~~~BCi) &&& BCo)
  let Abi := BCi ^^^ ((~~~BCo) &&& BCu)
  let Abo := BCo ^^^ ((~~~BCu) &&& BCa)
  let Abu := BCu ^^^ ((~~~BCa) &&& BCe)
  let Ebo := Ebo ^^^ Do
  let BCa := (ROL Ebo 28)
  let Egu := Egu ^^^ Du
  let BCe := (ROL Egu 20)
  let Eka := Eka ^^^ Da
  let BCi := (ROL Eka 3)
  let Eme := Eme ^^^ De
  let BCo := (ROL Eme 45)
  let Esi := Esi ^^^ Di
  let BCu := (ROL Esi 61)
  let Aga := BCa ^^^ ((~~~BCe) &&& BCi)
  let Age := BCe ^^^ ((~~~BCi) &&& BCo)
  let Agi := BCi ^^^ ((~~~BCo) &&& BCu)
  let Ago := BCo ^^^ ((~~~BCu) &&& BCa)
  let Agu := BCu ^^^ ((~~~BCa) &&& BCe)
  let Ebe := Ebe ^^^ De
  let BCa := (ROL Ebe 1)
  let Egi := Egi ^^^ Di
  let BCe := (ROL Egi 6)
  let Eko := Eko ^^^ Do
  let BCi := (ROL Eko 25)
  let Emu := Emu ^^^ Du
  let BCo := (ROL Emu 8)
  let Esa := Esa ^^^ Da
  let BCu := (ROL Esa 18)
  let Aka := BCa ^^^ ((~~~BCe) &&& BCi)
  let Ake := BCe ^^^ ((~~~BCi) &&& BCo)
  let Aki := BCi ^^^ ((~~~BCo) &&& BCu)
  let Ako := BCo ^^^ ((~~~BCu) &&& BCa)
  let Aku := BCu ^^^ ((~~~BCa) &&& BCe)
  let Ebu := Ebu ^^^ Du
  let BCa := (ROL Ebu 27)
  let Ega := Ega ^^^ Da
  let BCe := (ROL Ega 36)
  let Eke := Eke ^^^ De
  let BCi := (ROL Eke 10)
  let Emi := Emi ^^^ Di
  let BCo := (ROL Emi 15)
  let Eso := Eso ^^^ Do
  let BCu := (ROL Eso 56)
  let Ama := BCa ^^^ ((~~~BCe) &&& BCi)
  let Ame := BCe ^^^ ((~~~BCi) &&& BCo)
  let Ami := BCi ^^^ ((~~~BCo) &&& BCu)
  let Amo := BCo ^^^ ((~~~BCu) &&& BCa)
  let Amu := BCu ^^^ ((~~~BCa) &&& BCe)
  let Ebi := Ebi ^^^ Di
  let BCa := (ROL Ebi 62)
  let Ego := Ego ^^^ Do
  let BCe := (ROL Ego 55)
  let Eku := Eku ^^^ Du
  let BCi := (ROL Eku 39)
  let Ema := Ema ^^^ Da
  let BCo := (ROL Ema 41)
  let Ese := Ese ^^^ De
  let BCu := (ROL Ese 2)
  let Asa := BCa ^^^ ((~~~BCe) &&& BCi)
  let Ase := BCe ^^^ ((~~~BCi) &&& BCo)
  let Asi := BCi ^^^ ((~~~BCo) &&& BCu)
  let Aso := BCo ^^^ ((~~~BCu) &&& BCa)
  let Asu := BCu ^^^ ((~~~BCa) &&& BCe)
  { ba := Aba, be := Abe, bi := Abi, bo := Abo, bu := Abu,
    ga := Aga, ge := Age, gi := Agi, go := Ago, gu := Agu,
    ka := Aka, ke := Ake, ki := Aki, ko := Ako, ku := Aku,
    ma := Ama, me := Ame, mi := Ami, mo := Amo, mu := Amu,
    sa := Asa, se := Ase, si := Asi, so := Aso, su := Asu }

/-- `KeccakF_RoundConstants` (/repo/src/sha3/fips202.c:44-70). -/
def KeccakF_RoundConstants : List U64 := [
  0x0000000000000001, 0x0000000000008082, 0x800000000000808a, 0x8000000080008000,
  0x000000000000808b, 0x0000000080000001, 0x8000000080008081, 0x8000000000008009,
  0x000000000000008a, 0x0000000000000088, 0x0000000080008009, 0x000000008000000a,
  0x000000008000808b, 0x800000000000008b, 0x8000000000008089, 0x8000000000008003,
  0x8000000000008002, 0x8000000000000080, 0x000000000000800a, 0x800000008000000a,
  0x8000000080008081, 0x8000000000008080, 0x0000000080000001, 0x8000000080008008]

/-- `copyFromState` (/repo/src/sha3/fips202.c:89-114). -/
def copyFromState (state : List U64) : C Lanes := do
  let ba ← rd state 0
  let be ← rd state 1
  let bi ← rd state 2
  let bo ← rd state 3
  let bu ← rd state 4
  let ga ← rd state 5
  let ge ← rd state 6
  let gi ← rd state 7
  let go ← rd state 8
  let gu ← rd state 9
  let ka ← rd state 10
  let ke ← rd state 11
  let ki ← rd state 12
  let ko ← rd state 13
  let ku ← rd state 14
  let ma ← rd state 15
  let me ← rd state 16
  let mi ← rd state 17
  let mo ← rd state 18
  let mu ← rd state 19
  let sa ← rd state 20
  let se ← rd state 21
  let si ← rd state 22
  let so ← rd state 23
  let su ← rd state 24
  pure { ba, be, bi, bo, bu, ga, ge, gi, go, gu, ka, ke, ki, ko, ku, ma, me, mi, mo, mu,
         sa, se, si, so, su }

/-- `copyToState` (/repo/src/sha3/fips202.c:310-335). -/
def copyToState (state : List U64) (a : Lanes) : C (List U64) := do
  let state ← wr state 0 a.ba
  let state ← wr state 1 a.be
  let state ← wr state 2 a.bi
  let state ← wr state 3 a.bo
  let state ← wr state 4 a.bu
  let state ← wr state 5 a.ga
  let state ← wr state 6 a.ge
  let state ← wr state 7 a.gi
  let state ← wr state 8 a.go
  let state ← wr state 9 a.gu
  let state ← wr state 10 a.ka
  let state ← wr state 11 a.ke
  let state ← wr state 12 a.ki
  let state ← wr state 13 a.ko
  let state ← wr state 14 a.ku
  let state ← wr state 15 a.ma
  let state ← wr state 16 a.me
  let state ← wr state 17 a.mi
  let state ← wr state 18 a.mo
  let state ← wr state 19 a.mu
  let state ← wr state 20 a.sa
  let state ← wr state 21 a.se
  let state ← wr state 22 a.si
  let state ← wr state 23 a.so
  wr state 24 a.su

/-- `KeccakF1600_StatePermute` (/repo/src/sha3/fips202.c:73-338). -/
def KeccakF1600_StatePermute (state : List U64) : C (List U64) := do
  let a ← copyFromState state
  let a ← forC 0 24 2 a fun round a => do
    let rc ← rd KeccakF_RoundConstants round
    let e := roundAE rc a
    let rc ← rd KeccakF_RoundConstants (round + 1)
    pure (roundEA rc e)
  copyToState state a

/-- `load64` (/repo/src/sha3/fips202.c:22-30). -/
def load64 (x : List U8) : C U64 :=
  forC 0 8 1 (0 : U64) fun i r => do
    let b ← rd x i
    pure (r ||| (b.setWidth 64 <<< (8 * i)))

/-- `store64` (/repo/src/sha3/fips202.c:33-41). -/
def store64 (x : List U8) (u : U64) : C (List U8) := do
  let (x, _) ← forC 0 8 1 (x, u) fun i (x, u) => do
    let x ← wr x i (u.setWidth 8)
    pure (x, u >>> 8)
  pure x

/-- The loop `for (i = 0; i < r / 8; ++i) s[i] ^= load64(m + 8 * i)`
(/repo/src/sha3/fips202.c:351-352 and 365-366). -/
def xorBlock (s : List U64) (r : Nat) (m : List U8) : C (List U64) :=
  forC 0 (r / 8) 1 s fun i s => do
    let x ← rd s i
    let p ← ptr m (8 * i)
    let v ← load64 p
    wr s i (x ^^^ v)

/-- Local variables of `keccak_absorb` that change in its first loop
(/repo/src/sha3/fips202.c:344-357). -/
structure AbsorbSt where
  s : List U64
  m : List U8
  mlen : Nat

/-- `keccak_absorb` (/repo/src/sha3/fips202.c:344-367).  `t` is uninitialised. -/
def keccak_absorb (J : Junk) (s : List U64) (r : Nat) (m : List U8) (mlen : Nat) (p : U8) :
    C (List U64) := do
  let t := uninit J 1 8 200
  let st ← whileC (fun st : AbsorbSt => decide (st.mlen ≥ r)) (fun st => do
      let s ← xorBlock st.s r st.m
      let s ← KeccakF1600_StatePermute s
      let m ← ptr st.m r
      pure { s := s, m := m, mlen := st.mlen - r }) { s := s, m := m, mlen := mlen }
  let t ← forC 0 r 1 t fun i t => wr t i 0
  let t ← forC 0 st.mlen 1 t fun i t => do
    let x ← rd st.m i
    wr t i x
  let t ← wr t st.mlen p
  let x ← rd t (r - 1)
  let t ← wr t (r - 1) (x ||| 128)
  xorBlock st.s r t

/-- Local variables of `keccak_squeezeblocks` (/repo/src/sha3/fips202.c:370-384); the pointer `h`
is the buffer and the offset reached. -/
structure SqueezeSt where
  h : List U8
  off : Nat
  nblocks : Nat
  s : List U64

/-- `keccak_squeezeblocks` (/repo/src/sha3/fips202.c:370-384). -/
def keccak_squeezeblocks (h : List U8) (nblocks : Nat) (s : List U64) (r : Nat) :
    C (List U8 × List U64) := do
  let st ← whileC (fun st : SqueezeSt => decide (st.nblocks > 0)) (fun st => do
      let s ← KeccakF1600_StatePermute st.s
      let h ← forC 0 (r >>> 3) 1 st.h fun i h => do
        let x ← rd s i
        atPtr h (st.off + 8 * i) fun q => store64 q x
      pure { h := h, off := st.off + r, nblocks := st.nblocks - 1, s := s })
    { h := h, off := 0, nblocks := nblocks, s := s }
  pure (st.h, st.s)

/-- `SHAKE128_RATE` (/repo/src/sha3/fips202.h:7). -/
def SHAKE128_RATE : Nat := 168
/-- `SHAKE256_RATE` (/repo/src/sha3/fips202.h:8). -/
def SHAKE256_RATE : Nat := 136

/-- `shake128_absorb` (/repo/src/sha3/fips202.c:389-392).  `inputByteLen` is what the caller passes;
the parameter is an `unsigned int`, so the call converts it modulo 2^32 (C11 6.5.2.2p7, 6.3.1.3p2). -/
def shake128_absorb (J : Junk) (s : List U64) (input : List U8) (inputByteLen : Nat) :
    C (List U64) :=
  keccak_absorb J s SHAKE128_RATE input (inputByteLen % 2 ^ 32) 0x1F

/-- `shake128_squeezeblocks` (/repo/src/sha3/fips202.c:395-398). -/
def shake128_squeezeblocks (output : List U8) (nblocks : Nat) (s : List U64) :
    C (List U8 × List U64) :=
  keccak_squeezeblocks output nblocks s SHAKE128_RATE

/-- `shake128` (/repo/src/sha3/fips202.c:401-423). -/
def shake128 (J : Junk) (output : List U8) (outlen : Nat) (input : List U8) (inlen : Nat) :
    C (List U8) := do
  let s : List U64 := List.replicate 25 0
  let t := uninit J 2 8 SHAKE128_RATE
  let nblocks := outlen / SHAKE128_RATE
  let s ← keccak_absorb J s SHAKE128_RATE input inlen 0x1F
  let (output, s) ← keccak_squeezeblocks output nblocks s SHAKE128_RATE
  let off := nblocks * SHAKE128_RATE
  let outlen := outlen - nblocks * SHAKE128_RATE
  ifC (outlen != 0)
    (do
      let (t, _) ← keccak_squeezeblocks t 1 s SHAKE128_RATE
      forC 0 outlen 1 output fun i output => do
        let x ← rd t i
        wr output (off + i) x)
    (pure output)

/-- `shake256_absorb` (/repo/src/sha3/fips202.c:428-431).  `inputByteLen` is what the caller passes;
the parameter is an `unsigned int`, so the call converts it modulo 2^32 (C11 6.5.2.2p7, 6.3.1.3p2). -/
def shake256_absorb (J : Junk) (s : List U64) (input : List U8) (inputByteLen : Nat) :
    C (List U64) :=
  keccak_absorb J s SHAKE256_RATE input (inputByteLen % 2 ^ 32) 0x1F

/-- `shake256_squeezeblocks` (/repo/src/sha3/fips202.c:434-437). -/
def shake256_squeezeblocks (output : List U8) (nblocks : Nat) (s : List U64) :
    C (List U8 × List U64) :=
  keccak_squeezeblocks output nblocks s SHAKE256_RATE

/-- `shake256` (/repo/src/sha3/fips202.c:440-465). -/
def shake256 (J : Junk) (output : List U8) (outlen : Nat) (input : List U8) (inlen : Nat) :
    C (List U8) := do
  let s : List U64 := uninit J 3 64 25
  let t := uninit J 2 8 SHAKE256_RATE
  let nblocks := outlen / SHAKE256_RATE
  let s ← forC 0 25 1 s fun i s => wr s i 0
  let s ← keccak_absorb J s SHAKE256_RATE input inlen 0x1F
  let (output, s) ← keccak_squeezeblocks output nblocks s SHAKE256_RATE
  let off := nblocks * SHAKE256_RATE
  let outlen := outlen - nblocks * SHAKE256_RATE
  ifC (outlen != 0)
    (do
      let (t, _) ← keccak_squeezeblocks t 1 s SHAKE256_RATE
      forC 0 outlen 1 output fun i output => do
        let x ← rd t i
        wr output (off + i) x)
    (pure output)

end Frodo
