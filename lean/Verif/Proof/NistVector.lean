import Verif.Proof.DrbgVector

/-! # CTR_DRBG on the first seed of the known answers of NIST

The requests of FrodoKEM: 48, 64 or 80 bytes, then 16, 24 or 32. -/

namespace Frodo
open Spec

set_option maxRecDepth 100000

/-- The first seed. -/
def nistSeed : List U8 := nistB1 ++ nistB2 ++ nistB3

/-- Key and `V` after instantiation with it. -/
def katKey : List U8 :=
  [0x55, 0x1a, 0xda, 0xd8, 0x8a, 0x50, 0xba, 0xe7, 0x60, 0x36, 0x21, 0x0f, 0xc0, 0x24, 0x09, 0xae, 0xb8, 0xd8, 0x6e, 0x19, 0x81, 0x4b, 0xaf, 0x17, 0xd7, 0xd3, 0x43, 0x0f, 0x20, 0x4f, 0x60, 0xff]
def katV : List U8 :=
  [0x77, 0x0a, 0x8f, 0xec, 0x58, 0x38, 0xd3, 0x0a, 0x01, 0x27, 0xb4, 0x55, 0xa7, 0xe7, 0xca, 0x2f]
/-- The blocks that follow. -/
def katB1 : List U8 :=
  [0x7c, 0x99, 0x35, 0xa0, 0xb0, 0x76, 0x94, 0xaa, 0x0c, 0x6d, 0x10, 0xe4, 0xdb, 0x6b, 0x1a, 0xdd]
def katB2 : List U8 :=
  [0x2f, 0xd8, 0x1a, 0x25, 0xcc, 0xb1, 0x48, 0x03, 0x2d, 0xcd, 0x73, 0x99, 0x36, 0x73, 0x7f, 0x2d]
def katB3 : List U8 :=
  [0xb5, 0x05, 0xd7, 0xcf, 0xad, 0x1b, 0x49, 0x74, 0x99, 0x32, 0x3c, 0x86, 0x86, 0x32, 0x5e, 0x47]
def katB4 : List U8 :=
  [0x92, 0xf2, 0x67, 0xaa, 0xfa, 0x3f, 0x87, 0xca, 0x60, 0xd0, 0x1c, 0xb5, 0x4f, 0x29, 0x20, 0x2a]
def katB5 : List U8 :=
  [0x3e, 0x78, 0x4c, 0xcb, 0x7e, 0xbc, 0xdc, 0xfd, 0x45, 0x54, 0x2b, 0x7f, 0x6a, 0xf7, 0x78, 0x74]
def katB6 : List U8 :=
  [0x2e, 0x0f, 0x44, 0x79, 0x17, 0x50, 0x84, 0xaa, 0x48, 0x8b, 0x3b, 0x74, 0x34, 0x06, 0x78, 0xaa]
def katB7 : List U8 :=
  [0x38, 0xe2, 0x2e, 0x96, 0x28, 0xb0, 0xa1, 0x61, 0xfd, 0xeb, 0x0b, 0xd2, 0x52, 0x17, 0x3b, 0x9c]
def katB8 : List U8 :=
  [0x4e, 0x4c, 0xd0, 0xdb, 0xbd, 0x9c, 0xd3, 0xf1, 0x0e, 0xf5, 0xfe, 0x5e, 0x4b, 0x03, 0x47, 0x45]
/-- The blocks of the second request, for the three lengths. -/
def katM640_1 : List U8 :=
  [0x33, 0xb3, 0xc0, 0x75, 0x07, 0xe4, 0x20, 0x17, 0x48, 0x49, 0x4d, 0x83, 0x2b, 0x6e, 0xe2, 0xa6]
def katM976_1 : List U8 :=
  [0xeb, 0x4a, 0x7c, 0x66, 0xef, 0x4e, 0xba, 0x2d, 0xdb, 0x38, 0xc8, 0x8d, 0x8b, 0xc7, 0x06, 0xb1]
def katM976_2 : List U8 :=
  [0xd6, 0x39, 0x00, 0x21, 0x98, 0x17, 0x2a, 0x7b, 0x19, 0x42, 0xec, 0xa8, 0xf6, 0xc0, 0x01, 0xba]
def katM1344_1 : List U8 :=
  [0x8b, 0xf0, 0xf4, 0x59, 0xf0, 0xfb, 0x3e, 0xa8, 0xd3, 0x27, 0x64, 0xc2, 0x59, 0xae, 0x63, 0x11]
def katM1344_2 : List U8 :=
  [0x78, 0x97, 0x6b, 0xaf, 0x36, 0x83, 0xd3, 0x33, 0x83, 0x18, 0x8a, 0x65, 0xa4, 0xc2, 0x44, 0x9b]

theorem kat_init : drbgInit nistSeed (List.replicate 48 0) = (katKey, katV) := by
  unfold drbgInit drbgUpdate
  rw [ctrBlocks_zero]
  decide +kernel

theorem kat_b1 : AES256 katKey (addV katV 1) = katB1 :=
  AesFast.AES256_eval (by decide +kernel)

theorem kat_b2 : AES256 katKey (addV katV 2) = katB2 :=
  AesFast.AES256_eval (by decide +kernel)

theorem kat_b3 : AES256 katKey (addV katV 3) = katB3 :=
  AesFast.AES256_eval (by decide +kernel)

theorem kat_b4 : AES256 katKey (addV katV 4) = katB4 :=
  AesFast.AES256_eval (by decide +kernel)

theorem kat_b5 : AES256 katKey (addV katV 5) = katB5 :=
  AesFast.AES256_eval (by decide +kernel)

theorem kat_b6 : AES256 katKey (addV katV 6) = katB6 :=
  AesFast.AES256_eval (by decide +kernel)

theorem kat_b7 : AES256 katKey (addV katV 7) = katB7 :=
  AesFast.AES256_eval (by decide +kernel)

theorem kat_b8 : AES256 katKey (addV katV 8) = katB8 :=
  AesFast.AES256_eval (by decide +kernel)

theorem ctrBlocks_nil (key V : List U8) : ctrBlocks key V 0 = [] := rfl

theorem kat_gen640 : drbgGenerate katKey katV 48 =
    (katB1 ++ katB2 ++ katB3, katB4 ++ katB5, katB6) := by
  unfold drbgGenerate drbgUpdate
  simp only [show (48 + 15) / 16 = 3 from rfl]
  simp only [ctrBlocks_succ, ctrBlocks_nil, addV_addV, Nat.reduceAdd, kat_b1, kat_b2, kat_b3, kat_b4,
    kat_b5, kat_b6]
  decide +kernel

theorem kat_mu640 : (drbgGenerate (katB4 ++ katB5) katB6 16).1 =
    (katM640_1).take 16 := by
  unfold drbgGenerate
  simp only
  rw [show (16 + 15) / 16 = 1 from rfl, ctrBlocks_succ,
    AesFast.AES256_eval (v := katM640_1) (by decide +kernel)]
  rfl

theorem kat_gen976 : drbgGenerate katKey katV 64 =
    (katB1 ++ katB2 ++ katB3 ++ katB4, katB5 ++ katB6, katB7) := by
  unfold drbgGenerate drbgUpdate
  simp only [show (64 + 15) / 16 = 4 from rfl]
  simp only [ctrBlocks_succ, ctrBlocks_nil, addV_addV, Nat.reduceAdd, kat_b1, kat_b2, kat_b3, kat_b4,
    kat_b5, kat_b6, kat_b7]
  decide +kernel

theorem kat_mu976 : (drbgGenerate (katB5 ++ katB6) katB7 24).1 =
    (katM976_1 ++ katM976_2).take 24 := by
  unfold drbgGenerate
  simp only
  rw [show (24 + 15) / 16 = 2 from rfl, ctrBlocks_succ, ctrBlocks_succ,
    AesFast.AES256_eval (v := katM976_1) (by decide +kernel), AesFast.AES256_eval (v := katM976_2) (by decide +kernel)]
  rfl

theorem kat_gen1344 : drbgGenerate katKey katV 80 =
    (katB1 ++ katB2 ++ katB3 ++ katB4 ++ katB5, katB6 ++ katB7, katB8) := by
  unfold drbgGenerate drbgUpdate
  simp only [show (80 + 15) / 16 = 5 from rfl]
  simp only [ctrBlocks_succ, ctrBlocks_nil, addV_addV, Nat.reduceAdd, kat_b1, kat_b2, kat_b3, kat_b4,
    kat_b5, kat_b6, kat_b7, kat_b8]
  decide +kernel

theorem kat_mu1344 : (drbgGenerate (katB6 ++ katB7) katB8 32).1 =
    (katM1344_1 ++ katM1344_2).take 32 := by
  unfold drbgGenerate
  simp only
  rw [show (32 + 15) / 16 = 2 from rfl, ctrBlocks_succ, ctrBlocks_succ,
    AesFast.AES256_eval (v := katM1344_1) (by decide +kernel), AesFast.AES256_eval (v := katM1344_2) (by decide +kernel)]
  rfl

end Frodo
