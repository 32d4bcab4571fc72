import Verif.Proof.Drbg
import Verif.Proof.Vectors

/-! # The specification of CTR_DRBG on the seeds of NIST

The first seed of every list of known answers of the NIST process is the first output of 48 bytes of the
generator instantiated with the entropy `00 01 … 2f`. -/

namespace Frodo
open Spec

set_option maxRecDepth 100000

/-- Key and `V` after instantiation. -/
def nistKey : List U8 :=
    [0x53, 0xe, 0x88, 0xf8, 0xc3, 0x40, 0x30, 0xbe, 0xa1, 0x6a, 0xbe, 0xfa, 0xc8, 0xc6,
      0x7d, 0x84, 0xde, 0xb6, 0x52, 0x2e, 0x59, 0x75, 0x7d, 0x79, 0x1f, 0x57, 0xdf, 0xc8,
      0xa6, 0xee, 0x83, 0x7]
def nistV : List U8 :=
    [0x52, 0x41, 0x21, 0xe9, 0x13, 0x83, 0xc, 0x53, 0xf9, 0x8b, 0xdf, 0xa5, 0x59, 0x2b,
      0x1b, 0xa1]
def nistB1 : List U8 :=
    [0x6, 0x15, 0x50, 0x23, 0x4d, 0x15, 0x8c, 0x5e, 0xc9, 0x55, 0x95, 0xfe, 0x4, 0xef,
      0x7a, 0x25]
def nistB2 : List U8 :=
    [0x76, 0x7f, 0x2e, 0x24, 0xcc, 0x2b, 0xc4, 0x79, 0xd0, 0x9d, 0x86, 0xdc, 0x9a, 0xbc,
      0xfd, 0xe7]
def nistB3 : List U8 :=
    [0x5, 0x6a, 0x8c, 0x26, 0x6f, 0x9e, 0xf9, 0x7e, 0xd0, 0x85, 0x41, 0xdb, 0xd2, 0xe1,
      0xff, 0xa1]

theorem ctrBlocks_zero : ctrBlocks (List.replicate 32 0) (List.replicate 16 0) 3 =
    [0x53, 0xf, 0x8a, 0xfb, 0xc7, 0x45, 0x36, 0xb9, 0xa9, 0x63, 0xb4, 0xf1, 0xc4, 0xcb,
      0x73, 0x8b] ++
    [0xce, 0xa7, 0x40, 0x3d, 0x4d, 0x60, 0x6b, 0x6e, 0x7, 0x4e, 0xc5, 0xd3, 0xba, 0xf3,
      0x9d, 0x18] ++
    [0x72, 0x60, 0x3, 0xca, 0x37, 0xa6, 0x2a, 0x74, 0xd1, 0xa2, 0xf5, 0x8e, 0x75, 0x6,
      0x35, 0x8e] := by
  rw [ctrBlocks_succ, ctrBlocks_succ, ctrBlocks_succ,
    AesFast.AES256_eval (v := [0x53, 0xf, 0x8a, 0xfb, 0xc7, 0x45, 0x36, 0xb9, 0xa9, 0x63, 0xb4, 0xf1, 0xc4, 0xcb,
      0x73, 0x8b]) (by decide +kernel),
    AesFast.AES256_eval (v := [0xce, 0xa7, 0x40, 0x3d, 0x4d, 0x60, 0x6b, 0x6e, 0x7, 0x4e, 0xc5, 0xd3, 0xba, 0xf3,
      0x9d, 0x18]) (by decide +kernel),
    AesFast.AES256_eval (v := [0x72, 0x60, 0x3, 0xca, 0x37, 0xa6, 0x2a, 0x74, 0xd1, 0xa2, 0xf5, 0x8e, 0x75, 0x6,
      0x35, 0x8e]) (by decide +kernel)]
  rfl

theorem nist_init : drbgInit ((List.range 48).map (BitVec.ofNat 8)) (List.replicate 48 0) =
    (nistKey, nistV) := by
  unfold drbgInit drbgUpdate
  rw [ctrBlocks_zero]
  decide +kernel

theorem nist_seed : (drbgGenerate nistKey nistV 48).1 = nistB1 ++ nistB2 ++ nistB3 := by
  unfold drbgGenerate
  simp only
  rw [show (48 + 15) / 16 = 3 from rfl, ctrBlocks_succ, ctrBlocks_succ, ctrBlocks_succ,
    AesFast.AES256_eval (v := nistB1) (by decide +kernel),
    AesFast.AES256_eval (v := nistB2) (by decide +kernel),
    AesFast.AES256_eval (v := nistB3) (by decide +kernel)]
  rfl

end Frodo
