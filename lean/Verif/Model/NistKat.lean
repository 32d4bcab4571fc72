import Verif.Model.Python

/-! # Model of /repo/python3/nist_kat.py

`print` is modelled by the text printed so far.  As in the model of frodokem.py, a failed assertion is the
outcome `assertFailed`. -/

namespace Frodo.Py

/-- The value of a digit in `bytes.fromhex` (/repo/python3/nist_kat.py:37-46). -/
def digitOf (c : Char) : Nat := if c.toNat < 58 then c.toNat - 48 else c.toNat - 55

/-- `bytes.fromhex` on texts of decimal digits and capital letters (/repo/python3/nist_kat.py:37-46). -/
def fromhex : List Char → List U8
  | a :: b :: l => BitVec.ofNat 8 (16 * digitOf a + digitOf b) :: fromhex l
  | _ => []

/-- `hex().upper()` (/repo/python3/nist_kat.py:19-25): two digits per byte. -/
def hexUpper (l : List U8) : List U8 :=
  let d := fun n : Nat => BitVec.ofNat 8 (if n < 10 then 0x30 + n else 0x41 + (n - 10))
  (l.map fun b => [d (b.toNat >>> 4), d (b.toNat &&& 0xF)]).flatten

/-- The characters of a text as printed (/repo/python3/nist_kat.py:14-23). -/
def ascii (s : String) : List U8 := s.toList.map fun c => BitVec.ofNat 8 c.toNat

/-- `NISTRNG` (/repo/python3/nist_kat.py:27-60).  `current_outputs` is `None` or one of the elements of
`possible_outputs` (the same object, so that `pop` changes it there too): its index. -/
structure Rng where
  current_outputs : Option Nat
  possible_outputs : List (List (List U8))
  deriving DecidableEq

/-- `NISTRNG.__init__` (/repo/python3/nist_kat.py:33-48). -/
def Rng.init : Rng where
  current_outputs := none
  possible_outputs :=
    [[fromhex ("7C9935A0B07694AA0C6D10E4DB6B1ADD2FD81A25CCB148032DCD739936737F2DB505D7CFAD1B4974" ++
        "99323C8686325E47").toList,
      fromhex "33B3C07507E4201748494D832B6EE2A6".toList],
     [fromhex ("7C9935A0B07694AA0C6D10E4DB6B1ADD2FD81A25CCB148032DCD739936737F2DB505D7CFAD1B4974" ++
        "99323C8686325E4792F267AAFA3F87CA60D01CB54F29202A").toList,
      fromhex "EB4A7C66EF4EBA2DDB38C88D8BC706B1D639002198172A7B".toList],
     [fromhex ("7C9935A0B07694AA0C6D10E4DB6B1ADD2FD81A25CCB148032DCD739936737F2DB505D7CFAD1B4974" ++
        "99323C8686325E4792F267AAFA3F87CA60D01CB54F29202A3E784CCB7EBCDCFD45542B7F6AF77874").toList,
      fromhex "8BF0F459F0FB3EA8D32764C259AE631178976BAF3683D33383188A65A4C2449B".toList]]

/-- The search of `randombytes` (/repo/python3/nist_kat.py:52-56). -/
def Rng.choose (r : Rng) (n : Nat) : C Rng :=
  ifC r.current_outputs.isNone
    (do
      let cur ← forC 0 r.possible_outputs.length 1 r.current_outputs fun i cur => do
        let o ← rd r.possible_outputs i
        let x ← rd o 0
        ifC (decide (n = x.length)) (pure (some i)) (pure cur)
      C.require (cur.isSome = true) .assertFailed
      pure { r with current_outputs := cur })
    (pure r)

/-- `NISTRNG.randombytes` (/repo/python3/nist_kat.py:50-60). -/
def Rng.randombytes (r : Rng) (n : Nat) : C (List U8 × Rng) := do
  let r ← r.choose n
  let i := r.current_outputs.getD 0
  let cur ← rd r.possible_outputs i
  C.require (cur.length > 0) .assertFailed
  let x ← rd cur 0
  C.require (n = x.length) .assertFailed
  let possible ← wr r.possible_outputs i (cur.drop 1)
  pure (x, { r with possible_outputs := possible })

/-- `NISTKAT.run` (/repo/python3/nist_kat.py:10-25): the text printed, for the object `o` and its
attribute `variant`. -/
def run (o : Obj) (variant : List U8) : C (List U8) := do
  let rng := Rng.init
  let out := ascii "===============================================\n"
  let out := out ++ variant ++ [10]
  let out := out ++ ascii "count = 0\n"
  let out := out ++ ascii "seed = <unspecified>\n"
  let (rnd, rng) ← rng.randombytes (o.len_s_bytes + o.len_seedSE_bytes + o.len_z_bytes)
  let (pk, sk) ← kem_keygen o rnd
  let out := out ++ ascii "pk = " ++ hexUpper pk ++ [10]
  let out := out ++ ascii "sk = " ++ hexUpper sk ++ [10]
  let (mu, _) ← rng.randombytes o.len_mu_bytes
  let (ct, ss_e) ← kem_encaps o pk mu
  let out := out ++ ascii "ct = " ++ hexUpper ct ++ [10]
  let out := out ++ ascii "ss = " ++ hexUpper ss_e ++ [10]
  let ss_d ← kem_decaps o sk ct
  C.require (hexUpper ss_e = hexUpper ss_d) .assertFailed
  pure out

end Frodo.Py
