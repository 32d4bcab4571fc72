import Verif.Spec.Kat
import Verif.Spec.Drbg
import Verif.Spec.Kem

/-! # Files of known answers

What a file of known answers says and what a test against it is to report, for an arbitrary file.
Independent of the model of /repo/tests/PQCtestKAT_kem640.c. -/

namespace Frodo.Spec

/-- The field with the name `m`: its value as `n` bytes (the first digits are lost if there are too
many), and the text after the character that ends it. -/
def hexField (m : List U8) (n : Nat) (f : List U8) : Option (List U8 × List U8) :=
  (after m f).map fun t =>
    (beBytes n (hexNum ((skipTo t).takeWhile isHex)), ((skipTo t).dropWhile isHex).drop 1)

/-- White space. -/
def blank (c : U8) : Bool := c ∈ ([9, 10, 11, 12, 13, 32] : List U8)

/-- The optional sign of a number. -/
def signOf (f : List U8) : Int × List U8 :=
  match f with
  | 43 :: g => (1, g)
  | 45 :: g => (-1, g)
  | g => (1, g)

/-- The decimal integer that follows, and the text after it. -/
def decField (f : List U8) : Option (Int × List U8) :=
  let g := signOf (f.dropWhile blank)
  if (g.2.takeWhile isDigit) = [] then none
  else some (g.1 * decNum (g.2.takeWhile isDigit), g.2.dropWhile isDigit)

/-- What a record leads to. -/
inductive KatRes where
  /-- the test ends and reports this -/
  | stop (v : Int)
  /-- the number of the record is not an `int`: no requirement -/
  | undef
  /-- the record is correct, this text follows -/
  | next (f : List U8)

/-- The ciphertext and the shared secret of a record, after the public and the secret key.  `a` are the
correct answers. -/
def katCipher (K : KemParams) (a : List U8 × List U8 × List U8 × List U8) (f : List U8) : KatRes :=
  match hexField (txt ['c', 't', ' ', '=', ' ']) (K.lenB + K.lenC) f with
  | none => .stop (-3)
  | some (ct, f) =>
    match hexField (txt ['s', 's', ' ', '=', ' ']) K.len f with
    | none => .stop (-3)
    | some (ss, f) =>
      if (ct, ss) ≠ (a.2.2.1, a.2.2.2) then .stop (-2)
      else if decaps K ct a.2.1 ≠ ss then .stop (-4)
      else .next f

/-- The keys of a record and what follows. -/
def katPair (K : KemParams) (a : List U8 × List U8 × List U8 × List U8) (f : List U8) : KatRes :=
  match hexField (txt ['p', 'k', ' ', '=', ' ']) (K.lenA + K.lenB) f with
  | none => .stop (-3)
  | some (pk, f) =>
    match hexField (txt ['s', 'k', ' ', '=', ' '])
        (K.len + (K.lenA + K.lenB) + 2 * K.n * K.nbar + K.len) f with
    | none => .stop (-3)
    | some (sk, f) => if (pk, sk) ≠ (a.1, a.2.1) then .stop (-2) else katCipher K a f

/-- The seed of a record and what follows. -/
def katSeed (K : KemParams) (ans : List U8 → List U8 × List U8 × List U8 × List U8) (f : List U8) :
    KatRes :=
  match hexField (txt ['s', 'e', 'e', 'd', ' ', '=', ' ']) 48 f with
  | none => .stop (-3)
  | some (seed, f) => katPair K (ans seed) f

/-- The first record of a file: `ans` gives the correct answers for a seed.  0 stands for success, -2 for
a difference, -3 for a field that is missing, -4 for a shared secret that decapsulation does not give. -/
def katRecord (K : KemParams) (ans : List U8 → List U8 × List U8 × List U8 × List U8) (f : List U8) :
    KatRes :=
  match after (txt ['c', 'o', 'u', 'n', 't', ' ', '=', ' ']) f with
  | none => .stop 0
  | some f =>
    match decField f with
    | none => .stop 0
    | some (v, f) =>
      if v < -2 ^ 31 ∨ 2 ^ 31 ≤ v then .undef
      else katSeed K ans f

/-- What the test is to report for a file: records are checked in turn. -/
inductive Verdict (K : KemParams) (ans : List U8 → List U8 × List U8 × List U8 × List U8) :
    List U8 → Option Int → Prop
  | stop {f v} : katRecord K ans f = .stop v → Verdict K ans f (some v)
  | undef {f} : katRecord K ans f = .undef → Verdict K ans f none
  | next {f g v} : katRecord K ans f = .next g → Verdict K ans g v → Verdict K ans f v

/-- A record of known answers; the number of the record in decimal. -/
structure KatRec where
  count : List U8
  seed : List U8
  pk : List U8
  sk : List U8
  ct : List U8
  ss : List U8

/-- The lengths of a record; the number is an `int`. -/
structure KatRec.WF (K : KemParams) (r : KatRec) : Prop where
  count : r.count ≠ [] ∧ (∀ c ∈ r.count, isDigit c = true) ∧ decNum r.count < 2 ^ 31
  seed : r.seed.length = 48
  pk : r.pk.length = K.lenA + K.lenB
  sk : r.sk.length = K.len + (K.lenA + K.lenB) + 2 * K.n * K.nbar + K.len
  ct : r.ct.length = K.lenB + K.lenC
  ss : r.ss.length = K.len

/-- A record as text, in the format of the files of NIST. -/
def KatRec.text (r : KatRec) : List U8 :=
  txt ['c', 'o', 'u', 'n', 't', ' ', '=', ' '] ++ r.count ++ [10] ++
  txt ['s', 'e', 'e', 'd', ' ', '=', ' '] ++ hexText r.seed ++ [10] ++
  txt ['p', 'k', ' ', '=', ' '] ++ hexText r.pk ++ [10] ++
  txt ['s', 'k', ' ', '=', ' '] ++ hexText r.sk ++ [10] ++
  txt ['c', 't', ' ', '=', ' '] ++ hexText r.ct ++ [10] ++
  txt ['s', 's', ' ', '=', ' '] ++ hexText r.ss ++ [10] ++ [10]

/-- Does the record give the correct answers? -/
def KatRec.correct (ans : List U8 → List U8 × List U8 × List U8 × List U8) (r : KatRec) : Prop :=
  (r.pk, r.sk, r.ct, r.ss) = ans r.seed

end Frodo.Spec
