import Verif.Spec.Failure
import Verif.Spec.Prob
import Mathlib.Data.Vector.Basic
import Mathlib.Algebra.Order.Group.Abs
import Mathlib.Algebra.Order.Field.Rat
import Mathlib.Tactic.Ring

/-! # Security games (FrodoKEM specification, sections 2.1, 2.2 and 5.1)

Decision LWE, indistinguishability of encryptions under chosen plaintexts (IND-CPA) and of encapsulated secrets under
chosen ciphertexts (IND-CCA).  An attacker is a function; the bound on an attack is stated for every attacker in terms
of other attackers that are given explicitly. -/

namespace Frodo.Spec

/-- The `l` bytes that `b` begins with, followed by zeros if there are less. -/
def vec (l : Nat) (b : List U8) : List.Vector U8 l :=
  ⟨(b ++ List.replicate l 0).take l, by rw [List.length_take, List.length_append, List.length_replicate]; omega⟩

/-! ## Encryption -/

/-- How well `D` tells the values of `f` at random places from random values. -/
noncomputable def advPrg {α β Ω : Type} (f : α → β) (D : Ω → β → Prop) : ℚ :=
  |Pr (fun x : Ω × α => D x.1 (f x.2)) - Pr (fun x : Ω × β => D x.1 x.2)|

/-- A public key encryption scheme with keys `κ` (from which the secret and the public key are made), messages `M`,
random strings `R` and ciphertexts `C`. -/
structure Pke (κ M R C : Type) where
  pk : κ → List U8
  enc : List U8 → M → R → C
  dec : κ → C → M

/-- An attacker on encryption: two messages and a guess, depending on random coins, the public key and (the guess) a
ciphertext. -/
structure CpaAttacker (M C Ω : Type) where
  choose : Ω → List U8 → M × M
  guess : Ω → List U8 → C → Prop

/-- One of the two messages. -/
def CpaAttacker.message {M C Ω : Type} (D : CpaAttacker M C Ω) (b : Bool) (ω : Ω) (pk : List U8) : M :=
  if b then (D.choose ω pk).2 else (D.choose ω pk).1

/-- How well `D` tells encryptions of the first from encryptions of the second of its messages. -/
noncomputable def advCpa {κ M R C Ω : Type} (S : Pke κ M R C) (D : CpaAttacker M C Ω) : ℚ :=
  |Pr (fun x : Ω × κ × R => D.guess x.1 (S.pk x.2.1) (S.enc (S.pk x.2.1) (D.message false x.1 (S.pk x.2.1)) x.2.2)) -
    Pr (fun x : Ω × κ × R => D.guess x.1 (S.pk x.2.1) (S.enc (S.pk x.2.1) (D.message true x.1 (S.pk x.2.1)) x.2.2))|

/-! ## FrodoPKE -/

section Pke
variable (K : KemParams)

/-- Matrices modulo `q`. -/
abbrev Mat (m n : Nat) : Type := Matrix (Fin m) (Fin n) (ZMod (2 ^ K.D))

/-- The matrix `B = A S + E` for the string `r` from which `S` and `E` are sampled (Algorithm 9). -/
def lweKey (seedA : List.Vector U8 K.lenA) (r : List.Vector U8 K.lenR) : Mat K K.n K.nbar :=
  K.A seedA.toList * (modQ K.D (sampleMatrix K.T K.nbar K.n r.toList 0)).transpose +
    modQ K.D (sampleMatrix K.T K.n K.nbar r.toList (K.n * K.nbar))

/-- The matrices `B' = S' A + E'` and `V = S' B + E''` for the string `r'` from which `S'`, `E'` and `E''` are sampled
(Algorithm 10). -/
def lweEnc (seedA : List.Vector U8 K.lenA) (B : Mat K K.n K.nbar) (r' : List.Vector U8 K.lenR') :
    Mat K K.nbar K.n × Mat K K.nbar K.nbar :=
  let S' := modQ K.D (sampleMatrix K.T K.nbar K.n r'.toList 0)
  let E' := modQ K.D (sampleMatrix K.T K.nbar K.n r'.toList (K.n * K.nbar))
  let E'' := modQ K.D (sampleMatrix K.T K.nbar K.nbar r'.toList (2 * K.n * K.nbar))
  (S' * K.A seedA.toList + E', S' * B + E'')

/-- The bytes of a public key. -/
def pkBytes (seedA : List.Vector U8 K.lenA) (B : Mat K K.n K.nbar) : List U8 := seedA.toList ++ packMat B

/-- The bytes of a ciphertext. -/
def ctBytes (M : Mat K K.nbar K.n × Mat K K.nbar K.nbar) : List.Vector U8 (K.lenB + K.lenC) :=
  vec _ (packMat M.1 ++ packMat M.2)

/-- Encryption of `mu` under the public key `seedA`, `B` with the string `r'` (Algorithm 10). -/
def encr (seedA : List.Vector U8 K.lenA) (B : Mat K K.n K.nbar) (mu : List.Vector U8 K.len)
    (r' : List.Vector U8 K.lenR') : List.Vector U8 (K.lenB + K.lenC) :=
  let M := lweEnc K seedA B r'
  ctBytes K (M.1, M.2 + encode K.D K.B K.nbar K.nbar mu.toList)

/-- Decryption with the string `r` from which the secret key is sampled (Algorithm 11). -/
def decr (r : List.Vector U8 K.lenR) (ct : List.Vector U8 (K.lenB + K.lenC)) : List.Vector U8 K.len :=
  vec _ (decrypt K ct.toList (modQ K.D (sampleMatrix K.T K.nbar K.n r.toList 0)))

/-- The encryption scheme FrodoPKE, where all the noise is sampled from uniform strings. -/
def frodoPke : Pke (List.Vector U8 K.lenA × List.Vector U8 K.lenR) (List.Vector U8 K.len) (List.Vector U8 K.lenR')
    (List.Vector U8 (K.lenB + K.lenC)) where
  pk k := pkBytes K k.1 (lweKey K k.1 k.2)
  enc pk := encr K (vec _ pk) (unpackMat K.D K.n K.nbar (pk.drop K.lenA))
  dec k := decr K k.2

/-- The three functions that expand seeds. -/
def expandZ (z : List.Vector U8 K.lenA) : List.Vector U8 K.lenA := vec _ (K.shake z.toList K.lenA)
def expandKey (seedSE : List.Vector U8 K.len) : List.Vector U8 K.lenR := vec _ (K.shake (0x5F :: seedSE.toList) K.lenR)
def expandEnc (seedSE : List.Vector U8 K.len) : List.Vector U8 K.lenR' := vec _ (K.shake (0x96 :: seedSE.toList) K.lenR')

/-- The same where `seedA` and the strings come from the extendable output function, for the seeds `z` and `seedSE` of a key and
the seed `seedSE'` of an encryption (Algorithms 12 to 14). -/
def frodoSeedPke : Pke (List.Vector U8 K.lenA × List.Vector U8 K.len) (List.Vector U8 K.len) (List.Vector U8 K.len)
    (List.Vector U8 (K.lenB + K.lenC)) where
  pk k := (frodoPke K).pk (expandZ K k.1, expandKey K k.2)
  enc pk mu sd := (frodoPke K).enc pk mu (expandEnc K sd)
  dec k := (frodoPke K).dec (expandZ K k.1, expandKey K k.2)

/-- How well `D` tells `B = A S + E` from a uniform matrix. -/
noncomputable def advKey {Ω : Type} (D : Ω → List.Vector U8 K.lenA → Mat K K.n K.nbar → Prop) : ℚ :=
  |Pr (fun x : Ω × List.Vector U8 K.lenA × List.Vector U8 K.lenR => D x.1 x.2.1 (lweKey K x.2.1 x.2.2)) -
    Pr (fun x : Ω × List.Vector U8 K.lenA × Mat K K.n K.nbar => D x.1 x.2.1 x.2.2)|

/-- How well `D` tells `B' = S' A + E'` and `V = S' B + E''` from uniform matrices, where `B` is uniform and known. -/
noncomputable def advEnc {Ω : Type}
    (D : Ω → List.Vector U8 K.lenA → Mat K K.n K.nbar → Mat K K.nbar K.n × Mat K K.nbar K.nbar → Prop) : ℚ :=
  |Pr (fun x : Ω × List.Vector U8 K.lenA × Mat K K.n K.nbar × List.Vector U8 K.lenR' =>
      D x.1 x.2.1 x.2.2.1 (lweEnc K x.2.1 x.2.2.1 x.2.2.2)) -
    Pr (fun x : Ω × List.Vector U8 K.lenA × Mat K K.n K.nbar × Mat K K.nbar K.n × Mat K K.nbar K.nbar =>
      D x.1 x.2.1 x.2.2.1 x.2.2.2)|

variable {K}

/-- An attacker on the encryption of FrodoKEM. -/
abbrev FrodoCpa (K : KemParams) (Ω : Type) : Type :=
  CpaAttacker (List.Vector U8 K.len) (List.Vector U8 (K.lenB + K.lenC)) Ω

/-- The distinguisher for public keys that encrypts the message `b` of the attacker under the given matrix. -/
def onKey {Ω : Type} (D : FrodoCpa K Ω) (b : Bool) :
    Ω × List.Vector U8 K.lenR' → List.Vector U8 K.lenA → Mat K K.n K.nbar → Prop :=
  fun ω seedA B => D.guess ω.1 (pkBytes K seedA B) (encr K seedA B (D.message b ω.1 (pkBytes K seedA B)) ω.2)

/-- The distinguisher for ciphertexts that adds the message `b` of the attacker to the given matrix. -/
def onEnc {Ω : Type} (D : FrodoCpa K Ω) (b : Bool) :
    Ω → List.Vector U8 K.lenA → Mat K K.n K.nbar → Mat K K.nbar K.n × Mat K K.nbar K.nbar → Prop :=
  fun ω seedA B M => D.guess ω (pkBytes K seedA B)
    (ctBytes K (M.1, M.2 + encode K.D K.B K.nbar K.nbar (D.message b ω (pkBytes K seedA B)).toList))

/-- The attacker guesses that the message `b` was encrypted, for the strings `seedA`, `r` and `r'`. -/
def guesses {Ω : Type} (D : FrodoCpa K Ω) (b : Bool) (ω : Ω) (seedA : List.Vector U8 K.lenA) (r : List.Vector U8 K.lenR)
    (r' : List.Vector U8 K.lenR') : Prop :=
  let pk := (frodoPke K).pk (seedA, r)
  D.guess ω pk ((frodoPke K).enc pk (D.message b ω pk) r')

/-- The distinguishers for these functions that play the game of the attacker with the given string. -/
def onZ {Ω : Type} (D : FrodoCpa K Ω) (b : Bool) :
    Ω × List.Vector U8 K.len × List.Vector U8 K.len → List.Vector U8 K.lenA → Prop :=
  fun ω seedA => guesses D b ω.1 seedA (expandKey K ω.2.1) (expandEnc K ω.2.2)
def onSeedKey {Ω : Type} (D : FrodoCpa K Ω) (b : Bool) :
    Ω × List.Vector U8 K.lenA × List.Vector U8 K.len → List.Vector U8 K.lenR → Prop :=
  fun ω r => guesses D b ω.1 ω.2.1 r (expandEnc K ω.2.2)
def onSeedEnc {Ω : Type} (D : FrodoCpa K Ω) (b : Bool) :
    Ω × List.Vector U8 K.lenA × List.Vector U8 K.lenR → List.Vector U8 K.lenR' → Prop :=
  fun ω r' => guesses D b ω.1 ω.2.1 ω.2.2 r'

variable (K)

/-- The distinguishers for these functions that test whether the noise is too large. -/
def testKey : List.Vector U8 K.len → List.Vector U8 K.lenR → Prop :=
  fun sd r => ¬ Within K (noiseOf K r.toList (expandEnc K sd).toList)
def testEnc : List.Vector U8 K.lenR → List.Vector U8 K.lenR' → Prop :=
  fun r r' => ¬ Within K (noiseOf K r.toList r'.toList)

end Pke

/-! ## Chosen ciphertexts -/

/-- What an attacker does who can ask the hash function `G` (for the randomness of encryption and the key `k`), the hash
function `F` (for the shared secret) and for decapsulations, which can be refused: it gives an answer or asks a
question and goes on, depending on what it gets. -/
inductive Attack (M R V X C : Type) where
  | answer (b : Bool)
  | askG (m : M) (k : R × V → Attack M R V X C)
  | askF (c : C) (v : V) (k : X → Attack M R V X C)
  | askD (c : C) (k : Option X → Attack M R V X C)

section Fo
variable {M R V X C : Type}

/-- The answer of the attacker. -/
def Attack.run (g : M → R × V) (f : C → V → X) (d : C → Option X) : Attack M R V X C → Bool
  | .answer b => b
  | .askG m k => (k (g m)).run g f d
  | .askF c v k => (k (f c v)).run g f d
  | .askD c k => (k (d c)).run g f d

/-- The attacker asks `G` at most `a` times and `F` at most `b` times. -/
def Attack.Asks : Attack M R V X C → Nat → Nat → Prop
  | .answer _, _, _ => True
  | .askG _ k, a, b => 0 < a ∧ ∀ x, (k x).Asks (a - 1) b
  | .askF _ _ k, a, b => 0 < b ∧ ∀ x, (k x).Asks a (b - 1)
  | .askD _ k, a, b => ∀ x, (k x).Asks a b

variable [DecidableEq C]

/-- Decapsulation (Algorithm 14) for encryption `enc` and decryption `dec` under some key and the secret `s`. -/
def foDecaps (enc : M → R → C) (dec : C → M) (G : M → R × V) (F : C → V → X) (s : V) (c : C) : X :=
  if enc (dec c) (G (dec c)).1 = c then F c (G (dec c)).2 else F c s

/-- The attacker gets the encapsulation of the message `m`, a string `x` that is the shared secret or a random string,
and the decapsulation of every other ciphertext. -/
def foGame (enc : M → R → C) (dec : C → M) (A : C → X → Attack M R V X C) (G : M → R × V) (F : C → V → X) (s : V)
    (m : M) (x : X) : Bool :=
  let c := enc m (G m).1
  (A c x).run G F fun c' => if c' = c then none else some (foDecaps enc dec G F s c')

/-- The shared secret of the encapsulation of `m` (Algorithm 13). -/
def foSecret (enc : M → R → C) (G : M → R × V) (F : C → V → X) (m : M) : X := F (enc m (G m).1) (G m).2

/-- Some question of the attacker meets `bG` or `bF`, if `F` is answered depending on the questions to `G` so far. -/
def Attack.ever (g : M → R × V) (f : List M → C → V → X) (d : C → Option X) (bG : List M → M → Prop)
    (bF : List M → C → V → Prop) : Attack M R V X C → List M → Prop
  | .answer _, _ => False
  | .askG m k, L => bG L m ∨ (k (g m)).ever g f d bG bF (m :: L)
  | .askF c v k, L => bF L c v ∨ (k (f L c v)).ever g f d bG bF L
  | .askD c k, L => (k (d c)).ever g f d bG bF L

variable [DecidableEq V]

/-- Answers for `F` that fit decapsulations answered by `P`, without the secret key: `P c` if `c` is the encapsulation of
some message asked so far and `v` its key. -/
def simF (enc : M → R → C) (G : M → R × V) (F : C → V → X) (P : C → X) (cs : C) (L : List M) (c : C) (v : V) : X :=
  if c ≠ cs ∧ ∃ m ∈ L, (G m).2 = v ∧ enc m (G m).1 = c then P c else F c v

/-- Answers for decapsulations, without the secret key. -/
def simD (P : C → X) (cs : C) (c : C) : Option X := if c = cs then none else some (P c)

/-- The attacker asks `G` for the message `m`, if `F` and decapsulations are answered without the secret key. -/
def foFinds (enc : M → R → C) (A : Attack M R V X C) (G : M → R × V) (F : C → V → X) (P : C → X) (cs : C) (m : M) :
    Prop :=
  A.ever G (simF enc G F P cs) (simD P cs) (fun _ m' => m' = m) (fun _ _ _ => False) []

end Fo

section Cca
variable {κ M R V X C Ω : Type} [DecidableEq C] [DecidableEq V]

/-- An attacker on encapsulation, who gets random coins, the public key, a ciphertext and a string. -/
abbrev CcaAttacker (M R V X C Ω : Type) : Type := Ω → List U8 → C → X → Attack M R V X C

/-- Everything that is chosen at random: the coins of the attacker, the key, the two hash functions, `s`, the message
and a string. -/
abbrev CcaSpace (κ M R V X C Ω : Type) : Type := Ω × κ × (M → R × V) × (C → V → X) × V × M × X

/-- How well `A` tells the shared secret of an encapsulation from a random string. -/
noncomputable def advCca (S : Pke κ M R C) (A : CcaAttacker M R V X C Ω) : ℚ :=
  |Pr (fun x : CcaSpace κ M R V X C Ω =>
      let (ω, k, G, F, s, m, _) := x
      foGame (S.enc (S.pk k)) (S.dec k) (A ω (S.pk k)) G F s m (foSecret (S.enc (S.pk k)) G F m) = true) -
    Pr (fun x : CcaSpace κ M R V X C Ω =>
      let (ω, k, G, F, s, m, ss) := x
      foGame (S.enc (S.pk k)) (S.dec k) (A ω (S.pk k)) G F s m ss = true)|

/-- The coins of the attacker on encryption that is built from one on encapsulation: two messages, functions to answer
its questions with and a string. -/
abbrev CcaCoins (M R V X C Ω : Type) : Type := Ω × M × M × (M → R × V) × (C → V → X) × (C → X) × X

/-- The attacker on encryption that is built from one on encapsulation: it guesses that the ciphertext is an encryption
of its first message if the attacker asks for that message. -/
def cpaOfCca (S : Pke κ M R C) (A : CcaAttacker M R V X C Ω) : CpaAttacker M C (CcaCoins M R V X C Ω) where
  choose ω _ := (ω.2.1, ω.2.2.1)
  guess ω pk c :=
    let (ω, m, _, G, F, P, x) := ω
    foFinds (S.enc pk) (A ω pk c x) G F P c m

end Cca

end Frodo.Spec
