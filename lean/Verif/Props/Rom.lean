import Verif.Props.Failure
import Mathlib.Data.Set.Finite.List
import Mathlib.SetTheory.Cardinal.Finite
import Mathlib.Logic.Function.Basic

/-! # C02 in the random oracle model

The extendable output function is a function chosen uniformly among all functions from strings of at most
`M` bytes to strings of `L` bytes, of which a query of length `l` gets the first `l`. -/

namespace Frodo.Props

open Spec

/-- The strings that can be asked. -/
abbrev Query (M : Nat) : Type := {m : List U8 // m.length ≤ M}

instance (M : Nat) : Finite (Query M) := (List.finite_length_le U8 M).to_subtype

/-- A random oracle: a function from queries to answers. -/
abbrev Rom (M L : Nat) : Type := Query M → List.Vector U8 L

/-- The extendable output function given by an oracle; what is too long to be asked or to be answered is
answered by zeros. -/
def Rom.xof {M L : Nat} (H : Rom M L) (m : List U8) (l : Nat) : List U8 :=
  ((if h : m.length ≤ M then (H ⟨m, h⟩).toList else []) ++ List.replicate l 0).take l

/-- FrodoKEM with an oracle in place of SHAKE; `GA` makes the generator of `A`, which may ask the same
oracle. -/
def Rom.kem {M L : Nat} (K : KemParams)
    (GA : (List U8 → Nat → List U8) → List U8 → Matrix (Fin K.n) (Fin K.n) (ZMod (2 ^ K.D))) (H : Rom M L) :
    KemParams :=
  { K with shake := H.xof, A := GA H.xof }

/-- The generator asks the oracle nothing of the length of the queries for noise. -/
def Separate (K : KemParams)
    (GA : (List U8 → Nat → List U8) → List U8 → Matrix (Fin K.n) (Fin K.n) (ZMod (2 ^ K.D))) : Prop :=
  ∀ f f' : List U8 → Nat → List U8, (∀ m l, m.length ≠ K.len + 1 → f m l = f' m l) →
    ∀ seedA : List U8, seedA.length = K.lenA → GA f seedA = GA f' seedA

theorem Rom.xof_length {M L : Nat} (H : Rom M L) (m : List U8) (l : Nat) : (H.xof m l).length = l := by
  unfold Rom.xof
  rw [List.length_take, List.length_append, List.length_replicate]
  omega

theorem Rom.xof_eq {M L : Nat} (H : Rom M L) (m : List U8) (l : Nat) (h : m.length ≤ M) (hl : l ≤ L) :
    H.xof m l = (H ⟨m, h⟩).toList.take l := by
  unfold Rom.xof
  rw [dif_pos h, List.take_append_of_le_length (by rw [List.Vector.toList_length]; exact hl)]

/-! ## Counting -/

/-- A function is asked at `a` and then at a place in `S` that depends only on its values outside of `S`:
the two answers are uniform and independent. -/
theorem card_two_queries {I V : Type} [Finite I] [Finite V] [DecidableEq I] (S : I → Prop) (a : I)
    (b : (I → V) → I) (ha : ¬ S a) (hb : ∀ H, S (b H))
    (hd : ∀ H H', (∀ i, ¬ S i → H i = H' i) → b H = b H') (Q : V → V → Prop) :
    Nat.card {H : I → V // Q (H a) (H (b H))} * Nat.card (V × V) ≤
      Nat.card {p : V × V // Q p.1 p.2} * Nat.card (I → V) := by
  rw [← Nat.card_prod, ← Nat.card_prod]
  have hab : ∀ H, b H ≠ a := fun H e => ha (e ▸ hb H)
  refine Nat.card_le_card_of_injective (fun x => (⟨(x.1.1 a, x.1.1 (b x.1.1)), x.1.2⟩,
    Function.update (Function.update x.1.1 a x.2.1) (b x.1.1) x.2.2)) ?_
  have key : ∀ (H : I → V) (w w' : V),
      b (Function.update (Function.update (Function.update H a w) (b H) w') a (H a)) = b H := by
    intro H w w'
    refine hd _ _ fun i hi => ?_
    by_cases h : i = a
    · subst h; rw [Function.update_self]
    · rw [Function.update_of_ne h, Function.update_of_ne (fun e => hi (by rw [e]; exact hb H)),
        Function.update_of_ne h]
  rintro ⟨⟨H, hH⟩, w, w'⟩ ⟨⟨H', hH'⟩, u, u'⟩ e
  simp only [Prod.mk.injEq, Subtype.mk.injEq] at e
  obtain ⟨⟨e1, e2⟩, e3⟩ := e
  have hbb : b H = b H' := by
    rw [← key H w w', ← key H' u u', e3, e1]
  have hw : w = u := by
    have := congrFun e3 a
    rwa [Function.update_of_ne (hab H).symm, Function.update_self, Function.update_of_ne (hab H').symm,
      Function.update_self] at this
  have hw' : w' = u' := by
    have := congrFun e3 (b H)
    rw [Function.update_self, hbb, Function.update_self] at this
    exact this
  have hHH : H = H' := by
    funext i
    by_cases h1 : i = b H
    · rw [h1, e2, hbb]
    · by_cases h2 : i = a
      · rw [h2, e1]
      · have := congrFun e3 i
        rwa [Function.update_of_ne h1, Function.update_of_ne h2, Function.update_of_ne (hbb ▸ h1),
          Function.update_of_ne h2] at this
  subst hHH hw hw'
  rfl

/-- The first `l` bytes of a string. -/
def prefixOf {L : Nat} (l : Nat) (h : l ≤ L) (v : List.Vector U8 L) : List.Vector U8 l :=
  ⟨v.toList.take l, by rw [List.length_take, List.Vector.toList_length]; omega⟩

/-- The string with its first bytes replaced. -/
def withPrefix {L l : Nat} (h : l ≤ L) (v : List.Vector U8 L) (r : List.Vector U8 l) : List.Vector U8 L :=
  ⟨r.toList ++ v.toList.drop l, by
    rw [List.length_append, List.length_drop, List.Vector.toList_length, List.Vector.toList_length]; omega⟩

theorem withPrefix_inj {L l : Nat} (h : l ≤ L) {v v' : List.Vector U8 L} {r r' : List.Vector U8 l}
    (e1 : prefixOf l h v = prefixOf l h v') (e2 : withPrefix h v r = withPrefix h v' r') : v = v' ∧ r = r' := by
  have e1 := congrArg List.Vector.toList e1
  have e2 := congrArg List.Vector.toList e2
  have e3 := List.append_inj e2 (by rw [List.Vector.toList_length, List.Vector.toList_length])
  refine ⟨?_, List.Vector.toList_injective e3.1⟩
  refine List.Vector.toList_injective ?_
  rw [← List.take_append_drop l v.toList, ← List.take_append_drop l v'.toList, e3.2]
  exact congrArg (· ++ _) e1

theorem card_prefix {L l l' : Nat} (h : l ≤ L) (h' : l' ≤ L)
    (Q : List.Vector U8 l → List.Vector U8 l' → Prop) :
    Nat.card {p : List.Vector U8 L × List.Vector U8 L // Q (prefixOf l h p.1) (prefixOf l' h' p.2)} *
        Nat.card (List.Vector U8 l × List.Vector U8 l') ≤
      Nat.card {p : List.Vector U8 l × List.Vector U8 l' // Q p.1 p.2} *
        Nat.card (List.Vector U8 L × List.Vector U8 L) := by
  rw [← Nat.card_prod, ← Nat.card_prod]
  refine Nat.card_le_card_of_injective (fun x => (⟨(prefixOf l h x.1.1.1, prefixOf l' h' x.1.1.2), x.1.2⟩,
    (withPrefix h x.1.1.1 x.2.1, withPrefix h' x.1.1.2 x.2.2))) ?_
  rintro ⟨⟨⟨v, v'⟩, hv⟩, r, r'⟩ ⟨⟨⟨u, u'⟩, hu⟩, t, t'⟩ e
  simp only [Prod.mk.injEq, Subtype.mk.injEq] at e
  obtain ⟨⟨e1, e2⟩, e3, e4⟩ := e
  obtain ⟨rfl, rfl⟩ := withPrefix_inj h e1 e3
  obtain ⟨rfl, rfl⟩ := withPrefix_inj h' e2 e4
  rfl

/-! ## FrodoKEM -/

/-- The queries of encapsulation for noise. -/
def IsNoise' (K : KemParams) {M : Nat} (m : Query M) : Prop := m.1.head? = some 0x96 ∧ m.1.length = K.len + 1

/-- The seed of the noise of encapsulation. -/
def Rom.seed {M L : Nat} (K : KemParams)
    (GA : (List U8 → Nat → List U8) → List U8 → Matrix (Fin K.n) (Fin K.n) (ZMod (2 ^ K.D)))
    (s seedSE z mu : List U8) (H : Rom M L) : List U8 :=
  (deriveSeeds (H.kem K GA) (H.xof (keygen (H.kem K GA) s seedSE z).1 K.len) mu).1

theorem Rom.seed_length {M L : Nat} {K : KemParams}
    {GA : (List U8 → Nat → List U8) → List U8 → Matrix (Fin K.n) (Fin K.n) (ZMod (2 ^ K.D))}
    {s seedSE z mu : List U8} (H : Rom M L) : (H.seed K GA s seedSE z mu).length = K.len := by
  show (List.take K.len (H.xof _ (2 * K.len))).length = K.len
  rw [List.length_take, Rom.xof_length]
  omega

/-- The lengths of all queries of an honest run, apart from the hash of the ciphertext: only the queries
for noise have the length `len + 1`. -/
theorem lengths_separate {P : Params} {K : KemParams} {g : MatGen} (hS : Standard P g K) :
    K.lenA ≠ K.len + 1 ∧ K.lenA + K.lenB ≠ K.len + 1 ∧ K.len + K.len ≠ K.len + 1 := by
  cases hS <;> cases g <;> decide

/-- The seed does not depend on the answers to the queries of encapsulation for noise. -/
theorem Rom.seed_indep {M L : Nat} {P : Params} {K : KemParams} {g : MatGen} (hS : Standard P g K)
    {GA : (List U8 → Nat → List U8) → List U8 → Matrix (Fin K.n) (Fin K.n) (ZMod (2 ^ K.D))}
    (hG : Separate K GA) {s seedSE z mu : List U8} (hz : z.length = K.lenA) (hmu : mu.length = K.len)
    (H H' : Rom M L) (h : ∀ m, ¬ IsNoise' K m → H m = H' m) :
    H.seed K GA s seedSE z mu = H'.seed K GA s seedSE z mu := by
  obtain ⟨l1, l2, l3⟩ := lengths_separate hS
  have hx : ∀ m l, ¬ (m.head? = some 0x96 ∧ m.length = K.len + 1) → H.xof m l = H'.xof m l := by
    intro m l hm
    unfold Rom.xof
    split
    · next hl => rw [h ⟨m, hl⟩ hm]
    · rfl
  have hseed : H.xof z K.lenA = H'.xof z K.lenA := hx _ _ fun h => by omega
  have hr : H.xof (0x5F :: seedSE) (2 * K.n * K.nbar * 2) = H'.xof (0x5F :: seedSE) (2 * K.n * K.nbar * 2) :=
    hx _ _ fun h => absurd h.1 (by simp)
  have hA : GA H.xof (H'.xof z K.lenA) = GA H'.xof (H'.xof z K.lenA) :=
    hG _ _ (fun m l hm => hx m l fun h => hm h.2) _ (Rom.xof_length _ _ _)
  have hpk : (keygen (H.kem K GA) s seedSE z).1 = (keygen (H'.kem K GA) s seedSE z).1 := by
    unfold keygen keygenNoise Rom.kem
    simp only
    rw [hseed, hr, hA]
  have hlen : (keygen (H'.kem K GA) s seedSE z).1.length = K.lenA + K.lenB := by
    unfold keygen
    simp only
    rw [List.length_append, length_packMat]
    exact congrArg (· + _) (Rom.xof_length _ _ _)
  have hpkh : H.xof (keygen (H.kem K GA) s seedSE z).1 K.len = H'.xof (keygen (H'.kem K GA) s seedSE z).1 K.len := by
    rw [hpk]
    exact hx _ _ fun h => by omega
  unfold Rom.seed deriveSeeds
  simp only
  rw [hpkh]
  refine congrArg (List.take _) (hx _ _ fun h => ?_)
  rw [List.length_append, Rom.xof_length, hmu] at h
  omega

/-- C02 in the random oracle model: for all seeds and messages, at most one oracle in `2^k` makes
decapsulation of an honest ciphertext disagree with encapsulation.  The queries are made in order, and the one for
the noise of encapsulation depends on the answers to others. -/
theorem C02_rom {P : Params} {K : KemParams} {g : MatGen} (hS : Standard P g K) {M L : Nat}
    (hM : K.len + 1 ≤ M) (hL : K.lenR' ≤ L)
    (GA : (List U8 → Nat → List U8) → List U8 → Matrix (Fin K.n) (Fin K.n) (ZMod (2 ^ K.D)))
    (hG : Separate K GA) (s seedSE z mu : List U8)
    (hs : s.length = K.len) (hse : seedSE.length = K.len) (hz : z.length = K.lenA) (hmu : mu.length = K.len) :
    Nat.card {H : Rom M L //
      decaps (H.kem K GA) (encaps (H.kem K GA) (keygen (H.kem K GA) s seedSE z).1 mu).1
          (keygen (H.kem K GA) s seedSE z).2 ≠
        (encaps (H.kem K GA) (keygen (H.kem K GA) s seedSE z).1 mu).2} * 2 ^ failExp K.n ≤
      Nat.card (Rom M L) := by
  classical
  have hk := hS.kwf
  have hL' : K.lenR ≤ L := by
    have : K.lenR ≤ K.lenR' := by
      unfold KemParams.lenR KemParams.lenR'
      gcongr
      omega
    omega
  have ha : (0x5F :: seedSE).length ≤ M := by rw [List.length_cons, hse]; exact hM
  have hb : ∀ H : Rom M L, (0x96 :: H.seed K GA s seedSE z mu).length ≤ M := by
    intro H
    rw [List.length_cons, Rom.seed_length]; exact hM
  have hwithin : ∀ H : Rom M L, Within K (noiseOf K (prefixOf K.lenR hL' (H ⟨_, ha⟩)).toList
      (prefixOf K.lenR' hL (H ⟨_, hb H⟩)).toList) →
      decaps (H.kem K GA) (encaps (H.kem K GA) (keygen (H.kem K GA) s seedSE z).1 mu).1
          (keygen (H.kem K GA) s seedSE z).2 =
        (encaps (H.kem K GA) (keygen (H.kem K GA) s seedSE z).1 mu).2 := by
    intro H hw
    have hk' : KWF (H.kem K GA) :=
      ⟨hk.D_pos, hk.D_le, hk.B_pos, hk.B_lt, hk.nbar8, hk.len, H.xof_length⟩
    refine decaps_encaps hk' hs hmu fun i j => ?_
    have e : totalNoise (H.kem K GA) seedSE (H.seed K GA s seedSE z mu) =
        noiseOf K (prefixOf K.lenR hL' (H ⟨_, ha⟩)).toList (prefixOf K.lenR' hL (H ⟨_, hb H⟩)).toList := by
      have e1 : H.xof (0x5F :: seedSE) (2 * K.n * K.nbar * 2) = (prefixOf K.lenR hL' (H ⟨_, ha⟩)).toList :=
        H.xof_eq _ _ ha hL'
      have e2 : H.xof (0x96 :: H.seed K GA s seedSE z mu) ((2 * K.n + K.nbar) * K.nbar * 2) =
          (prefixOf K.lenR' hL (H ⟨_, hb H⟩)).toList := H.xof_eq _ _ (hb H) hL
      rw [← e1, ← e2]
      rfl
    change tolerable K.D K.B ((totalNoise (H.kem K GA) seedSE (H.seed K GA s seedSE z mu) i j : ℤ) :
      ZMod (2 ^ K.D))
    rw [e]
    exact ⟨_, (hw i j).1, (hw i j).2, rfl⟩
  have c1 := card_two_queries (V := List.Vector U8 L) (IsNoise' K) (⟨_, ha⟩ : Query M) (fun H => ⟨_, hb H⟩)
    (fun h => absurd h.1 (by simp)) (fun H => ⟨rfl, by
      show (0x96 :: Rom.seed K GA s seedSE z mu H).length = _
      rw [List.length_cons, Rom.seed_length]⟩)
    (fun H H' h => Subtype.ext (congrArg (0x96 :: ·) (Rom.seed_indep hS hG hz hmu H H' h)))
    (fun v v' => ¬ Within K (noiseOf K (prefixOf K.lenR hL' v).toList (prefixOf K.lenR' hL v').toList))
  have c2 := card_prefix hL' hL (fun r r' => ¬ Within K (noiseOf K r.toList r'.toList))
  have c3 := C02_all hS
  have c0 : Nat.card {H : Rom M L //
      decaps (H.kem K GA) (encaps (H.kem K GA) (keygen (H.kem K GA) s seedSE z).1 mu).1
          (keygen (H.kem K GA) s seedSE z).2 ≠
        (encaps (H.kem K GA) (keygen (H.kem K GA) s seedSE z).1 mu).2} ≤ _ :=
    Nat.card_le_card_of_injective (β := {H : Rom M L // ¬ Within K (noiseOf K
        (prefixOf K.lenR hL' (H ⟨_, ha⟩)).toList (prefixOf K.lenR' hL (H ⟨_, hb H⟩)).toList)})
      (fun H => ⟨H.1, fun hw => H.2 (hwithin H.1 hw)⟩)
      fun _ _ e => Subtype.ext (Subtype.mk.inj e)
  have p1 : 0 < Nat.card (List.Vector U8 L × List.Vector U8 L) := Nat.card_pos
  have p2 : 0 < Nat.card (Strings K) := Nat.card_pos
  generalize Nat.card {H : Rom M L // _ ≠ _} = x0 at *
  generalize Nat.card {H : Rom M L // ¬ _} = x1 at *
  generalize Nat.card {p : List.Vector U8 L × List.Vector U8 L // _} = x2 at *
  generalize Nat.card {p : Strings K // _} = x3 at *
  generalize Nat.card (List.Vector U8 L × List.Vector U8 L) = v2 at *
  generalize Nat.card (Strings K) = st at *
  generalize Nat.card (Rom M L) = f at *
  generalize 2 ^ failExp K.n = e at *
  refine Nat.le_of_mul_le_mul_left ?_ (Nat.mul_pos p1 p2)
  calc v2 * st * (x0 * e) ≤ v2 * st * (x1 * e) := by gcongr
    _ = (x1 * v2) * (st * e) := by ring
    _ ≤ (x2 * f) * (st * e) := by gcongr
    _ = (x2 * st) * (f * e) := by ring
    _ ≤ (x3 * v2) * (f * e) := by gcongr
    _ = (x3 * e) * (v2 * f) := by ring
    _ ≤ st * (v2 * f) := by gcongr
    _ = v2 * st * f := by ring

/-- Frodo.Gen with an oracle in place of SHAKE128. -/
def genRom (D n : Nat) (f : List U8 → Nat → List U8) (seedA : List U8) : Matrix (Fin n) (Fin n) (ZMod (2 ^ D)) :=
  Matrix.of fun i j => (word16 (f (le16 i ++ seedA) (2 * n)) j : ZMod (2 ^ D))

example (D n : Nat) : genRom D n SHAKE128 = genA .shake D n := rfl

/-- The hypothesis on the generator is met by all generators: those that do not ask the oracle, and the one that makes
the rows of `A` from the same oracle (FrodoKEM-640 with SHAKE). -/
theorem separate_gen {P : Params} {K : KemParams} {g : MatGen} (hS : Standard P g K) :
    Separate K (fun _ => K.A) ∧ Separate K (genRom K.D K.n) := by
  refine ⟨fun _ _ _ _ _ => rfl, fun f f' h seedA hs => ?_⟩
  have : 2 + K.lenA ≠ K.len + 1 := by cases hS <;> cases g <;> decide
  ext i j
  unfold genRom
  rw [Matrix.of_apply, Matrix.of_apply, h _ _ (by
    rw [List.length_append, hs]
    exact this)]

/-- The hypotheses can be met, with strings long enough for all queries of FrodoKEM-640. -/
example : (Frodo640 .shake).len + 1 ≤ 10000 ∧ (Frodo640 .shake).lenR' ≤ 30000 ∧
    Separate (Frodo640 .shake) (genRom 15 640) ∧ (List.replicate 16 (7 : U8)).length = (Frodo640 .shake).len :=
  ⟨by decide, by decide, (separate_gen (.frodo640 .shake)).2, rfl⟩

end Frodo.Props
