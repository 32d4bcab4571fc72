import Verif.Proof.Cpa
import Verif.Proof.FO
import Verif.Props.Failure

/-! # FrodoKEM in the random oracle model -/

namespace Frodo

open Spec

set_option linter.unusedSectionVars false

noncomputable section

/-! ## For any encryption scheme -/

section Gen
variable {κ M R V X C Ω : Type} [DecidableEq M] [DecidableEq V] [DecidableEq C]
variable [Finite κ] [Finite M] [Finite R] [Finite V] [Finite X] [Finite C] [Finite Ω]
variable [Nonempty κ] [Nonempty M] [Nonempty R] [Nonempty V] [Nonempty X] [Nonempty Ω]

theorem advCca_le_avg (S : Pke κ M R C) (A : CcaAttacker M R V X C Ω) : advCca S A ≤
    ex fun ω => ex fun k => |realGame (S.enc (S.pk k)) (S.dec k) (A ω (S.pk k)) -
      randGame (S.enc (S.pk k)) (S.dec k) (A ω (S.pk k))| := by
  unfold advCca
  rw [Pr_eq, Pr_eq]
  simp only [ex_prod, ex_const]
  have e : ∀ {a b : Ω → κ → ℚ}, |(ex fun ω => ex fun k => a ω k) - (ex fun ω => ex fun k => b ω k)| ≤
        ex fun ω => ex fun k => |a ω k - b ω k| := by
    intro a b
    simp only [← ex_sub]
    exact (abs_ex_le _).trans (ex_mono fun ω => abs_ex_le _)
  exact e

/-- Averages over a product in two orders. -/
theorem ex_reorder {G F P : Type} [Finite G] [Finite F] [Finite P] (φ : Ω → κ → M → R → G → F → P → X → M → ℚ) :
    (ex fun ω => ex fun k => ex fun m => ex fun r => ex fun G => ex fun F => ex fun P => ex fun x =>
      ex fun m' => φ ω k m r G F P x m') =
    ex fun y : (Ω × M × M × G × F × P × X) × κ × R =>
      φ y.1.1 y.2.1 y.1.2.1 y.2.2 y.1.2.2.2.1 y.1.2.2.2.2.1 y.1.2.2.2.2.2.1 y.1.2.2.2.2.2.2 y.1.2.2.1 := by
  let e : (Ω × M × M × G × F × P × X) × κ × R ≃ Ω × κ × M × R × G × F × P × X × M :=
    { toFun := fun y => (y.1.1, y.2.1, y.1.2.1, y.2.2, y.1.2.2.2.1, y.1.2.2.2.2.1, y.1.2.2.2.2.2.1,
        y.1.2.2.2.2.2.2, y.1.2.2.1)
      invFun := fun z => ((z.1, z.2.2.1, z.2.2.2.2.2.2.2.2, z.2.2.2.2.1, z.2.2.2.2.2.1, z.2.2.2.2.2.2.1,
        z.2.2.2.2.2.2.2.1), z.2.1, z.2.2.2.1)
      left_inv := fun _ => rfl
      right_inv := fun _ => rfl }
  have h1 := ex_equiv e fun z => φ z.1 z.2.1 z.2.2.1 z.2.2.2.1 z.2.2.2.2.1 z.2.2.2.2.2.1 z.2.2.2.2.2.2.1
    z.2.2.2.2.2.2.2.1 z.2.2.2.2.2.2.2.2
  have h2 : (ex fun z : Ω × κ × M × R × G × F × P × X × M => φ z.1 z.2.1 z.2.2.1 z.2.2.2.1 z.2.2.2.2.1
      z.2.2.2.2.2.1 z.2.2.2.2.2.2.1 z.2.2.2.2.2.2.2.1 z.2.2.2.2.2.2.2.2) =
      ex fun ω => ex fun k => ex fun m => ex fun r => ex fun G => ex fun F => ex fun P => ex fun x =>
      ex fun m' => φ ω k m r G F P x m' := by
    simp only [ex_prod]
  exact h2.symm.trans h1.symm

/-- How often the attacker finds another message. -/
def otherGame (S : Pke κ M R C) (A : CcaAttacker M R V X C Ω) : ℚ :=
  ex fun ω => ex fun k => ex fun m => ex fun r => ex fun G : M → R × V => ex fun F : C → V → X =>
    ex fun P : C → X => ex fun x => ex fun m' =>
      ind (foFinds (S.enc (S.pk k)) (A ω (S.pk k) (S.enc (S.pk k) m' r) x) G F P (S.enc (S.pk k) m' r) m)

/-- How often the attacker finds the message is how often the attacker on encryption is right. -/
theorem find_le (S : Pke κ M R C) (A : CcaAttacker M R V X C Ω) {a b : Nat}
    (hA : ∀ ω pk c x, (A ω pk c x).Asks a b) :
    (ex fun ω => ex fun k => findGame (S.enc (S.pk k)) (A ω (S.pk k))) ≤
      advCpa S (cpaOfCca S A) + a * (1 / Nat.card M : ℚ) := by
  have e1 := ex_reorder fun (ω : Ω) (k : κ) (m : M) (r : R) (G : M → R × V) (F : C → V → X) (P : C → X) (x : X)
    (_ : M) => ind (foFinds (S.enc (S.pk k)) (A ω (S.pk k) (S.enc (S.pk k) m r) x) G F P (S.enc (S.pk k) m r) m)
  have e2 := ex_reorder fun (ω : Ω) (k : κ) (m : M) (r : R) (G : M → R × V) (F : C → V → X) (P : C → X) (x : X)
    (m' : M) => ind (foFinds (S.enc (S.pk k)) (A ω (S.pk k) (S.enc (S.pk k) m' r) x) G F P (S.enc (S.pk k) m' r) m)
  have e3 : advCpa S (cpaOfCca S A) =
      |(ex fun ω => ex fun k => findGame (S.enc (S.pk k)) (A ω (S.pk k))) - otherGame S A| := by
    unfold findGame otherGame
    rw [e2]
    simp only [ex_const] at e1
    rw [e1]
    unfold advCpa
    rw [Pr_eq, Pr_eq]
    rfl
  have e4 : otherGame S A ≤ a * (1 / Nat.card M : ℚ) := by
    refine ex_le_const fun ω => ex_le_const fun k => ?_
    rw [ex_comm]
    refine ex_le_const fun r => ?_
    rw [ex_comm]
    refine ex_le_const fun G => ?_
    rw [ex_comm]
    refine ex_le_const fun F => ?_
    rw [ex_comm]
    refine ex_le_const fun P => ?_
    rw [ex_comm]
    refine ex_le_const fun x => ?_
    rw [ex_comm]
    refine ex_le_const fun m' => ?_
    exact find_other (S.enc (S.pk k)) (A ω (S.pk k)) (fun c x => hA _ _ _ _) m' r G F P x
  have h5 := le_abs_self ((ex fun ω => ex fun k => findGame (S.enc (S.pk k)) (A ω (S.pk k))) - otherGame S A)
  rw [← e3] at h5
  linarith

theorem ex_const_mul {α : Type} [Finite α] (c : ℚ) (f : α → ℚ) : ex (fun x => c * f x) = c * ex f := by
  rw [mul_comm, ← ex_mul_const]
  exact ex_congr fun x => mul_comm _ _

/-- The transform, for any encryption scheme. -/
theorem advCca_le (S : Pke κ M R C) (Bad : κ → R → Prop)
    (hdec : ∀ k m r, ¬ Bad k r → S.dec k (S.enc (S.pk k) m r) = m) (A : CcaAttacker M R V X C Ω) {a b : Nat}
    (hA : ∀ ω pk c x, (A ω pk c x).Asks a b) : advCca S A ≤
    2 * (advCpa S (cpaOfCca S A) + a * (1 / Nat.card M : ℚ) + 3 * (b * (1 / Nat.card V : ℚ)) +
      (a + 1) * Pr fun p : κ × R => Bad p.1 p.2) := by
  refine (advCca_le_avg S A).trans ?_
  refine (ex_mono fun ω => ex_mono fun k => fo_le (S.enc (S.pk k)) (S.dec k) (Bad k) (hdec k) (A ω (S.pk k))
    (fun c x => hA _ _ _ _)).trans ?_
  have h2 := find_le S A hA
  rw [Pr_eq, ex_prod]
  simp only [ex_const_mul, ex_add, ex_const]
  linarith

end Gen

/-! ## FrodoKEM -/

variable {K : KemParams} {Ω : Type}

theorem card_vector (l : Nat) : (Nat.card (List.Vector U8 l) : ℚ) = 2 ^ (8 * l) := by
  rw [Nat.card_eq_fintype_card, _root_.card_vector, card_U8]
  push_cast
  rw [pow_mul]
  norm_num

theorem frodo_enc (h : KWF K) (k : List.Vector U8 K.lenA × List.Vector U8 K.lenR) :
    (frodoPke K).enc ((frodoPke K).pk k) = encr K k.1 (lweKey K k.1 k.2) := by
  have := unpack_pkBytes h k.1 (lweKey K k.1 k.2)
  unfold frodoPke
  simp only
  rw [this.1, this.2]

/-- Decryption is right for small noise. -/
theorem decr_encr (h : KWF K) (k : List.Vector U8 K.lenA × List.Vector U8 K.lenR)
    (mu : List.Vector U8 K.len) (r' : List.Vector U8 K.lenR') (hw : Within K (noiseOf K k.2.toList r'.toList)) :
    (frodoPke K).dec k ((frodoPke K).enc ((frodoPke K).pk k) mu r') = mu := by
  rw [frodo_enc h]
  have e : decrypt K (encr K k.1 (lweKey K k.1 k.2) mu r').toList
      (modQ K.D (sampleMatrix K.T K.nbar K.n k.2.toList 0)) = mu.toList := by
    unfold encr
    simp only
    rw [toList_ctBytes]
    unfold decrypt
    rw [parseCt_pack h]
    exact Props.transmit_eq h (K.A k.1.toList) k.2.toList r'.toList mu.toList mu.toList_length hw
  show decr K k.2 _ = mu
  unfold decr
  rw [e]
  have := vec_toList mu []
  rwa [List.append_nil] at this

/-- Large noise, for uniform strings. -/
theorem noise_le {P : Params} {g : MatGen} (hS : Props.Standard P g K) :
    Pr (fun p : Strings K => ¬ Within K (noiseOf K p.1.toList p.2.toList)) ≤ 1 / 2 ^ Props.failExp K.n := by
  have h3 := Props.C02_all hS
  have h4 : (0 : ℚ) < Nat.card (Strings K) := by
    rw [card_strings]; positivity
  unfold Pr
  rw [div_le_div_iff₀ h4 (by positivity), one_mul]
  exact_mod_cast h3

/-- Large noise, for strings made from seeds. -/
theorem seed_noise_le {P : Params} {g : MatGen} (hS : Props.Standard P g K) :
    (Pr fun p : (List.Vector U8 K.lenA × List.Vector U8 K.len) × List.Vector U8 K.len =>
      ¬ Within K (noiseOf K (expandKey K p.1.2).toList (expandEnc K p.2).toList)) ≤
    1 / 2 ^ Props.failExp K.n + advPrg (expandKey K) (testKey K) + advPrg (expandEnc K) (testEnc K) := by
  have h0 := noise_le hS
  have e1 : (Pr fun p : (List.Vector U8 K.lenA × List.Vector U8 K.len) × List.Vector U8 K.len =>
      ¬ Within K (noiseOf K (expandKey K p.1.2).toList (expandEnc K p.2).toList)) =
      ex fun b : List.Vector U8 K.len => ex fun a : List.Vector U8 K.len => ind (testKey K b (expandKey K a)) := by
    rw [Pr_eq]
    simp only [ex_prod, ex_const]
    rw [ex_comm]
    rfl
  have e2 : advPrg (expandKey K) (testKey K) =
      |(ex fun b : List.Vector U8 K.len => ex fun a : List.Vector U8 K.len => ind (testKey K b (expandKey K a))) -
        ex fun b : List.Vector U8 K.len => ex fun r : List.Vector U8 K.lenR => ind (testKey K b r)| := by
    unfold advPrg
    rw [Pr_eq, Pr_eq, ex_prod, ex_prod]
  have e3 : advPrg (expandEnc K) (testEnc K) =
      |(ex fun b : List.Vector U8 K.len => ex fun r : List.Vector U8 K.lenR => ind (testKey K b r)) -
        ex fun r : List.Vector U8 K.lenR => ex fun r' : List.Vector U8 K.lenR' => ind (testEnc K r r')| := by
    unfold advPrg
    rw [Pr_eq, Pr_eq, ex_prod, ex_prod, ex_comm]
    rfl
  have e4 : (Pr fun p : Strings K => ¬ Within K (noiseOf K p.1.toList p.2.toList)) =
      ex fun r : List.Vector U8 K.lenR => ex fun r' : List.Vector U8 K.lenR' => ind (testEnc K r r') := by
    rw [Pr_eq, ex_prod]
    rfl
  rw [e4] at h0
  rw [e1, e2, e3]
  have h1 := le_abs_self ((ex fun b : List.Vector U8 K.len => ex fun a : List.Vector U8 K.len =>
      ind (testKey K b (expandKey K a))) -
    ex fun b : List.Vector U8 K.len => ex fun r : List.Vector U8 K.lenR => ind (testKey K b r))
  have h2 := le_abs_self ((ex fun b : List.Vector U8 K.len => ex fun r : List.Vector U8 K.lenR => ind (testKey K b r)) -
    ex fun r : List.Vector U8 K.lenR => ex fun r' : List.Vector U8 K.lenR' => ind (testEnc K r r'))
  linarith

/-! ## Seeds -/

/-- The games between strings made from seeds and uniform strings. -/
def seed0 (D : FrodoCpa K Ω) (b : Bool) [Finite Ω] : ℚ :=
  ex fun ω => ex fun z => ex fun sk => ex fun se => ind (guesses D b ω (expandZ K z) (expandKey K sk) (expandEnc K se))
def seed1 (D : FrodoCpa K Ω) (b : Bool) [Finite Ω] : ℚ :=
  ex fun ω => ex fun sA => ex fun sk => ex fun se => ind (guesses D b ω sA (expandKey K sk) (expandEnc K se))
def seed2 (D : FrodoCpa K Ω) (b : Bool) [Finite Ω] : ℚ :=
  ex fun ω => ex fun sA => ex fun r => ex fun se => ind (guesses D b ω sA r (expandEnc K se))
def seed3 (D : FrodoCpa K Ω) (b : Bool) [Finite Ω] : ℚ :=
  ex fun ω => ex fun sA => ex fun r => ex fun r' => ind (guesses D b ω sA r r')

theorem advCpa_seed [Finite Ω] (D : FrodoCpa K Ω) :
    advCpa (frodoSeedPke K) D = |seed0 D false - seed0 D true| := by
  unfold advCpa seed0
  rw [Pr_eq, Pr_eq]
  simp only [ex_prod]
  rfl

theorem advCpa_string [Finite Ω] (D : FrodoCpa K Ω) : advCpa (frodoPke K) D = |seed3 D false - seed3 D true| := by
  unfold advCpa seed3
  rw [Pr_eq, Pr_eq]
  simp only [ex_prod]
  rfl

theorem advZ_eq [Finite Ω] (D : FrodoCpa K Ω) (b : Bool) :
    advPrg (expandZ K) (onZ D b) = |seed0 D b - seed1 D b| := by
  unfold advPrg seed0 seed1
  rw [Pr_eq, Pr_eq]
  simp only [ex_prod]
  congr 2
  · refine ex_congr fun ω => ?_
    symm
    rw [ex_comm]
    exact ex_congr fun sk => ex_comm _
  · refine ex_congr fun ω => ?_
    symm
    rw [ex_comm]
    exact ex_congr fun sk => ex_comm _

theorem advSeedKey_eq [Finite Ω] (D : FrodoCpa K Ω) (b : Bool) :
    advPrg (expandKey K) (onSeedKey D b) = |seed1 D b - seed2 D b| := by
  unfold advPrg seed1 seed2
  rw [Pr_eq, Pr_eq]
  simp only [ex_prod, onSeedKey]
  refine congrArg₂ (fun x y => |x - y|) ?_ ?_
  · exact ex_congr fun ω => ex_congr fun sA => ex_comm _
  · exact ex_congr fun ω => ex_congr fun sA => ex_comm _

theorem advSeedEnc_eq [Finite Ω] (D : FrodoCpa K Ω) (b : Bool) :
    advPrg (expandEnc K) (onSeedEnc D b) = |seed2 D b - seed3 D b| := by
  unfold advPrg seed2 seed3
  rw [Pr_eq, Pr_eq]
  simp only [ex_prod, onSeedEnc]

theorem advCpa_seed_le [Finite Ω] (D : FrodoCpa K Ω) : advCpa (frodoSeedPke K) D ≤ advCpa (frodoPke K) D +
    (advPrg (expandZ K) (onZ D false) + advPrg (expandKey K) (onSeedKey D false) +
      advPrg (expandEnc K) (onSeedEnc D false)) +
    (advPrg (expandZ K) (onZ D true) + advPrg (expandKey K) (onSeedKey D true) +
      advPrg (expandEnc K) (onSeedEnc D true)) := by
  simp only [advCpa_seed, advCpa_string, advZ_eq, advSeedKey_eq, advSeedEnc_eq]
  generalize seed0 D false = a0
  generalize seed1 D false = a1
  generalize seed2 D false = a2
  generalize seed3 D false = a3
  generalize seed0 D true = b0
  generalize seed1 D true = b1
  generalize seed2 D true = b2
  generalize seed3 D true = b3
  rw [abs_le]
  constructor <;> linarith [le_abs_self (a0 - a1), neg_abs_le (a0 - a1), le_abs_self (a1 - a2), neg_abs_le (a1 - a2),
    le_abs_self (a2 - a3), neg_abs_le (a2 - a3), le_abs_self (b0 - b1), neg_abs_le (b0 - b1), le_abs_self (b1 - b2),
    neg_abs_le (b1 - b2), le_abs_self (b2 - b3), neg_abs_le (b2 - b3), le_abs_self (a3 - b3), neg_abs_le (a3 - b3)]

end

end Frodo
