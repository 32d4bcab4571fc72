import Verif.Spec.Failure
import Verif.Proof.TailExact
import Verif.Proof.KemSpec
import Verif.Props.Noise
import Mathlib.Data.Fintype.Vector
import Mathlib.SetTheory.Cardinal.Finite

/-! # Counting the noise strings that exceed the bound -/

namespace Frodo

open Spec Finset Props

instance : Fintype U8 :=
  Fintype.ofEquiv (Fin (2 ^ 8)) ⟨BitVec.ofFin, BitVec.toFin, fun _ => rfl, fun _ => rfl⟩

theorem card_U8 : Fintype.card U8 = 256 :=
  (Fintype.ofEquiv_card _).trans ((Fintype.card_fin _).trans (by norm_num))

theorem word16_lt' (b : List U8) (k : Nat) : word16 b k < 65536 := by
  unfold word16
  have := (nth b (2 * k)).isLt
  have := (nth b (2 * k + 1)).isLt
  omega

/-- The 16-bit words of a byte string. -/
def wordsOf {N M : Nat} (r : List.Vector U8 N) (k : Fin M) : Fin 65536 :=
  ⟨word16 r.toList k, word16_lt' _ _⟩

theorem wordsOf_bijective {N M : Nat} (h : N = M * 2) :
    Function.Bijective (wordsOf : List.Vector U8 N → Fin M → Fin 65536) := by
  rw [Fintype.bijective_iff_injective_and_card]
  constructor
  · rintro ⟨r, hr⟩ ⟨r', hr'⟩ hw
    have hw' : ∀ k, k < M → word16 r k = word16 r' k := fun k hk => by
      have := congrFun hw ⟨k, hk⟩
      exact congrArg Fin.val this
    apply Subtype.ext
    show r = r'
    refine ext_nth (by omega) fun i hi => ?_
    have hk := hw' (i / 2) (by omega)
    unfold word16 at hk
    have h1 := (nth r (2 * (i / 2))).isLt
    have h2 := (nth r' (2 * (i / 2))).isLt
    apply BitVec.eq_of_toNat_eq
    rcases Nat.mod_two_eq_zero_or_one i with h0 | h0
    · rw [show i = 2 * (i / 2) by omega]
      generalize (nth r (2 * (i / 2))).toNat = x at *
      omega
    · have e : 2 * (i / 2) + 1 = i := by omega
      rw [e] at hk
      omega
  · rw [card_vector, card_U8, Fintype.card_fun, Fintype.card_fin, Fintype.card_fin, h, Nat.mul_comm,
      pow_mul]
    norm_num

theorem card_words (M : Nat) : Fintype.card (Fin M → Fin 65536) = 2 ^ (8 * (M * 2)) := by
  rw [Fintype.card_fun, Fintype.card_fin, Fintype.card_fin, show 65536 = 2 ^ 16 by norm_num, ← pow_mul]
  congr 1
  omega

/-- The noise as a function of the words. -/
def wordNoise (T : List Nat) (n nbar : Nat) (w : Fin (2 * n * nbar) → Fin 65536)
    (w' : Fin ((2 * n + nbar) * nbar) → Fin 65536)
    (a c : Fin n → Fin ((2 * n + nbar) * nbar)) (e : Fin ((2 * n + nbar) * nbar))
    (b d : Fin n → Fin (2 * n * nbar)) : ℤ :=
  ∑ l, sample T (w' (a l)) * sample T (w (b l)) + sample T (w' e) -
    ∑ l, sample T (w' (c l)) * sample T (w (d l))

section
variable {n nbar : Nat} (i j : Fin nbar)

theorem mul_add_lt {a b x y : Nat} (hx : x < a) (hy : y < b) : x * b + y < a * b :=
  Nat.lt_of_lt_of_le (Nat.add_lt_add_left hy _) (by rw [← Nat.succ_mul]; exact Nat.mul_le_mul_right _ hx)

/-- Position of `S'[i,l]`. -/
def ixA (l : Fin n) : Fin ((2 * n + nbar) * nbar) := ⟨i * n + l, by
  have := mul_add_lt i.2 l.2
  rw [Nat.add_mul, Nat.mul_assoc, Nat.mul_comm n]
  omega⟩

/-- Position of `E'[i,l]`. -/
def ixC (l : Fin n) : Fin ((2 * n + nbar) * nbar) := ⟨n * nbar + (i * n + l), by
  have := mul_add_lt i.2 l.2
  rw [Nat.add_mul, Nat.mul_assoc, Nat.mul_comm n]
  omega⟩

/-- Position of `E''[i,j]`. -/
def ixE : Fin ((2 * n + nbar) * nbar) := ⟨2 * n * nbar + (i * nbar + j), by
  have := mul_add_lt i.2 j.2
  rw [Nat.add_mul]
  omega⟩

/-- Position of `E[l,j]`. -/
def ixB (l : Fin n) : Fin (2 * n * nbar) := ⟨n * nbar + (l * nbar + j), by
  have := mul_add_lt l.2 j.2
  rw [Nat.mul_assoc]
  omega⟩

/-- Position of `S[l,j]`. -/
def ixD (l : Fin n) : Fin (2 * n * nbar) := ⟨j * n + l, by
  have := mul_add_lt j.2 l.2
  rw [Nat.mul_assoc, Nat.mul_comm n]
  omega⟩

theorem ix_injective' :
    Function.Injective (Sum.elim (ixA (n := n) i) (Sum.elim (ixC i) fun _ : Unit => ixE i j)) := by
  have hA : ∀ l : Fin n, (i : Nat) * n + l < n * nbar := fun l => by
    rw [Nat.mul_comm n]; exact mul_add_lt i.2 l.2
  have e2 : 2 * n * nbar = n * nbar + n * nbar := by rw [Nat.mul_assoc, Nat.two_mul]
  rintro (l | l | _) (l' | l' | _) h <;> have h := congrArg Fin.val h <;>
    simp only [Sum.elim_inl, Sum.elim_inr, ixA, ixC, ixE] at h
  · rw [Fin.ext (show (l : Nat) = l' by omega)]
  · have := hA l; omega
  · have := hA l; omega
  · have := hA l'; omega
  · rw [Fin.ext (show (l : Nat) = l' by omega)]
  · have := hA l; omega
  · have := hA l'; omega
  · have := hA l'; omega
  · rfl

theorem ix_injective : Function.Injective (Sum.elim (ixB (n := n) j) (ixD j)) := by
  have hA : ∀ l : Fin n, (j : Nat) * n + l < n * nbar := fun l => by
    rw [Nat.mul_comm n]; exact mul_add_lt j.2 l.2
  rintro (l | l) (l' | l') h <;> have h := congrArg Fin.val h <;>
    simp only [Sum.elim_inl, Sum.elim_inr, ixB, ixD] at h
  · have : (l : Nat) * nbar = l' * nbar := by omega
    rw [Fin.ext (Nat.eq_of_mul_eq_mul_right (by omega) this)]
  · have := hA l'; omega
  · have := hA l; omega
  · rw [Fin.ext (show (l : Nat) = l' by omega)]

end

theorem noiseOf_apply (K : KemParams) {N N' : Nat} (r : List.Vector U8 N) (r' : List.Vector U8 N')
    (i j : Fin K.nbar) :
    noiseOf K r.toList r'.toList i j = wordNoise K.T K.n K.nbar (wordsOf r) (wordsOf r')
      (ixA i) (ixC i) (ixE i j) (ixB j) (ixD j) := by
  unfold noiseOf wordNoise
  rw [Matrix.sub_apply, Matrix.add_apply, Matrix.mul_apply, Matrix.mul_apply]
  simp only [sampleMatrix, Matrix.of_apply, Matrix.transpose_apply, wordsOf, ixA, ixB, ixC, ixD, ixE,
    Nat.zero_add]

/-- The pairs of word strings. -/
abbrev Words (n nbar : Nat) : Type :=
  (Fin ((2 * n + nbar) * nbar) → Fin 65536) × (Fin (2 * n * nbar) → Fin 65536)

/-- Entry `i`, `j` of the noise. -/
def entry (T : List Nat) {n nbar : Nat} (i j : Fin nbar) (p : Words n nbar) : ℤ :=
  wordNoise T n nbar p.2 p.1 (ixA i) (ixC i) (ixE i j) (ixB j) (ixD j)

/-- The words on which one entry of the noise depends: pairs that are multiplied, and one word. -/
abbrev Small (n : Nat) : Type :=
  (Fin n → Fin 65536 × Fin 65536) × (Fin n → Fin 65536 × Fin 65536) × Fin 65536

/-- One entry of the noise as a function of these words. -/
def smallNoise (T : List Nat) {n : Nat} (q : Small n) : ℤ :=
  ∑ l, sample T (q.1 l).1 * sample T (q.1 l).2 + sample T q.2.2 - ∑ l, sample T (q.2.1 l).1 * sample T (q.2.1 l).2

theorem card_small (n : Nat) : Fintype.card (Small n) = 2 ^ (16 * (4 * n + 1)) := by
  rw [Fintype.card_prod, Fintype.card_prod, Fintype.card_fun, Fintype.card_prod, Fintype.card_fin, Fintype.card_fin,
    show 65536 = 2 ^ 16 by norm_num, ← pow_add, ← pow_mul, ← pow_add, ← pow_add]
  congr 1
  omega

/-- The words at given places. -/
def smallEquiv (n : Nat) : (Fin n ⊕ Fin n ⊕ Unit → Fin 65536) × (Fin n ⊕ Fin n → Fin 65536) ≃ Small n where
  toFun p := (fun l => (p.1 (.inl l), p.2 (.inl l)), fun l => (p.1 (.inr (.inl l)), p.2 (.inr l)), p.1 (.inr (.inr ())))
  invFun q := (Sum.elim (fun l => (q.1 l).1) (Sum.elim (fun l => (q.2.1 l).1) fun _ => q.2.2),
    Sum.elim (fun l => (q.1 l).2) fun l => (q.2.1 l).2)
  left_inv p := by
    refine Prod.ext (funext ?_) (funext ?_)
    · rintro (l | l | _) <;> rfl
    · rintro (l | l) <;> rfl
  right_inv _ := rfl

/-- Each entry of the noise has the distribution of `smallNoise`. -/
theorem card_entry (T : List Nat) {n nbar : Nat} (i j : Fin nbar) (Q : ℤ → Prop)
    [DecidablePred Q] : (#{p : Words n nbar | Q (entry T i j p)} : ℚ) * Fintype.card (Small n) =
      #{q : Small n | Q (smallNoise T q)} * Fintype.card (Words n nbar) := by
  have ind : ∀ {Ω : Type} [Fintype Ω] (R : Ω → Prop) [DecidablePred R], (#{p | R p} : ℚ) = ∑ p, if R p then (1 : ℚ) else 0 := by
    intro Ω _ R _
    rw [sum_boole]
  have c1 : (Fintype.card (Words n nbar) : ℚ) ≠ 0 := by
    rw [Fintype.card_prod, card_words, card_words]; positivity
  have c2 : (Fintype.card (Small n) : ℚ) ≠ 0 := by rw [card_small]; positivity
  rw [ind, ind, ← div_eq_div_iff c1 c2]
  show avg (fun p : Words n nbar => if Q (entry T i j p) then (1 : ℚ) else 0) =
    avg fun q : Small n => if Q (smallNoise T q) then (1 : ℚ) else 0
  rw [← avg_equiv (smallEquiv n), avg_prod_type, avg_prod_type]
  refine (avg_congr fun w' => ?_).trans (avg_restrict _ (ix_injective' (n := n) i j) fun τ' =>
    avg fun τ => if Q (smallNoise T (smallEquiv n (τ', τ))) then (1 : ℚ) else 0)
  exact avg_restrict _ (ix_injective (n := n) j) fun τ =>
    if Q (smallNoise T (smallEquiv n (fun l => w' (Sum.elim (ixA i) (Sum.elim (ixC i) fun _ : Unit => ixE i j) l), τ)))
    then (1 : ℚ) else 0

open Classical in
theorem fail_words (T : List Nat) {n nbar : Nat} (t : Nat) {ρ : ℚ}
    (h1 : (#{q : Small n | (t : ℤ) ≤ smallNoise T q} : ℚ) ≤ ρ * Fintype.card (Small n))
    (h2 : (#{q : Small n | (t : ℤ) ≤ -smallNoise T q} : ℚ) ≤ ρ * Fintype.card (Small n)) :
    (#{p : Words n nbar | ∃ i j, (t : ℤ) ≤ entry T i j p ∨ (t : ℤ) ≤ -entry T i j p} : ℚ) ≤
      2 * nbar ^ 2 * ρ * (Fintype.card (Words n nbar)) := by
  have c2 : (0 : ℚ) < Fintype.card (Small n) := by rw [card_small]; positivity
  have hup : ∀ i j : Fin nbar, (#{p : Words n nbar | (t : ℤ) ≤ entry T i j p} : ℚ) ≤
      ρ * (Fintype.card (Words n nbar)) := by
    intro i j
    refine le_of_mul_le_mul_right ?_ c2
    rw [card_entry T i j fun x => (t : ℤ) ≤ x, mul_right_comm ρ]
    exact mul_le_mul_of_nonneg_right h1 (by positivity)
  have hdn : ∀ i j : Fin nbar, (#{p : Words n nbar | (t : ℤ) ≤ -entry T i j p} : ℚ) ≤
      ρ * (Fintype.card (Words n nbar)) := by
    intro i j
    refine le_of_mul_le_mul_right ?_ c2
    rw [card_entry T i j fun x => (t : ℤ) ≤ -x, mul_right_comm ρ]
    exact mul_le_mul_of_nonneg_right h2 (by positivity)
  have hsub : ({p : Words n nbar | ∃ i j, (t : ℤ) ≤ entry T i j p ∨ (t : ℤ) ≤ -entry T i j p} :
      Finset _) ⊆ (univ : Finset (Fin nbar × Fin nbar)).biUnion fun ij =>
        ({p : Words n nbar | (t : ℤ) ≤ entry T ij.1 ij.2 p} : Finset _) ∪
          ({p : Words n nbar | (t : ℤ) ≤ -entry T ij.1 ij.2 p} : Finset _) := by
    intro p hp
    obtain ⟨i, j, h⟩ := (mem_filter.1 hp).2
    refine mem_biUnion.2 ⟨(i, j), mem_univ _, mem_union.2 ?_⟩
    rcases h with h | h
    · exact .inl (mem_filter.2 ⟨mem_univ _, h⟩)
    · exact .inr (mem_filter.2 ⟨mem_univ _, h⟩)
  have hcard := (card_le_card hsub).trans (card_biUnion_le.trans
    (sum_le_sum fun ij _ => card_union_le _ _))
  have hcard' : (#{p : Words n nbar | ∃ i j, (t : ℤ) ≤ entry T i j p ∨ (t : ℤ) ≤ -entry T i j p} : ℚ)
      ≤ ∑ ij : Fin nbar × Fin nbar, ((#{p : Words n nbar | (t : ℤ) ≤ entry T ij.1 ij.2 p} : ℚ) +
        #{p : Words n nbar | (t : ℤ) ≤ -entry T ij.1 ij.2 p}) := by
    exact_mod_cast hcard
  refine hcard'.trans ((sum_le_sum fun ij _ => add_le_add (hup _ _) (hdn _ _)).trans_eq ?_)
  rw [sum_const, card_univ, Fintype.card_prod, Fintype.card_fin, nsmul_eq_mul]
  push_cast
  ring

/-- The strings of noise bytes of key generation and encryption. -/
abbrev Strings (K : KemParams) : Type := List.Vector U8 K.lenR × List.Vector U8 K.lenR'

theorem card_strings (K : KemParams) : Nat.card (Strings K) = 2 ^ (8 * (K.lenR + K.lenR')) := by
  rw [Nat.card_eq_fintype_card, Fintype.card_prod, card_vector, card_vector, card_U8, ← pow_add,
    show 256 = 2 ^ 8 by norm_num, ← pow_mul]

open Classical in
theorem fail_strings (K : KemParams) (t k : Nat) (hD : K.D = K.B + 1 + t) {ρ : ℚ}
    (h1 : (#{q : Small K.n | ((2 ^ t : Nat) : ℤ) ≤ smallNoise K.T q} : ℚ) ≤ ρ * ((2 ^ (16 * (4 * K.n + 1)) : Nat) : ℚ))
    (h2 : (#{q : Small K.n | ((2 ^ t : Nat) : ℤ) ≤ -smallNoise K.T q} : ℚ) ≤ ρ * ((2 ^ (16 * (4 * K.n + 1)) : Nat) : ℚ))
    (hk : 2 * (K.nbar : ℚ) ^ 2 * ρ * 2 ^ k ≤ 1) :
    Nat.card {p : Strings K // ¬ Within K (noiseOf K p.1.toList p.2.toList)} * 2 ^ k ≤
      Nat.card (Strings K) := by
  rw [← card_small] at h1 h2
  let e : Strings K ≃ Words K.n K.nbar :=
    (Equiv.prodComm _ _).trans (Equiv.prodCongr
      (Equiv.ofBijective _ (wordsOf_bijective (M := (2 * K.n + K.nbar) * K.nbar) rfl))
      (Equiv.ofBijective _ (wordsOf_bijective (M := 2 * K.n * K.nbar) rfl)))
  have hcard : Nat.card (Strings K) = Fintype.card (Words K.n K.nbar) := by
    rw [← Nat.card_eq_fintype_card]; exact Nat.card_congr e
  have hent : ∀ (p : Strings K) i j, noiseOf K p.1.toList p.2.toList i j = entry K.T i j (e p) :=
    fun p i j => noiseOf_apply K p.1 p.2 i j
  have hfail : ∀ p : Strings K, ¬ Within K (noiseOf K p.1.toList p.2.toList) →
      ∃ i j, ((2 ^ t : Nat) : ℤ) ≤ entry K.T i j (e p) ∨ ((2 ^ t : Nat) : ℤ) ≤ -entry K.T i j (e p) := by
    intro p hp
    by_contra hcon
    refine hp fun i j => ?_
    have h : ¬ _ := fun h => hcon ⟨i, j, h⟩
    rw [hent]
    rw [hD, pow_add]
    push_cast at h
    have hpos : (0 : ℤ) < 2 ^ (K.B + 1) := by positivity
    generalize (entry K.T i j (e p)) = X at *
    constructor
    · rw [← mul_neg]
      exact mul_le_mul_of_nonneg_left (by omega) hpos.le
    · exact mul_lt_mul_of_pos_left (by omega) hpos
  have hle : Nat.card {p : Strings K // ¬ Within K (noiseOf K p.1.toList p.2.toList)} ≤
      #{p : Words K.n K.nbar | ∃ i j, ((2 ^ t : Nat) : ℤ) ≤ entry K.T i j p ∨
        ((2 ^ t : Nat) : ℤ) ≤ -entry K.T i j p} := by
    rw [Nat.card_eq_fintype_card, ← Fintype.card_coe]
    refine Fintype.card_le_of_injective (fun p => ⟨e p.1, by
      simpa using hfail p.1 p.2⟩) ?_
    intro p p' h
    exact Subtype.ext (e.injective (congrArg Subtype.val h))
  have hm := fail_words K.T (n := K.n) (nbar := K.nbar) (2 ^ t) h1 h2
  rw [hcard]
  have hq : (Nat.card {p : Strings K // ¬ Within K (noiseOf K p.1.toList p.2.toList)} : ℚ) * 2 ^ k ≤
      Fintype.card (Words K.n K.nbar) := by
    have hle' : (Nat.card {p : Strings K // ¬ Within K (noiseOf K p.1.toList p.2.toList)} : ℚ) ≤
      #{p : Words K.n K.nbar | ∃ i j, ((2 ^ t : Nat) : ℤ) ≤ entry K.T i j p ∨
        ((2 ^ t : Nat) : ℤ) ≤ -entry K.T i j p} := by exact_mod_cast hle
    calc _ ≤ (2 * (K.nbar : ℚ) ^ 2 * ρ * (Fintype.card (Words K.n K.nbar))) * 2 ^ k := by
          refine mul_le_mul_of_nonneg_right (hle'.trans hm) (by positivity)
      _ = (Fintype.card (Words K.n K.nbar)) * (2 * (K.nbar : ℚ) ^ 2 * ρ * 2 ^ k) := by ring
      _ ≤ (Fintype.card (Words K.n K.nbar)) * 1 := by gcongr
      _ = _ := mul_one _
  exact_mod_cast hq

end Frodo
