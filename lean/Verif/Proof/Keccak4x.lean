import Verif.Model.Keccak4x
import Verif.Proof.Sponge

/-! # The four-way Keccak code runs four independent instances -/

namespace Frodo

open Spec

/-! ## Vector operations lane by lane -/

theorem or_eq_xor_of_disjoint {w : Nat} {a b : BitVec w}
    (h : ∀ i, i < w → (a.getLsbD i && b.getLsbD i) = false) : a ||| b = a ^^^ b := by
  apply BitVec.eq_of_getLsbD_eq
  intro i hi
  have := h i hi
  rw [BitVec.getLsbD_or, BitVec.getLsbD_xor]
  revert this
  cases a.getLsbD i <;> cases b.getLsbD i <;> simp

theorem ROL64in256_eq : ROL64in256 = fun a o t => ROL (a t) o := by
  funext a o t
  unfold ROL64in256 ROL
  apply or_eq_xor_of_disjoint
  intro i hi
  rw [BitVec.getLsbD_shiftLeft, BitVec.getLsbD_ushiftRight]
  by_cases h : i < o
  · simp [h]
  · rw [BitVec.getLsbD_of_ge (a t) (64 - o + i) (by omega)]; simp

theorem shuffle_bit (a b : V256) (t : Fin 4) (k : Nat) (hk : k < 64) :
    (mm256_shuffle_epi8 a b t).getLsbD k =
      (if (b.byte (8 * t + k / 8)).getLsbD 7 then (0 : U8) else
        a.byte (16 * ((8 * t + k / 8) / 16) + (b.byte (8 * t + k / 8)).toNat % 16)).getLsbD (k % 8) := by
  unfold mm256_shuffle_epi8
  generalize hB : (fun k : Nat => if (b.byte k).getLsbD 7 then (0 : U8) else
    a.byte (16 * (k / 16) + (b.byte k).toNat % 16)) = B
  have e : ∀ n, n ≤ 8 → ((List.range n).foldl (fun x i => x ||| ((B (8 * t + i)).setWidth 64 <<< (8 * i)))
      (0 : U64)).getLsbD k = (decide (k < 8 * n) && (B (8 * t + k / 8)).getLsbD (k % 8)) := by
    intro n hn
    induction n with
    | zero => simp
    | succ n ih =>
      rw [List.range_succ, List.foldl_append, List.foldl_cons, List.foldl_nil, BitVec.getLsbD_or,
        ih (by omega), BitVec.getLsbD_shiftLeft, BitVec.getLsbD_setWidth]
      by_cases h1 : k < 8 * n
      · have h2 : k < 8 * (n + 1) := by omega
        simp [h1, h2]
      · by_cases h2 : k < 8 * (n + 1)
        · have e1 : k / 8 = n := by omega
          have e2 : k % 8 = k - 8 * n := by omega
          have h3 : k - 8 * n < 64 := by omega
          simp [h1, h2, hk, h3, e1, e2]
        · rw [BitVec.getLsbD_of_ge (B (8 * t + n)) _ (show 8 ≤ k - 8 * n by omega)]
          simp [h1, h2]
  refine (e 8 (by omega)).trans ?_
  subst hB
  simp [hk]

theorem byte_bit (a : V256) (j b : Nat) (hb : b < 8) :
    (a.byte j).getLsbD b = (a (Fin.ofNat 4 (j / 8))).getLsbD (8 * (j % 8) + b) := by
  unfold V256.byte
  rw [BitVec.getLsbD_setWidth, BitVec.getLsbD_ushiftRight]
  simp [hb]

theorem rho8_byte : ∀ t : Fin 4, ∀ i : Fin 8, (rho8.byte (8 * t + i)).getLsbD 7 = false ∧
    16 * ((8 * t.val + i) / 16) + (rho8.byte (8 * t + i)).toNat % 16 = 8 * t + (i + 7) % 8 := by
  decide +kernel

theorem rho56_byte : ∀ t : Fin 4, ∀ i : Fin 8, (rho56.byte (8 * t + i)).getLsbD 7 = false ∧
    16 * ((8 * t.val + i) / 16) + (rho56.byte (8 * t + i)).toNat % 16 = 8 * t + (i + 1) % 8 := by
  decide +kernel

theorem ROL_getLsbD (a : U64) (o k : Nat) (ho : o < 64) (hk : k < 64) :
    (ROL a o).getLsbD k = a.getLsbD ((64 - o + k) % 64) := by
  have := ROL_bit a o ho ⟨k, hk⟩
  rw [this]
  congr 1
  rw [Fin.sub_def]; simp [Nat.mod_eq_of_lt ho]

theorem ROL64in256_8_eq : ROL64in256_8 = fun a t => ROL (a t) 8 := by
  funext a t
  apply BitVec.eq_of_getLsbD_eq
  intro k hk
  have h := rho8_byte t ⟨k / 8, by omega⟩
  simp only at h
  unfold ROL64in256_8
  rw [shuffle_bit _ _ _ _ hk, h.1, h.2, if_neg (by simp), byte_bit _ _ _ (by omega),
    ROL_getLsbD _ _ _ (by omega) hk]
  have ht := t.isLt
  rw [show (8 * t.val + (k / 8 + 7) % 8) / 8 = t by omega]
  have : Fin.ofNat 4 t.val = t := by ext; simp
  rw [this]
  congr 1
  omega

theorem ROL64in256_56_eq : ROL64in256_56 = fun a t => ROL (a t) 56 := by
  funext a t
  apply BitVec.eq_of_getLsbD_eq
  intro k hk
  have h := rho56_byte t ⟨k / 8, by omega⟩
  simp only at h
  unfold ROL64in256_56
  rw [shuffle_bit _ _ _ _ hk, h.1, h.2, if_neg (by simp), byte_bit _ _ _ (by omega),
    ROL_getLsbD _ _ _ (by omega) hk]
  have ht := t.isLt
  rw [show (8 * t.val + (k / 8 + 1) % 8) / 8 = t by omega]
  have : Fin.ofNat 4 t.val = t := by ext; simp
  rw [this]
  congr 1
  omega

/-! ## The permutation -/

/-- Instance `t` of the vector lanes (proof device). -/
def VLanes.lane (v : VLanes) (t : Fin 4) : Lanes :=
  { ba := v.ba t, be := v.be t, bi := v.bi t, bo := v.bo t, bu := v.bu t,
    ga := v.ga t, ge := v.ge t, gi := v.gi t, go := v.go t, gu := v.gu t,
    ka := v.ka t, ke := v.ke t, ki := v.ki t, ko := v.ko t, ku := v.ku t,
    ma := v.ma t, me := v.me t, mi := v.mi t, mo := v.mo t, mu := v.mu t,
    sa := v.sa t, se := v.se t, si := v.si t, so := v.so t, su := v.su t }

/-- Instance `t` of the column parities (proof device). -/
def VCols.col (c : VCols) (t : Fin 4) (x : Fin 5) : U64 :=
  match x with
  | 0 => c.a t | 1 => c.e t | 2 => c.i t | 3 => c.o t | 4 => c.u t

/-- Theta with given parities (proof device). -/
def lThetaC (c : Fin 5 → U64) (A : LState) : LState := fun x y =>
  A x y ^^^ (c (x - 1) ^^^ ROL (c (x + 1)) 1)

/-- A round with given parities (proof device). -/
def lRoundC (rc : U64) (c : Fin 5 → U64) (A : LState) : LState :=
  lIota rc (lChi (lPi (lRho (lThetaC c A))))

theorem lRoundC_eq (rc : U64) (A : LState) : lRoundC rc (lC A) A = lRound rc A := rfl

theorem prepareTheta_col (v : VLanes) (t : Fin 4) (x : Fin 5) :
    (prepareTheta v).col t x = lC (v.lane t).get x := by
  fin_cases x <;>
    simp only [prepareTheta, VCols.col, XOR256, lC, Lanes.get, VLanes.lane, BitVec.xor_assoc,
      Fin.zero_eta, Fin.mk_one, Fin.reduceFinMk]

set_option maxRecDepth 8000 in
theorem roundV_get (rc : V256) (v : VLanes) (c : VCols) (t : Fin 4) :
    ((thetaRhoPiChiIotaPrepareTheta rc v c).1.lane t).get =
      lRoundC (rc t) (c.col t) (v.lane t).get := by
  unfold thetaRhoPiChiIotaPrepareTheta
  rw [ROL64in256_eq, ROL64in256_8_eq, ROL64in256_56_eq]
  funext x y
  fin_cases y <;> fin_cases x <;>
    simp only [lRoundC, lIota, lChi, lPi, Fin.zero_eta, Fin.mk_one, Fin.reduceFinMk, Fin.isValue, Fin.reduceAdd,
      Fin.reduceMul, Fin.reduceEq, and_self, and_true, and_false, true_and, false_and, if_true, if_false,
      Fin.mul_zero, Fin.add_zero, Fin.zero_add, lRho_00, ↓reduceIte] <;> rfl

set_option maxRecDepth 8000 in
theorem lastV_get (rc : V256) (v : VLanes) (c : VCols) (t : Fin 4) :
    ((thetaRhoPiChiIota rc v c).lane t).get = lRoundC (rc t) (c.col t) (v.lane t).get := by
  unfold thetaRhoPiChiIota
  rw [ROL64in256_eq, ROL64in256_8_eq, ROL64in256_56_eq]
  funext x y
  fin_cases y <;> fin_cases x <;>
    simp only [lRoundC, lIota, lChi, lPi, Fin.zero_eta, Fin.mk_one, Fin.reduceFinMk, Fin.isValue, Fin.reduceAdd,
      Fin.reduceMul, Fin.reduceEq, and_self, and_true, and_false, true_and, false_and, if_true, if_false,
      Fin.mul_zero, Fin.add_zero, Fin.zero_add, lRho_00, ↓reduceIte] <;> rfl

set_option maxRecDepth 8000 in
theorem roundV_col (rc : V256) (v : VLanes) (c : VCols) (t : Fin 4) (x : Fin 5) :
    (thetaRhoPiChiIotaPrepareTheta rc v c).2.col t x =
      lC ((thetaRhoPiChiIotaPrepareTheta rc v c).1.lane t).get x := by
  unfold thetaRhoPiChiIotaPrepareTheta
  fin_cases x <;> rfl

/-- Instance `t` of the state array (proof device). -/
def inst (t : Fin 4) (ss : List U64) : List U64 := (List.range 25).map fun i => nth ss (4 * i + t)

@[simp] theorem length_inst (t : Fin 4) (ss : List U64) : (inst t ss).length = 25 := by simp [inst]

theorem nth_inst (t : Fin 4) (ss : List U64) {j : Nat} (h : j < 25) :
    nth (inst t ss) j = nth ss (4 * j + t) := by
  unfold inst; rw [nth_range_map, if_pos h]

@[wp] theorem Ret_LOAD256_bind {ss : List U64} {i : Nat} {f : V256 → C β} {P : β → Prop} :
    Ret (LOAD256 ss i >>= f) P ↔ 4 * i + 4 ≤ ss.length ∧ Ret (f fun t => nth ss (4 * i + t)) P := by
  unfold LOAD256
  simp only [wp]

/-- The four words of a stored vector (proof device). -/
def set4 (ss : List U64) (i : Nat) (v : V256) : List U64 :=
  (((ss.set (4 * i) (v 0)).set (4 * i + 1) (v 1)).set (4 * i + 2) (v 2)).set (4 * i + 3) (v 3)

@[simp] theorem length_set4 (ss : List U64) (i : Nat) (v : V256) :
    (set4 ss i v).length = ss.length := by simp [set4]

theorem nth_set4 {ss : List U64} {i : Nat} {v : V256} (h : 4 * i + 4 ≤ ss.length) (j : Nat)
    (t : Fin 4) : nth (set4 ss i v) (4 * j + t) = if j = i then v t else nth ss (4 * j + t) := by
  unfold set4
  have ht := t.isLt
  by_cases hj : j = i
  · subst hj
    rw [if_pos rfl]
    fin_cases t <;> simp (discharger := (first | omega | (simp only [List.length_set]; omega))) only
      [nth_set_ne, nth_set_eq, Nat.add_zero, Fin.zero_eta, Fin.mk_one, Fin.reduceFinMk, Fin.isValue,
        Fin.val_zero, Fin.val_one, Fin.val_two]
  · rw [if_neg hj]
    simp (discharger := (first | omega | (simp only [List.length_set]; omega))) only [nth_set_ne]

theorem STORE256_ret {ss : List U64} {i : Nat} {v : V256} (h : 4 * i + 4 ≤ ss.length) :
    Ret (STORE256 ss i v) (· = set4 ss i v) := by
  unfold STORE256
  simp only [wp]
  exact ⟨h, rfl⟩

@[wp] theorem Ret_STORE256 {ss : List U64} {i : Nat} {v : V256} {P : List U64 → Prop} :
    Ret (STORE256 ss i v) P ↔ 4 * i + 4 ≤ ss.length ∧ P (set4 ss i v) := by
  unfold STORE256
  simp only [wp]
  rfl

@[wp] theorem Ret_STORE256_bind {ss : List U64} {i : Nat} {v : V256} {f : List U64 → C β}
    {P : β → Prop} :
    Ret (STORE256 ss i v >>= f) P ↔ 4 * i + 4 ≤ ss.length ∧ Ret (f (set4 ss i v)) P := by
  rw [Ret_bind_iff, Ret_STORE256]

theorem copyFromState4x_ret {ss : List U64} (h : ss.length = 100) :
    Ret (copyFromState4x ss) (fun v => ∀ t, (v.lane t).get = lanesOf (inst t ss)) := by
  unfold copyFromState4x
  simp only [wp, h]
  refine ⟨by omega, ?_⟩
  repeat refine ⟨by omega, ?_⟩
  intro t
  funext x y
  fin_cases y <;> fin_cases x <;> rfl

/-- The vectors stored by `copyToState4x` in order (proof device). -/
def VLanes.toFn (a : VLanes) (i : Nat) : V256 :=
  nth [a.ba, a.be, a.bi, a.bo, a.bu, a.ga, a.ge, a.gi, a.go, a.gu, a.ka, a.ke, a.ki, a.ko, a.ku,
    a.ma, a.me, a.mi, a.mo, a.mu, a.sa, a.se, a.si, a.so, a.su] i

theorem copyToState4x_eq (ss : List U64) (a : VLanes) :
    copyToState4x ss a = (List.range 25).foldlM (fun ss i => STORE256 ss i (a.toFn i)) ss := by
  show _ = _
  simp only [List.range, List.range.loop, List.foldlM_cons, List.foldlM_nil, bind_pure]
  rfl

/-- `foldlM` over a range, invariant rule. -/
theorem Ret.foldlM {σ : Type} {n : Nat} {f : σ → Nat → C σ} {s : σ} (I : Nat → σ → Prop)
    (h0 : I 0 s) (hstep : ∀ k s, k < n → I k s → Ret (f s k) (I (k + 1))) :
    Ret ((List.range n).foldlM f s) (I n) := by
  induction n with
  | zero => simpa [wp] using h0
  | succ n ih =>
    rw [List.range_succ, List.foldlM_append]
    refine (ih fun k s hk => hstep k s (by omega)).bind fun s' hs' => ?_
    rw [List.foldlM_cons]
    refine (hstep n s' (by omega) hs').bind fun s'' hs'' => ?_
    rw [List.foldlM_nil]
    simpa only [wp] using hs''

theorem copyToState4x_ret {ss : List U64} (h : ss.length = 100) (a : VLanes) :
    Ret (copyToState4x ss a)
      (fun ss' => ss'.length = 100 ∧ ∀ t, lanesOf (inst t ss') = (a.lane t).get) := by
  rw [copyToState4x_eq]
  refine (Ret.foldlM (fun n (s : List U64) => s.length = 100 ∧ ∀ j, ∀ t : Fin 4, nth s (4 * j + t) =
    if j < n then a.toFn j t else nth ss (4 * j + t)) ⟨h, by simp⟩ ?_).mono ?_
  · rintro k s hk ⟨hl, hI⟩
    simp only [wp]
    refine ⟨by omega, by simp [hl], ?_⟩
    intro j t
    rw [nth_set4 (by omega), hI]
    by_cases c : j = k
    · rw [if_pos c, if_pos (by omega), c]
    · rw [if_neg c]
      by_cases c2 : j < k
      · rw [if_pos c2, if_pos (by omega)]
      · rw [if_neg c2, if_neg (by omega)]
  · rintro s ⟨hl, hI⟩
    refine ⟨hl, fun t => ?_⟩
    funext x y
    unfold lanesOf
    have hx := x.isLt
    have hy := y.isLt
    rw [nth_inst _ _ (by omega), hI, if_pos (by omega)]
    fin_cases y <;> fin_cases x <;> rfl

theorem constants_eq : KeccakF1600RoundConstants = KeccakF_RoundConstants := rfl

theorem rounds24_ret (v : VLanes) :
    Ret (rounds24 v) (fun v' => ∀ t, (v'.lane t).get.bits = keccakP (v.lane t).get.bits) := by
  unfold rounds24
  refine (Ret.foldlM (fun n (x : VLanes × VCols) => ∀ t,
    x.2.col t = lC (x.1.lane t).get ∧
    (x.1.lane t).get.bits = (List.range n).foldl Rnd (v.lane t).get.bits) ?_ ?_).bind ?_
  · intro t
    exact ⟨by funext x; exact prepareTheta_col v t x, rfl⟩
  · rintro k ⟨w, c⟩ hk hI
    simp only at hI
    simp only [CONST256_64, wp]
    refine ⟨by rw [constants_eq]; show k < 24; omega, ?_⟩
    intro t
    refine ⟨by funext x; exact roundV_col _ _ _ _ _, ?_⟩
    rw [roundV_get, (hI t).1, lRoundC_eq, constants_eq, lRound_bits _ _ (by omega), (hI t).2,
      List.range_succ, List.foldl_append]
    rfl
  · rintro ⟨w, c⟩ hI
    simp only at hI
    simp only [CONST256_64, wp]
    refine ⟨by rw [constants_eq]; show 23 < 24; omega, ?_⟩
    intro t
    rw [lastV_get, (hI t).1, lRoundC_eq, constants_eq, lRound_bits _ _ (by omega), (hI t).2]
    unfold keccakP
    rw [List.range_succ (n := 23), List.foldl_append]
    rfl

/-- The tables read with aligned loads are aligned (the compiler's choice). -/
def Env.rhoAligned (E : Env) : Prop := E.addr .rho8 % 32 = 0 ∧ E.addr .rho56 % 32 = 0

theorem PermuteAll_kstate {E : Env} {ss : List U64} (hE : E.rhoAligned) (h : ss.length = 100) :
    Ret (KeccakP1600times4_PermuteAll_24rounds E ss)
      (fun ss' => ss'.length = 100 ∧ ∀ t, kstate (inst t ss') = keccakP (kstate (inst t ss))) := by
  unfold KeccakP1600times4_PermuteAll_24rounds
  simp only [wp]
  refine ⟨hE, ?_⟩
  refine (copyFromState4x_ret h).bind fun v hv => ?_
  refine (rounds24_ret v).bind fun w hw => ?_
  refine (copyToState4x_ret h w).mono fun s' hs' => ⟨hs'.1, fun t => ?_⟩
  rw [kstate, hs'.2, hw, hv, kstate]

theorem PermuteAll_ret {E : Env} {ss : List U64} (hE : E.rhoAligned) (h : ss.length = 100) :
    Ret (KeccakP1600times4_PermuteAll_24rounds E ss)
      (fun ss' => ss'.length = 100 ∧ ∀ t, sbits (inst t ss') = keccakF (sbits (inst t ss))) :=
  (PermuteAll_kstate hE h).mono fun _ h => ⟨h.1, fun t => keccakF_sbits (h.2 t)⟩

/-! ## The sponge -/

/-- Member `t` (proof device). -/
def Four.get {α : Type} (m : Four α) (t : Fin 4) : α :=
  match t with
  | 0 => m.x0 | 1 => m.x1 | 2 => m.x2 | 3 => m.x3

theorem Four.ext' {α : Type} {a b : Four α} (h : ∀ t, a.get t = b.get t) : a = b := by
  obtain ⟨a0, a1, a2, a3⟩ := a
  obtain ⟨b0, b1, b2, b3⟩ := b
  have h0 := h 0
  have h1 := h 1
  have h2 := h 2
  have h3 := h 3
  simp only [Four.get] at h0 h1 h2 h3
  rw [h0, h1, h2, h3]

theorem four_forall {P : Fin 4 → Prop} (h0 : P 0) (h1 : P 1) (h2 : P 2) (h3 : P 3) (t : Fin 4) :
    P t := by
  match t with
  | 0 => exact h0
  | 1 => exact h1
  | 2 => exact h2
  | 3 => exact h3

/-- The word whose bytes are `x[0..7]` (proof device). -/
def IsLoad (x : List U8) (v : U64) : Prop :=
  ∀ k, k < 64 → v.getLsbD k = (nth x (k / 8)).getLsbD (k % 8)

theorem xorBlock4x_ret {ss : List U64} {r : Nat} {m : Four (List U8)} (hs : ss.length = 100)
    (hr : r ≤ 200) (hr8 : r % 8 = 0) (hm : ∀ t, r ≤ (m.get t).length) :
    Ret (xorBlock4x ss r m) (fun s' => s'.length = 100 ∧ ∀ t, sbits (inst t s') =
      xorBits (sbits (inst t ss))
        (bytesToBits ((m.get t).take r) ++ List.replicate (1600 - 8 * r) false)) := by
  unfold xorBlock4x
  refine Ret.for1 (fun i (s' : List U64) => s'.length = 100 ∧ ∀ (t : Fin 4) j k, k < 64 →
    (nth s' (4 * j + t)).getLsbD k = ((nth ss (4 * j + t)).getLsbD k ^^
      (decide (j < i) && (nth (m.get t) (8 * j + k / 8)).getLsbD (k % 8)))) ?_ ?_ ?_
  · exact ⟨hs, by simp⟩
  · rintro i s' hi ⟨hl, hI⟩
    have m0 := hm 0
    have m1 := hm 1
    have m2 := hm 2
    have m3 := hm 3
    simp only [Four.get] at m0 m1 m2 m3
    simp only [wp]
    refine ⟨by omega, by omega, ?_⟩
    refine (load64_ret (x := m.x0.drop (8 * i)) (by simp; omega)).bind fun v0 hv0 => ?_
    simp only [wp]
    refine ⟨by omega, by simp; omega, by omega, ?_⟩
    refine (load64_ret (x := m.x1.drop (8 * i)) (by simp; omega)).bind fun v1 hv1 => ?_
    simp only [wp]
    refine ⟨by simp; omega, by simp; omega, by omega, ?_⟩
    refine (load64_ret (x := m.x2.drop (8 * i)) (by simp; omega)).bind fun v2 hv2 => ?_
    simp only [wp]
    refine ⟨by simp; omega, by simp; omega, by omega, ?_⟩
    refine (load64_ret (x := m.x3.drop (8 * i)) (by simp; omega)).bind fun v3 hv3 => ?_
    simp only [wp]
    refine ⟨by simp; omega, by simp [hl], ?_⟩
    intro t j k hk
    have hv : ∀ t : Fin 4, ((nth [v0, v1, v2, v3] t : U64)).getLsbD k =
        (nth (m.get t) (8 * i + k / 8)).getLsbD (k % 8) := by
      refine four_forall ?_ ?_ ?_ ?_
      · rw [← nth_drop]; exact hv0 k hk
      · rw [← nth_drop]; exact hv1 k hk
      · rw [← nth_drop]; exact hv2 k hk
      · rw [← nth_drop]; exact hv3 k hk
    simp (discharger := (first | omega | (simp only [List.length_set]; omega))) only
      [nth_set_ne, nth_set_eq]
    have key := nth_set4 (ss := s') (i := i)
      (v := fun t => nth s' (4 * i + t) ^^^ nth [v0, v1, v2, v3] t) (by omega) j t
    have e : set4 s' i (fun t => nth s' (4 * i + t) ^^^ nth [v0, v1, v2, v3] t) =
      (((s'.set (4 * i + 0) (nth s' (4 * i + 0) ^^^ v0)).set (4 * i + 1)
        (nth s' (4 * i + 1) ^^^ v1)).set (4 * i + 2) (nth s' (4 * i + 2) ^^^ v2)).set (4 * i + 3)
        (nth s' (4 * i + 3) ^^^ v3) := rfl
    rw [← e, key]
    by_cases hj : j = i
    · subst hj
      rw [if_pos rfl, BitVec.getLsbD_xor, hI t j k hk, hv t]
      simp
    · rw [if_neg hj, hI t j k hk]
      congr 2
      rw [decide_eq_decide]; omega
  · rintro s' ⟨hl, hI⟩
    refine ⟨hl, fun t => sbits_xor hr hr8 (hm t) fun j k hj hk => ?_⟩
    rw [nth_inst _ _ hj, nth_inst _ _ hj, hI t j k hk]

theorem keccak_absorb4x_ret {E : Env} (hE : E.rhoAligned) {ss : List U64} {r : Nat}
    {m : Four (List U8)} {mlen : Nat} (hs : ss.length = 100) (hr0 : 0 < r) (hr : r ≤ 200)
    (hr8 : r % 8 = 0) (hm : ∀ t, mlen ≤ (m.get t).length) :
    Ret (keccak_absorb4x E ss r m mlen 0x1F) (fun s' => s'.length = 100 ∧ ∀ t,
      keccakF (sbits (inst t s')) =
        absorb keccakF (8 * r) (sbits (inst t ss)) (padded r ((m.get t).take mlen))) := by
  unfold keccak_absorb4x
  refine Ret.bind (Q := fun st : Absorb4St => st.ss.length = 100 ∧ st.mlen < r ∧
    ∀ t, st.mlen ≤ (st.m.get t).length ∧
    absorb keccakF (8 * r) (sbits (inst t st.ss)) (padded r ((st.m.get t).take st.mlen)) =
      absorb keccakF (8 * r) (sbits (inst t ss)) (padded r ((m.get t).take mlen))) ?_ ?_
  · refine Ret.while (I := fun st : Absorb4St => st.ss.length = 100 ∧
      ∀ t, st.mlen ≤ (st.m.get t).length ∧
      absorb keccakF (8 * r) (sbits (inst t st.ss)) (padded r ((st.m.get t).take st.mlen)) =
        absorb keccakF (8 * r) (sbits (inst t ss)) (padded r ((m.get t).take mlen)))
      (fun st => st.mlen) ?_ ?_ _ ?_
    · rintro st ⟨h1, h2⟩ hc
      have hc : r ≤ st.mlen := by simpa using hc
      refine (xorBlock4x_ret h1 hr hr8 (fun t => by have := (h2 t).1; omega)).bind fun s1 hs1 => ?_
      refine (PermuteAll_ret hE hs1.1).bind fun s2 hs2 => ?_
      have m0 := (h2 0).1
      have m1 := (h2 1).1
      have m2 := (h2 2).1
      have m3 := (h2 3).1
      simp only [Four.get] at m0 m1 m2 m3
      simp only [wp]
      refine ⟨by omega, by omega, by omega, by omega, ⟨hs2.1, fun t => ?_⟩, by omega⟩
      have hg : Four.get ⟨st.m.x0.drop r, st.m.x1.drop r, st.m.x2.drop r, st.m.x3.drop r⟩ t =
          (st.m.get t).drop r := by
        revert t; exact four_forall rfl rfl rfl rfl
      rw [hg]
      obtain ⟨h3, h4⟩ := h2 t
      refine ⟨by simp; omega, ?_⟩
      rw [← h4, padded_drop (M := (st.m.get t).take st.mlen) (r := r) (by simp; omega),
        absorb_step (by omega) (by simp; omega), hs2.2, hs1.2]
      congr 3
      · rw [List.take_take, Nat.min_eq_left hc]
      · rw [List.drop_take]
    · rintro st ⟨h1, h2⟩ hc
      exact ⟨h1, by simpa using hc, h2⟩
    · exact ⟨hs, fun t => ⟨hm t, rfl⟩⟩
  · rintro st ⟨h1, h2, h3⟩
    -- zeroing
    refine Ret.bind (Q := fun b : Four (List U8) => ∀ t, (b.get t).length = 200 ∧
      ∀ i, i < r → nth (b.get t) i = 0) ?_ ?_
    · refine Ret.for1 (fun i (b : Four (List U8)) => ∀ t, (b.get t).length = 200 ∧
        ∀ j, j < i → nth (b.get t) j = 0) ?_ ?_ ?_
      · exact four_forall ⟨by simp [Four.get], by omega⟩ ⟨by simp [Four.get], by omega⟩
          ⟨by simp [Four.get], by omega⟩ ⟨by simp [Four.get], by omega⟩
      · rintro i ⟨t0, t1, t2, t3⟩ hi hI
        have l0 := (hI 0).1
        have l1 := (hI 1).1
        have l2 := (hI 2).1
        have l3 := (hI 3).1
        simp only [Four.get] at l0 l1 l2 l3
        simp only [wp]
        refine ⟨by omega, by omega, by omega, by omega, fun t => ?_⟩
        have hg : Four.get ⟨t0.set i 0, t1.set i 0, t2.set i 0, t3.set i 0⟩ t =
          (Four.get ⟨t0, t1, t2, t3⟩ t).set i 0 := by
          revert t; exact four_forall rfl rfl rfl rfl
        rw [hg]
        refine ⟨by simp [(hI t).1], ?_⟩
        intro j hj
        rw [nth_set]
        by_cases hij : i = j
        · rw [if_pos ⟨hij, by rw [(hI t).1]; omega⟩]
        · rw [if_neg (by simp [hij]), (hI t).2 j (by omega)]
      · intro b hb; exact hb
    intro b0 hb0
    refine Ret.bind (Q := fun b : Four (List U8) => ∀ t, (b.get t).length = 200 ∧
      ∀ i, i < r → nth (b.get t) i = if i < st.mlen then nth (st.m.get t) i else 0) ?_ ?_
    · refine Ret.for1 (fun k (b : Four (List U8)) => ∀ t, (b.get t).length = 200 ∧
        ∀ i, i < r → nth (b.get t) i = if i < k then nth (st.m.get t) i else 0) ?_ ?_ ?_
      · intro t
        refine ⟨(hb0 t).1, ?_⟩
        intro i hi; rw [(hb0 t).2 i hi, if_neg (by omega)]
      · rintro k ⟨t0, t1, t2, t3⟩ hk hI
        have l0 := (hI 0).1
        have l1 := (hI 1).1
        have l2 := (hI 2).1
        have l3 := (hI 3).1
        have m0 := (h3 0).1
        have m1 := (h3 1).1
        have m2 := (h3 2).1
        have m3 := (h3 3).1
        simp only [Four.get] at l0 l1 l2 l3 m0 m1 m2 m3
        simp only [wp]
        refine ⟨by omega, by omega, by omega, by omega, by omega, by omega, by omega, by omega,
          fun t => ?_⟩
        have hg : Four.get ⟨t0.set k (nth st.m.x0 k), t1.set k (nth st.m.x1 k),
            t2.set k (nth st.m.x2 k), t3.set k (nth st.m.x3 k)⟩ t =
          (Four.get ⟨t0, t1, t2, t3⟩ t).set k (nth (st.m.get t) k) := by
          revert t; exact four_forall rfl rfl rfl rfl
        rw [hg]
        refine ⟨by simp [(hI t).1], ?_⟩
        intro j hj
        rw [nth_set]
        by_cases hij : k = j
        · rw [if_pos ⟨hij, by rw [(hI t).1]; omega⟩, if_pos (by omega), hij]
        · rw [if_neg (by simp [hij]), (hI t).2 j hj]
          by_cases hjk : j < k
          · rw [if_pos hjk, if_pos (by omega)]
          · rw [if_neg hjk, if_neg (by omega)]
      · intro b hb; exact hb
    rintro ⟨t0, t1, t2, t3⟩ hb
    have l0 := (hb 0).1
    have l1 := (hb 1).1
    have l2 := (hb 2).1
    have l3 := (hb 3).1
    simp only [Four.get] at l0 l1 l2 l3
    simp only [wp]
    refine ⟨by omega, by omega, by omega, by omega, by simp; omega, by simp; omega, by simp; omega,
      by simp; omega, by simp; omega, by simp; omega, by simp; omega, by simp; omega, ?_⟩
    generalize hF : (Four.mk ((t0.set st.mlen 0x1F).set (r - 1) (nth (t0.set st.mlen 0x1F) (r - 1) ||| 128))
      ((t1.set st.mlen 0x1F).set (r - 1) (nth (t1.set st.mlen 0x1F) (r - 1) ||| 128))
      ((t2.set st.mlen 0x1F).set (r - 1) (nth (t2.set st.mlen 0x1F) (r - 1) ||| 128))
      ((t3.set st.mlen 0x1F).set (r - 1) (nth (t3.set st.mlen 0x1F) (r - 1) ||| 128))) = F
    have hF' : ∀ t, F.get t = ((Four.get ⟨t0, t1, t2, t3⟩ t).set st.mlen 0x1F).set (r - 1)
        (nth ((Four.get ⟨t0, t1, t2, t3⟩ t).set st.mlen 0x1F) (r - 1) ||| 128) := by
      rw [← hF]; exact four_forall rfl rfl rfl rfl
    refine (xorBlock4x_ret h1 hr hr8 (fun t => by rw [hF']; simp [(hb t).1]; omega)).mono ?_
    rintro s' ⟨h5, h6⟩
    refine ⟨h5, fun t => ?_⟩
    have h6 := h6 t
    rw [hF'] at h6
    have key := lastBlock hr (hb t).1 h2 (h3 t).1 (hb t).2
    generalize List.take r _ = t' at h6 key
    rw [← (h3 t).2, ← key, ← List.append_nil (bytesToBits t'), absorb_step (by omega)
      (by rw [key]; exact length_padded (by have := (h3 t).1; simp; omega)), absorb_nil (by omega), h6]

/-- One word of output (store64 at the current offset). -/
theorem squeezeWord {s : List U64} {h h' : List U8} {S : List Bool} {r n i : Nat} (hr0 : 0 < r)
    (hr : r ≤ 200) (hi : 8 * i + 8 ≤ r) (hle : n * r + r ≤ h.length)
    (hb2 : sbits s = keccakF^[n + 1] S)
    (hI : h' = (List.range (n * r + 8 * i)).map (sqByte r (keccakF S)) ++ h.drop (n * r + 8 * i)) :
    Ret (atPtr h' (n * r + 8 * i) fun q => store64 q (nth s i))
      (· = (List.range (n * r + 8 * (i + 1))).map (sqByte r (keccakF S)) ++
        h.drop (n * r + 8 * (i + 1))) := by
  have hlen : h'.length = h.length := by rw [hI]; simp; omega
  simp only [wp]
  refine ⟨by omega, ?_⟩
  refine (store64_ret (by simp; omega)).of_eq ?_
  rw [hI]
  have e1 : ((List.range (n * r + 8 * i)).map (sqByte r (keccakF S))).length =
    n * r + 8 * i := by simp
  rw [List.take_append_of_le_length (by omega), List.take_of_length_le (by omega),
    List.drop_append_of_le_length (by omega),
    List.drop_of_length_le (l := List.map _ _) (by omega),
    List.nil_append, List.drop_drop, ← List.append_assoc]
  rw [show n * r + 8 * (i + 1) = n * r + 8 * i + 8 by omega]
  refine congrArg (fun l : List U8 => l ++ _) ?_
  rw [List.range_add (n := n * r + 8 * i) (m := 8), List.map_append, List.map_map]
  refine congrArg (fun l : List U8 => _ ++ l) ?_
  apply List.map_congr_left
  intro k hk
  rw [List.mem_range] at hk
  apply BitVec.eq_of_getLsbD_eq
  intro b hb
  simp only [Function.comp]
  rw [sqByte_getLsbD _ _ _ _ hb, byteOf64, BitVec.getLsbD_setWidth,
    BitVec.getLsbD_ushiftRight, Nat.add_assoc, Nat.mul_comm n r, Nat.mul_add_mod,
    Nat.mul_add_div hr0, Nat.div_eq_of_lt (by omega), Nat.mod_eq_of_lt (by omega),
    Nat.add_zero, ← Function.iterate_succ_apply, ← hb2, sbits_getD,
    show (8 * (8 * i + k) + b) / 64 = i by omega,
    show (8 * (8 * i + k) + b) % 64 = 8 * k + b by omega]
  have h1 : 8 * (8 * i + k) + b < 1600 := by omega
  simp [hb, h1]

theorem keccak_squeezeblocks4x_ret {E : Env} (hE : E.rhoAligned) {h : Four (List U8)} {nblocks : Nat}
    {ss : List U64} {r : Nat} (hs : ss.length = 100) (hr0 : 0 < r) (hr : r ≤ 200) (hr8 : r % 8 = 0)
    (hh : ∀ t, nblocks * r ≤ (h.get t).length) :
    Ret (keccak_squeezeblocks4x E h nblocks ss r) (fun x => x.2.length = 100 ∧ ∀ t,
      x.1.get t = (List.range (nblocks * r)).map (sqByte r (keccakF (sbits (inst t ss)))) ++
        (h.get t).drop (nblocks * r) ∧
      sbits (inst t x.2) = keccakF^[nblocks] (sbits (inst t ss))) := by
  unfold keccak_squeezeblocks4x
  refine Ret.bind (Q := fun st : Squeeze4St => st.ss.length = 100 ∧ ∀ t,
      st.h.get t = (List.range (nblocks * r)).map (sqByte r (keccakF (sbits (inst t ss)))) ++
        (h.get t).drop (nblocks * r) ∧
      sbits (inst t st.ss) = keccakF^[nblocks] (sbits (inst t ss))) ?_ ?_
  · refine Ret.while (I := fun st : Squeeze4St => ∃ n, n + st.nblocks = nblocks ∧ st.off = n * r ∧
      st.ss.length = 100 ∧ ∀ t,
      st.h.get t = (List.range (n * r)).map (sqByte r (keccakF (sbits (inst t ss)))) ++
        (h.get t).drop (n * r) ∧
      sbits (inst t st.ss) = keccakF^[n] (sbits (inst t ss))) (fun st => st.nblocks) ?_ ?_ _ ?_
    · rintro st ⟨n, h1, h2, h3, h4⟩ hc
      have hc : 0 < st.nblocks := by simpa using hc
      have hle : ∀ t, n * r + r ≤ (h.get t).length := by
        intro t
        have := Nat.mul_le_mul_right r (show n + 1 ≤ nblocks by omega)
        have h' := hh t
        rw [Nat.succ_mul] at this; omega
      refine (PermuteAll_ret hE h3).bind fun s' ⟨hl', hb'⟩ => ?_
      have hb2 : ∀ t, sbits (inst t s') = keccakF^[n + 1] (sbits (inst t ss)) := by
        intro t
        rw [hb', (h4 t).2, Function.iterate_succ_apply']
      refine Ret.bind (Q := fun h' : Four (List U8) => ∀ t, h'.get t = (List.range (n * r + r)).map
        (sqByte r (keccakF (sbits (inst t ss)))) ++ (h.get t).drop (n * r + r)) ?_ ?_
      · refine Ret.for1 (fun i (h' : Four (List U8)) => ∀ t, h'.get t =
          (List.range (n * r + 8 * i)).map
          (sqByte r (keccakF (sbits (inst t ss)))) ++ (h.get t).drop (n * r + 8 * i)) ?_ ?_ ?_
        · intro t; simpa using (h4 t).1
        · rintro i h' hi hI
          have hi : 8 * i + 8 ≤ r := by rw [Nat.shiftRight_eq_div_pow] at hi; omega
          rw [h2]
          have w : ∀ t : Fin 4, Ret (atPtr (h'.get t) (n * r + 8 * i) fun q => store64 q (nth s' (4 * i + t)))
              (· = (List.range (n * r + 8 * (i + 1))).map (sqByte r (keccakF (sbits (inst t ss)))) ++
              (h.get t).drop (n * r + 8 * (i + 1))) := by
            intro t
            rw [← nth_inst t s' (by omega)]
            exact squeezeWord hr0 hr hi (hle t) (hb2 t) (hI t)
          rw [Ret_rd_bind]
          refine ⟨by omega, ?_⟩
          refine (w 0).bind fun a0 ha0 => ?_
          rw [Ret_rd_bind]
          refine ⟨by omega, ?_⟩
          refine (w 1).bind fun a1 ha1 => ?_
          rw [Ret_rd_bind]
          refine ⟨by omega, ?_⟩
          refine (w 2).bind fun a2 ha2 => ?_
          rw [Ret_rd_bind]
          refine ⟨by omega, ?_⟩
          refine (w 3).bind fun a3 ha3 => ?_
          rw [Ret_pure]
          exact four_forall ha0 ha1 ha2 ha3
        · intro h' hI t
          rw [hI, Nat.shiftRight_eq_div_pow, show 8 * (r / 2 ^ 3) = r by omega]
      · intro h' hI
        simp only [wp]
        refine ⟨⟨n + 1, by omega, by rw [h2, Nat.succ_mul], hl', fun t => ⟨?_, hb2 t⟩⟩, by omega⟩
        rw [hI, Nat.succ_mul]
    · rintro st ⟨n, h1, h2, h3, h4⟩ hc
      have hc : st.nblocks = 0 := by simpa using hc
      have : n = nblocks := by omega
      subst this
      exact ⟨h3, h4⟩
    · exact ⟨0, by simp, by simp, hs, fun t => ⟨by simp, rfl⟩⟩
  · rintro st hst
    simp only [wp]
    exact hst

theorem zero4x_ret {ss : List U64} (h : ss.length = 100) :
    Ret (forC 0 25 1 ss fun i ss => do
      let a ← LOAD256 ss i
      let b ← LOAD256 ss i
      STORE256 ss i (XOR256 a b)) (fun s => s.length = 100 ∧ ∀ t, inst t s = List.replicate 25 0) := by
  refine Ret.for1 (fun i (s : List U64) => s.length = 100 ∧ ∀ j, j < i → ∀ t : Fin 4,
    nth s (4 * j + t) = 0) ⟨h, by omega⟩ ?_ ?_
  · rintro i s hi ⟨hl, hI⟩
    simp only [wp]
    refine ⟨by omega, by omega, by omega, by simp [hl], ?_⟩
    intro j hj t
    rw [nth_set4 (by omega)]
    by_cases c : j = i
    · rw [if_pos c]; simp [XOR256]
    · rw [if_neg c, hI j (by omega)]
  · rintro s ⟨hl, hI⟩
    refine ⟨hl, fun t => ?_⟩
    apply ext_nth (by simp)
    intro i hi
    rw [length_inst] at hi
    rw [nth_inst _ _ hi, hI i hi, nth_replicate, if_pos hi]

theorem shake128_4x_ret {E : Env} (hE : E.rhoAligned) {out : Four (List U8)} {outlen : Nat}
    {inp : Four (List U8)} {inlen : Nat} (hi : ∀ t, inlen ≤ (inp.get t).length)
    (ho : ∀ t, outlen ≤ (out.get t).length) :
    Ret (shake128_4x E out outlen inp inlen) (fun o => ∀ t, o.get t =
      SHAKE128 ((inp.get t).take inlen) outlen ++ (out.get t).drop outlen) := by
  unfold shake128_4x shake128_absorb4x
  have hr0 : 0 < SHAKE128_RATE := by decide
  have hr : SHAKE128_RATE ≤ 200 := by decide
  have hr8 : SHAKE128_RATE % 8 = 0 := by decide
  simp only [bind_assoc]
  refine (zero4x_ret (by simp)).bind ?_
  rintro s0 ⟨hl0, hz⟩
  refine (keccak_absorb4x_ret hE hl0 hr0 hr hr8 hi).bind ?_
  rintro s ⟨hl, hs⟩
  have hS : ∀ t, keccakF (sbits (inst t s)) = spongeState SHAKE128_RATE ((inp.get t).take inlen) := by
    intro t
    rw [hs t, hz, sbits_zero]; rfl
  have hout : ∀ t, SHAKE128 ((inp.get t).take inlen) outlen =
      (List.range outlen).map (sqByte SHAKE128_RATE (keccakF (sbits (inst t s)))) := by
    intro t
    rw [SHAKE128_eq, hS]; rfl
  simp only [hout]
  generalize SHAKE128_RATE = r at *
  have hdm := Nat.div_add_mod outlen r
  have hml := Nat.mod_lt outlen hr0
  generalize hnb : outlen / r = nb at *
  rw [Nat.mul_comm] at hdm
  refine (keccak_squeezeblocks4x_ret hE hl hr0 hr hr8 (fun t => by have := ho t; omega)).bind ?_
  rintro ⟨out1, s1⟩ ⟨h1, h2⟩
  simp only at h1 h2
  simp only [wp]
  by_cases hz : outlen % r = 0
  · rw [if_neg (by simp [hz])]
    simp only [wp]
    intro t
    rw [(h2 t).1, show nb * r = outlen by omega]
  · rw [if_pos (by simp [hz])]
    refine (keccak_squeezeblocks4x_ret hE h1 hr0 hr hr8 ?_).bind ?_
    · exact four_forall (by simp [Four.get]) (by simp [Four.get]) (by simp [Four.get]) (by simp [Four.get])
    rintro ⟨b, s2⟩ ⟨-, h4⟩
    simp only at h4
    simp only
    refine Ret.for1 (fun i (o : Four (List U8)) => ∀ t, o.get t = (List.range (nb * r + i)).map
      (sqByte r (keccakF (sbits (inst t s)))) ++ (out.get t).drop (nb * r + i)) ?_ ?_ ?_
    · intro t; rw [(h2 t).1, Nat.add_zero]
    · rintro i ⟨o0, o1, o2, o3⟩ hi' hI
      have hir : i < r := by omega
      have hlo : ∀ t, (Four.get ⟨o0, o1, o2, o3⟩ t).length = (out.get t).length := by
        intro t
        have := ho t
        rw [hI]; simp; omega
      have hlb : ∀ t, (b.get t).length ≥ r := by
        intro t; rw [(h4 t).1]; simp
      have := ho 0
      have := ho 1
      have := ho 2
      have := ho 3
      have := hlo 0
      have := hlo 1
      have := hlo 2
      have := hlo 3
      have := hlb 0
      have := hlb 1
      have := hlb 2
      have := hlb 3
      simp only [Four.get] at *
      simp only [wp]
      refine ⟨by omega, by omega, by omega, by omega, by omega, by omega, by omega, by omega, ?_⟩
      intro t
      have hg : Four.get ⟨o0.set (nb * r + i) (nth b.x0 i), o1.set (nb * r + i) (nth b.x1 i),
          o2.set (nb * r + i) (nth b.x2 i), o3.set (nb * r + i) (nth b.x3 i)⟩ t =
        (Four.get ⟨o0, o1, o2, o3⟩ t).set (nb * r + i) (nth (b.get t) i) := by
        revert t; exact four_forall rfl rfl rfl rfl
      have hot := ho t
      refine hg.trans ?_
      have hI := hI t
      change Four.get ⟨o0, o1, o2, o3⟩ t = _ at hI
      rw [hI, List.set_append_right _ _ (by simp), ← Nat.add_assoc, List.range_succ, List.map_append]
      simp only [List.length_map, List.length_range, Nat.sub_self]
      rw [List.drop_eq_getElem_cons (by omega), List.set_cons_zero,
        List.append_assoc]
      refine congrArg (fun l : List U8 => _ ++ l) ?_
      simp only [List.map_cons, List.map_nil, List.cons_append, List.nil_append]
      refine congrArg (fun x : U8 => x :: _) ?_
      have h4 := (h4 t).1
      change Four.get b t = _ at h4
      rw [h4, nth_append, if_pos (by simp; omega), nth_range_map, if_pos (by omega), (h2 t).2,
        ← Function.iterate_succ_apply' keccakF, Function.iterate_succ_apply, sqByte_iter _ _ _ hr0]
    · intro o hI t
      rw [hI, show nb * r + outlen % r = outlen by omega]

end Frodo
