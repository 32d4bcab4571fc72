import Verif.Proof.PyBase
import Verif.Spec.Python

/-! # Bit strings of the Python implementation -/

namespace Frodo.Py

open C Spec

variable {r c D : Nat} {X Y : Mat}

/-- Rule for a loop that fills a window of a list. -/
theorem window_ret {α : Type} [Inhabited α] {d : Nat} {b0 : List α} {body : Nat → List α → C (List α)}
    (base : Nat) (F : Nat → α) (hd : base + d ≤ b0.length)
    (h : ∀ l b, l < d → b.length = b0.length → Ret (body l b) (· = b.set (base + l) (F (base + l)))) :
    Ret (forC 0 d 1 b0 body) (fun b => b.length = b0.length ∧
      ∀ t, nth b t = if base ≤ t ∧ t < base + d then F t else nth b0 t) := by
  refine Ret.for1 (fun l b => b.length = b0.length ∧
      ∀ t, nth b t = if base ≤ t ∧ t < base + l then F t else nth b0 t) ⟨rfl, ?_⟩ ?_ (fun _ h => h)
  · intro t; rw [if_neg (by omega)]
  · rintro l b hl ⟨hb, hE⟩
    refine (h l b hl hb).mono ?_
    rintro _ rfl
    refine ⟨by rw [List.length_set, hb], ?_⟩
    intro t
    by_cases e : base + l = t
    · subst e
      rw [nth_set_eq (by omega), if_pos (by omega)]
    · rw [nth_set_ne e, hE]
      by_cases e2 : base ≤ t ∧ t < base + l
      · rw [if_pos e2, if_pos (by omega)]
      · rw [if_neg e2, if_neg (by omega)]

/-- Rule for a double loop that fills consecutive windows of `d` elements. -/
theorem windows_ret {α : Type} [Inhabited α] {m n d : Nat} {b0 : List α}
    {body : Nat → Nat → List α → C (List α)} (F : Nat → α)
    (h : ∀ i j b, i < m → j < n → b.length = b0.length → Ret (body i j b) (fun b' =>
      b'.length = b.length ∧
      ∀ t, nth b' t = if (i * n + j) * d ≤ t ∧ t < (i * n + j) * d + d then F t else nth b t)) :
    Ret (forC 0 m 1 b0 fun i b => forC 0 n 1 b fun j b => body i j b)
      (fun b => b.length = b0.length ∧ ∀ t, t < m * n * d → nth b t = F t) := by
  let J : Nat → List α → Prop := fun a b => b.length = b0.length ∧ ∀ t, t < a * d → nth b t = F t
  refine Ret.for1 (fun i b => J (i * n) b) ⟨rfl, by intro t ht; omega⟩ ?_ (fun _ h => h)
  intro i b hi hJ
  refine Ret.for1 (fun j b => J (i * n + j) b) hJ ?_ ?_
  · rintro j b hj ⟨hb, hE⟩
    refine (h i j b hi hj hb).mono ?_
    rintro b' ⟨hb', hE'⟩
    refine ⟨by rw [hb', hb], ?_⟩
    intro t ht
    rw [hE']
    rw [← Nat.add_assoc, Nat.succ_mul] at ht
    by_cases e : (i * n + j) * d ≤ t
    · rw [if_pos (by omega)]
    · rw [if_neg (by omega), hE t (by omega)]
  · intro b hJ
    rw [Nat.succ_mul]; exact hJ

theorem splitBits_ret (d x : Nat) : Ret (splitBits d (x : Int)) (fun p => p.1.length = d ∧
    ∀ l, l < d → nth p.1 l = ((x.testBit l).toNat : Int)) := by
  unfold splitBits
  refine Ret.for1 (fun k p => p.1.length = d ∧ p.2 = ((x / 2 ^ k : Nat) : Int) ∧
    ∀ l, l < k → nth p.1 l = ((x.testBit l).toNat : Int)) ⟨by simp, by simp, by intro l hl; omega⟩ ?_ ?_
  · rintro k ⟨bits, tmp⟩ hk ⟨h1, h2, h3⟩
    simp only [Ret_wr_bind, Ret_pure]
    simp only at h1 h2 h3
    refine ⟨by omega, by rw [List.length_set]; exact h1, ?_, ?_⟩
    · rw [h2, pow_succ, ← Nat.div_div_eq_div_mul]; push_cast; rfl
    · intro l hl
      by_cases e : k = l
      · subst e
        rw [nth_set_eq (by omega), h2, Nat.testBit_eq_decide_div_mod_eq]
        generalize x / 2 ^ k = y
        have : y % 2 = 0 ∨ y % 2 = 1 := by omega
        rcases this with h | h
        · rw [h]; show _ = (0 : Int); omega
        · rw [h]; show _ = (1 : Int); omega
      · rw [nth_set_ne e]; exact h3 l (by omega)
  · rintro p ⟨h1, _, h3⟩
    exact ⟨h1, h3⟩

theorem nth_stream16 {M : Matrix (Fin r) (Fin c) (ZMod (2 ^ D))} (hD : D ≤ 16) {i j l : Nat}
    (hi : i < r) (hj : j < c) (hl : l < D) :
    nth (stream16 D (ofMat M)) ((i * c + j) * D + l) = (M ⟨i, hi⟩ ⟨j, hj⟩).val.testBit (D - 1 - l) := by
  have h := getD_flatMap D (fun x : U16 => x.toNat) (ofMat M) (i * c + j) l hl
  have hlt := idx_lt hi hj
  have e : ∀ t, nth (stream16 D (ofMat M)) t = (stream16 D (ofMat M)).getD t false := fun _ => rfl
  rw [e, show (i * c + j) * D + l = D * (i * c + j) + l by ring]
  unfold stream16
  rw [h, length_ofMat, nth_ofMat M hi hj, BitVec.toNat_ofNat, Nat.mod_eq_of_lt]
  · simp [hlt]
  · have := ZMod.val_lt (M ⟨i, hi⟩ ⟨j, hj⟩)
    have hp : (2 : Nat) ^ D ≤ 2 ^ 16 := Nat.pow_le_pow_right (by omega) hD
    omega

theorem length_stream16 (D : Nat) (v : List U16) : (stream16 D v).length = v.length * D := by
  unfold stream16
  exact length_flatMap_const _ _ D (fun a _ => length_bitsOf _ _)

theorem pack_ret {o : Obj} (ho : o.D = D) (hD : D ≤ 16) (hr : 0 < r) (h8 : 8 ∣ D * r * c)
    {M : Matrix (Fin r) (Fin c) (ZMod (2 ^ D))} (hX : IsZ X M) :
    Ret (pack o X) (· = packMat M) := by
  unfold pack
  subst ho
  simp only [Ret_rd_bind]
  refine ⟨by rw [hX.1.1]; exact hr, ?_⟩
  rw [hX.1.1, hX.1.2 0 hr]
  refine Ret.bind_eq (v := stream16 o.D (ofMat M)) ?_ ?_
  · refine (windows_ret (d := o.D) (nth (stream16 o.D (ofMat M))) ?_).mono ?_
    · intro i j b hi hj hb
      refine Ret.bind_eq (get2_ret hX.1 hi hj) ?_
      rw [hX.2 ⟨i, hi⟩ ⟨j, hj⟩]
      refine (splitBits_ret _ _).bind ?_
      rintro ⟨bits, tmp⟩ ⟨hl, hE⟩
      simp only at hl hE ⊢
      have hlt := idx_lt hi hj
      have hle : (i * c + j) * o.D + o.D ≤ b.length := by
        rw [hb, List.length_replicate, ← Nat.succ_mul, Nat.mul_assoc, Nat.mul_comm o.D]
        exact Nat.mul_le_mul_right _ hlt
      refine window_ret _ _ hle ?_
      intro l b' hl' hb'
      simp only [wp]
      refine ⟨by omega, by omega, ?_⟩
      rw [nth_stream16 hD hi hj hl', hE _ (by omega)]
      congr 1
      cases (M ⟨i, hi⟩ ⟨j, hj⟩).val.testBit (o.D - 1 - l) <;> simp
    · rintro b ⟨hb, hE⟩
      rw [List.length_replicate] at hb
      apply ext_nth
      · rw [hb, length_stream16, length_ofMat]; ring
      · intro t ht
        apply hE
        rw [hb] at ht
        rw [Nat.mul_assoc, Nat.mul_comm] at ht; exact ht
  · have hlen : (stream16 o.D (ofMat M)).length = o.D * r * c := by
      rw [length_stream16, length_ofMat]; ring
    simp only [wp]
    rw [hlen]
    refine ⟨Nat.mod_eq_zero_of_dvd h8, rfl⟩

theorem length_stream8 (v : List U8) : (stream8 v).length = v.length * 8 := by
  unfold stream8
  exact length_flatMap_const _ _ 8 (fun a _ => length_bitsOf _ _)

theorem unpack_ret {o : Obj} (ho : o.D = D) (hD : D ≤ 16) {b : List U8} (h8 : D * (r * c) ≤ 8 * b.length) :
    Ret (unpack o b r c) (fun X => IsZ X (unpackMat D r c b)) := by
  unfold unpack
  subst ho
  have hp : (2 : Nat) ^ o.D ≤ 2 ^ 16 := Nat.pow_le_pow_right (by omega) hD
  refine (fill_ret Shape_zeros (fun i j => ((natOf ((List.range o.D).map fun l =>
    (stream8 b).getD (o.D * (i * c + j) + l) false) : Nat) : Int)) ?_).mono ?_
  · intro i j R hi hj hS h0
    rw [ent_zeros] at h0
    have hlt := idx_lt hi hj
    refine Ret.for1 (fun l R' => R' = upd R i j (((natOf ((List.range l).map fun l =>
      (stream8 b).getD (o.D * (i * c + j) + l) false) * 2 ^ (o.D - l) : Nat) : Int))) ?_ ?_ ?_
    · rw [show natOf ((List.range 0).map fun l =>
        (stream8 b).getD (o.D * (i * c + j) + l) false) * 2 ^ (o.D - 0) = 0 by simp [natOf],
        Nat.cast_zero, ← h0, upd_self hS hi hj]
    · rintro l _ hl rfl
      have hlt2 : (i * c + j) * o.D + l < b.length * 8 := by
        have := Nat.mul_le_mul_right o.D (Nat.succ_le_of_lt hlt)
        rw [Nat.succ_mul, Nat.mul_comm (r * c)] at this
        omega
      simp only [Ret_rd_bind]
      refine ⟨by rw [length_stream8]; exact hlt2, ?_⟩
      have e : nth (stream8 b) ((i * c + j) * o.D + l) = (stream8 b).getD (o.D * (i * c + j) + l) false := by
        rw [Nat.mul_comm o.D]; rfl
      rw [e, List.range_succ, List.map_append, List.map_singleton, natOf_snoc]
      obtain ⟨k, hk⟩ : ∃ k, o.D = l + 1 + k := ⟨o.D - (l + 1), by omega⟩
      have e1 : o.D - l = k + 1 := by omega
      have e2 : o.D - (l + 1) = k := by omega
      have e3 : o.D - 1 - l = k := by omega
      by_cases hb : (stream8 b).getD (o.D * (i * c + j) + l) false = true
      · rw [if_pos hb]
        refine Ret.bind_eq (get2_ret (hS.upd _) hi hj) ?_
        refine (set2_ret (hS.upd _) hi hj).mono ?_
        rintro _ rfl
        rw [upd_upd hS _ _ hi, ent_upd hS _ hi hj, if_pos ⟨rfl, rfl⟩, e1, e2, e3, hb]
        congr 1
        push_cast [Bool.toNat_true]
        ring
      · rw [if_neg hb, Ret_pure, e1, e2]
        congr 1
        rw [Bool.not_eq_true] at hb
        rw [hb]
        push_cast [Bool.toNat_false]
        ring
    · rintro _ rfl
      rw [Nat.sub_self, pow_zero, Nat.mul_one]
  · rintro R ⟨hS, hE⟩
    refine ⟨hS, ?_⟩
    intro i j
    rw [hE i j i.isLt j.isLt]
    have hlt := idx_lt i.isLt j.isLt
    have hv := natOf_lt o.D (fun l => (stream8 b).getD (o.D * (i * c + j) + l) false)
    congr 1
    show _ = ((nth (Spec.unpack o.D (r * c) b) (i * c + j)).toNat : ZMod (2 ^ o.D)).val
    unfold Spec.unpack chunks
    rw [nth_map, if_pos (by simpa using hlt), nth_range_map, if_pos hlt, BitVec.toNat_ofNat,
      Nat.mod_eq_of_lt (by omega), ZMod.val_natCast, Nat.mod_eq_of_lt hv]

theorem length_bytesToBits (v : List U8) : (bytesToBits v).length = v.length * 8 := by
  unfold bytesToBits
  exact length_flatMap_const _ _ 8 (fun a _ => by simp)

theorem nth_bytesToBits (v : List U8) {i l : Nat} (hi : i < v.length) (hl : l < 8) :
    nth (bytesToBits v) (8 * i + l) = (nth v i).getLsbD l := by
  unfold bytesToBits
  rw [Nat.mul_comm, nth_flatMap_const _ _ 8 (fun a _ => by simp) i l hi hl, nth_range_map, if_pos hl]

theorem bytes_to_bit_array_ret (v : List U8) : Ret (bytes_to_bit_array v) (· = bytesToBits v) := by
  unfold bytes_to_bit_array
  refine Ret.for1 (fun i b => b.length = 8 * v.length ∧
    ∀ t, t < 8 * i → nth b t = nth (bytesToBits v) t) ⟨by simp, by intro t ht; omega⟩ ?_ ?_
  · rintro i b hi ⟨hb, hE⟩
    refine (window_ret (8 * i) (nth (bytesToBits v)) (by omega) ?_).mono ?_
    · intro l b' hl hb'
      simp only [wp]
      refine ⟨hi, by omega, ?_⟩
      rw [nth_bytesToBits v hi hl, BitVec.getLsbD, Nat.testBit_eq_decide_div_mod_eq, Nat.shiftRight_eq_div_pow]
      congr 1
      have : (nth v i).toNat / 2 ^ l % 2 = 0 ∨ (nth v i).toNat / 2 ^ l % 2 = 1 := by omega
      rcases this with h | h <;> simp [h]
    · rintro b' ⟨hb', hE'⟩
      refine ⟨by rw [hb', hb], ?_⟩
      intro t ht
      rw [hE']
      split
      · rfl
      · exact hE t (by omega)
  · rintro b ⟨hb, hE⟩
    apply ext_nth
    · rw [hb, length_bytesToBits, Nat.mul_comm]
    · intro t ht; exact hE t (by omega)

theorem bit_array_to_bytes_ret (b : List Bool) :
    Ret (bit_array_to_bytes b) (· = bitsToBytes (b.length / 8) b) := by
  unfold bit_array_to_bytes
  refine Ret.for1 (fun i v => v.length = b.length / 8 ∧
    (∀ t, t < i → nth v t = nth (bitsToBytes (b.length / 8) b) t) ∧ ∀ t, i ≤ t → nth v t = 0) ?_ ?_ ?_
  · refine ⟨by simp, by intro t ht; omega, ?_⟩
    intro t _; rw [nth_replicate]; split <;> rfl
  · rintro i v hi ⟨hv, hE, hZ⟩
    refine Ret.for1 (fun l v' => v'.length = v.length ∧ (∀ t, t ≠ i → nth v' t = nth v t) ∧
      ∀ m, m < 8 → (nth v' i).getLsbD m = (decide (m < l) && nth b (8 * i + m))) ?_ ?_ ?_
    · refine ⟨rfl, fun _ _ => rfl, ?_⟩
      intro m hm; rw [hZ i (le_refl _)]; simp
    · rintro l v' hl ⟨hv', hO, hB⟩
      simp only [Ret_rd_bind]
      refine ⟨by omega, ?_⟩
      by_cases hb : nth b (8 * i + l) = true
      · rw [if_pos hb]
        simp only [wp]
        refine ⟨by omega, by omega, by rw [List.length_set]; exact hv', ?_, ?_⟩
        · intro t ht; rw [nth_set_ne (Ne.symm ht)]; exact hO t ht
        · intro m hm
          rw [nth_set_eq (by omega), BitVec.getLsbD_or, hB m hm, BitVec.getLsbD_ofNat, Nat.one_shiftLeft,
            Nat.testBit_two_pow]
          by_cases e : l = m
          · subst e; simp [hm, hb]
          · have : (decide (m < l + 1)) = decide (m < l) := by
              by_cases h : m < l
              · simp [h]; omega
              · simp [h]; omega
            rw [this]; simp [e]
      · rw [if_neg hb, Ret_pure]
        refine ⟨hv', hO, ?_⟩
        intro m hm
        rw [hB m hm]
        by_cases e : l = m
        · subst e; simp [hb]
        · have : (decide (m < l + 1)) = decide (m < l) := by
            by_cases h : m < l
            · simp [h]; omega
            · simp [h]; omega
          rw [this]
    · rintro v' ⟨hv', hO, hB⟩
      refine ⟨by rw [hv', hv], ?_, ?_⟩
      · intro t ht
        by_cases e : t = i
        · subst e
          apply BitVec.eq_of_getLsbD_eq
          intro m hm
          rw [hB m hm]
          unfold bitsToBytes
          rw [nth_range_map, if_pos (by omega), byteOfBits_getLsbD _ _ hm]
          simp [hm, nth, List.getD]
        · rw [hO t e]; exact hE t (by omega)
      · intro t ht
        rw [hO t (by omega)]; exact hZ t (by omega)
  · rintro v ⟨hv, hE, _⟩
    apply ext_nth
    · rw [hv]; simp [bitsToBytes]
    · intro t ht; exact hE t (by omega)

end Frodo.Py
