import Verif.Proof.KatText
import Mathlib.Tactic.Ring
import Mathlib.Tactic.Linarith

/-! # Reading of hexadecimal numbers: lemmas -/

namespace Frodo
open Spec

theorem foldl_be (l : List U8) : ∀ v, l.foldl (fun v b => 256 * v + b.toNat) v = v * 256 ^ l.length + beVal l := by
  unfold beVal
  induction l with
  | nil => intro v; simp
  | cons b l ih =>
    intro v
    rw [List.foldl_cons, List.foldl_cons, ih, ih (256 * 0 + b.toNat), List.length_cons, pow_succ]
    ring

theorem beVal_cons (b : U8) (l : List U8) : beVal (b :: l) = b.toNat * 256 ^ l.length + beVal l := by
  conv => lhs; unfold beVal
  rw [List.foldl_cons, foldl_be]
  ring

theorem beVal_lt (l : List U8) : beVal l < 256 ^ l.length := by
  induction l with
  | nil => decide
  | cons b l ih =>
    rw [beVal_cons, List.length_cons, pow_succ]
    have := b.isLt
    nlinarith

theorem beVal_inj : ∀ {l l' : List U8}, l.length = l'.length → beVal l = beVal l' → l = l'
  | [], [], _, _ => rfl
  | b :: l, b' :: l', h, h' => by
    simp only [List.length_cons, Nat.add_right_cancel_iff] at h
    rw [beVal_cons, beVal_cons, h] at h'
    have h1 := beVal_lt l
    have h2 := beVal_lt l'
    rw [h] at h1
    have hb : b.toNat = b'.toNat := by
      have e1 := congrArg (· / 256 ^ l'.length) h'
      beta_reduce at e1
      rwa [Nat.mul_comm, Nat.mul_add_div (by positivity), Nat.div_eq_of_lt h1, Nat.mul_comm b'.toNat,
        Nat.mul_add_div (by positivity), Nat.div_eq_of_lt h2] at e1
    rw [hb] at h'
    rw [BitVec.eq_of_toNat_eq hb, beVal_inj h (by omega)]

/-- The bytes shifted by four bits, with a digit put in. -/
def shl4 : List U8 → Nat → List U8
  | [], _ => []
  | [a], d => [BitVec.ofNat 8 (16 * a.toNat + d)]
  | a :: b :: l, d => BitVec.ofNat 8 (16 * a.toNat + b.toNat / 16) :: shl4 (b :: l) d

theorem length_shl4 : ∀ (l : List U8) (d : Nat), (shl4 l d).length = l.length
  | [], _ => rfl
  | [_], _ => rfl
  | _ :: b :: l, d => by rw [shl4, List.length_cons, length_shl4 (b :: l) d]; rfl

theorem beVal_shl4 {d : Nat} (hd : d < 16) : ∀ (l : List U8), beVal (shl4 l d) =
    (16 * beVal l + d) % 256 ^ l.length
  | [] => by simp [shl4, beVal, Nat.mod_one]
  | [a] => by
    have := a.isLt
    simp [shl4, beVal]
  | a :: b :: l => by
    rw [shl4, beVal_cons, beVal_shl4 hd (b :: l), length_shl4, beVal_cons a, BitVec.toNat_ofNat]
    have h1 := beVal_lt l
    have ha := a.isLt
    have hb := b.isLt
    rw [beVal_cons b, List.length_cons, List.length_cons]
    generalize hn : 256 ^ l.length = q at h1
    have hq : 0 < q := by rw [← hn]; positivity
    rw [List.length_cons, pow_succ 256 (l.length + 1), pow_succ 256 l.length, hn]
    generalize beVal l = w at h1
    generalize a.toNat = x at *
    generalize b.toNat = y at *
    have hc : (16 * (y * q + w) + d) / (q * 256) = y / 16 := by
      have e : 16 * (y * q + w) + d = y / 16 * (q * 256) + (16 * (y % 16 * q + w) + d) := by
        have := Nat.div_add_mod y 16
        calc 16 * (y * q + w) + d = 16 * ((16 * (y / 16) + y % 16) * q + w) + d := by rw [this]
          _ = _ := by ring
      have hlt : 16 * (y % 16 * q + w) + d < q * 256 := by
        have : y % 16 ≤ 15 := by omega
        have := Nat.mul_le_mul_right q this
        omega
      rw [e, Nat.mul_comm, Nat.mul_add_div (by omega), Nat.div_eq_of_lt hlt, Nat.add_zero]
    have e2 : 16 * (x * (q * 256) + (y * q + w)) + d = (q * 256) * (16 * x + y / 16) +
        (16 * (y * q + w) + d) % (q * 256) := by
      have := Nat.div_add_mod (16 * (y * q + w) + d) (q * 256)
      rw [hc] at this
      linarith
    have hr := Nat.mod_lt (16 * (y * q + w) + d) (show 0 < q * 256 by omega)
    rw [e2]
    generalize (16 * (y * q + w) + d) % (q * 256) = r at hr
    rw [Nat.mod_mul, Nat.mul_add_mod, Nat.mod_eq_of_lt hr, Nat.mul_add_div (by omega),
      Nat.div_eq_of_lt hr, Nat.add_zero]
    ring

theorem shl_or (x : U8) (d : Nat) (hd : d < 16) :
    u8 (ior ((x : Int) * 2 ^ (4 : Int).toNat) (d : Int)) = BitVec.ofNat 8 (16 * x.toNat + d) := by
  have := x.isLt
  unfold u8 ior
  have e1 : BitVec.ofInt 32 ((x.toNat : Int) * 2 ^ (4 : Int).toNat) = BitVec.ofNat 32 (x.toNat <<< 4) := by
    rw [Nat.shiftLeft_eq, ← BitVec.ofInt_natCast]
    rfl
  rw [e1, BitVec.ofInt_natCast, ← BitVec.ofNat_or]
  have e2 : x.toNat <<< 4 ||| d = 16 * x.toNat + d := by
    rw [Nat.shiftLeft_eq, Nat.mul_comm, ← Nat.two_pow_add_eq_or_of_lt (i := 4) (by simpa using hd)]
  rw [e2, BitVec.toInt_ofNat', Int.bmod_eq_of_le (by omega) (by omega), BitVec.ofInt_natCast]

theorem ishl4 {x : U8} {f : Int → C β} {P : β → Prop} :
    Ret (ishl (x : Int) 4 >>= f) P ↔ Ret (f ((x : Int) * 2 ^ (4 : Int).toNat)) P := by
  have := x.isLt
  unfold ishl int
  rw [if_pos (by decide), if_pos (by omega), if_pos (by unfold inInt; simp; omega), Ret_pure_bind]

theorem ishr4 {x : U8} {f : Int → C β} {P : β → Prop} :
    Ret (ishr (x : Int) 4 >>= f) P ↔ Ret (f ((x.toNat / 16 : Nat) : Int)) P := by
  unfold ishr
  rw [if_pos (by decide), Ret_pure_bind]
  rfl

theorem nth_shl4 {d : Nat} : ∀ (l : List U8) (i : Nat), i < l.length → nth (shl4 l d) i =
    BitVec.ofNat 8 (16 * (nth l i).toNat + if i + 1 < l.length then (nth l (i + 1)).toNat / 16 else d)
  | [a], 0, _ => rfl
  | a :: b :: l, 0, _ => by rw [shl4, nth_cons_zero, if_pos (by simp)]; rfl
  | a :: b :: l, i + 1, h => by
    rw [shl4, nth_cons_succ, nth_shl4 (b :: l) i (by simpa using h)]
    simp [nth_cons_succ]

theorem shiftIn_ret {A : List U8} {d : Nat} {n : Nat} (hn : 0 < n) (h : n ≤ A.length) (hd : d < 16) :
    Ret (shiftIn A n (BitVec.ofNat 8 d)) (· = shl4 (A.take n) d ++ A.drop n) := by
  unfold shiftIn
  refine Ret.bind (Q := fun l => l.length = A.length ∧ ∀ j, j < A.length → nth l j =
    if j + 1 < n then BitVec.ofNat 8 (16 * (nth A j).toNat + (nth A (j + 1)).toNat / 16) else nth A j) ?_ ?_
  · refine Ret.for1 (fun i l => l.length = A.length ∧ ∀ j, j < A.length → nth l j =
      if j < i then BitVec.ofNat 8 (16 * (nth A j).toNat + (nth A (j + 1)).toNat / 16) else nth A j) ?_ ?_ ?_
    · exact ⟨rfl, fun j _ => by simp⟩
    · rintro k l hk ⟨h1, h2⟩
      rw [Ret_rd_bind]
      refine ⟨by omega, ?_⟩
      rw [Ret_rd_bind]
      refine ⟨by omega, ?_⟩
      rw [ishl4, ishr4, Ret_wr]
      refine ⟨by omega, by simp [h1], fun j hj => ?_⟩
      have hlt : (nth l (k + 1)).toNat / 16 < 16 := by
        have := (nth l (k + 1)).isLt
        omega
      rw [shl_or _ _ hlt, h2 k (by omega), h2 (k + 1) (by omega), if_neg (by omega), if_neg (by omega), nth_set]
      by_cases hjk : k = j
      · subst hjk; simp [h1, hj]
      · rw [if_neg (by simp [hjk]), h2 _ hj]
        by_cases h3 : j < k
        · rw [if_pos h3, if_pos (by omega)]
        · rw [if_neg h3, if_neg (by omega)]
    · rintro l ⟨h1, h2⟩
      refine ⟨h1, fun j hj => ?_⟩
      rw [h2 j hj]
      by_cases h3 : j + 1 < n
      · rw [if_pos h3, if_pos (by omega)]
      · rw [if_neg h3, if_neg (by omega)]
  · rintro l ⟨h1, h2⟩
    rw [Ret_rd_bind]
    refine ⟨by omega, ?_⟩
    rw [ishl4, Ret_wr]
    refine ⟨by omega, ?_⟩
    have hd8 : ((BitVec.ofNat 8 d).toNat : Int) = (d : Int) := by
      rw [BitVec.toNat_ofNat, Nat.mod_eq_of_lt (by omega)]
    rw [hd8, shl_or _ _ hd, h2 _ (by omega), if_neg (by omega)]
    refine ext_nth (by simp [h1, length_shl4]; omega) fun j hj => ?_
    rw [List.length_set, h1] at hj
    rw [nth_append, length_shl4, List.length_take, Nat.min_eq_left h, nth_set]
    by_cases h3 : n - 1 = j
    · subst h3
      rw [if_pos ⟨rfl, by omega⟩, if_pos (by omega), nth_shl4 _ _ (by simp; omega), nth_take, if_pos (by omega),
        if_neg (by simp; omega)]
    · rw [if_neg (by simp [h3]), h2 j hj]
      by_cases h4 : j < n
      · rw [if_pos h4, if_pos (by omega), nth_shl4 _ _ (by simp; omega), nth_take, if_pos (by omega),
          if_pos (by simp; omega), nth_take, if_pos (by omega)]
      · rw [if_neg h4, if_neg (by omega), nth_drop]
        congr 1; omega

theorem isxdigit_eq (c : U8) : isxdigit (c : Int) = isHex c := by
  unfold isxdigit isHex hexVal
  rw [Bool.eq_iff_iff]
  simp only [Bool.or_eq_true, decide_eq_true_eq]
  split <;> [skip; split <;> [skip; split]] <;> simp <;> omega

theorem hexDigit_ret {c : U8} {d : Nat} (h : hexVal c = some d) :
    Ret (hexDigit (c : Int)) (· = BitVec.ofNat 8 d) ∧ d < 16 := by
  unfold hexVal at h
  unfold hexDigit
  have hc : ∀ n : Nat, u8 ((n : Nat) : Int) = BitVec.ofNat 8 n := fun n => by
    unfold u8; rw [BitVec.ofInt_natCast]
  split at h
  · cases h
    refine ⟨?_, by omega⟩
    rw [Ret_ifC, if_pos (by simp; omega)]
    refine ⟨_, _, rfl, ?_⟩
    rw [← hc]; congr 1; omega
  · split at h
    · cases h
      refine ⟨?_, by omega⟩
      rw [Ret_ifC, if_neg (by simp; omega), Ret_ifC, if_pos (by simp; omega)]
      refine ⟨_, _, rfl, ?_⟩
      rw [← hc]; congr 1; omega
    · split at h
      · cases h
        refine ⟨?_, by omega⟩
        rw [Ret_ifC, if_neg (by simp; omega), Ret_ifC, if_neg (by simp; omega), Ret_ifC,
          if_pos (by simp; omega)]
        refine ⟨_, _, rfl, ?_⟩
        rw [← hc]; congr 1; omega
      · cases h

theorem hexNum_append (l : List U8) (c : U8) : hexNum (l ++ [c]) = 16 * hexNum l + (hexVal c).getD 0 := by
  simp [hexNum]

/-- What `ReadHex` leaves in the array after the digits `ds`. -/
def hexBuf (A : List U8) (n : Nat) (ds : List U8) (A' : List U8) : Prop :=
  A'.length = A.length ∧ A'.drop n = A.drop n ∧ beVal (A'.take n) = hexNum ds % 256 ^ n

theorem digits_loop {A : List U8} {n : Nat} (hn : 0 < n) (h : n ≤ A.length) :
    ∀ (f ds A' : List U8), hexBuf A n ds A' →
    Ret (whileC (fun s : HexSt => !s.brk) (hexStep n) ⟨f, A', true, false⟩)
      (fun s => s.file = (f.dropWhile isHex).drop 1 ∧ hexBuf A n (ds ++ f.takeWhile isHex) s.A) := by
  intro f
  induction f with
  | nil =>
    intro ds A' hA
    rw [Ret_while_unfold, if_pos (by simp)]
    refine Ret.bind_eq (v := ⟨[], A', true, true⟩) ?_ ?_
    · unfold hexStep
      simp only [fgetc, wp]
      rw [if_neg (by simp), Ret_pure]
    · rw [Ret_while_unfold, if_neg (by simp), Ret_pure]
      exact ⟨rfl, by simpa using hA⟩
  | cons c f ih =>
    intro ds A' hA
    rw [Ret_while_unfold, if_pos (by simp)]
    by_cases hc : isHex c = true
    · obtain ⟨d, hd⟩ := Option.isSome_iff_exists.1 hc
      obtain ⟨h1, h2⟩ := hexDigit_ret hd
      obtain ⟨a1, a2, a3⟩ := hA
      refine Ret.bind_eq (v := ⟨f, shl4 (A'.take n) d ++ A'.drop n, true, false⟩) ?_ ?_
      · unfold hexStep
        simp only [fgetc]
        rw [Ret_ifC, if_pos (by simp), Ret_ifC, if_neg (by rw [isxdigit_eq, hc]; simp)]
        refine h1.bind_eq ?_
        refine (shiftIn_ret hn (by omega) h2).bind_eq ?_
        rw [Ret_pure]
      · refine (ih (ds ++ [c]) _ ⟨?_, ?_, ?_⟩).mono ?_
        · rw [List.length_append, length_shl4, ← a1, ← List.length_append, List.take_append_drop]
        · rw [List.drop_left' (by rw [length_shl4, List.length_take]; omega), a2]
        · rw [List.take_left' (by rw [length_shl4, List.length_take]; omega), beVal_shl4 h2, a3,
            List.length_take, a1, Nat.min_eq_left h, hexNum_append, hd]
          simp [Nat.add_mod, Nat.mul_mod]
        · rintro s ⟨b1, b2⟩
          rw [List.dropWhile_cons_of_pos hc, List.takeWhile_cons_of_pos hc]
          refine ⟨b1, ?_⟩
          rwa [List.append_assoc] at b2
    · refine Ret.bind_eq (v := ⟨f, A', true, true⟩) ?_ ?_
      · unfold hexStep
        simp only [fgetc]
        rw [Ret_ifC, if_pos (by simp), Ret_ifC, if_pos (by rw [isxdigit_eq]; simp [hc]), Ret_ifC,
          if_neg (by simp), Ret_pure]
      · rw [Ret_while_unfold, if_neg (by simp), Ret_pure]
        rw [List.dropWhile_cons_of_neg hc, List.takeWhile_cons_of_neg hc, List.append_nil]
        exact ⟨rfl, hA⟩

theorem hex_loop {A : List U8} {n : Nat} (hn : 0 < n) (h : n ≤ A.length) :
    ∀ (f A' : List U8), hexBuf A n [] A' →
    Ret (whileC (fun s : HexSt => !s.brk) (hexStep n) ⟨f, A', false, false⟩)
      (fun s => s.file = ((skipTo f).dropWhile isHex).drop 1 ∧
        hexBuf A n ((skipTo f).takeWhile isHex) s.A) := by
  intro f
  induction f with
  | nil =>
    intro A' hA
    rw [Ret_while_unfold, if_pos (by simp)]
    refine Ret.bind_eq (v := ⟨[], A', false, true⟩) ?_ ?_
    · unfold hexStep
      simp only [fgetc, wp]
      rw [if_neg (by simp), Ret_pure]
    · rw [Ret_while_unfold, if_neg (by simp), Ret_pure]
      exact ⟨rfl, hA⟩
  | cons c f ih =>
    intro A' hA
    unfold skipTo
    by_cases hc : isHex c = true
    · rw [List.dropWhile_cons_of_neg (by simp [hc])]
      rw [Ret_while_unfold, if_pos (by simp)]
      obtain ⟨d, hd⟩ := Option.isSome_iff_exists.1 hc
      obtain ⟨h1, h2⟩ := hexDigit_ret hd
      obtain ⟨a1, a2, a3⟩ := hA
      refine Ret.bind_eq (v := ⟨f, shl4 (A'.take n) d ++ A'.drop n, true, false⟩) ?_ ?_
      · unfold hexStep
        simp only [fgetc]
        rw [Ret_ifC, if_pos (by simp), Ret_ifC, if_neg (by rw [isxdigit_eq, hc]; simp)]
        refine h1.bind_eq ?_
        refine (shiftIn_ret hn (by omega) h2).bind_eq ?_
        rw [Ret_pure]
      · refine (digits_loop hn h f [c] _ ⟨?_, ?_, ?_⟩).mono ?_
        · rw [List.length_append, length_shl4, ← a1, ← List.length_append, List.take_append_drop]
        · rw [List.drop_left' (by rw [length_shl4, List.length_take]; omega), a2]
        · rw [List.take_left' (by rw [length_shl4, List.length_take]; omega), beVal_shl4 h2, a3,
            List.length_take, a1, Nat.min_eq_left h]
          simp [hexNum, hd]
        · rintro s ⟨b1, b2⟩
          rw [List.dropWhile_cons_of_pos hc, List.takeWhile_cons_of_pos hc]
          exact ⟨b1, b2⟩
    · by_cases h10 : c = 10
      · subst h10
        rw [List.dropWhile_cons_of_neg (by simp), Ret_while_unfold, if_pos (by simp)]
        refine Ret.bind_eq (v := ⟨f, A', false, true⟩) ?_ ?_
        · unfold hexStep
          simp only [fgetc]
          rw [Ret_ifC, if_pos (by simp), Ret_ifC, if_pos (by decide), Ret_ifC,
            if_pos (by simp), Ret_ifC, if_pos (by simp), Ret_pure]
        · rw [Ret_while_unfold, if_neg (by simp), Ret_pure]
          rw [List.dropWhile_cons_of_neg hc, List.takeWhile_cons_of_neg hc]
          exact ⟨rfl, hA⟩
      · rw [List.dropWhile_cons_of_pos (by rw [Bool.and_eq_true, bne_iff_ne]; exact ⟨by simp [hc], h10⟩), Ret_while_unfold, if_pos (by simp)]
        refine Ret.bind_eq (v := ⟨f, A', false, false⟩) ?_ (ih A' hA)
        unfold hexStep
        simp only [fgetc]
        have : ¬ c.toNat = 10 := fun h => h10 (BitVec.eq_of_toNat_eq h)
        rw [Ret_ifC, if_pos (by simp), Ret_ifC, if_pos (by rw [isxdigit_eq]; simp [hc]), Ret_ifC,
          if_pos (by simp), Ret_ifC, if_neg (by intro h; have := of_decide_eq_true h; omega), Ret_pure]

theorem beVal_zero (n : Nat) : beVal (List.replicate n 0) = 0 := by
  induction n with
  | zero => rfl
  | succ n ih => rw [List.replicate_succ, beVal_cons, ih]; simp

/-- `ReadHex` for a positive length. -/
theorem ReadHex_ret {J : Junk} {f A m r : List U8} {n : Nat} (h0 : ∀ c ∈ m, c ≠ 0) (hn : 0 < n)
    (h : n ≤ A.length) :
    Ret (ReadHex J f A n (m ++ 0 :: r)) (fun o =>
      match after (m.take 49) f with
      | none => o = (0, [], List.replicate n 0 ++ A.drop n)
      | some t => o.1 = 1 ∧ o.2.1 = ((skipTo t).dropWhile isHex).drop 1 ∧
          hexBuf A n ((skipTo t).takeWhile isHex) o.2.2) := by
  unfold ReadHex
  rw [Ret_ifC, if_neg (by simp; omega), Ret_memset_bind]
  refine ⟨h, (FindMarker_ret h0).bind ?_⟩
  rintro ⟨q, g⟩ hq
  cases ha : after (m.take 49) f with
  | none =>
    rw [ha] at hq
    cases hq
    simp only
    rw [Ret_ifC, if_neg (by simp), Ret_pure]
  | some t =>
    rw [ha] at hq
    cases hq
    simp only
    rw [Ret_ifC, if_pos (by simp)]
    refine (hex_loop hn h _ (List.replicate n 0 ++ A.drop n) ⟨?_, ?_, ?_⟩).bind ?_
    · simp; omega
    · rw [List.drop_left' (by simp)]
    · rw [List.take_left' (by simp), beVal_zero]; simp [hexNum]
    · rintro s ⟨h1, h2⟩
      exact ⟨_, _, rfl, rfl, h1, h2⟩

end Frodo
