import Verif.Proof.KatHex

/-! # Records of known answers: lemmas -/

namespace Frodo
open Spec

theorem after_eq_some {m : List U8} : ∀ {f t : List U8}, after m f = some t ↔
    ∃ pre, f = pre ++ m ++ t ∧ ∀ k, k < pre.length → ¬ m <+: f.drop k := by
  intro f
  induction f with
  | nil =>
    intro t
    rw [after.eq_def]
    by_cases h : m <+: []
    · rw [if_pos h]
      rw [List.prefix_nil] at h
      subst h
      simp only [List.drop_nil, Option.some.injEq]
      constructor
      · rintro rfl; exact ⟨[], rfl, by simp⟩
      · rintro ⟨pre, h, -⟩
        have := congrArg List.length h
        simp at this
        exact (List.length_eq_zero_iff.1 (by omega)).symm
    · rw [if_neg h]
      simp only [reduceCtorEq, false_iff, not_exists, not_and]
      rintro pre hp
      exfalso
      apply h
      have := congrArg List.length hp
      simp at this
      rw [List.length_eq_zero_iff.1 (show m.length = 0 by omega)]
  | cons b f ih =>
    intro t
    rw [after.eq_def]
    by_cases h : m <+: b :: f
    · rw [if_pos h]
      simp only [Option.some.injEq]
      constructor
      · rintro rfl
        refine ⟨[], ?_, by simp⟩
        obtain ⟨r, hr⟩ := h
        rw [← hr]; simp
      · rintro ⟨pre, hp, hk⟩
        cases pre with
        | nil => rw [hp]; simp
        | cons a pre => exact absurd h (by simpa using hk 0 (by simp))
    · rw [if_neg h]
      simp only
      rw [ih]
      constructor
      · rintro ⟨pre, hp, hk⟩
        refine ⟨b :: pre, by rw [hp]; rfl, ?_⟩
        intro k hkl
        cases k with
        | zero => exact h
        | succ k => exact hk k (by simpa using hkl)
      · rintro ⟨pre, hp, hk⟩
        cases pre with
        | nil => exact absurd ⟨t, by rw [hp]; rfl⟩ h
        | cons a pre =>
          refine ⟨pre, ?_, fun k hkl => hk (k + 1) (by simpa using hkl)⟩
          have := congrArg List.tail hp
          simpa using this

theorem after_eq_none {m : List U8} : ∀ {f : List U8}, after m f = none ↔ ¬ m <:+: f := by
  intro f
  induction f with
  | nil =>
    rw [after.eq_def]
    by_cases h : m <+: []
    · rw [if_pos h]; simp [h.isInfix]
    · rw [if_neg h]
      simp only [List.prefix_nil] at h
      simp [h]
  | cons b f ih =>
    rw [after.eq_def]
    by_cases h : m <+: b :: f
    · rw [if_pos h]; simp [h.isInfix]
    · rw [if_neg h]
      simp only
      rw [ih, List.infix_cons_iff]
      simp [h]

/-- A marker whose first character does not occur again is found after any text without it. -/
theorem after_first {c : U8} {m : List U8} (hc : c ∉ m) (t : List U8) : ∀ {pre : List U8},
    ¬ (c :: m) <:+: pre → after (c :: m) (pre ++ (c :: m) ++ t) = some t := by
  intro pre
  induction pre with
  | nil => intro _; exact after_append _ _
  | cons b pre ih =>
    intro h
    rw [List.infix_cons_iff, not_or] at h
    rw [after.eq_def, if_neg]
    · exact ih h.2
    · intro hp
      rcases Nat.lt_or_ge (b :: pre).length (c :: m).length with hl | hl
      · apply hc
        have h1 : (b :: pre) ++ [c] <+: c :: m := by
          refine List.prefix_of_prefix_length_le (l₃ := b :: pre ++ c :: m ++ t) ?_ hp (by simp at *; omega)
          exact ⟨m ++ t, by simp⟩
        obtain ⟨r, hr⟩ := h1
        have := congrArg List.tail hr
        simp at this
        rw [← this]
        simp
      · apply h.1
        refine List.prefix_of_prefix_length_le (l₃ := b :: pre ++ c :: m ++ t) hp ?_ hl
        exact ⟨c :: m ++ t, by simp⟩

theorem hexVal_nthDigit (n : Nat) (h : n < 16) : hexVal (hexByte.nthDigit n) = some n := by
  revert n
  decide

theorem isHex_hexText (d : List U8) : ∀ c ∈ hexText d, isHex c = true := by
  intro c hc
  unfold hexText at hc
  obtain ⟨b, -, hb⟩ := List.mem_flatMap.1 hc
  have := b.isLt
  unfold hexByte at hb
  simp only [List.mem_cons, List.not_mem_nil, or_false] at hb
  unfold isHex
  rcases hb with rfl | rfl
  · rw [hexVal_nthDigit _ (by omega)]; rfl
  · rw [hexVal_nthDigit _ (by omega)]; rfl

theorem foldl_hexText (d : List U8) : ∀ v, (hexText d).foldl (fun v c => 16 * v + (hexVal c).getD 0) v =
    d.foldl (fun v b => 256 * v + b.toNat) v := by
  induction d with
  | nil => intro v; rfl
  | cons b d ih =>
    intro v
    have hb := b.isLt
    have e : hexText (b :: d) = hexByte b ++ hexText d := rfl
    rw [e, List.foldl_append, ih, List.foldl_cons]
    congr 1
    unfold hexByte
    simp only [List.foldl_cons, List.foldl_nil]
    rw [hexVal_nthDigit _ (by omega), hexVal_nthDigit _ (by omega)]
    simp only [Option.getD_some]
    omega

theorem hexNum_hexText (d : List U8) : hexNum (hexText d) = beVal d := foldl_hexText d 0

theorem takeWhile_hexText (d t : List U8) : (hexText d ++ 10 :: t).takeWhile isHex = hexText d := by
  rw [List.takeWhile_append_of_pos (isHex_hexText d), List.takeWhile_cons_of_neg (by decide),
    List.append_nil]

theorem dropWhile_hexText (d t : List U8) : (hexText d ++ 10 :: t).dropWhile isHex = 10 :: t := by
  rw [List.dropWhile_append_of_pos (isHex_hexText d), List.dropWhile_cons_of_neg (by decide)]

theorem skipTo_hexText (d t : List U8) : skipTo (hexText d ++ 10 :: t) = hexText d ++ 10 :: t := by
  unfold skipTo
  cases h : hexText d with
  | nil => rfl
  | cons c l =>
    rw [List.cons_append, List.dropWhile_cons_of_neg]
    have := isHex_hexText d c (by rw [h]; simp)
    simp [this]

theorem replicate_of_beVal {A : List U8} (h : beVal A = 0) : A = List.replicate A.length 0 :=
  beVal_inj (by simp) (by rw [h, beVal_zero])

/-- `ReadHex` reads what was written in hexadecimal. -/
theorem ReadHex_text {J : Junk} {f A d t m r : List U8} {n : Nat} (h0 : ∀ c ∈ m, c ≠ 0)
    (hm : m.length ≤ 49) (hn : 0 < n)
    (h : A.length = n) (hd : d.length = n) (hf : after m f = some (hexText d ++ 10 :: t)) :
    Ret (ReadHex J f A n (m ++ 0 :: r)) (· = (1, t, d)) := by
  refine (ReadHex_ret h0 hn (by omega)).mono ?_
  rintro ⟨q, g, A'⟩ ho
  rw [List.take_of_length_le hm, hf] at ho
  simp only at ho
  rw [skipTo_hexText, dropWhile_hexText, takeWhile_hexText] at ho
  obtain ⟨rfl, rfl, h1, h2, h3⟩ := ho
  rw [hexNum_hexText, Nat.mod_eq_of_lt (by rw [← hd]; exact beVal_lt d), List.take_of_length_le (by omega)] at h3
  rw [beVal_inj (by omega) h3]

end Frodo
