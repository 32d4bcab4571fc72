import Verif.Proof.KatMain

/-! # C51, C52, C53: the known answer tests -/

namespace Frodo.Props
open Frodo Frodo.Spec

/-! ## C51: markers -/

/-- C51.  `FindMarker` returns 1 and leaves the file just after the first occurrence of the marker, or
returns 0 at the end of the file if the marker does not occur. -/
theorem C51_FindMarker (J : Junk) (f m : List U8) (h0 : ∀ c ∈ m, c ≠ 0) (hm : m.length ≤ 49) :
    Ret (FindMarker J f (m ++ [0])) (fun o =>
      (o.1 = 1 ∧ ∃ pre, f = pre ++ m ++ o.2 ∧ ∀ k, k < pre.length → ¬ m <+: f.drop k) ∨
      (o.1 = 0 ∧ o.2 = [] ∧ ¬ m <:+: f)) := by
  refine (FindMarker_ret (r := []) h0).mono ?_
  rintro o rfl
  rw [List.take_of_length_le hm]
  cases h : after m f with
  | none => exact Or.inr ⟨rfl, rfl, after_eq_none.1 h⟩
  | some t => exact Or.inl ⟨rfl, after_eq_some.1 h⟩

/-- C51 (long markers): of a marker of more than 49 characters only the first 49 are compared. -/
theorem C51_long (J : Junk) (f m : List U8) (h0 : ∀ c ∈ m, c ≠ 0) :
    Ret (FindMarker J f (m ++ [0])) (fun o =>
      (o.1 = 1 ∧ ∃ pre, f = pre ++ m.take 49 ++ o.2 ∧
        ∀ k, k < pre.length → ¬ m.take 49 <+: f.drop k) ∨
      (o.1 = 0 ∧ o.2 = [] ∧ ¬ m.take 49 <:+: f)) := by
  refine (FindMarker_ret (r := []) h0).mono ?_
  rintro o rfl
  cases h : after (m.take 49) f with
  | none => exact Or.inr ⟨rfl, rfl, after_eq_none.1 h⟩
  | some t => exact Or.inl ⟨rfl, after_eq_some.1 h⟩

/-! ## C52: hexadecimal numbers -/

/-- C52.  `ReadHex` reads the number that follows the marker modulo `256^n`, as `n` bytes with the first
one of the highest weight; bytes behind are kept.  Without the marker it returns 0. -/
theorem C52_ReadHex (J : Junk) (f A m : List U8) (n : Nat) (h0 : ∀ c ∈ m, c ≠ 0) (hm : m.length ≤ 49)
    (hn : 0 < n) (hA : n ≤ A.length) :
    Ret (ReadHex J f A n (m ++ [0])) (fun o =>
      o.2.2.length = A.length ∧ o.2.2.drop n = A.drop n ∧
      match after m f with
      | none => o.1 = 0 ∧ o.2.1 = [] ∧ beNat (o.2.2.take n) = 0
      | some t => o.1 = 1 ∧ o.2.1 = ((skipTo t).dropWhile isHex).drop 1 ∧
          beNat (o.2.2.take n) = hexNum ((skipTo t).takeWhile isHex) % 256 ^ n) := by
  refine (ReadHex_ret (r := []) h0 hn hA).mono ?_
  rintro o ho
  rw [List.take_of_length_le hm] at ho
  cases h : after m f with
  | none =>
    rw [h] at ho
    simp only at ho
    subst ho
    refine ⟨by simp; omega, List.drop_left' (by simp), rfl, rfl, ?_⟩
    simp only
    rw [List.take_left' (by simp)]
    exact beVal_zero n
  | some t =>
    rw [h] at ho
    simp only at ho
    exact ⟨ho.2.2.1, ho.2.2.2.1, ho.1, ho.2.1, ho.2.2.2.2⟩

/-- C52 (nothing to read): for length 0 one byte is cleared all the same, and the file is not read. -/
theorem C52_zero (J : Junk) (f A str : List U8) (hA : 0 < A.length) :
    Ret (ReadHex J f A 0 str) (· = (1, f, A.set 0 0)) := by
  unfold ReadHex
  rw [Ret_ifC, if_pos (by simp), Ret_wr_bind]
  exact ⟨hA, _, [], rfl, rfl⟩

theorem print02X_eq (b : U8) : print02X b = hexByte b := by
  revert b
  decide +kernel

/-- C52 (output): `fprintBstr` writes the name and the bytes in hexadecimal, and `00` for none. -/
theorem C52_fprintBstr (S A : List U8) (L : Nat) (h : L ≤ A.length) :
    Ret (fprintBstr S A L) (· = S ++ hexText (if L = 0 then [0] else A.take L) ++ [10]) := by
  unfold fprintBstr
  refine Ret.bind (Q := fun out => out = S ++ hexText (A.take L)) ?_ ?_
  · refine Ret.for1 (fun i out => out = S ++ hexText (A.take i)) (by simp [hexText]) ?_ (fun _ h => h)
    rintro i out hi rfl
    rw [Ret_rd_bind]
    refine ⟨by omega, _, [], rfl, ?_⟩
    rw [print02X_eq, take_succ_nth (by omega)]
    simp [hexText]
  · rintro out rfl
    rw [Ret_bind_iff, Ret_ifC]
    by_cases hL : L = 0
    · subst hL
      rw [if_pos (by simp)]
      refine ⟨_, [], rfl, _, [], rfl, ?_⟩
      have e : hexText [] ++ [48, 48] = hexText [0] := by decide
      show S ++ hexText [] ++ [48, 48] ++ [10] = S ++ hexText [0] ++ [10]
      rw [List.append_assoc S, e]
    · rw [if_neg (by simpa using hL), if_neg hL]
      exact ⟨_, [], rfl, _, [], rfl, rfl⟩

/-- C52 (round trip): `ReadHex` reads what `fprintBstr` wrote, wherever the line is, if the name does not
occur before. -/
theorem C52_roundtrip (J : Junk) (pre rest m d A : List U8) (h0 : ∀ c ∈ m, c ≠ 0) (hm : m.length ≤ 49)
    (hd : d ≠ []) (hA : A.length = d.length)
    (hp : ∀ k, k < pre.length → ¬ m <+: (pre ++ m ++ (hexText d ++ 10 :: rest)).drop k) :
    Ret (do
      let line ← fprintBstr m d d.length
      ReadHex J (pre ++ line ++ rest) A d.length (m ++ [0])) (· = (1, rest, d)) := by
  have hl : 0 < d.length := List.length_pos_iff.2 hd
  refine (C52_fprintBstr m d d.length (Nat.le_refl _)).bind_eq ?_
  rw [if_neg (by omega), List.take_length]
  refine ReadHex_text h0 hm hl hA rfl (after_eq_some.2 ⟨pre, by simp, ?_⟩)
  intro k hk
  have := hp k hk
  simpa using this

/-! ## C53: the tests -/

/-- The text after a record or a field is shorter. -/
theorem hexField_shorter {m f d g : List U8} {n : Nat} (h : hexField m n f = some (d, g)) :
    g.length ≤ f.length ∧ (m ≠ [] → g.length < f.length) := by
  unfold hexField at h
  obtain ⟨t, ht, he⟩ := Option.map_eq_some_iff.1 h
  injection he with _ he
  obtain ⟨pre, hp, -⟩ := after_eq_some.1 ht
  have h1 := congrArg List.length hp
  have h2 := (List.dropWhile_sublist (l := t) fun c => !isHex c && c != 10).length_le
  have h3 := (List.dropWhile_sublist (l := skipTo t) isHex).length_le
  change (skipTo t).length ≤ _ at h2
  simp only [List.length_append] at h1
  rw [← he, List.length_drop]
  refine ⟨by omega, fun hm => ?_⟩
  have := List.length_pos_iff.2 hm
  omega

theorem katCipher_shorter {K : KemParams} {a : List U8 × List U8 × List U8 × List U8} {f g : List U8}
    (h : katCipher K a f = .next g) : g.length < f.length := by
  unfold katCipher at h
  split at h
  · cases h
  · rename_i ct f1 h1
    split at h
    · cases h
    · rename_i ss f2 h2
      split at h
      · cases h
      · split at h
        · cases h
        · injection h with h
          subst h
          have := (hexField_shorter h1).2 (by decide)
          have := (hexField_shorter h2).1
          omega

theorem katPair_shorter {K : KemParams} {a : List U8 × List U8 × List U8 × List U8} {f g : List U8}
    (h : katPair K a f = .next g) : g.length < f.length := by
  unfold katPair at h
  split at h
  · cases h
  · rename_i pk f1 h1
    split at h
    · cases h
    · rename_i sk f2 h2
      split at h
      · cases h
      · have := katCipher_shorter h
        have := (hexField_shorter h1).1
        have := (hexField_shorter h2).1
        omega

theorem decField_shorter {f g : List U8} {v : Int} (h : decField f = some (v, g)) :
    g.length ≤ f.length := by
  unfold decField at h
  simp only at h
  split at h
  · cases h
  · injection h with h
    injection h with _ h
    rw [← h]
    have h1 := (List.dropWhile_sublist (l := f) blank).length_le
    have h2 := (List.dropWhile_sublist (l := (signOf (f.dropWhile blank)).2) isDigit).length_le
    have h3 : (signOf (f.dropWhile blank)).2.length ≤ (f.dropWhile blank).length := by
      unfold signOf
      split <;> simp_all
    omega

theorem katRecord_shorter {K : KemParams} {ans : List U8 → List U8 × List U8 × List U8 × List U8}
    {f g : List U8} (h : katRecord K ans f = .next g) : g.length < f.length := by
  unfold katRecord at h
  split at h
  · cases h
  · rename_i f1 h1
    split at h
    · cases h
    · rename_i v f2 h2
      split at h
      · cases h
      · unfold katSeed at h
        split at h
        · cases h
        · rename_i seed f3 h3
          have := katPair_shorter h
          have := (hexField_shorter h3).1
          have := decField_shorter h2
          obtain ⟨pre, hp, -⟩ := after_eq_some.1 h1
          have := congrArg List.length hp
          simp only [List.length_append] at this
          omega

/-- C53 (the specification is total and unambiguous): every file has exactly one verdict. -/
theorem C53_unique (K : KemParams) (ans : List U8 → List U8 × List U8 × List U8 × List U8)
    (f : List U8) : ∃! v, Verdict K ans f v := by
  induction hn : f.length using Nat.strongRecOn generalizing f with
  | _ n ih =>
    cases h : katRecord K ans f with
    | stop v =>
      refine ⟨some v, .stop h, ?_⟩
      intro w hw
      cases hw with
      | stop h' => rw [h] at h'; cases h'; rfl
      | undef h' => rw [h] at h'; cases h'
      | next h' _ => rw [h] at h'; cases h'
    | undef =>
      refine ⟨none, .undef h, ?_⟩
      intro w hw
      cases hw with
      | stop h' => rw [h] at h'; cases h'
      | undef h' => rfl
      | next h' _ => rw [h] at h'; cases h'
    | next g =>
      obtain ⟨v, hv, hu⟩ := ih g.length (by rw [← hn]; exact katRecord_shorter h) g rfl
      refine ⟨v, .next h hv, ?_⟩
      intro w hw
      cases hw with
      | stop h' => rw [h] at h'; cases h'
      | undef h' => rw [h] at h'; cases h'
      | next h' hw => rw [h] at h'; cases h'; exact hu w hw

/-- The name of the file of a parameter set: the length of the secret key in decimal. -/
inductive KatName : Params → MatGen → List U8 → Prop where
  | frodo640 : KatName frodo640 .aes (txt "KAT/PQCkemKAT_19888.rsp".toList)
  | frodo976 : KatName frodo976 .aes (txt "KAT/PQCkemKAT_31296.rsp".toList)
  | frodo1344 : KatName frodo1344 .aes (txt "KAT/PQCkemKAT_43088.rsp".toList)
  | frodo640_shake : KatName frodo640 .shake (txt "KAT/PQCkemKAT_19888_shake.rsp".toList)
  | frodo976_shake : KatName frodo976 .shake (txt "KAT/PQCkemKAT_31296_shake.rsp".toList)
  | frodo1344_shake : KatName frodo1344 .shake (txt "KAT/PQCkemKAT_43088_shake.rsp".toList)

/-- C53 (name): the name fits into the array of 32 characters. -/
theorem C53_name {P : Params} (B : Build) (E : Env) {name : List U8} (h : KatName P B.gen name) :
    Ret (fnRsp B E P) (fun fn => fn.length = 32 ∧ ∃ junk, fn = name ++ 0 :: junk) := by
  have key : ∀ s : List U8, s.length ≤ 32 → ∀ name, s = name ++ [0] →
      Ret (memcpy (uninit E.junk 71 8 32) 0 s 0 s.length)
        (fun fn => fn.length = 32 ∧ ∃ junk, fn = name ++ 0 :: junk) := by
    rintro s hs name rfl
    rw [← bind_pure (memcpy _ _ _ _ _), Ret_memcpy_bind]
    refine ⟨by simp, by simpa using hs, _, [], rfl, ?_⟩
    constructor
    · simp at hs ⊢; omega
    · simp only [List.take_zero, List.nil_append, List.drop_zero, List.take_length]
      exact ⟨_, by rw [List.append_assoc]; rfl⟩
  unfold fnRsp
  generalize hg : B.gen = g at h
  cases h <;> exact key _ (by decide +kernel) _ (by decide +kernel)

/-- The file that `fopen` gives for a name depends on the characters before the zero. -/
def Opens (fopen : List U8 → Option (List U8)) (name : List U8) (r : Option (List U8)) : Prop :=
  ∀ junk, fopen (name ++ 0 :: junk) = r

/-- C53.  For every file, the program returns its verdict; if the file has no verdict (a count that is no
`int`), `fscanf` overflows. -/
theorem C53_main {P : Params} {K : KemParams} (B : Build) (E : Env) (A : AesBackend) (a skAddr : Nat)
    (ctx : Drbg) (fopen : List U8 → Option (List U8)) (name f : List U8) (v : Option Int)
    (hS : Standard P B.gen K) (hB : Good B) (hal : AlignedAll B E P) (ha : A.ready E.ossl a)
    (hsk : skAddr % 2 = 0) (hk : ctx.key.length = 32) (hV : ctx.V.length = 16)
    (hn : KatName P B.gen name) (ho : Opens fopen name (some f)) (hv : Verdict K (katSpec K) f v) :
    match v with
    | some v => Ret (katMain B E P A a skAddr ctx fopen) (· = v)
    | none => katMain B E P A a skAddr ctx fopen = .ub .overflow := by
  have hl := kat_loop B E A a skAddr hS hB hal ha hsk hv
    { file := f, ctx := ctx, seed := uninit E.junk 72 8 48, ct := uninit E.junk 73 8 P.ctBytes,
      ss := uninit E.junk 74 8 P.bytes, ss1 := uninit E.junk 75 8 P.bytes,
      ct_rsp := uninit E.junk 76 8 P.ctBytes, ss_rsp := uninit E.junk 77 8 P.bytes,
      pk := uninit E.junk 78 8 P.pkBytes, sk := uninit E.junk 79 8 P.skBytes,
      pk_rsp := uninit E.junk 80 8 P.pkBytes, sk_rsp := uninit E.junk 81 8 P.skBytes, ret := none }
    ⟨hk, hV, by simp, by simp, by simp, by simp, by simp, by simp, by simp, by simp, by simp, by simp⟩
    rfl rfl
  unfold katMain
  cases v with
  | some v =>
    refine (C53_name B E hn).bind ?_
    rintro fn ⟨-, j, rfl⟩
    rw [ho j]
    refine hl.bind ?_
    intro s hs
    exact ⟨_, [], rfl, by rw [hs]; rfl⟩
  | none =>
    refine (C53_name B E hn).bind_ub ?_
    rintro fn ⟨-, j, rfl⟩
    rw [ho j]
    simp only at hl ⊢
    rw [hl]
    rfl

/-- C53 (no file): -1. -/
theorem C53_open {P : Params} (B : Build) (E : Env) (A : AesBackend) (a skAddr : Nat)
    (ctx : Drbg) (fopen : List U8 → Option (List U8)) (name : List U8)
    (hn : KatName P B.gen name) (ho : Opens fopen name none) :
    Ret (katMain B E P A a skAddr ctx fopen) (· = -1) := by
  unfold katMain
  refine (C53_name B E hn).bind ?_
  rintro fn ⟨-, j, rfl⟩
  rw [ho j]
  exact ⟨_, [], rfl, rfl⟩

/-- C53 (a way to pass without a test): a file without `"count = "`, for instance an empty one, gives
success. -/
theorem C53_no_record {P : Params} {K : KemParams} (B : Build) (E : Env) (A : AesBackend)
    (a skAddr : Nat) (ctx : Drbg) (fopen : List U8 → Option (List U8)) (name f : List U8)
    (hS : Standard P B.gen K) (hB : Good B) (hal : AlignedAll B E P) (ha : A.ready E.ossl a)
    (hsk : skAddr % 2 = 0) (hk : ctx.key.length = 32) (hV : ctx.V.length = 16)
    (hn : KatName P B.gen name) (ho : Opens fopen name (some f))
    (hf : ¬ txt ['c', 'o', 'u', 'n', 't', ' ', '=', ' '] <:+: f) :
    Ret (katMain B E P A a skAddr ctx fopen) (· = 0) :=
  C53_main B E A a skAddr ctx fopen name f (some 0) hS hB hal ha hsk hk hV hn ho
    (.stop (by unfold katRecord; rw [after_eq_none.2 hf]))

/-! ### Files of well-formed records -/

theorem beBytes_hexText {d : List U8} {n : Nat} (h : d.length = n) :
    beBytes n (hexNum (hexText d)) = d := by
  refine beVal_inj (by rw [length_beBytes, h]) ?_
  rw [beVal_eq, beNat_beBytes, hexNum_hexText, Nat.mod_eq_of_lt]
  rw [← h]
  exact beVal_lt d

theorem hexField_text {m pre d t : List U8} {n : Nat} (h : d.length = n)
    (ha : after m (pre ++ m ++ (hexText d ++ 10 :: t)) = some (hexText d ++ 10 :: t)) :
    hexField m n (pre ++ m ++ (hexText d ++ 10 :: t)) = some (d, t) := by
  unfold hexField
  rw [ha, Option.map_some, skipTo_hexText, takeWhile_hexText, dropWhile_hexText, beBytes_hexText h]
  rfl

theorem hexField_here {m d t : List U8} {n : Nat} (h : d.length = n) :
    hexField m n (m ++ (hexText d ++ 10 :: t)) = some (d, t) :=
  hexField_text (pre := []) h (after_append _ _)

theorem decField_digits {ds t : List U8} (h1 : ds ≠ []) (h2 : ∀ c ∈ ds, isDigit c = true) :
    decField (ds ++ 10 :: t) = some ((decNum ds : Int), 10 :: t) := by
  cases ds with
  | nil => exact absurd rfl h1
  | cons c ds =>
    have hc := of_decide_eq_true (h2 c (by simp))
    have hb : blank c = false := by
      have : ∀ c : U8, 48 ≤ c.toNat ∧ c.toNat ≤ 57 → blank c = false := by decide +kernel
      exact this c hc
    have hs : signOf (c :: ds ++ 10 :: t) = (1, c :: ds ++ 10 :: t) := by
      have h43 : c ≠ 43 := by rintro rfl; revert hc; decide
      have h45 : c ≠ 45 := by rintro rfl; revert hc; decide
      unfold signOf
      split
      · rename_i h; injection h with h _; exact absurd h h43
      · rename_i h; injection h with h _; exact absurd h h45
      · rfl
    unfold decField
    rw [List.cons_append, List.dropWhile_cons_of_neg (by simp [hb]), ← List.cons_append, hs]
    simp only
    rw [List.takeWhile_append_of_pos h2, List.dropWhile_append_of_pos h2,
      List.takeWhile_cons_of_neg (by decide), List.dropWhile_cons_of_neg (by decide), List.append_nil,
      if_neg (by simp), Int.one_mul]

open Classical in
/-- What a well-formed record is to lead to: -2 for wrong answers, -4 if decapsulation of the ciphertext
gives another shared secret, nothing otherwise. -/
noncomputable def katCode (K : KemParams) (ans : List U8 → List U8 × List U8 × List U8 × List U8)
    (r : KatRec) : Option Int :=
  if ¬ r.correct ans then some (-2)
  else if decaps K r.ct r.sk ≠ r.ss then some (-4)
  else none

theorem katRecord_text {K : KemParams} {ans : List U8 → List U8 × List U8 × List U8 × List U8}
    {r : KatRec} (hr : r.WF K) {pre : List U8} (t : List U8)
    (hp : ¬ txt ['c', 'o', 'u', 'n', 't', ' ', '=', ' '] <:+: pre) :
    katRecord K ans (pre ++ r.text ++ t) =
      match katCode K ans r with
      | some v => .stop v
      | none => .next (10 :: t) := by
  obtain ⟨c1, c2, c3⟩ := hr.count
  have e : pre ++ r.text ++ t = pre ++ txt ['c', 'o', 'u', 'n', 't', ' ', '=', ' '] ++
      (r.count ++ 10 :: (txt ['s', 'e', 'e', 'd', ' ', '=', ' '] ++ (hexText r.seed ++ 10 ::
      (txt ['p', 'k', ' ', '=', ' '] ++ (hexText r.pk ++ 10 ::
      (txt ['s', 'k', ' ', '=', ' '] ++ (hexText r.sk ++ 10 ::
      (txt ['c', 't', ' ', '=', ' '] ++ (hexText r.ct ++ 10 ::
      (txt ['s', 's', ' ', '=', ' '] ++ (hexText r.ss ++ 10 :: 10 :: t)))))))))))  := by
    simp [KatRec.text]
  have hc := after_first (c := 99) (m := txt ['o', 'u', 'n', 't', ' ', '=', ' ']) (by decide)
    (r.count ++ 10 :: (txt ['s', 'e', 'e', 'd', ' ', '=', ' '] ++ (hexText r.seed ++ 10 ::
      (txt ['p', 'k', ' ', '=', ' '] ++ (hexText r.pk ++ 10 ::
      (txt ['s', 'k', ' ', '=', ' '] ++ (hexText r.sk ++ 10 ::
      (txt ['c', 't', ' ', '=', ' '] ++ (hexText r.ct ++ 10 ::
      (txt ['s', 's', ' ', '=', ' '] ++ (hexText r.ss ++ 10 :: 10 :: t))))))))))) hp
  change after (txt ['c', 'o', 'u', 'n', 't', ' ', '=', ' ']) _ = _ at hc
  unfold katRecord
  rw [e]
  erw [hc]
  simp only
  rw [decField_digits c1 c2]
  simp only
  rw [if_neg (by omega)]
  unfold katSeed
  have hs := hexField_text (m := txt ['s', 'e', 'e', 'd', ' ', '=', ' ']) (pre := [10]) (d := r.seed)
    (t := (txt ['p', 'k', ' ', '=', ' '] ++ (hexText r.pk ++ 10 ::
      (txt ['s', 'k', ' ', '=', ' '] ++ (hexText r.sk ++ 10 ::
      (txt ['c', 't', ' ', '=', ' '] ++ (hexText r.ct ++ 10 ::
      (txt ['s', 's', ' ', '=', ' '] ++ (hexText r.ss ++ 10 :: 10 :: t)))))))))
    hr.seed (after_first (c := 115) (m := txt ['e', 'e', 'd', ' ', '=', ' ']) (by decide) _ (by decide))
  rw [List.append_assoc, List.singleton_append] at hs
  rw [hs]
  simp only
  unfold katPair
  rw [hexField_here hr.pk]
  simp only
  rw [hexField_here hr.sk]
  simp only
  unfold katCipher
  rw [hexField_here hr.ct]
  simp only
  rw [hexField_here hr.ss]
  simp only
  unfold katCode KatRec.correct
  obtain ⟨a1, a2, a3, a4⟩ := ans r.seed
  simp only [Prod.mk.injEq]
  by_cases h1 : r.pk = a1 <;> by_cases h2 : r.sk = a2 <;> by_cases h3 : r.ct = a3 <;>
    by_cases h4 : r.ss = a4 <;> simp [h1, h2, h3, h4]
  split <;> rfl

theorem verdict_records {K : KemParams} {ans : List U8 → List U8 × List U8 × List U8 × List U8} :
    ∀ (rs : List KatRec) (pre : List U8), (∀ r ∈ rs, r.WF K) →
    ¬ txt ['c', 'o', 'u', 'n', 't', ' ', '=', ' '] <:+: pre →
    Verdict K ans (pre ++ rs.flatMap KatRec.text) (some ((rs.findSome? (katCode K ans)).getD 0)) := by
  intro rs
  induction rs with
  | nil =>
    intro pre _ hp
    refine .stop ?_
    unfold katRecord
    rw [List.flatMap_nil, List.append_nil, after_eq_none.2 hp]
    rfl
  | cons r rs ih =>
    intro pre hw hp
    have h := katRecord_text (ans := ans) (hw r (by simp)) (rs.flatMap KatRec.text) hp
    rw [List.flatMap_cons, ← List.append_assoc, List.findSome?_cons]
    cases hc : katCode K ans r with
    | some v =>
      rw [hc] at h
      exact .stop h
    | none =>
      rw [hc] at h
      exact .next h (ih [10] (fun x hx => hw x (by simp [hx])) (by decide))

/-- C53.  For a file of records in the format of NIST, in every good build: the test reports the first
record that is wrong, and success if there is none. -/
theorem C53_records {P : Params} {K : KemParams} (B : Build) (E : Env) (A : AesBackend)
    (a skAddr : Nat) (ctx : Drbg) (fopen : List U8 → Option (List U8)) (name pre : List U8)
    (rs : List KatRec) (hS : Standard P B.gen K) (hB : Good B) (hal : AlignedAll B E P)
    (ha : A.ready E.ossl a) (hsk : skAddr % 2 = 0) (hk : ctx.key.length = 32) (hV : ctx.V.length = 16)
    (hn : KatName P B.gen name) (ho : Opens fopen name (some (pre ++ rs.flatMap KatRec.text)))
    (hp : ¬ txt ['c', 'o', 'u', 'n', 't', ' ', '=', ' '] <:+: pre) (hr : ∀ r ∈ rs, r.WF K) :
    Ret (katMain B E P A a skAddr ctx fopen)
      (· = (rs.findSome? (katCode K (katSpec K))).getD 0) :=
  C53_main B E A a skAddr ctx fopen name _ _ hS hB hal ha hsk hk hV hn ho (verdict_records rs pre hr hp)

/-- C53 (acceptance): the test succeeds exactly if all records are the known answers of the specification
and all their ciphertexts decapsulate to the shared secret. -/
theorem C53_accepts {P : Params} {K : KemParams} (B : Build) (E : Env) (A : AesBackend)
    (a skAddr : Nat) (ctx : Drbg) (fopen : List U8 → Option (List U8)) (name pre : List U8)
    (rs : List KatRec) (hS : Standard P B.gen K) (hB : Good B) (hal : AlignedAll B E P)
    (ha : A.ready E.ossl a) (hsk : skAddr % 2 = 0) (hk : ctx.key.length = 32) (hV : ctx.V.length = 16)
    (hn : KatName P B.gen name) (ho : Opens fopen name (some (pre ++ rs.flatMap KatRec.text)))
    (hp : ¬ txt ['c', 'o', 'u', 'n', 't', ' ', '=', ' '] <:+: pre) (hr : ∀ r ∈ rs, r.WF K) :
    Ret (katMain B E P A a skAddr ctx fopen) (fun v => v = 0 ↔
      ∀ r ∈ rs, (r.pk, r.sk, r.ct, r.ss) = katSpec K r.seed ∧ decaps K r.ct r.sk = r.ss) := by
  refine (C53_records B E A a skAddr ctx fopen name pre rs hS hB hal ha hsk hk hV hn ho hp hr).mono ?_
  rintro v rfl
  have hc : ∀ r : KatRec, katCode K (katSpec K) r = none ↔
      (r.pk, r.sk, r.ct, r.ss) = katSpec K r.seed ∧ decaps K r.ct r.sk = r.ss := by
    intro r
    unfold katCode KatRec.correct
    by_cases h1 : (r.pk, r.sk, r.ct, r.ss) = katSpec K r.seed
    · rw [if_neg (not_not.2 h1)]
      by_cases h2 : decaps K r.ct r.sk = r.ss
      · rw [if_neg (not_not.2 h2)]
        exact ⟨fun _ => ⟨h1, h2⟩, fun _ => rfl⟩
      · rw [if_pos h2]
        exact ⟨fun h => (by cases h), fun h => absurd h.2 h2⟩
    · rw [if_pos h1]
      exact ⟨fun h => (by cases h), fun h => absurd h.1 h1⟩
  have h0 : ∀ r : KatRec, katCode K (katSpec K) r ≠ some 0 := by
    intro r h
    unfold katCode at h
    split at h
    · cases h
    · split at h <;> cases h
  cases h : rs.findSome? (katCode K (katSpec K)) with
  | none =>
    rw [List.findSome?_eq_none_iff] at h
    exact ⟨fun _ r hr => (hc r).1 (h r hr), fun _ => rfl⟩
  | some v =>
    obtain ⟨r, hr, hv⟩ := List.exists_of_findSome?_eq_some h
    constructor
    · rintro h'
      have : v = 0 := h'
      subst this
      exact absurd hv (h0 r)
    · intro h'
      rw [(hc r).2 (h' r hr)] at hv
      cases hv

/-! ## Concrete cases -/

/-- A marker is found although a part of it comes just before. -/
example : Ret (FindMarker E0.junk (txt "cocount = 7".toList) mCount) (· = (1, txt ['7'])) := by
  have h := FindMarker_ret (J := E0.junk) (f := txt "cocount = 7".toList)
    (m := txt ['c', 'o', 'u', 'n', 't', ' ', '=', ' ']) (r := []) (by decide)
  rw [← mCount_eq] at h
  exact h.of_eq (by decide +kernel)

example : ¬ txt ['c', 'o', 'u', 'n', 't', ' ', '=', ' '] <:+: txt "# FrodoKEM-640-AES\n\n".toList := by
  decide +kernel

/-- Too many digits: the first ones are lost, and the result is 1. -/
example : Ret (ReadHex E0.junk (txt "ss = 12345a\nx".toList) [7, 7, 7] 2 mSs)
    (fun o => o.1 = 1 ∧ o.2.1 = txt ['x'] ∧ beNat (o.2.2.take 2) = 0x345a ∧ o.2.2.drop 2 = [7]) := by
  rw [mSs_eq]
  refine (C52_ReadHex E0.junk _ _ (txt ['s', 's', ' ', '=', ' ']) 2 (by decide) (by decide) (by decide)
    (by decide)).mono ?_
  rintro o ⟨-, h2, h3⟩
  rw [show after (txt ['s', 's', ' ', '=', ' ']) (txt "ss = 12345a\nx".toList) =
    some (txt "12345a\nx".toList) by decide +kernel] at h3
  exact ⟨h3.1, h3.2.1.trans (by decide +kernel), h3.2.2.trans (by decide +kernel), h2⟩

/-- No digit at all: the result is 1 too, and the bytes are zero. -/
example : Ret (ReadHex E0.junk (txt "ss = \nab".toList) [7, 7] 2 mSs)
    (fun o => o.1 = 1 ∧ o.2.1 = txt ['a', 'b'] ∧ beNat (o.2.2.take 2) = 0) := by
  rw [mSs_eq]
  refine (C52_ReadHex E0.junk _ _ (txt ['s', 's', ' ', '=', ' ']) 2 (by decide) (by decide) (by decide)
    (by decide)).mono ?_
  rintro o ⟨-, -, h3⟩
  rw [show after (txt ['s', 's', ' ', '=', ' ']) (txt "ss = \nab".toList) =
    some (txt "\nab".toList) by decide +kernel] at h3
  exact ⟨h3.1, h3.2.1.trans (by decide +kernel), h3.2.2.trans (by decide +kernel)⟩

/-- The round trip for some bytes. -/
example : Ret (do
      let line ← fprintBstr (txt ['s', 's', ' ', '=', ' ']) [0, 0xab, 0xff] 3
      ReadHex E0.junk (txt ['#', 's', ' '] ++ line ++ txt ['x']) [1, 2, 3] 3
        (txt ['s', 's', ' ', '=', ' '] ++ [0])) (· = (1, txt ['x'], [0, 0xab, 0xff])) :=
  C52_roundtrip E0.junk (txt ['#', 's', ' ']) (txt ['x']) (txt ['s', 's', ' ', '=', ' '])
    [0, 0xab, 0xff] [1, 2, 3] (by decide) (by decide) (by decide) rfl (by decide +kernel)

example : hexText [0, 0xab, 0x7f] = txt ['0', '0', 'A', 'B', '7', 'F'] := by decide

/-- Numbers of records. -/
example : decField (txt [' ', '-', '1', '7', 'x']) = some (-17, txt ['x']) ∧
    decField (txt ['+', 'x']) = none := by decide +kernel

/-- A record for a seed. -/
def katRec0 (K : KemParams) (count seed : List U8) : KatRec :=
  let a := katSpec K seed
  ⟨count, seed, a.1, a.2.1, a.2.2.1, a.2.2.2⟩

theorem katRec0_WF {P : Params} {g : MatGen} {K : KemParams} (hS : Standard P g K) (count seed : List U8)
    (h1 : count ≠ []) (h2 : ∀ c ∈ count, isDigit c = true) (h3 : decNum count < 2 ^ 31)
    (h : seed.length = 48) : (katRec0 K count seed).WF K where
  count := ⟨h1, h2, h3⟩
  seed := h
  pk := by
    unfold katRec0 katSpec
    simp only
    exact length_keygen_pk hS.kwf _ _ _
  sk := by
    unfold katRec0 katSpec
    simp only
    refine length_keygen_sk hS.kwf ?_ _ _
    rw [List.length_take, (length_drbgGenerate _ _ _).1]
    omega
  ct := length_encaps_ct _ _ _
  ss := hS.kwf.shake _ _

/-- The hypotheses of C53_accepts can be met in every good build, with a file of two records, the first
of them correct. -/
example (B : Build) (hB : Good B) (hg : B.gen = .aes) := C53_accepts B E0 .ni 0 64
  ⟨List.replicate 32 1, List.replicate 16 2, 0⟩
  (fun _ => some (txt "# FrodoKEM-640-AES\n\n".toList ++
    [katRec0 (Frodo640 B.gen) (txt ['0']) (List.replicate 48 3),
     { katRec0 (Frodo640 B.gen) (txt ['1', '2']) (List.replicate 48 4) with
       ss := List.replicate 16 0 }].flatMap KatRec.text))
  (txt "KAT/PQCkemKAT_19888.rsp".toList) (txt "# FrodoKEM-640-AES\n\n".toList) _
  (.frodo640 _) hB (E0_all _) (fun _ => rfl) rfl
  (by simp) (by simp) (hg ▸ .frodo640) (fun _ => rfl) (by decide +kernel) (by
    intro r hr
    simp only [List.mem_cons, List.not_mem_nil, or_false] at hr
    rcases hr with rfl | rfl
    · exact katRec0_WF (.frodo640 _) _ _ (by decide) (by decide) (by decide) (by simp)
    · have h := katRec0_WF (.frodo640 B.gen) (txt ['1', '2']) (List.replicate 48 4) (by decide) (by decide)
        (by decide) (by simp)
      exact ⟨h.count, h.seed, h.pk, h.sk, h.ct, List.length_replicate⟩)

/-- An empty file passes. -/
example (B : Build) (hB : Good B) (hg : B.gen = .aes) :
    Ret (katMain B E0 frodo640 .ni 0 64 ⟨List.replicate 32 1, List.replicate 16 2, 0⟩ fun _ => some [])
      (· = 0) :=
  C53_no_record B E0 .ni 0 64 _ _ (txt "KAT/PQCkemKAT_19888.rsp".toList) [] (.frodo640 _) hB
    (E0_all _) (fun _ => rfl) rfl
    (by simp) (by simp) (hg ▸ .frodo640) (fun _ => rfl) (by decide)

/-- A record with a number that is no `int` makes the test undefined. -/
example (B : Build) (hB : Good B) (hg : B.gen = .aes) :
    katMain B E0 frodo640 .ni 0 64 ⟨List.replicate 32 1, List.replicate 16 2, 0⟩
      (fun _ => some (txt "count = 2147483648\n".toList)) = .ub .overflow := by
  have hd : decField (txt "2147483648\n".toList) = some (2147483648, [10]) := by decide +kernel
  refine C53_main B E0 .ni 0 64 _ _ (txt "KAT/PQCkemKAT_19888.rsp".toList)
    (txt "count = 2147483648\n".toList) none (.frodo640 _) hB
    (E0_all _) (fun _ => rfl) rfl
    (by simp) (by simp) (hg ▸ .frodo640) (fun _ => rfl) (.undef ?_)
  unfold katRecord
  rw [show after (txt ['c', 'o', 'u', 'n', 't', ' ', '=', ' ']) (txt "count = 2147483648\n".toList) =
    some (txt "2147483648\n".toList) by decide +kernel]
  simp only [hd]
  rfl

end Frodo.Props
