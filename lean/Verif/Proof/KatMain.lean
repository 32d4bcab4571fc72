import Mathlib.Data.List.TakeWhile
import Verif.Proof.KatRecord
import Verif.Proof.SelfTest
import Verif.Props.Drbg
import Verif.Spec.KatFile

/-! # The main function of the known answer tests: proofs -/

namespace Frodo
open Spec Props

theorem Ret.bind_ub {α β : Type} {m : C α} {f : α → C β} {Q : α → Prop} {u : UB} (h : Ret m Q)
    (hf : ∀ a, Q a → f a = .ub u) : (m >>= f) = .ub u := by
  obtain ⟨a, t, rfl, ha⟩ := h
  rw [C.bind_def]
  simp only [C.bind', hf a ha]

theorem while_ub_now {σ : Type} {c : σ → Bool} {b : σ → C σ} {s : σ} {u : UB} (hc : c s = true)
    (h : b s = .ub u) : whileC c b s = .ub u := by
  rw [whileC, hc]
  simp only [if_true, h]
  rfl

theorem while_ub_next {σ : Type} {c : σ → Bool} {b : σ → C σ} {s : σ} {u : UB} {Q : σ → Prop}
    (hc : c s = true) (h : Ret (b s) Q) (hn : ∀ t, Q t → whileC c b t = .ub u) :
    whileC c b s = .ub u := by
  rw [whileC, hc]
  simp only [if_true, h.bind_ub hn]
  rfl

theorem beVal_eq (l : List U8) : beVal l = beNat l := rfl

/-- `ReadHex` against the specification of a field. -/
theorem ReadHex_field {J : Junk} {f A m r : List U8} {n : Nat} (h0 : ∀ c ∈ m, c ≠ 0)
    (hm : m.length ≤ 49) (hn : 0 < n) (h : A.length = n) :
    Ret (ReadHex J f A n (m ++ 0 :: r)) (fun o =>
      match hexField m n f with
      | none => o.1 = 0 ∧ o.2.2.length = n
      | some p => o = (1, p.2, p.1)) := by
  refine (ReadHex_ret h0 hn (by omega)).mono ?_
  rintro ⟨q, g, A'⟩ ho
  rw [List.take_of_length_le hm] at ho
  unfold hexField
  cases ha : after m f with
  | none =>
    rw [ha] at ho
    simp only [Option.map_none] at ho ⊢
    injection ho with h1 h2
    injection h2 with h3 h4
    refine ⟨h1, ?_⟩
    rw [h4, List.drop_eq_nil_of_le (by omega)]
    simp
  | some t =>
    rw [ha] at ho
    simp only [Option.map_some] at ho ⊢
    obtain ⟨h1, h2, h3, h4, h5⟩ := ho
    rw [List.take_of_length_le (by omega)] at h5
    have : A' = beBytes n (hexNum ((skipTo t).takeWhile isHex)) :=
      beVal_inj (by rw [length_beBytes]; omega) (by rw [h5, beVal_eq, beNat_beBytes])
    rw [this, ← h1, ← h2]

theorem blank_eq : isspace = blank := by
  funext c
  unfold isspace blank
  revert c
  decide

theorem signOf_eq (f : List U8) : scanSign f = (decide ((signOf f).1 = -1), (signOf f).2) := by
  unfold signOf scanSign
  split
  · rfl
  · rfl
  · simp

theorem decNum_foldl : ∀ (ds : List U8) (v : Nat), (∀ c ∈ ds, isDigit c = true) →
    ds.foldl (fun (v : Int) (c : U8) => 10 * v + ((c.toNat : Int) - 48)) (v : Int) =
    ((ds.foldl (fun v c => 10 * v + (c.toNat - 48)) v : Nat) : Int) := by
  intro ds
  induction ds with
  | nil => intro v _; rfl
  | cons c ds ih =>
    intro v h
    have hc := of_decide_eq_true (h c (by simp))
    rw [List.foldl_cons, List.foldl_cons, ← ih _ fun x hx => h x (by simp [hx])]
    congr 1
    push_cast
    rw [Nat.cast_sub (by omega)]
    simp

theorem drop_takeWhile {α : Type} (p : α → Bool) (l : List α) :
    l.drop (l.takeWhile p).length = l.dropWhile p := by
  conv_lhs => rw [← List.takeWhile_append_dropWhile (p := p) (l := l)]
  rw [List.drop_left' (by rw [List.takeWhile_append_dropWhile])]

/-- `fscanf` against the specification of a decimal number. -/
theorem fscanfD_spec (f : List U8) :
    match decField f with
    | none => Ret (fscanfD f) (·.1 ≠ 1)
    | some p => if p.1 < -2 ^ 31 ∨ 2 ^ 31 ≤ p.1 then fscanfD f = .ub .overflow
      else Ret (fscanfD f) (· = (1, p.2)) := by
  unfold fscanfD decField
  simp only [blank_eq]
  generalize hf : f.dropWhile blank = g
  rw [signOf_eq]
  have hs : (signOf g).1 = 1 ∨ (signOf g).1 = -1 := by
    unfold signOf; split <;> simp
  have hd : (fun c : U8 => decide (48 ≤ c.toNat ∧ c.toNat ≤ 57)) = isDigit := rfl
  simp only [hd]
  have hg : g = [] → (signOf g).2 = [] := by rintro rfl; rfl
  generalize (signOf g).2 = t at hg ⊢
  generalize (signOf g).1 = σ at hs ⊢
  have hn := decNum_foldl (t.takeWhile isDigit) 0 (fun c hc => List.mem_takeWhile_imp hc)
  rw [Nat.cast_zero] at hn
  have hv : (if decide (σ = -1) = true then
      -((t.takeWhile isDigit).foldl (fun (v : Int) (c : U8) => 10 * v + ((c.toNat : Int) - 48)) 0)
      else (t.takeWhile isDigit).foldl (fun (v : Int) (c : U8) => 10 * v + ((c.toNat : Int) - 48)) 0) =
      σ * decNum (t.takeWhile isDigit) := by
    rw [hn]
    rcases hs with rfl | rfl
    · rw [if_neg (by decide)]; simp [decNum]
    · rw [if_pos (by decide)]; simp [decNum]
  simp only [hv, drop_takeWhile]
  by_cases he : t.takeWhile isDigit = []
  · rw [if_pos he]
    simp only [he, Ret_require_bind]
    refine ⟨by simp [decNum, inInt], ?_⟩
    refine ⟨_, [], rfl, ?_⟩
    simp only
    split <;> simp
  · rw [if_neg he]
    simp only
    by_cases hr : σ * ↑(decNum (t.takeWhile isDigit)) < -2 ^ 31 ∨ 2 ^ 31 ≤ σ * ↑(decNum (t.takeWhile isDigit))
    · rw [if_pos hr]
      unfold C.require
      rw [if_neg (by unfold inInt; omega)]
      rfl
    · rw [if_neg hr, Ret_require_bind]
      refine ⟨by unfold inInt; omega, _, [], rfl, ?_⟩
      rw [if_neg (by intro h; exact he (by rw [hg h]; rfl)), if_neg he]

/-- The arrays of `main` have the declared lengths, and so has the state of the generator. -/
structure KatSt.WF (P : Params) (s : KatSt) : Prop where
  key : s.ctx.key.length = 32
  V : s.ctx.V.length = 16
  seed : s.seed.length = 48
  ct : s.ct.length = P.ctBytes
  ss : s.ss.length = P.bytes
  ss1 : s.ss1.length = P.bytes
  ct_rsp : s.ct_rsp.length = P.ctBytes
  ss_rsp : s.ss_rsp.length = P.bytes
  pk : s.pk.length = P.pkBytes
  sk : s.sk.length = P.skBytes
  pk_rsp : s.pk_rsp.length = P.pkBytes
  sk_rsp : s.sk_rsp.length = P.skBytes

/-- The state after an iteration, as specified. -/
def KatPost (P : Params) (r : KatRes) (s : KatSt) : Prop :=
  match r with
  | .stop v => s.ret = some v
  | .undef => False
  | .next g => s.ret = none ∧ s.file = g ∧ s.WF P

theorem mCount_eq : mCount = txt ['c', 'o', 'u', 'n', 't', ' ', '=', ' '] ++ 0 :: [] := by decide
theorem mSeed_eq : mSeed = txt ['s', 'e', 'e', 'd', ' ', '=', ' '] ++ 0 :: [] := by decide
theorem mPk_eq : mPk = txt ['p', 'k', ' ', '=', ' '] ++ 0 :: [] := by decide
theorem mSk_eq : mSk = txt ['s', 'k', ' ', '=', ' '] ++ 0 :: [] := by decide
theorem mCt_eq : mCt = txt ['c', 't', ' ', '=', ' '] ++ 0 :: [] := by decide
theorem mSs_eq : mSs = txt ['s', 's', ' ', '=', ' '] ++ 0 :: [] := by decide

theorem memcmp_all {a b : List U8} {n : Nat} (ha : a.length = n) (hb : b.length = n) :
    Ret (memcmp a b n) (fun r => r = if a = b then 0 else 1) := by
  refine (memcmp_ret (by omega) (by omega)).mono ?_
  intro r hr
  rw [List.take_of_length_le (by omega), List.take_of_length_le (by omega)] at hr
  exact hr

theorem katEnc_ret {P : Params} {K : KemParams} (B : Build) (E : Env) (A : AesBackend) (a skAddr : Nat)
    (s : KatSt) (ans : List U8 × List U8 × List U8 × List U8) (hS : Standard P B.gen K) (hB : Good B)
    (hal : AlignedAll B E P) (ha : A.ready E.ossl a) (hsk : skAddr % 2 = 0) (hw : s.WF P)
    (hr : s.ctx.reseed = 2) (hret : s.ret = none) (hans : ans.2.1 = s.sk)
    (he : ans.2.2 = encaps K s.pk (drbgGenerate s.ctx.key s.ctx.V K.len).1) :
    Ret (katEnc B E P A a skAddr s) (KatPost P (katCipher K ans s.file)) := by
  have hl := hS.ssLen
  have hb := hS.wf.bytes
  have hsm : P.bytes < 2 ^ 31 ∧ 0 < P.bytes ∧ 0 < P.ctBytes := by cases hS <;> decide
  have hf := fills_drbg A E a s.ctx K.len ha hw.key hw.V (by omega) (by omega) (by omega)
  obtain ⟨l0, l1, l2⟩ := length_drbgGenerate s.ctx.key s.ctx.V P.bytesMu
  unfold katEnc katCipher
  refine (C06_enc B E _ s.ct s.ss s.pk _ hS hB hal.2 (length_drbgGenerate _ _ _).1 hf
    (by rw [hw.pk]) (by rw [hw.ct]) (by rw [hw.ss])).bind ?_
  rintro en ⟨e1, e2, e3⟩
  rw [List.drop_eq_nil_of_le (by rw [hw.ct]), List.append_nil,
    List.take_of_length_le (by rw [hw.pk]), ← he] at e1
  rw [List.drop_eq_nil_of_le (by rw [hw.ss]), List.append_nil,
    List.take_of_length_le (by rw [hw.pk]), ← he] at e2
  have hcl : en.ct.length = P.ctBytes := by
    rw [e1, he, length_encaps_ct, hS.ctLen]
  have hsl : en.ss.length = P.bytes := by
    rw [e2, he, length_encaps_ss hS.kwf, hl]
  refine (C44_generate A E a s.ctx _ P.bytesMu ha hw.key hw.V (by simp) (by omega) (by omega)
    (by omega)).bind ?_
  rintro ⟨c, y, r⟩ ⟨-, -, g3, g4⟩
  simp only at g3 g4 ⊢
  rw [← g3] at l1 l2
  simp only at l1 l2
  rw [Ret_ifC, if_neg (by simp [e3]), mCt_eq, mSs_eq]
  refine (ReadHex_field (by decide) (by decide) hsm.2.2 hw.ct_rsp).bind ?_
  rintro o ho
  rw [hS.ctLen] at ho
  cases h1 : hexField (txt ['c', 't', ' ', '=', ' ']) (K.lenB + K.lenC) s.file with
  | none =>
    rw [h1] at ho
    simp only at ho ⊢
    rw [Ret_ifC, if_pos (by simp [ho.1])]
    exact ⟨_, [], rfl, rfl⟩
  | some p =>
    obtain ⟨ct, f1⟩ := p
    rw [h1] at ho
    simp only at ho ⊢
    subst ho
    simp only
    have hct : ct.length = P.ctBytes := by
      unfold hexField at h1
      obtain ⟨t, -, ht⟩ := Option.map_eq_some_iff.1 h1
      injection ht with ht _
      rw [← ht, length_beBytes, hS.ctLen]
    rw [Ret_ifC, if_neg (by simp)]
    refine (ReadHex_field (by decide) (by decide) hsm.2.1 hw.ss_rsp).bind ?_
    rintro o ho
    rw [hl] at ho
    cases h2 : hexField (txt ['s', 's', ' ', '=', ' ']) K.len f1 with
    | none =>
      rw [h2] at ho
      simp only at ho ⊢
      rw [Ret_ifC, if_pos (by simp [ho.1])]
      exact ⟨_, [], rfl, rfl⟩
    | some p =>
      obtain ⟨ss, f2⟩ := p
      rw [h2] at ho
      simp only at ho ⊢
      subst ho
      simp only
      have hss : ss.length = P.bytes := by
        unfold hexField at h2
        obtain ⟨t, -, ht⟩ := Option.map_eq_some_iff.1 h2
        injection ht with ht _
        rw [← ht, length_beBytes, hl]
      rw [Ret_ifC, if_neg (by simp)]
      refine (memcmp_all hcl hct).bind_eq ?_
      by_cases hc : en.ct = ct
      · rw [if_pos hc, Ret_ifC, if_neg (by simp)]
        refine (memcmp_all hsl hss).bind_eq ?_
        by_cases hs : en.ss = ss
        · rw [if_pos hs, Ret_ifC, if_neg (by simp)]
          refine (C07_dec B E skAddr s.ss1 en.ct s.sk hS hB hal.2 hsk (by rw [hw.ss1])
            (by rw [hcl]) (by rw [hw.sk])).bind ?_
          rintro de ⟨d1, d2⟩
          rw [List.take_of_length_le (by rw [hcl]), List.take_of_length_le (by rw [hw.sk]),
            List.drop_eq_nil_of_le (by rw [hw.ss1]), List.append_nil] at d1
          have hdl : de.ss.length = P.bytes := by
            rw [d1, decaps_reencrypt hS.kwf (by rw [hcl, hS.ctLen]), hl]
            split <;> exact hS.kwf.shake _ _
          rw [Ret_ifC, if_neg (by simp [d2])]
          refine (memcmp_all hsl hdl).bind_eq ?_
          have hq : ¬ (ct, ss) ≠ (ans.2.2.1, ans.2.2.2) := by rw [← hc, ← hs, e1, e2]; simp
          rw [if_neg hq, ← hc, ← hs, hans, ← d1]
          by_cases hd : en.ss = de.ss
          · rw [if_pos hd, Ret_ifC, if_neg (by simp), if_neg (by simp [hd])]
            refine ⟨_, [], rfl, hret, rfl, ?_⟩
            exact ⟨l1, l2, hw.seed, hcl, hsl, hdl, hc ▸ hcl, hs ▸ hsl, hw.pk, hw.sk, hw.pk_rsp, hw.sk_rsp⟩
          · rw [if_neg hd, Ret_ifC, if_pos (by simp), if_pos (Ne.symm hd)]
            exact ⟨_, [], rfl, rfl⟩
        · rw [if_neg hs, Ret_ifC, if_pos (by simp), if_pos (by
            rw [← e2]; intro h; injection h with _ h; exact hs h.symm)]
          exact ⟨_, [], rfl, rfl⟩
      · rw [if_neg hc, Ret_ifC, if_pos (by simp), if_pos (by
          rw [← e1]; intro h; injection h with h _; exact hc h.symm)]
        exact ⟨_, [], rfl, rfl⟩

theorem hexField_length {m f d g : List U8} {n : Nat} (h : hexField m n f = some (d, g)) :
    d.length = n := by
  unfold hexField at h
  obtain ⟨t, -, ht⟩ := Option.map_eq_some_iff.1 h
  injection ht with ht _
  rw [← ht, length_beBytes]

theorem katKeys_ret {P : Params} {K : KemParams} (B : Build) (E : Env) (A : AesBackend) (a skAddr : Nat)
    (s : KatSt) (hS : Standard P B.gen K) (hB : Good B)
    (hal : AlignedAll B E P) (ha : A.ready E.ossl a) (hsk : skAddr % 2 = 0) (hw : s.WF P)
    (hret : s.ret = none) :
    Ret (katKeys B E P A a skAddr s) (KatPost P (katPair K (katSpec K s.seed) s.file)) := by
  have hl := hS.ssLen
  have hlA : K.lenA = P.seedA := by rw [← hS.kem]; rfl
  have hsm : 2 * P.bytes + P.seedA < 2 ^ 31 ∧ 0 < P.pkBytes ∧ 0 < P.skBytes := by cases hS <;> decide
  unfold katKeys katPair
  refine (C44_init A E a s.ctx s.seed (List.replicate 48 0) ha hw.key hw.V hw.seed (by simp)).2.bind ?_
  rintro c ⟨h1, h2⟩
  have l := length_drbgUpdate (List.zipWith (· ^^^ ·) s.seed (List.replicate 48 0))
    (List.replicate 32 0) (List.replicate 16 0)
    (by rw [List.length_zipWith]; simp [hw.seed])
  change (drbgInit _ _).1.length = 32 ∧ (drbgInit _ _).2.length = 16 at l
  rw [← h1] at l
  simp only at l
  obtain ⟨g0, g1, g2⟩ := length_drbgGenerate c.key c.V (2 * P.bytes + P.seedA)
  have hf := fills_drbg A E a c (2 * P.bytes + P.seedA) ha l.1 l.2 hsm.1 (by omega) (by omega)
  have hsp : (drbgGenerate c.key c.V (2 * P.bytes + P.seedA)).1 =
      (drbgGenerate c.key c.V (2 * P.bytes + P.seedA)).1.take K.len ++
      ((drbgGenerate c.key c.V (2 * P.bytes + P.seedA)).1.drop K.len).take K.len ++
      (drbgGenerate c.key c.V (2 * P.bytes + P.seedA)).1.drop (2 * K.len) := by
    rw [Nat.two_mul K.len, ← List.drop_drop, List.append_assoc, List.take_append_drop,
      List.take_append_drop]
  rw [hsp] at hf
  have hs0 : ((drbgGenerate c.key c.V (2 * P.bytes + P.seedA)).1.take K.len).length = K.len := by
    rw [List.length_take]; omega
  refine (C05_keypair B E _ s.pk s.sk _ _ _ hS hal.1 hs0
    (by rw [List.length_take, List.length_drop]; omega) (by rw [List.length_drop]; omega)
    hf (by rw [hw.pk]) (by rw [hw.sk])).bind ?_
  rintro kp ⟨k1, k2, k3⟩
  simp only
  refine (C44_generate A E a c _ (2 * P.bytes + P.seedA) ha l.1 l.2 (by simp) hsm.1 (by omega)
    (by omega)).bind ?_
  rintro ⟨c', y, r⟩ ⟨-, -, g3, g4⟩
  simp only at g3 g4 ⊢
  rw [← g3] at g1 g2
  simp only at g1 g2
  rw [List.drop_eq_nil_of_le (as := s.pk) (by rw [hw.pk]), List.append_nil] at k1
  rw [List.drop_eq_nil_of_le (as := s.sk) (by rw [hw.sk]), List.append_nil] at k2
  have hpl : kp.pk.length = P.pkBytes := by
    rw [k1, hS.pkLen]
    exact length_keygen_pk hS.kwf _ _ _
  have hkl : kp.sk.length = P.skBytes := by
    rw [k2, hS.skLen]
    exact length_keygen_sk hS.kwf hs0 _ _
  have ha1 : (katSpec K s.seed).1 = kp.pk := by
    simp only [katSpec, ← h1, ← hl, hlA, k1]
  have ha2 : (katSpec K s.seed).2.1 = kp.sk := by
    simp only [katSpec, ← h1, ← hl, hlA, k2]
  have ha3 : (katSpec K s.seed).2.2 = encaps K kp.pk (drbgGenerate c'.key c'.V K.len).1 := by
    simp only [katSpec, ← h1, ← hl, hlA, ← g3, k1]
  generalize katSpec K s.seed = ans at ha1 ha2 ha3 ⊢
  rw [Ret_ifC, if_neg (by simp [k3]), mPk_eq, mSk_eq]
  refine (ReadHex_field (by decide) (by decide) hsm.2.1 hw.pk_rsp).bind ?_
  rintro o ho
  rw [hS.pkLen] at ho
  cases h1 : hexField (txt ['p', 'k', ' ', '=', ' ']) (K.lenA + K.lenB) s.file with
  | none =>
    rw [h1] at ho
    simp only at ho ⊢
    rw [Ret_ifC, if_pos (by simp [ho.1])]
    exact ⟨_, [], rfl, rfl⟩
  | some p =>
    obtain ⟨pk, f1⟩ := p
    rw [h1] at ho
    simp only at ho ⊢
    subst ho
    simp only
    have hpk : pk.length = P.pkBytes := by rw [hexField_length h1, hS.pkLen]
    rw [Ret_ifC, if_neg (by simp)]
    refine (ReadHex_field (by decide) (by decide) hsm.2.2 hw.sk_rsp).bind ?_
    rintro o ho
    rw [hS.skLen] at ho
    cases h2 : hexField (txt ['s', 'k', ' ', '=', ' '])
        (K.len + (K.lenA + K.lenB) + 2 * K.n * K.nbar + K.len) f1 with
    | none =>
      rw [h2] at ho
      simp only at ho ⊢
      rw [Ret_ifC, if_pos (by simp [ho.1])]
      exact ⟨_, [], rfl, rfl⟩
    | some p =>
      obtain ⟨sk, f2⟩ := p
      rw [h2] at ho
      simp only at ho ⊢
      subst ho
      simp only
      have hskl : sk.length = P.skBytes := by rw [hexField_length h2, hS.skLen]
      rw [Ret_ifC, if_neg (by simp)]
      refine (memcmp_all hpl hpk).bind_eq ?_
      by_cases hc : kp.pk = pk
      · rw [if_pos hc, Ret_ifC, if_neg (by simp)]
        refine (memcmp_all hkl hskl).bind_eq ?_
        by_cases hs : kp.sk = sk
        · rw [if_pos hs, Ret_ifC, if_neg (by simp), if_neg (by rw [← hc, ← hs, ha1, ha2]; simp)]
          exact katEnc_ret B E A a skAddr _ ans hS hB hal ha hsk
            ⟨g1, g2, hw.seed, hw.ct, hw.ss, hw.ss1, hw.ct_rsp, hw.ss_rsp, hpl, hkl, hpk, hskl⟩
            (by simp only; omega) hret ha2 ha3
        · rw [if_neg hs, Ret_ifC, if_pos (by simp), if_pos (by
            rw [ha2]; intro h; injection h with _ h; exact hs h.symm)]
          exact ⟨_, [], rfl, rfl⟩
      · rw [if_neg hc, Ret_ifC, if_pos (by simp), if_pos (by
          rw [ha1]; intro h; injection h with h _; exact hc h.symm)]
        exact ⟨_, [], rfl, rfl⟩

theorem katStep_spec {P : Params} {K : KemParams} (B : Build) (E : Env) (A : AesBackend) (a skAddr : Nat)
    (s : KatSt) (hS : Standard P B.gen K) (hB : Good B)
    (hal : AlignedAll B E P) (ha : A.ready E.ossl a) (hsk : skAddr % 2 = 0) (hw : s.WF P)
    (hret : s.ret = none) :
    (katRecord K (katSpec K) s.file = .undef → katStep B E P A a skAddr s = .ub .overflow) ∧
    (katRecord K (katSpec K) s.file ≠ .undef →
      Ret (katStep B E P A a skAddr s) (KatPost P (katRecord K (katSpec K) s.file))) := by
  have hF := FindMarker_ret (J := E.junk) (f := s.file)
    (m := txt ['c', 'o', 'u', 'n', 't', ' ', '=', ' ']) (r := []) (by decide)
  rw [List.take_of_length_le (by decide), ← mCount_eq] at hF
  unfold katStep katRecord
  cases h0 : after (txt ['c', 'o', 'u', 'n', 't', ' ', '=', ' ']) s.file with
  | none =>
    refine ⟨fun h => (by cases h), fun _ => ?_⟩
    rw [h0] at hF
    refine hF.bind_eq ?_
    simp only [found]
    rw [Ret_ifC, if_neg (by simp)]
    exact ⟨_, [], rfl, rfl⟩
  | some f =>
    rw [h0] at hF
    have hD := fscanfD_spec f
    simp only
    cases h1 : decField f with
    | none =>
      rw [h1] at hD
      refine ⟨fun h => (by cases h), fun _ => ?_⟩
      refine hF.bind_eq ?_
      simp only [found]
      rw [Ret_ifC, if_pos (by simp)]
      refine hD.bind ?_
      rintro ⟨n, g⟩ hn
      simp only at hn ⊢
      rw [Ret_ifC, if_pos (by simpa using hn)]
      exact ⟨_, [], rfl, rfl⟩
    | some p =>
      obtain ⟨v, g⟩ := p
      rw [h1] at hD
      simp only at hD ⊢
      by_cases hv : v < -2 ^ 31 ∨ 2 ^ 31 ≤ v
      · rw [if_pos hv] at hD ⊢
        refine ⟨fun _ => hF.bind_ub ?_, fun h => absurd rfl h⟩
        rintro o rfl
        simp only [found, hD]
        rfl
      · rw [if_neg hv] at hD ⊢
        have hR : Ret (katStep B E P A a skAddr s) (KatPost P
            (katSeed K (katSpec K) g)) := by
          unfold katStep katSeed
          refine hF.bind_eq ?_
          simp only [found]
          rw [Ret_ifC, if_pos (by simp)]
          refine hD.bind_eq ?_
          simp only
          rw [Ret_ifC, if_neg (by simp), mSeed_eq]
          refine (ReadHex_field (by decide) (by decide) (by decide) hw.seed).bind ?_
          rintro o ho
          cases h2 : hexField (txt ['s', 'e', 'e', 'd', ' ', '=', ' ']) 48 g with
          | none =>
            rw [h2] at ho
            simp only at ho ⊢
            rw [Ret_ifC, if_pos (by simp [ho.1])]
            exact ⟨_, [], rfl, rfl⟩
          | some p =>
            obtain ⟨seed, f2⟩ := p
            rw [h2] at ho
            simp only at ho ⊢
            subst ho
            simp only
            rw [Ret_ifC, if_neg (by simp)]
            exact katKeys_ret B E A a skAddr { s with file := f2, seed := seed } hS hB hal ha hsk
              ⟨hw.key, hw.V, hexField_length h2, hw.ct, hw.ss, hw.ss1, hw.ct_rsp, hw.ss_rsp, hw.pk, hw.sk,
                hw.pk_rsp, hw.sk_rsp⟩ hret
        refine ⟨fun h => ?_, fun _ => hR⟩
        obtain ⟨s', -, -, hp⟩ := hR
        rw [h] at hp
        exact hp.elim

theorem kat_loop {P : Params} {K : KemParams} (B : Build) (E : Env) (A : AesBackend) (a skAddr : Nat)
    (hS : Standard P B.gen K) (hB : Good B)
    (hal : AlignedAll B E P) (ha : A.ready E.ossl a) (hsk : skAddr % 2 = 0) {f : List U8} {v : Option Int}
    (h : Verdict K (katSpec K) f v) : ∀ s : KatSt, s.WF P → s.ret = none → s.file = f →
    match v with
    | some v => Ret (whileC (fun s : KatSt => s.ret.isNone) (katStep B E P A a skAddr) s) (·.ret = some v)
    | none => whileC (fun s : KatSt => s.ret.isNone) (katStep B E P A a skAddr) s = .ub .overflow := by
  induction h with
  | stop h =>
    rintro s hw hr rfl
    have hs := (katStep_spec B E A a skAddr s hS hB hal ha hsk hw hr).2 (by rw [h]; intro h; cases h)
    rw [h] at hs
    simp only
    rw [Ret_while_unfold, if_pos (by simp [hr])]
    refine hs.bind ?_
    intro s' hs'
    rw [Ret_while_unfold, if_neg (by rw [show s'.ret = _ from hs']; simp)]
    exact ⟨_, [], rfl, hs'⟩
  | undef h =>
    rintro s hw hr rfl
    exact while_ub_now (by simp [hr]) ((katStep_spec B E A a skAddr s hS hB hal ha hsk hw hr).1 h)
  | @next f g v h _ ih =>
    rintro s hw hr rfl
    have hs := (katStep_spec B E A a skAddr s hS hB hal ha hsk hw hr).2 (by rw [h]; intro h; cases h)
    rw [h] at hs
    cases v with
    | none =>
      exact while_ub_next (by simp [hr]) hs fun t ht => ih t ht.2.2 ht.1 ht.2.1
    | some v =>
      simp only
      rw [Ret_while_unfold, if_pos (by simp [hr])]
      exact hs.bind fun t ht => ih t ht.2.2 ht.1 ht.2.1

end Frodo
