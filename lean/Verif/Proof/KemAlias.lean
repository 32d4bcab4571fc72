import Verif.Model.KemAlias
import Verif.Spec.Memory
import Verif.Proof.KemSpec

/-! # The KEM functions on overlapping arguments -/

namespace Frodo

open Spec

/-! ## Memory -/

theorem length_load {m : List U8} {a n : Nat} (h : a + n ≤ m.length) : (load m a n).length = n := by
  unfold load; rw [List.length_take, List.length_drop]; omega

theorem length_put {m v : List U8} {a : Nat} (h : a + v.length ≤ m.length) :
    (store m a v).length = m.length := by
  unfold store
  simp only [List.length_append, List.length_take, List.length_drop]
  omega

theorem nth_put {m v : List U8} {a i : Nat} (h : a + v.length ≤ m.length) :
    nth (store m a v) i = if a ≤ i ∧ i < a + v.length then nth v (i - a) else nth m i := by
  unfold store
  have l1 : (m.take a ++ v).length = a + v.length := by
    rw [List.length_append, List.length_take]; omega
  rw [nth_append, l1]
  split_ifs with h1 h2 h2
  · rw [nth_append, List.length_take, Nat.min_eq_left (by omega), if_neg (by omega)]
  · rw [nth_append, List.length_take, Nat.min_eq_left (by omega), if_pos (by omega), nth_take,
      if_pos (by omega)]
  · omega
  · rw [nth_drop]; congr 1; omega

theorem nth_load {m : List U8} {a n i : Nat} (h : i < n) : nth (load m a n) i = nth m (a + i) := by
  unfold load; rw [nth_take, if_pos h, nth_drop]

theorem load_store {m v : List U8} {a : Nat} (h : a + v.length ≤ m.length) :
    load (store m a v) a v.length = v := by
  apply ext_nth
  · exact length_load (by rw [length_put h]; omega)
  · intro i hi
    rw [length_load (by rw [length_put h]; omega)] at hi
    rw [nth_load hi, nth_put h, if_pos (by omega), Nat.add_sub_cancel_left]

theorem load_store_apart {m v : List U8} {a b n : Nat} (h : a + v.length ≤ m.length)
    (hb : b + n ≤ m.length) (hd : Apart a v.length b n) : load (store m a v) b n = load m b n := by
  apply ext_nth
  · rw [length_load (by rw [length_put h]; omega), length_load hb]
  · intro i hi
    rw [length_load (by rw [length_put h]; omega)] at hi
    unfold Apart at hd
    rw [nth_load hi, nth_load hi, nth_put h, if_neg (by omega)]

/-- The bytes of a memory in a range are those of a part of a stored string. -/
theorem load_store_sub {m v : List U8} {a b n : Nat} (h : a + v.length ≤ m.length)
    (hd : a ≤ b) (hn : b + n ≤ a + v.length) : load (store m a v) b n = load v (b - a) n := by
  apply ext_nth
  · rw [length_load (by rw [length_put h]; omega), length_load (by omega)]
  · intro i hi
    rw [length_load (by rw [length_put h]; omega)] at hi
    rw [nth_load hi, nth_load hi, nth_put h, if_pos (by omega)]
    congr 1; omega

theorem store_store {m v w : List U8} {a : Nat} (h : a + (v.length + w.length) ≤ m.length) :
    store (store m a v) (a + v.length) w = store m a (v ++ w) := by
  have l1 := length_put (m := m) (v := v) (a := a) (by omega)
  have l2 := length_put (m := store m a v) (v := w) (a := a + v.length) (by omega)
  have l3 := length_put (m := m) (v := v ++ w) (a := a) (by rw [List.length_append]; omega)
  apply ext_nth
  · rw [l2, l1, l3]
  · intro i hi
    rw [nth_put (by omega), nth_put (by omega), nth_put (by rw [List.length_append]; omega),
      List.length_append, nth_append]
    split_ifs <;> first | rfl | (exfalso; omega) | (congr 1; omega)

theorem load_add (m : List U8) (a n k : Nat) : load m a (n + k) = load m a n ++ load m (a + n) k := by
  unfold load; rw [List.take_add, List.drop_drop]

theorem atPtr_store {m v : List U8} {a : Nat} {f : List U8 → C (List U8)} {β : Type}
    {g : List U8 → C β} {Q : β → Prop} (ha : a ≤ m.length)
    (hf : Ret (f (m.drop a)) (· = v ++ (m.drop a).drop v.length)) (hg : Ret (g (store m a v)) Q) :
    Ret (atPtr m a f >>= g) Q := by
  rw [Ret_atPtr_bind]
  refine ⟨ha, hf.bind_eq ?_⟩
  unfold store at hg
  rw [List.drop_drop, ← List.append_assoc]
  exact hg

theorem memcpy_store {m s : List U8} {a b n : Nat} {β : Type} {g : List U8 → C β} {Q : β → Prop}
    (hs : b + n ≤ s.length) (ha : a + n ≤ m.length) (hg : Ret (g (store m a (load s b n))) Q) :
    Ret (memcpy m a s b n >>= g) Q := by
  rw [Ret_memcpy_bind]
  refine ⟨hs, ha, ?_⟩
  unfold store at hg
  rw [length_load hs] at hg
  exact hg

/-! ## Decapsulation -/

/-- Two programs that start with the same step. -/
theorem Ret.peel {α β γ : Type} {m : C α} {f : α → C β} {g : α → C γ} {P : β → Prop} {Q : γ → Prop}
    (h : Ret (m >>= f) P) (hg : ∀ a, Ret (f a) P → Ret (g a) Q) : Ret (m >>= g) Q := by
  rw [Ret_bind_iff] at h ⊢
  exact h.mono fun a ha => hg a ha

theorem length_decapsP (P : Params) (A : List U8 → Matrix (Fin P.n) (Fin P.n) (ZMod (2 ^ P.logq)))
    (c s : List U8) : (decaps (P.kem A) c s).length = P.bytes := by
  have h : ∀ x y : List U8, ∀ p : Prop, ∀ _ : Decidable p,
      (if p then (P.kem A).shake x (P.kem A).len else (P.kem A).shake y (P.kem A).len).length =
        P.bytes := by
    intro x y p _
    split <;> exact length_shakeFn _ _ _
  exact h _ _ _ _

theorem decShared_ret {B : Build} {E : Env} {P : Params} {addr ss ct sk : Nat} {mem : List U8}
    (hP : P.WF) (ha : B.alignedSa E (E.addr .Sp + 2 * (P.n * P.nbar)))
    (hg2 : (E.addr .G2in + P.bytes) % 2 = 0)
    (hal : (addr + sk + (P.bytes + P.pkBytes)) % 2 = 0)
    (hss : ss + P.bytes ≤ mem.length) (hct : ct + P.ctBytes ≤ mem.length)
    (hsk : sk + P.skBytes ≤ mem.length) :
    Ret (decShared B E P addr mem ss ct sk) (fun o =>
      o.1 = store mem ss (decaps (P.kem (B.matA P.logq P.n)) (load mem ct P.ctBytes)
        (load mem sk P.skBytes)) ∧ o.2 = 0) := by
  have hskl := hP.sk
  have h := crypto_kem_dec_ret (B := B) (E := E) (skAddr := addr + sk) (ss := mem.drop ss)
    (ct := mem.drop ct) (sk := mem.drop sk) hP ha hg2 hal (by rw [List.length_drop]; omega)
    (by rw [List.length_drop]; omega) (by rw [List.length_drop]; omega)
  unfold crypto_kem_dec at h
  unfold decShared
  rw [Ret_ptr_bind]
  refine ⟨by omega, h.peel fun S h => ?_⟩
  rw [Ret_ptr_bind]
  refine ⟨by omega, h.peel ?_⟩
  rintro ⟨Bp, Cm, W, G⟩ h
  simp only at h ⊢
  rw [Ret_memcpy_bind] at h ⊢
  obtain ⟨_, h0, h⟩ := h
  refine ⟨by omega, h0, ?_⟩
  rw [List.drop_drop] at h
  refine h.peel fun G2out h => h.peel ?_
  rintro ⟨inp, Sp⟩ h
  simp only at h ⊢
  rw [Ret_ptr_bind] at h ⊢
  obtain ⟨_, h⟩ := h
  refine ⟨by omega, ?_⟩
  rw [List.drop_drop] at h
  refine h.peel ?_
  rintro ⟨BBp, Sp2⟩ h
  simp only at h ⊢
  rw [Ret_ptr_bind] at h ⊢
  obtain ⟨h1, h⟩ := h
  rw [List.length_drop] at h1
  rw [List.drop_drop] at h
  refine ⟨by have := hP.pk; omega, h.peel fun muprime h => h.peel fun r h => ?_⟩
  rw [Ret_memcpy_bind] at h ⊢
  obtain ⟨_, h0, h⟩ := h
  refine ⟨by omega, h0, ?_⟩
  rw [List.drop_zero] at h
  refine h.peel fun BBp h => h.peel fun v1 h => h.peel fun v2 h => h.peel fun kprime h => ?_
  rw [Ret_ptr_bind]
  refine ⟨by omega, h.peel fun Fin h => ?_⟩
  rw [Ret_atPtr_bind]
  refine ⟨by omega, h.peel fun x h => ?_⟩
  refine h.peel fun _ h => h.peel fun _ h => h.peel fun _ h => h.peel fun _ h => h.peel fun _ h =>
    h.peel fun _ h => h.peel fun _ h => h.peel fun _ h => h.peel fun _ h => ?_
  rw [Ret_pure] at h ⊢
  refine ⟨?_, rfl⟩
  rw [show x = _ from h.1, List.drop_drop]
  unfold store load
  rw [length_decapsP, List.append_assoc]

/-! ## Encapsulation -/

theorem encShared_ret {B : Build} {E : Env} {P : Params} {rb : RandomBytes} {mem R : List U8}
    {ct ss pk : Nat} (hP : P.WF) (ha : B.alignedSa E (E.addr .Sp + 2 * (P.n * P.nbar)))
    (hg2 : (E.addr .G2in + P.bytes) % 2 = 0)
    (hrb : Ret (rb ((uninit E.junk 42 8 (P.bytes + P.bytesMu)).drop P.bytes) P.bytesMu) (·.1 = R))
    (hR : R.length = P.bytesMu) (hpk : pk + P.pkBytes ≤ mem.length)
    (hct : ct + P.ctBytes ≤ mem.length) (hss : ss + P.bytes ≤ mem.length) :
    Ret (encShared B E P rb mem ct ss pk) (fun o =>
      o.1 = encapsMem (P.kem (B.matA P.logq P.n)) R mem ct ss pk ∧ o.2 = 0) := by
  have hA := hP.seedA
  have hpkl := hP.pk
  have hctl := hP.ct
  have hmu := hP.bytes
  have e2 : 2 * P.n * P.nbar = 2 * (P.n * P.nbar) := Nat.mul_assoc _ _ _
  have e3 : (2 * P.n + P.nbar) * P.nbar = 2 * (P.n * P.nbar) + P.nbar * P.nbar := by ring
  have ec : P.nbar * P.n = P.n * P.nbar := Nat.mul_comm _ _
  have ecl : P.logq * P.nbar * P.n = P.logq * P.n * P.nbar := by ring
  have hq : 1 ≤ P.logq := by have := hP.B_lt; omega
  unfold encShared
  rw [Ret_ptr_bind]
  refine ⟨by omega, ?_⟩
  refine Ret.bind_eq (shake_ret (by rw [List.length_drop]; omega) (by simp)) ?_
  generalize hp0 : (mem.drop pk).take P.pkBytes = p0
  generalize hpkh : P.shake.fn p0 P.bytes = pkh
  have lpkh : pkh.length = P.bytes := by rw [← hpkh]; exact length_shakeFn _ _ _
  rw [Ret_ptr_bind]
  refine ⟨by simp; omega, ?_⟩
  rw [fill_drop0 lpkh, fill_take lpkh]
  refine hrb.bind fun x hx => ?_
  obtain ⟨R', rv⟩ := x
  simp only at hx
  subst hx
  simp only
  refine Ret.bind_eq (shake_ret (by simp; omega) (by simp; omega)) ?_
  rw [List.take_of_length_le (l := pkh ++ R') (by simp; omega),
    List.drop_eq_nil_of_le (as := uninit _ _ _ _) (by simp; omega), List.append_nil,
    ← Nat.two_mul]
  generalize hg : P.shake.fn (pkh ++ R') (2 * P.bytes) = g
  have lg : g.length = 2 * P.bytes := by rw [← hg]; exact length_shakeFn _ _ _
  rw [e3]
  refine Ret.bind_eq (expandNoise_ret hP (by omega) (by omega)) ?_
  simp only
  generalize hr : P.shake.fn (0x96 :: g.take P.bytes)
    ((2 * (P.n * P.nbar) + P.nbar * P.nbar) * 2) = r
  rw [Ret_ptr_bind]
  refine ⟨by omega, ?_⟩
  refine Ret.bind (mulSA_ret hP ha (by rw [List.length_drop]; omega) (by simp)) ?_
  rintro ⟨Bp, Sp⟩ ⟨h1, h2, h3⟩
  simp only at h1 h2 h3 ⊢
  rw [← e3] at hr
  have ht : p0.take P.seedA = (mem.drop pk).take 16 := by
    rw [← hp0, List.take_take, hA, Nat.min_eq_left (by omega)]
  have hE : ∀ p : List U8, encrypt (P.kem (B.matA P.logq P.n)) p R' (g.take P.bytes) =
      (modQ P.logq (sampleMatrix (P.cdf.map BitVec.toNat) P.nbar P.n r 0) *
            B.matA P.logq P.n (p.take P.seedA) +
          modQ P.logq (sampleMatrix (P.cdf.map BitVec.toNat) P.nbar P.n r (P.n * P.nbar)),
       modQ P.logq (sampleMatrix (P.cdf.map BitVec.toNat) P.nbar P.n r 0) *
          unpackMat P.logq P.n P.nbar (p.drop P.seedA) +
        modQ P.logq (sampleMatrix (P.cdf.map BitVec.toNat) P.nbar P.nbar r (2 * P.n * P.nbar)) +
        encode P.logq P.B P.nbar P.nbar R') := by
    intro p
    rw [encrypt_eq, hr]
  have hE1 : (encrypt (P.kem (B.matA P.logq P.n)) p0 R' (g.take P.bytes)).1 =
      toMat P.logq P.nbar P.n Bp := by
    rw [hE, h2, ht]
  generalize hc1 : packMat (toMat P.logq P.nbar P.n Bp) = c1
  have lc1 : c1.length = P.logq * P.n * P.nbar / 8 := by rw [← hc1, length_packMat, ecl]
  refine atPtr_store (v := c1) (by omega) ?_ ?_
  · refine (frodo_pack_ret hq hP.logq_le (by omega) (by rw [List.length_drop]; omega)).mono ?_
    rintro x rfl
    rw [List.take_of_length_le (l := Bp) (by omega),
      pack_toMat hq hP.logq_le (r := P.nbar) (c := P.n) (by omega), lc1, ← hc1]
    unfold packMat
    rw [ecl]
  generalize hm1 : store mem ct c1 = m1
  have lm1 : m1.length = mem.length := by rw [← hm1]; exact length_put (by omega)
  rw [Ret_ptr_bind]
  refine ⟨by omega, ?_⟩
  rw [Ret_ptr_bind]
  refine ⟨by simp; omega, ?_⟩
  rw [List.drop_left' lpkh]
  refine Ret.bind (encryptMu_ret hP hg2 h3 (by simp) (by simp) (by simp)
    (by rw [List.length_drop]; omega) (by omega)) ?_
  rintro ⟨Sp2, B2, V2, C2⟩ ⟨h4, h5, h6⟩
  simp only at h4 h5 h6 ⊢
  have h7 : C2 = ofMat (encrypt (P.kem (B.matA P.logq P.n)) (load m1 pk P.pkBytes) R'
      (g.take P.bytes)).2 := by
    rw [hE, h6]
    unfold load
    rw [List.drop_take, List.drop_drop]
    rfl
  clear h6
  generalize hM2 : (encrypt (P.kem (B.matA P.logq P.n)) (load m1 pk P.pkBytes) R'
      (g.take P.bytes)).2 = M2 at h7
  generalize hc2 : packMat M2 = c2
  have lc2 : c2.length = P.logq * P.nbar * P.nbar / 8 := by rw [← hc2]; exact length_packMat _
  refine atPtr_store (v := c2) (by omega) ?_ ?_
  · refine (frodo_pack_ret hq hP.logq_le (by rw [h7]; exact (length_ofMat _).ge)
      (by rw [List.length_drop]; omega)).mono ?_
    rintro x rfl
    rw [h7, List.take_of_length_le (by exact (length_ofMat _).le), lc2, ← hc2]
    rfl
  generalize hm2 : store m1 (ct + P.logq * P.n * P.nbar / 8) c2 = m2
  have lm2 : m2.length = mem.length := by rw [← hm2, length_put (by omega)]; exact lm1
  rw [Ret_memcpy_bind]
  refine ⟨by omega, by simp, ?_⟩
  rw [List.take_zero, List.nil_append, Nat.zero_add]
  generalize hc : (m2.drop ct).take P.ctBytes = c
  have lc : c.length = P.ctBytes := by rw [← hc, List.length_take, List.length_drop]; omega
  rw [Ret_memcpy_bind]
  refine ⟨by omega, by simp; omega, ?_⟩
  rw [fill_take lc, List.take_of_length_le (l := g.drop _) (by rw [List.length_drop]; omega),
    List.drop_eq_nil_of_le (as := c ++ _) (by simp; omega), List.append_nil]
  have lgd : (g.drop P.bytes).length = P.bytes := by rw [List.length_drop]; omega
  have lsh : (P.shake.fn (c ++ g.drop P.bytes) P.bytes).length = P.bytes := length_shakeFn _ _ _
  refine atPtr_store (v := P.shake.fn (c ++ g.drop P.bytes) P.bytes) (by omega) ?_ ?_
  · refine (shake_ret (by simp; omega) (by rw [List.length_drop]; omega)).mono ?_
    rintro x rfl
    rw [List.take_of_length_le (l := c ++ _) (by simp; omega), lsh]
  have hfin : store m2 ss (P.shake.fn (c ++ g.drop P.bytes) P.bytes) =
      encapsMem (P.kem (B.matA P.logq P.n)) R' mem ct ss pk := by
    have e5 : (P.kem (B.matA P.logq P.n)).lenPk = P.pkBytes := by rw [hpkl]; rfl
    have e6 : (P.kem (B.matA P.logq P.n)).lenCt = P.ctBytes := by rw [hctl]; rfl
    have e7 : (P.kem (B.matA P.logq P.n)).lenB = P.logq * P.n * P.nbar / 8 := rfl
    have e8 : (P.kem (B.matA P.logq P.n)).len = P.bytes := rfl
    have e9 : deriveSeeds (P.kem (B.matA P.logq P.n)) (P.shake.fn p0 P.bytes) R' =
        (g.take P.bytes, g.drop P.bytes) := by
      rw [deriveSeeds_eq, hpkh, hg]
    have e10 : (P.kem (B.matA P.logq P.n)).shake = P.shake.fn := rfl
    unfold encapsMem
    simp only
    rw [e5, e6, e7, e8, e10, show load mem pk P.pkBytes = p0 from hp0, e9]
    simp only
    rw [show packMat (encrypt (P.kem (B.matA P.logq P.n)) p0 R' (g.take P.bytes)).1 = c1 by
      rw [hE1]; exact hc1, hm1, hM2, show packMat M2 = c2 from hc2, hm2, show load m2 ct P.ctBytes = c from hc]
  rw [hfin]
  refine Ret.bind_eq (clearWords_ret (by omega)) ?_
  rw [e2]
  refine clear3_ret h4 ?_
  rw [Ret_atPtr_bind]
  refine ⟨by simp; omega, ?_⟩
  refine Ret.bind_eq (clear_bytes_ret (by simp; omega)) ?_
  refine Ret.bind_eq (clear_bytes_ret (by omega)) ?_
  rw [Ret_atPtr_bind]
  refine ⟨by simp; omega, ?_⟩
  refine Ret.bind_eq (clear_bytes_ret (by simp; omega)) ?_
  refine Ret.bind_eq (clear_bytes_ret (by simp; omega)) ?_
  rw [Ret_pure]
  exact ⟨rfl, rfl⟩

/-! ## Key generation -/

/-- The public key of `keypairHead` and the secret matrix that it leaves in `S`. -/
theorem keypairHead_ret {B : Build} {E : Env} {P : Params} {rb : RandomBytes} {mem R : List U8}
    {pk sk : Nat} (hP : P.WF) (ha : B.alignedAs E (E.addr .B) (E.addr .S + 2 * (P.n * P.nbar)))
    (hrb : Ret (rb (uninit E.junk 41 8 (2 * P.bytes + P.seedA)) (P.bytes + P.bytes + P.seedA))
      (·.1 = R)) (hR : R.length = 2 * P.bytes + P.seedA)
    (hpk : pk + P.pkBytes ≤ mem.length) (hsk : sk + P.skBytes ≤ mem.length) :
    Ret (keypairHead B E P rb mem pk sk) (fun o =>
      o.1 = store (store mem pk (keygen (P.kem (genA B.gen P.logq P.n)) (R.take P.bytes)
        ((R.drop P.bytes).take P.bytes) (R.drop (2 * P.bytes))).1) sk (R.take P.bytes) ∧
      o.2.1.length = 2 * (P.n * P.nbar) ∧
      toBytes .le (o.2.1.take (P.n * P.nbar)) = encodeS
        (keygenNoise (P.kem (genA B.gen P.logq P.n)) ((R.drop P.bytes).take P.bytes)).1 ∧
      o.2.2.1 = R ∧ o.2.2.2.length = 1 + P.bytes) := by
  have hA := hP.seedA
  have hpkl := hP.pk
  have hskl := hP.sk
  have e2 : 2 * P.n * P.nbar = 2 * (P.n * P.nbar) := Nat.mul_assoc _ _ _
  have ec : P.nbar * P.n = P.n * P.nbar := Nat.mul_comm _ _
  have hq : 1 ≤ P.logq := by have := hP.B_lt; omega
  unfold keypairHead
  refine hrb.bind fun x hx => ?_
  obtain ⟨R', rv⟩ := x
  simp only at hx
  subst hx
  simp only
  rw [Ret_ptr_bind]
  refine ⟨by omega, ?_⟩
  have hz : (R'.drop (2 * P.bytes)).take P.seedA = R'.drop (2 * P.bytes) :=
    List.take_of_length_le (by rw [List.length_drop]; omega)
  generalize hsA : P.shake.fn (R'.drop (2 * P.bytes)) P.seedA = sA
  have lsA : sA.length = P.seedA := by rw [← hsA]; exact length_shakeFn _ _ _
  refine atPtr_store (v := sA) (by omega) ?_ ?_
  · refine (shake_ret (by rw [List.length_drop]; omega) (by rw [List.length_drop]; omega)).mono ?_
    rintro x rfl
    rw [hz, hsA, lsA]
  generalize hm1 : store mem pk sA = m1
  have lm1 : m1.length = mem.length := by rw [← hm1]; exact length_put (by omega)
  rw [Ret_ptr_bind]
  refine ⟨by omega, ?_⟩
  rw [e2]
  refine Ret.bind_eq (expandNoise_ret hP (by rw [List.length_drop]; omega) (Nat.le_refl _)) ?_
  simp only
  generalize hsd : (R'.drop P.bytes).take P.bytes = sd
  have lsd : sd.length = P.bytes := by rw [← hsd, List.length_take, List.length_drop]; omega
  generalize hr : P.shake.fn (0x5F :: sd) (2 * (P.n * P.nbar) * 2) = r
  generalize hT : P.cdf.map BitVec.toNat = T
  generalize hW : noiseW T r (2 * (P.n * P.nbar)) (P.n * P.nbar + P.n * P.nbar) = W
  have lW : W.length = 2 * (P.n * P.nbar) := by rw [← hW]; exact length_noiseW _ _ _ _
  have nW : ∀ k, k < 2 * (P.n * P.nbar) → nth W k = BitVec.ofInt 16 (sample T (word16 r k)) := by
    intro k hk
    rw [← hW, nth_noiseW hk, if_pos (by omega)]
  rw [Ret_ptr_bind]
  refine ⟨by omega, ?_⟩
  rw [Ret_ptr_bind]
  refine ⟨by omega, ?_⟩
  refine Ret.bind_eq (frodo_mul_add_as_plus_e_ret hP (by rw [List.length_drop]; omega) ha (by simp)
    (by omega) (by rw [List.length_drop]; omega)) ?_
  have htk : (m1.drop pk).take 16 = sA := by
    have := load_store (m := mem) (v := sA) (a := pk) (by omega)
    rw [hm1, lsA, hA] at this
    exact this
  generalize hBm : asResult B.gen P (m1.drop pk) W (W.drop (P.n * P.nbar))
    (List.replicate (P.n * P.nbar) 0) = Bm
  have lBm : Bm.length = P.n * P.nbar := by
    rw [← hBm, length_asResult _ _ _ _ _ _ (by simp)]; simp
  have mBm : toMat P.logq P.n P.nbar Bm = genA B.gen P.logq P.n sA *
      (modQ P.logq (sampleMatrix T P.nbar P.n r 0)).transpose +
      modQ P.logq (sampleMatrix T P.n P.nbar r (P.n * P.nbar)) := by
    rw [← hBm, toMat_asResult hP.logq_le, htk]
    congr 1
    · congr 2
      refine toMat_noise hP.logq_le fun k hk => ?_
      rw [nW k (by omega), Nat.zero_add]
    · refine toMat_noise hP.logq_le fun k hk => ?_
      rw [nth_drop, nW _ (by omega)]
  generalize hbb : packMat (genA B.gen P.logq P.n sA *
      (modQ P.logq (sampleMatrix T P.nbar P.n r 0)).transpose +
      modQ P.logq (sampleMatrix T P.n P.nbar r (P.n * P.nbar))) = b
  have lb : b.length = P.pkBytes - P.seedA := by
    rw [← hbb, length_packMat]; omega
  refine atPtr_store (v := b) (by omega) ?_ ?_
  · refine (frodo_pack_ret hq hP.logq_le (by omega) (by rw [List.length_drop]; omega)).mono ?_
    rintro x rfl
    rw [List.take_of_length_le (by omega), pack_toMat hq hP.logq_le (r := P.n) (c := P.nbar) lBm, mBm,
      lb, ← hbb, hpkl, Nat.add_sub_cancel_left]
    rfl
  have hm2 : store m1 (pk + P.seedA) b = store mem pk (sA ++ b) := by
    rw [← hm1, ← lsA]
    exact store_store (by omega)
  rw [hm2]
  have l2 : (store mem pk (sA ++ b)).length = mem.length :=
    length_put (by rw [List.length_append]; omega)
  refine memcpy_store (by omega) (by omega) ?_
  rw [Ret_pure]
  have hkg : (keygen (P.kem (genA B.gen P.logq P.n)) (R'.take P.bytes) sd (R'.drop (2 * P.bytes))).1 =
      sA ++ b := by
    rw [keygen_eq, hsA, hT, e2, hr, hbb]
  have hSt : encodeS (sampleMatrix T P.nbar P.n r 0) = toBytes .le (W.take (P.n * P.nbar)) := by
    refine encodeS_eq _ (by rw [List.length_take]; omega) fun i j => ?_
    have := idx_lt i.isLt j.isLt
    rw [nth_take, if_pos (by omega), nW _ (by omega)]
    show _ = BitVec.ofInt 16 (sample T (word16 r (0 + _)))
    rw [Nat.zero_add]
  have hkn : (keygenNoise (P.kem (genA B.gen P.logq P.n)) sd).1 = sampleMatrix T P.nbar P.n r 0 := by
    rw [← hT, ← hr, ← e2]; rfl
  refine ⟨?_, lW, ?_, rfl, by simp; omega⟩
  · rw [hkg]; rfl
  · rw [hkn]; exact hSt.symm

theorem keypairTail_ret {B : Build} {E : Env} {P : Params} {mem R inp : List U8} {S : List U16}
    {pk sk : Nat} (hP : P.WF) (hS : S.length = 2 * (P.n * P.nbar)) (hR : 2 * P.bytes ≤ R.length)
    (hi : inp.length = 1 + P.bytes) (hd : Apart (sk + P.bytes) P.pkBytes pk P.pkBytes)
    (hpk : pk + P.pkBytes ≤ mem.length) (hsk : sk + P.skBytes ≤ mem.length) {m1 m2 : List U8}
    (h1 : m1 = store mem (sk + P.bytes) (load mem pk P.pkBytes))
    (h2 : m2 = store m1 (sk + P.bytes + P.pkBytes) (toBytes .le (S.take (P.n * P.nbar)))) :
    Ret (keypairTail B E P mem pk sk S R inp) (fun o =>
      o.1 = store m2 (sk + P.bytes + P.pkBytes + 2 * P.n * P.nbar)
        (P.shake.fn (load m2 pk P.pkBytes) P.bytes) ∧ o.2 = 0) := by
  have hskl := hP.sk
  have e2 : 2 * P.n * P.nbar = 2 * (P.n * P.nbar) := Nat.mul_assoc _ _ _
  have ll := length_load hpk
  have lm1 : m1.length = mem.length := by rw [h1]; exact length_put (by omega)
  have lW1 : (toBytes .le (S.take (P.n * P.nbar))).length = 2 * (P.n * P.nbar) := by
    rw [length_toBytes, List.length_take]; omega
  have lm2 : m2.length = mem.length := by rw [h2, length_put (by omega)]; exact lm1
  unfold keypairTail memcpyIn
  rw [Ret_assoc, Ret_require_bind]
  refine ⟨hd, memcpy_store hpk (by omega) ?_⟩
  rw [← h1]
  refine Ret.bind_eq (toLeLoop_ret (by omega)) ?_
  have lS2 : ((S.take (P.n * P.nbar)).map (UINT16_TO_LE B.arch) ++ S.drop (P.n * P.nbar)).length =
      2 * (P.n * P.nbar) := by
    simp; omega
  refine memcpy_store (by rw [length_toBytes, lS2]; omega) (by omega) ?_
  have hl : load (toBytes B.arch ((S.take (P.n * P.nbar)).map (UINT16_TO_LE B.arch) ++
      S.drop (P.n * P.nbar))) 0 (2 * P.n * P.nbar) = toBytes .le (S.take (P.n * P.nbar)) := by
    unfold load
    rw [List.drop_zero, toBytes_append, toBytes_swap, List.take_left' (by rw [lW1, e2])]
  rw [hl, ← Nat.add_assoc sk, ← h2, Ret_ptr_bind]
  refine ⟨by omega, ?_⟩
  have lsh : (P.shake.fn (load m2 pk P.pkBytes) P.bytes).length = P.bytes := length_shakeFn _ _ _
  refine atPtr_store (v := P.shake.fn (load m2 pk P.pkBytes) P.bytes) (by omega) ?_ ?_
  · refine (shake_ret (by rw [List.length_drop]; omega) (by rw [List.length_drop]; omega)).mono ?_
    rintro x rfl
    rw [lsh]; rfl
  refine Ret.bind_eq (clearWords_ret (by omega)) ?_
  refine Ret.bind_eq (clearWords_ret (by simp; omega)) ?_
  refine Ret.bind_eq (clear_bytes_ret (by omega)) ?_
  refine Ret.bind_eq (clear_bytes_ret (by omega)) ?_
  rw [Ret_pure]
  refine ⟨?_, rfl⟩
  simp only [Nat.add_assoc]

/-- The ranges of the public key and of its copy in the secret key overlap. -/
theorem keypairTail_ub {B : Build} {E : Env} {P : Params} {mem R inp : List U8} {S : List U16}
    {pk sk : Nat} (hd : ¬ Apart (sk + P.bytes) P.pkBytes pk P.pkBytes) :
    keypairTail B E P mem pk sk S R inp = C.ub .overlap := by
  unfold Apart at hd
  unfold keypairTail memcpyIn C.require
  rw [if_neg hd]
  rfl

end Frodo
