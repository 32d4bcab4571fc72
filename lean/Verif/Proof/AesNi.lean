import Verif.Proof.Aes

/-! # The AES-NI code and the block mode -/

namespace Frodo

open C

set_option linter.unusedSimpArgs false
set_option linter.unusedVariables false

theorem aes128_enc_c_ret {inp sch out : List U8} (hi : 16 ≤ inp.length) (hs : 176 ≤ sch.length)
    (ho : 16 ≤ out.length) : Ret (aes128_enc_c inp sch out) (· = Spec.bytesOfState
      (Spec.Cipher 10 (Spec.stateOfBytes inp) (schedWords sch)) ++ out.drop 16) := by
  unfold aes128_enc_c
  simp only [wp]
  refine ⟨by omega, by omega, ?_⟩
  refine (cipher_c_ret (by simp; omega) (by omega) (by omega)).of_eq ?_
  have e : ∀ l : List U8, Spec.stateOfBytes (inp.take 16 ++ l) = Spec.stateOfBytes inp := by
    intro l; funext r c
    unfold Spec.stateOfBytes
    rw [nth_append, if_pos (by simp; omega), nth_take, if_pos (by omega)]
  have hl : (inp.take 16).length = 16 := by simp; omega
  simp [e, List.drop_append_of_le_length, hl]

theorem aes256_enc_c_ret {inp sch out : List U8} (hi : 16 ≤ inp.length) (hs : 240 ≤ sch.length)
    (ho : 16 ≤ out.length) : Ret (aes256_enc_c inp sch out) (· = Spec.bytesOfState
      (Spec.Cipher 14 (Spec.stateOfBytes inp) (schedWords sch)) ++ out.drop 16) := by
  unfold aes256_enc_c
  simp only [wp]
  refine ⟨by omega, by omega, ?_⟩
  refine (cipher_c_ret (by simp; omega) (by omega) (by omega)).of_eq ?_
  have e : ∀ l : List U8, Spec.stateOfBytes (inp.take 16 ++ l) = Spec.stateOfBytes inp := by
    intro l; funext r c
    unfold Spec.stateOfBytes
    rw [nth_append, if_pos (by simp; omega), nth_take, if_pos (by omega)]
  have hl : (inp.take 16).length = 16 := by simp; omega
  simp [e, List.drop_append_of_le_length, hl]

/-! ## Vectors -/

@[wp] theorem Ret_loadu_bind {l : List U8} {off : Nat} {f : M128 → C β} {P : β → Prop} :
    Ret (mm_loadu l off >>= f) P ↔ off + 16 ≤ l.length ∧ Ret (f fun t => nth l (off + t)) P := by
  unfold mm_loadu
  simp only [wp]

@[wp] theorem Ret_get_bind {a : Nat} {l : List U8} {i : Nat} {f : M128 → C β} {P : β → Prop} :
    Ret (mm_get a l i >>= f) P ↔
      a % 16 = 0 ∧ 16 * i + 16 ≤ l.length ∧ Ret (f fun t => nth l (16 * i + t)) P := by
  unfold mm_get
  simp only [wp]

@[wp] theorem Ret_storeu {l : List U8} {off : Nat} {v : M128} {P : List U8 → Prop} :
    Ret (mm_storeu l off v) P ↔ off + 16 ≤ l.length ∧
      P (l.take off ++ (List.finRange 16).map v ++ l.drop (off + 16)) := by
  unfold mm_storeu
  simp only [wp]

@[wp] theorem Ret_put {a : Nat} {l : List U8} {i : Nat} {v : M128} {P : List U8 → Prop} :
    Ret (mm_put a l i v) P ↔ a % 16 = 0 ∧ 16 * i + 16 ≤ l.length ∧
      P (l.take (16 * i) ++ (List.finRange 16).map v ++ l.drop (16 * i + 16)) := by
  unfold mm_put
  simp only [wp]

theorem nth_finRange_map16 (v : M128) (t : Fin 16) : nth ((List.finRange 16).map v) t = v t := by
  unfold nth
  simp [List.getD]

theorem nth_store {l : List U8} {off t : Nat} {v : M128} (h : off + 16 ≤ l.length) :
    nth (l.take off ++ (List.finRange 16).map v ++ l.drop (off + 16)) t =
      if h : off ≤ t ∧ t < off + 16 then v ⟨t - off, by omega⟩ else nth l t := by
  have hl : (l.take off).length = off := by simp; omega
  rw [nth_append, nth_append]
  simp only [List.length_append, hl, List.length_map, List.length_finRange]
  by_cases h1 : t < off
  · rw [if_pos (by omega), if_pos h1, dif_neg (by omega), nth_take, if_pos h1]
  · by_cases h2 : t < off + 16
    · rw [if_pos h2, if_neg h1, dif_pos ⟨by omega, h2⟩]
      exact nth_finRange_map16 v ⟨t - off, by omega⟩
    · rw [if_neg h2, dif_neg (by omega), nth_drop]
      congr 1; omega

theorem length_store {l : List U8} {off : Nat} {v : M128} (h : off + 16 ≤ l.length) :
    (l.take off ++ (List.finRange 16).map v ++ l.drop (off + 16)).length = l.length := by
  simp; omega

theorem slli4 (a : M128) (d b : Fin 4) : (mm_slli a 4).dword d b =
    if h : d = 0 then 0 else a.dword (d - 1) b := by
  fin_cases d <;> fin_cases b <;> rfl

theorem xor_dword (a b : M128) (d : Fin 4) (i : Fin 4) :
    (mm_xor a b).dword d i = a.dword d i ^^^ b.dword d i := rfl

theorem ofDwords_dword (f : Fin 4 → Fin 4 → U8) (d b : Fin 4) :
    (M128.ofDwords f).dword d b = f d b := by
  fin_cases d <;> fin_cases b <;> rfl

theorem key_expand_dword (k g : M128) (b : Fin 4) :
    (key_expand k g).dword 0 b = k.dword 0 b ^^^ g.dword 3 b ∧
    (key_expand k g).dword 1 b = k.dword 1 b ^^^ (k.dword 0 b ^^^ g.dword 3 b) ∧
    (key_expand k g).dword 2 b = k.dword 2 b ^^^ (k.dword 1 b ^^^ (k.dword 0 b ^^^ g.dword 3 b)) ∧
    (key_expand k g).dword 3 b = k.dword 3 b ^^^ (k.dword 2 b ^^^ (k.dword 1 b ^^^
      (k.dword 0 b ^^^ g.dword 3 b))) := by
  unfold key_expand mm_shuffle
  simp only [xor_dword, slli4, ofDwords_dword]
  simp
  generalize k.dword 0 b = a
  generalize k.dword 1 b = c
  generalize k.dword 2 b = d
  generalize k.dword 3 b = e
  generalize g.dword 3 b = x
  refine ⟨?_, ?_, ?_⟩ <;> apply BitVec.eq_of_getLsbD_eq <;> intro i hi <;>
    simp only [BitVec.getLsbD_xor] <;>
    cases a.getLsbD i <;> cases c.getLsbD i <;> cases d.getLsbD i <;> cases e.getLsbD i <;>
    cases x.getLsbD i <;> rfl

theorem key_expand1_eq (k g : M128) : key_expand1 k g = key_expand k (fun t => g ⟨(t.val + 12) % 16,
    by omega⟩) := by
  unfold key_expand1 key_expand
  congr 1
  funext t
  fin_cases t <;> rfl

/-- The words held in vector `i` of memory. -/
def vec (l : List U8) (i : Nat) : M128 := fun t => nth l (16 * i + t)

theorem vec_dword {Nk : Nat} {key rk o : List U8} {n i : Nat} (h : SchedInv Nk key rk n o)
    (hi : 4 * i + 4 ≤ n) (d b : Fin 4) :
    (vec o i).dword d b = Spec.keyWord Nk key (4 * i + d) b := by
  rw [← h.2.1 _ (by omega)]
  unfold vec M128.dword
  simp only
  congr 1
  omega

theorem SchedInv.put {Nk : Nat} {key rk o : List U8} {i : Nat} {v : M128}
    (h : SchedInv Nk key rk (4 * i) o) (hl : 16 * i + 16 ≤ rk.length)
    (hv : ∀ d b : Fin 4, v.dword d b = Spec.keyWord Nk key (4 * i + d) b) :
    SchedInv Nk key rk (4 * (i + 1))
      (o.take (16 * i) ++ (List.finRange 16).map v ++ o.drop (16 * i + 16)) := by
  obtain ⟨h1, h2, h3⟩ := h
  have hl' : 16 * i + 16 ≤ o.length := by omega
  refine ⟨by rw [length_store hl', h1], ?_, ?_⟩
  · intro w hw j
    rw [nth_store hl']
    by_cases hc : w < 4 * i
    · rw [dif_neg (by omega)]; exact h2 w hc j
    · rw [dif_pos (by omega)]
      have := hv ⟨w - 4 * i, by omega⟩ j
      rw [show 4 * i + (⟨w - 4 * i, by omega⟩ : Fin 4).val = w by simp; omega] at this
      rw [← this]
      unfold M128.dword
      congr 1
      apply Fin.ext; simp; omega
  · intro t ht
    rw [nth_store hl', dif_neg (by omega)]
    exact h3 t (by omega)

theorem keygen_dword3 (a : M128) (imm : U8) (b : Fin 4) : (mm_keygenassist a imm).dword 3 b =
    Spec.xorWord (Spec.RotWord (Spec.SubWord (a.dword 3))) (fun j => if j = 0 then imm else 0) b := by
  unfold mm_keygenassist
  rw [ofDwords_dword]

theorem keygen_dword2 (a : M128) (imm : U8) (b : Fin 4) : (mm_keygenassist a imm).dword 2 b =
    Spec.SubWord (a.dword 3) b := by
  unfold mm_keygenassist
  rw [ofDwords_dword]

/-- The words of one further key, when the generating word is `g`. -/
theorem expand_words {Nk : Nat} {key : List U8} {i k : Nat} {K g : M128} (hNk : Nk = 4 ∨ Nk = 8)
    (hk : ∀ d b : Fin 4, K.dword d b = Spec.keyWord Nk key (4 * k + d) b) (hi : 4 * i = 4 * k + Nk)
    (hg : ∀ b, g.dword 3 b = schedTemp Nk (4 * i) (Spec.keyWord Nk key (4 * i - 1)) b) :
    ∀ d b : Fin 4, (key_expand K g).dword d b = Spec.keyWord Nk key (4 * i + d) b := by
  have hw : ∀ d b : Fin 4, Spec.keyWord Nk key (4 * i + d) b = Spec.keyWord Nk key (4 * k + d) b ^^^
      (schedTemp Nk (4 * i + d) (Spec.keyWord Nk key (4 * i + d - 1))) b := by
    intro d b
    rw [Spec.keyWord.eq_def Nk key (4 * i + d), dif_neg (by omega),
      show 4 * i + d.val - Nk = 4 * k + d by omega]
    rfl
  have hs : ∀ d : Fin 4, d ≠ 0 → ∀ w, schedTemp Nk (4 * i + d) w = w := by
    intro d hd w
    have : d.val ≠ 0 := fun h => hd (Fin.ext h)
    unfold schedTemp
    rcases hNk with rfl | rfl
    · rw [if_neg (by omega), if_neg (by omega)]
    · rw [if_neg (by omega), if_neg (by omega)]
  intro d b
  obtain ⟨e0, e1, e2, e3⟩ := key_expand_dword K g b
  have w0 := hw 0 b
  have w1 := hw 1 b
  have w2 := hw 2 b
  have w3 := hw 3 b
  rw [hs 1 (by decide)] at w1
  rw [hs 2 (by decide)] at w2
  rw [hs 3 (by decide)] at w3
  have k0 := hk 0 b
  have k1 := hk 1 b
  have k2 := hk 2 b
  have k3 := hk 3 b
  simp only [Fin.isValue, Fin.val_zero, Fin.val_one, Fin.val_two, Nat.add_zero,
    show ((3 : Fin 4) : Nat) = 3 from rfl, Nat.add_sub_cancel,
    show 4 * i + 2 - 1 = 4 * i + 1 by omega, show 4 * i + 3 - 1 = 4 * i + 2 by omega] at *
  have f0 : (key_expand K g).dword 0 b = Spec.keyWord Nk key (4 * i) b := by
    rw [e0, w0, k0, hg]
  have f1 : (key_expand K g).dword 1 b = Spec.keyWord Nk key (4 * i + 1) b := by
    rw [e1, w1, ← e0, f0, k1]
  have f2 : (key_expand K g).dword 2 b = Spec.keyWord Nk key (4 * i + 2) b := by
    rw [e2, w2, ← e1, f1, k2]
  have f3 : (key_expand K g).dword 3 b = Spec.keyWord Nk key (4 * i + 3) b := by
    rw [e3, w3, ← e2, f2, k3]
  fin_cases d
  · exact f0
  · exact f1
  · exact f2
  · exact f3

theorem key_exp_ni_ret {a i : Nat} {rc : U8} {key rk o : List U8} (ha : a % 16 = 0)
    (hl : 16 * (i + 1) + 16 ≤ rk.length) (h : SchedInv 4 key rk (4 * (i + 1)) o)
    (hrc : rc = Spec.gpow 2 i) :
    Ret (key_exp_ni a o (i + 1) i rc) (SchedInv 4 key rk (4 * (i + 1 + 1))) := by
  unfold key_exp_ni
  have := h.1
  simp only [wp]
  refine ⟨ha, by omega, ha, by omega, ?_⟩
  refine h.put (by omega) ?_
  refine expand_words (Or.inl rfl) (k := i) (vec_dword h (by omega)) (by omega) ?_
  intro b
  rw [keygen_dword3]
  have : (M128.dword (fun t : Fin 16 => nth o (16 * i + t.val)) 3) = Spec.keyWord 4 key (4 * i + 3) := by
    funext b; exact vec_dword h (by omega) 3 b
  rw [this]
  unfold schedTemp
  rw [if_pos (by omega), show 4 * (i + 1) - 1 = 4 * i + 3 by omega]
  unfold Spec.xorWord Spec.Rcon
  rw [hrc, show 4 * (i + 1) / 4 - 1 = i by omega]
  rfl

theorem key_exp256_ni_ret {a i : Nat} {rc : U8} {key rk o : List U8} (ha : a % 16 = 0)
    (hl : 16 * (2 * i + 2) + 16 ≤ rk.length) (h : SchedInv 8 key rk (4 * (2 * i + 2)) o)
    (hrc : rc = Spec.gpow 2 i) :
    Ret (key_exp256_ni a o (2 * i + 2) (2 * i) (2 * i + 1) rc)
      (SchedInv 8 key rk (4 * (2 * i + 3))) := by
  unfold key_exp256_ni
  have := h.1
  simp only [wp]
  refine ⟨ha, by omega, ha, by omega, ha, by omega, ?_⟩
  refine h.put (by omega) ?_
  refine expand_words (Or.inr rfl) (k := 2 * i) (vec_dword h (by omega)) (by omega) ?_
  intro b
  rw [keygen_dword3]
  have : (M128.dword (fun t : Fin 16 => nth o (16 * (2 * i + 1) + t.val)) 3) =
      Spec.keyWord 8 key (4 * (2 * i + 1) + 3) := by
    funext b; exact vec_dword h (by omega) 3 b
  rw [this]
  unfold schedTemp
  rw [if_pos (by omega), show 4 * (2 * i + 2) - 1 = 4 * (2 * i + 1) + 3 by omega]
  unfold Spec.xorWord Spec.Rcon
  rw [hrc, show 4 * (2 * i + 2) / 8 - 1 = i by omega]
  rfl

theorem key_exp256b_ni_ret {a i : Nat} {rc : U8} {key rk o : List U8} (ha : a % 16 = 0)
    (hl : 16 * (2 * i + 3) + 16 ≤ rk.length) (h : SchedInv 8 key rk (4 * (2 * i + 3)) o) :
    Ret (key_exp256b_ni a o (2 * i + 3) (2 * i + 1) (2 * i + 2) rc)
      (SchedInv 8 key rk (4 * (2 * i + 4))) := by
  unfold key_exp256b_ni
  have := h.1
  simp only [wp]
  refine ⟨ha, by omega, ha, by omega, ha, by omega, ?_⟩
  refine h.put (by omega) ?_
  rw [key_expand1_eq]
  refine expand_words (Or.inr rfl) (k := 2 * i + 1) (vec_dword h (by omega)) (by omega) ?_
  intro b
  have e : (M128.dword (fun t : Fin 16 => mm_keygenassist (fun t => nth o (16 * (2 * i + 2) + t.val))
      rc ⟨(t.val + 12) % 16, by omega⟩) 3 b) =
      (mm_keygenassist (fun t => nth o (16 * (2 * i + 2) + t.val)) rc).dword 2 b := by
    unfold M128.dword
    simp only
    congr 1
    apply Fin.ext
    simp
    omega
  rw [e, keygen_dword2]
  have : (M128.dword (fun t : Fin 16 => nth o (16 * (2 * i + 2) + t.val)) 3) =
      Spec.keyWord 8 key (4 * (2 * i + 2) + 3) := by
    funext b; exact vec_dword h (by omega) 3 b
  rw [this]
  unfold schedTemp
  rw [if_neg (by omega), if_pos (by omega), show 4 * (2 * i + 3) - 1 = 4 * (2 * i + 2) + 3 by omega]

theorem SchedInv.final {Nk n : Nat} {key rk o : List U8} (h : SchedInv Nk key rk n o)
    (hl : 4 * n ≤ rk.length) : o = schedBytes Nk n key ++ rk.drop (4 * n) := by
  obtain ⟨h1, h2, h3⟩ := h
  apply ext_nth
  · rw [List.length_append, length_schedBytes, List.length_drop, h1]; omega
  · intro t _
    rw [nth_append, length_schedBytes]
    split
    · rename_i ht
      unfold schedBytes
      rw [nth_range_map, if_pos ht]
      have := h2 (t / 4) (by omega) ⟨t % 4, by omega⟩
      rw [show (t / 4) * 4 + (⟨t % 4, by omega⟩ : Fin 4).val = t by simp; omega] at this
      rw [this]
      congr 1
    · rw [nth_drop, h3 t (by omega)]
      congr 1; omega

theorem loadu_words {key : List U8} {Nk i : Nat} (h : 4 * i + 4 ≤ Nk) (d b : Fin 4) :
    M128.dword (fun t : Fin 16 => nth key (16 * i + t.val)) d b =
      Spec.keyWord Nk key (4 * i + d) b := by
  rw [Spec.keyWord.eq_def, dif_pos (Or.inl (by omega))]
  unfold M128.dword
  simp only
  congr 1
  omega

theorem aes128_load_schedule_ni_ret {a : Nat} {key rk : List U8} (ha : a % 16 = 0)
    (hk : 16 ≤ key.length) (hrk : 176 ≤ rk.length) :
    Ret (aes128_load_schedule_ni a key rk) (· = schedBytes 4 44 key ++ rk.drop 176) := by
  unfold aes128_load_schedule_ni
  rw [Ret_loadu_bind]
  refine ⟨by omega, ?_⟩
  have h0 : SchedInv 4 key rk (4 * 0) rk := ⟨rfl, by intro i hi; omega, fun _ _ => rfl⟩
  refine Ret.bind (Q := SchedInv 4 key rk (4 * (0 + 1))) ?_ ?_
  · rw [Ret_put]
    exact ⟨ha, by omega, h0.put (by omega) (loadu_words (i := 0) (by omega))⟩
  intro o h
  refine (key_exp_ni_ret ha (by omega) h (by decide)).bind fun o h => ?_
  refine (key_exp_ni_ret ha (by omega) h (by decide)).bind fun o h => ?_
  refine (key_exp_ni_ret ha (by omega) h (by decide)).bind fun o h => ?_
  refine (key_exp_ni_ret ha (by omega) h (by decide)).bind fun o h => ?_
  refine (key_exp_ni_ret ha (by omega) h (by decide)).bind fun o h => ?_
  refine (key_exp_ni_ret ha (by omega) h (by decide)).bind fun o h => ?_
  refine (key_exp_ni_ret ha (by omega) h (by decide)).bind fun o h => ?_
  refine (key_exp_ni_ret ha (by omega) h (by decide)).bind fun o h => ?_
  refine (key_exp_ni_ret ha (by omega) h (by decide)).bind fun o h => ?_
  refine (key_exp_ni_ret ha (by omega) h (by decide)).mono fun o h => ?_
  exact h.final (by omega)

theorem aes256_load_schedule_ni_ret {a : Nat} {key rk : List U8} (ha : a % 16 = 0)
    (hk : 32 ≤ key.length) (hrk : 240 ≤ rk.length) :
    Ret (aes256_load_schedule_ni a key rk) (· = schedBytes 8 60 key ++ rk.drop 240) := by
  unfold aes256_load_schedule_ni
  rw [Ret_loadu_bind]
  refine ⟨by omega, ?_⟩
  have h0 : SchedInv 8 key rk (4 * 0) rk := ⟨rfl, by intro i hi; omega, fun _ _ => rfl⟩
  refine Ret.bind (Q := SchedInv 8 key rk (4 * (0 + 1))) ?_ ?_
  · rw [Ret_put]
    exact ⟨ha, by omega, h0.put (by omega) (loadu_words (i := 0) (by omega))⟩
  intro o h
  rw [Ret_loadu_bind]
  refine ⟨by omega, ?_⟩
  refine Ret.bind (Q := SchedInv 8 key rk (4 * (1 + 1))) ?_ ?_
  · rw [Ret_put]
    have := h.1
    exact ⟨ha, by omega, h.put (by omega) (loadu_words (i := 1) (by omega))⟩
  intro o h
  refine (key_exp256_ni_ret (i := 0) ha (by omega) h (by decide)).bind fun o h => ?_
  refine (key_exp256b_ni_ret (i := 0) ha (by omega) h).bind fun o h => ?_
  refine (key_exp256_ni_ret (i := 1) ha (by omega) h (by decide)).bind fun o h => ?_
  refine (key_exp256b_ni_ret (i := 1) ha (by omega) h).bind fun o h => ?_
  refine (key_exp256_ni_ret (i := 2) ha (by omega) h (by decide)).bind fun o h => ?_
  refine (key_exp256b_ni_ret (i := 2) ha (by omega) h).bind fun o h => ?_
  refine (key_exp256_ni_ret (i := 3) ha (by omega) h (by decide)).bind fun o h => ?_
  refine (key_exp256b_ni_ret (i := 3) ha (by omega) h).bind fun o h => ?_
  refine (key_exp256_ni_ret (i := 4) ha (by omega) h (by decide)).bind fun o h => ?_
  refine (key_exp256b_ni_ret (i := 4) ha (by omega) h).bind fun o h => ?_
  refine (key_exp256_ni_ret (i := 5) ha (by omega) h (by decide)).bind fun o h => ?_
  refine (key_exp256b_ni_ret (i := 5) ha (by omega) h).bind fun o h => ?_
  refine (key_exp256_ni_ret (i := 6) ha (by omega) h (by decide)).mono fun o h => ?_
  exact h.final (by omega)

/-! ## Encryption -/

theorem ofState_state (s : Spec.AState) : (M128.ofState s).state = s := by
  funext r c
  unfold M128.ofState M128.state
  rw [ofDwords_dword]

theorem xor_state (m : M128) (sch : List U8) (i : Nat) :
    (mm_xor m (fun t => nth sch (16 * i + t.val))).state =
      Spec.AddRoundKey m.state (schedWords sch) i := by
  funext r c
  unfold Spec.AddRoundKey M128.state schedWords
  rw [xor_dword]
  congr 1
  unfold M128.dword
  simp only
  congr 1
  omega

theorem aesenc_state (m : M128) (sch : List U8) (i : Nat) :
    (mm_aesenc m (fun t => nth sch (16 * i + t.val))).state = Spec.AddRoundKey
      (Spec.MixColumns (Spec.ShiftRows (Spec.SubBytes m.state))) (schedWords sch) i := by
  unfold mm_aesenc
  rw [xor_state, ofState_state]
  rfl

theorem aesenclast_state (m : M128) (sch : List U8) (i : Nat) :
    (mm_aesenclast m (fun t => nth sch (16 * i + t.val))).state = Spec.AddRoundKey
      (Spec.ShiftRows (Spec.SubBytes m.state)) (schedWords sch) i := by
  unfold mm_aesenclast
  rw [xor_state, ofState_state]
  rfl

theorem bytes_of_vec (m : M128) : (List.finRange 16).map m = Spec.bytesOfState m.state := by
  apply ext_nth
  · rw [length_bytesOfState]; simp
  · intro i hi
    have hi : i < 16 := by simpa using hi
    have h1 := nth_finRange_map16 m ⟨i, hi⟩
    have h2 := nth_bytesOfState m.state ⟨i % 4, by omega⟩ ⟨i / 4, by omega⟩
    simp only [show 4 * (i / 4) + i % 4 = i by omega] at h1 h2
    rw [h1, h2]
    unfold M128.state M128.dword
    congr 1
    apply Fin.ext; simp; omega

theorem load_state (inp : List U8) :
    M128.state (fun t : Fin 16 => nth inp (0 + t.val)) = Spec.stateOfBytes inp := by
  funext r c
  unfold M128.state M128.dword Spec.stateOfBytes
  simp

theorem aes128_enc_ni_ret {a : Nat} {inp sch out : List U8} (ha : a % 16 = 0)
    (hi : 16 ≤ inp.length) (hs : 176 ≤ sch.length) (ho : 16 ≤ out.length) :
    Ret (aes128_enc_ni a inp sch out) (· = Spec.bytesOfState
      (Spec.Cipher 10 (Spec.stateOfBytes inp) (schedWords sch)) ++ out.drop 16) := by
  unfold aes128_enc_ni
  simp only [wp]
  refine ⟨by omega, ha, by omega, ?_⟩
  refine Ret.bind (Q := fun m : M128 => m.state = (List.range 9).foldl
    (fun s k => Spec.AddRoundKey (Spec.MixColumns (Spec.ShiftRows (Spec.SubBytes s)))
      (schedWords sch) (k + 1)) (Spec.AddRoundKey (Spec.stateOfBytes inp) (schedWords sch) 0)) ?_ ?_
  · refine Ret.for 9 (fun i m => m.state = (List.range i).foldl
      (fun s k => Spec.AddRoundKey (Spec.MixColumns (Spec.ShiftRows (Spec.SubBytes s)))
      (schedWords sch) (k + 1)) (Spec.AddRoundKey (Spec.stateOfBytes inp) (schedWords sch) 0))
      (by simp) ?_ ?_ (fun _ h => h)
    · rw [xor_state, load_state]; rfl
    · intro k m hk hm
      simp only [wp]
      refine ⟨ha, by omega, ?_⟩
      rw [aesenc_state, hm]
      simp only [List.range_succ, List.foldl_append, List.foldl_cons, List.foldl_nil]
      rw [Nat.one_mul, Nat.add_comm 1]
  · intro m hm
    simp only [wp]
    refine ⟨ha, by omega, by omega, ?_⟩
    rw [bytes_of_vec, aesenclast_state, hm]
    simp [Spec.Cipher]

theorem aes256_enc_ni_ret {a : Nat} {inp sch out : List U8} (ha : a % 16 = 0)
    (hi : 16 ≤ inp.length) (hs : 240 ≤ sch.length) (ho : 16 ≤ out.length) :
    Ret (aes256_enc_ni a inp sch out) (· = Spec.bytesOfState
      (Spec.Cipher 14 (Spec.stateOfBytes inp) (schedWords sch)) ++ out.drop 16) := by
  unfold aes256_enc_ni
  simp only [wp]
  refine ⟨by omega, ha, by omega, ?_⟩
  refine Ret.bind (Q := fun m : M128 => m.state = (List.range 13).foldl
    (fun s k => Spec.AddRoundKey (Spec.MixColumns (Spec.ShiftRows (Spec.SubBytes s)))
      (schedWords sch) (k + 1)) (Spec.AddRoundKey (Spec.stateOfBytes inp) (schedWords sch) 0)) ?_ ?_
  · refine Ret.for 13 (fun i m => m.state = (List.range i).foldl
      (fun s k => Spec.AddRoundKey (Spec.MixColumns (Spec.ShiftRows (Spec.SubBytes s)))
      (schedWords sch) (k + 1)) (Spec.AddRoundKey (Spec.stateOfBytes inp) (schedWords sch) 0))
      (by simp) ?_ ?_ (fun _ h => h)
    · rw [xor_state, load_state]; rfl
    · intro k m hk hm
      simp only [wp]
      refine ⟨ha, by omega, ?_⟩
      rw [aesenc_state, hm]
      simp only [List.range_succ, List.foldl_append, List.foldl_cons, List.foldl_nil]
      rw [Nat.one_mul, Nat.add_comm 1]
  · intro m hm
    simp only [wp]
    refine ⟨ha, by omega, by omega, ?_⟩
    rw [bytes_of_vec, aesenclast_state, hm]
    simp [Spec.Cipher]

/-! ## Both back ends -/

/-- Alignment needed by a back end. -/
def AesImpl.aligned (I : AesImpl) (a : Nat) : Prop := I = .ni → a % 16 = 0

theorem AES128_load_schedule_ret {I : AesImpl} {J : Junk} {a : Nat} {key rk : List U8}
    (ha : I.aligned a) (hk : 16 ≤ key.length) (hrk : 176 ≤ rk.length) :
    Ret (AES128_load_schedule I J a key rk) (· = schedBytes 4 44 key ++ rk.drop 176) := by
  cases I
  · exact load_schedule_c_ret (Or.inl ⟨rfl, rfl⟩) hk hrk
  · exact aes128_load_schedule_ni_ret (ha rfl) hk hrk

theorem AES256_load_schedule_ret {I : AesImpl} {J : Junk} {a : Nat} {key rk : List U8}
    (ha : I.aligned a) (hk : 32 ≤ key.length) (hrk : 240 ≤ rk.length) :
    Ret (AES256_load_schedule I J a key rk) (· = schedBytes 8 60 key ++ rk.drop 240) := by
  cases I
  · exact load_schedule_c_ret (Or.inr ⟨rfl, rfl⟩) hk hrk
  · exact aes256_load_schedule_ni_ret (ha rfl) hk hrk

theorem Cipher_congr {Nr : Nat} {s : Spec.AState} {w w' : Nat → Spec.AWord} (hNr : 0 < Nr)
    (h : ∀ i, i < 4 * (Nr + 1) → w i = w' i) : Spec.Cipher Nr s w = Spec.Cipher Nr s w' := by
  have hA : ∀ s k, k ≤ Nr → Spec.AddRoundKey s w k = Spec.AddRoundKey s w' k := by
    intro s k hk
    funext r c
    unfold Spec.AddRoundKey
    rw [h _ (by omega)]
  have hF : ∀ n, n < Nr → ∀ s, (List.range n).foldl (fun s k => Spec.AddRoundKey (Spec.MixColumns
      (Spec.ShiftRows (Spec.SubBytes s))) w (k + 1)) s = (List.range n).foldl (fun s k =>
      Spec.AddRoundKey (Spec.MixColumns (Spec.ShiftRows (Spec.SubBytes s))) w' (k + 1)) s := by
    intro n
    induction n with
    | zero => intro _ s; rfl
    | succ n ih =>
      intro hn s
      simp only [List.range_succ, List.foldl_append, List.foldl_cons, List.foldl_nil]
      rw [ih (by omega), hA _ _ (by omega)]
  unfold Spec.Cipher
  simp only
  rw [hA _ _ (Nat.zero_le _), hF _ (by omega), hA _ _ (Nat.le_refl _)]

theorem Cipher128_sched (key block l : List U8) : Spec.bytesOfState (Spec.Cipher 10
    (Spec.stateOfBytes block) (schedWords (schedBytes 4 44 key ++ l))) = Spec.AES128 key block := by
  unfold Spec.AES128 Spec.aes
  rw [Cipher_congr (by omega) (fun i hi => schedWords_bytes hi)]

theorem Cipher256_sched (key block l : List U8) : Spec.bytesOfState (Spec.Cipher 14
    (Spec.stateOfBytes block) (schedWords (schedBytes 8 60 key ++ l))) = Spec.AES256 key block := by
  unfold Spec.AES256 Spec.aes
  rw [Cipher_congr (by omega) (fun i hi => schedWords_bytes hi)]

theorem aes128_enc_ret {I : AesImpl} {a : Nat} {inp out key l : List U8}
    (ha : I.aligned a) (hi : 16 ≤ inp.length) (ho : 16 ≤ out.length) :
    Ret (aes128_enc I a inp (schedBytes 4 44 key ++ l) out)
      (· = Spec.AES128 key inp ++ out.drop 16) := by
  rw [← Cipher128_sched key inp l]
  have hs : 176 ≤ (schedBytes 4 44 key ++ l).length := by
    rw [List.length_append, length_schedBytes]; omega
  cases I
  · exact aes128_enc_c_ret hi hs ho
  · exact aes128_enc_ni_ret (ha rfl) hi hs ho

theorem aes256_enc_ret {I : AesImpl} {a : Nat} {inp out key l : List U8}
    (ha : I.aligned a) (hi : 16 ≤ inp.length) (ho : 16 ≤ out.length) :
    Ret (aes256_enc I a inp (schedBytes 8 60 key ++ l) out)
      (· = Spec.AES256 key inp ++ out.drop 16) := by
  rw [← Cipher256_sched key inp l]
  have hs : 240 ≤ (schedBytes 8 60 key ++ l).length := by
    rw [List.length_append, length_schedBytes]; omega
  cases I
  · exact aes256_enc_c_ret hi hs ho
  · exact aes256_enc_ni_ret (ha rfl) hi hs ho

theorem stateOfBytes_take (l : List U8) : Spec.stateOfBytes (l.take 16) = Spec.stateOfBytes l := by
  funext r c
  unfold Spec.stateOfBytes
  rw [nth_take, if_pos (by omega)]

theorem AES128_take (key l : List U8) : Spec.AES128 key (l.take 16) = Spec.AES128 key l := by
  unfold Spec.AES128 Spec.aes; rw [stateOfBytes_take]

theorem AES256_take (key l : List U8) : Spec.AES256 key (l.take 16) = Spec.AES256 key l := by
  unfold Spec.AES256 Spec.aes; rw [stateOfBytes_take]

theorem length_AES128 (key l : List U8) : (Spec.AES128 key l).length = 16 :=
  length_bytesOfState _

theorem length_AES256 (key l : List U8) : (Spec.AES256 key l).length = 16 :=
  length_bytesOfState _

theorem length_ecb {E : List U8 → List U8} (hE : ∀ x, (E x).length = 16) (n : Nat) (pt : List U8) :
    (Spec.ecb E n pt).length = 16 * n := by
  unfold Spec.ecb
  induction n with
  | zero => rfl
  | succ n ih => rw [List.range_succ, List.flatMap_append, List.length_append, ih]; simp [hE]; omega

theorem ecb_succ (E : List U8 → List U8) (n : Nat) (pt : List U8) :
    Spec.ecb E (n + 1) pt = Spec.ecb E n pt ++ E ((pt.drop (16 * n)).take 16) := by
  unfold Spec.ecb
  rw [List.range_succ, List.flatMap_append]; simp

/-- Rule for a loop over 16-byte blocks. -/
theorem Ret.ecb {E : List U8 → List U8} (hE : ∀ x, (E x).length = 16) {n : Nat}
    {pt ct : List U8} {body : Nat → List U8 → C (List U8)} (hct : 16 * n ≤ ct.length)
    (h : ∀ b o, b < n → o = Spec.ecb E b pt ++ ct.drop (16 * b) →
      Ret (body b o) (· = Spec.ecb E b pt ++ (E ((pt.drop (16 * b)).take 16) ++
        ct.drop (16 * b + 16)))) :
    Ret (forC 0 n 1 ct body) (· = Spec.ecb E n pt ++ ct.drop (16 * n)) := by
  refine Ret.for1 (fun b o => o = Spec.ecb E b pt ++ ct.drop (16 * b)) (by simp [Spec.ecb]) ?_
    (fun _ h => h)
  intro b o hb ho
  refine (h b o hb ho).mono ?_
  rintro _ rfl
  rw [ecb_succ, List.append_assoc]
  rfl

theorem drop_ecb {E : List U8 → List U8} (hE : ∀ x, (E x).length = 16) (n : Nat)
    (pt l : List U8) : (Spec.ecb E n pt ++ l).drop (16 * n) = l := by
  rw [List.drop_append_of_le_length (by rw [length_ecb hE]),
    List.drop_eq_nil_of_le (by rw [length_ecb hE])]; rfl

theorem take_ecb {E : List U8 → List U8} (hE : ∀ x, (E x).length = 16) (n : Nat)
    (pt l : List U8) : (Spec.ecb E n pt ++ l).take (16 * n) = Spec.ecb E n pt := by
  rw [List.take_append_of_le_length (by rw [length_ecb hE]), List.take_of_length_le
    (by rw [length_ecb hE])]

theorem AES128_ECB_ret {I : AesImpl} {a n : Nat} {pt ct key l : List U8} (ha : I.aligned a)
    (hpt : 16 * n ≤ pt.length) (hct : 16 * n ≤ ct.length) :
    Ret (AES128_ECB_enc_sch I a pt (16 * n) (schedBytes 4 44 key ++ l) ct)
      (· = Spec.ecb (Spec.AES128 key) n pt ++ ct.drop (16 * n)) := by
  unfold AES128_ECB_enc_sch
  rw [Ret_require_bind]
  refine ⟨by omega, ?_⟩
  rw [Nat.mul_div_cancel_left _ (by omega : 0 < 16)]
  have hE := length_AES128 key
  refine Ret.ecb hE hct ?_
  rintro b _ hb rfl
  simp only [wp, List.length_append, length_ecb hE, List.length_drop, drop_ecb hE, take_ecb hE]
  refine ⟨by omega, by omega, ?_⟩
  refine (aes128_enc_ret ha (by simp; omega) (by simp; omega)).of_eq ?_
  rw [AES128_take, List.drop_drop]

theorem AES128_ECB_inplace_ret {I : AesImpl} {a n : Nat} {buf key l : List U8} (ha : I.aligned a)
    (hb : 16 * n ≤ buf.length) :
    Ret (AES128_ECB_enc_sch_inplace I a (16 * n) (schedBytes 4 44 key ++ l) buf)
      (· = Spec.ecb (Spec.AES128 key) n buf ++ buf.drop (16 * n)) := by
  unfold AES128_ECB_enc_sch_inplace
  rw [Ret_require_bind]
  refine ⟨by omega, ?_⟩
  rw [Nat.mul_div_cancel_left _ (by omega : 0 < 16)]
  have hE := length_AES128 key
  refine Ret.ecb hE hb ?_
  rintro b _ hb rfl
  simp only [wp, List.length_append, length_ecb hE, List.length_drop, drop_ecb hE, take_ecb hE]
  refine ⟨by omega, by omega, ?_⟩
  refine (aes128_enc_ret ha (by simp; omega) (by simp; omega)).of_eq ?_
  rw [AES128_take, List.drop_drop]

theorem AES256_ECB_ret {I : AesImpl} {a n : Nat} {pt ct key l : List U8} (ha : I.aligned a)
    (hpt : 16 * n ≤ pt.length) (hct : 16 * n ≤ ct.length) :
    Ret (AES256_ECB_enc_sch I a pt (16 * n) (schedBytes 8 60 key ++ l) ct)
      (· = Spec.ecb (Spec.AES256 key) n pt ++ ct.drop (16 * n)) := by
  unfold AES256_ECB_enc_sch
  rw [Ret_require_bind]
  refine ⟨by omega, ?_⟩
  rw [Nat.mul_div_cancel_left _ (by omega : 0 < 16)]
  have hE := length_AES256 key
  refine Ret.ecb hE hct ?_
  rintro b _ hb rfl
  simp only [wp, List.length_append, length_ecb hE, List.length_drop, drop_ecb hE, take_ecb hE]
  refine ⟨by omega, by omega, ?_⟩
  refine (aes256_enc_ret ha (by simp; omega) (by simp; omega)).of_eq ?_
  rw [AES256_take, List.drop_drop]

end Frodo
