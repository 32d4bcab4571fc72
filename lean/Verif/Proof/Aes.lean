import Verif.Proof.AesTables
import Verif.Proof.Matrix

/-! # The portable AES equals FIPS 197 -/

namespace Frodo

open C

set_option linter.unusedSimpArgs false
set_option linter.unusedVariables false

/-- The words of a key schedule held in memory. -/
def schedWords (rk : List U8) : Nat → Spec.AWord := fun i j => nth rk (4 * i + j)

theorem length_bytesOfState (s : Spec.AState) : (Spec.bytesOfState s).length = 16 := by
  simp [Spec.bytesOfState]

theorem nth_bytesOfState (s : Spec.AState) (r c : Fin 4) :
    nth (Spec.bytesOfState s) (4 * c + r) = s r c := by
  unfold Spec.bytesOfState
  rw [nth_range_map, if_pos (by omega)]
  congr 1
  · apply Fin.ext; simp [Fin.ofNat]
  · apply Fin.ext; simp [Fin.ofNat]; omega

theorem state_bytes (s : Spec.AState) (l : List U8) :
    Spec.stateOfBytes (Spec.bytesOfState s ++ l) = s := by
  funext r c
  unfold Spec.stateOfBytes
  rw [nth_append, length_bytesOfState, if_pos (by omega), nth_bytesOfState]

theorem drop_bytes (s : Spec.AState) (l : List U8) :
    (Spec.bytesOfState s ++ l).drop 16 = l := by
  rw [List.drop_append_of_le_length (by rw [length_bytesOfState]),
    List.drop_eq_nil_of_le (by rw [length_bytesOfState])]; rfl

theorem eq_bytes {o st : List U8} {s : Spec.AState} (hl : o.length = st.length)
    (h16 : 16 ≤ st.length) (h : ∀ r c : Fin 4, nth o (4 * c + r) = s r c)
    (ht : ∀ t, 16 ≤ t → nth o t = nth st t) : o = Spec.bytesOfState s ++ st.drop 16 := by
  apply ext_nth
  · simp [length_bytesOfState, hl]; omega
  · intro i hi
    rw [nth_append, length_bytesOfState]
    split
    · rename_i h'
      have h1 := h ⟨i % 4, by omega⟩ ⟨i / 4, by omega⟩
      have h2 := nth_bytesOfState s ⟨i % 4, by omega⟩ ⟨i / 4, by omega⟩
      simp only [show 4 * (i / 4) + i % 4 = i by omega] at h1 h2
      rw [h1, h2]
    · rw [nth_drop, ht i (by omega)]; congr 1; omega

theorem addRoundKey_c_ret {rk st : List U8} {round : Nat} (hst : 16 ≤ st.length)
    (hrk : 16 * round + 16 ≤ rk.length) :
    Ret (addRoundKey_c rk round st) (· = Spec.bytesOfState
      (Spec.AddRoundKey (Spec.stateOfBytes st) (schedWords rk) round) ++ st.drop 16) := by
  let I : Nat → List U8 → Prop := fun n o => o.length = st.length ∧
    (∀ t, t < n → nth o t = nth st t ^^^ nth rk (16 * round + t)) ∧
    ∀ t, n ≤ t → nth o t = nth st t
  unfold addRoundKey_c
  refine Ret.for1 (fun i o => I (4 * i) o) ⟨rfl, by intro t ht; omega, fun _ _ => rfl⟩ ?_ ?_
  · intro i o hi hI
    refine Ret.for1 (fun j o => I (4 * i + j) o) hI ?_ (fun o h => h)
    rintro j o hj ⟨h1, h2, h3⟩
    simp only [wp]
    refine ⟨by omega, by omega, by omega, by rw [List.length_set]; exact h1, ?_, ?_⟩
    · intro t ht
      by_cases he : t = 4 * i + j
      · subst he
        rw [nth_set_eq (by omega), h3 _ (by omega),
          show round * 4 * 4 + i * 4 + j = 16 * round + (4 * i + j) by omega]
      · rw [nth_set_ne (Ne.symm he), h2 _ (by omega)]
    · intro t ht
      rw [nth_set_ne (by omega), h3 _ (by omega)]
  · rintro o ⟨h1, h2, h3⟩
    refine eq_bytes h1 hst ?_ h3
    intro r c
    rw [h2 _ (by omega)]
    unfold Spec.AddRoundKey Spec.stateOfBytes schedWords
    congr 2
    omega

theorem subBytes_c_ret {st : List U8} (hst : 16 ≤ st.length) :
    Ret (subBytes_c st) (· = Spec.bytesOfState (Spec.SubBytes (Spec.stateOfBytes st)) ++
      st.drop 16) := by
  let I : Nat → Nat → List U8 → Prop := fun i j o => o.length = st.length ∧
    ∀ t, nth o t = if t < 16 ∧ (t % 4 < i ∨ t % 4 = i ∧ t / 4 < j) then Spec.SBox (nth st t)
      else nth st t
  unfold subBytes_c
  refine Ret.for1 (fun i o => I i 0 o) ⟨rfl, ?_⟩ ?_ ?_
  · intro t; rw [if_neg (by omega)]
  · intro i o hi hI
    refine Ret.for1 (fun j o => I i j o) hI ?_ ?_
    · rintro j o hj ⟨h1, h2⟩
      simp only [wp]
      refine ⟨by omega, by omega, by rw [List.length_set]; exact h1, ?_⟩
      intro t
      by_cases he : t = 4 * j + i
      · subst he
        rw [nth_set_eq (by omega), h2, if_neg (by omega), if_pos (by omega)]
      · rw [nth_set_ne (Ne.symm he), h2]
        by_cases hc : t < 16 ∧ (t % 4 < i ∨ t % 4 = i ∧ t / 4 < j)
        · rw [if_pos hc, if_pos (by omega)]
        · rw [if_neg hc, if_neg (by omega)]
    · rintro o ⟨h1, h2⟩
      refine ⟨h1, fun t => ?_⟩
      rw [h2]
      by_cases hc : t < 16 ∧ (t % 4 < i ∨ t % 4 = i ∧ t / 4 < 4)
      · rw [if_pos hc, if_pos (by omega)]
      · rw [if_neg hc, if_neg (by omega)]
  · rintro o ⟨h1, h2⟩
    refine eq_bytes h1 hst ?_ ?_
    · intro r c; rw [h2, if_pos (by omega)]; rfl
    · intro t ht; rw [h2, if_neg (by omega)]

theorem shiftRows_c_ret {st : List U8} (hst : 16 ≤ st.length) :
    Ret (shiftRows_c st) (· = Spec.bytesOfState (Spec.ShiftRows (Spec.stateOfBytes st)) ++
      st.drop 16) := by
  unfold shiftRows_c
  simp only [wp, List.length_set]
  repeat' apply And.intro
  all_goals try omega
  refine eq_bytes (by simp) hst ?_ ?_
  · intro r c
    have : ∀ k, k < 16 → k < st.length := by omega
    fin_cases r <;> fin_cases c <;>
      simp (discharger := (first | omega | (simp only [List.length_set]; omega)))
        [nth_set_ne, nth_set_eq, Spec.ShiftRows, Spec.stateOfBytes]
  · intro t ht
    simp (discharger := omega) only [nth_set_ne]

theorem mix0 (a b c d A B : U8) : a ^^^ ((A ^^^ B) ^^^ (a ^^^ b ^^^ c ^^^ d)) =
    A ^^^ (B ^^^ b) ^^^ c ^^^ d := by
  apply BitVec.eq_of_getLsbD_eq
  intro i hi
  simp only [BitVec.getLsbD_xor]
  cases a.getLsbD i <;> cases b.getLsbD i <;> cases c.getLsbD i <;> cases d.getLsbD i <;>
    cases A.getLsbD i <;> cases B.getLsbD i <;> rfl

theorem mix1 (a b c d A B : U8) : b ^^^ ((A ^^^ B) ^^^ (a ^^^ b ^^^ c ^^^ d)) =
    a ^^^ A ^^^ (B ^^^ c) ^^^ d := by
  apply BitVec.eq_of_getLsbD_eq
  intro i hi
  simp only [BitVec.getLsbD_xor]
  cases a.getLsbD i <;> cases b.getLsbD i <;> cases c.getLsbD i <;> cases d.getLsbD i <;>
    cases A.getLsbD i <;> cases B.getLsbD i <;> rfl

theorem mix2 (a b c d A B : U8) : c ^^^ ((A ^^^ B) ^^^ (a ^^^ b ^^^ c ^^^ d)) =
    a ^^^ b ^^^ A ^^^ (B ^^^ d) := by
  apply BitVec.eq_of_getLsbD_eq
  intro i hi
  simp only [BitVec.getLsbD_xor]
  cases a.getLsbD i <;> cases b.getLsbD i <;> cases c.getLsbD i <;> cases d.getLsbD i <;>
    cases A.getLsbD i <;> cases B.getLsbD i <;> rfl

theorem mix3 (a b c d A B : U8) : d ^^^ ((A ^^^ B) ^^^ (a ^^^ b ^^^ c ^^^ d)) =
    (B ^^^ a) ^^^ b ^^^ c ^^^ A := by
  apply BitVec.eq_of_getLsbD_eq
  intro i hi
  simp only [BitVec.getLsbD_xor]
  cases a.getLsbD i <;> cases b.getLsbD i <;> cases c.getLsbD i <;> cases d.getLsbD i <;>
    cases A.getLsbD i <;> cases B.getLsbD i <;> rfl

theorem mixColumn_c_ret {st : List U8} {i : Nat} (hi : i < 4) (hst : 16 ≤ st.length) :
    Ret (mixColumn_c i st) (fun o => o.length = st.length ∧
      (∀ t, ¬ (4 * i ≤ t ∧ t < 4 * i + 4) → nth o t = nth st t) ∧
      ∀ r : Fin 4, nth o (4 * i + r) = Spec.MixColumns (Spec.stateOfBytes st) r ⟨i, hi⟩) := by
  unfold mixColumn_c
  simp only [wp, List.length_set, true_and]
  repeat' apply And.intro
  all_goals try omega
  · intro t ht
    simp (discharger := omega) only [nth_set_ne]
  · intro r
    fin_cases r
    all_goals
      simp (discharger := (first | omega | (simp only [List.length_set]; omega))) only
        [nth_set_ne, nth_set_eq, Spec.MixColumns, Spec.stateOfBytes, gmul_two, gmul_three,
        xtime_xor, Fin.isValue, Fin.val_zero, Fin.val_one, Fin.val_two, Fin.zero_eta, Fin.mk_one,
        Fin.reduceFinMk, show ((3 : Fin 4) : Nat) = 3 from rfl]
    · exact mix0 _ _ _ _ _ _
    · exact mix1 _ _ _ _ _ _
    · exact mix2 _ _ _ _ _ _
    · exact mix3 _ _ _ _ _ _

theorem mixColumns_c_ret {st : List U8} (hst : 16 ≤ st.length) :
    Ret (mixColumns_c st) (· = Spec.bytesOfState (Spec.MixColumns (Spec.stateOfBytes st)) ++
      st.drop 16) := by
  unfold mixColumns_c
  refine Ret.for1 (fun i o => o.length = st.length ∧
    (∀ r c : Fin 4, c.val < i → nth o (4 * c + r) = Spec.MixColumns (Spec.stateOfBytes st) r c) ∧
    ∀ t, 4 * i ≤ t → nth o t = nth st t) ⟨rfl, by intro r c h; omega, fun _ _ => rfl⟩ ?_ ?_
  · rintro i o hi ⟨h1, h2, h3⟩
    refine (mixColumn_c_ret hi (by omega)).mono ?_
    rintro o' ⟨g1, g2, g3⟩
    refine ⟨by omega, ?_, ?_⟩
    · intro r c hc
      by_cases he : c.val = i
      · subst he
        rw [g3 r]
        have e : ∀ r : Fin 4, Spec.stateOfBytes o r c = Spec.stateOfBytes st r c := by
          intro r; exact h3 _ (by omega)
        unfold Spec.MixColumns
        simp only [Fin.eta, e]
      · rw [g2 _ (by omega), h2 r c (by omega)]
    · intro t ht
      rw [g2 _ (by omega), h3 _ (by omega)]
  · rintro o ⟨h1, h2, h3⟩
    exact eq_bytes h1 hst (fun r c => h2 r c c.isLt) h3

theorem cipher_c_ret {rk st : List U8} {Nr : Nat} (hst : 16 ≤ st.length)
    (hrk : 16 * Nr + 16 ≤ rk.length) (hNr : 0 < Nr) :
    Ret (cipher_c rk Nr st) (· = Spec.bytesOfState
      (Spec.Cipher Nr (Spec.stateOfBytes st) (schedWords rk)) ++ st.drop 16) := by
  unfold cipher_c
  refine (addRoundKey_c_ret hst (by omega)).bind_eq ?_
  have L : ∀ s, 16 ≤ (Spec.bytesOfState s ++ st.drop 16).length := by
    intro s; rw [List.length_append, length_bytesOfState]; omega
  refine Ret.bind (Q := fun o => o = Spec.bytesOfState ((List.range (Nr - 1)).foldl
    (fun s k => Spec.AddRoundKey (Spec.MixColumns (Spec.ShiftRows (Spec.SubBytes s)))
      (schedWords rk) (k + 1)) (Spec.AddRoundKey (Spec.stateOfBytes st) (schedWords rk) 0)) ++
      st.drop 16) ?_ ?_
  · refine Ret.for (Nr - 1) (fun i o => o = Spec.bytesOfState ((List.range i).foldl
      (fun s k => Spec.AddRoundKey (Spec.MixColumns (Spec.ShiftRows (Spec.SubBytes s)))
      (schedWords rk) (k + 1)) (Spec.AddRoundKey (Spec.stateOfBytes st) (schedWords rk) 0)) ++
      st.drop 16) (by simp) rfl ?_ (fun _ h => h)
    rintro k o hk rfl
    refine (subBytes_c_ret (L _)).bind_eq ?_
    refine (shiftRows_c_ret (by rw [drop_bytes]; exact L _)).bind_eq ?_
    refine (mixColumns_c_ret (by simp only [drop_bytes]; exact L _)).bind_eq ?_
    refine (addRoundKey_c_ret (by simp only [drop_bytes]; exact L _) (by omega)).of_eq ?_
    simp only [state_bytes, drop_bytes, List.range_succ, List.foldl_append, List.foldl_cons,
      List.foldl_nil]
    rw [Nat.one_mul, Nat.add_comm 1]
  · rintro _ rfl
    refine (subBytes_c_ret (L _)).bind_eq ?_
    refine (shiftRows_c_ret (by rw [drop_bytes]; exact L _)).bind_eq ?_
    refine (addRoundKey_c_ret (by simp only [drop_bytes]; exact L _) (by omega)).of_eq ?_
    simp only [state_bytes, drop_bytes, Spec.Cipher]

/-- The key schedule of FIPS 197 in bytes. -/
def schedBytes (Nk n : Nat) (key : List U8) : List U8 :=
  (List.range (4 * n)).map fun t => Spec.keyWord Nk key (t / 4) (Fin.ofNat 4 t)

theorem length_schedBytes (Nk n : Nat) (key : List U8) : (schedBytes Nk n key).length = 4 * n := by
  simp [schedBytes]

theorem schedWords_bytes {Nk n : Nat} {key l : List U8} {i : Nat} (hi : i < n) :
    schedWords (schedBytes Nk n key ++ l) i = Spec.keyWord Nk key i := by
  funext j
  unfold schedWords
  rw [nth_append, length_schedBytes, if_pos (by omega)]
  unfold schedBytes
  rw [nth_range_map, if_pos (by omega), show (4 * i + j.val) / 4 = i by omega]
  congr 1
  apply Fin.ext; simp [Fin.ofNat]

/-- The loop invariant of the key schedule: the first `n` words are done. -/
def SchedInv (Nk : Nat) (key rk : List U8) (n : Nat) (o : List U8) : Prop :=
  o.length = rk.length ∧ (∀ i, i < n → ∀ j : Fin 4, nth o (i * 4 + j) = Spec.keyWord Nk key i j) ∧
    ∀ t, 4 * n ≤ t → nth o t = nth rk t

theorem SchedInv.step {Nk : Nat} {key rk : List U8} {n : Nat} {o : List U8} {w : Spec.AWord}
    (h : SchedInv Nk key rk n o) (hw : w = Spec.keyWord Nk key n) (hl : n * 4 + 3 < rk.length) :
    SchedInv Nk key rk (n + 1) ((((o.set (n * 4 + 0) (w 0)).set (n * 4 + 1) (w 1)).set
      (n * 4 + 2) (w 2)).set (n * 4 + 3) (w 3)) := by
  obtain ⟨h1, h2, h3⟩ := h
  subst hw
  refine ⟨by simpa using h1, ?_, ?_⟩
  · intro i hi j
    by_cases he : i = n
    · subst he
      fin_cases j <;>
      simp (discharger := (first | omega | (simp only [List.length_set]; omega)))
        [nth_set_ne, nth_set_eq]
    · simp (discharger := omega) only [nth_set_ne]
      exact h2 i (by omega) j
  · intro t ht
    simp (discharger := omega) only [nth_set_ne]
    exact h3 t (by omega)

theorem schedRot_ret {a b c d : U8} {i Nk : Nat} (h0 : 0 < i / Nk) (h : i / Nk < 11) :
    Ret (schedRot [a, b, c, d] i Nk) (· = [Spec.SBox b ^^^ Spec.gpow 2 (i / Nk - 1), Spec.SBox c,
      Spec.SBox d, Spec.SBox a]) := by
  unfold schedRot
  have hr : rcon.length = 11 := rfl
  have e := nth_rcon h0 h
  simp only [wp, List.set_cons_zero, List.set_cons_succ, nth_cons_zero, nth_cons_succ, e, hr, h,
    List.length_cons, List.length_nil, true_and, show nth [a, b, c, d] 1 = b from rfl,
    show nth [a, b, c, d] 2 = c from rfl, show nth [a, b, c, d] 3 = d from rfl]
  simp [nth]

theorem schedSub_ret {a b c d : U8} :
    Ret (schedSub [a, b, c, d]) (· = [Spec.SBox a, Spec.SBox b, Spec.SBox c, Spec.SBox d]) := by
  unfold schedSub
  simp [wp, nth]

/-- The transformed word `temp` of the key expansion. -/
def schedTemp (Nk i : Nat) (t : Spec.AWord) : Spec.AWord :=
  if i % Nk = 0 then Spec.xorWord (Spec.SubWord (Spec.RotWord t)) (Spec.Rcon (i / Nk))
  else if 6 < Nk ∧ i % Nk = 4 then Spec.SubWord t else t

theorem schedStep_ret {Nk i : Nat} {key rk o tempa : List U8} (hNk : Nk = 4 ∨ Nk = 8)
    (hi : Nk ≤ i) (hlim : i / Nk < 11) (hl : i * 4 + 3 < rk.length) (ht : tempa.length = 4)
    (h : SchedInv Nk key rk i o) :
    Ret (schedStep Nk i (o, tempa)) (fun s => s.2.length = 4 ∧ SchedInv Nk key rk (i + 1) s.1) := by
  have hpos : 0 < Nk := by omega
  obtain ⟨t0, t1, t2, t3, rfl⟩ : ∃ a b c d, tempa = [a, b, c, d] := by
    match tempa, ht with
    | [a, b, c, d], _ => exact ⟨a, b, c, d, rfl⟩
  have hol : o.length = rk.length := h.1
  unfold schedStep
  simp only [Ret_rd_bind, Ret_wr_bind]
  refine ⟨by omega, by simp, by omega, by simp, by omega, by simp, by omega, by simp, ?_⟩
  simp only [List.set_cons_zero, List.set_cons_succ]
  have hprev := h.2.1 (i - 1) (by omega)
  have e0 := hprev 0
  have e1 := hprev 1
  have e2 := hprev 2
  have e3 := hprev 3
  simp only [Fin.isValue, Fin.val_zero, Fin.val_one, Fin.val_two,
    show ((3 : Fin 4) : Nat) = 3 from rfl] at e0 e1 e2 e3
  rw [e0, e1, e2, e3]
  generalize hT : Spec.keyWord Nk key (i - 1) = T
  have key1 : Ret (ifC (i % Nk == 0) (schedRot [T 0, T 1, T 2, T 3] i Nk)
      (pure [T 0, T 1, T 2, T 3]) >>= fun tempa => ifC (i % Nk == 4) (schedSub tempa) (pure tempa))
      (· = [schedTemp Nk i T 0, schedTemp Nk i T 1, schedTemp Nk i T 2, schedTemp Nk i T 3]) := by
    simp only [wp]
    by_cases hz : i % Nk = 0
    · have hd : 0 < i / Nk := Nat.div_pos hi hpos
      simp only [hz, beq_self_eq_true, if_true]
      refine (schedRot_ret hd hlim).bind_eq ?_
      simp only [wp, show ((0 : Nat) == 4) = false from rfl, if_false, Bool.false_eq_true]
      simp [schedTemp, hz, Spec.xorWord, Spec.SubWord, Spec.RotWord, Spec.Rcon]
    · simp only [beq_iff_eq, hz, if_false]
      simp only [wp]
      by_cases h4 : i % Nk = 4
      · simp only [h4, if_true]
        refine schedSub_ret.of_eq ?_
        have : Nk = 8 := by
          rcases hNk with h | h
          · subst h; omega
          · exact h
        subst this
        simp [schedTemp, h4, Spec.SubWord]
      · rw [if_neg (by simpa using h4), Ret_pure]
        simp [schedTemp, hz, h4]
  have key2 : ∀ {P : _ → Prop} (f : List U8 → C (List U8 × List U8)),
      Ret (f [schedTemp Nk i T 0, schedTemp Nk i T 1, schedTemp Nk i T 2, schedTemp Nk i T 3]) P →
      Ret (ifC (i % Nk == 0) (schedRot [T 0, T 1, T 2, T 3] i Nk)
      (pure [T 0, T 1, T 2, T 3]) >>= fun tempa => ifC (i % Nk == 4) (schedSub tempa) (pure tempa)
        >>= f) P := by
    intro P f hf
    rw [← bind_assoc]
    exact key1.bind_eq hf
  refine key2 _ ?_
  have hold := h.2.1 (i - Nk) (by omega)
  have f0 := hold 0
  have f1 := hold 1
  have f2 := hold 2
  have f3 := hold 3
  simp only [Fin.isValue, Fin.val_zero, Fin.val_one, Fin.val_two,
    show ((3 : Fin 4) : Nat) = 3 from rfl] at f0 f1 f2 f3
  simp only [wp, List.length_set]
  simp (discharger := omega) only [nth_set_ne, f0, f1, f2, f3]
  refine ⟨by omega, by simp, by omega, by omega, by simp, by omega, by omega, by simp, by omega,
    by omega, by simp, by omega, by simp, ?_⟩
  refine SchedInv.step (w := Spec.xorWord (Spec.keyWord Nk key (i - Nk)) (schedTemp Nk i T)) h ?_ hl
  rw [Spec.keyWord.eq_def Nk key i, dif_neg (by omega)]
  subst hT
  rfl

theorem load_schedule_c_ret {J : Junk} {Nk Nr : Nat} {key rk : List U8}
    (h : (Nk = 4 ∧ Nr = 10) ∨ (Nk = 8 ∧ Nr = 14)) (hk : 4 * Nk ≤ key.length)
    (hrk : 16 * (Nr + 1) ≤ rk.length) :
    Ret (load_schedule_c J Nk Nr key rk)
      (· = schedBytes Nk (4 * (Nr + 1)) key ++ rk.drop (16 * (Nr + 1))) := by
  have hNk : Nk = 4 ∨ Nk = 8 := by omega
  unfold load_schedule_c
  refine Ret.bind (Q := SchedInv Nk key rk Nk) ?_ ?_
  · refine Ret.for1 (SchedInv Nk key rk) ⟨rfl, by intro i hi; omega, fun _ _ => rfl⟩ ?_
      (fun _ h => h)
    intro i o hi hI
    have hol := hI.1
    simp only [wp, List.length_set]
    refine ⟨by omega, by omega, by omega, by omega, by omega, by omega, by omega, by omega, ?_⟩
    refine SchedInv.step (w := fun j => nth key (i * 4 + j)) hI ?_ (by omega)
    rw [Spec.keyWord.eq_def, dif_pos (Or.inl hi)]
    funext j
    rw [Nat.mul_comm]
  · intro o hI
    refine Ret.bind (Q := fun s => s.2.length = 4 ∧ SchedInv Nk key rk (4 * (Nr + 1)) s.1) ?_ ?_
    · refine Ret.for (4 * (Nr + 1) - Nk) (fun k s => s.2.length = 4 ∧
        SchedInv Nk key rk (Nk + k) s.1) (by simp) ⟨by simp, hI⟩ ?_ ?_
      · rintro k ⟨o, t⟩ hk ⟨h1, h2⟩
        refine (schedStep_ret (key := key) (rk := rk) hNk (by omega) ?_ (by omega) h1
          (by simpa using h2)).mono ?_
        · rcases h with ⟨rfl, rfl⟩ | ⟨rfl, rfl⟩ <;> omega
        · rintro s ⟨h3, h4⟩
          refine ⟨h3, ?_⟩
          rw [Nat.one_mul] at h4
          exact h4
      · rintro s ⟨h1, h2⟩
        rw [show Nk + (4 * (Nr + 1) - Nk) = 4 * (Nr + 1) by omega] at h2
        exact ⟨h1, h2⟩
    · rintro ⟨o, t⟩ ⟨h1, h2⟩
      simp only [wp]
      apply ext_nth
      · rw [List.length_append, length_schedBytes, List.length_drop, h2.1]; omega
      · intro t _
        rw [nth_append, length_schedBytes]
        split
        · rename_i ht
          unfold schedBytes
          rw [nth_range_map, if_pos ht]
          have := h2.2.1 (t / 4) (by omega) ⟨t % 4, by omega⟩
          rw [show (t / 4) * 4 + (⟨t % 4, by omega⟩ : Fin 4).val = t by simp; omega] at this
          rw [this]
          congr 1
        · rw [nth_drop, h2.2.2 t (by omega)]
          congr 1; omega

end Frodo
