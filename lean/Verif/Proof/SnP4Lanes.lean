import Verif.Proof.SnP4

/-! # The functions for lanes of all four states -/

namespace Frodo

open Spec

/-- Member `t` (proof device). -/
def V4.get (v : V4) (t : Fin 4) : V256 :=
  match t with
  | 0 => v.l0 | 1 => v.l1 | 2 => v.l2 | 3 => v.l3

theorem INTLEAVE_get (v : V4) (i t : Fin 4) : (INTLEAVE v).get i t = v.get t i := by
  revert i t
  refine four_forall ?_ ?_ ?_ ?_ <;> exact four_forall rfl rfl rfl rfl

theorem UNINTLEAVE_get (v : V4) (i t : Fin 4) : (UNINTLEAVE v).get i t = v.get t i := by
  revert i t
  refine four_forall ?_ ?_ ?_ ?_ <;> exact four_forall rfl rfl rfl rfl

theorem laneLoop_ret {σ : Type} {f4 f : Nat → σ → C σ} {n : Nat} {s : σ} (I : Nat → σ → Prop)
    (h4 : ∀ i s, i + 4 ≤ n → I i s → Ret (f4 i s) (I (i + 4)))
    (h1 : ∀ i s, i < n → I i s → Ret (f i s) (I (i + 1))) (h0 : I 0 s) :
    Ret (laneLoop f4 f n s) (I n) := by
  unfold laneLoop
  have tail : ∀ lo s, lo ≤ n → I lo s → Ret (forC lo n 1 s f) (I n) := by
    intro lo s hlo hs
    refine Ret.for (n - lo) (fun k s => I (lo + k) s) (by simp) hs ?_ ?_
    · intro k s hk hI
      have := h1 (lo + k) s (by omega) hI
      simpa [Nat.add_assoc] using this
    · intro s hI
      rwa [show lo + (n - lo) = n by omega] at hI
  rw [Ret_ifC]
  by_cases c : n ≥ 16
  · simp only [c, decide_true, ↓reduceIte]
    refine (h4 0 s (by omega) h0).bind fun s hs => ?_
    refine (h4 4 s (by omega) hs).bind fun s hs => ?_
    refine (h4 8 s (by omega) hs).bind fun s hs => ?_
    refine (h4 12 s (by omega) hs).bind fun s hs => ?_
    rw [Ret_ifC]
    by_cases c2 : n ≥ 20
    · simp only [c2, decide_true, ↓reduceIte]
      refine (h4 16 s (by omega) hs).bind fun s hs => ?_
      exact tail 20 s c2 hs
    · simp only [c2, decide_false, Bool.false_eq_true, ↓reduceIte]
      exact tail 16 s c hs
  · simp only [c, decide_false, Bool.false_eq_true, ↓reduceIte]
    exact tail 0 s (by omega) h0

/-- The positions of the four pointers without wrap-around (proof device). -/
def offs (L : Nat) : Four Nat := ⟨0, L * 8, L * 2 * 8, L * 3 * 8⟩

theorem offs_get (L : Nat) (t : Fin 4) : (offs L).get t = 8 * (L * t) := by
  revert t
  refine four_forall ?_ ?_ ?_ ?_
  · rfl
  · show L * 8 = 8 * (L * 1); omega
  · show L * 2 * 8 = 8 * (L * 2); omega
  · show L * 3 * 8 = 8 * (L * 3); omega

theorem lanePtrs_ret {dAddr : Nat} {data : List U8} {L : Nat} (hA : dAddr % 8 = 0)
    (hL : 24 * L < 2 ^ 32) (hd : 24 * L ≤ data.length) :
    Ret (lanePtrs dAddr data L) (· = offs L) := by
  unfold lanePtrs
  have e1 : u32 (L * 8) = L * 8 := Nat.mod_eq_of_lt (by omega)
  have e2 : u32 (u32 (L * 2) * 8) = L * 2 * 8 := by
    unfold u32; rw [Nat.mod_eq_of_lt (a := L * 2) (by omega), Nat.mod_eq_of_lt (by omega)]
  have e3 : u32 (u32 (L * 3) * 8) = L * 3 * 8 := by
    unfold u32; rw [Nat.mod_eq_of_lt (a := L * 3) (by omega), Nat.mod_eq_of_lt (by omega)]
  rw [e1, e2, e3]
  simp only [wp]
  refine ⟨by omega, by omega, rfl⟩

/-- Lane `i` of the four inputs (proof device). -/
def laneV (data : List U8) (o : Four Nat) (i : Nat) : V256 := fun t => le64 data (o.get t + 8 * i)

theorem four_fn {v w : V256} (h0 : v 0 = w 0) (h1 : v 1 = w 1) (h2 : v 2 = w 2) (h3 : v 3 = w 3) :
    v = w := funext (four_forall h0 h1 h2 h3)

theorem loadLane4_ret {dAddr : Nat} {data : List U8} {o : Four Nat} {i : Nat}
    (hA : ∀ t, (dAddr + o.get t) % 8 = 0) (hd : ∀ t, o.get t + 8 * i + 8 ≤ data.length) :
    Ret (loadLane4 dAddr data o i) (· = laneV data o i) := by
  unfold loadLane4
  have a0 := hA 0
  have a1 := hA 1
  have a2 := hA 2
  have a3 := hA 3
  have d0 := hd 0
  have d1 := hd 1
  have d2 := hd 2
  have d3 := hd 3
  simp only [Four.get] at a0 a1 a2 a3 d0 d1 d2 d3
  simp only [wp]
  exact ⟨by omega, by omega, by omega, by omega, by omega, by omega, by omega, by omega,
    four_fn rfl rfl rfl rfl⟩

theorem loadLanes_ret {data : List U8} {o : Four Nat} {i : Nat}
    (hd : ∀ t, o.get t + 8 * i + 32 ≤ data.length) :
    Ret (loadLanes data o i) (fun v => ∀ t j : Fin 4, v.get t j = laneV data o (i + j) t) := by
  unfold loadLanes LOAD256u
  have d0 := hd 0
  have d1 := hd 1
  have d2 := hd 2
  have d3 := hd 3
  simp only [Four.get] at d0 d1 d2 d3
  simp only [wp]
  refine ⟨by omega, by omega, by omega, by omega, ?_⟩
  refine four_forall ?_ ?_ ?_ ?_ <;> intro j <;> simp only [V4.get, laneV, Four.get] <;> congr 1 <;>
    omega

/-! ## Writing the states -/

/-- The first `n` lanes of the states are updated with `g` (proof device). -/
def LUpd (g : U64 → U64 → U64) (ss : List U64) (data : List U8) (o : Four Nat) (n : Nat)
    (s' : List U64) : Prop :=
  s'.length = 100 ∧ ∀ l, ∀ t : Fin 4, nth s' (4 * l + t) =
    if l < n then g (nth ss (4 * l + t)) (laneV data o l t) else nth ss (4 * l + t)

theorem LUpd.zero {g : U64 → U64 → U64} {ss : List U64} {data : List U8} {o : Four Nat}
    (h : ss.length = 100) : LUpd g ss data o 0 ss :=
  ⟨h, fun l t => by rw [if_neg (by omega)]⟩

theorem LUpd.step {g : U64 → U64 → U64} {ss s' : List U64} {data : List U8} {o : Four Nat} {n : Nat}
    {v : V256} (h : LUpd g ss data o n s') (hn : n < 25)
    (hv : ∀ t, v t = g (nth s' (4 * n + t)) (laneV data o n t)) :
    LUpd g ss data o (n + 1) (set4 s' n v) := by
  refine ⟨by simp [h.1], fun l t => ?_⟩
  rw [nth_set4 (by rw [h.1]; omega)]
  by_cases c : l = n
  · rw [if_pos c, if_pos (by omega), hv, h.2, if_neg (by omega), c]
  · rw [if_neg c, h.2]
    by_cases c2 : l < n
    · rw [if_pos c2, if_pos (by omega)]
    · rw [if_neg c2, if_neg (by omega)]

theorem xorState_ret {ss s' : List U64} {data : List U8} {o : Four Nat} {n : Nat} {v : V256}
    (h : LUpd (· ^^^ ·) ss data o n s') (hn : n < 25) (hv : ∀ t, v t = laneV data o n t) :
    Ret (xorState s' n v) (LUpd (· ^^^ ·) ss data o (n + 1)) := by
  unfold xorState
  have hl := h.1
  simp only [wp]
  refine ⟨by omega, by omega, ?_⟩
  exact h.step hn fun t => by rw [XOR256, hv]

theorem storeState_ret {ss s' : List U64} {data : List U8} {o : Four Nat} {n : Nat} {v : V256}
    (h : LUpd (fun _ d => d) ss data o n s') (hn : n < 25) (hv : ∀ t, v t = laneV data o n t) :
    Ret (STORE256 s' n v) (LUpd (fun _ d => d) ss data o (n + 1)) := by
  have hl := h.1
  simp only [wp]
  exact ⟨by omega, h.step hn hv⟩

theorem offs_bound {L n : Nat} {len : Nat} (h : 8 * (3 * L + n) ≤ len) (t : Fin 4) :
    (offs L).get t + 8 * n ≤ len := by
  rw [offs_get]
  have := t.isLt
  have : L * t ≤ L * 3 := Nat.mul_le_mul_left _ (by omega)
  omega

theorem offs_aligned {dAddr L : Nat} (h : dAddr % 8 = 0) (t : Fin 4) :
    (dAddr + (offs L).get t) % 8 = 0 := by
  rw [offs_get]; omega

/-- Both functions that write lanes into the states. -/
theorem lanesAll_upd {g : U64 → U64 → U64} {w : List U64 → Nat → V256 → C (List U64)}
    (hw : ∀ (ss s' : List U64) (data : List U8) (o : Four Nat) (n : Nat) (v : V256),
      LUpd g ss data o n s' → n < 25 → (∀ t, v t = laneV data o n t) →
      Ret (w s' n v) (LUpd g ss data o (n + 1)))
    {ss : List U64} (h : ss.length = 100) {dAddr : Nat} {data : List U8} {n L : Nat}
    (hA : dAddr % 8 = 0) (hn : n ≤ 25) (hd : 8 * (3 * L + n) ≤ data.length) :
    Ret (laneLoop (fun i ss => do
        let v ← loadLanes data (offs L) i
        let v := INTLEAVE v
        let ss ← w ss (i + 0) v.l0
        let ss ← w ss (i + 1) v.l1
        let ss ← w ss (i + 2) v.l2
        w ss (i + 3) v.l3)
      (fun i ss => do
        let v ← loadLane4 dAddr data (offs L) i
        w ss i v) n ss) (LUpd g ss data (offs L) n) := by
  refine laneLoop_ret (fun i s => LUpd g ss data (offs L) i s) ?_ ?_ (LUpd.zero h)
  · intro i s hi hI
    refine (loadLanes_ret (fun t => ?_)).bind fun v hv => ?_
    · have := offs_bound hd t; omega
    · have key : ∀ j : Fin 4, ∀ t, (INTLEAVE v).get j t = laneV data (offs L) (i + j) t :=
        fun j t => by rw [INTLEAVE_get, hv]
      refine (hw _ _ _ _ _ _ hI (by omega) (key 0)).bind fun s hs => ?_
      refine (hw _ _ _ _ _ _ hs (by omega) (key 1)).bind fun s hs => ?_
      refine (hw _ _ _ _ _ _ hs (by omega) (key 2)).bind fun s hs => ?_
      exact hw _ _ _ _ _ _ hs (by omega) (key 3)
  · intro i s hi hI
    refine (loadLane4_ret (offs_aligned hA) (fun t => ?_)).bind_eq ?_
    · have := offs_bound hd t; omega
    · exact hw _ _ _ _ _ _ hI (by omega) fun t => rfl

theorem AddLanesAll_ret {sAddr : Nat} (hsA : sAddr % 32 = 0) {ss : List U64} (h : ss.length = 100)
    {dAddr : Nat} {data : List U8} {n L : Nat} (hA : dAddr % 8 = 0) (hn : n ≤ 25)
    (hL : 24 * L < 2 ^ 32) (hd : 8 * (3 * L + n) ≤ data.length) :
    Ret (KeccakP1600times4_AddLanesAll sAddr ss dAddr data n L)
      (LUpd (· ^^^ ·) ss data (offs L) n) := by
  unfold KeccakP1600times4_AddLanesAll
  simp only [Ret_require_bind]
  refine ⟨hsA, ?_⟩
  refine (lanePtrs_ret hA hL (by omega)).bind_eq ?_
  exact lanesAll_upd (w := xorState) (fun _ _ _ _ _ _ => xorState_ret) h hA hn hd

theorem OverwriteLanesAll_ret {sAddr : Nat} (hsA : sAddr % 32 = 0) {ss : List U64}
    (h : ss.length = 100) {dAddr : Nat} {data : List U8} {n L : Nat} (hA : dAddr % 8 = 0)
    (hn : n ≤ 25) (hL : 24 * L < 2 ^ 32) (hd : 8 * (3 * L + n) ≤ data.length) :
    Ret (KeccakP1600times4_OverwriteLanesAll sAddr ss dAddr data n L)
      (LUpd (fun _ d => d) ss data (offs L) n) := by
  unfold KeccakP1600times4_OverwriteLanesAll
  simp only [Ret_require_bind]
  refine ⟨hsA, ?_⟩
  refine (lanePtrs_ret hA hL (by omega)).bind_eq ?_
  exact lanesAll_upd (w := STORE256) (fun _ _ _ _ _ _ => storeState_ret) h hA hn hd

theorem LUpd.bytes_xor {ss s' : List U64} {data : List U8} {L n : Nat}
    (h : LUpd (· ^^^ ·) ss data (offs L) n s') {k : Nat} (hk : k < 4) (o : Nat) :
    stByte s' k o = if o < 8 * n then stByte ss k o ^^^ nth data (8 * L * k + o) else stByte ss k o := by
  have := h.2 (o / 8) ⟨k, hk⟩
  simp only at this
  rw [stByte_eq, this]
  by_cases c : o / 8 < n
  · rw [if_pos c, if_pos (by omega), byteW_xor, laneV, byteW_le64 _ _ _ (by omega), offs_get, stByte_eq]
    congr 2
    rw [Nat.mul_assoc]; simp only; omega
  · rw [if_neg c, if_neg (by omega), stByte_eq]

theorem LUpd.bytes_set {ss s' : List U64} {data : List U8} {L n : Nat}
    (h : LUpd (fun _ d => d) ss data (offs L) n s') {k : Nat} (hk : k < 4) (o : Nat) :
    stByte s' k o = if o < 8 * n then nth data (8 * L * k + o) else stByte ss k o := by
  have := h.2 (o / 8) ⟨k, hk⟩
  simp only at this
  rw [stByte_eq, this]
  by_cases c : o / 8 < n
  · rw [if_pos c, if_pos (by omega), laneV, byteW_le64 _ _ _ (by omega), offs_get]
    congr 1
    rw [Nat.mul_assoc]; simp only; omega
  · rw [if_neg c, if_neg (by omega), stByte_eq]

/-! ## Reading the states -/

/-- Of instance `t` the first `d t` lanes are written to the output (proof device). -/
def LOut (w : Nat → Nat → U8) (L : Nat) (out : List U8) (d : Nat → Nat) (out' : List U8) : Prop :=
  out'.length = out.length ∧ ∀ p, nth out' p =
    if p / (8 * L) < 4 ∧ p % (8 * L) < 8 * d (p / (8 * L)) then w (p / (8 * L)) (p % (8 * L))
    else nth out p

theorem LOut.zero {w : Nat → Nat → U8} {L : Nat} {out : List U8} : LOut w L out (fun _ => 0) out :=
  ⟨rfl, fun p => by rw [if_neg (by simp)]⟩

theorem LOut.step {w : Nat → Nat → U8} {L : Nat} {out out' s : List U8} {d d' : Nat → Nat} {t m : Nat}
    (h : LOut w L out d out') (ht : t < 4) (hm : d t + m ≤ L)
    (hd : ∀ j, d' j = if j = t then d t + m else d j)
    (hs : 8 * m ≤ s.length) (hb : 8 * (L * t) + 8 * d t + 8 * m ≤ out'.length)
    (hw : ∀ i, i < 8 * m → nth s i = w t (8 * d t + i)) :
    LOut w L out d' (out'.take (8 * (L * t) + 8 * d t) ++ (s.drop 0).take (8 * m) ++
      out'.drop (8 * (L * t) + 8 * d t + 8 * m)) := by
  refine ⟨by rw [length_splice (by omega) hb, h.1], fun p => ?_⟩
  rw [nth_splice (by omega) hb]
  by_cases hL : L = 0
  · rw [if_neg (by omega), h.2, hL]
    simp only [Nat.mul_zero, Nat.div_zero, Nat.mod_zero]
    rw [hd]
    by_cases c : 0 = t
    · subst c; rw [if_pos rfl, show d 0 + m = d 0 by omega]
    · rw [if_neg c]
  have e := Nat.div_add_mod p (8 * L)
  have hr := Nat.mod_lt p (show 0 < 8 * L by omega)
  by_cases c : p / (8 * L) = t
  · rw [c] at e
    have e' : 8 * L * t = 8 * (L * t) := Nat.mul_assoc _ _ _
    rw [c, h.2, c, hd, if_pos rfl]
    by_cases c2 : 8 * d t ≤ p % (8 * L) ∧ p % (8 * L) < 8 * d t + 8 * m
    · rw [if_pos (by omega), if_pos (by omega), hw _ (by omega)]
      congr 1; omega
    · rw [if_neg (by omega)]
      by_cases c3 : p % (8 * L) < 8 * d t
      · rw [if_pos ⟨ht, c3⟩, if_pos ⟨ht, by omega⟩]
      · rw [if_neg (by omega), if_neg (by omega)]
  · rw [hd, if_neg c, h.2, if_neg]
    rintro ⟨c1, c2⟩
    apply c
    have : p = 8 * L * t + (p - 8 * L * t) := by
      have e' : 8 * L * t = 8 * (L * t) := Nat.mul_assoc _ _ _
      omega
    rw [this, Nat.mul_add_div (by omega), Nat.div_eq_of_lt]
    · omega
    · have e' : 8 * L * t = 8 * (L * t) := Nat.mul_assoc _ _ _
      omega

/-- The counters when the instances below `t` have `n + m` lanes and the others `n` (proof device). -/
def cnt (n m t : Nat) (j : Nat) : Nat := if j < t then n + m else n

theorem cnt_step (n m t j : Nat) :
    cnt n m (t + 1) j = if j = t then cnt n m t t + m else cnt n m t j := by
  unfold cnt
  split <;> split <;> (try split) <;> omega

theorem LOut.cnt4 {w : Nat → Nat → U8} {L : Nat} {out : List U8} {n m : Nat} {o : List U8}
    (h : LOut w L out (cnt n m 4) o) : LOut w L out (fun _ => n + m) o := by
  refine ⟨h.1, fun p => ?_⟩
  rw [h.2]
  by_cases c : p / (8 * L) < 4
  · rw [cnt, if_pos c]
  · rw [if_neg (by omega), if_neg (by omega)]

theorem bound4 {L n m len : Nat} {t : Nat} (ht : t < 4) (h : 8 * (3 * L + n + m) ≤ len) :
    8 * (L * t) + 8 * n + 8 * m ≤ len := by
  have : L * t ≤ L * 3 := Nat.mul_le_mul_left _ (by omega)
  omega

theorem stU64_out {w : Nat → Nat → U8} {L n dAddr : Nat} {out out' : List U8} {t : Fin 4} {v : U64}
    (h : LOut w L out (cnt n 1 t) out') (hA : dAddr % 8 = 0) (hm : n + 1 ≤ L)
    (hb : 8 * (3 * L + n + 1) ≤ out.length) (hv : ∀ b, b < 8 → byteW v b = w t (8 * n + b)) :
    Ret (stU64 dAddr out' ((offs L).get t + 8 * n) v) (LOut w L out (cnt n 1 (t + 1))) := by
  have hl := h.1
  have hb := bound4 t.isLt hb
  have hc : cnt n 1 t t = n := by unfold cnt; rw [if_neg (by omega)]
  unfold stU64
  rw [offs_get]
  simp only [wp, length_bytes64]
  refine ⟨by omega, by omega, by omega, ?_⟩
  have := LOut.step (t := t) (m := 1) (s := bytes64 v) h t.isLt (by rw [hc]; omega)
    (fun j => cnt_step n 1 t j) (by simp) (by rw [hc]; omega) (fun i hi => by
      rw [nth_bytes64 _ _ (by omega), hc, hv _ (by omega)])
  rwa [hc] at this

theorem nth_four64 (v : V256) (i : Nat) (hi : i < 32) :
    nth (bytes64 (v 0) ++ bytes64 (v 1) ++ bytes64 (v 2) ++ bytes64 (v 3)) i =
      byteW (v (Fin.ofNat 4 (i / 8))) (i % 8) := by
  simp only [nth_append, List.length_append, length_bytes64]
  by_cases c1 : i < 8
  · rw [if_pos (by omega), if_pos (by omega), if_pos c1, nth_bytes64 _ _ c1,
      show i / 8 = 0 by omega, show i % 8 = i by omega]; rfl
  · by_cases c2 : i < 16
    · rw [if_pos (by omega), if_pos (by omega), if_neg c1, nth_bytes64 _ _ (by omega),
        show i / 8 = 1 by omega, show i % 8 = i - 8 by omega]; rfl
    · by_cases c3 : i < 24
      · rw [if_pos (by omega), if_neg (by omega), nth_bytes64 _ _ (by omega),
          show i / 8 = 2 by omega, show i % 8 = i - 16 by omega]; rfl
      · rw [if_neg (by omega), nth_bytes64 _ _ (by omega),
          show i / 8 = 3 by omega, show i % 8 = i - 24 by omega]; rfl

theorem STORE256u_out {w : Nat → Nat → U8} {L n : Nat} {out out' : List U8} {t : Fin 4} {v : V256}
    (h : LOut w L out (cnt n 4 t) out') (hm : n + 4 ≤ L)
    (hb : 8 * (3 * L + n + 4) ≤ out.length)
    (hv : ∀ j : Fin 4, ∀ b, b < 8 → byteW (v j) b = w t (8 * (n + j) + b)) :
    Ret (STORE256u out' ((offs L).get t + 8 * n) v) (LOut w L out (cnt n 4 (t + 1))) := by
  have hl := h.1
  have hb := bound4 t.isLt hb
  have hc : cnt n 4 t t = n := by unfold cnt; rw [if_neg (by omega)]
  unfold STORE256u
  rw [offs_get]
  simp only [wp, List.length_append, length_bytes64]
  refine ⟨by omega, by omega, ?_⟩
  have := LOut.step (t := t) (m := 4)
    (s := bytes64 (v 0) ++ bytes64 (v 1) ++ bytes64 (v 2) ++ bytes64 (v 3)) h t.isLt (by rw [hc]; omega)
    (fun j => cnt_step n 4 t j) (by simp) (by rw [hc]; omega) (fun i hi => by
      rw [nth_four64 _ _ (by omega), hc, hv _ _ (by omega)]
      congr 1
      simp only [Fin.ofNat]
      omega)
  rwa [hc] at this

theorem loadStates_ret {ss : List U64} (h : ss.length = 100) {i : Nat} (hi : i + 4 ≤ 25) :
    Ret (loadStates ss i) (fun v => ∀ t j : Fin 4, v.get t j = nth ss (4 * (i + j) + t)) := by
  unfold loadStates
  simp only [wp]
  refine ⟨by omega, by omega, by omega, by omega, fun t j => ?_⟩
  rw [UNINTLEAVE_get]
  revert t j
  refine fun t => four_forall ?_ ?_ ?_ ?_ <;> rfl

theorem cnt_zero (n m : Nat) : cnt n m 0 = fun _ => n := by
  funext j; unfold cnt; rw [if_neg (by omega)]

theorem storeLanes_out {w : Nat → Nat → U8} {L n : Nat} {out out' : List U8} {v : V4}
    (h : LOut w L out (fun _ => n) out') (hm : n + 4 ≤ L) (hb : 8 * (3 * L + n + 4) ≤ out.length)
    (hv : ∀ t j : Fin 4, ∀ b, b < 8 → byteW (v.get t j) b = w t (8 * (n + j) + b)) :
    Ret (storeLanes out' (offs L) n v) (LOut w L out (fun _ => n + 4)) := by
  unfold storeLanes
  rw [← cnt_zero n 4] at h
  refine (STORE256u_out (t := 0) h hm hb (hv 0)).bind fun o ho => ?_
  refine (STORE256u_out (t := 1) ho hm hb (hv 1)).bind fun o ho => ?_
  refine (STORE256u_out (t := 2) ho hm hb (hv 2)).bind fun o ho => ?_
  exact (STORE256u_out (t := 3) ho hm hb (hv 3)).mono fun o ho => ho.cnt4

theorem ExtractLanesAll_ret {sAddr : Nat} (hsA : sAddr % 32 = 0) {ss : List U64} (h : ss.length = 100)
    {dAddr : Nat} {data : List U8} {n L : Nat} (hA : dAddr % 8 = 0) (hn : n ≤ 25) (hnL : n ≤ L)
    (hL : 24 * L < 2 ^ 32) (hd : 8 * (3 * L + n) ≤ data.length) :
    Ret (KeccakP1600times4_ExtractLanesAll sAddr ss dAddr data n L)
      (LOut (stByte ss) L data (fun _ => n)) := by
  unfold KeccakP1600times4_ExtractLanesAll
  refine (lanePtrs_ret hA hL (by omega)).bind_eq ?_
  simp only [Ret_require_bind]
  refine ⟨hsA, ?_⟩
  refine laneLoop_ret (fun i s => LOut (stByte ss) L data (fun _ => i) s) ?_ ?_ LOut.zero
  · intro i s hi hI
    unfold Extr4
    refine (loadStates_ret h (by omega)).bind fun v hv => ?_
    refine storeLanes_out hI (by omega) (by omega) fun t j b hb => ?_
    rw [hv, stByte_lane _ hb]
  · intro i s hi hI
    unfold Extr
    have key : ∀ t : Fin 4, ∀ b, b < 8 → byteW (nth ss (4 * i + t)) b = stByte ss t (8 * i + b) :=
      fun t b hb => (stByte_lane _ hb).symm
    rw [← cnt_zero i 1] at hI
    simp only [Ret_rd_bind]
    refine ⟨by omega, ?_⟩
    refine (stU64_out (t := 0) hI hA (by omega) (by omega) (key 0)).bind fun o ho => ?_
    simp only [Ret_rd_bind]
    refine ⟨by omega, ?_⟩
    refine (stU64_out (t := 1) ho hA (by omega) (by omega) (key 1)).bind fun o ho => ?_
    simp only [Ret_rd_bind]
    refine ⟨by omega, ?_⟩
    refine (stU64_out (t := 2) ho hA (by omega) (by omega) (key 2)).bind fun o ho => ?_
    simp only [Ret_rd_bind]
    refine ⟨by omega, ?_⟩
    exact (stU64_out (t := 3) ho hA (by omega) (by omega) (key 3)).mono fun o ho => ho.cnt4

theorem ExtractAndAddLanesAll_ret {sAddr : Nat} (hsA : sAddr % 32 = 0) {ss : List U64}
    (h : ss.length = 100) {iAddr : Nat} {input : List U8} {oAddr : Nat} {output : List U8} {n L : Nat}
    (hiA : iAddr % 8 = 0) (hA : oAddr % 8 = 0) (hn : n ≤ 25) (hnL : n ≤ L)
    (hL : 24 * L < 2 ^ 32) (hi : 8 * (3 * L + n) ≤ input.length)
    (hd : 8 * (3 * L + n) ≤ output.length) :
    Ret (KeccakP1600times4_ExtractAndAddLanesAll sAddr ss iAddr input oAddr output n L)
      (LOut (fun k o => nth input (8 * L * k + o) ^^^ stByte ss k o) L output (fun _ => n)) := by
  unfold KeccakP1600times4_ExtractAndAddLanesAll
  refine (lanePtrs_ret hiA hL (by omega)).bind_eq ?_
  refine (lanePtrs_ret hA hL (by omega)).bind_eq ?_
  simp only [Ret_require_bind]
  refine ⟨hsA, ?_⟩
  have key : ∀ (t : Fin 4) (i b : Nat), b < 8 →
      byteW (le64 input ((offs L).get t + 8 * i) ^^^ nth ss (4 * i + t)) b =
      nth input (8 * L * t + (8 * i + b)) ^^^ stByte ss t (8 * i + b) := by
    intro t i b hb
    rw [byteW_xor, byteW_le64 _ _ _ hb, offs_get, stByte_lane _ hb]
    congr 2
    rw [Nat.mul_assoc]; omega
  refine laneLoop_ret (fun i s => LOut (fun k o => nth input (8 * L * k + o) ^^^ stByte ss k o) L output
    (fun _ => i) s) ?_ ?_ LOut.zero
  · intro i s hi' hI
    unfold ExtrXor4
    refine (loadStates_ret h (by omega)).bind fun v hv => ?_
    refine (loadLanes_ret (fun t => ?_)).bind fun x hx => ?_
    · have := offs_bound hi t; omega
    · refine storeLanes_out hI (by omega) (by omega) fun t j b hb => ?_
      rw [← key t _ b hb]
      have e : V4.get ⟨XOR256 v.l0 x.l0, XOR256 v.l1 x.l1, XOR256 v.l2 x.l2, XOR256 v.l3 x.l3⟩ t =
          XOR256 (v.get t) (x.get t) := by
        revert t; exact four_forall rfl rfl rfl rfl
      rw [e, XOR256, hv, hx, laneV, BitVec.xor_comm]
  · intro i s hi' hI
    unfold ExtrXor
    have b0 := offs_bound hi 0
    have b1 := offs_bound hi 1
    have b2 := offs_bound hi 2
    have b3 := offs_bound hi 3
    have a0 := offs_aligned (L := L) hiA 0
    have a1 := offs_aligned (L := L) hiA 1
    have a2 := offs_aligned (L := L) hiA 2
    have a3 := offs_aligned (L := L) hiA 3
    simp only [Four.get] at b0 b1 b2 b3 a0 a1 a2 a3
    rw [← cnt_zero i 1] at hI
    simp only [Ret_rd_bind, Ret_ldU64_bind]
    refine ⟨by omega, by omega, by omega, ?_⟩
    refine (stU64_out (t := 0) hI hA (by omega) (by omega) (key 0 i)).bind fun o ho => ?_
    simp only [Ret_rd_bind, Ret_ldU64_bind]
    refine ⟨by omega, by omega, by omega, ?_⟩
    refine (stU64_out (t := 1) ho hA (by omega) (by omega) (key 1 i)).bind fun o ho => ?_
    simp only [Ret_rd_bind, Ret_ldU64_bind]
    refine ⟨by omega, by omega, by omega, ?_⟩
    refine (stU64_out (t := 2) ho hA (by omega) (by omega) (key 2 i)).bind fun o ho => ?_
    simp only [Ret_rd_bind, Ret_ldU64_bind]
    refine ⟨by omega, by omega, by omega, ?_⟩
    exact (stU64_out (t := 3) ho hA (by omega) (by omega) (key 3 i)).mono fun o ho => ho.cnt4

theorem LOut.at {w : Nat → Nat → U8} {L : Nat} {out out' : List U8} {n : Nat}
    (h : LOut w L out (fun _ => n) out') (hn : n ≤ L) {k o : Nat} (hk : k < 4) (ho : o < 8 * n) :
    nth out' (8 * L * k + o) = w k o := by
  rw [h.2, Nat.mul_add_div (by omega), Nat.div_eq_of_lt (by omega), Nat.mul_add_mod,
    Nat.mod_eq_of_lt (by omega), Nat.add_zero, if_pos ⟨hk, ho⟩]

theorem LOut.other {w : Nat → Nat → U8} {L : Nat} {out out' : List U8} {n : Nat}
    (h : LOut w L out (fun _ => n) out') {p : Nat}
    (hp : ∀ k, k < 4 → ¬ (8 * L * k ≤ p ∧ p < 8 * L * k + 8 * n)) : nth out' p = nth out p := by
  rw [h.2, if_neg]
  rintro ⟨c1, c2⟩
  simp only at c2
  have := Nat.div_add_mod p (8 * L)
  exact hp _ c1 ⟨by omega, by omega⟩

end Frodo
