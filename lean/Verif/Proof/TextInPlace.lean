import Verif.Proof.TextRefAes

/-! # The text of AES in place

`AES128_ECB_enc_sch` with `ciphertext == plaintext` (/repo/src/frodo_macrify_reference.c:33, 91) copies each block over itself with
`memcpy` (/repo/src/aes/aes_c.c:317), which C does not define (C11 7.24.2.1p2). -/

namespace Frodo

open Src

variable {X : Ctx} {d : Nat} {m : Mem}

theorem ub_ret {m : C α} {Q : α → Prop} {f : α → C β} {u : UB} (h : Ret m Q) (hf : ∀ x, Q x → f x = .ub u) : (m >>= f) = .ub u := by
  obtain ⟨a, t, rfl, hq⟩ := h
  rw [C.bind_def, C.bind', hf a hq]

theorem ub_bind {m : C α} {f : α → C β} {u : UB} (h : m = .ub u) : (m >>= f) = .ub u := by rw [h]; rfl
theorem ub_emit {e : Event} {f : Unit → C β} {u : UB} (h : f () = .ub u) : (C.emit e >>= f) = .ub u := by
  rw [C.bind_def, C.emit, C.bind', h]

theorem copy_overlap (bo ki ko : Nat) (s : Bool) (n : Nat) (h1 : ki < ko + 16) (h2 : ko < ki + 16) (next : Nat) :
    (link aesFiles X d).call "memcpy" [.ptr bo ko false 1, .ptr bo ki false 1, .int s n 16] m next = .ub .overlap := by
  obtain ⟨call, hc⟩ := link_string (Fs := aesFiles) (X := X) (d := d)
  rw [hc]
  have e3 : wrap false 8 (16 : Int) = 16 := by decide
  simp only [withString, if_neg (show "memcpy" ≠ "memset" by decide), if_true, e3, memcpyC]
  rw [C.require, if_neg (by simp; omega)]
  rfl

theorem enc128_overlap (br bo ki ko kr : Nat) (h1 : ki < ko + 16) (h2 : ko < ki + 16) (next : Nat) :
    aesCFile.run (link aesFiles X d) "aes128_enc_c" [.ptr bo ki false 1, .ptr br kr false 1, .ptr bo ko false 1] m next
      = .ub .overlap := by
  rw [run_eq aesC_aes128_enc_c, aes128_enc_cFun]
  csim
  exact ub_bind (copy_overlap bo ki ko true 4 h1 h2 next)

theorem block128_overlap (br bo ki ko kr : Nat) (h1 : ki < ko + 16) (h2 : ko < ki + 16) (next : Nat) :
    aesFile.run (link aesFiles X (d + 1)) "aes128_enc" [.ptr bo ki false 1, .ptr br kr false 1, .ptr bo ko false 1] m next
      = .ub .overlap := by
  rw [run_eq aes_aes128_enc, aes128_encFun]
  csim
  rw [call_c aesC_aes128_enc_c (by decide) (by decide)]
  exact ub_bind (enc128_overlap br bo ki ko kr h1 h2 next)

theorem ecb128_overlap (hA : Asserts X) (br bo ki ko kr n : Nat) (ct : List U8) (ho : m bo = u8s ct)
   (hn : 0 < n) (hn2 : 16 * n < 2 ^ 63) (h1 : ki < ko + 16) (h2 : ko < ki + 16) (h3 : ki ≤ ct.length) (h4 : ko ≤ ct.length) (next : Nat) :
    aesFile.run (link aesFiles X (d + 2)) "AES128_ECB_enc_sch"
        [.ptr bo ki false 1, .int false 8 (16 * n : Nat), .ptr br kr false 1, .ptr bo ko false 1] m next = .ub .overlap := by
  have e1 : numOp .mod false 8 ((16 * n : Nat) : Int) 16 = pure (.int false 8 (16 * n % 16 : Nat)) := mod_size (by omega) 16 (by omega)
  have e2 : numOp .div false 8 ((16 * n : Nat) : Int) 16 = pure (.int false 8 (16 * n / 16 : Nat)) := div_size (by omega) 16 (by omega)
  have e3 : decide ((0 : Int) < ((16 * n / 16 : Nat) : Int)) = true := by rw [decide_eq_true_eq]; omega
  rw [run_eq aes_AES128_ECB_enc_sch, AES128_ECB_enc_schFun]
  csim [e1, link_extern (X := X) (d := d + 2) no_assert (show "assert" ≠ "memset" by decide) (show "assert" ≠ "memcpy" by decide)]
  refine ub_ret (hA _ _ _ _ _ (by simp [truth])) ?_
  rintro _ rfl
  csim [loopF_eq]
  refine ub_bind ?_
  rw [loop]
  refine ub_bind ?_
  unfold roundS
  csim [e2, e3]
  rw [branchK]
  refine ub_emit ?_
  rw [if_pos (by simp; omega)]
  simp only [movePtr, ho, u8s, ofU8, List.length_map, Int.toNat_zero, Nat.add_zero, Nat.mul_one, le_refl, true_and, if_pos h3, if_pos h4, bind_assoc, pure_bind]
  refine ub_emit (ub_emit (ub_bind ?_))
  rw [call_aes aes_aes128_enc static_calls.1 (by decide) (by decide)]
  exact block128_overlap br bo ki ko kr h1 h2 next

theorem ret_prefix {m : C α} {f : α → C β} {Q : β → Prop} (h : Ret (m >>= f) Q) : ∃ a t, m = .ok a t := by
  cases m with
  | ok a t => exact ⟨a, t, rfl⟩
  | ub u => obtain ⟨_, _, h, -⟩ := h; cases h
  | div => obtain ⟨_, _, h, -⟩ := h; cases h

/-- A statement without defined behaviour because `memcpy` is called with objects that overlap, in every memory that agrees with `F`. -/
def Overlaps (X : Ctx) (N : Nat) (loc : List (String × Val)) (F : Mem) (s : Stmt) : Prop :=
  ∀ M nx, N ≤ nx → MAgree N M F → exec X s ⟨loc, M, nx⟩ = .ub .overlap

/-- The same while arrays are still being declared. -/
def DOverlaps (X : Ctx) (N : Nat) (loc : List (String × Val)) (F : Mem) (s : Stmt) : Prop :=
  ∀ M, MAgree N M F → exec X s ⟨loc, M, N⟩ = .ub .overlap

section

variable {N : Nat} {loc : List (String × Val)} {F : Mem} {rest : Stmt}

theorem DOverlaps.assoc {a b c : Stmt} (hk : DOverlaps X N loc F (.seq a (.seq b c))) : DOverlaps X N loc F (.seq (.seq a b) c) := by
  intro M hA
  have e : exec X (.seq (.seq a b) c) ⟨loc, M, N⟩ = exec X (.seq a (.seq b c)) ⟨loc, M, N⟩ := by
    simp only [exec, bind_assoc]
    congr 1
    funext r
    rcases r with ⟨st, fl⟩
    cases fl <;> simp only [pure_bind]
  rw [e]
  exact hk M hA

theorem DOverlaps.undef {t : Ty} {x : String} (hk : DOverlaps X N ((x, .undef t) :: loc) F rest) :
    DOverlaps X N loc F (.seq (.decl t x none) rest) := by
  intro M hA
  simp only [exec, pure_bind]
  exact hk M hA

theorem DOverlaps.arr {x : String} {n len : Nat} {e : Expr} {init : Option (List Expr)} {s : Bool} {d : List Int}
    (he : Ev X N loc F e (.int true 4 len)) (hd : newArr X x s n len init = d)
    (hk : Overlaps X (N + 1) ((x, .ptr N 0 s n) :: loc) (F.set N ⟨s, n, d⟩) rest) :
    DOverlaps X N loc F (.seq (.declArr s n x e init) rest) := by
  intro M hA
  simp only [exec, bind_assoc]
  refine ub_ret (he M N (Nat.le_refl _) hA) ?_
  rintro _ rfl
  simp only [pure_bind, Int.toNat_natCast, hd]
  refine hk _ _ (Nat.le_refl _) fun b hb => ?_
  by_cases e : b = N
  · subst e; rw [set_same, set_same]
  · rw [set_ne _ _ e, set_ne _ _ e, hA b (by omega)]

theorem Overlaps.arrMid {x : String} {n len : Nat} {e : Expr} {init : Option (List Expr)} {s : Bool} {d : List Int}
    (he : Ev X N loc F e (.int true 4 len)) (hd : newArr X x s n len init = d)
    (hk : ∀ b F', N ≤ b → MAgree N F' F → Overlaps X (b + 1) ((x, .ptr b 0 s n) :: loc) (F'.set b ⟨s, n, d⟩) rest) :
    Overlaps X N loc F (.seq (.declArr s n x e init) rest) := by
  intro M nx hn hA
  simp only [exec, bind_assoc]
  refine ub_ret (he M nx hn hA) ?_
  rintro _ rfl
  simp only [pure_bind, Int.toNat_natCast, hd]
  exact hk nx M hn hA _ _ (Nat.le_refl _) fun _ _ => rfl

theorem Overlaps.declSize {x : String} {e : Expr} {v : Nat} (he : Ev X N loc F e (.int false 8 v)) (hv : v < 2 ^ 64)
    (hk : Overlaps X N ((x, .int false 8 v) :: loc) F rest) :
    Overlaps X N loc F (.seq (.decl (.int false 8) x (some e)) rest) := by
  intro M nx hn hA
  simp only [exec, bind_assoc]
  refine ub_ret (he M nx hn hA) ?_
  rintro _ rfl
  csim
  exact hk M nx hn hA

/-- After a statement with defined behaviour. -/
theorem Overlaps.step {s : Stmt} {mo : C α} {l' : α → List (String × Val)} {F' : α → Mem} {a : α} {t : List Event} (hm : mo = .ok a t)
    (h : Run X N loc F (.seq s .skip) mo fun r x => x.2 = .next ∧ x.1.loc = l' r ∧ N ≤ x.1.next ∧ MAgree N x.1.mem (F' r))
    (hk : Overlaps X N (l' a) (F' a) rest) : Overlaps X N loc F (.seq s rest) := by
  intro M nx hn hA
  obtain ⟨⟨⟨l, M', nx'⟩, fl⟩, t', e, ⟨rfl, rfl, h3, h4⟩, -⟩ := h M nx hn hA a t hm
  have e' : exec X (.seq s .skip) ⟨loc, M, nx⟩ = exec X s ⟨loc, M, nx⟩ := by
    simp only [exec]
    conv_rhs => rw [← bind_pure (exec X s ⟨loc, M, nx⟩)]
    congr 1
    funext r
    rcases r with ⟨st, fl⟩
    cases fl <;> rfl
  rw [e'] at e
  simp only [exec]
  refine ub_ret ⟨_, _, e, rfl⟩ ?_
  rintro _ rfl
  exact hk _ _ h3 h4

theorem Overlaps.call {f : String} {args : List Expr} {vs : List Val} (he : EvL X N loc F args vs)
    (hc : ∀ M nx, N ≤ nx → MAgree N M F → X.call f vs M nx = .ub .overlap) :
    Overlaps X N loc F (.seq (.expr (.call f args)) rest) := by
  intro M nx hn hA
  simp only [exec, eval, bind_assoc]
  refine ub_ret (he M nx hn hA) ?_
  rintro _ rfl
  exact ub_bind (hc M nx hn hA)

end

/-- `AES128_ECB_enc_sch` from its text, in place. -/
theorem withAes_overlap {N : Nat} {F : Mem} {v : View} {b br n : Nat} {L : List U8} (h : F b = v.blk L) (hl : L.length % 2 = 0) (hb : b < N)
    (hn : 0 < n) (hn2 : 16 * n < 2 ^ 63) (M : Mem) (nx : Nat) (hN : N ≤ nx) (hM : MAgree N M F) :
    (withAes X).call "AES128_ECB_enc_sch" [.ptr b 0 false 1, .int false 8 (16 * n : Nat), .ptr br 0 false 1, .ptr b 0 false 1] M nx
      = .ub .overlap := by
  simp only [withAes, true_or, or_true, if_true]
  refine ub_bind (ecb128_overlap (d := 3) aesCtx_assert br b 0 0 0 n L ?_ hn hn2 (by decide) (by decide) (Nat.zero_le _) (Nat.zero_le _) _)
  rw [aesTables_low (by omega), memBytes, if_pos (by simp [ptrBlocks]), hM b hb, h]
  exact blkBytes_blk v L (.inl hl)

section

variable {Fs : List File}

attribute [local irreducible] Ev EvL Run DRun Does Overlaps DOverlaps

theorem overlaps_fun {X : Ctx} {g : Fun} {args : List Val} {ps : List (String × Val)} {m : Mem} {next : Nat}
    (hp : bindParams g.params args = pure ps) (h : DOverlaps X next ps m g.body) : callFun X g args m next = .ub .overlap := by
  unfold DOverlaps at h
  unfold callFun
  rw [hp, pure_bind]
  exact ub_bind (h m fun _ _ => rfl)

/-- `frodo_mul_add_as_plus_e` of the reference implementation with AES from its text (/repo/src/frodo_macrify_reference.c:14-33). -/
theorem text_mul_as_overlap {P : Params} {J : Junk} (hP : P.Small) (hW : P.WF) (hst : P.stripe = 8) (hS : AesAt (link Fs (withAes X) d) J)
    (hN : Fs.findSome? (·.fn "AES128_ECB_enc_sch") = none) {next bo bs be bi ks ke ki : Nat} {I : List U8} (hm4 : m bi = u8s I)
    (hb4 : bi < next) (hk3 : ki + 16 ≤ I.length) :
    callFun (link Fs (withAes X) d) (mulAsRefAesFun.at P) [.ptr bo 0 false 2, .ptr bs ks false 2, .ptr be ke false 2, .ptr bi ki false 1] m next =
      .ub .overlap := by
  have c1 : P.n * P.n ≤ 1344 * 1344 := Nat.mul_le_mul hP.n hP.n
  have c4 : 1 ≤ P.n * P.n := Nat.mul_le_mul hP.n1 hP.n1
  have c8 : P.n * P.n * 2 = 16 * (P.n * P.n / 8) := by
    have : 8 ∣ P.n * P.n := Dvd.dvd.mul_right (Nat.dvd_of_mod_eq_zero hP.n8) _
    omega
  have q2 := hP.n
  have hG := genA_memory_ret (B := ⟨.le, .reference, .c, .aes⟩) (E := ⟨J, fun _ => 0, .ok⟩) hW (seed := I.drop ki)
    (by rw [List.length_drop]; omega) ⟨fun _ => nofun, nofun, nofun⟩
  simp only [genA_memory] at hG
  obtain ⟨A, t, hA⟩ := ret_prefix hG
  refine overlaps_fun (ps := mulArgs bo bs ks be ke bi ki) (by rfl) ?_
  unfold mulAsRefAesFun mulArgs
  cat
  apply DOverlaps.assoc
  apply DOverlaps.undef
  apply DOverlaps.assoc
  apply DOverlaps.undef
  apply DOverlaps.undef
  refine DOverlaps.arr (by ev) (newArr_zero16 c4) ?_
  refine Overlaps.declSize (Ev.sizeS (Ev.mul Ev.nat Ev.nat (by omega) (by omega) (by omega)) (by omega)) (by omega) ?_
  refine Overlaps.step (l' := fun _ => fillLoc (P.n * P.n * 2) next (.int true 4 P.n) (.int true 4 P.n) (.undef (.int true 4)) (mulArgs bo bs ks be ke bi ki))
    (F' := fun r => (Mem.set m next (s16s (List.replicate (P.n * P.n) 0))).set (next + 0) (s16s r)) hA ?_ ?_
  · rw [← bind_pure (Frodo.forC ..)]
    refine Run.fillA (al := P.n * P.n * 2) (next := next) (vk := .undef (.int true 4)) (ps := mulArgs bo bs ks be ke bi ki) hP hst (by omega) (set_same ..) fun r => ?_
    exact Run.skip fun M nx h1 h2 => ⟨rfl, rfl, h1, h2⟩
  have j1 : JunkAt ⟨fun _ i => (BitVec.ofInt 8 (X.junk "aes_key_schedule" i)).toNat, fun _ => 0, .ok⟩ (link Fs (withAes X) d) 30 8 "aes_key_schedule" := fun i => by
    rw [link_junk, BitVec.ofNat_toNat, BitVec.setWidth_eq]; rfl
  refine Overlaps.arrMid (by ev) (newArr_junk8 j1 _) ?_
  intro b F hb hF
  have fm : ∀ c, c < next → F c = m c := fun c h => by rw [hF _ (by omega), set_ne _ _ (by omega), set_ne _ _ (by omega)]
  have f0 : F (next + 0) = s16s A := by rw [hF _ (by omega), set_same]
  obtain ⟨R, t', hR, -⟩ := AES128_load_schedule_ret (I := .c) (J := J) (a := 0) (key := I.drop ki)
    (rk := uninit (fun _ i => (BitVec.ofInt 8 (X.junk "aes_key_schedule" i)).toNat) 30 8 176) nofun (by rw [List.length_drop]; omega) (by simp [uninit])
  refine Overlaps.step (l' := fun _ => ("aes_key_schedule", .ptr b 0 false 1) :: fillLoc (P.n * P.n * 2) next (.int true 4 P.n) (.int true 4 P.n)
    (.undef (.int true 4)) (mulArgs bo bs ks be ke bi ki)) (F' := fun r => (F.set b (u8s (uninit (fun _ i => (BitVec.ofInt 8 (X.junk "aes_key_schedule" i)).toNat) 30 8 176))).set b (u8s r)) hR ?_ ?_
  · rw [← bind_pure (AES128_load_schedule ..)]
    refine Run.callEq (EvL.cons (Ev.varP (b := bi) (off := ki) (s := false) (n := 1) rfl) (EvL.cons (Ev.varP (b := b) (off := 0) (s := false) (n := 1) rfl) EvL.nil))
      (hS.load (bk := bi) (ki := ki) (br := b) (K := I) (a := 0) (by rw [set_ne _ _ (by omega), fm _ hb4, hm4]) (set_same ..) (by omega) (by omega) (by omega) (by omega)) rfl fun r => ?_
    exact Run.skip fun M nx h1 h2 => ⟨rfl, rfl, h1, h2⟩
  rw [set_set]
  refine Overlaps.call (EvL.cons (Ev.castTo (w := .ptr (next + 0) 0 false 1) (Ev.varP (b := next + 0) (off := 0) (s := true) (n := 2) rfl) (by csim))
    (EvL.cons (Ev.varI rfl)
    (EvL.cons (Ev.varP (b := b) (off := 0) (s := false) (n := 1) rfl) (EvL.cons (Ev.castTo (w := .ptr (next + 0) 0 false 1)
      (Ev.varP (b := next + 0) (off := 0) (s := true) (n := 2) rfl) (by csim)) EvL.nil)))) ?_
  intro M nx hn hM
  rw [link_extern hN (by decide) (by decide), c8]
  refine withAes_overlap (v := .s16) (L := toBytes .le A) (N := b + 1) ?_ (by rw [length_toBytes]; omega) (by omega) (by omega) (by omega) M nx hn hM
  rw [View.blk, ofBytes_toBytes, set_ne _ _ (by omega), f0]

/-- `frodo_mul_add_sa_plus_e` of the reference implementation with AES from its text (/repo/src/frodo_macrify_reference.c:72-91). -/
theorem text_mul_sa_overlap {P : Params} {J : Junk} (hP : P.Small) (hW : P.WF) (hst : P.stripe = 8) (hS : AesAt (link Fs (withAes X) d) J)
    (hN : Fs.findSome? (·.fn "AES128_ECB_enc_sch") = none) {next bo bs bi k ki : Nat} {I : List U8} (hm4 : m bi = u8s I)
    (hb4 : bi < next) (hk3 : ki + 16 ≤ I.length) :
    callFun (link Fs (withAes X) d) (mulSaRefAesFun.at P) [.ptr bo 0 false 2, .ptr bs 0 false 2, .ptr bs k false 2, .ptr bi ki false 1] m next =
      .ub .overlap := by
  have c1 : P.n * P.n ≤ 1344 * 1344 := Nat.mul_le_mul hP.n hP.n
  have c4 : 1 ≤ P.n * P.n := Nat.mul_le_mul hP.n1 hP.n1
  have c8 : P.n * P.n * 2 = 16 * (P.n * P.n / 8) := by
    have : 8 ∣ P.n * P.n := Dvd.dvd.mul_right (Nat.dvd_of_mod_eq_zero hP.n8) _
    omega
  have q2 := hP.n
  have hG := genA_memory_ret (B := ⟨.le, .reference, .c, .aes⟩) (E := ⟨J, fun _ => 0, .ok⟩) hW (seed := I.drop ki)
    (by rw [List.length_drop]; omega) ⟨fun _ => nofun, nofun, nofun⟩
  simp only [genA_memory] at hG
  obtain ⟨A, t, hA⟩ := ret_prefix hG
  refine overlaps_fun (ps := mulArgs bo bs 0 bs k bi ki) (by rfl) ?_
  unfold mulSaRefAesFun mulArgs
  cat
  apply DOverlaps.assoc
  apply DOverlaps.undef
  apply DOverlaps.assoc
  apply DOverlaps.undef
  apply DOverlaps.undef
  refine DOverlaps.arr (by ev) (newArr_zero16 c4) ?_
  refine Overlaps.declSize (Ev.sizeS (Ev.mul Ev.nat Ev.nat (by omega) (by omega) (by omega)) (by omega)) (by omega) ?_
  refine Overlaps.step (l' := fun _ => fillLoc (P.n * P.n * 2) next (.int true 4 P.n) (.int true 4 P.n) (.undef (.int true 4)) (mulArgs bo bs 0 bs k bi ki))
    (F' := fun r => (Mem.set m next (s16s (List.replicate (P.n * P.n) 0))).set (next + 0) (s16s r)) hA ?_ ?_
  · rw [← bind_pure (Frodo.forC ..)]
    refine Run.fillA (al := P.n * P.n * 2) (next := next) (vk := .undef (.int true 4)) (ps := mulArgs bo bs 0 bs k bi ki) hP hst (by omega) (set_same ..) fun r => ?_
    exact Run.skip fun M nx h1 h2 => ⟨rfl, rfl, h1, h2⟩
  have j1 : JunkAt ⟨fun _ i => (BitVec.ofInt 8 (X.junk "aes_key_schedule" i)).toNat, fun _ => 0, .ok⟩ (link Fs (withAes X) d) 30 8 "aes_key_schedule" := fun i => by
    rw [link_junk, BitVec.ofNat_toNat, BitVec.setWidth_eq]; rfl
  refine Overlaps.arrMid (by ev) (newArr_junk8 j1 _) ?_
  intro b F hb hF
  have fm : ∀ c, c < next → F c = m c := fun c h => by rw [hF _ (by omega), set_ne _ _ (by omega), set_ne _ _ (by omega)]
  have f0 : F (next + 0) = s16s A := by rw [hF _ (by omega), set_same]
  obtain ⟨R, t', hR, -⟩ := AES128_load_schedule_ret (I := .c) (J := J) (a := 0) (key := I.drop ki)
    (rk := uninit (fun _ i => (BitVec.ofInt 8 (X.junk "aes_key_schedule" i)).toNat) 30 8 176) nofun (by rw [List.length_drop]; omega) (by simp [uninit])
  refine Overlaps.step (l' := fun _ => ("aes_key_schedule", .ptr b 0 false 1) :: fillLoc (P.n * P.n * 2) next (.int true 4 P.n) (.int true 4 P.n)
    (.undef (.int true 4)) (mulArgs bo bs 0 bs k bi ki)) (F' := fun r => (F.set b (u8s (uninit (fun _ i => (BitVec.ofInt 8 (X.junk "aes_key_schedule" i)).toNat) 30 8 176))).set b (u8s r)) hR ?_ ?_
  · rw [← bind_pure (AES128_load_schedule ..)]
    refine Run.callEq (EvL.cons (Ev.varP (b := bi) (off := ki) (s := false) (n := 1) rfl) (EvL.cons (Ev.varP (b := b) (off := 0) (s := false) (n := 1) rfl) EvL.nil))
      (hS.load (bk := bi) (ki := ki) (br := b) (K := I) (a := 0) (by rw [set_ne _ _ (by omega), fm _ hb4, hm4]) (set_same ..) (by omega) (by omega) (by omega) (by omega)) rfl fun r => ?_
    exact Run.skip fun M nx h1 h2 => ⟨rfl, rfl, h1, h2⟩
  rw [set_set]
  refine Overlaps.call (EvL.cons (Ev.castTo (w := .ptr (next + 0) 0 false 1) (Ev.varP (b := next + 0) (off := 0) (s := true) (n := 2) rfl) (by csim))
    (EvL.cons (Ev.varI rfl)
    (EvL.cons (Ev.varP (b := b) (off := 0) (s := false) (n := 1) rfl) (EvL.cons (Ev.castTo (w := .ptr (next + 0) 0 false 1)
      (Ev.varP (b := next + 0) (off := 0) (s := true) (n := 2) rfl) (by csim)) EvL.nil)))) ?_
  intro M nx hn hM
  rw [link_extern hN (by decide) (by decide), c8]
  refine withAes_overlap (v := .s16) (L := toBytes .le A) (N := b + 1) ?_ (by rw [length_toBytes]; omega) (by omega) (by omega) (by omega) M nx hn hM
  rw [View.blk, ofBytes_toBytes, set_ne _ _ (by omega), f0]

end

end Frodo
