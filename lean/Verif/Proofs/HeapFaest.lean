import Verif.Proofs.HeapVole
import Verif.Proofs.FlatFaest

/-!
# faest_aes.c and faest.c on a heap, against the flat model
-/

namespace Faest.Heap

open Faest

theorem tabM_forN {α : Type} {n : Nat} {f : Nat → Option α} :
    tabM n f = forN n [] (fun i l => do let a ← f i; pure (l ++ [a])) := by
  induction n with
  | zero => rfl
  | succ n ih =>
    unfold forN
    rw [← ih]
    unfold tabM
    rw [List.range_succ, List.mapM_append]
    show (_ >>= _) = Option.bind _ _
    refine congrArg (Option.bind _) (funext fun l => ?_)
    simp only [List.mapM_cons, List.mapM_nil, bind_assoc, pure_bind]

theorem collect_heap {α : Type} {n : Nat} {f : Nat → Option α} {g : Nat → HM α} {D : Blocks}
    (h : ∀ i, i < n → HSim D (f i) (g i) (fun a b D' => b = a ∧ D' = D)) :
    HSim D (tabM n f) (collect n g) (fun a b D' => b = a ∧ D' = D) := by
  rw [tabM_forN]
  unfold collect
  refine hs_loop (fun _ s t D' => t = s ∧ D' = D) ⟨rfl, rfl⟩ ?_
  rintro i hi s _ _ ⟨rfl, rfl⟩
  refine hs_call rfl (h i hi) ?_
  rintro a _ _ - ⟨rfl, rfl⟩
  exact hs_pure ⟨rfl, rfl⟩

/-! ### faest_aes.c -/

section
variable {n : Nat} {P : Params} {F : Blocks} {stride V vb : Nat} {vm : Mem Byte}

theorem columnToRowMajor_heap {N ell : Nat} (hn : n ≤ N) :
    HSim (pt V (cols vb N stride) + (b8 vb vm + F)) (Flat.columnToRowMajor n vm stride ell) (columnToRowMajor n V ell)
      (fun a b D' => D' = el n b a + (pt V (cols vb N stride) + (b8 vb vm + F))) := by
  unfold Flat.columnToRowMajor columnToRowMajor fill
  refine hs_allocE fun i => ?_
  rw [Option.map_eq_bind]
  refine hs_call rfl (collect_heap fun row _ => ?_) ?_
  · refine hs_call rfl (hs_loop (fun _ s t D' => t = s ∧
      D' = el n i (malloc (ell + n)) + (pt V (cols vb N stride) + (b8 vb vm + F))) ⟨rfl, rfl⟩ ?_) ?_
    · rintro c hc s _ _ ⟨rfl, rfl⟩
      refine hs_left fun col hcol => ?_
      refine hs_deref (a := V) (b := vb) (n := N) (stride := stride) (i := c) (by omega) hcol (by hfind) ?_
      refine hs_same fun b _ => ?_
      exact hs_lft fun _ _ => ⟨rfl, rfl⟩
    · rintro s _ _ - ⟨rfl, rfl⟩
      exact hs_lft fun _ _ => ⟨rfl, rfl⟩
  · rintro rows _ _ hr ⟨rfl, rfl⟩
    refine hs_putE (by hfind1) (by rw [malloc_length, ofList, List.length_map, tabM_length hr]) ?_
    exact hs_some rfl

theorem aesProveN_heap {N w u : Nat} {wm um inp out chall : Mem Byte} (hn : n ≤ N) :
    HSim (b8 w wm + (b8 u um + (pt V (cols vb N stride) + (b8 vb vm + F))))
      (Flat.aesProveN n P wm um vm stride inp out chall) (aesProveN n P w u V inp out chall)
      (fun a b D' => b = a ∧ D' = b8 w wm + (b8 u um + (pt V (cols vb N stride) + (b8 vb vm + F)))) := by
  unfold Flat.aesProveN aesProveN
  refine hs_call (by hfind) (columnToRowMajor_heap hn) ?_
  rintro v bfV _ - rfl
  refine hs_allocB fun k => ?_
  refine hs_allocE fun vk => ?_
  refine hs_same fun a0 _ => ?_
  refine hs_same fun a1 _ => ?_
  refine hs_bytes (by hfind1) ?_
  refine hs_elems (by hfind1) ?_
  refine hs_bytes (by hfind1) ?_
  refine hs_elems (by hfind1) ?_
  refine hs_left fun r hr => ?_
  refine hs_right (b := r) hr ?_
  have hlen := len_ksConstraints0 _ (by exact hr)
  obtain ⟨ctx, kM, vkM⟩ := r
  simp only []
  refine hs_putB (by hfind1) hlen.1 ?_
  refine hs_putE (by hfind1) hlen.2 ?_
  refine hs_bytes (by hfind1) ?_
  refine hs_elems (by hfind1) ?_
  refine hs_same fun ctx _ => ?_
  refine hs_same fun ctx _ => ?_
  refine hs_freeE (by hfind1) ?_
  refine hs_freeB (by hfind1) ?_
  refine hs_bytes (by hfind1) ?_
  refine hs_elems (by hfind1) ?_
  refine hs_left fun x1 h1 => ?_
  refine hs_left fun a h2 => ?_
  refine hs_left fun x3 h3 => ?_
  refine hs_left fun x4 h4 => ?_
  refine hs_left fun b h5 => ?_
  refine hs_right (b := (a, b)) ?_ ?_
  · unfold proveFinish
    simp only [h1, h2, h3, h4, h5, Option.bind_eq_bind, Option.bind_some]
    rfl
  refine hs_freeE (by hfind1) ?_
  exact hs_pure ⟨rfl, by ac_rfl⟩

theorem emProveN_heap {N w u : Nat} {wm um inp out chall : Mem Byte} (hn : n ≤ N) :
    HSim (b8 w wm + (b8 u um + (pt V (cols vb N stride) + (b8 vb vm + F))))
      (Flat.emProveN n P wm um vm stride inp out chall) (emProveN n P w u V inp out chall)
      (fun a b D' => b = a ∧ D' = b8 w wm + (b8 u um + (pt V (cols vb N stride) + (b8 vb vm + F)))) := by
  unfold Flat.emProveN emProveN
  refine hs_same fun x _ => ?_
  refine hs_call (by hfind) (columnToRowMajor_heap hn) ?_
  rintro v bfV _ - rfl
  refine hs_same fun a0 _ => ?_
  refine hs_same fun a1 _ => ?_
  refine hs_bytes (by hfind1) ?_
  refine hs_elems (by hfind1) ?_
  refine hs_same fun ctx _ => ?_
  refine hs_bytes (by hfind1) ?_
  refine hs_left fun x1 h1 => ?_
  refine hs_left fun a h2 => ?_
  refine hs_left fun x3 h3 => ?_
  refine hs_left fun x4 h4 => ?_
  refine hs_left fun b h5 => ?_
  refine hs_right (b := (a, b)) ?_ ?_
  · unfold proveFinish
    simp only [h1, h2, h3, h4, h5, Option.bind_eq_bind, Option.bind_some]
    rfl
  refine hs_freeE (by hfind1) ?_
  exact hs_pure ⟨rfl, by ac_rfl⟩

theorem aesProve_heap {w u : Nat} {wm um inp out chall : Mem Byte} (hl : LamOk P.lambda) :
    HSim (b8 w wm + (b8 u um + (pt V (cols vb P.lambda stride) + (b8 vb vm + F))))
      (Flat.aesProve P wm um vm stride inp out chall) (aesProve P w u V inp out chall)
      (fun a b D' => b = a ∧ D' = b8 w wm + (b8 u um + (pt V (cols vb P.lambda stride) + (b8 vb vm + F)))) := by
  unfold Flat.aesProve aesProve
  have := fieldBits_lam hl
  split
  · exact aesProveN_heap (by omega)
  · exact emProveN_heap (by omega)

theorem correctBit_heap {N Q qb nbytes j col : Nat} {d dec qm : Mem Byte} (hb : 0 < nbytes)
    (hq : qm.length = N * stride) :
    HSim (pt Q (cols qb N stride) + (b8 qb qm + F))
      (do
        let b ← rd dec j
        if b = 1 then do
          let c ← ptr qm (col * stride)
          let x ← xorArr d c nbytes
          let q ← wrN qm (col * stride) x
          pure (q, col + 1)
        else pure (qm, col + 1))
      (correctBit d dec nbytes Q j col)
      (fun a b D' => b = a.2 ∧ a.1.length = N * stride ∧ D' = pt Q (cols qb N stride) + (b8 qb a.1 + F)) := by
  unfold correctBit
  refine hs_same fun b _ => ?_
  by_cases h : b = 1
  · rw [if_pos h, if_pos h]
    refine hs_left fun c hc => ?_
    refine hs_left fun x hx => ?_
    refine hs_left fun q hq' => ?_
    obtain ⟨h1, h2, -⟩ := wrN_inv hq'
    rw [tabM_length hx, hq] at h1
    have hlt := idx_lt h1 hb
    refine hs_deref hlt hc rfl ?_
    refine hs_right hx ?_
    refine hs_store hlt hq' rfl ?_
    exact hs_pure ⟨rfl, h2.trans hq, rfl⟩
  · rw [if_neg h, if_neg h]
    exact hs_pure ⟨rfl, hq, rfl⟩

theorem correctQ_heap {N Q qb nbytes : Nat} {d chall3 qm : Mem Byte} (hb : 0 < nbytes)
    (hq : qm.length = N * stride) :
    HSim (pt Q (cols qb N stride) + (b8 qb qm + F)) (Flat.correctQ P d chall3 nbytes qm stride)
      (correctQ P d chall3 nbytes Q)
      (fun a _ D' => a.length = N * stride ∧ D' = pt Q (cols qb N stride) + (b8 qb a + F)) := by
  unfold Flat.correctQ correctQ
  rw [← bind_pure (loop _ _ _)]
  refine hs_call rfl (hs_loop (fun _ (s : Mem Byte × Nat) (t : Nat) D' => t = s.2 ∧ s.1.length = N * stride ∧
    D' = pt Q (cols qb N stride) + (b8 qb s.1 + F)) ⟨rfl, hq, rfl⟩ ?_) ?_
  · rintro i hi s _ _ ⟨rfl, hs, rfl⟩
    refine hs_same fun ch _ => ?_
    obtain ⟨_, dec⟩ := ch
    simp only []
    refine hs_loop (fun _ (s : Mem Byte × Nat) (t : Nat) D' => t = s.2 ∧ s.1.length = N * stride ∧
      D' = pt Q (cols qb N stride) + (b8 qb s.1 + F)) ⟨rfl, hs, rfl⟩ ?_
    rintro j hj s _ _ ⟨rfl, hs, rfl⟩
    exact correctBit_heap hb hs
  · rintro ⟨q, c⟩ _ _ - ⟨rfl, hs, rfl⟩
    exact hs_pure ⟨hs, rfl⟩

theorem wrN_all {m : Mem Byte} {l : List Byte} (h : l.length = m.length) : wrN m 0 l = some (ofList l) := by
  unfold wrN
  rw [if_pos (by omega)]
  simp [h, ofList]

theorem zkFinalize_length {ctx : ZkCtx n} {x : BF n} {l : List Byte} (h : zkFinalize ctx x = some l) :
    l.length = n / 8 := by
  unfold zkFinalize at h
  obtain ⟨_, -, h⟩ := Option.bind_eq_some_iff.1 h
  obtain ⟨_, -, h⟩ := Option.bind_eq_some_iff.1 h
  obtain rfl := Option.some.inj h
  exact toBytes_length _

theorem verifyFinish_heap {ctx : ZkCtx n} {bfQ ell : Nat} {qm : Mem (BF n)} {aTilde delta : Mem Byte} :
    HSim (el n bfQ qm + F) (Faest.verifyFinish ctx qm ell aTilde delta) (verifyFinish ctx bfQ ell aTilde delta)
      (fun a b D' => a.length = n / 8 ∧ D' = b8 b (ofList a) + F) := by
  unfold Faest.verifyFinish verifyFinish
  refine hs_allocB fun qt => ?_
  refine hs_elems (by hfind1) ?_
  refine hs_left fun x1 h1 => ?_
  refine hs_left fun x2 h2 => ?_
  refine hs_left fun l h3 => ?_
  refine hs_right (b := l) (by simp only [h1, h2, h3, Option.bind_eq_bind, Option.bind_some]) ?_
  have hl := zkFinalize_length h3
  refine hs_storeAt (wrN_all (by rw [malloc_length, hl])) (by hfind1) ?_
  refine hs_freeE (by hfind1) ?_
  refine hs_bytes (by hfind1) ?_
  refine hs_same fun x _ => ?_
  refine hs_same fun a _ => ?_
  refine hs_same fun d _ => ?_
  refine hs_storeAt (wrN_all ?_) (by hfind1) ?_
  · rw [toBytes_length, ofList_length, hl]
  · exact hs_pure ⟨toBytes_length _, rfl⟩

theorem aesVerifyN_heap {N Q qb : Nat} {d chall2 chall3 aTilde inp out qm : Mem Byte} (hn : n ≤ N)
    (hb : 0 < (P.l + 7) / 8) (hq : qm.length = N * stride) :
    HSim (pt Q (cols qb N stride) + (b8 qb qm + F)) (Flat.aesVerifyN n P d qm stride chall2 chall3 aTilde inp out)
      (aesVerifyN n P d Q chall2 chall3 aTilde inp out)
      (fun a b D' => a.length = n / 8 ∧ ∃ m, D' = b8 b (ofList a) + (pt Q (cols qb N stride) + (b8 qb m + F))) := by
  unfold Flat.aesVerifyN aesVerifyN
  refine hs_call rfl (correctQ_heap hb hq) ?_
  rintro q1 _ _ - ⟨-, rfl⟩
  refine hs_call rfl (columnToRowMajor_heap hn) ?_
  rintro q bfQ _ - rfl
  refine hs_allocE fun qk => ?_
  refine hs_same fun b0 _ => ?_
  refine hs_elems (by hfind1) ?_
  refine hs_elems (by hfind1) ?_
  refine hs_left fun r hr => ?_
  refine hs_right (b := r) hr ?_
  have hlen := len_ksConstraints1 _ (by exact hr)
  obtain ⟨ctx, qkM⟩ := r
  simp only []
  refine hs_putE (by hfind1) hlen ?_
  refine hs_elems (by hfind1) ?_
  refine hs_same fun ctx _ => ?_
  refine hs_same fun ctx _ => ?_
  refine hs_freeE (by hfind1) ?_
  refine hs_tail rfl verifyFinish_heap ?_
  rintro a b _ - ⟨h, rfl⟩
  exact ⟨h, _, rfl⟩

theorem emConstraints1_heap {bfQ : Nat} {out x delta : Mem Byte} {ctx : ZkCtx n} {qm : Mem (BF n)} :
    HSim (el n bfQ qm + F) (Faest.emConstraints1 P out x qm delta ctx) (emConstraints1 P out x bfQ delta ctx)
      (fun a b D' => b = a ∧ D' = el n bfQ qm + F) := by
  unfold Faest.emConstraints1 emConstraints1
  refine hs_same fun dl _ => ?_
  refine hs_allocE fun bfX => ?_
  refine hs_same fun bx hbx => ?_
  refine hs_putE (by hfind1) (by rw [malloc_length]; exact aft_fill _ hbx) ?_
  refine hs_allocE fun qOut => ?_
  refine hs_elems (by hfind1) ?_
  refine hs_same fun qo hqo => ?_
  refine hs_putE (by hfind1) (by rw [malloc_length]; exact aft_fill _ hqo) ?_
  refine hs_elems (by hfind1) ?_
  refine hs_same fun qs _ => ?_
  refine hs_elems (by hfind1) ?_
  refine hs_same fun qsd _ => ?_
  refine hs_freeE (by hfind1) ?_
  refine hs_freeE (by hfind1) ?_
  exact hs_lft fun _ _ => ⟨rfl, rfl⟩

theorem emVerifyN_heap {N Q qb : Nat} {d chall2 chall3 aTilde inp out qm : Mem Byte} (hn : n ≤ N)
    (hb : 0 < (P.Lenc + 7) / 8) (hq : qm.length = N * stride) :
    HSim (pt Q (cols qb N stride) + (b8 qb qm + F)) (Flat.emVerifyN n P d qm stride chall2 chall3 aTilde inp out)
      (emVerifyN n P d Q chall2 chall3 aTilde inp out)
      (fun a b D' => a.length = n / 8 ∧ ∃ m, D' = b8 b (ofList a) + (pt Q (cols qb N stride) + (b8 qb m + F))) := by
  unfold Flat.emVerifyN emVerifyN
  refine hs_call rfl (correctQ_heap hb hq) ?_
  rintro q1 _ _ - ⟨-, rfl⟩
  refine hs_call rfl (columnToRowMajor_heap hn) ?_
  rintro q bfQ _ - rfl
  refine hs_same fun x _ => ?_
  refine hs_same fun b0 _ => ?_
  refine hs_call rfl emConstraints1_heap ?_
  rintro ctx _ _ - ⟨rfl, rfl⟩
  refine hs_tail rfl verifyFinish_heap ?_
  rintro a b _ - ⟨h, rfl⟩
  exact ⟨h, _, rfl⟩

theorem aesVerify_heap {Q qb : Nat} {d chall2 chall3 aTilde inp out qm : Mem Byte} (hl : LamOk P.lambda)
    (h1 : 0 < P.l) (h2 : 0 < P.Lenc) (hq : qm.length = P.lambda * stride) :
    HSim (pt Q (cols qb P.lambda stride) + (b8 qb qm + F))
      (Flat.aesVerify P d qm stride chall2 chall3 aTilde inp out) (aesVerify P d Q chall2 chall3 aTilde inp out)
      (fun a b D' => a.length = P.lambda / 8 ∧
        ∃ m, D' = b8 b (ofList a) + (pt Q (cols qb P.lambda stride) + (b8 qb m + F))) := by
  unfold Flat.aesVerify aesVerify
  have := fieldBits_lam hl
  split
  · refine hs_tail rfl (aesVerifyN_heap (by omega) (by omega) hq) ?_
    rintro a b _ - ⟨h, m, rfl⟩
    exact ⟨by rw [h, this], m, rfl⟩
  · refine hs_tail rfl (emVerifyN_heap (by omega) (by omega) hq) ?_
    rintro a b _ - ⟨h, m, rfl⟩
    exact ⟨by rw [h, this], m, rfl⟩

/-! ### aes.c -/

theorem aesExtendWitness_heap {key inp : Mem Byte} :
    HSim F (Faest.aesExtendWitness key inp P) (aesExtendWitness key inp P) (fun a b D' => D' = b8 b a + F) := by
  unfold aesExtendWitness
  refine hs_allocB fun w => ?_
  refine hs_bytes (by hfind1) ?_
  refine hs_last fun a ha => ?_
  refine hs_right (b := a) ha ?_
  refine hs_putB (by hfind1) (len_extendInto _ (by exact ha)) ?_
  exact hs_pure rfl

end

/-! ### faest.c -/

/-- What the heap lemmas need of the parameters. -/
structure HeapOk (P : Params) : Prop where
  flat : FlatOk P
  l : 0 < P.l
  enc : 0 < P.Lenc

theorem heapOk_params (i : ParamId) : HeapOk (params i) := by
  refine ⟨flatOk_params i, ?_, ?_⟩ <;> cases i <;> decide

theorem vcs_drop {E : List VcPtrs} {L : List Flat.VecCom} {i : Nat} {e : VcPtrs} {v : Flat.VecCom}
    (he : E[i]? = some e) (hv : L[i]? = some v) : vcs (E.drop i) (L.drop i) =
      b8 e.h v.h + (b8 e.k v.k + (b8 e.com v.com + (b8 e.sd v.sd + vcs (E.drop (i + 1)) (L.drop (i + 1))))) := by
  obtain ⟨h1, rfl⟩ := List.getElem?_eq_some_iff.1 he
  obtain ⟨h2, rfl⟩ := List.getElem?_eq_some_iff.1 hv
  rw [List.drop_eq_getElem_cons h1, List.drop_eq_getElem_cons h2]
  rfl

section
variable {X : XOF} {P : Params} {F : Blocks}

theorem signOpenStep_heap {vecCom i : Nat} {E : List VcPtrs} {L : List Flat.VecCom} {sig : Mem Byte}
    (hE : E.length = P.tau) (hi : i < P.tau) :
    HSim (cm vecCom (ofList E) + (vcs (E.drop i) (L.drop i) + F)) (Flat.signOpenStep P L i sig)
      (signOpenStep P vecCom i sig)
      (fun a b D' => b = a ∧ D' = cm vecCom (ofList E) + (vcs (E.drop (i + 1)) (L.drop (i + 1)) + F)) := by
  unfold Flat.signOpenStep signOpenStep
  refine hs_same fun ch _ => ?_
  refine hs_same fun cd _ => ?_
  obtain ⟨_, s_⟩ := cd
  simp only []
  refine hs_left fun vc hvc => ?_
  have he : E[i]? = some E[i] := List.getElem?_eq_getElem (by omega)
  rw [vcs_drop he hvc]
  simp only [add_assoc]
  refine hs_coms (by hfind1) ?_
  refine hs_right (b := E[i]) ?_ ?_
  · unfold rd ofList
    simp [hE, hi]
  refine hs_bytes (by hfind1) ?_
  refine hs_bytes (by hfind1) ?_
  refine hs_last fun sg hsg => ?_
  refine hs_right hsg ?_
  refine hs_callR (by hfind) (vecComClear_heap (e := E[i]) (mh := vc.h) (mk := vc.k) (mcom := vc.com) (msd := vc.sd)) ?_
  rintro _ _ rfl
  exact hs_pure ⟨rfl, rfl⟩

theorem faestSign_heap {sig msg key inp out : Mem Byte} {msglen : Nat} {rho : Option (Mem Byte)} {rholen : Nat}
    (h : HeapOk P) : HSim F (Flat.faestSign X P sig msg msglen key inp out rho rholen)
      (faestSign X P sig msg msglen key inp out rho rholen) (fun a b D' => b = a ∧ D' = F) := by
  have hlam : 0 < P.lambda := by
    have := h.flat.lam
    unfold LamOk at this
    omega
  have hst : 0 < (P.l + P.lambda * 2 + UNIVERSAL_HASH_B_BITS) / 8 := by
    have : UNIVERSAL_HASH_B_BITS = 16 := rfl
    omega
  have hat := h.flat.hat
  have hvole := fun (root iv : _) (dst um vm : Mem Byte) (vecCom u V vb : Nat) =>
    voleCommit_heap (X := X) (iv := iv) (P := P) (root := root) (dst := dst) (um := um) (vm := vm) (vecCom := vecCom)
      (u := u) (V := V) (vb := vb) (offC := offC P 0) (ellhat := P.l + P.lambda * 2 + UNIVERSAL_HASH_B_BITS) (F := F)
      h.flat.k0 h.flat.k1
  rw [hat] at hvole
  unfold Flat.faestSign faestSign
  simp only []
  generalize (P.l + P.lambda * 2 + UNIVERSAL_HASH_B_BITS) / 8 = eh at hst hvole ⊢
  refine hs_same fun i1 _ => ?_
  refine hs_same fun o1 _ => ?_
  refine hs_same fun m _ => ?_
  refine hs_same fun mu _ => ?_
  refine hs_same fun key' _ => ?_
  refine hs_same fun mu2 _ => ?_
  refine hs_same fun r _ => ?_
  refine hs_same fun rootkey _ => ?_
  refine hs_same fun sig _ => ?_
  refine hs_allocC fun vecCom => ?_
  refine hs_allocB fun u => ?_
  refine hs_callR rfl (columns_heap hlam) ?_
  rintro V _ ⟨vb, rfl⟩
  refine hs_same fun iv _ => ?_
  refine hs_call ?_ (hvole rootkey iv sig (malloc eh) (calloc (P.lambda * eh) 0) vecCom u V vb hst
    (by rw [calloc_length])) ?_
  · ac_rfl
  rintro ⟨vcom, sig⟩ _ _ - ⟨rfl, E, hE, hL, rfl⟩
  simp only []
  refine hs_same fun hcom _ => ?_
  refine hs_same fun c _ => ?_
  refine hs_same fun iv _ => ?_
  refine hs_same fun mu2 _ => ?_
  refine hs_same fun hcom2 _ => ?_
  refine hs_same fun chall1 _ => ?_
  refine hs_bytes (by hfind1) ?_
  refine hs_same fun ut _ => ?_
  refine hs_same fun sig _ => ?_
  have hctx : ∀ F', HSim (pt V (cols vb P.lambda eh) + (b8 vb vcom.v + F'))
      (forN P.lambda [] (Flat.hashVStep P chall1 vcom.v eh)) (loop P.lambda [] (hashVStep P chall1 V))
      (fun a b D' => b = a ∧ D' = pt V (cols vb P.lambda eh) + (b8 vb vcom.v + F')) := by
    intro F'
    refine hs_loop (fun _ s t D' => t = s ∧ D' = pt V (cols vb P.lambda eh) + (b8 vb vcom.v + F')) ⟨rfl, rfl⟩ ?_
    rintro i hi s _ _ ⟨rfl, rfl⟩
    unfold Flat.hashVStep hashVStep
    refine hs_left fun col hcol => ?_
    refine hs_deref hi hcol rfl ?_
    refine hs_same fun t _ => ?_
    exact hs_pure ⟨rfl, rfl⟩
  refine hs_call (by hfind) (hctx _) ?_
  rintro ctx _ _ - ⟨rfl, rfl⟩
  refine hs_same fun hv _ => ?_
  refine hs_call rfl aesExtendWitness_heap ?_
  rintro wM w _ - rfl
  refine hs_bytes (by hfind1) ?_
  refine hs_bytes (by hfind1) ?_
  refine hs_same fun d _ => ?_
  refine hs_same fun sig _ => ?_
  refine hs_same fun ch1 _ => ?_
  refine hs_same fun ut _ => ?_
  refine hs_same fun hv2 _ => ?_
  refine hs_same fun d _ => ?_
  refine hs_same fun chall2 _ => ?_
  refine hs_call (by hfind) (aesProve_heap h.flat.lam) ?_
  rintro ⟨a, b⟩ _ _ - ⟨rfl, rfl⟩
  simp only []
  refine hs_same fun sig _ => ?_
  refine hs_same fun bTilde _ => ?_
  refine hs_freeColumns (a := V) (b := vb) (n := P.lambda) (stride := eh) hlam (by hfind) ?_
  refine hs_freeB (by hfind1) ?_
  refine hs_freeB (by hfind1) ?_
  refine hs_same fun ch2 _ => ?_
  refine hs_same fun a _ => ?_
  refine hs_same fun b _ => ?_
  refine hs_same fun sig _ => ?_
  rw [← bind_pure (forN P.tau sig _)]
  refine hs_call ?_ (hs_loop (fun i s t D' => t = s ∧
    D' = cm vecCom (ofList E) + (vcs (E.drop i) (vcom.vecCom.drop i) + F)) ⟨rfl, rfl⟩ ?_) ?_
  · simp only [List.drop_zero]
  · rintro i hi s _ _ ⟨rfl, rfl⟩
    exact signOpenStep_heap hE hi
  rintro sig _ _ - ⟨rfl, rfl⟩
  refine hs_freeC (by hfind1) ?_
  refine hs_pure ⟨rfl, ?_⟩
  rw [List.drop_of_length_le (by omega)]
  simp [vcs]

/-- The loop invariant of faest.c:419-446. -/
def VfInv (P : Params) (eh qp qpb q qb dt db : Nat) (qpm : Mem Byte) (F : Blocks) (_ : Nat)
    (s : Flat.VerifySt) (t : Nat × Nat) (D : Blocks) : Prop :=
  t = (s.dIdx, s.qIdx) ∧ s.q.length = P.lambda * eh ∧
    D = pt dt (cols db P.lambda (P.lambda / 8 + UNIVERSAL_HASH_B)) + (b8 db s.dtilde + (pt q (cols qb P.lambda eh) +
      (b8 qb s.q + (pt qp (cols qpb P.lambda eh) + (b8 qpb qpm + F)))))

theorem dtildeStep_heap {dt db j : Nat} {delta ut : Mem Byte} {s : Mem Byte × Nat} :
    HSim (pt dt (cols db P.lambda (P.lambda / 8 + UNIVERSAL_HASH_B)) + (b8 db s.1 + F))
      (Flat.dtildeStep P delta ut j s) (dtildeStep P delta ut dt j s.2)
      (fun a b D' => b = a.2 ∧ D' = pt dt (cols db P.lambda (P.lambda / 8 + UNIVERSAL_HASH_B)) + (b8 db a.1 + F)) := by
  unfold Flat.dtildeStep dtildeStep
  by_cases hlt : s.2 < P.lambda
  · rw [if_pos hlt, if_pos hlt]
    refine hs_left fun x hx => ?_
    refine hs_deref hlt hx rfl ?_
    refine hs_same fun b _ => ?_
    refine hs_same fun y _ => ?_
    refine hs_left fun m hm => ?_
    refine hs_store hlt hm rfl ?_
    exact hs_pure ⟨rfl, rfl⟩
  · rw [if_neg hlt]
    exact hs_none

theorem qCorrStep_heap {qp qpb q qb eh d : Nat} {qpm delta c : Mem Byte} {s : Mem Byte × Nat} (he : 0 < eh)
    (hq : s.1.length = P.lambda * eh) :
    HSim (pt q (cols qb P.lambda eh) + (b8 qb s.1 + (pt qp (cols qpb P.lambda eh) + (b8 qpb qpm + F))))
      (Flat.qCorrStep qpm eh delta c d s) (qCorrStep qp q eh delta c d s.2)
      (fun a b D' => b = a.2 ∧ a.1.length = P.lambda * eh ∧
        D' = pt q (cols qb P.lambda eh) + (b8 qb a.1 + (pt qp (cols qpb P.lambda eh) + (b8 qpb qpm + F)))) := by
  unfold Flat.qCorrStep qCorrStep
  refine hs_left fun x hx => ?_
  refine hs_left fun b hb => ?_
  refine hs_left fun y hy => ?_
  refine hs_left fun m hm => ?_
  obtain ⟨h1, h2, -⟩ := wrN_inv hm
  rw [tabM_length hy, hq] at h1
  have hlt := idx_lt h1 he
  refine hs_deref (a := qp) (b := qpb) (n := P.lambda) (stride := eh) hlt hx (by hfind) ?_
  refine hs_right hb ?_
  refine hs_right hy ?_
  refine hs_store hlt hm rfl ?_
  exact hs_pure ⟨rfl, h2.trans hq, rfl⟩

theorem rdN_ptr {m : Mem Byte} {off n : Nat} {l : List Byte} (h : rdN m off n = some l) :
    ptr m off = some (m.drop off) ∧ rdN (m.drop off) 0 n = some l := by
  have hle := rdN_le h
  refine ⟨by unfold ptr; rw [if_pos (by omega)], ?_⟩
  unfold rdN at h ⊢
  rw [if_pos hle] at h
  rw [if_pos (by rw [List.length_drop]; omega), List.drop_zero]
  exact h

theorem verifyStep_heap {qp qpb q qb dt db i : Nat} {sig qpm : Mem Byte} {s : Flat.VerifySt} {t : Nat × Nat}
    {D : Blocks} (h : HeapOk P)
    (hI : VfInv P ((P.l + P.lambda * 2 + UNIVERSAL_HASH_B_BITS) / 8) qp qpb q qb dt db qpm F i s t D) :
    HSim D (Flat.verifyStep P sig qpm i s) (verifyStep P sig qp q dt i t)
      (VfInv P ((P.l + P.lambda * 2 + UNIVERSAL_HASH_B_BITS) / 8) qp qpb q qb dt db qpm F (i + 1)) := by
  have hst : 0 < (P.l + P.lambda * 2 + UNIVERSAL_HASH_B_BITS) / 8 := by
    have : UNIVERSAL_HASH_B_BITS = 16 := rfl
    omega
  obtain ⟨rfl, hq, rfl⟩ := hI
  unfold Flat.verifyStep verifyStep
  simp only []
  have hd : 0 < (if i < P.t0 then P.k0 else P.k1) := by
    split
    · exact h.flat.k0
    · exact h.flat.k1
  generalize (if i < P.t0 then P.k0 else P.k1) = depth at hd ⊢
  generalize (P.l + P.lambda * 2 + UNIVERSAL_HASH_B_BITS) / 8 = eh at hst hq ⊢
  refine hs_same fun ch _ => ?_
  refine hs_same fun cd _ => ?_
  obtain ⟨_, delta⟩ := cd
  simp only []
  refine hs_same fun ut _ => ?_
  refine hs_call rfl (hs_loop (fun _ (s : Mem Byte × Nat) (t : Nat) D' => t = s.2 ∧
    D' = pt dt (cols db P.lambda (P.lambda / 8 + UNIVERSAL_HASH_B)) + (b8 db s.1 + (pt q (cols qb P.lambda eh) +
      (b8 qb _ + (pt qp (cols qpb P.lambda eh) + (b8 qpb qpm + F)))))) ⟨rfl, rfl⟩ ?_) ?_
  · rintro j hj s _ _ ⟨rfl, rfl⟩
    exact dtildeStep_heap
  rintro ⟨dtM, dIdx⟩ _ _ - ⟨rfl, rfl⟩
  simp only []
  by_cases hi : i = 0
  · rw [if_pos hi, if_pos hi]
    refine hs_left fun cl hcl => ?_
    refine hs_left fun q' hq' => ?_
    obtain ⟨h1, h2, -⟩ := wrN_inv hq'
    rw [rdN_length hcl, hq] at h1
    have hlt := idx_lt h1 (Nat.mul_pos hst hd)
    obtain ⟨hp, hr⟩ := rdN_ptr hcl
    refine hs_deref (a := qp) (b := qpb) (n := P.lambda) (stride := eh) hlt hp (by hfind) ?_
    refine hs_right hr ?_
    refine hs_store (a := q) (b := qb) (n := P.lambda) (stride := eh) hlt hq' (by hfind) ?_
    refine hs_pure ⟨rfl, h2.trans hq, ?_⟩
    simp only []
    ac_rfl
  · rw [if_neg hi, if_neg hi]
    refine hs_same fun c _ => ?_
    refine hs_call ?_ (hs_loop (fun _ (s : Mem Byte × Nat) (t : Nat) D' => t = s.2 ∧ s.1.length = P.lambda * eh ∧
      D' = pt q (cols qb P.lambda eh) + (b8 qb s.1 + (pt qp (cols qpb P.lambda eh) + (b8 qpb qpm +
        (pt dt (cols db P.lambda (P.lambda / 8 + UNIVERSAL_HASH_B)) + (b8 db dtM + F)))))) ⟨rfl, hq, rfl⟩ ?_) ?_
    · simp only []
      ac_rfl
    · rintro j hj s _ _ ⟨rfl, hs, rfl⟩
      exact qCorrStep_heap hst hs
    rintro ⟨q', qIdx⟩ _ _ - ⟨rfl, hs, rfl⟩
    refine hs_pure ⟨rfl, hs, ?_⟩
    simp only []
    ac_rfl

theorem faestVerify_heap {msg sig inp out : Mem Byte} {msglen : Nat} (h : HeapOk P) :
    HSim F (Flat.faestVerify X P msg msglen sig inp out) (faestVerify X P msg msglen sig inp out)
      (fun a b D' => b = a ∧ D' = F) := by
  have hlam : 0 < P.lambda := by
    have := h.flat.lam
    unfold LamOk at this
    omega
  have hst : 0 < (P.l + P.lambda * 2 + UNIVERSAL_HASH_B_BITS) / 8 := by
    have : UNIVERSAL_HASH_B_BITS = 16 := rfl
    omega
  have hat := h.flat.hat
  have hvole := fun (iv : List Byte) (chall qm : Mem Byte) (pdec comj : Nat → Option (Mem Byte)) (q qb : Nat) =>
    voleReconstruct_heap (X := X) (iv := iv) (P := P) (chall := chall) (qm := qm) (pdec := pdec) (comj := comj) (q := q)
      (qb := qb) (ellhat := P.l + P.lambda * 2 + UNIVERSAL_HASH_B_BITS) (F := F) h.flat.k0 h.flat.k1
  rw [hat] at hvole
  have hstep := fun (qp qpb q qb dt db i : Nat) (qpm : Mem Byte) (s : Flat.VerifySt) (t : Nat × Nat) (D : Blocks) =>
    verifyStep_heap (P := P) (F := F) (sig := sig) (qp := qp) (qpb := qpb) (q := q) (qb := qb) (dt := dt) (db := db)
      (i := i) (qpm := qpm) (s := s) (t := t) (D := D) h
  unfold Flat.faestVerify faestVerify
  simp only []
  generalize (P.l + P.lambda * 2 + UNIVERSAL_HASH_B_BITS) / 8 = eh at hst hvole hstep ⊢
  refine hs_same fun i1 _ => ?_
  refine hs_same fun o1 _ => ?_
  refine hs_same fun m _ => ?_
  refine hs_same fun mu _ => ?_
  refine hs_callR rfl (columns_heap hlam) ?_
  rintro qp _ ⟨qpb, rfl⟩
  refine hs_same fun iv _ => ?_
  refine hs_same fun ch _ => ?_
  refine hs_same fun _ _ => ?_
  refine hs_call rfl (hvole iv ch (calloc (P.lambda * eh) 0) _ _ qp qpb hst (by rw [calloc_length])) ?_
  rintro ⟨hc, qpm⟩ _ _ - ⟨rfl, hqp, rfl⟩
  simp only []
  refine hs_same fun hcom _ => ?_
  refine hs_same fun mu2 _ => ?_
  refine hs_same fun hcom2 _ => ?_
  refine hs_same fun c _ => ?_
  refine hs_same fun chall1 _ => ?_
  refine hs_callR rfl (columns_heap hlam) ?_
  rintro q _ ⟨qb, rfl⟩
  refine hs_callR rfl (columns_heap hlam) ?_
  rintro dt _ ⟨db, rfl⟩
  refine hs_call rfl (hs_loop (VfInv P eh qp qpb q qb dt db qpm F) ⟨rfl, by rw [calloc_length], rfl⟩
    (fun i _ s t D hI => hstep qp qpb q qb dt db i qpm s t D hI)) ?_
  rintro ⟨dtM, dIdx, qM, qIdx⟩ _ _ - ⟨rfl, hq, rfl⟩
  simp only [] at hq ⊢
  refine hs_freeColumns (a := qp) (b := qpb) (n := P.lambda) (stride := eh) hlam (by hfind) ?_
  refine hs_call rfl (hs_loop (fun _ s t D' => t = s ∧
    D' = pt dt (cols db P.lambda (P.lambda / 8 + UNIVERSAL_HASH_B)) + (b8 db dtM + (pt q (cols qb P.lambda eh) +
      (b8 qb qM + F)))) ⟨rfl, rfl⟩ ?_) ?_
  · rintro i hi s _ _ ⟨rfl, rfl⟩
    unfold Flat.hashQStep hashQStep
    refine hs_left fun col hcol => ?_
    refine hs_deref (a := q) (b := qb) (n := P.lambda) (stride := eh) hi hcol (by hfind) ?_
    refine hs_same fun t _ => ?_
    refine hs_same fun qt _ => ?_
    refine hs_left fun dm hdm => ?_
    refine hs_deref hi hdm rfl ?_
    refine hs_same fun x _ => ?_
    exact hs_pure ⟨rfl, rfl⟩
  rintro ctx _ _ - ⟨rfl, rfl⟩
  refine hs_same fun hv _ => ?_
  refine hs_freeColumns hlam rfl ?_
  refine hs_same fun ch1 _ => ?_
  refine hs_same fun ut _ => ?_
  refine hs_same fun hv2 _ => ?_
  refine hs_same fun d _ => ?_
  refine hs_same fun chall2 _ => ?_
  refine hs_same fun dp _ => ?_
  refine hs_same fun ap _ => ?_
  refine hs_call rfl (aesVerify_heap h.flat.lam h.l h.enc hq) ?_
  rintro b bt _ - ⟨hb, m', rfl⟩
  refine hs_freeColumns (a := q) (b := qb) (n := P.lambda) (stride := eh) hlam (by hfind) ?_
  refine hs_same fun ch2 _ => ?_
  refine hs_same fun a _ => ?_
  refine hs_bytes (by hfind1) ?_
  refine hs_right (b := b) (by rw [← hb]; exact rdN_ofList b) ?_
  refine hs_same fun chall3 _ => ?_
  refine hs_freeB (by hfind1) ?_
  refine hs_same fun c3 _ => ?_
  refine hs_same fun sc _ => ?_
  exact hs_pure ⟨rfl, rfl⟩

/-! ### faest_param.c.in -/

theorem signWithRandomness_heap {i : ParamId} {sk : Option (Mem Byte)} {msg : Mem Byte} {msglen : Nat}
    {rho : Option (Mem Byte)} {rholen : Nat} {signature : Option (Mem Byte)} {len : Option Nat} :
    HSim F (Flat.signWithRandomness X i sk msg msglen rho rholen signature len)
      (signWithRandomness X i sk msg msglen rho rholen signature len) (fun a b D' => b = a ∧ D' = F) := by
  rcases sk with _ | sk
  · exact hs_some ⟨rfl, rfl⟩
  rcases signature with _ | sig
  · exact hs_some ⟨rfl, rfl⟩
  rcases len with _ | n
  · exact hs_some ⟨rfl, rfl⟩
  unfold Flat.signWithRandomness signWithRandomness
  simp only []
  split
  · exact hs_some ⟨rfl, rfl⟩
  refine hs_same fun key _ => ?_
  refine hs_same fun o _ => ?_
  obtain ⟨out, ok⟩ := o
  simp only []
  refine hs_same fun out _ => ?_
  split
  · exact hs_pure ⟨rfl, rfl⟩
  refine hs_call rfl (faestSign_heap (heapOk_params i)) ?_
  rintro sg _ _ - ⟨rfl, rfl⟩
  exact hs_pure ⟨rfl, rfl⟩

theorem verify_heap {i : ParamId} {pk sig : Option (Mem Byte)} {msg : Mem Byte} {msglen len : Nat} :
    HSim F (Flat.verify X i pk msg msglen sig len) (verify X i pk msg msglen sig len) (fun a b D' => b = a ∧ D' = F) := by
  rcases pk with _ | pk
  · exact hs_some ⟨rfl, rfl⟩
  rcases sig with _ | sig
  · exact hs_some ⟨rfl, rfl⟩
  unfold Flat.verify verify
  simp only []
  split
  · exact hs_some ⟨rfl, rfl⟩
  refine hs_same fun out _ => ?_
  exact faestVerify_heap (heapOk_params i)

end

end Faest.Heap
