/-
vc.c and vole.c on the heap.
-/
import Verif.Proofs.HeapLen

namespace Faest.Heap

theorem generateSeeds_heap {root : Mem Byte} {iv : List Byte} {lambda depth : Nat} {D : Blocks} :
    HSim D (Flat.generateSeeds root iv lambda depth) (generateSeeds root iv lambda depth)
      (fun a b D' => D' = b8 b a + D) := by
  unfold Flat.generateSeeds generateSeeds
  refine hs_same fun numNodes _ => ?_
  simp only []
  refine hs_allocB fun nodes => ?_
  refine hs_same fun r _ => ?_
  refine hs_left fun m hm => ?_
  refine hs_storeAt hm (by hfind1) ?_
  refine hs_bytes (by hfind1) ?_
  refine hs_last fun a ha => ?_
  refine hs_right ha ?_
  refine hs_putB (by hfind1) (len_expandSeeds _ ha) ?_
  exact hs_pure rfl

theorem vectorCommitment_heap {X : XOF} {root : Mem Byte} {iv : List Byte} {lambda depth : Nat} {D : Blocks} :
    HSim D (Flat.vectorCommitment X root iv lambda depth) (vectorCommitment X root iv lambda depth)
      (fun a e D' => D' = b8 e.h a.h + (b8 e.k a.k + (b8 e.com a.com + (b8 e.sd a.sd + D)))) := by
  unfold Flat.vectorCommitment vectorCommitment
  by_cases hd : depth ≤ 30
  swap
  · simp only [if_neg hd]
    exact hs_none
  simp only [if_pos hd]
  refine hs_same fun N _ => ?_
  refine hs_call rfl generateSeeds_heap ?_
  rintro t tree _ - rfl
  refine hs_same fun numNodes _ => ?_
  refine hs_allocB fun h => ?_
  refine hs_allocB fun com => ?_
  refine hs_allocB fun sd => ?_
  refine hs_bytes (by hfind1) ?_
  refine hs_bytes (by hfind1) ?_
  refine hs_bytes (by hfind1) ?_
  unfold leaves
  refine hs_lbind ?_
  refine hs_same fun a ha => ?_
  have hl := Aft.forStep (fun s : Mem Byte × Mem Byte => s.1.length = N * (lambda / 8) ∧ s.2.length = N * (lambda / 8) * 2)
    (fun _ _ h => len_leafBody4 h) ⟨malloc_length .., malloc_length ..⟩ _ ha
  obtain ⟨i, s⟩ := a
  simp only []
  refine hs_lbind ?_
  refine hs_same fun a ha => ?_
  replace hl := Aft.forStep (fun s : Mem Byte × Mem Byte => s.1.length = N * (lambda / 8) ∧ s.2.length = N * (lambda / 8) * 2)
    (fun _ _ h => len_leafBody1 h) hl _ ha
  obtain ⟨i, s⟩ := a
  simp only []
  refine hs_lpure ?_
  refine hs_putB (by hfind1) (by rw [malloc_length]; exact hl.1) ?_
  refine hs_putB (by hfind1) (by rw [malloc_length]; exact hl.2) ?_
  refine hs_bytes (by hfind1) ?_
  refine hs_same fun ctx _ => ?_
  refine hs_left fun m hm => ?_
  refine hs_storeAt hm (by hfind1) ?_
  refine hs_pure ?_
  simp only []
  ac_rfl

theorem vecComClear_heap {e : VcPtrs} {mh mk mcom msd : Mem Byte} {D : Blocks} :
    HSim (b8 e.h mh + (b8 e.k mk + (b8 e.com mcom + (b8 e.sd msd + D)))) (some ()) (vecComClear e)
      (fun _ _ D' => D' = D) := by
  unfold vecComClear
  refine hs_freeB (by hfind1) ?_
  refine hs_freeB (by hfind1) ?_
  refine hs_freeB (by hfind1) ?_
  exact hs_freeB_tail rfl fun _ _ => rfl

/-! ### ConvertToVole -/

theorem convertToVole_eq (iv : List Byte) (sd : Mem Byte) (bot : Bool) (lambda depth outLen : Nat) (v : Mem Byte)
    (voff : Nat) (hd : depth ≤ 30) : Flat.convertToVole iv sd bot lambda depth outLen v voff = (do
      let _ ← u32 (2 * 2 ^ depth)
      let _ ← u32 (2 * 2 ^ depth * outLen)
      let r ← cvRow iv sd bot lambda outLen (2 ^ depth) (calloc (2 * 2 ^ depth * outLen) 0)
      let s ← cvCols (2 ^ depth) depth outLen v voff r
      if bot then pure (s.1, none)
      else do
        let u ← rdN s.2 (rIdx (2 ^ depth) depth 0 * outLen) outLen
        pure (s.1, some u)) := by
  unfold Flat.convertToVole cvRow cvCols Flat.cvInit cvFirst
  simp only [bind_assoc, if_pos hd]
  rfl

theorem convertToVole_deep {iv : List Byte} {sd : Mem Byte} {bot : Bool} {lambda depth outLen : Nat} {v : Mem Byte}
    {voff : Nat} (hd : ¬depth ≤ 30) : Flat.convertToVole iv sd bot lambda depth outLen v voff = none := by
  unfold Flat.convertToVole
  simp only [if_neg hd]
  rfl

theorem convertToVole_bot {iv : List Byte} {sd vb : Nat} {sm vm : Mem Byte} {lambda depth outLen voff : Nat}
    {u : Option Ptr} {F : Blocks} :
    HSim (b8 sd sm + (b8 vb vm + F)) (Flat.convertToVole iv sm true lambda depth outLen vm voff)
      (convertToVole iv sd true lambda depth outLen u ⟨vb, voff⟩)
      (fun a _ D' => D' = b8 sd sm + (b8 vb a.1 + F)) := by
  by_cases hd : depth ≤ 30
  swap
  · rw [convertToVole_deep hd]
    exact hs_none
  rw [convertToVole_eq _ _ _ _ _ _ _ _ hd]
  unfold convertToVole
  refine hs_right (if_pos hd) ?_
  refine hs_same fun _ _ => ?_
  refine hs_same fun _ _ => ?_
  refine hs_allocB fun r => ?_
  refine hs_bytes (by hfind1) ?_
  refine hs_bytes (by hfind1) ?_
  refine hs_same fun rm hr => ?_
  refine hs_putB (by hfind1) (len_cvRow _ hr) ?_
  refine hs_bytes (i := vb) (by hfind1) ?_
  refine hs_same fun s hs => ?_
  refine hs_putB (i := vb) (by hfind1) (len_cvCols _ hs).1 ?_
  refine hs_putB (by hfind1) (len_cvCols _ hs).2 ?_
  simp only [if_true]
  exact hs_freeB_tail (by hfind1) fun a ha => by
    obtain rfl := Option.some.inj ha
    ac_rfl

theorem convertToVole_u {iv : List Byte} {sd vb ub : Nat} {sm vm um : Mem Byte} {lambda depth outLen voff uoff : Nat}
    {F : Blocks} :
    HSim (b8 sd sm + (b8 vb vm + (b8 ub um + F)))
      (do
        let a ← Flat.convertToVole iv sm false lambda depth outLen vm voff
        let u ← a.2
        let um ← wrN um uoff u
        pure (a.1, um))
      (convertToVole iv sd false lambda depth outLen (some ⟨ub, uoff⟩) ⟨vb, voff⟩)
      (fun a _ D' => D' = b8 sd sm + (b8 vb a.1 + (b8 ub a.2 + F))) := by
  by_cases hd : depth ≤ 30
  swap
  · rw [convertToVole_deep hd]
    exact hs_none
  rw [convertToVole_eq _ _ _ _ _ _ _ _ hd]
  unfold convertToVole
  simp only [bind_assoc]
  refine hs_right (if_pos hd) ?_
  refine hs_same fun _ _ => ?_
  refine hs_same fun _ _ => ?_
  refine hs_allocB fun r => ?_
  refine hs_bytes (by hfind1) ?_
  refine hs_bytes (by hfind1) ?_
  refine hs_same fun rm hr => ?_
  refine hs_putB (by hfind1) (len_cvRow _ hr) ?_
  refine hs_bytes (i := vb) (by hfind1) ?_
  refine hs_same fun s hs => ?_
  refine hs_putB (i := vb) (by hfind1) (len_cvCols _ hs).1 ?_
  refine hs_putB (by hfind1) (len_cvCols _ hs).2 ?_
  simp only [Bool.false_eq_true, if_false, bind_assoc, pure_bind]
  refine hs_bytes (by hfind1) ?_
  refine hs_same fun u _ => ?_
  refine hs_left fun u' hu' => ?_
  obtain rfl := Option.some.inj hu'
  refine hs_left fun um' hum' => ?_
  refine hs_storeAt hum' (by hfind1) ?_
  exact hs_freeB_tail (by hfind1) fun a ha => by
    obtain rfl := Option.some.inj ha
    ac_rfl

/-- `ConvertToVole` writes `depth * outLen` bytes, which have to be in the buffer. -/
theorem convertToVole_len {iv : List Byte} {sd vm : Mem Byte} {bot : Bool} {lambda depth outLen voff : Nat} :
    Aft (Flat.convertToVole iv sd bot lambda depth outLen vm voff)
      (fun a => a.1.length = vm.length ∧ voff + depth * outLen ≤ vm.length) := by
  by_cases hd : depth ≤ 30
  swap
  · rw [convertToVole_deep hd]
    intro a ha
    cases ha
  rw [convertToVole_eq _ _ _ _ _ _ _ _ hd]
  refine Aft.bind fun _ _ => ?_
  refine Aft.bind fun _ _ => ?_
  refine Aft.bind fun r _ => ?_
  refine Aft.bind fun s hs => ?_
  have key : s.1.length = vm.length ∧ voff + depth * outLen ≤ vm.length := by
    revert hs
    suffices h : Aft (cvCols (2 ^ depth) depth outLen vm voff r)
        (fun s => s.1.length = vm.length ∧ voff + depth * outLen ≤ vm.length) from h s
    unfold cvCols
    refine Aft.bind fun v hv => ?_
    obtain ⟨h1, h2⟩ := aft_wrN _ hv
    rw [List.length_replicate] at h2
    refine Aft.forN (fun s : Mem Byte × Mem Byte => s.1.length = vm.length ∧ voff + depth * outLen ≤ vm.length) ⟨h1, h2⟩ ?_
    intro j s hs
    refine Aft.forN (fun s : Mem Byte × Mem Byte => s.1.length = vm.length ∧ voff + depth * outLen ≤ vm.length) hs ?_
    intro i s hs
    refine Aft.bind fun _ _ => ?_
    refine Aft.bind fun _ _ => ?_
    refine Aft.bind fun _ _ => ?_
    refine Aft.bind fun v' hv' => ?_
    have h3 := aft_wrN _ hv'
    refine Aft.bind fun _ _ => ?_
    refine Aft.bind fun _ _ => ?_
    refine Aft.bind fun _ _ => ?_
    refine Aft.bind fun _ _ => ?_
    exact Aft.pure ⟨h3.1.trans hs.1, hs.2⟩
  split
  · exact Aft.pure key
  · exact Aft.bind fun _ _ => Aft.pure key

/-! ### Columns -/

/-- `n` pointers into block `b`, `stride` bytes apart. -/
def cols (b n stride : Nat) : Mem Ptr := full n (fun i => ⟨b, i * stride⟩)

theorem rd_cols {b n stride i : Nat} (h : i < n) : rd (cols b n stride) i = some ⟨b, i * stride⟩ := by
  unfold cols; exact rd_full h

theorem idx_lt {i k n stride : Nat} (h : i * stride + k ≤ n * stride) (hk : 0 < k) : i < n := by
  by_contra hc
  have : n * stride ≤ i * stride := Nat.mul_le_mul_right _ (by omega)
  omega

section cols
variable {γ δ : Type} {D F : Blocks} {Q : γ → δ → Blocks → Prop} {x : Option γ}

theorem hs_deref {a b n stride i : Nat} {m col : Mem Byte} {g : Mem Byte → HM δ} (hi : i < n)
    (hp : ptr m (i * stride) = some col) (hD : D = pt a (cols b n stride) + (b8 b m + F)) (k : HSim D x (g col) Q) :
    HSim D x (deref a i >>= g) Q := by
  subst hD
  unfold deref
  simp only [bind_assoc]
  refine hs_ptrs (by hfind1) ?_
  refine hs_right (rd_cols hi) ?_
  refine hs_bytes (i := b) (by hfind1) ?_
  exact hs_right hp k

theorem hs_store {a b n stride i : Nat} {m m' : Mem Byte} {l : List Byte} {g : Unit → HM δ} (hi : i < n)
    (hw : wrN m (i * stride) l = some m') (hD : D = pt a (cols b n stride) + (b8 b m + F))
    (k : HSim (pt a (cols b n stride) + (b8 b m' + F)) x (g ()) Q) : HSim D x (store a i l >>= g) Q := by
  subst hD
  unfold store
  simp only [bind_assoc]
  refine hs_ptrs (by hfind1) ?_
  refine hs_right (rd_cols hi) ?_
  refine hs_bytes (i := b) (by hfind1) ?_
  refine hs_right hw ?_
  refine hs_putB (i := b) (by hfind1) (aft_wrN _ hw).1 ?_
  exact hs_perm (by ac_rfl) k

theorem hs_freeColumns {a b n stride : Nat} {m : Mem Byte} {g : Unit → HM δ} (hn : 0 < n)
    (hD : D = pt a (cols b n stride) + (b8 b m + F)) (k : HSim F x (g ()) Q) : HSim D x (freeColumns a >>= g) Q := by
  subst hD
  unfold freeColumns freeFirst
  simp only [bind_assoc]
  refine hs_ptrs (by hfind1) ?_
  refine hs_right (rd_cols hn) ?_
  simp only [Nat.zero_mul, if_true]
  refine hs_freeB (by hfind1) ?_
  exact hs_freeP (by hfind1) k

/-- faest.c:285-289. -/
theorem columns_heap {n stride : Nat} (hn : 0 < n) :
    HSim D (some ()) (columns n stride)
      (fun _ a D' => ∃ b, D' = pt a (cols b n stride) + (b8 b (calloc (n * stride) 0) + D)) := by
  unfold columns
  refine hs_allocP fun a => ?_
  refine hs_allocB fun b => ?_
  obtain ⟨m0, hm0⟩ : ∃ m0, wr (malloc n : Mem Ptr) 0 ⟨b, 0⟩ = some m0 := by
    unfold wr; rw [if_pos (by rw [malloc_length]; exact hn)]; exact ⟨_, rfl⟩
  refine hs_right hm0 ?_
  refine hs_putP (by hfind1) (aft_wr _ hm0) ?_
  obtain ⟨-, hl0, hr0⟩ := wr_inv hm0
  rw [malloc_length] at hl0
  have hloop : HSim (pt a m0 + (b8 b (calloc (n * stride) 0) + D)) (forN (n - 1) () (fun _ _ => some ()))
      (loop (n - 1) () (fun i _ => setColumn a stride (i + 1)))
      (fun _ _ D' => ∃ m, D' = pt a m + (b8 b (calloc (n * stride) 0) + D) ∧ m.length = n ∧
        ∀ j, j < n - 1 + 1 → rd m j = some ⟨b, j * stride⟩) := by
    refine hs_loop (fun i _ _ D' => ∃ m, D' = pt a m + (b8 b (calloc (n * stride) 0) + D) ∧ m.length = n ∧
        ∀ j, j < i + 1 → rd m j = some ⟨b, j * stride⟩) ⟨m0, rfl, hl0, fun j hj => ?_⟩ ?_
    · obtain rfl : j = 0 := by omega
      rw [hr0, if_pos rfl, Nat.zero_mul]
    · rintro i hi _ _ _ ⟨m, rfl, hl, hr⟩
      unfold setColumn
      refine hs_ptrs (by hfind1) ?_
      refine hs_right (hr 0 (by omega)) ?_
      simp only []
      refine hs_bytes (by hfind1) ?_
      have hle : 0 * stride + (i + 1) * stride ≤ n * stride := by
        rw [Nat.zero_mul, Nat.zero_add]
        exact Nat.mul_le_mul_right _ (by omega)
      refine hs_right (b := (calloc (n * stride) 0).drop (0 * stride + (i + 1) * stride)) ?_ ?_
      · unfold ptr
        rw [if_pos (by rw [calloc_length]; exact hle)]
      obtain ⟨m1, hm1⟩ : ∃ m1, wr m (i + 1) (⟨b, 0 * stride + (i + 1) * stride⟩ : Ptr) = some m1 := by
        unfold wr; rw [if_pos (by omega)]; exact ⟨_, rfl⟩
      refine hs_right hm1 ?_
      obtain ⟨-, hl1, hr1⟩ := wr_inv hm1
      rw [← bind_pure (put a (Blk.ptrs m1))]
      refine hs_putP (by hfind1) hl1 ?_
      refine hs_pure ⟨m1, rfl, hl1.trans hl, fun j hj => ?_⟩
      rw [hr1]
      split
      · subst_vars
        rw [Nat.zero_mul, Nat.zero_add]
      · exact hr j (by omega)
  have hex : forN (n - 1) () (fun _ _ => some ()) = some () := by
    generalize n - 1 = k
    induction k with
    | zero => rfl
    | succ k ih => unfold forN; rw [ih]; rfl
  refine hs_run hex rfl hloop ?_
  rintro _ _ ⟨m, rfl, hl, hr⟩
  refine hs_pure ⟨b, ?_⟩
  congr 2
  unfold cols
  refine List.ext_getElem? fun j => ?_
  by_cases hj : j < n
  · have h1 := hr j (by omega)
    have h2 := rd_full (g := fun i => (⟨b, i * stride⟩ : Ptr)) hj
    unfold rd at h1 h2
    have e1 : j < m.length := by omega
    have e2 : j < (full n fun i => (⟨b, i * stride⟩ : Ptr)).length := by rw [full_length]; exact hj
    rw [List.getElem?_eq_getElem e1] at h1 ⊢
    rw [List.getElem?_eq_getElem e2] at h2 ⊢
    simp only [Option.join_some] at h1 h2
    rw [h1, h2]
  · rw [List.getElem?_eq_none (by omega), List.getElem?_eq_none (by rw [full_length]; omega)]

end cols

/-! ### vole_commit -/

/-- The blocks of several vector commitments. -/
def vcs : List VcPtrs → List Flat.VecCom → Blocks
  | e :: E, v :: L => b8 e.h v.h + (b8 e.k v.k + (b8 e.com v.com + (b8 e.sd v.sd + vcs E L)))
  | _, _ => 0

theorem vcs_append : ∀ {E : List VcPtrs} {L : List Flat.VecCom} {e : VcPtrs} {v : Flat.VecCom}, E.length = L.length →
    vcs (E ++ [e]) (L ++ [v]) = b8 e.h v.h + (b8 e.k v.k + (b8 e.com v.com + (b8 e.sd v.sd + vcs E L)))
  | [], [], _, _, _ => rfl
  | _ :: E, _ :: L, e, v, h => by
    have ih := vcs_append (E := E) (L := L) (e := e) (v := v) (by simpa using h)
    simp only [List.cons_append, vcs]
    rw [ih]
    ac_rfl
  | [], _ :: _, _, _, h => by simp at h
  | _ :: _, [], _, _, h => by simp at h

theorem wr_coms {E : List VcPtrs} {tau i : Nat} {e : VcPtrs} (hi : i < tau) (hE : E.length = i) :
    wr (ofList E ++ malloc (tau - i)) i e = some (ofList (E ++ [e]) ++ malloc (tau - (i + 1))) := by
  unfold wr
  rw [if_pos (by simp; omega)]
  have h1 : tau - i = (tau - (i + 1)) + 1 := by omega
  subst hE
  rw [h1]
  simp [ofList, malloc, List.replicate_succ]

theorem rd_coms {E : List VcPtrs} {e : VcPtrs} {i n : Nat} (hE : E.length = i) :
    rd (ofList (E ++ [e]) ++ malloc n) i = some e := by
  subst hE
  unfold rd ofList
  simp

section
variable {X : XOF} {iv : List Byte} {P : Params} {stride : Nat}

/-- The loop invariant of `vole_commit`. -/
def VcInv (P : Params) (stride expanded ui vecCom V vb : Nat) (exM : Mem Byte) (F : Blocks) (i : Nat)
    (s : Flat.VoleCommitSt) (t : Nat × List Byte) (D : Blocks) : Prop :=
  t = (s.vIdx, s.ctx) ∧ s.v.length = P.lambda * stride ∧ s.vecCom.length = i ∧ ∃ E : List VcPtrs, E.length = i ∧
    D = b8 expanded exM + (b8 ui s.ui + (cm vecCom (ofList E ++ malloc (P.tau - i)) +
      (pt V (cols vb P.lambda stride) + (b8 vb s.v + (vcs E s.vecCom + F)))))

theorem voleCommitStep_heap {expanded ui vecCom V vb i : Nat} {exM : Mem Byte} {F D : Blocks}
    {s : Flat.VoleCommitSt} {t : Nat × List Byte} (hi : i < P.tau) (hk0 : 0 < P.k0) (hk1 : 0 < P.k1)
    (hst : 0 < stride) (h : VcInv P stride expanded ui vecCom V vb exM F i s t D) :
    HSim D (Flat.voleCommitStep X iv P stride exM i s) (voleCommitStep X iv P stride expanded ui vecCom V i t)
      (VcInv P stride expanded ui vecCom V vb exM F (i + 1)) := by
  obtain ⟨rfl, hv, hvc, E, hE, rfl⟩ := h
  unfold Flat.voleCommitStep voleCommitStep
  simp only []
  have hd : 0 < (if i < P.t0 then P.k0 else P.k1) := by split <;> assumption
  generalize (if i < P.t0 then P.k0 else P.k1) = depth at hd ⊢
  refine hs_bytes (by hfind1) ?_
  refine hs_same fun key _ => ?_
  refine hs_call rfl vectorCommitment_heap ?_
  rintro vc e _ - rfl
  refine hs_coms (by hfind1) ?_
  refine hs_right (wr_coms hi hE) ?_
  refine hs_putC (by hfind1) (aft_wr _ (wr_coms hi hE)) ?_
  refine hs_coms (by hfind1) ?_
  refine hs_right (rd_coms hE) ?_
  refine hs_ptrs (by hfind1) ?_
  refine hs_left fun a ha => ?_
  obtain ⟨hl, hb⟩ := convertToVole_len a ha
  obtain ⟨v', u⟩ := a
  simp only at hl ⊢
  refine hs_left fun uu huu => ?_
  refine hs_left fun ui' hui' => ?_
  have hlt : s.vIdx < P.lambda := by
    rw [hv] at hb
    exact idx_lt hb (Nat.mul_pos hd hst)
  refine hs_right (rd_cols hlt) ?_
  refine hs_run (a := (v', ui')) ?_ (by hfind) (convertToVole_u (iv := iv) (sd := e.sd) (vb := vb) (ub := ui) (sm := vc.sd)
    (vm := s.v) (um := s.ui) (lambda := P.lambda) (depth := depth) (outLen := stride) (voff := s.vIdx * stride)
    (uoff := i * stride)) ?_
  · rw [ha]
    show (u >>= _) = _
    rw [huu]
    show (wrN _ _ _ >>= _) = _
    rw [hui']
    rfl
  rintro _ _ rfl
  refine hs_coms (by hfind1) ?_
  refine hs_right (rd_coms hE) ?_
  refine hs_bytes (by hfind1) ?_
  refine hs_same fun hh _ => ?_
  refine hs_pure ⟨rfl, hl.trans hv, by simp [hvc], E ++ [e], by simp [hE], ?_⟩
  simp only []
  rw [vcs_append (hE.trans hvc.symm)]
  ac_rfl

theorem voleCommit_heap {root dst um vm : Mem Byte} {vecCom u V vb offC ellhat : Nat} {F : Blocks}
    (hk0 : 0 < P.k0) (hk1 : 0 < P.k1) (hst : 0 < (ellhat + 7) / 8) (hv : vm.length = P.lambda * ((ellhat + 7) / 8)) :
    HSim (cm vecCom (malloc P.tau) + (b8 u um + (pt V (cols vb P.lambda ((ellhat + 7) / 8)) + (b8 vb vm + F))))
      (Flat.voleCommit X root iv ellhat P dst offC um vm)
      (voleCommit X root iv ellhat P vecCom dst offC u V)
      (fun a b D' => b = (a.1.hcom, a.2) ∧ ∃ E : List VcPtrs, E.length = P.tau ∧ a.1.vecCom.length = P.tau ∧
        D' = cm vecCom (ofList E) + (b8 u a.1.u + (pt V (cols vb P.lambda ((ellhat + 7) / 8)) +
          (b8 vb a.1.v + (vcs E a.1.vecCom + F))))) := by
  unfold Flat.voleCommit voleCommit
  simp only []
  refine hs_same fun _ _ => ?_
  refine hs_allocB fun ui => ?_
  refine hs_allocB fun expanded => ?_
  refine hs_same fun ek _ => ?_
  refine hs_left fun exM hex => ?_
  refine hs_storeAt hex (by hfind1) ?_
  have hloop := hs_loop (n := P.tau) (s := (⟨[], malloc (P.tau * ((ellhat + 7) / 8)), vm, 0, []⟩ : Flat.VoleCommitSt)) (t := (0, []))
    (f := Flat.voleCommitStep X iv P ((ellhat + 7) / 8) exM)
    (g := voleCommitStep X iv P ((ellhat + 7) / 8) expanded ui vecCom V)
    (D := b8 expanded exM + (b8 ui (malloc (P.tau * ((ellhat + 7) / 8))) + (cm vecCom (malloc P.tau) + (b8 u um +
      (pt V (cols vb P.lambda ((ellhat + 7) / 8)) + (b8 vb vm + F))))))
    (VcInv P ((ellhat + 7) / 8) expanded ui vecCom V vb exM (b8 u um + F))
    ⟨rfl, hv, rfl, [], rfl, by
      simp only [vcs, ofList, List.map_nil, List.nil_append, Nat.sub_zero, zero_add]
      ac_rfl⟩
    (fun i hi s t D h => voleCommitStep_heap hi hk0 hk1 hst h)
  refine hs_call rfl hloop ?_
  rintro s t _ - ⟨rfl, hv', hvc, E, hE, rfl⟩
  refine hs_freeB (by hfind1) ?_
  refine hs_bytes (by hfind1) ?_
  refine hs_same fun u0 _ => ?_
  refine hs_left fun u1 hu1 => ?_
  refine hs_storeAt hu1 (by hfind1) ?_
  refine hs_bytes (by hfind1) ?_
  refine hs_bytes (by hfind1) ?_
  refine hs_same fun dst' _ => ?_
  refine hs_freeB (by hfind1) ?_
  refine hs_pure ⟨rfl, E, hE, hvc, ?_⟩
  simp only [Nat.sub_self, malloc, List.replicate_zero, List.append_nil]
  ac_rfl

/-! ### vole_reconstruct -/

/-- The loop invariant of `vole_reconstruct`. -/
def VrInv (P : Params) (stride : Nat) (vr : VcPtrs) (sd q qb : Nat) (F : Blocks) (_ : Nat)
    (s : Flat.VoleRecSt) (t : Nat × List Byte) (D : Blocks) : Prop :=
  t = (s.qIdx, s.ctx) ∧ s.q.length = P.lambda * stride ∧
    D = b8 vr.h s.vrec.h + (b8 vr.k s.vrec.k + (b8 vr.com s.vrec.com + (b8 vr.sd s.vrec.s + (b8 sd s.sd +
      (pt q (cols qb P.lambda stride) + (b8 qb s.q + F))))))

theorem voleRecStep_heap {chall : Mem Byte} {pdec comj : Nat → Option (Mem Byte)} {vr : VcPtrs} {sd q qb i : Nat}
    {F D : Blocks} {s : Flat.VoleRecSt} {t : Nat × List Byte} (hk0 : 0 < P.k0) (hk1 : 0 < P.k1)
    (hst : 0 < stride) (h : VrInv P stride vr sd q qb F i s t D) :
    HSim D (Flat.voleRecStep X iv chall pdec comj P stride i s) (voleRecStep X iv chall pdec comj P stride vr sd q i t)
      (VrInv P stride vr sd q qb F (i + 1)) := by
  obtain ⟨rfl, hq, rfl⟩ := h
  obtain ⟨vh, vk, vcom, vs⟩ := vr
  unfold Flat.voleRecStep voleRecStep
  simp only []
  have hd : 0 < (if i < P.t0 then P.k0 else P.k1) := by split <;> assumption
  generalize (if i < P.t0 then P.k0 else P.k1) = depth at hd ⊢
  refine hs_same fun ch _ => ?_
  obtain ⟨_, chalout⟩ := ch
  simp only []
  refine hs_same fun idx _ => ?_
  refine hs_same fun pd _ => ?_
  refine hs_same fun cj _ => ?_
  refine hs_bytes (by hfind1) ?_
  refine hs_bytes (by hfind1) ?_
  refine hs_bytes (by hfind1) ?_
  refine hs_bytes (by hfind1) ?_
  refine hs_same fun r hr => ?_
  obtain ⟨l1, l2, l3, l4⟩ := len_vectorReconstruction _ hr
  refine hs_putB (by hfind1) l1 ?_
  refine hs_putB (by hfind1) l2 ?_
  refine hs_putB (by hfind1) l3 ?_
  refine hs_putB (by hfind1) l4 ?_
  refine hs_bytes (by hfind1) ?_
  refine hs_bytes (by hfind1) ?_
  refine hs_same fun sdM hsd => ?_
  refine hs_putB (by hfind1) (Aft.forR (fun m : Mem Byte => m.length = s.sd.length) rfl (fun j m hm =>
    Aft.bind fun _ _ => Aft.mono aft_wrN fun a ha => ha.1.trans hm) _ hsd) ?_
  refine hs_ptrs (by hfind1) ?_
  refine hs_left fun a ha => ?_
  obtain ⟨hl, hb⟩ := convertToVole_len a ha
  obtain ⟨q', u⟩ := a
  simp only at hl ⊢
  have hlt : s.qIdx < P.lambda := by
    rw [hq] at hb
    exact idx_lt hb (Nat.mul_pos hd hst)
  refine hs_right (rd_cols hlt) ?_
  refine hs_run (a := (q', u)) ha (by hfind) (convertToVole_bot (iv := iv) (sd := sd) (vb := qb) (sm := sdM)
    (vm := s.q) (lambda := P.lambda) (depth := depth) (outLen := stride) (voff := s.qIdx * stride)) ?_
  rintro _ _ rfl
  refine hs_bytes (by hfind1) ?_
  refine hs_same fun hh _ => ?_
  refine hs_pure ⟨rfl, hl.trans hq, ?_⟩
  simp only []
  ac_rfl

theorem voleReconstruct_heap {chall qm : Mem Byte} {pdec comj : Nat → Option (Mem Byte)} {q qb ellhat : Nat}
    {F : Blocks} (hk0 : 0 < P.k0) (hk1 : 0 < P.k1) (hst : 0 < (ellhat + 7) / 8)
    (hq : qm.length = P.lambda * ((ellhat + 7) / 8)) :
    HSim (pt q (cols qb P.lambda ((ellhat + 7) / 8)) + (b8 qb qm + F))
      (Flat.voleReconstruct X iv chall pdec comj qm ellhat P)
      (voleReconstruct X iv chall pdec comj q ellhat P)
      (fun a b D' => b = a.1 ∧ a.2.length = P.lambda * ((ellhat + 7) / 8) ∧
        D' = pt q (cols qb P.lambda ((ellhat + 7) / 8)) + (b8 qb a.2 + F)) := by
  unfold Flat.voleReconstruct voleReconstruct
  simp only []
  refine hs_same fun nodes _ => ?_
  refine hs_same fun _ _ => ?_
  refine hs_allocB fun sd => ?_
  refine hs_left fun sdM hsd => ?_
  refine hs_storeAt hsd (by hfind1) ?_
  refine hs_allocB fun h => ?_
  refine hs_allocB fun k => ?_
  refine hs_allocB fun com => ?_
  refine hs_allocB fun s => ?_
  refine hs_call ?_ (hs_loop (VrInv P ((ellhat + 7) / 8) ⟨h, k, com, s⟩ sd q qb F) ⟨rfl, hq, rfl⟩
    (fun i hi s t D h => voleRecStep_heap hk0 hk1 hst h)) ?_
  · simp only []
    ac_rfl
  rintro st t _ - ⟨rfl, hq', rfl⟩
  refine hs_callR rfl vecComClear_heap ?_
  rintro _ _ rfl
  refine hs_freeB (by hfind1) ?_
  exact hs_pure ⟨rfl, hq', rfl⟩

end

end Faest.Heap
