/-
Statements about the translated hash layer on a memory.
-/
import Verif.Proofs.Gen.HashApiX4
import Verif.Proofs.Gen.Sha3Spec
import Verif.Proofs.Gen.Top2

namespace Faest.Props
open Faest.C Faest.GenH Faest.Keccak
open Spec.Keccak (shakeX)

/-- The contents of a block after the bytes from `o` on are set to `l`. -/
def setCell (o : Nat) (l : List Byte) (c : Cell) : Cell :=
  match c.data with
  | .bytes m => ⟨c.kind, .bytes (setBytes m o l)⟩
  | _ => c

/-- The memory after the bytes from `q` on are set to `l`. -/
def store (M : Nat → Option Cell) (q : Ptr) (l : List Byte) : Nat → Option Cell :=
  fun i => if i = q.blk then (M i).map (setCell q.off l) else M i

/-- There are `n` bytes at `q`. -/
def Room (H : C.Heap) (q : Ptr) (n : Nat) : Prop := ∃ k m, H.cells q.blk = some ⟨k, .bytes m⟩ ∧ q.off + n ≤ m.length

theorem Room.valid {H : C.Heap} {q : Ptr} {n s : Nat} {c : Cell} {F : Blocks} (h : Room H q n) (hD : Sat H ({(s, c)} + F))
    (hq : q.blk ≠ s) : Valid F q n := by
  obtain ⟨k, m, h1, h2⟩ := h
  exact ⟨k, m, mem_rest ((hD.mem _ _).1 h1) hq, h2⟩

theorem cells_up {H H' : C.Heap} {D : Blocks} {q : Ptr} {l : List Byte} (h : Sat H D) (h' : Sat H' (up D q l))
    (hv : Valid D q l.length) : H'.cells = store H.cells q l := by
  obtain ⟨k, m, hm, hl⟩ := hv
  have hc := (h.mem _ _).2 hm
  funext i
  unfold store
  have key : ∀ x, H'.cells i = some x ↔ (i, x) ∈ up D q l := fun x => h'.mem i x
  by_cases e : i = q.blk
  · subst e
    rw [if_pos rfl, hc, Option.map_some, key]
    unfold up
    refine Multiset.mem_map.2 ⟨_, hm, ?_⟩
    rw [if_pos rfl]
    refine Prod.ext rfl ?_
    show wrC q.off l ⟨k, .bytes m⟩ = setCell q.off l ⟨k, .bytes m⟩
    show (⟨k, .bytes (W m q.off l)⟩ : Cell) = ⟨k, .bytes (setBytes m q.off l)⟩
    rw [setBytes_eq hl]
  · rw [if_neg e]
    refine Option.ext fun x => ?_
    rw [key, h.mem]
    unfold up
    rw [Multiset.mem_map]
    constructor
    · rintro ⟨⟨j, y⟩, hj, he⟩
      by_cases e2 : j = q.blk
      · rw [if_pos e2] at he
        exact absurd ((Prod.mk.inj he).1.symm.trans e2) e
      · rw [if_neg e2] at he
        rw [← he]; exact hj
    · intro hj
      exact ⟨_, hj, if_neg e⟩

/-- Pieces of an output one after the other. -/
def storeAll (X : Nat → Byte) : (Nat → Option Cell) → List (Ptr × Nat) → Nat → Nat → Option Cell
  | M, [], _ => M
  | M, (q, n) :: t, p => storeAll X (store M q (tabP n fun j => X (p + j))) t (p + n)

/-- Pieces of four outputs one after the other. -/
def storeAll4 (X : Nat → Nat → Byte) : (Nat → Option Cell) → List ((Nat → Ptr) × Nat) → Nat → Nat → Option Cell
  | M, [], _ => M
  | M, (q, n) :: t, p =>
    storeAll4 X (store (store (store (store M (q 0) (tabP n fun j => X 0 (p + j))) (q 1) (tabP n fun j => X 1 (p + j)))
      (q 2) (tabP n fun j => X 2 (p + j))) (q 3) (tabP n fun j => X 3 (p + j))) t (p + n)

/-- The same for blocks. -/
def upAll (X : Nat → Byte) : Blocks → List (Ptr × Nat) → Nat → Blocks
  | F, [], _ => F
  | F, (q, n) :: t, p => upAll X (up F q (tabP n fun j => X (p + j))) t (p + n)

/-- The same for blocks. -/
def upAll4 (X : Nat → Nat → Byte) : Blocks → List ((Nat → Ptr) × Nat) → Nat → Blocks
  | F, [], _ => F
  | F, (q, n) :: t, p => upAll4 X (ups 4 F q fun k => tabP n fun j => X k (p + j)) t (p + n)

/-- `hash_init`, some `hash_update`, `hash_final`, some `hash_squeeze`. -/
def hashRun (K1 : SpImpl) (c : HashC) (sel : Nat) (ins : List (CPtr × Nat)) (outs : List (Ptr × Nat)) : CM HashC := do
  let c ← hash_init K1 c sel
  let c ← ins.foldlM (fun c x => hash_update K1 c x.1 x.2) c
  let c ← hash_final K1 c
  outs.foldlM (fun c x => hash_squeeze K1 c (some x.1) x.2) c

/-- `hash_init_x4`, some `hash_update_x4_4`, `hash_final_x4`, some `hash_squeeze_x4_4`. -/
def hashRun4 (K4 : P4Impl) (c : HashC) (sel : Nat) (ins : List ((Nat → CPtr) × Nat)) (outs : List ((Nat → Ptr) × Nat)) : CM HashC := do
  let c ← hash_init_x4 K4 c sel
  let c ← ins.foldlM (fun c x => hash_update_x4_4 K4 c (x.1 0) (x.1 1) (x.1 2) (x.1 3) x.2) c
  let c ← hash_final_x4 K4 c
  outs.foldlM (fun c x => hash_squeeze_x4_4 K4 c (some (x.1 0)) (some (x.1 1)) (some (x.1 2)) (some (x.1 3)) x.2) c

section
variable {kd : Kind} {b : Nat} {m : Mem Byte} {F : Blocks} {c : HashC} {sel : Nat} {K4 : P4Impl} {S : P4Spec K4}
  {K1 : SpImpl} {S1 : SpSpec K1}

theorem updates_t : ∀ (ins : List (CPtr × List Byte)) {M : List Byte} {c : HashC} {m : Mem Byte}, HAbsC S1 sel M b c m →
    (∀ x ∈ ins, View F x.1 (ofList x.2) ∧ Small 64 x.2.length) →
    T (bl kd b m + F) ((ins.map fun x => (x.1, x.2.length)).foldlM (fun c x => hash_update K1 c x.1 x.2) c) fun c' D' =>
      ∃ m', HAbsC S1 sel (M ++ (ins.map Prod.snd).flatten) b c' m' ∧ D' = bl kd b m' + F
  | [], M, c, m, h, _ => by
    refine t_pure ⟨m, ?_, rfl⟩
    simpa using h
  | x :: ins, M, c, m, h, hi => by
    rw [List.map_cons, List.foldlM_cons]
    have hx := hi x (List.mem_cons_self)
    refine t_call rfl (hash_update_t (d := fun j => x.2.getD j 0) h hx.1 ?_ hx.2.update) ?_
    · intro j hj
      rw [rd_ofList, Nat.zero_add, List.getElem?_eq_getElem hj]
      simp [List.getD_eq_getElem?_getD, List.getElem?_eq_getElem (show j < x.2.length from hj)]
    rintro c1 D1 ⟨m1, h1, rfl⟩
    rw [tabP_getD_self rfl] at h1
    have := updates_t ins h1 fun y hy => hi y (List.mem_cons_of_mem _ hy)
    rw [List.append_assoc] at this
    exact this

theorem squeezes_t : ∀ (outs : List (Ptr × Nat)) {M : List Byte} {c : HashC} {m : Mem Byte} {p : Nat} {F : Blocks}, HSqC S1 sel M p b c m →
    (∀ x ∈ outs, Valid F x.1 x.2 ∧ Small 64 x.2) → ND F →
    T (bl kd b m + F) (outs.foldlM (fun c x => hash_squeeze K1 c (some x.1) x.2) c) fun _ D' =>
      ∃ m' : Mem Byte, D' = bl kd b m' + upAll (shakeX sel M) F outs p
  | [], M, c, m, p, F, h, _, _ => t_pure ⟨m, rfl⟩
  | x :: outs, M, c, m, p, F, h, hi, hn => by
    rw [List.foldlM_cons]
    have hx := hi x (List.mem_cons_self)
    refine t_call rfl (hash_squeeze_t h hx.1 hx.2) ?_
    rintro c1 D1 ⟨m1, h1, rfl⟩
    exact squeezes_t outs h1 (fun y hy => ⟨(hi y (List.mem_cons_of_mem _ hy)).1.up (by rw [tabP_length]; exact hx.1) hn,
      (hi y (List.mem_cons_of_mem _ hy)).2⟩) (hn.up _ _)

theorem hashRun_t (S1 : SpSpec K1) {ins : List (CPtr × List Byte)} {outs : List (Ptr × Nat)} (h : HRaw b c m)
    (hi : ∀ x ∈ ins, View F x.1 (ofList x.2) ∧ Small 64 x.2.length) (ho : ∀ x ∈ outs, Valid F x.1 x.2 ∧ Small 64 x.2) :
    T (bl kd b m + F) (hashRun K1 c sel (ins.map fun x => (x.1, x.2.length)) outs) fun _ D' =>
      ∃ m' : Mem Byte, D' = bl kd b m' + upAll (shakeX sel (ins.map Prod.snd).flatten) F outs 0 := by
  refine t_nd fun hnd => ?_
  unfold hashRun
  refine t_call rfl (hash_init_t (S1 := S1) h) ?_
  rintro c1 D1 ⟨m1, h1, rfl⟩
  refine t_call rfl (updates_t ins h1 hi) ?_
  rintro c2 D2 ⟨m2, h2, rfl⟩
  refine t_call rfl (hash_final_t h2) ?_
  rintro c3 D3 ⟨m3, h3, rfl⟩
  exact squeezes_t outs h3 ho hnd.right

theorem sel4_id {α : Type} (f : Nat → α) {j : Nat} (hj : j < 4) : sel4 (f 0) (f 1) (f 2) (f 3) j = f j := sel4_fun f hj

theorem updates4_t : ∀ (ins : List ((Nat → CPtr × List Byte) × Nat)) {Ms : Nat → List Byte} {L : Nat} {c : HashC} {m : Mem Byte},
    HAbs4 S sel Ms L b c m →
    (∀ x ∈ ins, (∀ k, (x.1 k).2.length = x.2 ∧ (k < 4 → View F (x.1 k).1 (ofList (x.1 k).2))) ∧ Small 64 x.2) →
    T (bl kd b m + F) ((ins.map fun x => (fun k => (x.1 k).1, x.2)).foldlM
      (fun c x => hash_update_x4_4 K4 c (x.1 0) (x.1 1) (x.1 2) (x.1 3) x.2) c) fun c' D' =>
      ∃ m' L', HAbs4 S sel (fun k => Ms k ++ (ins.map fun x => (x.1 k).2).flatten) L' b c' m' ∧ D' = bl kd b m' + F
  | [], Ms, L, c, m, h, _ => by
    refine t_pure ⟨m, L, ?_, rfl⟩
    simpa using h
  | x :: ins, Ms, L, c, m, h, hi => by
    rw [List.map_cons, List.foldlM_cons]
    obtain ⟨hx, hs⟩ := hi x (List.mem_cons_self)
    refine t_call rfl (hash_update_x4_4_t (n := x.2) (μ := fun k => ofList (x.1 k).2) (d := fun k j => (x.1 k).2.getD j 0) h
      ?_ ?_ hs.update) ?_
    · intro k hk
      rw [sel4_fun (fun k => (x.1 k).1) hk]
      exact (hx k).2 hk
    · intro k _ j hj
      have hj' : j < (x.1 k).2.length := by rw [(hx k).1]; exact hj
      rw [rd_ofList, Nat.zero_add, List.getElem?_eq_getElem hj']
      simp [List.getD_eq_getElem?_getD, List.getElem?_eq_getElem hj']
    rintro c1 D1 ⟨m1, h1, rfl⟩
    have e : (fun k => Ms k ++ tabP x.2 fun j => (x.1 k).2.getD j 0) = fun k => Ms k ++ (x.1 k).2 := by
      funext k
      rw [tabP_getD_self (hx k).1]
    rw [e] at h1
    have := updates4_t ins h1 fun y hy => hi y (List.mem_cons_of_mem _ hy)
    simp only [List.append_assoc] at this
    exact this

theorem squeezes4_t : ∀ (outs : List ((Nat → Ptr) × Nat)) {Ms : Nat → List Byte} {c : HashC} {m : Mem Byte} {p : Nat} {F : Blocks},
    HSq4 S sel Ms p b c m →
    (∀ x ∈ outs, (∀ k, k < 4 → Valid F (x.1 k) x.2) ∧ (∀ i j, i < 4 → j < 4 → i ≠ j → C.Apart (x.1 i) x.2 (x.1 j) x.2) ∧
      Small 64 x.2) → ND F →
    T (bl kd b m + F) (outs.foldlM (fun c x => hash_squeeze_x4_4 K4 c (some (x.1 0)) (some (x.1 1)) (some (x.1 2)) (some (x.1 3)) x.2) c)
      fun _ D' => ∃ m' : Mem Byte, D' = bl kd b m' + upAll4 (fun k => shakeX sel (Ms k)) F outs p
  | [], Ms, c, m, p, F, h, _, _ => t_pure ⟨m, rfl⟩
  | x :: outs, Ms, c, m, p, F, h, hi, hn => by
    rw [List.foldlM_cons]
    obtain ⟨hx, ha, hs⟩ := hi x (List.mem_cons_self)
    refine t_call rfl (hash_squeeze_x4_4_t h (fun k hk => by rw [sel4_fun _ hk]; exact hx k hk)
      (fun i j hi hj hij => by rw [sel4_fun _ hi, sel4_fun _ hj]; exact ha i j hi hj hij) hs) ?_
    rintro c1 D1 ⟨m1, h1, rfl⟩
    refine squeezes4_t outs h1 (fun y hy => ?_) (ND.ups hn _ _ _)
    obtain ⟨hy1, hy2, hy3⟩ := hi y (List.mem_cons_of_mem _ hy)
    exact ⟨fun k hk => Valid.ups (hy1 k hk) (fun j hj => by rw [tabP_length, sel4_fun _ hj]; exact hx j hj) hn, hy2, hy3⟩

theorem hashRun4_t (S : P4Spec K4) {ins : List ((Nat → CPtr × List Byte) × Nat)} {outs : List ((Nat → Ptr) × Nat)} (h : HRaw4 b c m)
    (hi : ∀ x ∈ ins, (∀ k, (x.1 k).2.length = x.2 ∧ (k < 4 → View F (x.1 k).1 (ofList (x.1 k).2))) ∧ Small 64 x.2)
    (ho : ∀ x ∈ outs, (∀ k, k < 4 → Valid F (x.1 k) x.2) ∧ (∀ i j, i < 4 → j < 4 → i ≠ j → C.Apart (x.1 i) x.2 (x.1 j) x.2) ∧
      Small 64 x.2) :
    T (bl kd b m + F) (hashRun4 K4 c sel (ins.map fun x => (fun k => (x.1 k).1, x.2)) outs) fun _ D' =>
      ∃ m' : Mem Byte, D' = bl kd b m' + upAll4 (fun k => shakeX sel (ins.map fun x => (x.1 k).2).flatten) F outs 0 := by
  refine t_nd fun hnd => ?_
  unfold hashRun4
  refine t_call rfl (hash_init_x4_t (S := S) h) ?_
  rintro c1 D1 ⟨m1, h1, rfl⟩
  refine t_call rfl (updates4_t ins h1 hi) ?_
  rintro c2 D2 ⟨m2, L, h2, rfl⟩
  refine t_call rfl (hash_final_x4_t h2) ?_
  rintro c3 D3 ⟨m3, h3, rfl⟩
  exact squeezes4_t outs h3 ho hnd.right

/-- There is a memory for the blocks after a write. -/
theorem Sat.store {H : C.Heap} {D : Blocks} {q : Ptr} {l : List Byte} (h : Sat H D) (hv : Valid D q l.length) :
    ∃ H', Sat H' (up D q l) ∧ H'.cells = store H.cells q l := by
  obtain ⟨_, H', D', -, hs, -, rfl⟩ := runs_stN_up hv H h
  exact ⟨H', hs, cells_up h hs hv⟩

theorem cells_all : ∀ (outs : List (Ptr × Nat)) {X : Nat → Byte} {H H' : C.Heap} {D F : Blocks} {p : Nat}, Sat H (D + F) →
    Sat H' (D + upAll X F outs p) → (∀ x ∈ outs, Valid F x.1 x.2) → H'.cells = storeAll X H.cells outs p
  | [], X, H, H', D, F, p, h, h', _ => C.Sat.cells_eq h h'
  | x :: outs, X, H, H', D, F, p, h, h', hv => by
    have hx := hv x List.mem_cons_self
    have hx' : Valid (D + F) x.1 (tabP x.2 fun j => X (p + j)).length := by rw [tabP_length]; exact hx.right
    obtain ⟨H1, h1, e1⟩ := Sat.store h hx'
    rw [up_frame h.nodup hx] at h1
    have := cells_all outs h1 h' fun y hy => (hv y (List.mem_cons_of_mem _ hy)).up (by rw [tabP_length]; exact hx)
      (C.ND.right h.nodup)
    rw [this, e1]
    rfl

theorem cells_all4 : ∀ (outs : List ((Nat → Ptr) × Nat)) {X : Nat → Nat → Byte} {H H' : C.Heap} {D F : Blocks} {p : Nat}, Sat H (D + F) →
    Sat H' (D + upAll4 X F outs p) → (∀ x ∈ outs, ∀ k, k < 4 → Valid F (x.1 k) x.2) → H'.cells = storeAll4 X H.cells outs p
  | [], X, H, H', D, F, p, h, h', _ => C.Sat.cells_eq h h'
  | x :: outs, X, H, H', D, F, p, h, h', hv => by
    have hx := hv x List.mem_cons_self
    have hF : ND F := C.ND.right h.nodup
    have hl : ∀ n, n ≤ 4 → ∀ j, j < n → Valid F (x.1 j) ((fun k => tabP x.2 fun j => X k (p + j)) j).length := by
      intro n hn j hj
      dsimp only
      rw [tabP_length]
      exact hx j (by omega)
    have step : ∀ n, n ≤ 4 → ∃ H1, Sat H1 (D + ups n F x.1 fun k => tabP x.2 fun j => X k (p + j)) ∧
        H1.cells = Nat.rec H.cells (fun k M => store M (x.1 k) (tabP x.2 fun j => X k (p + j))) n := by
      intro n
      induction n with
      | zero => exact fun _ => ⟨H, h, rfl⟩
      | succ n ih =>
        intro hn
        obtain ⟨H1, h1, e1⟩ := ih (by omega)
        have hv1 : Valid (ups n F x.1 fun k => tabP x.2 fun j => X k (p + j)) (x.1 n) (tabP x.2 fun j => X n (p + j)).length :=
          Valid.ups (by rw [tabP_length]; exact hx n (by omega)) (hl n (by omega)) hF
        obtain ⟨H2, h2, e2⟩ := Sat.store h1 hv1.right
        rw [up_frame h1.nodup hv1] at h2
        refine ⟨H2, h2, ?_⟩
        rw [e2, e1]
    obtain ⟨H1, h1, e1⟩ := step 4 (by omega)
    have := cells_all4 outs h1 h' fun y hy k hk => Valid.ups (hv y (List.mem_cons_of_mem _ hy) k hk) (hl 4 (by omega)) hF
    rw [this, e1]
    rfl

end

end Faest.Props
