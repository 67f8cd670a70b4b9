/-
Client programs of the hash interface: any sequence of updates, then `hash_final`, then any sequence of
squeezes; the random oracles of random_oracle.c with any sequence of updates; and the hashing functions of
faest.c.
-/
import Verif.Proofs.ShakeApi
import Verif.Model.Faest

namespace Faest.Keccak
open Spec.Keccak (shake shakeX)

/-! ### Clients -/

/-- `hash_update` with each of the chunks in turn. -/
def runUpdates (w : Nat) : HashInstance → List (List Byte) → Option HashInstance
  | ctx, [] => some ctx
  | ctx, c :: cs => do
    let ctx ← hashUpdate w ctx (ofList c) c.length
    runUpdates w ctx cs

/-- `hash_squeeze` into a fresh buffer for each of the lengths in turn; the contents of the buffers. -/
def runSqueezes (w : Nat) : HashInstance → List Nat → Option (List (List Byte))
  | _, [] => some []
  | ctx, n :: ns => do
    let (ctx, buf) ← hashSqueeze w ctx (malloc n) n
    let out ← rdN buf 0 n
    let outs ← runSqueezes w ctx ns
    pure (out :: outs)

/-- `hash_init`, updates, `hash_final`, squeezes. -/
def runHash (w sec : Nat) (chunks : List (List Byte)) (outs : List Nat) : Option (List (List Byte)) := do
  let ctx ← hashInit hashFresh sec
  let ctx ← runUpdates w ctx chunks
  let ctx ← hashFinal w ctx
  runSqueezes w ctx outs

/-- Four inputs. -/
def runUpdatesX4 (w : Nat) : HashInstance → List (Nat × (Nat → List Byte)) → Option HashInstance
  | ctx, [] => some ctx
  | ctx, (n, c) :: cs => do
    let ctx ← hashUpdateX4 w ctx (fun k => ofList (c k)) n
    runUpdatesX4 w ctx cs

/-- Squeezes into four buffers; `out k` is the content of buffer `k < 4`. -/
def runSqueezesX4 (w : Nat) : HashInstance → List Nat → Option (List (List (List Byte)))
  | _, [] => some []
  | ctx, n :: ns => do
    let (ctx, buf) ← hashSqueezeX4 w ctx (fun _ => malloc n) n
    let out ← tabM 4 (fun k => rdN (buf k) 0 n)
    let outs ← runSqueezesX4 w ctx ns
    pure (out :: outs)

/-- `hash_init_x4`, updates, `hash_final_x4`, squeezes. -/
def runHashX4 (w sec : Nat) (chunks : List (Nat × (Nat → List Byte))) (outs : List Nat) :
    Option (List (List (List Byte))) := do
  let ctx ← hashInitX4 hashFreshX4 sec
  let ctx ← runUpdatesX4 w ctx chunks
  let ctx ← hashFinalX4 w ctx
  runSqueezesX4 w ctx outs

/-- `H0_init`, updates, `H0_final` with fresh output buffers. -/
def runH0 (w lambda : Nat) (chunks : List (List Byte)) (seedLen comLen : Nat) : Option (List Byte × List Byte) := do
  let ctx ← roInit hashFresh lambda
  let ctx ← runUpdates w ctx chunks
  let (seed, com) ← h0Final w ctx (malloc seedLen) seedLen (malloc comLen) comLen
  let seed ← rdN seed 0 seedLen
  let com ← rdN com 0 comLen
  pure (seed, com)

/-- `H1_init`, updates, `H1_final`. -/
def runH1 (w lambda : Nat) (chunks : List (List Byte)) (len : Nat) : Option (List Byte) := do
  let ctx ← roInit hashFresh lambda
  let ctx ← runUpdates w ctx chunks
  let digest ← h1Final w ctx (malloc len) len
  rdN digest 0 len

/-- `H2_init`, updates, `H2_final`. -/
def runH2 (w lambda : Nat) (chunks : List (List Byte)) (len : Nat) : Option (List Byte) := do
  let ctx ← roInit hashFresh lambda
  let ctx ← runUpdates w ctx chunks
  let digest ← h2Final w ctx (malloc len) len
  rdN digest 0 len

/-- `H3_init`, updates, `H3_final`. -/
def runH3 (w lambda : Nat) (chunks : List (List Byte)) (len : Nat) : Option (List Byte × List Byte) := do
  let ctx ← roInit hashFresh lambda
  let ctx ← runUpdates w ctx chunks
  let (digest, iv) ← h3Final w ctx (malloc len) len (malloc 16)
  let digest ← rdN digest 0 len
  let iv ← rdN iv 0 16
  pure (digest, iv)

/-- `H0_x4_init`, updates, `H0_x4_final`. -/
def runH0x4 (w lambda : Nat) (chunks : List (Nat × (Nat → List Byte))) (seedLen comLen : Nat) :
    Option (List (List Byte × List Byte)) := do
  let ctx ← roInitX4 hashFreshX4 lambda
  let ctx ← runUpdatesX4 w ctx chunks
  let (seed, com) ← h0FinalX4 w ctx (fun _ => malloc seedLen) seedLen (fun _ => malloc comLen) comLen
  tabM 4 (fun k => do
    let s ← rdN (seed k) 0 seedLen
    let c ← rdN (com k) 0 comLen
    pure (s, c))

/-! ### Proofs -/

theorem data_ofList (l : List Byte) : Data (ofList l) l := by
  refine ⟨?_, by simp⟩
  apply has_ofList
  intro i hi
  rw [List.getD_eq_getElem?_getD, List.getElem?_eq_getElem hi]
  rfl

theorem data_of_rdN {m : Mem Byte} {n : Nat} {l : List Byte} (h : rdN m 0 n = some l) : Data m l ∧ l.length = n := by
  have hn : 0 + n ≤ m.length := by
    by_contra hc
    unfold rdN at h
    rw [if_neg hc] at h
    simp at h
  unfold rdN at h
  rw [if_pos hn, List.drop_zero] at h
  have key : ∀ (m : Mem Byte) (l : List Byte), (m.mapM id : Option (List Byte)) = some l →
      m = l.map some := by
    intro m
    induction m with
    | nil => intro l h; simp at h; subst h; rfl
    | cons a m ih =>
      intro l h
      cases a with
      | none => simp [List.mapM_cons] at h
      | some a =>
        rw [List.mapM_cons] at h
        cases hm : (m.mapM id : Option (List Byte)) with
        | none => rw [hm] at h; simp at h
        | some l' =>
          rw [hm] at h
          simp at h
          rw [ih l' hm, ← h]; rfl
  have e := key _ _ h
  have hl : l.length = n := by
    have := congrArg List.length e
    rw [List.length_take, List.length_map] at this
    omega
  refine ⟨⟨?_, by omega⟩, hl⟩
  intro i hi
  have := congrArg (fun x : List (Option Byte) => x[i]?) e
  simp only [List.getElem?_take, List.getElem?_map] at this
  rw [if_pos (by omega), List.getElem?_eq_getElem hi] at this
  unfold rd
  beta_reduce
  rw [Nat.zero_add, this, List.getD_eq_getElem?_getD, List.getElem?_eq_getElem hi]
  rfl

/-- A size which always works. -/
def Small (w n : Nat) : Prop := n + 200 ≤ 2 ^ 32 ∧ 8 * n < 2 ^ w

theorem Small.update {w sel m n : Nat} (h : Small w n) : UpdateFits w sel m n := by
  obtain ⟨f1, f2, f3⟩ := rateOf_facts sel
  have := Nat.mod_lt m f2
  refine ⟨h.2, Or.inr (Or.inl ?_)⟩
  have := h.1
  omega

theorem Small.squeeze {w sel idx n : Nat} (h : Small w n) (hi : idx ≤ rateOf sel) : SqueezeFits w sel idx n := by
  obtain ⟨f1, f2, f3⟩ := rateOf_facts sel
  refine ⟨h.2, Or.inr (Or.inl ?_)⟩
  have := h.1
  omega

theorem small_of_lt {w n : Nat} (hw : 32 ≤ w) (h : n < 2 ^ 29) : Small w n := by
  have : 2 ^ 32 ≤ 2 ^ w := Nat.pow_le_pow_right (by omega) hw
  unfold Small
  omega

theorem runUpdates_ok {w : Nat} (hw : 32 ≤ w) {sel : Nat} (chunks : List (List Byte)) :
    ∀ {M : List Byte} {ctx : HashInstance}, HAbs sel M ctx → (∀ c ∈ chunks, Small w c.length) →
      Ok (runUpdates w ctx chunks) (HAbs sel (M ++ chunks.flatten)) := by
  induction chunks with
  | nil => intro M ctx h _; rw [List.flatten_nil, List.append_nil]; exact Ok.some h
  | cons c cs ih =>
    intro M ctx h hs
    refine Ok.bind (hashUpdate_ok hw h (data_ofList c) (hs c (by simp)).update) ?_
    intro ctx' h'
    rw [List.flatten_cons, ← List.append_assoc]
    exact ih h' fun c' hc' => hs c' (by simp [hc'])

theorem wrote_rdN {m m' : Mem Byte} {n : Nat} {g : Nat → Byte} (h : Wrote m 0 n g m') (hn : n ≤ m.length) :
    rdN m' 0 n = some (tabP n g) := rdN_eq h.has (by rw [h.len]; omega)

theorem squeeze_parts (sel : Nat) (M : List Byte) (p n : Nat) :
    tabP n (fun i => shakeX sel M (p + i)) = squeeze shakeX sel M p n := rfl

theorem runSqueezes_ok {w : Nat} (hw : 32 ≤ w) {sel : Nat} {M : List Byte} (outs : List Nat) :
    ∀ {p : Nat} {ctx : HashInstance}, HSq sel M p ctx → (∀ n ∈ outs, Small w n) →
      Ok (runSqueezes w ctx outs) (fun x => x.map List.length = outs ∧
        x.flatten = tabP outs.sum (fun i => shakeX sel M (p + i))) := by
  induction outs with
  | nil => intro p ctx _ _; exact Ok.some ⟨rfl, rfl⟩
  | cons n ns ih =>
    intro p ctx h hs
    refine Ok.bind (hashSqueeze_ok hw h (buf := malloc n) (by simp) ((hs n (by simp)).squeeze h.le)) ?_
    rintro ⟨ctx', buf⟩ ⟨h1, h2⟩
    refine Ok.step (wrote_rdN h2 (by simp)) ?_
    refine Ok.bind (ih h1 fun n' hn' => hs n' (by simp [hn'])) ?_
    rintro xs ⟨h3, h4⟩
    refine Ok.pure ⟨?_, ?_⟩
    · rw [List.map_cons, h3]; congr 1; simp [tabP]
    · rw [List.flatten_cons, h4, List.sum_cons, tabP_add]
      congr 1
      apply tabP_congr
      intro i _
      rw [Nat.add_assoc]

theorem runHash_ok {w : Nat} (hw : 32 ≤ w) (sec : Nat) (chunks : List (List Byte)) (outs : List Nat)
    (hc : ∀ c ∈ chunks, Small w c.length) (ho : ∀ n ∈ outs, Small w n) :
    Ok (runHash w sec chunks outs) (fun x => x.map List.length = outs ∧
      x.flatten = shake sec chunks.flatten outs.sum) := by
  unfold runHash
  refine Ok.bind (hashInit_ok (by simp [hashFresh]) sec) ?_
  intro ctx h0
  refine Ok.bind (runUpdates_ok hw chunks h0 hc) ?_
  intro ctx h1
  rw [List.nil_append] at h1
  refine Ok.bind (hashFinal_ok w h1) ?_
  rintro ctx ⟨h2, _⟩
  refine (runSqueezes_ok hw outs h2 ho).mono ?_
  rintro x ⟨h3, h4⟩
  refine ⟨h3, ?_⟩
  rw [h4, shake_eq_X]
  apply tabP_congr
  intro i _
  rw [Nat.zero_add]

theorem HAbs4.congr {sel m : Nat} {M M' : Nat → List Byte} {ctx : HashInstance} (h : HAbs4 sel m M ctx)
    (e : ∀ k, M k = M' k) : HAbs4 sel m M' ctx := by
  have : M = M' := funext e
  rw [← this]; exact h

theorem runUpdatesX4_ok {w : Nat} (hw : 32 ≤ w) {sel : Nat} (chunks : List (Nat × (Nat → List Byte))) :
    ∀ {m : Nat} {M : Nat → List Byte} {ctx : HashInstance}, HAbs4 sel m M ctx →
      (∀ c ∈ chunks, Small w c.1 ∧ ∀ k, k < 4 → (c.2 k).length = c.1) →
      Ok (runUpdatesX4 w ctx chunks) (fun ctx' => ∃ m', HAbs4 sel m'
        (fun k => M k ++ (chunks.map (fun c => c.2 k)).flatten) ctx') := by
  induction chunks with
  | nil =>
    intro m M ctx h _
    exact Ok.some ⟨m, h.congr fun k => by simp⟩
  | cons c cs ih =>
    intro m M ctx h hs
    obtain ⟨n, c⟩ := c
    obtain ⟨s1, s2⟩ := hs (n, c) (by simp)
    refine Ok.bind (hashUpdateX4_ok hw h (l := c) (fun k _ => data_ofList (c k)) s2 s1.update) ?_
    intro ctx' h'
    refine (ih h' fun c' hc' => hs c' (by simp [hc'])).mono ?_
    rintro ctx2 ⟨m', h2⟩
    exact ⟨m', h2.congr fun k => by simp⟩

theorem runSqueezesX4_ok {w : Nat} (hw : 32 ≤ w) {sel : Nat} {M : Nat → List Byte} (outs : List Nat) :
    ∀ {p : Nat} {ctx : HashInstance}, HSq4 sel M p ctx → (∀ n ∈ outs, Small w n) →
      Ok (runSqueezesX4 w ctx outs) (fun x => (∀ y ∈ x, y.length = 4) ∧ ∀ k, k < 4 →
        x.map (fun y => (y.getD k []).length) = outs ∧
        (x.map (fun y => y.getD k [])).flatten = tabP outs.sum (fun i => shakeX sel (M k) (p + i))) := by
  induction outs with
  | nil => intro p ctx _ _; exact Ok.some ⟨by simp, fun k _ => ⟨rfl, rfl⟩⟩
  | cons n ns ih =>
    intro p ctx h hs
    refine Ok.bind (hashSqueezeX4_ok hw h (buf := fun _ => malloc n) (fun _ _ => by simp)
      ((hs n (by simp)).squeeze h.le)) ?_
    rintro ⟨ctx', buf⟩ ⟨h1, h2⟩
    refine Ok.step (tabM_eq (g := fun k => tabP n (fun i => shakeX sel (M k) (p + i))) fun k hk =>
      wrote_rdN (h2 k hk) (by simp)) ?_
    refine Ok.bind (ih h1 fun n' hn' => hs n' (by simp [hn'])) ?_
    rintro xs ⟨h3, h4⟩
    refine Ok.pure ⟨?_, ?_⟩
    · intro y hy
      rcases List.mem_cons.1 hy with rfl | hy
      · simp [tabP]
      · exact h3 y hy
    · intro k hk
      obtain ⟨h5, h6⟩ := h4 k hk
      have e : (tabP 4 fun k => tabP n (fun i => shakeX sel (M k) (p + i))).getD k []
          = tabP n (fun i => shakeX sel (M k) (p + i)) := by
        rw [List.getD_eq_getElem?_getD, tabP_getElem?, if_pos hk]; rfl
      refine ⟨?_, ?_⟩
      · rw [List.map_cons, h5, e]; congr 1; simp [tabP]
      · rw [List.map_cons, List.flatten_cons, h6, e, List.sum_cons, tabP_add]
        congr 1
        apply tabP_congr
        intro i _
        rw [Nat.add_assoc]

theorem runHashX4_ok {w : Nat} (hw : 32 ≤ w) (sec : Nat) (chunks : List (Nat × (Nat → List Byte))) (outs : List Nat)
    (hc : ∀ c ∈ chunks, Small w c.1 ∧ ∀ k, k < 4 → (c.2 k).length = c.1) (ho : ∀ n ∈ outs, Small w n) :
    Ok (runHashX4 w sec chunks outs) (fun x => (∀ y ∈ x, y.length = 4) ∧ ∀ k, k < 4 →
      x.map (fun y => (y.getD k []).length) = outs ∧
      (x.map (fun y => y.getD k [])).flatten = shake sec (chunks.map (fun c => c.2 k)).flatten outs.sum) := by
  unfold runHashX4
  refine Ok.bind (hashInitX4_ok (by simp [hashFreshX4]) sec) ?_
  intro ctx h0
  refine Ok.bind (runUpdatesX4_ok hw chunks h0 hc) ?_
  rintro ctx ⟨m, h1⟩
  refine Ok.bind (hashFinalX4_ok w h1) ?_
  rintro ctx ⟨h2, _⟩
  refine (runSqueezesX4_ok hw outs h2 ho).mono ?_
  rintro x ⟨h3, h4⟩
  refine ⟨h3, ?_⟩
  intro k hk
  obtain ⟨h5, h6⟩ := h4 k hk
  refine ⟨h5, ?_⟩
  rw [h6, shake_eq_X]
  apply tabP_congr
  intro i _
  rw [Nat.zero_add, List.nil_append]

theorem roInit_ok (lambda : Nat) : Ok (roInit hashFresh lambda) (HAbs (hashSel lambda) []) :=
  hashInit_ok (by simp [hashFresh]) _

theorem small_one {w : Nat} (hw : 32 ≤ w) : Small w 1 := small_of_lt hw (by omega)

/-- One of the final functions with one output. -/
theorem final1_ok {w : Nat} (hw : 32 ≤ w) {sel : Nat} {M : List Byte} {ctx : HashInstance} (h : HAbs sel M ctx)
    (dom : Byte) {digest : Mem Byte} {len : Nat} (hl : len ≤ digest.length) (hs : Small w len) :
    Ok (do
      let ctx ← hashUpdate w ctx (ofList [dom]) 1
      let ctx ← hashFinal w ctx
      let (_, digest) ← hashSqueeze w ctx digest len
      pure digest) (Wrote digest 0 len (fun i => shakeX sel (M ++ [dom]) i)) := by
  refine Ok.bind (hashUpdate_ok hw h (data_ofList [dom]) (small_one hw).update) ?_
  intro ctx h1
  refine Ok.bind (hashFinal_ok w h1) ?_
  rintro ctx ⟨h2, _⟩
  refine Ok.bind (hashSqueeze_ok hw h2 hl (hs.squeeze h2.le)) ?_
  rintro ⟨ctx, d⟩ ⟨_, h3⟩
  refine Ok.pure (h3.congr ?_)
  intro i _
  rw [Nat.zero_add]

/-- One of the final functions with two outputs. -/
theorem final2_ok {w : Nat} (hw : 32 ≤ w) {sel : Nat} {M : List Byte} {ctx : HashInstance} (h : HAbs sel M ctx)
    (dom : Byte) {a b : Mem Byte} {n m : Nat} (ha : n ≤ a.length) (hb : m ≤ b.length) (hn : Small w n)
    (hm : Small w m) :
    Ok (do
      let ctx ← hashUpdate w ctx (ofList [dom]) 1
      let ctx ← hashFinal w ctx
      let (ctx, a) ← hashSqueeze w ctx a n
      let (_, b) ← hashSqueeze w ctx b m
      pure (a, b)) (fun x => Wrote a 0 n (fun i => shakeX sel (M ++ [dom]) i) x.1 ∧
        Wrote b 0 m (fun i => shakeX sel (M ++ [dom]) (n + i)) x.2) := by
  refine Ok.bind (hashUpdate_ok hw h (data_ofList [dom]) (small_one hw).update) ?_
  intro ctx h1
  refine Ok.bind (hashFinal_ok w h1) ?_
  rintro ctx ⟨h2, _⟩
  refine Ok.bind (hashSqueeze_ok hw h2 ha (hn.squeeze h2.le)) ?_
  rintro ⟨ctx, d⟩ ⟨h3, h4⟩
  refine Ok.bind (hashSqueeze_ok hw h3 hb (hm.squeeze h3.le)) ?_
  rintro ⟨ctx, e⟩ ⟨_, h5⟩
  refine Ok.pure ⟨h4.congr ?_, h5.congr ?_⟩
  · intro i _; rw [Nat.zero_add]
  · intro i _; rw [Nat.zero_add]

theorem runH1_ok {w : Nat} (hw : 32 ≤ w) (lambda : Nat) (chunks : List (List Byte)) (len : Nat)
    (hc : ∀ c ∈ chunks, Small w c.length) (hl : Small w len) :
    runH1 w lambda chunks len = some (H1 shakeX lambda chunks.flatten len) := by
  refine Ok.eq ?_
  unfold runH1
  refine Ok.bind (roInit_ok lambda) ?_
  intro ctx h0
  refine Ok.bind (runUpdates_ok hw chunks h0 hc) ?_
  intro ctx h1
  rw [List.nil_append] at h1
  refine Ok.bind (final1_ok hw h1 0x01 (digest := malloc len) (by simp) hl) ?_
  intro d h2
  refine Ok.of_eq (wrote_rdN h2 (by simp)) ?_
  unfold H1 squeeze
  simp only [Nat.zero_add]

theorem runH2_ok {w : Nat} (hw : 32 ≤ w) (lambda : Nat) (chunks : List (List Byte)) (len : Nat)
    (hc : ∀ c ∈ chunks, Small w c.length) (hl : Small w len) :
    runH2 w lambda chunks len = some (H2 shakeX lambda chunks.flatten len) := by
  refine Ok.eq ?_
  unfold runH2
  refine Ok.bind (roInit_ok lambda) ?_
  intro ctx h0
  refine Ok.bind (runUpdates_ok hw chunks h0 hc) ?_
  intro ctx h1
  rw [List.nil_append] at h1
  refine Ok.bind (final1_ok hw h1 0x02 (digest := malloc len) (by simp) hl) ?_
  intro d h2
  refine Ok.of_eq (wrote_rdN h2 (by simp)) ?_
  unfold H2 squeeze
  simp only [Nat.zero_add]

theorem runH0_ok {w : Nat} (hw : 32 ≤ w) (lambda : Nat) (chunks : List (List Byte)) (seedLen comLen : Nat)
    (hc : ∀ c ∈ chunks, Small w c.length) (hs : Small w seedLen) (hm : Small w comLen) :
    runH0 w lambda chunks seedLen comLen = some (H0 shakeX lambda chunks.flatten seedLen comLen) := by
  refine Ok.eq ?_
  unfold runH0
  refine Ok.bind (roInit_ok lambda) ?_
  intro ctx h0
  refine Ok.bind (runUpdates_ok hw chunks h0 hc) ?_
  intro ctx h1
  rw [List.nil_append] at h1
  refine Ok.bind (final2_ok hw h1 0x00 (a := malloc seedLen) (b := malloc comLen) (by simp) (by simp) hs hm) ?_
  rintro ⟨a, b⟩ ⟨h2, h3⟩
  refine Ok.step (wrote_rdN h2 (by simp)) ?_
  refine Ok.step (wrote_rdN h3 (by simp)) ?_
  refine Ok.pure ?_
  unfold H0 squeeze
  simp only [Nat.zero_add]

theorem runH3_ok {w : Nat} (hw : 32 ≤ w) (lambda : Nat) (chunks : List (List Byte)) (len : Nat)
    (hc : ∀ c ∈ chunks, Small w c.length) (hs : Small w len) :
    runH3 w lambda chunks len = some (H3 shakeX lambda chunks.flatten len) := by
  refine Ok.eq ?_
  unfold runH3
  refine Ok.bind (roInit_ok lambda) ?_
  intro ctx h0
  refine Ok.bind (runUpdates_ok hw chunks h0 hc) ?_
  intro ctx h1
  rw [List.nil_append] at h1
  refine Ok.bind (final2_ok hw h1 0x03 (a := malloc len) (b := malloc 16) (by simp) (by simp) hs
    (small_of_lt hw (by omega))) ?_
  rintro ⟨a, b⟩ ⟨h2, h3⟩
  refine Ok.step (wrote_rdN h2 (by simp)) ?_
  refine Ok.step (wrote_rdN h3 (by simp)) ?_
  refine Ok.pure ?_
  unfold H3 squeeze
  simp only [Nat.zero_add]

theorem runH0x4_ok {w : Nat} (hw : 32 ≤ w) (lambda : Nat) (chunks : List (Nat × (Nat → List Byte)))
    (seedLen comLen : Nat) (hc : ∀ c ∈ chunks, Small w c.1 ∧ ∀ k, k < 4 → (c.2 k).length = c.1)
    (hs : Small w seedLen) (hm : Small w comLen) :
    runH0x4 w lambda chunks seedLen comLen
      = some (tabP 4 (H0x4 shakeX lambda (fun k => (chunks.map (fun c => c.2 k)).flatten) seedLen comLen)) := by
  refine Ok.eq ?_
  unfold runH0x4 roInitX4 h0FinalX4
  refine Ok.bind (hashInitX4_ok (by simp [hashFreshX4]) (hashSel lambda)) ?_
  intro ctx h0
  refine Ok.bind (runUpdatesX4_ok hw chunks h0 hc) ?_
  rintro ctx ⟨m, h1⟩
  simp only [bind_assoc]
  refine Ok.bind (hashUpdateX4_ok hw h1 (l := fun _ => [0x00]) (fun k _ => data_ofList [0x00]) (fun _ _ => rfl)
    (small_one hw).update) ?_
  intro ctx h1
  refine Ok.bind (hashFinalX4_ok w h1) ?_
  rintro ctx ⟨h2, _⟩
  refine Ok.bind (hashSqueezeX4_ok hw h2 (buf := fun _ => malloc seedLen) (n := seedLen) (fun _ _ => by simp)
    (hs.squeeze h2.le)) ?_
  rintro ⟨ctx, a⟩ ⟨h3, h4⟩
  refine Ok.bind (hashSqueezeX4_ok hw h3 (buf := fun _ => malloc comLen) (n := comLen) (fun _ _ => by simp)
    (hm.squeeze h3.le)) ?_
  rintro ⟨ctx, b⟩ ⟨_, h5⟩
  refine Ok.of_eq (tabM_eq fun k hk => ?_) rfl
  dsimp only
  rw [wrote_rdN (h4 k hk) (by simp), Option.bind_eq_bind, Option.bind_some, wrote_rdN (h5 k hk) (by simp)]
  unfold H0x4 squeeze
  simp only [Nat.zero_add, List.nil_append]
  rfl

end Faest.Keccak
