/-
Byte-addressed buffers in vole.c: simulation of the functions on arrays of byte strings.
-/
import Verif.Proofs.FlatVc

namespace Faest

theorem xorArr_simL {a b a' b' : Mem Byte} (ha : Le a a') (hb : Le b b') {n : Nat} :
    Sim (fun x y => y = x ∧ x.length = n) (xorArr a b n) (xorArr a' b' n) :=
  (xorArr_sim ha hb).mono fun _ _ h e => ⟨e, tabM_length h⟩

theorem maskedXorArr_simL {a b a' b' : Mem Byte} (ha : Le a a') (hb : Le b b') {c : Byte} {n : Nat} :
    Sim (fun x y => y = x ∧ x.length = n) (maskedXorArr a b c n) (maskedXorArr a' b' c n) :=
  (maskedXorArr_sim ha hb).mono fun _ _ h e => ⟨e, tabM_length h⟩

theorem Fl.head {L : Nat} {m : Mem (List Byte)} {f : Mem Byte} (h : Fl L m f) {xs : List Byte}
    (hx : Faest.rd m 0 = some xs) : xs.length = L ∧ Le (ofList xs) f := by
  have := h.slice hx
  rw [Nat.zero_mul, List.drop_zero] at this
  exact ⟨(h.dat 0 xs hx).1, this⟩

theorem replicate_succ_mul (n L : Nat) :
    List.replicate ((n + 1) * L) (0 : Byte) = List.replicate (n * L) 0 ++ List.replicate L 0 := by
  rw [Nat.succ_mul, List.replicate_append_replicate]

/-- `memset` of neighbouring elements. -/
theorem Fl.memset {L : Nat} {m : Mem (List Byte)} {f : Mem Byte} (h : Fl L m f) {off : Nat}
    (hoff : off ≤ m.length) : ∀ n : Nat,
    Sim (fun a b => Fl L a b ∧ a.length = m.length ∧ off + n ≤ a.length)
      (Faest.forN n m (fun j v => Faest.wr v (off + j) (List.replicate L 0)))
      (wrN f (off * L) (List.replicate (n * L) 0))
  | 0 => by
    have e : wrN f (off * L) (List.replicate (0 * L) 0) = Option.some f := by
      rw [Nat.zero_mul]
      unfold wrN
      have : off * L ≤ f.length := by rw [h.len]; exact Nat.mul_le_mul_right L hoff
      rw [if_pos (by simpa using this)]
      simp
    rw [e]
    exact Sim.some ⟨h, rfl, hoff⟩
  | n + 1 => by
    intro a ha
    obtain ⟨a1, h1, h2⟩ := Option.bind_eq_some_iff.1 ha
    obtain ⟨b1, g1, k1, k2, k3⟩ := Fl.memset h hoff n a1 h1
    obtain ⟨b2, g2, k4⟩ := k1.wr List.length_replicate h2
    obtain ⟨w1, w2, -⟩ := wr_inv h2
    refine ⟨b2, ?_, k4, by omega, by omega⟩
    rw [replicate_succ_mul]
    refine wrN_append g1 ?_
    rw [List.length_replicate, ← Nat.add_mul]
    exact g2

theorem cvInit_flat {iv : List Byte} {sd : Mem (List Byte)} {fsd : Mem Byte} {bot : Bool} {lam outLen N : Nat}
    (hlam : LamOk lam) (hv : iv.length = 16) (hsd : Fl (lam / 8) sd fsd) :
    Sim (Fl outLen) (cvInit iv sd bot lam outLen N) (Flat.cvInit iv fsd bot lam outLen N) := by
  unfold cvInit Flat.cvInit
  cases bot with
  | true => exact Sim.some (fl_calloc _ _)
  | false =>
    refine Sim.left fun s hs => ?_
    obtain ⟨h1, h2⟩ := hsd.head hs
    refine (prg_sim hlam h1 hv h2).bind ?_
    rintro _ o ⟨rfl, ho⟩
    exact (fl_calloc _ _).wrSim ho

/-- The two arrays of `ConvertToVole`. -/
def CvRel (L n : Nat) (a : Mem (List Byte) × Mem (List Byte)) (b : Mem Byte × Mem Byte) : Prop :=
  Fl L a.1 b.1 ∧ a.1.length = n ∧ Fl L a.2 b.2

theorem convertToVole_flat {iv : List Byte} {sd : Mem (List Byte)} {fsd : Mem Byte} {bot : Bool}
    {lam d outLen off : Nat} {v : Mem (List Byte)} {fv : Mem Byte}
    (hlam : LamOk lam) (hv : iv.length = 16) (hsd : Fl (lam / 8) sd fsd) (h : Fl outLen v fv)
    (hoff : off ≤ v.length) :
    Sim (fun a b => Fl outLen a.1 b.1 ∧ a.1.length = v.length ∧ off + d ≤ v.length ∧ b.2 = a.2 ∧
        ∀ u, a.2 = some u → u.length = outLen)
      (convertToVole iv sd bot lam d outLen v off)
      (Flat.convertToVole iv fsd bot lam d outLen fv (off * outLen)) := by
  unfold convertToVole Flat.convertToVole
  simp only []
  by_cases hd30 : d ≤ 30
  case neg => rw [if_neg hd30]; exact Sim.none
  rw [if_pos hd30, if_pos hd30]
  refine Sim.same fun N _ => ?_
  refine Sim.same fun _ _ => ?_
  refine Sim.same fun _ _ => ?_
  refine (cvInit_flat hlam hv hsd).bind fun r fr hr => ?_
  refine Sim.bind (R := Fl outLen) ?_ ?_
  · refine Sim.forR _ hr ?_
    intro i _ _ r fr hr
    rw [Nat.mul_comm (lam / 8) i]
    refine hsd.ptr.bind ?_
    rintro s p ⟨h1, h2⟩
    refine (prg_sim hlam h1 hv h2).bind ?_
    rintro _ o ⟨rfl, ho⟩
    exact hr.wrSim ho
  intro r fr hr
  refine (h.memset hoff d).bind ?_
  rintro v1 fv1 ⟨h1, hl1, hd1⟩
  refine Sim.bind (R := CvRel outLen v.length) ?_ ?_
  · refine Sim.forN (fun _ => CvRel outLen v.length) ⟨h1, hl1, hr⟩ ?_
    rintro j _ ⟨v1, r⟩ ⟨fv1, fr⟩ hs
    refine Sim.forN (fun _ => CvRel outLen v.length) hs ?_
    rintro i _ ⟨v1, r⟩ ⟨fv1, fr⟩ ⟨h1, hl1, hr⟩
    simp only at h1 hl1 hr ⊢
    rw [← Nat.add_mul]
    refine h1.ptr.bind ?_
    rintro vj p ⟨-, hp⟩
    refine hr.ptr.bind ?_
    rintro r1 p1 ⟨-, hp1⟩
    refine (xorArr_simL hp hp1).bind ?_
    rintro _ x ⟨rfl, hx⟩
    refine Sim.left fun v2 hv2 => ?_
    obtain ⟨fv2, k1, k2⟩ := h1.wr hx hv2
    refine Sim.right k1 ?_
    refine hr.ptr.bind ?_
    rintro r0 p0 ⟨-, hp0⟩
    refine hr.ptr.bind ?_
    rintro r1 p1 ⟨-, hp1⟩
    refine (xorArr_simL hp0 hp1).bind ?_
    rintro _ y ⟨rfl, hy⟩
    refine (hr.wrSim hy).bind fun r2 fr2 hr2 => ?_
    exact Sim.pure ⟨k2, by rw [(wr_inv hv2).2.1, hl1], hr2⟩
  rintro ⟨v1, r⟩ ⟨fv1, fr⟩ ⟨h1, hl1', hr⟩
  simp only at h1 hl1' hr ⊢
  cases bot with
  | true => exact Sim.pure ⟨h1, hl1', by omega, rfl, fun u hu => absurd hu (by simp)⟩
  | false =>
    refine (hr.rd _).bind ?_
    rintro _ u ⟨rfl, hu⟩
    exact Sim.pure ⟨h1, hl1', by omega, rfl, fun u' hu' => by rw [← Option.some.inj hu']; exact hu⟩

/-- The vector commitments of `vole_commit`. -/
structure FlComs (L : Nat) (a : List VecCom) (b : List Flat.VecCom) : Prop where
  len : b.length = a.length
  dat : ∀ (i : Nat) c, a[i]? = some c → ∃ c', b[i]? = some c' ∧ FlCom L c c'

theorem FlComs.snoc {L : Nat} {a : List VecCom} {b : List Flat.VecCom} {c : VecCom} {c' : Flat.VecCom}
    (h : FlComs L a b) (hc : FlCom L c c') : FlComs L (a ++ [c]) (b ++ [c']) := by
  refine ⟨by simp [h.len], fun i x hx => ?_⟩
  by_cases hi : i < a.length
  · rw [List.getElem?_append_left hi] at hx
    rw [List.getElem?_append_left (by rw [h.len]; exact hi)]
    exact h.dat i x hx
  · rw [List.getElem?_append_right (by omega)] at hx
    have hi' : i - a.length = 0 := by
      have := (List.getElem?_eq_some_iff.1 hx).1
      rw [List.length_singleton] at this
      omega
    rw [hi'] at hx
    obtain rfl : c = x := by simpa using hx
    refine ⟨c', ?_, hc⟩
    rw [List.getElem?_append_right (by rw [h.len]; omega), h.len, hi']
    rfl

/-- The values `u_i`: `i` of the `n` elements are written. -/
structure FlUi (L n i : Nat) (a : List (List Byte)) (f : Mem Byte) : Prop where
  len : f.length = n * L
  cnt : a.length = i
  dat : ∀ (j : Nat) x, a[j]? = some x → x.length = L ∧ ∀ t, t < L → rd f (j * L + t) = x[t]?

theorem FlUi.snoc {L n i : Nat} {a : List (List Byte)} {f : Mem Byte} (h : FlUi L n i a f) (hi : i < n)
    {x : List Byte} (hx : x.length = L) : ∃ f', wrN f (i * L) x = some f' ∧ FlUi L n (i + 1) (a ++ [x]) f' := by
  have hle := block_le (L := L) hi
  obtain ⟨f', h1, h2, h3⟩ := wrN_some (m := f) (off := i * L) (l := x) (by rw [h.len]; omega)
  refine ⟨f', h1, by rw [h2, h.len], by simp [h.cnt], fun j y hy => ?_⟩
  by_cases hj : j < a.length
  · rw [List.getElem?_append_left hj] at hy
    obtain ⟨k1, k2⟩ := h.dat j y hy
    refine ⟨k1, fun t ht => ?_⟩
    have := block_le (L := L) (by rw [← h.cnt]; exact hj : j < i)
    rw [h3, if_neg (by omega), k2 t ht]
  · rw [List.getElem?_append_right (by omega)] at hy
    have hj' : j - a.length = 0 := by
      have := (List.getElem?_eq_some_iff.1 hy).1
      rw [List.length_singleton] at this
      omega
    rw [hj'] at hy
    obtain rfl : x = y := by simpa using hy
    refine ⟨hx, fun t ht => ?_⟩
    have hji : j = i := by have := h.cnt; omega
    rw [h3, hji, if_pos (by omega), Nat.add_sub_cancel_left]

theorem FlUi.ptr {L n i : Nat} {a : List (List Byte)} {f : Mem Byte} (h : FlUi L n i a f) (hin : i ≤ n) {j : Nat} :
    Sim (fun x p => x.length = L ∧ Le (ofList x) p) (a[j]?) (Faest.ptr f (j * L)) := by
  intro x hx
  obtain ⟨k1, k2⟩ := h.dat j x hx
  have hj := (List.getElem?_eq_some_iff.1 hx).1
  have hle := block_le (L := L) (show j < n by have := h.cnt; omega)
  refine ⟨_, ptr_eq (by rw [h.len]; omega), k1, ?_⟩
  refine ⟨by rw [ofList_length, List.length_drop, h.len]; omega, fun t y hy => ?_⟩
  rw [rd_ofList] at hy
  rw [rd_drop, k2 t ?_, hy]
  have := (List.getElem?_eq_some_iff.1 hy).1
  omega

/-- Reading at the start of a part of a buffer. -/
theorem rdN_drop0 {α : Type} {m : Mem α} {off n : Nat} {l : List α} (h : rdN m off n = some l) :
    rdN (m.drop off) 0 n = some l := by
  have h1 := rdN_le h
  have h2 := rdN_length h
  subst h2
  refine rdN_of_rd (by rw [List.length_drop]; omega) fun t ht => ?_
  rw [rd_drop, Nat.zero_add]
  exact rd_of_rdN h ht

structure FlVcSt (L B n i : Nat) (a : VoleCommitSt) (b : Flat.VoleCommitSt) : Prop where
  vecCom : FlComs L a.vecCom b.vecCom
  ui : FlUi B n i a.ui b.ui
  v : Fl B a.v b.v
  vIdx : b.vIdx = a.vIdx
  idxLe : a.vIdx ≤ a.v.length
  ctx : b.ctx = a.ctx

theorem voleCommitStep_flat {X : XOF} {iv : List Byte} {P : Params} {B i : Nat} {ex ex' : Mem Byte}
    {s : VoleCommitSt} {t : Flat.VoleCommitSt} (hlam : LamOk P.lambda) (hv : iv.length = 16)
    (hk0 : 1 ≤ P.k0) (hk1 : 1 ≤ P.k1) (hex : Le ex ex') (hi : i < P.tau)
    (h : FlVcSt (P.lambda / 8) B P.tau i s t) :
    Sim (FlVcSt (P.lambda / 8) B P.tau (i + 1)) (voleCommitStep X iv P B ex i s)
      (Flat.voleCommitStep X iv P B ex' i t) := by
  unfold voleCommitStep Flat.voleCommitStep
  simp only []
  refine Sim.left fun key hkey => ?_
  have h1 := hex.rdN hkey
  have h2 := rdN_le h1
  refine Sim.right (ptr_eq (by omega)) ?_
  have hd : 1 ≤ (if i < P.t0 then P.k0 else P.k1) := by split <;> assumption
  refine (vectorCommitment_flat hlam hv hd (rdN_drop0 h1)).bind fun vc fvc hvc => ?_
  rw [h.vIdx]
  refine (convertToVole_flat hlam hv hvc.sd h.v h.idxLe).bind ?_
  rintro ⟨v, u⟩ ⟨fv, fu⟩ ⟨g1, g2, g3, g4, g5⟩
  simp only at g1 g2 g3 g4 g5 ⊢
  subst g4
  refine Sim.same fun u' hu => ?_
  obtain ⟨f', k1, k2⟩ := h.ui.snoc hi (g5 u' hu)
  refine Sim.right k1 ?_
  refine Sim.right hvc.h ?_
  refine Sim.pure ⟨h.vecCom.snoc hvc, k2, g1, rfl, ?_, ?_⟩
  · simp only; omega
  · simp only [h.ctx]

/-- Results of `vole_commit`. -/
structure FlVole (L B : Nat) (a : VoleCom) (b : Flat.VoleCom) : Prop where
  hcom : b.hcom = a.hcom
  hcomLen : a.hcom.length = L * 2
  vecCom : FlComs L a.vecCom b.vecCom
  uLen : a.u.length = B
  u : Le (ofList a.u) b.u
  v : Fl B a.v b.v

theorem voleCommit_flat {X : XOF} {root iv : List Byte} {rk : Mem Byte} {ellhat offC : Nat} {P : Params}
    {dst fu fv : Mem Byte} {v : Mem (List Byte)} (hlam : LamOk P.lambda) (hv : iv.length = 16)
    (hk0 : 1 ≤ P.k0) (hk1 : 1 ≤ P.k1) (hroot : root.length = P.lambda / 8) (hrk : Le (ofList root) rk)
    (hfu : (ellhat + 7) / 8 ≤ fu.length) (hfv : Fl ((ellhat + 7) / 8) v fv) :
    Sim (fun a b => FlVole (P.lambda / 8) ((ellhat + 7) / 8) a.1 b.1 ∧ b.2 = a.2)
      (voleCommit X root iv ellhat P dst offC v) (Flat.voleCommit X rk iv ellhat P dst offC fu fv) := by
  unfold voleCommit Flat.voleCommit
  simp only []
  refine Sim.same fun _ _ => ?_
  refine (prg_sim hlam hroot hv hrk).bind ?_
  rintro _ ek ⟨rfl, hek⟩
  obtain ⟨ex, h1, -, h2, -⟩ := stack_some (n := P.tau * (P.lambda / 8)) (l := ek) (by rw [hek, Nat.mul_comm])
  refine Sim.right h1 ?_
  refine Sim.bind (R := FlVcSt (P.lambda / 8) ((ellhat + 7) / 8) P.tau P.tau) ?_ ?_
  · refine Sim.forN (FlVcSt (P.lambda / 8) ((ellhat + 7) / 8) P.tau) ?_ ?_
    · refine ⟨⟨rfl, fun i c hc => absurd hc (by simp)⟩, ⟨malloc_length _, rfl, fun j x hx => absurd hx (by simp)⟩,
        hfv, rfl, Nat.zero_le _, rfl⟩
    · intro i hi s t hs
      exact voleCommitStep_flat hlam hv hk0 hk1 h2 hi hs
  intro s t hs
  refine Sim.left fun u hu => ?_
  obtain ⟨p, hp, hul, hup⟩ := hs.ui.ptr (Nat.le_refl _) u hu
  rw [Nat.zero_mul] at hp
  obtain ⟨-, rfl⟩ := ptr_inv hp
  rw [List.drop_zero] at hup
  have hr : rdN t.ui 0 ((ellhat + 7) / 8) = some u := by
    rw [← hul]
    refine hup.rdN ?_
    refine rdN_of_rd (by rw [ofList_length]; omega) fun k hk => ?_
    rw [Nat.zero_add, rd_ofList]
  refine Sim.right hr ?_
  obtain ⟨fu', w1, w2, w3⟩ := wrN_some (m := fu) (off := 0) (l := u) (by omega)
  refine Sim.right w1 ?_
  refine Sim.bind (R := fun a b => b = a) ?_ ?_
  · refine Sim.forR _ rfl ?_
    rintro i _ _ dst _ rfl
    refine (hs.ui.ptr (Nat.le_refl _)).bind ?_
    rintro ui p ⟨-, hp⟩
    refine (xorArr_simL (le_ofWrN w1) hp).bind ?_
    rintro _ x ⟨rfl, -⟩
    exact Sim.rfl
  rintro _ dst rfl
  refine Sim.pure ⟨⟨?_, ?_, hs.vecCom, hul, le_ofWrN w1, hs.v⟩, rfl⟩
  · simp only [hs.ctx]
  · exact squeeze_length ..

structure FlVrSt (L B : Nat) (a : VoleRecSt) (b : Flat.VoleRecSt) : Prop where
  vrec : FlRec L a.vrec b.vrec
  sd : Fl L a.sd b.sd
  q : Fl B a.q b.q
  qIdx : b.qIdx = a.qIdx
  idxLe : a.qIdx ≤ a.q.length
  ctx : b.ctx = a.ctx

theorem voleRecStep_flat {X : XOF} {iv : List Byte} {chall : Mem Byte} {pdec comj : Nat → Option (Mem Byte)}
    {P : Params} {B i : Nat} {s : VoleRecSt} {t : Flat.VoleRecSt} (hlam : LamOk P.lambda) (hv : iv.length = 16)
    (h : FlVrSt (P.lambda / 8) B s t) :
    Sim (FlVrSt (P.lambda / 8) B) (voleRecStep X iv chall pdec comj P B i s)
      (Flat.voleRecStep X iv chall pdec comj P B i t) := by
  unfold voleRecStep Flat.voleRecStep
  simp only []
  refine Sim.same fun co _ => ?_
  refine Sim.same fun idx _ => ?_
  refine Sim.same fun pd _ => ?_
  refine Sim.same fun cj _ => ?_
  refine (vectorReconstruction_flat hlam hv h.vrec).bind ?_
  rintro vr fvr ⟨h1, h2⟩
  refine Sim.bind (R := Fl (P.lambda / 8)) ?_ ?_
  · refine Sim.forR _ h.sd ?_
    intro j _ _ sd fsd hsd
    rw [Nat.mul_comm (P.lambda / 8)]
    refine (h1.s.rd _).bind ?_
    rintro _ x ⟨rfl, hx⟩
    exact hsd.wrSim hx
  intro sd fsd hsd
  rw [h.qIdx]
  refine (convertToVole_flat hlam hv hsd h.q h.idxLe).bind ?_
  rintro ⟨q, u⟩ ⟨fq, fu⟩ ⟨g1, g2, g3, -, -⟩
  simp only at g1 g2 g3 ⊢
  refine Sim.right h2 ?_
  refine Sim.pure ⟨h1, hsd, g1, rfl, ?_, ?_⟩
  · simp only; omega
  · simp only [h.ctx]

theorem voleReconstruct_flat {X : XOF} {iv : List Byte} {chall : Mem Byte} {pdec comj : Nat → Option (Mem Byte)}
    {q : Mem (List Byte)} {fq : Mem Byte} {ellhat : Nat} {P : Params} (hlam : LamOk P.lambda) (hv : iv.length = 16)
    (hq : Fl ((ellhat + 7) / 8) q fq) :
    Sim (fun a b => b.1 = a.1 ∧ a.1.length = P.lambda / 8 * 2 ∧ Fl ((ellhat + 7) / 8) a.2 b.2)
      (voleReconstruct X iv chall pdec comj q ellhat P) (Flat.voleReconstruct X iv chall pdec comj fq ellhat P) := by
  unfold voleReconstruct Flat.voleReconstruct
  simp only []
  refine Sim.same fun nodes _ => ?_
  refine Sim.same fun _ _ => ?_
  refine Sim.bind (R := Fl (P.lambda / 8)) ?_ ?_
  · have := (fl_malloc (P.lambda / 8) (2 ^ max P.k0 P.k1)).wrSim (i := 0)
      (xs := List.replicate (P.lambda / 8) 0) List.length_replicate
    rwa [Nat.zero_mul] at this
  intro sd fsd hsd
  refine Sim.bind (R := FlVrSt (P.lambda / 8) ((ellhat + 7) / 8)) ?_ ?_
  · refine Sim.forN (fun _ => FlVrSt (P.lambda / 8) ((ellhat + 7) / 8)) ?_ ?_
    · refine ⟨⟨malloc_length _, fl_calloc _ _, ?_, fl_malloc _ _⟩, hsd, hq, rfl, Nat.zero_le _, rfl⟩
      simp only
      rw [Nat.mul_assoc]
      exact fl_malloc _ _
    · intro i _ s t hs
      exact voleRecStep_flat hlam hv hs
  intro s t hs
  refine Sim.pure ⟨by simp only [hs.ctx], squeeze_length .., hs.q⟩

end Faest
