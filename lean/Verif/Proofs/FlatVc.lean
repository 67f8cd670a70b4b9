/-
vc.c on byte-addressed buffers simulates the model on arrays of byte strings.
-/
import Verif.Proofs.FlatBase

namespace Faest

theorem squeeze_length (X : XOF) (sel : Nat) (inp : List Byte) (off len : Nat) :
    (squeeze X sel inp off len).length = len := by
  unfold squeeze; exact tabP_length _ _

theorem expandSeeds_flat {m : Mem (List Byte)} {f : Mem Byte} {iv : List Byte} {lam n : Nat} (hlam : LamOk lam)
    (hv : iv.length = 16) (h : Fl (lam / 8) m f) (hn : m.length = n) :
    Sim (Fl (lam / 8)) (expandSeeds m iv lam) (Flat.expandSeeds f n iv lam) := by
  unfold expandSeeds Flat.expandSeeds
  simp only []
  rw [hn]
  refine Sim.same fun last _ => ?_
  split
  case isFalse => exact Sim.none
  refine Sim.forN (fun _ => Fl (lam / 8)) h ?_
  intro i _ m f h
  refine h.ptr.bind ?_
  rintro key p ⟨hk, hp⟩
  refine (prg_sim hlam hk hv hp).bind ?_
  rintro _ out ⟨rfl, ho⟩
  intro m2 hm2
  obtain ⟨m1, h1, h2⟩ := Option.bind_eq_some_iff.1 hm2
  have ht : (out.take (lam / 8)).length = lam / 8 := by rw [List.length_take]; omega
  have hd : (out.drop (lam / 8)).length = lam / 8 := by rw [List.length_drop]; omega
  obtain ⟨f1, e1, h1⟩ := h.wr ht h1
  obtain ⟨f2, e2, h2⟩ := h1.wr hd h2
  refine ⟨f2, ?_, h2⟩
  have := wrN_append (ys := out.drop (lam / 8)) e1 (by
    rw [ht, show (2 * i + 1) * (lam / 8) + lam / 8 = (2 * i + 2) * (lam / 8) by rw [Nat.succ_mul (2 * i + 1)]]
    exact e2)
  rwa [List.take_append_drop] at this

theorem generateSeeds_flat {root : List Byte} {r : Mem Byte} {iv : List Byte} {lam d : Nat} (hlam : LamOk lam)
    (hv : iv.length = 16) (hr : rdN r 0 (lam / 8) = some root) :
    Sim (Fl (lam / 8)) (generateSeeds root iv lam d) (Flat.generateSeeds r iv lam d) := by
  unfold generateSeeds Flat.generateSeeds
  refine Sim.same fun n _ => ?_
  refine Sim.right hr ?_
  have hroot := rdN_length hr
  intro t ht
  obtain ⟨m1, h1, h2⟩ := Option.bind_eq_some_iff.1 ht
  obtain ⟨f1, e1, h1'⟩ := (fl_calloc (lam / 8) n).wr hroot h1
  rw [Nat.zero_mul] at e1
  obtain ⟨f2, e2, h2'⟩ := expandSeeds_flat hlam hv h1' (by rw [(wr_inv h1).2.1, calloc_length]) t h2
  exact ⟨f2, Option.bind_eq_some_iff.2 ⟨f1, e1, e2⟩, h2'⟩

/-- Seeds and commitments. -/
def FlPair (L : Nat) (s : Mem (List Byte) × Mem (List Byte)) (t : Mem Byte × Mem Byte) : Prop :=
  Fl L s.1 t.1 ∧ Fl (L * 2) s.2 t.2

theorem leafBody1_flat {X : XOF} {lam i : Nat} {iv : List Byte} {tree : Mem (List Byte)} {ft : Mem Byte}
    {idx : Nat → Option Nat} {s : Mem (List Byte) × Mem (List Byte)} {t : Mem Byte × Mem Byte}
    (ht : Fl (lam / 8) tree ft) (hs : FlPair (lam / 8) s t) :
    Sim (FlPair (lam / 8)) (leafBody1 X lam iv tree idx i s) (Flat.leafBody1 X lam iv ft idx i t) := by
  unfold leafBody1 Flat.leafBody1 leafHash1
  refine Sim.same fun p _ => ?_
  refine (ht.rd p).bind ?_
  rintro n _ ⟨rfl, -⟩
  refine (hs.1.wrSim ?_).bind ?_
  · simp only [H0]; exact squeeze_length ..
  intro m f hf
  rw [Nat.mul_assoc]
  refine (hs.2.wrSim ?_).bind ?_
  · simp only [H0]; exact squeeze_length ..
  intro m' f' hf'
  exact Sim.pure ⟨hf, hf'⟩

theorem leafBody4_flat {X : XOF} {lam i : Nat} {iv : List Byte} {tree : Mem (List Byte)} {ft : Mem Byte}
    {idx : Nat → Option Nat} {s : Mem (List Byte) × Mem (List Byte)} {t : Mem Byte × Mem Byte}
    (ht : Fl (lam / 8) tree ft) (hs : FlPair (lam / 8) s t) :
    Sim (FlPair (lam / 8)) (leafBody4 X lam iv tree idx i s) (Flat.leafBody4 X lam iv ft idx i t) := by
  unfold leafBody4 Flat.leafBody4 leafHash4
  refine Sim.same fun p0 _ => ?_
  refine (ht.rd p0).bind ?_
  rintro n0 _ ⟨rfl, -⟩
  refine Sim.same fun p1 _ => ?_
  refine (ht.rd p1).bind ?_
  rintro n1 _ ⟨rfl, -⟩
  refine Sim.same fun p2 _ => ?_
  refine (ht.rd p2).bind ?_
  rintro n2 _ ⟨rfl, -⟩
  refine Sim.same fun p3 _ => ?_
  refine (ht.rd p3).bind ?_
  rintro n3 _ ⟨rfl, -⟩
  have hq : ∀ (ctx : Nat → List Byte) c, (H0x4 X lam ctx (lam / 8) (lam / 8 * 2) c).1.length = lam / 8 ∧
      (H0x4 X lam ctx (lam / 8) (lam / 8 * 2) c).2.length = lam / 8 * 2 :=
    fun ctx c => ⟨squeeze_length .., squeeze_length ..⟩
  refine (hs.1.wrSim (hq _ _).1).bind fun m0 f0 g0 => ?_
  refine (g0.wrSim (hq _ _).1).bind fun m1 f1 g1 => ?_
  refine (g1.wrSim (hq _ _).1).bind fun m2 f2 g2 => ?_
  refine (g2.wrSim (hq _ _).1).bind fun m3 f3 g3 => ?_
  simp only [Nat.mul_assoc]
  refine (hs.2.wrSim (hq _ _).2).bind fun c0 f0 k0 => ?_
  refine (k0.wrSim (hq _ _).2).bind fun c1 f1 k1 => ?_
  refine (k1.wrSim (hq _ _).2).bind fun c2 f2 k2 => ?_
  refine (k2.wrSim (hq _ _).2).bind fun c3 f3 k3 => ?_
  exact Sim.pure ⟨g3, k3⟩

section loops
variable {X : XOF} {lam hi N fuel j : Nat} {iv : List Byte} {tree : Mem (List Byte)} {ft : Mem Byte}
  {idx : Nat → Option Nat} {s : Mem (List Byte) × Mem (List Byte)} {t : Mem Byte × Mem Byte}

theorem leafLoop4_flat (ht : Fl (lam / 8) tree ft) (hs : FlPair (lam / 8) s t) :
    Sim (fun a b => b.1 = a.1 ∧ FlPair (lam / 8) a.2 b.2)
      (forStep hi 4 fuel j s (leafBody4 X lam iv tree idx))
      (forStep hi 4 fuel j t (Flat.leafBody4 X lam iv ft idx)) := by
  refine Sim.forStep (FlPair (lam / 8)) (fun i s t h => ?_) _ _ _ _ hs
  exact leafBody4_flat ht h

theorem leafLoop1_flat (ht : Fl (lam / 8) tree ft) (hs : FlPair (lam / 8) s t) :
    Sim (fun a b => b.1 = a.1 ∧ FlPair (lam / 8) a.2 b.2)
      (forStep hi 1 fuel j s (leafBody1 X lam iv tree idx))
      (forStep hi 1 fuel j t (Flat.leafBody1 X lam iv ft idx)) := by
  refine Sim.forStep (FlPair (lam / 8)) (fun i s t h => ?_) _ _ _ _ hs
  exact leafBody1_flat ht h

theorem leafLoopUntil_flat (ht : Fl (lam / 8) tree ft) (hs : FlPair (lam / 8) s t) :
    Sim (fun a b => b.1 = a.1 ∧ FlPair (lam / 8) a.2 b.2)
      (forUntil4 N fuel j s (leafBody1 X lam iv tree idx))
      (forUntil4 N fuel j t (Flat.leafBody1 X lam iv ft idx)) := by
  refine Sim.forUntil4 (FlPair (lam / 8)) (fun i s t h => ?_) _ _ _ _ hs
  exact leafBody1_flat ht h

end loops

/-- A vector commitment and its byte-addressed form. -/
structure FlCom (L : Nat) (a : VecCom) (b : Flat.VecCom) : Prop where
  h : rdN b.h 0 (L * 2) = some a.h
  k : Fl L a.k b.k
  com : Fl (L * 2) a.com b.com
  sd : Fl L a.sd b.sd

theorem stack_some {n : Nat} {l : List Byte} (h : l.length ≤ n) : ∃ m, wrN (malloc n) 0 l = some m ∧
    m.length = n ∧ Le (ofList l) m ∧ rdN m 0 l.length = some l := by
  obtain ⟨m, h1, h2, h3⟩ := wrN_some (m := (malloc n : Mem Byte)) (off := 0) (l := l) (by rw [malloc_length]; omega)
  refine ⟨m, h1, by rw [h2, malloc_length], le_ofWrN h1, ?_⟩
  refine rdN_of_rd (by rw [h2, malloc_length]; omega) fun t ht => ?_
  rw [h3, if_pos (by omega), Nat.sub_zero, Nat.zero_add]

theorem generateSeeds_length {root iv : List Byte} {lam d : Nat} {t : Mem (List Byte)}
    (h : generateSeeds root iv lam d = some t) (hlam : LamOk lam) (hr : root.length = lam / 8) (hv : iv.length = 16)
    (hd : 1 ≤ d) : getBinaryTreeNodeCount d = some t.length := by
  unfold generateSeeds at h
  obtain ⟨n, hn, -⟩ := Option.bind_eq_some_iff.1 h
  have hn' := hn
  unfold getBinaryTreeNodeCount at hn
  split at hn
  case isFalse => simp at hn
  rename_i hle
  have e := generateSeeds_ok hlam hr hv hd (by omega : d ≤ 29)
  have h' := h
  unfold generateSeeds at e
  rw [e] at h
  obtain rfl := Option.some.inj h
  rw [full_length, hn', ← Option.some.inj hn]

theorem vectorCommitment_flat {X : XOF} {root : List Byte} {r : Mem Byte} {iv : List Byte} {lam d : Nat}
    (hlam : LamOk lam) (hv : iv.length = 16) (hd : 1 ≤ d) (hr : rdN r 0 (lam / 8) = some root) :
    Sim (FlCom (lam / 8)) (vectorCommitment X root iv lam d) (Flat.vectorCommitment X r iv lam d) := by
  unfold vectorCommitment Flat.vectorCommitment
  simp only []
  have hroot := rdN_length hr
  by_cases hd30 : d ≤ 30
  case neg => rw [if_neg hd30]; exact Sim.none
  rw [if_pos hd30, if_pos hd30]
  refine Sim.same fun N _ => ?_
  refine Sim.left fun tree htree => ?_
  obtain ⟨ft, hft, hfl⟩ := generateSeeds_flat (d := d) hlam hv hr tree htree
  have hcount := generateSeeds_length htree hlam hroot hv hd
  refine Sim.left fun _ _ => ?_
  refine Sim.right hft ?_
  refine Sim.right hcount ?_
  refine (leafLoop4_flat hfl (s := (malloc N, malloc N)) (t := (malloc (N * (lam / 8)), malloc (N * (lam / 8) * 2)))
    ⟨fl_malloc _ _, by rw [Nat.mul_assoc]; exact fl_malloc _ _⟩).bind ?_
  rintro ⟨i, s⟩ ⟨i', t⟩ ⟨hi, hs⟩
  simp only at hi hs ⊢
  subst hi
  refine (leafLoop1_flat hfl hs).bind ?_
  rintro ⟨i, s⟩ ⟨i', t⟩ ⟨hi, hs⟩
  simp only at hi hs ⊢
  refine Sim.bind (R := fun a b => b = a) ?_ ?_
  · refine Sim.forN (fun _ a b => b = a) rfl ?_
    rintro j _ ctx _ rfl
    refine (hs.2.rd j).bind ?_
    rintro c _ ⟨rfl, -⟩
    exact Sim.rfl
  rintro _ ctx rfl
  have hlen : (H1 X lam ctx (lam / 8 * 2)).length = lam / 8 * 2 := squeeze_length ..
  obtain ⟨m, h1, -, -, h4⟩ := stack_some (n := lam / 8 * 2) (l := H1 X lam ctx (lam / 8 * 2)) (by omega)
  refine Sim.right h1 (Sim.pure ?_)
  rw [hlen] at h4
  exact ⟨h4, hfl, hs.2, hs.1⟩

theorem vectorOpen_flat {k com : Mem (List Byte)} {fk fcom b dst : Mem Byte} {offCop offCom d L : Nat}
    (hk : Fl L k fk) (hc : Fl (L * 2) com fcom) :
    Sim (fun x y => y = x) (vectorOpen k com b dst offCop offCom d L)
      (Flat.vectorOpen fk fcom b dst offCop offCom d L) := by
  unfold vectorOpen Flat.vectorOpen
  refine Sim.same fun leaf _ => ?_
  refine Sim.bind (R := fun x y => y = x) ?_ ?_
  · refine Sim.forN (fun _ a b => b = a) rfl ?_
    rintro i _ s _ rfl
    refine Sim.same fun bit _ => ?_
    refine Sim.same fun p _ => ?_
    rw [Nat.mul_comm L p]
    refine (hk.rd p).bind ?_
    rintro n _ ⟨rfl, -⟩
    exact Sim.rfl
  rintro ⟨dst, a⟩ _ rfl
  simp only []
  rw [Nat.mul_assoc]
  refine (hc.rd leaf).bind ?_
  rintro c _ ⟨rfl, -⟩
  exact Sim.rfl

theorem reconLevel_flat {iv : List Byte} {lam i a : Nat} {k : Mem (List Byte)} {f : Mem Byte} (hlam : LamOk lam)
    (hv : iv.length = 16) (h : Fl (lam / 8) k f) :
    Sim (Fl (lam / 8)) (reconLevel iv lam i a k) (Flat.reconLevel iv lam i a f) := by
  unfold reconLevel Flat.reconLevel
  refine Sim.forN (fun _ => Fl (lam / 8)) h ?_
  intro j _ k f h
  split
  · exact Sim.some h
  simp only []
  refine Sim.same fun p _ => ?_
  rw [Nat.mul_comm (lam / 8) p]
  refine h.ptr.bind ?_
  rintro key q ⟨hk, hq⟩
  refine (prg_sim hlam hk hv hq).bind ?_
  rintro _ out ⟨rfl, ho⟩
  have hmax : MAX_LAMBDA_BYTES = 32 := rfl
  obtain ⟨m, h1, hml, -, h4⟩ := stack_some (n := 2 * MAX_LAMBDA_BYTES) (l := out)
    (by unfold LamOk at hlam; omega)
  refine Sim.right h1 ?_
  have hlb : lam / 8 * 2 ≤ m.length := by unfold LamOk at hlam; omega
  have r0 : rdN m 0 (lam / 8) = some (out.take (lam / 8)) := by
    have hl : (out.take (lam / 8)).length = lam / 8 := by rw [List.length_take]; omega
    have := rdN_of_rd (m := m) (off := 0) (l := out.take (lam / 8)) (by omega) (fun t ht => by
      have := rd_of_rdN h4 (t := t) (by omega)
      rw [this, List.getElem?_take, if_pos (by omega)])
    rwa [hl] at this
  have r1 : rdN m (lam / 8) (lam / 8) = some (out.drop (lam / 8)) := by
    have hl : (out.drop (lam / 8)).length = lam / 8 := by rw [List.length_drop]; omega
    have := rdN_of_rd (m := m) (off := lam / 8) (l := out.drop (lam / 8)) (by omega) (fun t ht => by
      have := rd_of_rdN h4 (t := lam / 8 + t) (by omega)
      rw [Nat.zero_add] at this
      rw [this, List.getElem?_drop])
    rwa [hl] at this
  refine Sim.right r0 ?_
  refine Sim.same fun p0 _ => ?_
  rw [Nat.mul_comm (lam / 8) p0]
  refine (h.wrSim (by rw [List.length_take]; omega)).bind fun m0 f0 g0 => ?_
  refine Sim.right r1 ?_
  refine Sim.same fun p1 _ => ?_
  rw [Nat.mul_comm (lam / 8) p1]
  exact g0.wrSim (by rw [List.length_drop]; omega)

theorem reconTree_flat {iv : List Byte} {cop b : Mem Byte} {lam d : Nat} {k : Mem (List Byte)} {f : Mem Byte}
    (hlam : LamOk lam) (hv : iv.length = 16) (h : Fl (lam / 8) k f) :
    Sim (Fl (lam / 8)) (reconTree iv cop b lam d k) (Flat.reconTree iv cop b lam d f) := by
  unfold reconTree Flat.reconTree
  refine Sim.bind (R := fun x y => Fl (lam / 8) x.1 y.1 ∧ y.2 = x.2) ?_ ?_
  · refine Sim.forR _ ⟨h, rfl⟩ ?_
    rintro i _ _ ⟨k, a⟩ ⟨f, _⟩ ⟨h, rfl⟩
    simp only at h ⊢
    refine Sim.same fun bit _ => ?_
    refine Sim.same fun c hc => ?_
    refine Sim.same fun p _ => ?_
    rw [Nat.mul_comm (lam / 8) p]
    refine (h.wrSim (rdN_length hc)).bind fun m0 f0 g0 => ?_
    refine Sim.same fun p _ => ?_
    rw [Nat.mul_comm (lam / 8) p]
    refine (g0.wrSim List.length_replicate).bind fun m1 f1 g1 => ?_
    refine (reconLevel_flat hlam hv g1).bind fun m2 f2 g2 => ?_
    exact Sim.pure ⟨g2, rfl⟩
  rintro ⟨k, a⟩ ⟨f, _⟩ ⟨h, rfl⟩
  exact Sim.pure h

/-- A reconstruction and its byte-addressed form; `hl` is the length of the buffer `h`. -/
structure FlRec (L : Nat) (a : VecComRec) (b : Flat.VecComRec) : Prop where
  hl : b.h.length = L * 2
  k : Fl L a.k b.k
  com : Fl (L * 2) a.com b.com
  s : Fl L a.s b.s

/-- The elements of an array of byte strings, one after the other. -/
theorem Fl.flatten {L : Nat} {m : Mem (List Byte)} {f : Mem Byte} (h : Fl L m f) :
    ∀ {N : Nat} {xs : List (List Byte)}, Faest.rdN m 0 N = some xs → Faest.rdN f 0 (L * N) = some xs.flatten := by
  have key : ∀ (N : Nat) (xs : List (List Byte)), xs.length = N → N ≤ m.length →
      (∀ t, t < N → Faest.rd m t = xs[t]?) → Faest.rdN f 0 (L * N) = some xs.flatten ∧ xs.flatten.length = L * N := by
    intro N
    induction N with
    | zero =>
      intro xs hx _ _
      obtain rfl := List.length_eq_zero_iff.1 hx
      refine ⟨?_, rfl⟩
      have := rdN_of_rd (m := f) (off := 0) (l := []) (Nat.zero_le _) (fun t ht => absurd ht (Nat.not_lt_zero _))
      exact this
    | succ N ih =>
      intro xs hx hN hd
      obtain ⟨ys, y, rfl⟩ : ∃ ys y, xs = ys ++ [y] :=
        ⟨xs.dropLast, xs.getLast (by intro hc; rw [hc] at hx; exact absurd hx (by simp)),
          (List.dropLast_append_getLast _).symm⟩
      rw [List.length_append, List.length_singleton] at hx
      have hyl : ys.length = N := by omega
      obtain ⟨h1, h2⟩ := ih ys hyl (by omega) (fun t ht => by
        rw [hd t (by omega), List.getElem?_append_left (by omega)])
      have hy : Faest.rd m N = some y := by
        rw [hd N (by omega), List.getElem?_append_right (by omega), hyl, Nat.sub_self]
        rfl
      obtain ⟨g1, g2⟩ := h.dat N y hy
      have hle := h.le (rd_lt hy)
      have hmul : L * N = N * L := Nat.mul_comm _ _
      have e : (ys ++ [y]).flatten = ys.flatten ++ y := by simp
      have hlen : (ys.flatten ++ y).length = L * (N + 1) := by
        rw [List.length_append, h2, g1, Nat.mul_succ]
      rw [e]
      refine ⟨?_, hlen⟩
      rw [← hlen]
      refine rdN_of_rd ?_ ?_
      · rw [hlen, Nat.mul_succ]; omega
      · intro t ht
        rw [hlen, Nat.mul_succ] at ht
        by_cases hc : t < L * N
        · rw [rd_of_rdN h1 hc, List.getElem?_append_left (by omega)]
        · rw [List.getElem?_append_right (by omega), h2, ← g2 (t - L * N) (by omega)]
          congr 1
          omega
  intro N xs hx
  have hl := rdN_length hx
  have hle := rdN_le hx
  exact (key N xs hl (by omega) (fun t ht => by
    have := rd_of_rdN hx ht
    rwa [Nat.zero_add] at this)).1

theorem vectorReconstruction_flat {X : XOF} {iv : List Byte} {cop comj b : Mem Byte} {lam d : Nat}
    {r : VecComRec} {fr : Flat.VecComRec} (hlam : LamOk lam) (hv : iv.length = 16) (h : FlRec (lam / 8) r fr) :
    Sim (fun x y => FlRec (lam / 8) x y ∧ rdN y.h 0 (lam / 8 * 2) = some x.h)
      (vectorReconstruction X iv cop comj b lam d r) (Flat.vectorReconstruction X iv cop comj b lam d fr) := by
  unfold vectorReconstruction Flat.vectorReconstruction
  simp only []
  by_cases hd30 : d ≤ 30
  case neg => rw [if_neg hd30]; exact Sim.none
  rw [if_pos hd30, if_pos hd30]
  refine Sim.same fun N _ => ?_
  refine Sim.same fun leaf _ => ?_
  refine (reconTree_flat hlam hv h.k).bind fun k f hk => ?_
  refine (leafLoop4_flat hk (s := (r.s, r.com)) (t := (fr.s, fr.com)) ⟨h.s, h.com⟩).bind ?_
  rintro ⟨j, s⟩ ⟨_, t⟩ ⟨rfl, hs⟩
  simp only at hs ⊢
  refine (leafLoop1_flat hk hs).bind ?_
  rintro ⟨j, s⟩ ⟨_, t⟩ ⟨rfl, hs⟩
  simp only at hs ⊢
  refine (leafLoopUntil_flat hk hs).bind ?_
  rintro ⟨j, s⟩ ⟨_, t⟩ ⟨rfl, hs⟩
  simp only at hs ⊢
  refine (leafLoop4_flat hk hs).bind ?_
  rintro ⟨j, s⟩ ⟨_, t⟩ ⟨rfl, hs⟩
  simp only at hs ⊢
  refine (leafLoop1_flat hk hs).bind ?_
  rintro ⟨j, s⟩ ⟨_, t⟩ ⟨rfl, hs⟩
  simp only at hs ⊢
  refine Sim.same fun c hc => ?_
  rw [Nat.mul_comm (lam / 8 * 2) leaf]
  refine (hs.2.wrSim (rdN_length hc)).bind fun com fcom hcom => ?_
  refine Sim.bind (R := fun x y => y = x.flatten) (fun xs hx => ⟨_, hcom.flatten hx, rfl⟩) ?_
  rintro xs _ rfl
  have hlen : (H1 X lam xs.flatten (lam / 8 * 2)).length = lam / 8 * 2 := squeeze_length ..
  obtain ⟨m, h1, h2, h3⟩ := wrN_some (m := fr.h) (off := 0) (l := H1 X lam xs.flatten (lam / 8 * 2))
    (by rw [hlen, h.hl]; omega)
  refine Sim.right h1 (Sim.pure ⟨⟨by rw [h2, h.hl], hk, hcom, hs.1⟩, ?_⟩)
  have := rdN_of_rd (m := m) (off := 0) (l := H1 X lam xs.flatten (lam / 8 * 2)) (by rw [hlen, h2, h.hl]; omega)
    (fun t ht => by rw [h3, if_pos (by omega), Nat.sub_zero, Nat.zero_add])
  rwa [hlen] at this

end Faest
