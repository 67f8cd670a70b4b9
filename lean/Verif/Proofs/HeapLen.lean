/-
The functions off the heap keep the sizes of the buffers they are given.
-/
import Verif.Proofs.HeapBase

namespace Faest.Heap

theorem len_expandSeeds {m : Mem Byte} {nn lambda : Nat} {iv : List Byte} :
    Aft (Flat.expandSeeds m nn iv lambda) (fun a => a.length = m.length) := by
  unfold Flat.expandSeeds
  refine Aft.bind fun _ _ => ?_
  split
  · refine Aft.forN (fun a : Mem Byte => a.length = m.length) rfl fun i s hs => ?_
    refine Aft.bind fun _ _ => ?_
    refine Aft.bind fun _ _ => ?_
    exact Aft.mono aft_wrN fun a ha => ha.1.trans hs
  · exact Aft.none

section
variable {X : XOF} {lambda : Nat} {iv : List Byte} {tree : Mem Byte} {idx : Nat → Option Nat} {a b i : Nat}
  {s : Mem Byte × Mem Byte}

theorem len_leafBody1 (h : s.1.length = a ∧ s.2.length = b) :
    Aft (Flat.leafBody1 X lambda iv tree idx i s) (fun s => s.1.length = a ∧ s.2.length = b) := by
  unfold Flat.leafBody1
  refine Aft.bind fun _ _ => ?_
  refine Aft.bind fun _ _ => ?_
  refine Aft.bind fun _ h1 => ?_
  refine Aft.bind fun _ h2 => ?_
  exact Aft.pure ⟨(aft_wrN _ h1).1.trans h.1, (aft_wrN _ h2).1.trans h.2⟩

theorem len_leafBody4 (h : s.1.length = a ∧ s.2.length = b) :
    Aft (Flat.leafBody4 X lambda iv tree idx i s) (fun s => s.1.length = a ∧ s.2.length = b) := by
  unfold Flat.leafBody4
  iterate 8 refine Aft.bind fun _ _ => ?_
  refine Aft.bind fun _ h1 => ?_
  refine Aft.bind fun _ h2 => ?_
  refine Aft.bind fun _ h3 => ?_
  refine Aft.bind fun _ h4 => ?_
  refine Aft.bind fun _ g1 => ?_
  refine Aft.bind fun _ g2 => ?_
  refine Aft.bind fun _ g3 => ?_
  refine Aft.bind fun _ g4 => ?_
  refine Aft.pure ⟨?_, ?_⟩
  · rw [(aft_wrN _ h4).1, (aft_wrN _ h3).1, (aft_wrN _ h2).1, (aft_wrN _ h1).1, h.1]
  · rw [(aft_wrN _ g4).1, (aft_wrN _ g3).1, (aft_wrN _ g2).1, (aft_wrN _ g1).1, h.2]

end

theorem len_reconLevel {iv : List Byte} {lambda i a : Nat} {k : Mem Byte} :
    Aft (Flat.reconLevel iv lambda i a k) (fun k' => k'.length = k.length) := by
  unfold Flat.reconLevel
  refine Aft.forN (fun k' : Mem Byte => k'.length = k.length) rfl fun i s hs => ?_
  split
  · exact Aft.some hs
  · iterate 6 refine Aft.bind fun _ _ => ?_
    refine Aft.bind fun _ h1 => ?_
    iterate 2 refine Aft.bind fun _ _ => ?_
    exact Aft.mono aft_wrN fun a ha => ha.1.trans ((aft_wrN _ h1).1.trans hs)

theorem len_reconTree {iv : List Byte} {cop b k : Mem Byte} {lambda depth : Nat} :
    Aft (Flat.reconTree iv cop b lambda depth k) (fun k' => k'.length = k.length) := by
  unfold Flat.reconTree
  refine Aft.bind fun r hr => ?_
  have : r.1.length = k.length := by
    refine Aft.forR (fun s : Mem Byte × Nat => s.1.length = k.length) rfl (fun i s hs => ?_) r hr
    iterate 3 refine Aft.bind fun _ _ => ?_
    refine Aft.bind fun _ h1 => ?_
    refine Aft.bind fun _ _ => ?_
    refine Aft.bind fun _ h2 => ?_
    refine Aft.bind fun _ h3 => ?_
    exact Aft.pure (by rw [len_reconLevel _ h3, (aft_wrN _ h2).1, (aft_wrN _ h1).1, hs])
  exact Aft.pure this

theorem len_vectorReconstruction {X : XOF} {iv : List Byte} {cop comj b : Mem Byte} {lambda depth : Nat}
    {rec : Flat.VecComRec} : Aft (Flat.vectorReconstruction X iv cop comj b lambda depth rec)
      (fun r => r.h.length = rec.h.length ∧ r.k.length = rec.k.length ∧ r.com.length = rec.com.length ∧
        r.s.length = rec.s.length) := by
  unfold Flat.vectorReconstruction
  by_cases hd : depth ≤ 30
  swap
  · simp only [if_neg hd]
    exact Aft.none
  simp only [if_pos hd]
  refine Aft.bind fun _ _ => ?_
  refine Aft.bind fun _ _ => ?_
  refine Aft.bind fun k hk => ?_
  refine Aft.bind fun r1 h1 => ?_
  refine Aft.bind fun r2 h2 => ?_
  refine Aft.bind fun r3 h3 => ?_
  refine Aft.bind fun r4 h4 => ?_
  refine Aft.bind fun r5 h5 => ?_
  have e1 := Aft.forStep (fun s : Mem Byte × Mem Byte => s.1.length = rec.s.length ∧ s.2.length = rec.com.length)
    (fun _ _ h => len_leafBody4 h) ⟨rfl, rfl⟩ _ h1
  have e2 := Aft.forStep (fun s : Mem Byte × Mem Byte => s.1.length = rec.s.length ∧ s.2.length = rec.com.length)
    (fun _ _ h => len_leafBody1 h) e1 _ h2
  have e3 := Aft.forUntil4 (fun s : Mem Byte × Mem Byte => s.1.length = rec.s.length ∧ s.2.length = rec.com.length)
    (fun _ _ h => len_leafBody1 h) e2 _ h3
  have e4 := Aft.forStep (fun s : Mem Byte × Mem Byte => s.1.length = rec.s.length ∧ s.2.length = rec.com.length)
    (fun _ _ h => len_leafBody4 h) e3 _ h4
  have e5 := Aft.forStep (fun s : Mem Byte × Mem Byte => s.1.length = rec.s.length ∧ s.2.length = rec.com.length)
    (fun _ _ h => len_leafBody1 h) e4 _ h5
  refine Aft.bind fun _ _ => ?_
  refine Aft.bind fun com hc => ?_
  refine Aft.bind fun _ _ => ?_
  refine Aft.bind fun h hh => ?_
  exact Aft.pure ⟨(aft_wrN _ hh).1, len_reconTree _ hk, (aft_wrN _ hc).1.trans e5.2, e5.1⟩

theorem len_cvRow {iv : List Byte} {sd r : Mem Byte} {bot : Bool} {lambda outLen N : Nat} :
    Aft (cvRow iv sd bot lambda outLen N r) (fun r' => r'.length = r.length) := by
  unfold cvRow
  refine Aft.bind fun r1 h1 => ?_
  have e : r1.length = r.length := by
    revert r1
    suffices h : Aft (cvFirst iv sd bot lambda outLen N r) (fun r' => r'.length = r.length) from h
    unfold cvFirst
    split
    · exact Aft.some rfl
    · refine Aft.bind fun _ _ => ?_
      exact Aft.mono aft_wrN fun a ha => ha.1
  refine Aft.forR (fun r' : Mem Byte => r'.length = r.length) e fun i s hs => ?_
  iterate 2 refine Aft.bind fun _ _ => ?_
  exact Aft.mono aft_wrN fun a ha => ha.1.trans hs

theorem len_cvCols {N depth outLen voff : Nat} {v r : Mem Byte} :
    Aft (cvCols N depth outLen v voff r) (fun s => s.1.length = v.length ∧ s.2.length = r.length) := by
  unfold cvCols
  refine Aft.bind fun v1 h1 => ?_
  refine Aft.forN (fun s : Mem Byte × Mem Byte => s.1.length = v.length ∧ s.2.length = r.length)
    ⟨(aft_wrN _ h1).1, rfl⟩ fun i s hs => ?_
  refine Aft.forN (fun s : Mem Byte × Mem Byte => s.1.length = v.length ∧ s.2.length = r.length) hs fun i s hs => ?_
  iterate 3 refine Aft.bind fun _ _ => ?_
  refine Aft.bind fun _ h2 => ?_
  iterate 3 refine Aft.bind fun _ _ => ?_
  refine Aft.bind fun _ h3 => ?_
  exact Aft.pure ⟨(aft_wrN _ h2).1.trans hs.1, (aft_wrN _ h3).1.trans hs.2⟩

theorem len_ksForward1 {P : Params} {x out : Mem Byte} :
    Aft (ksForward1 P x out) (fun o => o.length = out.length) := by
  unfold ksForward1
  refine Aft.bind fun _ _ => ?_
  refine Aft.bind fun _ h1 => ?_
  refine Aft.bind fun o h2 => ?_
  refine Aft.bind fun r hr => ?_
  have e : r.1.length = out.length := by
    refine Aft.forR (fun s : Mem Byte × Nat => s.1.length = out.length)
      ((aft_wrN _ h2).1.trans (aft_wrN _ h1).1) (fun i s hs => ?_) r hr
    unfold ksForward1Step
    split
    · refine Aft.bind fun _ _ => ?_
      refine Aft.bind fun _ h => ?_
      exact Aft.pure ((aft_wrN _ h).1.trans hs)
    · refine Aft.bind fun q hq => ?_
      refine Aft.pure (Aft.forN (fun o : Mem Byte => o.length = out.length) hs (fun i t ht => ?_) q hq)
      iterate 3 refine Aft.bind fun _ _ => ?_
      exact Aft.mono aft_wr fun a ha => ha.trans ht
  exact Aft.pure e

theorem len_ksForward {n : Nat} {P : Params} {v out : Mem (BF n)} :
    Aft (ksForward P v out) (fun o => o.length = out.length) := by
  unfold ksForward
  refine Aft.bind fun _ _ => ?_
  refine Aft.bind fun _ h1 => ?_
  refine Aft.bind fun r hr => ?_
  have e : r.1.length = out.length := by
    refine Aft.forR (fun s : Mem (BF n) × Nat => s.1.length = out.length) (aft_wrN _ h1).1 (fun i s hs => ?_) r hr
    unfold ksForwardStep
    split
    · refine Aft.bind fun _ _ => ?_
      refine Aft.bind fun _ h => ?_
      exact Aft.pure ((aft_wrN _ h).1.trans hs)
    · refine Aft.bind fun q hq => ?_
      refine Aft.pure (Aft.forN (fun o : Mem (BF n) => o.length = out.length) hs (fun i t ht => ?_) q hq)
      iterate 2 refine Aft.bind fun _ _ => ?_
      exact Aft.mono aft_wr fun a ha => ha.trans ht
  exact Aft.pure e

theorem len_ksConstraints0 {n : Nat} {P : Params} {w k : Mem Byte} {v vk : Mem (BF n)} {ctx : ZkCtx n × ZkCtx n} :
    Aft (ksConstraints0 P w v k vk ctx) (fun r => r.2.1.length = k.length ∧ r.2.2.length = vk.length) := by
  unfold ksConstraints0
  refine Aft.bind fun _ h1 => ?_
  refine Aft.bind fun _ h2 => ?_
  iterate 3 refine Aft.bind fun _ _ => ?_
  exact Aft.pure ⟨len_ksForward1 _ h1, len_ksForward _ h2⟩

theorem len_ksConstraints1 {n : Nat} {P : Params} {q qk : Mem (BF n)} {delta : Mem Byte} {ctx : ZkCtx n} :
    Aft (ksConstraints1 P q delta qk ctx) (fun r => r.2.length = qk.length) := by
  unfold ksConstraints1
  refine Aft.bind fun _ h1 => ?_
  iterate 3 refine Aft.bind fun _ _ => ?_
  exact Aft.pure (len_ksForward _ h1)

theorem len_witnessKey {P : Params} {rk inp w : Mem Byte} :
    Aft (witnessKey P rk inp w) (fun r => r.1.length = w.length) := by
  unfold witnessKey
  split
  · refine Aft.bind fun r1 h1 => ?_
    have e1 : r1.1.length = w.length := by
      refine Aft.forN (fun s : Mem Byte × Nat => s.1.length = w.length) rfl (fun i s hs => ?_) r1 h1
      refine Aft.bind fun _ _ => ?_
      refine Aft.bind fun _ h => ?_
      exact Aft.pure ((aft_wrN _ h).1.trans hs)
    refine Aft.bind fun r2 h2 => ?_
    refine Aft.pure (Aft.forN (fun s : Mem Byte × Nat × Nat => s.1.length = w.length) e1 (fun i s hs => ?_) r2 h2)
    refine Aft.bind fun _ _ => ?_
    refine Aft.bind fun _ h => ?_
    exact Aft.pure ((aft_wrN _ h).1.trans hs)
  · refine Aft.bind fun _ _ => ?_
    refine Aft.bind fun _ h => ?_
    exact Aft.pure (aft_wrN _ h).1

theorem len_extendInto {key inp w : Mem Byte} {P : Params} :
    Aft (extendInto key inp P w) (fun w' => w'.length = w.length) := by
  unfold extendInto
  refine Aft.bind fun _ _ => ?_
  refine Aft.bind fun r1 h1 => ?_
  refine Aft.bind fun r2 h2 => ?_
  refine Aft.pure (Aft.forN (fun s : Mem Byte × Nat => s.1.length = w.length) (len_witnessKey _ h1)
    (fun i s hs => ?_) r2 h2)
  unfold witnessBlock
  refine Aft.bind fun _ _ => ?_
  refine Aft.bind fun _ _ => ?_
  refine Aft.bind fun r h => ?_
  refine Aft.pure (Aft.forR (fun s : Mem Byte × Mem Byte × Nat => s.2.1.length = w.length) hs (fun i t ht => ?_) r h)
  unfold witnessRound
  iterate 3 refine Aft.bind fun _ _ => ?_
  refine Aft.bind fun _ hw => ?_
  iterate 2 refine Aft.bind fun _ _ => ?_
  exact Aft.pure ((aft_wrN _ hw).1.trans ht)

end Faest.Heap
