/-
C51: the heap.
-/
import Verif.Proofs.HeapFaest
import Verif.Props.C50

namespace Faest.Props

/-- From any heap, a computation which is known to leave all blocks as they were. -/
private theorem run {α : Type} {x : Option α} {p : Heap.HM α} {a : α} (ha : x = some a)
    (h : ∀ F, Heap.HSim F x p (fun a b D' => b = a ∧ D' = F)) (H : Heap.Heap)
    (hf : ∀ b, H.next ≤ b → H.cells b = none) : ∃ H', p H = some (a, H') ∧ H'.cells = H.cells := by
  obtain ⟨D, hD⟩ := Heap.sat_exists H hf
  obtain ⟨b, H', D', hp, hs, rfl, rfl⟩ := h D a ha H hD
  exact ⟨H', hp, hD.cells_eq hs⟩

/-- **C51, signing.** From any heap, `sign_with_randomness` with explicit allocation and freeing runs to its end: it
touches no freed block, frees nothing twice, frees no pointer into a block and uses the right function for aligned
blocks.  It writes exactly the signature of the specification, all its blocks are freed, and every block live
before the call is live after it with the same contents. -/
theorem C51_sign (X : XOF) (i : ParamId) (sk m : List Byte) (rho : Option (List Byte)) (buf : Mem Byte) (n : Nat)
    (hsk : sk.length = (params i).skSize) (hg : Spec.skGood i sk) (hn : (params i).sigSize ≤ n) (hb : n ≤ buf.length)
    (H : Heap.Heap) (hf : ∀ b, H.next ≤ b → H.cells b = none) :
    ∃ H', Heap.signWithRandomness X i (some (ofList sk)) (ofList m) m.length (rho.map ofList) (rho.getD []).length
        (some buf) (some n) H
      = some (⟨0, some (ofList (Spec.signature X i sk m (rho.getD [])) ++ buf.drop (params i).sigSize),
          some (params i).sigSize⟩, H') ∧ H'.cells = H.cells :=
  run (C50_sign X i sk m rho buf n hsk hg hn hb) (fun _ => Heap.signWithRandomness_heap) H hf

/-- **C51, verification.** The same for `verify`, whatever the decision. -/
theorem C51_verify (X : XOF) (i : ParamId) (pk m sg : List Byte) (hpk : pk.length = (params i).pkSize)
    (hs : sg.length = (params i).sigSize) (H : Heap.Heap) (hf : ∀ b, H.next ≤ b → H.cells b = none) :
    ∃ r H', Heap.verify X i (some (ofList pk)) (ofList m) m.length (some (ofList sg)) (params i).sigSize H
        = some (r, H') ∧ H'.cells = H.cells ∧
      (Spec.ValidSig X i pk m sg → r = 0) ∧ (¬Spec.ValidSig X i pk m sg → r = -1) := by
  obtain ⟨h1, h2⟩ := C50_verify X i pk m sg hpk hs
  by_cases hv : Spec.ValidSig X i pk m sg
  · obtain ⟨H', h, hc⟩ := run (h1 hv) (fun _ => Heap.verify_heap) H hf
    exact ⟨0, H', h, hc, fun _ => rfl, fun hn => absurd hv hn⟩
  · obtain ⟨H', h, hc⟩ := run (h2 hv) (fun _ => Heap.verify_heap) H hf
    exact ⟨-1, H', h, hc, fun hp => absurd hp hv, fun _ => rfl⟩

/-- **C51, rejected calls.** A call of `sign_with_randomness` or `verify` which is refused for its arguments neither
allocates nor frees. -/
theorem C51_reject (X : XOF) (i : ParamId) (m : Mem Byte) (msglen : Nat) (H : Heap.Heap) :
    (∀ sk rho rholen buf n, (sk = none ∨ buf = none ∨ n = none ∨ (∃ k, n = some k ∧ k < (params i).sigSize) ∨
        (rho = none ∧ rholen ≠ 0)) →
      Heap.signWithRandomness X i sk m msglen rho rholen buf n H = some (⟨-1, buf, n⟩, H)) ∧
    (∀ pk sg len, (pk = none ∨ sg = none ∨ len ≠ (params i).sigSize) →
      Heap.verify X i pk m msglen sg len H = some (-1, H)) := by
  constructor
  · intro sk rho rholen buf n h
    rcases sk with _ | sk
    · rfl
    rcases buf with _ | buf
    · rfl
    rcases n with _ | n
    · rfl
    unfold Heap.signWithRandomness
    simp only []
    rw [if_pos]
    · rfl
    · rcases h with h | h | h | ⟨k, hk, h⟩ | ⟨rfl, h⟩
      · cases h
      · cases h
      · cases h
      · obtain rfl := Option.some.inj hk
        exact Or.inl h
      · exact Or.inr ⟨rfl, h⟩
  · intro pk sg len h
    rcases pk with _ | pk
    · rfl
    rcases sg with _ | sg
    · rfl
    unfold Heap.verify
    simp only []
    rw [if_pos]
    · rfl
    · rcases h with h | h | h
      · cases h
      · cases h
      · exact h

/-- A heap on which the caller already has a block of two bytes. -/
example (X : XOF) (m rho : List Byte) :
    ∃ H', Heap.signWithRandomness X .p128F (some (ofList Concrete.sk)) (ofList m) m.length (some (ofList rho)) rho.length
        (some (malloc 6336)) (some 6336) ⟨1, fun b => if b = 0 then some ⟨false, .bytes (ofList [1, 2])⟩ else none⟩
      = some (⟨0, some (ofList (Spec.signature X .p128F Concrete.sk m rho) ++ (malloc 6336).drop 6336), some 6336⟩, H') ∧
      H'.cells = fun b => if b = 0 then some ⟨false, .bytes (ofList [1, 2])⟩ else none :=
  C51_sign X .p128F Concrete.sk m (some rho) (malloc 6336) 6336 rfl Concrete.kat_good (Nat.le_refl _)
    (by rw [malloc_length]) _ (fun b hb => if_neg (by
      have : 1 ≤ b := hb
      omega))

/-- Freeing twice, with the wrong function, or using a freed block is undefined. -/
example : (do let a ← Heap.alloc ⟨false, .bytes (malloc 1)⟩; Heap.free false a; Heap.free false a : Heap.HM Unit)
      ⟨0, fun _ => none⟩ = none ∧
    (do let a ← Heap.alloc ⟨false, .bytes (malloc 1)⟩; Heap.free true a : Heap.HM Unit) ⟨0, fun _ => none⟩ = none ∧
    (do let a ← Heap.alloc ⟨false, .bytes (malloc 1)⟩; Heap.free false a; Heap.storeAt a 0 [0] : Heap.HM Unit)
      ⟨0, fun _ => none⟩ = none := ⟨rfl, rfl, rfl⟩

end Faest.Props
