/-
C13: the universal hashes are linear.
-/
import Verif.Proofs.UHash

namespace Faest

/-- C13, VOLEHash: `vole_hash` is defined for every seed and every input of the prescribed sizes, and
maps the xor of two inputs to the xor of the hashes. -/
theorem C13_vole_hash {n : Nat} (hn : n = 128 ∨ n = 192 ∨ n = 256) {ell : Nat} (h8 : ell % 8 = 0)
    (sd : List Byte) (hsd : sd.length = 5 * (n / 8) + 8) (x y : List Byte)
    (hx : x.length = ell / 8 + 2 * (n / 8) + 2) (hy : y.length = ell / 8 + 2 * (n / 8) + 2) :
    ∃ hx hy : List Byte, hx.length = n / 8 + 2 ∧ hy.length = n / 8 + 2 ∧
      voleHash (ofList sd) (ofList x) ell n = some hx ∧ voleHash (ofList sd) (ofList y) ell n = some hy ∧
      voleHash (ofList sd) (ofList (List.zipWith (· ^^^ ·) x y)) ell n
        = some (List.zipWith (· ^^^ ·) hx hy) := by
  have hf : fieldBits n = n := by rcases hn with rfl | rfl | rfl <;> rfl
  have hl : BF.LamSize n := hn
  have h8n : 8 ∣ n := by rcases hn with rfl | rfl | rfl <;> decide
  unfold voleHash
  rw [hf]
  have hs := has_byteFn sd
  rw [hsd] at hs
  have hcode : ∀ z : List Byte, z.length = ell / 8 + 2 * (n / 8) + 2 →
      voleHashN n (ofList sd) (ofList z) ell
        = some (tabP (n / 8 + 2) (Spec.voleHash n ell (Spec.byteFn sd) (Spec.byteFn z))) := by
    intro z hz
    have h1 := has_byteFn z
    rw [hz] at h1
    exact voleHashN_ok hl h8 hs h1
  refine ⟨_, _, tabP_length _ _, tabP_length _ _, hcode x hx, hcode y hy, ?_⟩
  rw [hcode _ (by rw [List.length_zipWith, hx, hy, Nat.min_self])]
  congr 1
  have hz : ∀ (m : Nat) (f g : Nat → Byte), List.zipWith (· ^^^ ·) (tabP m f) (tabP m g)
      = tabP m (fun i => f i ^^^ g i) := by
    intro m f g
    refine list_eq_tabP _ _ _ (by simp) fun i hi => ?_
    rw [List.getElem?_zipWith, tabP_getElem?, tabP_getElem?, if_pos hi, if_pos hi]
  rw [hz]
  refine tabP_congr fun t ht => ?_
  rw [← voleHash_xor h8n]
  refine voleHash_congr ht fun i hi => ?_
  have hi' : i < ell / 8 + 2 * (n / 8) + 2 := by
    rcases hn with rfl | rfl | rfl <;> omega
  unfold Spec.byteFn
  rw [List.getElem?_zipWith, List.getElem?_eq_getElem (by omega), List.getElem?_eq_getElem (by omega)]
  rfl

/-- The ZK hash of a list of values: initialise, absorb, finalise with the mask `x1`. -/
def zkRun (n : Nat) (sd : Mem Byte) (ys : List (BF n)) (x1 : BF n) : Option (List Byte) := do
  let ctx ← zkInit n sd
  zkFinalize (ys.foldl zkUpdate ctx) x1

/-- C13, ZKHash: linear over the field in the absorbed values and the mask together. -/
theorem C13_zk_hash {n : Nat} (hn : n = 128 ∨ n = 192 ∨ n = 256) (sd : List Byte)
    (hsd : sd.length = 3 * (n / 8) + 8) (a b : BF n) (ys zs : List (BF n)) (hl : ys.length = zs.length)
    (x y : BF n) :
    ∃ h k : BF n, zkRun n (ofList sd) ys x = some h.toBytes ∧ zkRun n (ofList sd) zs y = some k.toBytes ∧
      zkRun n (ofList sd) (List.zipWith (fun y z => a * y + b * z) ys zs) (a * x + b * y)
        = some (a * h + b * k).toBytes := by
  have h64 : 64 ≤ n := by omega
  have hs := has_byteFn sd
  rw [hsd] at hs
  have hcode : ∀ (ys : List (BF n)) (x : BF n), zkRun n (ofList sd) ys x
      = some (Spec.zkHash n (Spec.byteFn sd) ys x).toBytes := by
    intro ys x
    apply Ok.eq
    unfold zkRun
    refine Ok.bind (zkInit_ok h64 hs) fun ctx hc => ?_
    exact Ok.of_eq (zkFinalize_ok h64 (zkUpdates_ok h64 hc ys) x) rfl
  refine ⟨_, _, hcode ys x, hcode zs y, ?_⟩
  rw [hcode, zkHash_linear _ _ _ hl]

/-- The hash is not the zero map. -/
example : zkRun 128 (ofList (1 :: List.replicate 31 0 ++ 2 :: List.replicate 23 0)) [(1 : BF 128), ⟨5⟩] 0
    = some (7 :: List.replicate 15 0) := by
  decide +kernel

/-- The sizes of FAEST-192s are instances. -/
example (sd x y : List Byte) (hsd : sd.length = 128) (hx : x.length = 458) (hy : y.length = 458) :=
  C13_vole_hash (n := 192) (ell := (params .p192S).l) (.inr (.inl rfl)) rfl sd hsd x y hx hy

end Faest
