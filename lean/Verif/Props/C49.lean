/-
C49: the OpenSSL variant of the PRG gives the same bytes as the portable one.
-/
import Verif.Model.PrgEvp
import Verif.Props.C17
import Verif.Proofs.ApiRefine

namespace Faest.Props
open Spec (byteFn)
open Evp

theorem ofList_append (l l' : List Byte) : ofList (l ++ l') = ofList l ++ ofList l' := by
  unfold ofList; rw [List.map_append]

theorem encryptUpdate_ok {S : KeyStream} {ctx : Ctx} {out : Mem Byte} {off n : Nat} (hn : n ≤ 16)
    (ho : off + n ≤ out.length) :
    encryptUpdate S ctx out off (calloc 16 0) n
      = some (out.take off ++ ofList (tabP n fun t => S ctx.sel ctx.key ctx.iv (ctx.pos + t)) ++ out.drop (off + n),
          { ctx with pos := ctx.pos + n }) := by
  have hp : rdN (calloc 16 (0 : Byte)) 0 n = some (List.replicate n 0) := by
    have := rdN_ofList_le (List.replicate 16 (0 : Byte)) (off := 0) (n := n) (by simpa using hn)
    rw [List.drop_zero, List.take_replicate, Nat.min_eq_left hn] at this
    rw [← this]
    rfl
  have hm : (List.replicate n (0 : Byte)).mapIdx (fun t b => b ^^^ S ctx.sel ctx.key ctx.iv (ctx.pos + t))
      = tabP n fun t => S ctx.sel ctx.key ctx.iv (ctx.pos + t) := by
    refine list_eq_tabP _ _ _ (by simp) fun t ht => ?_
    rw [List.getElem?_mapIdx, List.getElem?_replicate, if_pos ht]
    simp
  unfold encryptUpdate
  rw [hp]
  show (wrN out off ((List.replicate n (0 : Byte)).mapIdx _) >>= _) = _
  rw [hm]
  unfold wrN
  rw [tabP_length, if_pos ho]
  rfl

theorem prgEvp_loop {S : KeyStream} {ctx : Ctx} {out : Mem Byte} (h0 : ctx.pos = 0) :
    ∀ q, 16 * q ≤ out.length →
    forN q (out, ctx) (fun idx s => encryptUpdate S s.2 s.1 (16 * idx) (calloc 16 0) 16)
      = some (ofList (tabP (16 * q) (S ctx.sel ctx.key ctx.iv)) ++ out.drop (16 * q), { ctx with pos := 16 * q }) := by
  intro q
  induction q with
  | zero =>
    intro _
    simp only [forN, Nat.mul_zero, List.drop_zero]
    rw [show tabP 0 (S ctx.sel ctx.key ctx.iv) = [] from rfl, ← h0]
    rfl
  | succ q ih =>
    intro hl
    rw [forN, ih (by omega), Option.bind_some]
    dsimp only
    have hlen : (ofList (tabP (16 * q) (S ctx.sel ctx.key ctx.iv))).length = 16 * q := by
      rw [ofList_length, tabP_length]
    rw [encryptUpdate_ok (Nat.le_refl _) (by rw [List.length_append, hlen, List.length_drop]; omega)]
    rw [List.take_left' hlen, List.drop_append, List.drop_eq_nil_of_le (by rw [hlen]; omega), List.nil_append, hlen,
      List.drop_drop, show 16 * q + (16 * q + 16 - 16 * q) = 16 * (q + 1) by omega]
    congr 2
    rw [show 16 * (q + 1) = 16 * q + 16 by omega]
    congr 1
    rw [← ofList_append]
    congr 1
    rw [tabP_add]

/-- **C49.** If OpenSSL's ciphers are counter mode as in SP 800-38A with AES (big-endian counter of 128 bits), the
OpenSSL variant fills the buffer with the bytes the portable variant returns, for every length, and changes nothing
behind them. -/
theorem C49_openssl (S : KeyStream) {lambda : Nat} (h : lambda = 128 ∨ lambda = 192 ∨ lambda = 256)
    (hS : ∀ (k v : List Byte), k.length = lambda / 8 → v.length = 16 → ∀ p,
      S lambda k v p = Spec.prgStream lambda (byteFn k) (byteFn v) p)
    (key iv : List Byte) (hk : key.length = lambda / 8) (hv : iv.length = 16) (out : Mem Byte) (n : Nat)
    (hn : n ≤ out.length) :
    ∃ l, prg (ofList key) (ofList iv) lambda n = some l ∧ l.length = n ∧
      prgEvp S (ofList key) (ofList iv) out lambda n = some (ofList l ++ out.drop n) := by
  refine ⟨_, prg_ok h (hk ▸ has_byteFn key) (hv ▸ has_byteFn iv), tabP_length _ _, ?_⟩
  have hsel : (if lambda = 256 then 256 else if lambda = 192 then 192 else 128) = lambda := by
    rcases h with rfl | rfl | rfl <;> rfl
  unfold prgEvp encryptInit
  dsimp only
  rw [hsel, ← hk, rdN_ofList]
  have hv' := rdN_ofList iv
  rw [hv] at hv'
  simp only [hv']
  show (forN (n / 16) (out, (⟨lambda, key, iv, 0⟩ : Ctx)) _ >>= _) = _
  rw [prgEvp_loop rfl _ (by omega)]
  have hst : ∀ m, tabP m (S lambda key iv) = tabP m (Spec.prgStream lambda (byteFn key) (byteFn iv)) := fun m =>
    tabP_congr fun t _ => hS key iv hk hv t
  show (if n % 16 ≠ 0 then _ else _) = _
  dsimp only
  have hdm := Nat.div_add_mod n 16
  split
  · have hlen : (ofList (tabP (16 * (n / 16)) (S lambda key iv))).length = 16 * (n / 16) := by
      rw [ofList_length, tabP_length]
    rw [encryptUpdate_ok (by omega) (by rw [List.length_append, hlen, List.length_drop]; omega)]
    rw [List.take_left' hlen, List.drop_append, List.drop_eq_nil_of_le (by rw [hlen]; omega), List.nil_append, hlen,
      List.drop_drop, show 16 * (n / 16) + (16 * (n / 16) + n % 16 - 16 * (n / 16)) = n by omega]
    show some _ = some _
    congr 2
    rw [← ofList_append]
    rw [← tabP_add, hdm, hst]
  · have : 16 * (n / 16) = n := by omega
    rw [this, hst]
    rfl

/-- The hypothesis can be met, and a length that is not a multiple of 16. -/
example (key : List Byte) (hk : key.length = 24) :=
  C49_openssl (fun l k v => Spec.prgStream l (byteFn k) (byteFn v)) (.inr (.inl rfl)) (fun _ _ _ _ _ => rfl) key
    (List.replicate 16 0xff) hk rfl (malloc 45) 45 (by rw [malloc_length])

end Faest.Props
