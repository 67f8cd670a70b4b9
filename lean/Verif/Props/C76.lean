/-
C76: all versions of `rand_bytes`.
-/
import Verif.Proofs.RandOs

namespace Faest.Props
open RandOs Spec.RandOs

/-- **C76.** For every version, every behaviour of the system, and every buffer: if `rand_bytes` returns, it returns 0 or -1; it returns 0
only if the first `len` bytes of the buffer are the first `len` bytes which the source gave out, and -1 only if the system reported a failure or gave out too
little; it changes nothing behind these bytes, and it leaves the same file descriptors open as before. -/
theorem C76_rand_bytes {v : Version} {a : Answer} {dst dst' : Mem Byte} {len : Nat} {fds fds' : List Nat} {r : Int} (hos : Honest v a len fds)
    (h : randBytes v a dst len fds = some (r, dst', fds')) :
    (r = 0 ∨ r = -1) ∧ fds' = fds ∧ dst'.length = dst.length ∧ (∀ p, len ≤ p → rd dst' p = rd dst p) ∧
      (r = 0 → len ≤ (source v a).length ∧ ∀ p, p < len → rd dst' p = (source v a)[p]?) ∧ (r = -1 → Failed v a len) := by
  have key : fds' = fds ∧ Stored dst dst' 0 len r (source v a) (Failed v a len) := by
    cases v with
    | urandom linux =>
      simp only [randBytes, urandom] at h
      cases ho : openLoop a.opens with
      | none => rw [ho] at h; exact absurd h (by simp)
      | some o =>
        obtain ⟨o1, o2⟩ := openLoop_ok ho
        rw [ho] at h
        cases o with
        | none =>
          obtain ⟨rfl, hq⟩ := Prod.mk.inj (Option.some.inj h)
          obtain ⟨rfl, rfl⟩ := Prod.mk.inj hq
          exact ⟨rfl, .inr rfl, rfl, fun _ _ => rfl, fun h => absurd h (by decide), fun _ => .inl (o1 rfl)⟩
        | some fd =>
          have hin : fd ∈ fd :: fds := List.mem_cons_self
          have her : (fd :: fds).erase fd = fds := List.erase_cons_head ..
          have h : (if (linux && decide (a.ioctl = -1)) = true then (close (fd :: fds) fd >>= fun fds => pure ((-1 : Int), dst, fds))
            else readLoop fd a.reads dst 0 len (fd :: fds)) = some (r, dst', fds') := h
          split at h
          · rename_i hc
            rw [close_in hin, her] at h
            obtain ⟨rfl, hq⟩ := Prod.mk.inj (Option.some.inj h)
            obtain ⟨rfl, rfl⟩ := Prod.mk.inj hq
            refine ⟨rfl, .inr rfl, rfl, fun _ _ => rfl, fun h => absurd h (by decide), fun _ => .inr (.inl ?_)⟩
            simpa using hc
          · obtain ⟨h1, h2⟩ := readLoop_ok a.reads dst 0 len (fd :: fds) fds' r dst' hin h
            rw [her] at h1
            exact ⟨h1, h2.code, h2.length, h2.frame, h2.ok, fun h => .inr (.inr (h2.bad h))⟩
    | windows =>
      simp only [randBytes] at h
      split at h
      · obtain ⟨rfl, hq⟩ := Prod.mk.inj (Option.some.inj h)
        obtain ⟨rfl, rfl⟩ := Prod.mk.inj hq
        exact ⟨rfl, .inr rfl, rfl, fun _ _ => rfl, fun h => absurd h (by decide), fun _ => .inr (by omega)⟩
      · cases hw : wrN dst 0 a.bytes with
        | none => rw [hw] at h; exact absurd h (by simp)
        | some d =>
          rw [hw] at h
          have h : (if a.ret < 0 then some ((-1 : Int), d, fds) else some (0, d, fds)) = some (r, dst', fds') := h
          split at h
          · exact single hw h hos.1 (.inr rfl) (fun h => absurd h (by decide)) fun _ => .inl ‹_›
          · exact single hw h hos.1 (.inl rfl) (fun _ => hos.2 (by omega)) fun h => absurd h (by decide)
    | getrandom =>
      simp only [randBytes] at h
      cases hw : wrN dst 0 a.bytes with
      | none => rw [hw] at h; exact absurd h (by simp)
      | some d =>
        rw [hw] at h
        have h : (if a.ret < 0 ∨ a.ret.toNat ≠ len then some ((-1 : Int), d, fds) else some (0, d, fds)) = some (r, dst', fds') := h
        have hl : a.bytes.length ≤ len := by
          rcases hos with ⟨-, h⟩ | ⟨-, h⟩
          · rw [h]; exact Nat.zero_le _
          · exact h
        split at h
        · refine single hw h hl (.inr rfl) (fun h => absurd h (by decide)) fun _ => ?_
          rcases hos with ⟨h1, -⟩ | ⟨h1, h2⟩
          · exact .inl h1
          · exact .inr (by omega)
        · refine single hw h hl (.inl rfl) (fun _ => ?_) fun h => absurd h (by decide)
          show a.bytes.length = len
          rcases hos with ⟨h1, -⟩ | ⟨h1, h2⟩ <;> omega
    | apple =>
      simp only [randBytes] at h
      cases hw : wrN dst 0 a.bytes with
      | none => rw [hw] at h; exact absurd h (by simp)
      | some d =>
        rw [hw] at h
        have h : (if a.ret = 0 then some ((0 : Int), d, fds) else some (-1, d, fds)) = some (r, dst', fds') := h
        split at h
        · exact single hw h hos.1 (.inl rfl) (fun _ => hos.2 ‹_›) fun h => absurd h (by decide)
        · exact single hw h hos.1 (.inr rfl) (fun h => absurd h (by decide)) fun _ => ‹_›
    | randombytes | oqs | arc4random =>
      simp only [randBytes] at h
      cases hw : wrN dst 0 a.bytes with
      | none => rw [hw] at h; exact absurd h (by simp)
      | some d =>
        rw [hw] at h
        have hos : a.bytes.length = len := hos
        exact single hw h hos.le (.inl rfl) (fun _ => hos) fun h => absurd h (by decide)
  obtain ⟨h1, h2⟩ := key
  refine ⟨h2.code, h1, h2.length, fun p hp => h2.frame p (by omega), fun h0 => ?_, h2.bad⟩
  obtain ⟨h3, h4⟩ := h2.ok h0
  exact ⟨h3, fun p hp => by rw [← h4 p hp, Nat.zero_add]⟩

/-- **C76, it returns.** With a buffer of at least `len` bytes every version runs without undefined behaviour; the version for `/dev/urandom` returns once `open`
has been answered and `read` has given out `len` bytes or reported an error. -/
theorem C76_returns {v : Version} {a : Answer} {dst : Mem Byte} {len : Nat} {fds : List Nat} (hos : Honest v a len fds) (hl : len ≤ dst.length)
    (hrun : ∀ l, v = .urandom l → Opened a.opens ∧ Run a.reads len) : ∃ r dst' fds', randBytes v a dst len fds = some (r, dst', fds') := by
  have one : a.bytes.length ≤ len → ∃ d, wrN dst 0 a.bytes = some d := by
    intro h
    obtain ⟨d, hd, -⟩ := wrN_ok (m := dst) (off := 0) (l := a.bytes) (by omega)
    exact ⟨d, hd⟩
  cases v with
  | urandom linux =>
    obtain ⟨h1, h2⟩ := hrun linux rfl
    obtain ⟨o, ho⟩ := openLoop_runs h1
    simp only [randBytes, urandom]
    rw [ho]
    cases o with
    | none => exact ⟨_, _, _, rfl⟩
    | some fd =>
      have hin : fd ∈ fd :: fds := List.mem_cons_self
      show ∃ r dst' fds', (if (linux && decide (a.ioctl = -1)) = true then (close (fd :: fds) fd >>= fun fds => pure ((-1 : Int), dst, fds))
            else readLoop fd a.reads dst 0 len (fd :: fds)) = some (r, dst', fds')
      split
      · rw [close_in hin]; exact ⟨_, _, _, rfl⟩
      · obtain ⟨⟨r, d, f⟩, hx⟩ := readLoop_runs a.reads dst 0 len (fd :: fds) hin (by omega) h2
        exact ⟨_, _, _, hx⟩
  | windows =>
    obtain ⟨d, hd⟩ := one hos.1
    simp only [randBytes, hd]
    split
    · exact ⟨_, _, _, rfl⟩
    · show ∃ r dst' fds', (if a.ret < 0 then some ((-1 : Int), d, fds) else some (0, d, fds)) = some (r, dst', fds')
      split <;> exact ⟨_, _, _, rfl⟩
  | getrandom =>
    obtain ⟨d, hd⟩ := one (by rcases hos with ⟨-, h⟩ | ⟨-, h⟩; · rw [h]; exact Nat.zero_le _
                              · exact h)
    simp only [randBytes, hd]
    show ∃ r dst' fds', (if a.ret < 0 ∨ a.ret.toNat ≠ len then some ((-1 : Int), d, fds) else some (0, d, fds)) = some (r, dst', fds')
    split <;> exact ⟨_, _, _, rfl⟩
  | apple =>
    obtain ⟨d, hd⟩ := one hos.1
    simp only [randBytes, hd]
    show ∃ r dst' fds', (if a.ret = 0 then some ((0 : Int), d, fds) else some (-1, d, fds)) = some (r, dst', fds')
    split <;> exact ⟨_, _, _, rfl⟩
  | randombytes | oqs | arc4random =>
    obtain ⟨d, hd⟩ := one (le_of_eq hos)
    simp only [randBytes, hd]
    exact ⟨_, _, _, rfl⟩

/-- **C76, end of file.** If `/dev/urandom` is at its end (say, it was replaced by an empty file), `read` returns 0, and the function never
returns: not after any number of such calls. -/
theorem C76_end_of_file (linux : Bool) {a : Answer} {dst : Mem Byte} {len fd n : Nat} {fds : List Nat} (hlen : 0 < len) (ho : a.opens = [.fd fd])
    (hi : a.ioctl ≠ -1) (hr : a.reads = List.replicate n (.data [])) : randBytes (.urandom linux) a dst len fds = none := by
  obtain ⟨len, rfl⟩ : ∃ k, len = k + 1 := ⟨len - 1, by omega⟩
  simp only [randBytes, urandom, ho, openLoop, hr]
  show (if (linux && decide (a.ioctl = -1)) = true then _ else _) = none
  rw [if_neg (by simp [hi])]
  exact readLoop_empty n dst 0

/-! ### Examples -/

-- one restart of `open`, a short `read`, an interrupted one
example : randBytes (.urandom true) ⟨0, [], [.eintr, .fd 3], 0, [.data [1, 2], .again, .data [3]]⟩ (malloc 4) 3 [0, 1, 2] =
    some (0, [some 1, some 2, some 3, none], [0, 1, 2]) := by decide
example : Honest (.urandom true) ⟨0, [], [.eintr, .fd 3], 0, [.data [1, 2], .again, .data [3]]⟩ 3 [0, 1, 2] := by
  intro n hn
  simp at hn
  subst hn
  decide
example : Opened [.eintr, .fd 3] ∧ Run [.data [1, 2], .again, .data [3]] 3 := ⟨trivial, by decide, by decide, trivial⟩
-- an error of `read`
example : randBytes (.urandom false) ⟨0, [], [.fd 3], -1, [.data [1, 2], .error]⟩ (malloc 3) 3 [0] = some (-1, [some 1, some 2, none], [0]) := by decide
example : Honest .getrandom ⟨2, [1, 2], [], 0, []⟩ 3 [] ∧ randBytes .getrandom ⟨2, [1, 2], [], 0, []⟩ (malloc 3) 3 [] = some (-1, [some 1, some 2, none], []) :=
  ⟨.inr ⟨rfl, by decide⟩, by decide⟩
example : Honest .windows ⟨-1, [], [], 0, []⟩ 3 [] ∧ randBytes .windows ⟨-1, [], [], 0, []⟩ (malloc 3) 3 [] = some (-1, malloc 3, []) :=
  ⟨⟨by decide, by decide⟩, by decide⟩
example : Honest .arc4random ⟨0, [7, 8], [], 0, []⟩ 2 [] ∧ randBytes .arc4random ⟨0, [7, 8], [], 0, []⟩ (malloc 2) 2 [] = some (0, ofList [7, 8], []) :=
  ⟨rfl, by decide⟩
example : Honest .apple ⟨0, [7, 8], [], 0, []⟩ 2 [] := ⟨by decide, fun _ => rfl⟩

end Faest.Props
