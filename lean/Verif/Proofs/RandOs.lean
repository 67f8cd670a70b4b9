/-
Lemmas for C76.
-/
import Verif.Spec.RandOs
import Verif.Proofs.SignRefine

namespace Faest.Props
open RandOs Spec.RandOs

/-- What holds after a call: nothing outside `[off, off + len)` has changed, and for the result 0 the bytes there are those given out. -/
structure Stored (dst dst' : Mem Byte) (off len : Nat) (r : Int) (src : List Byte) (fail : Prop) : Prop where
  code : r = 0 ∨ r = -1
  length : dst'.length = dst.length
  frame : ∀ p, ¬(off ≤ p ∧ p < off + len) → rd dst' p = rd dst p
  ok : r = 0 → len ≤ src.length ∧ ∀ p, p < len → rd dst' (off + p) = src[p]?
  bad : r = -1 → fail

theorem wrN_inv {m m' : Mem Byte} {off : Nat} {l : List Byte} (h : wrN m off l = some m') :
    off + l.length ≤ m.length ∧ m'.length = m.length ∧ (∀ p, p < l.length → rd m' (off + p) = l[p]?) ∧
      ∀ p, ¬(off ≤ p ∧ p < off + l.length) → rd m' p = rd m p := by
  have hle : off + l.length ≤ m.length := by
    by_contra hc
    unfold wrN at h
    rw [if_neg hc] at h
    simp at h
  obtain ⟨d, hw, h1, h2, h3⟩ := wrN_ok hle
  rw [h] at hw
  obtain rfl := Option.some.inj hw
  exact ⟨hle, h1, h2, h3⟩

theorem close_in {fds : List Nat} {fd : Nat} (h : fd ∈ fds) : close fds fd = some (fds.erase fd) := if_pos h

theorem readLoop_ok {fd : Nat} : ∀ (evs : List ReadEv) (dst : Mem Byte) (off len : Nat) (fds fds' : List Nat) (r : Int) (dst' : Mem Byte),
    fd ∈ fds → readLoop fd evs dst off len fds = some (r, dst', fds') →
    fds' = fds.erase fd ∧ Stored dst dst' off len r (given evs) (ReadEv.error ∈ evs) := by
  intro evs
  induction evs with
  | nil =>
    intro dst off len fds fds' r dst' hfd h
    cases len with
    | zero =>
      simp only [readLoop, close_in hfd] at h
      obtain ⟨rfl, hq⟩ := Prod.mk.inj (Option.some.inj h)
      obtain ⟨rfl, rfl⟩ := Prod.mk.inj hq
      exact ⟨rfl, .inl rfl, rfl, fun _ _ => rfl, fun _ => ⟨Nat.zero_le _, fun p hp => absurd hp (Nat.not_lt_zero p)⟩, fun h => absurd h (by decide)⟩
    | succ len => exact absurd h (by simp [readLoop])
  | cons e es ih =>
    intro dst off len fds fds' r dst' hfd h
    cases len with
    | zero =>
      have h : (close fds fd >>= fun fds => pure ((0 : Int), dst, fds)) = some (r, dst', fds') := by cases e <;> exact h
      rw [close_in hfd] at h
      obtain ⟨rfl, hq⟩ := Prod.mk.inj (Option.some.inj h)
      obtain ⟨rfl, rfl⟩ := Prod.mk.inj hq
      exact ⟨rfl, .inl rfl, rfl, fun _ _ => rfl, fun _ => ⟨Nat.zero_le _, fun p hp => absurd hp (Nat.not_lt_zero p)⟩, fun h => absurd h (by decide)⟩
    | succ len =>
      cases e with
      | error =>
        simp only [readLoop, if_pos hfd, close_in hfd] at h
        obtain ⟨rfl, hq⟩ := Prod.mk.inj (Option.some.inj h)
        obtain ⟨rfl, rfl⟩ := Prod.mk.inj hq
        exact ⟨rfl, .inr rfl, rfl, fun _ _ => rfl, fun h => absurd h (by decide), fun _ => List.mem_cons_self⟩
      | again =>
        simp only [readLoop, if_pos hfd] at h
        obtain ⟨h1, h2⟩ := ih dst off (len + 1) fds fds' r dst' hfd h
        exact ⟨h1, h2.code, h2.length, h2.frame, h2.ok, fun h => List.mem_cons_of_mem _ (h2.bad h)⟩
      | data bs =>
        simp only [readLoop, if_pos hfd] at h
        by_cases hb : bs.length ≤ len + 1
        · rw [if_pos hb] at h
          cases hw : wrN dst off bs with
          | none => rw [hw] at h; exact absurd h (by simp)
          | some d =>
            rw [hw] at h
            obtain ⟨w1, w2, w3, w4⟩ := wrN_inv hw
            obtain ⟨h1, h2⟩ := ih d (off + bs.length) (len + 1 - bs.length) fds fds' r dst' hfd h
            refine ⟨h1, h2.code, by rw [h2.length, w2], fun p hp => ?_, fun h0 => ?_, fun h => List.mem_cons_of_mem _ (h2.bad h)⟩
            · rw [h2.frame p (by omega), w4 p (by omega)]
            · obtain ⟨h3, h4⟩ := h2.ok h0
              refine ⟨?_, fun p hp => ?_⟩
              · show len + 1 ≤ (bs ++ given es).length
                rw [List.length_append]; omega
              · show _ = (bs ++ given es)[p]?
                by_cases hpb : p < bs.length
                · rw [h2.frame _ (by omega), w3 p hpb, List.getElem?_append_left hpb]
                · rw [List.getElem?_append_right (by omega), ← h4 (p - bs.length) (by omega)]
                  congr 1; omega
        · rw [if_neg hb] at h
          exact absurd h (by simp)

theorem openLoop_ok : ∀ {es : List OpenEv} {o : Option Nat}, openLoop es = some o → (o = none → OpenEv.error ∈ es) ∧ ∀ n, o = some n → OpenEv.fd n ∈ es
  | [], _, h => by simp [openLoop] at h
  | .eintr :: es, o, h => by
    obtain ⟨h1, h2⟩ := openLoop_ok (es := es) h
    exact ⟨fun e => List.mem_cons_of_mem _ (h1 e), fun n e => List.mem_cons_of_mem _ (h2 n e)⟩
  | .error :: es, o, h => by
    obtain rfl := Option.some.inj h
    exact ⟨fun _ => List.mem_cons_self, fun n e => absurd e (by simp)⟩
  | .fd m :: es, o, h => by
    obtain rfl := Option.some.inj h
    exact ⟨fun e => absurd e (by simp), fun n e => by obtain rfl := Option.some.inj e; exact List.mem_cons_self⟩

/-- The versions with one call. -/
theorem single {dst dst' d : Mem Byte} {len : Nat} {fds fds' : List Nat} {r r0 : Int} {bytes : List Byte} {fail : Prop} (hw : wrN dst 0 bytes = some d)
    (h : (some (r0, d, fds) : Option (Int × Mem Byte × List Nat)) = some (r, dst', fds')) (hl : bytes.length ≤ len) (hc : r0 = 0 ∨ r0 = -1)
    (ho : r0 = 0 → bytes.length = len) (hb : r0 = -1 → fail) : fds' = fds ∧ Stored dst dst' 0 len r bytes fail := by
  obtain ⟨rfl, hq⟩ := Prod.mk.inj (Option.some.inj h)
  obtain ⟨rfl, rfl⟩ := Prod.mk.inj hq
  obtain ⟨w1, w2, w3, w4⟩ := wrN_inv hw
  exact ⟨rfl, hc, w2, fun p hp => w4 p (by omega), fun h0 => ⟨(ho h0).ge, fun p hp => w3 p (by rw [ho h0]; exact hp)⟩, hb⟩

theorem readLoop_runs {fd : Nat} : ∀ (evs : List ReadEv) (dst : Mem Byte) (off len : Nat) (fds : List Nat), fd ∈ fds → off + len ≤ dst.length → Run evs len →
    ∃ x, readLoop fd evs dst off len fds = some x := by
  intro evs
  induction evs with
  | nil =>
    intro dst off len fds hfd hl h
    cases len with
    | zero => simp [readLoop, close_in hfd]
    | succ len => exact absurd h (by simp [Run])
  | cons e es ih =>
    intro dst off len fds hfd hl h
    cases len with
    | zero => cases e <;> simp [readLoop, close_in hfd]
    | succ len =>
      cases e with
      | error => simp [readLoop, close_in hfd, hfd]
      | again =>
        simp only [readLoop, if_pos hfd]
        exact ih dst off (len + 1) fds hfd hl h
      | data bs =>
        obtain ⟨h1, h2⟩ := h
        simp only [readLoop, if_pos hfd, if_pos h1]
        obtain ⟨d, hw, hd, -, -⟩ := wrN_ok (m := dst) (off := off) (l := bs) (by omega)
        rw [hw]
        exact ih d _ _ fds hfd (by rw [hd]; omega) h2

theorem openLoop_runs : ∀ {es : List OpenEv}, Opened es → ∃ o, openLoop es = some o
  | [], h => absurd h (by simp [Opened])
  | .eintr :: es, h => openLoop_runs (es := es) h
  | .error :: _, _ => ⟨_, rfl⟩
  | .fd _ :: _, _ => ⟨_, rfl⟩

theorem readLoop_empty {fd len : Nat} {fds : List Nat} : ∀ (n : Nat) (dst : Mem Byte) (off : Nat),
    readLoop fd (List.replicate n (.data [])) dst off (len + 1) fds = none
  | 0, _, _ => rfl
  | n + 1, dst, off => by
    rw [List.replicate_succ]
    by_cases h : fd ∈ fds
    · simp only [readLoop, if_pos h, List.length_nil, Nat.zero_le, if_true]
      cases hw : wrN dst off [] with
      | none => rfl
      | some d => exact readLoop_empty n d _
    · simp only [readLoop, if_neg h]

end Faest.Props
