/-
A library which works as in Spec/Oqs.lean: the assumption of C73 can be met.  A context is the list of what was taken in,
kept as the size of its block; use out of order is undefined.
-/
import Verif.Proofs.Oqs
import Mathlib.Logic.Equiv.List

namespace Faest.Oqs
open Faest.C Faest.Props Spec.Oqs
open Spec.Keccak (shakeX)

/-- The variant of SHAKE, whether the input is closed, the inputs, how much was given out. -/
abbrev St := Bool × Bool × List (List ℕ) × ℕ

def nums (l : List Byte) : List ℕ := l.map BitVec.toNat
def bytesOf (l : List ℕ) : List Byte := l.map (BitVec.ofNat 8)

theorem bytesOf_nums (l : List Byte) : bytesOf (nums l) = l := by
  unfold bytesOf nums
  rw [List.map_map, show (BitVec.ofNat 8 ∘ BitVec.toNat) = id from funext fun x => by simp, List.map_id]

/-- The block for a state. -/
def enc (s : St) : Mem Byte := malloc (Encodable.encode s)

/-- The state in a block. -/
def getSt (c : CPtr) (w closed : Bool) : CM St := do
  let q ← lft c
  let m ← blk (α := Byte) q
  let s ← lft (Encodable.decode (α := St) m.length)
  if s.1 = w ∧ s.2.1 = closed then pure s else lft none

/-- Store a state. -/
def setSt (c : CPtr) (s : St) : CM Unit := do
  let q ← lft c
  fun H => some ((), ⟨H.next, upd H.cells q.blk (own (enc s))⟩)

def idealLib : Lib where
  init w := alloc .heap (enc (w, false, [[]], 0))
  absorb w c p n := do
    let s ← getSt c w false
    let l ← ldN p n
    setSt c (w, false, [s.2.2.1.getD 0 [] ++ nums l], 0)
  finalize w c := do
    let s ← getSt c w false
    setSt c (w, true, s.2.2)
  squeeze w p n c := do
    let s ← getSt c w true
    stN p (bytes w (bytesOf (s.2.2.1.getD 0 [])) s.2.2.2 n)
    setSt c (w, true, s.2.2.1, s.2.2.2 + n)
  release w c := do
    let _ ← getSt c w true
    cfree .heap c
  init4 w := alloc .heap (enc (w, false, [[], [], [], []], 0))
  absorb4 w c p0 p1 p2 p3 n := do
    let s ← getSt c w false
    let l0 ← ldN p0 n
    let l1 ← ldN p1 n
    let l2 ← ldN p2 n
    let l3 ← ldN p3 n
    setSt c (w, false, [s.2.2.1.getD 0 [] ++ nums l0, s.2.2.1.getD 1 [] ++ nums l1, s.2.2.1.getD 2 [] ++ nums l2, s.2.2.1.getD 3 [] ++ nums l3], 0)
  finalize4 w c := do
    let s ← getSt c w false
    setSt c (w, true, s.2.2)
  squeeze4 w p0 p1 p2 p3 n c := do
    let s ← getSt c w true
    stN p0 (bytes w (bytesOf (s.2.2.1.getD 0 [])) s.2.2.2 n)
    stN p1 (bytes w (bytesOf (s.2.2.1.getD 1 [])) s.2.2.2 n)
    stN p2 (bytes w (bytesOf (s.2.2.1.getD 2 [])) s.2.2.2 n)
    stN p3 (bytes w (bytesOf (s.2.2.1.getD 3 [])) s.2.2.2 n)
    setSt c (w, true, s.2.2.1, s.2.2.2 + n)
  release4 w c := do
    let _ ← getSt c w true
    cfree .heap c

section
variable {F : Blocks} {δ : Type} {Q : δ → Blocks → Prop} {b : Nat}

theorem t_get {w closed : Bool} {x : List (List ℕ) × ℕ} {g : St → CM δ} (k : T (bl .heap b (enc (w, closed, x)) + F) (g (w, closed, x)) Q) :
    T (bl .heap b (enc (w, closed, x)) + F) (getSt (some ⟨b, 0⟩) w closed >>= g) Q := by
  unfold getSt
  refine t_assoc (t_lft rfl (t_assoc (t_run rfl (runs_blk (α := Byte) (mem_bl (m := enc (w, closed, x)))) (t_assoc (t_lft (b := (w, closed, x)) ?_ ?_)))))
  · unfold enc
    rw [malloc_length, Encodable.encodek]
  · rw [if_pos ⟨rfl, rfl⟩]
    exact t_pbind k

theorem set_runs {s s' : St} : Runs (bl .heap b (enc s) + F) (setSt (some ⟨b, 0⟩) s') () (bl .heap b (enc s') + F) := by
  intro H hH
  exact ⟨(), _, _, rfl, Sat.put (c' := ⟨.heap, .bytes (enc s')⟩) hH, rfl, rfl⟩

theorem t_ld {D : Blocks} {p : CPtr} {n : Nat} {l : List Byte} {g : List Byte → CM δ} (h : RdAt D p n l) (k : T D (g l) Q) : T D (ldN p n >>= g) Q := by
  obtain ⟨b, o, kd, m, rfl, hm, hr⟩ := h
  unfold ldN
  exact t_assoc (t_lft rfl (t_assoc (t_run rfl (runs_blk (α := Byte) hm) (t_lft hr k))))

theorem does_of {H : C.Heap} {m m' : Mem Byte} {p : CM Unit} (hf : Fresh H) (hb : H.cells b = own m)
    (h : ∀ F, Sat H (bl .heap b m + F) → Runs (bl .heap b m + F) p () (bl .heap b m' + F)) : Does H p () (upd H.cells b (own m')) := by
  obtain ⟨D, hD⟩ := C.sat_exists H hf
  obtain ⟨F, rfl⟩ := split1 hD hb
  obtain ⟨_, H', D', h1, h2, -, rfl⟩ := h F hD H hD
  exact ⟨H', h1, Sat.cells_eq (hD.put (c' := ⟨.heap, .bytes m'⟩)) h2, h2.fresh⟩

theorem does_free {H : C.Heap} {m : Mem Byte} {p : CM Unit} (hf : Fresh H) (hb : H.cells b = own m)
    (h : ∀ F, Runs (bl .heap b m + F) p () F) : Does H p () (upd H.cells b none) := by
  obtain ⟨D, hD⟩ := C.sat_exists H hf
  obtain ⟨F, rfl⟩ := split1 hD hb
  obtain ⟨_, H', D', h1, h2, -, rfl⟩ := h F H hD
  exact ⟨H', h1, Sat.cells_eq hD.free h2, h2.fresh⟩

theorem t_sto {q : Ptr} {l : List Byte} {m : Mem Byte} {g : Unit → CM δ} (hv : Valid F q l.length) (k : T (bl .heap b m + up F q l) (g ()) Q) :
    T (bl .heap b m + F) (stN (some q) l >>= g) Q := by
  refine t_nd fun hnd => t_run rfl (runs_stN_up hv.right) ?_
  rw [up_frame hnd hv]
  exact k

theorem rdAt {H : C.Heap} {c : Cell} {p : CPtr} {l : List Byte} (h : BytesAt H p l) (ha : Apart p b) (hD : Sat H ({(b, c)} + F)) :
    RdAt F p l.length l := RdAt.rest (h.rdAt hD) ha

theorem rel_runs {w : Bool} {x : List (List ℕ) × ℕ} : Runs (bl .heap b (enc (w, true, x)) + F) (do
    let _ ← getSt (some ⟨b, 0⟩) w true
    cfree .heap (some ⟨b, 0⟩)) () F := by
  refine t_get ?_
  intro H hH
  rw [← bind_pure_unit (x := cfree .heap (some ⟨b, 0⟩))]
  exact t_free (g := fun _ => (pure () : CM Unit)) rfl (t_pure (Q := fun a D => a = () ∧ D = F) ⟨rfl, rfl⟩) H hH

end

/-- The library works. -/
def idealWorks : Works idealLib where
  mem w l := enc (w, false, [nums l], 0)
  out w l p := enc (w, true, [nums l], p)
  mem4 w l0 l1 l2 l3 := enc (w, false, [nums l0, nums l1, nums l2, nums l3], 0)
  out4 w l0 l1 l2 l3 p := enc (w, true, [nums l0, nums l1, nums l2, nums l3], p)
  init w H hf := ⟨H.next, hf _ le_rfl, _, rfl, rfl, by
    obtain ⟨D, hD⟩ := C.sat_exists H hf
    exact (hD.alloc _).fresh⟩
  absorb w H b l p k hf hb hp ha := by
    refine does_of hf hb fun F hD => t_get (t_ld (rdAt hp ha hD).there ?_)
    rw [show nums (l ++ k) = nums l ++ nums k from List.map_append]
    exact set_runs
  finalize w H b l hf hb := does_of hf hb fun F hD => t_get set_runs
  squeeze w H b l p q n hf hb hq ha := by
    obtain ⟨D, hD⟩ := C.sat_exists H hf
    obtain ⟨F, rfl⟩ := split1 hD hb
    have hv := hq.valid hD ha
    have hv' : Valid F q (bytes w l p n).length := by unfold bytes; rwa [tabP_length]
    have h : Runs (bl .heap b (enc (w, true, [nums l], p)) + F) (idealLib.squeeze w (some q) n (some ⟨b, 0⟩)) ()
        (bl .heap b (enc (w, true, [nums l], p + n)) + up F q (bytes w l p n)) := by
      refine t_get (t_sto (l := bytes w (bytesOf (nums l)) p n) ?_ ?_)
      · rw [bytesOf_nums]; exact hv'
      · rw [bytesOf_nums]; exact set_runs
    obtain ⟨_, H', D', h1, h2, -, rfl⟩ := h H hD
    obtain ⟨H1, h3, h4⟩ := sat_store hD hv'.right
    rw [up_frame hD.nodup hv] at h3
    refine ⟨H', h1, ?_, h2.fresh⟩
    rw [← h4]
    exact Sat.cells_eq (h3.put (c' := ⟨.heap, .bytes (enc (w, true, [nums l], p + n))⟩)) h2
  release w H b l p hf hb := does_free hf hb fun F => rel_runs
  init4 w H hf := ⟨H.next, hf _ le_rfl, _, rfl, rfl, by
    obtain ⟨D, hD⟩ := C.sat_exists H hf
    exact (hD.alloc _).fresh⟩
  absorb4 w H b l0 l1 l2 l3 p0 p1 p2 p3 k0 k1 k2 k3 n hf hb e0 e1 e2 e3 h0 h1 h2 h3 a0 a1 a2 a3 := by
    refine does_of hf hb fun F hD => t_get (t_ld (l := k0) (e0 ▸ (rdAt h0 a0 hD).there) (t_ld (l := k1) (e1 ▸ (rdAt h1 a1 hD).there)
      (t_ld (l := k2) (e2 ▸ (rdAt h2 a2 hD).there) (t_ld (l := k3) (e3 ▸ (rdAt h3 a3 hD).there) ?_))))
    have e : ∀ l k, nums (l ++ k) = nums l ++ nums k := fun l k => List.map_append
    rw [e, e, e, e]
    exact set_runs
  finalize4 w H b l0 l1 l2 l3 hf hb := does_of hf hb fun F hD => t_get set_runs
  squeeze4 w H b l0 l1 l2 l3 p q0 q1 q2 q3 n hf hb r0 r1 r2 r3 a0 a1 a2 a3 _ _ _ _ _ _ := by
    obtain ⟨D, hD⟩ := C.sat_exists H hf
    obtain ⟨F, rfl⟩ := split1 hD hb
    have hF : ND F := ND.right (D := bl .heap b (enc (w, true, [nums l0, nums l1, nums l2, nums l3], p))) hD.nodup
    have hl : ∀ M, (bytes w M p n).length = n := fun M => tabP_length ..
    have v0 := r0.valid hD a0
    have v1 := r1.valid hD a1
    have v2 := r2.valid hD a2
    have v3 := r3.valid hD a3
    have u1 := v1.up (l := bytes w l0 p n) (q' := q0) (by rwa [hl]) hF
    have u2 := (v2.up (l := bytes w l0 p n) (q' := q0) (by rwa [hl]) hF).up (l := bytes w l1 p n) (q' := q1) (by rwa [hl]) (hF.up _ _)
    have u3 := ((v3.up (l := bytes w l0 p n) (q' := q0) (by rwa [hl]) hF).up (l := bytes w l1 p n) (q' := q1) (by rwa [hl]) (hF.up _ _)).up
      (l := bytes w l2 p n) (q' := q2) (by rwa [hl]) ((hF.up _ _).up _ _)
    have h : Runs (bl .heap b (enc (w, true, [nums l0, nums l1, nums l2, nums l3], p)) + F)
        (idealLib.squeeze4 w (some q0) (some q1) (some q2) (some q3) n (some ⟨b, 0⟩)) ()
        (bl .heap b (enc (w, true, [nums l0, nums l1, nums l2, nums l3], p + n)) +
          up (up (up (up F q0 (bytes w l0 p n)) q1 (bytes w l1 p n)) q2 (bytes w l2 p n)) q3 (bytes w l3 p n)) := by
      refine t_get ?_
      simp only [List.getD_cons_zero, List.getD_cons_succ, bytesOf_nums]
      exact t_sto (by rwa [hl]) (t_sto (by rwa [hl]) (t_sto (by rwa [hl]) (t_sto (by rwa [hl]) fun H hH => by
        obtain ⟨a, H', D', x, y, -, z⟩ := set_runs H hH
        exact ⟨a, H', D', x, y, trivial, z⟩)))
    obtain ⟨_, H', D', h1, h2, -, rfl⟩ := h H hD
    obtain ⟨H1, c1, e1⟩ := sat_store (l := bytes w l0 p n) hD (by rw [hl]; exact v0.right)
    rw [up_frame hD.nodup v0] at c1
    obtain ⟨H2, c2, e2⟩ := sat_store (l := bytes w l1 p n) c1 (by rw [hl]; exact u1.right)
    rw [up_frame c1.nodup u1] at c2
    obtain ⟨H3, c3, e3⟩ := sat_store (l := bytes w l2 p n) c2 (by rw [hl]; exact u2.right)
    rw [up_frame c2.nodup u2] at c3
    obtain ⟨H4, c4, e4⟩ := sat_store (l := bytes w l3 p n) c3 (by rw [hl]; exact u3.right)
    rw [up_frame c3.nodup u3] at c4
    refine ⟨H', h1, ?_, h2.fresh⟩
    rw [← e1, ← e2, ← e3, ← e4]
    exact Sat.cells_eq (c4.put (c' := ⟨.heap, .bytes (enc (w, true, [nums l0, nums l1, nums l2, nums l3], p + n))⟩)) h2
  release4 w H b l0 l1 l2 l3 p hf hb := does_free hf hb fun F => rel_runs

end Faest.Oqs
