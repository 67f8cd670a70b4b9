/-
random_oracle.c over a library which works as in Spec/Oqs.lean does what the oracles over SHAKE do.
-/
import Verif.Spec.Oqs
import Verif.Proofs.Gen.HSpec
import Verif.Proofs.Gen.HShake

namespace Faest.Oqs
open Faest.C Faest.Props Spec.Oqs
open Spec.Keccak (shakeX)
open Faest.GenH (sel4 ups squeeze_tab sel4_fun At.stN4 Apart4 apart4)

section
variable {D E F : Blocks} {δ : Type} {Q : δ → Blocks → Prop}

theorem sat_cells {H H' : C.Heap} (h : Sat H D) (e : H'.cells = H.cells) (hf : Fresh H') : Sat H' D :=
  ⟨fun i x => by rw [e]; exact h.mem i x, h.nodup, hf⟩

theorem runs_of {p : CM δ} {a : δ} (h : ∀ H, Sat H D → ∃ H1, Sat H1 E ∧ Does H p a H1.cells) : Runs D p a E := by
  intro H hH
  obtain ⟨H1, h1, H', h2, h3, h4⟩ := h H hH
  exact ⟨a, H', E, h2, sat_cells h1 h3 h4, rfl, rfl⟩

theorem sat_new {H : C.Heap} {b : Nat} {c : Cell} (h : Sat H D) (hb : H.cells b = none) :
    ∃ H1, Sat H1 ({(b, c)} + D) ∧ H1.cells = upd H.cells b (some c) := by
  refine ⟨⟨max H.next (b + 1), upd H.cells b (some c)⟩, ⟨fun i x => ?_, ?_, fun i hi => ?_⟩, rfl⟩
  · simp only [upd, Multiset.singleton_add, Multiset.mem_cons, Prod.mk.injEq]
    by_cases e : i = b
    · subst e
      rw [if_pos rfl, ← h.mem, hb]
      simp [eq_comm]
    · rw [if_neg e, h.mem]
      simp [e]
  · rw [Multiset.map_add, Multiset.map_singleton, Multiset.singleton_add, Multiset.nodup_cons]
    refine ⟨fun hm => ?_, h.nodup⟩
    obtain ⟨⟨i, x⟩, h1, h2⟩ := Multiset.mem_map.1 hm
    obtain rfl : i = b := h2
    rw [(h.mem _ _).2 h1] at hb
    cases hb
  · have : b + 1 ≤ i ∧ H.next ≤ i := by
      have : max H.next (b + 1) ≤ i := hi
      omega
    show upd H.cells b (some c) i = none
    rw [upd, if_neg (by omega)]
    exact h.fresh _ this.2

theorem sat_store {H : C.Heap} {q : Ptr} {l : List Byte} (h : Sat H D) (hv : Valid D q l.length) :
    ∃ H1, Sat H1 (up D q l) ∧ H1.cells = store H.cells q l := by
  obtain ⟨_, H1, D', -, h2, -, rfl⟩ := runs_stN_up hv H h
  exact ⟨H1, h2, cells_up h h2 hv⟩

theorem bytesAt {H : C.Heap} {b : Nat} {c : Cell} {p : CPtr} {n : Nat} {l : List Byte} (h : RdAt F p n l) (hH : Sat H ({(b, c)} + F)) :
    BytesAt H p l ∧ Apart p b ∧ l.length = n := by
  obtain ⟨b', o, kd, m, rfl, hm, hr⟩ := h
  have hl := rdN_length hr
  have hle := rdN_le hr
  have hm' := (Multiset.mem_add (s := {(b, c)})).2 (Or.inr hm)
  refine ⟨⟨b', o, kd, m, rfl, (hH.mem _ _).2 hm', by omega, fun i hi => ?_⟩, ?_, hl⟩
  · have := rd_of_rdN hr (t := i) (by omega)
    unfold rd at this
    rw [List.getElem?_eq_getElem hi] at this
    cases e : m[o + i]? with
    | none => rw [e] at this; cases this
    | some y =>
      rw [e] at this
      rw [show y = some l[i] from this]
  · rintro q hq e
    obtain rfl := Option.some.inj hq
    have e : b' = b := e
    subst e
    exact ND.disj (D := {(b', c)}) hH.nodup (Multiset.mem_singleton.2 rfl) hm

theorem room {H : C.Heap} {b : Nat} {c : Cell} {q : Ptr} {n : Nat} (h : Valid F q n) (hH : Sat H ({(b, c)} + F)) :
    Room H q n ∧ q.blk ≠ b := by
  obtain ⟨kd, m, hm, hl⟩ := h
  refine ⟨⟨kd, m, (hH.mem _ _).2 (Multiset.mem_add.2 (Or.inr hm)), hl⟩, fun e => ?_⟩
  subst e
  exact ND.disj (D := {(q.blk, c)}) hH.nodup (Multiset.mem_singleton.2 rfl) hm

theorem at_ldN {p : CPtr} {n : Nat} {g : List Byte → CM δ} (h : C.At F (ldN p n >>= g) Q) : ∃ l, RdAt F p n l ∧ C.At F (g l) Q := by
  obtain ⟨H, hH, b, H', D', hr, hs, hq⟩ := h
  cases p with
  | none => cases hr
  | some q =>
    unfold C.ldN C.blk at hr
    cases hc : H.cells q.blk with
    | none =>
      exfalso
      simp [bind, StateT.bind, C.lft, hc] at hr
    | some c =>
      obtain ⟨kd, d⟩ := c
      cases d with
      | bytes m =>
        have hm := (hH.mem _ _).1 hc
        have hg : (Ty.get (Data.bytes m) : Option (Mem Byte)) = some m := rfl
        cases hl : rdN m q.off n with
        | none =>
          exfalso
          simp [bind, StateT.bind, C.lft, hc, hg, hl] at hr
        | some l =>
          refine ⟨l, ⟨q.blk, q.off, kd, m, rfl, hm, hl⟩, H, hH, b, H', D', ?_, hs, hq⟩
          simpa [bind, StateT.bind, C.lft, hc, hg, hl] using hr
      | _ =>
        exfalso
        simp [bind, StateT.bind, C.lft, hc, Ty.get] at hr

end

section
variable {L : Lib} (S : Works L) {F : Blocks} {w : Bool} {b : Nat}

/-- A context in use. -/
def live (w : Bool) (b : Nat) : Ctx := ⟨some (w, some ⟨b, 0⟩), some (if w then 1 else 0)⟩

theorem own_mem {H : C.Heap} {m : Mem Byte} (hH : Sat H (bl .heap b m + F)) : H.cells b = own m :=
  (hH.mem _ _).2 (Multiset.mem_add.2 (Or.inl (Multiset.mem_singleton.2 rfl)))

theorem init_t (sp : Nat) (c : Ctx) : T F (hash_init L c sp) fun c' D' => ∃ b, c' = live (decide (sp ≠ 128)) b ∧
    D' = bl .heap b (S.mem (decide (sp ≠ 128)) []) + F := by
  have key : ∀ w, T F (L.init w) fun p D' => ∃ b, p = some ⟨b, 0⟩ ∧ D' = bl .heap b (S.mem w []) + F := by
    intro w H hH
    obtain ⟨b, h1, H', h2, h3, h4⟩ := S.init w H hH.fresh
    obtain ⟨H1, h5, h6⟩ := sat_new (c := ⟨.heap, .bytes (S.mem w [])⟩) hH h1
    exact ⟨_, H', _, h2, sat_cells h5 (h3.trans h6.symm) h4, b, rfl, rfl⟩
  unfold hash_init
  by_cases e : sp = 128
  · rw [if_pos e]
    refine t_call rfl (key false) ?_
    rintro p D' ⟨b, rfl, rfl⟩
    refine t_pure ⟨b, ?_, ?_⟩ <;> simp [e, live]
  · rw [if_neg e]
    refine t_call rfl (key true) ?_
    rintro p D' ⟨b, rfl, rfl⟩
    refine t_pure ⟨b, ?_, ?_⟩ <;> simp [e, live]

theorem init4_t (sp : Nat) (c : Ctx) : T F (hash_init_x4 L c sp) fun c' D' => ∃ b, c' = live (decide (sp ≠ 128)) b ∧
    D' = bl .heap b (S.mem4 (decide (sp ≠ 128)) [] [] [] []) + F := by
  have key : ∀ w, T F (L.init4 w) fun p D' => ∃ b, p = some ⟨b, 0⟩ ∧ D' = bl .heap b (S.mem4 w [] [] [] []) + F := by
    intro w H hH
    obtain ⟨b, h1, H', h2, h3, h4⟩ := S.init4 w H hH.fresh
    obtain ⟨H1, h5, h6⟩ := sat_new (c := ⟨.heap, .bytes (S.mem4 w [] [] [] [])⟩) hH h1
    exact ⟨_, H', _, h2, sat_cells h5 (h3.trans h6.symm) h4, b, rfl, rfl⟩
  unfold hash_init_x4
  by_cases e : sp = 128
  · rw [if_pos e]
    refine t_call rfl (key false) ?_
    rintro p D' ⟨b, rfl, rfl⟩
    refine t_pure ⟨b, ?_, ?_⟩ <;> simp [e, live]
  · rw [if_neg e]
    refine t_call rfl (key true) ?_
    rintro p D' ⟨b, rfl, rfl⟩
    refine t_pure ⟨b, ?_, ?_⟩ <;> simp [e, live]

theorem upd_t {M l : List Byte} {p : CPtr} {n : Nat} (h : RdAt F p n l) :
    Runs (bl .heap b (S.mem w M) + F) (hash_update L (live w b) p n) () (bl .heap b (S.mem w (M ++ l)) + F) := by
  have key : Runs (bl .heap b (S.mem w M) + F) (L.absorb w (some ⟨b, 0⟩) p n) () (bl .heap b (S.mem w (M ++ l)) + F) := by
    refine runs_of fun H hH => ?_
    obtain ⟨h1, h2, rfl⟩ := bytesAt h hH
    exact ⟨_, Sat.put (c' := ⟨.heap, .bytes (S.mem w (M ++ l))⟩) hH, S.absorb w H b M p l hH.fresh (own_mem hH) h1 h2⟩
  cases w <;> exact key

theorem fin_t {M : List Byte} :
    Runs (bl .heap b (S.mem w M) + F) (hash_final L (live w b)) () (bl .heap b (S.out w M 0) + F) := by
  have key : Runs (bl .heap b (S.mem w M) + F) (L.finalize w (some ⟨b, 0⟩)) () (bl .heap b (S.out w M 0) + F) :=
    runs_of fun H hH => ⟨_, Sat.put (c' := ⟨.heap, .bytes (S.out w M 0)⟩) hH, S.finalize w H b M hH.fresh (own_mem hH)⟩
  cases w <;> exact key

theorem sq_t {M : List Byte} {k n : Nat} {q : Ptr} (hv : Valid F q n) :
    Runs (bl .heap b (S.out w M k) + F) (hash_squeeze L (live w b) (some q) n) ()
      (bl .heap b (S.out w M (k + n)) + up F q (tabP n fun j => shakeX (sel w) M (k + j))) := by
  have key : Runs (bl .heap b (S.out w M k) + F) (L.squeeze w (some q) n (some ⟨b, 0⟩)) ()
      (bl .heap b (S.out w M (k + n)) + up F q (bytes w M k n)) := by
    refine runs_of fun H hH => ?_
    obtain ⟨h1, h2⟩ := room hv hH
    have hv' : Valid F q (bytes w M k n).length := by unfold bytes; rwa [tabP_length]
    obtain ⟨H1, h3, h4⟩ := sat_store hH hv'.right
    rw [up_frame hH.nodup hv] at h3
    refine ⟨_, Sat.put (c' := ⟨.heap, .bytes (S.out w M (k + n))⟩) h3, ?_⟩
    have := S.squeeze w H b M k q n hH.fresh (own_mem hH) h1 h2
    rw [← h4] at this
    exact this
  cases w <;> exact key

theorem rel_t {M : List Byte} {k : Nat} :
    Runs (bl .heap b (S.out w M k) + F) (hash_clear L (live w b)) ⟨none, (live w b).shake256⟩ F := by
  have key : Runs (bl .heap b (S.out w M k) + F) (L.release w (some ⟨b, 0⟩)) () F :=
    runs_of fun H hH => ⟨_, Sat.free hH, S.release w H b M k hH.fresh (own_mem hH)⟩
  have e : ∀ w, hash_clear L (live w b) = (L.release w (some ⟨b, 0⟩) >>= fun _ => pure ⟨none, (live w b).shake256⟩) := by
    intro w
    cases w <;> rfl
  rw [e]
  exact t_run rfl key (t_pure ⟨rfl, rfl⟩)

theorem upd4_t {M0 M1 M2 M3 l0 l1 l2 l3 : List Byte} {p0 p1 p2 p3 : CPtr} {n : Nat} (h0 : RdAt F p0 n l0) (h1 : RdAt F p1 n l1)
    (h2 : RdAt F p2 n l2) (h3 : RdAt F p3 n l3) :
    Runs (bl .heap b (S.mem4 w M0 M1 M2 M3) + F) (hash_update_x4_4 L (live w b) p0 p1 p2 p3 n) ()
      (bl .heap b (S.mem4 w (M0 ++ l0) (M1 ++ l1) (M2 ++ l2) (M3 ++ l3)) + F) := by
  have key : Runs (bl .heap b (S.mem4 w M0 M1 M2 M3) + F) (L.absorb4 w (some ⟨b, 0⟩) p0 p1 p2 p3 n) ()
      (bl .heap b (S.mem4 w (M0 ++ l0) (M1 ++ l1) (M2 ++ l2) (M3 ++ l3)) + F) := by
    refine runs_of fun H hH => ?_
    obtain ⟨a0, b0, e0⟩ := bytesAt h0 hH
    obtain ⟨a1, b1, e1⟩ := bytesAt h1 hH
    obtain ⟨a2, b2, e2⟩ := bytesAt h2 hH
    obtain ⟨a3, b3, e3⟩ := bytesAt h3 hH
    exact ⟨_, Sat.put (c' := ⟨.heap, .bytes (S.mem4 w (M0 ++ l0) (M1 ++ l1) (M2 ++ l2) (M3 ++ l3))⟩) hH,
      S.absorb4 w H b M0 M1 M2 M3 p0 p1 p2 p3 l0 l1 l2 l3 n hH.fresh (own_mem hH) e0 e1 e2 e3 a0 a1 a2 a3 b0 b1 b2 b3⟩
  cases w <;> exact key

theorem upd4_1_t {M0 M1 M2 M3 l : List Byte} {p : CPtr} {n : Nat} (h : RdAt F p n l) :
    Runs (bl .heap b (S.mem4 w M0 M1 M2 M3) + F) (hash_update_x4_1 L (live w b) p n) ()
      (bl .heap b (S.mem4 w (M0 ++ l) (M1 ++ l) (M2 ++ l) (M3 ++ l)) + F) := by
  have := upd4_t S (w := w) (b := b) (M0 := M0) (M1 := M1) (M2 := M2) (M3 := M3) h h h h
  cases w <;> exact this

theorem fin4_t {M0 M1 M2 M3 : List Byte} :
    Runs (bl .heap b (S.mem4 w M0 M1 M2 M3) + F) (hash_final_x4 L (live w b)) () (bl .heap b (S.out4 w M0 M1 M2 M3 0) + F) := by
  have key : Runs (bl .heap b (S.mem4 w M0 M1 M2 M3) + F) (L.finalize4 w (some ⟨b, 0⟩)) () (bl .heap b (S.out4 w M0 M1 M2 M3 0) + F) :=
    runs_of fun H hH => ⟨_, Sat.put (c' := ⟨.heap, .bytes (S.out4 w M0 M1 M2 M3 0)⟩) hH, S.finalize4 w H b M0 M1 M2 M3 hH.fresh (own_mem hH)⟩
  cases w <;> exact key

theorem sq4_t {M0 M1 M2 M3 : List Byte} {k n : Nat} {q0 q1 q2 q3 : Ptr} (hv : ∀ j, j < 4 → Valid F (sel4 q0 q1 q2 q3 j) n)
    (ha : ∀ i j, i < 4 → j < 4 → i ≠ j → C.Apart (sel4 q0 q1 q2 q3 i) n (sel4 q0 q1 q2 q3 j) n) :
    Runs (bl .heap b (S.out4 w M0 M1 M2 M3 k) + F) (hash_squeeze_x4_4 L (live w b) (some q0) (some q1) (some q2) (some q3) n) ()
      (bl .heap b (S.out4 w M0 M1 M2 M3 (k + n)) +
        ups 4 F (sel4 q0 q1 q2 q3) (fun j => tabP n fun t => shakeX (sel w) (sel4 M0 M1 M2 M3 j) (k + t))) := by
  have key : Runs (bl .heap b (S.out4 w M0 M1 M2 M3 k) + F) (L.squeeze4 w (some q0) (some q1) (some q2) (some q3) n (some ⟨b, 0⟩)) ()
      (bl .heap b (S.out4 w M0 M1 M2 M3 (k + n)) +
        up (up (up (up F q0 (bytes w M0 k n)) q1 (bytes w M1 k n)) q2 (bytes w M2 k n)) q3 (bytes w M3 k n)) := by
    refine runs_of fun H hH => ?_
    have hF : ND F := ND.right (D := bl .heap b (S.out4 w M0 M1 M2 M3 k)) hH.nodup
    have hl : ∀ M, (bytes w M k n).length = n := fun M => tabP_length ..
    have v0 : Valid F q0 n := hv 0 (by omega)
    have v1 : Valid F q1 n := hv 1 (by omega)
    have v2 : Valid F q2 n := hv 2 (by omega)
    have v3 : Valid F q3 n := hv 3 (by omega)
    have u1 := v1.up (l := bytes w M0 k n) (q' := q0) (by rwa [hl]) hF
    have u2 := (v2.up (l := bytes w M0 k n) (q' := q0) (by rwa [hl]) hF).up (l := bytes w M1 k n) (q' := q1) (by rwa [hl]) (hF.up _ _)
    have u3 := ((v3.up (l := bytes w M0 k n) (q' := q0) (by rwa [hl]) hF).up (l := bytes w M1 k n) (q' := q1) (by rwa [hl]) (hF.up _ _)).up
      (l := bytes w M2 k n) (q' := q2) (by rwa [hl]) ((hF.up _ _).up _ _)
    obtain ⟨r0, s0⟩ := room v0 hH
    obtain ⟨r1, s1⟩ := room v1 hH
    obtain ⟨r2, s2⟩ := room v2 hH
    obtain ⟨r3, s3⟩ := room v3 hH
    obtain ⟨H1, c1, e1⟩ := sat_store (l := bytes w M0 k n) hH (by rw [hl]; exact v0.right)
    rw [up_frame hH.nodup v0] at c1
    obtain ⟨H2, c2, e2⟩ := sat_store (l := bytes w M1 k n) c1 (by rw [hl]; exact u1.right)
    rw [up_frame c1.nodup u1] at c2
    obtain ⟨H3, c3, e3⟩ := sat_store (l := bytes w M2 k n) c2 (by rw [hl]; exact u2.right)
    rw [up_frame c2.nodup u2] at c3
    obtain ⟨H4, c4, e4⟩ := sat_store (l := bytes w M3 k n) c3 (by rw [hl]; exact u3.right)
    rw [up_frame c3.nodup u3] at c4
    refine ⟨_, Sat.put (c' := ⟨.heap, .bytes (S.out4 w M0 M1 M2 M3 (k + n))⟩) c4, ?_⟩
    have := S.squeeze4 w H b M0 M1 M2 M3 k q0 q1 q2 q3 n hH.fresh (own_mem hH) r0 r1 r2 r3 s0 s1 s2 s3
      (ha 0 1 (by omega) (by omega) (by omega)) (ha 0 2 (by omega) (by omega) (by omega)) (ha 0 3 (by omega) (by omega) (by omega))
      (ha 1 2 (by omega) (by omega) (by omega)) (ha 1 3 (by omega) (by omega) (by omega)) (ha 2 3 (by omega) (by omega) (by omega))
    rw [← e1, ← e2, ← e3, ← e4] at this
    exact this
  cases w <;> exact key

theorem rel4_t {M0 M1 M2 M3 : List Byte} {k : Nat} :
    Runs (bl .heap b (S.out4 w M0 M1 M2 M3 k) + F) (hash_clear_x4 L (live w b)) ⟨none, (live w b).shake256⟩ F := by
  have key : Runs (bl .heap b (S.out4 w M0 M1 M2 M3 k) + F) (L.release4 w (some ⟨b, 0⟩)) () F :=
    runs_of fun H hH => ⟨_, Sat.free hH, S.release4 w H b M0 M1 M2 M3 k hH.fresh (own_mem hH)⟩
  have e : ∀ w, hash_clear_x4 L (live w b) = (L.release4 w (some ⟨b, 0⟩) >>= fun _ => pure ⟨none, (live w b).shake256⟩) := by
    intro w
    cases w <;> rfl
  rw [e]
  exact t_run rfl key (t_pure ⟨rfl, rfl⟩)

/-! ### The oracles -/

/-- The variant of SHAKE. -/
def wide (lam : Nat) : Bool := decide ((if lam = 128 then 128 else 256) ≠ 128)

theorem sel_wide (lam : Nat) : sel (wide lam) = hashSel lam := by
  unfold sel wide hashSel
  by_cases e : lam = 128 <;> simp [e]

def oVal (b lam : Nat) (_ : List Byte) : Ctx := live (wide lam) b

def oBlk (b lam : Nat) (l : List Byte) : Blocks := bl .heap b (S.mem (wide lam) l)

def oRaw (_ : Ctx) (D0 : Blocks) : Prop := D0 = 0

def oLive4 (lam : Nat) (l0 l1 l2 l3 : List Byte) (c : Ctx) (D0 : Blocks) : Prop :=
  ∃ b, c = live (wide lam) b ∧ D0 = bl .heap b (S.mem4 (wide lam) l0 l1 l2 l3)

theorem oInit : IsInit oRaw oVal (oBlk S) (H_init L) := by
  rintro c D0 F lam rfl
  rw [zero_add]
  exact init_t S _ c

theorem oUpd : IsUpd oVal (oBlk S) (fun _ _ _ => True) (H_update L) := by
  intro b lam n l l' p F hr _
  refine t_at hr fun hat => ?_
  obtain ⟨s, hs, hat⟩ := hat.lft
  obtain rfl := Option.some.inj hs
  obtain ⟨k, hk, hat⟩ := at_ldN hat
  obtain ⟨e, -⟩ := hat.pure
  have e' : l ++ k = l' := congrArg Prod.snd (Option.some.inj (HCtx.mk.inj e))
  subst e'
  exact t_run rfl (upd_t S hk) (t_pure ⟨rfl, rfl⟩)

/-- The domain separation byte and the end of the input. -/
theorem close_t {δ : Type} {Q : δ → Blocks → Prop} {M : List Byte} {v : Byte} {g : CPtr → CM δ}
    (k : ∀ i, T (bl .heap b (S.out w (M ++ [v]) 0) + (bl .stack i (ofList [v]) + F)) (g (some ⟨i, 0⟩)) Q) :
    T (bl .heap b (S.mem w M) + F) (alloc .stack (malloc 1 : Mem Byte) >>= fun p => st p 0 v >>= fun _ =>
      hash_update L (live w b) p 1 >>= fun _ => hash_final L (live w b) >>= fun _ => g p) Q := by
  refine t_alloc fun i => ?_
  refine t_st rfl (m' := ofList [v]) rfl ?_
  refine t_run (add_left_comm _ _ _) (upd_t S (l := [v]) ⟨i, 0, .stack, ofList [v], rfl, mem_bl, rfl⟩) ?_
  exact t_run rfl (fin_t S) (k i)

theorem sq_b {δ : Type} {Q : δ → Blocks → Prop} {M : List Byte} {i k n : Nat} {q : Ptr} {m : Mem Byte} {g : Unit → CM δ} (hv : Valid F q n)
    (h : T (bl .heap b (S.out w M (k + n)) + (bl .stack i m + up F q (tabP n fun j => shakeX (sel w) M (k + j)))) (g ()) Q) :
    T (bl .heap b (S.out w M k) + (bl .stack i m + F)) (hash_squeeze L (live w b) (some q) n >>= g) Q := by
  refine t_nd fun hnd => t_run rfl (sq_t S hv.right) ?_
  rw [up_frame hnd.right hv]
  exact h

theorem end_t {M : List Byte} {i k : Nat} {m : Mem Byte} {F' : Blocks} (hF : F = F') :
    T (bl .heap b (S.out w M k) + (bl .stack i m + F)) (hash_clear L (live w b) >>= fun c => cfree .stack (some ⟨i, 0⟩) >>= fun _ => pure c)
      fun c' D' => ∃ D0, oRaw c' D0 ∧ D' = D0 + F' := by
  subst hF
  exact t_run rfl (rel_t S) (t_free rfl (t_pure ⟨0, rfl, (zero_add _).symm⟩))

theorem oFin1 (b lam : Nat) (l : List Byte) (p : CPtr) (n : Nat) :
    IsFin oRaw oVal (oBlk S) (fun c => H1_final L c p n) (fun a => C.H1_final shakeX a p n) b lam l := by
  intro F F' hr
  refine t_at hr fun hat => ?_
  obtain ⟨s, hs, hat⟩ := hat.lft
  obtain rfl := Option.some.inj hs
  obtain ⟨q, rfl, hv, hat⟩ := hat.stN
  obtain ⟨-, rfl⟩ := hat.pure
  unfold Faest.H1 at hv ⊢
  rw [squeeze_tab] at hv ⊢
  rw [tabP_length] at hv
  refine close_t S fun i => sq_b S hv (end_t S ?_)
  rw [sel_wide]

theorem oFin2 (b lam : Nat) (l : List Byte) (p : CPtr) (n : Nat) :
    IsFin oRaw oVal (oBlk S) (fun c => H2_final L c p n) (fun a => C.H2_final shakeX a p n) b lam l := by
  intro F F' hr
  refine t_at hr fun hat => ?_
  obtain ⟨s, hs, hat⟩ := hat.lft
  obtain rfl := Option.some.inj hs
  obtain ⟨q, rfl, hv, hat⟩ := hat.stN
  obtain ⟨-, rfl⟩ := hat.pure
  unfold Faest.H2 at hv ⊢
  rw [squeeze_tab] at hv ⊢
  rw [tabP_length] at hv
  refine close_t S fun i => sq_b S hv (end_t S ?_)
  rw [sel_wide]

theorem oFin0 (b lam : Nat) (l : List Byte) (p p' : CPtr) (n n' : Nat) :
    IsFin oRaw oVal (oBlk S) (fun c => H0_final L c p n p' n') (fun a => C.H0_final shakeX a p n p' n') b lam l := by
  intro F F' hr
  refine t_at hr fun hat => ?_
  obtain ⟨s, hs, hat⟩ := hat.lft
  obtain rfl := Option.some.inj hs
  obtain ⟨q, rfl, hv, hat⟩ := hat.stN
  obtain ⟨q', rfl, hv', hat⟩ := hat.stN
  obtain ⟨-, rfl⟩ := hat.pure
  unfold Faest.H0 at hv hv' ⊢
  dsimp only at hv hv' ⊢
  rw [squeeze_tab] at hv hv' ⊢
  rw [tabP_length] at hv
  rw [squeeze_tab] at hv' ⊢
  rw [tabP_length] at hv'
  rw [← sel_wide] at hv' ⊢
  refine close_t S fun i => sq_b S hv ?_
  simp only [Nat.zero_add] at hv' ⊢
  exact sq_b S hv' (end_t S rfl)

theorem oFin3 (b lam : Nat) (l : List Byte) (p p' : CPtr) (n : Nat) :
    IsFin oRaw oVal (oBlk S) (fun c => H3_final L c p n p') (fun a => C.H3_final shakeX a p n p') b lam l := by
  intro F F' hr
  refine t_at hr fun hat => ?_
  obtain ⟨s, hs, hat⟩ := hat.lft
  obtain rfl := Option.some.inj hs
  obtain ⟨q, rfl, hv, hat⟩ := hat.stN
  obtain ⟨q', rfl, hv', hat⟩ := hat.stN
  obtain ⟨-, rfl⟩ := hat.pure
  unfold Faest.H3 at hv hv' ⊢
  dsimp only at hv hv' ⊢
  rw [squeeze_tab] at hv hv' ⊢
  rw [tabP_length] at hv
  rw [squeeze_tab] at hv' ⊢
  rw [tabP_length] at hv'
  rw [← sel_wide] at hv' ⊢
  refine close_t S fun i => sq_b S hv ?_
  simp only [Nat.zero_add] at hv' ⊢
  exact sq_b S hv' (end_t S rfl)

/-- random_oracle.c over the library meets the interface, for inputs of any length. -/
def oqsSpec : HSpec (impl L) shakeX where
  Raw := oRaw
  val := oVal
  blk := oBlk S
  Raw4 := oRaw
  Live4 := oLive4 S
  fits := fun _ _ _ => True
  fits_small := fun _ => trivial
  new := fun D => t_pure ⟨0, rfl, (zero_add _).symm⟩
  drop := by
    rintro c D0 D rfl
    exact t_pure (zero_add _)
  new4 := fun D => t_pure ⟨0, rfl, (zero_add _).symm⟩
  drop4 := by
    rintro c D0 D rfl
    exact t_pure (zero_add _)
  init0 := oInit S
  init1 := oInit S
  init2 := oInit S
  init3 := oInit S
  upd0 := oUpd S
  upd1 := oUpd S
  upd2 := oUpd S
  upd3 := oUpd S
  fin0 := fun b lam l p p' n n' _ _ => oFin0 S b lam l p p' n n'
  fin1 := fun b lam l p n _ => oFin1 S b lam l p n
  fin2 := fun b lam l p n _ => oFin2 S b lam l p n
  fin3 := fun b lam l p p' n _ => oFin3 S b lam l p p' n
  init4 := by
    rintro c D0 F lam rfl
    rw [zero_add]
    refine t_mono (init4_t S _ c) ?_
    rintro c' D' ⟨b, rfl, rfl⟩
    exact ⟨_, ⟨b, rfl, rfl⟩, rfl⟩
  upd4 := by
    rintro c D0 F lam n l0 l1 l2 l3 k0 k1 k2 k3 p0 p1 p2 p3 ⟨b, rfl, rfl⟩ - hr
    refine t_at hr fun hat => ?_
    obtain ⟨s, hs, hat⟩ := hat.lft
    obtain rfl := Option.some.inj hs
    obtain ⟨j0, h0, hat⟩ := at_ldN hat
    obtain ⟨j1, h1, hat⟩ := at_ldN hat
    obtain ⟨j2, h2, hat⟩ := at_ldN hat
    obtain ⟨j3, h3, hat⟩ := at_ldN hat
    obtain ⟨e, -⟩ := hat.pure
    have e' := Option.some.inj (HCtx4.mk.inj e)
    simp only [Prod.mk.injEq, true_and] at e'
    obtain ⟨rfl, rfl, rfl, rfl⟩ := e'
    exact t_run rfl (upd4_t S h0 h1 h2 h3) (t_pure ⟨_, ⟨b, rfl, rfl⟩, rfl⟩)
  fin4 := by
    rintro c D0 F F' lam n n' l0 l1 l2 l3 a b oa0 oa1 oa2 oa3 ob0 ob1 ob2 ob3 ⟨s, rfl, rfl⟩ - - h1 h2 h3 h4 h5 h6 hr
    refine t_nd fun hnd => ?_
    have hF := hnd.right
    refine t_at hr fun hat => ?_
    obtain ⟨x, hx, hat⟩ := hat.lft
    obtain rfl := Option.some.inj hx
    dsimp only at hat
    generalize hR : H0x4 shakeX lam _ n n' = R at hat
    have hR1 : ∀ j, (R j).1 = tabP n fun t => shakeX (sel (wide lam)) (sel4 (l0 ++ [0]) (l1 ++ [0]) (l2 ++ [0]) (l3 ++ [0]) j) (0 + t) := by
      intro j
      have : (sel4 (l0 ++ [0]) (l1 ++ [0]) (l2 ++ [0]) (l3 ++ [0]) j : List Byte) = sel4 l0 l1 l2 l3 j ++ [0] := by
        unfold sel4; split_ifs <;> rfl
      rw [← hR, sel_wide, this]; rfl
    have hR2 : ∀ j, (R j).2 = tabP n' fun t => shakeX (sel (wide lam)) (sel4 (l0 ++ [0]) (l1 ++ [0]) (l2 ++ [0]) (l3 ++ [0]) j) (0 + n + t) := by
      intro j
      have : (sel4 (l0 ++ [0]) (l1 ++ [0]) (l2 ++ [0]) (l3 ++ [0]) j : List Byte) = sel4 l0 l1 l2 l3 j ++ [0] := by
        unfold sel4; split_ifs <;> rfl
      rw [← hR, sel_wide, this, Nat.zero_add]; rfl
    clear hR
    obtain ⟨q0, q1, q2, q3, e0, e1, e2, e3, hv, hat⟩ := At.stN4 (n := n) hat
      (fun j hj => by rw [sel4_fun (fun j => (R j).1) hj, hR1, tabP_length]) hF
    obtain rfl := Option.some.inj e0
    obtain rfl := Option.some.inj e1
    obtain rfl := Option.some.inj e2
    obtain rfl := Option.some.inj e3
    rw [GenH.ups_congr fun j hj => (sel4_fun (fun j => (R j).1) hj).trans (hR1 j)] at hat
    obtain ⟨r0, r1, r2, r3, e0, e1, e2, e3, hv', hat⟩ := At.stN4 (n := n') hat
      (fun j hj => by rw [sel4_fun (fun j => (R j).2) hj, hR2, tabP_length]) (GenH.ND.ups hF _ _ _)
    obtain rfl := Option.some.inj e0
    obtain rfl := Option.some.inj e1
    obtain rfl := Option.some.inj e2
    obtain rfl := Option.some.inj e3
    rw [GenH.ups_congr fun j hj => (sel4_fun (fun j => (R j).2) hj).trans (hR2 j)] at hat
    obtain ⟨-, rfl⟩ := hat.pure
    show T _ (H0_x4_final L _ _ _ _ _ _ _ _ _ _ _) _
    unfold H0_x4_final
    refine t_alloc fun i => ?_
    refine t_st rfl (m' := ofList [(0 : Byte)]) rfl ?_
    refine t_run (add_left_comm _ _ _) (upd4_1_t S (l := [0]) ⟨i, 0, .stack, ofList [0], rfl, mem_bl, rfl⟩) ?_
    refine t_run rfl (fin4_t S) ?_
    refine t_nd fun hnd2 => ?_
    refine t_run rfl (sq4_t S (fun j hj => (hv j hj).right) (apart4 h1 h2 h3).get) ?_
    rw [GenH.up_ups hnd2.right (fun j hj => by rw [tabP_length]; exact hv j hj)]
    refine t_nd fun hnd3 => ?_
    refine t_run rfl (sq4_t S (fun j hj => (hv' j hj).right) (apart4 h4 h5 h6).get) ?_
    rw [GenH.up_ups hnd3.right (fun j hj => by rw [tabP_length]; exact hv' j hj)]
    exact t_run rfl (rel4_t S) (t_free rfl (t_pure ⟨0, rfl, (zero_add _).symm⟩))

end

end Faest.Oqs
