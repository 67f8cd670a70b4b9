/-
Which hidden strings give a signature.
-/
import Verif.Proofs.Given

namespace Faest
open Spec

theorem At.append {sg : Nat → Byte} {off off' : Nat} {l l' : List Byte} (h : At sg off l) (h' : At sg off' l')
    (ho : off + l.length = off') : At sg off (l ++ l') := by
  subst ho
  intro i hi
  by_cases hl : i < l.length
  · rw [List.getElem?_append_left hl, h i hl]
  · rw [List.getElem?_append_right (by omega), h' (i - l.length) (by rw [List.length_append] at hi; omega)]
    congr 2
    omega

theorem At.flatten' {sg : Nat → Byte} {f : Nat → List Byte} {off : Nat → Nat} (n : Nat)
    (hs : ∀ i, i < n → off i + (f i).length = off (i + 1)) (h : ∀ i, i < n → At sg (off i) (f i)) :
    At sg (off 0) (Faest.tabP n f).flatten ∧ off 0 + (Faest.tabP n f).flatten.length = off n := by
  induction n with
  | zero => exact ⟨fun i hi => absurd hi (Nat.not_lt_zero i), rfl⟩
  | succ n ih =>
    obtain ⟨h1, h2⟩ := ih (fun i hi => hs i (by omega)) (fun i hi => h i (by omega))
    rw [flatten_tabP_succ]
    exact ⟨h1.append (h n (by omega)) h2, by rw [List.length_append, ← Nat.add_assoc, h2, hs n (by omega)]⟩

theorem At.of_list {l : List Byte} : At (byteFn l) 0 l := fun i hi => by
  rw [Nat.zero_add]; exact byteFn_getElem? rfl hi

theorem At.list_eq {l l' : List Byte} (h : At (byteFn l) 0 l') (hl : l'.length = l.length) : l' = l := by
  have := h.tabP hl
  simp only [Nat.zero_add] at this
  rw [← this, tabP_byteFn]

theorem xsum_hole {N k : Nat} (hk : k < N) (a : Byte) (f : Nat → Byte) :
    xsum N (fun j => if j = k then a else f j) = a ^^^ xsum N (fun j => if j = k then 0 else f j) := by
  have e : (fun j => if j = k then a else f j)
      = fun j => (if j = k then a else 0) ^^^ (if j = k then 0 else f j) := by
    funext j
    split
    · exact BitVec.xor_zero.symm
    · exact BitVec.zero_xor.symm
  rw [e, xsum_xor]
  congr 1
  clear e
  induction N with
  | zero => omega
  | succ N ih =>
    rw [xsum]
    by_cases h : N = k
    · subst h
      have : xsum N (fun j => if j = N then a else 0) = xsum N fun _ => 0 := xsum_congr fun j hj => if_neg (by omega)
      rw [this, xsum_zero, if_pos rfl]
      exact BitVec.zero_xor
    · rw [ih (by omega), if_neg h]
      exact BitVec.xor_zero

section
variable {X : XOF} {P : Params} {key I O : Nat → Byte} {m iv : List Byte} {R : Nat → Nat → Nat → Byte}
  {C : Nat → Nat → List Byte} {op : List Byte → Nat → List Byte} {sg : Nat → Byte}

theorem gChall3_length : (gChall3 X P key I O m iv R C).length = P.lambda / 8 := ro_length ..

/-- The components of a signature. -/
structure GComps (X : XOF) (P : Params) (key I O : Nat → Byte) (m iv : List Byte) (R : Nat → Nat → Nat → Byte)
    (C : Nat → Nat → List Byte) (op : List Byte → Nat → List Byte) (sg : Nat → Byte) : Prop where
  c : At sg 0 (gCorrs P R)
  u : At sg (posU P) (tabP (P.lambda / 8 + 2) (gUt X P I O m iv R C))
  d : At sg (posD P) (tabP (P.l / 8) (gD P key I R))
  a : At sg (posA P) (gA X P key I O m iv R C).toBytes
  n : ∀ i, i < P.tau → At sg (posTree P i) (op (gChall3 X P key I O m iv R C) i)
  k : ∀ i, i < P.tau → At sg (posCom P i) (C i (leafIdx P (byteFn (gChall3 X P key I O m iv R C)) i))
  ch : At sg (posChall P) (gChall3 X P key I O m iv R C)
  iv : At sg (posIv P) iv

variable (hop : ∀ ch i, i < P.tau → (op ch i).length = P.lambda / 8 * depth P i)
  (hC : ∀ i j, i < P.tau → (C i j).length = P.lambda / 8 * 2)
include hop hC

theorem gSig_comps : At sg 0 (gSig X P key I O m iv R C op) ↔ GComps X P key I O m iv R C op sg := by
  have e0 : (gCorrs P R).length = posU P := by unfold gCorrs; rw [tabP_length]
  have e1 : posD P = posU P + (P.lambda / 8 + 2) := rfl
  have e2 : posA P = posD P + P.l / 8 := rfl
  have e3 : posIv P = posChall P + P.lambda / 8 := rfl
  have e4 : posChall P = posTree P P.tau := rfl
  have htz := PWF.posTree_zero (P := P)
  have hlen : ∀ i, i < P.tau → posTree P i + (op (gChall3 X P key I O m iv R C) i
      ++ C i (leafIdx P (byteFn (gChall3 X P key I O m iv R C)) i)).length = posTree P (i + 1) := by
    intro i hi
    rw [List.length_append, hop _ _ hi, hC _ _ hi, PWF.posTree_succ]; unfold posCom; omega
  have hfl : posTree P 0 + (tabP P.tau fun i => op (gChall3 X P key I O m iv R C) i
      ++ C i (leafIdx P (byteFn (gChall3 X P key I O m iv R C)) i)).flatten.length = posTree P P.tau := by
    have : ∀ n, n ≤ P.tau → posTree P 0 + (tabP n fun i => op (gChall3 X P key I O m iv R C) i
      ++ C i (leafIdx P (byteFn (gChall3 X P key I O m iv R C)) i)).flatten.length = posTree P n := by
      intro n
      induction n with
      | zero => intro _; rfl
      | succ n ih =>
        intro hn
        rw [flatten_tabP_succ, List.length_append, ← Nat.add_assoc, ih (by omega), hlen n (by omega)]
    exact this _ le_rfl
  unfold gSig
  constructor
  · intro hs
    have h1 := hs.left
    have h2 := h1.left
    have h3 := h2.left
    have h4 := h3.left
    have h5 := h4.left
    have ht := (h2.right (off' := posTree P 0) (by
      simp only [List.length_append, e0, tabP_length, toBytes_length]; omega)).flatten P.tau rfl hlen
    refine ⟨h5.left, ?_, ?_, ?_, ?_, ?_, ?_, ?_⟩
    · exact h5.right (by rw [e0]; omega)
    · exact h4.right (by simp only [List.length_append, e0, tabP_length]; omega)
    · exact h3.right (by simp only [List.length_append, e0, tabP_length]; omega)
    · exact fun i hi => (ht i hi).left
    · exact fun i hi => (ht i hi).right (by rw [hop _ _ hi]; rfl)
    · exact h1.right (by simp only [List.length_append, e0, tabP_length, toBytes_length]; omega)
    · exact hs.right (by
        simp only [List.length_append, e0, tabP_length, toBytes_length, gChall3_length]; omega)
  · intro hs
    have ht := (At.flatten' (sg := sg) P.tau hlen fun i hi => (hs.n i hi).append (hs.k i hi)
      (by rw [hop _ _ hi]; rfl)).1
    refine ((((((hs.c.append hs.u ?_).append hs.d ?_).append hs.a ?_).append ht ?_).append hs.ch ?_).append hs.iv ?_) <;>
      simp only [List.length_append, e0, tabP_length, toBytes_length, gChall3_length] <;> omega

theorem gSig_length (h : PWF P) (hiv : iv.length = 16) : (gSig X P key I O m iv R C op).length = P.sigSize := by
  have e0 : (gCorrs P R).length = posU P := by unfold gCorrs; rw [tabP_length]
  have e1 : posD P = posU P + (P.lambda / 8 + 2) := rfl
  have e2 : posA P = posD P + P.l / 8 := rfl
  have e3 : posIv P = posChall P + P.lambda / 8 := rfl
  have e4 : posChall P = posTree P P.tau := rfl
  have htz := PWF.posTree_zero (P := P)
  have hs := h.size
  have hfl : posTree P 0 + (tabP P.tau fun i => op (gChall3 X P key I O m iv R C) i
      ++ C i (leafIdx P (byteFn (gChall3 X P key I O m iv R C)) i)).flatten.length = posTree P P.tau := by
    have : ∀ n, n ≤ P.tau → posTree P 0 + (tabP n fun i => op (gChall3 X P key I O m iv R C) i
      ++ C i (leafIdx P (byteFn (gChall3 X P key I O m iv R C)) i)).flatten.length = posTree P n := by
      intro n
      induction n with
      | zero => intro _; rfl
      | succ n ih =>
        intro hn
        rw [flatten_tabP_succ, List.length_append, ← Nat.add_assoc, ih (by omega), List.length_append,
          hop _ _ (by omega), hC _ _ (by omega), PWF.posTree_succ]
        unfold posCom; omega
    exact this _ le_rfl
  unfold gSig
  simp only [List.length_append, e0, tabP_length, toBytes_length, gChall3_length, hiv]
  omega

end

/-! ### The bijection -/

section
variable {X : XOF} {P : Params} {iv ch : List Byte} {node : Nat → Nat → List Byte} {sg : Nat → Byte} {h : Hidden P}

theorem Spec.Hidden.c_length (h : Hidden P) (i : Nat) : (h.c i).length = P.lambda / 8 * 2 := tabP_length ..

theorem leafComs_length (i j : Nat) : (leafComs X P iv ch node h i j).length = P.lambda / 8 * 2 := by
  unfold leafComs vCom
  split
  · exact h.c_length i
  · exact leafCom_length ..

section
variable (hP : PWF P) (ho : Opens P iv ch node sg)
include hP ho

theorem Spec.Opens.leaf {i : Nat} (hi : i < P.tau) : leafIdx P (sgChall P sg) i = leafIdx P (byteFn ch) i := by
  refine leafIdx_congr hP (fun t ht => ?_) hi
  rw [← ho.ch, byteFn_tabP ht]

theorem Spec.Opens.vnode {i : Nat} (hi : i < P.tau) (j : Nat) :
    vNode P (sgIv P sg) (sgChall P sg) (sgNode P sg) i (depth P i) j = vNode P iv (byteFn ch) node i (depth P i) j := by
  unfold vNode
  rw [ho.leaf hP hi, ho.iv]
  exact recNode_congr (ho.node i hi) _ le_rfl j

theorem Spec.Opens.fit (hcom : ∀ i, i < P.tau → h.c i = sgCom P sg i) :
    Fit X P (leafStrs X P iv ch node h) (leafComs X P iv ch node h) sg := by
  constructor
  · intro i hi j hj hne t
    unfold leafStrs
    rw [← ho.leaf hP hi, if_neg hne, ← ho.vnode hP hi, ho.iv]
  · intro i hi j hj
    unfold leafComs vCom
    rw [ho.leaf hP hi, ho.vnode hP hi, hcom i hi, ho.iv]

end

/-- The strings of the other leaves of tree `i`. -/
def others (X : XOF) (P : Params) (iv ch : List Byte) (node : Nat → Nat → List Byte) (i t : Nat) : Byte :=
  xsum (2 ^ depth P i) fun j => if j = leafIdx P (byteFn ch) i then 0
    else expand P.lambda iv (leafSd X P.lambda iv (vNode P iv (byteFn ch) node i (depth P i) j)) t

theorem gU_leafStrs (i t : Nat) : gU P (leafStrs X P iv ch node h) i t = h.s i t ^^^ others X P iv ch node i t := by
  unfold gU voleU others
  rw [← xsum_hole (leafIdx_lt P _ i)]
  rfl

theorem nodes_flatten (hn : ∀ i l, (node i l).length = P.lambda / 8) (i : Nat) :
    (tabP (depth P i) (node i)).flatten.length = P.lambda / 8 * depth P i := flatten_length (hn i) _

/-- All trees: `u` of tree `i`. -/
def uTree (X : XOF) (P : Params) (I O w sg : Nat → Byte) (m : List Byte) (i t : Nat) : Byte :=
  uStar X P I O w sg m t ^^^ (if i = 0 then 0 else sg (posC P (i - 1) + t))

variable {key I O : Nat → Byte} {m : List Byte}

/-- **Hidden strings and signatures.** -/
theorem hidden_iff (i : ParamId) {sg : List Byte} {h : Hidden (params i)} {y : List Byte} {key I O : Nat → Byte}
    (hacc : owf i (full ((params i).lambda / 8) key) (full ((params i).pkSize / 2) I) = some (y, true))
    (hO : ∀ t, t < (params i).pkSize / 2 → y[t]? = some (O t))
    (hiv : iv.length = 16) (hn : ∀ i' l, (node i' l).length = (params i).lambda / 8)
    (hsg : sg.length = (params i).sigSize) :
    (hSig X (params i) key I O m iv ch node h = sg ∧ hChall X (params i) key I O m iv ch node h = ch) ↔
    (Valid X (params i) (byteFn sg) I O m ∧ Opens (params i) iv ch node (byteFn sg) ∧
      (∀ a, a < (params i).tau → h.c a = sgCom (params i) (byteFn sg) a) ∧
      ∀ a, a < (params i).tau → ∀ t, t < colBytes (params i) →
        gU (params i) (leafStrs X (params i) iv ch node h) a t
          = uTree X (params i) I O (witness (params i) key I) (byteFn sg) m a t) := by
  have hP := params_wf i
  have hz := Local.params_conSz i
  have hG := gSig_comps (X := X) (P := params i) (key := key) (I := I) (O := O) (m := m) (iv := iv)
    (R := leafStrs X (params i) iv ch node h) (C := leafComs X (params i) iv ch node h)
    (op := fun _ i' => (tabP (depth (params i) i') (node i')).flatten) (sg := byteFn sg)
    (fun _ a _ => nodes_flatten hn a) (fun a j _ => leafComs_length a j)
  have hlen := gSig_length (X := X) (P := params i) (key := key) (I := I) (O := O) (m := m) (iv := iv)
    (R := leafStrs X (params i) iv ch node h) (C := leafComs X (params i) iv ch node h)
    (op := fun _ i' => (tabP (depth (params i) i') (node i')).flatten)
    (fun _ a _ => nodes_flatten hn a) (fun a j _ => leafComs_length a j) hP hiv
  have hSigEq : hSig X (params i) key I O m iv ch node h = sg ↔ GComps X (params i) key I O m iv
      (leafStrs X (params i) iv ch node h) (leafComs X (params i) iv ch node h)
      (fun _ i' => (tabP (depth (params i) i') (node i')).flatten) (byteFn sg) := by
    rw [← hG]
    exact ⟨fun e => by rw [← e]; exact At.of_list, fun e => e.list_eq (hlen.trans hsg.symm)⟩
  rw [hSigEq]
  generalize hRe : leafStrs X (params i) iv ch node h = R
  generalize hCe : leafComs X (params i) iv ch node h = C
  rw [show hChall X (params i) key I O m iv ch node h = gChall3 X (params i) key I O m iv R C by
    rw [← hRe, ← hCe]; rfl]
  clear hG hlen hSigEq
  constructor
  · rintro ⟨g, hch⟩
    have ho : Opens (params i) iv ch node (byteFn sg) := by
      refine ⟨g.iv.tabP hiv, ?_, ?_⟩
      · rw [← hch]
        exact g.ch.tabP gChall3_length
      · intro a ha l hl
        have := (g.n a ha).flatten (off' := fun l => posTree (params i) a + (params i).lambda / 8 * l)
          (depth (params i) a) (by simp) (fun l _ => by rw [hn, Nat.mul_succ]; omega) l hl
        have := this.tabP (hn a l)
        rw [← this]
        unfold sgNode
        simp only [Nat.add_assoc]
    have hcom : ∀ a, a < (params i).tau → h.c a = sgCom (params i) (byteFn sg) a := by
      intro a ha
      have := g.k a ha
      rw [hch, ← hCe] at this
      unfold leafComs vCom at this
      rw [if_pos rfl] at this
      exact (this.tabP (h.c_length a)).symm
    have hf : Fit X (params i) R C (byteFn sg) := by
      rw [← hRe, ← hCe]; exact ho.fit hP hcom
    have hc := corrOk_iff.1 g.c
    have gu := g.u
    have gd := g.d
    have ga := g.a
    rw [← ho.iv] at gu ga
    have hU := (uStar_iff hP hz hf hc).1 ⟨gu, gd, ga⟩
    refine ⟨?_, ho, hcom, ?_⟩
    · unfold Valid
      rw [given_chall3 i hacc hO hf hc gu gd ga, ho.iv, hch, ho.ch]
    · intro a ha t ht
      unfold uTree
      by_cases h0 : a = 0
      · rw [if_pos h0, h0, hU t ht]
        exact BitVec.xor_zero.symm
      · rw [if_neg h0, hc (a - 1) (by omega) t ht, Nat.sub_add_cancel (by omega), ← hU t ht, xb_cancel]
  · rintro ⟨hv, ho, hcom, hU⟩
    have hf : Fit X (params i) R C (byteFn sg) := by
      rw [← hRe, ← hCe]; exact ho.fit hP hcom
    have hU0 : ∀ t, t < colBytes (params i) → gU (params i) R 0 t
        = uStar X (params i) I O (witness (params i) key I) (byteFn sg) m t := by
      intro t ht
      rw [hU 0 hP.taupos t ht]
      unfold uTree
      rw [if_pos rfl]
      exact BitVec.xor_zero
    have hc : CorrOk (params i) R (byteFn sg) := by
      intro a ha t ht
      rw [hU (a + 1) ha t ht, hU0 t ht]
      unfold uTree
      rw [if_neg (by omega), Nat.add_sub_cancel, xb_cancel]
    obtain ⟨gu, gd, ga⟩ := (uStar_iff (key := key) (I := I) (O := O) (m := m) hP hz hf hc).2 hU0
    have h3 := given_chall3 i hacc hO hf hc gu gd ga
    rw [ho.iv] at gu ga h3
    have hch : gChall3 X (params i) key I O m iv R C = ch := by
      rw [← h3, ← ho.ch]; exact hv
    refine ⟨⟨corrOk_iff.2 hc, gu, gd, ga, ?_, ?_, ?_, ?_⟩, hch⟩
    · intro a ha
      have := (At.flatten' (sg := byteFn sg) (f := node a)
        (off := fun l => posTree (params i) a + (params i).lambda / 8 * l)
        (depth (params i) a) (fun l _ => by rw [hn, Nat.mul_succ]; omega) (fun l hl => by
          rw [← ho.node a ha l hl]
          unfold sgNode
          intro t ht
          rw [tabP_length] at ht
          rw [tabP_getElem?, if_pos ht, Nat.add_assoc])).1
      simpa using this
    · intro a ha
      rw [hch, ← hCe]
      unfold leafComs vCom
      rw [if_pos rfl, hcom a ha]
      unfold sgCom
      intro t ht
      rw [tabP_length] at ht
      rw [tabP_getElem?, if_pos ht]
    · rw [hch, ← ho.ch]
      intro t ht
      rw [tabP_length] at ht
      rw [tabP_getElem?, if_pos ht]
      rfl
    · rw [← ho.iv]
      intro t ht
      unfold sgIv at ht ⊢
      rw [tabP_length] at ht
      rw [tabP_getElem?, if_pos ht]

theorem hidden_ext {P : Params} {h h' : Hidden P} (hc : ∀ a, a < P.tau → h.c a = h'.c a)
    (hs : ∀ a, a < P.tau → ∀ t, t < colBytes P → h.s a t = h'.s a t) : h = h' := by
  obtain ⟨s, c⟩ := h
  obtain ⟨s', c'⟩ := h'
  have e1 : s = s' := by
    funext a t
    have := hs a.1 a.2 t.1 t.2
    unfold Hidden.s at this
    rwa [dif_pos a.2, dif_pos t.2, dif_pos a.2, dif_pos t.2] at this
  have e2 : c = c' := by
    funext a t
    have := congrArg (fun l => byteFn l t.1) (hc a.1 a.2)
    dsimp only [Hidden.c] at this
    rwa [byteFn_tabP t.2, byteFn_tabP t.2, dif_pos a.2, dif_pos t.2, dif_pos a.2, dif_pos t.2] at this
  rw [e1, e2]

theorem hidden_bijOn (i : ParamId) {y : List Byte} {key I O : Nat → Byte}
    (hacc : owf i (full ((params i).lambda / 8) key) (full ((params i).pkSize / 2) I) = some (y, true))
    (hO : ∀ t, t < (params i).pkSize / 2 → y[t]? = some (O t))
    (hiv : iv.length = 16) (hn : ∀ i' l, (node i' l).length = (params i).lambda / 8) :
    Set.BijOn (hSig X (params i) key I O m iv ch node) {h | hChall X (params i) key I O m iv ch node h = ch}
      {sg | sg.length = (params i).sigSize ∧ Valid X (params i) (byteFn sg) I O m ∧
        Opens (params i) iv ch node (byteFn sg)} := by
  have hlen : ∀ h, (hSig X (params i) key I O m iv ch node h).length = (params i).sigSize := fun h =>
    gSig_length (fun _ a _ => nodes_flatten hn a) (fun a j _ => leafComs_length a j) (params_wf i) hiv
  refine ⟨?_, ?_, ?_⟩
  · intro h hh
    obtain ⟨h1, h2, -, -⟩ := (hidden_iff i hacc hO hiv hn (hlen h)).1 ⟨rfl, hh⟩
    exact ⟨hlen h, h1, h2⟩
  · intro h hh h' hh' he
    obtain ⟨-, -, h3, h4⟩ := (hidden_iff i hacc hO hiv hn (hlen h)).1 ⟨rfl, hh⟩
    obtain ⟨-, -, h3', h4'⟩ := (hidden_iff i hacc hO hiv hn (hlen h)).1 ⟨he.symm, hh'⟩
    refine hidden_ext (fun a ha => (h3 a ha).trans (h3' a ha).symm) fun a ha t ht => ?_
    have e := (h4 a ha t ht).trans (h4' a ha t ht).symm
    rw [gU_leafStrs, gU_leafStrs] at e
    have := congrArg (· ^^^ others X (params i) iv ch node a t) e
    simpa only [BitVec.xor_assoc, BitVec.xor_self, BitVec.xor_zero] using this
  · rintro sg ⟨hl, hv, ho⟩
    obtain ⟨U, hU⟩ : ∃ U : Nat → Nat → Byte, U = uTree X (params i) I O (witness (params i) key I) (byteFn sg) m :=
      ⟨_, rfl⟩
    have := (hidden_iff (X := X) (m := m) (ch := ch) (h := 
      { str := fun a t => U a.1 t.1 ^^^ others X (params i) iv ch node a.1 t.1
        com := fun a t => byteFn (sgCom (params i) (byteFn sg) a.1) t.1 }) i hacc hO hiv hn hl).2 ⟨hv, ho, ?_, ?_⟩
    · exact ⟨_, this.2, this.1⟩
    · intro a ha
      unfold Hidden.c sgCom
      refine tabP_congr fun t ht => ?_
      rw [dif_pos ha, dif_pos ht]
      dsimp only
      rw [byteFn_tabP ht]
    · intro a ha t ht
      rw [gU_leafStrs, ← hU]
      unfold Hidden.s
      rw [dif_pos ha, dif_pos ht, BitVec.xor_assoc, BitVec.xor_self, BitVec.xor_zero]

end

end Faest
