/-
The functions of Model/KeccakOver.lean by the bytes of the state.
-/
import Verif.Model.KeccakOver
import Verif.Proofs.KeccakState

namespace Faest.Keccak

theorem laneByte_set (x : U64) {i j : Nat} (hi : i < 8) (b : Byte) :
    laneByte (setLaneByte x j b) i = if i = j then b else laneByte x i := by
  unfold setLaneByte
  rw [laneByte_leWord _ _ hi, List.getD_eq_getElem?_getD, tabP_getElem?, if_pos hi]
  rfl

/-- The bytes `d 0 … d (n-1)` at position `off`. -/
def setB (B : Nat → Byte) (off n : Nat) (d : Nat → Byte) : Nat → Byte :=
  fun t => if off ≤ t ∧ t < off + n then d (t - off) else B t

theorem setB_zero (B : Nat → Byte) (off : Nat) (d : Nat → Byte) : setB B off 0 d = B := by
  funext t; unfold setB; rw [if_neg (by omega)]

theorem setB_setB (B : Nat → Byte) (off n m : Nat) (d : Nat → Byte) :
    setB (setB B off n d) (off + n) m (fun i => d (n + i)) = setB B off (n + m) d := by
  funext t
  unfold setB
  by_cases h1 : off ≤ t ∧ t < off + n
  · rw [if_neg (by omega), if_pos h1, if_pos (by omega)]
  · by_cases h2 : off + n ≤ t ∧ t < off + n + m
    · rw [if_pos h2, if_pos (by omega)]
      show d (n + (t - (off + n))) = _
      rw [show n + (t - (off + n)) = t - off by omega]
    · rw [if_neg h2, if_neg h1, if_neg (by omega)]

theorem wrStateByte_ok {st : Mem U64} {base : Nat} {B : Nat → Byte} (h : Has st base 25 (packL B)) {p : Nat} (hp : p < 200)
    (b : Byte) : Ok (wrStateByte st base p b) (SOk st base (setB B p 1 (fun _ => b))) := by
  unfold wrStateByte
  refine Ok.step (h (p / 8) (by omega)) ?_
  refine wrLane_ok h (by omega) ?_ ?_
  · intro j hj
    rw [laneByte_set _ hj, laneByte_packL _ _ _ hj]
    unfold setB
    by_cases e : j = p % 8
    · rw [if_pos e, if_pos (by omega)]
    · rw [if_neg e, if_neg (by omega)]
  · intro t _ hne
    unfold setB
    rw [if_neg (by omega)]

theorem setState_ok {st : Mem U64} {base : Nat} {B : Nat → Byte} (h : Has st base 25 (packL B)) {p n : Nat} (hp : p + n ≤ 200)
    {d : Nat → Byte} {f : Nat → Mem U64 → Option (Mem U64)}
    (hf : ∀ i, i < n → ∀ s, f i s = wrStateByte s base (p + i) (d i)) : Ok (forN n st f) (SOk st base (setB B p n d)) := by
  refine Ok.forN (fun i s => SOk st base (setB B p i d) s) (by rw [setB_zero]; exact SOk.refl h) ?_
  intro i hi s hs
  rw [hf i hi]
  refine (wrStateByte_ok hs.has (by omega) (d i)).mono ?_
  intro s' h'
  have e : setB (setB B p i d) (p + i) 1 (fun _ => d i) = setB B p (i + 1) d := by
    rw [← setB_setB]
    funext t
    unfold setB
    by_cases c : p + i ≤ t ∧ t < p + i + 1
    · rw [if_pos c, if_pos c]
      show d i = d (i + (t - (p + i)))
      rw [show i + (t - (p + i)) = i by omega]
    · rw [if_neg c, if_neg c]
  rw [← e]
  exact hs.trans h'

theorem memcpyState_ok {st : Mem U64} {base : Nat} {B : Nat → Byte} (h : Has st base 25 (packL B)) {p n : Nat} (hp : p + n ≤ 200)
    {data : Mem Byte} {d : Nat → Byte} (hd : Has data 0 n d) : Ok (memcpyState st base p data n) (SOk st base (setB B p n d)) := by
  refine setState_ok h hp ?_
  intro i hi s
  rw [hd.rd0 hi]
  rfl

theorem overwriteWithZeroes_ok {st : Mem U64} {base : Nat} {B : Nat → Byte} (h : Has st base 25 (packL B)) {n : Nat} (hn : n ≤ 200) :
    Ok (overwriteWithZeroes st base n) (SOk st base (setB B 0 n (fun _ => 0))) :=
  setState_ok h (by omega) fun i _ s => by rw [Nat.zero_add]

theorem overwriteBytesLoop_ok {st : Mem U64} {base : Nat} :
    ∀ fuel n lp off (data : Mem Byte) (st' : Mem U64) (B d : Nat → Byte), n < fuel → off < 8 →
      8 * lp + off + n ≤ 200 → Has data 0 n d → SOk st base B st' →
      Ok (overwriteBytesLoop base fuel n lp off data st') (SOk st base (setB B (8 * lp + off) n d)) := by
  intro fuel
  induction fuel with
  | zero => intro n _ _ _ _ _ _ h; omega
  | succ k ih =>
    intro n lp off data st' B d hf ho hn hd h
    unfold overwriteBytesLoop
    by_cases e : n > 0
    · rw [if_pos e]
      dsimp only
      generalize hm : (if 8 - off > n then n else 8 - off) = m
      have hm1 : 0 < m := by rw [← hm]; split <;> omega
      have hm2 : m ≤ n := by rw [← hm]; split <;> omega
      have hm3 : off + m ≤ 8 := by rw [← hm]; split <;> omega
      have hm4 : m = n ∨ off + m = 8 := by rw [← hm]; split <;> omega
      unfold overwriteBytesInLane
      rw [Nat.mul_comm lp 8]
      refine Ok.bind (memcpyState_ok h.has (by omega) (hd.mono hm2)) ?_
      intro st1 h1
      have hl := hd.le e
      refine Ok.step (ptr_eq (by omega)) ?_
      have hd' : Has (data.drop m) 0 (n - m) (fun i => d (m + i)) := by
        rw [has_drop, Nat.add_zero]
        have := hd.sub m (n - m) (by omega)
        rwa [Nat.zero_add] at this
      have := ih (n - m) (lp + 1) 0 _ st1 _ _ (by omega) (by omega) (by omega) hd' (h.trans h1)
      refine this.mono ?_
      intro st2 h2
      rcases hm4 with hm4 | hm4
      · subst hm4
        rw [Nat.sub_self, setB_zero] at h2
        exact h2
      · rw [show 8 * (lp + 1) + 0 = 8 * lp + off + m by omega, setB_setB, show m + (n - m) = n by omega] at h2
        exact h2
    · rw [if_neg e, show n = 0 by omega, setB_zero]
      exact Ok.some h

theorem overwriteBytes_ok {st : Mem U64} {base : Nat} {B : Nat → Byte} (h : Has st base 25 (packL B)) {off n : Nat}
    {data : Mem Byte} {d : Nat → Byte} (hd : Has data 0 n d) (hl : n ≤ data.length) (hn : off + n ≤ 200) :
    Ok (overwriteBytes st base data off n) (SOk st base (setB B off n d)) := by
  unfold overwriteBytes
  by_cases e : off = 0
  · rw [if_pos e]
    subst e
    unfold overwriteLanes overwriteBytesInLane
    refine Ok.bind (memcpyState_ok h (by omega) (hd.mono (by omega))) ?_
    intro st1 h1
    refine Ok.step (ptr_eq (by omega)) ?_
    have hd' : Has (data.drop (n / 8 * 8)) 0 (n % 8) (fun i => d (n / 8 * 8 + i)) := by
      rw [has_drop, Nat.add_zero]
      have := hd.sub (n / 8 * 8) (n % 8) (by omega)
      rwa [Nat.zero_add] at this
    refine (memcpyState_ok h1.has (by omega) hd').mono ?_
    intro st2 h2
    have := h1.trans h2
    have e := setB_setB B 0 (n / 8 * 8) (n % 8) d
    rw [show n / 8 * 8 + n % 8 = n by omega, Nat.zero_add] at e
    rwa [Nat.add_zero, e] at this
  · rw [if_neg e]
    have := overwriteBytesLoop_ok (n + 1) n (off / 8) (off % 8) data st B d (by omega) (by omega) (by omega) hd
      (SOk.refl h)
    rwa [show 8 * (off / 8) + off % 8 = off by omega] at this

theorem extractAndAddBytesInLane_ok {st : Mem U64} {base : Nat} {B : Nat → Byte} (h : Has st base 25 (packL B))
    {input output : Mem Byte} {d : Nat → Byte} {lp cur off n : Nat} (hd : Has input cur n d) (hlp : lp < 25) (hn : off + n ≤ 8)
    (hl : cur + n ≤ output.length) :
    Ok (extractAndAddBytesInLane st base lp input output cur off n) (Wrote output cur n (fun i => d i ^^^ B (8 * lp + off + i))) := by
  unfold extractAndAddBytesInLane
  refine Ok.step (h lp hlp) ?_
  refine Ok.forN (fun i o => Wrote output cur i (fun i => d i ^^^ B (8 * lp + off + i)) o) (Wrote.zero _ _ _) ?_
  intro i hi o ho
  refine Ok.step (hd i hi) ?_
  rw [if_pos (by omega), laneByte_packL _ _ _ (by omega)]
  refine Ok.wr (by rw [ho.len]; omega) ?_
  intro m hm hr
  refine ⟨hm.trans ho.len, ?_⟩
  intro j
  rw [hr, ho.rd]
  by_cases e : j = cur + i
  · rw [if_pos e, if_pos (by omega), show j - cur = i by omega, Nat.add_assoc]
  · rw [if_neg e]
    by_cases e2 : cur ≤ j ∧ j < cur + i
    · rw [if_pos e2, if_pos (by omega)]
    · rw [if_neg e2, if_neg (by omega)]

theorem extractAndAddLanes_ok {st : Mem U64} {base : Nat} {B : Nat → Byte} (h : Has st base 25 (packL B))
    {input output : Mem Byte} {d : Nat → Byte} {lc : Nat} (hd : Has input 0 (8 * lc) d) (hlc : lc ≤ 25)
    (hl : 8 * lc ≤ output.length) :
    Ok (extractAndAddLanes st base input output lc) (Wrote output 0 (8 * lc) (fun i => d i ^^^ B i)) := by
  unfold extractAndAddLanes
  refine Ok.forN (fun i o => Wrote output 0 (8 * i) (fun i => d i ^^^ B i) o) (Wrote.zero _ _ _) ?_
  intro i hi o ho
  have hx : Ok (loadLane input i) (fun x => ∀ j, j < 8 → laneByte x j = d (8 * i + j)) := by
    unfold loadLane
    have hs := hd.sub (8 * i) 8 (by omega)
    rw [Nat.zero_add] at hs
    refine Ok.step (rdN_has hs (by omega)) ?_
    refine Ok.pure ?_
    intro j hj
    rw [laneByte_leWord _ _ hj, List.getD_eq_getElem?_getD, tabP_getElem?, if_pos hj]
    rfl
  refine Ok.bind hx ?_
  intro x hx
  refine Ok.step (h i (by omega)) ?_
  have e : tabP 8 (laneByte (x ^^^ packL B i)) = tabP 8 (fun j => d (8 * i + j) ^^^ B (8 * i + j)) := by
    apply tabP_congr
    intro j hj
    rw [laneByte_xor, hx j hj, laneByte_packL _ _ _ hj]
  rw [e]
  refine (wrN_ok (by rw [ho.len]; omega)).mono ?_
  intro o' ho'
  have := ho.append (k := 8) (m'' := o') (by rw [Nat.zero_add]; exact ho')
  rwa [show 8 * i + 8 = 8 * (i + 1) by omega] at this

theorem extractAndAddBytesLoop_ok {st : Mem U64} {base : Nat} {B : Nat → Byte} (h : Has st base 25 (packL B)) {input : Mem Byte} :
    ∀ fuel n lp off (output : Mem Byte) cur (d : Nat → Byte), n < fuel → off < 8 → 8 * lp + off + n ≤ 200 →
      Has input cur n d → cur + n ≤ output.length →
      Ok (extractAndAddBytesLoop st base input fuel n lp off output cur) (Wrote output cur n (fun i => d i ^^^ B (8 * lp + off + i))) := by
  intro fuel
  induction fuel with
  | zero => intro n _ _ _ _ _ h; omega
  | succ k ih =>
    intro n lp off output cur d hf ho hn hd hl
    unfold extractAndAddBytesLoop
    by_cases e : n > 0
    · rw [if_pos e]
      dsimp only
      generalize hm : (if 8 - off > n then n else 8 - off) = m
      have hm1 : 0 < m := by rw [← hm]; split <;> omega
      have hm2 : m ≤ n := by rw [← hm]; split <;> omega
      have hm3 : off + m ≤ 8 := by rw [← hm]; split <;> omega
      have hm4 : m = n ∨ off + m = 8 := by rw [← hm]; split <;> omega
      refine Ok.bind (extractAndAddBytesInLane_ok h (hd.mono hm2) (by omega) hm3 (by omega)) ?_
      intro o1 h1
      have hl1 := h1.len
      refine (ih (n - m) (lp + 1) 0 o1 (cur + m) (fun i => d (m + i)) (by omega) (by omega) (by omega)
        (hd.sub m (n - m) (by omega)) (by omega)).mono ?_
      intro o2 h2
      have : Wrote o1 (cur + m) (n - m) (fun i => d (m + i) ^^^ B (8 * lp + off + (m + i))) o2 := by
        refine h2.congr ?_
        intro i hi
        congr 2
        omega
      have := h1.append (g := fun i => d i ^^^ B (8 * lp + off + i)) this
      rwa [show m + (n - m) = n by omega] at this
    · rw [if_neg e, show n = 0 by omega]
      exact Ok.some (Wrote.zero _ _ _)

theorem extractAndAddBytes_ok {st : Mem U64} {base : Nat} {B : Nat → Byte} (h : Has st base 25 (packL B))
    {input output : Mem Byte} {d : Nat → Byte} {off n : Nat} (hd : Has input 0 n d) (hn : off + n ≤ 200) (hn2 : n < 200)
    (hl : n ≤ output.length) :
    Ok (extractAndAddBytes st base input output off n) (Wrote output 0 n (fun i => d i ^^^ B (off + i))) := by
  unfold extractAndAddBytes
  by_cases e : off = 0
  · rw [if_pos e]
    subst e
    refine Ok.bind (extractAndAddLanes_ok h (hd.mono (by omega)) (by omega) (by omega)) ?_
    intro o1 h1
    have hl1 := h1.len
    have hd' := hd.sub (8 * (n / 8)) (n % 8) (by omega)
    rw [Nat.zero_add] at hd'
    rw [Nat.mul_comm (n / 8) 8]
    refine (extractAndAddBytesInLane_ok h hd' (by omega) (by omega) (by omega)).mono ?_
    intro o2 h2
    have := h1.append (k := n % 8) (m'' := o2) (by rw [Nat.zero_add]; exact h2)
    rw [show 8 * (n / 8) + n % 8 = n by omega] at this
    refine this.congr ?_
    intro i _
    rw [Nat.zero_add]
  · rw [if_neg e]
    have := extractAndAddBytesLoop_ok h (n + 1) n (off / 8) (off % 8) output 0 d (by omega) (by omega) (by omega) hd (by omega)
    rwa [show 8 * (off / 8) + off % 8 = off by omega] at this

end Faest.Keccak
