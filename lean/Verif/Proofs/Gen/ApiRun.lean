/-
The translated API functions, from any memory, for every implementation of the hash layer that meets `HSpec`.
-/
import Verif.Proofs.Gen.Top2

namespace Faest.Props
open Faest.C

section
variable {I : HImpl} {X : XOF} (S : HSpec I X) (i : ParamId) (H : C.Heap) (hf : ∀ b, H.next ≤ b → H.cells b = none)
  {sk m : List Byte} {rho : Option (List Byte)} {psk pm pr : CPtr} {s o sl ol n : Nat} {kd kl : Kind} {M : Mem Byte} {ml : Mem Nat}
include hf

theorem run_swr (hsk : sk.length = (params i).skSize) (hs : BytesAt H psk sk) (hap : Apart psk s)
    (hm : BytesAt H pm m) (hrho : (rho = none ∧ pr = none) ∨ ∃ r, rho = some r ∧ BytesAt H pr r)
    (hS : H.cells s = some ⟨kd, .bytes M⟩) (ho : o + (params i).sigSize ≤ M.length)
    (hL : H.cells sl = some ⟨kl, .nums ml⟩) (hn : ml[ol]? = some (some n)) (hle : (params i).sigSize ≤ n) (hfm : S.Msg i m.length) (hfr : rho ≠ none → S.Rho i (rho.getD []).length) :
    ∃ r H', GenApi.signWithRandomness i I psk pm m.length pr (rho.getD []).length (some ⟨s, o⟩) (some ⟨sl, ol⟩) H = some (r, H') ∧
      (Spec.skGood i sk → r = 0 ∧
        H'.cells = upd (upd H.cells s (some ⟨kd, .bytes (setBytes M o (Spec.signature X i sk m (rho.getD [])))⟩))
          sl (some ⟨kl, .nums (ml.set ol (some (params i).sigSize))⟩)) ∧
      (¬ Spec.skGood i sk → r = 4294967295 ∧ H'.cells = H.cells) := by
  obtain ⟨D, hD⟩ := C.sat_exists H hf
  rw [swr_eq]
  by_cases hg : Spec.skGood i sk
  · obtain ⟨F, rfl⟩ := split2 hD hS hL (by rintro rfl; rw [hS] at hL; cases hL)
    have h1 : RdAt F psk sk.length sk := RdAt.rest (RdAt.rest (hs.rdAt hD) hap) (hs.notOther hL (by simp))
    have hrun := gSwr_run S (F := F) (kg := kd) (sg := s) (M := M) (kl := kl) (sl := sl) (ml := ml) (pm := pm) (pr := pr) i hsk hg h1.view (hm.rdAt hD)
      (rho := rho) (by
        rcases hrho with h | ⟨r, rfl, h⟩
        · exact Or.inl h
        · exact Or.inr ⟨r, rfl, (h.rdAt hD).view⟩) (rd_get hn) hle ho hfm hfr
    obtain ⟨b, H', D', hp, hs', rfl, rfl⟩ := hrun H hD
    rw [setBytes_eq (by rw [signature_len]; exact ho)] at hs'
    exact ⟨0, H', hp, fun _ => ⟨rfl, put2 hD hs'⟩, fun h => absurd hg h⟩
  · have hl : View D (some ⟨sl, ol⟩) (ml.drop ol) := ⟨sl, ol, kl, ml, rfl, (hD.mem _ _).1 hL, Le.rfl⟩
    have hrun := gSwr_bad (D := D) (I := I) (pm := pm) (pr := pr) (sg := s) (og := o) (len := m.length) (rholen := (rho.getD []).length) i hsk hg (hs.rdAt hD).view hl
      (n := n) (by rw [C.rd_drop]; exact rd_get hn) hle (by
        rcases hrho with ⟨rfl, -⟩ | ⟨r, rfl, h⟩
        · exact Or.inr rfl
        · exact Or.inl h.ne_none)
    obtain ⟨b, H', D', hp, hs', rfl, rfl⟩ := hrun H hD
    exact ⟨4294967295, H', hp, fun h => absurd h hg, fun _ => ⟨rfl, Sat.cells_eq hD hs'⟩⟩

theorem run_sign {sr or' c : Nat} {kr : Kind} {mr : Mem (List (Nat × List Byte))} {bs : List Byte} {rest : List (Nat × List Byte)}
    (hsk : sk.length = (params i).skSize) (hs : BytesAt H psk sk) (hap : Apart psk s) (hm : BytesAt H pm m)
    (hS : H.cells s = some ⟨kd, .bytes M⟩) (ho : o + (params i).sigSize ≤ M.length)
    (hL : H.cells sl = some ⟨kl, .nums ml⟩) (hn : ml[ol]? = some (some n)) (hle : (params i).sigSize ≤ n)
    (hR : H.cells sr = some ⟨kr, .tape mr⟩) (hr : mr[or']? = some (some ((c, bs) :: rest))) (hbs : bs.length = (params i).lambda / 8) (hfm : S.Msg i m.length) :
    ∃ r H', GenApi.sign i I (some ⟨sr, or'⟩) psk pm m.length (some ⟨s, o⟩) (some ⟨sl, ol⟩) H = some (r, H') ∧
      (Spec.skGood i sk → r = 0 ∧
        H'.cells = upd (upd (upd H.cells s (some ⟨kd, .bytes (setBytes M o (Spec.signature X i sk m bs))⟩))
          sl (some ⟨kl, .nums (ml.set ol (some (params i).sigSize))⟩)) sr (some ⟨kr, .tape (mr.set or' (some rest))⟩)) ∧
      (¬ Spec.skGood i sk → r = 4294967295 ∧ H'.cells = upd H.cells sr (some ⟨kr, .tape (mr.set or' (some rest))⟩)) := by
  obtain ⟨D, hD⟩ := C.sat_exists H hf
  rw [sign_eq]
  by_cases hg : Spec.skGood i sk
  · obtain ⟨F, rfl⟩ := split3 hD hS hL hR (by rintro rfl; rw [hS] at hL; cases hL) (by rintro rfl; rw [hS] at hR; cases hR)
      (by rintro rfl; rw [hL] at hR; cases hR)
    have h1 : RdAt F psk sk.length sk := RdAt.rest (RdAt.rest (RdAt.rest (hs.rdAt hD) hap) (hs.notOther hL (by simp))) (hs.notOther hR (by simp))
    have h2 : RdAt (bl kd s M + F) pm m.length m := RdAt.rest2 (RdAt.rest2 (hm.rdAt hD) (hm.notOther hL (by simp))) (hm.notOther hR (by simp))
    have hrun := gSign_run S (F := F) (kg := kd) (sg := s) (M := M) (kl := kl) (sl := sl) (ml := ml) (kr := kr) (sr := sr) (pm := pm) i hsk hg h1.view h2
      (rd_get hn) hle ho (rd_get hr) hbs hfm
    obtain ⟨b, H', D', hp, hs', rfl, rfl⟩ := hrun H hD
    rw [setBytes_eq (by rw [signature_len]; exact ho)] at hs'
    exact ⟨0, H', hp, fun _ => ⟨rfl, put3 hD hs'⟩, fun h => absurd hg h⟩
  · obtain ⟨F, rfl⟩ := split2 hD hR hL (by rintro rfl; rw [hR] at hL; cases hL)
    have h1 : RdAt ({(sl, ⟨kl, .nums ml⟩)} + F) psk sk.length sk := RdAt.rest (hs.rdAt hD) (hs.notOther hR (by simp))
    have hl : View (bl kl sl ml + F) (some ⟨sl, ol⟩) (ml.drop ol) := View.here
    have hrun := gSign_bad (F := bl kl sl ml + F) (kr := kr) (sr := sr) (I := I) (pm := pm) (sg := s) (og := o) (len := m.length) i hsk hg h1.view hl
      (n := n) (by rw [C.rd_drop]; exact rd_get hn) hle (rd_get hr)
    obtain ⟨b, H', D', hp, hs', rfl, rfl⟩ := hrun H hD
    exact ⟨4294967295, H', hp, fun h => absurd h hg, fun _ => ⟨rfl, Sat.cells_eq hD.put hs'⟩⟩

theorem run_verify {pk sg : List Byte} {ppk ps : CPtr} (hpk : pk.length = (params i).pkSize) (hsg : sg.length = (params i).sigSize)
    (hp : BytesAt H ppk pk) (hm : BytesAt H pm m) (hs : BytesAt H ps sg) (hfm : S.Msg i m.length) :
    ∃ r H', GenApi.verify i I ppk pm m.length ps (params i).sigSize H = some (r, H') ∧ H'.cells = H.cells ∧
      (Spec.ValidSig X i pk m sg → r = 0) ∧ (¬ Spec.ValidSig X i pk m sg → r = 4294967295) := by
  rw [verify_eq]
  obtain ⟨D, hD⟩ := C.sat_exists H hf
  obtain ⟨r, h1, h2, h3⟩ := gVerify_run S i hpk hsg (hp.rdAt hD).view (hs.rdAt hD).view (hm.rdAt hD) hfm
  obtain ⟨b, H', D', hp, hs', rfl, rfl⟩ := h1 H hD
  exact ⟨_, H', hp, Sat.cells_eq hD hs', h2, h3⟩

theorem run_csign {sk : List Byte} {psk pm : CPtr} {sr or' c : Nat} {kr : Kind} {mr : Mem (List (Nat × List Byte))} {bs : List Byte}
    {rest : List (Nat × List Byte)} (hsk : sk.length = (params i).skSize) (hs : BytesAt H psk sk) (hap : Apart psk s) (hm : BytesAt H pm m)
    (hlt : m.length + (params i).sigSize < 2 ^ 64)
    (hS : H.cells s = some ⟨kd, .bytes M⟩) (ho : o + (m.length + (params i).sigSize) ≤ M.length)
    (hL : H.cells sl = some ⟨kl, .nums ml⟩) (hol : ol < ml.length)
    (hR : H.cells sr = some ⟨kr, .tape mr⟩) (hr : mr[or']? = some (some ((c, bs) :: rest))) (hbs : bs.length = (params i).lambda / 8) (hfm : S.Msg i m.length) :
    ∃ r H', GenApi.cryptoSign i I (some ⟨sr, or'⟩) (some ⟨s, o⟩) (some ⟨sl, ol⟩) pm m.length psk H = some (r, H') ∧
      ∃ M', H'.cells = upd (upd (upd H.cells s (some ⟨kd, .bytes M'⟩))
          sl (some ⟨kl, .nums (ml.set ol (some (m.length + (params i).sigSize)))⟩)) sr (some ⟨kr, .tape (mr.set or' (some rest))⟩) ∧
        (Spec.skGood i sk → r = 0 ∧ M' = setBytes M o (m ++ Spec.signature X i sk m bs)) ∧
        (¬ Spec.skGood i sk → r = 4294967295 ∧ M' = setBytes M o m) := by
  obtain ⟨D, hD⟩ := C.sat_exists H hf
  rw [csign_eq]
  obtain ⟨F, rfl⟩ := split3 hD hS hL hR (by rintro rfl; rw [hS] at hL; cases hL) (by rintro rfl; rw [hS] at hR; cases hR)
    (by rintro rfl; rw [hL] at hR; cases hR)
  have h1 : RdAt F psk sk.length sk := RdAt.rest (RdAt.rest (RdAt.rest (hs.rdAt hD) hap) (hs.notOther hL (by simp))) (hs.notOther hR (by simp))
  have h2 : RdAt (bl kd s M + F) pm m.length m := RdAt.rest2 (RdAt.rest2 (hm.rdAt hD) (hm.notOther hL (by simp))) (hm.notOther hR (by simp))
  by_cases hg : Spec.skGood i sk
  · obtain ⟨b, H', D', hp, hs', rfl, rfl⟩ := gCryptoSign_run S (F := F) (kg := kd) (sg := s) (M := M) (kl := kl) (sl := sl) (ml := ml) (kr := kr) (sr := sr) (pm := pm)
      i hsk hg h1.view h2 hlt hol ho (rd_get hr) hbs hfm H hD
    rw [setBytes_eq (by rw [List.length_append, signature_len]; exact ho)] at hs'
    exact ⟨_, H', hp, _, put3 hD hs', fun _ => ⟨rfl, rfl⟩, fun h => absurd hg h⟩
  · obtain ⟨b, H', D', hp, hs', rfl, rfl⟩ := gCryptoSign_bad (F := F) (kg := kd) (sg := s) (M := M) (kl := kl) (sl := sl) (ml := ml) (kr := kr) (sr := sr) (I := I) (pm := pm)
      i hsk hg h1.view h2 hlt hol (og := o) (by omega) (rd_get hr) H hD
    rw [setBytes_eq (by omega)] at hs'
    exact ⟨_, H', hp, _, put3 hD hs', fun h => absurd h hg, fun _ => ⟨rfl, rfl⟩⟩

theorem run_copen {pk sg : List Byte} {ppk psm : CPtr} (hpk : pk.length = (params i).pkSize) (hsg : sg.length = (params i).sigSize)
    (hlt : m.length + (params i).sigSize < 2 ^ 64) (hp : BytesAt H ppk pk) (hsm : BytesAt H psm (m ++ sg))
    (hS : H.cells s = some ⟨kd, .bytes M⟩) (ho : o + m.length ≤ M.length)
    (hL : H.cells sl = some ⟨kl, .nums ml⟩) (hol : ol < ml.length) (hfm : S.Msg i m.length) :
    (Spec.ValidSig X i pk m sg → ∃ H', GenApi.cryptoSignOpen i I (some ⟨s, o⟩) (some ⟨sl, ol⟩) psm (m ++ sg).length ppk H = some (0, H') ∧
      H'.cells = upd (upd H.cells s (some ⟨kd, .bytes (setBytes M o m)⟩)) sl (some ⟨kl, .nums (ml.set ol (some m.length))⟩)) ∧
    (¬ Spec.ValidSig X i pk m sg → ∀ pm pl, ∃ H', GenApi.cryptoSignOpen i I pm pl psm (m ++ sg).length ppk H = some (4294967295, H') ∧
      H'.cells = H.cells) := by
  obtain ⟨D, hD⟩ := C.sat_exists H hf
  obtain ⟨F, rfl⟩ := split2 hD hS hL (by rintro rfl; rw [hS] at hL; cases hL)
  have h1 : RdAt (bl kd s M + F) ppk pk.length pk := RdAt.rest2 (hp.rdAt hD) (hp.notOther hL (by simp))
  have h2 : RdAt (bl kd s M + F) psm (m ++ sg).length (m ++ sg) := RdAt.rest2 (hsm.rdAt hD) (hsm.notOther hL (by simp))
  rw [copen_eq]
  rw [List.length_append, hsg] at h2 ⊢
  obtain ⟨h3, h4⟩ := gCryptoSignOpen_run S (F := F) (kg := kd) (sg := s) (M := M) (kl := kl) (sl := sl) (ml := ml) (ol := ol) (og := o)
    i hpk hsg hlt h1.view h2 hol ho hfm
  constructor
  · intro hv
    obtain ⟨b, H', D', hp, hs', rfl, rfl⟩ := h3 hv H hD
    rw [setBytes_eq ho] at hs'
    exact ⟨H', hp, put2 hD hs'⟩
  · intro hv pm pl
    obtain ⟨b, H', D', hp, hs', rfl, rfl⟩ := h4 hv pm pl H hD
    exact ⟨H', hp, Sat.cells_eq hD hs'⟩

theorem run_round {sp op ss os sr or' c c' : Nat} {kp ks kr : Kind} {mp ms : Mem Byte} {mr : Mem (List (Nat × List Byte))}
    {good bs : List Byte} {bad rest : List (Nat × List Byte)} {pm : CPtr}
    (hP : H.cells sp = some ⟨kp, .bytes mp⟩) (hop : op + (params i).pkSize ≤ mp.length)
    (hS : H.cells ss = some ⟨ks, .bytes ms⟩) (hos : os + (params i).skSize ≤ ms.length) (hne : sp ≠ ss)
    (hR : H.cells sr = some ⟨kr, .tape mr⟩) (hr : mr[or']? = some (some (bad ++ (c, good) :: (c', bs) :: rest)))
    (hbad : ∀ e ∈ bad, e.2.length = (params i).skSize ∧ ¬ Spec.skGood i e.2) (hlen : bad.length < 2 ^ 63)
    (hg : good.length = (params i).skSize) (hgood : Spec.skGood i good) (hbs : bs.length = (params i).lambda / 8)
    (hM : H.cells s = some ⟨kd, .bytes M⟩) (ho : o + (params i).sigSize ≤ M.length) (hsp : s ≠ sp) (hss : s ≠ ss)
    (hL : H.cells sl = some ⟨kl, .nums ml⟩) (hn : ml[ol]? = some (some n)) (hle : (params i).sigSize ≤ n)
    (hm : BytesAt H pm m) (hmp : Apart pm sp) (hms : Apart pm ss) (hmM : Apart pm s) (hfm : S.Msg i m.length) :
    ∃ H', (do
        let r1 ← GenApi.keygen i (some ⟨sr, or'⟩) (some ⟨sp, op⟩) (some ⟨ss, os⟩)
        let r2 ← GenApi.sign i I (some ⟨sr, or'⟩) (some ⟨ss, os⟩) pm m.length (some ⟨s, o⟩) (some ⟨sl, ol⟩)
        let r3 ← GenApi.verify i I (some ⟨sp, op⟩) pm m.length (some ⟨s, o⟩) (params i).sigSize
        pure (r1, r2, r3) : CM (Nat × Nat × Nat)) H = some ((0, 0, 0), H') := by
  have hh := half_le i
  obtain ⟨D, hD⟩ := C.sat_exists H hf
  rw [keygen_eq, sign_eq, verify_eq]
  have hnR : sr ≠ sl := by rintro rfl; rw [hL] at hR; cases hR
  obtain ⟨F, rfl⟩ := split3 hD hP hS hR hne (by rintro rfl; rw [hP] at hR; cases hR) (by rintro rfl; rw [hS] at hR; cases hR)
  obtain ⟨F1, rfl⟩ : ∃ G, F = bl kd s M + G := by
    obtain ⟨G, hG⟩ := Multiset.exists_cons_of_mem (mem_rest (mem_rest (mem_rest ((hD.mem _ _).1 hM) hsp) hss) (by rintro rfl; rw [hM] at hR; cases hR))
    exact ⟨G, by rw [hG, ← Multiset.singleton_add]; rfl⟩
  obtain ⟨F2, rfl⟩ : ∃ G, F1 = bl kl sl ml + G := by
    obtain ⟨G, hG⟩ := Multiset.exists_cons_of_mem (mem_rest (mem_rest (mem_rest (mem_rest ((hD.mem _ _).1 hL)
      (by rintro rfl; rw [hL] at hP; cases hP)) (by rintro rfl; rw [hL] at hS; cases hS)) hnR.symm) (by rintro rfl; rw [hL] at hM; cases hM))
    exact ⟨G, by rw [hG, ← Multiset.singleton_add]; rfl⟩
  have h1 : RdAt F2 pm m.length m := RdAt.rest (RdAt.rest (RdAt.rest (RdAt.rest (RdAt.rest (hm.rdAt hD) hmp) hms) (hm.notOther hR (by simp))) hmM)
    (hm.notOther hL (by simp))
  have hlp : (Spec.pkOf i good).length = (params i).pkSize := pkOf_length (by omega)
  have hlr := rd_lt (rd_get hr)
  have k1 := gKeygen_run (F := bl kd s M + (bl kl sl ml + F2)) (kp := kp) (ks := ks) (kr := kr) (sp := sp) (ss := ss) (sr := sr) i hg hgood bad hbad hlen (rd_get hr) hos hop
  have k2 := gSign_run S (F := bl kp sp (W mp op (Spec.pkOf i good)) + (bl ks ss (W ms os good) + F2)) (kg := kd) (sg := s) (M := M) (kl := kl) (sl := sl) (ml := ml) (kr := kr) (sr := sr)
    (mr := mr.set or' (some ((c', bs) :: rest))) (or' := or') (pm := pm) (m := m) (psk := some ⟨ss, os⟩) i hg hgood (view_W (by omega)).there h1.there.there.there
    (rd_get hn) hle ho ((rd_set hlr _).trans (if_pos rfl)) hbs hfm
  obtain ⟨r, k3, hr0, -⟩ := gVerify_run S (F := bl kp sp (W mp op (Spec.pkOf i good)) + (bl kd s (W M o (Spec.signature X i good m bs)) +
      (bl ks ss (W ms os good) + (bl kl sl (ml.set ol (some (params i).sigSize)) + (bl kr sr ((mr.set or' (some ((c', bs) :: rest))).set or' (some rest)) + F2)))))
    (m := m) (pm := pm) (ppk := some ⟨sp, op⟩) (ps := some ⟨s, o⟩) i hlp (signature_len X i good m bs)
    (view_W (by omega)) (view_W (by rw [signature_len]; omega)).there h1.there.there.there.there.there hfm
  obtain rfl := hr0 (signature_valid X hg hgood)
  have hT : Runs (bl kp sp mp + (bl ks ss ms + (bl kr sr mr + (bl kd s M + (bl kl sl ml + F2))))) (do
        let r1 ← gKeygen i (some ⟨sr, or'⟩) (some ⟨sp, op⟩) (some ⟨ss, os⟩)
        let r2 ← gSign i I (some ⟨sr, or'⟩) (some ⟨ss, os⟩) pm m.length (some ⟨s, o⟩) (some ⟨sl, ol⟩)
        let r3 ← gVerify i I (some ⟨sp, op⟩) pm m.length (some ⟨s, o⟩) (params i).sigSize
        pure (r1, r2, r3) : CM (Nat × Nat × Nat)) (0, 0, 0) _ :=
    t_run rfl k1 (t_run (by hfind) k2 (t_run (by hfind) k3 (t_pure ⟨rfl, rfl⟩)))
  obtain ⟨b, H', D', hp, -, rfl, -⟩ := hT H hD
  exact ⟨H', hp⟩

end

section
variable {I : HImpl} (i : ParamId) (H : C.Heap) (hf : ∀ b, H.next ≤ b → H.cells b = none)
include hf

theorem run_reject (psk pm pr psig plen R ppk : CPtr) (len rholen siglen : Nat) :
    ((psk = none ∨ psig = none ∨ plen = none ∨ ∃ sl ol kl ml n, plen = some ⟨sl, ol⟩ ∧ H.cells sl = some ⟨kl, .nums ml⟩ ∧
        ml[ol]? = some (some n) ∧ (n < (params i).sigSize ∨ (pr = none ∧ rholen ≠ 0))) →
      ∃ H', GenApi.signWithRandomness i I psk pm len pr rholen psig plen H = some (4294967295, H') ∧ H'.cells = H.cells) ∧
    ((psk = none ∨ psig = none ∨ plen = none ∨ ∃ sl ol kl ml n, plen = some ⟨sl, ol⟩ ∧ H.cells sl = some ⟨kl, .nums ml⟩ ∧
        ml[ol]? = some (some n) ∧ n < (params i).sigSize) →
      ∃ H', GenApi.sign i I R psk pm len psig plen H = some (4294967295, H') ∧ H'.cells = H.cells) ∧
    ((ppk = none ∨ psig = none ∨ siglen ≠ (params i).sigSize) →
      ∃ H', GenApi.verify i I ppk pm len psig siglen H = some (4294967295, H') ∧ H'.cells = H.cells) := by
  have hv : ∀ {D : Blocks} {sl ol n : Nat} {kl : Kind} {ml : Mem Nat}, Sat H D → H.cells sl = some ⟨kl, .nums ml⟩ → ml[ol]? = some (some n) →
      View D (some ⟨sl, ol⟩) [some n] := by
    intro D sl ol n kl ml hD hL hn
    have hlt := rd_lt (rd_get hn)
    refine ⟨sl, ol, kl, ml, rfl, (hD.mem _ _).1 hL, ?_, fun j x hj => ?_⟩
    · rw [List.length_drop, List.length_singleton]; omega
    · have hj' := rd_lt hj
      rw [List.length_singleton] at hj'
      obtain rfl : j = 0 := by omega
      rw [C.rd_drop, Nat.add_zero, rd_get hn]
      exact hj
  refine ⟨fun h => ?_, fun h => ?_, fun h => ?_⟩
  · rw [swr_eq]
    refine run_same hf fun D hD => gSwr_rej i ?_
    rcases h with h | h | h | ⟨sl, ol, kl, ml, n, rfl, hL, hn, h⟩
    · exact Or.inl h
    · exact Or.inr (Or.inl h)
    · exact Or.inr (Or.inr (Or.inl h))
    · exact Or.inr (Or.inr (Or.inr ⟨n, hv hD hL hn, h⟩))
  · rw [sign_eq]
    refine run_same hf fun D hD => gSign_rej i ?_
    rcases h with h | h | h | ⟨sl, ol, kl, ml, n, rfl, hL, hn, h⟩
    · exact Or.inl h
    · exact Or.inr (Or.inl h)
    · exact Or.inr (Or.inr (Or.inl h))
    · exact Or.inr (Or.inr (Or.inr ⟨n, hv hD hL hn, h⟩))
  · rw [verify_eq]
    exact run_same hf fun D hD => gVerify_rej i h

theorem run_cshort {smlen : Nat} (h : smlen < (params i).sigSize) (pm pl psm ppk : CPtr) :
    ∃ H', GenApi.cryptoSignOpen i I pm pl psm smlen ppk H = some (4294967295, H') ∧ H'.cells = H.cells := by
  rw [copen_eq]
  exact run_same hf fun D _ => gCryptoSignOpen_rej i h

end

end Faest.Props
