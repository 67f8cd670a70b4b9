/-
C77: the test program of the interface.
-/
import Verif.Model.ApiTest
import Verif.Proofs.KatRun
import Verif.Props.C38

namespace Faest.Props
open KatGen (cryptoSign_exact open_exact sb)

theorem in_place_ok (X : XOF) (i : ParamId) {rand : Rand} {sk m : List Byte} {sm : Mem Byte} (hm : m.length = 32) (hsk : sk.length = (params i).skSize)
    (hg : Spec.skGood i sk) (hsm : sm.length = 32 + (params i).sigSize) (hdel : (params i).lambda / 8 ≤ (rand 0 ((params i).lambda / 8)).2.length) :
    ApiTest.inPlace X i rand (ofList (Spec.pkOf i sk)) (ofList sk) (ofList m) sm = some 0 := by
  unfold ApiTest.inPlace
  have hrd : rdN (ofList m) 0 32 = some m := by rw [← hm]; exact rdN_ofList m
  rw [hrd, sb, wrN_front (by omega), sb, hm]
  have hl : (ofList m ++ sm.drop 32).length = 32 + (params i).sigSize := by
    rw [List.length_append, ofList_length, List.length_drop]; omega
  obtain ⟨b, b', h1, h2, h3, h4⟩ := C42_round_trip X i rand sk m (ofList m ++ sm.drop 32) 0 0 0 (32 + (params i).sigSize) hsk hg
    (rdN_append (l := m) (rest := sm.drop 32)) (by omega) (by omega) hdel
  rw [hm] at h1 h2 h4
  rw [h1, sb]
  dsimp only
  rw [if_neg (by decide), h2, sb]
  dsimp only
  rw [if_neg (by decide), if_neg (by decide), h4, sb, sb, if_neg (by simp)]
  rfl

/-- **C77.** tests/api_test.c returns 0 for every parameter set and every hash, whatever the random source delivers, as long as it delivers and some secret key is good. -/
theorem C77_main (X : XOF) (i : ParamId) (rand1 rand2 rand3 : Rand) {K fuel : Nat} (hdel1 : ∀ k, (params i).skSize ≤ (rand1 k (params i).skSize).2.length)
    (hdel2 : (params i).lambda / 8 ≤ (rand2 0 ((params i).lambda / 8)).2.length) (hdel3 : (params i).lambda / 8 ≤ (rand3 0 ((params i).lambda / 8)).2.length)
    (hK : Spec.skGood i (draw i rand1 K)) (hfirst : ∀ j < K, ¬Spec.skGood i (draw i rand1 j)) (hf : K < fuel) :
    ApiTest.main X i rand1 rand2 rand3 fuel = some 0 := by
  have hl : ∀ n, (calloc n (0 : Byte)).length = n := fun n => List.length_replicate ..
  have hc : calloc 32 (0 : Byte) = ofList (List.replicate 32 0) := by decide
  have hm : (List.replicate 32 (0 : Byte)).length = 32 := rfl
  have hsk : (draw i rand1 K).length = (params i).skSize := by
    unfold draw; rw [List.length_take]; have := hdel1 K; omega
  unfold ApiTest.main
  dsimp only
  rw [show cryptoSignKeypair i rand1 fuel _ _ = _ from C02_first_accepted i rand1 fuel K _ _ (hl _) (hl _) hdel1 hK hfirst hf, sb]
  dsimp only
  rw [if_neg (by decide), sb, sb, hc]
  generalize List.replicate 32 (0 : Byte) = m at hm
  have hs := cryptoSign_exact X (rand := rand2) (m := m) (sm := calloc (32 + (params i).sigSize) 0) hsk hK (by rw [hl, hm]) hdel2
  have ho := open_exact X (m := m) (rho := (rand2 0 ((params i).lambda / 8)).2.take ((params i).lambda / 8)) (buf := ofList m) (ml := 32) hsk hK (by rw [ofList_length])
  have hsl := signature_length X i (draw i rand1 K) m ((rand2 0 ((params i).lambda / 8)).2.take ((params i).lambda / 8))
  rw [hm] at hs ho
  rw [hs, sb]
  dsimp only
  have hrd : rdN (ofList m) 0 32 = some m := by rw [← hm]; exact rdN_ofList m
  rw [if_neg (by decide), ho, sb]
  dsimp only
  rw [if_neg (by decide), if_neg (by decide), hrd, sb,
    show rdN (ofList m ++ (ofList m).drop 32) 0 32 = some m from by rw [← hm]; exact rdN_append, sb, if_neg (by simp)]
  exact in_place_ok X i hm hsk hK (by rw [ofList_length, List.length_append, hm, hsl]) hdel3

/-- The known-answer key of FAEST-128f, given out by the second request for a key, behind one which is not good. -/
example (X : XOF) : ApiTest.main X .p128F (fun k _ => (0, if k = 0 then List.replicate 32 0 else Concrete.sk)) (fun _ n => (0, List.replicate n 7))
    (fun _ n => (0, List.replicate n 8)) 5 = some 0 := by
  refine C77_main X .p128F _ _ _ (K := 1) (fun k => ?_) (by rw [List.length_replicate]) (by rw [List.length_replicate]) ?_ (fun j hj => ?_) (by decide)
  · dsimp only; split <;> decide
  · exact Concrete.kat_good
  · obtain rfl : j = 0 := by omega
    exact Concrete.zero_bad

end Faest.Props
