/-
The known-answer key pair of FAEST-128f and two rejected keys; used by `example`s.
-/
import Verif.Proofs.ApiRefine
import Verif.Proofs.Concrete

namespace Faest.Concrete

/-- Secret and public key. -/
def sk : List Byte := inp ++ key
def pk : List Byte := inp ++ out

theorem kat_owf : Spec.skGood .p128F sk ∧ Spec.pkOf .p128F sk = pk := by
  obtain ⟨⟨o, ok⟩, h1, h2, h3⟩ := owf_ok .p128F (key := ofList key) (inp := ofList inp)
    (k := Spec.byteFn (sk.drop ((params .p128F).pkSize / 2))) (x := Spec.byteFn sk)
    (has_ofList_le key (by decide))
    ((has_ofList_le inp (by decide)).congr fun t ht => (byteFn_append_left (a := inp) ht).symm)
  have h4 : owf .p128F (ofList key) (ofList inp) = some (out, true) := owf_kat
  rw [h4] at h1
  obtain ⟨rfl, rfl⟩ := Prod.mk.inj (Option.some.inj h1)
  refine ⟨h3.1 rfl, ?_⟩
  unfold Spec.pkOf
  have h5 : out = tabP ((params .p128F).pkSize / 2)
    (Spec.owf .p128F (Spec.byteFn (sk.drop ((params .p128F).pkSize / 2))) (Spec.byteFn sk)) := h2
  rw [← h5]
  rfl

theorem kat_good : Spec.skGood .p128F sk := kat_owf.1

/-- The all-zero AES key is rejected: the key schedule has a zero S-box input. -/
theorem zero_bad : ¬Spec.skGood .p128F (List.replicate 32 0) := by
  intro h
  have h1 := (show Spec.ksNonzero 4 44 _ ∧ _ from h).1 4 (by decide) (by decide) _ rfl 0 (by decide)
  apply h1
  unfold Spec.keyWord
  rw [dif_pos (by decide)]
  decide

/-- The all-zero Even-Mansour key is rejected for the all-zero input. -/
theorem zero_bad_em : ¬Spec.skGood .pEM128F (List.replicate 32 0) := by
  intro h
  have h1 := (show Spec.encNonzero 4 4 10 _ _ from h) 0 (by decide) 0 (by decide) 0 (by decide)
  apply h1
  unfold Spec.roundState Spec.addRoundKey Spec.keyWord
  rw [dif_pos (by decide)]
  decide

/-- The pair is valid. -/
theorem kat_valid : validateKeypair .p128F (some (ofList pk)) (some (ofList sk)) = some 0 := by
  obtain ⟨r, h1, h2⟩ := validate_ok (i := .p128F) (pk := pk) (sk := sk) rfl rfl
  rw [h1]
  rcases h2 with ⟨rfl, -⟩ | ⟨-, h⟩ | ⟨-, -, h⟩
  · rfl
  · exact absurd kat_good h
  · exact absurd kat_owf.2.symm h

end Faest.Concrete
