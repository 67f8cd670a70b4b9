/-
faest_aes.c, translated: `aes_prove` and `aes_verify`.
-/
import Verif.Proofs.Gen.FaestAes128
import Verif.Proofs.Gen.FaestAes192
import Verif.Proofs.Gen.FaestAes256
import Verif.Proofs.Gen.Em128
import Verif.Proofs.Gen.Em192
import Verif.Proofs.Gen.Em256

namespace Faest.C

section
variable {D F : Blocks} {kd kd' : Kind}

theorem chalP_params (id : ParamId) : ChalP (params id) := by
  cases id <;> exact ⟨by decide, by decide, by decide, by decide⟩

/-- `aes_prove`. -/
theorem aes_prove_run (id : ParamId) {sa oa sb ob stride : Nat} {w u V inp out ch ma ma' mb mb' : Mem Byte} {a b : List Byte}
    {pw pu pV base pin po pc : CPtr}
    (hw : View F pw w) (hu : View F pu u) (hc : Cols F pV base stride (params id).lambda) (hV : View F base V) (hi : View F pin inp)
    (ho : View F po out) (hch : View F pc ch) (h : Flat.aesProve (params id) w u V stride inp out ch = some (a, b))
    (ha : wrN ma oa a = some ma') (hb : wrN mb ob b = some mb') :
    Runs (bl kd sa ma + (bl kd' sb mb + F)) (Gen.aes_prove pw pu pV pin po pc (some ⟨sa, oa⟩) (some ⟨sb, ob⟩) (params id)) ()
      (bl kd sa ma' + (bl kd' sb mb' + F)) := by
  unfold Gen.aes_prove
  unfold Flat.aesProve at h
  cases id
  case p128S =>
    have hl : (params .p128S).lambda = 128 := rfl
    have hk : (params .p128S).Lke ≠ 0 := by decide
    simp only [hl, Nat.reduceEqDiff, if_true, if_false] at h ⊢
    rw [if_pos hk] at h ⊢
    exact t_run rfl (t_run rfl (t_run rfl (aes_prove_128_run ⟨rfl, rfl, rfl, rfl, rfl, rfl, rfl, rfl, rfl⟩ hw hu hc hV hi ho hch h ha hb) (t_pure ⟨rfl, rfl⟩)) (t_pure ⟨rfl, rfl⟩)) (t_pure ⟨rfl, rfl⟩)
  case p128F =>
    have hl : (params .p128F).lambda = 128 := rfl
    have hk : (params .p128F).Lke ≠ 0 := by decide
    simp only [hl, Nat.reduceEqDiff, if_true, if_false] at h ⊢
    rw [if_pos hk] at h ⊢
    exact t_run rfl (t_run rfl (t_run rfl (aes_prove_128_run ⟨rfl, rfl, rfl, rfl, rfl, rfl, rfl, rfl, rfl⟩ hw hu hc hV hi ho hch h ha hb) (t_pure ⟨rfl, rfl⟩)) (t_pure ⟨rfl, rfl⟩)) (t_pure ⟨rfl, rfl⟩)
  case p192S =>
    have hl : (params .p192S).lambda = 192 := rfl
    have hk : (params .p192S).Lke ≠ 0 := by decide
    simp only [hl, Nat.reduceEqDiff, if_true, if_false] at h ⊢
    rw [if_pos hk] at h ⊢
    exact t_run rfl (t_run rfl (t_run rfl (aes_prove_192_run ⟨rfl, rfl, rfl, rfl, rfl, rfl, rfl, rfl, rfl⟩ hw hu hc hV hi ho hch h ha hb) (t_pure ⟨rfl, rfl⟩)) (t_pure ⟨rfl, rfl⟩)) (t_pure ⟨rfl, rfl⟩)
  case p192F =>
    have hl : (params .p192F).lambda = 192 := rfl
    have hk : (params .p192F).Lke ≠ 0 := by decide
    simp only [hl, Nat.reduceEqDiff, if_true, if_false] at h ⊢
    rw [if_pos hk] at h ⊢
    exact t_run rfl (t_run rfl (t_run rfl (aes_prove_192_run ⟨rfl, rfl, rfl, rfl, rfl, rfl, rfl, rfl, rfl⟩ hw hu hc hV hi ho hch h ha hb) (t_pure ⟨rfl, rfl⟩)) (t_pure ⟨rfl, rfl⟩)) (t_pure ⟨rfl, rfl⟩)
  case p256S =>
    have hl : (params .p256S).lambda = 256 := rfl
    have hk : (params .p256S).Lke ≠ 0 := by decide
    simp only [hl, Nat.reduceEqDiff, if_true, if_false] at h ⊢
    rw [if_pos hk] at h ⊢
    exact t_run rfl (t_run rfl (t_run rfl (aes_prove_256_run ⟨rfl, rfl, rfl, rfl, rfl, rfl, rfl, rfl, rfl⟩ hw hu hc hV hi ho hch h ha hb) (t_pure ⟨rfl, rfl⟩)) (t_pure ⟨rfl, rfl⟩)) (t_pure ⟨rfl, rfl⟩)
  case p256F =>
    have hl : (params .p256F).lambda = 256 := rfl
    have hk : (params .p256F).Lke ≠ 0 := by decide
    simp only [hl, Nat.reduceEqDiff, if_true, if_false] at h ⊢
    rw [if_pos hk] at h ⊢
    exact t_run rfl (t_run rfl (t_run rfl (aes_prove_256_run ⟨rfl, rfl, rfl, rfl, rfl, rfl, rfl, rfl, rfl⟩ hw hu hc hV hi ho hch h ha hb) (t_pure ⟨rfl, rfl⟩)) (t_pure ⟨rfl, rfl⟩)) (t_pure ⟨rfl, rfl⟩)
  case pEM128S =>
    have hl : (params .pEM128S).lambda = 128 := rfl
    have hk : ¬ ((params .pEM128S).Lke ≠ 0) := by decide
    simp only [hl, Nat.reduceEqDiff, if_true, if_false] at h ⊢
    rw [if_neg hk] at h ⊢
    exact t_run rfl (t_run rfl (t_run rfl (em_prove_128_run ⟨rfl, rfl, rfl, rfl, rfl⟩ hw hu hc hV hi ho hch h ha hb) (t_pure ⟨rfl, rfl⟩)) (t_pure ⟨rfl, rfl⟩)) (t_pure ⟨rfl, rfl⟩)
  case pEM128F =>
    have hl : (params .pEM128F).lambda = 128 := rfl
    have hk : ¬ ((params .pEM128F).Lke ≠ 0) := by decide
    simp only [hl, Nat.reduceEqDiff, if_true, if_false] at h ⊢
    rw [if_neg hk] at h ⊢
    exact t_run rfl (t_run rfl (t_run rfl (em_prove_128_run ⟨rfl, rfl, rfl, rfl, rfl⟩ hw hu hc hV hi ho hch h ha hb) (t_pure ⟨rfl, rfl⟩)) (t_pure ⟨rfl, rfl⟩)) (t_pure ⟨rfl, rfl⟩)
  case pEM192S =>
    have hl : (params .pEM192S).lambda = 192 := rfl
    have hk : ¬ ((params .pEM192S).Lke ≠ 0) := by decide
    simp only [hl, Nat.reduceEqDiff, if_true, if_false] at h ⊢
    rw [if_neg hk] at h ⊢
    exact t_run rfl (t_run rfl (t_run rfl (em_prove_192_run ⟨rfl, rfl, rfl, rfl, rfl⟩ hw hu hc hV hi ho hch h ha hb) (t_pure ⟨rfl, rfl⟩)) (t_pure ⟨rfl, rfl⟩)) (t_pure ⟨rfl, rfl⟩)
  case pEM192F =>
    have hl : (params .pEM192F).lambda = 192 := rfl
    have hk : ¬ ((params .pEM192F).Lke ≠ 0) := by decide
    simp only [hl, Nat.reduceEqDiff, if_true, if_false] at h ⊢
    rw [if_neg hk] at h ⊢
    exact t_run rfl (t_run rfl (t_run rfl (em_prove_192_run ⟨rfl, rfl, rfl, rfl, rfl⟩ hw hu hc hV hi ho hch h ha hb) (t_pure ⟨rfl, rfl⟩)) (t_pure ⟨rfl, rfl⟩)) (t_pure ⟨rfl, rfl⟩)
  case pEM256S =>
    have hl : (params .pEM256S).lambda = 256 := rfl
    have hk : ¬ ((params .pEM256S).Lke ≠ 0) := by decide
    simp only [hl, Nat.reduceEqDiff, if_true, if_false] at h ⊢
    rw [if_neg hk] at h ⊢
    exact t_run rfl (t_run rfl (t_run rfl (em_prove_256_run ⟨rfl, rfl, rfl, rfl, rfl⟩ hw hu hc hV hi ho hch h ha hb) (t_pure ⟨rfl, rfl⟩)) (t_pure ⟨rfl, rfl⟩)) (t_pure ⟨rfl, rfl⟩)
  case pEM256F =>
    have hl : (params .pEM256F).lambda = 256 := rfl
    have hk : ¬ ((params .pEM256F).Lke ≠ 0) := by decide
    simp only [hl, Nat.reduceEqDiff, if_true, if_false] at h ⊢
    rw [if_neg hk] at h ⊢
    exact t_run rfl (t_run rfl (t_run rfl (em_prove_256_run ⟨rfl, rfl, rfl, rfl, rfl⟩ hw hu hc hV hi ho hch h ha hb) (t_pure ⟨rfl, rfl⟩)) (t_pure ⟨rfl, rfl⟩)) (t_pure ⟨rfl, rfl⟩)

/-- `aes_verify`. -/
theorem aes_verify_run (id : ParamId) {sq stride : Nat} {d Qm inp out ch2 ch3 at_ : Mem Byte} {r : List Byte}
    {pd pQ pin po pc2 pc3 pa : CPtr}
    (hd : View F pd d) (hQ : Cols F pQ (some ⟨sq, 0⟩) stride (params id).lambda) (hc2 : View F pc2 ch2) (hc3 : View F pc3 ch3) (ha : View F pa at_)
    (hi : View F pin inp) (ho : View F po out) (h : Flat.aesVerify (params id) d Qm stride ch2 ch3 at_ inp out = some r) :
    T (bl kd sq Qm + F) (Gen.aes_verify pd pQ pc2 pc3 pa pin po (params id))
      (fun x D' => ∃ (b : Nat) (Qm' : Mem Byte), x = some ⟨b, 0⟩ ∧ D' = bl .heap b (ofList r) + (bl kd sq Qm' + F)) := by
  unfold Gen.aes_verify
  unfold Flat.aesVerify at h
  have hC := chalP_params id
  cases id
  case p128S =>
    have hl : (params .p128S).lambda = 128 := rfl
    have hk : (params .p128S).Lke ≠ 0 := by decide
    simp only [hl, Nat.reduceEqDiff, if_true, if_false] at h ⊢
    rw [if_pos hk] at h ⊢
    exact aes_verify_128_run ⟨rfl, rfl, rfl, rfl, rfl, rfl, rfl, rfl, rfl⟩ hC (by decide) hd hQ hc2 hc3 ha hi ho h
  case p128F =>
    have hl : (params .p128F).lambda = 128 := rfl
    have hk : (params .p128F).Lke ≠ 0 := by decide
    simp only [hl, Nat.reduceEqDiff, if_true, if_false] at h ⊢
    rw [if_pos hk] at h ⊢
    exact aes_verify_128_run ⟨rfl, rfl, rfl, rfl, rfl, rfl, rfl, rfl, rfl⟩ hC (by decide) hd hQ hc2 hc3 ha hi ho h
  case p192S =>
    have hl : (params .p192S).lambda = 192 := rfl
    have hk : (params .p192S).Lke ≠ 0 := by decide
    simp only [hl, Nat.reduceEqDiff, if_true, if_false] at h ⊢
    rw [if_pos hk] at h ⊢
    exact aes_verify_192_run ⟨rfl, rfl, rfl, rfl, rfl, rfl, rfl, rfl, rfl⟩ hC (by decide) hd hQ hc2 hc3 ha hi ho h
  case p192F =>
    have hl : (params .p192F).lambda = 192 := rfl
    have hk : (params .p192F).Lke ≠ 0 := by decide
    simp only [hl, Nat.reduceEqDiff, if_true, if_false] at h ⊢
    rw [if_pos hk] at h ⊢
    exact aes_verify_192_run ⟨rfl, rfl, rfl, rfl, rfl, rfl, rfl, rfl, rfl⟩ hC (by decide) hd hQ hc2 hc3 ha hi ho h
  case p256S =>
    have hl : (params .p256S).lambda = 256 := rfl
    have hk : (params .p256S).Lke ≠ 0 := by decide
    simp only [hl, Nat.reduceEqDiff, if_true, if_false] at h ⊢
    rw [if_pos hk] at h ⊢
    exact aes_verify_256_run ⟨rfl, rfl, rfl, rfl, rfl, rfl, rfl, rfl, rfl⟩ hC (by decide) hd hQ hc2 hc3 ha hi ho h
  case p256F =>
    have hl : (params .p256F).lambda = 256 := rfl
    have hk : (params .p256F).Lke ≠ 0 := by decide
    simp only [hl, Nat.reduceEqDiff, if_true, if_false] at h ⊢
    rw [if_pos hk] at h ⊢
    exact aes_verify_256_run ⟨rfl, rfl, rfl, rfl, rfl, rfl, rfl, rfl, rfl⟩ hC (by decide) hd hQ hc2 hc3 ha hi ho h
  case pEM128S =>
    have hl : (params .pEM128S).lambda = 128 := rfl
    have hk : ¬ ((params .pEM128S).Lke ≠ 0) := by decide
    simp only [hl, Nat.reduceEqDiff, if_true, if_false] at h ⊢
    rw [if_neg hk] at h ⊢
    exact em_verify_128_run ⟨rfl, rfl, rfl, rfl, rfl⟩ hC (by decide) hd hQ hc2 hc3 ha hi ho h
  case pEM128F =>
    have hl : (params .pEM128F).lambda = 128 := rfl
    have hk : ¬ ((params .pEM128F).Lke ≠ 0) := by decide
    simp only [hl, Nat.reduceEqDiff, if_true, if_false] at h ⊢
    rw [if_neg hk] at h ⊢
    exact em_verify_128_run ⟨rfl, rfl, rfl, rfl, rfl⟩ hC (by decide) hd hQ hc2 hc3 ha hi ho h
  case pEM192S =>
    have hl : (params .pEM192S).lambda = 192 := rfl
    have hk : ¬ ((params .pEM192S).Lke ≠ 0) := by decide
    simp only [hl, Nat.reduceEqDiff, if_true, if_false] at h ⊢
    rw [if_neg hk] at h ⊢
    exact em_verify_192_run ⟨rfl, rfl, rfl, rfl, rfl⟩ hC (by decide) hd hQ hc2 hc3 ha hi ho h
  case pEM192F =>
    have hl : (params .pEM192F).lambda = 192 := rfl
    have hk : ¬ ((params .pEM192F).Lke ≠ 0) := by decide
    simp only [hl, Nat.reduceEqDiff, if_true, if_false] at h ⊢
    rw [if_neg hk] at h ⊢
    exact em_verify_192_run ⟨rfl, rfl, rfl, rfl, rfl⟩ hC (by decide) hd hQ hc2 hc3 ha hi ho h
  case pEM256S =>
    have hl : (params .pEM256S).lambda = 256 := rfl
    have hk : ¬ ((params .pEM256S).Lke ≠ 0) := by decide
    simp only [hl, Nat.reduceEqDiff, if_true, if_false] at h ⊢
    rw [if_neg hk] at h ⊢
    exact em_verify_256_run ⟨rfl, rfl, rfl, rfl, rfl⟩ hC (by decide) hd hQ hc2 hc3 ha hi ho h
  case pEM256F =>
    have hl : (params .pEM256F).lambda = 256 := rfl
    have hk : ¬ ((params .pEM256F).Lke ≠ 0) := by decide
    simp only [hl, Nat.reduceEqDiff, if_true, if_false] at h ⊢
    rw [if_neg hk] at h ⊢
    exact em_verify_256_run ⟨rfl, rfl, rfl, rfl, rfl⟩ hC (by decide) hd hQ hc2 hc3 ha hi ho h

end

end Faest.C
