/-
The range analysis succeeds on all expressions of the code, for all parameter sets.
-/
import Verif.Proofs.CIntRange
import Verif.Model.CIntSites

namespace Faest.CInt

/-- A box without points. -/
def emptyBox (b : Box) : Bool := b.any fun r => decide (r.2 < r.1)

/-- The analysis succeeds on all boxes of a site. -/
def siteOk (W : Nat) (P : Params) (s : Site) : Bool :=
  (s.dom P).all fun b => emptyBox b || (s.e.range W P b).isSome

theorem not_inBox_of_empty {b : Box} {env : Nat → Int} (h : emptyBox b = true) : ¬ InBox b env := by
  intro hb
  unfold emptyBox at h
  rw [List.any_eq_true] at h
  obtain ⟨r, hr, h⟩ := h
  obtain ⟨k, hk⟩ := List.getElem?_of_mem hr
  have := hb k r hk
  rw [decide_eq_true_eq] at h
  omega

theorem siteOk_sound {W : Nat} {P : Params} {s : Site} (h : siteOk W P s = true) {b : Box} (hb : b ∈ s.dom P)
    {env : Nat → Int} (he : InBox b env) : s.e.eval W P env = some (s.e.ideal P env) := by
  unfold siteOk at h
  rw [List.all_eq_true] at h
  have := h b hb
  rw [Bool.or_eq_true] at this
  rcases this with h1 | h1
  · exact absurd he (not_inBox_of_empty h1)
  · obtain ⟨r, hr⟩ := Option.isSome_iff_exists.1 h1
    exact (range_sound he _ hr).1

set_option maxRecDepth 10000 in
theorem sites_ok (i : ParamId) : sites.all (siteOk 64 (params i)) = true ∧ sites.all (siteOk 32 (params i)) = true := by
  cases i <;> decide +kernel

end Faest.CInt
