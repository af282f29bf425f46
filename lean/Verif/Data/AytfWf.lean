import Verif.Data.Shipped
import Verif.Lemmas.AytfStatic
import Verif.Lemmas.Fast
/-!
# The shipped metadata and the as-you-type formatter

Each theorem evaluates a decidable predicate over the whole table in the kernel.
-/
namespace Verif.Aytf

/-- `p` holds of every region code and the metadata the formatter works with for that region. -/
def mainsAll (C : Container) (p : Str → Metadata → Bool) : Bool :=
  C.regionMeta.all fun e => match mapGet C.regionMeta (C.mainRegion e.2.countryCode) with
    | some m => p e.1 m
    | none => true

theorem mainsAll_spec {C : Container} {p : Str → Metadata → Bool} (h : mainsAll C p = true) (h0 : C.regionsOf 0 = [])
    (hz : mapGet C.regionMeta unknownRegion = none) (r : Str) : metaFor C r = emptyMetadata ∨ p r (metaFor C r) = true := by
  have hnone : C.metaForRegion (C.mainRegion 0) = none := by
    have : C.mainRegion 0 = unknownRegion := by unfold Container.mainRegion; rw [h0]
    unfold Container.metaForRegion
    rw [this, hz]; split <;> rfl
  unfold metaFor Container.ccForRegion
  split
  · rename_i hv
    unfold Container.ccForValidRegion
    cases hm : C.metaForRegion r with
    | none => left; rw [hnone]; rfl
    | some m =>
      have hmem : (r, m) ∈ C.regionMeta := by
        unfold Container.metaForRegion at hm
        rw [if_pos hv] at hm
        exact mapGet_mem hm
      have := List.all_eq_true.1 h _ hmem
      dsimp only at this ⊢
      cases hx : C.metaForRegion (C.mainRegion m.countryCode) with
      | none => exact .inl rfl
      | some m' =>
        right
        unfold Container.metaForRegion at hx
        by_cases hv' : C.validRegion (C.mainRegion m.countryCode) = true
        · rw [if_pos hv'] at hx; rw [hx] at this; exact this
        · rw [if_neg hv'] at hx; cases hx
  · left; rw [hnone]; rfl

end Verif.Aytf
namespace Verif.Data
open Spec Aytf

theorem wf_formats : container.allMeta.all formatsOk = true := by kernel_rfl

/-- Regions whose national prefix patterns can match more and more of a number as it is typed. -/
def growing : List Str := [str!"AR", str!"BR", str!"CO", str!"JP", str!"KR"]

theorem wf_prefix : mainsAll container (fun r m => wideOk m && coverOk m && (growing.any (strEq r) || stableOk m)) = true := by
  simp only [mainsAll, Container.mainRegion, Container.regionsOf, mapGet_str, mapGet_int]
  kernel_rfl

theorem wf_none : container.regionsOf 0 = [] ∧ mapGet container.regionMeta unknownRegion = none := by
  simp only [Container.regionsOf, mapGet_str, mapGet_int]
  constructor <;> kernel_rfl

theorem contOk : ContOk container := by
  constructor
  · intro r
    have key : formatsOk emptyMetadata = true := by decide +kernel
    unfold metaFor
    cases h : container.metaForRegion (container.mainRegion (container.ccForRegion r)) with
    | none => exact key
    | some m => exact List.all_eq_true.1 wf_formats m (Container.metaForRegion_mem h)
  · intro c
    have key : formatsOk nilMetadata = true := by decide +kernel
    cases h : container.metaForNonGeo c with
    | none => exact key
    | some m => exact List.all_eq_true.1 wf_formats m (Container.metaForNonGeo_mem h)

theorem wide_shipped (r : Str) : wideOk (metaFor container r) = true := by
  rcases mainsAll_spec wf_prefix wf_none.1 wf_none.2 r with h | h
  · rw [h]; decide +kernel
  · simp only [Bool.and_eq_true] at h; exact h.1.1

theorem cover_shipped (r : Str) : coverOk (metaFor container r) = true := by
  rcases mainsAll_spec wf_prefix wf_none.1 wf_none.2 r with h | h
  · rw [h]; decide +kernel
  · simp only [Bool.and_eq_true] at h; exact h.1.2

theorem stable_shipped {r : Str} (hr : r ∉ growing) : Stable (metaFor container r) := by
  apply stableOk_spec
  rcases mainsAll_spec wf_prefix wf_none.1 wf_none.2 r with h | h
  · rw [h]; decide +kernel
  · simp only [Bool.and_eq_true, Bool.or_eq_true, List.any_eq_true] at h
    rcases h.2 with ⟨x, hx, he⟩ | h
    · rw [(strEq_iff _ _).1 he] at hr; exact absurd hx hr
    · exact h

end Verif.Data
