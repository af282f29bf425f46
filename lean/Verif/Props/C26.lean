import Verif.Lemmas.Valid
/-!
# C26: a number is valid exactly when it has a type
-/
namespace Verif.Props
open Spec

/-- For every number, `IsValidNumber` and `GetNumberType` both return, and the number is valid iff its type is not UNKNOWN. -/
theorem C26_valid_iff_type (C : Container) (hb : Built C) (ht : tablesOk C = true) (hd : C.allMeta.all hasAllDescs = true)
    (n : PhoneNumber) : ∃ v t, isValidNumber C n = .ok v ∧ numberType C n = .ok t ∧ (v = true ↔ t ≠ .unknown) := by
  simp only [isValidNumber, numberType, isValidForRegion, bind, Except.bind]
  rcases regionForNumber_cases hb ht hd n with h | ⟨r, m, h1, -, h2, -, h3⟩
  · simp only [h, metaFor_nil]
    exact ⟨false, .unknown, rfl, rfl, by simp⟩
  · simp only [h1, h2]
    obtain ⟨t, hty⟩ := numberTypeHelper_ok (List.all_eq_true.1 hd m (Container.metaFor_mem h2)) (nsnOf_isDig n)
    refine ⟨decide (t ≠ .unknown), t, ?_, hty, by simp⟩
    rw [if_neg (by rintro ⟨h4, h5⟩; exact h5 (h3 h4).symm)]
    simp only [hty, pure, Except.pure]

/-- The same, without hypotheses, for the shipped metadata. -/
theorem C26_shipped (n : PhoneNumber) :
    ∃ v t, isValidNumber Data.container n = .ok v ∧ numberType Data.container n = .ok t ∧ (v = true ↔ t ≠ .unknown) :=
  C26_valid_iff_type _ built_shipped Data.wf_tables Data.wf_allDescs n

example : isValidNumber Data.container { countryCode := some 41, nationalNumber := some 446681800 } = .ok true := by kernel_rfl
example : isValidNumber Data.container { countryCode := some 41, nationalNumber := some 4466818 } = .ok false := by kernel_rfl

end Verif.Props
