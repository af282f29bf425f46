import Verif.Model.Parse
/-!
# Region codes the library does not know
-/
namespace Verif.Spec

/-- Two parses look the same to the caller: the same number, or the same error. -/
def SameOutcome (x y : Go (Option ParseErr × PhoneNumber)) : Prop :=
  (∀ n, x = .ok (none, n) ↔ y = .ok (none, n)) ∧ (∀ e, (∃ n, x = .ok (some e, n)) ↔ ∃ n, y = .ok (some e, n)) ∧
    (∀ p, x = .error p ↔ y = .error p)

end Verif.Spec
