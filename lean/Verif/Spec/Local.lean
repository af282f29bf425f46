import Verif.Spec.Find
/-!
# Numbers as they are written within a country

Blocks of digits, with parentheses around the first of them perhaps: `020 7031 3000`, `(650) 253-0000`, `8 (495) 123-45-67`.
-/
namespace Verif.Spec

/-- One to four spaces, hyphens, dots and parentheses. -/
def LocalGap (p : Str) : Prop := 1 ≤ p.length ∧ p.length ≤ 4 ∧ ∀ u ∈ p, u ∈ (str!" -.()")

/-- There are no parentheses, or one pair, with something in it and something after it, and no hyphen before it. -/
def Paired (s : Str) : Prop :=
  ('('.toNat ∉ s ∧ ')'.toNat ∉ s) ∨
  ∃ x y z, s = x ++ '('.toNat :: (y ++ ')'.toNat :: z) ∧ (∀ u ∈ x ++ y ++ z, u ≠ '('.toNat ∧ u ≠ ')'.toNat) ∧ '-'.toNat ∉ x ∧ y ≠ [] ∧ z ≠ []

/-- A number as it is written within a country; `lead` says that it begins with a parenthesis. -/
def WrittenLocally (lead : Bool) (s : Str) : Prop :=
  ∃ (d : Str) (l : List (Str × Str)), s = (if lead then ['('.toNat] else []) ++ (d ++ l.flatMap fun x => x.1 ++ x.2) ∧ Block d ∧
    l.length ≤ 20 ∧ (∀ x ∈ l, LocalGap x.1 ∧ Block x.2) ∧ Paired s

end Verif.Spec
