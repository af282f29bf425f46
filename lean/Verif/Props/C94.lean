import Verif.Lemmas.AytfSame
import Verif.Props.C38
/-!
# C94: what an as-you-type formatter shows depends only on the characters typed since the last `Clear`
-/
namespace Verif.Props
open Spec

/-- For every metadata, every region and every two sequences of calls that do not panic: if the characters typed since the last
`Clear` are the same, the outputs are the same.  Calls before the last `Clear`, and whether a character was typed with
`InputDigit` or with `InputDigitAndRememberPosition`, make no difference. -/
theorem C94_history (C : Container) (region : Str) (h1 h2 : List Call) (h : typed h1 = typed h2) (a b : Aytf)
    (ha : calls C (Aytf.new C region) h1 = .ok a) (hb : calls C (Aytf.new C region) h2 = .ok b) :
    a.currentOutput = b.currentOutput := Aytf.output_same ha hb h

/-- If what was typed begins with a plus sign, the region of the formatter makes no difference either. -/
theorem C94_region (C : Container) (r1 r2 : Str) (h1 h2 : List Call) (h : typed h1 = typed h2)
    (hplus : (typed h1).head? = some '+'.toNat) (a b : Aytf)
    (ha : calls C (Aytf.new C r1) h1 = .ok a) (hb : calls C (Aytf.new C r2) h2 = .ok b) :
    a.currentOutput = b.currentOutput := by
  obtain ⟨w, hw⟩ : ∃ w, typed h1 = 43 :: w := by
    cases ht : typed h1 with
    | nil => rw [ht] at hplus; cases hplus
    | cons u w => rw [ht] at hplus; cases hplus; exact ⟨w, rfl⟩
  exact Aytf.output_plus ha hb h hw

/-- With the shipped metadata no call panics, so the output is a function of the region and the characters typed. -/
theorem C94_shipped (region : Str) (h1 h2 : List Call) (h : typed h1 = typed h2) :
    outputOf Data.container region h1 = outputOf Data.container region h2 := by
  obtain ⟨a, ha⟩ := C38_no_panic region h1
  obtain ⟨b, hb⟩ := C38_no_panic region h2
  unfold outputOf
  rw [ha, hb]
  exact congrArg some (C94_history _ region h1 h2 h a b ha hb)

/-- With the shipped metadata, after a plus sign it is a function of the characters typed alone. -/
theorem C94_shipped_plus (r1 r2 : Str) (h1 h2 : List Call) (h : typed h1 = typed h2)
    (hplus : (typed h1).head? = some '+'.toNat) :
    outputOf Data.container r1 h1 = outputOf Data.container r2 h2 := by
  obtain ⟨a, ha⟩ := C38_no_panic r1 h1
  obtain ⟨b, hb⟩ := C38_no_panic r2 h2
  unfold outputOf
  rw [ha, hb]
  exact congrArg some (C94_region _ r1 r2 h1 h2 h hplus a b ha hb)

/-- What `GetRememberedPosition` returns is a function of the region, the characters typed since the last `Clear` and the place of
the last one typed with `InputDigitAndRememberPosition`. -/
theorem C94_position (C : Container) (region : Str) (h1 h2 : List Call) (h : typed h1 = typed h2) (hm : mark h1 = mark h2) (a b : Aytf)
    (ha : calls C (Aytf.new C region) h1 = .ok a) (hb : calls C (Aytf.new C region) h2 = .ok b) : a.position = b.position :=
  Aytf.position_same ha hb h hm

/-- Without a plus sign the region matters. -/
theorem C94_region_matters : outputOf Data.container (str!"US") (typeAll (str!"2025550123")) = some (str!"(202) 555-0123") ∧
    outputOf Data.container (str!"FR") (typeAll (str!"2025550123")) = some (str!"2025550123") := by
  constructor <;> kernel_rfl

/-- A history with a cleared first attempt and a remembered position, and one without. -/
example : typed ([.input 57, .input 65, .clear] ++ typeAll (str!"+4420") ++ [.remember 55]) = typed (typeAll (str!"+44207")) ∧
    (typed (typeAll (str!"+44207"))).head? = some '+'.toNat := by
  constructor <;> rfl

example : outputOf Data.container (str!"US") ([.input 57, .input 65, .clear] ++ typeAll (str!"+4420") ++ [.remember 55]) =
    outputOf Data.container (str!"ZW") (typeAll (str!"+44207")) :=
  C94_shipped_plus _ _ _ _ (by rfl) (by rfl)

example : outputOf Data.container (str!"ZW") (typeAll (str!"+44207")) = some (str!"+44 20 7") := by kernel_rfl

/-- An earlier remembered position does not matter. -/
example : typed [.remember 50, .input 48, .remember 50, .input 53] = typed [.input 50, .input 48, .remember 50, .input 53] ∧
    mark [.remember 50, .input 48, .remember 50, .input 53] = mark [.input 50, .input 48, .remember 50, .input 53] ∧
    mark [.input 50, .input 48, .remember 50, .input 53] = 3 := by
  refine ⟨rfl, rfl, rfl⟩

end Verif.Props
