import Verif.Model.Format
import Verif.Data.Shipped
/-!
# C22: which carrier code is used when formatting
-/
namespace Verif.Props

/-- The number's own carrier code wins when it is non-empty. -/
theorem C22_own (C : Container) (n : PhoneNumber) (fallback own : Str) (h : n.preferredCarrier = some own) (hne : own ≠ []) :
    formatWithPreferredCarrier C n fallback = formatWithCarrier C n own := by
  simp [formatWithPreferredCarrier, PhoneNumber.carrier, h, hne]

/-- Otherwise (field unset, or set to the empty string) the fallback is used. -/
theorem C22_fallback (C : Container) (n : PhoneNumber) (fallback : Str) (h : n.preferredCarrier = none ∨ n.preferredCarrier = some []) :
    formatWithPreferredCarrier C n fallback = formatWithCarrier C n fallback := by
  rcases h with h | h <;> simp [formatWithPreferredCarrier, PhoneNumber.carrier, h]

/-- `FormatNationalNumberWithCarrierCode` itself looks only at its argument, never at the stored carrier code. -/
theorem C22_argument_only (C : Container) (n : PhoneNumber) (carrier : Str) (stored : Option Str) :
    formatWithCarrier C { n with preferredCarrier := stored } carrier = formatWithCarrier C n carrier := rfl

/-- With no carrier code at all the result is the ordinary national format. -/
theorem C22_none (C : Container) (n : PhoneNumber) (h : n.preferredCarrier = none ∨ n.preferredCarrier = some [])
    (hraw : ¬ (n.nn = 0 ∧ n.raw ≠ [])) : formatWithPreferredCarrier C n [] = format C n .national := by
  rw [C22_fallback C n [] h]
  simp [formatWithCarrier, format, if_neg hraw, formatCore]

theorem chooseFormat_mem {fs : List NumberFormat} {s : Str} {f : NumberFormat} (h : chooseFormat fs s = some f) : f ∈ fs := by
  induction fs with
  | nil => cases h
  | cons g gs ih =>
    unfold chooseFormat at h
    split at h
    · split at h
      · cases h; simp
      · exact List.mem_cons_of_mem _ (ih h)
    · split at h
      · cases h; simp
      · exact List.mem_cons_of_mem _ (ih h)

/-- When no format of the number's country has a carrier rule, carrier codes do not show: the result is the national format. -/
theorem C22_no_rule (C : Container) (n : PhoneNumber) (carrier : Str) (hraw : ¬ (n.nn = 0 ∧ n.raw ≠ []))
    (hr : ∀ m, C.metaFor n.cc (C.mainRegion n.cc) = some m → ∀ f ∈ m.formats, f.ccRule = []) :
    formatWithCarrier C n carrier = format C n .national := by
  simp only [formatWithCarrier, format, if_neg hraw, formatCore]
  by_cases hcc : C.hasCC n.cc = true
  · simp only [hcc, Bool.not_true, Bool.false_eq_true, if_false, reduceCtorEq]
    cases hm : C.metaFor n.cc (C.mainRegion n.cc) with
    | none => simp [formatNsn, chooseFormat]
    | some m =>
      have : formatNsn (nsnOf n) (some m) .national carrier = formatNsn (nsnOf n) (some m) .national [] := by
        simp only [formatNsn, or_true, if_true]
        cases hf : chooseFormat m.formats (nsnOf n) with
        | none => rfl
        | some f => simp [formatNsnUsingPattern, hr m hm f (chooseFormat_mem hf)]
      rw [this]
  · simp [hcc]

example : formatWithCarrier Data.container { countryCode := some 55, nationalNumber := some 1123456789 } (str!"15") =
    str!"0 15 (11) 2345-6789" := by kernel_rfl
example : formatWithPreferredCarrier Data.container
    { countryCode := some 55, nationalNumber := some 1123456789, preferredCarrier := some (str!"41") } (str!"15") =
    str!"0 41 (11) 2345-6789" := by kernel_rfl
-- Switzerland has no carrier rules: the hypothesis of `C22_no_rule` holds
example : (match Data.container.metaFor 41 (Data.container.mainRegion 41) with
    | some m => !m.formats.isEmpty && m.formats.all (fun f => decide (f.ccRule = []))
    | none => false) = true := by kernel_rfl

end Verif.Props
