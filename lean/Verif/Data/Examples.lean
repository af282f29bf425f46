import Verif.Lemmas.Example
/-!
# The example numbers of the shipped metadata, checked over the whole table
-/
namespace Verif

/-- Equality of types, by cases. -/
def typeEq : NumType → NumType → Bool
  | .fixedLine, .fixedLine => true
  | .mobile, .mobile => true
  | .tollFree, .tollFree => true
  | .premiumRate, .premiumRate => true
  | .sharedCost, .sharedCost => true
  | .voip, .voip => true
  | .personalNumber, .personalNumber => true
  | .pager, .pager => true
  | .uan, .uan => true
  | .voicemail, .voicemail => true
  | .unknown, .unknown => true
  | .fixedLineOrMobile, .fixedLineOrMobile => true
  | _, _ => false

theorem typeEq_iff (a b : NumType) : typeEq a b = true ↔ a = b := by cases a <;> cases b <;> simp [typeEq]

/-- The types other than FIXED_LINE_OR_MOBILE. -/
def exTypes : List NumType :=
  [.fixedLine, .mobile, .tollFree, .premiumRate, .sharedCost, .voip, .personalNumber, .pager, .uan, .voicemail, .unknown]

/-- The example of type `t` in `m`, if there is one, is a number of type `t` or FIXED_LINE_OR_MOBILE among the regions `ms`. -/
def exOk (ms : List Metadata) (m : Metadata) (t : NumType) : Bool :=
  match descEx (descByType (some m) t) with
  | [] => true
  | ex => match plainNsn m ex with
    | none => false
    | some nsn => match typeAmong nsn ms with
      | some .unknown => false
      | some t' => typeEq t' t || typeEq t' .fixedLineOrMobile
      | none => false

/-- `exOk` for every region and type. -/
def examplesOk (C : Container) : Bool :=
  C.ccToRegion.all fun e => (fun ms => ms.all fun m => exTypes.all (exOk ms m)) (metasOf C e.2)

/-- Some beginning of `ex`, of length at most `l` and at least 2, is a number that is not valid. -/
def hasInvalid (ms : List Metadata) (m : Metadata) (ex : Str) : Nat → Bool
  | 0 => false
  | l + 1 => match plainNsn m (ex.take (l + 1)) with
    | none => hasInvalid ms m ex l
    | some nsn => match typeAmong nsn ms with
      | some .unknown => true
      | _ => hasInvalid ms m ex l

/-- The fixed-line example of every region exists and has a beginning that is not a valid number. -/
def invalidOk (C : Container) : Bool :=
  C.ccToRegion.all fun e => (fun ms => ms.all fun m =>
    (fun ex => hasInvalid ms m ex (ex.length - 1)) (descEx (descByType (some m) .fixedLine))) (metasOf C e.2)

theorem Data.wf_examples : examplesOk Data.container = true := by
  simp only [examplesOk, metasOf, mapGet_str]
  kernel_rfl
theorem Data.wf_invalid : invalidOk Data.container = true := by
  simp only [invalidOk, metasOf, mapGet_str]
  kernel_rfl

end Verif
