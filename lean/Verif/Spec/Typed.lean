import Verif.Spec.National
/-!
# Numbers typed in their own region

The digits of the national significant number, alone or after the national prefix of the region.
-/
namespace Verif.Spec

/-- Beginnings of national significant numbers that are not read back when typed alone, by country code: they are taken for an
international prefix or for a national prefix. -/
def bareAmbiguous : List (Nat × Str) := natAmbiguous ++ [(7, str!"81"), (375, str!"8")]

/-- Beginnings of national significant numbers that are not read back when typed after the national prefix: together with it they
are taken for an international prefix, or for a longer national prefix. -/
def prefixAmbiguous : List (Nat × Str) :=
  natAmbiguous ++ [(57, str!"3"), (57, str!"5"), (57, str!"7"), (57, str!"9"), (57, str!"414"), (57, str!"444"), (57, str!"456"),
    (81, str!"0"), (250, str!"0"), (598, str!"0"), (598, str!"1"), (972, str!"1")]

/-- The beginnings listed for a country code. -/
def listedFor (l : List (Nat × Str)) (c : Nat) : List Str := (l.filter fun e => Nat.beq e.1 c).map (·.2)

/-- The national significant number has a beginning listed for its country code. -/
def BeginsAsListed (l : List (Nat × Str)) (n : PhoneNumber) : Prop := ∃ b ∈ listedFor l n.cc.toNat, b <+: nsnOf n

instance (l : List (Nat × Str)) (n : PhoneNumber) : Decidable (BeginsAsListed l n) := inferInstanceAs (Decidable (∃ b ∈ _, _))

/-- The national prefix of a region as it is dialled: without the sign `~` that stands for waiting for a tone. -/
def dialledNdd (m : Metadata) : Str := m.nationalPrefix.filter fun u => !Nat.beq u 126

/-- The lengths of the numbers of the region are in range, and none is a local length. -/
def typedLengths (m : Metadata) : Bool :=
  match m.general with
  | none => false
  | some g => !g.lengths.isEmpty && g.lengths.all fun x => Nat.ble 3 x.toNat && Nat.ble x.toNat 17 &&
      !g.localLengths.any fun y => Nat.beq x.toNat y.toNat

/-- The static check for numbers typed alone. -/
def bareOk (m : Metadata) : Bool := typedLengths m && readsBack m [] ((listedFor bareAmbiguous m.countryCode.toNat).map notStart)

/-- The regions for which the check with the national prefix fails: Argentina. -/
def prefixUnsettled : List Str := [str!"AR"]

/-- The static check for numbers typed after the national prefix, which is not the country code. -/
def prefixOk (m : Metadata) : Bool :=
  (dialledNdd m).isEmpty || decide (m.countryCode = 1) || ((dialledNdd m).all isDig && Nat.ble (dialledNdd m).length 3 &&
    readsBack m (dialledNdd m) ((listedFor prefixAmbiguous m.countryCode.toNat).map notStart))

end Verif.Spec
