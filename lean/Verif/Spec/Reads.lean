import Verif.Model.Types
/-!
# When two number messages say the same

A `PhoneNumber` has optional fields, each with a getter that answers a default when the field is unset.  A caller compares
messages through the getters.  The number of leading zeros is only meaningful when the leading-zero flag is set.
-/
namespace Verif

/-- The two messages name the same digits under the same country calling code. -/
structure SameNumber (a b : PhoneNumber) : Prop where
  cc : a.cc = b.cc
  nn : a.nn = b.nn
  ilz : a.ilz = b.ilz
  zeros : a.ilz = true → a.nlz = b.nlz

/-- The two messages name the same number with the same extension. -/
structure SameDialled (a b : PhoneNumber) : Prop extends SameNumber a b where
  ext : a.ext = b.ext

/-- The two messages read alike in everything a caller can ask for. -/
structure ReadsAlike (a b : PhoneNumber) : Prop extends SameDialled a b where
  raw : a.raw = b.raw
  src : a.src = b.src
  carrier : a.carrier = b.carrier

end Verif
