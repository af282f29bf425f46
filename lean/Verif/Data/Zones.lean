import Verif.Data.Wf
import Verif.Data.Tz
import Verif.Lemmas.ArrayFile
import Verif.Lemmas.Tables
/-!
# Facts on the shipped time zone file and on numbers consisting of zeros
-/
namespace Verif

/-- No general length makes a number of zeros a geographical number. -/
def zerosOk (m : Metadata) : Bool :=
  match m.general, m.fixedLine, m.mobile with
  | some g, some f, some mo => g.lengths.all fun l =>
    !(f.pattern.getD ⟨[], .eps⟩).re.full.isMatch (List.replicate l.toNat 48) &&
    (!(geoMobileCountries.any fun c => Nat.beq c.toNat m.countryCode.toNat) || !(mo.pattern.getD ⟨[], .eps⟩).re.full.isMatch (List.replicate l.toNat 48))
  | _, _, _ => false

namespace Data
theorem wf_zeroNumbers : container.allMeta.all zerosOk = true := by kernel_rfl
theorem wf_positive : (container.ccToRegion.all fun e => match e.1 with | .ofNat n => Nat.blt 0 n | .negSucc _ => false) = true := by kernel_rfl
theorem wf_tz : walkFile (10 ^ 9) (10 ^ 8) tzRaw = true := by kernel_rfl
end Data

/-- Country codes of the shipped table are positive. -/
theorem cc_pos {cc : Int} {r : Str} (hr : r ∈ Data.container.regionsOf cc) : 0 < cc := by
  have := List.all_eq_true.1 Data.wf_positive _ (regionsOf_entry hr)
  revert this
  cases cc with
  | ofNat x => simp only [Nat.blt_eq]; intro h; show (0 : Int) < (x : Int); omega
  | negSucc x => simp

end Verif
