import Verif.Lemmas.Mapper
import Verif.Props.C15
/-!
# C45: carrier and geocoding lookups use the longest prefix
-/
namespace Verif.Props
open Verif Spec

/-- The lookup in a map (each key once), for a plus sign and digits and a maximum of `L` characters (at most 19, so that every prefix
fits an integer): the result is the value and the key of the longest prefix of at most `L - 1` digits that is a key, if there is
one, and otherwise empty with key 0.  There is no error. -/
theorem C45_lookup (m : List (Int × Bytes)) (hk : (m.map (·.1)).Nodup) (ds : Str) (hd : AllDigits ds) (L : Nat)
    (hL : 1 ≤ L) (hL' : L ≤ 19) :
    ∃ v k, valueForNumber (some m) L ('+'.toNat :: ds) = some (v, k) ∧
      ((∃ (p : Str) (j : Nat), k = (j : Int) ∧ LongestPrefix m ds (L - 1) p j v) ∨ (NoPrefix m ds (L - 1) ∧ v = [] ∧ k = 0)) := by
  have hdig := allDig_of hd
  have hb : blen ('+'.toNat :: ds) = ds.length + 1 := by
    have h1 : blen ('+'.toNat :: ds) = width '+'.toNat + blen ds := by simp [blen]
    rw [h1, blen_digits hdig, show width '+'.toNat = 1 from rfl]; omega
  have hi : min L (blen ('+'.toNat :: ds)) = min (L - 1) ds.length + 1 := by rw [hb]; omega
  rw [show '+'.toNat = 43 from rfl] at *
  simp only [valueForNumber, hi]
  rw [valueLoop_down hdig (Nat.min_le_right _ _) (by omega)]
  have hs := down_spec hk hd (min (L - 1) ds.length) (Nat.min_le_right _ _)
  cases h : down m ds (min (L - 1) ds.length) with
  | none => exact ⟨[], 0, rfl, .inr ⟨NoPrefix.widen (hs.2 h), rfl, rfl⟩⟩
  | some jv =>
    obtain ⟨j, v⟩ := jv
    exact ⟨v, _, rfl, .inl ⟨_, _, rfl, (hs.1 j v h).2.2.widen⟩⟩

/-- The two cases exclude each other and the longest prefix is unique, so the result is determined. -/
theorem C45_determined (m : List (Int × Bytes)) (hk : (m.map (·.1)).Nodup) (ds : Str) (hd : AllDigits ds) (L : Nat)
    (hL : 1 ≤ L) (hL' : L ≤ 19) (p : Str) (j : Nat) (v : Bytes) (h : LongestPrefix m ds (L - 1) p j v) :
    valueForNumber (some m) L ('+'.toNat :: ds) = some (v, (j : Int)) := by
  obtain ⟨v', k', h1, h2⟩ := C45_lookup m hk ds hd L hL hL'
  rcases h2 with ⟨p', j', rfl, h2⟩ | ⟨h2, _⟩
  · obtain ⟨_, rfl, rfl⟩ := h.unique hk h2
    exact h1
  · exact absurd h2 h.not_none

/-- If every key has at most `L - 1` digits and the number does not start with 0, the limit plays no role: the prefix found is the
longest of all. -/
theorem C45_unlimited (m : List (Int × Bytes)) (ds : Str) (L : Nat) (hkeys : ∀ e ∈ m, e.1 < 10 ^ (L - 1)) (h0 : ds.head? ≠ some '0'.toNat)
    (p : Str) (j : Nat) (v : Bytes) (h : LongestPrefix m ds (L - 1) p j v) : LongestPrefix m ds ds.length p j v :=
  h.unlimited hkeys h0

/-- A language without data gives no value, whatever the number. -/
theorem C45_no_data (L : Nat) (s : Str) : valueForNumber none L s = some ([], 0) := rfl

/-- `carrier.GetNameForValidNumber`: the carrier of the longest prefix of at most nine digits of country code and national
significant number, empty if there is none; for every message with a non-negative country code that is not (national number 0
with raw input). -/
theorem C45_carrier (C : Container) (m : List (Int × Bytes)) (hk : (m.map (·.1)).Nodup) (n : PhoneNumber) (hcc : 0 ≤ n.cc)
    (hraw : ¬ (n.nn = 0 ∧ n.raw ≠ [])) :
    ∃ v, carrierForValid C (some m) n = some v ∧
      ((∃ p j, LongestPrefix m (decimal n.cc.toNat ++ nsnOf n) 9 p j v) ∨ (NoPrefix m (decimal n.cc.toNat ++ nsnOf n) 9 ∧ v = [])) := by
  have hd : AllDigits (decimal n.cc.toNat ++ nsnOf n) := by
    obtain ⟨d, h1, h2, _⟩ := C15_only_digits C n hcc hraw
    rw [C15_shape C n hcc hraw] at h1
    rw [(List.cons.inj h1).2]; exact h2
  obtain ⟨v, k, h1, h2⟩ := C45_lookup m hk _ hd 10 (by omega) (by omega)
  refine ⟨v, ?_, ?_⟩
  · rw [carrierForValid, C15_shape C n hcc hraw, h1]; rfl
  · rcases h2 with ⟨p, j, _, h2⟩ | ⟨h2, h3, _⟩
    · exact .inl ⟨p, j, h2⟩
    · exact .inr ⟨h2, h3⟩

/-- A prefix map with nested keys. -/
def exampleMap : List (Int × Bytes) := [(44, str!"GB"), (447, str!"Mobile"), (4477, str!"O2"), (1, str!"US")]

example : (exampleMap.map (·.1)).Nodup := by decide
example : valueForNumber (some exampleMap) 10 (str!"+447912345678") = some (str!"Mobile", 447) := by decide +kernel
example : valueForNumber (some exampleMap) 10 (str!"+33123456789") = some ([], 0) := by decide +kernel
example : LongestPrefix exampleMap (str!"447912345678") 9 (str!"447") 447 (str!"Mobile") := by
  have h := C45_lookup exampleMap (by decide) (str!"447912345678") (by decide) 10 (by omega) (by omega)
  have hv : valueForNumber (some exampleMap) 10 ('+'.toNat :: (str!"447912345678")) = some (str!"Mobile", 447) := by decide +kernel
  obtain ⟨v, k, h1, h2⟩ := h
  rw [hv] at h1
  obtain ⟨rfl, rfl⟩ := Prod.mk.inj (Option.some.inj h1)
  rcases h2 with ⟨p, j, hj, h2⟩ | ⟨_, h2, _⟩
  · have hj : j = 447 := by omega
    subst hj
    have h3 := (denotes_iff.1 h2.denotes).2
    have h4 := prefix_eq_take h2.isPrefix
    have hw := h2.within
    have hp : p = str!"447" := by
      generalize p.length = l at h4 hw
      have : ∀ l, l ≤ 9 → 447 = digVal ((str!"447912345678").take l) → (str!"447912345678").take l = str!"447" := by decide
      rw [h4] at h3 ⊢
      exact this l hw h3
    rw [← hp]; exact h2
  · cases h2

end Verif.Props
