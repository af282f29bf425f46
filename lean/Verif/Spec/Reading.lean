import Verif.Spec.NationalPrefix
/-!
# Specification: where the parts of a parsed number come from
-/
namespace Verif.Spec

/-- `b` is `a` as it is, or without what the national prefix pattern of `m` finds at its beginning, or with that rewritten by the rule of
`m`. -/
inductive PrefixOff (m : Metadata) (a : Str) : Str → Prop
  | kept : PrefixOff m a a
  | leftOut {x : Match} (hx : m.npParsing.re.atStart.find a = some x) (hl : LeftOut m x) : PrefixOff m a (a.drop x.stop)
  | rewritten {x : Match} (hx : m.npParsing.re.atStart.find a = some x) (hl : ¬ LeftOut m x) :
      PrefixOff m a (m.npParsing.re.atStart.replaceAll a m.npTransform)

/-- `CodeFound C region plus ds src cc nat`: in the digits `ds`, after a plus sign if `plus`, the country code `cc` is found in the way
`src`, and the digits `nat` are left for the national number. -/
inductive CodeFound (C : Container) (region : Str) (plus : Bool) (ds : Str) : CCSource → Int → Str → Prop
  /-- After the plus sign. -/
  | sign {cc : Int} {nat : Str} (hp : plus = true) (hcc : C.hasCC cc = true) (h : ds = decimal cc.toNat ++ nat) :
      CodeFound C region plus ds .withPlusSign cc nat
  /-- After the international prefix of the region; also after a plus sign if no country code follows it. -/
  | idd {m : Metadata} {x : Match} {cc : Int} {nat : Str} (hm : C.metaForRegion region = some m)
      (hx : m.internationalPrefix.re.find ds = some x) (h0 : x.start = 0) (hcc : C.hasCC cc = true)
      (h : ds.drop x.stop = decimal cc.toNat ++ nat)
      (hp : plus = true → ∀ c rest, C.hasCC c = true → ds ≠ decimal c.toNat ++ rest) :
      CodeFound C region plus ds .withIdd cc nat
  /-- At the beginning, without a plus sign: the code of the region, after which a national prefix may be left out. -/
  | bare {m : Metadata} {rest nat : Str} (hp : plus = false) (hm : C.metaForRegion region = some m)
      (h : ds = decimal m.countryCode.toNat ++ rest) (ho : PrefixOff m rest nat) :
      CodeFound C region plus ds .withoutPlusSign m.countryCode nat
  /-- Nowhere: the code of the region, and all digits belong to the national number. -/
  | default {m : Metadata} (hp : plus = false) (hm : C.metaForRegion region = some m) :
      CodeFound C region plus ds .defaultCountry m.countryCode ds

/-- The national significant number `nsn` is made from the digits `nat`: a national prefix is left out by the rules of the main region
of the country code, or by those of the region given if no country code was found. -/
def NationalRead (C : Container) (region : Str) (src : CCSource) (cc : Int) (nat nsn : Str) : Prop :=
  nsn = nat ∨ ∃ m, (if src = .defaultCountry then C.metaForRegion region else C.metaFor cc (C.mainRegion cc)) = some m ∧
    PrefixOff m nat nsn

end Verif.Spec
