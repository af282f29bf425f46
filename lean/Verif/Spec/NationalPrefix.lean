import Verif.Regex.Deriv
import Verif.Regex.Caps
import Verif.Props.C30
/-!
# When a national prefix is taken off a number
-/
namespace Verif.Spec

/-- `s` is, as a whole, in the language of the general description of the country. -/
def InGeneral (m : Metadata) (s : Str) : Prop := (descPat m.general).re.Acc 0 s []

/-- A length that no number of the country has, but that is below the length of some number. -/
def LengthTooSmall (m : Metadata) (len : Nat) : Prop :=
  ∃ g, m.general = some g ∧ ((len : Int) ∉ g.lengths ∨ (len : Int) ∈ g.localLengths) ∧ ∃ l ∈ g.lengths, (len : Int) < l

/-- What the match `x` of the national prefix pattern stands for is simply left out (and not rewritten): there is no rewriting rule,
or its group took no part in the match. -/
def LeftOut (m : Metadata) (x : Match) : Prop :=
  m.npTransform = [] ∨ (0 < m.npParsing.re.groups ∧ x.span m.npParsing.re.groups = none)

/-- The reasons not to take the match `x` of the national prefix pattern off the number `nsn`: the match is empty, the number belongs
to the country with the prefix and not without it, or what is left has an impossible length. -/
def PrefixKept (m : Metadata) (nsn : Str) (x : Match) : Prop :=
  (x.stop = 0 ∧ LeftOut m x) ∨
  (InGeneral m nsn ∧ (LeftOut m x → ¬ InGeneral m (nsn.drop x.stop)) ∧
    (¬ LeftOut m x → ¬ InGeneral m (m.npParsing.re.atStart.replaceAll nsn m.npTransform))) ∨
  (LeftOut m x ∧ LengthTooSmall m (nsn.drop x.stop).length)

/-- National-prefix stripping leaves the number alone: if it begins with something that looks like a national prefix, there is a
reason to keep it. -/
def LeftAlone (m : Metadata) (nsn : Str) : Prop :=
  m.npParsing.src = [] ∨ ∀ x, m.npParsing.re.atStart.find nsn = some x → PrefixKept m nsn x

/-- The descriptions of the kinds of numbers. -/
def kindDescs (m : Metadata) : List (Option Desc) := (specialKinds m).map (·.1) ++ [m.fixedLine, m.mobile]

/-- The patterns of the kinds of numbers. -/
def kindPats (m : Metadata) : List Re := (kindDescs m).map fun d => (descPat d).re

/-- A beginning of `d` digits, after which `Gs` describes the rest, is not left out: it is empty, the rest has an impossible length,
or (`same`: the region is the main region) the rest is not in the general description. -/
def notLeftOut (m : Metadata) (g' g : Desc) (same : Bool) (d : Nat) (Gs : List (List Re)) : Bool :=
  Nat.beq d 0 ||
  (!g'.lengths.isEmpty && g'.lengths.all fun x =>
    !g.lengths.any (fun y => Nat.beq y.toNat (x.toNat - d)) && g.lengths.any fun y => Nat.blt (x.toNat - d) y.toNat) ||
  (same && noCommon 8 ([(descPat m.general).re] :: Gs))

/-- The lengths of the texts of a list of patterns. -/
def lensAny : List Re → Option (List Nat)
  | [] => some []
  | r :: l => match r.lens, lensAny l with | some x, some y => some (unionNat x y) | _, _ => none

/-- A beginning is not rewritten: with `c` units captured, the result has a length outside the general description. -/
def notRewritten (m : Metadata) (c : Nat) (Gs : List (List Re)) : Bool :=
  match tmplPre m.npParsing.re.groups m.npTransform, (descPat m.general).re.lens, Gs with
  | some p, some gl, G :: _ => match lensAny G with
    | some ls => ls.all fun y => !gl.any fun l => Nat.beq l (p.length + c + y)
    | none => false
  | _, _, _ => false

/-- A beginning of `d` digits, after which `Gs` describes the rest, is not taken off as a national prefix. -/
def keptHere (m : Metadata) (g' g : Desc) (same : Bool) (d : Nat) (Gs : List (List Re)) : Bool :=
  match m.npTransform.isEmpty with
  | true => notLeftOut m g' g same d Gs
  | false => Nat.blt 0 m.npParsing.re.groups && match m.npParsing.re.capLens m.npParsing.re.groups with
    | none => false
    | some L => L.all fun p => !Nat.beq p.1 d || match p.2 with
      | none => notLeftOut m g' g same d Gs
      | some c => same && notRewritten m c Gs

/-- Patterns that together accept every digit string not beginning with `b`. -/
def notStart : Str → List Re
  | [] => []
  | u :: b => .eps :: .cat (.cls ⟨true, [(u, u)], []⟩) (.rep (.cls ⟨true, [], []⟩) 0 none true) ::
      (notStart b).map (.cat (.cls ⟨false, [(u, u)], []⟩))

/-- Whenever this alternative of the national prefix pattern of `m` matches the beginning of a number of a kind of the region `m'`
that is accepted by a pattern of each list of `Xs`, is there a reason to keep the number as it is?  The alternative may be longer than
the number. -/
def altSafe (m m' : Metadata) (g' g : Desc) (same : Bool) (Xs : List (List Re)) (a : Re) : Bool :=
  (a.endsEos && match a.lens with
    | none => false
    | some ls => !g'.lengths.isEmpty && g'.lengths.all fun x => !ls.any fun l => Nat.beq l x.toNat) ||
  (!g'.lengths.isEmpty && g'.lengths.all fun x => Nat.blt x.toNat a.minLen) ||
  (a.dropEos.noAnchor && heads (keptHere m g' g same) 12 0 [a.dropEos] (kindPats m' :: Xs))

/-- `altSafe` for the whole pattern. -/
def prefixSafe (m m' : Metadata) (same : Bool) (Xs : List (List Re)) : Bool :=
  match m.general, m'.general with
  | some g, some g' => m.npParsing.src.isEmpty || ((kindPats m').all (·.noAnchor) && (descPat m.general).re.noAnchor &&
      m.npParsing.re.alts.all (altSafe m m' g' g same Xs))
  | _, _ => false

/-- Beginnings of national significant numbers that are taken for a national prefix although they belong to the number, by country
code: in Japan `003768`, in Belarus `8`. -/
def ambiguous : List (Nat × Str) := [(81, [48, 48, 51, 55, 54, 56]), (375, [56])]

/-- The beginnings listed for a country code. -/
def ambiguousFor (c : Nat) : List Str := (ambiguous.filter fun e => Nat.beq e.1 c).map (·.2)

/-- The number has one of the beginnings listed for its country code. -/
def Ambiguous (n : PhoneNumber) : Prop := ∃ b ∈ ambiguousFor n.cc.toNat, b <+: nsnOf n

instance (n : PhoneNumber) : Decidable (Ambiguous n) := by unfold Ambiguous; infer_instance

/-- For every country code, the main region's national prefix is safe for all regions of the code, except for the `ambiguous`
beginnings. -/
def prefixesSafe (C : Container) : Bool :=
  C.ccToRegion.all fun e => match e.2 with
    | [] => true
    | r0 :: _ => match mapGet C.regionMeta r0 with
      | none => true
      | some m => e.2.all fun r => match mapGet C.regionMeta r with
        | none => true
        | some m' => prefixSafe m m' (decide (r = r0)) ((ambiguousFor e.1.toNat).map notStart)

/-- All lengths of national significant numbers are between 2 and 17. -/
def lengthsInRange (m : Metadata) : Bool :=
  match m.general with
  | some g => !g.lengths.isEmpty && g.lengths.all fun x => Nat.ble 2 x.toNat && Nat.ble x.toNat 17
  | none => false

end Verif.Spec
