import Verif.Spec.NationalPrefix
import Verif.Regex.Local
import Verif.Lemmas.Intl
/-!
# When the national form of a number is read back as the number

A static check on the metadata of a region and of the main region of its country code.
-/
namespace Verif.Spec

/-- The template a rule uses for NATIONAL. -/
def natTemplate (p : NumberFormat) : Str := if p.npRule = [] then p.format else replaceFirstToken p.format p.npRule

/-- The literal text before the first group, for instance `(0`. -/
def natLead (p : NumberFormat) : Str := (natTemplate p).takeWhile (fun u => !Nat.beq u 36)

/-- The rest of the template, as a rule. -/
def natRule (p : NumberFormat) : NumberFormat := { p with format := (natTemplate p).dropWhile (fun u => !Nat.beq u 36) }

/-- The digits the rule writes before the number. -/
def natDigits (p : NumberFormat) : Str := (natLead p).filter isDig

/-- The rule writes digits, spaces, hyphens, dots and parentheses, and then the groups in order with such separators. -/
def natTextOk (p : NumberFormat) : Bool :=
  (natLead p).all (fun u => isDig u || decide (u ∈ gapL)) && Nat.ble (natLead p).length 20 && formatInOrder (natRule p) &&
    formatEnds (natRule p) && (templateLiterals (natRule p).format).all fun u => decide (u ∈ gapL)

/-- The numbers a rule is chosen for: its pattern accepts them, and they begin like its last leading-digits pattern. -/
def ruleLang (p : NumberFormat) : List (List Re) :=
  [p.pattern.re] :: match p.leadingDigits.getLast? with
    | none => []
    | some ld => [[.cat ld.re (.rep (.cls ⟨true, [], []⟩) 0 none true)]]

/-- The patterns after the literal text `b`. -/
def afterLit (b : Str) (r : Re) : Re := b.foldr (fun u r => .cat (.cls ⟨false, [(u, u)], []⟩) r) r

/-- No text has a length that all the lists of patterns allow. -/
def lensApart (Gs : List (List Re)) : Bool :=
  match Gs.filterMap lensAny with
  | [] => false
  | l :: ls => l.all fun x => ls.any fun l' => !l'.any fun y => Nat.beq x y

/-- No digit string is accepted by a pattern of each list: for lack of a common length, or after some more digits. -/
def apart : Nat → List (List Re) → Bool
  | 0, Gs => lensApart Gs
  | f + 1, Gs => lensApart Gs || (!Gs.all (·.any (·.nullable)) && digitUnits.all fun u => apart f (Gs.map (pds u)))

/-- All texts described begin with the digit 0. -/
def startsZero (Gs : List (List Re)) : Bool :=
  !Gs.all (·.any (·.nullable)) && [49, 50, 51, 52, 53, 54, 55, 56, 57].all fun u =>
    lensApart (Gs.map (pds u)) || noCommon 8 (Gs.map (pds u))

/-- A match of `d` units of the national prefix pattern leaves out exactly `k` digits. -/
def leavesOut (m : Metadata) (k d : Nat) : Bool :=
  Nat.beq d k && match m.npTransform.isEmpty with
    | true => true
    | false => Nat.blt 0 m.npParsing.re.groups && match m.npParsing.re.capLens m.npParsing.re.groups with
      | none => false
      | some L => L.all fun p => !Nat.beq p.1 d || p.2.isNone

/-- What the patterns match of a text that begins with `b` is `b`, or `b` and more than `mx` further units. -/
def onlyOrLong (mx : Nat) : Str → List Re → Bool
  | [], A => A.all fun r => match r.lens with
    | none => false
    | some ls => ls.all fun l => Nat.beq l 0 || Nat.blt mx l
  | u :: b, A => !A.any (·.nullable) && onlyOrLong mx b (pds u A)

/-- Every match of this alternative of the national prefix pattern of `m`, in a text described by `Gs`, is exactly the first digits
`b`. -/
def altStrips (m : Metadata) (g : Desc) (b : Str) (Gs : List (List Re)) (a : Re) : Bool :=
  let k := b.length
  (a.endsEos && match a.lens with
    | none => false
    | some ls => !g.lengths.isEmpty && g.lengths.all fun x => !ls.any fun l => Nat.beq l (k + x.toNat)) ||
  (a.noAnchor && g.lengths.all (fun x => onlyOrLong x.toNat b [a]) && leavesOut m k k) ||
  (a.dropEos.noAnchor && heads (fun d _ => leavesOut m k d) 12 0 [a.dropEos] Gs)

/-- The national prefix pattern of `m` has no match longer than `b` and its preferred match in `b` is all of `b`. -/
def stripsExactly (m : Metadata) (b : Str) : Bool :=
  m.npTransform.isEmpty && m.npParsing.re.noAnchor &&
    (match m.npParsing.re.maxLen with | none => false | some x => Nat.ble x b.length) &&
    match m.npParsing.re.matchAt 0 b with | none => false | some x => Nat.beq x.stop b.length

/-- A number of a kind of the region `m`, in the languages `Xs`, written with the digits `b` before it, is read back in the region:
no international prefix is seen (or it would be followed by 0), nor a country code, and exactly `b` is taken off. -/
def readsBack (m : Metadata) (b : Str) (Xs : List (List Re)) : Bool :=
  match m.general with
  | none => false
  | some g =>
    let Gs := (kindPats m :: Xs).map (·.map (afterLit b))
    (kindPats m :: Xs).all (·.all (·.noAnchor)) &&
    m.internationalPrefix.re.noAnchor && heads (fun _ Gs => startsZero Gs) 16 0 [m.internationalPrefix.re] Gs &&
    match b with
    | [] => prefixSafe m m true Xs
    | _ => heads (fun _ _ => false) 6 0 [afterLit (decInt m.countryCode) .eps] Gs && !m.npParsing.src.isEmpty &&
        (stripsExactly m b ||
          m.npParsing.re.alts.any (fun a => a.noAnchor && a.full.isMatch b) && m.npParsing.re.alts.all (altStrips m g b Gs))

/-- The characters of a pattern that is a sequence of single characters. -/
def clsSeq : Re → Option (List Cls)
  | .eps => some []
  | .cls c => some [c]
  | .cat a b => match clsSeq a, clsSeq b with | some x, some y => some (x ++ y) | _, _ => none
  | _ => none

/-- Patterns that together accept every text of at most 30 units that does not begin with such a sequence. -/
def notSeq : List Cls → List Re
  | [] => []
  | c :: cs => .eps :: .cat (.cls ⟨!c.neg, c.ranges, c.props⟩) (.rep (.cls ⟨true, [], []⟩) 0 (some 30) true) ::
      (notSeq cs).map (.cat (.cls c))

/-- Patterns that together accept every number of at most 30 digits that a rule is not chosen for, when the last leading-digits pattern of the rule is a
sequence of characters and its pattern accepts all digit strings of certain lengths. -/
def notRule (p : NumberFormat) : List (List Re) :=
  match p.leadingDigits.getLast? with
  | none => []
  | some ld => match clsSeq ld.re, p.pattern.re.maxLen with
    | some cs, some mx => if p.pattern.re.uni && Nat.ble mx 29 then
        [notSeq cs ++ [.rep (.cls ⟨true, [], []⟩) 0 (some (p.pattern.re.minLen - 1)) true, .rep (.cls ⟨true, [], []⟩) (mx + 1) (some 30) true]] else []
    | _, _ => []

/-- Beginnings of national significant numbers that are taken for an international prefix, or (Japan) for a national prefix, by
country code. -/
def natAmbiguous : List (Nat × Str) :=
  [(66, [48, 48]), (81, [48, 48, 51, 55, 54, 56]), (359, [48, 48]), (507, [48, 48]), (974, [48, 48])]

/-- The beginnings listed for a country code. -/
def natAmbiguousFor (c : Nat) : List Str := (natAmbiguous.filter fun e => Nat.beq e.1 c).map (·.2)

/-- The regions for which the check fails: Argentina, Gabon. -/
def natUnsettled : List Str := [[65, 82], [71, 65]]

/-- The check for all rules of the main region `M` and for numbers that no rule is chosen for (or there is no such number), except for the `natAmbiguous`
beginnings. -/
def nationalOk (M m : Metadata) : Bool :=
  let A := (natAmbiguousFor m.countryCode.toNat).map notStart
  (match m.general with | none => false | some g => !g.lengths.isEmpty && g.lengths.all fun x => Nat.ble 3 x.toNat && Nat.ble x.toNat 17 &&
      !g.localLengths.any fun y => Nat.beq x.toNat y.toNat) &&
    (readsBack m [] A || readsBack m [] (A ++ M.formats.flatMap notRule) ||
      ((kindPats m :: M.formats.flatMap notRule).all (·.all (·.noAnchor)) && digitUnits.all fun u =>
        apart 3 ((kindPats m :: M.formats.flatMap notRule).map (pds u)))) &&
    M.formats.all fun p => natTextOk p && readsBack m (natDigits p) (A ++ ruleLang p)

/-- For every country code, the check holds of all its regions but the `natUnsettled`. -/
def nationalsOk (C : Container) : Bool :=
  C.ccToRegion.all fun e => match e.2 with
    | [] => true
    | r0 :: _ => match mapGet C.regionMeta r0 with
      | none => true
      | some M => e.2.all fun r => decide (r ∈ natUnsettled) || match mapGet C.regionMeta r with
        | none => true
        | some m => nationalOk M m

/-- The national significant number has a beginning listed for its country code. -/
def NatAmbiguous (n : PhoneNumber) : Prop := ∃ b ∈ natAmbiguousFor n.cc.toNat, b <+: nsnOf n

instance (n : PhoneNumber) : Decidable (NatAmbiguous n) := inferInstanceAs (Decidable (∃ b ∈ _, _))

end Verif.Spec
