import Verif.Spec.Find
/-!
# Several numbers in one text
-/
namespace Verif.Spec

/-- The characters other than digits that can stand between two parts of one number: brackets, dots, slashes, hyphens, tildes and
spaces, and the signs and letters of the words for an extension (`;ext=`, `ext.`, `extension`, `anexo`, `int`, `x`, `#`, `доб`
and their wide forms), and the colon of a time of day. -/
def glue : List (Nat × Nat) :=
  [(9, 9), (32, 32), (35, 35), (40, 41), (44, 47), (58, 59), (61, 61), (65, 65), (69, 69), (73, 73), (78, 79), (83, 84), (88, 88), (91, 91),
   (93, 93), (97, 97), (101, 101), (105, 105), (110, 111), (115, 116), (120, 120), (126, 126), (160, 160), (173, 173), (211, 211),
   (243, 243), (383, 383), (769, 769), (1041, 1041), (1044, 1044), (1054, 1054), (1073, 1073), (1076, 1076), (1086, 1086), (8203, 8203),
   (8208, 8213), (8275, 8275), (8288, 8288), (8722, 8722), (8764, 8764), (12288, 12288), (12540, 12540), (65283, 65283), (65288, 65289),
   (65293, 65295), (65317, 65317), (65321, 65321), (65326, 65326), (65332, 65332), (65336, 65336), (65339, 65339), (65341, 65341),
   (65349, 65349), (65353, 65353), (65358, 65358), (65364, 65364), (65368, 65368), (65374, 65374)]

/-- A character that ends a number: neither a digit of some script nor one of the above, for example a line end, a plus sign, or a
letter that none of the words has. -/
def Wall (u : Nat) : Prop := inRanges ndTable (rune u) = false ∧ inRanges glue (rune u) = false

/-- A number in a text: what the text has since the number before it, whether it starts with a plus sign, and how it is written. -/
structure Mention where
  before : Str
  plus : Bool
  raw : Str
  /-- What the parser reads. -/
  number : PhoneNumber

/-- The text with these numbers and an end. -/
def textOf (l : List Mention) (rest : Str) : Str := (l.flatMap fun x => x.before ++ x.raw) ++ rest

/-- The numbers are written as in C64 and each of them stands apart from the one before it: it starts with a plus sign or there is a
character between them that ends a number. -/
def Apart (l : List Mention) : Prop :=
  (∀ x ∈ l, NoStart x.before ∧ WrittenNumber x.plus x.raw) ∧ ∀ x ∈ l.tail, x.plus = true ∨ ∃ u ∈ x.before, Wall u

/-- No character next to a number shows that it is part of something else. -/
def NothingSticks (l : List Mention) (rest : Str) : Prop :=
  (∀ x ∈ l, x.plus = false → ∀ u, x.before.getLast? = some u → ¬ Sticky u) ∧
  (∀ x ∈ l.tail, ∀ u, x.before.head? = some u → ¬ Sticky u) ∧ ∀ u, rest.head? = some u → ¬ Sticky u

/-- What the search is to return: for each number the byte offset of its start, its text and the number. -/
def expected : Nat → List Mention → List (Nat × Str × PhoneNumber)
  | _, [] => []
  | i, x :: l => (i + blen x.before, x.raw, Plain x.number) :: expected (i + blen (x.before ++ x.raw)) l

/-- Numbers to be written into a text: what comes before the number, the number, and the form it is written in. -/
abbrev Entries := List (Str × PhoneNumber × Fmt)

/-- The text with these numbers and an end. -/
def written (C : Container) (l : Entries) (rest : Str) : Str := (l.flatMap fun x => x.1 ++ format C x.2.1 x.2.2) ++ rest

/-- For each of the numbers: the byte offset of its start, its text, its country code and its national significant number. -/
def places (C : Container) : Nat → Entries → List (Nat × Str × Int × Str)
  | _, [] => []
  | i, x :: l => (i + blen x.1, format C x.2.1 x.2.2, x.2.1.cc, nsnOf x.2.1) :: places C (i + blen (x.1 ++ format C x.2.1 x.2.2)) l

end Verif.Spec
