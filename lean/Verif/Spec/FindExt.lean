import Verif.Spec.Find
/-!
# Numbers with an extension in a text
-/
namespace Verif.Spec

/-- The labels that formatting writes before an extension, with how many digits an extension after them can have. -/
def formatLabels : List (Str × Nat) :=
  [((str!" ext. "), 20), ((str!" x"), 9), ((str!" Anexo "), 20), ((str!" int "), 9), ((str!"#"), 9), ((str!" int. "), 9), ((str!";ext="), 20)]

/-- These labels and more that are in use. -/
def extensionLabels : List (Str × Nat) := formatLabels ++
  [((str!" ext "), 20), ((str!" ext."), 20), ((str!" ext"), 20), ((str!"ext"), 20), ((str!", ext. "), 20), ((str!", ext "), 20), ((str!" Ext. "), 20),
   ((str!" EXT "), 20), ((str!" extension "), 20), ((str!" Extension: "), 20), ((str!" extn "), 20), ((str!" anexo "), 20),
   ((str!" доб. "), 20), ((str!" x "), 9), ((str!"x"), 9), ((str!" X"), 9), ((str!" int"), 9), ((str!" #"), 9), ((str!" # "), 9)]

/-- A number as people write it with an extension: the number, a label and the digits of the extension. -/
def WithExtension (plus : Bool) (s ext : Str) : Prop :=
  ∃ (w : Str) (x : Str × Nat), s = w ++ (x.1 ++ ext) ∧ WrittenNumber plus w ∧ x ∈ extensionLabels ∧ 1 ≤ ext.length ∧ ext.length ≤ x.2 ∧
    ∀ u ∈ ext, isDig u = true

end Verif.Spec
