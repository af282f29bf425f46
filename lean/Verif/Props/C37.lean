import Verif.Lemmas.AytfCalls
import Verif.Data.Shipped
/-!
# C37: Clear makes an as-you-type formatter as good as new
-/
namespace Verif.Props
open Verif.Spec

/-- For every metadata, region, history of calls and later calls: everything the program sees after `Clear` (the returned texts and
the remembered positions, including a panic if there is one) is what it would see with a fresh formatter for the same
region. -/
theorem C37_clear (C : Container) (region : Str) (history : List Call) (a : Aytf)
    (h : calls C (Aytf.new C region) history = .ok a) (later : List Call) :
    seen C (a.clear C) later = seen C (Aytf.new C region) later := by
  rw [Aytf.clear_eq_new (Aytf.home_calls h)]

/-- The same as one run: a history, `Clear`, later calls. `Clear` itself leaves an empty output and position 0. -/
theorem C37_run (C : Container) (region : Str) (history later : List Call) (before after : List (Str × Go Nat))
    (h1 : seen C (Aytf.new C region) history = .ok before) (h2 : seen C (Aytf.new C region) later = .ok after) :
    seen C (Aytf.new C region) (history ++ .clear :: later) = .ok (before ++ ([], .ok 0) :: after) := by
  obtain ⟨a, ha⟩ := Aytf.seen_calls h1
  rw [Aytf.seen_append h1 ha]
  have : seen C a (.clear :: later) = .ok (([], .ok 0) :: after) := by
    show (do let b ← call C a .clear; return (b.currentOutput, b.position) :: (← seen C b later)) = _
    simp only [call, bind, Except.bind]
    rw [C37_clear C region history a ha later, h2]
    rfl
  rw [this]; rfl

/-- The hypotheses are met, and what is left over could matter: a number typed with another country's calling code changes the
metadata the formatter works with, and after `Clear` a US number is formatted as usual. -/
example : outputOf Data.container (str!"US") (typeAll (str!"+4420703130") ++ .clear :: typeAll (str!"6502532222")) =
    some (str!"(650) 253-2222") ∧
    outputOf Data.container (str!"US") (typeAll (str!"+4420703130")) = some (str!"+44 20 7031 30") := by
  constructor <;> kernel_rfl

end Verif.Props
