import Verif.Model.Use
import Verif.Data.Shipped
/-!
# C50: swapping metadata and restoring is exact when nested
-/
namespace Verif.Spec

/-- A properly nested program: a lookup, or a scope that runs with another container and restores at its end. -/
inductive Scoped where
  | done
  | lookup (rest : Scoped)
  | scope (c : Container) (body rest : Scoped)

/-- The number of `Use` calls. -/
def Scoped.uses : Scoped → Nat
  | .done => 0
  | .lookup rest => rest.uses
  | .scope _ body rest => 1 + body.uses + rest.uses

/-- The steps of a properly nested program when `k` restore functions exist already: every `Use` is followed by its body and then
by the call of the restore function it returned. -/
def Scoped.ops : Scoped → Nat → List UseOp
  | .done, _ => []
  | .lookup rest, k => .lookup :: rest.ops k
  | .scope c body rest, k => .use c :: (body.ops (k + 1) ++ .restore k :: rest.ops (k + 1 + body.uses))

/-- What the lookups should see: the container of the innermost enclosing scope, or the original one outside all scopes. -/
def Scoped.sees : Scoped → Container → List Container
  | .done, _ => []
  | .lookup rest, orig => orig :: rest.sees orig
  | .scope c body rest, orig => body.sees c ++ rest.sees orig

end Verif.Spec

namespace Verif.Props
open Spec

theorem run_append (s : UseState) (a b : List UseOp) :
    s.run (a ++ b) = (((s.run a).1.run b).1, (s.run a).2 ++ ((s.run a).1.run b).2) := by
  induction a generalizing s with
  | nil => simp [UseState.run]
  | cons o t ih => simp [UseState.run, ih]

theorem run_scoped (p : Scoped) (s : UseState) :
    ∃ extra, extra.length = Scoped.uses p ∧
      s.run (p.ops s.restores.length) = ({ current := s.current, restores := s.restores ++ extra }, p.sees s.current) := by
  induction p generalizing s with
  | done => exact ⟨[], rfl, by simp [Scoped.ops, UseState.run, Scoped.sees]⟩
  | lookup rest ih =>
    obtain ⟨extra, h1, h2⟩ := ih s
    exact ⟨extra, h1, by simp [Scoped.ops, UseState.run, UseState.step, Scoped.sees, h2]⟩
  | scope c body rest ih1 ih2 =>
    obtain ⟨e1, h1, h2⟩ := ih1 { current := c, restores := s.restores ++ [s.current] }
    obtain ⟨e2, h3, h4⟩ := ih2 { current := s.current, restores := s.restores ++ [s.current] ++ e1 }
    simp only [List.length_append, List.length_cons, List.length_nil, h1] at h2 h4
    refine ⟨s.current :: e1 ++ e2, by simp [Scoped.uses, h1, h3]; omega, ?_⟩
    simp only [Scoped.ops, UseState.run, UseState.step, run_append, Nat.zero_add] at h2 h4 ⊢
    rw [h2]
    have hr : (s.restores ++ [s.current] ++ e1)[s.restores.length]? = some s.current := by simp
    simp only [hr, h4]
    simp [Scoped.sees]

/-- Running a properly nested program brings back the original container, and every lookup in it sees the container of its
innermost scope. -/
theorem C50_nested (p : Scoped) (s : UseState) :
    (s.run (p.ops s.restores.length)).1.current = s.current ∧ (s.run (p.ops s.restores.length)).2 = p.sees s.current := by
  obtain ⟨e, -, h⟩ := run_scoped p s
  simp [h]

/-- Restoring out of order does not bring back the original container: nesting is needed. -/
theorem C50_not_nested (a b c : Container) :
    (UseState.run ⟨a, []⟩ [.use b, .use c, .restore 0, .restore 1]).1.current = b := rfl

-- a scope inside a scope, with lookups at all levels
example (b c : Container) :
    let p : Scoped := .lookup (.scope b (.lookup (.scope c (.lookup .done) (.lookup .done))) (.lookup .done))
    UseState.run ⟨Data.container, []⟩ (p.ops 0) = (⟨Data.container, [Data.container, b]⟩, [Data.container, b, c, b, Data.container]) :=
  rfl

end Verif.Props
