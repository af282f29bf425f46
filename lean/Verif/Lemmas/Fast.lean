import Verif.Model.Container
/-!
# Lookups that the kernel evaluates quickly

The decidable equality of `Int` and of strings unfolds to large terms.  The functions here compare with `Nat.beq`, which the kernel
evaluates directly; the theorems say that they are the lookups of the model.
-/
namespace Verif

/-- String equality, by plain recursors. -/
noncomputable def strEq (s : Str) : Str → Bool :=
  List.rec (motive := fun _ => Str → Bool)
    (fun t => List.rec (motive := fun _ => Bool) true (fun _ _ _ => false) t)
    (fun a _ ih t => List.rec (motive := fun _ => Bool) false (fun b t' _ => Bool.rec false (ih t') (Nat.beq a b)) t) s

theorem strEq_iff (s t : Str) : strEq s t = true ↔ s = t := by
  induction s generalizing t with
  | nil => cases t <;> simp [strEq]
  | cons a s ih =>
    cases t with
    | nil => simp [strEq]
    | cons b t =>
      show (Bool.rec false (strEq s t) (Nat.beq a b) : Bool) = true ↔ _
      simp only [List.cons.injEq]
      cases h : Nat.beq a b with
      | true => simp [Nat.eq_of_beq_eq_true h, ih]
      | false => simp [Nat.ne_of_beq_eq_false h]

/-- Integer equality. -/
def intEq : Int → Int → Bool
  | .ofNat a, .ofNat b => Nat.beq a b
  | .negSucc a, .negSucc b => Nat.beq a b
  | _, _ => false

theorem intEq_iff (a b : Int) : intEq a b = true ↔ a = b := by
  cases a <;> cases b <;> simp [intEq] <;> omega

/-- Lookup with a given comparison. -/
noncomputable def mapGetBy {κ ν : Type} (eq : κ → κ → Bool) (m : List (κ × ν)) (k : κ) : Option ν :=
  List.rec (motive := fun _ => Option ν) none
    (fun e _ ih => Prod.rec (motive := fun _ => Option ν) (fun k' v => Bool.rec ih (some v) (eq k' k)) e) m

theorem mapGet_eq_by {κ ν : Type} [DecidableEq κ] {eq : κ → κ → Bool} (h : ∀ a b, eq a b = true ↔ a = b) (m : List (κ × ν)) (k : κ) :
    mapGet m k = mapGetBy eq m k := by
  induction m with
  | nil => rfl
  | cons e t ih =>
    obtain ⟨k', v⟩ := e
    simp only [mapGet]
    show _ = (Bool.rec (mapGetBy eq t k) (some v) (eq k' k) : Option ν)
    cases he : eq k' k with
    | true => simp [(h _ _).1 he]
    | false =>
      have : k' ≠ k := fun hh => by rw [(h _ _).2 hh] at he; cases he
      simp [this, ih]

theorem mapGet_str {ν : Type} (m : List (Str × ν)) (k : Str) : mapGet m k = mapGetBy strEq m k := mapGet_eq_by strEq_iff m k
theorem mapGet_int {ν : Type} (m : List (Int × ν)) (k : Int) : mapGet m k = mapGetBy intEq m k := mapGet_eq_by intEq_iff m k

/-- List equality with a given comparison. -/
def listEq {α : Type} (eq : α → α → Bool) : List α → List α → Bool
  | [], [] => true
  | a :: s, b :: t => match eq a b with | true => listEq eq s t | false => false
  | _, _ => false

theorem listEq_iff {α : Type} {eq : α → α → Bool} (h : ∀ a b, eq a b = true ↔ a = b) (s t : List α) : listEq eq s t = true ↔ s = t := by
  induction s generalizing t with
  | nil => cases t <;> simp [listEq]
  | cons a s ih =>
    cases t with
    | nil => simp [listEq]
    | cons b t =>
      simp only [listEq, List.cons.injEq]
      cases he : eq a b with
      | true => simp [(h _ _).1 he, ih]
      | false =>
        have : a ≠ b := fun hh => by rw [(h _ _).2 hh] at he; cases he
        simp [this]

theorem decide_str (s t : Str) : decide (s = t) = strEq s t := by
  rw [Bool.eq_iff_iff, decide_eq_true_iff, strEq_iff]
theorem decide_int (s t : Int) : decide (s = t) = intEq s t := by
  rw [Bool.eq_iff_iff, decide_eq_true_iff, intEq_iff]
theorem decide_strs (s t : List Str) : decide (s = t) = listEq strEq s t := by
  rw [Bool.eq_iff_iff, decide_eq_true_iff, listEq_iff strEq_iff]

end Verif
