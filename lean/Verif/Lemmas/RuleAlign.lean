import Verif.Spec.Layout
import Verif.Lemmas.Fast
/-!
# The rules for INTERNATIONAL are some of the rules for NATIONAL, in the same order
-/
namespace Verif
open Spec

/-- Equality of classes. -/
def clsEq (a b : Cls) : Bool :=
  (match a.neg, b.neg with | true, true => true | false, false => true | _, _ => false) &&
    listEq (fun x y => Nat.beq x.1 y.1 && Nat.beq x.2 y.2) a.ranges b.ranges && decide (a.props = b.props)

theorem clsEq_eq {a b : Cls} (h : clsEq a b = true) : a = b := by
  obtain ⟨n, r, p⟩ := a
  obtain ⟨n', r', p'⟩ := b
  simp only [clsEq, Bool.and_eq_true, decide_eq_true_eq] at h
  obtain ⟨⟨h1, h2⟩, h3⟩ := h
  have h2 := (listEq_iff (fun x y => by
    obtain ⟨x1, x2⟩ := x
    obtain ⟨y1, y2⟩ := y
    simp) r r').1 h2
  subst h2 h3
  cases n <;> cases n' <;> first | rfl | cases h1

/-- Equality of regular expressions. -/
def reEq : Re → Re → Bool
  | .eps, .eps => true
  | .cls a, .cls b => clsEq a b
  | .cat a b, .cat a' b' => reEq a a' && reEq b b'
  | .alt a b, .alt a' b' => reEq a a' && reEq b b'
  | .rep a m n g, .rep a' m' n' g' => reEq a a' && Nat.beq m m' &&
      (match n, n' with | none, none => true | some n, some n' => Nat.beq n n' | _, _ => false) &&
      (match g, g' with | true, true => true | false, false => true | _, _ => false)
  | .grp k a, .grp k' a' => Nat.beq k k' && reEq a a'
  | .bos, .bos => true
  | .eos, .eos => true
  | _, _ => false

theorem reEq_eq : ∀ {a b : Re}, reEq a b = true → a = b := by
  intro a
  induction a with
  | eps => intro b h; cases b <;> first | rfl | cases h
  | bos => intro b h; cases b <;> first | rfl | cases h
  | eos => intro b h; cases b <;> first | rfl | cases h
  | cls c => intro b h; cases b <;> first | exact congrArg _ (clsEq_eq h) | cases h
  | cat x y ihx ihy =>
    intro b h
    cases b with
    | cat x' y' =>
      simp only [reEq, Bool.and_eq_true] at h
      rw [ihx h.1, ihy h.2]
    | _ => cases h
  | alt x y ihx ihy =>
    intro b h
    cases b with
    | alt x' y' =>
      simp only [reEq, Bool.and_eq_true] at h
      rw [ihx h.1, ihy h.2]
    | _ => cases h
  | rep x m n g ih =>
    intro b h
    cases b with
    | rep x' m' n' g' =>
      simp only [reEq, Bool.and_eq_true] at h
      obtain ⟨⟨⟨h1, h2⟩, h3⟩, h4⟩ := h
      have e2 : m = m' := Nat.eq_of_beq_eq_true h2
      have e3 : n = n' := by
        cases n <;> cases n' <;> first | rfl | cases h3 | exact congrArg _ (Nat.eq_of_beq_eq_true h3)
      have e4 : g = g' := by cases g <;> cases g' <;> first | rfl | cases h4
      rw [ih h1, e2, e3, e4]
    | _ => cases h
  | grp k x ih =>
    intro b h
    cases b with
    | grp k' x' =>
      simp only [reEq, Bool.and_eq_true] at h
      rw [ih h.2, Nat.eq_of_beq_eq_true h.1]
    | _ => cases h

/-- Equality of patterns. -/
noncomputable def patEq (a b : Pat) : Bool := strEq a.src b.src && reEq a.re b.re

theorem patEq_eq {a b : Pat} (h : patEq a b = true) : a = b := by
  obtain ⟨s, r⟩ := a
  obtain ⟨s', r'⟩ := b
  simp only [patEq, Bool.and_eq_true] at h
  rw [(strEq_iff _ _).1 h.1, reEq_eq h.2]

theorem reEq_refl : ∀ a : Re, reEq a a = true := by
  have hc : ∀ c : Cls, clsEq c c = true := by
    intro c
    obtain ⟨n, r, p⟩ := c
    simp only [clsEq, Bool.and_eq_true, decide_eq_true_eq, and_true]
    exact ⟨by cases n <;> rfl, (listEq_iff (fun x y => by
      obtain ⟨x1, x2⟩ := x
      obtain ⟨y1, y2⟩ := y
      simp) r r).2 rfl⟩
  intro a
  induction a with
  | eps | bos | eos => rfl
  | cls c => exact hc c
  | cat x y hx hy => simp [reEq, hx, hy]
  | alt x y hx hy => simp [reEq, hx, hy]
  | rep x m n g hx => cases n <;> cases g <;> simp [reEq, hx]
  | grp k x hx => simp [reEq, hx]

/-- The two rules are chosen for the same numbers, and divide them in the same way. -/
noncomputable def sameRule (p q : NumberFormat) : Bool :=
  patEq p.pattern q.pattern &&
    match p.leadingDigits.getLast?, q.leadingDigits.getLast? with
    | none, none => true
    | some a, some b => patEq a b
    | _, _ => false

theorem sameRule_iff {p q : NumberFormat} :
    sameRule p q = true ↔ p.pattern = q.pattern ∧ p.leadingDigits.getLast? = q.leadingDigits.getLast? := by
  have hp : ∀ a b : Pat, patEq a b = true ↔ a = b := by
    intro a b
    refine ⟨patEq_eq, ?_⟩
    rintro rfl
    simp only [patEq, Bool.and_eq_true]
    exact ⟨(strEq_iff _ _).2 rfl, reEq_refl _⟩
  simp only [sameRule, Bool.and_eq_true, hp]
  cases p.leadingDigits.getLast? <;> cases q.leadingDigits.getLast? <;> simp [hp]

theorem applies_same {p q : NumberFormat} (h : sameRule p q = true) (s : Str) : Applies p s ↔ Applies q s := by
  obtain ⟨h1, h2⟩ := sameRule_iff.1 h
  unfold Applies
  rw [h1, h2]

/-- The rules for INTERNATIONAL, if a country has any, are those of the rules for NATIONAL that are also among the former, in the same
order. -/
noncomputable def alignOk (m : Metadata) : Bool :=
  m.intlFormats.isEmpty || listEq sameRule (m.formats.filter fun p => m.intlFormats.any fun q => sameRule p q) m.intlFormats

theorem listEq_split {l l' : List NumberFormat} (h : listEq sameRule l l' = true) {a b : List NumberFormat} {p : NumberFormat}
    (e : l = a ++ p :: b) : ∃ a' q b', l' = a' ++ q :: b' ∧ sameRule p q = true ∧ ∀ y ∈ a', ∃ x ∈ a, sameRule x y = true := by
  induction a generalizing l l' with
  | nil =>
    subst e
    cases l' with
    | nil => cases h
    | cons q b' =>
      simp only [List.nil_append, listEq] at h
      cases hs : sameRule p q with
      | true => exact ⟨[], q, b', rfl, hs, by simp⟩
      | false => rw [hs] at h; cases h
  | cons x a ih =>
    subst e
    cases l' with
    | nil => cases h
    | cons y l' =>
      simp only [List.cons_append, listEq] at h
      cases hs : sameRule x y with
      | false => rw [hs] at h; cases h
      | true =>
        rw [hs] at h
        obtain ⟨a', q, b', e', h1, h2⟩ := ih h rfl
        refine ⟨y :: a', q, b', by rw [e', List.cons_append], h1, fun z hz => ?_⟩
        rcases List.mem_cons.1 hz with rfl | hz
        · exact ⟨x, by simp, hs⟩
        · obtain ⟨w, hw, hw'⟩ := h2 z hz
          exact ⟨w, by simp [hw], hw'⟩

/-- If the rule chosen for NATIONAL is also among those for INTERNATIONAL, it is chosen there too. -/
theorem chosen_aligned {m : Metadata} (hm : alignOk m = true) (hi : m.intlFormats ≠ []) {s : Str} {p : NumberFormat}
    (hc : Chosen m.formats s (some p)) (hp : ∃ q ∈ m.intlFormats, q.pattern = p.pattern ∧ q.leadingDigits.getLast? = p.leadingDigits.getLast?) :
    ∃ q, Chosen m.intlFormats s (some q) ∧ q.pattern = p.pattern := by
  have hl : listEq sameRule (m.formats.filter fun p => m.intlFormats.any fun q => sameRule p q) m.intlFormats = true := by
    simp only [alignOk, Bool.or_eq_true, List.isEmpty_iff] at hm
    exact hm.resolve_left hi
  cases hc with
  | @some pre post _ e ha hn =>
    have hin : (m.intlFormats.any fun q => sameRule p q) = true := by
      obtain ⟨q, hq, h1, h2⟩ := hp
      exact List.any_eq_true.2 ⟨q, hq, sameRule_iff.2 ⟨h1.symm, h2.symm⟩⟩
    obtain ⟨a', q, b', e', hs, hpre⟩ := listEq_split hl (a := pre.filter fun p => m.intlFormats.any fun q => sameRule p q)
      (b := post.filter fun p => m.intlFormats.any fun q => sameRule p q) (p := p) (by rw [e, List.filter_append, List.filter_cons, if_pos hin])
    refine ⟨q, .some e' ((applies_same hs s).1 ha) fun y hy => ?_, (sameRule_iff.1 hs).1.symm⟩
    obtain ⟨x, hx, hxy⟩ := hpre y hy
    exact fun h => hn x (List.mem_filter.1 hx).1 ((applies_same hxy s).2 h)

end Verif
