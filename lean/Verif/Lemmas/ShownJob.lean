import Verif.Lemmas.ShownSteps
import Verif.Lemmas.Tables
import Verif.Props.C13
/-!
# The numbers for which the as-you-type formatter follows the rules
-/
namespace Verif.Aytf
open Spec

/-- The rules of the `i`-th 32 entries can be followed while typing. -/
def shownPart (C : Container) (i : Nat) : Bool := ((C.allMeta.drop (32 * i)).take 32).all shownOk

theorem all_parts {α} {p : α → Bool} (k : Nat) (l : List α) (h : ∀ i < k, ((l.drop (32 * i)).take 32).all p = true) (hl : l.drop (32 * k) = []) :
    l.all p = true := by
  induction k generalizing l with
  | zero => rw [Nat.mul_zero, List.drop_zero] at hl; rw [hl]; rfl
  | succ k ih =>
    rw [← List.take_append_drop 32 l, List.all_append, Bool.and_eq_true]
    refine ⟨by simpa using h 0 (by omega), ih _ (fun i hi => ?_) ?_⟩
    · have := h (i + 1) (by omega)
      rw [List.drop_drop]
      rwa [show 32 + 32 * i = 32 * (i + 1) by omega]
    · rw [List.drop_drop]
      rwa [show 32 + 32 * k = 32 * (k + 1) by omega]

theorem main_of_meta {C : Container} (hb : Built C) (ht : tablesOk C = true) {cc : Int} (hcc : C.hasCC cc = true) {m : Metadata}
    (hm : C.metaFor cc (C.mainRegion cc) = some m) :
    (C.mainRegion cc = nonGeoRegion → (C.metaForNonGeo cc).getD nilMetadata = m) ∧
    (C.mainRegion cc ≠ nonGeoRegion → metaFor C (C.mainRegion cc) = m) := by
  constructor
  · intro h
    rw [Container.metaFor, if_pos h] at hm
    rw [hm]; rfl
  · intro h
    rw [Container.metaFor, if_neg h] at hm
    rcases regionsOf_meta hb ht (mainRegion_mem ht hcc) with ⟨h1, _⟩ | ⟨_, h2, m', h3, h4, h5⟩
    · exact absurd h1 h
    · rw [hm] at h3
      cases h3
      have : C.ccForRegion (C.mainRegion cc) = cc := by
        rw [Container.ccForRegion, if_pos h2, Container.ccForValidRegion, hm]; exact h5
      rw [metaFor, this, hm]; rfl

/-- A rule that applies gives a first one. -/
theorem first_applies {L : List NumberFormat} {s : Str} (h : ∃ p ∈ L, Applies p s) :
    ∃ pre f post, L = pre ++ f :: post ∧ Applies f s ∧ ∀ e ∈ pre, ¬ Applies e s := by
  induction L with
  | nil => obtain ⟨p, hp, _⟩ := h; cases hp
  | cons e L ih =>
    by_cases he : Applies e s
    · exact ⟨[], e, L, rfl, he, fun e he => (by cases he)⟩
    · obtain ⟨pre, f, post, h1, h2, h3⟩ := ih (by
        obtain ⟨p, hp, ha⟩ := h
        rcases List.mem_cons.1 hp with rfl | hp
        · exact absurd ha he
        · exact ⟨p, hp, ha⟩)
      refine ⟨e :: pre, f, post, by rw [h1]; rfl, h2, ?_⟩
      intro x hx
      rcases List.mem_cons.1 hx with rfl | hx
      · exact he
      · exact h3 x hx

theorem job {C : Container} (hb : Built C) (ht : tablesOk C = true) (hp : Props.prefixFree C = true) (h00 : C.hasCC 0 = false)
    (hs : C.allMeta.all shownOk = true) {cc : Int} (hcc : C.hasCC cc = true) {m : Metadata} (hm : C.metaFor cc (C.mainRegion cc) = some m)
    (region : Str) {s : Str} (hd : ∀ u ∈ s, isDig u = true) {f : NumberFormat} {pre post : List NumberFormat}
    (h1 : rulesFor m .international = pre ++ f :: post) (h2 : Applies f s) (h3 : ∀ e ∈ pre, ¬ Applies e s) :
    Job C region cc (decimal cc.toNat) m s f pre post := by
  obtain ⟨hc0, hc1000, _, _⟩ := Props.prefixFree_spec hp hcc
  have hsm := List.all_eq_true.1 hs m (Container.metaFor_mem hm)
  simp only [shownOk, Bool.and_eq_true, List.all_eq_true] at hsm
  obtain ⟨g1, g2⟩ := main_of_meta hb ht hcc hm
  have hdec : decInt cc = decimal cc.toNat := by rw [decInt_nonneg (by omega)]
  refine ⟨by omega, hdec, ?_, ?_, ?_, ?_, ?_, g1, g2, ⟨fun e he => staysOk_rule (hsm.1 e he), hsm.2, h1, hd, h2, h3⟩⟩
  · rw [← dec_eq_decimal]; exact (length_dec_le (by omega)).2 (by omega)
  · rw [← dec_eq_decimal]; exact dec_ne_nil _
  · rw [← dec_eq_decimal]; exact dec_digits _
  · intro p hpd
    exact Props.C13_unique C hp h00 cc p hcc (fun u hu => (isDig_iff u).1 (hpd u hu))
  · intro d hd1 hd2 hd3
    apply Classical.byContradiction
    intro hne
    obtain ⟨k1, k2, j, k3, k4, k5, k6, k7, k8⟩ := extractCC_spec C d hne
    generalize (extractCC C d).1 = c at *
    have hhead : (d.take j).head? ≠ some 48 := by
      cases d with
      | nil => exact absurd rfl hd3
      | cons u d => cases j with
        | zero => omega
        | succ j => exact k2
    have htake : d.take j ≠ [] := by
      intro h0
      have := congrArg List.length h0
      rw [List.length_take, Nat.min_eq_left k5] at this
      rw [this] at k3
      exact absurd k3 (by decide)
    have hw : decimal c.toNat = d.take j := by
      rw [k8, Int.toNat_natCast, ← dec_eq_decimal]
      exact dec_digVal _ k7 htake (.inr hhead)
    obtain ⟨t, ht'⟩ := hd1
    have hD : decimal cc.toNat = decimal c.toNat ++ (d.drop j ++ t) := by
      rw [hw, ← List.append_assoc, List.take_append_drop, ht']
    have hdig : ∀ u ∈ decimal cc.toNat, isDig u = true := by rw [← dec_eq_decimal]; exact dec_digits _
    have e1 := Props.C13_unique C hp h00 c (d.drop j ++ t) k1 (fun u hu => (isDig_iff u).1 <| hdig u (by rw [hD]; exact List.mem_append_right _ hu))
    have e2 := Props.C13_unique C hp h00 cc [] hcc (fun u hu => by cases hu)
    rw [List.append_nil, hD, e1] at e2
    have hnil := (Prod.mk.inj e2).2
    have ht0 : t = [] := (List.append_eq_nil_iff.1 hnil).2
    rw [ht0, List.append_nil] at ht'
    exact hd2 ht'

end Verif.Aytf
