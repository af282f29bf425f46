import Verif.Lemmas.AytfSame
import Verif.Spec.NoIdd
/-!
# Formatters that have not seen an international prefix
-/
namespace Verif.Aytf
open Spec
open Verif.Builder (bind_ok)

theorem extractIdd_none {a : Aytf} (h : (iddRe a.currentMeta).atStart.find a.plain = none) : a.extractIdd = .ok (a, false) := by
  have h : (Re.atStart (.alt (re! "\\+") a.currentMeta.internationalPrefix.re)).find a.plain = none := h
  unfold extractIdd
  rw [h]

theorem removeNationalPrefix_meta (a : Aytf) :
    a.removeNationalPrefix.1.currentMeta = a.currentMeta ∧ a.removeNationalPrefix.1.expecting = a.expecting := by
  unfold removeNationalPrefix
  split
  · exact ⟨rfl, rfl⟩
  · split
    · split
      · split <;> exact ⟨rfl, rfl⟩
      · exact ⟨rfl, rfl⟩
    · exact ⟨rfl, rfl⟩

theorem longerNdd_meta {a b : Aytf} {k : Bool} (h : a.longerNdd = .ok (b, k)) : b.currentMeta = a.currentMeta ∧ b.expecting = a.expecting := by
  unfold longerNdd at h
  obtain ⟨a1, h1, h⟩ := bind_ok.1 h
  have f1 : a1.currentMeta = a.currentMeta ∧ a1.expecting = a.expecting := by
    split at h1
    · split at h1
      · cases h1; exact ⟨rfl, rfl⟩
      · cases h1
    · cases h1; exact ⟨rfl, rfl⟩
  cases h
  obtain ⟨k1, k2⟩ := removeNationalPrefix_meta a1
  exact ⟨k1.trans f1.1, k2.trans f1.2⟩

theorem unableStep_quiet (k : Coat) (C : Container) (a : Aytf) (h : (iddRe a.currentMeta).atStart.find a.plain = none) :
    (dress k a).unableStep C = dressG k (a.unableStep C) := by
  unfold unableStep
  rw [show (dress k a).hasFmt = a.hasFmt from rfl]
  split
  · rfl
  · rw [extractIdd_dress, extractIdd_none h]
    show ((dress k a).longerNdd >>= _) = dressG k (a.longerNdd >>= _)
    rw [longerNdd_dress]
    cases a.longerNdd with
    | error e => rfl
    | ok q =>
      cases hq : q.2 with
      | true =>
        show (if q.2 then choosePatternWithPrefix (dress k { q.1 with pre := q.1.pre ++ [32] }) else _) = dressG k (if q.2 then _ else _)
        rw [if_pos hq, if_pos hq]
        exact choosePatternWithPrefix_dress k _
      | false =>
        show (if q.2 then choosePatternWithPrefix (dress k { q.1 with pre := q.1.pre ++ [32] }) else _) = dressG k (if q.2 then _ else _)
        rw [if_neg (by simp [hq]), if_neg (by simp [hq])]
        rfl

theorem unableStep_home {C : Container} {a : Aytf} (h : (iddRe a.currentMeta).atStart.find a.plain = none) (he : a.expecting = false)
    {p : Aytf × Str} (hp : a.unableStep C = .ok p) : p.1.currentMeta = a.currentMeta ∧ p.1.expecting = false := by
  unfold unableStep at hp
  split at hp
  · cases hp; exact ⟨rfl, he⟩
  · rw [extractIdd_none h] at hp
    obtain ⟨q, h1, hp⟩ := bind_ok.1 (show (a.longerNdd >>= _) = .ok p from hp)
    obtain ⟨k1, k2⟩ := longerNdd_meta (k := q.2) h1
    split at hp
    · obtain ⟨_, _, _, _, f5, _, f7⟩ := choosePatternWithPrefix_frame hp
      exact ⟨f5.trans k1, f7⟩
    · cases hp; exact ⟨k1, k2.trans he⟩

theorem ableStep_quiet (k : Coat) (C : Container) (a : Aytf) (c : Nat) (h : (iddRe a.currentMeta).atStart.find a.plain = none)
    (he : a.expecting = false) : (dress k a).ableStep C c = dressG k (a.ableStep C c) := by
  unfold ableStep
  rw [show (dress k a).plain = a.plain from rfl]
  split
  · rfl
  · split
    · rw [extractIdd_dress, extractIdd_none h]
      show choosePattern { (dress k a).removeNationalPrefix.1 with ndd := (dress k a).removeNationalPrefix.2 } = _
      rw [removeNationalPrefix_dress]
      exact choosePattern_dress k { a.removeNationalPrefix.1 with ndd := a.removeNationalPrefix.2 }
    · exact laterStep_dress k C a c he

theorem ableStep_home {C : Container} {a : Aytf} {c : Nat} (h : (iddRe a.currentMeta).atStart.find a.plain = none) (he : a.expecting = false)
    {p : Aytf × Str} (hp : a.ableStep C c = .ok p) : p.1.currentMeta = a.currentMeta ∧ p.1.expecting = false := by
  unfold ableStep at hp
  split at hp
  · cases hp; exact ⟨rfl, he⟩
  · split at hp
    · rw [extractIdd_none h] at hp
      have f := choosePattern_frame (a := { a.removeNationalPrefix.1 with ndd := a.removeNationalPrefix.2 }) hp
      obtain ⟨k1, k2⟩ := removeNationalPrefix_meta a
      exact ⟨f.currentMeta.trans k1, f.expecting.trans (k2.trans he)⟩
    · have f := laterStep_keeps hp he
      exact ⟨f.currentMeta, f.expecting.trans he⟩

theorem taken_key (a : Aytf) (c : Nat) : (a.taken c false).plain = a.plain ++ [asciiKey c] := by
  unfold taken accrue noted asciiKey
  by_cases hc : c = 43 <;> simp [hc]

/-- A character, in another coat, when it completes no international prefix. -/
theorem inputCore_quiet (k : Coat) (C : Container) (a : Aytf) (c : Nat) (r : Bool) (he : a.expecting = false)
    (h : a.hasFmt = false → (iddRe a.currentMeta).atStart.find (a.plain ++ [asciiKey c]) = none) (ha : a.hasFmt = true → a.able = false) :
    (∃ k' : Coat, k'.country = k.country ∧ k'.metadata = k.metadata ∧ (dress k a).inputCore C c r = dressG k' (a.inputCore C c false)) ∧
    ∀ q, a.inputCore C c false = .ok q → q.1.currentMeta = a.currentMeta ∧ q.1.expecting = false ∧
      (q.1.hasFmt = false → a.hasFmt = false ∧ q.1.plain = a.plain ++ [asciiKey c]) := by
  obtain ⟨t1, t2⟩ := taken_dress k a c r
  have e1 : a.inputCore C c false = if !(a.noted c false).isDigitOrLeadingPlus c then unableStep C { a.noted c false with able := false, hasFmt := true }
      else if !(a.taken c false).able then unableStep C (a.taken c false) else ableStep C (a.taken c false) ((a.noted c false).accrue c false).2 :=
    inputCore_eq C a c false
  have e2 : (dress k a).inputCore C c r = if !((dress k a).noted c r).isDigitOrLeadingPlus c then
      unableStep C { (dress k a).noted c r with able := false, hasFmt := true }
      else if !((dress k a).taken c r).able then unableStep C ((dress k a).taken c r)
      else ableStep C ((dress k a).taken c r) (((dress k a).noted c r).accrue c r).2 :=
    inputCore_eq C (dress k a) c r
  rw [phone_dress, t1, t2] at e2
  have hu : ∀ b : Aytf, b.hasFmt = true → unableStep C b = .ok (b, b.accrued) := by
    intro b hb; unfold unableStep; rw [if_pos hb]
  cases hp : (a.noted c false).isDigitOrLeadingPlus c with
  | false =>
    rw [hp, if_pos (by rfl)] at e1 e2
    rw [noted_dress] at e2
    rw [hu _ rfl] at e1 e2
    refine ⟨⟨{ k with orig := if r then (a.accrued ++ [c]).length else k.orig }, rfl, rfl, ?_⟩, ?_⟩
    · rw [e2, e1]; rfl
    · intro q hq
      rw [e1] at hq
      cases hq
      exact ⟨rfl, he, fun h => by cases h⟩
  | true =>
    rw [hp, if_neg (by simp)] at e1 e2
    have hk : (k.next a c r).country = k.country ∧ (k.next a c r).metadata = k.metadata := by unfold Coat.next; split <;> exact ⟨rfl, rfl⟩
    have m1 : (a.taken c false).currentMeta = a.currentMeta := by rw [taken_rest]
    have m2 : (a.taken c false).expecting = a.expecting := by rw [taken_rest]
    have m3 : (a.taken c false).hasFmt = a.hasFmt := by rw [taken_rest]
    have m4 : (a.taken c false).able = a.able := by rw [taken_rest]
    have m5 := taken_key a c
    generalize a.taken c false = T at *
    cases hf : a.hasFmt with
    | true =>
      have h4 : T.able = false := m4.trans (ha hf)
      rw [if_pos (by rw [h4]; rfl), hu T (m3.trans hf)] at e1
      rw [if_pos (by rw [show (dress (k.next a c r) T).able = T.able from rfl, h4]; rfl), hu (dress (k.next a c r) T) (m3.trans hf)] at e2
      refine ⟨⟨k.next a c r, hk.1, hk.2, by rw [e1, e2]; rfl⟩, fun q hq => ?_⟩
      rw [e1] at hq
      cases hq
      exact ⟨m1, m2.trans he, fun h => by rw [show T.hasFmt = true from m3.trans hf] at h; cases h⟩
    | false =>
      have hi : (iddRe T.currentMeta).atStart.find T.plain = none := by rw [m1, m5]; exact h hf
      refine ⟨⟨k.next a c r, hk.1, hk.2, ?_⟩, fun q hq => ?_⟩
      · rw [e1, e2, show (dress (k.next a c r) T).able = T.able from rfl]
        split
        · exact unableStep_quiet _ C _ hi
        · exact ableStep_quiet _ C _ _ hi (m2.trans he)
      · rw [e1] at hq
        split at hq
        · obtain ⟨g1, g2⟩ := unableStep_home hi (m2.trans he) hq
          exact ⟨g1.trans m1, g2, fun _ => ⟨rfl, (unableStep_frame hq).plain.trans m5⟩⟩
        · obtain ⟨g1, g2⟩ := ableStep_home hi (m2.trans he) hq
          exact ⟨g1.trans m1, g2, fun _ => ⟨rfl, (ableStep_frame hq).plain.trans m5⟩⟩

/-- Every state is that of the characters typed into the formatter of a region with the same metadata, but for the positions, while no
international prefix has been typed. -/
theorem same_calls_home {C : Container} {r r0 : Str} (hm : metaFor C r = metaFor C r0) {ks : List Call} {a : Aytf}
    (h : calls C (new C r) ks = .ok a) (hx : NoIdd (metaFor C r) (typed ks)) : ∃ b k, canon C r0 (typed ks) = .ok b ∧ a = dress k b := by
  have hn : new C r = dress ⟨r, metaFor C r, 0, 0⟩ (new C r0) := by unfold new dress; rw [hm]
  have key : Home C r a ∧ Typed (typed ks) a ∧ (NoIdd (metaFor C r) (typed ks) → ∃ b k, canon C r0 (typed ks) = .ok b ∧
      b.currentMeta = metaFor C r ∧ b.expecting = false ∧ (b.hasFmt = false → b.plain = (typed ks).map asciiKey) ∧ a = dress k b) := by
    refine calls_induct (P := fun x a => Home C r a ∧ Typed x a ∧ (NoIdd (metaFor C r) x → ∃ b k, canon C r0 x = .ok b ∧
      b.currentMeta = metaFor C r ∧ b.expecting = false ∧ (b.hasFmt = false → b.plain = x.map asciiKey) ∧ a = dress k b)) ?_ ?_ (s := [])
      ⟨⟨rfl, rfl⟩, typed_new C r, fun _ => ⟨new C r0, ⟨r, metaFor C r, 0, 0⟩, rfl, hm.symm, rfl, fun _ => rfl, hn⟩⟩ h
    · intro x a ⟨ha, ht, _⟩
      refine ⟨?_, (typed_step C).1 x a ht, fun _ => ?_⟩
      · rw [clear_eq_new ha]; exact ⟨rfl, rfl⟩
      · rw [clear_eq_new ha]
        exact ⟨new C r0, ⟨r, metaFor C r, 0, 0⟩, rfl, hm.symm, rfl, fun _ => rfl, hn⟩
    · intro x a c rb q ⟨ha, ht, hs⟩ hc hq
      refine ⟨home_step ha hq, (typed_step C).2 x a c rb q ht hc hq, fun hx => ?_⟩
      obtain ⟨b, k, h1, h2, h3, h4, h5⟩ := hs fun t h => hx t (h.trans (List.prefix_append _ _))
      subst h5
      obtain ⟨⟨k', _, _, k3⟩, g⟩ := inputCore_quiet k C b c rb h3 (fun hf => by
        rw [h2, h4 hf]
        have := hx (x ++ [c]) (List.prefix_refl _)
        rw [List.map_append] at this
        exact this) (fun hf => ht.inv.fmt hf)
      rw [k3] at hq
      obtain ⟨q', g1, g2⟩ := dressG_ok hq
      obtain ⟨i1, i2, i3⟩ := g q' g1
      refine ⟨{ q'.1 with currentOutput := q'.2 }, k', canon_snoc h1 g1, i1.trans h2, i2, fun hf => ?_, by rw [g2]; rfl⟩
      obtain ⟨j1, j2⟩ := i3 hf
      rw [List.map_append, ← h4 j1]
      exact j2
  obtain ⟨_, _, key⟩ := key
  obtain ⟨b, k, h1, _, _, _, h2⟩ := key hx
  exact ⟨b, k, h1, h2⟩

end Verif.Aytf
