import Verif.Lemmas.Viable
import Verif.Lemmas.Str
/-!
# Extensions and the text that is analysed
-/
namespace Verif

/-- Every capture group of the extension pattern is a run of 1 to 20 decimal digits. -/
theorem extn_groups : ∀ i < 6, ∀ r ∈ extnPattern.groupBodies (i + 1),
    r.allCls (fun c => decide (c = ⟨false, [], [.nd]⟩)) = true ∧ (∃ k, r.maxLen = some k ∧ k ≤ 20) := by
  intro i hi r hr
  have h : ((List.range 6).all fun i => (extnPattern.groupBodies (i + 1)).all fun r =>
      r.allCls (fun c => decide (c = ⟨false, [], [.nd]⟩)) && (match r.maxLen with | some k => decide (k ≤ 20) | none => false)) = true := by
    decide +kernel
  rw [List.all_eq_true] at h
  have h1 := h i (by simpa using hi)
  rw [List.all_eq_true] at h1
  have h2 := h1 r hr
  rw [Bool.and_eq_true] at h2
  refine ⟨h2.1, ?_⟩
  have h3 := h2.2
  split at h3
  · rename_i k hk; exact ⟨k, hk, by simpa using h3⟩
  · cases h3

theorem extnPattern_groups : extnPattern.groups = 6 := by decide +kernel

theorem slice_eq_of_append {s y w e : Str} (h : s = y ++ (w ++ e)) : slice s y.length (y.length + w.length) = w := by
  subst h; simp [slice]

/-- The extension removed from a text, if any, is a run of 1 to 20 Unicode decimal digits, and the rest is text before it. -/
theorem stripExtension_spec (s : Str) (he : (stripExtension s).1 ≠ []) :
    ∃ mid post, s = (stripExtension s).2 ++ (mid ++ ((stripExtension s).1 ++ post)) ∧ (stripExtension s).1.length ≤ 20 ∧
      ∀ u ∈ (stripExtension s).1, inRanges ndTable (rune u) = true := by
  unfold stripExtension at he ⊢
  cases hf : extnPattern.find s with
  | none => simp [hf] at he
  | some x =>
    simp only [hf] at he ⊢
    split at he
    · rename_i hv
      simp only [hv, if_true]
      split at he
      · rename_i e hfs
        simp only
        obtain ⟨i, hi, hie⟩ := List.exists_of_findSome?_eq_some hfs
        split at hie
        · cases hie
        · rename_i hne
          cases hie
          obtain ⟨a, w, e, h1, h2, h3, h4, h5⟩ := findFrom_sound hf
          rw [extnPattern_groups] at hi
          unfold Match.group at hne ⊢
          cases hsp : x.span (i + 1) with
          | none => simp [hsp] at hne
          | some p =>
            obtain ⟨p, q⟩ := p
            obtain ⟨r', hr', y, w', e', g1, g2, g3, g4, g5⟩ := matchAt_span h5 (i + 1) p q (by omega) hsp
            obtain ⟨k1, k2, k3, k4⟩ := extn_groups i (by simpa using hi) r' hr'
            have hx : x.start = a.length := by omega
            have hs : s = (a ++ y) ++ (w' ++ e') := by rw [h1, g1]; simp
            have hsl : slice s p q = w' := by
              have := slice_eq_of_append hs
              rw [show p = (a ++ y).length by simp; omega, g3, show p = (a ++ y).length by simp; omega]
              exact this
            simp only [hsl]
            refine ⟨y, e', ?_, ?_, ?_⟩
            · rw [hx, show s.take a.length = a by rw [h1]; simp]
              rw [hs]; simp
            · have := maxLen_acc r' k2 k3 _ _ _ g5; omega
            · exact allCls_acc (Q := fun u => inRanges ndTable (rune u) = true) (fun c hc u hu => by
                have : c = ⟨false, [], [.nd]⟩ := by simpa using hc
                subst this
                simpa [Cls.mem, Cls.has, inRanges, UProp.mem] using hu) r' k1 _ _ _ g5
      · simp at he
    · simp at he

/-! ## The analysed text -/

theorem dropIsub_prefix (s : Str) : dropIsub s <+: s := by
  unfold dropIsub
  split
  · split
    · exact List.take_prefix _ _
    · exact List.prefix_refl _
  · exact List.prefix_refl _

theorem extractPossibleNumber_infix (s : Str) : extractPossibleNumber s <:+: s := by
  unfold extractPossibleNumber
  split
  · exact List.nil_infix
  · rename_i x hx
    have h1 : s.drop x.start <:+: s := (List.drop_suffix _ _).isInfix
    have hmid : ∀ t, t <+: s.drop x.start → t <:+: s := fun t ht => ht.isInfix.trans h1
    simp only
    split
    · split
      · exact hmid _ ((List.take_prefix _ _).trans (List.take_prefix _ _))
      · exact hmid _ (List.take_prefix _ _)
    · split
      · exact hmid _ (List.take_prefix _ _)
      · exact h1

theorem extractPhoneContext_infix (s : Str) (idx : Option Nat) : extractPhoneContext s idx <:+: s := by
  unfold extractPhoneContext
  split
  · exact List.nil_infix
  · simp only
    split
    · exact List.nil_infix
    · exact (List.takeWhile_prefix _).isInfix.trans (List.drop_suffix _ _).isInfix

theorem goSlice_ok {s t : Str} {a b : Nat} (h : goSlice s a b = .ok t) : t = slice s a b ∧ a ≤ b ∧ b ≤ s.length := by
  unfold goSlice at h
  split at h
  · rename_i hab; cases h; exact ⟨rfl, hab⟩
  · cases h

/-- The analysed text is a contiguous part of the input, or, for an input with a phone context, the beginning of the context
followed by a contiguous part. -/
theorem buildNationalNumber_infix {s t : Str} (h : buildNationalNumber s = .ok (.ok t)) :
    t <:+: s ∨ ((indexOf s rfcPhoneContext).isSome ∧ ∃ ctx body, ctx <:+: s ∧ body <:+: s ∧ t <+: ctx ++ body) := by
  unfold buildNationalNumber at h
  simp only at h
  split at h
  · cases h
  · split at h
    · rename_i i hi
      simp only [bind, Except.bind] at h
      split at h
      · cases h
      · rename_i c0 hc0
        split at h
        · cases h
        · rename_i body hbody
          cases h
          right
          refine ⟨by rw [hi]; rfl, _, body, ?_, ?_, dropIsub_prefix _⟩
          · split
            · exact extractPhoneContext_infix _ _
            · exact List.nil_infix
          · rw [(goSlice_ok hbody).1]
            exact (List.take_prefix _ _).isInfix.trans (List.drop_suffix _ _).isInfix
    · cases h
      exact .inl ((dropIsub_prefix _).isInfix.trans (extractPossibleNumber_infix s))

end Verif
