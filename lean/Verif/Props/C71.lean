import Verif.Lemmas.Layout
/-!
# C71: numbers are laid out by the first rule that can be used
-/
namespace Verif.Props
open Spec

theorem wf_layout : Data.container.allMeta.all layoutOk = true := by kernel_rfl

theorem extensionText_eq (n : PhoneNumber) (m : Metadata) (f : Fmt) (s : Str) :
    appendExtension n (some m) f s = s ++ extensionText m f (n.extension.getD []) := by
  unfold appendExtension extensionText
  show (if n.extension.getD [] = [] then s else _) = _
  by_cases h : n.extension.getD [] = []
  · simp [h]
  · simp only [if_neg h, ite_not, List.append_assoc]
    rfl

theorem leadText_eq {cc : Int} (h : 0 ≤ cc) (f : Fmt) (s : Str) : prefixWithCC cc f s = leadText f cc.toNat ++ s := by
  cases f <;> simp [prefixWithCC, leadText, decInt_nonneg h]

/-- For every container with well-formed rules, every number with a supported country code and every format other than E164,
`Format` returns the lead of the format, the national significant number laid out by the first rule of the main region of the code
that can be used (cut into the groups of the rule, which are put into its template, for NATIONAL with the national prefix rule), and
the extension with its label. -/
theorem C71_format (C : Container) (hb : Built C) (ht : tablesOk C = true) (hp : prefixFree C = true) (hl : C.allMeta.all layoutOk = true)
    (n : PhoneNumber) (f : Fmt) (hf : f ≠ .e164) (hcc : C.hasCC n.cc = true) (hraw : ¬ (n.nn = 0 ∧ n.raw ≠ [])) :
    ∃ m body, C.metaFor n.cc (C.mainRegion n.cc) = some m ∧ LaidOut (rulesFor m f) (nsnOf n) f [] body ∧
      format C n f = leadText f n.cc.toNat ++ body ++ extensionText m f (n.extension.getD []) := by
  have h0 : 0 ≤ n.cc := by have := (prefixFree_spec hp hcc).1; omega
  obtain ⟨m, hm, -⟩ := main_meta hb ht hcc
  refine ⟨m, formatNsn (nsnOf n) (some m) f [], hm,
    formatNsn_laidOut (List.all_eq_true.1 hl m (Container.metaFor_mem hm)) (nsnOf_isDig n) f (by simp), ?_⟩
  simp only [format, if_neg hraw, formatCore, if_neg hf, hcc, Bool.not_true, Bool.false_eq_true, if_false, hm, extensionText_eq,
    leadText_eq h0, List.append_assoc]

/-- The same for the shipped metadata, unconditionally. -/
theorem C71_shipped (n : PhoneNumber) (f : Fmt) (hf : f ≠ .e164) (hcc : Data.container.hasCC n.cc = true) (hraw : ¬ (n.nn = 0 ∧ n.raw ≠ [])) :
    ∃ m body, Data.container.metaFor n.cc (Data.container.mainRegion n.cc) = some m ∧ LaidOut (rulesFor m f) (nsnOf n) f [] body ∧
      format Data.container n f = leadText f n.cc.toNat ++ body ++ extensionText m f (n.extension.getD []) :=
  C71_format _ built_shipped Data.wf_tables prefixFree_shipped wf_layout n f hf hcc hraw

/-- `FormatNationalNumberWithCarrierCode`: the same as NATIONAL, with the carrier rule where there is one.  The carrier code has no
dollar sign. -/
theorem C71_carrier (n : PhoneNumber) (carrier : Str) (hc : '$'.toNat ∉ carrier) (hcc : Data.container.hasCC n.cc = true) :
    ∃ m body, Data.container.metaFor n.cc (Data.container.mainRegion n.cc) = some m ∧
      LaidOut (rulesFor m .national) (nsnOf n) .national carrier body ∧
      formatWithCarrier Data.container n carrier = body ++ extensionText m .national (n.extension.getD []) := by
  obtain ⟨m, hm, -⟩ := main_meta built_shipped Data.wf_tables hcc
  refine ⟨m, formatNsn (nsnOf n) (some m) .national carrier, hm,
    formatNsn_laidOut (List.all_eq_true.1 wf_layout m (Container.metaFor_mem hm)) (nsnOf_isDig n) _ hc, ?_⟩
  simp only [formatWithCarrier, hcc, Bool.not_true, Bool.false_eq_true, if_false, hm, extensionText_eq, prefixWithCC]

theorem chosen_unique {rules : List NumberFormat} {s : Str} {a b : Option NumberFormat} (ha : Chosen rules s a) (hb : Chosen rules s b) :
    a = b := by
  induction rules with
  | nil =>
    cases ha with
    | none => cases hb with
      | none => rfl
      | some h => simp at h
    | some h => simp at h
  | cons r rules ih =>
    by_cases hr : Applies r s
    · have key : ∀ c, Chosen (r :: rules) s c → c = some r := by
        intro c hc
        cases hc with
        | none h => exact absurd hr (h r (by simp))
        | @some pre post p h1 h2 h3 =>
          cases pre with
          | nil => cases h1; rfl
          | cons q pre => cases h1; exact absurd hr (h3 r (by simp))
      rw [key a ha, key b hb]
    · have key : ∀ c, Chosen (r :: rules) s c → Chosen rules s c := by
        intro c hc
        cases hc with
        | none h => exact .none (fun q hq => h q (by simp [hq]))
        | @some pre post p h1 h2 h3 =>
          cases pre with
          | nil => cases h1; exact absurd h2 hr
          | cons q pre => cases h1; exact .some rfl h2 (fun q hq => h3 q (by simp [hq]))
      exact ih (key a ha) (key b hb)

/-- The layout is determined: the specification leaves no choice. -/
theorem C71_unique {rules : List NumberFormat} {s : Str} {f : Fmt} {carrier a b : Str} (ha : LaidOut rules s f carrier a)
    (hb : LaidOut rules s f carrier b) : a = b := by
  cases ha with
  | plain ha => cases hb with
    | plain hb => rfl
    | rule hb => cases chosen_unique ha hb
  | rule ha hg => cases hb with
    | plain hb => cases chosen_unique ha hb
    | rule hb hg' => cases chosen_unique ha hb; rw [hg] at hg'; cases hg'; rfl

theorem least_le_most {l : List (Nat × Nat)} (h : ∀ g ∈ l, g.1 ≤ g.2) : least l ≤ most l := by
  induction l with
  | nil => simp [least, most]
  | cons a l ih => have := ih (fun b hb => h b (by simp [hb])); have := h a (by simp); simp [least, most] at *; omega

/-- The groups are the digits, cut: nothing is lost when the digits fit. -/
theorem C71_cut (gs : List (Nat × Nat)) (s : Str) (h : ∀ g ∈ gs, g.1 ≤ g.2) (h1 : least gs ≤ s.length) (h2 : s.length ≤ most gs) :
    (cut gs s).flatten = s ∧ (cut gs s).length = gs.length ∧ ∀ i, (hi : i < gs.length) →
      gs[i].1 ≤ ((cut gs s).getD i []).length ∧ ((cut gs s).getD i []).length ≤ gs[i].2 := by
  refine ⟨?_, cut_length gs s, ?_⟩
  · induction gs generalizing s with
    | nil => simp [most] at h2; simp [cut, h2]
    | cons g gs ih =>
      simp only [least, most, List.map_cons, List.sum_cons] at h1 h2
      have hg := h g (by simp)
      have hlm := least_le_most (fun b hb => h b (by simp [hb]) : ∀ g ∈ gs, g.1 ≤ g.2)
      simp only [cut, List.flatten_cons]
      rw [ih (s.drop (min g.2 (s.length - least gs))) (fun b hb => h b (by simp [hb])) (by simp [least] at *; omega)
        (by simp [least, most] at *; omega), List.take_append_drop]
  · induction gs generalizing s with
    | nil => intro i hi; simp at hi
    | cons g gs ih =>
      simp only [least, most, List.map_cons, List.sum_cons] at h1 h2
      have hg := h g (by simp)
      have hlm := least_le_most (fun b hb => h b (by simp [hb]) : ∀ g ∈ gs, g.1 ≤ g.2)
      intro i hi
      cases i with
      | zero => simp [cut, least] at *; omega
      | succ i =>
        have := ih (s.drop (min g.2 (s.length - least gs))) (fun b hb => h b (by simp [hb])) (by simp [least] at *; omega)
          (by simp [least, most] at *; omega) i (by simp at hi; omega)
        simpa [cut] using this

-- `(\d{2})(\d{4,5})(\d{4})` leaves four digits for the last group; `(0$1) $2-$3` is `$1 $2-$3` with the rule `(0$1)`
example : cut [(2, 2), (4, 5), (4, 4)] (str!"1123456789") = [str!"11", str!"2345", str!"6789"] := by decide
example : fill [str!"11", str!"2345", str!"6789"] (putRule (str!"(0$1)") (str!"$1 $2-$3")) = str!"(011) 2345-6789" := by decide
example : putCarrier (str!"15") (str!"0 $CC ($1)") = str!"0 15 ($1)" := by decide
example : Data.container.hasCC 55 = true := by kernel_rfl
example : format Data.container { countryCode := some 55, nationalNumber := some 1123456789, extension := some (str!"7") } .national =
    str!"(11) 2345-6789 ext. 7" := by kernel_rfl
example : format Data.container { countryCode := some 44, nationalNumber := some 2070313000, extension := some (str!"7") } .international =
    str!"+44 20 7031 3000 x7" := by kernel_rfl
example : formatWithCarrier Data.container { countryCode := some 55, nationalNumber := some 1123456789 } (str!"15") =
    str!"0 15 (11) 2345-6789" := by kernel_rfl

end Verif.Props
