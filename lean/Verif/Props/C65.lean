import Verif.Lemmas.Intl
import Verif.Props.C10
import Verif.Props.C17
/-!
# C65: INTERNATIONAL and RFC3966 output is parsed back to the same number with its extension
-/
namespace Verif.Props
open Spec

/-- The number has no extension, or one of at most `k` ASCII digits. -/
def ShortExt (n : PhoneNumber) (k : Nat) : Prop :=
  (n.extension.getD []).length ≤ k ∧ ∀ u ∈ n.extension.getD [], '0'.toNat ≤ u ∧ u ≤ '9'.toNat

theorem wf_intlEnds : Data.container.allMeta.all intlEndsOk = true := by kernel_rfl

theorem blen_ascii {s : Str} (h : ∀ u ∈ s, u < 128) : blen s = s.length := by
  induction s with
  | nil => rfl
  | cons u s ih =>
    rw [blen_cons, ih (fun v hv => h v (by simp [hv])), List.length_cons]
    have : width u = 1 := by simp [width, h u]
    omega

/-- The decisions of parsing such a text. -/
theorem written_core (C : Container) (hC : prefixFree C = true) (h00 : C.hasCC 0 = false) (hN : nonGeoOk C = true)
    (hG : C.allMeta.all lengthTablesOk = true) (n : PhoneNumber) (hcc : C.hasCC n.cc = true)
    (h2 : 2 ≤ (nsnOf n).length) (h17 : (nsnOf n).length ≤ 17)
    (ha : ∀ m, C.metaFor n.cc (C.mainRegion n.cc) = some m → LeftAlone m (nsnOf n)) (region : Str)
    (pre body y : Str) (g : Nat) (hpre : pre = [] ∨ pre = rfcPrefix) (hg : g ∈ gapL)
    (hb1 : ∀ u ∈ body, isDig u = true ∨ u ∈ gapL) (hb2 : ∃ a v, body = a ++ [v] ∧ isDig v = true)
    (hb3 : body.length ≤ 150) (hb4 : body.filter isDig = nsnOf n) (hy : ExtPart y n.ext) :
    ∃ c, parseCore C (pre ++ 43 :: ((decimal n.cc.toNat ++ g :: body) ++ y)) region true =
      .ok (.ok ⟨n.cc, n.ext, nsnOf n, some .withPlusSign, c⟩) := by
  obtain ⟨hc0, hc1000, -, -⟩ := prefixFree_spec hC hcc
  obtain ⟨hx, hfin⟩ := roundtrip_finish C hC h00 hN hG n hcc h2 h17 ha region
  have hdec : ∀ u ∈ decimal n.cc.toNat, isDig u = true := by rw [← dec_eq_decimal]; exact dec_digits _
  have hlen1 : 1 ≤ (decimal n.cc.toNat).length := by
    rw [← dec_eq_decimal]; exact List.length_pos_iff.2 (dec_ne_nil _)
  have hlen3 : (decimal n.cc.toNat).length ≤ 3 := by
    rw [← dec_eq_decimal]; exact (length_dec_le (by omega)).2 (by omega)
  have hgd : isDig g = false := by revert g; decide
  have ht : Spaced (decimal n.cc.toNat ++ g :: body) := by
    refine ⟨?_, ?_, ?_⟩
    · intro u hu
      rcases List.mem_append.1 hu with hu | hu
      · exact .inl (hdec u hu)
      · rcases List.mem_cons.1 hu with rfl | hu
        · exact .inr hg
        · exact hb1 u hu
    · cases hd : decimal n.cc.toNat with
      | nil => simp [hd] at hlen1
      | cons v b => exact ⟨v, b ++ g :: body, rfl, hdec v (by rw [hd]; simp)⟩
    · obtain ⟨a, v, rfl, hv⟩ := hb2
      exact ⟨decimal n.cc.toNat ++ g :: a, v, by simp, hv⟩
  have hfil : (decimal n.cc.toNat ++ g :: body).filter isDig = decimal n.cc.toNat ++ nsnOf n := by
    rw [List.filter_append, List.filter_cons_of_neg (by simp [hgd]), hb4, List.filter_eq_self.2 hdec]
  have hylen : y.length ≤ 40 ∧ ∀ u ∈ y, u < 128 := by
    have hd128 : ∀ u, isDig u = true → u < 128 := by intro u hu; simp [isDig] at hu; omega
    generalize n.ext = d at hy
    cases hy with
    | none => simp
    | some x d hx hd h1 h2 =>
      have k1 : ∀ x ∈ extLabels, x.1.length + x.2 ≤ 40 ∧ ∀ u ∈ x.1, u < 128 := by decide
      obtain ⟨k2, k3⟩ := k1 x hx
      refine ⟨by simp; omega, fun u hu => ?_⟩
      rcases List.mem_append.1 hu with hu | hu
      · exact k3 u hu
      · exact hd128 u (hd u hu)
  have hascii : ∀ u ∈ pre ++ 43 :: ((decimal n.cc.toNat ++ g :: body) ++ y), u < 128 := by
    have hd128 : ∀ u, isDig u = true → u < 128 := by intro u hu; simp [isDig] at hu; omega
    have hg128 : ∀ u ∈ gapL, u < 128 := by decide
    have hp128 : ∀ u ∈ rfcPrefix, u < 128 := by decide
    intro u hu
    rcases List.mem_append.1 hu with hu | hu
    · rcases hpre with rfl | rfl
      · cases hu
      · exact hp128 u hu
    · rcases List.mem_cons.1 hu with rfl | hu
      · omega
      · rcases List.mem_append.1 hu with hu | hu
        · rcases ht.all u hu with h | h
          · exact hd128 u h
          · exact hg128 u h
        · exact hylen.2 u hu
  have hplen : pre.length ≤ 4 := by rcases hpre with rfl | rfl <;> decide
  have hcore := parseCore_written C region true hpre ht hy (by rw [hfil]; simp; omega)
    (by rw [blen_ascii hascii]; simp; omega) (by rw [hfil, hx]; simp only; omega)
  rw [hfil, hx] at hcore
  simp only [hfin, bind, Except.bind, pure, Except.pure] at hcore
  exact ⟨_, hcore⟩

theorem parsed_of_core {C : Container} {s region : Str} {n : PhoneNumber} {src : CCSource}
    (h2 : 2 ≤ (nsnOf n).length) (h17 : (nsnOf n).length ≤ 17)
    (hcore : ∃ c, parseCore C s region true = .ok (.ok ⟨n.cc, n.ext, nsnOf n, some src, c⟩)) :
    ∃ pn, parse C s region = .ok (none, pn) ∧ pn.cc = n.cc ∧ nsnOf pn = nsnOf n ∧ pn.ext = n.ext := by
  obtain ⟨c, hcore⟩ := hcore
  have hp := parseHelper_core C s region false true {}
  rw [hcore] at hp
  simp only [Refines] at hp
  refine ⟨_, hp, rfl, C05_store (nsnOf n) {} (C04_digits n) h2 h17 rfl, ?_⟩
  show (if n.ext ≠ [] then some n.ext else none).getD [] = n.ext
  by_cases h : n.ext = []
  · rw [if_neg (by simp [h]), h]; rfl
  · rw [if_pos h]; rfl

theorem extPart_of {n : PhoneNumber} {k : Nat} (h : ShortExt n k) {x : Str × Nat} (hx : x ∈ extLabels) (hk : k ≤ x.2) :
    ExtPart (if n.ext = [] then [] else x.1 ++ n.ext) n.ext := by
  have h' : n.ext.length ≤ k ∧ ∀ u ∈ n.ext, isDig u = true := by
    refine ⟨h.1, fun u hu => ?_⟩
    have := h.2 u hu
    simpa [isDig] using this
  split
  · rename_i h0; rw [h0]; exact .none
  · rename_i h0
    exact .some x _ hx h'.2 (List.length_pos_iff.2 h0) (by omega)

/-- The decisions of parsing the INTERNATIONAL form. -/
theorem international_core (C : Container) (hb : Built C) (htb : tablesOk C = true) (hC : prefixFree C = true)
    (h00 : C.hasCC 0 = false) (hN : nonGeoOk C = true) (hG : C.allMeta.all lengthTablesOk = true)
    (hf : C.allMeta.all intlFormatsOk = true) (hl : C.allMeta.all intlLiteralsOk = true) (he : C.allMeta.all intlEndsOk = true)
    (n : PhoneNumber) (hcc : C.hasCC n.cc = true) (hraw : ¬ (n.nn = 0 ∧ n.raw ≠ [])) (h2 : 2 ≤ (nsnOf n).length)
    (h17 : (nsnOf n).length ≤ 17) (ha : ∀ m, C.metaFor n.cc (C.mainRegion n.cc) = some m → LeftAlone m (nsnOf n))
    (hext : ShortExt n 9) (region : Str) :
    ∃ c, parseCore C (format C n .international) region true = .ok (.ok ⟨n.cc, n.ext, nsnOf n, some .withPlusSign, c⟩) := by
  obtain ⟨m, hm, -⟩ := main_meta hb htb hcc
  have hmem := Container.metaFor_mem hm
  have hok := List.all_eq_true.1 hf m hmem
  have hends := List.all_eq_true.1 he m hmem
  have h0 : 0 ≤ n.cc := by have := (prefixFree_spec hC hcc).1; omega
  obtain ⟨k1, k2, k3⟩ := formatNsn_spaced m hok (List.all_eq_true.1 hl m hmem) hends (nsnOf n) (nsnOf_isDig n)
    (by intro h; simp [h] at h2)
  obtain ⟨x, hx, hx9, hxe⟩ : ∃ x ∈ extLabels, 9 ≤ x.2 ∧
      (if m.preferredExtnPrefix ≠ [] then m.preferredExtnPrefix else str!" ext. ") = x.1 := by
    simp only [intlEndsOk, Bool.and_eq_true, decide_eq_true_eq] at hends
    have key : ∀ p ∈ [[], (str!" x"), (str!" Anexo "), (str!" int "), (str!"#"), (str!" int. ")],
      ∃ x ∈ extLabels, 9 ≤ x.2 ∧ (if p ≠ [] then p else str!" ext. ") = x.1 := by decide
    exact key _ hends.2
  have hfmt : format C n .international = [] ++ 43 :: ((decimal n.cc.toNat ++ 32 :: formatNsn (nsnOf n) (some m) .international []) ++
      (if n.ext = [] then [] else x.1 ++ n.ext)) := by
    simp only [format, if_neg hraw, formatCore, reduceCtorEq, if_false, hcc, Bool.not_true, Bool.false_eq_true, hm, prefixWithCC,
      appendExtension, decInt_nonneg h0, hxe]
    split <;> simp
  rw [hfmt]
  exact written_core C hC h00 hN hG n hcc h2 h17 ha region [] _ _ 32 (.inl rfl) (by decide) k1 k2 (by omega)
    (formatNsn_digits m hok (nsnOf n) (nsnOf_isDig n)) (extPart_of hext hx hx9)

/-- For containers with well-formed formats: the INTERNATIONAL form of a number that national-prefix stripping leaves alone is
parsed, with any default region, as the same number with the same extension. -/
theorem C65_international (C : Container) (hb : Built C) (htb : tablesOk C = true) (hC : prefixFree C = true)
    (h00 : C.hasCC 0 = false) (hN : nonGeoOk C = true) (hG : C.allMeta.all lengthTablesOk = true)
    (hf : C.allMeta.all intlFormatsOk = true) (hl : C.allMeta.all intlLiteralsOk = true) (he : C.allMeta.all intlEndsOk = true)
    (n : PhoneNumber) (hcc : C.hasCC n.cc = true) (hraw : ¬ (n.nn = 0 ∧ n.raw ≠ [])) (h2 : 2 ≤ (nsnOf n).length)
    (h17 : (nsnOf n).length ≤ 17) (ha : ∀ m, C.metaFor n.cc (C.mainRegion n.cc) = some m → LeftAlone m (nsnOf n))
    (hext : ShortExt n 9) (region : Str) :
    ∃ pn, parse C (format C n .international) region = .ok (none, pn) ∧ pn.cc = n.cc ∧ nsnOf pn = nsnOf n ∧
      pn.extension.getD [] = n.extension.getD [] :=
  parsed_of_core h2 h17 (international_core C hb htb hC h00 hN hG hf hl he n hcc hraw h2 h17 ha hext region)

theorem hyphenGroups_shape {body d : Str} (h : HyphenGroups body d) (hd : ∀ u ∈ d, isDig u = true) :
    (∀ u ∈ body, isDig u = true ∨ u ∈ gapL) ∧ (∃ a v, body = a ++ [v] ∧ isDig v = true) ∧ body.length ≤ 2 * d.length ∧
      body.filter isDig = d := by
  obtain ⟨gs, h1, h2, h3, rfl⟩ := h
  subst h3
  induction gs with
  | nil => exact absurd rfl h1
  | cons g gs ih =>
    have hg : ∀ u ∈ g, isDig u = true := fun u hu => hd u (by simp [hu])
    have hgne := h2 g (by simp)
    cases gs with
    | nil =>
      obtain ⟨v, hv⟩ := List.getLast?_isSome.2 hgne |> Option.isSome_iff_exists.1
      obtain ⟨b, hb⟩ := List.getLast?_eq_some_iff.1 hv
      simp only [List.intercalate_singleton, List.flatten_cons, List.flatten_nil, List.append_nil]
      exact ⟨fun u hu => .inl (hg u hu), ⟨b, v, hb, hg v (by rw [hb]; simp)⟩, by omega, List.filter_eq_self.2 hg⟩
    | cons g' gs =>
      obtain ⟨i1, ⟨a, v, i2, i3⟩, i4, i5⟩ := ih (by simp) (fun g hg => h2 g (by simp [hg])) (fun u hu => hd u (by
        rw [List.flatten_cons]; exact List.mem_append_right _ hu))
      rw [List.intercalate_cons_cons, List.flatten_cons]
      refine ⟨?_, ⟨g ++ ['-'.toNat] ++ a, v, by rw [i2]; simp, i3⟩, ?_, ?_⟩
      · intro u hu
        rcases List.mem_append.1 hu with hu | hu
        · rcases List.mem_append.1 hu with hu | hu
          · exact .inl (hg u hu)
          · simp only [List.mem_singleton] at hu; subst hu; exact .inr (by decide)
        · exact i1 u hu
      · have := List.length_pos_iff.2 hgne
        simp only [List.length_append, List.length_singleton] at i4 ⊢
        omega
      · rw [List.filter_append, List.filter_append, i5, List.filter_eq_self.2 hg]
        simp [show isDig 45 = false by decide]

/-- The same for RFC3966, where the extension may have up to 20 digits. -/
theorem C65_rfc3966 (C : Container) (hb : Built C) (htb : tablesOk C = true) (hC : prefixFree C = true)
    (h00 : C.hasCC 0 = false) (hN : nonGeoOk C = true) (hG : C.allMeta.all lengthTablesOk = true)
    (hf : C.allMeta.all intlFormatsOk = true) (hl : C.allMeta.all intlLiteralsOk = true)
    (n : PhoneNumber) (hcc : C.hasCC n.cc = true) (hraw : ¬ (n.nn = 0 ∧ n.raw ≠ [])) (h2 : 2 ≤ (nsnOf n).length)
    (h17 : (nsnOf n).length ≤ 17) (ha : ∀ m, C.metaFor n.cc (C.mainRegion n.cc) = some m → LeftAlone m (nsnOf n))
    (hext : ShortExt n 20) (region : Str) :
    ∃ pn, parse C (format C n .rfc3966) region = .ok (none, pn) ∧ pn.cc = n.cc ∧ nsnOf pn = nsnOf n ∧
      pn.extension.getD [] = n.extension.getD [] := by
  obtain ⟨body, h1, h3⟩ := C17_groups C hb htb hC hf hl n hcc hraw
  obtain ⟨k1, k2, k3, k4⟩ := hyphenGroups_shape h3 (nsnOf_isDig n)
  have hfmt : format C n .rfc3966 = rfcPrefix ++ 43 :: ((decimal n.cc.toNat ++ 45 :: body) ++
      (if n.ext = [] then [] else (str!";ext=") ++ n.ext)) := by
    rw [h1, show n.extension.getD [] = n.ext from rfl, show (str!"tel:+" : Str) = rfcPrefix ++ [43] by decide]
    simp
  rw [hfmt]
  exact parsed_of_core h2 h17 <| written_core C hC h00 hN hG n hcc h2 h17 ha region rfcPrefix _ _ 45 (.inr rfl) (by decide) k1 k2 (by omega)
    k4 (extPart_of hext (x := ((str!";ext="), 20)) (by decide) (by decide))

/-- Under the shipped metadata: the INTERNATIONAL form of every valid number, except those with an ambiguous beginning
(C10), is parsed as the same number, with its extension of up to 9 digits, whatever the default region. -/
theorem C65_international_valid (n : PhoneNumber) (hv : isValidNumber Data.container n = .ok true) (hraw : ¬ (n.nn = 0 ∧ n.raw ≠ []))
    (hex : ¬ Ambiguous n) (hext : ShortExt n 9) (region : Str) :
    ∃ pn, parse Data.container (format Data.container n .international) region = .ok (none, pn) ∧ pn.cc = n.cc ∧
      nsnOf pn = nsnOf n ∧ pn.extension.getD [] = n.extension.getD [] := by
  obtain ⟨hcc, h2, h17, ha⟩ := valid_leftAlone n hv hex
  exact C65_international _ built_shipped Data.wf_tables prefixFree_shipped (hasCC_zero Data.wf_regions) Data.wf_nonGeo
    Data.wf_lengthTables Data.wf_intlFormats Data.wf_intlLiterals wf_intlEnds n hcc hraw h2 h17 ha hext region

/-- The same for RFC3966 and extensions of up to 20 digits. -/
theorem C65_rfc3966_valid (n : PhoneNumber) (hv : isValidNumber Data.container n = .ok true) (hraw : ¬ (n.nn = 0 ∧ n.raw ≠ []))
    (hex : ¬ Ambiguous n) (hext : ShortExt n 20) (region : Str) :
    ∃ pn, parse Data.container (format Data.container n .rfc3966) region = .ok (none, pn) ∧ pn.cc = n.cc ∧
      nsnOf pn = nsnOf n ∧ pn.extension.getD [] = n.extension.getD [] := by
  obtain ⟨hcc, h2, h17, ha⟩ := valid_leftAlone n hv hex
  exact C65_rfc3966 _ built_shipped Data.wf_tables prefixFree_shipped (hasCC_zero Data.wf_regions) Data.wf_nonGeo
    Data.wf_lengthTables Data.wf_intlFormats Data.wf_intlLiterals n hcc hraw h2 h17 ha hext region

/-- The bound on the extension is needed: British numbers are written with ` x`, after which parsing reads at most nine digits;
with this ten-digit extension all digits are taken for the number, which is then too long. -/
theorem C65_extension_bound :
    format Data.container { countryCode := some 44, nationalNumber := some 2070313000, extension := some (str!"1234567890") } .international =
      str!"+44 20 7031 3000 x1234567890" ∧
    (parse Data.container (str!"+44 20 7031 3000 x1234567890") (str!"GB")).map (·.1) = .ok (some .tooLong) := by
  refine ⟨?_, ?_⟩ <;> kernel_rfl

-- a valid number with an extension
example : isValidNumber Data.container { countryCode := some 44, nationalNumber := some 2070313000, extension := some (str!"456") } =
    .ok true ∧ ¬ Ambiguous { countryCode := some 44, nationalNumber := some 2070313000, extension := some (str!"456") } ∧
    ShortExt { countryCode := some 44, nationalNumber := some 2070313000, extension := some (str!"456") } 9 := by
  refine ⟨?_, by decide +kernel, by unfold ShortExt; decide⟩; kernel_rfl
example : format Data.container { countryCode := some 44, nationalNumber := some 2070313000, extension := some (str!"456") } .international =
    str!"+44 20 7031 3000 x456" := by kernel_rfl
example : parse Data.container (str!"+44 20 7031 3000 x456") (str!"US") =
    .ok (none, { countryCode := some 44, nationalNumber := some 2070313000, extension := some (str!"456") }) := by kernel_rfl

end Verif.Props
