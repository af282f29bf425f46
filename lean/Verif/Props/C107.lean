import Verif.Lemmas.MixedFind
import Verif.Lemmas.LocalExtRead
import Verif.Props.C103
import Verif.Props.C106
/-!
# C107: all the numbers in a text are found, in whichever ways they are written
-/
namespace Verif.Props
open Spec

/-- As C104, for numbers each of which is written as in C64 or as within a country as in C103, perhaps with an extension as in C106, and for
lists: two numbers also stand apart if the text between them has a tab, comma or semicolon and no sign of a word for an extension.  If
parsing accepts each number and the leniency level accepts each result, then the search returns all of them, each at its place, in
their order, and nothing else, however small the limit of tries is. -/
theorem C107_all (F : Finder) (l : List Mention) (rest : Str) (ht : F.text = textOf l rest) (ha : Separate l) (hr : NoDigit rest)
    (hh : NoHash l rest) (hst : F.leniency ≠ .possible → NothingSticks l rest)
    (hp : ∀ x ∈ l, parseKeepRaw F.C x.raw F.region = .ok (none, x.number) ∧ F.leniency.verify F.C F.alt x.number x.raw = .ok true)
    (maxTries : Int) (hk : 0 < maxTries) :
    ∃ ms c, F.findNumbers maxTries = .ok (ms, c) ∧ ms.map (fun m => (m.start F.text, m.raw, m.number)) = expected 0 l := by
  have hlen : ∀ l : List Mention, (∀ x ∈ l, x.raw ≠ []) → l.length ≤ (textOf l rest).length := by
    intro l h
    induction l with
    | nil => simp
    | cons x l ih =>
      have h1 := List.length_pos_iff.2 (h x (by simp))
      have h2 := ih fun y hy => h y (by simp [hy])
      simp only [textOf, List.flatMap_cons, List.length_append, List.length_cons] at h2 ⊢
      omega
  have h1 := hlen l fun x hx => writes_ne (ha.1 x hx).2
  rw [← ht] at h1
  have hk0 : (if maxTries < 0 then 0 else maxTries) = maxTries := if_neg (by omega)
  unfold Finder.findNumbers Finder.new
  rw [hk0]
  exact Finder.iterate_mixed hr hh.2 (fun h => (hst h).2.2) ⟨maxTries, 0, 0⟩ hk l [] (F.text.length + 1) (by omega) (by simpa using ht) ha.1 ha.2
    hh.1 (fun h => (hst h).1) (fun h => absurd rfl h) (fun h => (hst h).2.1) hp

/-- The shipped metadata passes the static check for numbers with an extension. -/
theorem localsExtOk_shipped : localsExtOk Data.container = true := by
  simp only [localsExtOk, mapGet_str]
  kernel_rfl

/-- The NATIONAL form of a number with an extension. -/
theorem national_withExt (n : PhoneNumber) (hcc : Data.container.hasCC n.cc = true) (h0 : n.nn ≠ 0) (hne : n.ext ≠ []) :
    ∃ x ∈ formatLabels, 9 ≤ x.2 ∧
      format Data.container n .national = format Data.container { n with extension := none } .national ++ (x.1 ++ n.ext) := by
  obtain ⟨m, hm, -⟩ := main_meta built_shipped Data.wf_tables hcc
  have hraw : ¬ (n.nn = 0 ∧ n.raw ≠ []) := fun h => h0 h.1
  have hends := List.all_eq_true.1 wf_intlEnds m (Container.metaFor_mem hm)
  obtain ⟨x, hx, hx9, hxe⟩ : ∃ x ∈ formatLabels, 9 ≤ x.2 ∧
      (if m.preferredExtnPrefix ≠ [] then m.preferredExtnPrefix else str!" ext. ") = x.1 := by
    simp only [intlEndsOk, Bool.and_eq_true, decide_eq_true_eq] at hends
    have key : ∀ p ∈ [[], (str!" x"), (str!" Anexo "), (str!" int "), (str!"#"), (str!" int. ")],
      ∃ x ∈ formatLabels, 9 ≤ x.2 ∧ (if p ≠ [] then p else str!" ext. ") = x.1 := by decide
    exact key _ hends.2
  refine ⟨x, hx, hx9, ?_⟩
  have e1 : format Data.container n .national = formatNsn (nsnOf n) (some m) .national [] ++ (x.1 ++ n.ext) := by
    simp only [format, if_neg hraw, formatCore, reduceCtorEq, if_false, hcc, Bool.not_true, Bool.false_eq_true, hm, prefixWithCC,
      appendExtension, hne, hxe, List.append_assoc]
  have e2 : format Data.container { n with extension := none } .national = formatNsn (nsnOf n) (some m) .national [] := by
    have hraw' : ¬ (({ n with extension := none } : PhoneNumber).nn = 0 ∧ ({ n with extension := none } : PhoneNumber).raw ≠ []) := hraw
    have hcc' : Data.container.hasCC ({ n with extension := none } : PhoneNumber).cc = true := hcc
    have hm' : Data.container.metaFor ({ n with extension := none } : PhoneNumber).cc
        (Data.container.mainRegion ({ n with extension := none } : PhoneNumber).cc) = some m := hm
    simp only [format, if_neg hraw', formatCore, reduceCtorEq, if_false, hcc', Bool.not_true, Bool.false_eq_true, hm', prefixWithCC,
      appendExtension]
    rfl
  rw [e1, e2]

/-- The digits of the NATIONAL form of a number and its extension begin with the national prefix, if one is asked for. -/
theorem national_ext_prefix (n : PhoneNumber) (r : Str) (hv : isValidForRegion Data.container n r = .ok true) (hr : r ≠ str!"001")
    (hu : r ∉ natUnsettled) (h0 : n.nn ≠ 0) (hext : n.ext = []) (ext : Str) (he1 : 1 ≤ ext.length) (he2 : ext.length ≤ 20)
    (he3 : ∀ u ∈ ext, isDig u = true) :
    ∀ m, Data.container.metaForRegion (Data.container.mainRegion n.cc) = some m → ∀ p, chooseFormat m.formats (nsnOf n) = some p →
      asksPrefix p = true → (stripNationalPrefix ((format Data.container n .national).filter isDig ++ ext) m).1 = true := by
  obtain ⟨hval, m, M, rs, hm, hm', hmc, hk, hmem, hrs, hM, hM'⟩ := validFor_parts n r hv hr
  have hraw : ¬ (n.nn = 0 ∧ n.raw ≠ []) := fun h => h0 h.1
  have hcc := regionsOf_hasCC hmem
  have hentry := regionsOf_entry hmem
  have hok : nationalOk M m = true := by
    have h := List.all_eq_true.1 nationalsOk_shipped _ hentry
    rw [hrs] at h
    simp only [hM', List.all_eq_true] at h
    have h := h r (by rw [← hrs]; exact hmem)
    simpa [hm', hu] using h
  have hloc : ∀ p ∈ M.formats, asksPrefix p = true → takenWith M m p = true := by
    have h := List.all_eq_true.1 localsExtOk_shipped _ hentry
    rw [hrs] at h
    simp only [hM', List.all_eq_true] at h
    have h := h r (by rw [← hrs]; exact hmem)
    simp only [hm', decide_eq_true_eq, hu, decide_false, Bool.false_or, List.all_eq_true] at h
    intro p hp hask
    have h := h p hp
    simpa [hask] using h
  have hdig := nsnOf_isDig n
  have hfmt : format Data.container n .national = formatNsn (nsnOf n) (some M) .national [] := by
    simp only [format, if_neg hraw, formatCore, reduceCtorEq, if_false, hcc, Bool.not_true, Bool.false_eq_true, hM, prefixWithCC,
      appendExtension, hext]
    simp
  have hMr : ∀ m', Data.container.metaForRegion (Data.container.mainRegion n.cc) = some m' → m' = M := by
    intro m' h
    simp only [Container.metaForRegion] at h
    rw [hM'] at h
    split at h
    · exact (Option.some.inj h).symm
    · cases h
  intro m' h' p hp hask
  cases hMr m' h'
  rw [hfmt]
  unfold formatNsn
  simp only [or_true, if_true, hp]
  obtain ⟨h4, h5⟩ := chooseFormat_acc _ _ _ hp
  have h := hok
  simp only [nationalOk, Bool.and_eq_true, List.all_eq_true] at h
  obtain ⟨h6, -⟩ := h.2 p h4
  obtain ⟨-, -, -, k4⟩ := natRule_text h6 hdig h5
  rw [k4, List.append_assoc]
  exact takenWith_sound (hloc p h4 hask) (by rw [nsnOf_eq]; simp [dec_ne_nil]) hdig hk (chooseFormat_lang hp) he1 he2 he3

/-- How the NATIONAL form of a number with an extension is written, parsed and checked. -/
theorem national_ext_mention (n : PhoneNumber) (r : Str) (hv : isValidForRegion Data.container n r = .ok true) (hr : r ≠ str!"001")
    (hu : r ∉ natUnsettled) (hex : ¬ NatAmbiguous n) (h0 : n.nn ≠ 0) (hext : ShortExt n 9) (hne : n.ext ≠ []) (alt : List Metadata) (l : Leniency)
    (hl : l = .possible ∨ l = .valid) :
    ∃ lead pn, LocalExtension lead (format Data.container n .national) n.ext ∧
      parseKeepRaw Data.container (format Data.container n .national) r = .ok (none, pn) ∧
      l.verify Data.container alt pn (format Data.container n .national) = .ok true ∧ pn.cc = n.cc ∧ nsnOf pn = nsnOf n ∧ pn.ext = n.ext := by
  have hraw : ¬ (n.nn = 0 ∧ n.raw ≠ []) := fun h => h0 h.1
  have he1 : 1 ≤ n.ext.length := List.length_pos_iff.2 hne
  have he9 : n.ext.length ≤ 9 := hext.1
  have he3 : ∀ u ∈ n.ext, isDig u = true := fun u hu => by
    have := hext.2 u hu
    rw [show '0'.toNat = 48 from rfl, show '9'.toNat = 57 from rfl] at this
    simpa [isDig] using this
  obtain ⟨junk, t, y, c, hfmt, hj, hsp, hy, -, -, h2, h17, hcore, -⟩ := national_core n r hv hr hu hex hraw hext
  have hmem := (validFor_parts n r hv hr)
  obtain ⟨-, m0, M0, rs, -, -, -, -, hmem, -, -, -⟩ := hmem
  obtain ⟨x, hx, hx9, hf⟩ := national_withExt n (regionsOf_hasCC hmem) h0 hne
  obtain ⟨⟨lead, hw⟩, -⟩ := national_local { n with extension := none } r hv hr hu hex hraw rfl
  have hpre := national_ext_prefix { n with extension := none } r hv hr hu h0 rfl n.ext he1 (by omega) he3
  have hp := parseHelper_core Data.container (format Data.container n .national) r true true {}
  rw [hcore] at hp
  simp only [Refines] at hp
  have hnsn : nsnOf (ParseOut.apply ⟨n.cc, n.ext, nsnOf n, some .defaultCountry, c⟩ (format Data.container n .national) true {}) = nsnOf n :=
    C05_store (nsnOf n) {} (C04_digits n) h2 h17 rfl
  generalize hpn : ParseOut.apply ⟨n.cc, n.ext, nsnOf n, some .defaultCountry, c⟩ (format Data.container n .national) true {} = pn at hp hnsn
  have e1 : pn.cc = n.cc := by rw [← hpn]; rfl
  have e2 : pn.src = .defaultCountry := by rw [← hpn]; rfl
  have e3 : pn.raw = format Data.container n .national := by rw [← hpn]; rfl
  have e4 : pn.ext = n.ext := by
    rw [← hpn]
    show (if n.ext ≠ [] then some n.ext else none).getD [] = n.ext
    rw [if_pos hne]; rfl
  have hval : isValidNumber Data.container pn = .ok true := by
    have : isValidForRegion Data.container pn r = isValidForRegion Data.container n r := by
      unfold isValidForRegion
      rw [e1, hnsn]
    exact (C74_shipped pn).2.2 ⟨r, by rw [this]; exact hv⟩
  have hbase := local_mem hw
  obtain ⟨f1, f2, f3⟩ := extLabels_facts x (formatLabels_ok x hx)
  have hlab := (extLabels_chars x (formatLabels_ok x hx)).2.1
  have hver : l.verify Data.container alt pn (format Data.container n .national) = .ok true := by
    rcases hl with rfl | rfl
    · exact C25_shipped pn hval
    · have hX : onlyValidX Data.container pn (format Data.container n .national) = .ok true := by
        rw [onlyValidX_iff]
        have := exesFit_label (n := pn) (formatLabels_ok x hx) (P := format Data.container { n with extension := none } .national) (fun u hu => by
          have := local_small (hbase u hu)
          have e1 : 'x'.toNat = 120 := rfl
          have e2 : 'X'.toNat = 88 := rfl
          unfold Ex
          omega) (by rw [e4]; exact he3)
        rw [e4, ← hf] at this
        unfold ExesFit at this
        rw [e4] at this ⊢
        exact this
      have hP : nationalPrefixPresent Data.container pn = true := by
        unfold nationalPrefixPresent
        rw [if_neg (fun h => h e2), e1, hnsn, e3]
        split
        · rfl
        · rename_i m hm
          split
          · rfl
          · rename_i p hc
            split
            · rename_i q1
              split
              · rfl
              · rename_i q2
                split
                · rfl
                · rename_i q3
                  have hlabel : normalizeDigitsOnly x.1 = [] := by
                    simp only [normalizeDigitsOnly, normalizeDigits, List.flatMap_eq_nil_iff]
                    intro u hu
                    rw [(hlab u hu).2.2.1]
                    rfl
                  rw [hf, normalizeDigitsOnly_append, normalizeDigitsOnly_append, hlabel, List.nil_append, normalizeDigitsOnly_of_digits he3,
                    normalizeDigitsOnly_tone _ (fun u hu => (hbase u hu).imp id fun h => by
                      have : ∀ u ∈ (str!" -.()"), u ∈ 126 :: gapL := by decide
                      exact this u h)]
                  refine hpre m hm p hc ?_
                  simp only [asksPrefix, Bool.and_eq_true, Bool.not_eq_true', List.isEmpty_eq_false_iff]
                  exact ⟨⟨q1, by simpa using q2⟩, by simpa using q3⟩
            · rfl
      unfold Leniency.verify
      simp only [hval, hX, hP, bind, Except.bind, pure, Except.pure]
      rfl
  refine ⟨lead, pn, ?_, hp, hver, e1, hnsn, e4⟩
  rw [hf]
  exact ⟨_, x, rfl, hw, extLabels_known x (formatLabels_ok x hx), he1, by omega, he3⟩

/-- What is asked of a number that is written into a text which is searched for region `r` at level `lev`: in E164 form it is valid; in
INTERNATIONAL form it is valid and an extension has at most nine digits; in NATIONAL form, at levels POSSIBLE and VALID, it is valid
for the region and an extension has at most nine digits. -/
def Writable (r : Str) (lev : Leniency) (n : PhoneNumber) (f : Fmt) : Prop :=
  n.nn ≠ 0 ∧
  ((f = .e164 ∧ isValidNumber Data.container n = .ok true ∧ ¬ Ambiguous n) ∨
   (f = .international ∧ isValidNumber Data.container n = .ok true ∧ ¬ Ambiguous n ∧ ShortExt n 9) ∨
   (f = .national ∧ (lev = .possible ∨ lev = .valid) ∧ isValidForRegion Data.container n r = .ok true ∧ r ≠ str!"001" ∧ r ∉ natUnsettled ∧
      ¬ NatAmbiguous n ∧ ShortExt n 9))

/-- How a number is written, parsed and checked. -/
theorem mixed_mention (n : PhoneNumber) (f : Fmt) (r : Str) (lev : Leniency) (h : Writable r lev n f) (alt : List Metadata) :
    ∃ lead pn, Writes lead (format Data.container n f) ∧ parseKeepRaw Data.container (format Data.container n f) r = .ok (none, pn) ∧
      lev.verify Data.container alt pn (format Data.container n f) = .ok true ∧ pn.cc = n.cc ∧ nsnOf pn = nsnOf n ∧
      pn.ext = (if f = .e164 then [] else n.ext) ∧ (f ≠ .national → lead = true ∧ (format Data.container n f).head? = some 43) := by
  have hplus : ∀ {s : Str}, WrittenNumber true s → s.head? = some 43 := by
    rintro s ⟨d, l, rfl, -⟩
    rfl
  obtain ⟨h0, ⟨rfl, hv, hex⟩ | ⟨rfl, hv, hex, hext⟩ | ⟨rfl, hl, hv, hr, hu, hex, hext⟩⟩ := h
  · obtain ⟨pn, k1, k2, k3, k4, k5, k6⟩ := e164_mention n hv h0 hex alt r lev
    exact ⟨true, pn, .inl k1, k2, k3, k4, k5, k6, fun _ => ⟨rfl, hplus k1⟩⟩
  · obtain ⟨hcc, h2, h17, hla⟩ := valid_leftAlone n hv hex
    by_cases hne : n.ext = []
    · obtain ⟨l, hf, h1, h3, h4, h5⟩ := international_blocks n hcc h0 hne h17
      rw [hf]
      obtain ⟨pn, k1, k2, k3, k4, k5, k6⟩ := blocks_mention n hv h0 hex hne l h1 h3 h4 alt lev (.inr (.inr (h5 alt))) r
      exact ⟨true, pn, .inl k1, k2, k3, k4, k5, by rw [k6, hne]; rfl, fun _ => ⟨rfl, hplus k1⟩⟩
    · obtain ⟨l, x, hx, hx9, hf, h1, h3, h4, h5⟩ := international_blocks_ext n hcc h0 hne h17
      rw [hf]
      obtain ⟨pn, k1, k2, k3, k4, k5, k6⟩ := blocks_ext_mention n hv h0 hex x (formatLabels_ok x hx) (List.length_pos_iff.2 hne)
        (Nat.le_trans hext.1 hx9) (fun u hu => by
          have := hext.2 u hu
          rw [show '0'.toNat = 48 from rfl, show '9'.toNat = 57 from rfl] at this
          simpa [isDig] using this) l h1 h3 h4 alt lev (.inr (.inr (h5 alt))) r
      refine ⟨true, pn, .inr (.inl ⟨_, k1⟩), k2, k3, k4, k5, k6, fun _ => ⟨rfl, ?_⟩⟩
      obtain ⟨t, e⟩ := ext_plus k1
      rw [e]; rfl
  · by_cases hne : n.ext = []
    · obtain ⟨lead, pn, k1, k2, k3, k4, k5, k6⟩ := national_mention n r hv hr hu hex h0 hne alt lev hl
      exact ⟨lead, pn, .inr (.inr (.inl k1)), k2, k3, k4, k5, by rw [k6, hne]; rfl, fun h => absurd rfl h⟩
    · obtain ⟨lead, pn, k1, k2, k3, k4, k5, k6⟩ := national_ext_mention n r hv hr hu hex h0 hext hne alt lev hl
      exact ⟨lead, pn, .inr (.inr (.inr ⟨_, k1⟩)), k2, k3, k4, k5, k6, fun h => absurd rfl h⟩

/-- The form of the number is written, parsed and checked in this way. -/
def Mentioned (alt : List Metadata) (r : Str) (lev : Leniency) (n : PhoneNumber) (f : Fmt) : Prop :=
  ∃ lead pn, Writes lead (format Data.container n f) ∧ parseKeepRaw Data.container (format Data.container n f) r = .ok (none, pn) ∧
    lev.verify Data.container alt pn (format Data.container n f) = .ok true ∧ pn.cc = n.cc ∧ nsnOf pn = nsnOf n ∧
    pn.ext = (if f = .e164 then [] else n.ext) ∧ (f ≠ .national → lead = true ∧ (format Data.container n f).head? = some 43)

theorem mixed_mentions (alt : List Metadata) (r : Str) (lev : Leniency) (rest : Str) (l : Entries)
    (hl : ∀ x ∈ l, Mentioned alt r lev x.2.1 x.2.2) : ∃ L : List Mention, textOf L rest = written Data.container l rest ∧
      L.map (fun x => (x.before, x.raw)) = l.map (fun x => (x.1, format Data.container x.2.1 x.2.2)) ∧
      (∀ x ∈ L, Writes x.plus x.raw ∧ parseKeepRaw Data.container x.raw r = .ok (none, x.number) ∧
        lev.verify Data.container alt x.number x.raw = .ok true ∧ ∃ y ∈ l, y.1 = x.before ∧ (y.2.2 ≠ .national → x.plus = true)) ∧
      (∀ x ∈ L.tail, ∃ y ∈ l.tail, y.1 = x.before ∧ (y.2.2 ≠ .national → x.raw.head? = some 43)) ∧
      ∀ i, (expected i L).map (fun y => (y.1, y.2.1, y.2.2.cc, nsnOf y.2.2, y.2.2.ext)) = placesExt Data.container i l := by
  induction l with
  | nil => exact ⟨[], rfl, rfl, by simp, by simp, fun _ => rfl⟩
  | cons x l ih =>
    obtain ⟨L, k1, k2, k3, k4, k5⟩ := ih fun y hy => hl y (by simp [hy])
    obtain ⟨lead, pn, p1, p2, p3, p4, p5, p6, p7⟩ := hl x (by simp)
    refine ⟨⟨x.1, lead, format Data.container x.2.1 x.2.2, pn⟩ :: L, ?_, ?_, ?_, ?_, ?_⟩
    · simp only [textOf, written, List.flatMap_cons, List.append_assoc] at k1 ⊢
      rw [k1]
    · simp [k2]
    · intro y hy
      rcases List.mem_cons.1 hy with rfl | hy
      · exact ⟨p1, p2, p3, x, by simp, rfl, fun h => (p7 h).1⟩
      · obtain ⟨q1, q2, q3, z, hz, q4⟩ := k3 y hy
        exact ⟨q1, q2, q3, z, by simp [hz], q4⟩
    · intro y hy
      rw [List.tail_cons] at hy ⊢
      have hm : (y.before, y.raw) ∈ l.map (fun x => (x.1, format Data.container x.2.1 x.2.2)) := by
        rw [← k2]; exact List.mem_map.2 ⟨y, hy, rfl⟩
      obtain ⟨z, hz, e⟩ := List.mem_map.1 hm
      simp only [Prod.mk.injEq] at e
      refine ⟨z, hz, e.1, fun h => ?_⟩
      rw [← e.2]
      obtain ⟨_, _, _, _, _, _, _, _, q⟩ := hl z (by simp [hz])
      exact (q h).2
    · intro i
      rw [expected.eq_2, List.map_cons, k5, placesExt.eq_2]
      congr 1
      simp only [Prod.mk.injEq, true_and]
      exact ⟨p4, p5, p6⟩

/-- All the numbers in a text are found. -/
theorem mentions_found (l : Entries) (r : Str) (lev : Leniency) (alt : List Metadata)
    (hl : ∀ x ∈ l, Mentioned alt r lev x.2.1 x.2.2)
    (rest : Str) (hb : ∀ x ∈ l, NoStart x.1) (hr : NoDigit rest)
    (hap : ∀ x ∈ l.tail, x.2.2 = .national → Splits x.1)
    (hs : ∀ x ∈ l.tail, ∀ u, x.1.head? = some u → ¬ Sticky u ∧ u ≠ '#'.toNat) (hs' : ∀ u, rest.head? = some u → ¬ Sticky u ∧ u ≠ '#'.toNat)
    (hn : ∀ x ∈ l, x.2.2 = .national → ∀ u, x.1.getLast? = some u → ¬ Sticky u)
    (maxTries : Int) (hk : 0 < maxTries) :
    ∃ ms c, Finder.findNumbers ⟨Data.container, alt, written Data.container l rest, r, lev⟩ maxTries = .ok (ms, c) ∧
      ms.map (fun m => (m.start (written Data.container l rest), m.raw, m.number.cc, nsnOf m.number, m.number.ext)) =
        placesExt Data.container 0 l := by
  obtain ⟨L, k1, k2, k3, k4, k5⟩ := mixed_mentions alt r lev rest l hl
  obtain ⟨ms, c, h1, h2⟩ := C107_all ⟨Data.container, alt, written Data.container l rest, r, lev⟩ L rest k1.symm
    ⟨fun x hx => by
        obtain ⟨q1, -, -, y, hy, e, -⟩ := k3 x hx
        exact ⟨by rw [← e]; exact hb y hy, q1⟩,
      fun x hx => by
        obtain ⟨y, hy, e, q⟩ := k4 x hx
        by_cases hf : y.2.2 = .national
        · exact .inr (by rw [← e]; exact hap y hy hf)
        · exact .inl (q hf)⟩ hr
    ⟨fun x hx h => by
        obtain ⟨y, hy, e, -⟩ := k4 x hx
        rw [← e] at h
        exact (hs y hy _ h).2 rfl, fun h => (hs' _ h).2 rfl⟩
    (fun _ => ⟨fun x hx h u hu => by
        obtain ⟨-, -, -, y, hy, e, q⟩ := k3 x hx
        rw [← e] at hu
        refine hn y hy ?_ u hu
        by_cases hf : y.2.2 = .national
        · exact hf
        · exact absurd (q hf) (by rw [h]; decide),
      fun x hx u hu => by
        obtain ⟨y, hy, e, -⟩ := k4 x hx
        rw [← e] at hu
        exact (hs y hy u hu).1, fun u hu => (hs' u hu).1⟩)
    (fun x hx => ⟨(k3 x hx).2.1, (k3 x hx).2.2.1⟩) maxTries hk
  refine ⟨ms, c, h1, ?_⟩
  rw [← k5 0, ← h2, List.map_map]
  rfl

/-- With the shipped data: write any number of numbers into a text that otherwise has no digits (before the last number also no opening
brackets and plus signs), each in E164 form, in INTERNATIONAL form or in the NATIONAL form of the region the text is searched for, the
latter two perhaps with an extension.  The search returns all of them at their places, in their order, and nothing else, and what it returns has
the same country codes, national significant numbers and extensions.  A NATIONAL form must stand apart from the number before it.
The texts after the numbers must not start with a Latin letter, a currency sign, a percent sign or `#`, and the texts before a
NATIONAL form must not end with one of the former. -/
theorem C107_forms (l : Entries) (r : Str) (lev : Leniency) (hl : ∀ x ∈ l, Writable r lev x.2.1 x.2.2)
    (rest : Str) (hb : ∀ x ∈ l, NoStart x.1) (hr : NoDigit rest)
    (hap : ∀ x ∈ l.tail, x.2.2 = .national → Splits x.1)
    (hs : ∀ x ∈ l.tail, ∀ u, x.1.head? = some u → ¬ Sticky u ∧ u ≠ '#'.toNat) (hs' : ∀ u, rest.head? = some u → ¬ Sticky u ∧ u ≠ '#'.toNat)
    (hn : ∀ x ∈ l, x.2.2 = .national → ∀ u, x.1.getLast? = some u → ¬ Sticky u)
    (alt : List Metadata) (maxTries : Int) (hk : 0 < maxTries) :
    ∃ ms c, Finder.findNumbers ⟨Data.container, alt, written Data.container l rest, r, lev⟩ maxTries = .ok (ms, c) ∧
      ms.map (fun m => (m.start (written Data.container l rest), m.raw, m.number.cc, nsnOf m.number, m.number.ext)) =
        placesExt Data.container 0 l := by
  exact mentions_found l r lev alt (fun x hx => mixed_mention x.2.1 x.2.2 r lev (hl x hx) alt) rest hb hr hap hs hs' hn maxTries hk

/-! ## Cases -/

/-- A number in Mountain View. -/
def officeUS : PhoneNumber := { countryCode := some 1, nationalNumber := some 6502530000 }

/-- A comma and the word "or" keep numbers apart, a slash and the word "ext" do not. -/
example : Splits (str!", ") ∧ Splits (str!" or ") ∧ ¬ Splits (str!" / ") ∧ ¬ Splits (str!", ext ") := by
  have h1 : ∀ u ∈ (str!" / "), ¬ Wall u := by unfold Wall; decide +kernel
  have h2 : ∀ u ∈ (str!", ext "), ¬ Wall u := by unfold Wall; decide +kernel
  refine ⟨.inr ⟨⟨44, by decide, by decide⟩, by decide⟩, .inl ⟨'r'.toNat, by decide, by unfold Wall; decide +kernel⟩, ?_, ?_⟩
  · rintro (⟨u, hu, hw⟩ | ⟨⟨u, hu, hs⟩, -⟩)
    · exact h1 u hu hw
    · revert u; decide
  · rintro (⟨u, hu, hw⟩ | ⟨-, h⟩)
    · exact h2 u hu hw
    · revert h; decide

example : Writable (str!"US") .valid officeUS .national ∧ Writable (str!"US") .valid officeExt .international ∧
    Writable (str!"GB") .valid officeExt .national :=
  ⟨⟨by decide, .inr (.inr ⟨rfl, .inr rfl, by kernel_rfl, by decide, by decide, by decide +kernel, by unfold ShortExt; decide⟩)⟩,
    ⟨by decide, .inr (.inl ⟨rfl, by kernel_rfl, by decide +kernel, by unfold ShortExt; decide⟩)⟩,
    by decide, .inr (.inr ⟨rfl, .inr rfl, by kernel_rfl, by decide, by decide, by decide +kernel, by unfold ShortExt; decide⟩)⟩

/-- Three numbers in three forms. -/
def threeForms : Entries := [((str!"Tel. "), officeExt, .international), ((str!", "), officeUS, .national), ((str!" or "), officeUS, .e164)]

example : written Data.container threeForms (str!".") = str!"Tel. +44 20 8765 4321 x456, (650) 253-0000 or +16502530000." := by kernel_rfl

example : placesExt Data.container 0 threeForms =
    [(5, (str!"+44 20 8765 4321 x456"), 44, (str!"2087654321"), (str!"456")), (28, (str!"(650) 253-0000"), 1, (str!"6502530000"), []),
     (46, (str!"+16502530000"), 1, (str!"6502530000"), [])] := by kernel_rfl

noncomputable def C107_case : Finder := ⟨Data.container, Data.alt, written Data.container threeForms (str!"."), (str!"US"), .valid⟩

example : ((C107_case.findNumbers 1).toOption.map fun r => r.1.map fun m => (m.at_, m.raw, m.number.ext)) =
    some [(5, (str!"+44 20 8765 4321 x456"), (str!"456")), (28, (str!"(650) 253-0000"), []), (46, (str!"+16502530000"), [])] := by kernel_rfl

/-- A number with an extension as it is written within its country. -/
noncomputable def C107_local : Finder :=
  ⟨Data.container, Data.alt, written Data.container [((str!"Tel. "), officeExt, .national)] (str!"."), (str!"GB"), .valid⟩

example : C107_local.text = (str!"Tel. 020 8765 4321 x456.") ∧
    ((C107_local.findNumbers 1).toOption.map fun r => r.1.map fun m => (m.at_, m.raw, m.number.ext)) =
      some [(5, (str!"020 8765 4321 x456"), (str!"456"))] := ⟨by kernel_rfl, by kernel_rfl⟩

end Verif.Props
