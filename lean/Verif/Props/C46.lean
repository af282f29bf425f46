import Verif.Lemmas.Mapper
import Verif.Data.Zones
import Verif.Props.C15
import Verif.Props.C26
import Verif.Props.C30
import Verif.Props.C44
/-!
# C46: time zone lookup uses the longest prefix and is never empty
-/
namespace Verif
open Spec

theorem lookupTimeZones_digits (M : Loaded (List Bytes)) {ds : Str} (hd : AllDigits ds) (h18 : M.maxLength ≤ 18) {s : Str}
    (hs : s = ds ∨ s = '+'.toNat :: ds) :
    lookupTimeZones (some M) s = some (match down M.map ds (min M.maxLength ds.length) with | some (_, v) => v | none => [unknownZone]) := by
  have hdig := allDig_of hd
  have hdrop : s.dropWhile (· == 43) = ds := by
    have : ds.dropWhile (· == 43) = ds := by
      cases ds with
      | nil => rfl
      | cons u t =>
        have := hdig u (by simp)
        rw [List.dropWhile_cons_of_neg]
        intro h
        simp only [beq_iff_eq] at h
        subst h; simp [isDig] at this
    rcases hs with rfl | rfl
    · exact this
    · rw [List.dropWhile_cons_of_pos (by decide), this]
  simp only [lookupTimeZones, hdrop, blen_digits hdig]
  rw [Nat.min_comm]
  exact zonesLoop_down hdig (Nat.min_le_right _ _) (by omega)

end Verif

namespace Verif.Props
open Verif Spec

/-- The lookup of a digit string, with or without plus sign, in a loaded map. -/
theorem C46_lookup (M : Loaded (List Bytes)) (hk : (M.map.map (·.1)).Nodup) (h18 : M.maxLength ≤ 18) (ds : Str) (hd : AllDigits ds)
    (s : Str) (hs : s = ds ∨ s = '+'.toNat :: ds) :
    ∃ zs, lookupTimeZones (some M) s = some zs ∧ ZonesOf M.map ds M.maxLength zs := by
  rw [lookupTimeZones_digits M hd h18 hs]
  have h := down_spec hk hd (min M.maxLength ds.length) (Nat.min_le_right _ _)
  cases hc : down M.map ds (min M.maxLength ds.length) with
  | none => exact ⟨_, rfl, .inr ⟨NoPrefix.widen (h.2 hc), rfl⟩⟩
  | some jv =>
    obtain ⟨j, v⟩ := jv
    exact ⟨v, rfl, .inl ⟨_, _, (h.1 j v hc).2.2.widen⟩⟩

/-- A number is geographical: a fixed line, or a mobile in one of five countries. -/
def Geographical (t : NumType) (cc : Int) : Prop :=
  t = .fixedLine ∨ t = .fixedLineOrMobile ∨ (t = .mobile ∧ cc ∈ [52, 54, 55, 62, 86])

theorem geographical_iff (t : NumType) (cc : Int) : isGeographicalForType t cc = true ↔ Geographical t cc := by
  simp [isGeographicalForType, Geographical, geoMobileCountries, or_assoc, and_comm]

/-- `GetTimeZonesForNumber` for every map, every metadata and every message with a non-negative country code that is not (national
number 0 with raw input): unknown type gives "Etc/Unknown" alone, geographical numbers are looked up by all their digits, others
by the country code. -/
theorem C46_number (C : Container) (M : Loaded (List Bytes)) (hk : (M.map.map (·.1)).Nodup) (h18 : M.maxLength ≤ 18) (n : PhoneNumber)
    (t : NumType) (ht : numberType C n = .ok t) (hcc : 0 ≤ n.cc) (hraw : ¬ (n.nn = 0 ∧ n.raw ≠ [])) :
    ∃ zs, timeZonesForNumber C (some M) n = .ok (some zs) ∧
      (t = .unknown → zs = [str!"Etc/Unknown"]) ∧
      (t ≠ .unknown → Geographical t n.cc → ZonesOf M.map (decimal n.cc.toNat ++ nsnOf n) M.maxLength zs) ∧
      (t ≠ .unknown → ¬ Geographical t n.cc → ZonesOf M.map (decimal n.cc.toNat) M.maxLength zs) := by
  simp only [timeZonesForNumber, ht, bind, Except.bind, pure, Except.pure]
  by_cases hu : t = .unknown
  · exact ⟨[unknownZone], by rw [if_pos hu], fun _ => rfl, fun h => absurd hu h, fun h => absurd hu h⟩
  · rw [if_neg hu]
    by_cases hg : Geographical t n.cc
    · rw [(geographical_iff t n.cc).2 hg]
      have hd : AllDigits (decimal n.cc.toNat ++ nsnOf n) := by
        obtain ⟨d, h1, h2, _⟩ := C15_only_digits C n hcc hraw
        rw [C15_shape C n hcc hraw] at h1
        rw [(List.cons.inj h1).2]; exact h2
      obtain ⟨zs, h1, h2⟩ := C46_lookup M hk h18 _ hd _ (.inr rfl)
      refine ⟨zs, ?_, fun h => absurd h hu, fun _ _ => h2, fun _ h => absurd hg h⟩
      simp only [Bool.not_true, Bool.false_eq_true, if_false, timeZonesForGeographical, C15_shape C n hcc hraw, h1]
    · have hb : isGeographicalForType t n.cc = false := by
        rw [← Bool.not_eq_true, geographical_iff]; exact hg
      have hd : AllDigits (decimal n.cc.toNat) := by
        intro u h; rw [← dec_eq_decimal] at h; exact (isDig_iff u).1 (dec_digits _ u h)
      obtain ⟨zs, h1, h2⟩ := C46_lookup M hk h18 _ hd (decimal n.cc.toNat) (.inl rfl)
      refine ⟨zs, ?_, fun h => absurd h hu, fun _ h => absurd h hg, fun _ _ => h2⟩
      simp only [hb, Bool.not_false, if_true, decInt_nonneg hcc]
      rw [h1]

/-- A number of zeros is not geographical under a metadata entry that passes the check. -/
theorem zeros_not_geographical {m : Metadata} (h : zerosOk m = true) (hl : hasGeneralLengths m = true) {z : Nat} {t : NumType}
    (ht : HasType (List.replicate z 48) m t) : ¬ Geographical t m.countryCode := by
  intro hg
  unfold zerosOk at h
  split at h
  case h_2 => cases h
  case h_1 g f mo hgen hfix hmob =>
    have key : Matches (List.replicate z 48) m.general → ¬ Matches (List.replicate z 48) m.fixedLine ∧
        (Matches (List.replicate z 48) m.mobile → m.countryCode ∉ [52, 54, 55, 62, 86]) := by
      rintro ⟨x, hx, h1, _⟩
      rw [hgen] at hx; cases hx
      have hne : g.lengths ≠ [] := by simpa [hasGeneralLengths, hgen] using hl
      rcases h1 with h1 | h1
      · exact absurd h1 hne
      · rw [List.length_replicate] at h1
        have h2 := List.all_eq_true.1 h _ h1
        simp only [Int.toNat_natCast, Bool.and_eq_true, Bool.not_eq_true', Bool.or_eq_true] at h2
        refine ⟨?_, ?_⟩
        · rintro ⟨y, hy, _, hy2⟩
          rw [hfix] at hy; cases hy
          rw [← full_isMatch_iff] at hy2
          rw [h2.1] at hy2; cases hy2
        · rintro ⟨y, hy, _, hy2⟩ hc
          rw [hmob] at hy; cases hy
          rw [← full_isMatch_iff] at hy2
          rcases h2.2 with h3 | h3
          · simp only [List.mem_cons, List.not_mem_nil, or_false] at hc
            rcases hc with hc | hc | hc | hc | hc <;> simp [hc, geoMobileCountries] at h3
          · rw [h3] at hy2; cases hy2
    cases ht with
    | notGeneral h => rcases hg with h | h | ⟨h, _⟩ <;> cases h
    | @special pre post d t hg' hs hd hpre =>
      have hm : (d, t) ∈ specialKinds m := by rw [hs]; exact List.mem_append_right _ List.mem_cons_self
      simp only [specialKinds, List.mem_cons, Prod.mk.injEq, List.not_mem_nil, or_false] at hm
      rcases hm with ⟨_, rfl⟩ | ⟨_, rfl⟩ | ⟨_, rfl⟩ | ⟨_, rfl⟩ | ⟨_, rfl⟩ | ⟨_, rfl⟩ | ⟨_, rfl⟩ | ⟨_, rfl⟩ <;>
        (rcases hg with h | h | ⟨h, _⟩ <;> cases h)
    | both hg' hs hf hm => exact (key hg').1 hf
    | fixed hg' hs hf _ hm => exact (key hg').1 hf
    | mobile hg' hs hf _ hm =>
      rcases hg with h | h | ⟨_, h⟩
      · cases h
      · cases h
      · exact (key hg').2 hm h
    | neither hg' hs hf hm => rcases hg with h | h | ⟨h, _⟩ <;> cases h

theorem nsnOf_zero {n : PhoneNumber} (h : n.nn = 0) : ∃ z, nsnOf n = List.replicate z 48 := by
  unfold nsnOf
  rw [h, show dec 0 = [48] from rfl]
  split
  · exact ⟨_, by rw [← List.replicate_one (a := 48), List.replicate_append_replicate]⟩
  · exact ⟨1, rfl⟩

/-- The shipped file: it loads, with nine digits as longest key, and for **every** message the answer is a non-empty list: "Etc/Unknown"
alone for an unknown type, and otherwise the zones of the longest of all prefixes in the file (of the whole number if it is
geographical, of the country code if not), or "Etc/Unknown" alone if no prefix is in the file. -/
theorem C46_shipped (dc : Int → Nat) (hdc : LogLike dc) :
    ∃ M, loadIntArrayMap dc Data.tzRaw = .ok M ∧ M.maxLength = 9 ∧ (M.map.map (·.1)).Nodup ∧ (∀ e ∈ M.map, e.2 ≠ []) ∧
      ∀ n : PhoneNumber, ∃ t zs, numberType Data.container n = .ok t ∧ timeZonesForNumber Data.container (some M) n = .ok (some zs) ∧
        zs ≠ [] ∧ (t = .unknown → zs = [str!"Etc/Unknown"]) ∧
        (t ≠ .unknown → Geographical t n.cc → ZonesOf M.map (decimal n.cc.toNat ++ nsnOf n) (decimal n.cc.toNat ++ nsnOf n).length zs) ∧
        (t ≠ .unknown → ¬ Geographical t n.cc → ZonesOf M.map (decimal n.cc.toNat) (decimal n.cc.toNat).length zs) := by
  obtain ⟨ps, values, hload, hps⟩ := walkFile_spec dc (by decide) Data.wf_tz
  have hmax : (ps.map fun e => dc e.1).foldl max 0 = 9 := by
    obtain ⟨h1, h2, h3⟩ := foldl_max (ps.map fun e => dc e.1) 0
    have hle : ∀ e ∈ ps, dc e.1 ≤ 9 := by
      intro e he
      have hr := hps.range e he
      obtain ⟨k, hk⟩ := Int.eq_ofNat_of_zero_le (show 0 ≤ e.1 by omega)
      rw [hk] at hr ⊢
      have hk9 : k < 10 ^ 9 := by have := hr.2; omega
      have hlen : (decimal k).length ≤ 9 := by rw [← dec_eq_decimal]; exact (length_dec_le (by omega)).2 hk9
      rcases hdc k hk9 with h | ⟨x, hx, h⟩
      · omega
      · rw [h]
        have : 10 ^ x < 10 ^ 9 := hx ▸ hk9
        have := (Nat.pow_lt_pow_iff_right (by omega)).1 this
        omega
    obtain ⟨e, he, hlow⟩ : ∃ e ∈ ps, ((10 ^ 8 : Nat) : Int) < e.1 := by
      rcases hps.high with h | h
      · simp at h
      · exact h
    have hr := hps.range e he
    obtain ⟨k, hk⟩ := Int.eq_ofNat_of_zero_le (show 0 ≤ e.1 by omega)
    have hk8 : 10 ^ 8 < k := by rw [hk] at hlow; omega
    have hk9 : k < 10 ^ 9 := by have := hr.2; rw [hk] at this; omega
    have h9 : dc e.1 = 9 := by
      rw [hk]
      rcases hdc k hk9 with h | ⟨x, hx, h⟩
      · rw [h, ← dec_eq_decimal]
        have h4 : (dec k).length ≤ 9 := (length_dec_le (by omega)).2 hk9
        have h5 : ¬ (dec k).length ≤ 8 := fun h => by have := (length_dec_le (by omega)).1 h; omega
        omega
      · have h4 : 8 < x := (Nat.pow_lt_pow_iff_right (a := 10) (by omega)).1 (hx ▸ hk8)
        have h5 : x < 9 := (Nat.pow_lt_pow_iff_right (a := 10) (by omega)).1 (hx ▸ hk9)
        omega
    have hle' : (ps.map fun e => dc e.1).foldl max 0 ≤ 9 := by
      rcases h3 with h3 | h3
      · omega
      · obtain ⟨e', he', h4⟩ := List.mem_map.1 h3
        rw [← h4]; exact hle e' he'
    have := h2 _ (List.mem_map.2 ⟨e, he, rfl⟩)
    omega
  rw [hmax] at hload
  have hk : ((ps.reverse).map (·.1)).Nodup := by
    rw [List.map_reverse]
    exact (List.reverse_perm _).nodup_iff.2 (hps.increasing.imp (fun h he => by omega))
  refine ⟨_, hload, rfl, hk, fun e he => hps.nonEmpty e (by simpa using he), ?_⟩
  have hkeys : ∀ e ∈ ps.reverse, e.1 < 10 ^ 9 := fun e he => (hps.range e (by simpa using he)).2
  have nonempty : ∀ {ds limit zs}, ZonesOf ps.reverse ds limit zs → zs ≠ [] := by
    rintro ds limit zs (⟨p, k, h⟩ | ⟨_, rfl⟩)
    · exact hps.nonEmpty _ (by simpa using h.value)
    · simp
  have head : ∀ (c : Nat) (s : Str), c ≠ 0 → (decimal c ++ s).head? ≠ some '0'.toNat := by
    intro c s hc
    rw [← dec_eq_decimal, head?_append' _ _ (dec_ne_nil c)]
    exact dec_head c hc
  have unl : ∀ {ds : Str} {zs}, ds.head? ≠ some '0'.toNat → ZonesOf ps.reverse ds 9 zs → ZonesOf ps.reverse ds ds.length zs := by
    rintro ds zs h0 (⟨p, k, h⟩ | ⟨h, h'⟩)
    · exact .inl ⟨p, k, h.unlimited hkeys h0⟩
    · exact .inr ⟨NoPrefix.unlimited (by omega) hkeys h0 h, h'⟩
  intro n
  obtain ⟨_, t, _, ht, _⟩ := C26_shipped n
  by_cases hu : t = .unknown
  · refine ⟨t, [str!"Etc/Unknown"], ht, ?_, by simp, fun _ => rfl, fun h => absurd hu h, fun h => absurd hu h⟩
    simp only [timeZonesForNumber, ht, bind, Except.bind, pure, Except.pure, if_pos hu, unknownZone]
  · rcases regionForNumber_cases built_shipped Data.wf_tables Data.wf_allDescs n with hr | ⟨r, m, hr, hmem, hm, hmc, _⟩
    · have := (C30_number _ n [] hr Data.wf_allDescs t).1 ht
      rw [metaFor_nil] at this
      exact absurd this hu
    · have hpos : 0 < n.cc := cc_pos hmem
      have hty := (C30_number _ n r hr Data.wf_allDescs t).1 ht
      rw [hm] at hty
      simp only at hty
      have hc0 : n.cc.toNat ≠ 0 := by omega
      by_cases hraw : n.nn = 0 ∧ n.raw ≠ []
      · obtain ⟨z, hz⟩ := nsnOf_zero hraw.1
        rw [hz] at hty
        have hmm := Container.metaFor_mem hm
        have hng := zeros_not_geographical (List.all_eq_true.1 Data.wf_zeroNumbers m hmm) (List.all_eq_true.1 Data.wf_generalLengths m hmm) hty
        rw [hmc] at hng
        have hd : AllDigits (decimal n.cc.toNat) := by
          intro u h; rw [← dec_eq_decimal] at h; exact (isDig_iff u).1 (dec_digits _ u h)
        obtain ⟨zs, h1, h2⟩ := C46_lookup ⟨ps.reverse, 9⟩ hk (by show 9 ≤ 18; omega) _ hd (decimal n.cc.toNat) (.inl rfl)
        have hb : isGeographicalForType t n.cc = false := by rw [← Bool.not_eq_true, geographical_iff]; exact hng
        refine ⟨t, zs, ht, ?_, nonempty h2, fun h => absurd h hu, fun _ h => absurd h hng, fun _ _ => ?_⟩
        · simp only [timeZonesForNumber, ht, bind, Except.bind, pure, Except.pure, if_neg hu, hb, Bool.not_false, if_true, decInt_nonneg (Int.le_of_lt hpos)]
          rw [h1]
        · exact unl (by have := head n.cc.toNat [] hc0; rwa [List.append_nil] at this) h2
      · obtain ⟨zs, h1, h2, h3, h4⟩ := C46_number Data.container ⟨ps.reverse, 9⟩ hk (by show 9 ≤ 18; omega) n t ht (Int.le_of_lt hpos) hraw
        refine ⟨t, zs, ht, h1, ?_, h2, fun a b => unl (head _ _ hc0) (h3 a b), fun a b => ?_⟩
        · by_cases hg : Geographical t n.cc
          · exact nonempty (h3 hu hg)
          · exact nonempty (h4 hu hg)
        · exact unl (by have := head n.cc.toNat [] hc0; rwa [List.append_nil] at this) (h4 a b)

/-- The rounding matters: if `digitCount` of the only key 1000 is 3 instead of 4 (as `math.Log10(1000) < 3` in floating point
implies), the zones of that key are never found for a number with it as prefix. -/
theorem C46_rounding (dc : Int → Nat) (h : dc 1000 = 3) : ∃ raw M, renderMap [(1000, [str!"Etc/UTC"])] = .ok raw ∧
    loadIntArrayMap dc raw = .ok M ∧ lookupTimeZones (some M) (str!"+10005550000") = some [str!"Etc/Unknown"] := by
  obtain ⟨raw, M, h1, h2, h3, h4⟩ := C44_array dc [(1000, [str!"Etc/UTC"])] ⟨by decide, by decide, by decide⟩
    ⟨by decide, ⟨[str!"Etc/UTC"], by decide, by decide⟩, by decide⟩ (by decide)
  have hmax : M.maxLength = 3 := by
    have ha := h4.1 1000 (by simp)
    rcases h4.2 with hb | ⟨k, hk, hb⟩
    · omega
    · simp at hk; subst hk; omega
  refine ⟨raw, M, h1, h2, ?_⟩
  have hd : AllDigits (str!"10005550000") := by decide
  rw [lookupTimeZones_digits M hd (by omega) (s := str!"+10005550000") (.inr rfl), hmax]
  have hg : ∀ k : Int, k ≠ 1000 → mapGet M.map k = none := by
    intro k hk; rw [h3 k]; simp [mapGet]; omega
  have e3 : mapGet M.map ((digVal ((str!"10005550000").take 3) : Nat) : Int) = none := hg _ (by decide)
  have e2 : mapGet M.map ((digVal ((str!"10005550000").take 2) : Nat) : Int) = none := hg _ (by decide)
  have e1 : mapGet M.map ((digVal ((str!"10005550000").take 1) : Nat) : Int) = none := hg _ (by decide)
  have : down M.map (str!"10005550000") 3 = none := by simp only [down, e3, e2, e1]
  rw [show min 3 (List.length (str!"10005550000")) = 3 from rfl, this]
  rfl

/-- The exact digit count satisfies the assumption. -/
example : LogLike (fun k => (decimal k.toNat).length) := fun k _ => .inl (by simp)

example : numberType Data.container { countryCode := some 41, nationalNumber := some 446681800 } = .ok .fixedLine ∧ Geographical .fixedLine 41 :=
  ⟨by kernel_rfl, .inl rfl⟩

end Verif.Props
