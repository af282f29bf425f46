import Verif.Lemmas.Regions
import Verif.Data.SharedCodes
import Verif.Props.C27
/-!
# C74: the region of a number is the first that claims it; a number valid in some region is valid
-/
namespace Verif.Props
open Spec

theorem regionFromList_iff {C : Container} (hd : C.allMeta.all hasAllDescs = true) {nsn : Str} (hn : ∀ u ∈ nsn, isDig u = true)
    {rs : List Str} (hrs : ∀ r ∈ rs, ∃ m, C.metaForRegion r = some m) :
    (∃ pre r post m, rs = pre ++ r :: post ∧ C.metaForRegion r = some m ∧ Claims nsn m ∧
      (∀ q ∈ pre, ∀ m, C.metaForRegion q = some m → ¬ Claims nsn m) ∧ regionFromList C nsn rs = .ok r) ∨
    ((∀ q ∈ rs, ∀ m, C.metaForRegion q = some m → ¬ Claims nsn m) ∧ regionFromList C nsn rs = .ok []) := by
  induction rs with
  | nil => exact .inr ⟨by simp, rfl⟩
  | cons a rs ih =>
    obtain ⟨m, hm⟩ := hrs a (by simp)
    obtain ⟨h1, h2⟩ := regionFromList_cons (rs := rs) hd hn hm
    by_cases hc : Claims nsn m
    · exact .inl ⟨[], a, rs, m, rfl, hm, hc, by simp, h1 hc⟩
    · have ha : ∀ m', C.metaForRegion a = some m' → ¬ Claims nsn m' := fun m' h => by rw [hm] at h; cases h; exact hc
      rcases ih (fun r hr => hrs r (List.mem_cons_of_mem _ hr)) with ⟨pre, r, post, m', rfl, k1, k2, k3, k4⟩ | ⟨k1, k2⟩
      · refine .inl ⟨a :: pre, r, post, m', rfl, k1, k2, ?_, (h2 hc).trans k4⟩
        intro q hq
        rcases List.mem_cons.1 hq with rfl | hq
        · exact ha
        · exact k3 q hq
      · refine .inr ⟨?_, (h2 hc).trans k2⟩
        intro q hq
        rcases List.mem_cons.1 hq with rfl | hq
        · exact ha
        · exact k1 q hq

theorem regionFromList_first {C : Container} (hd : C.allMeta.all hasAllDescs = true) {nsn : Str} (hn : ∀ u ∈ nsn, isDig u = true)
    {pre post : List Str} {r : Str} {m : Metadata} (hrs : ∀ q ∈ pre, ∃ m, C.metaForRegion q = some m) (hm : C.metaForRegion r = some m)
    (hc : Claims nsn m) (hpre : ∀ q ∈ pre, ∀ m, C.metaForRegion q = some m → ¬ Claims nsn m) :
    regionFromList C nsn (pre ++ r :: post) = .ok r := by
  induction pre with
  | nil => exact (regionFromList_cons hd hn hm).1 hc
  | cons a pre ih =>
    obtain ⟨m', hm'⟩ := hrs a (by simp)
    rw [List.cons_append, (regionFromList_cons hd hn hm').2 (hpre a (by simp) m' hm')]
    exact ih (fun q hq => hrs q (by simp [hq])) (fun q hq => hpre q (by simp [hq]))

theorem regionFromList_none {C : Container} (hd : C.allMeta.all hasAllDescs = true) {nsn : Str} (hn : ∀ u ∈ nsn, isDig u = true)
    {rs : List Str} (hrs : ∀ q ∈ rs, ∃ m, C.metaForRegion q = some m)
    (h : ∀ q ∈ rs, ∀ m, C.metaForRegion q = some m → ¬ Claims nsn m) : regionFromList C nsn rs = .ok [] := by
  induction rs with
  | nil => rfl
  | cons a rs ih =>
    obtain ⟨m', hm'⟩ := hrs a (by simp)
    rw [(regionFromList_cons hd hn hm').2 (h a (by simp) m' hm')]
    exact ih (fun q hq => hrs q (by simp [hq])) (fun q hq => h q (by simp [hq]))

theorem shared_meta {C : Container} (hb : Built C) (ht : tablesOk C = true) {cc : Int} (h : 1 < (C.regionsOf cc).length) :
    ∀ r ∈ C.regionsOf cc, ∃ m, C.metaForRegion r = some m ∧ mapGet C.regionMeta r = some m := by
  intro r hr
  rcases regionsOf_meta hb ht hr with ⟨_, h2, _⟩ | ⟨_, _, m, h2, h3, _⟩
  · rw [h2] at h; simp at h
  · exact ⟨m, h2, h3⟩

theorem regionForNumber_shared {C : Container} {n : PhoneNumber} (h : 1 < (C.regionsOf n.cc).length) :
    regionForNumber C n = regionFromList C (nsnOf n) (C.regionsOf n.cc) := by
  unfold regionForNumber
  match hrs : C.regionsOf n.cc with
  | [] => rw [hrs] at h; simp at h
  | [r] => rw [hrs] at h; simp at h
  | a :: b :: c => rfl

/-- `GetRegionCodeForNumber` answers the region of the number as specified. -/
theorem C74_region (C : Container) (hb : Built C) (ht : tablesOk C = true) (hd : C.allMeta.all hasAllDescs = true) (n : PhoneNumber) (r : Str) :
    regionForNumber C n = .ok r ↔ RegionOf C (nsnOf n) (C.regionCodes n.cc) r := by
  have hn := nsnOf_isDig n
  unfold Container.regionCodes
  by_cases hl : 1 < (C.regionsOf n.cc).length
  · have hm := shared_meta hb ht hl
    have hm1 : ∀ r ∈ C.regionsOf n.cc, ∃ m, C.metaForRegion r = some m := fun r hr => let ⟨m, h, _⟩ := hm r hr; ⟨m, h⟩
    rw [regionForNumber_shared hl]
    constructor
    · intro h
      rcases regionFromList_iff hd hn hm1 with ⟨pre, r', post, m, h1, h2, h3, h4, h5⟩ | ⟨h1, h2⟩
      · rw [h5] at h
        obtain rfl := Except.ok.inj h
        rw [h1] at hl ⊢
        exact .first hl h2 h3 h4
      · rw [h2] at h
        obtain rfl := Except.ok.inj h
        exact .unclaimed hl h1
    · intro h
      generalize hrs : C.regionsOf n.cc = rs at *
      cases h with
      | none => simp at hl
      | only => simp at hl
      | first _ h2 h3 h4 => exact regionFromList_first hd hn (fun q hq => hm1 q (by simp [hq])) h2 h3 h4
      | unclaimed _ h => exact regionFromList_none hd hn hm1 h
  · unfold regionForNumber
    match hrs : C.regionsOf n.cc with
    | [] =>
      constructor
      · intro h; obtain rfl := Except.ok.inj h; exact .none
      · intro h
        generalize he : ([] : List Str) = rs at h
        cases h with
        | none => rfl
        | only => cases he
        | first => simp at he
        | unclaimed hl => rw [← he] at hl; simp at hl
    | [x] =>
      constructor
      · intro h; obtain rfl := Except.ok.inj h; exact .only
      · intro h
        generalize he : [x] = rs at h
        cases h with
        | none => cases he
        | only => cases he; rfl
        | first hl => rw [← he] at hl; simp at hl
        | unclaimed hl => rw [← he] at hl; simp at hl
    | a :: b :: c => rw [hrs] at hl; simp at hl

theorem valid_region_iff {C : Container} (hd : C.allMeta.all hasAllDescs = true) {n : PhoneNumber} {r : Str} {m : Metadata}
    (hm : C.metaFor n.cc r = some m) (hcc : r ≠ nonGeoRegion → n.cc = C.ccForValidRegion r) :
    isValidForRegion C n r = .ok true ↔ ValidUnder (nsnOf n) m := by
  have ha := List.all_eq_true.1 hd m (Container.metaFor_mem hm)
  rw [validUnder_iff ha (C04_digits n)]
  unfold isValidForRegion
  simp only [hm]
  rw [if_neg (fun h => h.2 (hcc h.1))]
  obtain ⟨t, ht⟩ := numberTypeHelper_ok ha (nsnOf_isDig n)
  simp [ht, bind, Except.bind, pure, Except.pure]

theorem goodClaim_region {C : Container} (hd : C.allMeta.all hasAllDescs = true) {nsn : Str} (hn : ∀ u ∈ nsn, isDig u = true)
    {rs : List Str} (hrs : ∀ r ∈ rs, ∃ m, C.metaForRegion r = some m ∧ mapGet C.regionMeta r = some m)
    (h : GoodClaim nsn (rs.filterMap fun r => mapGet C.regionMeta r)) :
    ∃ r ∈ rs, ∃ m, regionFromList C nsn rs = .ok r ∧ C.metaForRegion r = some m ∧ ValidUnder nsn m := by
  induction rs with
  | nil => exact h.elim
  | cons a rs ih =>
    obtain ⟨m, hm, hm2⟩ := hrs a (by simp)
    simp only [List.filterMap_cons, hm2] at h
    rcases h with ⟨h1, h2⟩ | ⟨h1, h2⟩
    · exact ⟨a, by simp, m, (regionFromList_cons hd hn hm).1 h1, hm, h2⟩
    · obtain ⟨r, hr, m', h3, h4, h5⟩ := ih (fun r hr => hrs r (by simp [hr])) h2
      exact ⟨r, by simp [hr], m', by rw [(regionFromList_cons hd hn hm).2 h1]; exact h3, h4, h5⟩

/-- With well-ordered regions (checked for the shipped metadata, `Data.wf_sharedCodes`), a number is valid exactly when it is valid for
some region. -/
theorem C74_valid (C : Container) (hb : Built C) (ht : tablesOk C = true) (hd : C.allMeta.all hasAllDescs = true)
    (hng : ∀ cc m, mapGet C.nonGeoMeta cc = some m → str!"001" ∈ C.regionCodes cc) (hs : sharedCodesOk C = true) (n : PhoneNumber) :
    isValidNumber C n = .ok true ↔ ∃ r, isValidForRegion C n r = .ok true := by
  constructor
  · intro h
    obtain ⟨r, hr, -⟩ := regionForNumber_ok hb ht hd n
    simp only [isValidNumber, hr, bind, Except.bind] at h
    exact ⟨r, h⟩
  · rintro ⟨r, h⟩
    have hr : r ∈ C.regionsOf n.cc := C27_listed C hb ht hng n r h
    by_cases hl : 1 < (C.regionsOf n.cc).length
    · have hm := shared_meta hb ht hl
      have cond : ∀ q ∈ C.regionsOf n.cc, q ≠ nonGeoRegion ∧ n.cc = C.ccForValidRegion q := by
        intro q hq
        rcases regionsOf_meta hb ht hq with ⟨_, h2, _⟩ | ⟨h1, _, m, h2, _, h3⟩
        · rw [h2] at hl; simp at hl
        · exact ⟨h1, by simp [Container.ccForValidRegion, h2, h3]⟩
      obtain ⟨m, h1, h2⟩ := hm r hr
      have hmf : ∀ {q m}, q ∈ C.regionsOf n.cc → C.metaForRegion q = some m → C.metaFor n.cc q = some m := by
        intro q m hq hqm
        simp [Container.metaFor, (cond q hq).1, hqm]
      have hv := (valid_region_iff hd (hmf hr h1) (fun _ => (cond r hr).2)).1 h
      have he := List.all_eq_true.1 hs _ (regionsOf_entry hr)
      have hgc : GoodClaim (nsnOf n) ((C.regionsOf n.cc).filterMap fun r => mapGet C.regionMeta r) := by
        match hrs : C.regionsOf n.cc with
        | [] => rw [hrs] at hl; simp at hl
        | [x] => rw [hrs] at hl; simp at hl
        | a :: b :: c =>
          rw [hrs] at he hr
          refine sharedOk_sound he ?_ (nsnOf_isDig n) hv
          exact List.mem_filterMap.2 ⟨r, hr, h2⟩
      obtain ⟨q, hq, m', h3, h4, h5⟩ := goodClaim_region hd (nsnOf_isDig n) hm hgc
      simp only [isValidNumber, regionForNumber_shared hl, h3, bind, Except.bind]
      exact (valid_region_iff hd (hmf hq h4) (fun _ => (cond q hq).2)).2 h5
    · have : C.regionsOf n.cc = [r] := by
        match hrs : C.regionsOf n.cc with
        | [] => rw [hrs] at hr; cases hr
        | [x] => rw [hrs] at hr; simp only [List.mem_singleton] at hr; rw [hr]
        | a :: b :: c => rw [hrs] at hl; simp at hl
      simp only [isValidNumber, regionForNumber, this, bind, Except.bind]
      exact h

/-- For the shipped metadata. -/
theorem C74_shipped (n : PhoneNumber) :
    (∀ r, regionForNumber Data.container n = .ok r ↔ RegionOf Data.container (nsnOf n) (Data.container.regionCodes n.cc) r) ∧
    (isValidNumber Data.container n = .ok true ↔ ∃ r, isValidForRegion Data.container n r = .ok true) := by
  refine ⟨C74_region _ built_shipped Data.wf_tables Data.wf_allDescs n,
    C74_valid _ built_shipped Data.wf_tables Data.wf_allDescs (fun cc m hm => ?_) Data.wf_sharedCodes n⟩
  have := List.all_eq_true.1 nonGeo_listed_shipped (cc, m) (mapGet_mem hm)
  simp only [decide_eq_true_eq] at this
  simp [Container.regionCodes, this]

/-- A toll-free number of the code 1: valid for the Bahamas, whose leading digits it does not have; its region is US. -/
example : isValidForRegion Data.container { countryCode := some 1, nationalNumber := some 8002345678 } (str!"BS") = .ok true ∧
    regionForNumber Data.container { countryCode := some 1, nationalNumber := some 8002345678 } = .ok (str!"US") ∧
    isValidNumber Data.container { countryCode := some 1, nationalNumber := some 8002345678 } = .ok true := by
  refine ⟨?_, ?_, ?_⟩ <;> kernel_rfl
/-- Leading digits alone make a region: this number is not valid in the Bahamas, or anywhere. -/
example : regionForNumber Data.container { countryCode := some 1, nationalNumber := some 2420000000 } = .ok (str!"BS") ∧
    isValidNumber Data.container { countryCode := some 1, nationalNumber := some 2420000000 } = .ok false := by
  refine ⟨?_, ?_⟩ <;> kernel_rfl
/-- No region claims it. -/
example : regionForNumber Data.container { countryCode := some 1, nationalNumber := some 1234567890 } = .ok [] := by kernel_rfl
example : (Data.container.regionCodes 1).length = 25 := by kernel_rfl

end Verif.Props
