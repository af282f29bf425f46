import Verif.Spec.SameCountry
import Verif.Model.Parse
import Verif.Model.Mapper
/-!
# Answers about a number look at the metadata of its calling code only
-/
namespace Verif

theorem regionFromList_in (C : Container) (nsn : Str) : ∀ rs r, regionFromList C nsn rs = .ok r → r = [] ∨ r ∈ rs
  | [], r, h => by
    unfold regionFromList at h
    exact .inl (Except.ok.inj h).symm
  | x :: rs, r, h => by
    have ih := regionFromList_in C nsn rs r
    unfold regionFromList at h
    simp only [] at h
    have ends : ∀ {c : Prop} [Decidable c], (if c then pure x else regionFromList C nsn rs) = Except.ok r →
        r = [] ∨ r ∈ x :: rs := by
      intro c _ hc
      split at hc
      · exact .inr (by rw [← Except.ok.inj hc]; exact List.mem_cons_self)
      · exact (ih hc).imp id (List.mem_cons_of_mem _)
    cases hm : C.metaForRegion x with
    | none =>
      simp only [hm] at h
      split at h
      · exact ends h
      · cases ht : numberTypeHelper nsn none with
        | error e => rw [ht] at h; cases h
        | ok t => rw [ht] at h; exact ends h
    | some m =>
      simp only [hm] at h
      split at h
      · exact ends h
      · cases ht : numberTypeHelper nsn (some m) with
        | error e => rw [ht] at h; cases h
        | ok t => rw [ht] at h; exact ends h

namespace SameCountry
variable {C D : Container} {n : PhoneNumber}

theorem main {cc : Int} (h : SameCountry C D cc) : C.mainRegion cc = D.mainRegion cc := by
  unfold Container.mainRegion; rw [h.codes]

theorem main_mem {cc : Int} (h : SameCountry C D cc) : C.mainRegion cc ∈ C.regionsOf cc := by
  unfold Container.mainRegion
  cases hr : C.regionsOf cc with
  | nil => exact absurd hr h.known
  | cons r rs => exact List.mem_cons_self

theorem meta_ {cc : Int} (h : SameCountry C D cc) {r : Str} (hr : r = [] ∨ r ∈ C.regionsOf cc) :
    C.metaForRegion r = D.metaForRegion r := by
  rcases hr with rfl | hr
  · simp [Container.metaForRegion, Container.validRegion]
  · exact h.regions r hr

theorem metaFor {cc : Int} (h : SameCountry C D cc) {r : Str} (hr : r = [] ∨ r ∈ C.regionsOf cc) :
    C.metaFor cc r = D.metaFor cc r := by
  unfold Container.metaFor; rw [h.entity, h.meta_ hr]

theorem mainMeta {cc : Int} (h : SameCountry C D cc) :
    C.metaFor cc (C.mainRegion cc) = D.metaFor cc (D.mainRegion cc) := by
  rw [h.metaFor (.inr h.main_mem), h.main]

theorem has {cc : Int} (h : SameCountry C D cc) : C.hasCC cc = D.hasCC cc := h.supported.1.trans h.supported.2.symm

theorem fromList {cc : Int} (h : SameCountry C D cc) (nsn : Str) :
    ∀ rs, (∀ r ∈ rs, r ∈ C.regionsOf cc) → regionFromList C nsn rs = regionFromList D nsn rs
  | [], _ => rfl
  | r :: rs, hs => by
    unfold regionFromList
    simp only [h.regions r (hs r List.mem_cons_self), h.fromList nsn rs (fun x hx => hs x (List.mem_cons_of_mem _ hx))]

theorem region (h : SameCountry C D n.cc) : regionForNumber C n = regionForNumber D n := by
  unfold regionForNumber
  rw [← h.codes]
  cases hr : C.regionsOf n.cc with
  | nil => rfl
  | cons r rs =>
    cases rs with
    | nil => rfl
    | cons x rs =>
      simp only []
      rw [← hr, h.fromList _ _ (fun _ hx => hx)]

theorem region_in (h : SameCountry C D n.cc) {r : Str} (hr : regionForNumber D n = .ok r) : r = [] ∨ r ∈ C.regionsOf n.cc := by
  rw [h.codes]
  unfold regionForNumber at hr
  cases hd : D.regionsOf n.cc with
  | nil => rw [hd] at hr; exact .inl (Except.ok.inj hr).symm
  | cons x rs =>
    rw [hd] at hr
    cases rs with
    | nil => exact .inr (by rw [← Except.ok.inj hr]; exact List.mem_cons_self)
    | cons y rs => exact regionFromList_in D _ _ r hr

theorem type (h : SameCountry C D n.cc) : numberType C n = numberType D n := by
  unfold numberType
  rw [h.region]
  cases hr : regionForNumber D n with
  | error e => rfl
  | ok r => simp only [bind, Except.bind, h.metaFor (h.region_in hr)]

theorem validFor (h : SameCountry C D n.cc) {r : Str} (hr : r = [] ∨ r ∈ C.regionsOf n.cc) :
    isValidForRegion C n r = isValidForRegion D n r := by
  unfold isValidForRegion Container.ccForValidRegion
  rw [h.metaFor hr, h.meta_ hr]

theorem valid (h : SameCountry C D n.cc) : isValidNumber C n = isValidNumber D n := by
  unfold isValidNumber
  rw [h.region]
  cases hr : regionForNumber D n with
  | error e => rfl
  | ok r => simp only [bind, Except.bind, h.validFor (h.region_in hr)]

theorem reason (h : SameCountry C D n.cc) : possibleWithReason C n = possibleWithReason D n := by
  unfold possibleWithReason; rw [h.has, h.mainMeta]

theorem reasonFor (h : SameCountry C D n.cc) (t : NumType) :
    possibleForTypeWithReason C n t = possibleForTypeWithReason D n t := by
  unfold possibleForTypeWithReason; rw [h.has, h.mainMeta]

theorem possible (h : SameCountry C D n.cc) : isPossibleNumber C n = isPossibleNumber D n := by
  unfold isPossibleNumber; rw [h.reason]

theorem possibleFor (h : SameCountry C D n.cc) (t : NumType) : isPossibleForType C n t = isPossibleForType D n t := by
  unfold isPossibleForType; rw [h.reasonFor]

theorem dialled (h : SameCountry C D n.cc) : canBeInternationallyDialled C n = canBeInternationallyDialled D n := by
  unfold canBeInternationallyDialled
  rw [h.region]
  cases hr : regionForNumber D n with
  | error e => rfl
  | ok r => simp only [bind, Except.bind, h.meta_ (h.region_in hr)]

theorem geographical (h : SameCountry C D n.cc) : isGeographical C n = isGeographical D n := by
  unfold isGeographical; rw [h.type]

theorem truncating (h : SameCountry C D n.cc) : ∀ f k, truncateLoop C n f k = truncateLoop D n f k
  | 0, _ => rfl
  | f + 1, k => by
    have hv : ∀ j, isValidNumber C { n with nationalNumber := some j } = isValidNumber D { n with nationalNumber := some j } :=
      fun j => valid (n := { n with nationalNumber := some j }) h
    have hp : ∀ j, possibleWithReason C { n with nationalNumber := some j }
        = possibleWithReason D { n with nationalNumber := some j } :=
      fun j => reason (n := { n with nationalNumber := some j }) h
    unfold truncateLoop
    simp only [hv, hp, h.truncating f]

theorem truncate (h : SameCountry C D n.cc) : truncateTooLong C n = truncateTooLong D n := by
  have hp : ∀ j, possibleWithReason C { n with nationalNumber := some j }
      = possibleWithReason D { n with nationalNumber := some j } :=
    fun j => reason (n := { n with nationalNumber := some j }) h
  unfold truncateTooLong
  simp only [h.valid, hp, h.truncating]

theorem formCore (h : SameCountry C D n.cc) (f : Fmt) : formatCore C n f = formatCore D n f := by
  unfold formatCore; rw [h.has, h.mainMeta]

theorem form (h : SameCountry C D n.cc) (f : Fmt) : format C n f = format D n f := by
  unfold format; rw [h.formCore]

theorem byPattern (h : SameCountry C D n.cc) (f : Fmt) (u : List NumberFormat) :
    formatByPattern C n f u = formatByPattern D n f u := by
  unfold formatByPattern; rw [h.has, h.mainMeta]

theorem withCarrier (h : SameCountry C D n.cc) (c : Str) : formatWithCarrier C n c = formatWithCarrier D n c := by
  unfold formatWithCarrier; rw [h.has, h.mainMeta]

theorem preferred (h : SameCountry C D n.cc) (c : Str) :
    formatWithPreferredCarrier C n c = formatWithPreferredCarrier D n c := by
  unfold formatWithPreferredCarrier; rw [h.withCarrier]

theorem ndc (h : SameCountry C D n.cc) : lengthOfNdc C n = lengthOfNdc D n := by
  have hf : ∀ f, format C (if n.ext ≠ [] then { n with extension := none } else n) f
      = format D (if n.ext ≠ [] then { n with extension := none } else n) f := by
    intro f
    refine form ?_ f
    split
    · exact h
    · exact h
  unfold lengthOfNdc
  simp only [hf, h.type]

theorem area (h : SameCountry C D n.cc) : lengthOfAreaCode C n = lengthOfAreaCode D n := by
  unfold lengthOfAreaCode
  rw [h.region]
  cases hr : regionForNumber D n with
  | error e => rfl
  | ok r => simp only [bind, Except.bind, h.meta_ (h.region_in hr), h.type, h.geographical, h.ndc]

theorem mobile (h : SameCountry C D n.cc) (r : Str) (w : Bool) : formatForMobile C n r w = formatForMobile D n r w := by
  have h' : SameCountry C D ({ n with extension := none } : PhoneNumber).cc := h
  unfold formatForMobile
  by_cases hr : r = C.mainRegion n.cc
  · have hm : C.metaForRegion r = D.metaForRegion r := h.meta_ (.inr (hr ▸ h.main_mem))
    simp only [h.has, h.main, h'.type, h'.dialled, h'.form, h'.preferred, hm]
  · have hr' : ¬ r = D.mainRegion n.cc := fun e => hr (e.trans h.main.symm)
    simp only [h.has, hr, hr', if_false, h'.type, h'.dialled, h'.form]

theorem where_ (h : SameCountry C D n.cc) :
    ∀ rs acc, (∀ r ∈ rs, r ∈ C.regionsOf n.cc) → regionWhereValid C n rs acc = regionWhereValid D n rs acc
  | [], _, _ => rfl
  | r :: rs, acc, hs => by
    unfold regionWhereValid
    have ih := fun a => h.where_ rs a (fun x hx => hs x (List.mem_cons_of_mem _ hx))
    simp only [h.validFor (.inr (hs r List.mem_cons_self)), ih]

theorem country (h : SameCountry C D n.cc) (disp : Str → Bytes) : countryName C disp n = countryName D disp n := by
  unfold countryName
  rw [← h.codes]
  have := fun a => h.where_ (C.regionsOf n.cc) a (fun _ hx => hx)
  cases hr : C.regionsOf n.cc with
  | nil => rfl
  | cons r rs =>
    rw [hr] at this
    cases rs with
    | nil => rfl
    | cons x rs => simp only [this]

theorem zones (h : SameCountry C D n.cc) (tz : Option (Loaded (List Bytes))) :
    timeZonesForNumber C tz n = timeZonesForNumber D tz n := by
  unfold timeZonesForNumber timeZonesForGeographical; simp only [h.type, h.form]

theorem carrierName (h : SameCountry C D n.cc) (p : Option (List (Int × Bytes))) :
    carrierForNumber C p n = carrierForNumber D p n := by
  unfold carrierForNumber carrierForValid; rw [h.type, h.form]

theorem safeName (h : SameCountry C D n.cc) (p : Option (List (Int × Bytes))) : carrierSafe C p n = carrierSafe D p n := by
  unfold carrierSafe Container.isMobilePortable
  rw [h.region]
  cases hr : regionForNumber D n with
  | error e => rfl
  | ok r => simp only [bind, Except.bind, h.meta_ (h.region_in hr), h.carrierName]

theorem pattern (h : SameCountry C D n.cc) : hasFormattingPattern C n = hasFormattingPattern D n := by
  unfold hasFormattingPattern; rw [h.mainMeta]

theorem abroad (h : SameCountry C D n.cc) (r : Str) (hv : C.validRegion r = D.validRegion r)
    (hm : C.metaForRegion r = D.metaForRegion r) (hn : C.isNanpa r = D.isNanpa r) :
    formatOutOfCountry C n r = formatOutOfCountry D n r := by
  unfold formatOutOfCountry Container.ccForValidRegion
  simp only [hv, hm, hn, h.has, h.form, h.mainMeta]

/-- New metadata for a region of other calling codes. -/
theorem of_withRegion {cc : Int} (hc : C.hasCC cc = true) (hk : C.regionsOf cc ≠ []) {r : Str} (hr : r ∉ C.regionsOf cc)
    (m : Metadata) : SameCountry C (C.withRegion r m) cc := by
  refine ⟨⟨hc, hc⟩, hk, rfl, fun x hx => ?_, rfl⟩
  have hne : ¬ r = x := fun e => hr (e ▸ hx)
  have hne' : ¬ x = r := fun e => hne e.symm
  unfold Container.metaForRegion Container.validRegion Container.withRegion mapSet
  simp only [mapGet, if_neg hne, List.mem_cons, hne', false_or]

end SameCountry
end Verif
