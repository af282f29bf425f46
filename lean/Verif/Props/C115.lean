import Verif.Props.C94
import Verif.Lemmas.AytfHome
/-!
# C115: as-you-type formatters of regions that share a calling code

The claim: two regions with the same calling code, as in GB and JE, FI and AX, US and CA, have formatters that show the same after the
same characters.  It fails when one of them is the main region of the code (`C115_false`); it holds when neither is
(`C115_partial`), and for every two regions of a code as long as no international prefix is typed (`C115_national_partial`).
-/
namespace Verif.Props
open Spec

/-- The claim, for some metadata. -/
def C115_claim (C : Container) : Prop :=
  ∀ (r r' : Str) (h1 h2 : List Call), C.ccForRegion r = C.ccForRegion r' → typed h1 = typed h2 → outputOf C r h1 = outputOf C r' h2

/-- The shipped metadata does not meet it: after the same digits the formatter of Åland groups them as Finnish numbers are grouped, the
formatter of Finland in the Brazilian way, although both show the calling code 358. -/
theorem C115_false : ¬ C115_claim Data.container := by
  intro h
  have h1 : outputOf Data.container (str!"FI") (typeAll (str!"00553582070313000")) = some (str!"0055 358 20 70313-000") := by kernel_rfl
  have h2 : outputOf Data.container (str!"AX") (typeAll (str!"00553582070313000")) = some (str!"0055 358 20 70313000") := by kernel_rfl
  have h3 : Data.container.ccForRegion (str!"FI") = Data.container.ccForRegion (str!"AX") := by kernel_rfl
  have h4 := h _ _ (typeAll (str!"00553582070313000")) _ h3 rfl
  rw [h1, h2] at h4
  exact absurd h4 (by decide)

/-- What holds of it: if neither region is the main region of a calling code, the formatters show the same and remember the same
position.  Missing: a main region against another region of its code, after an international prefix other than a plus sign
(`C94_region` has the plus sign, `C115_national_partial` the rest). -/
theorem C115_partial (C : Container) (r r' : Str) (hc : C.ccForRegion r = C.ccForRegion r')
    (hr : ∀ cc, C.hasCC cc = true → C.mainRegion cc ≠ r) (hr' : ∀ cc, C.hasCC cc = true → C.mainRegion cc ≠ r')
    (h1 h2 : List Call) (h : typed h1 = typed h2) (a b : Aytf)
    (ha : calls C (Aytf.new C r) h1 = .ok a) (hb : calls C (Aytf.new C r') h2 = .ok b) :
    a.currentOutput = b.currentOutput ∧ (mark h1 = mark h2 → a.position = b.position) := by
  have hm : Aytf.metaFor C r = Aytf.metaFor C r' := by unfold Aytf.metaFor; rw [hc]
  have hf : Aytf.Fits C r r' := by
    intro s h0 _
    have h2 := (extractCC_spec C s h0).1
    exact ⟨fun _ => hr' _ h2, fun _ => hr _ h2⟩
  exact ⟨Aytf.output_alike hf hm ha hb h, fun hk => Aytf.position_alike hf hm ha hb h hk⟩

/-- What holds of it for main regions too: as long as neither a plus sign nor an international prefix of the region has been typed, the
formatters of two regions with one calling code show the same.  `m` is the metadata of the main region of the code. -/
theorem C115_national_partial (C : Container) (r r' : Str) (m : Metadata) (hc : C.ccForRegion r = C.ccForRegion r')
    (hm : C.metaForRegion (C.mainRegion (C.ccForRegion r)) = some m) (h1 h2 : List Call) (h : typed h1 = typed h2)
    (hx : NoIdd m (typed h1)) (a b : Aytf) (ha : calls C (Aytf.new C r) h1 = .ok a) (hb : calls C (Aytf.new C r') h2 = .ok b) :
    a.currentOutput = b.currentOutput := by
  have e : Aytf.metaFor C r = m := by unfold Aytf.metaFor; rw [hm]; rfl
  have e' : Aytf.metaFor C r = Aytf.metaFor C r' := by unfold Aytf.metaFor; rw [hc]
  obtain ⟨c, k, g1, rfl⟩ := Aytf.same_calls_home e' ha (e.symm ▸ hx)
  obtain ⟨d, l, g2, rfl⟩ := Aytf.same_calls hb
  rw [h, g2] at g1
  cases g1
  rfl

/-- The same for the shipped metadata, where no call panics. -/
theorem C115_national_shipped_partial (r r' : Str) (m : Metadata) (hc : Data.container.ccForRegion r = Data.container.ccForRegion r')
    (hm : Data.container.metaForRegion (Data.container.mainRegion (Data.container.ccForRegion r)) = some m) (h1 h2 : List Call)
    (h : typed h1 = typed h2) (hx : NoIdd m (typed h1)) : outputOf Data.container r h1 = outputOf Data.container r' h2 := by
  obtain ⟨a, ha⟩ := C38_no_panic r h1
  obtain ⟨b, hb⟩ := C38_no_panic r' h2
  unfold outputOf
  rw [ha, hb]
  exact congrArg some (C115_national_partial _ r r' m hc hm h1 h2 h hx a b ha hb)

/-- A British number typed in the national form contains no international prefix. -/
example : ((List.range 12).all fun k => ((Re.atStart (.alt (re! "\\+") (Aytf.metaFor Data.container (str!"GB")).internationalPrefix.re)).find
    (((str!"02070313000").take k).map asciiKey)).isNone) = true := by kernel_rfl
example : outputOf Data.container (str!"GB") (typeAll (str!"02070313000")) = some (str!"020 7031 3000") ∧
    outputOf Data.container (str!"JE") (typeAll (str!"02070313000")) = some (str!"020 7031 3000") := by
  constructor <;> kernel_rfl

/-- The same for the shipped metadata, where no call panics. -/
theorem C115_shipped_partial (r r' : Str) (hc : Data.container.ccForRegion r = Data.container.ccForRegion r')
    (hr : ∀ cc, Data.container.hasCC cc = true → Data.container.mainRegion cc ≠ r)
    (hr' : ∀ cc, Data.container.hasCC cc = true → Data.container.mainRegion cc ≠ r')
    (h1 h2 : List Call) (h : typed h1 = typed h2) : outputOf Data.container r h1 = outputOf Data.container r' h2 := by
  obtain ⟨a, ha⟩ := C38_no_panic r h1
  obtain ⟨b, hb⟩ := C38_no_panic r' h2
  unfold outputOf
  rw [ha, hb]
  exact congrArg some (C115_partial _ r r' hc hr hr' h1 h2 h a b ha hb).1

/-- Jersey and Guernsey share the code of Great Britain. -/
example : Data.container.ccForRegion (str!"JE") = Data.container.ccForRegion (str!"GG") ∧
    (Data.container.ccToRegion.all fun p => decide (p.2.head? ≠ some (str!"JE")) && decide (p.2.head? ≠ some (str!"GG"))) = true := by
  constructor <;> kernel_rfl

end Verif.Props
