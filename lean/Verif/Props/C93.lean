import Verif.Data.Shown
import Verif.Props.C38
import Verif.Props.C71
/-!
# C93: what the as-you-type formatter shows for a complete number is its INTERNATIONAL form
-/
namespace Verif.Props
open Spec

/-- For every region, every number with a supported country code and without extension that some layout rule for the INTERNATIONAL
format can be used for, and every sequence of calls after which the characters typed since the last `Clear` are a plus sign and
the digits of the country code and of the national significant number: no call panics, and the output is what `Format` gives for
INTERNATIONAL.  The digits may be those of any script. -/
theorem C93_shown (region : Str) (n : PhoneNumber) (hcc : Data.container.hasCC n.cc = true) (hraw : ¬ (n.nn = 0 ∧ n.raw ≠ []))
    (hx : n.extension.getD [] = []) (m : Metadata) (hm : Data.container.metaFor n.cc (Data.container.mainRegion n.cc) = some m)
    (hrule : ∃ p ∈ rulesFor m .international, Applies p (nsnOf n)) (history : List Call) (hp : PhoneInput (typed history))
    (hplus : (typed history).head? = some '+'.toNat)
    (hd : DialTranscript (typed history) ('+'.toNat :: (decimal n.cc.toNat ++ nsnOf n))) :
    ∃ a, calls Data.container (Aytf.new Data.container region) history = .ok a ∧
      a.currentOutput = format Data.container n .international := by
  obtain ⟨a, ha⟩ := C38_no_panic region history
  refine ⟨a, ha, ?_⟩
  obtain ⟨pre, f, post, h1, h2, h3⟩ := Aytf.first_applies hrule
  have J := Aytf.job built_shipped Data.wf_tables prefixFree_shipped (hasCC_zero Data.wf_regions) Data.wf_shown hcc hm region
    (nsnOf_isDig n) h1 h2 h3
  rw [Aytf.shown_calls J ha hp hplus ((Aytf.dialTranscript_iff _ _).1 hd).symm]
  obtain ⟨m', body, hm', hl, hf⟩ := C71_shipped n .international (by simp) hcc hraw
  rw [hm] at hm'
  cases hm'
  obtain ⟨gs, hr⟩ := J.task.rules f (by rw [h1]; simp)
  have hb : body = layBy f (nsnOf n) := by
    refine C71_unique hl ?_
    have := LaidOut.rule (f := .international) (carrier := []) (Chosen.some h1 h2 h3) hr.sizes
    rw [layBy, hr.sizes]
    simpa [tidy, template] using this
  rw [hf, hb, hx]
  simp [Aytf.leadOf, leadText, extensionText]

/-- In particular it does not depend on the region of the formatter or on the calls made before. -/
theorem C93_same (r1 r2 : Str) (n : PhoneNumber) (hcc : Data.container.hasCC n.cc = true) (hraw : ¬ (n.nn = 0 ∧ n.raw ≠ []))
    (hx : n.extension.getD [] = []) (m : Metadata) (hm : Data.container.metaFor n.cc (Data.container.mainRegion n.cc) = some m)
    (hrule : ∃ p ∈ rulesFor m .international, Applies p (nsnOf n)) (h1 h2 : List Call)
    (hp : PhoneInput (typed h1) ∧ PhoneInput (typed h2))
    (hplus : (typed h1).head? = some '+'.toNat ∧ (typed h2).head? = some '+'.toNat)
    (hd : DialTranscript (typed h1) ('+'.toNat :: (decimal n.cc.toNat ++ nsnOf n)) ∧
      DialTranscript (typed h2) ('+'.toNat :: (decimal n.cc.toNat ++ nsnOf n))) (a b : Aytf)
    (ha : calls Data.container (Aytf.new Data.container r1) h1 = .ok a) (hb : calls Data.container (Aytf.new Data.container r2) h2 = .ok b) :
    a.currentOutput = b.currentOutput := by
  obtain ⟨a', ha', ea⟩ := C93_shown r1 n hcc hraw hx m hm hrule h1 hp.1 hplus.1 hd.1
  obtain ⟨b', hb', eb⟩ := C93_shown r2 n hcc hraw hx m hm hrule h2 hp.2 hplus.2 hd.2
  rw [ha] at ha'
  rw [hb] at hb'
  cases ha'; cases hb'
  rw [ea, eb]

/-- Without a rule that can be used the two can differ: `Format` gives "+678 22123" for a landline in Vanuatu and the formatter
shows "+67822123". -/
theorem C93_no_rule : outputOf Data.container (str!"VU") (typeAll (str!"+67822123")) = some (str!"+67822123") ∧
    format Data.container { countryCode := some 678, nationalNumber := some 22123 } .international = str!"+678 22123" := by
  constructor <;> kernel_rfl

-- the premises hold for a number in Argentina typed into a formatter for Japan, after another number and `Clear`
example : ∃ m, Data.container.metaFor 54 (Data.container.mainRegion 54) = some m ∧
    ∃ p ∈ rulesFor m .international, Applies p (nsnOf { countryCode := some 54, nationalNumber := some 91123456789 }) := by
  obtain ⟨m, hm, -⟩ := main_meta built_shipped Data.wf_tables (cc := 54) (by kernel_rfl)
  refine ⟨m, hm, ?_⟩
  have hl := List.all_eq_true.1 wf_layout m (Container.metaFor_mem hm)
  apply Classical.byContradiction
  intro hn
  have hlaid : LaidOut (rulesFor m .international) (nsnOf { countryCode := some 54, nationalNumber := some 91123456789 }) .international []
      (str!"91123456789") := .plain (.none fun q hq ha => hn ⟨q, hq, ha⟩)
  have h := formatNsn_laidOut hl (nsnOf_isDig { countryCode := some 54, nationalNumber := some 91123456789 }) .international (carrier := []) (by simp)
  have e := C71_unique hlaid h
  have hf : format Data.container { countryCode := some 54, nationalNumber := some 91123456789 } .international = str!"+54 9 11 2345-6789" := by
    kernel_rfl
  obtain ⟨m', body, hm', hl', hf'⟩ := C71_shipped { countryCode := some 54, nationalNumber := some 91123456789 } .international (by simp)
    (by kernel_rfl) (by decide)
  have : m' = m := by
    have : some m' = some m := hm'.symm.trans hm
    exact Option.some.inj this
  subst this
  rw [C71_unique hl' hlaid, hf] at hf'
  have hx : extensionText m' .international (({ countryCode := some 54, nationalNumber := some 91123456789 } : PhoneNumber).extension.getD []) = [] := rfl
  rw [hx] at hf'
  exact absurd hf' (by decide +kernel)

example : outputOf Data.container (str!"JP") (typeAll (str!"+8190") ++ [.clear] ++ typeAll (str!"+5491123456789")) = some (str!"+54 9 11 2345-6789") := by
  kernel_rfl
example : typed (typeAll (str!"+8190") ++ [.clear] ++ typeAll (str!"+5491123456789")) = str!"+5491123456789" := by decide +kernel

end Verif.Props
