import Verif.Lemmas.ManyFind
import Verif.Props.C86
/-!
# C104: all the numbers in a text are found
-/
namespace Verif.Props
open Verif.Spec

/-- Let a text have any number of numbers, each written as in C64: blocks of up to twenty digits with gaps of one to four spaces,
hyphens or dots, perhaps after a plus sign.  Before each of them there is a text without digits, opening brackets and plus signs, and
each but the first starts with a plus sign or has a character before it that ends a number.  If parsing accepts each number and the
leniency level accepts each result, then the search returns all of them, each at its place, in their order, and nothing else, however
small the limit of tries is.  At level VALID and above the neighbours must not stick, as in C64. -/
theorem C104_all (F : Finder) (l : List Mention) (rest : Str) (ht : F.text = textOf l rest) (ha : Apart l) (hr : NoDigit rest)
    (hst : F.leniency ≠ .possible → NothingSticks l rest)
    (hp : ∀ x ∈ l, parseKeepRaw F.C x.raw F.region = .ok (none, x.number) ∧ F.leniency.verify F.C F.alt x.number x.raw = .ok true)
    (maxTries : Int) (hk : 0 < maxTries) :
    ∃ ms c, F.findNumbers maxTries = .ok (ms, c) ∧ ms.map (fun m => (m.start F.text, m.raw, m.number)) = expected 0 l := by
  have hlen : ∀ l : List Mention, (∀ x ∈ l, x.raw ≠ []) → l.length ≤ (textOf l rest).length := by
    intro l h
    induction l with
    | nil => simp
    | cons x l ih =>
      have h1 := List.length_pos_iff.2 (h x (by simp))
      have h2 := ih fun y hy => h y (by simp [hy])
      simp only [textOf, List.flatMap_cons, List.length_append, List.length_cons] at h2 ⊢
      omega
  have h1 := hlen l fun x hx => written_ne (ha.1 x hx).2
  rw [← ht] at h1
  have hk0 : (if maxTries < 0 then 0 else maxTries) = maxTries := if_neg (by omega)
  unfold Finder.findNumbers Finder.new
  rw [hk0]
  exact Finder.iterate_mentions hr (fun h => (hst h).2.2) ⟨maxTries, 0, 0⟩ hk l [] (F.text.length + 1) (by omega) (by simpa using ht) ha.1 ha.2
    (fun h => (hst h).1) (fun h => absurd rfl h) (fun h => (hst h).2.1) hp

/-- A valid number written in E164 or INTERNATIONAL form. -/
theorem form_mention (n : PhoneNumber) (f : Fmt) (hf : f = .e164 ∨ f = .international) (hv : isValidNumber Data.container n = .ok true)
    (h0 : n.nn ≠ 0) (hex : ¬ Ambiguous n) (hext : n.ext = []) (alt : List Metadata) (region : Str) (lev : Leniency) :
    ∃ pn, WrittenNumber true (format Data.container n f) ∧ parseKeepRaw Data.container (format Data.container n f) region = .ok (none, pn) ∧
      lev.verify Data.container alt pn (format Data.container n f) = .ok true ∧ pn.cc = n.cc ∧ nsnOf pn = nsnOf n := by
  rcases hf with rfl | rfl
  · obtain ⟨pn, k1, k2, k3, k4, k5, -⟩ := e164_mention n hv h0 hex alt region lev
    exact ⟨pn, k1, k2, k3, k4, k5⟩
  · obtain ⟨hcc, h2, h17, hla⟩ := valid_leftAlone n hv hex
    obtain ⟨l, hf, h1, h3, h4, h5⟩ := international_blocks n hcc h0 hext h17
    rw [hf]
    obtain ⟨pn, k1, k2, k3, k4, k5, -⟩ := blocks_mention n hv h0 hex hext l h1 h3 h4 alt lev (.inr (.inr (h5 alt))) region
    exact ⟨pn, k1, k2, k3, k4, k5⟩

theorem mentions_of (alt : List Metadata) (region : Str) (lev : Leniency) (rest : Str) (l : Entries)
    (hl : ∀ x ∈ l, (x.2.2 = .e164 ∨ x.2.2 = .international) ∧ isValidNumber Data.container x.2.1 = .ok true ∧ x.2.1.nn ≠ 0 ∧
      ¬ Ambiguous x.2.1 ∧ x.2.1.ext = []) : ∃ L : List Mention, textOf L rest = written Data.container l rest ∧
      L.map (·.before) = l.map (·.1) ∧
      (∀ x ∈ L, x.plus = true ∧ WrittenNumber true x.raw ∧ parseKeepRaw Data.container x.raw region = .ok (none, x.number) ∧
        lev.verify Data.container alt x.number x.raw = .ok true) ∧
      ∀ i, (expected i L).map (fun y => (y.1, y.2.1, y.2.2.cc, nsnOf y.2.2)) = places Data.container i l := by
  induction l with
  | nil => exact ⟨[], rfl, rfl, by simp, fun _ => rfl⟩
  | cons x l ih =>
    obtain ⟨L, k1, k2, k3, k4⟩ := ih fun y hy => hl y (by simp [hy])
    obtain ⟨h1, h2, h3, h4, h5⟩ := hl x (by simp)
    obtain ⟨pn, p1, p2, p3, p4, p5⟩ := form_mention x.2.1 x.2.2 h1 h2 h3 h4 h5 alt region lev
    refine ⟨⟨x.1, true, format Data.container x.2.1 x.2.2, pn⟩ :: L, ?_, ?_, ?_, ?_⟩
    · simp only [textOf, written, List.flatMap_cons, List.append_assoc] at k1 ⊢
      rw [k1]
    · simp [k2]
    · intro y hy
      rcases List.mem_cons.1 hy with rfl | hy
      · exact ⟨rfl, p1, p2, p3⟩
      · exact k3 y hy
    · intro i
      rw [expected.eq_2, List.map_cons, k4, places.eq_2]
      congr 1
      simp only [Prod.mk.injEq, true_and]
      exact ⟨p4, p5⟩

/-- With the shipped data: write any number of valid numbers, each in E164 or INTERNATIONAL form, into a text that otherwise has no
digits (before the last number also no opening brackets and plus signs).  A search at any leniency level, for any region and any positive limit of tries, returns
all of them at their places, in their order, and nothing else, and what it returns has the same country codes and national
significant numbers.  The texts after the numbers must not start with a Latin letter, a currency sign or a percent sign.  (Numbers
with an extension, with one of the two ambiguous beginnings of C10 and with national number 0 are excluded.) -/
theorem C104_forms (l : Entries) (hl : ∀ x ∈ l, (x.2.2 = .e164 ∨ x.2.2 = .international) ∧
      isValidNumber Data.container x.2.1 = .ok true ∧ x.2.1.nn ≠ 0 ∧ ¬ Ambiguous x.2.1 ∧ x.2.1.ext = [])
    (rest : Str) (hb : ∀ x ∈ l, NoStart x.1) (hr : NoDigit rest) (hs : ∀ x ∈ l.tail, ∀ u, x.1.head? = some u → ¬ Sticky u)
    (hs' : ∀ u, rest.head? = some u → ¬ Sticky u) (alt : List Metadata) (region : Str) (lev : Leniency) (maxTries : Int) (hk : 0 < maxTries) :
    ∃ ms c, Finder.findNumbers ⟨Data.container, alt, written Data.container l rest, region, lev⟩ maxTries = .ok (ms, c) ∧
      ms.map (fun m => (m.start (written Data.container l rest), m.raw, m.number.cc, nsnOf m.number)) = places Data.container 0 l := by
  obtain ⟨L, k1, k2, k3, k4⟩ := mentions_of alt region lev rest l hl
  have hbefore : ∀ x ∈ L, ∃ y ∈ l, y.1 = x.before := fun x hx => by
    have : x.before ∈ l.map (·.1) := by rw [← k2]; exact List.mem_map.2 ⟨x, hx, rfl⟩
    exact List.mem_map.1 this
  have htail : ∀ x ∈ L.tail, ∃ y ∈ l.tail, y.1 = x.before := fun x hx => by
    have : x.before ∈ l.tail.map (·.1) := by rw [List.map_tail, ← k2, ← List.map_tail]; exact List.mem_map.2 ⟨x, hx, rfl⟩
    exact List.mem_map.1 this
  obtain ⟨ms, c, h1, h2⟩ := C104_all ⟨Data.container, alt, written Data.container l rest, region, lev⟩ L rest k1.symm
    ⟨fun x hx => ⟨by obtain ⟨y, hy, e⟩ := hbefore x hx; rw [← e]; exact hb y hy, by rw [(k3 x hx).1]; exact (k3 x hx).2.1⟩,
      fun x hx => .inl (k3 x (List.mem_of_mem_tail hx)).1⟩ hr
    (fun _ => ⟨fun x hx h => by (rw [(k3 x hx).1] at h; cases h),
      fun x hx u hu => by (obtain ⟨y, hy, e⟩ := htail x hx; rw [← e] at hu; exact hs y hy u hu), hs'⟩)
    (fun x hx => (k3 x hx).2.2) maxTries hk
  refine ⟨ms, c, h1, ?_⟩
  rw [← k4 0, ← h2, List.map_map]
  rfl

/-! ## Cases -/

/-- A line end and a semicolon: the first ends a number, the second does not. -/
example : Wall 10 ∧ ¬ Wall 59 := ⟨⟨by decide +kernel, by decide +kernel⟩, fun h => absurd h.2 (by decide +kernel)⟩

/-- Two numbers on two lines stand apart. -/
example : Apart [⟨(str!"a: "), false, (str!"650 253-0000"), {}⟩, ⟨(str!"\n"), false, (str!"650.253.0001"), {}⟩, ⟨[], true, (str!"+41 44 668"), {}⟩] := by
  refine ⟨?_, ?_⟩
  · intro x hx
    simp only [List.mem_cons, List.not_mem_nil, or_false] at hx
    rcases hx with rfl | rfl | rfl
    · exact ⟨⟨by unfold NoDigit; decide +kernel, by decide⟩, (str!"650"), [((str!" "), (str!"253")), ((str!"-"), (str!"0000"))], by decide,
        by unfold Block; decide, by decide, by unfold Gap Block; decide⟩
    · exact ⟨⟨by unfold NoDigit; decide +kernel, by decide⟩, (str!"650"), [((str!"."), (str!"253")), ((str!"."), (str!"0001"))], by decide,
        by unfold Block; decide, by decide, by unfold Gap Block; decide⟩
    · exact ⟨⟨by unfold NoDigit; decide +kernel, by decide⟩, (str!"41"), [((str!" "), (str!"44")), ((str!" "), (str!"668"))], by decide,
        by unfold Block; decide, by decide, by unfold Gap Block; decide⟩
  · intro x hx
    simp only [List.tail_cons, List.mem_cons, List.not_mem_nil, or_false] at hx
    rcases hx with rfl | rfl
    · exact .inr ⟨10, by simp, by decide +kernel, by decide +kernel⟩
    · exact .inl rfl

/-- A text with the number of C86 in both forms, one after the other. -/
example : written Data.container [((str!"Tel. "), london, .international), ((str!"/"), london, .e164)] (str!".") =
    str!"Tel. +44 20 8765 4321/+442087654321." := by kernel_rfl

example : places Data.container 0 [((str!"Tel. "), london, .international), ((str!"/"), london, .e164)] =
    [(5, (str!"+44 20 8765 4321"), 44, (str!"2087654321")), (22, (str!"+442087654321"), 44, (str!"2087654321"))] := by kernel_rfl

noncomputable def C104_case : Finder := ⟨Data.container, Data.alt, (str!"Tel. +44 20 8765 4321/+442087654321."), (str!"US"), .exactGrouping⟩

example : ((C104_case.findNumbers 1).toOption.map fun r => r.1.map fun m => (m.at_, m.raw)) =
    some [(5, (str!"+44 20 8765 4321")), (22, (str!"+442087654321"))] := by kernel_rfl

/-- Without a character that ends a number the two are read as one, and neither is found. -/
noncomputable def C104_joined : Finder := ⟨Data.container, Data.alt, (str!"650.253.0000.650.253.0001"), (str!"US"), .valid⟩

example : ((C104_joined.findNumbers 9).toOption.map fun r => r.1.map fun m => (m.at_, m.raw)) = some [] := by kernel_rfl

end Verif.Props
