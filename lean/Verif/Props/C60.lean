import Verif.Props.C51
import Verif.Props.C52
import Verif.Props.C53
import Verif.Props.C06
/-!
# C60: metadata made by the builder is what the library expects

Theorems on parsing, formatting and validation assume well-formed metadata (`Verif/Spec/WellFormed.lean`).  `Verif/Data/Wf.lean` checks the
shipped metadata.  Here: everything that the builder accepts is well formed, so that the theorems also hold of future metadata.
-/
namespace Verif.Props
open Verif Verif.Builder

/-- A built territory has all its descriptions, and lengths in its general description if some element lists any. -/
theorem C60_descs (compile : Str → Option Re) (o : Order) (ho : o.Fair) (t : TerritoryE) (m : Metadata)
    (h : loadCountry compile o t false false = .ok m) :
    Spec.hasAllDescs m = true ∧
      ((∃ el ∈ (Spec.generalSources false t).filterMap id, el.lengths ≠ none) → Spec.hasGeneralLengths m = true) := by
  rw [loadCountry_order compile ho] at h
  unfold loadCountry at h
  obtain ⟨m1, _, h⟩ := bind_ok.1 h
  obtain ⟨f, _, h⟩ := bind_ok.1 h
  simp only [Bool.false_eq_true, if_false] at h
  obtain ⟨g0, g, h0, h1, hg, hp⟩ := setDescs_ok h
  constructor
  · have key : ∀ ed ∈ Spec.descPairs false t m, ed.2.isSome = true := by
      intro ed hed
      obtain ⟨d, hd, _⟩ := hp ed hed
      rw [hd]; rfl
    simp only [Spec.descPairs, Bool.false_eq_true, if_false, List.forall_mem_cons, List.not_mem_nil, false_implies, implies_true, and_true] at key
    simp [Spec.hasAllDescs, Spec.typeDescs, key, hg]
  · rintro ⟨el, hel, hl⟩
    obtain ⟨_, hall, ls, loc, n1, n2, mem1, _, _, rfl⟩ := setGeneral_ok idOrder_fair h1
    have hmem : some el ∈ Spec.generalSources false t := by
      obtain ⟨x, hx, hx'⟩ := List.mem_filterMap.1 hel
      have : x = some el := hx'
      rw [← this]; exact hx
    have hmem' : some el ∈ lengthSources t false := by
      simp only [lengthSources, Spec.generalSources, Bool.false_eq_true, if_false] at hmem ⊢
      exact List.mem_cons_of_mem _ hmem
    obtain ⟨ab, hab⟩ := hall _ hmem'
    have hne : ab.1 ≠ [] := fun h0 => hl (by simpa using descSets_nil hab h0)
    obtain ⟨x, hx⟩ := List.exists_mem_of_ne_nil _ hne
    have : x ∈ sortInts ls := mem_sortInts.2 ((mem1 x).2 ⟨_, hmem', ab, hab, hx⟩)
    simp only [Spec.hasGeneralLengths, hg, Bool.not_eq_true', List.isEmpty_eq_false_iff]
    exact List.ne_nil_of_mem this

/-- If moreover all listed lengths are positive then all length tables are in order. -/
theorem C60_lengths (compile : Str → Option Re) (o : Order) (ho : o.Fair) (t : TerritoryE) (m : Metadata)
    (hw1 : ∀ d ∈ Spec.generalSources false t, Spec.WellWritten d) (hw2 : ∀ ed ∈ Spec.descPairs false t m, Spec.WellWritten ed.1)
    (hpos : ∀ d ∈ Spec.generalSources false t, ∀ x, Spec.National d x ∨ Spec.LocalOnly d x → 0 < x)
    (hne : ∃ d ∈ Spec.generalSources false t, ∃ x, Spec.National d x)
    (h : loadCountry compile o t false false = .ok m) : Spec.lengthTablesOk m = true := by
  obtain ⟨g, hg, i1, i2, i3, hd⟩ := C51_tables compile o ho t false m h
  obtain ⟨g', hg', e1, e2, _⟩ := C51_exact compile o ho t false m hw1 hw2 h
  rw [hg] at hg'; cases hg'
  have hgp : ∀ x ∈ g.lengths, 0 < x := by
    intro x hx
    obtain ⟨d, hd, hx⟩ := (e1 x).1 hx
    exact hpos d hd x (.inl hx)
  have hlp : ∀ x ∈ g.localLengths, 0 < x := by
    intro x hx
    obtain ⟨⟨d, hd, hx⟩, _⟩ := (e2 x).1 hx
    exact hpos d hd x (.inr hx)
  obtain ⟨d0, hd0, x0, hx0⟩ := hne
  have hx0 := (e1 x0).2 ⟨d0, hd0, hx0⟩
  have hgok : Spec.lengthsOk g.lengths = true := by
    simp only [Spec.lengthsOk, i1, Bool.true_and, Bool.or_eq_true, List.all_eq_true, decide_eq_true_eq]
    exact .inr hgp
  have key : ∀ ed ∈ Spec.descPairs false t m, ∃ d, ed.2 = some d ∧
      (Spec.lengthsOk d.lengths && Spec.increasing d.localLengths && d.localLengths.all (fun l => decide (0 < l))) = true := by
    intro ed hed
    obtain ⟨d, h1, h2, h3, h4, _, h5⟩ := hd ed hed
    refine ⟨d, h1, ?_⟩
    simp only [Bool.and_eq_true, List.all_eq_true, decide_eq_true_eq]
    refine ⟨⟨?_, h3⟩, fun x hx => ?_⟩
    · simp only [Spec.lengthsOk, h2, Bool.true_and, Bool.or_eq_true, List.all_eq_true, decide_eq_true_eq]
      rcases h4 with h4 | h4
      · exact .inl h4.1
      · exact .inr fun x hx => hgp x (h4 x hx)
    · rcases h5 x hx with h | h
      · exact hgp x h
      · exact hlp x h
  simp only [Spec.descPairs, Bool.false_eq_true, if_false, List.forall_mem_cons, List.not_mem_nil, false_implies, implies_true, and_true] at key
  obtain ⟨⟨d1, a1, b1⟩, ⟨d2, a2, b2⟩, ⟨d3, a3, b3⟩, ⟨d4, a4, b4⟩, ⟨d5, a5, b5⟩, ⟨d6, a6, b6⟩, ⟨d7, a7, b7⟩, ⟨d8, a8, b8⟩, _, ⟨d10, a10, b10⟩,
    ⟨d11, a11, b11⟩⟩ := key
  have bg : (Spec.lengthsOk g.lengths && Spec.increasing g.localLengths && g.localLengths.all (fun l => decide (0 < l))) = true := by
    simp only [hgok, i2, Bool.true_and, List.all_eq_true, decide_eq_true_eq]
    exact hlp
  have hgm : g.lengths ≠ [-1] := by
    intro h
    have := hgp (-1) (by rw [h]; simp)
    omega
  have hgn : g.lengths.isEmpty = false := by
    rw [List.isEmpty_eq_false_iff]; exact List.ne_nil_of_mem hx0
  simp only [Spec.lengthTablesOk, Spec.typeDescs, a1, a2, a3, a4, a5, a6, a7, a8, a10, a11, hg, List.all_cons, List.all_nil, b1, b2, b3, b4, b5,
    b6, b7, b8, b10, b11, bg, hgm, hgn, Bool.true_and, Bool.and_true, Bool.not_false, decide_true, ne_eq, not_false_eq_true]

private theorem allMeta_mem {coll : List Metadata} {ccm : List (Int × List Str)} {C : Container} (h : newContainer coll ccm = some C) :
    ∀ m ∈ C.allMeta, m ∈ coll := by
  unfold newContainer at h
  split at h
  · cases h
  · cases h
    rw [foldl_addMetadata]
    intro m hm
    simp only [Container.allMeta, List.append_nil, List.map_reverse, List.map_map, List.mem_append, List.mem_reverse, List.mem_map,
      List.mem_filter] at hm
    rcases hm with ⟨x, ⟨hx, _⟩, rfl⟩ | ⟨x, ⟨hx, _⟩, rfl⟩
    · exact hx
    · exact hx

private theorem build_mem {compile : Str → Option Re} {o : Order} (ho : o.Fair) {short alternate : Bool} :
    ∀ (ts : List TerritoryE) (k : Nat) {coll : List Metadata}, buildCollection compile o short alternate k ts = .ok coll →
    ∀ m ∈ coll, ∃ t ∈ ts, loadCountry compile idOrder t short alternate = .ok m := by
  intro ts
  induction ts with
  | nil => intro k coll h; cases h; simp
  | cons t ts ih =>
    intro k coll h
    rw [buildCollection] at h
    obtain ⟨m, h1, h⟩ := bind_ok.1 h
    obtain ⟨ms, h2, h⟩ := bind_ok.1 h
    simp only [pure, Except.pure, Except.ok.injEq] at h
    subst h
    rw [loadCountry_order compile (ho.sub k)] at h1
    intro x hx
    rcases List.mem_cons.1 hx with rfl | hx
    · exact ⟨t, by simp, h1⟩
    · obtain ⟨t', ht', h'⟩ := ih (k + 1) h2 x hx
      exact ⟨t', by simp [ht'], h'⟩

/-- From XML elements to parsing: with metadata that the builder accepts, every territory of which lists a length, no input makes parsing
panic. -/
theorem C60_parse (compile : Str → Option Re) (o : Order) (ho : o.Fair) (ts : List TerritoryE) (coll : List Metadata)
    (hb : buildCollection compile o false false 0 ts = .ok coll)
    (hl : ∀ t ∈ ts, ∃ el ∈ (Spec.generalSources false t).filterMap id, el.lengths ≠ none)
    (ccm : List (Int × List Str)) (C : Container) (hC : newContainer coll ccm = some C) (s region : Str) :
    (∃ (e : Option ParseErr) (n : PhoneNumber), parse C s region = .ok (e, n)) ∧
    (∃ (e : Option ParseErr) (n : PhoneNumber), parseKeepRaw C s region = .ok (e, n)) := by
  refine C06_no_panic C ?_ s region
  rw [List.all_eq_true]
  intro m hm
  obtain ⟨t, ht, h⟩ := build_mem ho ts 0 hb m (allMeta_mem hC m hm)
  exact (C60_descs compile idOrder idOrder_fair t m h).2 (hl t ht)

-- A territory that lists lengths and is accepted.
#guard (buildCollection (fun _ => some .eps) idOrder false false 0 [sampleTerritory]).toOption.isSome
example : ∀ t ∈ [sampleTerritory], ∃ el ∈ (Spec.generalSources false t).filterMap id, el.lengths ≠ none := by
  intro t ht
  rw [List.mem_singleton.1 ht]
  simp [Spec.generalSources, sampleTerritory, sampleDesc]

private theorem mapGet_of_nodup {ccm : List (Int × List Str)} (hn : (ccm.map (·.1)).Nodup) {k : Int} {v : List Str} (h : (k, v) ∈ ccm) :
    mapGet ccm k = some v := by
  induction ccm with
  | nil => cases h
  | cons p l ih =>
    obtain ⟨k', v'⟩ := p
    simp only [List.map_cons, List.nodup_cons] at hn
    rw [mapGet]
    rcases List.mem_cons.1 h with h | h
    · cases h; rw [if_pos rfl]
    · rw [if_neg (by rintro rfl; exact hn.1 (List.mem_map.2 ⟨_, h, rfl⟩))]
      exact ih hn.2 h

private theorem last_exists (p : Metadata → Prop) : ∀ l : List Metadata, (∃ z ∈ l, p z) → ∃ x, Spec.LastWith p l x
  | [], ⟨_, h, _⟩ => by cases h
  | y :: l, ⟨z, hz, hp⟩ => by
    by_cases hl : ∃ z ∈ l, p z
    · obtain ⟨x, pre, post, e, h⟩ := last_exists p l hl
      exact ⟨x, y :: pre, post, by rw [e]; rfl, h⟩
    · rcases List.mem_cons.1 hz with rfl | hz
      · exact ⟨z, [], l, rfl, hp, fun x hx hpx => hl ⟨x, hx, hpx⟩⟩
      · exact absurd ⟨z, hz, hp⟩ hl

/-- The tables of the library agree with each other if they come from the builder's map.  Assumed of the collection: regions have names and
country codes other than 0; apart from the entries of non-geographical entities ("001") names are distinct; and the code of such an entity
has no other entry. -/
theorem C60_tables (coll : List Metadata) (ccm : List (Int × List Str)) (C : Container) (hC : newContainer coll ccm = some C)
    (hm : ∀ cc, mapGet ccm cc = mapGet (regionMap coll) cc) (hn : (ccm.map (·.1)).Nodup)
    (hid : ∀ m ∈ coll, m.id ≠ []) (hcc : ∀ m ∈ coll, m.countryCode ≠ 0)
    (huniq : ∀ m ∈ coll, ∀ m' ∈ coll, m.id = m'.id → m.id ≠ str!"001" → m = m')
    (hng : ∀ m ∈ coll, m.id = str!"001" → Spec.entriesOf coll m.countryCode = [m]) :
    Spec.regionsOk C = true ∧ Spec.tablesOk C = true := by
  obtain ⟨t1, t2, t3, t4, t5, t6, t7⟩ := C53_tables coll ccm C hC
  -- a listed region comes from an entry with that code
  have entry : ∀ cc rs, (cc, rs) ∈ ccm → rs.Perm ((Spec.entriesOf coll cc).map (·.id)) ∧ rs ≠ [] := by
    intro cc rs h
    have h1 := mapGet_of_nodup hn h
    rw [hm] at h1
    have h2 := C52_regions coll hid cc
    rw [h1, Option.getD_some] at h2
    refine ⟨h2, ?_⟩
    obtain ⟨m, hm', hc⟩ := (C52_keys coll cc).1 (by rw [h1]; rfl)
    have : m.id ∈ rs := h2.mem_iff.2 (List.mem_map.2 ⟨m, List.mem_filter.2 ⟨hm', by simp [hc]⟩, rfl⟩)
    exact List.ne_nil_of_mem this
  have region : ∀ cc rs r, (cc, rs) ∈ ccm → r ∈ rs → ∃ m ∈ coll, m.id = r ∧ m.countryCode = cc := by
    intro cc rs r h hr
    obtain ⟨m, hm', he⟩ := List.mem_map.1 ((entry cc rs h).1.mem_iff.1 hr)
    obtain ⟨h1, h2⟩ := List.mem_filter.1 hm'
    exact ⟨m, h1, he, by simpa using h2⟩
  have code : ∀ m ∈ coll, C.hasCC m.countryCode = true := by
    intro m hm'
    show (mapGet C.ccToRegion m.countryCode).isSome = true
    rw [t6, hm]
    exact (C52_keys coll _).2 ⟨m, hm', rfl⟩
  have lookup : ∀ m ∈ coll, m.id ≠ str!"001" → mapGet C.regionMeta m.id = some m := by
    intro m hm' h1
    obtain ⟨x, hx⟩ := last_exists (fun x => x.id ≠ str!"001" ∧ x.id = m.id) coll ⟨m, hm', h1, rfl⟩
    obtain ⟨pre, post, e, ⟨p1, p2⟩, _⟩ := id hx
    have : x = m := huniq x (by rw [e]; simp) m hm' p2 p1
    rw [t4, ← this]
    rw [this] at hx ⊢
    exact hx
  have lookupNG : ∀ m ∈ coll, m.id = str!"001" → mapGet C.nonGeoMeta m.countryCode = some m := by
    intro m hm' h1
    obtain ⟨x, hx⟩ := last_exists (fun x => x.id = str!"001" ∧ x.countryCode = m.countryCode) coll ⟨m, hm', h1, rfl⟩
    obtain ⟨pre, post, e, ⟨p1, p2⟩, _⟩ := id hx
    have hxm : x ∈ Spec.entriesOf coll m.countryCode := List.mem_filter.2 ⟨by rw [e]; simp, by simp [p2]⟩
    rw [hng m hm' h1, List.mem_singleton] at hxm
    rw [t5, ← hxm]
    rw [hxm] at hx ⊢
    exact hx
  constructor
  · simp only [Spec.regionsOk, Bool.and_eq_true, Bool.not_eq_true', List.all_eq_true]
    constructor
    · cases h : C.hasCC 0 with
      | false => rfl
      | true =>
        have h' : (mapGet C.ccToRegion 0).isSome = true := h
        rw [t6, hm] at h'
        obtain ⟨m, hm', hc⟩ := (C52_keys coll 0).1 h'
        exact absurd hc (hcc m hm')
    · intro r hr
      obtain ⟨h1, cc, rs, h2, h3⟩ := (t1 r).1 hr
      obtain ⟨m, hm', rfl, _⟩ := region cc rs r h2 h3
      rw [lookup m hm' h1]
      exact code m hm'
  · simp only [Spec.tablesOk, List.all_eq_true, Bool.and_eq_true, decide_eq_true_eq, Bool.not_eq_true', List.isEmpty_eq_false_iff]
    rintro ⟨cc, rs⟩ he
    rw [t6] at he
    refine ⟨⟨?_, (entry cc rs he).2⟩, ?_⟩
    · simp only [Container.regionsOf, t6, mapGet_of_nodup hn he, Option.getD_some]
    · intro r hr
      obtain ⟨m, hm', rfl, rfl⟩ := region cc rs r he hr
      refine ⟨hid m hm', ?_⟩
      by_cases h1 : m.id = str!"001"
      · rw [if_pos (show m.id = nonGeoRegion from h1), lookupNG m hm' h1]
        simp only [decide_true, Bool.true_and, decide_eq_true_eq]
        have hp := (entry _ rs he).1
        rw [hng m hm' h1, List.map_singleton, h1] at hp
        exact List.perm_singleton.1 hp
      · rw [if_neg (show ¬ m.id = nonGeoRegion from h1), lookup m hm' h1]
        simp

-- The shipped collection meets the hypotheses, with the shipped table of regions.
example : (∀ cc, mapGet Data.ccMap cc = mapGet (regionMap Data.collection) cc) ∧ newContainer Data.collection Data.ccMap = some Data.container :=
  ⟨fun cc => (C52_shipped cc).symm, Data.newContainer_eq⟩

end Verif.Props
