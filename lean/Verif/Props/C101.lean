import Verif.Lemmas.BuildRun
import Verif.Props.C100
import Verif.Props.C87
/-!
# C101: the build command, stopped at any point, run again, or run to its end
-/
namespace Verif
open Spec Builder

namespace Builder

theorem entries_listing {ν : Type} (f : List (Int × ν)) : Listing (entries f) f := by
  have hmem : ∀ k v, (k, v) ∈ entries f ↔ mapGet f k = some v := by
    intro k v
    unfold entries
    simp only [List.mem_filterMap, List.mem_eraseDups, List.mem_map, Option.map_eq_some_iff, Prod.mk.injEq]
    constructor
    · rintro ⟨_, _, w, h, rfl, rfl⟩; exact h
    · intro h
      exact ⟨k, ⟨(k, v), mapGet_mem' h, rfl⟩, v, h, rfl, rfl⟩
  have hk : ((entries f).map (·.1)).Nodup := by
    unfold entries
    have : ∀ l : List Int, l.Nodup → (((l.filterMap fun k => (mapGet f k).map fun v => (k, v))).map (·.1)).Nodup := by
      intro l
      induction l with
      | nil => simp
      | cons a l ih =>
        intro hn
        rw [List.nodup_cons] at hn
        rw [List.filterMap_cons]
        cases hg : mapGet f a with
        | none => exact ih hn.2
        | some v =>
          simp only [Option.map_some, List.map_cons, List.nodup_cons]
          refine ⟨?_, ih hn.2⟩
          intro hc
          obtain ⟨⟨k, w⟩, h1, h2⟩ := List.mem_map.1 hc
          simp only [List.mem_filterMap, Option.map_eq_some_iff, Prod.mk.injEq] at h1
          obtain ⟨_, h1, _, _, rfl, _⟩ := h1
          exact hn.1 (h2 ▸ h1)
    exact this _ (eraseDups_nodup _)
  refine ⟨hk, fun k => ?_⟩
  cases hg : mapGet f k with
  | some v => exact mapGet_of_mem_nodup hk ((hmem k v).2 hg)
  | none =>
    cases he : mapGet (entries f) k with
    | none => rfl
    | some v => rw [(hmem k v).1 (mapGet_mem' he)] at hg; cases hg

theorem languagePath_inj {dir a b : Bytes} (h : languagePath dir a = languagePath dir b) : a = b := by
  unfold languagePath at h
  exact List.append_cancel_left (List.append_cancel_right h)

variable {compile : Str → Option Re} {o : Order} {order : List Wire.Field → List Wire.Field} {gz : Bytes → Bytes} {src : Sources} {version : Bytes}

/-- The paths that the command writes. -/
theorem writes_outputs {w : Bytes × Bytes} (h : w ∈ (buildRun compile o order gz src version).writes) : w.1 ∈ outputs src := by
  unfold buildRun at h
  unfold outputs
  simp only [List.mem_append, List.mem_map]
  split at h
  · cases h
  · rcases Job.andThen_sub h with h | h
    · obtain ⟨_, _, rfl⟩ := Job.file_sub h; left; left; left; simp [mainPath]
    rcases Job.andThen_sub h with h | h
    · obtain ⟨_, _, rfl⟩ := Job.file_sub h; left; left; left; simp [shortPath]
    rcases Job.andThen_sub h with h | h
    · obtain ⟨_, _, rfl⟩ := Job.file_sub h; left; left; left; simp [alternatePath]
    rcases Job.andThen_sub h with h | h
    · obtain ⟨_, _, rfl⟩ := Job.file_sub h; left; left; left; simp [regionPath]
    rcases Job.andThen_sub h with h | h
    · obtain ⟨_, _, rfl⟩ := Job.file_sub h; left; left; left; simp [zonePath]
    rcases Job.andThen_sub h with h | h
    · obtain ⟨e, he, raw, _, rfl⟩ := prefixJob_sub h
      exact .inl (.inl (.inr ⟨e, he, rfl⟩))
    rcases Job.andThen_sub h with h | h
    · obtain ⟨e, he, raw, _, rfl⟩ := prefixJob_sub h
      exact .inl (.inr ⟨e, he, rfl⟩)
    · obtain ⟨_, _, rfl⟩ := Job.file_sub h; right; simp [versionPath]

theorem made_paths (gz : Bytes → Bytes) (version : Bytes) (M : Made compile o order src) :
    ((buildRun compile o order gz src version).writes.map (·.1)).Perm (outputs src) := by
  rw [(buildRun_made gz version M).2]
  obtain ⟨c1, _⟩ := prefixJob_writes (prefixJob_done (gz := gz) (dir := str!"carrier/data").2 M.carrier)
  obtain ⟨g1, _⟩ := prefixJob_writes (prefixJob_done (gz := gz) (dir := str!"geocoding/data").2 M.geocoding)
  unfold outputs
  simp only [List.map_append, List.append_assoc]
  refine List.Perm.append (.refl _) (List.Perm.append c1 (List.Perm.append g1 (.refl _)))

theorem outputs_nodup (hl : Listed src) : (outputs src).Nodup := by
  have hc : ∀ l : List (Bytes × List Bytes), (l.map (·.1)).Nodup → ∀ dir, (l.map fun e => languagePath dir e.1).Nodup := by
    intro l hn dir
    have : (l.map fun e => languagePath dir e.1) = (l.map (·.1)).map (languagePath dir) := by rw [List.map_map]; rfl
    rw [this]
    unfold List.Nodup at hn ⊢
    rw [List.pairwise_map]
    exact hn.imp fun h e => h (languagePath_inj e)
  have h1 := hc _ hl.carrier (str!"carrier/data")
  have h2 := hc _ hl.geocoding (str!"geocoding/data")
  have e1 : ∀ p ∈ src.carrier.map (fun l => str!"carrier/data/" ++ l.1 ++ str!".txt.gz"), p.head? = some 99 := by
    intro p hp
    obtain ⟨e, _, rfl⟩ := List.mem_map.1 hp
    rfl
  have e2 : ∀ p ∈ src.geocoding.map (fun l => str!"geocoding/data/" ++ l.1 ++ str!".txt.gz"), p.head? = some 103 := by
    intro p hp
    obtain ⟨e, _, rfl⟩ := List.mem_map.1 hp
    rfl
  unfold outputs
  rw [List.nodup_append, List.nodup_append, List.nodup_append]
  refine ⟨⟨⟨by decide, h1, ?_⟩, h2, ?_⟩, by simp, ?_⟩
  · intro a ha b hb hab
    subst hab
    have := e1 a hb
    simp only [List.mem_cons, List.not_mem_nil, or_false] at ha
    rcases ha with rfl | rfl | rfl | rfl | rfl <;> exact absurd this (by decide)
  · intro a ha b hb hab
    subst hab
    have hg := e2 a hb
    rcases List.mem_append.1 ha with ha | ha
    · simp only [List.mem_cons, List.not_mem_nil, or_false] at ha
      rcases ha with rfl | rfl | rfl | rfl | rfl <;> exact absurd hg (by decide)
    · rw [e1 a ha] at hg; exact absurd hg (by decide)
  · intro a ha b hb hab
    subst hab
    simp only [List.mem_cons, List.not_mem_nil, or_false] at hb
    subst hb
    simp only [List.mem_append] at ha
    rcases ha with (ha | ha) | ha
    · revert ha; decide
    · exact absurd (e1 _ ha) (by decide)
    · exact absurd (e2 _ ha) (by decide)

theorem made_after (hl : Listed src) (gz : Bytes → Bytes) (version : Bytes) (M : Made compile o order src) (d : Disk) {p b : Bytes}
    (h : (p, b) ∈ (buildRun compile o order gz src version).writes) :
    d.after (buildRun compile o order gz src version).writes p = some b :=
  Disk.after_mem ((made_paths gz version M).nodup_iff.2 (outputs_nodup hl)) h

theorem cutAfter_skip {sep : Bytes} {c : Nat} {r : Bytes} (hs : sep = c :: r) {a s : Bytes} (h : c ∉ a) : cutAfter sep (a ++ s) = cutAfter sep s := by
  subst hs
  induction a with
  | nil => rfl
  | cons x a ih =>
    simp only [List.mem_cons, not_or] at h
    rw [List.cons_append, cutAfter, if_neg (by simp [List.isPrefixOf, h.1]), ih h.2]

theorem cutAfter_here (sep s : Bytes) (h : sep ≠ []) : cutAfter sep (sep ++ s) = some s := by
  cases sep with
  | nil => exact absurd rfl h
  | cons c r =>
    rw [List.cons_append, cutAfter, if_pos (by rw [List.isPrefixOf_iff_prefix, ← List.cons_append]; exact List.prefix_append _ _), ← List.cons_append,
      List.drop_left]

theorem splitByte_line {l s : Bytes} (h : 10 ∉ l) : splitByte 10 (l ++ 10 :: s) = l :: splitByte 10 s := by
  induction l with
  | nil => rw [List.nil_append, splitByte, if_pos rfl]
  | cons b l ih =>
    simp only [List.mem_cons, not_or] at h
    rw [List.cons_append, splitByte, if_neg (fun e => h.1 e.symm), ih h.2]

theorem splitByte_last {l : Bytes} (h : 10 ∉ l) : splitByte 10 l = [l] := by
  induction l with
  | nil => rfl
  | cons b l ih =>
    simp only [List.mem_cons, not_or] at h
    rw [splitByte, if_neg (fun e => h.1 e.symm), ih h.2]

/-- The line without its newline. -/
def tagText (e : Bytes × Bytes) : Bytes := e.1 ++ str!"\trefs/tags/" ++ e.2

theorem tagText_newline {e : Bytes × Bytes} (h : IsHash e.1) (t : IsTag e.2) : 10 ∉ tagText e := by
  intro hc
  unfold tagText at hc
  simp only [List.mem_append] at hc
  rcases hc with (hc | hc) | hc
  · have := h.2 _ hc; omega
  · revert hc; decide
  · have := t.2 _ hc; omega

theorem splitByte_tags (l : List (Bytes × Bytes)) (e : Bytes × Bytes) (h : ∀ x ∈ l ++ [e], IsHash x.1 ∧ IsTag x.2) :
    splitByte 10 (l.flatMap (fun x => tagText x ++ [10]) ++ tagText e) = (l ++ [e]).map tagText := by
  induction l with
  | nil =>
    have := h e (by simp)
    simpa using splitByte_last (tagText_newline this.1 this.2)
  | cons x l ih =>
    have hx := h x (by simp)
    rw [List.flatMap_cons, List.append_assoc, List.append_assoc, List.singleton_append, splitByte_line (tagText_newline hx.1 hx.2),
      ih fun y hy => h y (List.mem_cons_of_mem _ hy)]
    rfl

theorem firstTag_tags (l : List (Bytes × Bytes)) (h : ∀ x ∈ l, IsHash x.1 ∧ IsTag x.2) :
    firstTag (l.map tagText) = (l.map (·.2)).find? (fun t => t.head? == some 118) := by
  induction l with
  | nil => rfl
  | cons x l ih =>
    have hx := h x (by simp)
    have hc : cutAfter (str!"refs/tags/") (tagText x) = some x.2 := by
      have e : tagText x = (x.1 ++ [9]) ++ (str!"refs/tags/" ++ x.2) := by
        unfold tagText
        rw [List.append_assoc, List.append_assoc]; rfl
      rw [e, cutAfter_skip (c := 114) rfl, cutAfter_here _ _ (by decide)]
      intro hm
      simp only [List.mem_append, List.mem_singleton] at hm
      rcases hm with hm | hm
      · have := hx.1.2 _ hm; omega
      · omega
    rw [List.map_cons, firstTag, hc, List.map_cons, List.find?_cons]
    dsimp only
    cases hh : (x.2.head? == some 118) with
    | true => simp
    | false =>
      simp only [Bool.false_eq_true, if_false]
      exact ih fun y hy => h y (by simp [hy])

theorem trim_ends {s : Bytes} {a z : Nat} (m : Bytes) (e : s = a :: m) (ha : isAsciiSpace a = false) (t : Bytes) (ez : s = t ++ [z])
    (hz : isAsciiSpace z = false) (sp : Nat) (hs : isAsciiSpace sp = true) :
    ((((s ++ [sp]).dropWhile isAsciiSpace).reverse).dropWhile isAsciiSpace).reverse = s := by
  have h1 : (s ++ [sp]).dropWhile isAsciiSpace = s ++ [sp] := by rw [e, List.cons_append, List.dropWhile_cons, ha]; rfl
  rw [h1, List.reverse_append, List.reverse_singleton, List.singleton_append, List.dropWhile_cons, hs, if_pos rfl, ez, List.reverse_append,
    List.reverse_singleton, List.singleton_append, List.dropWhile_cons, hz]
  simp

end Builder

namespace Props

/-- A run that comes to its end has written every file it is for, each with what is made of the sources, and no other file. -/
theorem C101_files (compile : Str → Option Re) (o : Order) (order : List Wire.Field → List Wire.Field) (gz : Bytes → Bytes) (src : Sources)
    (hl : Listed src) (version : Bytes) (h : (buildRun compile o order gz src version).done = true) (d d' : Disk)
    (hd : d' = d.after (buildRun compile o order gz src version).writes) :
    (∃ coll nb m rb, metadataFile compile o order false false src.main = .ok (some (coll, nb)) ∧
        d' (str!"metadata/data/metadata.xml.gz") = some (gz nb) ∧ Listing m (regionMap coll) ∧ regionFile m = .ok rb ∧
        d' (str!"metadata/data/countrycode_to_region.xml.gz") = some (gz rb)) ∧
      (∃ coll sb, metadataFile compile o order true false src.short = .ok (some (coll, sb)) ∧
        d' (str!"data/shortnumber_metadata.xml.gz") = some (gz sb)) ∧
      (∃ coll ab, metadataFile compile o order false true src.alternate = .ok (some (coll, ab)) ∧
        d' (str!"data/alternateformats_metadata.xml.gz") = some (gz ab)) ∧
      (∃ m zb, readZones src.zones = .ok m ∧ renderMap m = .ok zb ∧ d' (str!"timezone/data/prefix_to_timezone.xml.gz") = some (gz zb)) ∧
      (∀ e ∈ src.carrier, ∃ m raw, readMappings e.2 = .ok m ∧ renderPrefixMap m = .ok (some raw) ∧
        d' (str!"carrier/data/" ++ e.1 ++ str!".txt.gz") = some (gz raw)) ∧
      (∀ e ∈ src.geocoding, ∃ m raw, readMappings e.2 = .ok m ∧ renderPrefixMap m = .ok (some raw) ∧
        d' (str!"geocoding/data/" ++ e.1 ++ str!".txt.gz") = some (gz raw)) ∧
      d' (str!"metadata/version.go") = some (versionText version) ∧
      ∀ q, q ∉ outputs src → d' q = d q := by
  obtain ⟨M⟩ := buildRun_done h
  subst hd
  have hw := (buildRun_made gz version M).2
  have ha := fun p b hm => made_after hl gz version M d (p := p) (b := b) (hw ▸ hm)
  have hcar := (prefixJob_writes (prefixJob_done (gz := gz) (dir := str!"carrier/data").2 M.carrier)).2
  have hgeo := (prefixJob_writes (prefixJob_done (gz := gz) (dir := str!"geocoding/data").2 M.geocoding)).2
  refine ⟨⟨M.coll, M.nb, _, M.rb, M.main, ha _ _ (by simp [mainPath]), entries_listing _, M.region, ha _ _ (by simp [regionPath])⟩,
    ⟨M.scoll, M.sb, M.short, ha _ _ (by simp [shortPath])⟩, ⟨M.acoll, M.ab, M.alternate, ha _ _ (by simp [alternatePath])⟩, ?_, ?_, ?_,
    ha _ _ (by simp [versionPath]), ?_⟩
  · have hz := M.zone
    unfold zoneBytes at hz
    split at hz
    · cases hz
    · rename_i m hm
      exact ⟨m, M.zb, hm, okBytes_some.1 hz, ha _ _ (by simp [zonePath])⟩
  · intro e he
    obtain ⟨raw, h1, h2⟩ := hcar e he
    obtain ⟨m, h3, h4⟩ := tableBytes_some.1 h1
    exact ⟨m, raw, h3, h4, ha _ _ (List.mem_append_right _ (List.mem_append_left _ h2))⟩
  · intro e he
    obtain ⟨raw, h1, h2⟩ := hgeo e he
    obtain ⟨m, h3, h4⟩ := tableBytes_some.1 h1
    exact ⟨m, raw, h3, h4, ha _ _ (List.mem_append_right _ (List.mem_append_right _ (List.mem_append_left _ h2)))⟩
  · intro q hq
    refine Disk.after_not_mem fun hc => hq ?_
    obtain ⟨w, hw, rfl⟩ := List.mem_map.1 hc
    exact writes_outputs hw

/-- The library that is built from the files of a complete run has the metadata of the sources: `gunzip` undoes the compression, and what
`init` and the short number functions load is what is built from the XML. -/
theorem C101_program (dc : Int → Nat) (o : Order) (ho : o.Fair) (order : List Wire.Field → List Wire.Field) (hw : WriteOrder order)
    (gz : Bytes → Bytes) (gunzip : Bytes → Option Bytes) (hz : ∀ b, gunzip (gz b) = some b) (src : Sources) (hl : Listed src)
    (hne : src.main ≠ []) (hx : ∀ t ∈ src.main, XmlTerritory t) (hxs : ∀ t ∈ src.short, XmlTerritory t) (hf : RegionsFit src.main)
    (hs : ∀ r, metadataFile parseRe o order false false src.main = .ok (some r) → r.2.length < 2 ^ 31)
    (hs' : ∀ r, metadataFile parseRe o order true false src.short = .ok (some r) → r.2.length < 2 ^ 31)
    (version : Bytes) (h : (buildRun parseRe o order gz src version).done = true) (d d' : Disk)
    (hd : d' = d.after (buildRun parseRe o order gz src version).writes) :
    ∃ coll scoll m nb rb sb C D, buildCollection parseRe o false false 0 src.main = .ok coll ∧
      buildCollection parseRe o true false 0 src.short = .ok scoll ∧ Listing m (regionMap coll) ∧
      (d' (str!"metadata/data/metadata.xml.gz")).bind gunzip = some nb ∧
      (d' (str!"metadata/data/countrycode_to_region.xml.gz")).bind gunzip = some rb ∧
      (d' (str!"data/shortnumber_metadata.xml.gz")).bind gunzip = some sb ∧
      load dc rb nb = some C ∧ newContainer coll m = some D ∧ SameContainer C D ∧ loadShort sb = loadShortNumbers scoll := by
  obtain ⟨⟨coll, nb, m, rb, f1, f2, f3, f4, f5⟩, ⟨scoll, sb, s1, s2⟩, _⟩ := C101_files parseRe o order gz src hl version h d d' hd
  obtain ⟨rb', C, D, g1, g2, g3, g4⟩ := C100_load dc o ho order hw src.main hne hx hf coll nb f1 (hs _ f1) m f3
  rw [f4] at g1
  cases g1
  refine ⟨coll, scoll, m, nb, rb, sb, C, D, (C100_collection o ho order hw false false _ hx coll nb f1 (hs _ f1)).2,
    (C100_collection o ho order hw true false _ hxs scoll sb s1 (hs' _ s1)).2, f3, ?_, ?_, ?_, g2, g3, g4,
    C100_short o ho order hw src.short hxs scoll sb s1 (hs' _ s1)⟩
  · rw [f2]; exact hz nb
  · rw [f5]; exact hz rb
  · rw [s2]; exact hz sb

/-- The same for the tables of the carriers (those of the places are alike) and the time zones. -/
theorem C101_tables (dc : Int → Nat) (compile : Str → Option Re) (o : Order) (order : List Wire.Field → List Wire.Field)
    (gz : Bytes → Bytes) (gunzip : Bytes → Option Bytes) (hz : ∀ b, gunzip (gz b) = some b) (src : Sources) (hl : Listed src)
    (version : Bytes) (h : (buildRun compile o order gz src version).done = true) (d d' : Disk)
    (hd : d' = d.after (buildRun compile o order gz src version).writes) :
    (∀ dir, dir = (str!"carrier/data/", src.carrier) ∨ dir = (str!"geocoding/data/", src.geocoding) → ∀ e ∈ dir.2, ∀ ls, Lines e.2 ls →
        (∀ f ∈ e.2, ∀ b ∈ f, b < 256) → (e.2.map (fun f => f.length)).sum < 2 ^ 32 → (∀ l ∈ ls, ∀ k v, Entry l k v → k < 2 ^ 42) →
        ∃ raw M, (d' (dir.1 ++ e.1 ++ str!".txt.gz")).bind gunzip = some raw ∧ loadPrefixMap dc raw = .ok M ∧
          ∀ k v, mapGet M.map k = some v ↔ ∃ l ∈ ls, Entry l k v) ∧
      ∀ ls, Pieces '\n'.toNat src.zones ls → (∀ b ∈ src.zones, b < 256) → src.zones.length < 2 ^ 32 →
        (∀ l ∈ ls, ∀ k v, Row l k v → 0 ≤ k ∧ k < 2 ^ 42) → (∀ k zs, LastZones ls k zs → zs.length ≤ 255) →
        (∃ ds : List Bytes, ds.length ≤ 65535 ∧ ∀ k zs, LastZones ls k zs → ∀ z ∈ zs, z ∈ ds) →
        ∃ raw M, (d' (str!"timezone/data/prefix_to_timezone.xml.gz")).bind gunzip = some raw ∧ loadIntArrayMap dc raw = .ok M ∧
          ∀ k zs, mapGet M.map k = some zs ↔ LastZones ls k zs := by
  obtain ⟨_, _, _, ⟨zm, zb, z1, z2, z3⟩, hc, hg, _⟩ := C101_files compile o order gz src hl version h d d' hd
  constructor
  · intro dir hdir e he ls hls hb hsize hkeys
    have key : ∃ m raw, readMappings e.2 = .ok m ∧ renderPrefixMap m = .ok (some raw) ∧ d' (dir.1 ++ e.1 ++ str!".txt.gz") = some (gz raw) := by
      rcases hdir with rfl | rfl
      · exact hc e he
      · exact hg e he
    obtain ⟨m, raw, h1, h2, h3⟩ := key
    have hv : (sortedValues (m.map (·.2))).length ≤ 65535 := by
      unfold renderPrefixMap at h2
      dsimp only at h2
      split at h2
      · cases h2
      · omega
    obtain ⟨_, hmem⟩ := C87_table e.2 ls hls hb m h1
    obtain ⟨raw', M, g1, g2, g3, _⟩ := C87_loaded dc e.2 ls hls hb hsize hkeys
      ⟨sortedValues (m.map (·.2)), hv, fun l hl k v he => by
        have := (hmem k v).2 ⟨l, hl, he⟩
        exact sortedValues_mem.2 (List.mem_map.2 ⟨_, this, rfl⟩)⟩ m m h1 (.refl _)
    rw [h2] at g1
    cases g1
    exact ⟨raw, M, by rw [h3]; exact hz raw, g2, g3⟩
  · intro ls hls hb hsize hkeys hcount hval
    obtain ⟨raw', M, g1, g2, g3⟩ := C87_zones_loaded dc src.zones ls hls hb hsize hkeys hcount hval zm zm z1 (.refl _)
    rw [z2] at g1
    cases g1
    exact ⟨zb, M, by rw [z3]; exact hz zb, g2, g3⟩

/-- The run comes to its end exactly if each of the files can be made. -/
theorem C101_done (compile : Str → Option Re) (o : Order) (order : List Wire.Field → List Wire.Field) (gz : Bytes → Bytes) (src : Sources)
    (version : Bytes) : (buildRun compile o order gz src version).done = true ↔
      (∃ coll nb rb, metadataFile compile o order false false src.main = .ok (some (coll, nb)) ∧
        regionFile (entries (regionMap coll)) = .ok rb) ∧
      (∃ r, metadataFile compile o order true false src.short = .ok (some r)) ∧
      (∃ r, metadataFile compile o order false true src.alternate = .ok (some r)) ∧
      (∃ m zb, readZones src.zones = .ok m ∧ renderMap m = .ok zb) ∧
      ∀ e ∈ src.carrier ++ src.geocoding, ∃ m raw, readMappings e.2 = .ok m ∧ renderPrefixMap m = .ok (some raw) := by
  constructor
  · intro h
    obtain ⟨M⟩ := buildRun_done h
    refine ⟨⟨M.coll, M.nb, M.rb, M.main, M.region⟩, ⟨_, M.short⟩, ⟨_, M.alternate⟩, ?_, ?_⟩
    · have hz := M.zone
      unfold zoneBytes at hz
      split at hz
      · cases hz
      · rename_i m hm
        exact ⟨m, M.zb, hm, okBytes_some.1 hz⟩
    · intro e he
      rcases List.mem_append.1 he with he | he
      · obtain ⟨raw, hr⟩ := M.carrier e he
        obtain ⟨m, h⟩ := tableBytes_some.1 hr
        exact ⟨m, raw, h⟩
      · obtain ⟨raw, hr⟩ := M.geocoding e he
        obtain ⟨m, h⟩ := tableBytes_some.1 hr
        exact ⟨m, raw, h⟩
  · rintro ⟨⟨coll, nb, rb, h1, h2⟩, ⟨⟨sc, sb⟩, h3⟩, ⟨⟨ac, ab⟩, h4⟩, ⟨m, zb, h5, h6⟩, h7⟩
    have ht : ∀ e ∈ src.carrier ++ src.geocoding, ∃ raw, tableBytes e.2 = some raw := by
      intro e he
      obtain ⟨m, raw, h⟩ := h7 e he
      exact ⟨raw, tableBytes_some.2 ⟨m, h⟩⟩
    exact (buildRun_made gz version (src := src) (compile := compile) (o := o) (order := order)
      { coll := coll, nb := nb, scoll := sc, sb := sb, acoll := ac, ab := ab, rb := rb, zb := zb
        main := h1, short := h3, alternate := h4, region := h2, zone := by unfold zoneBytes; rw [h5]; exact okBytes_some.2 h6
        carrier := fun e he => ht e (List.mem_append_left _ he), geocoding := fun e he => ht e (List.mem_append_right _ he) }).1

/-- Wherever the run stops, by an error, a panic or from outside: a file holds what it held before, or a first part of (or all of) what
the run writes to it; a file that the command is not for is as before. -/
theorem C101_stop (compile : Str → Option Re) (o : Order) (order : List Wire.Field → List Wire.Field) (gz : Bytes → Bytes) (src : Sources)
    (version : Bytes) (d d' : Disk) (h : Seen d (buildRun compile o order gz src version).writes d') (q : Bytes) :
    d' q = d q ∨ (q ∈ outputs src ∧ ∃ b part, (q, b) ∈ (buildRun compile o order gz src version).writes ∧ part <+: b ∧ d' q = some part) := by
  rcases h.cases q with h | ⟨b, part, h1, h2, h3⟩
  · exact .inl h
  · exact .inr ⟨writes_outputs h1, b, part, h1, h2, h3⟩

/-- The file with the version is the last one: if at any moment it is other than before the run then the run has written all of its other
files, completely. -/
theorem C101_version (compile : Str → Option Re) (o : Order) (order : List Wire.Field → List Wire.Field) (gz : Bytes → Bytes) (src : Sources)
    (hl : Listed src) (version : Bytes) (d d' : Disk) (h : Seen d (buildRun compile o order gz src version).writes d')
    (hv : d' (str!"metadata/version.go") ≠ d (str!"metadata/version.go")) :
    (buildRun compile o order gz src version).done = true ∧
      (∃ part, part <+: versionText version ∧ d' (str!"metadata/version.go") = some part) ∧
      ∀ q, q ≠ str!"metadata/version.go" → d' q = d.after (buildRun compile o order gz src version).writes q := by
  have hdone : (buildRun compile o order gz src version).done = true := by
    rcases h.cases (str!"metadata/version.go") with h | ⟨b, part, h1, _, _⟩
    · exact absurd h hv
    · unfold buildRun at h1 ⊢
      split at h1
      · cases h1
      · rename_i coll nb hm
        have key : ∀ {a b : Job} {e : Bytes × Bytes}, e ∈ (a.andThen b).writes → e ∉ a.writes → a.done = true ∧ e ∈ b.writes := by
          intro a b e he hn
          unfold Job.andThen at he
          split at he
          · rename_i hd
            exact ⟨hd, (List.mem_append.1 he).resolve_left hn⟩
          · exact absurd he hn
        have nf : ∀ {p : Bytes} {c : Option Bytes}, p ≠ str!"metadata/version.go" → (str!"metadata/version.go", b) ∉ (Job.file p c).writes := by
          intro p c hp hc
          obtain ⟨_, _, he⟩ := Job.file_sub hc
          exact hp (Prod.mk.inj he).1.symm
        have np : ∀ {dir : Bytes} {ls : List (Bytes × List Bytes)} {c : Nat}, dir.head? = some c → c ≠ 109 →
            (str!"metadata/version.go", b) ∉ (prefixJob gz dir ls).writes := by
          intro dir ls c hd hc hm
          obtain ⟨e, _, raw, _, he⟩ := prefixJob_sub hm
          have := congrArg List.head? (Prod.mk.inj he).1
          cases dir with
          | nil => cases hd
          | cons x dir =>
            simp only [languagePath, List.cons_append, List.head?_cons, Option.some.injEq] at this hd
            omega
        obtain ⟨d1, h1⟩ := key h1 (nf (by decide))
        obtain ⟨d2, h1⟩ := key h1 (nf (by decide))
        obtain ⟨d3, h1⟩ := key h1 (nf (by decide))
        obtain ⟨d4, h1⟩ := key h1 (nf (by decide))
        obtain ⟨d5, h1⟩ := key h1 (nf (by decide))
        obtain ⟨d6, h1⟩ := key h1 (np (c := 99) rfl (by decide))
        obtain ⟨d7, h1⟩ := key h1 (np (c := 103) rfl (by decide))
        simp only [Job.andThen_done]
        exact ⟨d1, d2, d3, d4, d5, d6, d7, rfl⟩
  obtain ⟨M⟩ := buildRun_done hdone
  have hw := (buildRun_made gz version M).2
  have hperm := made_paths gz version M
  have hn := hperm.nodup_iff.2 (outputs_nodup hl)
  rw [hw, ← List.append_assoc, ← List.append_assoc] at h hn
  rw [List.map_append, List.nodup_append] at hn
  have hnot : str!"metadata/version.go" ∉
      ((([(mainPath, gz M.nb), (shortPath, gz M.sb), (alternatePath, gz M.ab), (regionPath, gz M.rb), (zonePath, gz M.zb)] ++
        (prefixJob gz (str!"carrier/data") src.carrier).writes) ++ (prefixJob gz (str!"geocoding/data") src.geocoding).writes).map (·.1)) :=
    fun hm => hn.2.2 _ hm _ (by simp [versionPath]) rfl
  refine ⟨hdone, ?_⟩
  rw [hw, ← List.append_assoc, ← List.append_assoc, Disk.after_append]
  rcases h.split with h | h
  · exact absurd (h.not_mem hnot) hv
  · rcases h.singleton with rfl | ⟨part, hp, rfl⟩
    · exact absurd (Disk.after_not_mem hnot) hv
    · refine ⟨⟨part, hp, Disk.set_self _ _ _⟩, fun q hq => ?_⟩
      exact (Disk.set_ne _ _ hq).trans (Disk.set_ne _ _ hq).symm

/-- A run that was stopped anywhere can be repaired by running the command again on the same sources: what is then on the disk does not
depend on the stopped run. -/
theorem C101_again (compile : Str → Option Re) (o o' : Order) (order order' : List Wire.Field → List Wire.Field) (gz : Bytes → Bytes) (src : Sources)
    (version version' : Bytes) (d d' : Disk) (h : Seen d (buildRun compile o' order' gz src version').writes d')
    (hdone : (buildRun compile o order gz src version).done = true) :
    d'.after (buildRun compile o order gz src version).writes = d.after (buildRun compile o order gz src version).writes := by
  obtain ⟨M⟩ := buildRun_done hdone
  refine Disk.after_congr fun q hq => h.not_mem fun hc => hq ?_
  obtain ⟨w, hw, rfl⟩ := List.mem_map.1 hc
  exact (made_paths gz version M).mem_iff.2 (writes_outputs hw)

/-- Findings.  The files of a release do not appear together: as soon as the main metadata can be made there is a moment at which they are on
the disk while every other file, among them the map of the regions and the version, is that of the release before; if the short number
metadata cannot be made this is how the run ends. -/
theorem C101_mixed (compile : Str → Option Re) (o : Order) (order : List Wire.Field → List Wire.Field) (gz : Bytes → Bytes) (src : Sources)
    (version : Bytes) (d : Disk) (coll : List Metadata) (nb : Bytes)
    (h : metadataFile compile o order false false src.main = .ok (some (coll, nb))) :
    (∃ d', Seen d (buildRun compile o order gz src version).writes d' ∧ d' (str!"metadata/data/metadata.xml.gz") = some (gz nb) ∧
        ∀ q, q ≠ str!"metadata/data/metadata.xml.gz" → d' q = d q) ∧
      ((∀ r, metadataFile compile o order true false src.short ≠ .ok (some r)) →
        (buildRun compile o order gz src version).done = false ∧
          (buildRun compile o order gz src version).writes = [(str!"metadata/data/metadata.xml.gz", gz nb)]) := by
  constructor
  · refine ⟨d.set mainPath (gz nb), ?_, Disk.set_self _ _ _, fun q hq => Disk.set_ne _ _ hq⟩
    unfold buildRun
    rw [okFile_some.2 h]
    dsimp only
    rw [Job.andThen_writes rfl]
    exact .next _ _ _ _ _ (.stop _ _)
  · intro hs
    have : okFile (metadataFile compile o order true false src.short) = none := by
      cases hc : okFile (metadataFile compile o order true false src.short) with
      | none => rfl
      | some r => exact absurd (okFile_some.1 hc) (hs r)
    unfold buildRun
    rw [okFile_some.2 h, this]
    exact ⟨rfl, rfl⟩

/-- Finding: the table of a language that upstream no longer has stays on the disk (and in the next build of the library, which embeds
`data/*.gz`). -/
theorem C101_stale (compile : Str → Option Re) (o : Order) (order : List Wire.Field → List Wire.Field) (gz : Bytes → Bytes) (src : Sources)
    (version : Bytes) (d d' : Disk) (h : Seen d (buildRun compile o order gz src version).writes d') (lang : Bytes)
    (hc : ∀ e ∈ src.carrier, e.1 ≠ lang) (hg : ∀ e ∈ src.geocoding, e.1 ≠ lang) :
    d' (str!"carrier/data/" ++ lang ++ str!".txt.gz") = d (str!"carrier/data/" ++ lang ++ str!".txt.gz") ∧
      d' (str!"geocoding/data/" ++ lang ++ str!".txt.gz") = d (str!"geocoding/data/" ++ lang ++ str!".txt.gz") := by
  have hout : ∀ q, q ∉ outputs src → d' q = d q := fun q hq => h.not_mem fun hm => by
    obtain ⟨w, hw, rfl⟩ := List.mem_map.1 hm
    exact hq (writes_outputs hw)
  have hfix : ∀ (c : Nat) (t : Bytes), c = 99 ∨ c = 103 →
      c :: t ∉ [str!"metadata/data/metadata.xml.gz", str!"data/shortnumber_metadata.xml.gz", str!"data/alternateformats_metadata.xml.gz",
        str!"metadata/data/countrycode_to_region.xml.gz", str!"timezone/data/prefix_to_timezone.xml.gz"] ∧ c :: t ∉ [str!"metadata/version.go"] := by
    intro c t hc
    simp only [List.mem_cons, List.not_mem_nil, or_false, List.cons.injEq]
    omega
  constructor
  · refine hout _ ?_
    intro hm
    unfold outputs at hm
    simp only [List.mem_append] at hm
    rcases hm with ((hm | hm) | hm) | hm
    · exact (hfix 99 _ (.inl rfl)).1 hm
    · obtain ⟨e, he, h⟩ := List.mem_map.1 hm
      exact hc e he (languagePath_inj (dir := str!"carrier/data") h)
    · obtain ⟨e, he, h⟩ := List.mem_map.1 hm
      have := congrArg List.head? h
      simp at this
    · exact (hfix 99 _ (.inl rfl)).2 hm
  · refine hout _ ?_
    intro hm
    unfold outputs at hm
    simp only [List.mem_append] at hm
    rcases hm with ((hm | hm) | hm) | hm
    · exact (hfix 103 _ (.inr rfl)).1 hm
    · obtain ⟨e, he, h⟩ := List.mem_map.1 hm
      have := congrArg List.head? h
      simp at this
    · obtain ⟨e, he, h⟩ := List.mem_map.1 hm
      exact hg e he (languagePath_inj (dir := str!"geocoding/data") h)
    · exact (hfix 103 _ (.inr rfl)).2 hm

/-- The release that is built: the argument if there is one, otherwise the first tag that git lists whose name begins with `v`. -/
theorem C101_release (tags : List (Bytes × Bytes)) (hne : tags ≠ []) (ht : ∀ x ∈ tags, IsHash x.1 ∧ IsTag x.2) :
    resolveVersion [] (tags.flatMap fun x => tagLine x.1 x.2) = (tags.map (·.2)).find? (fun t => t.head? == some 'v'.toNat) ∧
      ∀ v rest out, resolveVersion (v :: rest) out = some v := by
  refine ⟨?_, fun _ _ _ => rfl⟩
  obtain ⟨l, e, rfl⟩ : ∃ l e, tags = l ++ [e] := ⟨tags.dropLast, tags.getLast hne, (List.dropLast_concat_getLast hne).symm⟩
  have hs : ((l ++ [e]).flatMap fun x => tagLine x.1 x.2) = (l.flatMap (fun x => tagText x ++ [10]) ++ tagText e) ++ [10] := by
    rw [List.flatMap_append, List.flatMap_singleton, List.append_assoc]
    rfl
  show latestUpstreamRelease _ = _
  unfold latestUpstreamRelease
  rw [hs]
  have hsp : ∀ b, 32 < b → isAsciiSpace b = false := by
    intro b hb
    unfold isAsciiSpace
    simp only [Bool.or_eq_false_iff, decide_eq_false_iff_not, beq_eq_false_iff_ne]
    omega
  have hhead : ∃ a m, l.flatMap (fun x => tagText x ++ [10]) ++ tagText e = a :: m ∧ isAsciiSpace a = false := by
    have key : ∀ x : Bytes × Bytes, IsHash x.1 → ∀ r, ∃ a m, tagText x ++ r = a :: m ∧ isAsciiSpace a = false := by
      intro x hx r
      unfold tagText
      cases hc : x.1 with
      | nil => exact absurd hc hx.1
      | cons a t =>
        refine ⟨a, _, rfl, hsp a ?_⟩
        have := hx.2 a (by simp [hc])
        omega
    cases l with
    | nil => simpa using key e (ht e (by simp)).1 []
    | cons x l =>
      obtain ⟨a, m, h1, h2⟩ := key x (ht x (by simp)).1 ([10] ++ l.flatMap (fun x => tagText x ++ [10]) ++ tagText e)
      exact ⟨a, m, by rw [← h1]; simp, h2⟩
  have hlast : ∃ t z, l.flatMap (fun x => tagText x ++ [10]) ++ tagText e = t ++ [z] ∧ isAsciiSpace z = false := by
    have := (ht e (by simp)).2
    refine ⟨l.flatMap (fun x => tagText x ++ [10]) ++ (e.1 ++ str!"\trefs/tags/") ++ e.2.dropLast, e.2.getLast this.1, ?_,
      hsp _ (this.2 _ (List.getLast_mem this.1))⟩
    unfold tagText
    simp only [List.append_assoc]
    rw [List.dropLast_concat_getLast]
  obtain ⟨a, m, h1, h2⟩ := hhead
  obtain ⟨t, z, h3, h4⟩ := hlast
  rw [trim_ends m h1 h2 t h3 h4 10 (by decide), splitByte_tags l e ht, firstTag_tags _ ht]
  rfl

/-! A small set of sources.  The compression is the identity here. -/

private def nz : TerritoryE :=
  { id := str!"NZ", countryCode := 64, nationalPrefix := str!"0", internationalPrefix := str!"00", npRule := str!"$NP$FG",
    general := some { pattern := str!"[2-9]\\d{7,9}" },
    fixedLine := some { pattern := str!"[3-9]\\d{7}", lengths := some { national := str!"8" }, ex := str!"32345678" },
    formats := [{ pattern := str!"(\\d)(\\d{3})(\\d{4})", format := str!"$1-$2 $3" }] }

private def shortNz : TerritoryE :=
  { id := str!"NZ", countryCode := 0, general := some { pattern := str!"1\\d\\d" },
    shortCode := some { pattern := str!"111", lengths := some { national := str!"3" }, ex := str!"111" },
    emergency := some { pattern := str!"111", lengths := some { national := str!"3" }, ex := str!"111" } }

private def small : Sources :=
  { main := [nz], short := [shortNz], alternate := [], zones := str!"64|Pacific/Auckland\n",
    carrier := [(str!"en", [str!"6421|Vodafone\n"])], geocoding := [(str!"fr", [str!"643|Christchurch\n"]), (str!"en", [str!"643|Christchurch\n"])] }

example : Listed small ∧ small.main ≠ [] ∧ (∀ t ∈ small.main, XmlTerritory t) ∧ (∀ t ∈ small.short, XmlTerritory t) ∧ RegionsFit small.main := by
  have h : ∀ t ∈ [nz, shortNz], (∀ s ∈ territoryTexts t, ∀ u ∈ s, Utf8.validRune u = true) ∧ -2 ^ 31 ≤ t.countryCode ∧ t.countryCode < 2 ^ 31 := by
    intro t ht
    simp only [List.mem_cons, List.not_mem_nil, or_false] at ht
    rcases ht with rfl | rfl <;> decide
  have h1 := h nz (by simp)
  have h2 := h shortNz (by simp)
  refine ⟨⟨by decide, by decide⟩, by decide, ?_, ?_, ⟨by decide, by decide, by decide, by decide, ?_⟩⟩
  · intro t ht
    obtain rfl := List.mem_singleton.1 ht
    exact ⟨h1.1, h1.2⟩
  · intro t ht
    obtain rfl := List.mem_singleton.1 ht
    exact ⟨h2.1, h2.2⟩
  · intro cc
    exact Nat.le_trans (List.length_filter_le _ _) (by decide)

private def smallRun (src : Sources) : Bool × List Bytes :=
  let j := buildRun parseRe idOrder id id src (str!"v9.0.37")
  (j.done, j.writes.map (·.1))

-- The run ends; the languages are in the order of their names and the version is last.
#guard smallRun small = (true, [mainPath, shortPath, alternatePath, regionPath, zonePath, str!"carrier/data/en.txt.gz",
  str!"geocoding/data/en.txt.gz", str!"geocoding/data/fr.txt.gz", versionPath])
-- A time zone file with a bad line: four files are new, the others and the version are old.
#guard smallRun { small with zones := str!"64\n" } = (false, [mainPath, shortPath, alternatePath, regionPath])
-- A repeated prefix in the last language of the carriers: no carrier file is written, but the files before are.
#guard smallRun { small with carrier := small.carrier ++ [(str!"zh", [str!"6421|A\n6421|B\n"])] } =
  (false, [mainPath, shortPath, alternatePath, regionPath, zonePath])
-- The short number metadata without an id: the case of `C101_mixed`.
#guard smallRun { small with short := [{ shortNz with id := [] }] } = (false, [mainPath])

/-- The hypotheses of `C101_release`: three tags, the first of which is not a release. -/
example : let tags := [(str!"1f3a", str!"libphonenumber-7.0"), (str!"0b", str!"v9.0.37"), (str!"77", str!"v9.0.36")]
    (∀ x ∈ tags, IsHash x.1 ∧ IsTag x.2) ∧ resolveVersion [] (tags.flatMap fun x => tagLine x.1 x.2) = some (str!"v9.0.37") := by
  intro tags
  have ht : ∀ x ∈ tags, IsHash x.1 ∧ IsTag x.2 := by
    intro x hx
    simp only [tags, List.mem_cons, List.not_mem_nil, or_false] at hx
    rcases hx with rfl | rfl | rfl <;> exact ⟨⟨by decide, by decide⟩, by decide, by decide⟩
  exact ⟨ht, by rw [(C101_release tags (by simp [tags]) ht).1]; decide⟩

/-- A disk seen in the middle of a write, as in `C101_stop` and `C101_version`. -/
example (d : Disk) : Seen d [(str!"a", str!"xyz"), (str!"b", str!"uvw")] ((d.set (str!"a") (str!"xyz")).set (str!"b") (str!"u")) :=
  .next _ _ _ _ _ (.during _ _ _ _ _ ⟨str!"vw", rfl⟩)

end Props
end Verif
