import Verif.Lemmas.BuildFiles
import Verif.Props.C44
import Verif.Props.C95
import Verif.Props.C96
import Verif.Props.C60
/-!
# C100: what the build command writes is what the library loads
-/
namespace Verif
open Spec Builder

namespace Builder

theorem loaded_length {dc : Int → Nat} {m : List (Int × List Bytes)} {raw : Bytes} {M : Loaded (List Bytes)} (hm : m.length < 2 ^ 32)
    (hv : ValuesFit (m.flatMap (·.2))) (h : renderMap m = .ok raw) (hM : loadIntArrayMap dc raw = .ok M) : M.map.length = m.length := by
  unfold renderMap renderWith at h
  dsimp only at h
  obtain ⟨e, h1, h⟩ := bind_ok.1 h
  cases h
  have hc : ((m.map (·.1)).mergeSort (fun a b => decide (a ≤ b))).length < 256 ^ 4 := by
    rw [List.length_mergeSort, List.length_map]; exact hm
  unfold loadIntArrayMap loadWith at hM
  simp only [List.append_assoc, bind, Except.bind, rdLE_le (k := 4) (joined_size hv), rdBytes_append, rdLE_le (k := 4) hc] at hM
  split at hM
  · cases hM
  · rename_i r hr
    cases hM
    have := loadEntries_length hr
    rw [this, List.length_mergeSort, List.length_map]
    simp

theorem decode_encode_list {l : List Str} (h : ∀ s ∈ l, ValidText s) : (l.map Utf8.encode).map Utf8.decode = l := by
  rw [List.map_map]
  conv => rhs; rw [← List.map_id l]
  exact List.map_congr_left fun s hs => Utf8.decode_encode s (h s hs)

theorem encode_newline {s : Str} (hs : ValidText s) (h : 10 ∉ s) : 10 ∉ Utf8.encode s := by
  intro hc
  obtain ⟨u, hu, hc⟩ := List.mem_flatMap.1 hc
  have hv := hs u hu
  unfold Utf8.enc at hc
  unfold Utf8.validRune at hv
  have hb : badBase = 1114112 := rfl
  simp only [Bool.or_eq_true, Bool.and_eq_true, decide_eq_true_eq] at hv
  have hne : u ≠ 10 := fun e => h (e ▸ hu)
  split at hc
  · simp at hc; omega
  · split at hc
    · simp at hc; omega
    · split at hc
      · simp at hc; omega
      · split at hc
        · simp at hc; omega
        · simp at hc; omega

theorem sum_le {l : List Nat} {b : Nat} (h : ∀ x ∈ l, x ≤ b) : l.sum ≤ l.length * b := by
  induction l with
  | nil => simp
  | cons x l ih =>
    have h1 := h x (by simp)
    have h2 := ih fun y hy => h y (by simp [hy])
    rw [List.sum_cons, List.length_cons, Nat.add_mul]
    omega

theorem width_le (u : Nat) : width u ≤ 4 := by
  unfold width
  repeat' split
  all_goals omega

theorem blen_le (s : Str) : blen s ≤ s.length * 4 := by
  unfold blen
  have := sum_le (l := s.map width) (b := 4) (by
    intro x hx
    obtain ⟨u, _, rfl⟩ := List.mem_map.1 hx
    exact width_le u)
  rwa [List.length_map] at this

/-- The region file is written and loaded: the loaded map has the same entries. -/
theorem region_load (dc : Int → Nat) {ts : List TerritoryE} (hx : ∀ t ∈ ts, XmlTerritory t) (hf : RegionsFit ts) {coll : List Metadata}
    (hp : coll.map (fun m => (m.id, m.countryCode)) = ts.map fun t => (t.id, t.countryCode)) (hid : ∀ m ∈ coll, m.id ≠ [])
    {m : List (Int × List Str)} (hm : Listing m (regionMap coll)) :
    ∃ rb M, regionFile m = .ok rb ∧ loadIntArrayMap dc rb = .ok M ∧ m.Perm (M.map.map fun e => (e.1, e.2.map Utf8.decode)) := by
  obtain ⟨hk, hg⟩ := hm
  have hback : ∀ x ∈ coll, ∃ t ∈ ts, x.id = t.id ∧ x.countryCode = t.countryCode := by
    intro x hxc
    have : (x.id, x.countryCode) ∈ ts.map fun t => (t.id, t.countryCode) := hp ▸ List.mem_map.2 ⟨x, hxc, rfl⟩
    obtain ⟨t, ht, e⟩ := List.mem_map.1 this
    exact ⟨t, ht, (Prod.mk.inj e).1.symm, (Prod.mk.inj e).2.symm⟩
  have hlen : coll.length = ts.length := by simpa using congrArg List.length hp
  have hent : ∀ e ∈ m, (∃ x ∈ coll, x.countryCode = e.1) ∧ e.2.Perm ((entriesOf coll e.1).map (·.id)) := by
    intro e he
    have h1 := mapGet_of_mem_nodup hk he
    rw [hg] at h1
    refine ⟨(Props.C52_keys coll e.1).1 (by rw [h1]; rfl), ?_⟩
    have := Props.C52_regions coll hid e.1
    rwa [h1] at this
  have hval : ∀ e ∈ m, ∀ v ∈ e.2, ∃ x ∈ coll, v = x.id := by
    intro e he v hv
    obtain ⟨x, hx, rfl⟩ := List.mem_map.1 ((hent e he).2.mem_iff.1 hv)
    exact ⟨x, (List.mem_filter.1 hx).1, rfl⟩
  have hvt : ∀ e ∈ m, ∀ v ∈ e.2, ValidText v ∧ 10 ∉ v ∧ v.length ≤ 250 := by
    intro e he v hv
    obtain ⟨x, hxc, rfl⟩ := hval e he v hv
    obtain ⟨t, ht, e1, _⟩ := hback x hxc
    rw [e1]
    exact ⟨(hx t ht).texts _ (by simp [territoryTexts]), hf.newline t ht, hf.short t ht⟩
  have hml : m.length ≤ 4000 := by
    have := length_le_of_subset hk (l' := coll.map (·.countryCode)) (by
      intro k hk'
      obtain ⟨e, he, rfl⟩ := List.mem_map.1 hk'
      obtain ⟨x, hxc, e1⟩ := (hent e he).1
      exact List.mem_map.2 ⟨x, hxc, e1⟩)
    rw [List.length_map, List.length_map, hlen] at this
    have := hf.count
    omega
  have h255 : ∀ e ∈ m, e.2.length ≤ 255 := by
    intro e he
    have h1 := (hent e he).2.length_eq
    rw [List.length_map] at h1
    have h2 := hf.shared e.1
    have h3 := congrArg (fun l : List (Str × Int) => (l.filter fun p => p.2 == e.1).length) hp
    simp only [List.filter_map, List.length_map, Function.comp_def] at h3
    have h4 : (entriesOf coll e.1).length = (coll.filter fun x => x.countryCode == e.1).length := by
      unfold entriesOf
      congr 1
    omega
  have hkk : (m.map fun e => (e.1, e.2.map Utf8.encode)).map (·.1) = m.map (·.1) := by
    rw [List.map_map]; rfl
  have hK : KeysFit (m.map fun e => (e.1, e.2.map Utf8.encode)) := by
    refine ⟨hkk ▸ hk, ?_, by rw [List.length_map]; omega⟩
    intro e he
    obtain ⟨e0, he0, rfl⟩ := List.mem_map.1 he
    obtain ⟨x, hxc, e1⟩ := (hent e0 he0).1
    obtain ⟨t, ht, _, e2⟩ := hback x hxc
    have h1 := (hx t ht).countryCode
    have h2 := hf.codes t ht
    dsimp only
    omega
  have hflat : ∀ v ∈ (m.map fun e => (e.1, e.2.map Utf8.encode)).flatMap (·.2), ∃ e ∈ m, ∃ w ∈ e.2, v = Utf8.encode w := by
    intro v hv
    obtain ⟨e, he, hv⟩ := List.mem_flatMap.1 hv
    obtain ⟨e0, he0, rfl⟩ := List.mem_map.1 he
    obtain ⟨w, hw, rfl⟩ := List.mem_map.1 hv
    exact ⟨e0, he0, w, hw, rfl⟩
  have hV : ValuesFit ((m.map fun e => (e.1, e.2.map Utf8.encode)).flatMap (·.2)) := by
    refine ⟨?_, ⟨coll.map fun x => Utf8.encode x.id, ?_, ?_⟩, ?_⟩
    · intro v hv
      obtain ⟨e, he, w, hw, rfl⟩ := hflat v hv
      exact encode_newline (hvt e he w hw).1 (hvt e he w hw).2.1
    · rw [List.length_map, hlen]; have := hf.count; omega
    · intro v hv
      obtain ⟨e, he, w, hw, rfl⟩ := hflat v hv
      obtain ⟨x, hxc, rfl⟩ := hval e he w hw
      exact List.mem_map.2 ⟨x, hxc, rfl⟩
    · have s1 := sum_le (l := ((m.map fun e => (e.1, e.2.map Utf8.encode)).flatMap (·.2)).map fun v => v.length + 1) (b := 1001) (by
        intro n hn
        obtain ⟨v, hv, rfl⟩ := List.mem_map.1 hn
        obtain ⟨e, he, w, hw, rfl⟩ := hflat v hv
        have := (hvt e he w hw).2.2
        have := blen_le w
        rw [Utf8.length_encode]
        omega)
      have s2 : ((m.map fun e => (e.1, e.2.map Utf8.encode)).flatMap (·.2)).length ≤ 4000 * 255 := by
        rw [List.length_flatMap]
        refine Nat.le_trans (sum_le (b := 255) ?_) ?_
        · intro n hn
          obtain ⟨e, he, rfl⟩ := List.mem_map.1 hn
          obtain ⟨e0, he0, rfl⟩ := List.mem_map.1 he
          rw [List.length_map]
          exact h255 e0 he0
        · rw [List.length_map, List.length_map]
          exact Nat.mul_le_mul_right _ hml
      rw [List.length_map] at s1
      have s3 := Nat.mul_le_mul_right 1001 s2
      exact Nat.lt_of_le_of_lt (Nat.le_trans s1 s3) (by omega)
  obtain ⟨rb, M, r1, r2, r3, _⟩ := Props.C44_array dc _ hK hV (by
    intro e he
    obtain ⟨e0, he0, rfl⟩ := List.mem_map.1 he
    rw [List.length_map]
    exact h255 e0 he0)
  have hML := loaded_length hK.count hV r1 r2
  have hMn : (M.map.map (·.1)).Nodup := by
    refine (perm_of_covers hK.once ?_ (by rw [List.length_map, List.length_map, hML])).symm.nodup hK.once
    intro k hk'
    obtain ⟨v, hv⟩ := mapGet_some_of_mem hk'
    rw [← r3] at hv
    exact List.mem_map.2 ⟨_, mapGet_mem' hv, rfl⟩
  refine ⟨rb, M, r1, r2, ?_⟩
  have hperm := (listing_perm hK.once hMn fun k => (r3 k).symm).map fun e : Int × List Bytes => (e.1, e.2.map Utf8.decode)
  have hid' : (m.map fun e => (e.1, e.2.map Utf8.encode)).map (fun e : Int × List Bytes => (e.1, e.2.map Utf8.decode)) = m := by
    rw [List.map_map]
    conv => rhs; rw [← List.map_id m]
    refine List.map_congr_left fun e he => ?_
    show (e.1, (e.2.map Utf8.encode).map Utf8.decode) = e
    rw [decode_encode_list fun s hs => (hvt e he s hs).1]
  rwa [hid'] at hperm

theorem complete_ids {coll : List Metadata} (h : Wire.complete (coll.map (metadataMessage false)) = true) : ∀ m ∈ coll, m.id ≠ [] := by
  intro m hm he
  unfold Wire.complete at h
  have := (List.all_eq_true.1 h) _ (List.mem_map.2 ⟨m, hm, rfl⟩)
  simp [metadataMessage, he, sp] at this

end Builder

namespace Props

/-- Whatever XML the build command accepts: the file it writes reads back as the metadata it built (main metadata, short numbers and
alternate formats). -/
theorem C100_collection (o : Order) (ho : o.Fair) (order : List Wire.Field → List Wire.Field) (hw : WriteOrder order) (short alternate : Bool)
    (ts : List TerritoryE) (hx : ∀ t ∈ ts, XmlTerritory t) (coll : List Metadata) (bs : Bytes)
    (h : metadataFile parseRe o order short alternate ts = .ok (some (coll, bs))) (hs : bs.length < 2 ^ 31) :
    collectionOf bs = some coll ∧ buildCollection parseRe o short alternate 0 ts = .ok coll := by
  unfold metadataFile at h
  obtain ⟨c, h1, h⟩ := bind_ok.1 h
  simp only [pure, Except.pure, Except.ok.injEq, Option.map_eq_some_iff] at h
  obtain ⟨b, h2, h3⟩ := h
  cases h3
  obtain ⟨g, _⟩ := buildCollection_good ho hx h1
  refine ⟨?_, h1⟩
  unfold collectionOf
  rw [C95_collection order hw _ ?_ bs h2 hs, Option.bind_some, GoodMeta.mapM g]
  intro m hm
  obtain ⟨x, hx, rfl⟩ := List.mem_map.1 hm
  exact (g x hx).go alternate

private theorem sp_isSome (s : Str) : (sp s).isSome = true ↔ s ≠ [] := by
  unfold sp
  split <;> simp [*]

/-- The file is written exactly if the required fields are there: every territory has an id (alternate formats need none) and every format
has a pattern and a text. -/
theorem C100_written (o : Order) (ho : o.Fair) (order : List Wire.Field → List Wire.Field) (short alternate : Bool)
    (ts : List TerritoryE) (hx : ∀ t ∈ ts, XmlTerritory t) (coll : List Metadata)
    (h : buildCollection parseRe o short alternate 0 ts = .ok coll) :
    (∃ bs, metadataFile parseRe o order short alternate ts = .ok (some (coll, bs))) ↔
      ∀ t ∈ ts, (alternate = true ∨ t.id ≠ []) ∧ ∀ e ∈ t.formats, e.pattern ≠ [] ∧ e.format ≠ [] := by
  obtain ⟨b1, b2⟩ := buildCollection_formats ho hx h
  have hc : (∃ bs, metadataFile parseRe o order short alternate ts = .ok (some (coll, bs))) ↔
      Wire.complete (coll.map (metadataMessage alternate)) = true := by
    unfold metadataFile
    rw [h]
    simp only [bind, Except.bind, pure, Except.pure, Except.ok.injEq, Option.map_eq_some_iff, Prod.mk.injEq, true_and, exists_eq_right]
    unfold Wire.protoMarshalCollection
    split <;> simp [*]
  have hm : ∀ m : Metadata, ((metadataMessage alternate m).id.isSome = true ↔ (alternate = true ∨ m.id ≠ [])) := by
    intro m
    unfold metadataMessage
    dsimp only
    split
    · rename_i h; simp [h.1]
    · rename_i h
      rw [sp_isSome]
      constructor
      · exact .inr
      · rintro (ha | hi)
        · exact fun e => h ⟨ha, e⟩
        · exact hi
  rw [hc]
  unfold Wire.complete
  simp only [List.all_map, List.all_eq_true, Function.comp_apply, Bool.and_eq_true, hm]
  have hfm : ∀ (m : Metadata) (f : Wire.PbFormat), f ∈ (metadataMessage alternate m).formats ++ (metadataMessage alternate m).intlFormats ↔
      ∃ g ∈ m.formats ++ m.intlFormats, formatMessage g = f := by
    intro m f
    have : (metadataMessage alternate m).formats ++ (metadataMessage alternate m).intlFormats =
      (m.formats ++ m.intlFormats).map formatMessage := by rw [List.map_append]; rfl
    rw [this, List.mem_map]
  constructor
  · intro ha t ht
    obtain ⟨m, hmc, e1, e2, _⟩ := b2 t ht
    obtain ⟨a1, a2⟩ := ha m hmc
    refine ⟨e1 ▸ a1, ?_⟩
    intro e he
    have : (e.pattern, e.format) ∈ m.formats.map (fun f => (f.pattern.src, f.format)) := e2 ▸ List.mem_map.2 ⟨e, he, rfl⟩
    obtain ⟨g, hg, hge⟩ := List.mem_map.1 this
    obtain ⟨k1, k2⟩ := Prod.mk.inj hge
    have := a2 _ ((hfm m _).2 ⟨g, List.mem_append_left _ hg, rfl⟩)
    unfold formatMessage at this
    simp only [sp_isSome] at this
    rwa [k1, k2] at this
  · intro ha m hmc
    obtain ⟨t, ht, e1, e2, e3⟩ := b1 m hmc
    obtain ⟨a1, a2⟩ := ha t ht
    refine ⟨e1 ▸ a1, ?_⟩
    intro f hf
    obtain ⟨g, hg, rfl⟩ := (hfm m f).1 hf
    unfold formatMessage
    simp only [sp_isSome]
    rcases List.mem_append.1 hg with hg | hg
    · have : (g.pattern.src, g.format) ∈ t.formats.map (fun e => (e.pattern, e.format)) := e2 ▸ List.mem_map.2 ⟨g, hg, rfl⟩
      obtain ⟨e, he, hge⟩ := List.mem_map.1 this
      obtain ⟨k1, k2⟩ := Prod.mk.inj hge
      rw [← k1, ← k2]
      exact a2 e he
    · obtain ⟨k1, e, he, k2⟩ := e3 g hg
      exact ⟨k2 ▸ (a2 e he).1, k1⟩

private theorem load_built (dc : Int → Nat) (o : Order) (ho : o.Fair) (order : List Wire.Field → List Wire.Field) (hw : WriteOrder order)
    (ts : List TerritoryE) (hne : ts ≠ []) (hx : ∀ t ∈ ts, XmlTerritory t) (hf : RegionsFit ts) (coll : List Metadata) (nb : Bytes)
    (h : metadataFile parseRe o order false false ts = .ok (some (coll, nb))) (hs : nb.length < 2 ^ 31)
    (m : List (Int × List Str)) (hm : Listing m (regionMap coll)) :
    ∃ rb C D m', regionFile m = .ok rb ∧ load dc rb nb = some C ∧ newContainer coll m = some D ∧ SameContainer C D ∧
      newContainer coll m' = some C ∧ m.Perm m' ∧ (∀ x ∈ coll, x.id ≠ []) ∧
      coll.map (fun m => (m.id, m.countryCode)) = ts.map fun t => (t.id, t.countryCode) := by
  obtain ⟨h1, h2⟩ := C100_collection o ho order hw false false ts hx coll nb h hs
  obtain ⟨_, hp⟩ := buildCollection_good ho hx h2
  have hid : ∀ x ∈ coll, x.id ≠ [] := by
    unfold metadataFile at h
    obtain ⟨c, k1, h⟩ := bind_ok.1 h
    rw [h2] at k1
    cases k1
    simp only [pure, Except.pure, Except.ok.injEq, Option.map_eq_some_iff] at h
    obtain ⟨b, k2, _⟩ := h
    unfold Wire.protoMarshalCollection at k2
    split at k2
    · rename_i hc; exact complete_ids hc
    · cases k2
  have hcne : coll ≠ [] := by
    rintro rfl
    have := congrArg List.length hp
    simp only [List.map_nil, List.length_nil, List.length_map] at this
    exact hne (List.length_eq_zero_iff.1 this.symm)
  obtain ⟨rb, M, r1, r2, r3⟩ := region_load dc hx hf hp hid hm
  cases hD : newContainer coll m with
  | none => exact absurd ((C53_fails coll m).1 hD) hcne
  | some D =>
    obtain ⟨C, c1, c2⟩ := sameContainer_perm hm.1 r3 hD
    refine ⟨rb, C, D, _, r1, ?_, rfl, c2, c1, r3, hid, hp⟩
    unfold load
    rw [r2]
    dsimp only
    rw [h1, Option.bind_some, c1]

/-- The main metadata and the region map: the program starts with the written files, and its tables are those of the built metadata. -/
theorem C100_load (dc : Int → Nat) (o : Order) (ho : o.Fair) (order : List Wire.Field → List Wire.Field) (hw : WriteOrder order)
    (ts : List TerritoryE) (hne : ts ≠ []) (hx : ∀ t ∈ ts, XmlTerritory t) (hf : RegionsFit ts) (coll : List Metadata) (nb : Bytes)
    (h : metadataFile parseRe o order false false ts = .ok (some (coll, nb))) (hs : nb.length < 2 ^ 31)
    (m : List (Int × List Str)) (hm : Listing m (regionMap coll)) :
    ∃ rb C D, regionFile m = .ok rb ∧ load dc rb nb = some C ∧ newContainer coll m = some D ∧ SameContainer C D := by
  obtain ⟨rb, C, D, _, r1, r2, r3, r4, _, _⟩ := load_built dc o ho order hw ts hne hx hf coll nb h hs m hm
  exact ⟨rb, C, D, r1, r2, r3, r4⟩

/-- From XML to parsing, through the files: if every territory lists a length then no input makes `Parse` panic in the program with the
new files. -/
theorem C100_parse (dc : Int → Nat) (o : Order) (ho : o.Fair) (order : List Wire.Field → List Wire.Field) (hw : WriteOrder order)
    (ts : List TerritoryE) (hne : ts ≠ []) (hx : ∀ t ∈ ts, XmlTerritory t) (hf : RegionsFit ts) (coll : List Metadata) (nb : Bytes)
    (h : metadataFile parseRe o order false false ts = .ok (some (coll, nb))) (hs : nb.length < 2 ^ 31)
    (m : List (Int × List Str)) (hm : Listing m (regionMap coll))
    (hl : ∀ t ∈ ts, ∃ el ∈ (Spec.generalSources false t).filterMap id, el.lengths ≠ none) :
    ∃ rb C, regionFile m = .ok rb ∧ load dc rb nb = some C ∧
      ∀ s region, ∃ (e : Option ParseErr) (n : PhoneNumber), parse C s region = .ok (e, n) := by
  obtain ⟨rb, C, D, m', r1, r2, _, _, r5, _⟩ := load_built dc o ho order hw ts hne hx hf coll nb h hs m hm
  have hb := (C100_collection o ho order hw false false ts hx coll nb h hs).2
  exact ⟨rb, C, r1, r2, fun s region => (C60_parse parseRe o ho ts coll hb hl m' C r5 s region).1⟩

/-- The short numbers: what is loaded from the file is what is made of the built metadata. -/
theorem C100_short (o : Order) (ho : o.Fair) (order : List Wire.Field → List Wire.Field) (hw : WriteOrder order) (ts : List TerritoryE)
    (hx : ∀ t ∈ ts, XmlTerritory t) (coll : List Metadata) (bs : Bytes)
    (h : metadataFile parseRe o order true false ts = .ok (some (coll, bs))) (hs : bs.length < 2 ^ 31) :
    loadShort bs = loadShortNumbers coll := by
  unfold loadShort
  rw [(C100_collection o ho order hw true false ts hx coll bs h hs).1, Option.bind_some]

private theorem code_of_entry {coll : List Metadata} {m : List (Int × List Str)} {C : Container} (hn : (m.map (·.1)).Nodup)
    (hg : ∀ k, mapGet m k = mapGet (regionMap coll) k) (hC : newContainer coll m = some C) (hid : ∀ x ∈ coll, x.id ≠ []) {x : Metadata}
    (hx : x ∈ coll) (h1 : x.id ≠ str!"001") (hu : ∀ y ∈ coll, y.id = x.id → y.countryCode = x.countryCode) :
    C.ccForRegion x.id = x.countryCode := by
  obtain ⟨t1, _, _, t4, _⟩ := C53_tables coll m C hC
  have hsup : x.id ∈ C.supportedRegions := by
    refine (t1 x.id).2 ⟨h1, ?_⟩
    cases hl : mapGet m x.countryCode with
    | none =>
      have := (C52_keys coll x.countryCode).2 ⟨x, hx, rfl⟩
      rw [← hg, hl] at this
      cases this
    | some l =>
      refine ⟨x.countryCode, l, mapGet_mem' hl, ?_⟩
      have hp := C52_regions coll hid x.countryCode
      rw [← hg, hl] at hp
      exact hp.mem_iff.2 (List.mem_map.2 ⟨x, List.mem_filter.2 ⟨hx, by simp⟩, rfl⟩)
  have hval : C.validRegion x.id = true := by
    unfold Container.validRegion
    rw [Bool.and_eq_true]
    exact ⟨decide_eq_true (hid x hx), decide_eq_true hsup⟩
  have hmeta : ∃ y, mapGet C.regionMeta x.id = some y := by
    unfold newContainer at hC
    split at hC
    · cases hC
    · cases hC
      dsimp only
      rw [foldl_addMetadata]
      refine mapGet_some_of_mem ?_
      simp only [List.append_nil, List.mem_map, List.mem_reverse, List.mem_filter]
      exact ⟨(x.id, x), ⟨x, ⟨hx, decide_eq_true h1⟩, rfl⟩, rfl⟩
  obtain ⟨y, hy⟩ := hmeta
  obtain ⟨a, b, e, ⟨_, e2⟩, _⟩ := (t4 x.id y).1 hy
  unfold Container.ccForRegion Container.ccForValidRegion Container.metaForRegion
  rw [if_pos hval, if_pos hval, hy]
  exact hu y (by rw [e]; simp) e2

/-- What a program with the new files says about the XML: every territory with an id is a region with the country code given there. -/
theorem C100_code (dc : Int → Nat) (o : Order) (ho : o.Fair) (order : List Wire.Field → List Wire.Field) (hw : WriteOrder order)
    (ts : List TerritoryE) (hx : ∀ t ∈ ts, XmlTerritory t) (hf : RegionsFit ts) (coll : List Metadata) (nb : Bytes)
    (h : metadataFile parseRe o order false false ts = .ok (some (coll, nb))) (hs : nb.length < 2 ^ 31)
    (m : List (Int × List Str)) (hm : Listing m (regionMap coll)) (t : TerritoryE) (ht : t ∈ ts) (h1 : t.id ≠ str!"001")
    (hu : ∀ t' ∈ ts, t'.id = t.id → t'.countryCode = t.countryCode) :
    ∃ rb C, regionFile m = .ok rb ∧ load dc rb nb = some C ∧ C.ccForRegion t.id = t.countryCode := by
  obtain ⟨rb, C, D, m', r1, r2, _, _, r5, r6, hid, hp⟩ :=
    load_built dc o ho order hw ts (List.ne_nil_of_mem ht) hx hf coll nb h hs m hm
  refine ⟨rb, C, r1, r2, ?_⟩
  have : (t.id, t.countryCode) ∈ coll.map (fun m => (m.id, m.countryCode)) := hp ▸ List.mem_map.2 ⟨t, ht, rfl⟩
  obtain ⟨x, hxc, e⟩ := List.mem_map.1 this
  obtain ⟨e1, e2⟩ := Prod.mk.inj e
  rw [← e1, ← e2]
  refine code_of_entry ((r6.map (·.1)).nodup hm.1) (fun k => ?_) r5 hid hxc (e1 ▸ h1) ?_
  · rw [← hm.2]; exact (mapGet_perm hm.1 r6 k).symm
  · intro y hy hye
    have : (y.id, y.countryCode) ∈ ts.map (fun t => (t.id, t.countryCode)) := hp ▸ List.mem_map.2 ⟨y, hy, rfl⟩
    obtain ⟨t', ht', e'⟩ := List.mem_map.1 this
    obtain ⟨e3, e4⟩ := Prod.mk.inj e'
    rw [← e4, e2]
    exact hu t' ht' (e3.trans (hye.trans e1))

/-! Two territories that share a country code, with patterns, lengths and formats. -/

private def gb : TerritoryE :=
  { id := str!"GB", countryCode := 44, mainCountry := true, nationalPrefix := str!"0", internationalPrefix := str!"00",
    npRule := str!"$NP$FG", general := some { pattern := str!"[1-9]\\d{9}" },
    fixedLine := some { pattern := str!"[1-6]\\d{9}", lengths := some { national := str!"10", localOnly := str!"[6-8]" }, ex := str!"1212345678" },
    mobile := some { pattern := str!"7\\d{9}", lengths := some { national := str!"10" }, ex := str!"7400123456" },
    formats := [{ pattern := str!"(\\d{4})(\\d{6})", leadingDigits := [str!"7[1-57-9]"], format := str!"$1 $2" }] }

private def je : TerritoryE :=
  { id := str!"JE", countryCode := 44, nationalPrefix := str!"0", internationalPrefix := str!"00", general := some { pattern := str!"1534\\d{6}" },
    fixedLine := some { pattern := str!"1534\\d{6}", lengths := some { national := str!"10" } } }

example : (∀ t ∈ [gb, je], XmlTerritory t) ∧ RegionsFit [gb, je] ∧
    (∀ t ∈ [gb, je], ∃ el ∈ (Spec.generalSources false t).filterMap id, el.lengths ≠ none) := by
  have h : ∀ t ∈ [gb, je], (∀ s ∈ territoryTexts t, ∀ u ∈ s, Utf8.validRune u = true) ∧ -2 ^ 31 ≤ t.countryCode ∧ t.countryCode < 2 ^ 31 := by
    intro t ht
    simp only [List.mem_cons, List.not_mem_nil, or_false] at ht
    rcases ht with rfl | rfl <;> decide
  refine ⟨fun t ht => ⟨(h t ht).1, (h t ht).2⟩, ⟨by decide, by decide, by decide, by decide, ?_⟩, ?_⟩
  · intro cc
    exact Nat.le_trans (List.length_filter_le _ _) (by decide)
  · intro t ht
    simp only [List.mem_cons, List.not_mem_nil, or_false] at ht
    rcases ht with rfl | rfl <;> simp [Spec.generalSources, gb, je]

/-- The files of the two territories, loaded again: number of bytes, the regions of 44 and the country code of Jersey. -/
private def roundTrip (ts : List TerritoryE) : Option (Nat × Nat × List Str × Int) :=
  match metadataFile parseRe idOrder id false false ts with
  | .ok (some (coll, nb)) =>
    match regionFile [(44, (mapGet (regionMap coll) 44).getD [])] with
    | .ok rb => (load (fun _ => 0) rb nb).map fun C => (nb.length, rb.length, C.regionCodes 44, C.ccForRegion (str!"JE"))
    | .error _ => none
  | _ => none

#guard roundTrip [gb, je] = some (442, 19, [str!"GB", str!"JE"], 44)
-- Without an id the file is not written: `id` is a required field.
#guard roundTrip [{ gb with id := [] }, je] = none
-- The order of the elements does not decide which region is the main one.
#guard (roundTrip [je, gb]).map (·.2.2.1) = some [str!"GB", str!"JE"]

end Props
end Verif
