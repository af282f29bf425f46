import Verif.Lemmas.TextFiles
import Verif.Props.C44
import Verif.Props.C45
import Verif.Data.Decode
/-!
# C87: the tables of carriers, areas and time zones say what the text files say
-/
namespace Verif.Props
open Verif.Spec

/-- Carrier and geocoding files: reading succeeds exactly if every line with two fields begins with a non-negative integer and no
two lines give the same prefix a value. -/
theorem C87_reads (files ls : List Bytes) (hl : Lines files ls) (hb : ∀ f ∈ files, ∀ b ∈ f, b < 256) :
    (∃ m, readMappings files = .ok m) ↔
      (∀ l ∈ ls, ∀ p v, Fields l p v → ∃ k, 0 ≤ k ∧ IntText p k) ∧
        ls.Pairwise (fun l l' => ∀ k v v', Entry l k v → ¬ Entry l' k v') := by
  obtain rfl := (lines_iff files ls).1 hl
  have hs : ∀ l ∈ files.flatMap (splitByte 10), ∀ b ∈ l, b < 256 := by
    intro l hl b hbl
    obtain ⟨f, hf, h⟩ := List.mem_flatMap.1 hl
    exact hb f hf b (splitByte_mem h hbl)
  constructor
  · rintro ⟨m, h⟩
    obtain ⟨_, _, h3, h4, _⟩ := readMappingLines_ok hs h (by simp)
    exact ⟨h3, h4⟩
  · rintro ⟨h1, h2⟩
    exact readMappingLines_total hs h1 h2 (by simp)

/-- The table that is read has exactly the entries of the lines, every prefix once. -/
theorem C87_table (files ls : List Bytes) (hl : Lines files ls) (hb : ∀ f ∈ files, ∀ b ∈ f, b < 256) (m : List (Int × Bytes))
    (h : readMappings files = .ok m) : (m.map (·.1)).Nodup ∧ ∀ k v, (k, v) ∈ m ↔ ∃ l ∈ ls, Entry l k v := by
  obtain rfl := (lines_iff files ls).1 hl
  have hs : ∀ l ∈ files.flatMap (splitByte 10), ∀ b ∈ l, b < 256 := by
    intro l hl b hbl
    obtain ⟨f, hf, h⟩ := List.mem_flatMap.1 hl
    exact hb f hf b (splitByte_mem h hbl)
  obtain ⟨h1, h2, _⟩ := readMappingLines_ok hs h (by simp)
  exact ⟨h1, fun k v => by rw [h2]; simp⟩

/-- From the text files to the answers: what the library loads gives a prefix exactly the value of its line, in whatever order the
builder visits its map.  The limits are those of the file format: prefixes below 2^42, at most 65535 different values, 4 GB. -/
theorem C87_loaded (dc : Int → Nat) (files ls : List Bytes) (hl : Lines files ls) (hb : ∀ f ∈ files, ∀ b ∈ f, b < 256)
    (hsize : (files.map (fun f => f.length)).sum < 2 ^ 32) (hkeys : ∀ l ∈ ls, ∀ k v, Entry l k v → k < 2 ^ 42)
    (hval : ∃ ds : List Bytes, ds.length ≤ 65535 ∧ ∀ l ∈ ls, ∀ k v, Entry l k v → v ∈ ds)
    (m m' : List (Int × Bytes)) (h : readMappings files = .ok m) (hp : m'.Perm m) :
    ∃ raw M, renderPrefixMap m' = .ok (some raw) ∧ loadPrefixMap dc raw = .ok M ∧
      (∀ k v, mapGet M.map k = some v ↔ ∃ l ∈ ls, Entry l k v) ∧ ∀ k, mapGet M.map k = mapGet m k := by
  obtain ⟨hn, hmem⟩ := C87_table files ls hl hb m h
  have hgood := ((C87_reads files ls hl hb).1 ⟨m, h⟩).1
  obtain rfl := (lines_iff files ls).1 hl
  have hs : ∀ l ∈ files.flatMap (splitByte 10), ∀ b ∈ l, b < 256 := by
    intro l hl b hbl
    obtain ⟨f, hf, h⟩ := List.mem_flatMap.1 hl
    exact hb f hf b (splitByte_mem h hbl)
  have hsz : (m.map (fun e => e.2.length + 1)).sum < 2 ^ 32 := by
    have h1 := readMappingLines_size hs h
    have h2 := lines_length files
    simp only [List.map_nil, List.sum_nil] at h1
    omega
  have hn' : (m'.map (·.1)).Nodup := (hp.map _).nodup_iff.2 hn
  have hsz' : (m'.map (fun e => e.2.length + 1)).sum < 2 ^ 32 := by rw [(hp.map _).sum_nat]; exact hsz
  have hkf : KeysFit m' := by
    refine ⟨hn', fun e he => ?_, ?_⟩
    · obtain ⟨l, hl', hent⟩ := (hmem e.1 e.2).1 (hp.mem_iff.1 he)
      refine ⟨?_, hkeys l hl' _ _ hent⟩
      obtain ⟨p, hf, hi⟩ := hent.1
      obtain ⟨k, h0, hk⟩ := hgood l hl' p _ hf
      rw [← atoi_iff] at hi hk
      rw [hi] at hk
      cases hk; exact h0
    · have := length_le_sum m' (fun e => e.2.length + 1) (by simp)
      omega
  have hvf : ValuesFit (m'.map (·.2)) := by
    refine ⟨fun v hv => ?_, ?_, ?_⟩
    · obtain ⟨e, he, rfl⟩ := List.mem_map.1 hv
      obtain ⟨l, hl', hent⟩ := (hmem e.1 e.2).1 (hp.mem_iff.1 he)
      obtain ⟨f, hf, h'⟩ := List.mem_flatMap.1 hl'
      intro h10
      exact (pieces_split 10 f).2.1 l h' (row_value (hs l hl') hent.1 10 h10)
    · obtain ⟨ds, h1, h2⟩ := hval
      refine ⟨ds, h1, fun v hv => ?_⟩
      obtain ⟨e, he, rfl⟩ := List.mem_map.1 hv
      obtain ⟨l, hl', hent⟩ := (hmem e.1 e.2).1 (hp.mem_iff.1 he)
      exact h2 l hl' _ _ hent
    · rw [List.map_map]; exact hsz'
  obtain ⟨raw, M, h1, h2, h3, _⟩ := C44_prefix dc m' hkf hvf
  have h4 : ∀ k, mapGet M.map k = mapGet m k := fun k => by rw [h3, mapGet_perm hn' hp]
  refine ⟨raw, M, h1, h2, fun k v => ?_, h4⟩
  rw [h4, mapGet_iff hn, hmem]

/-- The lookup for a number: the value of the line with the longest prefix of its digits, empty if no prefix has a line. -/
theorem C87_lookup (dc : Int → Nat) (files ls : List Bytes) (hl : Lines files ls) (hb : ∀ f ∈ files, ∀ b ∈ f, b < 256)
    (hsize : (files.map (fun f => f.length)).sum < 2 ^ 32) (hkeys : ∀ l ∈ ls, ∀ k v, Entry l k v → k < 2 ^ 42)
    (hval : ∃ ds : List Bytes, ds.length ≤ 65535 ∧ ∀ l ∈ ls, ∀ k v, Entry l k v → v ∈ ds)
    (m m' : List (Int × Bytes)) (h : readMappings files = .ok m) (hp : m'.Perm m) (ds : Str) (hd : AllDigits ds) (L : Nat)
    (hL : 1 ≤ L) (hL' : L ≤ 19) :
    ∃ raw M v k, renderPrefixMap m' = .ok (some raw) ∧ loadPrefixMap dc raw = .ok M ∧
      valueForNumber (some M.map) L ('+'.toNat :: ds) = some (v, k) ∧
      ((∃ j : Nat, k = (j : Int) ∧ LongestEntry ls ds (L - 1) j v) ∨ (NoEntry ls ds (L - 1) ∧ v = [] ∧ k = 0)) := by
  obtain ⟨raw, M, h1, h2, h3, h4⟩ := C87_loaded dc files ls hl hb hsize hkeys hval m m' h hp
  obtain ⟨hn, hmem⟩ := C87_table files ls hl hb m h
  obtain ⟨v, k, j1, j2⟩ := C45_lookup m hn ds hd L hL hL'
  refine ⟨raw, M, v, k, h1, h2, by rw [valueForNumber_congr h4]; exact j1, ?_⟩
  rcases j2 with ⟨p, j, rfl, j2⟩ | ⟨j2, j3⟩
  · refine Or.inl ⟨j, rfl, p, j2.isPrefix, j2.nonEmpty, j2.within, j2.denotes, (hmem _ _).1 j2.value, ?_⟩
    intro q i w a b c d l hl' he
    exact j2.longest q i w a b c d ((hmem _ _).2 ⟨l, hl', he⟩)
  · refine Or.inr ⟨fun q i w a b c d l hl' he => ?_, j3⟩
    exact j2 q i w a b c d ((hmem _ _).2 ⟨l, hl', he⟩)

/-- The time zone file: reading succeeds exactly if every line with content has two fields, the first an integer. -/
theorem C87_zones_read (file : Bytes) (ls : List Bytes) (hl : Pieces '\n'.toNat file ls) (hb : ∀ b ∈ file, b < 256) :
    (∃ m, readZones file = .ok m) ↔ ∀ l ∈ ls, ¬ Skipped l → ∃ k v, Row l k v := by
  obtain rfl := (pieces_iff _ _ _).1 hl
  exact readZoneLines_total (fun l h b hbl => hb b (splitByte_mem h hbl)) []

/-- The zones of a prefix are those of the last line with this prefix. -/
theorem C87_zones_table (file : Bytes) (ls : List Bytes) (hl : Pieces '\n'.toNat file ls) (hb : ∀ b ∈ file, b < 256)
    (m : List (Int × List Bytes)) (h : readZones file = .ok m) : (m.map (·.1)).Nodup ∧ ∀ k zs, (k, zs) ∈ m ↔ LastZones ls k zs := by
  obtain rfl := (pieces_iff _ _ _).1 hl
  obtain ⟨h1, h2⟩ := readZoneLines_ok (fun l h b hbl => hb b (splitByte_mem h hbl)) h (by simp)
  exact ⟨h1, fun k zs => by rw [h2]; simp⟩

/-- From the time zone file to what the library loads; at most 255 zones on a line, and no negative prefix. -/
theorem C87_zones_loaded (dc : Int → Nat) (file : Bytes) (ls : List Bytes) (hl : Pieces '\n'.toNat file ls) (hb : ∀ b ∈ file, b < 256)
    (hsize : file.length < 2 ^ 32) (hkeys : ∀ l ∈ ls, ∀ k v, Row l k v → 0 ≤ k ∧ k < 2 ^ 42)
    (hcount : ∀ k zs, LastZones ls k zs → zs.length ≤ 255)
    (hval : ∃ ds : List Bytes, ds.length ≤ 65535 ∧ ∀ k zs, LastZones ls k zs → ∀ z ∈ zs, z ∈ ds)
    (m m' : List (Int × List Bytes)) (h : readZones file = .ok m) (hp : m'.Perm m) :
    ∃ raw M, renderMap m' = .ok raw ∧ loadIntArrayMap dc raw = .ok M ∧ ∀ k zs, mapGet M.map k = some zs ↔ LastZones ls k zs := by
  obtain ⟨hn, hmem⟩ := C87_zones_table file ls hl hb m h
  obtain rfl := (pieces_iff _ _ _).1 hl
  have hs : ∀ l ∈ splitByte 10 file, ∀ b ∈ l, b < 256 := fun l h b hbl => hb b (splitByte_mem h hbl)
  have hsz : (m.map (fun e => (e.2.map (fun v => v.length + 1)).sum)).sum < 2 ^ 32 := by
    have h1 := readZoneLines_size hs h
    have h2 := lines_length [file]
    simp only [List.flatMap_cons, List.flatMap_nil, List.append_nil, List.map_cons, List.map_nil, List.sum_cons, List.sum_nil] at h1 h2
    omega
  have hn' : (m'.map (·.1)).Nodup := (hp.map _).nodup_iff.2 hn
  have hsz' : (m'.map (fun e => (e.2.map (fun v => v.length + 1)).sum)).sum < 2 ^ 32 := by rw [(hp.map _).sum_nat]; exact hsz
  have hkf : KeysFit m' := by
    refine ⟨hn', fun e he => ?_, ?_⟩
    · obtain ⟨a, l, b, v, hls, hrow, _⟩ := (hmem e.1 e.2).1 (hp.mem_iff.1 he)
      exact hkeys l (by rw [hls]; simp) _ _ hrow
    · have := length_le_sum m' (fun e => (e.2.map (fun v => v.length + 1)).sum) (fun e he => by
        obtain ⟨a, l, b, v, _, _, hz, _⟩ := (hmem e.1 e.2).1 (hp.mem_iff.1 he)
        obtain ⟨hz, _⟩ := hz
        cases hz' : e.2 with
        | nil => exact absurd hz' hz
        | cons z zs => simp; omega)
      omega
  have hvf : ValuesFit (m'.flatMap (·.2)) := by
    refine ⟨fun z hz h10 => ?_, ?_, ?_⟩
    · obtain ⟨e, he, hz⟩ := List.mem_flatMap.1 hz
      obtain ⟨a, l, b, v, hls, hrow, hpc, _⟩ := (hmem e.1 e.2).1 (hp.mem_iff.1 he)
      have hl' : l ∈ splitByte 10 file := by
        have : l ∈ a ++ l :: b := by simp
        rw [← hls] at this; exact this
      rw [pieces_iff] at hpc
      refine (pieces_split 10 file).2.1 l hl' (row_value (hs l hl') hrow 10 ?_)
      exact splitByte_mem (by rw [hpc]; exact hz) h10
    · obtain ⟨ds, h1, h2⟩ := hval
      refine ⟨ds, h1, fun z hz => ?_⟩
      obtain ⟨e, he, hz⟩ := List.mem_flatMap.1 hz
      exact h2 _ _ ((hmem e.1 e.2).1 (hp.mem_iff.1 he)) z hz
    · rw [sum_flatMap_values]; exact hsz'
  obtain ⟨raw, M, h1, h2, h3, _⟩ := C44_array dc m' hkf hvf (fun e he => hcount _ _ ((hmem e.1 e.2).1 (hp.mem_iff.1 he)))
  refine ⟨raw, M, h1, h2, fun k zs => ?_⟩
  rw [h3, mapGet_perm hn' hp, mapGet_iff hn, hmem]

/-- The time zone file may have a negative prefix as far as reading goes, but the builder then panics. -/
theorem C87_zones_negative (file : Bytes) (ls : List Bytes) (hl : Pieces '\n'.toNat file ls) (hb : ∀ b ∈ file, b < 256)
    (hneg : ∃ l ∈ ls, ∃ k v, Row l k v ∧ k < 0) (m m' : List (Int × List Bytes)) (h : readZones file = .ok m) (hp : m'.Perm m) :
    renderMap m' = .error .index := by
  obtain ⟨hn, hmem⟩ := C87_zones_table file ls hl hb m h
  obtain ⟨l, hl', k, v, hrow, hk⟩ := hneg
  have hlast : ∀ ls : List Bytes, l ∈ ls → ∃ zs, LastZones ls k zs := by
    intro ls
    induction ls with
    | nil => intro h; cases h
    | cons x ls ih =>
      intro hx
      by_cases hin : ∃ l ∈ ls, ∃ w, Row l k w
      · have : ∀ ls : List Bytes, (∃ l ∈ ls, ∃ w, Row l k w) → ∃ zs, LastZones ls k zs := by
          intro ls
          induction ls with
          | nil => rintro ⟨_, h, _⟩; cases h
          | cons y ls ih =>
            rintro ⟨l, hl, w, hw⟩
            by_cases hin : ∃ l ∈ ls, ∃ w, Row l k w
            · obtain ⟨zs, h⟩ := ih hin; exact ⟨zs, lastZones_cons.2 (Or.inl h)⟩
            · rcases List.mem_cons.1 hl with rfl | hl
              · exact ⟨_, lastZones_cons.2 (Or.inr ⟨fun l' h' w' hw' => hin ⟨l', h', w', hw'⟩, w, hw, pieces_split _ _⟩)⟩
              · exact absurd ⟨l, hl, w, hw⟩ hin
        obtain ⟨zs, h⟩ := this ls hin
        exact ⟨zs, lastZones_cons.2 (Or.inl h)⟩
      · rcases List.mem_cons.1 hx with rfl | hx
        · exact ⟨_, lastZones_cons.2 (Or.inr ⟨fun l' h' w' hw' => hin ⟨l', h', w', hw'⟩, v, hrow, pieces_split _ _⟩)⟩
        · obtain ⟨zs, h⟩ := ih hx; exact ⟨zs, lastZones_cons.2 (Or.inl h)⟩
  obtain ⟨zs, hz⟩ := hlast ls hl'
  unfold renderMap
  refine renderWith_negative _ _ m' (e := (k, zs)) (hp.mem_iff.2 ((hmem k zs).2 hz)) hk (fun e he => ?_)
  obtain ⟨_, l', _, v', _, hrow', _⟩ := (hmem e.1 e.2).1 (hp.mem_iff.1 he)
  obtain ⟨_, _, d, n, _, _, ⟨_, _, h⟩ | ⟨_, _, h⟩⟩ := hrow' <;> omega

/-- A small carrier file with a comment, a blank line and a line without value; and a time zone file. -/
def carrierText : Bytes := str!"# carriers\n4178|Sunrise\n \n4179|Salt\n4177|\nno prefix\n"
def zoneText : Bytes := str!"1|America/Chicago&America/New_York\n44|Europe/London\n44|Europe/Jersey"

/-- The files are read as expected; a repeated prefix and a line that does not begin with a number are errors; surrounding white
space, such as the return of a Windows line end, stays part of the value; a second bar makes the line disappear, but is an error in
the time zone file. -/
theorem C87_cases :
    readMappings [carrierText] = .ok [(4179, str!"Salt"), (4178, str!"Sunrise")] ∧
    readMappings [str!"4178|Sunrise\n", str!"4178|Salt\n"] = .error (.repeated (str!"4178|Salt")) ∧
    readMappings [str!"x|Sunrise\n"] = .error (.badPrefix (str!"x|Sunrise")) ∧
    readMappings [str!"4178|Sunrise\r\n"] = .ok [(4178, str!"Sunrise\r")] ∧
    readMappings [str!"4178|Sunrise|\n4179|Salt"] = .ok [(4179, str!"Salt")] ∧
    readZones zoneText = .ok [(44, [str!"Europe/Jersey"]), (1, [str!"America/Chicago", str!"America/New_York"])] ∧
    readZones (str!"44|Europe/London|\n") = .error (.badFormat (str!"44|Europe/London|")) ∧
    readZones (str!"-1|Europe/London\n") = .ok [(-1, [str!"Europe/London"])] := by
  refine ⟨?_, ?_, ?_, ?_, ?_, ?_, ?_, ?_⟩ <;> kernel_rfl

/-- The hypotheses of `C87_loaded` are met by the small file. -/
example : Lines [carrierText] (splitByte 10 carrierText) ∧ (∀ f ∈ [carrierText], ∀ b ∈ f, b < 256) ∧
    (∃ m, readMappings [carrierText] = .ok m) ∧ (∃ l ∈ splitByte 10 carrierText, Entry l 4178 (str!"Sunrise")) := by
  have hl : Lines [carrierText] (splitByte 10 carrierText) := by rw [lines_iff]; simp
  have hb : ∀ f ∈ [carrierText], ∀ b ∈ f, b < 256 := by decide +kernel
  refine ⟨hl, hb, ⟨_, C87_cases.1⟩, ?_⟩
  exact ((C87_table _ _ hl hb _ C87_cases.1).2 _ _).1 (by simp)

/-- The hypotheses of `C87_zones_loaded` are met. -/
example : Pieces '\n'.toNat zoneText (splitByte 10 zoneText) ∧ (∃ m, readZones zoneText = .ok m) ∧
    LastZones (splitByte 10 zoneText) 44 [str!"Europe/Jersey"] := by
  have hl : Pieces '\n'.toNat zoneText (splitByte 10 zoneText) := pieces_split _ _
  have h := C87_cases.2.2.2.2.2.1
  exact ⟨hl, ⟨_, h⟩, ((C87_zones_table _ _ hl (by decide +kernel) _ h).2 _ _).1 (by simp)⟩

end Verif.Props
