import Verif.Props.C44
import Verif.Data.Decode
/-!
# C47: truncated data is rejected, not misread
-/
namespace Verif
open Spec

theorem loadPrefixMap_error {dc : Int → Nat} {p : Bytes} {e : LoadErr} (h : loadWith dc rdIntern p = .error e) :
    loadPrefixMap dc p = .error e := by simp [loadPrefixMap, h, bind, Except.bind]
theorem loadIntArrayMap_error {dc : Int → Nat} {p : Bytes} {e : LoadErr} (h : loadWith dc rdInternList p = .error e) :
    loadIntArrayMap dc p = .error e := by simp [loadIntArrayMap, h, bind, Except.bind]

namespace Props

/-- Whatever map was written, and wherever the (decompressed) data is cut short, `LoadPrefixMap` returns an error. -/
theorem C47_prefix (dc : Int → Nat) (m : List (Int × Bytes)) (hm : KeysFit m) (hv : ValuesFit (m.map (·.2)))
    (raw : Bytes) (hw : renderPrefixMap m = .ok (some raw)) (n : Nat) (hn : n < raw.length) :
    ∃ e, loadPrefixMap dc (raw.take n) = .error e := by
  obtain ⟨raw', M, h1, h2, -⟩ := prefix_load dc m hm hv
  obtain rfl : raw = raw' := by rw [hw] at h1; exact Option.some.inj (Except.ok.inj h1)
  obtain ⟨u, h3, -, h4⟩ := exact_loadWith dc exact_rdIntern raw M [] h2
  simp only [List.append_nil] at h3
  subst h3
  obtain ⟨e, he⟩ := h4 (raw.take n) (raw.drop n) (List.take_append_drop n raw).symm (by
    intro h; have := congrArg List.length h; simp at this; omega)
  exact ⟨e, loadPrefixMap_error he⟩

/-- The same for `LoadIntArrayMap`. -/
theorem C47_array (dc : Int → Nat) (m : List (Int × List Bytes)) (hm : KeysFit m) (hv : ValuesFit (m.flatMap (·.2)))
    (hl : ∀ e ∈ m, e.2.length ≤ 255) (raw : Bytes) (hw : renderMap m = .ok raw) (n : Nat) (hn : n < raw.length) :
    ∃ e, loadIntArrayMap dc (raw.take n) = .error e := by
  obtain ⟨raw', M, h1, h2, -⟩ := array_load dc m hm hv hl
  obtain rfl : raw = raw' := by rw [hw] at h1; exact Except.ok.inj h1
  obtain ⟨u, h3, -, h4⟩ := exact_loadWith dc exact_rdInternList raw M [] h2
  simp only [List.append_nil] at h3
  subst h3
  obtain ⟨e, he⟩ := h4 (raw.take n) (raw.drop n) (List.take_append_drop n raw).symm (by
    intro h; have := congrArg List.length h; simp at this; omega)
  exact ⟨e, loadIntArrayMap_error he⟩

/-- Not only for data written by the builder: bytes that load, and of which the loader uses the last one, stop loading when cut
short anywhere. -/
theorem C47_any (dc : Int → Nat) (raw : Bytes) (M : Loaded Bytes) (h : loadWith dc rdIntern raw = .ok (M, [])) (n : Nat)
    (hn : n < raw.length) : ∃ e, loadPrefixMap dc (raw.take n) = .error e := by
  obtain ⟨u, h3, -, h4⟩ := exact_loadWith dc exact_rdIntern raw M [] h
  simp only [List.append_nil] at h3
  subst h3
  obtain ⟨e, he⟩ := h4 (raw.take n) (raw.drop n) (List.take_append_drop n raw).symm (by
    intro h; have := congrArg List.length h; simp at this; omega)
  exact ⟨e, loadPrefixMap_error he⟩

/-- Bytes after the end are not noticed: the loaders accept any continuation of what they accept. -/
theorem C47_trailing (dc : Int → Nat) (raw extra : Bytes) (M : Loaded Bytes) (h : loadPrefixMap dc raw = .ok M) :
    loadPrefixMap dc (raw ++ extra) = .ok M := by
  unfold loadPrefixMap at h ⊢
  cases hl : loadWith dc rdIntern raw with
  | error e => simp [hl, bind, Except.bind] at h
  | ok y =>
    obtain ⟨M', r⟩ := y
    obtain ⟨u, h3, h4, -⟩ := exact_loadWith dc exact_rdIntern raw M' r hl
    simp only [hl, bind, Except.bind, pure, Except.pure] at h
    rw [h3, List.append_assoc, h4]
    simpa [bind, Except.bind, pure, Except.pure] using h

/-- The bytes of the map {41: "Swisscom", 4179: "Sunrise"}, as the loader reads them. -/
example : (loadPrefixMap (fun _ => 0) [16, 0, 0, 0, 83, 117, 110, 114, 105, 115, 101, 10, 83, 119, 105, 115, 115, 99, 111, 109,
    2, 0, 0, 0, 41, 1, 0, 170, 32, 0, 0]).toOption.map (·.map) = some [(4179, str!"Sunrise"), (41, str!"Swisscom")] := by kernel_rfl

example : ∃ raw, renderPrefixMap [((41 : Int), str!"Swisscom"), (4179, str!"Sunrise")] = .ok (some raw) := by
  obtain ⟨raw, M, h, -⟩ := C44_prefix (fun _ => 0) [((41 : Int), str!"Swisscom"), (4179, str!"Sunrise")]
    ⟨by decide, by decide, by decide⟩ ⟨by decide, ⟨[str!"Swisscom", str!"Sunrise"], by decide, by decide⟩, by decide⟩
  exact ⟨raw, h⟩

end Props
end Verif
