import Verif.Proofs.Utf8
import Verif.Props.LineEnds
import Verif.Props.File
/-
C84: files on disk.
-/
namespace Verif.OnDisk
open Verif

/-! ### Bytes and texts -/

/-- C84: A file that holds the UTF-8 form of a text is loaded as the text is. -/
theorem of_utf8 (s : Str) : fromFile (.bytes (utf8 s)) = .read (fromStr s) := by
  have : readToString (.bytes (utf8 s)) = some s := by
    unfold readToString
    dsimp only
    rw [← utf8_eq, List.utf8Decode?_utf8Encode]
    rfl
  unfold fromFile
  rw [this]

/-- C84: Every other file, and what cannot be read, is an error; nothing of it is loaded. -/
theorem otherwise {d : Disk} (h : ∀ s, d ≠ .bytes (utf8 s)) : fromFile d = .ioError := by
  cases d with
  | unreadable => rfl
  | bytes b =>
    have : readToString (.bytes b) = none := by
      unfold readToString
      dsimp only
      cases hd : b.toByteArray.utf8Decode? with
      | none => rfl
      | some a =>
        exfalso
        have he := ByteArray.utf8Encode_get_utf8Decode? (b := b.toByteArray) (h := by rw [hd]; rfl)
        simp only [hd, Option.get_some] at he
        rw [utf8_eq, List.toByteArray_inj] at he
        exact h a.toList (by rw [he])
    unfold fromFile
    rw [this]

/-- C84: So a file loads, is refused or makes the loader panic exactly if it holds the UTF-8 form of a text that does. -/
theorem outcome_iff (d : Disk) (l : Load) : fromFile d = .read l ↔ ∃ s, d = .bytes (utf8 s) ∧ fromStr s = l := by
  constructor
  · intro h
    by_cases hd : ∃ s, d = .bytes (utf8 s)
    · obtain ⟨s, rfl⟩ := hd
      rw [of_utf8] at h
      injection h with h
      exact ⟨s, rfl, h⟩
    · rw [otherwise fun s hs => hd ⟨s, hs⟩] at h
      cases h
  · rintro ⟨s, rfl, rfl⟩
    exact of_utf8 s

/-- C84: The bytes of a file are the UTF-8 form of at most one text. -/
theorem one_text {s t : Str} (h : utf8 s = utf8 t) : s = t := by
  have h1 : s.utf8Encode.utf8Decode? = t.utf8Encode.utf8Decode? := by rw [utf8_eq, utf8_eq, h]
  rw [List.utf8Decode?_utf8Encode, List.utf8Decode?_utf8Encode] at h1
  injection h1 with h1
  simpa using congrArg Array.toList h1

/-- C84: A savable model whose text is written to a file is loaded from the file. -/
theorem saved {f : Ifc} (h : f.Savable) : fromFile (.bytes (utf8 (showIfc f))) = .read (.ok f.reread) := by
  rw [of_utf8, model_roundtrip h]

/-! ### Other encodings -/

/-- C84: In ASCII, and in every encoding that has ASCII as a part, a file with ASCII characters only is loaded as its text is. -/
theorem ascii {s : Str} (h : ∀ c ∈ s, c.toNat < 128) : fromFile (.bytes (latin1 s)) = .read (fromStr s) := by
  have : latin1 s = utf8 s := by
    unfold latin1 utf8
    induction s with
    | nil => rfl
    | cons c s ih =>
      rw [List.map_cons, List.flatMap_cons, ih fun d hd => h d (List.mem_cons_of_mem _ hd)]
      unfold utf8Char
      rw [if_pos (h c (by simp))]
      rfl
  rw [this, of_utf8]

/-- C84: A file in which a byte from 128 on stands alone between bytes below 128 is an error. -/
theorem alone {x y : List UInt8} {h : UInt8} (hh : 128 ≤ h) (hx : ∀ l ∈ x.getLast?, l < 128) (hy : ∀ r ∈ y.head?, r < 128) :
    fromFile (.bytes (x ++ h :: y)) = .ioError := by
  refine otherwise fun s hs => ?_
  injection hs with hs
  rcases not_alone s x y h hs.symm hh with ⟨l, hl, h1⟩ | ⟨r, hr, h1⟩
  · exact absurd h1 (UInt8.not_le.mpr (hx l hl))
  · exact absurd h1 (UInt8.not_le.mpr (hy r hr))

/-- C84: So a Latin-1 file with an umlaut, or another of its letters beyond ASCII, between ASCII characters is an error,
whatever else is in it. -/
theorem latin1_refused {s t : Str} {c : Char} (hc : 128 ≤ c.toNat ∧ c.toNat < 256) (hs : ∀ d ∈ s.getLast?, d.toNat < 128)
    (ht : ∀ d ∈ t.head?, d.toNat < 128) : fromFile (.bytes (latin1 (s ++ c :: t))) = .ioError := by
  have hlt : ∀ m, m < 128 → UInt8.ofNat m < 128 := by
    intro m hm
    rw [UInt8.lt_iff_toNat_lt, UInt8.toNat_ofNat']
    show m % 256 < 128
    omega
  have e : latin1 (s ++ c :: t) = latin1 s ++ UInt8.ofNat c.toNat :: latin1 t := by
    unfold latin1
    rw [List.map_append, List.map_cons]
  rw [e]
  refine alone ?_ ?_ ?_
  · rw [UInt8.le_iff_toNat_le, UInt8.toNat_ofNat']
    show 128 ≤ c.toNat % 256
    omega
  · intro l hl
    unfold latin1 at hl
    rw [List.getLast?_map] at hl
    obtain ⟨d, hd, rfl⟩ := Option.map_eq_some_iff.mp (Option.mem_def.mp hl)
    exact hlt _ (hs d hd)
  · intro l hl
    unfold latin1 at hl
    rw [List.head?_map] at hl
    obtain ⟨d, hd, rfl⟩ := Option.map_eq_some_iff.mp (Option.mem_def.mp hl)
    exact hlt _ (ht d hd)

/-- C84: A file with a byte from 248 on, such as every UTF-16 file with a byte order mark, is an error. -/
theorem utf16_refused {b : List UInt8} {h : UInt8} (hb : h ∈ b) (hh : 248 ≤ h) : fromFile (.bytes b) = .ioError := by
  refine otherwise fun s hs => ?_
  injection hs with hs
  subst hs
  obtain ⟨c, -, hc⟩ := List.mem_flatMap.mp hb
  rcases char_cases c with ⟨d, hd, hd'⟩ | ⟨-, hall⟩
  · rw [hd, List.mem_singleton] at hc
    subst hc
    exact absurd (UInt8.lt_of_lt_of_le hd' (UInt8.le_trans (by decide : (128 : UInt8) ≤ 248) hh)) (UInt8.lt_irrefl h)
  · exact absurd hh (UInt8.not_le.mpr (hall h hc).2)

/-- C84: A UTF-8 file that begins with a byte order mark is read, and is a parse error. -/
theorem marked (s : Str) : fromFile (.bytes (0xEF :: 0xBB :: 0xBF :: utf8 s)) = .read .parseError := by
  have e : (0xEF : UInt8) :: 0xBB :: 0xBF :: utf8 s = utf8 ('\uFEFF' :: s) := by
    unfold utf8
    rw [List.flatMap_cons]
    have : utf8Char '\uFEFF' = [0xEF, 0xBB, 0xBF] := by decide +kernel
    rw [this]
    rfl
  rw [e, of_utf8, Lines.marked (by decide)]

/-! ### Cases -/

/-- the file with a raw umlaut -/
def umlautFile : Str := miniFile (cs! "#1=IFCMATERIAL('ä',$,$);")

example : fromFile (.bytes (utf8 (showIfc sampleIfc))) = .read (.ok sampleIfc) := by
  rw [of_utf8, model_roundtrip_exact sampleIfc_savable sampleIfc_exact]

/-- in UTF-8 it loads, in Latin-1 it is an error -/
example : (∃ f, fromFile (.bytes (utf8 umlautFile)) = .read (.ok f) ∧ f.data = [(1, .known .Material (.custom (cs! "ä"), .omitted, .omitted))]) ∧
    fromFile (.bytes (latin1 umlautFile)) = .ioError := by
  constructor
  · obtain ⟨f, hf, h⟩ := loads_spec (show loads umlautFile (fun m => m == [(1, .known .Material (.custom (cs! "ä"), .omitted, .omitted))]) = true by decide +kernel)
    exact ⟨f, by rw [of_utf8, hf], by simpa using h⟩
  · have e : umlautFile = umlautFile.take 150 ++ 'ä' :: umlautFile.drop 151 := by decide +kernel
    rw [e]
    exact latin1_refused (by decide) (by decide +kernel) (by decide +kernel)

/-- without the umlaut both are the same -/
example : ∃ f, fromFile (.bytes (latin1 (miniFile (cs! "#1=IFCMATERIAL('a',$,$);")))) = .read (.ok f) := by
  obtain ⟨f, hf, -⟩ := loads_spec (show loads (miniFile (cs! "#1=IFCMATERIAL('a',$,$);")) (fun m => m.map (·.1) == [1]) = true by decide +kernel)
  exact ⟨f, by rw [ascii (by decide +kernel), hf]⟩

/-- the beginning of a file in UTF-16 -/
example : fromFile (.bytes [0xFF, 0xFE, 0x49, 0, 0x53, 0, 0x4F, 0]) = .ioError := utf16_refused (h := 0xFF) (by decide) (by decide)

/-- characters of one to four bytes -/
example : utf8 (cs! "€") = [0xE2, 0x82, 0xAC] ∧ utf8 (cs! "aä") = [0x61, 0xC3, 0xA4] ∧ utf8 [Char.ofNat 0x1F600] = [0xF0, 0x9F, 0x98, 0x80] := by
  decide +kernel

end Verif.OnDisk
