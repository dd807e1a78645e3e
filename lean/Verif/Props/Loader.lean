import Verif.Model.Loader
import Verif.Spec.Elf
import Verif.Props.LibcString

/-!
# C58: loading an executable image
-/

namespace Pok.Loader
open Libc LibcSpec ElfSpec

attribute [local irreducible] Libc.memset Libc.memcpyX86

/-! ## Reading the image -/

theorem has_byte {m : Mem} {file k : Nat} {img : List Nat} (h : Has m file img) (hk : k < img.length) : m (file + k) = some (byte img k) := by
  rw [h k hk]
  simp [byte, List.getD, hk]

theorem load32_word {m : Mem} {file k : Nat} {img : List Nat} (h : Has m file img) (hk : k + 4 ≤ img.length) :
    load32 m (file + k) = some (word img k) := by
  unfold load32
  rw [Nat.add_assoc file k 1, Nat.add_assoc file k 2, Nat.add_assoc file k 3, has_byte h (by omega), has_byte h (by omega : k + 1 < _),
    has_byte h (by omega : k + 2 < _), has_byte h (by omega : k + 3 < _)]
  rfl

theorem load16_half {m : Mem} {file k : Nat} {img : List Nat} (h : Has m file img) (hk : k + 2 ≤ img.length) :
    load16 m (file + k) = some (half img k) := by
  unfold load16
  rw [Nat.add_assoc file k 1, has_byte h (by omega), has_byte h (by omega : k + 1 < _)]
  rfl

theorem byte_lt {img : List Nat} (hb : ∀ b ∈ img, b < 256) (k : Nat) : byte img k < 256 := by
  unfold byte
  rw [List.getD_eq_getElem?_getD]
  by_cases h : k < img.length
  · simp only [h, List.getElem?_eq_getElem, Option.getD_some]; exact hb _ (List.getElem_mem h)
  · simp [List.getElem?_eq_none (by omega : img.length ≤ k)]

theorem word_lt {img : List Nat} (hb : ∀ b ∈ img, b < 256) (k : Nat) : word img k < U32 := by
  unfold word
  have := byte_lt hb k; have := byte_lt hb (k + 1); have := byte_lt hb (k + 2); have := byte_lt hb (k + 3)
  simp only [U32]; omega

/-! ## One segment -/

/-- A segment may be put in memory: its place is memory, does not go past the end of the address space and does not touch the image. -/
structure Fits (m : Mem) (file len offset : Nat) (s : Seg) : Prop where
  start : s.vaddr + offset < U32
  apart : Apart (s.vaddr + offset) s.size file len
  mem : Writable m (s.vaddr + offset) s.size

theorem loadSeg_spec {m : Mem} {file offset i : Nat} {img : List Nat} (w : WellFormed img) (h : Has m file img) (hi : i < half img 44)
    (f : Fits m file img.length offset (seg img i)) :
    ∃ m', loadSeg m file offset (file + word img 28 + 32 * i) = some m' ∧
      ∀ a, m' a = if (seg img i).Covers offset a then some ((seg img i).at offset a) else m a := by
  have ht := w.table
  have hin := w.inside i hi
  have hsz := w.sizes i hi
  have e : file + word img 28 + 32 * i = file + phdr img i := by unfold phdr; omega
  have hp : phdr img i + 32 ≤ img.length := by unfold phdr; omega
  have hml := word_lt w.bytes (phdr img i + 20)
  obtain ⟨hst, hap, hmem⟩ := f
  unfold loadSeg
  rw [e]
  simp only [Nat.add_assoc file (phdr img i)]
  rw [load32_word h (by omega), load32_word h (by omega), load32_word h (by omega)]
  have hlen : ((img.drop (word img (phdr img i + 4))).take (word img (phdr img i + 16))).length = word img (phdr img i + 16) := by
    simp only [List.length_take, List.length_drop]; omega
  have hsrc : Has m (word img (phdr img i + 4) + file) ((img.drop (word img (phdr img i + 4))).take (word img (phdr img i + 16))) := by
    intro k hk
    rw [hlen] at hk
    have := h (word img (phdr img i + 4) + k) (by omega)
    simp only [List.getElem_take, List.getElem_drop]
    rw [← this]
    congr 1; omega
  have hd : (word img (phdr img i + 8) + offset) % U32 = word img (phdr img i + 8) + offset := Nat.mod_eq_of_lt hst
  have hmem1 : Writable m (word img (phdr img i + 8) + offset) (word img (phdr img i + 16)) := fun k hk => hmem k (by simp only [seg]; omega)
  simp only [seg] at hst hap hmem
  obtain ⟨m1, e1, w1, k1⟩ := C45_memcpy_x86 m (word img (phdr img i + 8) + offset) _ _ hsrc (by rw [hlen]; exact hmem1) (by
    rw [hlen]; unfold Apart at hap ⊢; omega)
  rw [hlen] at e1 k1
  have h1 : Has m1 file img := by
    intro k hk
    rw [k1 _ (by unfold Apart at hap; omega)]
    exact h k hk
  obtain ⟨m2, e2, w2, k2⟩ := C45_memset m1 (word img (phdr img i + 8) + offset + word img (phdr img i + 16)) 0
    (word img (phdr img i + 20) - word img (phdr img i + 16)) (by
      intro k hk
      rw [k1 _ (by omega)]
      have := hmem (word img (phdr img i + 16) + k) (by omega)
      rw [Nat.add_assoc _ (word img (phdr img i + 16)) k]
      exact this)
  refine ⟨m2, ?_, ?_⟩
  · simp only [hd, e1, Option.bind_eq_bind, Option.bind_some]
    rw [load32_word h1 (by omega), load32_word h1 (by omega), Option.bind_some, Option.bind_some]
    rw [show (word img (phdr img i + 20) + U32 - word img (phdr img i + 16)) % U32 = word img (phdr img i + 20) - word img (phdr img i + 16) by
      simp only [U32] at *; omega]
    exact e2
  · intro a
    simp only [List.length_replicate] at k2
    by_cases hc : (seg img i).Covers offset a
    · rw [if_pos hc]
      unfold Seg.Covers at hc
      unfold Seg.at
      simp only [seg] at hc ⊢
      by_cases ha : a < (word img (phdr img i + 8) + offset) + word img (phdr img i + 16)
      · rw [k2 a (by omega)]
        have := w1 (a - (word img (phdr img i + 8) + offset)) (by rw [hlen]; omega)
        rw [show (word img (phdr img i + 8) + offset) + (a - (word img (phdr img i + 8) + offset)) = a by omega] at this
        rw [this, List.getD_eq_getElem?_getD, List.getElem?_eq_getElem (by rw [hlen]; omega)]
        rfl
      · have := w2 (a - ((word img (phdr img i + 8) + offset) + word img (phdr img i + 16))) (by simp; omega)
        rw [show (word img (phdr img i + 8) + offset) + word img (phdr img i + 16) + (a - ((word img (phdr img i + 8) + offset) + word img (phdr img i + 16))) = a by omega] at this
        rw [this, List.getD_eq_getElem?_getD, List.getElem?_eq_none (by rw [hlen]; omega)]
        simp
    · rw [if_neg hc]
      unfold Seg.Covers at hc
      simp only [seg] at hc
      rw [k2 a (by omega), k1 a (by omega)]

/-! ## All segments -/

theorem placed_cons {offset : Nat} {m m1 : Mem} {s : Seg} {ss : List Seg}
    (h : ∀ a, m1 a = if s.Covers offset a then some (s.at offset a) else m a) (a : Nat) : placed offset m1 a ss = placed offset m a (s :: ss) := by
  induction ss with
  | nil => simp [placed, h a]
  | cons t ss ih =>
    simp only [placed, List.forall_mem_cons] at ih ⊢
    by_cases h1 : (∀ x ∈ ss, ¬x.Covers offset a) ∧ t.Covers offset a
    · rw [if_pos h1, if_neg (fun hc => hc.1.1 h1.2), if_pos h1]
    · rw [if_neg h1, if_neg h1, ih]
      by_cases h2 : (∀ x ∈ ss, ¬x.Covers offset a) ∧ s.Covers offset a
      · rw [if_pos h2, if_pos ⟨⟨fun hc => h1 ⟨h2.1, hc⟩, h2.1⟩, h2.2⟩]
      · rw [if_neg h2, if_neg (fun hc => h2 ⟨hc.1.2, hc.2⟩)]

theorem loadSegs_spec {file offset : Nat} {img : List Nat} (w : WellFormed img) :
    ∀ (left i : Nat) (m : Mem), i + left = half img 44 → Has m file img →
      (∀ j, i ≤ j → j < half img 44 → Fits m file img.length offset (seg img j)) →
      ∃ m', loadSegs m file offset (file + word img 28) i left = some m' ∧
        ∀ a, m' a = placed offset m a ((List.range' i left).map (seg img))
  | 0, i, m, _, _, _ => ⟨m, rfl, fun _ => rfl⟩
  | left + 1, i, m, hl, h, f => by
    obtain ⟨m1, e1, h1⟩ := loadSeg_spec w h (by omega) (f i (by omega) (by omega))
    have him : Has m1 file img := by
      intro k hk
      have := (f i (by omega) (by omega)).apart
      rw [h1, if_neg (by unfold Seg.Covers; unfold Apart at this; omega)]
      exact h k hk
    obtain ⟨m2, e2, h2⟩ := loadSegs_spec w left (i + 1) m1 (by omega) him (fun j hj hj' => by
      obtain ⟨a, b, c⟩ := f j (by omega) hj'
      refine ⟨a, b, fun k hk => ?_⟩
      rw [h1]
      split
      · rfl
      · exact c k hk)
    refine ⟨m2, ?_, fun a => ?_⟩
    · simp only [loadSegs, e1, Option.bind_some, e2]
    · rw [h2, List.range'_succ, List.map_cons, ← placed_cons h1]

/-- **C58** (part) Loading an image, for every well-formed image whose segments fit in memory without touching the image itself, and
whatever memory contains: the entry point is that of the image; every address covered by a segment has what the segment puts there (the
bytes of the file, then zeros; the last segment wins where segments overlap); every other address is unchanged.

Missing: images that are not well formed, or whose segments are outside the partition, should be refused: see `C58_*_violated`. -/
theorem C58_load_partial (m : Mem) (file offset : Nat) (img : List Nat) (w : WellFormed img) (h : Has m file img)
    (f : ∀ s ∈ segs img, Fits m file img.length offset s) :
    ∃ m', elfLoad m file offset = some (some (word img 24), m') ∧ ∀ a, m' a = placed offset m a (segs img) := by
  have hh := w.header
  have hf : ∀ j, 0 ≤ j → j < half img 44 → Fits m file img.length offset (seg img j) := fun j _ hj =>
    f _ (List.mem_map.2 ⟨j, List.mem_range.2 hj, rfl⟩)
  obtain ⟨m', e, h'⟩ := loadSegs_spec w (half img 44) 0 m (by omega) h hf
  refine ⟨m', ?_, fun a => ?_⟩
  · unfold elfLoad
    have h0 := has_byte h (by omega : 0 < _)
    rw [Nat.add_zero] at h0
    rw [h0, has_byte h (by omega : 1 < _), has_byte h (by omega : 2 < _), has_byte h (by omega : 3 < _)]
    obtain ⟨g0, g1, g2, g3⟩ := w.magic
    simp only [Option.bind_eq_bind, Option.bind_some, g0, g1, g2, g3, ne_eq, not_true_eq_false, or_self, if_false]
    rw [load32_word h (by omega), load32_word h (by omega), load16_half h (by omega)]
    simp [e]
  · rw [h' a, segs, List.range_eq_range']

/-- Where no two segments overlap, every segment ends up in memory as it is in the image. -/
theorem placed_mem {offset : Nat} {m : Mem} {a : Nat} {s : Seg} : ∀ {ss : List Seg}, s ∈ ss → s.Covers offset a →
    (∀ t ∈ ss, t.Covers offset a → t = s) → placed offset m a ss = some (s.at offset a)
  | [], h, _, _ => by simp at h
  | t :: ss, h, hc, hu => by
    unfold placed
    by_cases h1 : s ∈ ss
    · rw [if_neg (fun hx => hx.1 s h1 hc)]
      exact placed_mem h1 hc fun t ht => hu t (List.mem_cons_of_mem _ ht)
    · have : s = t := by rcases List.mem_cons.1 h with h | h; exact h; exact absurd h h1
      subst this
      rw [if_pos ⟨fun t ht hct => h1 (hu t (List.mem_cons_of_mem _ ht) hct ▸ ht), hc⟩]

theorem placed_outside {offset : Nat} {m : Mem} {a : Nat} : ∀ {ss : List Seg}, (∀ t ∈ ss, ¬t.Covers offset a) → placed offset m a ss = m a
  | [], _ => rfl
  | t :: ss, h => by
    unfold placed
    rw [if_neg (fun hx => h t (List.mem_cons_self ..) hx.2)]
    exact placed_outside fun t ht => h t (List.mem_cons_of_mem _ ht)

/-- **C58** (part) As the property puts it, for images whose segments do not overlap and lie in the partition, [base, base + size): each
segment's bytes are at its address, zeros follow up to its size in memory, and nothing outside the segments, in particular nothing outside
the partition, changes. -/
theorem C58_segments_partial (m : Mem) (file base size : Nat) (img : List Nat) (w : WellFormed img) (h : Has m file img)
    (hmem : Writable m base size) (hbase : base + size ≤ U32) (hap : Apart base size file img.length)
    (hin : ∀ s ∈ segs img, s.vaddr + s.size ≤ size ∧ s.vaddr < size)
    (hdis : ∀ s ∈ segs img, ∀ t ∈ segs img, ∀ a, s.Covers base a → t.Covers base a → t = s) :
    ∃ m', elfLoad m file base = some (some (word img 24), m') ∧
      (∀ s ∈ segs img, ∀ k < s.size, m' (base + s.vaddr + k) = some (s.bytes.getD k 0)) ∧
      (∀ a, (∀ s ∈ segs img, ¬s.Covers base a) → m' a = m a) ∧
      (∀ a, a < base ∨ base + size ≤ a → m' a = m a) := by
  obtain ⟨m', e, h'⟩ := C58_load_partial m file base img w h (by
    intro s hs
    have := hin s hs
    refine ⟨by omega, by unfold Apart at *; omega, fun k hk => ?_⟩
    have := hmem (s.vaddr + k) (by omega)
    rw [show s.vaddr + base + k = base + (s.vaddr + k) by omega]
    exact this)
  refine ⟨m', e, ?_, ?_, ?_⟩
  · intro s hs k hk
    rw [h' _, placed_mem hs (by unfold Seg.Covers; omega) (fun t ht hc => hdis s hs t ht _ (by unfold Seg.Covers; omega) hc)]
    unfold Seg.at
    rw [show base + s.vaddr + k - (s.vaddr + base) = k by omega]
  · intro a ha
    rw [h' a, placed_outside ha]
  · intro a ha
    rw [h' a, placed_outside]
    intro t ht hc
    have := hin t ht
    unfold Seg.Covers at hc
    omega

/-! ## The archive -/

theorem archiveOffset_eq (imgs : List (List Nat)) (sizes : Nat → Nat) (hs : ∀ i, sizes i = (imgs.getD i []).length)
    (hl : imgs.flatten.length < U32) : ∀ pid ≤ imgs.length, archiveOffset sizes pid = (imgs.take pid).flatten.length
  | 0, _ => rfl
  | t + 1, ht => by
    have ih := archiveOffset_eq imgs sizes hs hl t (by omega)
    unfold archiveOffset
    have e : imgs.take (t + 1) = imgs.take t ++ [imgs.getD t []] := by
      rw [List.take_add_one, List.getElem?_eq_getElem (by omega : t < imgs.length)]
      simp [List.getD, List.getElem?_eq_getElem (by omega : t < imgs.length)]
    have hb : (imgs.take (t + 1)).flatten.length ≤ imgs.flatten.length := by
      conv => rhs; rw [← List.take_append_drop (t + 1) imgs, List.flatten_append, List.length_append]
      omega
    rw [ih, hs, e]
    rw [e] at hb
    simp only [List.flatten_append, List.flatten_cons, List.flatten_nil, List.append_nil, List.length_append] at hb ⊢
    exact Nat.mod_eq_of_lt (by omega)

/-- **C58** (part) The archive holds the images one after the other; partition `pid` gets its own image, for every number and all sizes of
partitions. -/
theorem C58_archive_partial (m : Mem) (archive offset : Nat) (imgs : List (List Nat)) (sizes partSize : Nat → Nat)
    (hs : ∀ i, sizes i = (imgs.getD i []).length) (hl : imgs.flatten.length < U32) (h : Has m archive imgs.flatten)
    (pid : Nat) (hp : pid < imgs.length) :
    Has m (archive + archiveOffset sizes pid) (imgs.getD pid []) ∧
    loadPartition m archive sizes partSize pid offset =
      (elfLoad m (archive + archiveOffset sizes pid) offset).map fun r => (decide (partSize pid < (imgs.getD pid []).length), r.1.getD 0, r.2) := by
  constructor
  · rw [archiveOffset_eq imgs sizes hs hl pid (by omega)]
    intro k hk
    have e : imgs.flatten = (imgs.take pid).flatten ++ (imgs.getD pid [] ++ (imgs.drop (pid + 1)).flatten) := by
      conv => lhs; rw [← List.take_append_drop pid imgs]
      rw [List.flatten_append, List.drop_eq_getElem_cons hp, List.flatten_cons]
      simp [List.getD, List.getElem?_eq_getElem hp]
    have := h ((imgs.take pid).flatten.length + k) (by rw [e]; simp only [List.length_append]; omega)
    rw [Nat.add_assoc, this]
    congr 1
    simp only [e]
    rw [List.getElem_append_right (by omega)]
    rw [List.getElem_append_left (by omega)]
    simp
  · unfold loadPartition
    rw [hs]

/-! ## A concrete image, and the violations -/

/-- Bytes of a little-endian word. -/
def w4 (x : Nat) : List Nat := [x % 256, x / 256 % 256, x / 65536 % 256, x / 16777216 % 256]

/-- An image with one segment (address, size in memory, two bytes in the file), entry point 0x10. -/
def image (vaddr memsz : Nat) : List Nat :=
  [0x7f, 69, 76, 70] ++ List.replicate 20 0 ++ w4 0x10 ++ w4 52 ++ w4 0 ++ w4 0 ++ [52, 0, 32, 0, 1, 0, 0, 0, 0, 0, 0, 0] ++
  (w4 1 ++ w4 84 ++ w4 vaddr ++ w4 0 ++ w4 2 ++ w4 memsz ++ w4 0 ++ w4 0) ++ [11, 22]

/-- A memory: the image at address 0, then 42 bytes with the value 9. -/
def ram (img : List Nat) : Mem := ofList (img ++ List.replicate 42 9)

/-- The partition is the 16 bytes at address 96; the segment goes at 4 in it. -/
example : (elfLoad (ram (image 4 6)) 0 96).map (fun r => (r.1, (List.range 16).map fun k => r.2 (96 + k))) =
    some (some 0x10, [9, 9, 9, 9, 11, 22, 0, 0, 0, 0, 9, 9, 9, 9, 9, 9].map some) := by decide +kernel

example : WellFormed (image 4 6) :=
  ⟨by decide, by decide, by decide, by decide, by decide, by decide⟩

example : segs (image 4 6) = [⟨4, [11, 22], 6⟩] := by decide

/-- **C58** violated: a segment outside the partition (here the 16 bytes at 96, the segment being at 20) is written all the same, over
what follows the partition; nothing is reported, since only the size of the file is compared with the size of the partition (86 bytes in
the file, so that a partition of 100 bytes is large enough, while the segment reaches beyond any size). -/
theorem C58_outside_violated : (loadPartition (ram (image 20 6)) 0 (fun _ => 86) (fun _ => 100) 0 96).map
    (fun r => (r.1, (List.range 6).map fun k => r.2.2 (96 + 20 + k))) = some (false, [11, 22, 0, 0, 0, 0].map some) ∧
    (loadPartition (ram (image 4000000000 6)) 0 (fun _ => 86) (fun _ => 100) 0 294967400).map
    (fun r => (r.1, r.2.2 104)) = some (false, some 11) := by
  constructor <;> decide +kernel

/-- **C58** violated: a file that is not an ELF image is not loaded, and the partition is started at address 0 with nothing reported. -/
theorem C58_not_elf_violated (m : Mem) (archive offset : Nat) (sizes partSize : Nat → Nat) (pid : Nat) (b0 b1 b2 b3 : Nat)
    (h : Has m (archive + archiveOffset sizes pid) [b0, b1, b2, b3]) (hb : ¬(b0 = 0x7f ∧ b1 = 69 ∧ b2 = 76 ∧ b3 = 70)) (hs : sizes pid ≤ partSize pid) :
    loadPartition m archive sizes partSize pid offset = some (false, 0, m) := by
  unfold loadPartition elfLoad
  have h0 := h 0 (by simp)
  have h1 := h 1 (by simp)
  have h2 := h 2 (by simp)
  have h3 := h 3 (by simp)
  simp only [List.getElem_cons_zero, Nat.add_zero] at h0
  simp only [List.getElem_cons_succ, List.getElem_cons_zero] at h1 h2 h3
  rw [h0, h1, h2, h3]
  have hb' : b0 ≠ 0x7f ∨ b1 ≠ 69 ∨ b2 ≠ 76 ∨ b3 ≠ 70 := by omega
  simp [hb']
  exact hs

theorem memset_fails {v : Nat} : ∀ {n : Nat} {m : Mem} {d a : Nat}, d ≤ a → a < d + n → m a = none → memset m d v n = none
  | 0, _, _, _, _, _, _ => by omega
  | n + 1, m, d, a, h1, h2, h3 => by
    unfold memset store
    cases hd : m d with
    | none => rfl
    | some b =>
      simp only
      have hne : d ≠ a := by intro e; subst e; rw [h3] at hd; cases hd
      exact memset_fails (a := a) (by omega) (by omega) (by rw [upd_other _ _ (by omega)]; exact h3)

/-- **C58** violated: when a segment's size in memory is less than its size in the file (here 1 and 2), the number of bytes to clear wraps to
4294967295, and the loader clears memory from the end of the segment on until it goes out of memory. -/
theorem C58_sizes_violated : elfLoad (ram (image 4 1)) 0 96 = none := by
  have h : Has (ram (image 4 1)) 0 (image 4 1) := by
    intro i hi
    simp only [ram, ofList, Nat.zero_add]
    rw [List.getElem?_append_left hi, List.getElem?_eq_getElem hi]
  have hs : loadSeg (ram (image 4 1)) 0 96 52 = none := by
    unfold loadSeg
    rw [show load32 (ram (image 4 1)) (52 + 8) = some 4 by decide +kernel, show load32 (ram (image 4 1)) (52 + 4) = some 84 by decide +kernel,
      show load32 (ram (image 4 1)) (52 + 16) = some 2 by decide +kernel]
    rw [Option.bind_eq_bind, Option.bind_some, Option.bind_eq_bind, Option.bind_some, Option.bind_some]
    obtain ⟨m1, e1, w1, k1⟩ := C45_memcpy_x86 (ram (image 4 1)) 100 84 [11, 22] (by
      intro i hi
      match i, hi with
      | 0, _ => exact (by decide +kernel : ram (image 4 1) 84 = some 11)
      | 1, _ => exact (by decide +kernel : ram (image 4 1) 85 = some 22)) (by
      intro i hi
      match i, hi with
      | 0, _ => decide +kernel
      | 1, _ => decide +kernel) (by unfold Apart; simp)
    simp only [List.length_cons, List.length_nil] at e1 k1
    rw [show (4 + 96) % U32 = 100 by rfl, show (84 + 0 : Nat) = 84 by rfl, show (2 : Nat) = 0 + 1 + 1 by rfl, e1, Option.bind_some]
    have l1 : load32 m1 (52 + 16) = some 2 := by
      unfold load32
      rw [k1 _ (by omega), k1 _ (by omega), k1 _ (by omega), k1 _ (by omega)]
      decide +kernel
    have l2 : load32 m1 (52 + 20) = some 1 := by
      unfold load32
      rw [k1 _ (by omega), k1 _ (by omega), k1 _ (by omega), k1 _ (by omega)]
      decide +kernel
    rw [l1, Option.bind_some, l2, Option.bind_some]
    exact memset_fails (a := 1000) (by omega) (by simp only [U32]; omega) (by rw [k1 _ (by omega)]; decide +kernel)
  unfold elfLoad
  rw [show ram (image 4 1) 0 = some 0x7f by decide +kernel, show ram (image 4 1) (0 + 1) = some 69 by decide +kernel,
    show ram (image 4 1) (0 + 2) = some 76 by decide +kernel, show ram (image 4 1) (0 + 3) = some 70 by decide +kernel]
  rw [show load32 (ram (image 4 1)) (0 + 24) = some 0x10 by decide +kernel, show load32 (ram (image 4 1)) (0 + 28) = some 52 by decide +kernel,
    show load16 (ram (image 4 1)) (0 + 44) = some 1 by decide +kernel]
  simp [loadSegs, hs]

end Pok.Loader
