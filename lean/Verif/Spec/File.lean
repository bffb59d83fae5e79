import Verif.Core.Stream

/-!
# Specification vocabulary for files

Independent of the model of the library.
-/

namespace Mp4

/-- `n` bytes of `d` from offset `o` on. -/
def slice (d : List Byte) (o n : Nat) : List Byte := (d.drop o).take n

/-- The `n`-byte big-endian representation of `x` (mod 256^n). -/
def beBytes : Nat → Nat → List Byte
  | 0, _ => []
  | n + 1, x => BitVec.ofNat 8 (x / 256 ^ n) :: beBytes n x

/-- ISO/IEC 14496-12 4.2: compact size when it fits 32 bits, otherwise `size = 1` and a 64-bit `largesize` after
the type. -/
def Spec.boxHeader (size : Nat) (t : List Byte) : List Byte :=
  if size < 2 ^ 32 then beBytes 4 size ++ t else beBytes 4 1 ++ t ++ beBytes 8 size

/-- File `d'` is file `d` with the bytes from `o` on replaced by `p`, all other bytes unchanged; if `o` lies behind the end
the gap is filled with zeros. -/
def Patched (d d' : List Byte) (o : Nat) (p : List Byte) : Prop :=
  slice d' o p.length = p ∧
  d'.length = max d.length (o + p.length) ∧
  (∀ i, i < d.length → (i < o ∨ o + p.length ≤ i) → d'[i]? = d[i]?) ∧
  (∀ i, d.length ≤ i → i < o → d'[i]? = some 0#8)

theorem beBytes_length (n x : Nat) : (beBytes n x).length = n := by
  induction n with
  | zero => rfl
  | succ n ih => simp [beBytes, ih]

theorem OStream.write_data_getElem (os : OStream) (p : List Byte) (hp : p ≠ []) (i : Nat) :
    (os.write p).data[i]? =
      if i < os.pos then (if i < os.data.length then os.data[i]? else some 0#8)
      else if i < os.pos + p.length then p[i - os.pos]? else os.data[i]? := by
  simp only [write, hp, ↓reduceIte]
  have hl : (List.take os.pos (os.data ++ List.replicate (os.pos - os.data.length) (0 : Byte))).length
      = os.pos := by simp; omega
  split
  · rename_i h
    rw [List.append_assoc, List.getElem?_append_left (by omega), List.getElem?_take_of_lt h]
    split
    · rename_i h2; rw [List.getElem?_append_left h2]
    · rename_i h2
      rw [List.getElem?_append_right (by omega), List.getElem?_replicate, if_pos (by omega)]; rfl
  · split
    · rw [List.append_assoc, List.getElem?_append_right (by omega), List.getElem?_append_left (by omega), hl]
    · rw [List.getElem?_append_right (by simp only [List.length_append]; omega), List.getElem?_drop]
      congr 1
      simp only [List.length_append, hl]; omega

theorem OStream.write_data_length (os : OStream) (p : List Byte) (hp : p ≠ []) :
    (os.write p).data.length = max os.data.length (os.pos + p.length) := by
  simp only [write, hp, ↓reduceIte, List.length_append, List.length_take, List.length_replicate, List.length_drop]
  omega

theorem OStream.write_slice (os : OStream) (p : List Byte) (hp : p ≠ []) :
    slice (os.write p).data os.pos p.length = p := by
  simp only [slice, write, hp, ↓reduceIte]
  have hl : (List.take os.pos (os.data ++ List.replicate (os.pos - os.data.length) (0 : Byte))).length
      = os.pos := by simp; omega
  rw [List.append_assoc, List.drop_left' hl, List.take_left' rfl]

/-- A stream write patches the file. -/
theorem OStream.write_patched (os : OStream) (p : List Byte) (hp : p ≠ []) :
    Patched os.data (os.write p).data os.pos p := by
  refine ⟨write_slice os p hp, write_data_length os p hp, ?_, ?_⟩
  · intro i hi ho
    rw [write_data_getElem os p hp]
    rcases ho with ho | ho
    · rw [if_pos ho, if_pos hi]
    · rw [if_neg (by omega), if_neg (by omega)]
  · intro i hi ho
    rw [write_data_getElem os p hp, if_pos ho, if_neg (by omega)]

theorem slice_slice (d : List Byte) (o n a k : Nat) (h : a + k ≤ n) :
    slice (slice d o n) a k = slice d (o + a) k := by
  simp only [slice, List.drop_take, List.drop_drop, List.take_take]
  congr 1; omega

theorem slice_append (d : List Byte) (o n k : Nat) : slice d o (n + k) = slice d o n ++ slice d (o + n) k := by
  simp only [slice]
  rw [List.take_add, List.drop_drop]

theorem slice_length (d : List Byte) (o n : Nat) (h : o + n ≤ d.length) : (slice d o n).length = n := by
  simp only [slice, List.length_take, List.length_drop]; omega

end Mp4
