import Verif.Core.Bits

/-!
# Outcomes and byte streams

Model of the C++ stream objects the library works on.
-/

namespace Mp4

/-- How a call can end abnormally.  Exceptions are identified by the place that throws; undefined
behaviour is a separate outcome. -/
inductive Err where
  /-- `istream::read()` hit the end of the stream (src/bitio/reader.cpp:19-21, 50-53). -/
  | eof
  /-- any other C++ exception, with a short tag for the throw site -/
  | exc (what : String)
  /-- undefined behaviour of the C++ program -/
  | ub (what : String)
  deriving DecidableEq, Repr

deriving instance DecidableEq for Except

/-- `std::ostream` over a file or string buffer: content and put position.
Simplification: I/O failures (disk full) are not modelled, `good()` always holds. -/
structure OStream where
  data : List Byte
  pos : Nat
  deriving DecidableEq, Repr

/-- `ostream::write`: overwrite at the put position, extending the file; a gap left by seeking past
the end reads as zero bytes (POSIX file semantics). -/
def OStream.write (os : OStream) (p : List Byte) : OStream :=
  if p = [] then os else
  { data := (os.data ++ List.replicate (os.pos - os.data.length) 0).take os.pos ++ p
              ++ os.data.drop (os.pos + p.length)
    pos := os.pos + p.length }

/-- `ostream::seekp(o, beg)`. -/
def OStream.seekp (os : OStream) (o : Nat) : OStream := { os with pos := o }

/-- `std::istream` over a file or string buffer: content and get position. -/
structure IStream where
  data : List Byte
  pos : Nat
  deriving DecidableEq, Repr

theorem OStream.write_append (os : OStream) (p q : List Byte) :
    os.write (p ++ q) = (os.write p).write q := by
  by_cases hp : p = []
  · subst hp; simp [write]
  by_cases hq : q = []
  · subst hq; simp [write]
  have hl : (List.take os.pos (os.data ++ List.replicate (os.pos - os.data.length) 0#8)).length
      = os.pos := by simp; omega
  simp only [write, hp, hq, List.append_eq_nil_iff, and_self, ↓reduceIte, List.length_append]
  congr 1
  · generalize hA : List.take os.pos (os.data ++ List.replicate (os.pos - os.data.length) 0#8) = A
    rw [hA] at hl
    have h0 : os.pos + p.length - (A.length + p.length + (os.data.drop (os.pos + p.length)).length) = 0 := by
      omega
    rw [h0]
    simp only [List.replicate_zero, List.append_nil, List.append_assoc]
    have h1 : List.take (os.pos + p.length) (A ++ (p ++ List.drop (os.pos + p.length) os.data)) = A ++ p := by
      rw [← List.append_assoc, List.take_append_of_le_length (by simp; omega), List.take_of_length_le (by simp; omega)]
    have h2 : List.drop (os.pos + p.length + q.length) (A ++ (p ++ List.drop (os.pos + p.length) os.data))
        = List.drop (os.pos + (p.length + q.length)) os.data := by
      rw [← List.append_assoc, show os.pos + p.length + q.length = (A ++ p).length + q.length by simp; omega,
        ← List.drop_drop, List.drop_left, List.drop_drop]
      congr 1; omega
    rw [h1, h2]; simp [List.append_assoc]
  · omega

/-- Writing at the end of the file appends. -/
theorem OStream.write_end (d p : List Byte) :
    (OStream.mk d d.length).write p = ⟨d ++ p, (d ++ p).length⟩ := by
  by_cases hp : p = []
  · subst hp; simp [write]
  · simp [write, hp]

@[simp] theorem OStream.write_pos (os : OStream) (p : List Byte) :
    (os.write p).pos = os.pos + p.length := by
  unfold write; split <;> simp_all

end Mp4
