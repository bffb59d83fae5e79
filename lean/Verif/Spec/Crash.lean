import Verif.Core.Stream

/-! # Specification: what is in a file when a program is stopped

A program stores bytes at positions, one after the other.  When it is stopped after `n` of them, the file has the effect of these `n`. -/

namespace Mp4

/-- The bytes of `l` at the positions `o`, `o + 1`, … -/
def storesAt (o : Nat) : List Byte → List (Nat × Byte)
  | [] => []
  | b :: l => (o, b) :: storesAt (o + 1) l

/-- A store: a byte replaces the one at its position; behind the end of the file the gap is filled with zeros. -/
def storeByte (file : List Byte) (x : Nat × Byte) : List Byte :=
  if x.1 < file.length then file.set x.1 x.2 else file ++ List.replicate (x.1 - file.length) 0 ++ [x.2]

/-- The file, empty at first, after the first `n` stores. -/
def fileAfter (stores : List (Nat × Byte)) (n : Nat) : List Byte := (stores.take n).foldl storeByte []

/-- What a program with `SimpleWriter` that is stopped after `n` stores leaves behind, when `E` are the bytes of `ftyp`, `G` the 16 bytes
behind them (`free` and the header of `mdat`), `L` those of the samples and `M` those of `moov`: part of `ftyp`; or `ftyp`, 16 zeros and part of
the samples; or `ftyp`, part of the 16 bytes, zeros for the rest, and the samples (if there are no samples, there are no zeros); or all of this
and part of `moov`. -/
def Spec.interrupted (E G L M : List Byte) (n : Nat) : List Byte :=
  if n ≤ E.length then E.take n
  else if n ≤ E.length + L.length then E ++ List.replicate 16 0 ++ L.take (n - E.length)
  else if n ≤ E.length + L.length + 16 then
    E ++ G.take (n - E.length - L.length) ++ (if L = [] then [] else List.replicate (16 - (n - E.length - L.length)) 0 ++ L)
  else E ++ G ++ L ++ M.take (n - E.length - L.length - 16)

end Mp4
