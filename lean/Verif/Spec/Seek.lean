import Verif.Model.Seek

/-! # A program that lists the boxes of a file -/

namespace Mp4.Spec

/-- How the program ends: at the end of the file, with an exception or undefined behaviour, or it is still running. -/
inductive WalkEnd where
  | atEnd
  | failed (e : Err)
  | running
  deriving DecidableEq

/-- One pass through the loop: it has ended (the headers visited in this pass, and how), or it visited `h` and goes on with the stream. -/
inductive WalkStep where
  | stop (hs : List BoxHeader) (e : WalkEnd)
  | next (h : BoxHeader) (is : IStream)

/-- `if (is.tellg() >= size_of_file) break; auto header = read_box_header(is); visit(header); header->seekToEnd(is);` -/
def walkStep (file : Bool) (is : IStream) : WalkStep :=
  if is.data.length ≤ is.pos then .stop [] .atEnd
  else
    match read_box_header is with
    | .error e => .stop [] (.failed e)
    | .ok h =>
      match h.seekToEnd file is with
      | .error e => .stop [h] (.failed e)
      | .ok is => .next h is

/-- The program
```
while (is.tellg() < size_of_file) {
  auto header = read_box_header(is);
  visit(header);
  header->seekToEnd(is);
}
```
after at most `steps` passes through the loop: the headers visited, and how it ended. -/
def walk (file : Bool) : Nat → IStream → List BoxHeader × WalkEnd
  | 0, _ => ([], .running)
  | n + 1, is =>
    match walkStep file is with
    | .stop hs e => (hs, e)
    | .next h is => (h :: (walk file n is).1, (walk file n is).2)

/-- The headers of the boxes at the top of a file. -/
def topHeaders (ts : List Tree) : List BoxHeader := ts.flatMap fun t => t.box.header.toList

end Mp4.Spec
