import Verif.Lemmas.DumpTree
import Verif.Lemmas.DumpLines
import Verif.Lemmas.Inversion
import Verif.Props.Reader
import Verif.Props.ReaderUb

/-!
# C64, C65, C67: the dump of a file

`SimpleReader::read` prints the boxes of the file.  The notation of a line and the order of the lines are in `Verif/Spec/Dump.lean` (`Spec.Line.text`,
`Spec.linesOf`), the fields of a box in `Spec.fieldsOf` (C66).
-/

namespace Mp4

open Spec DumpText DumpInj Numerals DumpTree DumpLines

/-! ## C64 -/

/-- **C64 (structure of the dump).** `read` prints nothing if the file is rejected; otherwise one line for each box, parents before children and in file
order, indented by two spaces for each level.  If a time in a top-level box or below it cannot be shown, the lines of the top-level boxes before it are
printed and then the behaviour is undefined (C67). -/
theorem C64_dump (sr : SimpleReader) (vs : List BoxHeader) (res : Except Err (List Tree)) (hr : sr.read = some ⟨vs, res⟩) :
    (∀ e, res = .error e → sr.dump = some ([], .error e)) ∧
    (∀ ts, res = .ok ts → Tree.AllList Shown ts → sr.dump = some (printed (linesOfList 0 ts), .ok ())) ∧
    (∀ ts us t, res = .ok (ts ++ t :: us) → Tree.AllList Shown ts → ¬ t.All Shown →
      ∃ m, sr.dump = some (printed (linesOfList 0 ts), .error (.ub m))) := by
  refine ⟨?_, ?_, ?_⟩
  · rintro e rfl
    rw [SimpleReader.dump, hr]
  · rintro ts rfl hs
    rw [SimpleReader.dump, hr]
    simp only
    rw [printBoxes_ok ts (read_dumpable sr vs ts hr).1 hs]
  · rintro ts us t rfl hs ht
    obtain ⟨m, e⟩ := printBoxes_bad ts us t (read_dumpable sr vs _ hr).1 hs ht
    refine ⟨m, ?_⟩
    rw [SimpleReader.dump, hr]
    simp only
    rw [e]

theorem linesOf_headers : ∀ (t : Tree) (d : Nat), (linesOf d t).map (fun l => (l.type, l.offset, l.size)) = t.headers.map (fun h => (h.type, h.offset, h.size))
  | .node b p ls, d => by
    have := linesOfList_headers ls (d + 1)
    rw [linesOf, Tree.headers, List.map_append, List.map_append, this]
    simp
where
  linesOfList_headers : ∀ (ts : List Tree) (d : Nat),
      (linesOfList d ts).map (fun l => (l.type, l.offset, l.size)) = (Tree.headersList ts).map (fun h => (h.type, h.offset, h.size))
    | [], d => rfl
    | t :: ts, d => by
      rw [linesOfList, Tree.headersList, List.map_append, List.map_append, linesOf_headers t d, linesOfList_headers ts d]

/-- **C64 (every box).** The lines show type, offset and size of every header read from the file, once and in the order of reading. -/
theorem C64_every_box (sr : SimpleReader) (vs : List BoxHeader) (ts : List Tree) (hr : sr.read = some ⟨vs, .ok ts⟩) :
    (linesOfList 0 ts).map (fun l => (l.type, l.offset, l.size)) = vs.map (fun h => (h.type, h.offset, h.size)) := by
  rw [← (read_dumpable sr vs ts hr).2]
  exact linesOf_headers.linesOfList_headers ts 0

/-- C64: the dump of a file of two top-level boxes, one with a child. -/
example : (SimpleReader.mk false (fun _ => default) stdBoxMap
      ([0, 0, 0, 0x18] ++ b!"moov" ++ [0, 0, 0, 0x10] ++ b!"mfhd" ++ [0, 0, 0, 0, 0, 0, 0, 7] ++ [0, 0, 0, 0xa] ++ b!"free" ++ [1, 0xff])).dump =
    some (b!"[moov] Offset=0 Size=24\n  [mfhd] Offset=8 Size=16 Version=0 Flags=0x000000 SequenceNumber=7\n[free] Offset=24 Size=10 Data=[0x1, 0xff]\n",
      .ok ()) := by decide +kernel

/-! ## C65 -/

theorem good_lines : ∀ (t : Tree) (d : Nat),
    (∀ l ∈ linesOf d t, ∀ q ∈ quotedTexts l.fields, 0x22#8 ∉ q ∧ 0x0a#8 ∉ q) → ∀ l ∈ linesOf d t, Good l
  | .node b p ls, d => by
    intro h l hl
    rw [linesOf] at h hl
    rw [List.mem_append] at hl
    rcases hl with hl | hl
    · have hq := h l (by rw [List.mem_append]; exact .inl hl)
      rw [List.mem_map] at hl
      obtain ⟨x, -, rfl⟩ := hl
      exact ⟨wf_fields _ _ (fun q hm => (hq q hm).1), fun q hm => (hq q hm).2⟩
    · exact good_linesList ls (d + 1) (fun y hy => h y (by rw [List.mem_append]; exact .inr hy)) l hl
where
  good_linesList : ∀ (ts : List Tree) (d : Nat),
      (∀ l ∈ linesOfList d ts, ∀ q ∈ quotedTexts l.fields, 0x22#8 ∉ q ∧ 0x0a#8 ∉ q) → ∀ l ∈ linesOfList d ts, Good l
    | [], d => by intro _ l hl; simp [linesOfList] at hl
    | t :: ts, d => by
      intro h l hl
      rw [linesOfList] at h hl
      rw [List.mem_append] at hl
      rcases hl with hl | hl
      · exact good_lines t d (fun y hy => h y (by rw [List.mem_append]; exact .inl hy)) l hl
      · exact good_linesList ts d (fun y hy => h y (by rw [List.mem_append]; exact .inr hy)) l hl

theorem first_not_shown (us : List Tree) (h : ¬ Tree.AllList Shown us) :
    ∃ as t bs, us = as ++ t :: bs ∧ Tree.AllList Shown as ∧ ¬ t.All Shown := by
  induction us with
  | nil => exact absurd trivial h
  | cons x us ih =>
    simp only [Tree.AllList] at h
    by_cases hx : x.All Shown
    · obtain ⟨as, t, bs, rfl, h1, h2⟩ := ih (fun hu => h ⟨hx, hu⟩)
      exact ⟨x :: as, t, bs, rfl, ⟨hx, h1⟩, h2⟩
    · exact ⟨[], x, us, rfl, trivial, hx⟩

/-- **C65 (the dump can be read).** As long as no text shown in quotes contains a quote or a line break, the output for a file that is read and
printed completely determines the boxes: how many there are, how they are nested, and type, offset, size and fields of each. -/
theorem C65_dump_determines (sr sr' : SimpleReader) (vs vs' : List BoxHeader) (ts ts' : List Tree) (out : List Byte)
    (hr : sr.read = some ⟨vs, .ok ts⟩) (hr' : sr'.read = some ⟨vs', .ok ts'⟩)
    (hq : ∀ l ∈ linesOfList 0 ts, ∀ q ∈ quotedTexts l.fields, 0x22#8 ∉ q ∧ 0x0a#8 ∉ q)
    (hq' : ∀ l ∈ linesOfList 0 ts', ∀ q ∈ quotedTexts l.fields, 0x22#8 ∉ q ∧ 0x0a#8 ∉ q)
    (hd : sr.dump = some (out, .ok ())) (hd' : sr'.dump = some (out, .ok ())) : linesOfList 0 ts = linesOfList 0 ts' := by
  have key : ∀ (sr : SimpleReader) (vs : List BoxHeader) (ts : List Tree), sr.read = some ⟨vs, .ok ts⟩ → sr.dump = some (out, .ok ()) →
      printed (linesOfList 0 ts) = out := by
    intro sr vs ts hr hd
    obtain ⟨-, h2, h3⟩ := C64_dump sr vs _ hr
    by_cases hs : Tree.AllList Shown ts
    · rw [h2 ts rfl hs] at hd; cases hd; rfl
    · obtain ⟨as, t, bs, rfl, h1, h2⟩ := first_not_shown ts hs
      obtain ⟨m, e⟩ := h3 as bs t rfl h1 h2
      rw [e] at hd; cases hd
  exact printed_inj _ _ (good_lines.good_linesList ts 0 hq) (good_lines.good_linesList ts' 0 hq')
    ((key sr vs ts hr hd).trans (key sr' vs' ts' hr' hd').symm)

/-- Two files of the same length; the first is one box whose text contains quotes and line breaks, the second is the same kind of box with two children. -/
def forgedFile : List Byte :=
  [0, 0, 1, 7] ++ b!"url " ++ [0, 0, 0, 0] ++
    b!"x\"\n  [iods] Offset=14 Size=235 Version=0 Flags=0x000000 TypeTag=0x10 ODID=0 ODProfileLevel=0x0 SceneProfileLevel=0x0 AudioProfileLevel=0x0 VideoProfileLevel=0x0 GraphicsProfileLevel=0x0\n  [url ] Offset=249 Size=14 Version=0 Flags=0x000000 Location=\"y" ++
    [0]
def genuineFile : List Byte :=
  [0, 0, 1, 7] ++ b!"url " ++ [0, 0, 0, 0] ++ b!"x" ++ [0] ++
    ([0, 0, 0, 235] ++ b!"iods" ++ [0, 0, 0, 0, 0x10, 0x81, 0x5c, 0, 0, 0, 0, 0, 0, 0] ++ List.replicate 213 0) ++
    ([0, 0, 0, 14] ++ b!"url " ++ [0, 0, 0, 0] ++ b!"y" ++ [0])

/-- Readers of these files. -/
def forgedReader : SimpleReader := ⟨false, fun _ => default, stdBoxMap, forgedFile⟩
def genuineReader : SimpleReader := ⟨false, fun _ => default, stdBoxMap, genuineFile⟩

/-- So many boxes are read. -/
def reads (sr : SimpleReader) (n : Nat) : Bool := match sr.read with | some ⟨vs, .ok _⟩ => vs.length == n | _ => false
theorem boxes_counted (sr : SimpleReader) (n : Nat) (h : reads sr n = true) :
    ∃ vs ts, sr.read = some ⟨vs, .ok ts⟩ ∧ vs.length = n := by
  unfold reads at h
  split at h
  · rename_i vs ts e; exact ⟨vs, ts, e, by simpa using h⟩
  · cases h
/-- The file is printed. -/
def prints (sr : SimpleReader) : Bool := match sr.dump with | some (_, .ok ()) => true | _ => false
theorem dump_fine (sr : SimpleReader) (h : prints sr = true) : ∃ out, sr.dump = some (out, .ok ()) := by
  unfold prints at h
  split at h
  · rename_i o e; exact ⟨o, e⟩
  · cases h

/-- The same output. -/
def sameDump (a b : SimpleReader) : Bool :=
  match a.dump, b.dump with
  | some (x, .ok ()), some (y, .ok ()) => x == y
  | _, _ => false
theorem sameDump_eq (a b : SimpleReader) (h : sameDump a b = true) : a.dump = b.dump := by
  unfold sameDump at h
  split at h
  · rename_i x y e1 e2
    rw [e1, e2, eq_of_beq h]
  · cases h

theorem forged_length : forgedFile.length = genuineFile.length := by decide +kernel
theorem forged_same : sameDump forgedReader genuineReader = true := by decide +kernel
theorem forged_prints : prints forgedReader = true := by decide +kernel
theorem forged_reads : reads forgedReader 1 = true := by decide +kernel
theorem genuine_reads : reads genuineReader 3 = true := by decide +kernel

/-- **C65 (line breaks and quotes).** Texts are printed as they are, so without that condition a box can pretend to be several: these two files have the
same length and the same dump, but the first consists of one box and the second of three. -/
theorem C65_forgery :
    forgedFile.length = genuineFile.length ∧ forgedReader.dump = genuineReader.dump ∧ (∃ out, forgedReader.dump = some (out, .ok ())) ∧
    (∃ vs ts, forgedReader.read = some ⟨vs, .ok ts⟩ ∧ vs.length = 1) ∧ (∃ vs ts, genuineReader.read = some ⟨vs, .ok ts⟩ ∧ vs.length = 3) := by
  refine ⟨forged_length, sameDump_eq forgedReader genuineReader forged_same, dump_fine forgedReader forged_prints, boxes_counted forgedReader 1 forged_reads,
    boxes_counted genuineReader 3 genuine_reads⟩

/-! ## C67 -/

theorem not_shown_iff (t : BitVec 64) : (¬ ∃ s, timeText t = .ok s) ↔ Unconvertible t := by
  unfold Unconvertible
  by_cases h1 : t.toNat ≤ 2082844800 + 4294967295
  · obtain ⟨d, -, -, -, -, e⟩ := C51_calendar t h1
    constructor
    · intro h; exact absurd ⟨_, e⟩ h
    · intro h; omega
  · by_cases h2 : t.toNat < 2 ^ 63 + 2082844800
    · have e := (C51_all_times t).1 (by omega) h2
      constructor
      · intro h; exact absurd ⟨_, e⟩ h
      · intro h; omega
    · obtain ⟨a, b⟩ := (C51_all_times t).2 (by omega)
      constructor
      · intro h
        refine ⟨by omega, ?_⟩
        rcases Int.lt_or_le ((t.toNat : Int) - 2 ^ 64 + secondsSince1970 epoch1904) (secondsSince1970 (newYear (1900 - 2 ^ 31))) with hlt | hle
        · exact hlt
        · obtain ⟨d, -, -, e, -⟩ := b hle
          exact absurd ⟨_, e⟩ h
      · rintro ⟨-, h⟩ ⟨s, e⟩
        obtain ⟨m, e'⟩ := a h
        rw [e] at e'; cases e'

theorem not_all_iff (P : Box → Prop) : ∀ t : Tree, (¬ t.All P ↔ ∃ b ∈ boxesOf t, ¬ P b)
  | .node b p ls => by
    have := not_allList_iff ls
    simp only [Tree.All, boxesOf, List.mem_cons, exists_eq_or_imp]
    rw [← this]
    constructor
    · intro h
      by_cases hb : P b
      · exact .inr (fun hl => h ⟨hb, hl⟩)
      · exact .inl hb
    · rintro (h | h) ⟨h1, h2⟩
      · exact h h1
      · exact h h2
where
  not_allList_iff : ∀ ts : List Tree, (¬ Tree.AllList P ts ↔ ∃ b ∈ boxesOfList ts, ¬ P b)
    | [] => by simp [Tree.AllList, boxesOfList]
    | t :: ts => by
      have h1 := not_all_iff P t
      have h2 := not_allList_iff ts
      simp only [Tree.AllList, boxesOfList, List.mem_append, or_and_right, exists_or]
      rw [← h1, ← h2]
      constructor
      · intro h
        by_cases hb : t.All P
        · exact .inr (fun hl => h ⟨hb, hl⟩)
        · exact .inl hb
      · rintro (h | h) ⟨h1, h2⟩
        · exact h h1
        · exact h h2

/-- **C67 (undefined behaviour while printing).** When the file has been read normally, printing it is undefined exactly if some movie, track or media header
in it has a creation or modification time that cannot be converted; otherwise `read` ends normally. -/
theorem C67_exactly (sr : SimpleReader) (vs : List BoxHeader) (ts : List Tree) (hr : sr.read = some ⟨vs, .ok ts⟩) :
    ((∃ out m, sr.dump = some (out, .error (.ub m))) ↔ ∃ b ∈ boxesOfList ts, ∃ t ∈ times b.data, Unconvertible t) ∧
    ((∃ out, sr.dump = some (out, .ok ())) ↔ ¬ ∃ b ∈ boxesOfList ts, ∃ t ∈ times b.data, Unconvertible t) := by
  obtain ⟨-, h2, h3⟩ := C64_dump sr vs _ hr
  have hc : ¬ Tree.AllList Shown ts ↔ ∃ b ∈ boxesOfList ts, ∃ t ∈ times b.data, Unconvertible t := by
    rw [not_all_iff.not_allList_iff]
    constructor
    · rintro ⟨b, hb, h⟩
      refine ⟨b, hb, ?_⟩
      by_cases hex : ∃ t ∈ times b.data, Unconvertible t
      · exact hex
      · exfalso; apply h; intro t ht
        by_cases hs : ∃ s, timeText t = .ok s
        · exact hs
        · exact absurd ⟨t, ht, (not_shown_iff t).1 hs⟩ hex
    · rintro ⟨b, hb, t, ht, hu⟩
      exact ⟨b, hb, fun hs => (not_shown_iff t).2 hu (hs t ht)⟩
  rw [← hc]
  by_cases hs : Tree.AllList Shown ts
  · have e := h2 ts rfl hs
    constructor
    · constructor
      · rintro ⟨out, m, h⟩; rw [e] at h; cases h
      · intro h; exact absurd hs h
    · constructor
      · rintro - h; exact h hs
      · intro _; exact ⟨_, e⟩
  · obtain ⟨as, t, bs, rfl, k1, k2⟩ := first_not_shown ts hs
    obtain ⟨m, e⟩ := h3 as bs t rfl k1 k2
    constructor
    · constructor
      · intro _; exact hs
      · intro _; exact ⟨_, m, e⟩
    · constructor
      · rintro ⟨out, h⟩; rw [e] at h; cases h
      · intro h; exact absurd hs h

/-- What holds of every box the reader makes holds of all boxes of the tree. -/
theorem read_all (sr : SimpleReader) (P : Box → Prop) (hP : ∀ wave h b n, sr.readContent wave h = .ok (b, n) → P b) (fuel : Nat) :
    (∀ path wave pos vs size t pos', sr.readBox fuel path wave pos = some ⟨vs, .ok (size, t, pos')⟩ → t.All P) ∧
    (∀ n path wave limit done pos vs ts pos', SimpleReader.readLoop (sr.readBox fuel path wave) limit n done pos = some ⟨vs, .ok (ts, pos')⟩ →
      Tree.AllList P ts) := by
  have loop : ∀ fuel, (∀ path wave pos vs size t pos', sr.readBox fuel path wave pos = some ⟨vs, .ok (size, t, pos')⟩ → t.All P) →
      ∀ n path wave limit done pos vs ts pos', SimpleReader.readLoop (sr.readBox fuel path wave) limit n done pos = some ⟨vs, .ok (ts, pos')⟩ →
      Tree.AllList P ts := by
    intro fuel ih n path wave limit
    induction n with
    | zero => intro _ _ _ _ _ h; rw [SimpleReader.readLoop] at h; cases h
    | succ n ihn =>
      intro done pos vs ts pos' hr
      rw [SimpleReader.readLoop] at hr
      split at hr
      · split at hr
        · cases hr
        · cases hr
        · rename_i us size t e hk
          have k1 := ih _ _ _ _ _ _ _ hk
          split at hr
          · cases hr
          · cases hr
          · rename_i ws ts' e' hq
            cases hr
            exact ⟨k1, ihn _ _ _ _ _ hq⟩
      · cases hr
        exact trivial
  suffices h : ∀ path wave pos vs size t pos', sr.readBox fuel path wave pos = some ⟨vs, .ok (size, t, pos')⟩ → t.All P from
    ⟨h, loop fuel h⟩
  induction fuel with
  | zero => intro _ _ _ _ _ _ _ h; rw [SimpleReader.readBox] at h; cases h
  | succ fuel ih =>
    intro path wave pos vs size t pos' hr
    rw [sr.readBox_succ] at hr
    generalize hh : read_box_header ⟨sr.data, pos⟩ = x at hr
    cases x with
    | error e => rw [sr.body_header_error hh] at hr; cases hr
    | ok h =>
      generalize hc : sr.readContent wave h = y at hr
      cases y with
      | error e => rw [sr.body_content_error hh hc] at hr; cases hr
      | ok x =>
        obtain ⟨b, rbytes⟩ := x
        rw [sr.body_ok hh hc] at hr
        split at hr
        · cases hr
        · cases hr
        · rename_i us leafs e hk
          cases hr
          exact ⟨hP _ _ _ _ hc, loop fuel ih _ _ _ _ _ _ _ _ _ hk⟩

/-- The version that tells the width of the times. -/
def timeVersion : BoxData → Byte
  | .mvhd b => b.version
  | .tkhd b => b.version
  | .mdhd b => b.version
  | _ => 0

open R in
theorem ensures_times (env : Env) (t : BoxType) (wave : Bool) (k : Kind) :
    Ensures (BoxData.readData env t wave k) fun x => timeVersion x.2 = 0 → ∀ t ∈ times x.2, t.toNat < 2 ^ 32 := by
  have none : ∀ {α : Type} (p : R (Nat × α)) (f : α → BoxData), (∀ a, times (f a) = []) →
      Ensures (p.bind fun x => .ret (x.1, f x.2)) fun x => timeVersion x.2 = 0 → ∀ t ∈ times x.2, t.toNat < 2 ^ 32 := by
    intro α p f hf
    refine Ensures.bind (Ensures.any p) (fun a _ => Ensures.ret ?_)
    intro _ t ht
    rw [hf] at ht; simp at ht
  have hw : ∀ fb : FullBox, vw fb ≤ 64 := by intro fb; unfold vw; split <;> omega
  have h32 : ∀ fb : FullBox, fb.version = 0 → vw fb = 32 := by intro fb h; unfold vw; simp [h]
  cases k with
  | mvhd =>
    refine Ensures.bind (P := fun x => x.2.version = 0 → x.2.creation_time.toNat < 2 ^ 32 ∧ x.2.modification_time.toNat < 2 ^ 32) ?_ ?_
    · unfold Mvhd.readData
      refine Ensures.bind (Ensures.any _) (fun a _ => ?_)
      refine Ensures.bind (ensures_read_uint 64 _ (hw _)) (fun b hb => ?_)
      refine Ensures.bind (ensures_read_uint 64 _ (hw _)) (fun c hc => ?_)
      iterate 10 refine Ensures.bind (Ensures.any _) (fun _ _ => ?_)
      refine Ensures.ret ?_
      intro hv
      rw [h32 _ hv] at hb hc
      exact ⟨hb.1, hc.1⟩
    · intro a ha
      refine Ensures.ret ?_
      intro hv t ht
      obtain ⟨h1, h2⟩ := ha hv
      simp only [times, List.mem_cons, List.not_mem_nil, or_false] at ht
      rcases ht with rfl | rfl <;> assumption
  | tkhd =>
    refine Ensures.bind (P := fun x => x.2.version = 0 → x.2.creation_time.toNat < 2 ^ 32 ∧ x.2.modification_time.toNat < 2 ^ 32) ?_ ?_
    · unfold Tkhd.readData
      refine Ensures.bind (Ensures.any _) (fun a _ => ?_)
      refine Ensures.bind (ensures_read_uint 64 _ (hw _)) (fun b hb => ?_)
      refine Ensures.bind (ensures_read_uint 64 _ (hw _)) (fun c hc => ?_)
      repeat refine Ensures.bind (Ensures.any _) (fun _ _ => ?_)
      refine Ensures.ret ?_
      intro hv
      rw [h32 _ hv] at hb hc
      exact ⟨hb.1, hc.1⟩
    · intro a ha
      refine Ensures.ret ?_
      intro hv t ht
      obtain ⟨h1, h2⟩ := ha hv
      simp only [times, List.mem_cons, List.not_mem_nil, or_false] at ht
      rcases ht with rfl | rfl <;> assumption
  | mdhd =>
    refine Ensures.bind (P := fun x => x.2.version = 0 → x.2.creation_time.toNat < 2 ^ 32 ∧ x.2.modification_time.toNat < 2 ^ 32) ?_ ?_
    · unfold Mdhd.readData
      refine Ensures.bind (Ensures.any _) (fun a _ => ?_)
      refine Ensures.bind (ensures_read_uint 64 _ (hw _)) (fun b hb => ?_)
      refine Ensures.bind (ensures_read_uint 64 _ (hw _)) (fun c hc => ?_)
      repeat refine Ensures.bind (Ensures.any _) (fun _ _ => ?_)
      refine Ensures.ret ?_
      intro hv
      rw [h32 _ hv] at hb hc
      exact ⟨hb.1, hc.1⟩
    · intro a ha
      refine Ensures.ret ?_
      intro hv t ht
      obtain ⟨h1, h2⟩ := ha hv
      simp only [times, List.mem_cons, List.not_mem_nil, or_false] at ht
      rcases ht with rfl | rfl <;> assumption
  | empty => exact Ensures.ret (fun _ t ht => by simp [times] at ht)
  | _ => exact none _ _ (fun _ => rfl)

theorem readContent_times (sr : SimpleReader) (wave : Bool) (h : BoxHeader) (b : Box) (n : Nat) (hc : sr.readContent wave h = .ok (b, n)) :
    timeVersion b.data = 0 → ∀ t ∈ times b.data, t.toNat < 2 ^ 32 := by
  rw [SimpleReader.readContent] at hc
  dsimp only at hc
  split at hc
  · cases hc
  · split at hc
    · cases hc
    · rename_i rbits data r hrun
      split at hc
      · cases hc
      · cases hc
        generalize slice sr.data (h.offset + h.headerSize) h.getDataSize = d at hrun
        have hrc := R.runC_run (BoxData.readData (sr.env h.offset) (sr.classOf h.type).2 wave (sr.classOf h.type).1) (Reader.new ⟨d, 0⟩)
          (Reader.new_inv _ (by simp))
        generalize hrun' : (BoxData.readData (sr.env h.offset) (sr.classOf h.type).2 wave (sr.classOf h.type).1).run (Reader.new ⟨d, 0⟩).is.data
          (Reader.new ⟨d, 0⟩).rem = y at hrc
        cases y with
        | error e => dsimp only at hrc; rw [hrun] at hrc; cases hrc
        | ok y =>
          obtain ⟨⟨m', a⟩, s⟩ := y
          obtain ⟨r'', e1, -⟩ := hrc
          rw [hrun] at e1
          simp only [Except.ok.injEq, Prod.mk.injEq] at e1
          have := ensures_times (sr.env h.offset) (sr.classOf h.type).2 wave (sr.classOf h.type).1 _ _ _ _ hrun'
          rw [← e1.1.2] at this
          exact this

/-- **C67 (32-bit times).** Printing is never undefined for a file in which all movie, track and media headers are of version 0. -/
theorem C67_version_0 (sr : SimpleReader) (vs : List BoxHeader) (ts : List Tree) (hr : sr.read = some ⟨vs, .ok ts⟩)
    (hv : ∀ b ∈ boxesOfList ts, (∀ m, b.data = .mvhd m → m.version = 0) ∧ (∀ m, b.data = .tkhd m → m.version = 0) ∧
      (∀ m, b.data = .mdhd m → m.version = 0)) :
    ∃ out, sr.dump = some (out, .ok ()) := by
  rw [(C67_exactly sr vs ts hr).2]
  rintro ⟨b, hb, t, ht, hu⟩
  have hall : Tree.AllList (fun b => timeVersion b.data = 0 → ∀ t ∈ times b.data, t.toNat < 2 ^ 32) ts := by
    rw [SimpleReader.read, SimpleReader.readWith] at hr
    split at hr
    · cases hr
    · cases hr
    · rename_i hk
      cases hr
      exact (read_all sr _ (readContent_times sr) _).2 _ _ _ _ _ _ _ _ _ hk
  have hb' : timeVersion b.data = 0 → ∀ t ∈ times b.data, t.toNat < 2 ^ 32 := by
    by_cases h : timeVersion b.data = 0 → ∀ t ∈ times b.data, t.toNat < 2 ^ 32
    · exact h
    · exact absurd hall ((not_all_iff.not_allList_iff _ ts).2 ⟨b, hb, h⟩)
  have h1 : timeVersion b.data = 0 := by
    obtain ⟨k1, k2, k3⟩ := hv b hb
    cases hd : b.data with
    | mvhd m => exact k1 m hd
    | tkhd m => exact k2 m hd
    | mdhd m => exact k3 m hd
    | _ => simp [timeVersion]
  have := hb' h1 t ht
  have := hu.1
  omega

/-- A file with a free box and a movie header whose creation time is 2^63 + 2^40 seconds. -/
def timeBomb : List Byte :=
  [0, 0, 0, 8] ++ b!"free" ++ [0, 0, 0, 120] ++ b!"mvhd" ++ [1, 0, 0, 0] ++ [0x80, 0, 1, 0, 0, 0, 0, 0] ++ List.replicate 100 0

/-- **C67 (a file).** Such files exist, and the boxes in front of the header are printed. -/
theorem C67_witness : ∃ m, (SimpleReader.mk false (fun _ => default) stdBoxMap timeBomb).dump =
    some (b!"[free] Offset=0 Size=8 Data=[]\n", .error (.ub m)) := ⟨"null pointer dereferenced: gmtime_r() failed", by decide +kernel⟩

/-- **C67 (reading and printing).** On a string stream nothing else is undefined: for every file, `read` ends normally, with an exception, or — after
the file has been read completely — because of such a time. -/
theorem C67_nothing_else (sr : SimpleReader) (hl : sr.data.length < 2 ^ 63) (hf : sr.file = false) (out : List Byte) (m : String)
    (hd : sr.dump = some (out, .error (.ub m))) :
    ∃ vs ts, sr.read = some ⟨vs, .ok ts⟩ ∧ ∃ b ∈ boxesOfList ts, ∃ t ∈ times b.data, Unconvertible t := by
  cases hr : sr.read with
  | none => rw [SimpleReader.dump, hr] at hd; cases hd
  | some r =>
    obtain ⟨vs, res⟩ := r
    cases res with
    | error e =>
      rw [(C64_dump sr vs _ hr).1 e rfl] at hd
      cases hd
      exact absurd rfl (C55_string_stream sr hl hf _ hr m)
    | ok ts => exact ⟨vs, ts, rfl, (C67_exactly sr vs ts hr).1.1 ⟨out, m, hd⟩⟩

end Mp4
