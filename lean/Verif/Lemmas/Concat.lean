import Verif.Spec.Concat
import Verif.Lemmas.Reader

/-! # Reading a file of which the beginning or the end is a file -/

namespace Mp4

theorem sub64_shift (a n o : Nat) : sub64 (a + n) (o + a) = sub64 n o := by
  unfold sub64
  have : a + n + 2 ^ 64 - (o + a) = n + 2 ^ 64 - o := by generalize 2 ^ 64 = x; omega
  rw [this]

theorem slice_shift (A B : List Byte) (o n : Nat) : slice (A ++ B) (o + A.length) n = slice B o n := by
  unfold slice
  rw [List.drop_append, List.drop_of_length_le (by omega), List.nil_append, Nat.add_sub_cancel]

/-- `read_box_header`, given the number of bytes that are left, whether the position is behind the end, and the bytes there. -/
def parseHeader (left : Nat) (behind : Prop) [Decidable behind] (bytes : List Byte) (offset : Nat) : Except Err BoxHeader :=
  if left < SMALL_HEADER_SIZE then
    .error (.exc "read_box_header(): stream has not enough data (1)")
  else if behind then .error (.ub "copy_n past the end of the stream")
  else
    match bytes with
    | a :: b :: c :: d :: t0 :: t1 :: t2 :: t3 :: more =>
      let size := (be_to_uint32 a b c d).toNat
      let type : BoxType := ⟨t0, t1, t2, t3⟩
      if size = 0 then
        .ok { offset := offset, size := left, headerSize := SMALL_HEADER_SIZE, type := type, extendToEof := true }
      else if size = 1 then
        if left < LARGE_HEADER_SIZE then
          .error (.exc "read_box_header(): stream has not enough data (2)")
        else
          match more with
          | a :: b :: c :: d :: e :: f :: g :: h :: _ =>
            .ok { offset := offset, size := (be_to_uint64 a b c d e f g h).toNat, headerSize := LARGE_HEADER_SIZE,
                  type := type, extendToEof := false }
          | _ => .error (.ub "copy_n past the end of the stream")
      else .ok { offset := offset, size := size, headerSize := SMALL_HEADER_SIZE, type := type, extendToEof := false }
    | _ => .error (.ub "copy_n past the end of the stream")

theorem read_box_header_parse (d : List Byte) (pos : Nat) :
    read_box_header ⟨d, pos⟩ = parseHeader (sub64 d.length pos) (d.length < pos) (d.drop pos) pos := rfl

/-- Let the exception through. -/
def onOk {α β : Type} (f : α → β) : Except Err α → Except Err β
  | .ok a => .ok (f a)
  | .error e => .error e

theorem parse_moved (left : Nat) (p q : Prop) [Decidable p] [Decidable q] (hpq : p ↔ q) (bytes : List Byte) (o k : Nat) :
    parseHeader left p bytes (o + k) = onOk (BoxHeader.moved k) (parseHeader left q bytes o) := by
  unfold parseHeader
  by_cases h8 : left < SMALL_HEADER_SIZE
  · rw [if_pos h8, if_pos h8]; rfl
  rw [if_neg h8, if_neg h8]
  by_cases h9 : q
  · rw [if_pos h9, if_pos (hpq.2 h9)]; rfl
  rw [if_neg h9, if_neg (fun h => h9 (hpq.1 h))]
  match bytes with
  | a :: b :: c :: d' :: t0 :: t1 :: t2 :: t3 :: more =>
    dsimp only
    generalize (be_to_uint32 a b c d').toNat = v
    by_cases h0 : v = 0
    · rw [if_pos h0, if_pos h0]; rfl
    rw [if_neg h0, if_neg h0]
    by_cases h1 : v = 1
    · rw [if_pos h1, if_pos h1]
      by_cases h16 : left < LARGE_HEADER_SIZE
      · rw [if_pos h16, if_pos h16]; rfl
      rw [if_neg h16, if_neg h16]
      split <;> rfl
    · rw [if_neg h1, if_neg h1]; rfl
  | [] => rfl
  | [_] => rfl
  | [_, _] => rfl
  | [_, _, _] => rfl
  | [_, _, _, _] => rfl
  | [_, _, _, _, _] => rfl
  | [_, _, _, _, _, _] => rfl
  | [_, _, _, _, _, _, _] => rfl

theorem header_shift (A B : List Byte) (pos : Nat) :
    read_box_header ⟨A ++ B, pos + A.length⟩ = onOk (BoxHeader.moved A.length) (read_box_header ⟨B, pos⟩) := by
  have h1 : (A ++ B).length < pos + A.length ↔ B.length < pos := by rw [List.length_append]; omega
  have h2 : sub64 (A ++ B).length (pos + A.length) = sub64 B.length pos := by rw [List.length_append, sub64_shift]
  have h3 : (A ++ B).drop (pos + A.length) = B.drop pos := by
    rw [List.drop_append, List.drop_of_length_le (by omega), List.nil_append, Nat.add_sub_cancel]
  rw [read_box_header_parse, read_box_header_parse, h2, h3]
  exact parse_moved _ _ _ h1 _ _ _

/-- The same run, `k` bytes further back. -/
def Run.movedBox (k : Nat) (r : Run (Nat × Tree × Nat)) : Run (Nat × Tree × Nat) :=
  ⟨r.visits.map (BoxHeader.moved k), match r.res with
    | .ok (n, t, e) => .ok (n, t.moved k, e + k)
    | .error x => .error x⟩

def Run.movedLoop (k : Nat) (r : Run (List Tree × Nat)) : Run (List Tree × Nat) :=
  ⟨r.visits.map (BoxHeader.moved k), match r.res with
    | .ok (ts, e) => .ok (Tree.movedList k ts, e + k)
    | .error x => .error x⟩

namespace SimpleReader
variable (file : Bool) (env : Nat → Env) (map : BoxMap Kind) (A B : List Byte)

/-- The reader of the second file. -/
def second : SimpleReader := { file := file, env := fun o => env (o + A.length), map := map, data := B }
/-- The reader of both files. -/
def both : SimpleReader := { file := file, env := env, map := map, data := A ++ B }

/-- What `readContent` does once the size has been checked and the payload been taken out. -/
def withPayload (file : Bool) (k : Kind × BoxType) (env : Env) (wave : Bool) (header : BoxHeader) (tooBig : Prop) [Decidable tooBig]
    (ss : List Byte) (over : Nat → Prop) [∀ n, Decidable (over n)] : Except Err (Box × Nat) :=
  if tooBig then .error (.exc "corrupt file? box data size is greater than remaining_size")
  else
    match (BoxData.readData env k.2 wave k.1).runC (Reader.new ⟨ss, 0⟩) with
    | .error e => .error e
    | .ok ((rbits, data), _) =>
      if file = false ∧ over (rbits / 8) then .error (.exc "SimpleReader::readBox(): istream::seekg() failed")
      else .ok (⟨k.2, data, some header⟩, rbits / 8)

theorem readContent_payload (sr : SimpleReader) (wave : Bool) (header : BoxHeader) :
    sr.readContent wave header = withPayload sr.file (sr.classOf header.type) (sr.env header.offset) wave header
      (header.getDataSize > sub64 (sub64 sr.data.length header.offset) header.headerSize)
      (slice sr.data (header.offset + header.headerSize) header.getDataSize)
      (fun n => sr.data.length < header.offset + header.headerSize + n) := rfl

theorem withPayload_moved (file : Bool) (k : Kind × BoxType) (env : Env) (wave : Bool) (header : BoxHeader) (m : Nat) (p q : Prop)
    [Decidable p] [Decidable q] (hpq : p ↔ q) (ss : List Byte) (f g : Nat → Prop) [∀ n, Decidable (f n)] [∀ n, Decidable (g n)]
    (hfg : ∀ n, f n ↔ g n) :
    withPayload file k env wave (header.moved m) p ss f
      = onOk (fun x => (x.1.moved m, x.2)) (withPayload file k env wave header q ss g) := by
  unfold withPayload
  by_cases hq : q
  · rw [if_pos hq, if_pos (hpq.2 hq)]; rfl
  rw [if_neg hq, if_neg (fun h => hq (hpq.1 h))]
  cases (BoxData.readData env k.2 wave k.1).runC (Reader.new ⟨ss, 0⟩) with
  | error e => rfl
  | ok x =>
    obtain ⟨⟨n, b⟩, r⟩ := x
    dsimp only
    by_cases hc : file = false ∧ g (n / 8)
    · rw [if_pos hc, if_pos ⟨hc.1, (hfg _).2 hc.2⟩]; rfl
    · rw [if_neg hc, if_neg (fun h => hc ⟨h.1, (hfg _).1 h.2⟩)]; rfl

theorem content_shift (wave : Bool) (h : BoxHeader) :
    (both file env map A B).readContent wave (h.moved A.length)
      = onOk (fun x => (x.1.moved A.length, x.2)) ((second file env map A B).readContent wave h) := by
  have hl : (both file env map A B).data.length = A.length + (second file env map A B).data.length := List.length_append
  have hd : slice (both file env map A B).data ((h.moved A.length).offset + (h.moved A.length).headerSize) (h.moved A.length).getDataSize
      = slice (second file env map A B).data (h.offset + h.headerSize) h.getDataSize := by
    show slice _ (h.offset + A.length + h.headerSize) h.getDataSize = _
    rw [show h.offset + A.length + h.headerSize = (h.offset + h.headerSize) + A.length by omega]
    exact slice_shift A B _ _
  rw [readContent_payload, readContent_payload, hd, hl]
  refine withPayload_moved _ _ _ _ _ _ _ _ ?_ _ _ _ ?_
  · show h.getDataSize > sub64 (sub64 (A.length + _) (h.offset + A.length)) h.headerSize ↔ _
    rw [sub64_shift]
  · intro n
    show A.length + _ < h.offset + A.length + h.headerSize + n ↔ _
    omega

theorem box_type_moved (b : Box) (k : Nat) : (b.moved k).type = b.type := rfl

theorem loop_shift (f g : Nat → Option (Run (Nat × Tree × Nat))) (limit : Nat) (k : Nat)
    (h : ∀ pos, f (pos + k) = (g pos).map (Run.movedBox k)) : ∀ n done pos,
    readLoop f limit n done (pos + k) = (readLoop g limit n done pos).map (Run.movedLoop k) := by
  intro n
  induction n with
  | zero => intros; rfl
  | succ n ih =>
    intro done pos
    rw [readLoop, readLoop]
    split
    · rw [h]
      cases g pos with
      | none => rfl
      | some r =>
        obtain ⟨vs, res⟩ := r
        cases res with
        | error e => rfl
        | ok x =>
          obtain ⟨size, t, e⟩ := x
          dsimp only [Option.map, Run.movedBox]
          rw [ih]
          cases readLoop g limit n (u64 (done + size)) e with
          | none => rfl
          | some q =>
            obtain ⟨ws, res⟩ := q
            cases res with
            | error e => simp [Option.map, Run.movedLoop]
            | ok y => obtain ⟨ts, e⟩ := y; simp [Option.map, Run.movedLoop, Tree.movedList]
    · rfl

theorem box_shift (fuel : Nat) : ∀ path wave pos, (both file env map A B).readBox fuel path wave (pos + A.length)
    = ((second file env map A B).readBox fuel path wave pos).map (Run.movedBox A.length) := by
  induction fuel with
  | zero => intros; rfl
  | succ fuel ih =>
    intro path wave pos
    rw [readBox_succ, readBox_succ]
    have hh := header_shift A B pos
    cases h1 : read_box_header ⟨B, pos⟩ with
    | error e =>
      rw [h1, onOk] at hh
      rw [body_header_error _ (show read_box_header ⟨(second file env map A B).data, pos⟩ = _ from h1),
        body_header_error _ (show read_box_header ⟨(both file env map A B).data, pos + A.length⟩ = _ from hh)]
      rfl
    | ok h =>
      rw [h1, onOk] at hh
      have hc := content_shift file env map A B wave h
      cases h2 : (second file env map A B).readContent wave h with
      | error e =>
        rw [h2, onOk] at hc
        rw [body_content_error _ (show read_box_header ⟨(second file env map A B).data, pos⟩ = _ from h1) h2,
          body_content_error _ (show read_box_header ⟨(both file env map A B).data, pos + A.length⟩ = _ from hh) hc]
        rfl
      | ok x =>
        obtain ⟨b, n⟩ := x
        rw [h2, onOk] at hc
        rw [body_ok _ (show read_box_header ⟨(second file env map A B).data, pos⟩ = _ from h1) h2,
          body_ok _ (show read_box_header ⟨(both file env map A B).data, pos + A.length⟩ = _ from hh) hc]
        have hs : (h.moved A.length).getDataSize = h.getDataSize := rfl
        have ho : (h.moved A.length).offset + (h.moved A.length).headerSize + n = (h.offset + h.headerSize + n) + A.length := by
          show h.offset + A.length + h.headerSize + n = _; omega
        rw [box_type_moved, hs, ho, loop_shift _ ((second file env map A B).readBox fuel (path ++ [b.type]) (b.type = fourcc "wave")) _
          A.length (fun pos => ih _ _ pos)]
        cases readLoop ((second file env map A B).readBox fuel (path ++ [b.type]) (b.type = fourcc "wave")) h.getDataSize fuel n
            (h.offset + h.headerSize + n) with
        | none => rfl
        | some q =>
          obtain ⟨ws, res⟩ := q
          cases res with
          | error e => simp [Option.map, Run.movedLoop, Run.movedBox]
          | ok y => obtain ⟨ts, e⟩ := y; simp [Option.map, Run.movedLoop, Run.movedBox, Tree.moved, BoxHeader.moved]

/-! ### the beginning -/

theorem parse_longer {left left' : Nat} {q q' : Prop} [Decidable q] [Decidable q'] {bytes more : List Byte} {o : Nat} {h : BoxHeader}
    (hp : parseHeader left q bytes o = .ok h) (hne : h.extendToEof = false) (hle : left ≤ left') (hq : ¬ q') :
    parseHeader left' q' (bytes ++ more) o = .ok h := by
  unfold parseHeader at hp ⊢
  by_cases h8 : left < SMALL_HEADER_SIZE
  · rw [if_pos h8] at hp; cases hp
  rw [if_neg h8] at hp
  rw [if_neg (fun h => h8 (Nat.lt_of_le_of_lt hle h)), if_neg hq]
  by_cases h9 : q
  · rw [if_pos h9] at hp; cases hp
  rw [if_neg h9] at hp
  match bytes with
  | a :: b :: c :: d' :: t0 :: t1 :: t2 :: t3 :: rest =>
    simp only [List.cons_append] at hp ⊢
    generalize (be_to_uint32 a b c d').toNat = v at hp ⊢
    by_cases h0 : v = 0
    · rw [if_pos h0] at hp
      injection hp with hp
      rw [← hp] at hne
      cases hne
    rw [if_neg h0] at hp ⊢
    by_cases h1 : v = 1
    · rw [if_pos h1] at hp ⊢
      by_cases h16 : left < LARGE_HEADER_SIZE
      · rw [if_pos h16] at hp; cases hp
      rw [if_neg h16] at hp
      rw [if_neg (fun h => h16 (Nat.lt_of_le_of_lt hle h))]
      match rest with
      | _ :: _ :: _ :: _ :: _ :: _ :: _ :: _ :: _ => exact hp
      | [] => cases hp
      | [_] => cases hp
      | [_, _] => cases hp
      | [_, _, _] => cases hp
      | [_, _, _, _] => cases hp
      | [_, _, _, _, _] => cases hp
      | [_, _, _, _, _, _] => cases hp
      | [_, _, _, _, _, _, _] => cases hp
    · rw [if_neg h1] at hp ⊢
      exact hp
  | [] => cases hp
  | [_] => cases hp
  | [_, _] => cases hp
  | [_, _, _] => cases hp
  | [_, _, _, _] => cases hp
  | [_, _, _, _, _] => cases hp
  | [_, _, _, _, _, _] => cases hp
  | [_, _, _, _, _, _, _] => cases hp

theorem header_longer (A B : List Byte) (pos : Nat) (h : BoxHeader) (hl : (A ++ B).length < 2 ^ 64)
    (hr : read_box_header ⟨A, pos⟩ = .ok h) (hne : h.extendToEof = false) : read_box_header ⟨A ++ B, pos⟩ = .ok h := by
  rw [List.length_append] at hl
  obtain ⟨-, h8, hp, -⟩ := read_box_header_ok A pos h (by omega) hr
  have hpos : pos ≤ A.length := by rcases h8 with h8 | h8 <;> omega
  rw [read_box_header_parse] at hr ⊢
  have h3 : (A ++ B).drop pos = A.drop pos ++ B := by
    rw [List.drop_append, Nat.sub_eq_zero_of_le hpos, List.drop_zero]
  rw [h3]
  refine parse_longer hr hne ?_ (by rw [List.length_append]; omega)
  rw [List.length_append, sub64_eq hpos (by omega), sub64_eq (by omega) (by omega)]
  omega

/-- The reader of the first file, as a string. -/
def first : SimpleReader := { file := false, env := env, map := map, data := A }

theorem withPayload_ok {file file' : Bool} {k : Kind × BoxType} {env : Env} {wave : Bool} {header : BoxHeader} {p q : Prop}
    [Decidable p] [Decidable q] {ss : List Byte} {f g : Nat → Prop} [∀ n, Decidable (f n)] [∀ n, Decidable (g n)] {x : Box × Nat}
    (h : withPayload file k env wave header p ss f = .ok x) (hq : ¬ q) (hg : file' = false → ¬ g x.2) :
    withPayload file' k env wave header q ss g = .ok x := by
  unfold withPayload at h ⊢
  by_cases hp : p
  · rw [if_pos hp] at h; cases h
  rw [if_neg hp] at h
  rw [if_neg hq]
  generalize (BoxData.readData env k.2 wave k.1).runC (Reader.new ⟨ss, 0⟩) = z at h ⊢
  cases z with
  | error e => cases h
  | ok z =>
    obtain ⟨⟨n, b⟩, r⟩ := z
    dsimp only at h ⊢
    split at h
    · cases h
    · injection h with h
      rw [← h] at hg ⊢
      rw [if_neg (fun hh => hg hh.1 hh.2)]

theorem content_longer (hl : (A ++ B).length < 2 ^ 63) {wave : Bool} {pos : Nat} {h : BoxHeader} {x : Box × Nat}
    (hr : read_box_header ⟨A, pos⟩ = .ok h) (hc : (first env map A).readContent wave h = .ok x) :
    (both file env map A B).readContent wave h = .ok x := by
  rw [List.length_append] at hl
  obtain ⟨ho, h8, hp, hs⟩ := read_box_header_ok A pos h (by omega) hr
  obtain ⟨h1, -, h3⟩ := readContent_ok _ hc
  have h3 := h3 rfl
  have hA : (first env map A).data.length = A.length := rfl
  have hAB : (both file env map A B).data.length = A.length + B.length := List.length_append
  rw [hA] at h1 h3
  have e1 : sub64 A.length h.offset = A.length - h.offset := sub64_eq (by omega) (by omega)
  have e2 : sub64 (A.length + B.length) h.offset = A.length + B.length - h.offset := sub64_eq (by omega) (by omega)
  rw [e1, sub64_eq (by omega) (by omega)] at h1
  rw [readContent_payload] at hc ⊢
  have hd : slice (both file env map A B).data (h.offset + h.headerSize) h.getDataSize
      = slice (first env map A).data (h.offset + h.headerSize) h.getDataSize := by
    show ((A ++ B).drop _).take _ = (A.drop _).take _
    rw [List.drop_append, List.take_append_of_le_length (by rw [List.length_drop]; omega)]
  rw [hd]
  refine withPayload_ok hc ?_ ?_
  · rw [hAB, e2, sub64_eq (by omega) (by omega)]
    omega
  · intro _ hh
    rw [hAB] at hh
    omega

theorem loop_longer (f g : Nat → Option (Run (Nat × Tree × Nat))) (limit : Nat)
    (h : ∀ pos vs size t e, f pos = some ⟨vs, .ok (size, t, e)⟩ → (∀ h ∈ vs, h.extendToEof = false) →
      g pos = some ⟨vs, .ok (size, t, e)⟩) : ∀ n done pos vs ts e, readLoop f limit n done pos = some ⟨vs, .ok (ts, e)⟩ →
    (∀ h ∈ vs, h.extendToEof = false) → readLoop g limit n done pos = some ⟨vs, .ok (ts, e)⟩ := by
  intro n
  induction n with
  | zero => intro _ _ _ _ _ hr; cases hr
  | succ n ih =>
    intro done pos vs ts e hr hne
    rw [readLoop] at hr ⊢
    split
    · next hb =>
      rw [if_pos hb] at hr
      cases hf : f pos with
      | none => rw [hf] at hr; cases hr
      | some r =>
        rw [hf] at hr
        obtain ⟨us, res⟩ := r
        cases res with
        | error x => cases hr
        | ok x =>
          obtain ⟨size, t, e'⟩ := x
          dsimp only at hr
          cases hq : readLoop f limit n (u64 (done + size)) e' with
          | none => rw [hq] at hr; cases hr
          | some r =>
            rw [hq] at hr
            obtain ⟨ws, res⟩ := r
            cases res with
            | error x => cases hr
            | ok x =>
              obtain ⟨ts', e''⟩ := x
              cases hr
              rw [h pos us size t e' hf (fun x hx => hne x (List.mem_append.mpr (.inl hx)))]
              dsimp only
              rw [ih _ _ _ _ _ hq (fun x hx => hne x (List.mem_append.mpr (.inr hx)))]
    · next hb =>
      rw [if_neg hb] at hr
      exact hr

theorem box_longer (hl : (A ++ B).length < 2 ^ 63) (fuel : Nat) : ∀ path wave pos vs size t e,
    (first env map A).readBox fuel path wave pos = some ⟨vs, .ok (size, t, e)⟩ → (∀ h ∈ vs, h.extendToEof = false) →
    (both file env map A B).readBox fuel path wave pos = some ⟨vs, .ok (size, t, e)⟩ := by
  induction fuel with
  | zero => intro _ _ _ _ _ _ _ hr; cases hr
  | succ fuel ih =>
    intro path wave pos vs size t e hr hne
    rw [readBox_succ] at hr ⊢
    cases hh : read_box_header ⟨A, pos⟩ with
    | error x => rw [body_header_error _ (show read_box_header ⟨(first env map A).data, pos⟩ = _ from hh)] at hr; cases hr
    | ok h =>
      cases hc : (first env map A).readContent wave h with
      | error x => rw [body_content_error _ (show read_box_header ⟨(first env map A).data, pos⟩ = _ from hh) hc] at hr; cases hr
      | ok x =>
        obtain ⟨b, n⟩ := x
        rw [body_ok _ (show read_box_header ⟨(first env map A).data, pos⟩ = _ from hh) hc] at hr
        generalize hq : readLoop ((first env map A).readBox fuel (path ++ [b.type]) (decide (b.type = fourcc "wave"))) h.getDataSize fuel n
            (h.offset + h.headerSize + n) = q at hr
        match q, hr, hq with
        | some ⟨ws, .ok (ls, e')⟩, hr, hq =>
          cases hr
          have hh' := header_longer A B pos h (by omega) hh (hne h (List.mem_cons_self ..))
          rw [body_ok _ (show read_box_header ⟨(both file env map A B).data, pos⟩ = _ from hh') (content_longer file env map A B hl hh hc),
            loop_longer _ _ _ (fun pos => ih _ _ pos) _ _ _ _ _ _ hq (fun x hx => hne x (List.mem_cons_of_mem _ hx))]

/-- On a string nothing ends behind the end. -/
theorem loop_end (sr : SimpleReader) (f : Nat → Option (Run (Nat × Tree × Nat))) (limit : Nat)
    (h : ∀ pos vs size t e, f pos = some ⟨vs, .ok (size, t, e)⟩ → e ≤ sr.data.length) : ∀ n done pos vs ts e,
    readLoop f limit n done pos = some ⟨vs, .ok (ts, e)⟩ → pos ≤ sr.data.length → e ≤ sr.data.length := by
  intro n
  induction n with
  | zero => intro _ _ _ _ _ hr; cases hr
  | succ n ih =>
    intro done pos vs ts e hr hp
    rw [readLoop] at hr
    split at hr
    · cases hf : f pos with
      | none => rw [hf] at hr; cases hr
      | some r =>
        rw [hf] at hr
        obtain ⟨us, res⟩ := r
        cases res with
        | error x => cases hr
        | ok x =>
          obtain ⟨size, t, e'⟩ := x
          dsimp only at hr
          cases hq : readLoop f limit n (u64 (done + size)) e' with
          | none => rw [hq] at hr; cases hr
          | some r =>
            rw [hq] at hr
            obtain ⟨ws, res⟩ := r
            cases res with
            | error x => cases hr
            | ok x =>
              obtain ⟨ts', e''⟩ := x
              cases hr
              exact ih _ _ _ _ _ hq (h _ _ _ _ _ hf)
    · cases hr
      exact hp

theorem box_end (sr : SimpleReader) (hf : sr.file = false) (fuel : Nat) : ∀ path wave pos vs size t e,
    sr.readBox fuel path wave pos = some ⟨vs, .ok (size, t, e)⟩ → e ≤ sr.data.length := by
  induction fuel with
  | zero => intro _ _ _ _ _ _ _ hr; cases hr
  | succ fuel ih =>
    intro path wave pos vs size t e hr
    rw [readBox_succ] at hr
    cases hh : read_box_header ⟨sr.data, pos⟩ with
    | error x => rw [body_header_error _ hh] at hr; cases hr
    | ok h =>
      cases hc : sr.readContent wave h with
      | error x => rw [body_content_error _ hh hc] at hr; cases hr
      | ok x =>
        obtain ⟨b, n⟩ := x
        rw [body_ok _ hh hc] at hr
        generalize hq : readLoop (sr.readBox fuel (path ++ [b.type]) (decide (b.type = fourcc "wave"))) h.getDataSize fuel n
            (h.offset + h.headerSize + n) = q at hr
        match q, hr, hq with
        | some ⟨ws, .ok (ls, e')⟩, hr, hq =>
          cases hr
          exact loop_end sr _ _ (fun pos => ih _ _ pos) _ _ _ _ _ _ hq ((readContent_ok _ hc).2.2 hf)

end SimpleReader
end Mp4
