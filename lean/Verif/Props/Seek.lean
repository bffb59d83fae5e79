import Verif.Spec.Seek
import Verif.Props.ReaderUb

/-!
# C84: positioning a stream at the boxes of a file
-/

namespace Mp4
open Spec

theorem seekg_ok {is : IStream} {t : Nat} (hl : is.data.length < 2 ^ 63) (ht : t ≤ is.data.length) (file : Bool) (what : String) :
    is.seekg file t what = .ok { is with pos := t } := by
  rw [IStream.seekg, if_pos ⟨by omega, .inr ht⟩]

/-- **C84.** For every file that the reader accepts and every box in it, at any depth: a stream can be positioned at the data and behind the end of
the box, through its header as well as through the box; between the two are `getDataSize()` bytes. -/
theorem C84_positions (sr : SimpleReader) (hl : sr.data.length < 2 ^ 63) (vs : List BoxHeader) (ts : List Tree)
    (hr : sr.read = some ⟨vs, .ok ts⟩) (b : Box) (h : BoxHeader) (hb : b.header = some h) (hv : h ∈ vs) (file : Bool) (pos : Nat) :
    ∃ data end_ : Nat, end_ = data + h.getDataSize ∧ data = h.offset + h.headerSize ∧ end_ ≤ sr.data.length ∧
      h.seekToData file ⟨sr.data, pos⟩ = .ok ⟨sr.data, data⟩ ∧ b.seekToData file ⟨sr.data, pos⟩ = .ok ⟨sr.data, data⟩ ∧
      h.seekToEnd file ⟨sr.data, pos⟩ = .ok ⟨sr.data, end_⟩ ∧ b.seekToEnd file ⟨sr.data, pos⟩ = .ok ⟨sr.data, end_⟩ := by
  have hfit : ¬ (h.size < h.headerSize ∨ sr.data.length < h.offset + h.size) := by
    intro hbad
    obtain ⟨⟨w, hw⟩, -⟩ := C29_impossible_sizes sr hl _ hr h hv hbad
    cases hw
  have hg : h.getDataSize = h.size - h.headerSize := sub64_eq (by omega) (by omega)
  have e1 : u64 (h.offset + h.headerSize) = h.offset + h.headerSize := Nat.mod_eq_of_lt (by omega)
  have e2 : u64 (h.offset + h.size) = h.offset + h.size := Nat.mod_eq_of_lt (by omega)
  refine ⟨h.offset + h.headerSize, h.offset + h.size, by omega, rfl, by omega, ?_, ?_, ?_, ?_⟩
  · rw [BoxHeader.seekToData, e1, seekg_ok hl (by dsimp only; omega)]
  · rw [Box.seekToData, hb]
    dsimp only
    rw [e1, seekg_ok hl (by dsimp only; omega)]
  · rw [BoxHeader.seekToEnd, e2, seekg_ok hl (by dsimp only; omega)]
  · rw [Box.seekToEnd, hb]
    dsimp only
    rw [e2, seekg_ok hl (by dsimp only; omega)]

theorem headersList_top (ts : List Tree) : ∀ h ∈ topHeaders ts, h ∈ Tree.headersList ts := by
  induction ts with
  | nil => intro h hm; cases hm
  | cons t ts ih =>
    intro h hm
    rw [topHeaders, List.flatMap_cons, List.mem_append] at hm
    rw [Tree.headersList, List.mem_append]
    rcases hm with hm | hm
    · left
      obtain ⟨b, p, ls⟩ := t
      rw [Tree.headers, List.mem_append]
      exact .inl hm
    · exact .inr (ih h hm)

theorem TiledList_le : ∀ (ts : List Tree) (s e : Nat), Tree.TiledList ts s e → s ≤ e := by
  intro ts
  induction ts with
  | nil => intro s e h; rw [Tree.TiledList] at h; omega
  | cons t ts ih =>
    intro s e h
    obtain ⟨b, p, ls⟩ := t
    rw [Tree.TiledList] at h
    obtain ⟨m, h1, h2⟩ := h
    rw [Tree.Tiled] at h1
    obtain ⟨h, -, rfl, rfl, -, -⟩ := h1
    have := ih _ _ h2
    omega

theorem TiledList_length : ∀ (ts : List Tree) (s e : Nat), Tree.TiledList ts s e → (∀ h ∈ topHeaders ts, 0 < h.size) → s + ts.length ≤ e := by
  intro ts
  induction ts with
  | nil => intro s e h _; rw [Tree.TiledList] at h; exact Nat.le_of_eq h
  | cons t ts ih =>
    intro s e h hp
    obtain ⟨b, p, ls⟩ := t
    rw [Tree.TiledList] at h
    obtain ⟨m, h1, h2⟩ := h
    rw [Tree.Tiled] at h1
    obtain ⟨h, e1, rfl, rfl, -, -⟩ := h1
    have htop : topHeaders (.node b p ls :: ts) = h :: topHeaders ts := by
      rw [topHeaders, List.flatMap_cons]
      show b.header.toList ++ _ = _
      rw [e1]
      rfl
    rw [htop] at hp
    have k1 := hp h List.mem_cons_self
    have k2 := ih _ _ h2 (fun g hg => hp g (List.mem_cons_of_mem _ hg))
    rw [List.length_cons]
    omega

theorem walk_tiled (d : List Byte) (hl : d.length < 2 ^ 63) (file : Bool) : ∀ (ts : List Tree) (s : Nat), Tree.TiledList ts s d.length →
    (∀ h ∈ topHeaders ts, read_box_header ⟨d, h.offset⟩ = .ok h ∧ 0 < h.size) → ∀ steps, ts.length < steps →
    walk file steps ⟨d, s⟩ = (topHeaders ts, .atEnd) := by
  intro ts
  induction ts with
  | nil =>
    intro s ht _ steps hs
    rw [Tree.TiledList] at ht
    subst ht
    obtain ⟨n, rfl⟩ : ∃ n, steps = n + 1 := ⟨steps - 1, by omega⟩
    rw [walk, walkStep, if_pos (Nat.le_refl _)]
    rfl
  | cons t ts ih =>
    intro s ht hh steps hs
    obtain ⟨b, p, ls⟩ := t
    rw [Tree.TiledList] at ht
    obtain ⟨m, h1, h2⟩ := ht
    rw [Tree.Tiled] at h1
    obtain ⟨h, e1, rfl, rfl, h3, -⟩ := h1
    have htop : topHeaders (.node b p ls :: ts) = h :: topHeaders ts := by
      rw [topHeaders, List.flatMap_cons]
      show b.header.toList ++ _ = _
      rw [e1]
      rfl
    have hle : h.offset + h.size ≤ d.length := TiledList_le ts _ _ h2
    obtain ⟨k1, k2⟩ := hh h (by rw [htop]; exact List.mem_cons_self)
    obtain ⟨n, rfl⟩ : ∃ n, steps = n + 1 := ⟨steps - 1, by rw [List.length_cons] at hs; omega⟩
    have e2 : u64 (h.offset + h.size) = h.offset + h.size := Nat.mod_eq_of_lt (by omega)
    have hnext := ih _ h2 (fun g hg => hh g (by rw [htop]; exact List.mem_cons_of_mem _ hg)) n (by rw [List.length_cons] at hs; omega)
    have hstep : walkStep file ⟨d, h.offset⟩ = .next h ⟨d, h.offset + h.size⟩ := by
      rw [walkStep, if_neg (by dsimp only; omega), k1]
      dsimp only
      rw [BoxHeader.seekToEnd, e2, seekg_ok hl (by dsimp only; omega)]
    rw [walk, hstep]
    dsimp only
    rw [hnext, htop]

/-- **C84.** For every file that the reader accepts, the program that goes from header to header with `read_box_header` and `seekToEnd` ends at the end
of the file, on file streams and string streams, and visits exactly the headers of the boxes at the top, in order. -/
theorem C84_walk (sr : SimpleReader) (hl : sr.data.length < 2 ^ 63) (vs : List BoxHeader) (ts : List Tree)
    (hr : sr.read = some ⟨vs, .ok ts⟩) (file : Bool) (steps : Nat) (hs : sr.data.length < steps) :
    walk file steps ⟨sr.data, 0⟩ = (topHeaders ts, .atEnd) := by
  obtain ⟨ht, hv⟩ := C30_tiling sr hl vs ts hr
  obtain ⟨hh, -⟩ := C29_headers_of_the_file sr hl _ hr
  have hmem : ∀ h ∈ topHeaders ts, h ∈ vs := fun h hm => by rw [hv]; exact headersList_top ts h hm
  have hpos : ∀ h ∈ topHeaders ts, 0 < h.size := by
    intro h hm
    have hfit : ¬ (h.size < h.headerSize ∨ sr.data.length < h.offset + h.size) := by
      intro hbad
      obtain ⟨⟨w, hw⟩, -⟩ := C29_impossible_sizes sr hl _ hr h (hmem h hm) hbad
      cases hw
    have := (read_box_header_ok _ _ _ (by omega) (hh h (hmem h hm))).2.1
    omega
  refine walk_tiled sr.data hl file ts 0 ht (fun h hm => ⟨hh h (hmem h hm), hpos h hm⟩) steps ?_
  refine Nat.lt_of_le_of_lt ?_ hs
  have := TiledList_length ts 0 _ ht (fun h hm => hpos h hm)
  omega

theorem walk_stuck (d : List Byte) (file : Bool) (h : BoxHeader) (hd : d ≠ []) (hl : d.length < 2 ^ 63) (hh : read_box_header ⟨d, 0⟩ = .ok h)
    (ho : h.offset = 0) (hs : h.size = 0) : ∀ steps, walk file steps ⟨d, 0⟩ = (List.replicate steps h, .running) := by
  have hlen : ¬ d.length ≤ 0 := fun hc => hd (List.eq_nil_of_length_eq_zero (by omega))
  intro steps
  induction steps with
  | zero => rfl
  | succ n ih =>
    have hstep : walkStep file ⟨d, 0⟩ = .next h ⟨d, 0⟩ := by
      rw [walkStep, if_neg hlen, hh]
      dsimp only
      rw [BoxHeader.seekToEnd, ho, hs, show u64 (0 + 0) = 0 from rfl, seekg_ok hl (Nat.zero_le _)]
    rw [walk, hstep]
    dsimp only
    rw [ih]
    rfl

/-- **C84.** That the reader accepts the file cannot be dropped: on a file that begins with a box whose 64-bit size is 0 the program visits that box
again and again and never ends, whatever follows, while the reader rejects the file. -/
theorem C84_stuck (sr : SimpleReader) (hl : sr.data.length < 2 ^ 63) (t : BoxType) (rest : List Byte)
    (hd : sr.data = beBytes 4 1 ++ BoxType.bytes t ++ beBytes 8 0 ++ rest) :
    (∀ file steps, walk file steps ⟨sr.data, 0⟩ = (List.replicate steps ⟨0, 0, 16, t, false⟩, .running)) ∧
    ∃ w, sr.read = some ⟨[⟨0, 0, 16, t, false⟩], .error (.exc w)⟩ := by
  have hh := (read_box_header_spec sr.data 0 t (by omega)).2.1 0 rest (by rw [List.drop_zero]; exact hd) (by decide)
  have hne : sr.data ≠ [] := by
    intro h
    rw [h] at hd
    exact absurd hd (by simp [beBytes])
  refine ⟨fun file steps => walk_stuck _ file _ hne hl hh rfl rfl steps, ?_⟩
  obtain ⟨⟨vs, res⟩, hr, -⟩ := C28_terminates sr hl
  have hv := (C29_headers_of_the_file sr hl _ hr).2 _ hne hh
  cases vs with
  | nil => cases hv
  | cons v vs =>
    cases hv
    have key := C29_impossible_sizes sr hl _ hr ⟨0, 0, 16, t, false⟩ (by simp) (.inl (show 0 < 16 by decide))
    obtain ⟨⟨w, hw⟩, hlast⟩ := key
    have hi : Spec.InOrder sr.data.length 0 (⟨0, 0, 16, t, false⟩ :: vs) := by
      obtain ⟨q, ⟨j, g⟩, e1, e2⟩ := readWith_good sr hl _ _ hr
      obtain ⟨vs', res'⟩ := q
      cases e1
      cases res' with
      | error e => exact g
      | ok x => simp only at hw; subst hw; simp only at e2; cases e2
    have : vs = [] := by
      cases vs with
      | nil => rfl
      | cons u vs =>
        exfalso
        have hm : (⟨0, 0, 16, t, false⟩ : BoxHeader) ∈ u :: vs := by
          have := List.mem_of_getLast? hlast
          rw [List.getLast?_cons_cons] at hlast
          exact List.mem_of_getLast? hlast
        have key : ∀ (l : List BoxHeader) p, Spec.InOrder sr.data.length p l → ∀ h ∈ l, p ≤ h.offset := by
          intro l
          induction l with
          | nil => intro _ _ h hm; cases hm
          | cons a l ih =>
            intro p hi h hm
            rcases List.mem_cons.mp hm with rfl | hm
            · exact hi.1
            · have := ih _ hi.2.2.2 h hm
              have := hi.1
              omega
        have := key _ _ hi.2.2.2 _ hm
        simp at this
    subst this
    simp only at hw
    subst hw
    exact ⟨w, hr⟩

theorem walk_ends (d : List Byte) (hl : d.length < 2 ^ 63) (file : Bool) : ∀ (steps pos : Nat), d.length - pos < steps →
    (∀ h ∈ (walk file steps ⟨d, pos⟩).1, 0 < h.size ∧ h.offset + h.size < 2 ^ 64) →
    (walk file steps ⟨d, pos⟩).2 = .atEnd ∨ ∃ e, (walk file steps ⟨d, pos⟩).2 = .failed e ∧ ∀ w, e ≠ .ub w := by
  intro steps
  induction steps with
  | zero => intro pos hp _; omega
  | succ n ih =>
    intro pos hp hv
    rw [walk] at hv ⊢
    by_cases hend : d.length ≤ pos
    · rw [walkStep, if_pos hend]
      exact .inl rfl
    · cases hh : read_box_header ⟨d, pos⟩ with
      | error e =>
        rw [walkStep, if_neg hend, hh]
        refine .inr ⟨e, rfl, fun w hw => ?_⟩
        subst hw
        exact hend (Nat.le_of_lt (read_box_header_ub (by omega) hh))
      | ok h =>
        obtain ⟨ho, -, -, -⟩ := read_box_header_ok _ _ _ (by omega) hh
        by_cases hseek : u64 (h.offset + h.size) < 2 ^ 63 ∧ (file = true ∨ u64 (h.offset + h.size) ≤ d.length)
        · have hstep : walkStep file ⟨d, pos⟩ = .next h ⟨d, u64 (h.offset + h.size)⟩ := by
            rw [walkStep, if_neg hend, hh]
            dsimp only
            rw [BoxHeader.seekToEnd, IStream.seekg, if_pos hseek]
          rw [hstep] at hv ⊢
          dsimp only at hv ⊢
          obtain ⟨k1, k2⟩ := hv h List.mem_cons_self
          have e2 : u64 (h.offset + h.size) = h.offset + h.size := Nat.mod_eq_of_lt k2
          rw [e2] at hv ⊢
          exact ih _ (by omega) (fun g hg => hv g (List.mem_cons_of_mem _ hg))
        · have hstep : walkStep file ⟨d, pos⟩ = .stop [h] (.failed (.exc ("BoxHeader::seekToEnd()" ++ ": istream::seekg() failed"))) := by
            rw [walkStep, if_neg hend, hh]
            dsimp only
            rw [BoxHeader.seekToEnd, IStream.seekg, if_neg hseek]
          rw [hstep]
          exact .inr ⟨_, rfl, fun w hw => by cases hw⟩

/-- **C84.** On any file at all, accepted or not: unless the program visits a header whose size is 0 or reaches past 2^64, it ends, at the end of the
file or with an exception - never with undefined behaviour - after at most one pass for each byte of the file and one more. -/
theorem C84_ends (d : List Byte) (hl : d.length < 2 ^ 63) (file : Bool) (steps : Nat) (hs : d.length < steps)
    (hv : ∀ h ∈ (walk file steps ⟨d, 0⟩).1, 0 < h.size ∧ h.offset + h.size < 2 ^ 64) :
    (walk file steps ⟨d, 0⟩).2 = .atEnd ∨ ∃ e, (walk file steps ⟨d, 0⟩).2 = .failed e ∧ ∀ w, e ≠ .ub w :=
  walk_ends d hl file steps 0 (by omega) hv

/-! ### Concrete cases -/

/-- A `moov` box with a `free` box in it, and another `free` box. -/
def seekFile : SimpleReader := ⟨false, fun _ => default, stdBoxMap,
  [0, 0, 0, 19, 0x6d, 0x6f, 0x6f, 0x76, 0, 0, 0, 11, 0x66, 0x72, 0x65, 0x65, 1, 2, 3, 0, 0, 0, 9, 0x66, 0x72, 0x65, 0x65, 7]⟩

theorem seekFile_read : (match seekFile.read with | some ⟨vs, .ok ts⟩ => decide (vs.length = 3 ∧ ts.length = 2) | _ => false) = true := by decide +kernel

/-- The reader accepts the file; the walk visits two of its three headers. -/
example : ∃ vs ts, seekFile.read = some ⟨vs, .ok ts⟩ ∧ vs.length = 3 ∧ walk false 29 ⟨seekFile.data, 0⟩ = (topHeaders ts, .atEnd) := by
  have hc := seekFile_read
  have key := C84_walk seekFile (by decide +kernel)
  generalize seekFile.read = x at *
  match x, hc with
  | some ⟨vs, .ok ts⟩, hc =>
    exact ⟨vs, ts, rfl, (of_decide_eq_true hc).1, key vs ts rfl false 29 (by decide +kernel)⟩

example : ((walk false 29 ⟨seekFile.data, 0⟩).1.map fun h => (h.offset, h.size)) = [(0, 19), (19, 9)] := by decide +kernel

/-- Seeking from anywhere in the file to the `free` box inside `moov` (header at 8, data at 16, end at 19). -/
example : ∃ vs ts, seekFile.read = some ⟨vs, .ok ts⟩ ∧ ∃ h ∈ vs, h.offset = 8 ∧
    h.seekToData true ⟨seekFile.data, 27⟩ = .ok ⟨seekFile.data, 16⟩ ∧ h.seekToEnd true ⟨seekFile.data, 27⟩ = .ok ⟨seekFile.data, 19⟩ := by
  have hc : (match seekFile.read with
      | some ⟨[_, h, _], .ok _⟩ => decide (h.offset = 8 ∧ h.headerSize = 8 ∧ h.getDataSize = 3) | _ => false) = true := by decide +kernel
  have key := C84_positions seekFile (by decide +kernel)
  generalize seekFile.read = x at *
  match x, hc with
  | some ⟨[g, h, i], .ok ts⟩, hc =>
    obtain ⟨k1, k2, k3⟩ := of_decide_eq_true hc
    obtain ⟨data, end_, h1, h2, -, h4, -, h6, -⟩ := key _ ts rfl ⟨fourcc "free", .empty, some h⟩ h rfl (by simp) true 27
    rw [k1, k2] at h2
    subst h2
    rw [k3] at h1
    subst h1
    exact ⟨_, ts, rfl, h, by simp, k1, h4, h6⟩

example (file : Bool) (env : Nat → Env) : ∃ w, (SimpleReader.mk file env stdBoxMap
      (beBytes 4 1 ++ BoxType.bytes (fourcc "free") ++ beBytes 8 0 ++ [1, 2, 3])).read = some ⟨[⟨0, 0, 16, fourcc "free", false⟩], .error (.exc w)⟩ :=
  (C84_stuck (SimpleReader.mk file env stdBoxMap _) (by simp [beBytes_length, BoxType.bytes]) (fourcc "free") [1, 2, 3] rfl).2

end Mp4
