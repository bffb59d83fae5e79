import Verif.Lemmas.NoUb
import Verif.Props.ReadExact
import Verif.Props.ReadBack

/-! # C55: undefined behaviour while reading a file -/

namespace Mp4

/-- **C55.** `readData` of every box class, in every state of the bit reader and on every payload, ends normally or with an
exception, never with undefined behaviour. -/
theorem C55_readData (env : Env) (t : BoxType) (wave : Bool) (k : Kind) (r : Reader) (w : String) :
    (BoxData.readData env t wave k).runC r ≠ .error (.ub w) :=
  (noUb_box env t wave k).runC r w

attribute [local irreducible] BoxData.readData fourcc R.runC slice

theorem read_box_header_ub {d : List Byte} {pos : Nat} {w : String} (hl : d.length < 2 ^ 64)
    (hr : read_box_header ⟨d, pos⟩ = .error (.ub w)) : d.length < pos := by
  apply Nat.lt_of_not_le
  intro hp
  unfold read_box_header at hr
  dsimp only at hr
  have hs : sub64 d.length pos = d.length - pos := sub64_eq hp hl
  rw [hs] at hr
  by_cases h8 : d.length - pos < SMALL_HEADER_SIZE
  · rw [if_pos h8] at hr; cases hr
  rw [if_neg h8, if_neg (Nat.not_lt.mpr hp)] at hr
  have h8' : 8 ≤ d.length - pos := Nat.not_lt.mp h8
  have hdl : (d.drop pos).length = d.length - pos := List.length_drop
  generalize d.drop pos = dd at hr hdl
  match dd, hr, hdl with
  | a :: b :: c :: d' :: t0 :: t1 :: t2 :: t3 :: more, hr, hdl =>
    dsimp only at hr
    by_cases h0 : (be_to_uint32 a b c d').toNat = 0
    · rw [if_pos h0] at hr; cases hr
    rw [if_neg h0] at hr
    by_cases h1 : (be_to_uint32 a b c d').toNat = 1
    · rw [if_pos h1] at hr
      by_cases h16 : d.length - pos < LARGE_HEADER_SIZE
      · rw [if_pos h16] at hr; cases hr
      rw [if_neg h16] at hr
      have h16' : 16 ≤ d.length - pos := Nat.not_lt.mp h16
      split at hr
      · cases hr
      · rename_i hne
        match more, hdl, hne with
        | _ :: _ :: _ :: _ :: _ :: _ :: _ :: _ :: _, _, hne => exact hne _ _ _ _ _ _ _ _ _ rfl
        | [], hdl, _ => simp at hdl; omega
        | [_], hdl, _ => simp at hdl; omega
        | [_, _], hdl, _ => simp at hdl; omega
        | [_, _, _], hdl, _ => simp at hdl; omega
        | [_, _, _, _], hdl, _ => simp at hdl; omega
        | [_, _, _, _, _], hdl, _ => simp at hdl; omega
        | [_, _, _, _, _, _], hdl, _ => simp at hdl; omega
        | [_, _, _, _, _, _, _], hdl, _ => simp at hdl; omega
    · rw [if_neg h1] at hr; cases hr
  | [], hr, hdl => simp at hdl; omega
  | [_], hr, hdl => simp at hdl; omega
  | [_, _], hr, hdl => simp at hdl; omega
  | [_, _, _], hr, hdl => simp at hdl; omega
  | [_, _, _, _], hr, hdl => simp at hdl; omega
  | [_, _, _, _, _], hr, hdl => simp at hdl; omega
  | [_, _, _, _, _, _], hr, hdl => simp at hdl; omega
  | [_, _, _, _, _, _, _], hr, hdl => simp at hdl; omega

attribute [local irreducible] read_box_header

namespace SimpleReader

theorem readContent_noUb (sr : SimpleReader) (wave : Bool) (h : BoxHeader) (w : String) :
    sr.readContent wave h ≠ .error (.ub w) := by
  intro hc
  rw [readContent] at hc
  dsimp only at hc
  split at hc
  · cases hc
  · split at hc
    · rename_i he
      cases hc
      exact C55_readData _ _ _ _ _ _ he
    · split at hc <;> cases hc

/-- Nothing undefined, and the position stays inside the file. -/
def Safe {α : Type} (len : Nat) (e : α → Nat) (r : Run α) : Prop :=
  match r.res with
  | .error er => ∀ w, er ≠ .ub w
  | .ok a => e a ≤ len

theorem safe (sr : SimpleReader) (hl : sr.data.length < 2 ^ 63)
    (hin : ∀ wave h b n, read_box_header ⟨sr.data, h.offset⟩ = .ok h → sr.readContent wave h = .ok (b, n) →
      h.offset + h.headerSize + n ≤ sr.data.length) (fuel : Nat) :
    (∀ path wave pos r, pos ≤ sr.data.length → sr.readBox fuel path wave pos = some r →
      Safe sr.data.length (fun x => x.2.2) r) ∧
    (∀ n path wave limit done pos r, pos ≤ sr.data.length →
      readLoop (sr.readBox fuel path wave) limit n done pos = some r → Safe sr.data.length (fun x => x.2) r) := by
  have loop : ∀ fuel, (∀ path wave pos r, pos ≤ sr.data.length → sr.readBox fuel path wave pos = some r →
      Safe sr.data.length (fun x => x.2.2) r) →
      ∀ n path wave limit done pos r, pos ≤ sr.data.length →
      readLoop (sr.readBox fuel path wave) limit n done pos = some r → Safe sr.data.length (fun x => x.2) r := by
    intro fuel ih n path wave limit
    induction n with
    | zero => intro _ _ _ _ h; rw [readLoop] at h; cases h
    | succ n ihn =>
      intro done pos r hp hr
      rw [readLoop] at hr
      split at hr
      · split at hr
        · cases hr
        · rename_i hk
          cases hr
          exact ih _ _ _ _ hp hk
        · rename_i hk
          have k := ih _ _ _ _ hp hk
          split at hr
          · cases hr
          · rename_i hq
            cases hr
            have := ihn _ _ _ k hq; exact this
          · rename_i hq
            cases hr
            have := ihn _ _ _ k hq; exact this
      · cases hr
        exact hp
  suffices h : ∀ path wave pos r, pos ≤ sr.data.length → sr.readBox fuel path wave pos = some r →
      Safe sr.data.length (fun x => x.2.2) r from ⟨h, loop fuel h⟩
  induction fuel with
  | zero => intro _ _ _ _ _ h; rw [readBox] at h; cases h
  | succ fuel ih =>
    have ihl := loop fuel ih
    intro path wave pos r hp hr
    rw [readBox_succ, readBoxBody] at hr
    generalize hh : read_box_header ⟨sr.data, pos⟩ = x at hr
    cases x with
    | error e =>
      rw [onHeader_error] at hr
      cases hr
      intro w hw
      subst hw
      exact absurd (read_box_header_ub (by omega) hh) (by omega)
    | ok h =>
      obtain ⟨ho, h8, -, hs⟩ := read_box_header_ok sr.data pos h (by omega) hh
      rw [onHeader_ok] at hr
      cases hc : sr.readContent wave h with
      | error e =>
        simp only [hc] at hr
        cases hr
        intro w hw
        subst hw
        exact readContent_noUb sr _ _ _ hc
      | ok x =>
        obtain ⟨b, rbytes⟩ := x
        have hle := hin wave h b rbytes (by rw [ho]; exact hh) hc
        simp only [hc] at hr
        split at hr
        · cases hr
        · rename_i hk
          cases hr
          have := ihl _ _ _ _ _ _ _ hle hk; exact this
        · rename_i hk
          cases hr
          have := ihl _ _ _ _ _ _ _ hle hk; exact this

theorem read_safe (sr : SimpleReader) (hl : sr.data.length < 2 ^ 63)
    (hin : ∀ wave h b n, read_box_header ⟨sr.data, h.offset⟩ = .ok h → sr.readContent wave h = .ok (b, n) →
      h.offset + h.headerSize + n ≤ sr.data.length) (r : Run (List Tree)) (hr : sr.read = some r) (w : String) :
    r.res ≠ .error (.ub w) := by
  rw [SimpleReader.read, readWith] at hr
  have key := (safe sr hl hin (sr.data.length + 2)).2 (sr.data.length + 2) [] false sr.data.length 0 0
  split at hr
  · cases hr
  · rename_i hk
    cases hr
    intro h
    exact key _ (Nat.zero_le _) hk w (by cases h; rfl)
  · cases hr
    intro h
    cases h

end SimpleReader
open SimpleReader

/-- **C55.** On a string stream (where seeking behind the end fails) `read` never executes undefined behaviour, whatever the
file contains. -/
theorem C55_string_stream (sr : SimpleReader) (hl : sr.data.length < 2 ^ 63) (hf : sr.file = false)
    (r : Run (List Tree)) (hr : sr.read = some r) (w : String) : r.res ≠ .error (.ub w) :=
  read_safe sr hl (fun _ _ _ _ _ hc => (sr.readContent_ok hc).2.2 hf) r hr w

theorem runC_report (env : Env) (t : BoxType) (wave : Bool) (k : Kind) (hk : k ≠ .iods ∧ k ≠ .esds ∧ k ≠ .avcC) (d : List Byte)
    {m : Nat} {b : BoxData} {r : Reader}
    (hr : (BoxData.readData env t wave k).runC (Reader.new ⟨d, 0⟩) = .ok ((m, b), r)) : m ≤ 8 * d.length := by
  have hrc := R.runC_run (BoxData.readData env t wave k) (Reader.new ⟨d, 0⟩) (Reader.new_inv _ (by simp))
  have hrem : (Reader.new ⟨d, 0⟩).rem = bytesBits d := by simp [Reader.rem, Reader.new, natBits]
  have hd : (Reader.new ⟨d, 0⟩).is.data = d := rfl
  rw [hrem, hd] at hrc
  generalize hrun : (BoxData.readData env t wave k).run d (bytesBits d) = y at hrc
  cases y with
  | error e => dsimp only at hrc; rw [hr] at hrc; cases hrc
  | ok y =>
    obtain ⟨⟨m', a⟩, s⟩ := y
    obtain ⟨r'', e1, -⟩ := hrc
    rw [hr] at e1
    simp only [Except.ok.injEq, Prod.mk.injEq] at e1
    rw [e1.1.1]
    exact (C25_exact _ _ _ _ hk _ _ _ _ hrun).1

theorem slice_length_le (d : List Byte) (o n : Nat) : (slice d o n).length ≤ n := by
  unfold slice
  exact List.length_take_le _ _

/-- **C55.** On any stream: if none of the boxes in the file is an `iods`, `esds` or `avcC` (the three classes whose `readData`
may report more than it consumed, C25), `read` never executes undefined behaviour.  With the registered box map that is a matter
of the box types occurring in the file. -/
theorem C55_file_stream (sr : SimpleReader) (hl : sr.data.length < 2 ^ 63)
    (hk : ∀ h, read_box_header ⟨sr.data, h.offset⟩ = .ok h →
      (sr.classOf h.type).1 ≠ .iods ∧ (sr.classOf h.type).1 ≠ .esds ∧ (sr.classOf h.type).1 ≠ .avcC)
    (r : Run (List Tree)) (hr : sr.read = some r) (w : String) : r.res ≠ .error (.ub w) := by
  refine read_safe sr hl (fun wave h b n hh hc => ?_) r hr w
  obtain ⟨ho, h8, hp, hs⟩ := read_box_header_ok sr.data h.offset h (by omega) hh
  obtain ⟨hfit, hds⟩ := fits_of_check hl ho h8 hp hs
  have hf := hfit.mp (sr.readContent_ok hc).1
  have hds := hds hf
  have hkk := hk h hh
  rw [readContent] at hc
  dsimp only at hc
  split at hc
  · cases hc
  · split at hc
    · cases hc
    · rename_i rbits data r' he
      split at hc
      · cases hc
      · cases hc
        have := runC_report _ _ _ _ hkk _ he
        have hsl := slice_length_le sr.data (h.offset + h.headerSize) h.getDataSize
        have hf1 := hf.1
        have hf2 := hf.2
        omega

deriving instance Inhabited for Arr4
instance : Inhabited BoxType := inferInstanceAs (Inhabited Arr4)
deriving instance Inhabited for FullBox, Tfhd, Trun, AvcC, AudioSampleEntry, Url, Urn, Colr, Pssh, ESJunk, Sgpd, Env

/-- An `iods` box (21 bytes) whose descriptor length says 127, then an empty `free` box. -/
def badIods : List Byte :=
  [0, 0, 0, 21, 0x69, 0x6f, 0x64, 0x73, 0, 0, 0, 0, 0x10, 0x7f, 0, 0, 0, 0, 0, 0, 0, 0, 0, 0, 8, 0x66, 0x72, 0x65, 0x65]

/-- How a run ended. -/
def Run.ending {α : Type} : Option (Run α) → String
  | none => "bound exceeded"
  | some ⟨_, .ok _⟩ => "ok"
  | some ⟨_, .error (.ub _)⟩ => "undefined"
  | some ⟨_, .error _⟩ => "exception"

/-- **C55.** The restriction is needed: a 29-byte file makes `read` dereference an end-of-stream iterator when the
stream is a file stream; on a string stream the same bytes raise an exception. -/
theorem C55_file_stream_witness : badIods.length = 29 ∧
    Run.ending (SimpleReader.read ⟨true, default, stdBoxMap, badIods⟩) = "undefined" ∧
    Run.ending (SimpleReader.read ⟨false, default, stdBoxMap, badIods⟩) = "exception" := by
  decide +kernel

example : ∀ r w, SimpleReader.read ⟨true, default, stdBoxMap, [0, 0, 0, 8, 0x66, 0x72, 0x65, 0x65]⟩ = some r →
    r.res ≠ .error (.ub w) := by
  intro r w hr
  refine C55_file_stream _ (by decide) (fun h hh => ?_) r hr w
  have ok := read_box_header_ok _ _ h (by decide) hh
  have ho : h.offset = 0 := by have := ok.2.1; have := ok.2.2.1; simp at this; omega
  rw [ho] at hh
  have := (read_box_header_spec [0, 0, 0, 8, 0x66, 0x72, 0x65, 0x65] 0 ⟨0x66, 0x72, 0x65, 0x65⟩ (by decide)).1 8 [] (by decide)
    (by decide) (by decide)
  rw [hh] at this
  have ht : h.type = ⟨0x66, 0x72, 0x65, 0x65⟩ := by
    simp only [Except.ok.injEq] at this
    rw [this]
  rw [ht]
  decide +kernel

end Mp4
