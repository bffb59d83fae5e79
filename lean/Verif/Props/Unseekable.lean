import Verif.Model.Unseekable
import Verif.Lemmas.Live
import Verif.Props.Live

/-! # C94: when `seekg` or `tellg` of the input fails -/

namespace Mp4
namespace PosReader
open LiveReader (wrap glue)

variable (pr : PosReader)

/-- The run without the count of calls. -/
def forget {α : Type} : Option (Run (α × Nat)) → Option (Run α)
  | none => none
  | some ⟨vs, .error e⟩ => some ⟨vs, .error e⟩
  | some ⟨vs, .ok (x, _)⟩ => some ⟨vs, .ok x⟩

/-- An exception, when some call fails; or undefined behaviour, when some `tellg` fails. -/
def BadErr (e : Err) : Prop := (∃ w, e = .exc w) ∧ (∃ t, pr.seek t = false ∨ pr.tell t = false) ∨ (∃ w, e = .ub w) ∧ ∃ t, pr.tell t = false

/-- A run that ended so. -/
def Bad {α : Type} (r : Option (Run α)) : Prop := ∃ vs e, r = some ⟨vs, .error e⟩ ∧ pr.BadErr e

theorem canRead_live (p n : Nat) : pr.live.canRead p n = decide (p + n ≤ pr.sr.data.length) := by
  unfold LiveReader.canRead live
  simp

/-- A header that says that the box extends to position -1. -/
def Endless (pos : Nat) (h : BoxHeader) : Prop := h.offset = pos ∧ h.headerSize = 8 ∧ h.size = 2 ^ 64 - 1 - pos ∧ pos + 8 ≤ pr.sr.data.length

theorem readHeader_split (hlen : pr.sr.data.length < 2 ^ 63) (t pos : Nat) :
    (∃ e, pr.readHeader t pos = .error e ∧ pr.BadErr e) ∨
    (∃ e, pr.readHeader t pos = .error e ∧ pr.live.readHeader pos = .error e) ∨
    (∃ h t', pr.readHeader t pos = .ok (h, t') ∧ pr.live.readHeader pos = .ok h) ∨
    (∃ h t', pr.readHeader t pos = .ok (h, t') ∧ pr.Endless pos h ∧ ∃ t, pr.tell t = false) := by
  have hexc : ∀ t w, pr.seek t = false ∨ pr.tell t = false → pr.BadErr (.exc w) := fun t w h => .inl ⟨⟨w, rfl⟩, t, h⟩
  unfold readHeader
  dsimp only
  by_cases h1 : pr.seek (t + 1) = false
  · rw [if_pos h1]
    exact .inl ⟨_, rfl, hexc _ _ (.inl h1)⟩
  rw [if_neg h1]
  cases ht : pr.tell t with
  | false =>
    rw [show (if false = true then pos else 2 ^ 64 - 1) = 2 ^ 64 - 1 from if_neg (by simp)]
    generalize (if pr.tell (t + 2) = true then pr.sr.data.length else 2 ^ 64 - 1) = E
    by_cases h2 : sub64 E (2 ^ 64 - 1) < SMALL_HEADER_SIZE
    · rw [if_pos h2]
      exact .inl ⟨_, rfl, hexc _ _ (.inr ht)⟩
    · rw [if_neg h2, if_pos (Or.inr rfl)]
      exact .inl ⟨_, rfl, hexc _ _ (.inr ht)⟩
  | true =>
    rw [show (if true = true then pos else 2 ^ 64 - 1) = pos from if_pos rfl]
    have hE : (if pr.tell (t + 2) = true then pr.sr.data.length else 2 ^ 64 - 1) = pr.sr.data.length ∨
        (if pr.tell (t + 2) = true then pr.sr.data.length else 2 ^ 64 - 1) = 2 ^ 64 - 1 ∧ ∃ t, pr.tell t = false := by
      cases h : pr.tell (t + 2) with
      | true => exact .inl (if_pos rfl)
      | false => exact .inr ⟨if_neg (by simp), _, h⟩
    generalize (if pr.tell (t + 2) = true then pr.sr.data.length else 2 ^ 64 - 1) = E at hE
    by_cases h2 : sub64 E pos < SMALL_HEADER_SIZE
    · rw [if_pos h2]
      rcases hE with hE | ⟨-, t', hE⟩
      · refine .inr (.inl ⟨_, rfl, ?_⟩)
        unfold LiveReader.readHeader
        rw [show pr.live.sr = pr.sr from rfl, ← hE, if_pos h2]
      · exact .inl ⟨_, rfl, hexc _ _ (.inr hE)⟩
    rw [if_neg h2]
    by_cases h3 : pr.seek (t + 3) = false ∨ true = false
    · rw [if_pos h3]
      exact .inl ⟨_, rfl, hexc _ _ (.inl (h3.resolve_right (by simp)))⟩
    rw [if_neg h3]
    have hub : pos + 8 > pr.sr.data.length →
        pr.BadErr (.ub "copy_n past the end of the stream") ∨
        pr.live.readHeader pos = .error (.ub "copy_n past the end of the stream") := by
      intro hp
      rcases hE with hE | ⟨-, hE⟩
      · right
        unfold LiveReader.readHeader
        rw [show pr.live.sr = pr.sr from rfl, ← hE, if_neg h2, canRead_live, if_pos (by simpa using hp)]
      · exact .inl (.inr ⟨⟨_, rfl⟩, hE⟩)
    have hub' : pos + 8 > pr.sr.data.length → ∀ r : Except Err (BoxHeader × Nat), r = .error (.ub "copy_n past the end of the stream") →
        (∃ e, r = .error e ∧ pr.BadErr e) ∨ (∃ e, r = .error e ∧ pr.live.readHeader pos = .error e) ∨
        (∃ h t', r = .ok (h, t') ∧ pr.live.readHeader pos = .ok h) ∨
        (∃ h t', r = .ok (h, t') ∧ pr.Endless pos h ∧ ∃ t, pr.tell t = false) := by
      intro hp r hr
      rcases hub hp with h | h
      · exact .inl ⟨_, hr, h⟩
      · exact .inr (.inl ⟨_, hr, h⟩)
    by_cases h4 : pr.sr.data.length < pos
    · rw [if_pos h4]
      exact hub' (by omega) _ rfl
    rw [if_neg h4]
    have hlive : ∀ h, read_box_header ⟨pr.sr.data, pos⟩ = .ok h → pos + 8 ≤ pr.sr.data.length → pr.live.readHeader pos = .ok h := by
      intro h hh h8
      unfold LiveReader.readHeader
      have hs : sub64 pr.sr.data.length pos = pr.sr.data.length - pos := sub64_eq (by omega) (by omega)
      obtain ⟨-, -, hp, -⟩ := read_box_header_ok _ _ _ (by omega) hh
      rw [show pr.live.sr = pr.sr from rfl, hs, if_neg (by show ¬ _ < 8; omega), canRead_live, if_neg (by simpa using h8), hh]
      dsimp only
      rw [canRead_live, if_neg (by simpa using hp)]
    have hdl : (pr.sr.data.drop pos).length = pr.sr.data.length - pos := List.length_drop
    have hs : ∀ n, pos + n ≤ pr.sr.data.length → ¬ sub64 pr.sr.data.length pos < n := by
      intro n hn
      rw [sub64_eq (by omega) (by omega)]
      omega
    generalize hd : pr.sr.data.drop pos = l at hdl
    match l, hd, hdl with
    | a :: b :: c :: d :: t0 :: t1 :: t2 :: t3 :: more, hd, hdl =>
      simp only [List.length_cons] at hdl
      have h8 : pos + 8 ≤ pr.sr.data.length := by omega
      have hhead : ∀ h, (let size := (be_to_uint32 a b c d).toNat
          let type : BoxType := ⟨t0, t1, t2, t3⟩
          if size = 0 then
            Except.ok { offset := pos, size := sub64 pr.sr.data.length pos, headerSize := SMALL_HEADER_SIZE, type := type,
                        extendToEof := true }
          else if size = 1 then
            if sub64 pr.sr.data.length pos < LARGE_HEADER_SIZE then
              .error (.exc "read_box_header(): stream has not enough data (2)")
            else
              match more with
              | a :: b :: c :: d :: e :: f :: g :: h :: _ =>
                .ok { offset := pos, size := (be_to_uint64 a b c d e f g h).toNat, headerSize := LARGE_HEADER_SIZE,
                      type := type, extendToEof := false }
              | _ => .error (.ub "copy_n past the end of the stream")
          else .ok { offset := pos, size := size, headerSize := SMALL_HEADER_SIZE, type := type, extendToEof := false }) =
          (.ok h : Except Err BoxHeader) → pr.live.readHeader pos = .ok h := by
        intro h hh
        apply hlive h _ h8
        unfold read_box_header
        dsimp only
        rw [if_neg (hs SMALL_HEADER_SIZE h8), if_neg h4, hd]
        exact hh
      dsimp only at hhead ⊢
      by_cases hz : (be_to_uint32 a b c d).toNat = 0
      · rw [if_pos hz]
        rcases hE with hE | ⟨hE, hT⟩
        · exact .inr (.inr (.inl ⟨_, _, rfl, hhead _ (by rw [if_pos hz, hE])⟩))
        · refine .inr (.inr (.inr ⟨_, _, rfl, ⟨rfl, rfl, ?_, h8⟩, hT⟩))
          show sub64 E pos = _
          rw [hE]
          exact sub64_eq (by omega) (by decide)
      · rw [if_neg hz]
        by_cases h1 : (be_to_uint32 a b c d).toNat = 1
        · rw [if_pos h1]
          by_cases hc : sub64 E pos < LARGE_HEADER_SIZE
          · rw [if_pos hc]
            rcases hE with hE | ⟨-, t', hE⟩
            · refine .inr (.inl ⟨_, rfl, ?_⟩)
              unfold LiveReader.readHeader
              rw [show pr.live.sr = pr.sr from rfl, if_neg (hs SMALL_HEADER_SIZE h8), canRead_live, if_neg (by simpa using h8)]
              unfold read_box_header
              dsimp only
              rw [if_neg (hs SMALL_HEADER_SIZE h8), if_neg h4, hd]
              dsimp only
              rw [if_neg hz, if_pos h1, if_pos (by rw [← hE]; exact hc)]
            · exact .inl ⟨_, rfl, hexc _ _ (.inr hE)⟩
          rw [if_neg hc]
          by_cases hk : pr.seek (t + 4) = false
          · rw [if_pos hk]
            exact .inl ⟨_, rfl, hexc _ _ (.inl hk)⟩
          rw [if_neg hk]
          match more, hdl, hhead with
          | a' :: b' :: c' :: d' :: e' :: f' :: g' :: h' :: more', hdl, hhead =>
            simp only [List.length_cons] at hdl
            refine .inr (.inr (.inl ⟨_, _, rfl, hhead _ ?_⟩))
            rw [if_neg hz, if_pos h1, if_neg (hs LARGE_HEADER_SIZE (by show pos + 16 ≤ _; omega))]
          | [], hdl, _ | [_], hdl, _ | [_, _], hdl, _ | [_, _, _], hdl, _ | [_, _, _, _], hdl, _ | [_, _, _, _, _], hdl, _
          | [_, _, _, _, _, _], hdl, _ | [_, _, _, _, _, _, _], hdl, _ =>
            simp only [List.length_cons, List.length_nil] at hdl
            rcases hE with hE | ⟨-, hE⟩
            · rw [hE, sub64_eq (by omega) (by omega)] at hc
              exact absurd (show _ < 16 by omega) hc
            · exact .inl ⟨_, rfl, .inr ⟨⟨_, rfl⟩, hE⟩⟩
        · rw [if_neg h1]
          exact .inr (.inr (.inl ⟨_, _, rfl, hhead _ (by rw [if_neg hz, if_neg h1])⟩))
    | [], hd, hdl | [_], hd, hdl | [_, _], hd, hdl | [_, _, _], hd, hdl | [_, _, _, _], hd, hdl | [_, _, _, _, _], hd, hdl
    | [_, _, _, _, _, _], hd, hdl | [_, _, _, _, _, _, _], hd, hdl =>
      simp only [List.length_cons, List.length_nil] at hdl
      exact hub' (by omega) _ rfl

theorem readContent_split (t : Nat) (wave : Bool) (h : BoxHeader) :
    (∃ e, pr.readContent t wave h = .error e ∧ pr.BadErr e) ∨ pr.readContent t wave h = pr.live.readContent wave h := by
  unfold readContent
  by_cases h1 : pr.seek t = false
  · rw [if_pos h1]
    exact .inl ⟨_, rfl, .inl ⟨⟨_, rfl⟩, _, .inl h1⟩⟩
  rw [if_neg h1]
  cases hc : pr.live.readContent wave h with
  | error e => exact .inr rfl
  | ok x =>
    dsimp only
    by_cases h2 : pr.seek (t + 1) = false
    · rw [if_pos h2]
      exact .inl ⟨_, rfl, .inl ⟨⟨_, rfl⟩, _, .inl h2⟩⟩
    · rw [if_neg h2]
      exact .inr rfl

theorem endless_content (hlen : pr.sr.data.length < 2 ^ 63) (t : Nat) (wave : Bool) {pos : Nat} {h : BoxHeader} (he : pr.Endless pos h)
    (ht : ∃ t, pr.tell t = false) : ∃ e, pr.readContent t wave h = .error e ∧ pr.BadErr e := by
  rcases pr.readContent_split t wave h with hb | hb
  · exact hb
  rw [hb]
  obtain ⟨e1, e2, e3, e4⟩ := he
  unfold LiveReader.readContent
  have hd : h.getDataSize = 2 ^ 64 - 1 - pos - 8 := by
    unfold BoxHeader.getDataSize
    rw [e2, e3]
    exact sub64_eq (by omega) (by omega)
  split
  · exact ⟨_, rfl, .inl ⟨⟨_, rfl⟩, ht.choose, .inr ht.choose_spec⟩⟩
  · rw [canRead_live, if_pos (by rw [hd, e1, e2, decide_eq_false_iff_not]; omega)]
    exact ⟨_, rfl, .inr ⟨⟨_, rfl⟩, ht⟩⟩

theorem loop_split {rb : Nat → Nat → Option (Run ((Nat × Tree × Nat) × Nat))} {sb : Nat → Option (Run (Nat × Tree × Nat))}
    (ih : ∀ t pos, forget (rb t pos) = sb pos ∨ pr.Bad (forget (rb t pos))) (limit n : Nat) : ∀ done t pos,
    forget (readLoop rb limit n done t pos) = SimpleReader.readLoop sb limit n done pos ∨ pr.Bad (forget (readLoop rb limit n done t pos)) := by
  induction n with
  | zero => intro _ _ _; exact .inl rfl
  | succ n ihn =>
    intro done t pos
    rw [readLoop, SimpleReader.readLoop]
    by_cases hlt : limit > done
    · rw [if_pos hlt, if_pos hlt]
      have hb := ih t pos
      generalize rb t pos = r at hb
      match r, hb with
      | none, hb =>
        rcases hb with hb | ⟨_, _, hb, -⟩
        · rw [← hb]; exact .inl rfl
        · cases hb
      | some ⟨vs, .error e⟩, hb =>
        rcases hb with hb | ⟨us, e', hb, hbad⟩
        · rw [← hb]; exact .inl rfl
        · cases hb
          exact .inr ⟨_, _, rfl, hbad⟩
      | some ⟨vs, .ok ((size, tree, pos'), t')⟩, hb =>
        rcases hb with hb | ⟨us, e', hb, hbad⟩
        · rw [← hb]
          simp only [forget]
          have hl := ihn (u64 (done + size)) t' pos'
          generalize readLoop rb limit n (u64 (done + size)) t' pos' = q at hl
          match q, hl with
          | none, hl =>
            rcases hl with hl | ⟨_, _, hl, -⟩
            · rw [← hl]; exact .inl rfl
            · cases hl
          | some ⟨ws, .error e⟩, hl =>
            rcases hl with hl | ⟨us, e', hl, hbad⟩
            · rw [← hl]; exact .inl rfl
            · cases hl
              exact .inr ⟨_, _, rfl, hbad⟩
          | some ⟨ws, .ok ((ts, p), t'')⟩, hl =>
            rcases hl with hl | ⟨us, e', hl, hbad⟩
            · rw [← hl]; exact .inl rfl
            · cases hl
        · cases hb
    · rw [if_neg hlt, if_neg hlt]
      exact .inl rfl

theorem box_split (hlen : pr.sr.data.length < 2 ^ 63) (fuel : Nat) : ∀ path wave t pos,
    forget (pr.readBox fuel path wave t pos) = pr.live.readBox fuel path wave pos ∨ pr.Bad (forget (pr.readBox fuel path wave t pos)) := by
  induction fuel with
  | zero => intro _ _ _ _; exact .inl rfl
  | succ fuel ih =>
    intro path wave t pos
    show forget (pr.readBoxBody (pr.readBox fuel) fuel path wave t pos) = pr.live.readBoxBody (pr.live.readBox fuel) fuel path wave pos ∨
      pr.Bad (forget (pr.readBoxBody (pr.readBox fuel) fuel path wave t pos))
    unfold readBoxBody
    rcases pr.readHeader_split hlen t pos with ⟨e, h1, h2⟩ | ⟨e, h1, h2⟩ | ⟨h, t', h1, h2⟩ | ⟨h, t', h1, h2, h3⟩
    · rw [h1]
      exact .inr ⟨_, _, rfl, h2⟩
    · rw [h1, pr.live.body_header_error h2]
      exact .inl rfl
    · rw [h1]
      dsimp only
      rcases pr.readContent_split t' wave h with ⟨e, k1, k2⟩ | k1
      · rw [k1]
        exact .inr ⟨_, _, rfl, k2⟩
      · rw [k1]
        cases hc : pr.live.readContent wave h with
        | error e =>
          rw [pr.live.body_content_error h2 hc]
          exact .inl rfl
        | ok x =>
          obtain ⟨b, rbytes⟩ := x
          rw [pr.live.body_ok h2 hc]
          dsimp only
          have hl := pr.loop_split (rb := pr.readBox fuel (path ++ [b.type]) (b.type = fourcc "wave"))
            (sb := pr.live.readBox fuel (path ++ [b.type]) (b.type = fourcc "wave")) (ih _ _) h.getDataSize fuel rbytes (t' + 2)
            (h.offset + h.headerSize + rbytes)
          generalize readLoop (pr.readBox fuel (path ++ [b.type]) (b.type = fourcc "wave")) h.getDataSize fuel rbytes (t' + 2)
            (h.offset + h.headerSize + rbytes) = q at hl
          match q, hl with
          | none, hl =>
            rcases hl with hl | ⟨_, _, hl, -⟩
            · rw [← hl]; exact .inl rfl
            · cases hl
          | some ⟨ws, .error e⟩, hl =>
            rcases hl with hl | ⟨us, e', hl, hbad⟩
            · rw [← hl]; exact .inl rfl
            · cases hl
              exact .inr ⟨_, _, rfl, hbad⟩
          | some ⟨ws, .ok ((ts, p), t'')⟩, hl =>
            rcases hl with hl | ⟨us, e', hl, hbad⟩
            · rw [← hl]; exact .inl rfl
            · cases hl
    · rw [h1]
      obtain ⟨e, k1, k2⟩ := pr.endless_content hlen t' wave h2 h3
      dsimp only
      rw [k1]
      exact .inr ⟨_, _, rfl, k2⟩

/-- Without `failbit` after the constructor, `read` is that of a reader that found the same size. -/
theorem read_split (hlen : pr.sr.data.length < 2 ^ 63) (hf : ¬ (pr.total > 0 ∧ pr.failed = true)) :
    pr.read = pr.live.read ∨ pr.Bad pr.read := by
  unfold read LiveReader.read
  rw [if_neg hf]
  rw [show pr.live.total = pr.total from rfl, show pr.live.sr = pr.sr from rfl]
  have hl := pr.loop_split (rb := pr.readBox (pr.sr.data.length + 2) [] false) (sb := pr.live.readBox (pr.sr.data.length + 2) [] false)
    (pr.box_split hlen _ _ _) pr.total (pr.sr.data.length + 2) 0 3 0
  generalize readLoop (pr.readBox (pr.sr.data.length + 2) [] false) pr.total (pr.sr.data.length + 2) 0 3 0 = q at hl
  match q, hl with
  | none, hl =>
    rcases hl with hl | ⟨_, _, hl, -⟩
    · rw [← hl]; exact .inl rfl
    · cases hl
  | some ⟨ws, .error e⟩, hl =>
    rcases hl with hl | ⟨us, e', hl, hbad⟩
    · rw [← hl]; exact .inl rfl
    · cases hl
      exact .inr ⟨_, _, rfl, hbad⟩
  | some ⟨ws, .ok ((ts, p), t'')⟩, hl =>
    rcases hl with hl | ⟨us, e', hl, hbad⟩
    · rw [← hl]; exact .inl rfl
    · cases hl

/-- A loop that stays inside the stream does not get beyond it. -/
theorem loop_never (sr : SimpleReader) (hlen : sr.data.length < 2 ^ 63) (fuel n : Nat) (path : List BoxType) (wave : Bool) (limit : Nat)
    (hlim : sr.data.length < limit) : ∀ done pos vs x, done ≤ pos → done ≤ sr.data.length →
      SimpleReader.readLoop (sr.readBox fuel path wave) limit n done pos = some ⟨vs, .ok x⟩ → False := by
  induction n with
  | zero => intro _ _ _ _ _ _ h; rw [SimpleReader.readLoop] at h; cases h
  | succ n ih =>
    intro done pos vs x hdp hp hr
    have hlt : limit > done := by omega
    cases hb : sr.readBox fuel path wave pos with
    | none => rw [LiveReader.loop_none hlt hb] at hr; cases hr
    | some r =>
      obtain ⟨us, r⟩ := r
      cases r with
      | error e => rw [LiveReader.loop_error hlt hb] at hr; cases hr
      | ok y =>
        obtain ⟨size, t, pos'⟩ := y
        rw [LiveReader.loop_ok hlt hb] at hr
        obtain ⟨ts, p⟩ := x
        obtain ⟨ws, ts', k1, rfl, rfl⟩ := LiveReader.glue_ok hr
        obtain ⟨-, k⟩ := (SimpleReader.good sr hlen fuel).1 _ _ _ _ hb
        obtain ⟨-, -, -, k6, k7, k8, -⟩ := k
        have hu : u64 (done + size) = done + size := Nat.mod_eq_of_lt (by omega)
        rw [hu] at k1
        exact ih _ _ _ _ (by omega) (by omega) k1

end PosReader

open PosReader

/-- **C94.** Whichever calls of `seekg` and `tellg` fail, on whatever stream: the constructor and `read` do what they do when none fails;
or they end with an exception; or, and this only when a `tellg` fails, their behaviour is undefined. -/
theorem C94_same_or_stops (pr : PosReader) (hlen : pr.sr.data.length < 2 ^ 63) :
    pr.read = pr.sr.read ∨
    ((∃ vs e, pr.read = some ⟨vs, .error e⟩ ∧ ∀ w, e ≠ .ub w) ∧ ∃ t, pr.seek t = false ∨ pr.tell t = false) ∨
    ((∃ vs w, pr.read = some ⟨vs, .error (.ub w)⟩) ∧ ∃ t, pr.tell t = false) := by
  have conv : pr.Bad pr.read → ((∃ vs e, pr.read = some ⟨vs, .error e⟩ ∧ ∀ w, e ≠ .ub w) ∧ ∃ t, pr.seek t = false ∨ pr.tell t = false) ∨
      ((∃ vs w, pr.read = some ⟨vs, .error (.ub w)⟩) ∧ ∃ t, pr.tell t = false) := by
    rintro ⟨vs, e, h, ⟨⟨w, rfl⟩, k⟩ | ⟨⟨w, rfl⟩, k⟩⟩
    · exact .inl ⟨⟨vs, _, h, fun w' e => by cases e⟩, k⟩
    · exact .inr ⟨⟨vs, w, h⟩, k⟩
  by_cases hf : pr.total > 0 ∧ pr.failed = true
  · right; left
    refine ⟨⟨[], _, by unfold PosReader.read; rw [if_pos hf], fun w e => by cases e⟩, ?_⟩
    have h2 := hf.2
    unfold PosReader.failed at h2
    cases h0 : pr.seek 0 with
    | false => exact ⟨0, .inl h0⟩
    | true =>
      cases h1 : pr.seek 2 with
      | false => exact ⟨2, .inl h1⟩
      | true => rw [h0, h1] at h2; cases h2
  rcases pr.read_split hlen hf with h | h
  · cases h0 : pr.seek 0 && pr.tell 1 with
    | true =>
      left
      have ht : pr.live.total = pr.live.sr.data.length := by
        show pr.total = pr.sr.data.length
        unfold PosReader.total
        rw [h0, if_pos rfl]
      rw [h]
      rcases C80_same_or_undefined pr.live hlen ht with e | ⟨-, p, -, hp⟩
      · exact e
      · cases hp
    | false =>
      have ht : pr.total = 2 ^ 64 - 1 := by
        unfold PosReader.total
        rw [h0, if_neg (by simp)]
      have hs : pr.seek 0 = true := by
        cases hs : pr.seek 0 with
        | true => rfl
        | false =>
          refine absurd ⟨by rw [ht]; decide, ?_⟩ hf
          unfold PosReader.failed
          rw [hs]; rfl
      have h1 : pr.tell 1 = false := by rw [hs, Bool.true_and] at h0; exact h0
      obtain ⟨⟨vs, r⟩, he⟩ := C80_ends pr.live hlen
      cases r with
      | error e =>
        right
        cases e with
        | exc w => exact .inl ⟨⟨vs, _, h.trans he, fun w e => by cases e⟩, 1, .inr h1⟩
        | eof => exact .inl ⟨⟨vs, _, h.trans he, fun w e => by cases e⟩, 1, .inr h1⟩
        | ub w => exact .inr ⟨⟨vs, w, h.trans he⟩, 1, h1⟩
      | ok ts =>
        exfalso
        obtain ⟨p, hl⟩ := LiveReader.read_ok he
        refine loop_never pr.sr hlen _ _ _ _ _ (by rw [show pr.live.total = pr.total from rfl, ht]; omega) 0 0 _ _ (Nat.le_refl _) (Nat.zero_le _)
          ((pr.live.ok_same hlen _).2 _ _ _ _ _ _ _ _ hl).1
  · exact .inr (conv h)

/-- **C94** So what is returned normally does not depend on failures. -/
theorem C94_returns (pr : PosReader) (hlen : pr.sr.data.length < 2 ^ 63) (vs : List BoxHeader) (ts : List Tree)
    (h : pr.read = some ⟨vs, .ok ts⟩) : pr.sr.read = some ⟨vs, .ok ts⟩ := by
  rcases C94_same_or_stops pr hlen with e | ⟨⟨us, w, e, -⟩, -⟩ | ⟨⟨us, w, e⟩, -⟩
  · rw [← e]; exact h
  · rw [e] at h; cases h
  · rw [e] at h; cases h

/-- **C94** `read` comes to an end whichever calls fail. -/
theorem C94_ends (pr : PosReader) (hlen : pr.sr.data.length < 2 ^ 63) : ∃ r, pr.read = some r := by
  rcases C94_same_or_stops pr hlen with e | ⟨⟨us, w, e, -⟩, -⟩ | ⟨⟨us, w, e⟩, -⟩
  · obtain ⟨r, h, -⟩ := C28_terminates pr.sr hlen
    exact ⟨r, e.trans h⟩
  · exact ⟨_, e⟩
  · exact ⟨_, e⟩

/-- **C94** When every call works, it is the reader of C28 to C31. -/
theorem C94_all_work (pr : PosReader) (hlen : pr.sr.data.length < 2 ^ 63) (hs : ∀ t, pr.seek t = true) (ht : ∀ t, pr.tell t = true) :
    pr.read = pr.sr.read := by
  rcases C94_same_or_stops pr hlen with e | ⟨-, t, e | e⟩ | ⟨-, t, e⟩
  · exact e
  · rw [hs] at e; cases e
  · rw [ht] at e; cases e
  · rw [ht] at e; cases e

/-- **C94** A file that could not be opened, or a stream without positions, such as a pipe: the constructor reports nothing, and `read`
throws before it has read anything, whatever the stream contains. -/
theorem C94_not_seekable (pr : PosReader) (h : pr.seek 0 = false) :
    pr.read = some ⟨[], .error (.exc "read_box_header(): istream::tellg() failed")⟩ := by
  unfold PosReader.read
  rw [if_pos]
  unfold PosReader.total PosReader.failed
  rw [h]
  rw [Bool.false_and, if_neg (by simp)]
  exact ⟨by decide, rfl⟩

/-- **C94** When the constructor is not told the size of the stream, `read` never returns normally, not even for an empty stream. -/
theorem C94_no_size (pr : PosReader) (hlen : pr.sr.data.length < 2 ^ 63) (h : pr.tell 1 = false) :
    ∃ vs e, pr.read = some ⟨vs, .error e⟩ := by
  have ht : pr.total = 2 ^ 64 - 1 := by
    unfold PosReader.total
    rw [h, Bool.and_false, if_neg (by simp)]
  by_cases hf : pr.total > 0 ∧ pr.failed = true
  · exact ⟨_, _, by unfold PosReader.read; rw [if_pos hf]⟩
  rcases pr.read_split hlen hf with k | ⟨vs, e, k, -⟩
  · obtain ⟨⟨vs, r⟩, he⟩ := C80_ends pr.live hlen
    cases r with
    | error e => exact ⟨vs, e, k.trans he⟩
    | ok ts =>
      exfalso
      obtain ⟨p, hl⟩ := LiveReader.read_ok he
      refine loop_never pr.sr hlen _ _ _ _ _ (by rw [show pr.live.total = pr.total from rfl, ht]; omega) 0 0 _ _ (Nat.le_refl _) (Nat.zero_le _)
        ((pr.live.ok_same hlen _).2 _ _ _ _ _ _ _ _ hl).1
  · exact ⟨vs, e, k⟩

end Mp4
