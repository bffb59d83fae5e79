import Verif.Lemmas.MemoryWriter

/-! # The calls on a writer, on the heap -/

namespace Mp4
open Mem Mem.ATree
namespace Mem

/-- The creation of `moov` and `mvhd`. -/
theorem newMoov_own {s : State} {st : List Nat} (hl : ∀ x, s.cell x ≠ none → x ∈ st) (m : Mvhd) :
    ∃ s' t, newMoovM m s = some (.ok (), s') ∧ Own s' t (newMoov m) st := by
  unfold newMoovM
  rw [bind_ok (new_run _ s)]
  generalize hs1 : ({ s with cell := fun x => if x = s.next then some (Obj.box { type := fourcc "moov", data := some .empty }) else s.cell x, next := s.next + 1 } : State) = s1
  have c1 : s1.cell s.next = some (.box { type := fourcc "moov", data := some .empty }) := by rw [← hs1]; simp
  have c2 : ∀ y, y ≠ s.next → s1.cell y = s.cell y := by intro y hy; rw [← hs1]; simp [hy]
  have c3 : s1.next = s.next + 1 := by rw [← hs1]
  clear hs1
  obtain ⟨s2, d1, d2, -, d4, d5, d6⟩ := newInfo_ok (s := s1) (parent := none) (path := []) (wave := false) ⟨rfl, rfl⟩ c1 (by omega)
    (by intro p i hp; cases hp)
  rw [c3] at d1 d2 d4 d6
  rw [bind_ok d1, bind_ok (show setMoov (s.next + 1) s2 = some (.ok (), { s2 with moov := some (s.next + 1) }) from rfl)]
  rw [bind_ok (new_run _ _)]
  generalize hs3 : ({ cell := fun x => if x = ({ s2 with moov := some (s.next + 1) } : State).next then some (Obj.box { type := fourcc "mvhd", data := some (.mvhd m) }) else ({ s2 with moov := some (s.next + 1) } : State).cell x, next := ({ s2 with moov := some (s.next + 1) } : State).next + 1, boxes := ({ s2 with moov := some (s.next + 1) } : State).boxes, moov := ({ s2 with moov := some (s.next + 1) } : State).moov, mvhd := ({ s2 with moov := some (s.next + 1) } : State).mvhd } : State) = s3
  have hn2 : ({ s2 with moov := some (s.next + 1) } : State).next = s.next + 2 := d2
  rw [hn2] at hs3
  have e1 : s3.cell (s.next + 2) = some (.box { type := fourcc "mvhd", data := some (.mvhd m) }) := by rw [← hs3]; simp
  have e2 : ∀ y, y ≠ s.next + 2 → s3.cell y = s2.cell y := by intro y hy; rw [← hs3]; simp [hy]
  have e3 : s3.next = s.next + 3 := by rw [← hs3]
  have e4 : s3.moov = some (s.next + 1) := by rw [← hs3]
  clear hs3
  rw [hn2, bind_ok (show setMvhd (s.next + 2) s3 = some (.ok (), { s3 with mvhd := some (s.next + 2) }) from rfl)]
  generalize hs4 : ({ s3 with mvhd := some (s.next + 2) } : State) = s4
  have f1 : s4.cell = s3.cell := by rw [← hs4]
  have f2 : s4.next = s.next + 3 := by rw [← hs4]; exact e3
  have f3 : s4.moov = some (s.next + 1) := by rw [← hs4]; exact e4
  have f4 : s4.mvhd = some (s.next + 2) := by rw [← hs4]
  clear hs4
  have g1 : s4.cell (s.next + 1) = some (.info ⟨s.next, [] ++ [fourcc "moov"], []⟩) := by rw [f1, e2 _ (by omega), d4]
  have g2 : s4.cell s.next = some (.box { type := fourcc "moov", data := some .empty }) := by rw [f1, e2 _ (by omega), d5]; rfl
  have g3 : s4.cell (s.next + 2) = some (.box { type := fourcc "mvhd", data := some (.mvhd m) }) := by rw [f1, e1]
  have hwf : WfParent s4 (some (s.next + 1)) [fourcc "moov"] false := by
    have e : fourcc "moov" ≠ fourcc "wave" := by decide +kernel
    refine ⟨_, _, g1, g2, rfl, ?_, by omega, by show s.next < s4.next; omega⟩
    dsimp only
    rw [decide_eq_false e]
  obtain ⟨s5, k1, k2, -, k4, k5, k6⟩ := newInfo_ok hwf g3 (by omega) (by
    intro p i hp hc
    cases hp
    rw [g1] at hc
    cases hc
    show s.next + 2 ≠ s.next
    omega)
  obtain ⟨k7, k8⟩ := newInfo_keeps _ _ _ _ _ k1
  rw [f2] at k1 k2 k4 k6
  rw [bind_ok k1, pure_run]
  have q1 : s5.cell (s.next + 1) = some (.info ⟨s.next, [fourcc "moov"], [s.next + 3]⟩) := by
    rw [k6 _ (by omega) (by omega)]
    dsimp only
    rw [attached_self g1]
    rfl
  have q2 : s5.cell s.next = some (.box { type := fourcc "moov", data := some .empty }) := by
    rw [k6 _ (by omega) (by omega)]
    dsimp only
    rw [attached_other (by intro e; injection e with e; omega), g2]
  refine ⟨s5, .node (s.next + 1) s.next none [.node (s.next + 3) (s.next + 2) none []], rfl, ⟨?_, ?_, ?_, ?_, ?_, ?_, ?_⟩⟩
  · have : newMoov m = .node { type := fourcc "moov", data := .empty } [fourcc "moov"]
        [.node { type := fourcc "mvhd", data := .mvhd m } [fourcc "moov", fourcc "mvhd"] []] := rfl
    rw [this]
    exact holds_node.mpr ⟨q1, ⟨⟨false, q2⟩, trivial⟩, holds_node.mpr ⟨k4, ⟨⟨false, k5⟩, trivial⟩, trivial⟩, trivial⟩
  · have : addrs (.node (s.next + 1) s.next none [.node (s.next + 3) (s.next + 2) none []]) = [s.next + 1, s.next, s.next + 3, s.next + 2] := by
      rw [addrs_node, addrsList, addrs_node, addrsList]; rfl
    rw [this]
    refine ⟨?_, ?_⟩
    · simp only [List.nodup_cons, List.mem_cons, List.not_mem_nil, or_false, not_or, not_false_eq_true, List.nodup_nil, and_true]
      omega
    · intro x hx
      simp only [List.mem_cons, List.not_mem_nil, or_false] at hx
      omega
  · have : addrs (.node (s.next + 1) s.next none [.node (s.next + 3) (s.next + 2) none []]) = [s.next + 1, s.next, s.next + 3, s.next + 2] := by
      rw [addrs_node, addrsList, addrs_node, addrsList]; rfl
    rw [this]
    intro x hx
    simp only [List.mem_cons, List.not_mem_nil, or_false]
    by_cases h1 : x = s.next + 1
    · exact .inl (.inl h1)
    by_cases h2 : x = s.next
    · exact .inl (.inr (.inl h2))
    by_cases h3 : x = s.next + 3
    · exact .inl (.inr (.inr (.inl h3)))
    by_cases h4 : x = s.next + 2
    · exact .inl (.inr (.inr (.inr h4)))
    refine .inr (hl x ?_)
    rw [k6 x h3 h4] at hx
    dsimp only at hx
    rw [attached_other (by intro e; injection e with e; exact h1 e.symm), f1, e2 x h4, d6 x h1 h2] at hx
    dsimp only at hx
    rwa [c2 x h2] at hx
  · rw [k7, f3]; rfl
  · rw [k8, f4]; rfl
  · exact ⟨rfl, m, rfl⟩
  · simp [ATree.depth, ATree.depthList]

theorem infoSize_ok {s : State} {t : ATree} {u : Tree} (h : Holds s t u) : infoSize (root t) s = some (u.getSize, s) := by
  obtain ⟨a, b, hd, ls⟩ := t
  obtain ⟨bx, p, us⟩ := u
  obtain ⟨h1, h2, -⟩ := holds_node.mp h
  unfold infoSize
  rw [show root (.node a b hd ls) = a from rfl, bind_ok (info_ok h1)]
  rw [boxSize_ok h2]
  rfl

/-- A single box, built, measured and written. -/
theorem single_sim (dev : Device) (fuel : Nat) (hf : 2 ≤ fuel) (type : BoxType) (data : BoxData) (hw : type ≠ fourcc "wave") (o : Nat)
    (str : FStream) (s : State) :
    ∃ a s1 n s2 u' s3 l, buildM none (mkInfo type data [] []) s = some (.ok a, s1) ∧ adjustM fuel a o s1 = some (.ok n, s2) ∧
      adjustTree (mkInfo type data [] []) o = .ok u' ∧ Local s s3 [] l ∧ l.length ≤ 3 ∧
      match writeTreeF dev u' str with
      | .error e => writeM dev fuel a str s2 = some (.error e, s3)
      | .ok (v, str') => writeM dev fuel a str s2 = some (.ok str', s3) ∧ infoSize a s3 = some (v.getSize, s3) ∧
          deleteInfo fuel a s3 = some (.ok (), s3.clear l) := by
  obtain ⟨s1, t, a1, a2, a3, ts, rfl⟩ := build_sim (mkInfo type data [] []) s none [] false ⟨rfl, rfl⟩
  rw [(Mk.good_leaf type data 0 hw [] []).1] at a2
  have hd1 : (mkInfo type data [] []).depth = 1 := by unfold mkInfo; rw [Tree.depth]; rfl
  obtain ⟨u', h1, h2, h3⟩ := Tree.adjustTree_ends (mkInfo type data [] []) o
  have haddr : addrsList [ATree.node (s.next + 1) s.next none ts] = addrs (ATree.node (s.next + 1) s.next none ts) := by
    rw [addrsList, addrsList, List.append_nil]
  have hnew : ∀ x, x ∈ addrs (ATree.node (s.next + 1) s.next none ts) ↔ s.next ≤ x ∧ x < s1.next := by
    intro x; have := a2.new x; rwa [haddr] at this
  have hfine : Fine s1 (addrs (ATree.node (s.next + 1) s.next none ts)) :=
    ⟨by have := a2.nodup; rwa [haddr] at this, fun x hx => ((hnew x).mp hx).2⟩
  have hL1 : Local s s1 [] (addrs (ATree.node (s.next + 1) s.next none ts)) := by
    refine ⟨a2.le, (by intro x hx; cases hx), fun x hx => .inr ((hnew x).mp hx), ?_, a2.moov, a2.mvhd⟩
    intro x hx
    by_cases hlt : x < s.next
    · exact a2.keeps hlt (by intro e; cases e)
    · by_cases hlt2 : x < s1.next
      · exact absurd ((hnew x).mpr ⟨by omega, hlt2⟩) hx
      · exact a2.above x (by omega)
  obtain ⟨s2, t', b1, b2, b3, b4, b5⟩ := adjust_sim fuel _ _ s1 o _ u' a2.holds.1 hfine (h3 fuel (by rw [hd1]; omega))
  have hdt : depth t' = 1 := by rw [Grown.depth _ _ b3, a3, hd1]
  obtain ⟨s3, c1, c2, c3, c4⟩ := write_sim dev t' u' s2 fuel str b2 b4 (by omega)
  have hrt : root t' = s.next + 1 := Grown.root b3
  have hlen : (addrs t').length ≤ 3 := by
    obtain ⟨a, b, h, ls⟩ := t'
    have : ls = [] := by
      cases ls with
      | nil => rfl
      | cons l ls =>
        rw [depth, depthList] at hdt
        obtain ⟨x1, x2, x3, x4⟩ := l
        rw [depth] at hdt
        omega
    subst this
    rw [addrs_node, addrsList]
    cases h <;> simp
  refine ⟨_, s1, _, s2, u', s3, addrs t', a1, b1, h1, (hL1.trans b5).trans c3, hlen, ?_⟩
  rw [hrt] at c1
  unfold writeTreeF
  rcases hw' : u'.writeF dev str with ⟨r, v, str'⟩
  rw [hw'] at c1 c2
  cases r with
  | error e => exact c1
  | ok x =>
    refine ⟨c1, ?_, ?_⟩
    · have := infoSize_ok c2
      rwa [hrt] at this
    · have := deleteInfo_ok t' s3 fuel (Holds.rep _ _ c2) b4.1 (by omega)
      rwa [hrt] at this

theorem writeFtyp_sim (dev : Device) (fuel : Nat) (hf : 2 ≤ fuel) (ftyp : Ftyp) (str : FStream) (s : State) :
    ∃ s' l, Local s s' [] l ∧ l.length ≤ 3 ∧ match writeFtypF dev ftyp str with
      | .error e => writeFtypM dev fuel ftyp str s = some (.error e, s')
      | .ok r => writeFtypM dev fuel ftyp str s = some (.ok r, s'.clear l) := by
  have hne : fourcc "ftyp" ≠ fourcc "wave" := by decide +kernel
  obtain ⟨a, s1, n, s2, u', s3, l, h1, h2, h3, h4, h5, h6⟩ := single_sim dev fuel hf (fourcc "ftyp") (.ftyp ftyp) hne 0 str s
  refine ⟨s3, l, h4, h5, ?_⟩
  unfold writeFtypF writeFtypM
  rw [h3, bind_ok h1, bind_ok h2]
  dsimp only
  cases hw : writeTreeF dev u' str with
  | error e =>
    rw [hw] at h6
    exact bind_error h6
  | ok r =>
    obtain ⟨v, str'⟩ := r
    rw [hw] at h6
    obtain ⟨k1, k2, k3⟩ := h6
    dsimp only
    cases hg : v.getSize with
    | error e =>
      rw [hg] at k2
      rw [bind_ok k1]
      exact bind_error k2
    | ok m =>
      rw [hg] at k2
      dsimp only
      rw [bind_ok k1, bind_ok k2, bind_ok k3]
      rfl

theorem pureM_ok {α : Type} (v : α) (s : State) : pureM (.ok v) s = some (.ok v, s) := rfl
theorem pureM_error {α : Type} (e : Err) (s : State) : pureM (.error e : Except Err α) s = some (.error e, s) := rfl

theorem theMoov_own {s : State} {t : ATree} {u : Tree} {st : List Nat} (h : Own s t u st) : theMoov s = some (.ok (root t), s) := by
  unfold theMoov
  rw [bind_ok (show getMoov s = some (.ok s.moov, s) from rfl), h.moov]
  rfl

theorem appendUdta_own {s : State} {t : ATree} {u : Tree} {st : List Nat} (h : Own s t u st) :
    ∃ s' t', appendUdtaM s = some (.ok (), s') ∧ Own s' t' (appendUdtaBoxInfo u) st := by
  obtain ⟨s', t', a, h1, h2, -⟩ := h.append udta (Mk.udta_good.mono (by omega))
  refine ⟨s', t', ?_, ?_⟩
  · unfold appendUdtaM
    rw [bind_ok (theMoov_own h), bind_ok h1, pure_run]
  · have : appendUdtaBoxInfo u = appendMk udta u := by cases u; rfl
    rw [this]
    exact h2

/-- The loop over the tracks on values. -/
def appendTracksV (f : Track → Track) : List Track → Tree → List Track × Tree
  | [], moov => ([], moov)
  | t :: ts, moov =>
    let r := appendTracksV f ts ((f t).appendTrakBoxInfo moov).2
    (((f t).appendTrakBoxInfo moov).1 :: r.1, r.2)

theorem appendTracksV_id : ∀ (ts : List Track) (moov : Tree), appendTracksV id ts moov = appendTracks ts moov
  | [], _ => rfl
  | t :: ts, moov => by rw [appendTracksV, appendTracks, appendTracksV_id ts]; rfl

theorem appendTracksV_shift (diff : Nat) : ∀ (ts : List Track) (moov : Tree),
    appendTracksV (fun t => t.resetChunkOffsets (BitVec.ofNat 64 diff)) ts moov = FaststartWriter.shiftAndAppend diff ts moov
  | [], _ => rfl
  | t :: ts, moov => by rw [appendTracksV, FaststartWriter.shiftAndAppend, appendTracksV_shift diff ts]

theorem appendTracks_own (f : Track → Track) : ∀ (ts : List Track) (s : State) (t : ATree) (u : Tree) (st : List Nat), Own s t u st →
    ∃ s' t', appendTracksM f ts s = some (.ok (appendTracksV f ts u).1, s') ∧ Own s' t' (appendTracksV f ts u).2 st
  | [], s, t, u, st, h => ⟨s, t, rfl, h⟩
  | x :: xs, s, t, u, st, h => by
    obtain ⟨s1, t1, a, h1, h2, -⟩ := h.append (f x).finalize.trak (Mk.trak_good _)
    have : appendMk (f x).finalize.trak u = ((f x).appendTrakBoxInfo u).2 := by cases u; rfl
    rw [this] at h2
    obtain ⟨s2, t2, h3, h4⟩ := appendTracks_own f xs s1 t1 _ st h2
    refine ⟨s2, t2, ?_, h4⟩
    have e2 : ((f x).appendTrakBoxInfo u).1 = (f x).finalize := by cases u; rfl
    rw [appendTracksM, bind_ok (theMoov_own h), bind_ok h1, bind_ok h3, pure_run, appendTracksV, e2]

end Mem

/-! ### SimpleWriter -/

namespace FaultySimple

/-- The members of a writer whose tree in memory is `u`. -/
def withMoov (x : FaultySimple) (u : Tree) : FaultySimple := { x with w := { x.w with moov := u } }

/-- How a call ends on values and on the heap. -/
def Sim (p : Prop) (r : Except Err FaultySimple) (m : Option (Except Err FaultySimple × State)) : Prop :=
  match r with
  | .ok y => ∃ z s' t, m = some (.ok z, s') ∧ Own s' t y.w.moov [] ∧ z.withMoov y.w.moov = y
  | .error e => ∃ s' t u st, m = some (.error e, s') ∧ Own s' t u st ∧ st.length ≤ 3 ∧ (st ≠ [] → p)

theorem Sim.weaken {p q : Prop} {r : Except Err FaultySimple} {m : Option (Except Err FaultySimple × State)} (h : Sim p r m) (hpq : p → q) :
    Sim q r m := by
  cases r with
  | ok y => exact h
  | error e =>
    obtain ⟨s', t, u, st, h1, h2, h3, h4⟩ := h
    exact ⟨s', t, u, st, h1, h2, h3, fun h => hpq (h4 h)⟩

theorem writeFtypBox_sim {s : State} {t : ATree} {u : Tree} (h : Own s t u []) (fuel : Nat) (hf : 16 ≤ fuel) (x : FaultySimple) :
    Sim True (x.withMoov u).writeFtypBox (x.writeFtypBoxM fuel s) := by
  obtain ⟨s', l, h1, h2, h3⟩ := writeFtyp_sim x.dev fuel (by omega) x.w.ftyp x.s s
  have e1 : (x.withMoov u).writeFtypBox = (match writeFtypF x.dev x.w.ftyp x.s with
    | .error e => .error e
    | .ok (size, s) =>
      match (s.seekp x.dev (u64 (size + LARGE_HEADER_SIZE))).check "SimpleWriter::writeFtypBox(): ostream::seekp() failed" with
      | .error e => .error e
      | .ok s => .ok { x.withMoov u with w := { (x.withMoov u).w with ftyp_size := some size }, s }) := rfl
  rw [e1]
  unfold writeFtypBoxM
  cases hw : writeFtypF x.dev x.w.ftyp x.s with
  | error e =>
    rw [hw] at h3
    exact ⟨s', t, u, _, bind_error h3, h.beside h1, by rw [List.nil_append]; exact h2, fun _ => trivial⟩
  | ok r =>
    obtain ⟨n, str⟩ := r
    rw [hw] at h3
    have hc := h.cleared h1
    rw [bind_ok h3]
    dsimp only
    cases hk : (str.seekp x.dev (u64 (n + LARGE_HEADER_SIZE))).check "SimpleWriter::writeFtypBox(): ostream::seekp() failed" with
    | error e => exact ⟨_, t, u, _, bind_error (pureM_error e _), hc, by simp, fun h => absurd rfl h⟩
    | ok str' =>
      rw [bind_ok (pureM_ok _ _), pure_run]
      exact ⟨_, _, t, rfl, hc, rfl⟩

theorem writeMdatHeaderM_eq (dev : Device) (mdat : BoxHeader) (str : FStream) (s : State) :
    writeMdatHeaderM dev mdat str s = some (match mdat.writeF dev str with
      | (.error e, _, _) => .error e
      | (.ok _, _, str) => str.check "SimpleWriter::writeFreeBoxAndMdatHeader(): ostream::write() failed", s) := by
  unfold writeMdatHeaderM
  rcases mdat.writeF dev str with ⟨r, hd, str'⟩
  cases r with
  | error e => rfl
  | ok n =>
    dsimp only
    cases str'.check "SimpleWriter::writeFreeBoxAndMdatHeader(): ostream::write() failed" <;> rfl

theorem writeFree_sim {s : State} {t : ATree} {u : Tree} (h : Own s t u []) (fuel : Nat) (hf : 16 ≤ fuel) (x : FaultySimple) :
    Sim True (x.withMoov u).writeFreeBoxAndMdatHeader (x.writeFreeBoxAndMdatHeaderM fuel s) := by
  unfold FaultySimple.writeFreeBoxAndMdatHeader writeFreeBoxAndMdatHeaderM
  rw [show (x.withMoov u).w.ftyp_size = x.w.ftyp_size from rfl, show (x.withMoov u).s = x.s from rfl,
    show (x.withMoov u).dev = x.dev from rfl, show (x.withMoov u).w.mdat_data_size = x.w.mdat_data_size from rfl]
  cases h0 : initialised x.w.ftyp_size with
  | error e => exact ⟨s, t, u, [], bind_error (pureM_error e _), h, by simp, fun h => absurd rfl h⟩
  | ok ftyp_size =>
    rw [bind_ok (pureM_ok _ _)]
    dsimp only
    cases hk : (x.s.seekp x.dev ftyp_size).check "SimpleWriter::writeFreeBoxAndMdatHeader(): ostream::seekp() failed" with
    | error e => exact ⟨s, t, u, [], bind_error (pureM_error e _), h, by simp, fun h => absurd rfl h⟩
    | ok str =>
      rw [bind_ok (pureM_ok _ _)]
      dsimp only
      split
      · have hm := writeMdatHeaderM_eq x.dev { offset := ftyp_size, size := u64 (x.w.mdat_data_size + LARGE_HEADER_SIZE), headerSize := LARGE_HEADER_SIZE, type := fourcc "mdat" } str s
        rcases hr : BoxHeader.writeF x.dev { offset := ftyp_size, size := u64 (x.w.mdat_data_size + LARGE_HEADER_SIZE), headerSize := LARGE_HEADER_SIZE, type := fourcc "mdat" } str with ⟨r, hd, str'⟩
        rw [hr] at hm
        cases r with
        | error e => exact ⟨s, t, u, [], bind_error hm, h, by simp, fun h => absurd rfl h⟩
        | ok n =>
          dsimp only at hm ⊢
          cases hc : str'.check "SimpleWriter::writeFreeBoxAndMdatHeader(): ostream::write() failed" with
          | error e => rw [hc] at hm; exact ⟨s, t, u, [], bind_error hm, h, by simp, fun h => absurd rfl h⟩
          | ok str2 => rw [hc] at hm; exact ⟨_, s, t, bind_ok hm, h, rfl⟩
      · have hne : fourcc "free" ≠ fourcc "wave" := by decide +kernel
        obtain ⟨a, s1, n, s2, u', s3, l, h1, h2, h3, h4, h5, h6⟩ := single_sim x.dev fuel (by omega) (fourcc "free") (.opaq ⟨[]⟩) hne ftyp_size str s
        rw [h3, bind_ok h1, bind_ok h2]
        dsimp only
        cases hw : writeTreeF x.dev u' str with
        | error e =>
          rw [hw] at h6
          exact ⟨s3, t, u, _, bind_error h6, h.beside h4, by rw [List.nil_append]; exact h5, fun _ => trivial⟩
        | ok r =>
          obtain ⟨v, str1⟩ := r
          rw [hw] at h6
          obtain ⟨k1, k2, k3⟩ := h6
          rw [bind_ok k1]
          dsimp only
          cases hc1 : str1.check "SimpleWriter::writeFreeBoxAndMdatHeader(): ostream::write() failed" with
          | error e => exact ⟨s3, t, u, _, bind_error (pureM_error e _), h.beside h4, by rw [List.nil_append]; exact h5, fun _ => trivial⟩
          | ok str2 =>
            rw [bind_ok (pureM_ok _ _)]
            dsimp only
            cases hg : v.getSize with
            | error e =>
              rw [hg] at k2
              exact ⟨s3, t, u, _, bind_error k2, h.beside h4, by rw [List.nil_append]; exact h5, fun _ => trivial⟩
            | ok m =>
              rw [hg] at k2
              rw [bind_ok k2, bind_ok k3]
              have hcl := h.cleared h4
              have hm := writeMdatHeaderM_eq x.dev { offset := u64 (ftyp_size + m), size := u64 (x.w.mdat_data_size + SMALL_HEADER_SIZE), headerSize := SMALL_HEADER_SIZE, type := fourcc "mdat" } str2 (s3.clear l)
              dsimp only
              rcases hr : BoxHeader.writeF x.dev { offset := u64 (ftyp_size + m), size := u64 (x.w.mdat_data_size + SMALL_HEADER_SIZE), headerSize := SMALL_HEADER_SIZE, type := fourcc "mdat" } str2 with ⟨r, hd, str'⟩
              rw [hr] at hm
              cases r with
              | error e => exact ⟨_, t, u, [], bind_error hm, hcl, by simp, fun h => absurd rfl h⟩
              | ok n =>
                dsimp only at hm ⊢
                cases hc : str'.check "SimpleWriter::writeFreeBoxAndMdatHeader(): ostream::write() failed" with
                | error e => rw [hc] at hm; exact ⟨_, t, u, [], bind_error hm, hcl, by simp, fun h => absurd rfl h⟩
                | ok str3 => rw [hc] at hm; exact ⟨_, _, t, bind_ok hm, hcl, rfl⟩

theorem writeMoovBox_sim {s : State} {t : ATree} {u : Tree} (h : Own s t u []) (fuel : Nat) (hf : 16 ≤ fuel) (x : FaultySimple) :
    Sim False (x.withMoov u).writeMoovBox (x.writeMoovBoxM fuel s) := by
  unfold FaultySimple.writeMoovBox writeMoovBoxM SimpleWriter.setOffsetAndSize
  rw [show (x.withMoov u).w.ftyp_size = x.w.ftyp_size from rfl, show (x.withMoov u).w.moov = u from rfl]
  cases h0 : initialised x.w.ftyp_size with
  | error e => exact ⟨s, t, u, [], bind_error (pureM_error e _), h, by simp, fun h => absurd rfl h⟩
  | ok ftyp_size =>
    rw [bind_ok (pureM_ok _ _), bind_ok (theMoov_own h)]
    dsimp only
    obtain ⟨s1, t1, u1, a1, a2, a3, a4⟩ := h.adjust fuel (u64 (u64 (ftyp_size + LARGE_HEADER_SIZE) + x.w.mdat_data_size)) hf
    rw [show (x.withMoov u).w.mdat_data_size = x.w.mdat_data_size from rfl, a2, bind_ok a1]
    dsimp only
    obtain ⟨s2, b1, b2⟩ := a3.setNextTrackID x.w.next_track_id
    rw [bind_ok b1]
    obtain ⟨s3, u3, c1, c2⟩ := b2.write x.dev fuel (by omega) x.s
    rw [show (x.withMoov u).w.next_track_id = x.w.next_track_id from rfl, show (x.withMoov u).s = x.s from rfl,
      show (x.withMoov u).dev = x.dev from rfl]
    rw [a4] at c2
    cases hw : writeTreeF x.dev (setNextTrackID x.w.next_track_id u1) x.s with
    | error e =>
      rw [hw] at c2
      exact ⟨s3, _, u3, [], bind_error c2, c1, by simp, fun h => absurd rfl h⟩
    | ok r =>
      obtain ⟨v, str⟩ := r
      rw [hw] at c2
      obtain ⟨rfl, c2⟩ := c2
      exact ⟨_, s3, _, bind_ok c2, c1, rfl⟩

theorem step_sim {s : State} {t : ATree} {u : Tree} (h : Own s t u []) (fuel : Nat) (hf : 16 ≤ fuel) (x : FaultySimple) (c : Step) :
    Sim (c = .writeFtypBox ∨ c = .writeFreeBoxAndMdatHeader) ((x.withMoov u).step c) (x.stepM fuel c s) := by
  cases c with
  | writeFtypBox => exact (writeFtypBox_sim h fuel hf x).weaken fun _ => .inl rfl
  | addMdatData data => exact ⟨_, s, t, rfl, h, rfl⟩
  | getAndUpdateNextTrackID => exact ⟨_, s, t, rfl, h, rfl⟩
  | appendTrakAndUdtaBoxInfo tracks =>
    obtain ⟨s1, t1, a1, a2⟩ := appendTracks_own id tracks s t u [] h
    obtain ⟨s2, t2, b1, b2⟩ := appendUdta_own a2
    rw [appendTracksV_id] at b2
    refine ⟨x, s2, t2, ?_, b2, rfl⟩
    show ((appendTrakAndUdtaBoxInfoM tracks) >>= _) s = _
    have : appendTrakAndUdtaBoxInfoM tracks s = some (.ok (), s2) := by
      unfold appendTrakAndUdtaBoxInfoM
      rw [bind_ok a1, b1]
    rw [bind_ok this, pure_run]
  | writeFreeBoxAndMdatHeader => exact (writeFree_sim h fuel hf x).weaken fun _ => .inr rfl
  | writeMoovBox => exact (writeMoovBox_sim h fuel hf x).weaken False.elim

theorem steps_sim (fuel : Nat) (hf : 16 ≤ fuel) : ∀ (cs : List Step) {s : State} {t : ATree} {u : Tree}, Own s t u [] → ∀ (x : FaultySimple),
    Sim ((x.withMoov u).thrower cs = some .writeFtypBox ∨ (x.withMoov u).thrower cs = some .writeFreeBoxAndMdatHeader)
      ((x.withMoov u).steps cs) (x.stepsM fuel cs s)
  | [], s, t, u, h, x => ⟨x, s, t, rfl, h, rfl⟩
  | c :: cs, s, t, u, h, x => by
    have h1 := step_sim h fuel hf x c
    rw [steps, stepsM]
    cases hs : (x.withMoov u).step c with
    | error e =>
      rw [hs] at h1
      obtain ⟨s', t', u', st, k1, k2, k3, k4⟩ := h1
      refine ⟨s', t', u', st, bind_error k1, k2, k3, fun h => ?_⟩
      rw [thrower, hs]
      exact (k4 h).imp (congrArg some) (congrArg some)
    | ok y =>
      rw [hs] at h1
      obtain ⟨z, s', t', k1, k2, k3⟩ := h1
      rw [bind_ok k1]
      dsimp only
      rw [thrower, hs]
      dsimp only
      rw [← k3]
      exact steps_sim fuel hf cs k2 z

end FaultySimple
end Mp4
