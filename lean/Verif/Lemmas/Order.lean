import Verif.Spec.Order
import Verif.Lemmas.Faststart
import Verif.Props.Tree

namespace Mp4

/-! ### Laying out and writing any tree -/

def HasHeader (b : Box) : Prop := b.header ≠ none
def Writes (b : Box) : Prop := ∃ n, b.data.writeData.res = .ok n

theorem adjustList_headers (adj : Tree → Nat → Option (Nat × Tree)) (hadj : ∀ t o n t', adj t o = some (n, t') → t'.All HasHeader)
    (base : Nat) : ∀ (ls : List Tree) (sz n : Nat) (ls' : List Tree), Tree.adjustList adj base ls sz = some (n, ls') →
      Tree.AllList HasHeader ls' := by
  intro ls
  induction ls with
  | nil => intro sz n ls' h; rw [Tree.adjustList] at h; cases h; trivial
  | cons t ls ih =>
    intro sz n ls' h
    rw [Tree.adjustList] at h
    cases h1 : adj t (u64 (base + sz)) with
    | none => rw [h1] at h; cases h
    | some r =>
      obtain ⟨m, t1⟩ := r
      rw [h1] at h
      dsimp only at h
      cases h2 : Tree.adjustList adj base ls (u64 (sz + m)) with
      | none => rw [h2] at h; cases h
      | some r =>
        obtain ⟨k, ls1⟩ := r
        rw [h2] at h
        cases h
        exact ⟨hadj _ _ _ _ h1, ih _ _ _ h2⟩

theorem adjust_headers : ∀ (f : Nat) (t : Tree) (o n : Nat) (t' : Tree), t.adjust f o = some (n, t') → t'.All HasHeader := by
  intro f
  induction f with
  | zero => intro t o n t' h; rw [Tree.adjust] at h; cases h
  | succ f ih =>
    intro t o n t' h
    obtain ⟨b, p, ls⟩ := t
    rw [Tree.adjust] at h
    cases h1 : Tree.adjustList (Tree.adjust f) (u64 (o + b.getHeaderSize + b.data.getDataSize)) ls 0 with
    | none => rw [h1] at h; cases h
    | some r =>
      obtain ⟨m, ls1⟩ := r
      rw [h1] at h
      dsimp only at h
      have hls := adjustList_headers _ ih _ _ _ _ _ h1
      split at h
      · split at h
        · cases h
        · rename_i h2
          cases h
          exact ih _ _ _ _ h2
      · cases h
        exact ⟨(fun h => by cases h), hls⟩

mutual
theorem all_erase (P : BoxData → Prop) : ∀ t : Tree, t.erase.All (fun b => P b.data) ↔ t.All (fun b => P b.data)
  | .node b p ls => by rw [Tree.erase, Tree.All, Tree.All, allList_erase P ls]
theorem allList_erase (P : BoxData → Prop) : ∀ ts : List Tree, Tree.AllList (fun b => P b.data) (Tree.eraseList ts) ↔
    Tree.AllList (fun b => P b.data) ts
  | [] => by rw [Tree.eraseList]
  | t :: ts => by rw [Tree.eraseList, Tree.AllList, Tree.AllList, all_erase P t, allList_erase P ts]
end

theorem writes_erase {t t' : Tree} (h : t'.erase = t.erase) (hw : t.All Writes) : t'.All Writes := by
  have := all_erase (fun d => ∃ n, d.writeData.res = .ok n)
  exact (this t').mp (h ▸ (this t).mpr hw)

theorem adjustTree_any (t : Tree) (o : Nat) : ∃ t', adjustTree t o = .ok t' ∧ t'.erase = t.erase ∧ t'.All HasHeader := by
  obtain ⟨n, t', h1, h2, -⟩ := C12_always_ends t o
  refine ⟨t', by unfold adjustTree; rw [h1], h2, adjust_headers _ _ _ _ _ h1⟩

mutual
theorem write_headers : ∀ (t : Tree) (os : OStream), t.All Writes → t.All HasHeader →
    ∃ t' os', t.write os = (.ok (), t', os') ∧ t'.erase = t.erase ∧ t'.All HasHeader
  | .node b p ls, os, hw, hh => by
    rw [Tree.All] at hw hh
    obtain ⟨n, hn⟩ := hw.1
    cases hb : b.header with
    | none => exact absurd hb hh.1
    | some x =>
      obtain ⟨ls', os', h1, h2, h3⟩ := writeList_headers ls (b.write os).2.2 hw.2 hh.2
      rw [Tree.write]
      have hr : (b.write os).1 = .ok ((x.write os).1 + n) := by
        unfold Box.write W.runC
        rw [hb]
        dsimp only
        rw [hn]
        rfl
      have hb2 : ∃ x', (b.write os).2.1 = { b with header := some x' } := by
        unfold Box.write W.runC
        rw [hb]
        exact ⟨_, rfl⟩
      obtain ⟨x', hx'⟩ := hb2
      rw [hr, hx']
      dsimp only
      rw [h1]
      refine ⟨_, _, rfl, ?_, ?_⟩
      · dsimp only
        rw [Tree.erase, Tree.erase, h2]
      · exact ⟨(fun h => by cases h), h3⟩
theorem writeList_headers : ∀ (ts : List Tree) (os : OStream), Tree.AllList Writes ts → Tree.AllList HasHeader ts →
    ∃ ts' os', Tree.writeList ts os = (.ok (), ts', os') ∧ Tree.eraseList ts' = Tree.eraseList ts ∧ Tree.AllList HasHeader ts'
  | [], os, _, _ => ⟨[], os, by rw [Tree.writeList], rfl, trivial⟩
  | t :: ts, os, hw, hh => by
    rw [Tree.AllList] at hw hh
    obtain ⟨t', os1, h1, h2, h3⟩ := write_headers t os hw.1 hh.1
    obtain ⟨ts', os2, h4, h5, h6⟩ := writeList_headers ts os1 hw.2 hh.2
    rw [Tree.writeList, h1]
    dsimp only
    rw [h4]
    exact ⟨_, _, rfl, by dsimp only; rw [Tree.eraseList, Tree.eraseList, h2, h5], h3, h6⟩
end

mutual
theorem write_missing : ∀ (t : Tree) (os : OStream), t.All Writes → ¬ t.All HasHeader →
    ∃ what t' os', t.write os = (.error (.ub what), t', os')
  | .node b p ls, os, hw, hh => by
    rw [Tree.All] at hw hh
    obtain ⟨n, hn⟩ := hw.1
    rw [Tree.write]
    cases hb : b.header with
    | none =>
      refine ⟨"m_header is null", .node b p ls, os, ?_⟩
      have : b.write os = (.error (.ub "m_header is null"), b, os) := by unfold Box.write; rw [hb]
      rw [this]
    | some x =>
      have hr : (b.write os).1 = .ok ((x.write os).1 + n) := by
        unfold Box.write W.runC
        rw [hb]
        dsimp only
        rw [hn]
        rfl
      obtain ⟨what, ls', os', h1⟩ := writeList_missing ls (b.write os).2.2 hw.2 (fun h => hh ⟨(fun h' => by rw [hb] at h'; cases h'), h⟩)
      rw [hr]
      dsimp only
      rw [h1]
      exact ⟨what, _, _, rfl⟩
theorem writeList_missing : ∀ (ts : List Tree) (os : OStream), Tree.AllList Writes ts → ¬ Tree.AllList HasHeader ts →
    ∃ what ts' os', Tree.writeList ts os = (.error (.ub what), ts', os')
  | [], os, _, hh => absurd trivial hh
  | t :: ts, os, hw, hh => by
    rw [Tree.AllList] at hw hh
    rw [Tree.writeList]
    by_cases ht : t.All HasHeader
    · obtain ⟨t', os1, h1, -, -⟩ := write_headers t os hw.1 ht
      obtain ⟨what, ts', os2, h4⟩ := writeList_missing ts os1 hw.2 (fun h => hh ⟨ht, h⟩)
      rw [h1]
      dsimp only
      rw [h4]
      exact ⟨what, _, _, rfl⟩
    · obtain ⟨what, t', os1, h1⟩ := write_missing t os hw.1 ht
      rw [h1]
      exact ⟨what, _, _, rfl⟩
end

theorem writeTree_headers {t : Tree} (os : OStream) (hw : t.All Writes) (hh : t.All HasHeader) :
    ∃ t' os', writeTree t os = .ok (t', os') ∧ t'.erase = t.erase ∧ t'.All HasHeader := by
  obtain ⟨t', os', h1, h2⟩ := write_headers t os hw hh
  exact ⟨t', os', by unfold writeTree; rw [h1], h2⟩

theorem writeTree_missing {t : Tree} (os : OStream) (hw : t.All Writes) (hh : ¬ t.All HasHeader) :
    ∃ what, writeTree t os = .error (.ub what) := by
  obtain ⟨what, t', os', h1⟩ := write_missing t os hw hh
  exact ⟨what, by unfold writeTree; rw [h1]⟩

theorem getSize_headers {t : Tree} (h : t.box.header ≠ none) : ∃ n, t.getSize = .ok n := by
  unfold Tree.getSize
  cases hb : t.box.header with
  | none => exact absurd hb h
  | some x => exact ⟨_, rfl⟩

theorem all_box {P : Box → Prop} {t : Tree} (h : t.All P) : P t.box := by obtain ⟨b, p, ls⟩ := t; exact h.1

theorem good_writes {t : Tree} (h : t.All Good) : t.All Writes := Tree.All.mono (fun _ hb => hb.2.ok.1) t h

theorem udtaWith_good (d : Data) (p : List BoxType) : (udtaWith d p).All Good := by
  simp [udtaWith, mkInfo_all, Tree.AllList, Good, GoodData]

/-! ### The pieces of the writers -/

theorem writeFtyp_any (f : Ftyp) (os : OStream) : ∃ n os', writeFtyp f os = .ok (n, os') := by
  obtain ⟨t, h1, h2, h3⟩ := adjustTree_any (mkInfo (fourcc "ftyp") (.ftyp f) [] []) 0
  have hw := writes_erase h2 (good_writes (leaf_good _ (.ftyp f) trivial _))
  obtain ⟨t', os', h4, h5, h6⟩ := writeTree_headers os hw h3
  obtain ⟨n, hn⟩ := getSize_headers (all_box h6)
  exact ⟨n, os', by unfold writeFtyp; rw [h1]; dsimp only; rw [h4]; dsimp only; rw [hn]⟩

theorem setNextTrackID_writes (id : BitVec 32) {t : Tree} (h : t.All Writes) : (setNextTrackID id t).All Writes := by
  obtain ⟨b, p, ls⟩ := t
  cases ls with
  | nil => exact h
  | cons t ls =>
    obtain ⟨m, mp, mls⟩ := t
    rw [setNextTrackID]
    refine ⟨h.1, ⟨?_, h.2.1.2⟩, h.2.2⟩
    have h1 : Writes m := h.2.1.1
    unfold Writes at h1 ⊢
    dsimp only
    split
    · exact (GoodData.ok (d := .mvhd _) trivial).1
    · exact h1

theorem setNextTrackID_headers (id : BitVec 32) {t : Tree} : (setNextTrackID id t).All HasHeader ↔ t.All HasHeader := by
  obtain ⟨b, p, ls⟩ := t
  cases ls with
  | nil => exact Iff.rfl
  | cons t ls =>
    obtain ⟨m, mp, mls⟩ := t
    rw [setNextTrackID]
    exact Iff.rfl

theorem appendTracks_writes : ∀ (ts : List Track) (t : Tree), t.All Writes → (appendTracks ts t).2.All Writes := by
  intro ts t h
  obtain ⟨b, p, ls⟩ := t
  rw [appendTracks_eq]
  refine ⟨h.1, (allList_append _ _ _).mpr ⟨h.2, ?_⟩⟩
  induction ts with
  | nil => trivial
  | cons t ts ih => exact ⟨good_writes (trak_good _ _), ih⟩

theorem appendUdta_writes (t : Tree) (h : t.All Writes) : (appendUdtaBoxInfo t).All Writes := by
  obtain ⟨b, p, ls⟩ := t
  exact ⟨h.1, (allList_append _ _ _).mpr ⟨h.2, good_writes (udta_good _), trivial⟩⟩

theorem appendUdtaWith_writes (d : Data) (t : Tree) (h : t.All Writes) : (appendUdtaWith d t).All Writes := by
  obtain ⟨b, p, ls⟩ := t
  exact ⟨h.1, (allList_append _ _ _).mpr ⟨h.2, good_writes (udtaWith_good _ _), trivial⟩⟩

theorem appendUdtaWith_missing (d : Data) (t : Tree) : ¬ (appendUdtaWith d t).All HasHeader := by
  obtain ⟨b, p, ls⟩ := t
  intro h
  rw [appendUdtaWith, Tree.All, allList_append] at h
  exact h.2.2.1.1 rfl

/-! ### `appendTrakAndUdtaBoxInfo` of `FaststartWriter`, for any tracks and any sizes -/

theorem shiftAndAppend_writes (d : Nat) (ts : List Track) (t : Tree) (h : t.All Writes) : (FaststartWriter.shiftAndAppend d ts t).2.All Writes := by
  obtain ⟨b, p, ls⟩ := t
  rw [FaststartWriter.shiftAndAppend_eq]
  refine ⟨h.1, (allList_append _ _ _).mpr ⟨h.2, ?_⟩⟩
  induction ts with
  | nil => trivial
  | cons t ts ih => exact ⟨good_writes (trak_good _ _), ih⟩

/-- `moov` is there, can be written and is laid out. -/
def MoovReady (w : FaststartWriter) : Prop := ∃ t, w.moov = some t ∧ t.All Writes ∧ t.All HasHeader

theorem setOffsetAndSize_any {w : FaststartWriter} {F : Nat} {t : Tree} (hF : w.ftyp_size = some F) (ht : w.moov = some t)
    (hw : t.All Writes) : ∃ w', w.setOffsetAndSize = .ok w' ∧ w'.ftyp_size = some F ∧ MoovReady w' := by
  obtain ⟨t', h1, h2, h3⟩ := adjustTree_any t F
  refine ⟨{ w with moov := some t' }, ?_, hF, t', rfl, writes_erase h2 hw, h3⟩
  unfold FaststartWriter.setOffsetAndSize
  rw [ht, hF]
  simp only [initialised]
  rw [h1]

theorem headSize_any {w : FaststartWriter} {F : Nat} (hF : w.ftyp_size = some F) (ht : ∀ t, w.moov = some t → t.box.header ≠ none) :
    ∃ n, w.headSize = .ok n ∧ n < 2 ^ 64 := by
  unfold FaststartWriter.headSize FaststartWriter.getMoovSize
  rw [hF]
  simp only [initialised]
  cases hm : w.moov with
  | none => exact ⟨_, rfl, Nat.mod_lt _ (by decide)⟩
  | some t =>
    obtain ⟨n, hn⟩ := getSize_headers (ht t hm)
    dsimp only
    rw [hn]
    exact ⟨_, rfl, Nat.mod_lt _ (by decide)⟩

theorem appendRound_any {w : FaststartWriter} {F : Nat} (hF : w.ftyp_size = some F) (tracks : List Track) (prev size : Nat) :
    ∃ w' ts n, w.appendRound tracks prev size = .ok (w', ts, n) ∧ n < 2 ^ 64 ∧ w'.ftyp_size = some F ∧ MoovReady w' := by
  unfold FaststartWriter.appendRound FaststartWriter.recreateMoovBoxInfo
  obtain ⟨w1, h1, h2, t, h3, h4, h5⟩ := setOffsetAndSize_any
    (w := { w with moov := some (newMoov (newMvhd w.time_from_epoch w.mvhd_timescale w.mvhd_duration w.next_track_id)) })
    hF rfl (good_writes (FaststartWriter.newMoov_good _))
  rw [h1]
  dsimp only
  rw [h3]
  dsimp only
  obtain ⟨w2, g1, g2, g3⟩ := setOffsetAndSize_any
    (w := { w1 with moov := some (appendUdtaBoxInfo (FaststartWriter.shiftAndAppend (sub64 size prev) tracks t).2) }) h2 rfl
    (appendUdta_writes _ (shiftAndAppend_writes _ _ _ h4))
  obtain ⟨n, k1, k2⟩ := headSize_any g2 (fun t ht => by
    obtain ⟨t', e, -, e2⟩ := g3
    rw [e] at ht
    cases ht
    exact all_box e2)
  rw [g1]
  dsimp only
  rw [k1]
  exact ⟨w2, _, n, rfl, k2, g2, g3⟩

theorem appendLoopKept_any (F : Nat) : ∀ (n : Nat) (w : FaststartWriter) (tracks : List Track) (prev size : Nat), w.ftyp_size = some F →
    1 ≤ n → 2 ^ 64 ≤ size + n → ∃ r w', FaststartWriter.appendLoopKept n w tracks prev size = (r, w') ∧
      w'.ftyp_size = some F ∧ MoovReady w' ∧
      (r = .ok () ∨ r = .error (.exc "FaststartWriter::appendTrakAndUdtaBoxInfo(): shrink moov size")) := by
  intro n
  induction n with
  | zero => intro w tracks prev size _ h; omega
  | succ n ih =>
    intro w tracks prev size hF _ hs
    obtain ⟨w', ts, m, h1, h2, h3, h4⟩ := appendRound_any hF tracks prev size
    rw [FaststartWriter.appendLoopKept, h1]
    dsimp only
    by_cases c1 : m < size
    · rw [if_pos c1]
      exact ⟨_, _, rfl, h3, h4, .inr rfl⟩
    · rw [if_neg c1]
      by_cases c2 : size = m
      · rw [if_neg (fun h => h c2)]
        exact ⟨_, _, rfl, h3, h4, .inl rfl⟩
      · rw [if_pos c2]
        exact ih w' ts size m h3 (by omega) (by omega)

theorem appendKept_any {w : FaststartWriter} {F : Nat} (hF : w.ftyp_size = some F) (ht : ∀ t, w.moov = some t → t.box.header ≠ none)
    (tracks : List Track) : ∃ r w', w.appendKept tracks = (r, w') ∧ w'.ftyp_size = some F ∧ MoovReady w' ∧
      (r = .ok () ∨ r = .error (.exc "FaststartWriter::appendTrakAndUdtaBoxInfo(): shrink moov size")) := by
  obtain ⟨n, h1, h2⟩ := headSize_any hF ht
  unfold FaststartWriter.appendKept
  rw [h1]
  exact appendLoopKept_any F _ w tracks 0 n hF (by decide) (by omega)

/-- Where the function of `Model/Writer.lean` returns, this one does the same. -/
theorem appendLoopKept_eq : ∀ (n : Nat) (w : FaststartWriter) (tracks : List Track) (prev size : Nat) w' ts,
    FaststartWriter.appendLoop n w tracks prev size = .ok (w', ts) →
    FaststartWriter.appendLoopKept n w tracks prev size = (.ok (), w') := by
  intro n
  induction n with
  | zero => intro w tracks prev size w' ts h; rw [FaststartWriter.appendLoop] at h; cases h
  | succ n ih =>
    intro w tracks prev size w' ts h
    rw [FaststartWriter.appendLoop] at h
    rw [FaststartWriter.appendLoopKept]
    cases hr : w.appendRound tracks prev size with
    | error e => rw [hr] at h; cases h
    | ok r =>
      obtain ⟨w1, t1, m⟩ := r
      rw [hr] at h
      dsimp only at h ⊢
      by_cases c1 : m < size
      · rw [if_pos c1] at h; cases h
      · rw [if_neg c1] at h ⊢
        by_cases c2 : size = m
        · rw [if_neg (fun h => h c2)] at h ⊢
          cases h
          rfl
        · rw [if_pos c2] at h ⊢
          exact ih _ _ _ _ _ _ h

theorem appendKept_eq {w w' : FaststartWriter} {tracks ts : List Track} (hl : tracks.length < 2 ^ 63)
    (h : w.appendTrakAndUdtaBoxInfo tracks = .ok (w', ts)) : w.appendKept tracks = (.ok (), w') := by
  unfold FaststartWriter.appendTrakAndUdtaBoxInfo at h
  unfold FaststartWriter.appendKept
  cases hs : w.headSize with
  | error e => rw [hs] at h; cases h
  | ok size =>
    rw [hs] at h
    dsimp only at h ⊢
    have := FaststartWriter.appendLoop_more _ (2 ^ 64 - (tracks.length + 3)) _ _ _ _ _ h
    rw [show tracks.length + 3 + (2 ^ 64 - (tracks.length + 3)) = 2 ^ 64 by omega] at this
    exact appendLoopKept_eq _ _ _ _ _ _ _ this

/-! ### Histories -/

namespace Spec

theorem laidOut_append (h : List FaststartCall) (ts : List Track) : laidOut (h ++ [.appendTrakAndUdtaBoxInfo ts]) :=
  ⟨h, ts, [], rfl, fun _ hm => by cases hm⟩

theorem laidOut_udta (h : List FaststartCall) (d : Data) : ¬ laidOut (h ++ [.appendUdtaBoxInfo d]) := by
  rintro ⟨a, ts, b, e, hb⟩
  rcases List.eq_nil_or_concat b with rfl | ⟨b', x, rfl⟩
  · have := (List.append_inj_right' e rfl)
    cases this
  · rw [show a ++ FaststartCall.appendTrakAndUdtaBoxInfo ts :: (b'.concat x) =
      (a ++ FaststartCall.appendTrakAndUdtaBoxInfo ts :: b') ++ [x] by simp] at e
    have := (List.append_inj_right' e rfl)
    cases this
    exact hb d (by simp)

theorem laidOut_other (h : List FaststartCall) (c : FaststartCall) (h1 : ∀ ts, c ≠ .appendTrakAndUdtaBoxInfo ts)
    (h2 : ∀ d, c ≠ .appendUdtaBoxInfo d) : laidOut (h ++ [c]) ↔ laidOut h := by
  constructor
  · rintro ⟨a, ts, b, e, hb⟩
    rcases List.eq_nil_or_concat b with rfl | ⟨b', x, rfl⟩
    · have := (List.append_inj_right' e rfl)
      cases this
      exact absurd rfl (h1 ts)
    · rw [show a ++ FaststartCall.appendTrakAndUdtaBoxInfo ts :: (b'.concat x) =
        (a ++ FaststartCall.appendTrakAndUdtaBoxInfo ts :: b') ++ [x] by simp] at e
      refine ⟨a, ts, b', (List.append_inj_left' e rfl), fun d hd => hb d (by simp [hd])⟩
  · rintro ⟨a, ts, b, rfl, hb⟩
    refine ⟨a, ts, b ++ [c], by simp, fun d hd => ?_⟩
    rcases List.mem_append.mp hd with hd | hd
    · exact hb d hd
    · rw [List.mem_singleton] at hd
      exact h2 d hd.symm

theorem laidOut_mem {h : List FaststartCall} (hl : laidOut h) : ∃ ts, .appendTrakAndUdtaBoxInfo ts ∈ h := by
  obtain ⟨a, ts, b, rfl, -⟩ := hl
  exact ⟨ts, by simp⟩

end Spec
end Mp4
