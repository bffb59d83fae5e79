import Verif.Model.Writer
import Verif.Spec.Writer
import Verif.Spec.Places
import Verif.Props.Track

namespace Mp4

section
variable {σ : Type} [MdatWriter σ]

/-- The states of a program whose tracks have gone through the events `es`, starting without tracks; tracks may be created, fields that
do not matter for the sample tables may change and the writer may make steps `R` in between. -/
inductive Session.Reached (R : σ → σ → Prop) (w0 : σ) : Session σ → List Event → Prop
  | start : Reached R w0 ⟨[], w0⟩ []
  | create {s : Session σ} {es : List Event} (p : TrackParameters) (c : Codec) (t : Track) :
      Reached R w0 s es → Track.new p c = .ok t → Reached R w0 ⟨s.tracks ++ [t], s.writer⟩ es
  | silent {s : Session σ} {es : List Event} (w : σ) :
      Reached R w0 s es → R s.writer w → Reached R w0 ⟨s.tracks, w⟩ es
  | sample {s : Session σ} {es : List Event} {i : Nat} {t : Track} (x : Sample) :
      Reached R w0 s es → s.tracks[i]? = some t →
      Reached R w0 ⟨s.tracks.set i (t.addMdatData s.writer x.timestamp x.data x.key).1,
        (t.addMdatData s.writer x.timestamp x.data x.key).2⟩ (es ++ [.sample i x])
  | terminate {s : Session σ} {es : List Event} {i : Nat} {t : Track} :
      Reached R w0 s es → s.tracks[i]? = some t →
      Reached R w0 ⟨s.tracks.set i t.terminateCurrentChunk, s.writer⟩ (es ++ [.terminate i])
  | configure {s : Session σ} {es : List Event} {i : Nat} {t : Track} (c : Codec) (m : BitVec 64) :
      Reached R w0 s es → s.tracks[i]? = some t → c.handler = t.codec.handler →
      Reached R w0 ⟨s.tracks.set i { t with codec := c, media_time := m }, s.writer⟩ es

/-- The bytes of some samples. -/
def bytesOf (ss : List Sample) : List Byte := ss.flatMap (·.data)

theorem bytesOf_append (a b : List Sample) : bytesOf (a ++ b) = bytesOf a ++ bytesOf b := by simp [bytesOf]

/-- The chunk `ss` starts at byte `o` of the sample data `L`. -/
def InLog (L : List Byte) (o : Nat) (ss : List Sample) : Prop :=
  slice L o (bytesOf ss).length = bytesOf ss ∧ o + (bytesOf ss).length ≤ L.length

theorem slice_append_left (L M : List Byte) (o n : Nat) (h : o + n ≤ L.length) : slice (L ++ M) o n = slice L o n := by
  unfold slice
  rw [List.drop_append_of_le_length (by omega), List.take_append_of_le_length (by simp; omega)]

theorem InLog.mono {L : List Byte} {o : Nat} {ss : List Sample} (h : InLog L o ss) (M : List Byte) : InLog (L ++ M) o ss := by
  refine ⟨?_, ?_⟩
  · rw [slice_append_left _ _ _ _ h.2]; exact h.1
  · rw [List.length_append]; have := h.2; omega

def chunkInfo (B : Nat) (g : Nat × List Sample) : ChunkInfo := ⟨BitVec.ofNat 64 (B + g.1), BitVec.ofNat 32 g.2.length, true⟩

/-- Offsets and sizes of the samples of a chunk. -/
def placesOf (g : Nat × List Sample) : List (Nat × Nat) := Spec.runRanges g.1 (g.2.map (·.data.length))

theorem bytesOf_length (ss : List Sample) : (bytesOf ss).length = (ss.map (·.data.length)).sum := by
  induction ss with
  | nil => rfl
  | cons s ss ih => rw [show bytesOf (s :: ss) = s.data ++ bytesOf ss by simp [bytesOf], List.length_append, ih]; rfl

/-- Track number `i` after the events `es`, when sample data starts at offset `B`. -/
def TrackInv (B : Nat) (es : List Event) (i : Nat) (t : Track) : Prop :=
  ∃ (closed : List (Nat × List Sample)) (o : Nat) (cur : List Sample),
    t.chunk_infos = closed.map (chunkInfo B) ∧
    t.current_chunk_info = (if cur = [] then {} else chunkInfo B (o, cur)) ∧
    Spec.samplesOf i es = closed.flatMap (·.2) ++ cur ∧
    (∀ g ∈ closed, g.2 ≠ []) ∧
    t.mdat_sample_sizes = (Spec.samplesOf i es).map (fun s => BitVec.ofNat 32 s.data.length) ∧
    t.finalized = false ∧
    (∀ g ∈ closed, InLog (Spec.mdat es) g.1 g.2) ∧
    (closed.map (·.1)).Pairwise (· ≤ ·) ∧
    (cur ≠ [] → InLog (Spec.mdat es) o cur ∧ (∀ g ∈ closed, g.1 ≤ o) ∧
      ∃ a s b, es = a ++ .sample i s :: b ∧ .terminate i ∉ b ∧ (∀ s', .sample i s' ∉ b) ∧
        o + (bytesOf cur).length = (Spec.mdat (a ++ [.sample i s])).length) ∧
    Spec.places i 0 es = closed.flatMap placesOf ++ placesOf (o, cur)

theorem places_none (i : Nat) (es : List Event) (h : Spec.samplesOf i es = []) (o : Nat) : Spec.places i o es = [] := by
  induction es generalizing o with
  | nil => rfl
  | cons e es ih =>
    cases e with
    | sample j s =>
      by_cases hj : j = i
      · simp [Spec.samplesOf, Spec.callsOf, hj, Spec.samples] at h
      · rw [Spec.places, if_neg hj]
        refine ih ?_ _
        simpa [Spec.samplesOf, Spec.callsOf, hj] using h
    | terminate j =>
      refine ih ?_ _
      by_cases hj : j = i
      · simpa [Spec.samplesOf, Spec.callsOf, hj, Spec.samples] using h
      · simpa [Spec.samplesOf, Spec.callsOf, hj] using h

theorem TrackInv.init (B i : Nat) {es : List Event} (he : Spec.samplesOf i es = []) {p : TrackParameters} {codec : Codec} {t : Track}
    (h : Track.new p codec = .ok t) : TrackInv B es i t := by
  obtain ⟨f1, f2, f3, f4, -⟩ := new_fresh h
  refine ⟨[], 0, [], f3, by rw [f4]; rfl, by rw [he]; rfl, by simp, by rw [he]; exact f2, f1, by simp, by simp,
    fun h => absurd rfl h, by rw [places_none i es he]; rfl⟩

/-- An event that does not concern this track. -/
theorem TrackInv.other {B : Nat} {es : List Event} {i : Nat} {t : Track} (h : TrackInv B es i t) (e : Event)
    (he : (∃ j s, e = .sample j s ∧ j ≠ i) ∨ ∃ j, e = .terminate j ∧ j ≠ i) : TrackInv B (es ++ [e]) i t := by
  obtain ⟨closed, o, cur, h1, h2, h3, h4, h5, h6, h7, h8, h9, h10⟩ := h
  have hs : Spec.samplesOf i (es ++ [e]) = Spec.samplesOf i es := by
    rw [Spec.samplesOf_append]
    rcases he with ⟨j, s, rfl, hj⟩ | ⟨j, rfl, hj⟩ <;> simp [Spec.samplesOf, Spec.callsOf, hj, Spec.samples]
  refine ⟨closed, o, cur, h1, h2, by rw [hs]; exact h3, h4, by rw [hs]; exact h5, h6, ?_, h8, ?_, ?_⟩
  · intro g hg; rw [Spec.mdat_append]; exact (h7 g hg).mono _
  rotate_left
  · rw [Spec.places_append, h10]
    rcases he with ⟨j, s, rfl, hj⟩ | ⟨j, rfl, hj⟩
    · simp [Spec.places, hj]
    · simp [Spec.places]
  · intro hc
    obtain ⟨i1, i2, a, s, b, i3, i4, i5, i6⟩ := h9 hc
    refine ⟨by rw [Spec.mdat_append]; exact i1.mono _, i2, a, s, b ++ [e], by rw [i3]; simp, ?_, ?_, i6⟩
    · rw [List.mem_append, not_or]
      refine ⟨i4, ?_⟩
      rcases he with ⟨j, s, rfl, hj⟩ | ⟨j, rfl, hj⟩
      · simp
      · simpa using fun h => hj h.symm
    · intro s'
      rw [List.mem_append, not_or]
      refine ⟨i5 s', ?_⟩
      rcases he with ⟨j, s, rfl, hj⟩ | ⟨j, rfl, hj⟩
      · simp only [List.mem_singleton, Event.sample.injEq, not_and]
        intro h; exact absurd h.symm hj
      · simp

theorem TrackInv.terminate {B : Nat} {es : List Event} {i : Nat} {t : Track} (h : TrackInv B es i t)
    (hn : (Spec.samplesOf i es).length < 2 ^ 32) : TrackInv B (es ++ [.terminate i]) i t.terminateCurrentChunk := by
  obtain ⟨closed, o, cur, h1, h2, h3, h4, h5, h6, h7, h8, h9, h10⟩ := h
  have hs : Spec.samplesOf i (es ++ [.terminate i]) = Spec.samplesOf i es := by
    rw [Spec.samplesOf_append]
    simp [Spec.samplesOf, Spec.callsOf, Spec.samples]
  have hm : Spec.mdat (es ++ [.terminate i]) = Spec.mdat es := by rw [Spec.mdat_append]; simp [Spec.mdat]
  have hpl : Spec.places i 0 (es ++ [.terminate i]) = Spec.places i 0 es := by rw [Spec.places_append]; simp [Spec.places]
  obtain ⟨g1, -, -, -, g2, -⟩ := terminate_fields t
  by_cases hc : cur = []
  · subst hc
    have ht : t.terminateCurrentChunk = t := by
      unfold Track.terminateCurrentChunk
      rw [h2, if_pos rfl, if_neg (by rw [gt_zero_iff]; simp)]
    rw [ht]
    exact ⟨closed, o, [], h1, h2, by rw [hs]; exact h3, h4, by rw [hs]; exact h5, h6, by rw [hm]; exact h7, h8,
      fun h => absurd rfl h, by rw [hpl]; exact h10⟩
  · obtain ⟨i1, i2, -⟩ := h9 hc
    rw [if_neg hc] at h2
    have hl : cur.length < 2 ^ 32 := by
      have := congrArg List.length h3
      rw [List.length_append] at this
      omega
    have hp : 0 < cur.length := List.length_pos_iff.mpr hc
    have hgt : t.current_chunk_info.number_of_samples > 0 := by
      rw [h2, gt_zero_iff]
      simp only [chunkInfo, BitVec.toNat_ofNat]
      omega
    refine ⟨closed ++ [(o, cur)], 0, [], ?_, ?_, ?_, ?_, ?_, ?_, ?_, ?_, fun h => absurd rfl h,
      by rw [hpl, h10]; simp [placesOf, Spec.runRanges]⟩
    · unfold Track.terminateCurrentChunk
      rw [if_pos hgt]
      simp [h1, h2]
    · unfold Track.terminateCurrentChunk
      rw [if_pos hgt]
      rfl
    · rw [hs, h3]; simp
    · intro g hg
      rcases List.mem_append.mp hg with hg | hg
      · exact h4 g hg
      · simp at hg; subst hg; exact hc
    · rw [g1, hs]; exact h5
    · rw [g2]; exact h6
    · intro g hg
      rw [hm]
      rcases List.mem_append.mp hg with hg | hg
      · exact h7 g hg
      · simp at hg; subst hg; exact i1
    · rw [List.map_append, List.pairwise_append]
      refine ⟨h8, by simp, ?_⟩
      intro a ha b hb
      simp at hb
      subst hb
      obtain ⟨g, hg, rfl⟩ := List.mem_map.mp ha
      exact i2 g hg

theorem mdat_quiet (i : Nat) (b : List Event) (h : ∀ (j : Nat) (d : Sample), .sample j d ∈ b → j ≠ i → d.data = [])
    (hi : ∀ s', Event.sample i s' ∉ b) : Spec.mdat b = [] := by
  induction b with
  | nil => rfl
  | cons e b ih =>
    have ih := ih (fun j d hd => h j d (List.mem_cons_of_mem _ hd)) (fun s' hs' => hi s' (List.mem_cons_of_mem _ hs'))
    cases e with
    | terminate j => exact ih
    | sample j d =>
      rw [Spec.mdat, ih]
      have hj : j ≠ i := by
        rintro rfl
        exact hi d List.mem_cons_self
      simp [h j d List.mem_cons_self hj]

theorem TrackInv.sample {B : Nat} {es : List Event} {i : Nat} {t : Track} (h : TrackInv B es i t) (x : Sample) (w : σ)
    (hd : Spec.Disciplined (es ++ [.sample i x]))
    (htell : MdatWriter.tellCurrentMdatOffset w = BitVec.ofNat 64 (B + (Spec.mdat es).length)) :
    TrackInv B (es ++ [.sample i x]) i (t.addMdatData w x.timestamp x.data x.key).1 := by
  obtain ⟨closed, o, cur, h1, h2, h3, h4, h5, h6, h7, h8, h9, h10⟩ := h
  have hs : Spec.samplesOf i (es ++ [.sample i x]) = Spec.samplesOf i es ++ [x] := by
    rw [Spec.samplesOf_append]
    simp [Spec.samplesOf, Spec.callsOf, Spec.samples]
  have hm : Spec.mdat (es ++ [.sample i x]) = Spec.mdat es ++ x.data := by rw [Spec.mdat_append]; simp [Spec.mdat]
  have hsz : (t.addMdatData w x.timestamp x.data x.key).1.mdat_sample_sizes =
      (Spec.samplesOf i (es ++ [.sample i x])).map (fun s => BitVec.ofNat 32 s.data.length) := by
    rw [hs, List.map_append, ← h5]; rfl
  have hpl : Spec.places i 0 (es ++ [.sample i x]) = Spec.places i 0 es ++ [((Spec.mdat es).length, x.data.length)] := by
    rw [Spec.places_append]; simp [Spec.places]
  by_cases hc : cur = []
  · subst hc
    rw [if_pos rfl] at h2
    refine ⟨closed, (Spec.mdat es).length, [x], h1, ?_, ?_, h4, hsz, h6, ?_, h8, ?_, by rw [hpl, h10]; simp [placesOf, Spec.runRanges]⟩
    · simp only [Track.addMdatData, h2]
      rw [if_neg (by simp)]
      simp [chunkInfo, htell]
    · rw [hs, h3]; simp
    · intro g hg; rw [hm]; exact (h7 g hg).mono _
    · intro _
      refine ⟨⟨?_, ?_⟩, ?_, es, x, [], by simp, by simp, by simp, ?_⟩
      · rw [hm]; simp [slice, bytesOf]
      · rw [hm]; simp [bytesOf]
      · intro g hg
        have := (h7 g hg).2
        omega
      · rw [hm]; simp [bytesOf]
  · obtain ⟨i1, i2, a, s, b, i3, i4, i5, i6⟩ := h9 hc
    rw [if_neg hc] at h2
    have hq : Spec.mdat b = [] := by
      apply mdat_quiet i b _ i5
      exact hd i a s b x [] (by rw [i3]; simp) i4
    have hend : o + (bytesOf cur).length = (Spec.mdat es).length := by
      rw [i6, i3, show a ++ Event.sample i s :: b = (a ++ [.sample i s]) ++ b by simp, Spec.mdat_append (a ++ [Event.sample i s]) b, hq]
      simp
    have hpo : placesOf (o, cur ++ [x]) = placesOf (o, cur) ++ [((Spec.mdat es).length, x.data.length)] := by
      simp only [placesOf, List.map_append, Spec.runRanges_append, ← hend, bytesOf_length]
      rfl
    refine ⟨closed, o, cur ++ [x], h1, ?_, ?_, h4, hsz, h6, ?_, h8, ?_, by rw [hpl, h10, hpo, List.append_assoc]⟩
    · simp only [Track.addMdatData, h2]
      rw [if_pos (by rfl), if_neg (by simp)]
      simp only [chunkInfo, List.length_append, List.length_singleton]
      congr 1
      rw [BitVec.ofNat_add]
      rfl
    · rw [hs, h3]; simp
    · intro g hg; rw [hm]; exact (h7 g hg).mono _
    · intro _
      have hb : bytesOf (cur ++ [x]) = bytesOf cur ++ x.data := by simp [bytesOf]
      refine ⟨⟨?_, ?_⟩, i2, es, x, [], by simp, by simp, by simp, ?_⟩
      · rw [hm, hb, List.length_append, slice_append, slice_append_left _ _ _ _ i1.2, i1.1, hend]
        simp [slice]
      · rw [hm, hb, List.length_append, List.length_append]; omega
      · rw [hm, hb, List.length_append, List.length_append]; omega

theorem TrackInv.codec {B : Nat} {es : List Event} {i : Nat} {t : Track} (h : TrackInv B es i t) (c : Codec) (m : BitVec 64) :
    TrackInv B es i { t with codec := c, media_time := m } := by
  obtain ⟨closed, o, cur, hh⟩ := h
  exact ⟨closed, o, cur, hh⟩

/-- The writer in a program. -/
theorem Reached.writer_inv (R : σ → σ → Prop) (P : σ → List Byte → Prop)
    (hadd : ∀ w L d, P w L → P (MdatWriter.addMdatData w d) (L ++ d))
    (hR : ∀ w w' L, P w L → R w w' → P w' L)
    {w0 : σ} {s : Session σ} {es : List Event} (h : Session.Reached R w0 s es) {L0 : List Byte} (h0 : P w0 L0) :
    P s.writer (L0 ++ Spec.mdat es) := by
  induction h with
  | start => simpa [Spec.mdat] using h0
  | create p c t hr ht ih => exact ih
  | silent w hr hw ih => exact hR _ _ _ ih hw
  | @sample s es i t x hr ht ih =>
    rw [Spec.mdat_append, ← List.append_assoc]
    have := hadd _ _ x.data ih
    simpa [Spec.mdat, Track.addMdatData] using this
  | @terminate s es i t hr ht ih =>
    rw [Spec.mdat_append]
    simpa [Spec.mdat] using ih
  | configure c m hr ht hc ih => exact ih

/-- The invariant of a whole program.  `P w L`: writer state `w` with sample data `L`. -/
theorem Reached.inv (R : σ → σ → Prop) (P : σ → List Byte → Prop) (B : Nat)
    (htell : ∀ w L, P w L → MdatWriter.tellCurrentMdatOffset w = BitVec.ofNat 64 (B + L.length))
    (hadd : ∀ w L d, P w L → P (MdatWriter.addMdatData w d) (L ++ d))
    (hR : ∀ w w' L, P w L → R w w' → P w' L)
    {w0 : σ} {s : Session σ} {es : List Event} (h : Session.Reached R w0 s es) (h0 : P w0 [])
    (hd : Spec.Disciplined es) (hn : ∀ i, (Spec.samplesOf i es).length < 2 ^ 32) :
    P s.writer (Spec.mdat es) ∧ (∀ i, s.tracks.length ≤ i → Spec.callsOf i es = []) ∧
    ∀ (i : Nat) (t : Track), s.tracks[i]? = some t → TrackInv B es i t := by
  induction h with
  | start =>
    refine ⟨h0, fun _ _ => rfl, ?_⟩
    intro i t ht
    simp at ht
  | @create s es p c t hr ht ih =>
    obtain ⟨i1, i2, i3⟩ := ih hd hn
    refine ⟨i1, ?_, ?_⟩
    · intro i hi
      exact i2 i (by simp at hi; omega)
    · intro i u hu
      by_cases hi : i < s.tracks.length
      · rw [List.getElem?_append_left hi] at hu
        exact i3 i u hu
      · rw [List.getElem?_append_right (by omega)] at hu
        have hui : u = t := by
          rcases hk : i - s.tracks.length with _ | k
          · rw [hk] at hu; simpa using hu.symm
          · rw [hk] at hu; simp at hu
        subst hui
        exact TrackInv.init B i (by rw [Spec.samplesOf, i2 i (by omega)]; rfl) ht
  | @silent s es w hr hw ih =>
    obtain ⟨i1, i2, i3⟩ := ih hd hn
    exact ⟨hR _ _ _ i1 hw, i2, i3⟩
  | @sample s es i t x hr ht ih =>
    have hle : ∀ j, (Spec.samplesOf j es).length < 2 ^ 32 := by
      intro j; have := hn j; rw [Spec.samplesOf_append, List.length_append] at this; omega
    obtain ⟨i1, i2, i3⟩ := ih (Spec.Disciplined.prefix hd) hle
    refine ⟨?_, ?_, ?_⟩
    rotate_left
    · intro j hj
      have hlt : i < s.tracks.length := (List.getElem?_eq_some_iff.mp ht).1
      rw [List.length_set] at hj
      rw [Spec.callsOf_append, i2 j hj]
      simp [Spec.callsOf, show i ≠ j by omega]
    rotate_left
    · rw [Spec.mdat_append]
      have := hadd _ _ x.data i1
      simpa [Spec.mdat, Track.addMdatData] using this
    · intro j u hu
      by_cases hj : i = j
      · subst hj
        have hlt : i < s.tracks.length := (List.getElem?_eq_some_iff.mp ht).1
        rw [List.getElem?_set_self hlt] at hu
        cases hu
        exact (i3 i t ht).sample x s.writer hd (htell _ _ i1)
      · rw [List.getElem?_set_ne hj] at hu
        exact (i3 j u hu).other _ (Or.inl ⟨i, x, rfl, hj⟩)
  | @terminate s es i t hr ht ih =>
    have hle : ∀ j, (Spec.samplesOf j es).length < 2 ^ 32 := by
      intro j; have := hn j; rw [Spec.samplesOf_append, List.length_append] at this; omega
    obtain ⟨i1, i2, i3⟩ := ih (Spec.Disciplined.prefix hd) hle
    refine ⟨?_, ?_, ?_⟩
    rotate_left
    · intro j hj
      have hlt : i < s.tracks.length := (List.getElem?_eq_some_iff.mp ht).1
      rw [List.length_set] at hj
      rw [Spec.callsOf_append, i2 j hj]
      simp [Spec.callsOf, show i ≠ j by omega]
    rotate_left
    · rw [Spec.mdat_append]
      simpa [Spec.mdat] using i1
    · intro j u hu
      by_cases hj : i = j
      · subst hj
        have hlt : i < s.tracks.length := (List.getElem?_eq_some_iff.mp ht).1
        rw [List.getElem?_set_self hlt] at hu
        cases hu
        exact (i3 i t ht).terminate (hle i)
      · rw [List.getElem?_set_ne hj] at hu
        exact (i3 j u hu).other _ (Or.inr ⟨i, rfl, hj⟩)
  | @configure s es i t c m hr ht hc ih =>
    obtain ⟨i1, i2, i3⟩ := ih hd hn
    refine ⟨i1, by simpa using i2, ?_⟩
    intro j u hu
    by_cases hj : i = j
    · subst hj
      have hlt : i < s.tracks.length := (List.getElem?_eq_some_iff.mp ht).1
      rw [List.getElem?_set_self hlt] at hu
      cases hu
      exact (i3 i t ht).codec c m
    · rw [List.getElem?_set_ne hj] at hu
      exact i3 j u hu

/-- The chunks of a finalized track. -/
theorem TrackInv.finalize {B : Nat} {es : List Event} {i : Nat} {t : Track} (h : TrackInv B es i t)
    (hn : (Spec.samplesOf i es).length < 2 ^ 32) :
    ∃ G : List (Nat × List Sample), t.finalize.chunk_infos = G.map (chunkInfo B) ∧
      Spec.samplesOf i es = G.flatMap (·.2) ∧ (∀ g ∈ G, g.2 ≠ []) ∧ (∀ g ∈ G, InLog (Spec.mdat es) g.1 g.2) ∧
      (G.map (·.1)).Pairwise (· ≤ ·) ∧
      t.finalize.mdat_sample_sizes = (Spec.samplesOf i es).map (fun s => BitVec.ofNat 32 s.data.length) ∧
      Spec.places i 0 es = G.flatMap placesOf := by
  obtain ⟨closed, o, cur, h1, h2, h3, h4, h5, h6, h7, h8, h9, h10⟩ := h
  have hsz := (finalize_fields t).1
  by_cases hc : cur = []
  · subst hc
    rw [if_pos rfl] at h2
    refine ⟨closed, ?_, by simpa using h3, h4, h7, h8, by rw [hsz]; exact h5, by rw [h10]; simp [placesOf, Spec.runRanges]⟩
    unfold Track.finalize
    rw [h6]
    simp only [Bool.false_eq_true, if_false]
    rw [h2, if_neg (by rw [gt_zero_iff]; simp)]
    exact h1
  · obtain ⟨i1, i2, -⟩ := h9 hc
    rw [if_neg hc] at h2
    have hl : cur.length < 2 ^ 32 := by
      have := congrArg List.length h3
      rw [List.length_append] at this
      omega
    have hp : 0 < cur.length := List.length_pos_iff.mpr hc
    have hgt : t.current_chunk_info.number_of_samples > 0 := by
      rw [h2, gt_zero_iff]
      simp only [chunkInfo, BitVec.toNat_ofNat]
      omega
    refine ⟨closed ++ [(o, cur)], ?_, ?_, ?_, ?_, ?_, by rw [hsz]; exact h5, by rw [h10]; simp⟩
    · unfold Track.finalize
      rw [h6]
      simp only [Bool.false_eq_true, if_false]
      rw [if_pos hgt]
      simp [h1, h2]
    · rw [h3]; simp
    · intro g hg
      rcases List.mem_append.mp hg with hg | hg
      · exact h4 g hg
      · simp at hg; subst hg; exact hc
    · intro g hg
      rcases List.mem_append.mp hg with hg | hg
      · exact h7 g hg
      · simp at hg; subst hg; exact i1
    · rw [List.map_append, List.pairwise_append]
      refine ⟨h8, by simp, ?_⟩
      intro a ha b hb
      simp at hb
      subst hb
      obtain ⟨g, hg, rfl⟩ := List.mem_map.mp ha
      exact i2 g hg

end

/-! ### Reading back -/

theorem readRun_spec (file : List Byte) (ss : List Sample) : ∀ o, slice file o (bytesOf ss).length = bytesOf ss →
    o + (bytesOf ss).length ≤ file.length →
    Spec.readRun file o (ss.map (·.data.length)) = ss.map (·.data) := by
  induction ss with
  | nil => intro o _ _; rfl
  | cons s ss ih =>
    intro o h hl
    have hb : bytesOf (s :: ss) = s.data ++ bytesOf ss := by simp [bytesOf]
    rw [hb, List.length_append, slice_append] at h
    rw [hb, List.length_append] at hl
    have hlen : (slice file o s.data.length).length = s.data.length := slice_length _ _ _ (by omega)
    obtain ⟨h1, h2⟩ := List.append_inj h hlen
    rw [List.map_cons, List.map_cons, Spec.readRun, h1, ih _ h2 (by omega)]

theorem readChunks_spec (file : List Byte) (stsc : List StscEntry) (B : Nat) (G : List (Nat × List Sample)) :
    ∀ k, (∀ j g, G[j]? = some g → Spec.samplesPerChunk stsc (k + j) = g.2.length) →
    (∀ g ∈ G, slice file (B + g.1) (bytesOf g.2).length = bytesOf g.2 ∧ B + g.1 + (bytesOf g.2).length ≤ file.length) →
    Spec.readChunks file stsc k (G.map fun g => B + g.1) ((G.flatMap (·.2)).map (·.data.length)) =
      (G.flatMap (·.2)).map (·.data) := by
  induction G with
  | nil => intro k _ _; rfl
  | cons g G ih =>
    intro k hs hin
    have h0 := hs 0 g rfl
    rw [Nat.add_zero] at h0
    rw [List.map_cons, Spec.readChunks, h0, List.flatMap_cons, List.map_append, List.map_append,
      List.take_left' (by simp), List.drop_left' (by simp),
      readRun_spec _ _ _ (hin g List.mem_cons_self).1 (hin g List.mem_cons_self).2, ih (k + 1)]
    · intro j g' hj
      rw [show k + 1 + j = k + (j + 1) by omega]
      exact hs (j + 1) g' (by simpa using hj)
    · intro g' hg'
      exact hin g' (List.mem_cons_of_mem _ hg')

/-- What the tables say about places. -/
theorem chunkRanges_spec (stsc : List StscEntry) (B : Nat) (G : List (Nat × List Sample)) :
    ∀ k, (∀ j g, G[j]? = some g → Spec.samplesPerChunk stsc (k + j) = g.2.length) →
    Spec.chunkRanges stsc k (G.map fun g => B + g.1) ((G.flatMap (·.2)).map (·.data.length)) =
      (G.flatMap placesOf).map fun r => (B + r.1, r.2) := by
  induction G with
  | nil => intro k _; rfl
  | cons g G ih =>
    intro k hs
    have h0 := hs 0 g rfl
    rw [Nat.add_zero] at h0
    rw [List.map_cons, Spec.chunkRanges, h0, List.flatMap_cons, List.map_append, List.flatMap_cons, List.map_append,
      List.take_left' (by simp), List.drop_left' (by simp), Spec.runRanges_shift, ih (k + 1)]
    · rfl
    · intro j g' hj
      rw [show k + 1 + j = k + (j + 1) by omega]
      exact hs (j + 1) g' (by simpa using hj)

end Mp4
