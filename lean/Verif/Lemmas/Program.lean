import Verif.Lemmas.Session
import Verif.Spec.Program
import Verif.Props.H264

namespace Mp4

section
variable {σ : Type} [MdatWriter σ]

theorem addSamples_append (ts : BitVec 64) (key : Bool) (a b : List (List Byte)) : ∀ (t : Track) (w : σ),
    t.addSamples w ts key (a ++ b) =
      (t.addSamples w ts key a).1.addSamples (t.addSamples w ts key a).2 ts key b := by
  induction a with
  | nil => intro t w; rfl
  | cons s a ih => intro t w; exact ih _ _

theorem addSamples_codec_eq (ts : BitVec 64) (key : Bool) (ss : List (List Byte)) : ∀ (t : Track) (w : σ),
    (t.addSamples w ts key ss).1.codec = t.codec := by
  induction ss with
  | nil => intro t w; rfl
  | cons s ss ih => intro t w; rw [Track.addSamples, ih]; rfl

theorem slice_infix (d : List Byte) (o n : Nat) : slice d o n <:+: d := by
  unfold slice
  exact ((List.take_prefix _ _).isInfix).trans (List.drop_suffix _ _).isInfix

/-- `H264Track::addData` on any buffer. -/
theorem addAnnexB_shape (timestamp : BitVec 64) (data : List Byte) (is_key : Bool) : ∀ n (t : Track) (w : σ) (start : Nat)
    (width height : BitVec 32) (cfg : H264Config), t.codec = .h264 width height cfg →
    ∃ ss cfg', (∀ s ∈ ss, ∃ nal, nal <:+: data ∧ s = beBytes 4 nal.length ++ nal) ∧
      (t.addAnnexB timestamp data is_key n w start).2 =
        ({ (t.addSamples w timestamp is_key ss).1 with codec := .h264 width height cfg' }, (t.addSamples w timestamp is_key ss).2) := by
  intro n
  induction n with
  | zero =>
    intro t w start width height cfg hc
    exact ⟨[], cfg, by simp, by rw [Track.addAnnexB, Track.addSamples, ← hc]⟩
  | succ n ih =>
    intro t w start width height cfg hc
    rw [Track.addAnnexB]
    cases hf : find_next_nal_unit data start with
    | error e => exact ⟨[], cfg, by simp, by rw [Track.addSamples, ← hc]⟩
    | ok nu =>
      dsimp only
      generalize hp : slice data (nu.start + nu.start_code_size) (nu.end_ - nu.start - nu.start_code_size) = nal
      have hin : nal <:+: data := by rw [← hp]; exact slice_infix _ _ _
      unfold Track.addNal
      have hm : ∀ f, t.modifyH264 f = { t with codec := .h264 width height (f cfg) } := by
        intro f; unfold Track.modifyH264; rw [hc]
      cases nalKind nu.header with
      | vcl =>
        dsimp only
        have hs : ∃ m, m <:+: data ∧ (uint32_to_be (BitVec.ofNat 32 nal.length) ++ nal) = beBytes 4 m.length ++ m :=
          ⟨nal, hin, by rw [uint32_to_be_beBytes]⟩
        split
        · refine ⟨[uint32_to_be (BitVec.ofNat 32 nal.length) ++ nal], cfg, by simpa using hs, ?_⟩
          rw [Track.addSamples, Track.addSamples, ← hc]; rfl
        · obtain ⟨ss, cfg', h1, h2⟩ := ih _ (t.addMdatData w timestamp (uint32_to_be (BitVec.ofNat 32 nal.length) ++ nal) is_key).2
            nu.end_ width height cfg
            (show (t.addMdatData w timestamp (uint32_to_be (BitVec.ofNat 32 nal.length) ++ nal) is_key).1.codec = _ from hc)
          refine ⟨(uint32_to_be (BitVec.ofNat 32 nal.length) ++ nal) :: ss, cfg', ?_, ?_⟩
          · intro s hs'
            rcases List.mem_cons.mp hs' with rfl | hs'
            · exact hs
            · exact h1 s hs'
          · rw [h2, Track.addSamples]
      | sei =>
        dsimp only
        split
        · exact ⟨[], cfg, by simp, by rw [Track.addSamples, ← hc]⟩
        · exact ih t w nu.end_ width height cfg hc
      | sps =>
        dsimp only
        rw [hm]
        split
        · exact ⟨[], cfg.addSps nal, by simp, by rw [Track.addSamples]⟩
        · obtain ⟨ss, cfg', h1, h2⟩ := ih { t with codec := .h264 width height (cfg.addSps nal) } w nu.end_ width height _ rfl
          refine ⟨ss, cfg', h1, ?_⟩
          rw [h2, addSamples_codec _ _ _ _ t w (by rw [hc]; rfl)]
      | pps =>
        dsimp only
        rw [hm]
        split
        · exact ⟨[], cfg.addPps nal, by simp, by rw [Track.addSamples]⟩
        · obtain ⟨ss, cfg', h1, h2⟩ := ih { t with codec := .h264 width height (cfg.addPps nal) } w nu.end_ width height _ rfl
          refine ⟨ss, cfg', h1, ?_⟩
          rw [h2, addSamples_codec _ _ _ _ t w (by rw [hc]; rfl)]
      | unsupported => exact ⟨[], cfg, by simp, by rw [Track.addSamples, ← hc]⟩

/-- Two objects of the same class. -/
def Codec.SameClass : Codec → Codec → Prop
  | .h264 .., .h264 .. => True
  | .vpx .., .vpx .. => True
  | .av1 .., .av1 .. => True
  | .opus .., .opus .. => True
  | .aac .., .aac .. => True
  | .mp3 .., .mp3 .. => True
  | _, _ => False

theorem Codec.SameClass.refl (c : Codec) : c.SameClass c := by cases c <;> trivial

theorem Codec.SameClass.stores {c c' : Codec} (h : c.SameClass c') (data : List Byte) (ss : List (List Byte)) :
    Spec.Stores (some c) data ss ↔ Spec.Stores (some c') data ss := by
  cases c <;> cases c' <;> first | exact h.elim | exact Iff.rfl

theorem Codec.SameClass.handler {c c' : Codec} (h : c.SameClass c') : c.handler = c'.handler := by
  cases c <;> cases c' <;> first | exact h.elim | rfl

theorem Codec.SameClass.trans {a b c : Codec} (h : a.SameClass b) (h' : b.SameClass c) : a.SameClass c := by
  cases a <;> cases b <;> cases c <;> first | exact h.elim | exact h'.elim | trivial

/-- A writer that records what it is given. -/
def recorder : MdatWriter (List (List Byte)) := ⟨fun _ => 0, fun l d => l ++ [d]⟩

theorem addSamples_recorder (timestamp : BitVec 64) (is_key : Bool) (ss : List (List Byte)) : ∀ (t : Track) (l : List (List Byte)),
    (@Track.addSamples _ recorder t l timestamp is_key ss).2 = l ++ ss := by
  induction ss with
  | nil => intro t l; simp [Track.addSamples]
  | cons s ss ih =>
    intro t l
    exact (ih _ (l ++ [s])).trans (by simp)

/-- `addData` on any track and any buffer. -/
theorem addData_shape (t : Track) (w : σ) (timestamp : BitVec 64) (data : List Byte) (is_key : Bool) :
    ∃ ss c, Spec.Stores (some t.codec) data ss ∧ t.codec.SameClass c ∧
      (t.addData w timestamp data is_key).2 =
        ({ (t.addSamples w timestamp is_key ss).1 with codec := c }, (t.addSamples w timestamp is_key ss).2) := by
  cases hc : t.codec with
  | h264 width height cfg =>
    by_cases hw : ∃ us, Spec.Units us ∧ data = Spec.annexB us
    · obtain ⟨us, ⟨u1, u2, u3⟩, rfl⟩ := hw
      have h48 := C48_framing t w timestamp is_key us width height cfg hc u1 u2 u3
      refine ⟨_, .h264 width height (Spec.configured cfg _), ⟨?_, ?_⟩, trivial, congrArg Prod.snd h48⟩
      · intro us' ⟨v1, v2, v3⟩ he
        have g1 := @C48_framing _ recorder t [] timestamp is_key us width height cfg hc u1 u2 u3
        have g2 := @C48_framing _ recorder t [] timestamp is_key us' width height cfg hc v1 v2 v3
        rw [← he] at g2
        have g3 := congrArg (fun r => r.2.2) (g1.symm.trans g2)
        simp only [addSamples_recorder] at g3
        simpa using g3
      · intro s hs
        unfold Spec.vclSamples at hs
        obtain ⟨nal, hnal, rfl⟩ := List.mem_map.mp hs
        have hn := List.takeWhile_subset _ (List.mem_filter.mp hnal |>.1)
        obtain ⟨u, hu, rfl⟩ := List.mem_map.mp hn
        refine ⟨u.2, ?_, rfl⟩
        obtain ⟨pre, post, rfl⟩ := List.append_of_mem hu
        obtain ⟨long, nal⟩ := u
        refine ⟨Spec.annexB pre ++ Spec.startCode long, Spec.annexB post, ?_⟩
        rw [annexB_append]
        simp [Spec.annexB]
    · obtain ⟨ss, cfg', h1, h2⟩ := addAnnexB_shape timestamp data is_key (data.length + 1) t w 0 width height cfg hc
      refine ⟨ss, _, ⟨?_, h1⟩, ?_, by rw [Track.addData, hc]; exact h2⟩
      · intro us hu he
        exact absurd ⟨us, hu, he⟩ hw
      · trivial
  | vpx _ _ _ _ _ => exact ⟨[data], t.codec, rfl, by rw [hc]; trivial, by rw [Track.addData]; simp [hc, Track.addSamples, Track.addMdatData]⟩
  | av1 _ _ _ => exact ⟨[data], t.codec, rfl, by rw [hc]; trivial, by rw [Track.addData]; simp [hc, Track.addSamples, Track.addMdatData]⟩
  | opus _ _ => exact ⟨[data], t.codec, rfl, by rw [hc]; trivial, by rw [Track.addData]; simp [hc, Track.addSamples, Track.addMdatData]⟩
  | aac _ _ _ => exact ⟨[data], t.codec, rfl, by rw [hc]; trivial, by rw [Track.addData]; simp [hc, Track.addSamples, Track.addMdatData]⟩
  | mp3 _ _ _ => exact ⟨[data], t.codec, rfl, by rw [hc]; trivial, by rw [Track.addData]; simp [hc, Track.addSamples, Track.addMdatData]⟩

end

section
variable {σ : Type} [TrackWriter σ]

/-- The writer's own step a program can cause besides adding data. -/
def idStep (w w' : σ) : Prop := w' = (TrackWriter.getAndUpdateNextTrackID w).2

theorem reached_samples {R : σ → σ → Prop} {w0 : σ} (i : Nat) (ts : BitVec 64) (key : Bool) (ss : List (List Byte)) :
    ∀ {s : Session σ} {es : List Event} {t : Track}, Session.Reached R w0 s es → s.tracks[i]? = some t →
    Session.Reached R w0 ⟨s.tracks.set i (t.addSamples s.writer ts key ss).1, (t.addSamples s.writer ts key ss).2⟩
      (es ++ ss.map fun d => Event.sample i ⟨ts, d, key⟩) := by
  induction ss with
  | nil =>
    intro s es t h ht
    have hlt := List.getElem?_eq_some_iff.mp ht
    have : s.tracks.set i t = s.tracks := by
      obtain ⟨h1, h2⟩ := hlt
      rw [← h2, List.set_getElem_self]
    simp only [Track.addSamples, this, List.map_nil, List.append_nil]
    exact h
  | cons d ss ih =>
    intro s es t h ht
    have hlt := (List.getElem?_eq_some_iff.mp ht).1
    have h1 := h.sample ⟨ts, d, key⟩ ht
    have h2 := ih h1 (List.getElem?_set_self hlt)
    simp only [List.set_set] at h2
    rw [Track.addSamples, List.map_cons, ← List.append_cons] at *
    exact h2

/-- The classes of the tracks agree with the list. -/
def ClassesOf (tracks : List Track) (codecs : List Codec) : Prop :=
  tracks.length = codecs.length ∧ ∀ (i : Nat) (t : Track) (c : Codec), tracks[i]? = some t → codecs[i]? = some c → c.SameClass t.codec

theorem ClassesOf.set {tracks : List Track} {codecs : List Codec} (h : ClassesOf tracks codecs) {i : Nat} {t u : Track}
    (ht : tracks[i]? = some t) (hu : t.codec.SameClass u.codec) : ClassesOf (tracks.set i u) codecs := by
  refine ⟨by rw [List.length_set]; exact h.1, ?_⟩
  intro j v c hv hc
  by_cases hj : i = j
  · subst hj
    rw [List.getElem?_set_self (List.getElem?_eq_some_iff.mp ht).1] at hv
    cases hv
    exact (h.2 i t c ht hc).trans hu
  · rw [List.getElem?_set_ne hj] at hv
    exact h.2 j v c hv hc

/-- Every run of a program is a history of events that the specification assigns to its calls. -/
theorem Session.calls_reached (w0 : σ) (calls : List Call) : ∀ (s : Session σ) (es : List Event) (codecs : List Codec),
    Session.Reached idStep w0 s es → ClassesOf s.tracks codecs →
    ∃ es', Spec.Expands codecs calls es' ∧ Session.Reached idStep w0 (s.calls calls) (es ++ es') ∧
      ClassesOf (s.calls calls).tracks (Spec.afterAll codecs calls) := by
  induction calls with
  | nil =>
    intro s es codecs h hc
    exact ⟨[], rfl, by rw [List.append_nil]; exact h, hc⟩
  | cons c calls ih =>
    intro s es codecs h hc
    have step : ∃ blk, Spec.Block codecs c blk ∧ Session.Reached idStep w0 (s.call c) (es ++ blk) ∧
        ClassesOf (s.call c).tracks (Spec.after codecs c) := by
      cases c with
      | getAndUpdateNextTrackID => exact ⟨[], rfl, by rw [List.append_nil]; exact h.silent _ rfl, hc⟩
      | newTrack p c =>
        refine ⟨[], rfl, ?_, ?_⟩
        · rw [List.append_nil, Session.call]
          cases ht : Track.new p c with
          | error e => exact h
          | ok t => exact h.create p c t ht
        · rw [Session.call, Spec.after]
          by_cases hid : p.track_id = 0
          · have hn : Track.new p c = .error (.exc "invalid track_id=0") := by unfold Track.new; rw [if_pos hid]
            rw [if_pos hid, hn]
            exact hc
          · have hn : ∃ t, Track.new p c = .ok t ∧ t.codec = c := by
              unfold Track.new; rw [if_neg hid]; exact ⟨_, rfl, rfl⟩
            obtain ⟨t, hn, htc⟩ := hn
            rw [if_neg hid, hn]
            dsimp only
            refine ⟨by simp [hc.1], ?_⟩
            intro j v c' hv hc'
            by_cases hj : j < s.tracks.length
            · rw [List.getElem?_append_left hj] at hv
              rw [List.getElem?_append_left (by rw [← hc.1]; exact hj)] at hc'
              exact hc.2 j v c' hv hc'
            · rw [List.getElem?_append_right (by omega)] at hv
              rw [List.getElem?_append_right (by rw [← hc.1]; omega), ← hc.1] at hc'
              rcases hk : j - s.tracks.length with _ | k
              · rw [hk] at hv hc'
                simp at hv hc'
                subst hv hc'
                rw [htc]
                exact Codec.SameClass.refl _
              · rw [hk] at hv; simp at hv
      | addData i ts data key =>
        rw [Session.call]
        cases ht : s.tracks[i]? with
        | none =>
          have hnone : codecs[i]? = none := by
            rw [List.getElem?_eq_none_iff] at ht ⊢
            rw [← hc.1]; exact ht
          refine ⟨[], ⟨[], ?_, rfl⟩, by rw [List.append_nil]; exact h, hc⟩
          rw [hnone]; rfl
        | some t =>
          have hlt := (List.getElem?_eq_some_iff.mp ht).1
          have hsome : ∃ c, codecs[i]? = some c := ⟨codecs[i]'(by rw [← hc.1]; exact hlt), by simp⟩
          obtain ⟨c, hcd⟩ := hsome
          have hsame := hc.2 i t c ht hcd
          obtain ⟨ss, c', h1, h2, h3⟩ := addData_shape t s.writer ts data key
          refine ⟨_, ⟨ss, ?_, rfl⟩, ?_, ?_⟩
          · rw [hcd, hsame.stores]; exact h1
          · dsimp only
            rw [h3]
            have r1 := reached_samples i ts key ss h ht
            have r2 := Session.Reached.configure (i := i) c' (t.addSamples s.writer ts key ss).1.media_time r1
              (List.getElem?_set_self hlt) (by rw [addSamples_codec_eq, h2.handler])
            simp only [List.set_set] at r2
            exact r2
          · dsimp only
            rw [h3]
            exact hc.set ht h2
      | terminateCurrentChunk i =>
        rw [Session.call]
        cases ht : s.tracks[i]? with
        | none =>
          have hge : s.tracks.length ≤ i := List.getElem?_eq_none_iff.mp ht
          refine ⟨[], ?_, by rw [List.append_nil]; exact h, hc⟩
          rw [Spec.Block, if_neg (by rw [← hc.1]; omega)]
        | some t =>
          have hlt := (List.getElem?_eq_some_iff.mp ht).1
          refine ⟨[.terminate i], ?_, h.terminate ht, hc.set ht ?_⟩
          · rw [Spec.Block, if_pos (by rw [← hc.1]; exact hlt)]
          · have : t.terminateCurrentChunk.codec = t.codec := by
              unfold Track.terminateCurrentChunk; split <;> rfl
            rw [this]; exact Codec.SameClass.refl _
      | setMediaTime i m =>
        rw [Session.call]
        cases ht : s.tracks[i]? with
        | none => exact ⟨[], rfl, by rw [List.append_nil]; exact h, hc⟩
        | some t =>
          exact ⟨[], rfl, by rw [List.append_nil]; exact h.configure t.codec m ht rfl, hc.set ht (Codec.SameClass.refl _)⟩
    obtain ⟨blk, b1, b2, b3⟩ := step
    obtain ⟨es', e1, e2, e3⟩ := ih (s.call c) (es ++ blk) (Spec.after codecs c) b2 b3
    exact ⟨blk ++ es', ⟨blk, es', b1, rfl, e1⟩, by rw [Session.calls, ← List.append_assoc]; exact e2, e3⟩

end
end Mp4
