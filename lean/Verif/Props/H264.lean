import Verif.Lemmas.H264
import Verif.Model.Track
import Verif.Props.Header

/-!
# C46, C47, C48: H.264 byte streams
-/

namespace Mp4

/-- **C46.** In a stream of NAL units, searching at the beginning of a unit returns exactly that unit: its start code, its
beginning, its end (the beginning of the next unit or the end of the stream) and its header byte.  The last unit must be at
least six bytes long including its start code. -/
theorem C46_segmentation (pre post : List (Bool × List Byte)) (long : Bool) (nal : List Byte)
    (hok : ∀ u ∈ pre ++ (long, nal) :: post, Spec.NalOk u.2)
    (hlast : ∀ u, (pre ++ (long, nal) :: post).getLast? = some u → 6 ≤ (Spec.startCode u.1).length + u.2.length) :
    find_next_nal_unit (Spec.annexB (pre ++ (long, nal) :: post)) (Spec.annexB pre).length =
      .ok { start_code_size := if long then 4 else 3
            start := (Spec.annexB pre).length
            end_ := (Spec.annexB (pre ++ [(long, nal)])).length
            header := nal.headD 0 } := by
  have hn := hok (long, nal) (by simp)
  obtain ⟨hhead, -, hne, -⟩ := id hn
  obtain ⟨x, nal', rfl⟩ := List.exists_cons_of_ne_nil hne
  have hx : x ≠ 0 := by intro h; apply hhead; rw [h]; rfl
  generalize hA : Spec.annexB pre = a
  have hdata : Spec.annexB (pre ++ (long, x :: nal') :: post)
      = a ++ (Spec.startCode long ++ x :: (nal' ++ Spec.annexB post)) := by
    rw [annexB_append, hA]; simp [Spec.annexB]
  have hend : Spec.annexB (pre ++ [(long, x :: nal')]) = a ++ (Spec.startCode long ++ x :: nal') := by
    rw [annexB_append, hA]; simp [Spec.annexB]
  have hscl := startCode_length long
  have hsc3 : 3 ≤ (Spec.startCode long).length := by rw [hscl]; split <;> omega
  -- at least six bytes from the start of this unit on
  have h6 : 6 ≤ (Spec.startCode long).length + 1 + (nal' ++ Spec.annexB post).length := by
    cases post with
    | nil =>
      have := hlast (long, x :: nal') (by simp)
      simp only [List.length_cons] at this
      simp only [List.length_append, Spec.annexB, List.length_nil]; omega
    | cons u post =>
      obtain ⟨l2, n2⟩ := u
      have h2 := startCode_length l2
      have h3 : 3 ≤ (Spec.startCode l2).length := by rw [h2]; split <;> omega
      simp only [List.length_append, Spec.annexB]; omega
  rw [find_next_nal_unit, hdata, findGo_first a (nal' ++ Spec.annexB post) long x hx _ (by omega)]
  have hlen : (a ++ (Spec.startCode long ++ x :: (nal' ++ Spec.annexB post))).length
      = a.length + (Spec.startCode long).length + (nal'.length + 1) + (Spec.annexB post).length := by
    simp only [List.length_append, List.length_cons]; omega
  rw [findGo_header _ a.length _ x hx (a.length + (Spec.startCode long).length + (nal'.length + 1)) _ _
    (by rw [hlen]; omega) (by omega)]
  · rw [← hscl, hend]
    congr 2
    simp only [List.length_append, List.length_cons]
    cases post with
    | nil =>
      have hnil : (Spec.annexB []).length = 0 := rfl
      split <;> omega
    | cons u post =>
      obtain ⟨l2, n2⟩ := u
      rw [if_pos]
      · omega
      · -- the next unit is long enough
        have hlen2 : 6 ≤ (Spec.annexB ((l2, n2) :: post)).length := by
          cases post with
          | nil =>
            have := hlast (l2, n2) (by simp)
            simp only [Spec.annexB, List.append_nil, List.length_append]; omega
          | cons v post =>
            obtain ⟨l3, n3⟩ := v
            have h2 := startCode_length l2
            have h3 := startCode_length l3
            have h2' : 3 ≤ (Spec.startCode l2).length := by rw [h2]; split <;> omega
            have h3' : 3 ≤ (Spec.startCode l3).length := by rw [h3]; split <;> omega
            simp only [Spec.annexB, List.length_append]; omega
        omega
  · intro j h1 h2 h5
    have e : a ++ (Spec.startCode long ++ x :: (nal' ++ Spec.annexB post))
        = (a ++ Spec.startCode long) ++ (x :: nal') ++ Spec.annexB post := by simp
    rw [e] at h5 ⊢
    exact no_startCode_inside _ _ _ hn j (by simp; omega) (by simp; omega) h5
  · intro h5
    have e : a ++ (Spec.startCode long ++ x :: (nal' ++ Spec.annexB post))
        = (a ++ (Spec.startCode long ++ x :: nal')) ++ Spec.annexB post := by simp
    have e2 : a.length + (Spec.startCode long).length + (nal'.length + 1) = (a ++ (Spec.startCode long ++ x :: nal')).length := by
      simp only [List.length_append, List.length_cons]; omega
    rw [e, e2]
    cases post with
    | nil => rw [hlen] at h5; simp only [Spec.annexB, List.length_nil] at h5; omega
    | cons u post =>
      obtain ⟨l2, n2⟩ := u
      refine startCodeAt_append _ _ (n2 ++ Spec.annexB post) l2 ?_
      simp [Spec.annexB]

/-- three units with both kinds of start codes -/
example : ∃ us : List (Bool × List Byte), us.length = 3 ∧ (∀ u ∈ us, Spec.NalOk u.2) ∧
    (∀ u, us.getLast? = some u → 6 ≤ (Spec.startCode u.1).length + u.2.length) ∧
    Spec.annexB us = [0, 0, 0, 1, 0x67, 0x42, 0, 0, 0, 3, 0, 0, 1, 0x68, 0, 2, 0, 0, 0, 1, 0x65, 0x88] := by
  refine ⟨[(true, [0x67, 0x42, 0, 0, 0, 3]), (false, [0x68, 0, 2]), (true, [0x65, 0x88])], rfl, ?_, ?_, rfl⟩
  · intro u hu
    simp only [List.mem_cons, List.not_mem_nil, or_false] at hu
    rcases hu with rfl | rfl | rfl <;> unfold Spec.NalOk <;> decide
  · intro u hu
    cases hu
    decide

/-- **C46** The length condition is needed: a last unit of at most five bytes including its start code is taken as part of the unit
before it. -/
theorem C46_short_last_unit_is_absorbed (pre : List (Bool × List Byte)) (long : Bool) (nal : List Byte)
    (last : Bool × List Byte) (hok : ∀ u ∈ pre ++ [(long, nal), last], Spec.NalOk u.2)
    (hshort : (Spec.startCode last.1).length + last.2.length ≤ 5) :
    find_next_nal_unit (Spec.annexB (pre ++ [(long, nal), last])) (Spec.annexB pre).length =
      .ok { start_code_size := if long then 4 else 3
            start := (Spec.annexB pre).length
            end_ := (Spec.annexB (pre ++ [(long, nal), last])).length
            header := nal.headD 0 } := by
  have hn := hok (long, nal) (by simp)
  obtain ⟨hhead, -, hne, -⟩ := id hn
  obtain ⟨x, nal', rfl⟩ := List.exists_cons_of_ne_nil hne
  have hx : x ≠ 0 := by intro h; apply hhead; rw [h]; rfl
  generalize hA : Spec.annexB pre = a
  obtain ⟨l2, n2⟩ := last
  have hn2 : n2 ≠ [] := (hok (l2, n2) (by simp)).2.2.1
  have hn2' : 1 ≤ n2.length := List.length_pos_iff.mpr hn2
  have h2 := startCode_length l2
  have h2' : 3 ≤ (Spec.startCode l2).length := by rw [h2]; split <;> omega
  have hdata : Spec.annexB (pre ++ [(long, x :: nal'), (l2, n2)])
      = a ++ (Spec.startCode long ++ x :: (nal' ++ (Spec.startCode l2 ++ n2))) := by
    rw [annexB_append, hA]; simp [Spec.annexB]
  have hscl := startCode_length long
  have hsc3 : 3 ≤ (Spec.startCode long).length := by rw [hscl]; split <;> omega
  rw [find_next_nal_unit, hdata,
    findGo_first a (nal' ++ (Spec.startCode l2 ++ n2)) long x hx _ (by simp only [List.length_append]; omega)]
  have hlen : (a ++ (Spec.startCode long ++ x :: (nal' ++ (Spec.startCode l2 ++ n2)))).length
      = a.length + (Spec.startCode long).length + (nal'.length + 1) + ((Spec.startCode l2).length + n2.length) := by
    simp only [List.length_append, List.length_cons]; omega
  rw [findGo_header _ a.length _ x hx (a.length + (Spec.startCode long).length + (nal'.length + 1)) _ _
    (by rw [hlen]; omega) (by omega)]
  · rw [if_neg (by rw [hlen]; simp only at hshort; omega), hscl]
    rfl
  · intro j h1 h2 h5
    have e : a ++ (Spec.startCode long ++ x :: (nal' ++ (Spec.startCode l2 ++ n2)))
        = (a ++ Spec.startCode long) ++ (x :: nal') ++ (Spec.startCode l2 ++ n2) := by simp
    rw [e] at h5 ⊢
    exact no_startCode_inside _ _ _ hn j (by simp; omega) (by simp; omega) h5
  · intro h5
    rw [hlen] at h5
    simp only at hshort
    omega

/-- an access unit delimiter of two bytes with a three-byte start code, at the end -/
example : find_next_nal_unit [0, 0, 1, 0x65, 0x88, 0x84, 0, 0, 1, 0x09, 0xf0] 0 = .ok ⟨3, 0, 11, 0x65⟩ := by
  decide +kernel

/-- **C47.** On every buffer and from every position the search ends, without reading outside the buffer or using an
uninitialised value: it throws one of its two exceptions or returns a unit that starts at the given position with a start code,
is not empty, lies inside the buffer, and ends at the end of the buffer or at the next start code. -/
theorem C47_scanner_is_safe (data : List Byte) (start : Nat) :
    (∃ msg, find_next_nal_unit data start = .error (.exc msg) ∧
      (msg = "not start with nalunit" ∨ msg = "nalunit not found")) ∨
    ∃ nu, find_next_nal_unit data start = .ok nu ∧ nu.start = start ∧
      (nu.start_code_size = 3 ∨ nu.start_code_size = 4) ∧ start + nu.start_code_size < nu.end_ ∧
      nu.end_ ≤ data.length ∧ nu.header ≠ 0 ∧ Spec.StartCodeAt data start ∧
      (nu.end_ = data.length ∨ Spec.StartCodeAt data nu.end_) := by
  rw [find_next_nal_unit]
  exact findGo_safe data start _ start none 0 (by omega) (Nat.le_refl _) ⟨rfl, rfl⟩

/-- **C47** The loop makes at most one round per byte: more rounds than the model allows change nothing. -/
theorem C47_scanner_terminates (data : List Byte) (start n : Nat) (hn : data.length - start < n) :
    findGo data start n start none 0 = find_next_nal_unit data start := by
  rw [find_next_nal_unit]
  by_cases h : data.length - start + 1 ≤ n
  · exact findGo_mono data start _ n start none 0 (by omega) h
  · omega

/-- a buffer with a zero header byte: the second start code counts -/
example : find_next_nal_unit [0, 0, 1, 0, 0, 0, 1, 0x41, 0x9a, 2, 3, 4, 5] 0 = .ok ⟨4, 0, 13, 0x41⟩ := by
  decide +kernel

section AddData
variable {σ : Type} [MdatWriter σ]

/-- **C47** `H264Track::addData` ends on every buffer: it returns or throws one of three exceptions. -/
theorem C47_addData_is_safe (t : Track) (w : σ) (timestamp : BitVec 64) (data : List Byte) (is_key : Bool) :
    (t.addData w timestamp data is_key).1 = .ok () ∨
    ∃ msg, (t.addData w timestamp data is_key).1 = .error (.exc msg) ∧
      (msg = "not start with nalunit" ∨ msg = "nalunit not found" ∨ msg = "unsuppoted NalUnit type") := by
  have key : ∀ n (t : Track) (w : σ) start, data.length - start < n →
      (t.addAnnexB timestamp data is_key n w start).1 = .ok () ∨
      ∃ msg, (t.addAnnexB timestamp data is_key n w start).1 = .error (.exc msg) ∧
        (msg = "not start with nalunit" ∨ msg = "nalunit not found" ∨ msg = "unsuppoted NalUnit type") := by
    intro n
    induction n with
    | zero => intro t w start h; omega
    | succ n ih =>
      intro t w start h
      rw [Track.addAnnexB]
      rcases C47_scanner_is_safe data start with ⟨msg, h1, h2⟩ | ⟨nu, h1, -, h3, h4, h5, -⟩
      · rw [h1]
        exact Or.inr ⟨msg, rfl, by rcases h2 with h | h <;> simp [h]⟩
      · rw [h1]
        dsimp only
        cases hk : t.addNal w timestamp nu.header
            (slice data (nu.start + nu.start_code_size) (nu.end_ - nu.start - nu.start_code_size)) is_key with
        | error e =>
          refine Or.inr ⟨"unsuppoted NalUnit type", ?_, by simp⟩
          unfold Track.addNal at hk
          cases hn : nalKind nu.header <;> rw [hn] at hk <;> simp only [reduceCtorEq] at hk
          cases hk
          rfl
        | ok r =>
          obtain ⟨t', w'⟩ := r
          dsimp only
          split
          · exact Or.inl rfl
          · exact ih t' w' nu.end_ (by omega)
  rw [Track.addData]
  split
  · exact key _ t w 0 (by omega)
  · exact Or.inl rfl

/-! ### C48 -/

/-- Store samples one after the other with the same time stamp. -/
def Track.addSamples (t : Track) (w : σ) (timestamp : BitVec 64) (is_key : Bool) : List (List Byte) → Track × σ
  | [] => (t, w)
  | s :: ss => Track.addSamples (t.addMdatData w timestamp s is_key).1 (t.addMdatData w timestamp s is_key).2
      timestamp is_key ss

theorem nalKind_eq (nal : List Byte) : nalKind (nal.headD 0) =
    (if 1 ≤ Spec.nalType nal ∧ Spec.nalType nal ≤ 5 then .vcl
      else if Spec.nalType nal = 6 then .sei
      else if Spec.nalType nal = 7 then .sps
      else if Spec.nalType nal = 8 then .pps else .unsupported) := by
  unfold Spec.nalType
  generalize nal.headD 0 = b
  revert b
  decide +kernel

theorem addMdatData_codec (t : Track) (w : σ) (ts : BitVec 64) (d : List Byte) (key : Bool) (c : Codec)
    (h : t.codec.handler = c.handler) :
    Track.addMdatData { t with codec := c } w ts d key =
      ({ (t.addMdatData w ts d key).1 with codec := c }, (t.addMdatData w ts d key).2) := by
  unfold Track.addMdatData
  simp only [h]

theorem addSamples_codec (ts : BitVec 64) (key : Bool) (c : Codec) (ss : List (List Byte)) :
    ∀ (t : Track) (w : σ), t.codec.handler = c.handler →
    Track.addSamples { t with codec := c } w ts key ss =
      ({ (t.addSamples w ts key ss).1 with codec := c }, (t.addSamples w ts key ss).2) := by
  induction ss with
  | nil => intro t w h; rfl
  | cons s ss ih =>
    intro t w h
    rw [Track.addSamples, addMdatData_codec t w ts s key c h, ih _ _ (by exact h)]
    rfl

theorem configured_nil (cfg : H264Config) : Spec.configured cfg [] = cfg := by
  unfold Spec.configured
  simp only [List.filter_nil, List.append_nil]
  split
  · rename_i h; cases h
  · rfl

theorem configured_sps (cfg : H264Config) (nal : List Byte) (nals : List (List Byte)) (h : Spec.nalType nal = 7) :
    Spec.configured (cfg.addSps nal) nals = Spec.configured cfg (nal :: nals) := by
  have f7 : (nal :: nals).filter (Spec.nalType · == 7) = nal :: nals.filter (Spec.nalType · == 7) := by
    simp [h]
  have f8 : (nal :: nals).filter (Spec.nalType · == 8) = nals.filter (Spec.nalType · == 8) := by
    simp [h]
  unfold Spec.configured
  simp only [f7, f8]
  obtain ⟨cv, p, c, l, sps, pps⟩ := cfg
  cases sps with
  | cons x xs =>
    have : (H264Config.mk cv p c l (x :: xs) pps).addSps nal = ⟨cv, p, c, l, x :: xs ++ [nal], pps⟩ := by
      unfold H264Config.addSps
      rw [if_neg]
      simp
    rw [this]
    simp
  | nil =>
    match nal with
    | [] => simp [H264Config.addSps]
    | [a] => simp [H264Config.addSps]
    | [a, b] => simp [H264Config.addSps]
    | [a, b, d] => simp [H264Config.addSps]
    | [a, b, d, e] => simp [H264Config.addSps]
    | a :: b :: d :: e :: f :: rest => simp [H264Config.addSps]

theorem configured_pps (cfg : H264Config) (nal : List Byte) (nals : List (List Byte)) (h : Spec.nalType nal = 8) :
    Spec.configured (cfg.addPps nal) nals = Spec.configured cfg (nal :: nals) := by
  have f7 : (nal :: nals).filter (Spec.nalType · == 7) = nals.filter (Spec.nalType · == 7) := by
    simp [h]
  have f8 : (nal :: nals).filter (Spec.nalType · == 8) = nal :: nals.filter (Spec.nalType · == 8) := by
    simp [h]
  unfold Spec.configured
  simp only [f7, f8, H264Config.addPps, List.append_assoc, List.singleton_append]

theorem configured_other (cfg : H264Config) (nal : List Byte) (nals : List (List Byte)) (h7 : Spec.nalType nal ≠ 7)
    (h8 : Spec.nalType nal ≠ 8) : Spec.configured cfg nals = Spec.configured cfg (nal :: nals) := by
  have f7 : (nal :: nals).filter (Spec.nalType · == 7) = nals.filter (Spec.nalType · == 7) := by
    simp [h7]
  have f8 : (nal :: nals).filter (Spec.nalType · == 8) = nals.filter (Spec.nalType · == 8) := by
    simp [h8]
  unfold Spec.configured
  simp only [f7, f8]

/-- **C48.** Adding a stream of NAL units to an H.264 track is the same as storing, for every VCL unit, one sample made of its length
in four bytes and the unit, in order and with the same time stamp, and moving the SPS and PPS units to the decoder
configuration; SEI units are dropped.  A unit of any other type makes the call throw after the units before it have been dealt
with. -/
theorem C48_framing (t : Track) (w : σ) (timestamp : BitVec 64) (is_key : Bool) (us : List (Bool × List Byte))
    (width height : BitVec 32) (cfg : H264Config) (hc : t.codec = .h264 width height cfg) (hne : us ≠ [])
    (hok : ∀ u ∈ us, Spec.NalOk u.2)
    (hlast : ∀ u, us.getLast? = some u → 6 ≤ (Spec.startCode u.1).length + u.2.length) :
    let nals := us.map (·.2)
    let supported := fun n => decide (1 ≤ Spec.nalType n ∧ Spec.nalType n ≤ 8)
    let done := nals.takeWhile supported
    t.addData w timestamp (Spec.annexB us) is_key =
      (if nals.all supported then .ok () else .error (.exc "unsuppoted NalUnit type"),
       { (t.addSamples w timestamp is_key (Spec.vclSamples done)).1 with
         codec := .h264 width height (Spec.configured cfg done) },
       (t.addSamples w timestamp is_key (Spec.vclSamples done)).2) := by
  intro nals supported done
  have key : ∀ (post pre : List (Bool × List Byte)) (t : Track) (w : σ) (cfg : H264Config) (n : Nat),
      us = pre ++ post → post ≠ [] → t.codec = .h264 width height cfg →
      (Spec.annexB us).length - (Spec.annexB pre).length < n →
      t.addAnnexB timestamp (Spec.annexB us) is_key n w (Spec.annexB pre).length =
        (if (post.map (·.2)).all supported then .ok () else .error (.exc "unsuppoted NalUnit type"),
         { (t.addSamples w timestamp is_key (Spec.vclSamples ((post.map (·.2)).takeWhile supported))).1 with
           codec := .h264 width height (Spec.configured cfg ((post.map (·.2)).takeWhile supported)) },
         (t.addSamples w timestamp is_key (Spec.vclSamples ((post.map (·.2)).takeWhile supported))).2) := by
    intro post
    induction post with
    | nil => intro _ _ _ _ _ _ h; exact absurd rfl h
    | cons u post ih =>
      intro pre t w cfg n hus _ hc hn
      obtain ⟨long, nal⟩ := u
      obtain ⟨n, rfl⟩ : ∃ m, n = m + 1 := ⟨n - 1, by omega⟩
      have hseg := C46_segmentation pre post long nal (by rw [← hus]; exact hok) (by rw [← hus]; exact hlast)
      rw [← hus] at hseg
      rw [Track.addAnnexB, hseg]
      have hdata : Spec.annexB us = (Spec.annexB pre ++ Spec.startCode long) ++ (nal ++ Spec.annexB post) := by
        rw [hus, annexB_append]; simp [Spec.annexB]
      have hend : (Spec.annexB (pre ++ [(long, nal)])).length
          = (Spec.annexB pre).length + ((Spec.startCode long).length + nal.length) := by
        rw [annexB_append]; simp [Spec.annexB]
      have hpay : slice (Spec.annexB us) ((Spec.annexB pre).length + if long then 4 else 3)
          ((Spec.annexB (pre ++ [(long, nal)])).length - (Spec.annexB pre).length - if long then 4 else 3) = nal := by
        rw [hend, ← startCode_length long, hdata]
        rw [show (Spec.annexB pre).length + ((Spec.startCode long).length + nal.length) - (Spec.annexB pre).length
          - (Spec.startCode long).length = nal.length by omega]
        rw [← List.length_append]
        exact slice_prefix _ _ _ nal rfl _ rfl
      dsimp only
      rw [hpay]
      -- what follows this unit
      have hrest : ∀ (t' : Track) (w' : σ) (cfg' : H264Config), t'.codec = .h264 width height cfg' →
          (if (Spec.annexB (pre ++ [(long, nal)])).length ≥ (Spec.annexB us).length then
            ((.ok (), t', w') : Except Err Unit × Track × σ)
           else t'.addAnnexB timestamp (Spec.annexB us) is_key n w' (Spec.annexB (pre ++ [(long, nal)])).length) =
          (if (post.map (·.2)).all supported then .ok () else .error (.exc "unsuppoted NalUnit type"),
           { (t'.addSamples w' timestamp is_key (Spec.vclSamples ((post.map (·.2)).takeWhile supported))).1 with
             codec := .h264 width height (Spec.configured cfg' ((post.map (·.2)).takeWhile supported)) },
           (t'.addSamples w' timestamp is_key (Spec.vclSamples ((post.map (·.2)).takeWhile supported))).2) := by
        intro t' w' cfg' hc'
        have hl : (Spec.annexB us).length = (Spec.annexB (pre ++ [(long, nal)])).length + (Spec.annexB post).length := by
          rw [hus, ← List.length_append, ← annexB_append]; simp
        cases post with
        | nil =>
          rw [if_pos (by rw [hl]; simp [Spec.annexB])]
          have hv : Spec.vclSamples (([] : List (Bool × List Byte)).map (·.2) |>.takeWhile supported) = [] := rfl
          rw [hv]
          simp only [List.map_nil, List.all_nil, List.takeWhile_nil, if_true, configured_nil, Track.addSamples]
          rw [← hc']
        | cons v post =>
          obtain ⟨l2, n2⟩ := v
          have h2 : 3 ≤ (Spec.startCode l2).length := by rw [startCode_length]; split <;> omega
          have hl2 : 0 < (Spec.annexB ((l2, n2) :: post)).length := by
            simp only [Spec.annexB, List.length_append]; omega
          rw [if_neg (by omega)]
          refine ih (pre ++ [(long, nal)]) t' w' cfg' n (by rw [hus]; simp) (by simp) hc' ?_
          have h3 : 3 ≤ (Spec.startCode long).length := by rw [startCode_length]; split <;> omega
          omega
      unfold Track.addNal
      rw [nalKind_eq]
      simp only [List.map_cons, List.all_cons]
      by_cases hs : 1 ≤ Spec.nalType nal ∧ Spec.nalType nal ≤ 8
      · rw [List.takeWhile_cons_of_pos (by simpa [supported] using hs)]
        have hsup : supported nal = true := by simpa [supported] using hs
        rw [hsup, Bool.true_and]
        generalize hD : (post.map (·.2)).takeWhile supported = D at hrest ⊢
        by_cases hv : 1 ≤ Spec.nalType nal ∧ Spec.nalType nal ≤ 5
        · rw [if_pos hv]
          dsimp only
          rw [hrest _ _ cfg (by exact hc)]
          have hvs : Spec.vclSamples (nal :: D) = (beBytes 4 nal.length ++ nal) :: Spec.vclSamples D := by
            unfold Spec.vclSamples
            rw [List.filter_cons_of_pos (by simpa using hv)]
            rfl
          rw [hvs, Track.addSamples, uint32_to_be_beBytes,
            ← configured_other cfg nal D (by omega) (by omega)]
        · have hvs : Spec.vclSamples (nal :: D) = Spec.vclSamples D := by
            unfold Spec.vclSamples
            rw [List.filter_cons_of_neg (by simpa using hv)]
          rw [if_neg hv, hvs]
          by_cases h6 : Spec.nalType nal = 6
          · rw [if_pos h6]
            dsimp only
            rw [hrest _ _ cfg hc, ← configured_other cfg nal D (by omega) (by omega)]
          · rw [if_neg h6]
            have hm : ∀ f, t.modifyH264 f = { t with codec := .h264 width height (f cfg) } := by
              intro f; unfold Track.modifyH264; rw [hc]
            by_cases h7 : Spec.nalType nal = 7
            · rw [if_pos h7]
              dsimp only
              rw [hm, hrest _ _ (cfg.addSps nal) rfl, addSamples_codec _ _ _ _ t w (by rw [hc]; rfl), configured_sps cfg nal D h7]
            · rw [if_neg h7, if_pos (by omega)]
              dsimp only
              rw [hm, hrest _ _ (cfg.addPps nal) rfl, addSamples_codec _ _ _ _ t w (by rw [hc]; rfl),
                configured_pps cfg nal D (by omega)]
      · rw [List.takeWhile_cons_of_neg (by simpa [supported] using hs)]
        have hsup : supported nal = false := by simpa [supported] using hs
        rw [hsup, if_neg (by omega), if_neg (by omega), if_neg (by omega), if_neg (by omega)]
        simp only [Bool.false_and, Bool.false_eq_true, if_false, configured_nil]
        rw [← hc]
        rfl
  have := key us [] t w cfg ((Spec.annexB us).length + 1) rfl hne hc (by simp [Spec.annexB])
  rw [Track.addData, hc]
  exact this

end AddData

/-- A stream with an SPS, a PPS, an SEI unit and two slices: one sample per slice, parameter sets in the configuration. -/
example :
    let t : Track :=
      { timescale := 90000, durationInTimescale := 0, durationInMvhdTimescale := 0, time_from_epoch := 0, media_time := 0,
        track_id := 1, codec := .h264 640 480 ⟨1, 0, 0, 0, [], []⟩ }
    let us := [(true, [0x67, 0x42, 0xc0, 0x1e, 0xd9]), (true, [0x68, 0xcb]), (false, [0x06, 0x05]), (true, [0x65, 0x88, 0x84]),
      (false, [0x41, 0x9a, 0x24, 0x6c])]
    let w : MdatWriter (List Byte) := ⟨fun w => BitVec.ofNat 64 w.length, fun w d => w ++ d⟩
    (∀ u ∈ us, Spec.NalOk u.2) ∧
    (∀ u, us.getLast? = some u → 6 ≤ (Spec.startCode u.1).length + u.2.length) ∧
    (Track.addData (σ := List Byte) t [] 3000 (Spec.annexB us) true) =
      (.ok (), { t with
        mdat_sample_sizes := [7, 8]
        current_chunk_info := ⟨0, 2, true⟩, prev_timestamp := 3000, sample_durations := [0], key_sample_numbers := [1, 2],
        codec := .h264 640 480 ⟨1, 0x42, 0xc0, 0x1e, [[0x67, 0x42, 0xc0, 0x1e, 0xd9]], [[0x68, 0xcb]]⟩ },
       [0, 0, 0, 3, 0x65, 0x88, 0x84, 0, 0, 0, 4, 0x41, 0x9a, 0x24, 0x6c]) := by
  refine ⟨?_, ?_, ?_⟩
  · intro u hu
    simp only [List.mem_cons, List.not_mem_nil, or_false] at hu
    rcases hu with rfl | rfl | rfl | rfl | rfl <;> unfold Spec.NalOk <;> decide
  · intro u hu
    cases hu
    decide
  · decide +kernel

end Mp4
