import Verif.Props.Movie
import Verif.Props.FaststartExamples

/-! # Concrete programs for C57, C58 and C68 -/

namespace Mp4
namespace Example

/-- What `good` asked for its video track. -/
def video : Spec.TrackAsked :=
  ⟨⟨1000, 3000, 3000, 1, 0, 1⟩, .vpx true 640 480 1000 1000, 0, [[1, 2, 3], [4, 5], [6]]⟩

/-- What `good` asked for its audio track. -/
def audio : Spec.TrackAsked := ⟨⟨48000, 144000, 3000, 1, 0, 2⟩, .opus 312 (-80), 0, [[10, 11, 12, 13]]⟩

theorem good_asked : Spec.asked good = [video, audio] := rfl

/-- The tables of the two tracks of `good`. -/
def GoodTables (moov : Tree) : Prop :=
  ∃ v s, Spec.traks moov = [v, s] ∧
    (∃ b, Spec.dataAt ["mdia", "minf", "stbl", "stts"] v = some (.stts b) ∧ Spec.sttsDurations b.entries = [33, 33, 2934]) ∧
    (∃ b, Spec.dataAt ["mdia", "minf", "stbl", "stsz"] v = some (.stsz b) ∧ b.entry_sizes = [3, 2, 1]) ∧
    (∃ b, Spec.dataAt ["mdia", "minf", "stbl", "stss"] v = some (.stss b) ∧ b.sample_numbers.map (·.toNat) = [1]) ∧
    (∃ b, Spec.dataAt ["mdia", "minf", "stbl", "stts"] s = some (.stts b) ∧ Spec.sttsDurations b.entries = [144000]) ∧
    Spec.noneAt ["mdia", "minf", "stbl", "stss"] s

theorem goodTables_of {moov : Tree} (h : Spec.EachTrak Spec.Tables good events moov) : GoodTables moov := by
  obtain ⟨h1, h2⟩ := h
  rw [good_asked] at h1
  match ht : Spec.traks moov, h1 with
  | [v, s], _ =>
    have a := h2 0 video v (by rw [good_asked]; rfl) (by rw [ht]; rfl)
    have b := h2 1 audio s (by rw [good_asked]; rfl) (by rw [ht]; rfl)
    obtain ⟨b1, e1, -, e2⟩ := a.stts
    obtain ⟨b2, e3, -, -, e4⟩ := a.stsz
    obtain ⟨b3, e5, -, e6⟩ := a.stss rfl
    obtain ⟨b4, e7, -, e8⟩ := b.stts
    exact ⟨v, s, ht, ⟨b1, e1, e2.trans (by decide +kernel)⟩, ⟨b2, e3, e4.trans (by decide +kernel)⟩,
      ⟨b3, e5, e6.trans (by decide +kernel)⟩, ⟨b4, e7, e8.trans (by decide +kernel)⟩, b.noStss rfl⟩

/-- Some of the parameters of the two tracks of `good`. -/
def GoodParameters (moov : Tree) : Prop :=
  ∃ v s, Spec.traks moov = [v, s] ∧
    (∃ b, Spec.dataAt ["tkhd"] v = some (.tkhd b) ∧ b.track_id = 1 ∧ b.duration = 3000 ∧ b.width = 640 <<< 16) ∧
    (∃ b, Spec.dataAt ["mdia", "mdhd"] v = some (.mdhd b) ∧ b.timescale = 1000) ∧
    (∃ b, Spec.dataAt ["mdia", "mdhd"] s = some (.mdhd b) ∧ b.timescale = 48000 ∧ b.duration = 144000) ∧
    (∃ g, Spec.dataAt ["mdia", "minf", "stbl", "sgpd"] s = some (.sgpd g) ∧ g.roll_distances = [⟨0, -80, false⟩])

theorem goodParameters_of {moov : Tree}
    (h : Spec.EachTrak (fun a ss trak => Spec.Parameters Spec.inObjects a ss.length trak) good events moov) : GoodParameters moov := by
  obtain ⟨h1, h2⟩ := h
  rw [good_asked] at h1
  match ht : Spec.traks moov, h1 with
  | [v, s], _ =>
    have a := h2 0 video v (by rw [good_asked]; rfl) (by rw [ht]; rfl)
    have b := h2 1 audio s (by rw [good_asked]; rfl) (by rw [ht]; rfl)
    obtain ⟨b1, e1, -, e2, -, -, e3, e4, -⟩ := a.tkhd
    obtain ⟨b2, e5, -, e6, -⟩ := a.mdhd
    obtain ⟨b3, e7, -, e8, e9, -⟩ := b.mdhd
    obtain ⟨g, -, e10, -, e11, -⟩ := b.roll (-80) rfl
    refine ⟨v, s, ht, ⟨b1, e1, e2, e3, ?_⟩, ⟨b2, e5, e6⟩, ⟨b3, e7, e8, e9⟩, ⟨g, e10, e11⟩⟩
    exact (Prod.mk.inj (Prod.mk.inj e4).2).1

/-- C57 and C58 applied to `good`, through `SimpleWriter`. -/
theorem good_movie_simple : ∃ s w moov w' moov', SimpleWriter.session ⟨[], 0⟩ ftyp 1000 3000 1 good = .ok s ∧
    SimpleWriter.finish s = .ok w ∧
    w.os.data = Tree.encodeList (Spec.simpleFile ftyp [1, 2, 3, 4, 5, 10, 11, 12, 13, 6] moov) ∧ GoodTables moov ∧
    SimpleWriter.finish s = .ok w' ∧
    w'.os.data = Tree.encodeList (Spec.simpleFile ftyp [1, 2, 3, 4, 5, 10, 11, 12, 13, 6] moov') ∧ GoodParameters moov' := by
  obtain ⟨s, es, h1, h2, h3⟩ := C57_simple ⟨[], 0⟩ rfl ftyp 1000 3000 1 good (by decide)
  obtain ⟨s', es', h1', h2', h3'⟩ := C58_simple ⟨[], 0⟩ rfl ftyp 1000 3000 1 good (by decide)
  obtain rfl : s' = s := by rw [h1] at h1'; exact (Except.ok.inj h1').symm
  have he := good_unique es h2
  have he' := good_unique es' h2'
  subst he he'
  have hs : s' = simpleSession good := by unfold simpleSession; rw [h1]
  have hfit : Tree.totalList (Spec.simpleFile ftyp (Spec.mdat events) (SimpleWriter.moovOf s')) < 2 ^ 64 := by
    rw [hs]; exact Nat.lt_of_le_of_lt (m := 2000) (by decide +kernel) (by decide)
  obtain ⟨w, moov, k1, k2, k3⟩ := h3 hfit (fun i => by have := events_count i; omega)
  obtain ⟨w', moov', k1', k2', -, k4'⟩ := h3' hfit
  exact ⟨s', w, moov, w', moov', h1, k1, k2, goodTables_of k3, k1', k2', goodParameters_of k4'⟩

/-- C57 and C58 applied to `good`, through `FaststartWriter`. -/
theorem good_movie_faststart : ∃ s w moov w' moov', FaststartWriter.session ⟨[], 0⟩ ftyp 1000 3000 1 good = .ok s ∧
    FaststartWriter.finish s = .ok w ∧
    w.os.data = Tree.encodeList (Spec.faststartFile ftyp [1, 2, 3, 4, 5, 10, 11, 12, 13, 6] moov) ∧ GoodTables moov ∧
    FaststartWriter.finish s = .ok w' ∧
    w'.os.data = Tree.encodeList (Spec.faststartFile ftyp [1, 2, 3, 4, 5, 10, 11, 12, 13, 6] moov') ∧ GoodParameters moov' := by
  obtain ⟨s, es, h1, h2, h3⟩ := C57_faststart ⟨[], 0⟩ rfl ftyp 1000 3000 1 good (by decide)
  obtain ⟨s', es', h1', h2', h3'⟩ := C58_faststart ⟨[], 0⟩ rfl ftyp 1000 3000 1 good (by decide)
  obtain rfl : s' = s := by rw [h1] at h1'; exact (Except.ok.inj h1').symm
  have he := good_unique es h2
  have he' := good_unique es' h2'
  subst he he'
  have hs : s' = faststartSession good := by unfold faststartSession; rw [h1]
  have hfit : FaststartWriter.sizeBound s' ftyp (Spec.mdat events) < 2 ^ 63 := by
    rw [hs]; exact Nat.lt_of_le_of_lt (m := 2000) (by decide +kernel) (by decide)
  obtain ⟨w, moov, k1, k2, k3⟩ := h3 hfit (fun i => by have := events_count i; omega)
  obtain ⟨w', moov', k1', k2', -, k4'⟩ := h3' hfit
  exact ⟨s', w, moov, w', moov', h1, k1, k2, goodTables_of k3, k1', k2', goodParameters_of k4'⟩

/-- The boxes of the file of `good`, which has a VP8 and an Opus track. -/
def GoodOutline (moov : Tree) : Prop :=
  ∃ wide wide', Spec.outline 0 moov =
    Spec.lines [(0, "moov"), (1, "mvhd"),
      (1, "trak"), (2, "tkhd"), (2, "edts"), (3, "elst"), (2, "mdia"), (3, "mdhd"), (3, "hdlr"), (3, "minf"), (4, "vmhd"), (4, "dinf"),
      (5, "dref"), (6, "url "), (4, "stbl"), (5, "stsd"), (6, "vp08"), (7, "vpcC"), (7, "fiel"), (7, "pasp"), (7, "btrt"),
      (5, "stts"), (5, "stss"), (5, "stsc"), (5, "stsz"), (5, if wide = true then "co64" else "stco"),
      (1, "trak"), (2, "tkhd"), (2, "edts"), (3, "elst"), (2, "mdia"), (3, "mdhd"), (3, "hdlr"), (3, "minf"), (4, "smhd"), (4, "dinf"),
      (5, "dref"), (6, "url "), (4, "stbl"), (5, "stsd"), (6, "Opus"), (7, "dOps"),
      (5, "stts"), (5, "stsc"), (5, "stsz"), (5, if wide' = true then "co64" else "stco"), (5, "sgpd"), (5, "sbgp"),
      (1, "udta"), (2, "meta"), (3, "hdlr"), (3, "ilst")] ++ [(4, ⟨0xa9, 0x74, 0x6f, 0x6f⟩)] ++ Spec.lines [(5, "data")]

theorem goodOutline_of {moov : Tree} (h : Spec.MovieOutline good moov) : GoodOutline moov := by
  obtain ⟨wide, h1, h2⟩ := h
  rw [good_asked] at h1 h2
  match wide, h1 with
  | [a, b], _ => exact ⟨a, b, h2⟩

/-- C68 applied to `good`, through `SimpleWriter`. -/
theorem good_outline_simple : ∃ s w moov, SimpleWriter.session ⟨[], 0⟩ ftyp 1000 3000 1 good = .ok s ∧
    SimpleWriter.finish s = .ok w ∧
    w.os.data = Tree.encodeList (Spec.simpleFile ftyp [1, 2, 3, 4, 5, 10, 11, 12, 13, 6] moov) ∧ GoodOutline moov := by
  obtain ⟨s, es, h1, h2, h3⟩ := C68_simple ⟨[], 0⟩ rfl ftyp 1000 3000 1 good (by decide)
  have he := good_unique es h2
  subst he
  have hs : s = simpleSession good := by unfold simpleSession; rw [h1]
  obtain ⟨w, moov, k1, k2, k3⟩ := h3 (by rw [hs]; exact Nat.lt_of_le_of_lt (m := 2000) (by decide +kernel) (by decide))
  exact ⟨s, w, moov, h1, k1, k2, goodOutline_of k3⟩

/-- C68 applied to `good`, through `FaststartWriter`. -/
theorem good_outline_faststart : ∃ s w moov, FaststartWriter.session ⟨[], 0⟩ ftyp 1000 3000 1 good = .ok s ∧
    FaststartWriter.finish s = .ok w ∧
    w.os.data = Tree.encodeList (Spec.faststartFile ftyp [1, 2, 3, 4, 5, 10, 11, 12, 13, 6] moov) ∧ GoodOutline moov := by
  obtain ⟨s, es, h1, h2, h3⟩ := C68_faststart ⟨[], 0⟩ rfl ftyp 1000 3000 1 good (by decide)
  have he := good_unique es h2
  subst he
  have hs : s = faststartSession good := by unfold faststartSession; rw [h1]
  obtain ⟨w, moov, k1, k2, k3⟩ := h3 (by rw [hs]; exact Nat.lt_of_le_of_lt (m := 2000) (by decide +kernel) (by decide))
  exact ⟨s, w, moov, h1, k1, k2, goodOutline_of k3⟩

end Example
end Mp4
