import Verif.Lemmas.Simple
import Verif.Spec.Places

/-! # The places the tables of a track name -/

namespace Mp4

theorem trakRanges_trak (t : Track) (p : List BoxType) (offs : List Nat)
    (ho : Spec.chunkOffsets (make_offset_box t.chunk_infos).data = some offs) :
    Spec.trakRanges (t.trak p) = some (Spec.chunkRanges (make_stsc_entries t.chunk_infos) 1 offs
      (t.mdat_sample_sizes.map (·.toNat))) := by
  obtain ⟨q, hq⟩ := stbl_trak t p
  obtain ⟨h1, h2, h3⟩ := stbl_tables t q
  unfold Spec.trakRanges
  rw [hq, Option.bind_some, h1, Option.bind_some, h2, Option.bind_some, h3, ho, Option.bind_some]

theorem trak_ranges (L : List Byte) (B : Nat) (ss : List Sample) (t : Track) (G : List (Nat × List Sample)) (p : List BoxType)
    (h1 : t.chunk_infos = G.map (chunkInfo B)) (h2 : ss = G.flatMap (·.2)) (h3 : ∀ g ∈ G, g.2 ≠ [])
    (h4 : ∀ g ∈ G, InLog L g.1 g.2) (h5 : (G.map (·.1)).Pairwise (· ≤ ·))
    (h6 : t.mdat_sample_sizes = ss.map (fun s => BitVec.ofNat 32 s.data.length))
    (hn : ss.length < 2 ^ 32 - 1) (hs : ∀ s ∈ ss, s.data.length < 2 ^ 32) (hlt : B + L.length < 2 ^ 64) :
    Spec.trakRanges (t.trak p) = some ((G.flatMap placesOf).map fun r => (B + r.1, r.2)) := by
  have hoff : ∀ g ∈ G, (chunkInfo B g).offset.toNat = B + g.1 := by
    intro g hg
    have := (h4 g hg).2
    simp only [chunkInfo, BitVec.toNat_ofNat]
    exact Nat.mod_eq_of_lt (by omega)
  have hsort : t.chunk_infos.Pairwise fun a b => a.offset.toNat ≤ b.offset.toNat := by
    rw [h1, List.pairwise_map]
    rw [List.pairwise_map] at h5
    refine List.Pairwise.imp_of_mem ?_ h5
    intro a b ha hb hab
    rw [hoff a ha, hoff b hb]
    omega
  have ho := (C34_offsets t.chunk_infos hsort).1
  have hoffs : t.chunk_infos.map (·.offset.toNat) = G.map fun g => B + g.1 := by
    rw [h1, List.map_map]
    apply List.map_congr_left
    intro g hg
    exact hoff g hg
  rw [hoffs] at ho
  rw [trakRanges_trak t p _ ho]
  have hsz : t.mdat_sample_sizes.map (·.toNat) = (G.flatMap (·.2)).map (·.data.length) := by
    rw [h6, List.map_map, ← h2]
    apply List.map_congr_left
    intro s hs'
    simp only [Function.comp_apply, BitVec.toNat_ofNat]
    exact Nat.mod_eq_of_lt (hs s hs')
  have hlen : t.chunk_infos.length < 2 ^ 32 - 1 := by
    rw [h1, List.length_map]
    have := length_le_flatMap G h3
    rw [← h2] at this
    omega
  rw [hsz, chunkRanges_spec]
  intro j g hg
  have hk := (C33_entries t.chunk_infos hlen).1 j (chunkInfo B g) (by rw [h1, List.getElem?_map, hg]; rfl)
  rw [Nat.add_comm 1 j, hk]
  have hgm : g ∈ G := List.mem_of_getElem? hg
  have := group_le G g hgm
  rw [← h2] at this
  simp only [chunkInfo, BitVec.toNat_ofNat]
  exact Nat.mod_eq_of_lt (by omega)

/-- Samples are only stored for tracks that exist. -/
theorem expands_tracks {codecs : List Codec} {calls : List Call} {es : List Event} (h : Spec.Expands codecs calls es) :
    ∀ i s, Event.sample i s ∈ es → i < (Spec.afterAll codecs calls).length := by
  induction calls generalizing codecs es with
  | nil => intro i s hm; rw [Spec.Expands] at h; subst h; cases hm
  | cons c calls ih =>
    obtain ⟨blk, es', h1, rfl, h2⟩ := h
    intro i s hm
    rcases List.mem_append.mp hm with hm | hm
    · obtain ⟨_, _, _, -, hi⟩ := h1.mem hm
      have hmono : ∀ (calls : List Call) (cs : List Codec), cs.length ≤ (Spec.afterAll cs calls).length := by
        intro calls
        induction calls with
        | nil => intro cs; exact Nat.le_refl _
        | cons c calls ih => intro cs; exact Nat.le_trans (Spec.after_length cs c) (ih _)
      exact Nat.lt_of_lt_of_le hi (hmono (c :: calls) codecs)
    · exact ih h2 i s hm

end Mp4
