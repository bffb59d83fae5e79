import Verif.Lemmas.Intermediate
import Verif.Lemmas.Faststart

/-! # What holds of the intermediate file after a history of calls -/

namespace Mp4
open Spec

/-- What holds after a history on a new object. -/
structure Held79 (libc : Libc) (h : List (Act × Outcome)) (i : Interm) : Prop where
  libc : i.libc = libc
  present : i.present = true ↔ ¬ Removed h
  isOpen : i.isOpen = false ↔ Closed h
  content : i.x.w.mdat.content = h.flatMap addedBy
  size : i.x.w.mdat_data_size = u64 ((h.map countedBy).sum)
  place : i.isOpen = true → i.reading = true ∨ i.x.w.mdat.pos = i.x.w.mdat.content.length
  reading : i.isOpen = true → i.reading = true → OutputFailed h

theorem removed_snoc {h : List (Act × Outcome)} {e : Act × Outcome} : Removed (h ++ [e]) ↔ Removed h ∨ Removed [e] := by
  simp only [Removed, List.mem_append, List.mem_singleton]
  constructor
  · rintro ⟨v, (h | h) | (h | h)⟩
    · exact .inl ⟨v, .inl h⟩
    · exact .inr ⟨v, .inl h⟩
    · exact .inl ⟨v, .inr h⟩
    · exact .inr ⟨v, .inr h⟩
  · rintro (⟨v, h | h⟩ | ⟨v, h | h⟩)
    · exact ⟨v, .inl (.inl h)⟩
    · exact ⟨v, .inr (.inl h)⟩
    · exact ⟨v, .inl (.inr h)⟩
    · exact ⟨v, .inr (.inr h)⟩

theorem closed_snoc {h : List (Act × Outcome)} {e : Act × Outcome} : Closed (h ++ [e]) ↔ Closed h ∨ Closed [e] := by
  simp only [Closed, List.mem_append, List.mem_singleton]
  constructor
  · rintro (⟨v, h | h⟩ | ⟨v, h | h⟩ | ⟨v, h | h⟩)
    · exact .inl (.inl ⟨v, h⟩)
    · exact .inr (.inl ⟨v, h⟩)
    · exact .inl (.inr (.inl ⟨v, h⟩))
    · exact .inr (.inr (.inl ⟨v, h⟩))
    · exact .inl (.inr (.inr ⟨v, h⟩))
    · exact .inr (.inr (.inr ⟨v, h⟩))
  · rintro ((⟨v, h⟩ | ⟨v, h⟩ | ⟨v, h⟩) | (⟨v, h⟩ | ⟨v, h⟩ | ⟨v, h⟩))
    · exact .inl ⟨v, .inl h⟩
    · exact .inr (.inl ⟨v, .inl h⟩)
    · exact .inr (.inr ⟨v, .inl h⟩)
    · exact .inl ⟨v, .inr h⟩
    · exact .inr (.inl ⟨v, .inr h⟩)
    · exact .inr (.inr ⟨v, .inr h⟩)

theorem outputFailed_mono {h : List (Act × Outcome)} {e : Act × Outcome} (hh : OutputFailed h) : OutputFailed (h ++ [e]) := by
  obtain ⟨r, hr⟩ := hh
  exact ⟨r, List.mem_append_left _ hr⟩

/-- A history can be cut at any of its calls. -/
theorem History.split {i0 : Interm} {l : List (Act × Outcome)} {i : Interm} (hl : History i0 l i) : ∀ (a : List (Act × Outcome))
    (e : Act × Outcome) (b : List (Act × Outcome)), l = a ++ e :: b → ∃ j k, History i0 a j ∧ Does e.1 j e.2 k ∧ History k b i := by
  induction hl with
  | start => intro a e b hab; simp at hab
  | @call h j k a o hj hd hu ih =>
    intro a' e b hab
    rcases List.eq_nil_or_concat b with rfl | ⟨b', e', rfl⟩
    · obtain ⟨h1, h2⟩ := List.append_inj' hab rfl
      cases h1; cases h2
      exact ⟨j, k, hj, hd, .start⟩
    · have hab : h ++ [(a, o)] = (a' ++ e :: b') ++ [e'] := by simpa using hab
      obtain ⟨h1, h2⟩ := List.append_inj' hab rfl
      cases h2
      obtain ⟨p, q, k1, k2, k3⟩ := ih _ _ _ h1
      refine ⟨p, q, k1, k2, ?_⟩
      rw [List.concat_eq_append]
      exact .call k3 hd hu

theorem History.nil_eq {i j : Interm} (h : History i [] j) : j = i := by
  generalize hl : ([] : List (Act × Outcome)) = l at h
  cases h with
  | start => rfl
  | call _ _ _ => simp at hl

/-- A call that neither closes nor removes nor writes keeps everything. -/
theorem Held79.keep {libc : Libc} {h : List (Act × Outcome)} {i j : Interm} {e : Act × Outcome} (H : Held79 libc h i)
    (h1 : j.libc = i.libc) (h2 : j.present = i.present) (h3 : j.isOpen = i.isOpen) (h4 : j.reading = i.reading)
    (h5 : j.x.w.mdat = i.x.w.mdat) (h6 : j.x.w.mdat_data_size = i.x.w.mdat_data_size)
    (hr : ¬ Removed [e]) (hc : ¬ Closed [e]) (ha : addedBy e = []) (hn : countedBy e = 0) : Held79 libc (h ++ [e]) j := by
  refine ⟨h1.trans H.libc, ?_, ?_, ?_, ?_, ?_, ?_⟩
  · rw [h2, H.present, removed_snoc]; simp [hr]
  · rw [h3, H.isOpen, closed_snoc]; simp [hc]
  · rw [h5, H.content]; simp [ha]
  · rw [h6, H.size]; simp [hn]
  · rw [h3, h4, h5]; exact H.place
  · rw [h3, h4]; exact fun a b => outputFailed_mono (H.reading a b)

theorem held79 {libc : Libc} {x : FaultyFaststart} {i0 : Interm} (h0 : Interm.construct libc x = .object i0) {h : List (Act × Outcome)}
    {i : Interm} (hh : History i0 h i) : Held79 libc h i := by
  induction hh with
  | start =>
    rw [Interm.construct] at h0
    split at h0
    · cases h0
    · split at h0
      · cases h0
      · cases h0
        refine ⟨rfl, ?_, ?_, rfl, rfl, fun _ => .inr rfl, fun _ h => by cases h⟩
        · simp [Removed]
        · simp [Closed]
  | @call h j k a o hj hd hu H =>
    cases a with
    | addMdatData d =>
      have hd : j.addMdatData d = (o, k) := hd
      rw [Interm.addMdatData] at hd
      split at hd
      · obtain ⟨rfl, rfl⟩ := Prod.mk.inj hd
        exact absurd rfl (hu _)
      · split at hd
        · obtain ⟨rfl, rfl⟩ := Prod.mk.inj hd
          exact absurd rfl (hu _)
        · have hO : j.isOpen = true := by simp_all
          have hR : j.reading = false := by simp_all
          have hP : j.x.w.mdat.pos = j.x.w.mdat.content.length := by
            rcases H.place hO with h | h
            · rw [hR] at h; cases h
            · exact h
          have hW : ∀ l, (j.x.w.mdat.fwrite l).content = j.x.w.mdat.content ++ l ∧
              (j.x.w.mdat.fwrite l).pos = (j.x.w.mdat.fwrite l).content.length := by
            intro l
            rw [CFile.fwrite, hP, OStream.write_end]
            exact ⟨rfl, by simp⟩
          dsimp only at hd
          split at hd
          · obtain ⟨rfl, rfl⟩ := Prod.mk.inj hd
            refine ⟨H.libc, ?_, ?_, ?_, ?_, fun _ => .inr ?_, ?_⟩
            · rw [removed_snoc]; simp [Removed, Interm.tick]; simpa [Removed] using H.present
            · rw [closed_snoc]; simp [Closed, Interm.tick]; simpa [Closed] using H.isOpen
            · simp only [List.flatMap_append, List.flatMap_cons, List.flatMap_nil, List.append_nil, addedBy]
              rw [← H.content]; exact (hW _).1
            · simp [countedBy]; exact H.size
            · exact (hW _).2
            · intro _ h; exact absurd (hR.symm.trans h) (by decide)
          · rename_i hne
            obtain ⟨rfl, rfl⟩ := Prod.mk.inj hd
            have hfull : min (j.libc.fwrite j.clock) d.length = d.length := by
              rw [Decidable.not_not] at hne; exact hne
            refine ⟨H.libc, ?_, ?_, ?_, ?_, fun _ => .inr ?_, ?_⟩
            · rw [removed_snoc]; simp [Removed, Interm.tick]; simpa [Removed] using H.present
            · rw [closed_snoc]; simp [Closed, Interm.tick]; simpa [Closed] using H.isOpen
            · simp only [List.flatMap_append, List.flatMap_cons, List.flatMap_nil, List.append_nil, addedBy]
              rw [← H.content]
              refine ((hW _).1).trans ?_
              rw [hfull, List.take_length]
            · show u64 (j.x.w.mdat_data_size + d.length) = _
              rw [H.size, List.map_append, List.sum_append]
              simp [countedBy, u64]
            · exact (hW _).2
            · intro _ h; exact absurd (hR.symm.trans h) (by decide)
    | tellCurrentMdatOffset =>
      have hd : j.tellCurrentMdatOffset = (o, k) := hd
      rw [Interm.tellCurrentMdatOffset] at hd
      split at hd
      · obtain ⟨rfl, rfl⟩ := Prod.mk.inj hd
        exact absurd rfl (hu _)
      · split at hd <;> obtain ⟨rfl, rfl⟩ := Prod.mk.inj hd <;>
          exact H.keep rfl rfl rfl rfl rfl rfl (by simp [Removed]) (by simp [Closed]) rfl rfl
    | deleteIntermediateFile =>
      have hd : j.deleteIntermediateFile = (o, k) := hd
      rw [Interm.deleteIntermediateFile] at hd
      split at hd <;> obtain ⟨rfl, rfl⟩ := Prod.mk.inj hd
      · refine ⟨H.libc, ?_, ?_, ?_, ?_, H.place, fun a b => outputFailed_mono (H.reading a b)⟩
        · rw [removed_snoc]; simp [Removed]
        · rw [closed_snoc]; simp [Closed, Interm.tick]; simpa [Closed] using H.isOpen
        · simp [addedBy]; exact H.content
        · simp [countedBy]; exact H.size
      · exact H.keep rfl rfl rfl rfl rfl rfl (by simp [Removed]) (by simp [Closed]) rfl rfl
    | other =>
      obtain ⟨-, x, rfl, -, h1, h2⟩ := hd
      exact H.keep rfl rfl rfl rfl h1 h2 (by simp [Removed]) (by simp [Closed]) rfl rfl
    | copyMdatData =>
      obtain ⟨n, hd⟩ := hd
      have hadd : ∀ o, addedBy (Act.copyMdatData, o) = [] := fun o => by cases o <;> rfl
      have hcnt : ∀ o, countedBy (Act.copyMdatData, o) = 0 := fun o => by cases o <;> rfl
      cases Interm.copy_cases hd with
      | closed _ => exact absurd rfl (hu _)
      | noSeek hO => exact H.keep rfl rfl rfl rfl rfl rfl (by simp [Removed]) (by simp [Closed]) rfl rfl
      | broken hO R =>
        refine ⟨R.libc.trans H.libc, ?_, ?_, ?_, ?_, ?_, ?_⟩
        · rw [R.present]; rw [removed_snoc]; simp [Removed, Interm.tick]; simpa [Removed] using H.present
        · rw [R.isOpen]; rw [closed_snoc]; simp [Closed, Interm.tick]; simpa [Closed] using H.isOpen
        · rw [R.content]; simp [hadd]; exact H.content
        · rw [R.size]; simp [hcnt]; exact H.size
        · intro _
          rw [(R.broken rfl).2]
          cases he : k.x.w.mdat.eof with
          | false => exact .inl rfl
          | true => right; rw [R.atEnd he, R.content]
        · intro _ _
          exact ⟨0, List.mem_append_right _ (List.mem_singleton.mpr rfl)⟩
      | noClose hO R =>
        refine ⟨R.libc.trans H.libc, ?_, ?_, ?_, ?_, (fun h => by cases h), fun h => by cases h⟩
        · refine Iff.trans (b := j.present = true) (by rw [← show _ = j.present from R.present]; rfl) ?_
          rw [H.present, removed_snoc]; simp [Removed]
        · rw [closed_snoc]; simp [Closed]
        · refine Eq.trans R.content ?_; simp [hadd]; exact H.content
        · refine Eq.trans R.size ?_; simp [hcnt]; exact H.size
      | noRemove hO R =>
        refine ⟨R.libc.trans H.libc, ?_, ?_, ?_, ?_, (fun h => by cases h), fun h => by cases h⟩
        · refine Iff.trans (b := j.present = true) (by rw [← show _ = j.present from R.present]; rfl) ?_
          rw [H.present, removed_snoc]; simp [Removed]
        · rw [closed_snoc]; simp [Closed]
        · refine Eq.trans R.content ?_; simp [hadd]; exact H.content
        · refine Eq.trans R.size ?_; simp [hcnt]; exact H.size
      | returned hO hp R =>
        refine ⟨R.libc.trans H.libc, ?_, ?_, ?_, ?_, (fun h => by cases h), fun h => by cases h⟩
        · rw [removed_snoc]; simp [Removed]
        · rw [closed_snoc]; simp [Closed]
        · refine Eq.trans R.content ?_; simp [hadd]; exact H.content
        · refine Eq.trans R.size ?_; simp [hcnt]; exact H.size

theorem copyLoop_ends (dev : Device) (n : Nat) : ∀ (r : Nat) (f : CFile) (s : FStream), s.good = true → f.eof = false →
    f.pos ≤ f.content.length → f.content.length - f.pos < n * COPY_MDAT_DATA_BUFFER_SIZE →
    ∃ f' s', FaultyFaststart.copyLoop dev (fun _ => true) (n + 1) r f s = some (.ok (f', s')) := by
  generalize hK0 : COPY_MDAT_DATA_BUFFER_SIZE = K
  have hK : 0 < K := by rw [← hK0]; decide
  induction n with
  | zero => intro r f s _ _ _ h; omega
  | succ n ih =>
    intro r f s hs he hp hn
    rw [FaultyFaststart.copyLoop, if_neg (by rw [he]; decide)]
    simp only [if_true, CFile.fread, hK0]
    have hgot : (slice f.content f.pos K).length = min K (f.content.length - f.pos) := by
      simp [slice]
    have hg : (s.copyOut dev (slice f.content f.pos K)).good = true := by rw [FStream.copyOut_good]; exact hs
    rw [if_pos hg]
    by_cases hlt : f.content.length - f.pos < K
    · have heof : (f.eof || decide ((slice f.content f.pos K).length < K)) = true := by
        rw [hgot]; simp; right; omega
      rw [heof]
      exact ⟨⟨f.content, f.pos + (slice f.content f.pos K).length, true⟩, _, by rw [FaultyFaststart.copyLoop, if_pos rfl]⟩
    · have heof : (f.eof || decide ((slice f.content f.pos K).length < K)) = false := by
        rw [hgot, he]; simp; omega
      have hlen : (slice f.content f.pos K).length = K := by rw [hgot]; omega
      rw [heof, hlen]
      rw [Nat.succ_mul] at hn
      exact ih _ _ _ hg rfl (by dsimp only; omega) (by dsimp only; omega)

/-- `appendTrakAndUdtaBoxInfo` does not touch the intermediate file. -/
theorem append_mdat {w w' : FaststartWriter} {tracks ts : List Track} (h : w.appendTrakAndUdtaBoxInfo tracks = .ok (w', ts)) :
    w'.mdat = w.mdat ∧ w'.mdat_data_size = w.mdat_data_size := by
  have hset : ∀ {w w' : FaststartWriter}, w.setOffsetAndSize = .ok w' → w'.mdat = w.mdat ∧ w'.mdat_data_size = w.mdat_data_size := by
    intro w w' h
    rw [FaststartWriter.setOffsetAndSize] at h
    split at h
    · cases h
    · split at h
      · cases h
      · split at h
        · cases h
        · cases h; exact ⟨rfl, rfl⟩
  have hround : ∀ {w w' : FaststartWriter} {tracks ts : List Track} {a b c : Nat}, w.appendRound tracks a b = .ok (w', ts, c) →
      w'.mdat = w.mdat ∧ w'.mdat_data_size = w.mdat_data_size := by
    intro w w' tracks ts a b c h
    rw [FaststartWriter.appendRound] at h
    split at h
    · cases h
    · rename_i w1 h1
      rw [FaststartWriter.recreateMoovBoxInfo] at h1
      obtain ⟨p1, p2⟩ := hset h1
      split at h
      · cases h
      · split at h
        rename_i moov _ _ _ _
        split at h
        · cases h
        · rename_i w2 h2
          obtain ⟨q1, q2⟩ := hset h2
          split at h
          · cases h
          · cases h
            exact ⟨q1.trans p1, q2.trans p2⟩
  have hloop : ∀ (n : Nat) {w w' : FaststartWriter} {tracks ts : List Track} {a b : Nat},
      FaststartWriter.appendLoop n w tracks a b = .ok (w', ts) → w'.mdat = w.mdat ∧ w'.mdat_data_size = w.mdat_data_size := by
    intro n
    induction n with
    | zero => intro w w' tracks ts a b h; cases h
    | succ n ih =>
      intro w w' tracks ts a b h
      rw [FaststartWriter.appendLoop] at h
      split at h
      · cases h
      · rename_i w1 ts1 c h1
        obtain ⟨p1, p2⟩ := hround h1
        split at h
        · cases h
        · split at h
          · obtain ⟨q1, q2⟩ := ih h
            exact ⟨q1.trans p1, q2.trans p2⟩
          · cases h; exact ⟨p1, p2⟩
  rw [FaststartWriter.appendTrakAndUdtaBoxInfo] at h
  split at h
  · cases h
  · exact hloop _ h

end Mp4
