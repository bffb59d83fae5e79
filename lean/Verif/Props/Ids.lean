import Verif.Lemmas.Ids
import Verif.Props.Writer

/-! # C45: track ids -/

namespace Mp4

theorem simple_next (os : OStream) (f : Ftyp) (ts : BitVec 32) (dur now : BitVec 64) (w : SimpleWriter)
    (h : (SimpleWriter.new os f ts dur now).writeFtypBox = .ok w) : w.next_track_id = 1 := by
  unfold SimpleWriter.writeFtypBox at h
  split at h
  · cases h
  · cases h; rfl

theorem nextTrackId_moovTree (m : Mvhd) (tracks : List Track) : Spec.nextTrackId (moovTree m tracks) = some m.next_track_id := by
  unfold Spec.nextTrackId Spec.child moovTree Tree.leafs
  dsimp only
  rw [List.find?_cons_of_pos (by simp [Tree.box])]
  rfl

/-- Ids in the order they were handed out are non-zero, distinct and below `n`. -/
def Spec.FreshIds (ids : List (BitVec 32)) (n : BitVec 32) : Prop :=
  ids.Nodup ∧ ∀ id ∈ ids, id ≠ 0 ∧ id.toNat < n.toNat

theorem freshIds_range (n : Nat) (hn : n < 2 ^ 32 - 1) :
    Spec.FreshIds ((List.range n).map fun j => BitVec.ofNat 32 (0 + j + 1)) (BitVec.ofNat 32 (0 + n + 1)) := by
  have hval : ∀ j, j ≤ n → (BitVec.ofNat 32 (0 + j + 1)).toNat = j + 1 := by
    intro j hj
    rw [BitVec.toNat_ofNat, Nat.zero_add]
    exact Nat.mod_eq_of_lt (by omega)
  refine ⟨?_, ?_⟩
  · rw [List.Nodup, List.pairwise_map]
    refine List.Pairwise.imp_of_mem ?_ (List.nodup_range (n := n))
    intro a b ha hb hab he
    have := congrArg BitVec.toNat he
    rw [hval a (Nat.le_of_lt (List.mem_range.mp ha)), hval b (Nat.le_of_lt (List.mem_range.mp hb))] at this
    omega
  · intro id hid
    obtain ⟨j, hj, rfl⟩ := List.mem_map.mp hid
    have hj' := List.mem_range.mp hj
    rw [hval j (Nat.le_of_lt hj'), hval n (Nat.le_refl _)]
    refine ⟨?_, by omega⟩
    intro h
    have := congrArg BitVec.toNat h
    rw [hval j (Nat.le_of_lt hj')] at this
    simp at this

/-- **C45.** The ids that a `SimpleWriter` hands out during any program are distinct, non-zero and below `next_track_ID` of the finished
file (fewer than 2^32 - 1 ids). -/
theorem C45_simple (os : OStream) (hos : os.data = []) (f : Ftyp) (ts : BitVec 32) (dur now : BitVec 64) (calls : List Call)
    (hf : f.compatible_brands.length < 2 ^ 32) :
    ∃ w1 s es, (SimpleWriter.new os f ts dur now).writeFtypBox = .ok w1 ∧ s = (Session.mk [] w1).calls calls ∧
      Spec.Expands [] calls es ∧
      (((Session.mk [] w1).ids calls).length < 2 ^ 32 - 1 →
        Spec.FreshIds ((Session.mk [] w1).ids calls) s.writer.next_track_id) ∧
      (Tree.totalList (Spec.simpleFile f (Spec.mdat es) (SimpleWriter.moovOf s)) < 2 ^ 64 →
       ∃ w moov, SimpleWriter.finish s = .ok w ∧
        w.os.data = Tree.encodeList (Spec.simpleFile f (Spec.mdat es) moov) ∧
        Spec.nextTrackId moov = some s.writer.next_track_id) := by
  obtain ⟨w1, s, es, hw1, hinv, hs, hses, he1, he2, he3, hP, hmoov⟩ := simple_any os hos f ts dur now calls hf
  refine ⟨w1, s, es, hw1, hs, he1, ?_, ?_⟩
  · intro hlen
    rw [ids_length] at hlen
    obtain ⟨h1, h2⟩ := ids_eq (fun w : SimpleWriter => w.next_track_id) (fun _ _ => rfl) (fun _ => ⟨rfl, rfl⟩) calls
      (Session.mk [] w1) 0 (simple_next os f ts dur now w1 hw1)
    rw [hs, h1, h2]
    exact freshIds_range _ hlen
  · intro hfit
    rw [hmoov, simpleFile_total] at hfit
    obtain ⟨w, hw, hfile⟩ := SimpleWriter.finish_eq hP hfit
    exact ⟨w, _, hw, by rw [hfile, headBoxes_simpleFile], nextTrackId_moovTree _ _⟩

/-- **C45** The same for `FaststartWriter`, up to the end of the calls. -/
theorem C45_faststart (w : FaststartWriter) (hw : w.next_track_id = 1) (calls : List Call)
    (hn : ((Session.mk [] w).ids calls).length < 2 ^ 32 - 1) :
    Spec.FreshIds ((Session.mk [] w).ids calls) ((Session.mk [] w).calls calls).writer.next_track_id := by
  rw [ids_length] at hn
  obtain ⟨h1, h2⟩ := ids_eq (fun w : FaststartWriter => w.next_track_id) (fun _ _ => rfl) (fun _ => ⟨rfl, rfl⟩) calls
    (Session.mk [] w) 0 hw
  rw [h1, h2]
  exact freshIds_range _ hn

/-- **C45** A track is refused exactly when its id is 0. -/
theorem C45_zero_refused (p : TrackParameters) (codec : Codec) :
    (∃ e, Track.new p codec = .error e) ↔ p.track_id = 0 := by
  unfold Track.new
  split <;> rename_i h
  · exact Iff.intro (fun _ => h) (fun _ => ⟨_, rfl⟩)
  · exact Iff.intro (fun he => by obtain ⟨e, he⟩ := he; cases he) (fun h' => absurd h' h)

/-- **C45** The bound is sharp: the 2^32nd id is 0. -/
theorem C45_wraps (w : SimpleWriter) (hw : w.next_track_id = 1) :
    ((Session.mk [] w).ids (List.replicate (2 ^ 32) .getAndUpdateNextTrackID))[2 ^ 32 - 1]? = some 0 := by
  obtain ⟨h1, -⟩ := ids_eq (fun w : SimpleWriter => w.next_track_id) (fun _ _ => rfl) (fun _ => ⟨rfl, rfl⟩)
    (List.replicate (2 ^ 32) .getAndUpdateNextTrackID) (Session.mk [] w) 0 hw
  have hc : ∀ n, idCalls (List.replicate n .getAndUpdateNextTrackID) = n := by
    intro n
    induction n with
    | zero => rfl
    | succ n ih => rw [List.replicate_succ, idCalls, ih]
  rw [h1, hc, List.getElem?_map, List.getElem?_range (by decide)]
  rfl

end Mp4
