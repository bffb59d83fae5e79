import Verif.Lemmas.FaultsSession

/-! # Nothing is stored beyond the end of a full disk -/

namespace Mp4

/-- A property of streams that is kept by everything that can be done with a stream. -/
structure KeptBy (dev : Device) (P : FStream → Prop) : Prop where
  put : ∀ s b, P s → P (s.sputc dev b).2
  seek : ∀ s o, P s → P (s.seekp dev o)
  bad : ∀ s, P s → P { s with good := false }

namespace KeptBy
variable {dev : Device} {P : FStream → Prop} (h : KeptBy dev P)
include h

theorem copyOut (l : List Byte) : ∀ s, P s → P (s.copyOut dev l) := by
  induction l with
  | nil => intro s hs; exact hs
  | cons b l ih =>
    intro s hs
    rw [FStream.copyOut]
    have := h.put s b hs
    rcases hr : s.sputc dev b with ⟨ok, s'⟩
    rw [hr] at this
    cases ok with
    | true => exact ih s' this
    | false => exact this

theorem writeByte (s : FStream) (b : Byte) (hs : P s) : P (s.writeByte dev b) := by
  unfold FStream.writeByte
  split
  · have := h.put s b hs
    rcases hr : s.sputc dev b with ⟨ok, s'⟩
    rw [hr] at this
    cases ok with
    | true => exact this
    | false => exact h.bad s' this
  · exact hs

theorem push (bs : List Bool) : ∀ w : FWriter, P w.s → P (FWriter.push dev bs w).2.s := by
  induction bs with
  | nil => intro w hw; exact hw
  | cons b bs ih =>
    intro w hw
    rw [FWriter.push]
    have hb : P (w.writeBit dev b).2.s := by
      unfold FWriter.writeBit
      dsimp only
      generalize (if b then w.octet ||| (1#8 <<< (7 - w.width)) else w.octet) = o
      split
      · split
        · exact h.writeByte _ _ hw
        · exact h.writeByte _ _ hw
      · exact hw
    rcases hr : w.writeBit dev b with ⟨ok, w'⟩
    rw [hr] at hb
    cases ok with
    | true => exact ih w' hb
    | false => exact hb

theorem runF {α : Type} (m : W α) (s : FStream) (hs : P s) : P (m.runF dev s).2 := by
  unfold W.runF
  have := h.push m.out ⟨s, 0, 0⟩ hs
  rcases hr : FWriter.push dev m.out ⟨s, 0, 0⟩ with ⟨ok, w⟩
  rw [hr] at this
  cases ok <;> exact this

theorem header (hd : BoxHeader) (s : FStream) (hs : P s) : P (hd.writeF dev s).2.2 := by
  unfold BoxHeader.writeF
  dsimp only
  split
  · exact h.copyOut _ _ (h.seek _ _ hs)
  · exact h.seek _ _ hs

theorem box (b : Box) (s : FStream) (hs : P s) : P (b.writeF dev s).2.2 := by
  unfold Box.writeF
  split
  · exact hs
  · rename_i hd _
    have := h.header hd s hs
    rcases hr : hd.writeF dev s with ⟨r, hd', s'⟩
    rw [hr] at this
    cases r with
    | error e => exact this
    | ok n => exact h.runF _ _ this

mutual
theorem tree : (t : Tree) → (s : FStream) → P s → P (t.writeF dev s).2.2
  | .node b p ls, s, hs => by
    rw [Tree.writeF]
    have hb := h.box b s hs
    dsimp only
    cases (b.writeF dev s).1 with
    | error e => exact hb
    | ok n => exact treeList ls _ hb
theorem treeList : (ts : List Tree) → (s : FStream) → P s → P (Tree.writeListF dev ts s).2.2
  | [], s, hs => hs
  | t :: ts, s, hs => by
    rw [Tree.writeListF]
    have hb := tree t s hs
    dsimp only
    cases (t.writeF dev s).1 with
    | error e => exact hb
    | ok n => exact treeList ts _ hb
end

theorem writeTree {t t' : Tree} {s s' : FStream} (hs : P s) (hw : writeTreeF dev t s = .ok (t', s')) : P s' := by
  unfold writeTreeF at hw
  have := h.tree t s hs
  rcases hr : t.writeF dev s with ⟨r, u, s2⟩
  rw [hr] at this hw
  cases r with
  | error e => cases hw
  | ok n => cases hw; exact this

theorem writeFtyp {f : Ftyp} {s s' : FStream} {n : Nat} (hs : P s) (hw : writeFtypF dev f s = .ok (n, s')) : P s' := by
  unfold writeFtypF at hw
  split at hw
  · cases hw
  · split at hw
    · cases hw
    · rename_i h1
      split at hw
      · cases hw
      · cases hw; exact h.writeTree hs h1

theorem checkSeek {s s' : FStream} {o : Nat} {what : String} (hs : P s) (hw : (s.seekp dev o).check what = .ok s') : P s' := by
  unfold FStream.check at hw
  split at hw
  · cases hw; exact h.seek _ _ hs
  · cases hw

theorem simpleSession {os : OStream} {f : Ftyp} {ts : BitVec 32} {dur now : BitVec 64} {calls : List Call} {s : Session FaultySimple}
    (hs : P { os }) (hw : FaultySimple.session dev os f ts dur now calls = .ok s) : P s.writer.s ∧ s.writer.dev = dev := by
  unfold FaultySimple.session at hw
  split at hw
  · cases hw
  · rename_i w h1
    cases hw
    have h2 : P w.s ∧ w.dev = dev := by
      unfold FaultySimple.writeFtypBox at h1
      split at h1
      · cases h1
      · rename_i hft
        split at h1
        · cases h1
        · rename_i hsk
          cases h1
          exact ⟨h.checkSeek (h.writeFtyp hs hft) hsk, rfl⟩
    obtain ⟨es, -, he2, -⟩ := Session.calls_reached w calls ⟨[], w⟩ [] [] .start ⟨rfl, by simp⟩
    refine Reached.writer_inv idStep (fun x _ => P x.s ∧ x.dev = dev) ?_ ?_ he2 (L0 := []) h2
    · intro x L d hx
      refine ⟨?_, hx.2⟩
      show P (x.s.copyOut x.dev d)
      rw [hx.2]
      exact h.copyOut d _ hx.1
    · intro x x' L hx hr
      subst hr
      exact hx

theorem simpleFinish {s : Session FaultySimple} {x : FaultySimple} (hs : P s.writer.s) (hd : s.writer.dev = dev)
    (hw : FaultySimple.finish s = .ok x) : P x.s := by
  unfold FaultySimple.finish at hw
  split at hw
  · cases hw
  · rename_i y h1
    have h2 : P y.s ∧ y.dev = dev := by
      unfold FaultySimple.writeFreeBoxAndMdatHeader at h1
      dsimp only at h1
      rw [hd] at h1
      split at h1
      · cases h1
      · split at h1
        · cases h1
        · rename_i hsk
          have hs1 := h.checkSeek hs hsk
          have hck : ∀ {a b : FStream} {what}, P a → a.check what = .ok b → P b := by
            intro a b what ha hb
            unfold FStream.check at hb
            split at hb
            · cases hb; exact ha
            · cases hb
          have hhd : ∀ {a b : FStream} {hd hd' : BoxHeader} {n}, P a → hd.writeF dev a = (.ok n, hd', b) → P b := by
            intro a b hd hd' n ha hb
            have := h.header hd a ha
            rw [hb] at this
            exact this
          split at h1
          · split at h1
            · cases h1
            · rename_i hh
              split at h1
              · cases h1
              · rename_i hc
                cases h1
                exact ⟨hck (hhd hs1 hh) hc, rfl⟩
          · split at h1
            · cases h1
            · split at h1
              · cases h1
              · rename_i hwt
                have hs2 := h.writeTree hs1 hwt
                split at h1
                · cases h1
                · rename_i hc
                  have hs3 := hck hs2 hc
                  split at h1
                  · cases h1
                  · split at h1
                    · cases h1
                    · rename_i hh
                      split at h1
                      · cases h1
                      · rename_i hc'
                        cases h1
                        exact ⟨hck (hhd hs3 hh) hc', rfl⟩
    unfold FaultySimple.writeMoovBox at hw
    rw [h2.2] at hw
    split at hw
    · cases hw
    · split at hw
      · cases hw
      · rename_i hwt
        cases hw
        exact h.writeTree h2.1 hwt

end KeptBy

/-- A full disk stores nothing beyond its end. -/
theorem full_kept (n : Nat) : KeptBy (Device.full n) (fun s => s.os.data.length ≤ n) where
  put s b hs := by
    unfold FStream.sputc
    split
    · rename_i hp
      have hp : s.os.pos < n := by simpa [Device.full] using hp
      dsimp only
      rw [OStream.write_data_length _ _ (by simp)]
      simp only [List.length_singleton]
      omega
    · exact hs
  seek s o hs := by
    unfold FStream.seekp
    split
    · split
      · exact hs
      · exact hs
    · exact hs
  bad s hs := hs

end Mp4
