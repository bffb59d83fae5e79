import Verif.Spec.Tree
import Verif.Lemmas.Box
import Verif.Props.Header

/-! # Lemmas about box trees -/

namespace Mp4
namespace Tree

theorem headerSize_cases (n : Nat) : Spec.headerSize n = 8 ∨ Spec.headerSize n = 16 := by
  unfold Spec.headerSize; split <;> simp

theorem totalList_cons (t : Tree) (ts : List Tree) : totalList (t :: ts) = t.total + totalList ts := by
  rw [totalList, total]

mutual
theorem All.mono {P Q : Box → Prop} (h : ∀ b, P b → Q b) : ∀ t : Tree, t.All P → t.All Q
  | .node b _ ls, hp => ⟨h b hp.1, AllList.mono h ls hp.2⟩
theorem AllList.mono {P Q : Box → Prop} (h : ∀ b, P b → Q b) : ∀ ts : List Tree, AllList P ts → AllList Q ts
  | [], _ => trivial
  | t :: ts, hp => ⟨All.mono h t hp.1, AllList.mono h ts hp.2⟩
end

mutual
theorem erase_inner : ∀ t : Tree, t.erase.inner = t.inner
  | .node b p ls => by rw [erase, inner, inner, eraseList_total ls]
theorem eraseList_total : ∀ ts : List Tree, totalList (eraseList ts) = totalList ts
  | [] => rfl
  | t :: ts => by rw [eraseList, totalList, totalList, erase_inner t, eraseList_total ts]
end

theorem erase_total (t : Tree) : t.erase.total = t.total := by rw [total, total, erase_inner]

mutual
theorem erase_place : ∀ (t : Tree) (o : Nat), t.erase.place o = t.place o
  | .node b p ls, o => by
    have h1 := erase_inner (.node b p ls)
    have h2 := erase_total (.node b p ls)
    rw [erase] at h1 h2 ⊢
    rw [place, place, h1, h2, eraseList_place ls]
theorem eraseList_place : ∀ (ts : List Tree) (o : Nat), placeList (eraseList ts) o = placeList ts o
  | [], _ => rfl
  | t :: ts, o => by rw [eraseList, placeList, placeList, erase_place t, erase_total, eraseList_place ts]
end

mutual
theorem place_erase : ∀ (t : Tree) (o : Nat), (t.place o).erase = t.erase
  | .node b p ls, o => by rw [place, erase, erase, placeList_erase ls]
theorem placeList_erase : ∀ (ts : List Tree) (o : Nat), eraseList (placeList ts o) = eraseList ts
  | [], _ => rfl
  | t :: ts, o => by rw [placeList, eraseList, eraseList, place_erase t, placeList_erase ts]
end

theorem place_total (t : Tree) (o : Nat) : (t.place o).total = t.total := by
  rw [← erase_total, place_erase, erase_total]

theorem setOffset_header (b : Box) (hb : b.OwnHeader) (o n : Nat) (hn : n + Spec.headerSize n < 2 ^ 64) :
    b.setOffsetAndDataSize o n = { b with
      header := some ⟨o, n + Spec.headerSize n, Spec.headerSize n, b.type, false⟩ } := by
  have ht : b.theHeader.type = b.type ∧ b.theHeader.extendToEof = false := by
    unfold Box.theHeader
    cases hh : b.header with
    | none => exact ⟨rfl, rfl⟩
    | some h => exact hb h hh
  unfold Box.setOffsetAndDataSize
  by_cases hc : 2 ^ 32 ≤ n + 8
  · have hs : Spec.headerSize n = 16 := by rw [Spec.headerSize, if_neg (by omega)]
    rw [hs] at hn ⊢
    rw [setOffsetAndDataSize_large _ o n hn hc, Nat.add_comm n 16, ← ht.1, ← ht.2]
  · have hs : Spec.headerSize n = 8 := by rw [Spec.headerSize, if_pos (by omega)]
    rw [hs] at hn ⊢
    rw [setOffsetAndDataSize_small _ o n (by omega), Nat.add_comm n 8, ← ht.1, ← ht.2]

theorem setOffset_own (b : Box) (hb : b.OwnHeader) (o n : Nat) (hn : n + Spec.headerSize n < 2 ^ 64) :
    (b.setOffsetAndDataSize o n).OwnHeader := by
  rw [setOffset_header b hb o n hn]
  intro h hh
  cases hh
  exact ⟨rfl, rfl⟩

mutual
theorem erase_depth : ∀ t : Tree, t.erase.depth = t.depth
  | .node b p ls => by rw [erase, depth, depth, eraseList_depth ls]
theorem eraseList_depth : ∀ ts : List Tree, depthList (eraseList ts) = depthList ts
  | [] => rfl
  | t :: ts => by rw [eraseList, depthList, depthList, erase_depth t, eraseList_depth ts]
end

/-- What one call of `adjust` is known to do. -/
def Good (f : Nat) : Prop := ∀ (t : Tree) (o : Nat), 2 * t.depth ≤ f → t.All Box.OwnHeader → t.total < 2 ^ 64 →
  ∃ t', adjust f t o = some (t.total, t') ∧ t'.erase = t.erase ∧ t'.All Box.OwnHeader ∧
    (o + t.total < 2 ^ 64 → t' = t.place o)

theorem adjustList_good (f : Nat) (hf : Good f) (ls : List Tree) (base sz : Nat) (hd : 2 * depthList ls ≤ f)
    (ha : AllList Box.OwnHeader ls) (hs : sz + totalList ls < 2 ^ 64) :
    ∃ ls', adjustList (adjust f) base ls sz = some (sz + totalList ls, ls') ∧ eraseList ls' = eraseList ls ∧
      AllList Box.OwnHeader ls' ∧ (base + sz + totalList ls < 2 ^ 64 → ls' = placeList ls (base + sz)) := by
  induction ls generalizing sz with
  | nil => exact ⟨[], rfl, rfl, trivial, fun _ => rfl⟩
  | cons t ts ih =>
    rw [totalList_cons] at hs
    rw [depthList] at hd
    obtain ⟨t', h1, h2, h3, h4⟩ := hf t (u64 (base + sz)) (by omega) ha.1 (by omega)
    have hu : u64 (sz + t.total) = sz + t.total := Nat.mod_eq_of_lt (by omega)
    obtain ⟨ts', k1, k2, k3, k4⟩ := ih (sz + t.total) (by omega) ha.2 (by omega)
    refine ⟨t' :: ts', ?_, ?_, ⟨h3, k3⟩, ?_⟩
    · simp only [adjustList, h1, hu, k1, totalList_cons, Nat.add_assoc]
    · rw [eraseList, eraseList, h2, k2]
    · intro hb
      rw [totalList_cons] at hb
      have hu2 : u64 (base + sz) = base + sz := Nat.mod_eq_of_lt (by omega)
      rw [hu2] at h4
      rw [placeList, h4 (by omega), k4 (by omega), Nat.add_assoc base]

theorem total_node (b : Box) (p : List BoxType) (ls : List Tree) :
    (Tree.node b p ls).total = b.data.getDataSize + totalList ls + Spec.headerSize (b.data.getDataSize + totalList ls) := by
  rw [total, inner]

/-- One level of `adjust` when the header already has its final length. -/
theorem adjust_settled (f : Nat) (hf : Good f) (b : Box) (p : List BoxType) (ls : List Tree) (o : Nat)
    (hd : 2 * depthList ls ≤ f) (hb : b.OwnHeader) (ha : AllList Box.OwnHeader ls)
    (ht : (Tree.node b p ls).total < 2 ^ 64)
    (hh : b.getHeaderSize = Spec.headerSize (b.data.getDataSize + totalList ls)) :
    ∃ t', adjust (f + 1) (.node b p ls) o = some ((Tree.node b p ls).total, t') ∧ t'.erase = (Tree.node b p ls).erase ∧
      t'.All Box.OwnHeader ∧ (o + (Tree.node b p ls).total < 2 ^ 64 → t' = (Tree.node b p ls).place o) := by
  rw [total_node] at ht
  obtain ⟨ls', k1, k2, k3, k4⟩ := adjustList_good f hf ls (u64 (o + b.getHeaderSize + b.data.getDataSize)) 0 hd ha (by omega)
  rw [Nat.zero_add] at k1
  have hu : u64 (b.data.getDataSize + totalList ls) = b.data.getDataSize + totalList ls := Nat.mod_eq_of_lt (by omega)
  have hset := setOffset_header b hb o (b.data.getDataSize + totalList ls) ht
  have hown := setOffset_own b hb o (b.data.getDataSize + totalList ls) ht
  refine ⟨.node (b.setOffsetAndDataSize o (b.data.getDataSize + totalList ls)) p ls', ?_, ?_, ⟨hown, k3⟩, ?_⟩
  · rw [adjust]
    simp only [k1, hu]
    have hgs : (b.setOffsetAndDataSize o (b.data.getDataSize + totalList ls)).getHeaderSize
        = Spec.headerSize (b.data.getDataSize + totalList ls) := by rw [hset]; rfl
    rw [if_neg (by rw [hgs, hh]; simp), total_node]
    congr 2
    rw [hset]; rfl
  · rw [erase, erase, k2, hset]
  · intro hlt
    rw [total_node] at hlt
    have hu2 : u64 (o + b.getHeaderSize + b.data.getDataSize) = o + b.getHeaderSize + b.data.getDataSize :=
      Nat.mod_eq_of_lt (by omega)
    rw [hu2, Nat.add_zero] at k4
    rw [place, hset, k4 (by omega), total_node, inner, hh]

theorem good (f : Nat) : Good f := by
  induction f using Nat.strongRecOn with
  | ind f ih =>
    intro t o hd ha ht
    obtain ⟨b, p, ls⟩ := t
    rw [depth] at hd
    obtain ⟨f, rfl⟩ : ∃ k, f = k + 2 := ⟨f - 2, by omega⟩
    by_cases hh : b.getHeaderSize = Spec.headerSize (b.data.getDataSize + totalList ls)
    · exact adjust_settled (f + 1) (ih (f + 1) (by omega)) b p ls o (by omega) ha.1 ha.2 ht hh
    · have ht' := ht
      rw [total_node] at ht'
      obtain ⟨ls', k1, k2, k3, -⟩ := adjustList_good (f + 1) (ih (f + 1) (by omega)) ls
        (u64 (o + b.getHeaderSize + b.data.getDataSize)) 0 (by omega) ha.2 (by omega)
      rw [Nat.zero_add] at k1
      have hu : u64 (b.data.getDataSize + totalList ls) = b.data.getDataSize + totalList ls := Nat.mod_eq_of_lt (by omega)
      have hset := setOffset_header b ha.1 o (b.data.getDataSize + totalList ls) ht'
      have hown := setOffset_own b ha.1 o (b.data.getDataSize + totalList ls) ht'
      have hgs : (b.setOffsetAndDataSize o (b.data.getDataSize + totalList ls)).getHeaderSize
          = Spec.headerSize (b.data.getDataSize + totalList ls) := by rw [hset]; rfl
      have hdata : (b.setOffsetAndDataSize o (b.data.getDataSize + totalList ls)).data = b.data := by rw [hset]
      have htl : totalList ls' = totalList ls := by rw [← eraseList_total ls', k2, eraseList_total]
      have hdl : depthList ls' = depthList ls := by rw [← eraseList_depth ls', k2, eraseList_depth]
      have her : (Tree.node (b.setOffsetAndDataSize o (b.data.getDataSize + totalList ls)) p ls').erase
          = (Tree.node b p ls).erase := by rw [erase, erase, k2, hset]
      have htot : (Tree.node (b.setOffsetAndDataSize o (b.data.getDataSize + totalList ls)) p ls').total
          = (Tree.node b p ls).total := by rw [← erase_total, her, erase_total]
      obtain ⟨t', m1, m2, m3, m4⟩ := adjust_settled f (ih f (by omega))
        (b.setOffsetAndDataSize o (b.data.getDataSize + totalList ls)) p ls' o (by omega) hown k3 (by rw [htot]; exact ht)
        (by rw [hgs, hdata, htl])
      refine ⟨t', ?_, by rw [m2, her], m3, ?_⟩
      · rw [adjust]
        simp only [k1, hu]
        rw [if_pos (by rw [hgs]; exact hh), m1]
        simp only [Option.some.injEq, Prod.mk.injEq, and_true]
        -- the size reported is that of the header set in the second round
        have key : ∀ n t'', adjust (f + 1) (.node (b.setOffsetAndDataSize o (b.data.getDataSize + totalList ls)) p ls') o
            = some (n, t'') → t''.box.theHeader.size = n := by
          intro n t'' he
          obtain ⟨ls2, q1, -, -, -⟩ := adjustList_good f (ih f (by omega)) ls'
            (u64 (o + (b.setOffsetAndDataSize o (b.data.getDataSize + totalList ls)).getHeaderSize +
              (b.setOffsetAndDataSize o (b.data.getDataSize + totalList ls)).data.getDataSize)) 0 (by omega) k3
            (by rw [htl]; omega)
          rw [adjust] at he
          simp only [q1] at he
          rw [Nat.zero_add, htl, hdata, hu] at he
          rw [if_neg] at he
          · cases he; rfl
          · rw [hgs, setOffset_header _ hown o _ ht']
            simp [Box.getHeaderSize, Box.theHeader]
        rw [key _ _ m1, htot]
      · intro hlt
        rw [m4 (by rw [htot]; exact hlt), ← erase_place, her, erase_place]

/-! ### writing -/

theorem header_write (o n : Nat) (t : BoxType) (os : OStream) (hn : n + Spec.headerSize n < 2 ^ 64) :
    BoxHeader.write ⟨o, n + Spec.headerSize n, Spec.headerSize n, t, false⟩ os
      = (n + Spec.headerSize n, ⟨o, n + Spec.headerSize n, Spec.headerSize n, t, false⟩,
        (os.seekp o).write (Spec.boxHeader (n + Spec.headerSize n) (BoxType.bytes t))) := by
  have hb : BoxHeader.headerBytes ⟨o, n + Spec.headerSize n, Spec.headerSize n, t, false⟩
      = Spec.boxHeader (n + Spec.headerSize n) (BoxType.bytes t) := by
    by_cases hc : n + 8 < 2 ^ 32
    · have hs : Spec.headerSize n = 8 := by rw [Spec.headerSize, if_pos hc]
      rw [hs, Spec.boxHeader, if_pos hc, BoxHeader.headerBytes, if_neg (by simp),
        if_pos (by simp [LARGE_HEADER_SIZE, UINT32_MAX]; omega), uint32_to_be_beBytes]
    · have hs : Spec.headerSize n = 16 := by rw [Spec.headerSize, if_neg hc]
      rw [hs, Spec.boxHeader, if_neg (by omega), BoxHeader.headerBytes, if_neg (by simp),
        if_neg (by simp [LARGE_HEADER_SIZE]), uint64_to_be_beBytes]
      rfl
  have hl : (Spec.boxHeader (n + Spec.headerSize n) (BoxType.bytes t)).length = Spec.headerSize n := by
    by_cases hc : n + 8 < 2 ^ 32
    · have hs : Spec.headerSize n = 8 := by rw [Spec.headerSize, if_pos hc]
      rw [hs, Spec.boxHeader, if_pos hc]; simp [beBytes_length, BoxType.bytes]
    · have hs : Spec.headerSize n = 16 := by rw [Spec.headerSize, if_neg hc]
      rw [hs, Spec.boxHeader, if_neg (by omega)]; simp [beBytes_length, BoxType.bytes]
  have ha : BoxHeader.afterWrite ⟨o, n + Spec.headerSize n, Spec.headerSize n, t, false⟩
      = ⟨o, n + Spec.headerSize n, Spec.headerSize n, t, false⟩ := by
    rw [BoxHeader.afterWrite, hb, hl]
    have : u64 (n + Spec.headerSize n + sub64 (Spec.headerSize n) (Spec.headerSize n)) = n + Spec.headerSize n := by
      simp only [u64, sub64]; omega
    simp only [this]
  rw [BoxHeader.write, ha, hb]

theorem boxHeader_length (n : Nat) (t : BoxType) :
    (Spec.boxHeader (n + Spec.headerSize n) (BoxType.bytes t)).length = Spec.headerSize n := by
  by_cases hc : n + 8 < 2 ^ 32
  · have hs : Spec.headerSize n = 8 := by rw [Spec.headerSize, if_pos hc]
    rw [hs, Spec.boxHeader, if_pos hc]; simp [beBytes_length, BoxType.bytes]
  · have hs : Spec.headerSize n = 16 := by rw [Spec.headerSize, if_neg hc]
    rw [hs, Spec.boxHeader, if_neg (by omega)]; simp [beBytes_length, BoxType.bytes]

/-- The content can be written, and the language of a `mdhd` box is in its proper range. -/
def Encodable (b : Box) : Prop := b.data.Writable ∧ b.data.LanguageOk

theorem payload_length (b : Box) (h : Encodable b) : (Layout.payload b.data).length = b.data.getDataSize := by
  have hs := (BoxData.write_res b.data h.1).2
  have hw := BoxData.write_eq b.data h.1 h.2
  rw [Layout.payload, toBytes_length]
  rw [hw] at hs
  simp only at hs
  omega

theorem box_write (b : Box) (o n : Nat) (os : OStream) (h : Encodable b)
    (hh : b.header = some ⟨o, n + Spec.headerSize n, Spec.headerSize n, b.type, false⟩)
    (hn : n + Spec.headerSize n < 2 ^ 64) :
    b.write os = (.ok (n + Spec.headerSize n + 8 * b.data.getDataSize), b,
      (os.seekp o).write (Spec.boxHeader (n + Spec.headerSize n) (BoxType.bytes b.type) ++ Layout.payload b.data)) := by
  obtain ⟨h1, h2⟩ := BoxData.write_res b.data h.1
  have hw := BoxData.write_eq b.data h.1 h.2
  rw [Box.write, hh]
  simp only [header_write o n b.type os hn, W.runC]
  rw [h1, OStream.write_append]
  obtain ⟨-, hp, -⟩ := Writer.push_spec (Writer.new ((os.seekp o).write
    (Spec.boxHeader (n + Spec.headerSize n) (BoxType.bytes b.type)))) (Writer.new_inv _) b.data.writeData.out
  rw [hp, Writer.new_pending, List.nil_append, hw]
  rw [← hh]
  rfl

mutual
theorem encode_length : ∀ t : Tree, t.All Encodable → t.encode.length = t.total
  | .node b p ls, h => by
    have h1 : (Tree.node b p ls).total = (Tree.node b p ls).inner + Spec.headerSize (Tree.node b p ls).inner := rfl
    rw [encode, List.length_append, List.length_append, encodeList_length ls h.2, payload_length b h.1, h1,
      boxHeader_length, inner]
    omega
theorem encodeList_length : ∀ ts : List Tree, AllList Encodable ts → (encodeList ts).length = totalList ts
  | [], _ => rfl
  | t :: ts, h => by rw [encodeList, List.length_append, encode_length t h.1, encodeList_length ts h.2, totalList_cons]
end

theorem seekp_pos (os : OStream) : os.seekp os.pos = os := rfl

theorem seekp_of_pos {os : OStream} {o : Nat} (h : os.pos = o) : os.seekp o = os := by subst h; rfl

mutual
theorem place_write : ∀ (t : Tree) (o : Nat) (os : OStream), t.All Encodable → t.total < 2 ^ 64 →
    (t.place o).write os = (.ok (), t.place o, (os.seekp o).write t.encode)
  | .node b p ls, o, os, h, ht => by
    have h1 : (Tree.node b p ls).total = (Tree.node b p ls).inner + Spec.headerSize (Tree.node b p ls).inner := rfl
    rw [h1] at ht
    rw [place, write]
    have hw := box_write { b with header := some ⟨o, (Tree.node b p ls).inner + Spec.headerSize (Tree.node b p ls).inner,
      Spec.headerSize (Tree.node b p ls).inner, b.type, false⟩ } o (Tree.node b p ls).inner os h.1 rfl ht
    rw [h1]
    simp only [hw]
    have hin : (Tree.node b p ls).inner = b.data.getDataSize + totalList ls := by rw [inner]
    rw [placeList_write ls _ _ h.2 (by rw [hin] at ht; omega)]
    · rw [encode, h1]; simp only [OStream.write_append]
    · rw [OStream.write_pos, List.length_append, boxHeader_length, payload_length b h.1]
      simp only [OStream.seekp]
      omega
theorem placeList_write : ∀ (ts : List Tree) (o : Nat) (os : OStream), AllList Encodable ts → totalList ts < 2 ^ 64 →
    os.pos = o → writeList (placeList ts o) os = (.ok (), placeList ts o, os.write (encodeList ts))
  | [], _, os, _, _, _ => by rw [placeList, writeList, encodeList]; rfl
  | t :: ts, o, os, h, ht, hp => by
    rw [totalList_cons] at ht
    rw [placeList, writeList, place_write t o os h.1 (by omega), seekp_of_pos hp]
    simp only
    rw [placeList_write ts (o + t.total) (os.write t.encode) h.2 (by omega)
      (by rw [OStream.write_pos, encode_length t h.1, hp]), encodeList, OStream.write_append]
end

end Tree
end Mp4
