import Verif.Spec.LayoutFragments
import Verif.Lemmas.Versioned

/-! # Write/size/read facts of the movie fragment boxes -/

namespace Mp4
open R

theorem ite8 (c : Bool) (n : Nat) : (if c then 8 * n else 0) = 8 * (if c then n else 0) := by cases c <;> simp

theorem Tfhd.write_eq (b : Tfhd) : b.writeData = ⟨Layout.tfhd b, .ok (8 * b.getDataSize)⟩ := by
  simp [Tfhd.writeData, Layout.tfhd, Tfhd.getDataSize, wr]
  simp only [Nat.mul_add, ← ite8]
theorem Tfhd.size_eq (b : Tfhd) : (Layout.tfhd b).length = 8 * b.getDataSize := by
  simp [Layout.tfhd, Tfhd.getDataSize, ll]
  simp only [Nat.mul_add, ← ite8, Nat.reduceMul]; omega

theorem Tfhd.read_eq (b old : Tfhd) (d : List Byte) (rest : List Bool) :
    (Tfhd.readData old).run d (Layout.tfhd b ++ rest) = .ok ((8 * b.getDataSize, b.stored old), rest) := by
  simp [Tfhd.readData, Layout.tfhd, Tfhd.getDataSize, rd, Tfhd.stored]
  simp only [Nat.mul_add, ← ite8]

theorem vw_size (fb : FullBox) : vw fb + vw fb = 8 * (8 + if fb.version = 0#8 then 0 else 8) := by
  unfold vw; split <;> rfl

theorem TfraEntry.write_eq (b : Tfra) (h : b.LengthsOk) (e : TfraEntry) :
    TfraEntry.writeData (vw b.toFullBox) b.length_size_of_traf_num b.length_size_of_trun_num
      b.length_size_of_sample_num e = ⟨Layout.tfraEntry b e, .ok (8 * TfraEntry.getSize b.toFullBox
        b.length_size_of_traf_num b.length_size_of_trun_num b.length_size_of_sample_num)⟩ := by
  obtain ⟨h0, h1, h2⟩ := h
  have := vw_size b.toFullBox
  simp only [TfraEntry.writeData, Layout.tfraEntry, TfraEntry.getSize, wr]
  rw [write_uint_ubits _ _ (by omega), write_uint_ubits _ _ (by omega), write_uint_ubits _ _ (by omega)]
  simp only [wr, List.append_assoc]
  congr 2
  omega
theorem TfraEntry.read_eq (b : Tfra) (h : b.LengthsOk) (e : TfraEntry) (d : List Byte) (rest : List Bool)
    (he : e.Fits b) :
    (TfraEntry.readData (vw b.toFullBox) b.length_size_of_traf_num b.length_size_of_trun_num
      b.length_size_of_sample_num).run d (Layout.tfraEntry b e ++ rest) =
      .ok ((8 * TfraEntry.getSize b.toFullBox
        b.length_size_of_traf_num b.length_size_of_trun_num b.length_size_of_sample_num, e), rest) := by
  obtain ⟨h0, h1, h2⟩ := h
  obtain ⟨e0, e1, e2, e3, e4⟩ := he
  have := vw_size b.toFullBox
  simp only [TfraEntry.readData, Layout.tfraEntry, TfraEntry.getSize, rd, e0, e1]
  rw [rd_ubits _ _ _ _ _ _ (by omega) (by omega) e2, rd_ubits _ _ _ _ _ _ (by omega) (by omega) e3,
    rd_ubits _ _ _ _ _ _ (by omega) (by omega) e4]
  simp only [run_ret]
  congr 3
  omega

theorem sum_map_const {α : Type} (l : List α) (n : Nat) : (l.map fun _ => n).sum = n * l.length := by
  induction l with
  | nil => rfl
  | cons x l ih => simp [ih, Nat.mul_add, Nat.add_comm]

theorem Tfra.write_eq (b : Tfra) (h : b.LengthsOk) : b.writeData = ⟨Layout.tfra b, .ok (8 * b.getDataSize)⟩ := by
  have := wr_list _ (Layout.tfraEntry b) _ b.entries (fun e _ => TfraEntry.write_eq b h e)
  simp [Tfra.writeData, Layout.tfra, Tfra.getDataSize, wr, this, sum_map_const, Nat.mul_add, Nat.mul_assoc]
theorem Tfra.size_eq (b : Tfra) : (Layout.tfra b).length = 8 * b.getDataSize := by
  have := ll_list (Layout.tfraEntry b) (8 * TfraEntry.getSize b.toFullBox
        b.length_size_of_traf_num b.length_size_of_trun_num b.length_size_of_sample_num) b.entries
        (fun e _ => by
          have := vw_size b.toFullBox
          simp only [Layout.tfraEntry, ll, TfraEntry.getSize]; omega)
  simp only [Layout.tfra, Tfra.getDataSize, sum_map_const, ll, Nat.reduceLT, Nat.mul_add, ← Nat.mul_assoc, this]
theorem Tfra.read_eq (b : Tfra) (h : b.LengthsOk) (d : List Byte) (rest : List Bool)
    (hr : b.reserved.toNat < 2 ^ 26) (hn : b.entries.length < 2 ^ 32) (he : ∀ e ∈ b.entries, e.Fits b) :
    Tfra.readData.run d (Layout.tfra b ++ rest) = .ok ((8 * b.getDataSize, b), rest) := by
  have h' := h
  obtain ⟨h0, h1, h2⟩ := h'
  simp only [Tfra.readData, Layout.tfra, rd, Nat.reduceLT, Nat.reduceLeDiff, hr, Nat.reducePow, h0, h1, h2]
  rw [rd_list _ (Layout.tfraEntry b) _ b.entries _ _ d rest (by simp; omega)
    (fun e hm r => TfraEntry.read_eq b h e d r (he e hm))]
  simp [run_ret, Tfra.getDataSize, sum_map_const, Nat.mul_add, Nat.mul_assoc]

theorem TrunEntry.write_eq (fb : FullBox) (e : TrunEntry) :
    TrunEntry.writeData fb e = ⟨Layout.trunEntry fb e, .ok (8 * TrunEntry.getSize fb)⟩ := by
  simp [TrunEntry.writeData, Layout.trunEntry, TrunEntry.getSize, wr]
  simp only [Nat.mul_add, ← ite8]
theorem TrunEntry.read_eq (fb : FullBox) (e : TrunEntry) (d : List Byte) (rest : List Bool) (he : e.Fits fb) :
    (TrunEntry.readData fb).run d (Layout.trunEntry fb e ++ rest) = .ok ((8 * TrunEntry.getSize fb, e), rest) := by
  obtain ⟨e0, e1, e2, e3, e4⟩ := he
  simp [TrunEntry.readData, Layout.trunEntry, TrunEntry.getSize, rd, e0]
  simp only [Nat.mul_add, ← ite8, true_and]
  obtain ⟨a, b, c, dd⟩ := e
  simp only [TrunEntry.mk.injEq]
  simp only at e1 e2 e3 e4
  refine ⟨?_, ?_, ?_, ?_⟩ <;> split <;> simp_all
theorem Trun.write_eq (b : Trun) : b.writeData = ⟨Layout.trun b, .ok (8 * b.getDataSize)⟩ := by
  have := wr_list _ (Layout.trunEntry b.toFullBox) _ b.entries (fun e _ => TrunEntry.write_eq b.toFullBox e)
  simp [Trun.writeData, Layout.trun, Trun.getDataSize, wr, this, sum_map_const]
  simp only [Nat.mul_add, ← ite8, Nat.mul_assoc]
theorem Trun.size_eq (b : Trun) : (Layout.trun b).length = 8 * b.getDataSize := by
  have := ll_list (Layout.trunEntry b.toFullBox) (8 * TrunEntry.getSize b.toFullBox) b.entries
        (fun e _ => by simp [Layout.trunEntry, ll, TrunEntry.getSize, Nat.mul_add, ← ite8]; omega)
  simp only [Layout.trun, Trun.getDataSize, sum_map_const, ll, Nat.mul_add, ← Nat.mul_assoc, this, ← ite8]

theorem Trun.read_eq (b old : Trun) (d : List Byte) (rest : List Bool) (hn : b.entries.length < 2 ^ 32)
    (he : ∀ e ∈ b.entries, e.Fits b.toFullBox) :
    (Trun.readData old).run d (Layout.trun b ++ rest) = .ok ((8 * b.getDataSize, b.stored old), rest) := by
  simp only [Trun.readData, Layout.trun, rd, Nat.reduceLT, Nat.reduceLeDiff]
  rw [rd_list _ (Layout.trunEntry b.toFullBox) _ b.entries _ _ d rest (by simp; omega)
    (fun e hm r => TrunEntry.read_eq _ e d r (he e hm))]
  simp [run_ret, Trun.getDataSize, sum_map_const, Trun.stored]
  simp only [Nat.mul_add, ← ite8, Nat.mul_assoc]

end Mp4
