import Verif.Spec.LayoutFixed

/-! # Write/size/read facts of the fixed boxes -/

namespace Mp4
open R

theorem Btrt.write_eq (b : Btrt) : b.writeData = ⟨Layout.btrt b, .ok (8 * b.getDataSize)⟩ := by
  simp [Btrt.writeData, Layout.btrt, Btrt.getDataSize, wr]
theorem Btrt.size_eq (b : Btrt) : (Layout.btrt b).length = 8 * b.getDataSize := by
  simp [Layout.btrt, Btrt.getDataSize, ll]
theorem Btrt.read_eq (b : Btrt) (d : List Byte) (rest : List Bool) :
    Btrt.readData.run d (Layout.btrt b ++ rest) = .ok ((8 * b.getDataSize, b), rest) := by
  simp [Btrt.readData, Layout.btrt, Btrt.getDataSize, rd]

theorem Pasp.write_eq (b : Pasp) : b.writeData = ⟨Layout.pasp b, .ok (8 * b.getDataSize)⟩ := by
  simp [Pasp.writeData, Layout.pasp, Pasp.getDataSize, wr]
theorem Pasp.size_eq (b : Pasp) : (Layout.pasp b).length = 8 * b.getDataSize := by
  simp [Layout.pasp, Pasp.getDataSize, ll]
theorem Pasp.read_eq (b : Pasp) (d : List Byte) (rest : List Bool) :
    Pasp.readData.run d (Layout.pasp b ++ rest) = .ok ((8 * b.getDataSize, b), rest) := by
  simp [Pasp.readData, Layout.pasp, Pasp.getDataSize, rd]

theorem Fiel.write_eq (b : Fiel) : b.writeData = ⟨Layout.fiel b, .ok (8 * b.getDataSize)⟩ := by
  simp [Fiel.writeData, Layout.fiel, Fiel.getDataSize, wr]
theorem Fiel.size_eq (b : Fiel) : (Layout.fiel b).length = 8 * b.getDataSize := by
  simp [Layout.fiel, Fiel.getDataSize, ll]
theorem Fiel.read_eq (b : Fiel) (d : List Byte) (rest : List Bool) :
    Fiel.readData.run d (Layout.fiel b ++ rest) = .ok ((8 * b.getDataSize, b), rest) := by
  simp [Fiel.readData, Layout.fiel, Fiel.getDataSize, rd]

theorem Smhd.write_eq (b : Smhd) : b.writeData = ⟨Layout.smhd b, .ok (8 * b.getDataSize)⟩ := by
  simp [Smhd.writeData, Layout.smhd, Smhd.getDataSize, wr]
theorem Smhd.size_eq (b : Smhd) : (Layout.smhd b).length = 8 * b.getDataSize := by
  simp [Layout.smhd, Smhd.getDataSize, ll]
theorem Smhd.read_eq (b : Smhd) (d : List Byte) (rest : List Bool) :
    Smhd.readData.run d (Layout.smhd b ++ rest) = .ok ((8 * b.getDataSize, b), rest) := by
  simp [Smhd.readData, Layout.smhd, Smhd.getDataSize, rd]

theorem Vmhd.write_eq (b : Vmhd) : b.writeData = ⟨Layout.vmhd b, .ok (8 * b.getDataSize)⟩ := by
  simp [Vmhd.writeData, Layout.vmhd, Vmhd.getDataSize, wr]
theorem Vmhd.size_eq (b : Vmhd) : (Layout.vmhd b).length = 8 * b.getDataSize := by
  simp [Layout.vmhd, Vmhd.getDataSize, ll]
theorem Vmhd.read_eq (b : Vmhd) (d : List Byte) (rest : List Bool) :
    Vmhd.readData.run d (Layout.vmhd b ++ rest) = .ok ((8 * b.getDataSize, b), rest) := by
  simp [Vmhd.readData, Layout.vmhd, Vmhd.getDataSize, rd]

theorem Mfhd.write_eq (b : Mfhd) : b.writeData = ⟨Layout.mfhd b, .ok (8 * b.getDataSize)⟩ := by
  simp [Mfhd.writeData, Layout.mfhd, Mfhd.getDataSize, wr]
theorem Mfhd.size_eq (b : Mfhd) : (Layout.mfhd b).length = 8 * b.getDataSize := by
  simp [Layout.mfhd, Mfhd.getDataSize, ll]
theorem Mfhd.read_eq (b : Mfhd) (d : List Byte) (rest : List Bool) :
    Mfhd.readData.run d (Layout.mfhd b ++ rest) = .ok ((8 * b.getDataSize, b), rest) := by
  simp [Mfhd.readData, Layout.mfhd, Mfhd.getDataSize, rd]

theorem Mfro.write_eq (b : Mfro) : b.writeData = ⟨Layout.mfro b, .ok (8 * b.getDataSize)⟩ := by
  simp [Mfro.writeData, Layout.mfro, Mfro.getDataSize, wr]
theorem Mfro.size_eq (b : Mfro) : (Layout.mfro b).length = 8 * b.getDataSize := by
  simp [Layout.mfro, Mfro.getDataSize, ll]
theorem Mfro.read_eq (b : Mfro) (d : List Byte) (rest : List Bool) :
    Mfro.readData.run d (Layout.mfro b ++ rest) = .ok ((8 * b.getDataSize, b), rest) := by
  simp [Mfro.readData, Layout.mfro, Mfro.getDataSize, rd]

theorem Dref.write_eq (b : Dref) : b.writeData = ⟨Layout.dref b, .ok (8 * b.getDataSize)⟩ := by
  simp [Dref.writeData, Layout.dref, Dref.getDataSize, wr]
theorem Dref.size_eq (b : Dref) : (Layout.dref b).length = 8 * b.getDataSize := by
  simp [Layout.dref, Dref.getDataSize, ll]
theorem Dref.read_eq (b : Dref) (d : List Byte) (rest : List Bool) :
    Dref.readData.run d (Layout.dref b ++ rest) = .ok ((8 * b.getDataSize, b), rest) := by
  simp [Dref.readData, Layout.dref, Dref.getDataSize, rd]

theorem Stsd.write_eq (b : Stsd) : b.writeData = ⟨Layout.stsd b, .ok (8 * b.getDataSize)⟩ := by
  simp [Stsd.writeData, Layout.stsd, Stsd.getDataSize, wr]
theorem Stsd.size_eq (b : Stsd) : (Layout.stsd b).length = 8 * b.getDataSize := by
  simp [Layout.stsd, Stsd.getDataSize, ll]
theorem Stsd.read_eq (b : Stsd) (d : List Byte) (rest : List Bool) :
    Stsd.readData.run d (Layout.stsd b ++ rest) = .ok ((8 * b.getDataSize, b), rest) := by
  simp [Stsd.readData, Layout.stsd, Stsd.getDataSize, rd]

theorem Trex.write_eq (b : Trex) : b.writeData = ⟨Layout.trex b, .ok (8 * b.getDataSize)⟩ := by
  simp [Trex.writeData, Layout.trex, Trex.getDataSize, wr]
theorem Trex.size_eq (b : Trex) : (Layout.trex b).length = 8 * b.getDataSize := by
  simp [Layout.trex, Trex.getDataSize, ll]
theorem Trex.read_eq (b : Trex) (d : List Byte) (rest : List Bool) :
    Trex.readData.run d (Layout.trex b ++ rest) = .ok ((8 * b.getDataSize, b), rest) := by
  simp [Trex.readData, Layout.trex, Trex.getDataSize, rd]

theorem Iods.write_eq (b : Iods) : b.writeData = ⟨Layout.iods b, .ok (8 * b.getDataSize)⟩ := by
  simp [Iods.writeData, Layout.iods, Iods.getDataSize, uvarint_size, wr]
theorem Iods.size_eq (b : Iods) : (Layout.iods b).length = 8 * b.getDataSize := by
  simp [Layout.iods, Iods.getDataSize, uvarint_size, ll]
theorem Iods.read_eq (b : Iods) (d : List Byte) (rest : List Bool) (hv : b.descriptor_length.toNat < 2 ^ 28) :
    Iods.readData.run d (Layout.iods b ++ rest) =
      .ok ((8 * b.getDataSize + ((b.descriptor_length - 7#32) * 8#32).toNat, b), rest) := by
  simp [Iods.readData, Layout.iods, Iods.getDataSize, uvarint_size, rd, hv]

end Mp4
