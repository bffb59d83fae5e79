import Verif.Spec.LayoutBox
import Verif.Spec.RoundTrip
import Verif.Lemmas.Fixed
import Verif.Lemmas.Versioned
import Verif.Lemmas.Tables
import Verif.Lemmas.Fragments
import Verif.Lemmas.Codec
import Verif.Lemmas.SampleEntries
import Verif.Lemmas.Strings
import Verif.Lemmas.Esds
import Verif.Props.BitIO

/-! # Facts about all box classes together -/

namespace Mp4
open R

/-! ### when writing succeeds -/

theorem W.bind_res_ok {α β : Type} {m : W α} {f : α → W β} {b : β} (h : (m.bind f).res = .ok b) :
    ∃ a, m.res = .ok a ∧ (f a).res = .ok b := by
  obtain ⟨o, r⟩ := m
  cases r with
  | error e => simp [W.bind] at h
  | ok a => exact ⟨a, rfl, h⟩

theorem writeList_ok {α : Type} {f : α → W Nat} {l : List α} {n : Nat} (h : (writeList f l).res = .ok n) :
    ∀ x ∈ l, ∃ m, (f x).res = .ok m := by
  induction l generalizing n with
  | nil => intro x hx; simp at hx
  | cons a l ih =>
    rw [writeList] at h
    obtain ⟨m, h1, h2⟩ := W.bind_res_ok h
    obtain ⟨k, h3, h4⟩ := W.bind_res_ok h2
    intro x hx
    rcases List.mem_cons.mp hx with rfl | hx
    · exact ⟨m, h1⟩
    · exact ih h3 x hx

theorem Esds.ok_urls (b : Esds) {n : Nat} (h : b.writeData.res = .ok n) : ∀ d ∈ b.descriptors, d.UrlOk := by
  rw [Esds.writeData] at h
  obtain ⟨m, h1, h2⟩ := W.bind_res_ok h
  obtain ⟨k, h3, h4⟩ := W.bind_res_ok h2
  intro d hd
  obtain ⟨x, hx⟩ := writeList_ok h3 d hd
  cases d with
  | es f subs =>
    intro hf
    apply Decidable.byContradiction
    intro hlen
    obtain ⟨⟨e, he⟩, -⟩ := Descriptor.write_url_too_long f subs hf (by omega)
    rw [he] at hx
    cases hx
  | _ => trivial

theorem write_uint_32_ok {v : BitVec 32} {n k : Nat} (h : (write_uint v ((n + 1) * 8)).res = .ok k) : n < 4 := by
  apply Decidable.byContradiction
  intro hn
  have := (C02_uint_ub 32 ((n + 1) * 8) v (by rw [promotedWidth]; simp; omega)).1
  rw [this] at h
  cases h

theorem Tfra.ok_lengths (b : Tfra) {n : Nat} (h : b.writeData.res = .ok n) : b.entries = [] ∨ b.LengthsOk := by
  simp only [Tfra.writeData, wr, Nat.reduceLeDiff] at h
  obtain ⟨k, h1, h2⟩ := W.bind_res_ok h
  cases he : b.entries with
  | nil => exact Or.inl rfl
  | cons e l =>
    right
    obtain ⟨m, hm⟩ := writeList_ok h1 e (by rw [he]; simp)
    simp only [TfraEntry.writeData, wr, vw] at hm
    obtain ⟨a0, -, hm⟩ := W.bind_res_ok hm
    obtain ⟨a1, -, hm⟩ := W.bind_res_ok hm
    obtain ⟨a2, h2, hm⟩ := W.bind_res_ok hm
    obtain ⟨a3, h3, hm⟩ := W.bind_res_ok hm
    obtain ⟨a4, h4, hm⟩ := W.bind_res_ok hm
    exact ⟨write_uint_32_ok h2, write_uint_32_ok h3, write_uint_32_ok h4⟩

/-- Without entries the three length fields do not matter for the size. -/
theorem Tfra.write_nil (b : Tfra) (h : b.entries = []) : b.writeData = ⟨Layout.tfra b, .ok (8 * b.getDataSize)⟩ := by
  simp [Tfra.writeData, Layout.tfra, Tfra.getDataSize, wr, h, writeList]

theorem AvcC.ok_consistent (b : AvcC) {n : Nat} (h : b.writeData.res = .ok n) : b.Consistent := by
  intro hh
  apply Decidable.byContradiction
  intro hp
  obtain ⟨⟨e, he⟩, -⟩ := AvcC.write_inconsistent b hh (by simpa using hp)
  rw [he] at h
  cases h

/-- The boxes whose content `writeData` accepts. -/
def BoxData.Writable : BoxData → Prop
  | .tfra b => b.entries = [] ∨ b.LengthsOk
  | .esds b => ∀ d ∈ b.descriptors, d.UrlOk
  | .avcC b => b.Consistent
  | _ => True

theorem BoxData.writable_of_ok (b : BoxData) {n : Nat} (h : b.writeData.res = .ok n) : b.Writable := by
  cases b with
  | tfra b => exact Tfra.ok_lengths b h
  | esds b => exact Esds.ok_urls b h
  | avcC b => exact AvcC.ok_consistent b h
  | _ => trivial

/-- The letters of the language of a media header are from 0x60 to 0x7f. -/
def BoxData.LanguageOk : BoxData → Prop
  | .mdhd b => LangOk b.language
  | _ => True

theorem BoxData.write_eq (b : BoxData) (h : b.Writable) (hl : b.LanguageOk) :
    b.writeData = ⟨Layout.box b, .ok (8 * b.getDataSize)⟩ := by
  cases b with
  | tfra b => exact h.elim (Tfra.write_nil b) (Tfra.write_eq b)
  | esds b => exact Esds.write_eq b h
  | avcC b => exact AvcC.write_eq b h
  | mdhd b => exact Mdhd.write_eq b hl
  | empty => rfl
  | _ b =>
    first
      | exact Btrt.write_eq b | exact Pasp.write_eq b | exact Fiel.write_eq b | exact Smhd.write_eq b | exact Vmhd.write_eq b
      | exact Mfhd.write_eq b | exact Mfro.write_eq b | exact Dref.write_eq b | exact Stsd.write_eq b
      | exact Trex.write_eq b | exact Iods.write_eq b | exact Mvhd.write_eq b | exact Tkhd.write_eq b
      | exact Mehd.write_eq b | exact Tfdt.write_eq b | exact Elst.write_eq b | exact Sidx.write_eq b
      | exact Stts.write_eq b | exact Ctts.write_eq b | exact Stsc.write_eq b | exact Stco.write_eq b
      | exact Co64.write_eq b | exact Stss.write_eq b | exact Stsz.write_eq b | exact Sdtp.write_eq b
      | exact Sbgp.write_eq b | exact Tfhd.write_eq b | exact Trun.write_eq b | exact Av1C.write_eq b
      | exact VpcC.write_eq b | exact DOps.write_eq b | exact VisualSampleEntry.write_eq b
      | exact AudioSampleEntry.write_eq b | exact Hdlr.write_eq b | exact Url.write_eq b | exact Urn.write_eq b
      | exact Emsg.write_eq b | exact Data.write_eq b | exact Colr.write_eq b | exact Pssh.write_eq b
      | exact Ftyp.write_eq b | exact Meta.write_eq b | exact Opaque.write_eq b | exact Sgpd.write_eq b

theorem BoxData.size_eq (b : BoxData) (h : b.Writable) (hl : b.LanguageOk) :
    (Layout.box b).length = 8 * b.getDataSize := by
  cases b with
  | tfra b => exact Tfra.size_eq b
  | esds b => exact Esds.size_eq b h
  | avcC b => exact AvcC.size_eq b
  | mdhd b =>
    have := Mdhd.size_raw b
    rwa [Mdhd.write_eq b hl] at this
  | empty => rfl
  | _ b =>
    first
      | exact Btrt.size_eq b | exact Pasp.size_eq b | exact Fiel.size_eq b | exact Smhd.size_eq b | exact Vmhd.size_eq b
      | exact Mfhd.size_eq b | exact Mfro.size_eq b | exact Dref.size_eq b | exact Stsd.size_eq b
      | exact Trex.size_eq b | exact Iods.size_eq b | exact Mvhd.size_eq b | exact Tkhd.size_eq b
      | exact Mehd.size_eq b | exact Tfdt.size_eq b | exact Elst.size_eq b | exact Sidx.size_eq b
      | exact Stts.size_eq b | exact Ctts.size_eq b | exact Stsc.size_eq b | exact Stco.size_eq b
      | exact Co64.size_eq b | exact Stss.size_eq b | exact Stsz.size_eq b | exact Sdtp.size_eq b
      | exact Sbgp.size_eq b | exact Tfhd.size_eq b | exact Trun.size_eq b | exact Av1C.size_eq b
      | exact VpcC.size_eq b | exact DOps.size_eq b | exact VisualSampleEntry.size_eq b
      | exact AudioSampleEntry.size_eq b | exact Hdlr.size_eq b | exact Url.size_eq b | exact Urn.size_eq b
      | exact Emsg.size_eq b | exact Data.size_eq b | exact Colr.size_eq b | exact Pssh.size_eq b
      | exact Ftyp.size_eq b | exact Meta.size_eq b | exact Opaque.size_eq b | exact Sgpd.size_eq b

/-- Result and output length of every accepted box. -/
theorem BoxData.write_res (b : BoxData) (h : b.Writable) :
    b.writeData.res = .ok (8 * b.getDataSize) ∧ b.writeData.out.length = 8 * b.getDataSize := by
  cases b with
  | mdhd b => exact ⟨by simp only [BoxData.writeData, BoxData.getDataSize]; rw [Mdhd.write_raw], Mdhd.size_raw b⟩
  | _ =>
    have h1 := BoxData.write_eq _ h trivial
    have h2 := BoxData.size_eq _ h trivial
    rw [h1]
    exact ⟨rfl, h2⟩

/-! ### from the three facts to a round trip -/

theorem roundTrip_of {α : Type} {m : W Nat} {p : R (Nat × α)} {a : α} {l : List Bool} {n : Nat}
    (hw : m = ⟨l, .ok n⟩) (hs : l.length = n) (hr : ∀ d rest, p.run d (l ++ rest) = .ok ((n, a), rest)) :
    RoundTrip m p a := by
  subst hw hs
  exact ⟨rfl, hr⟩

theorem roundTripEnd_of {α : Type} {m : W Nat} {p : R (Nat × α)} {a : α} {l : List Bool} {n : Nat}
    (hw : m = ⟨l, .ok n⟩) (hs : l.length = n) (hr : ∀ d, p.run d l = .ok ((n, a), [])) :
    RoundTripEnd m p a := by
  subst hw hs
  exact ⟨rfl, hr⟩

theorem RoundTrip.toEnd {α : Type} {m : W Nat} {p : R (Nat × α)} {a : α} (h : RoundTrip m p a) : RoundTripEnd m p a := by
  refine ⟨h.1, fun d => ?_⟩
  have := h.2 d []
  rwa [List.append_nil] at this

end Mp4
