import Verif.Lemmas.Box

/-!
# C14, C15, C53: what `writeData` puts in the file

`BoxData` is the sum of all box classes; `Layout.box` the file format, written down separately in the `Spec/Layout*`
modules.
-/

namespace Mp4

/-- **C14** For every box class and every content for which `writeData` does not throw, the returned number of bits, the
number of bits written and eight times `getDataSize()` are the same number. -/
theorem C14_written_size (b : BoxData) (n : Nat) (h : b.writeData.res = .ok n) :
    n = b.writeData.out.length ∧ n = 8 * b.getDataSize := by
  obtain ⟨h1, h2⟩ := BoxData.write_res b (BoxData.writable_of_ok b h)
  rw [h1] at h
  cases h
  exact ⟨h2.symm, rfl⟩

/-- **C14** Every box is written in whole bytes: the writer object never has bits left over. -/
theorem C14_whole_bytes (b : BoxData) (n : Nat) (h : b.writeData.res = .ok n) :
    b.writeData.out.length % 8 = 0 ∧ (toBytes b.writeData.out).length = b.getDataSize := by
  obtain ⟨h1, h2⟩ := C14_written_size b n h
  rw [toBytes_length]
  omega

/-- **C14** `writeData` throws for three reasons only: a `tfra` box with entries whose length fields need more than two bits,
an `esds` box with a URL longer than 255 bytes, and an `avcC` box with the high-profile fields enabled for a
profile that has none. -/
theorem C14_throws_iff (b : BoxData) :
    (∃ e, b.writeData.res = .error e) ↔
      (∃ t : Tfra, b = .tfra t ∧ t.entries ≠ [] ∧
        (4 ≤ t.length_size_of_traf_num.toNat ∨ 4 ≤ t.length_size_of_trun_num.toNat ∨
          4 ≤ t.length_size_of_sample_num.toNat)) ∨
      (∃ t : Esds, b = .esds t ∧ ∃ f subs, Descriptor.es f subs ∈ t.descriptors ∧ f.url_flag = true ∧
        255 < f.url_string.length) ∨
      (∃ t : AvcC, b = .avcC t ∧ t.high_profile_fields_enabled = true ∧
        t.profile.toNat ∉ [86, 100, 110, 118, 122, 128, 138, 144, 244]) := by
  have hprof : ∀ p : Byte, is_avc_high_profile p = true ↔ p.toNat ∈ [86, 100, 110, 118, 122, 128, 138, 144, 244] := by
    decide +kernel
  constructor
  · rintro ⟨e, he⟩
    have hw : ¬ b.Writable := by
      intro hw
      rw [(BoxData.write_res b hw).1] at he
      cases he
    cases b with
    | tfra t =>
      left
      refine ⟨t, rfl, fun h => hw (Or.inl h), ?_⟩
      apply Decidable.byContradiction
      intro hc
      exact hw (Or.inr ⟨by omega, by omega, by omega⟩)
    | esds t =>
      right; left
      refine ⟨t, rfl, ?_⟩
      apply Classical.byContradiction
      intro hc
      apply hw
      intro d hd
      cases d with
      | es f subs =>
        intro hf
        apply Decidable.byContradiction
        intro hl
        exact hc ⟨f, subs, hd, hf, by omega⟩
      | _ => trivial
    | avcC t =>
      right; right
      refine ⟨t, rfl, ?_⟩
      apply Decidable.byContradiction
      intro hc
      apply hw
      intro hh
      rw [hprof]
      apply Decidable.byContradiction
      intro hp
      exact hc ⟨hh, hp⟩
    | _ => exact absurd trivial hw
  · intro h
    cases hr : b.writeData.res with
    | error e => exact ⟨e, rfl⟩
    | ok n =>
      exfalso
      have hw := BoxData.writable_of_ok b hr
      rcases h with ⟨t, rfl, hne, hl⟩ | ⟨t, rfl, f, subs, hm, hf, hl⟩ | ⟨t, rfl, hh, hp⟩
      · rcases hw with hw | ⟨h1, h2, h3⟩
        · exact hne hw
        · omega
      · have := hw _ hm hf
        omega
      · exact hp ((hprof _).mp (hw hh))

/-- **C15** For every box class and every content `writeData` accepts, the bits written are exactly those of the file
format.  (`mdhd`: the language letters must be in the range the format can express; see `C15_mdhd_language`.) -/
theorem C15_layout (b : BoxData) (n : Nat) (h : b.writeData.res = .ok n)
    (hl : ∀ m : Mdhd, b = .mdhd m → LangOk m.language) : b.writeData.out = Layout.box b := by
  have hl' : b.LanguageOk := by cases b <;> first | exact hl _ rfl | trivial
  rw [BoxData.write_eq b (BoxData.writable_of_ok b h) hl']

/-- **C15** For other letters the language field of `mdhd` has 15 bits computed by the language encoder (C08); all other
fields are as the format says. -/
theorem C15_mdhd_language (b : Mdhd) : b.writeData.out = fbits b.toFullBox ++
    Layout.time b.toFullBox b.creation_time ++ Layout.time b.toFullBox b.modification_time ++ bits b.timescale ++
    Layout.time b.toFullBox b.duration ++ bbit b.pad ++ ubits 15 (encode_language b.language) ++
    bits b.pre_defined := by
  rw [Mdhd.write_raw]

/-- **C53** The three throwing boxes have already output part of their content: `avcC` all fields up to the high-profile
ones. -/
theorem C53_avcC_partial_output (b : AvcC) (h : b.high_profile_fields_enabled = true)
    (hp : is_avc_high_profile b.profile = false) :
    (∃ e, b.writeData.res = .error e) ∧
      b.writeData.out = Layout.avcC { b with high_profile_fields_enabled := false } :=
  AvcC.write_inconsistent b h hp

/-- **C53** `esds`: everything before the URL of the offending descriptor. -/
theorem C53_esds_partial_output (fb : FullBox) (good : List Descriptor) (hg : ∀ d ∈ good, d.UrlOk) (f : ESFields)
    (subs more : List Descriptor) (hf : f.url_flag = true) (h : 255 < f.url_string.length) :
    let b : Esds := ⟨fb, good ++ Descriptor.es f subs :: more⟩
    (∃ e, b.writeData.res = .error (.exc e)) ∧
      b.writeData.out = fbits fb ++ good.flatMap Layout.descriptor ++
        (bits 3#8 ++ lenBits (BitVec.ofNat 32 (Layout.declaredSize (.es f subs))) ++ bits f.ESID ++
        bbit f.stream_dependence_flag ++ bbit f.url_flag ++ bbit f.ocr_stream_flag ++ sbits 5 f.stream_priority ++
        onlyIf f.stream_dependence_flag (bits f.depends_on_esid)) := by
  obtain ⟨⟨e, he⟩, ho⟩ := Descriptor.write_url_too_long f subs hf h
  have key : ∀ l : List Descriptor, (∀ d ∈ l, d.UrlOk) →
      writeList Descriptor.writeData (l ++ Descriptor.es f subs :: more) =
        ⟨l.flatMap Layout.descriptor ++ (Descriptor.es f subs).writeData.out, .error (.exc e)⟩ := by
    intro l hl
    induction l with
    | nil =>
      simp only [List.nil_append, writeList, W.bind_eq]
      cases hw : (Descriptor.es f subs).writeData with
      | mk o r =>
        rw [hw] at he
        simp only at he
        subst he
        simp [wr]
    | cons x l ih =>
      simp only [List.cons_append, writeList, W.bind_eq]
      rw [Descriptor.write_eq x (hl x (by simp)), ih (fun y hy => hl y (by simp [hy]))]
      simp [wr]
  simp only [Esds.writeData, wr, key good hg]
  exact ⟨⟨e, rfl⟩, by rw [ho]; simp only [List.append_assoc, bits_ofNat]⟩

/-- **C53** Exactly three box classes can throw (`C14_throws_iff`); whenever one does, bytes of the box have already been
output. -/
theorem C53_partial_output (b : BoxData) (e : Err) (h : b.writeData.res = .error e) : b.writeData.out ≠ [] := by
  have hne : ∀ (fb : FullBox) (f : Nat → W Nat), (W.bind fb.writeVersionAndFlag f).out ≠ [] := by
    intro fb f hc
    have := congrArg List.length hc
    rw [writeVersionAndFlag_eq, W.bind_ok] at this
    simp [ll] at this
  rcases (C14_throws_iff b).mp ⟨e, h⟩ with ⟨t, rfl, -⟩ | ⟨t, rfl, -⟩ | ⟨t, rfl, hh, hp⟩
  · exact hne t.toFullBox _
  · exact hne t.toFullBox _
  · have hp' : is_avc_high_profile t.profile = false := by
      have hprof : ∀ p : Byte, p.toNat ∉ [86, 100, 110, 118, 122, 128, 138, 144, 244] →
          is_avc_high_profile p = false := by decide +kernel
      exact hprof _ hp
    show t.writeData.out ≠ []
    rw [(AvcC.write_inconsistent t hh hp').2]
    intro hc
    have := congrArg List.length hc
    rw [AvcC.size_eq] at this
    simp [AvcC.getDataSize] at this
    omega

end Mp4
