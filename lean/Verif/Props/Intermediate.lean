import Verif.Lemmas.IntermediateHeld
import Verif.Lemmas.FaultsFaststart

/-! # C79: the intermediate file of `FaststartWriter` -/

namespace Mp4
open Spec

/-- **C79** The constructor throws exactly when `mkstemp` or `fdopen` fails; in the second case it leaves the intermediate file behind.
A new object has an empty intermediate file. -/
theorem C79_constructor (libc : Libc) (x : FaultyFaststart) :
    ((∃ i, Interm.construct libc x = .object i) ↔ libc.mkstemp = true ∧ libc.fdopen = true) ∧
    (∀ i, Interm.construct libc x = .object i → i.present = true ∧ i.isOpen = true ∧ i.x.w.mdat.content = [] ∧ i.x.w.mdat_data_size = 0) ∧
    (∀ what p, Interm.construct libc x = .threw what p → (p = true ↔ libc.mkstemp = true ∧ libc.fdopen = false)) := by
  rw [Interm.construct]
  cases libc.mkstemp <;> cases libc.fdopen <;> simp

/-- **C79** After any history of calls on a new object, with exceptions caught, the intermediate file is in its directory exactly when no
`copyMdatData` and no `deleteIntermediateFile` has returned; the end of the object does not change that. -/
theorem C79_present {libc : Libc} {x : FaultyFaststart} {i0 i : Interm} {h : List (Act × Outcome)} (h0 : Interm.construct libc x = .object i0)
    (hh : History i0 h i) : (i.present = true ↔ ¬ Removed h) ∧ (i.destroy.present = true ↔ ¬ Removed h) :=
  ⟨(held79 h0 hh).present, (held79 h0 hh).present⟩

/-- **C79** After any history of calls on a new object the content of the intermediate file is what the calls of `addMdatData` wrote, in
their order, all of it for those that returned and as much as the exception says for those that threw.  The number of bytes the writer
counts, for the header of `mdat`, is that of the calls that returned; so the file is longer by what the others left in it. -/
theorem C79_content {libc : Libc} {x : FaultyFaststart} {i0 i : Interm} {h : List (Act × Outcome)} (h0 : Interm.construct libc x = .object i0)
    (hh : History i0 h i) :
    i.x.w.mdat.content = h.flatMap addedBy ∧ i.x.w.mdat_data_size = u64 ((h.map countedBy).sum) ∧
    i.x.w.mdat.content.length = (h.map countedBy).sum + (h.map lostBy).sum := by
  have H := held79 h0 hh
  refine ⟨H.content, H.size, ?_⟩
  rw [H.content]
  clear H
  induction hh with
  | start => rfl
  | @call h j k a o hj hd hu ih =>
    simp only [List.flatMap_append, List.map_append, List.sum_append, List.length_append, List.flatMap_cons, List.flatMap_nil,
      List.append_nil, List.map_cons, List.map_nil, List.sum_cons, List.sum_nil, Nat.add_zero]
    rw [ih]
    have : (addedBy (a, o)).length = countedBy (a, o) + lostBy (a, o) := by
      cases a with
      | addMdatData d =>
        cases o with
        | returned v => rfl
        | undefined w => exact absurd rfl (hu w)
        | threw w ret =>
          have hd : j.addMdatData d = (.threw w ret, k) := hd
          have hle : ret ≤ d.length := by
            rw [Interm.addMdatData] at hd
            split at hd
            · cases (Prod.mk.inj hd).1
            · split at hd
              · cases (Prod.mk.inj hd).1
              · dsimp only at hd
                split at hd
                · cases (Prod.mk.inj hd).1
                  exact Nat.min_le_right _ _
                · cases (Prod.mk.inj hd).1
          simp [addedBy, countedBy, lostBy, Nat.min_eq_left hle]
      | _ => cases o <;> rfl
    omega

/-- **C79** What a call of `addMdatData` does: it returns exactly when the C library can store all the bytes; otherwise the exception says
how many it stored, fewer than given, and those stay in the file. -/
theorem C79_add {i j : Interm} {d : List Byte} {o : Outcome} (hd : Does (.addMdatData d) i o j) (hu : ∀ what, o ≠ .undefined what) :
    (o = .returned none ∧ d.length ≤ i.libc.fwrite i.clock) ∨
    (o = .threw "FaststartWriter::addMdatData(): fwrite() failed" (i.libc.fwrite i.clock) ∧ i.libc.fwrite i.clock < d.length) := by
  have hd : i.addMdatData d = (o, j) := hd
  rw [Interm.addMdatData] at hd
  split at hd
  · exact absurd (Prod.mk.inj hd).1.symm (hu _)
  · split at hd
    · exact absurd (Prod.mk.inj hd).1.symm (hu _)
    · dsimp only at hd
      split at hd
      · have hlt : i.libc.fwrite i.clock < d.length := by omega
        rw [Nat.min_eq_left (by omega)] at hd
        exact .inr ⟨(Prod.mk.inj hd).1.symm, hlt⟩
      · exact .inl ⟨(Prod.mk.inj hd).1.symm, by omega⟩

/-- **C79** Whatever happened before and happens after: the bytes given to a call of `addMdatData` that returned are found in the
intermediate file at the place `tellCurrentMdatOffset` reported before it. -/
theorem C79_place {libc : Libc} {x : FaultyFaststart} {i0 i : Interm} {h h' : List (Act × Outcome)} {v : BitVec 64} {d : List Byte}
    (h0 : Interm.construct libc x = .object i0)
    (hh : History i0 (h ++ (.tellCurrentMdatOffset, .returned (some v)) :: (.addMdatData d, .returned none) :: h') i)
    (hlen : i.x.w.mdat.content.length < 2 ^ 64) :
    slice i.x.w.mdat.content v.toNat d.length = d := by
  obtain ⟨a, b, ha, hab, hb⟩ := hh.split _ _ _ rfl
  obtain ⟨b', c, hb', hbc, -⟩ := hb.split [] _ _ rfl
  cases hb'.nil_eq
  have Ha := held79 h0 ha
  have hab : a.tellCurrentMdatOffset = (.returned (some v), b) := hab
  have hbc : b.addMdatData d = (.returned none, c) := hbc
  rw [Interm.tellCurrentMdatOffset] at hab
  split at hab
  · cases (Prod.mk.inj hab).1
  · split at hab
    · cases (Prod.mk.inj hab).1
    · obtain ⟨hv, rfl⟩ := Prod.mk.inj hab
      have hv : BitVec.ofNat 64 a.x.w.mdat.pos = v := by injection hv with hv; injection hv
      rw [Interm.addMdatData] at hbc
      split at hbc
      · cases (Prod.mk.inj hbc).1
      · split at hbc
        · cases (Prod.mk.inj hbc).1
        · have hO : ¬ a.isOpen = false := by assumption
          have hR : ¬ a.reading = true := by assumption
          have hpos : a.x.w.mdat.pos = a.x.w.mdat.content.length := by
            rcases Ha.place (by cases h : a.isOpen with | true => rfl | false => exact absurd h hO) with h | h
            · exact absurd h hR
            · exact h
          have hC := (held79 h0 hh).content
          simp only [List.flatMap_append, List.flatMap_cons, addedBy, List.nil_append] at hC
          have hCa := Ha.content
          rw [hC, List.length_append] at hlen
          rw [← hCa] at hC hlen
          have hvn : v.toNat = a.x.w.mdat.content.length := by
            rw [← hv, hpos, BitVec.toNat_ofNat]; exact Nat.mod_eq_of_lt (by omega)
          rw [hC, hvn, slice, List.drop_left, List.take_left]

/-- **C79** What is undefined: a call that uses the `FILE` after a `copyMdatData` that got as far as closing it (it returned, or threw at
one of its last two steps), always; and `addMdatData` after a `copyMdatData` that found the output stream broken, possibly.  Nothing else. -/
theorem C79_undefined {libc : Libc} {x : FaultyFaststart} {i0 i j : Interm} {h : List (Act × Outcome)} {a : Act} {o : Outcome}
    (h0 : Interm.construct libc x = .object i0) (hh : History i0 h i) (hd : Does a i o j) :
    (Closed h → usesFile a = true → ∃ what, o = .undefined what) ∧
    (∀ what, o = .undefined what → (Closed h ∧ usesFile a = true) ∨ (OutputFailed h ∧ ∃ d, a = .addMdatData d)) := by
  have H := held79 h0 hh
  rw [← H.isOpen]
  cases a with
  | addMdatData d =>
    have hd : i.addMdatData d = (o, j) := hd
    rw [Interm.addMdatData] at hd
    split at hd
    · exact ⟨fun _ _ => ⟨_, (Prod.mk.inj hd).1.symm⟩, fun _ _ => .inl ⟨‹_›, rfl⟩⟩
    · rename_i hO
      refine ⟨fun h => absurd h hO, fun what hw => ?_⟩
      have hO' : i.isOpen = true := by simpa using hO
      split at hd
      · exact .inr ⟨H.reading hO' ‹_›, d, rfl⟩
      · dsimp only at hd
        subst hw
        split at hd <;> cases (Prod.mk.inj hd).1
  | tellCurrentMdatOffset =>
    have hd : i.tellCurrentMdatOffset = (o, j) := hd
    rw [Interm.tellCurrentMdatOffset] at hd
    split at hd
    · exact ⟨fun _ _ => ⟨_, (Prod.mk.inj hd).1.symm⟩, fun _ _ => .inl ⟨‹_›, rfl⟩⟩
    · rename_i hO
      refine ⟨fun h => absurd h hO, fun what hw => ?_⟩
      subst hw
      split at hd <;> cases (Prod.mk.inj hd).1
  | deleteIntermediateFile =>
    have hd : i.deleteIntermediateFile = (o, j) := hd
    refine ⟨fun _ h => (by cases h), fun what hw => ?_⟩
    rw [Interm.deleteIntermediateFile] at hd
    subst hw
    split at hd <;> cases (Prod.mk.inj hd).1
  | other => exact ⟨fun _ h => (by cases h), fun what hw => absurd hw (hd.1 what)⟩
  | copyMdatData =>
    obtain ⟨n, hd⟩ := hd
    cases Interm.copy_cases hd with
    | closed hO => exact ⟨fun _ _ => ⟨_, rfl⟩, fun _ _ => .inl ⟨hO, rfl⟩⟩
    | noSeek hO => exact ⟨fun h => absurd (hO.symm.trans h) (by decide), fun _ h => by cases h⟩
    | broken hO _ => exact ⟨fun h => absurd (hO.symm.trans h) (by decide), fun _ h => by cases h⟩
    | noClose hO _ => exact ⟨fun h => absurd (hO.symm.trans h) (by decide), fun _ h => by cases h⟩
    | noRemove hO _ => exact ⟨fun h => absurd (hO.symm.trans h) (by decide), fun _ h => by cases h⟩
    | returned hO _ _ => exact ⟨fun h => absurd (hO.symm.trans h) (by decide), fun _ h => by cases h⟩

/-- The output stream of `j` is that of `i` after the bytes `l` have been copied to it, in portions. -/
def CopiedTo (i : Interm) (l : List Byte) (j : Interm) : Prop :=
  ∃ portions : List (List Byte), portions.flatten = l ∧ j.x.s = portions.foldl (fun s c => s.copyOut i.x.dev c) i.x.s

/-- **C79** How `copyMdatData` can end, on an object whose `FILE` is open.  When it returns, the whole intermediate file has been copied
and the file is closed and gone.  When it throws because `fseek` failed nothing has happened; because the output stream was not good
before it began, a part of the file has been copied and it can be called again; because the file cannot be closed or removed, the whole file
has been copied, and it is closed and still there.  In no case does the file itself change. -/
theorem C79_copy {i j : Interm} {o : Outcome} (hO : i.isOpen = true) (hd : Does .copyMdatData i o j) :
    j.x.w.mdat.content = i.x.w.mdat.content ∧ j.x.w.mdat_data_size = i.x.w.mdat_data_size ∧
    ((o = .returned none ∧ i.x.s.good = true ∧ i.present = true ∧ j.present = false ∧ j.isOpen = false ∧ CopiedTo i i.x.w.mdat.content j) ∨
     (o = .threw "fseek failed" 0 ∧ j.present = i.present ∧ j.isOpen = true ∧ j.x = i.x) ∨
     (o = .threw "FaststartWriter::copyMdatData(): copying mdat data failed" 0 ∧ i.x.s.good = false ∧ j.present = i.present ∧ j.isOpen = true ∧
        ∃ k, CopiedTo i (i.x.w.mdat.content.take k) j) ∨
     (o = .threw "FaststartWriter::copyMdatData(): cannot close the intermediate file" 0 ∧ i.x.s.good = true ∧ j.present = i.present ∧ j.isOpen = false ∧
        CopiedTo i i.x.w.mdat.content j) ∨
     (o = .threw "FaststartWriter::deleteIntermediateFile(): cannot remove the intermediate file" 0 ∧ i.x.s.good = true ∧ j.present = i.present ∧
        j.isOpen = false ∧ CopiedTo i i.x.w.mdat.content j)) := by
  obtain ⟨n, hd⟩ := hd
  have whole : ∀ {k y : Interm},
      Interm.Rounds { i.tick with reading := false, x := { i.x with w := { i.x.w with mdat := i.x.w.mdat.rewind } } } true k → y.x = k.x →
      CopiedTo i i.x.w.mdat.content y := by
    intro k y R e
    obtain ⟨cs, h1, h2, -, -⟩ := R.chunks
    refine ⟨cs, ?_, (congrArg _ e).trans h1⟩
    rw [h2, R.atEnd (R.done rfl)]
    simp [slice, CFile.rewind]
  cases Interm.copy_cases hd with
  | closed h => exact absurd (h.symm.trans hO) (by decide)
  | noSeek _ => exact ⟨rfl, rfl, .inr (.inl ⟨rfl, rfl, hO, rfl⟩)⟩
  | broken _ R =>
    obtain ⟨cs, h1, h2, -, -⟩ := R.chunks
    refine ⟨R.content, R.size, .inr (.inr (.inl ⟨rfl, (R.broken rfl).1, R.present, R.isOpen.trans hO, j.x.w.mdat.pos, cs, ?_, h1⟩))⟩
    rw [h2]
    simp [slice, CFile.rewind]
  | noClose _ R => exact ⟨R.content, R.size, .inr (.inr (.inr (.inl ⟨rfl, R.fine rfl rfl, R.present, rfl, (whole R rfl)⟩)))⟩
  | noRemove _ R => exact ⟨R.content, R.size, .inr (.inr (.inr (.inr ⟨rfl, R.fine rfl rfl, R.present, rfl, (whole R rfl)⟩)))⟩
  | returned _ hp R => exact ⟨R.content, R.size, .inl ⟨rfl, R.fine rfl rfl, hp, rfl, rfl, (whole R rfl)⟩⟩

/-- **C79** `copyMdatData` ends when from some call on no read of the intermediate file fails.  (`C69_copy_never_ends`: it does not end
when from some call on all fail.) -/
theorem C79_copy_ends (i : Interm) (T : Nat) (hr : ∀ t, T ≤ t → i.libc.fread t = true) : ∃ o j, Does .copyMdatData i o j := by
  obtain ⟨n, r, h⟩ := Interm.copyRounds_ends T
    { i.tick with reading := false, x := { i.x with w := { i.x.w with mdat := i.x.w.mdat.rewind } } } hr (Nat.zero_le _)
  have key : ∃ q, i.copyMdatData n = some q := by
    rw [Interm.copyMdatData]
    split
    · exact ⟨_, rfl⟩
    · split
      · exact ⟨_, rfl⟩
      · rw [h]
        obtain ⟨b, k⟩ := r
        cases b with
        | false => exact ⟨_, rfl⟩
        | true => dsimp only; split <;> exact ⟨_, rfl⟩
  obtain ⟨⟨o, j⟩, h⟩ := key
  exact ⟨o, j, n, h⟩

/-- **C79** The call on a state has one end only: the oracle decides everything. -/
theorem C79_determined {a : Act} {i j j' : Interm} {o o' : Outcome} (ha : a ≠ .other) (h : Does a i o j) (h' : Does a i o' j') :
    o = o' ∧ j = j' := by
  cases a with
  | addMdatData d => exact Prod.mk.inj (Eq.trans (Eq.symm h) h')
  | tellCurrentMdatOffset => exact Prod.mk.inj (Eq.trans (Eq.symm h) h')
  | deleteIntermediateFile => exact Prod.mk.inj (Eq.trans (Eq.symm h) h')
  | other => exact absurd rfl ha
  | copyMdatData =>
    obtain ⟨n, h⟩ := h
    obtain ⟨m, h'⟩ := h'
    have h1 := Interm.copyMdatData_mono (Nat.le_max_left n m) h
    have h2 := Interm.copyMdatData_mono (Nat.le_max_right n m) h'
    exact Prod.mk.inj (Option.some.inj (h1.symm.trans h2))

/-- **C79** With a C library and a file system that never fail, the calls do what `Model/Faults.lean` and `Model/Writer.lean` say: the
theorems about those apply. -/
theorem C79_perfect (i : Interm) (hl : i.libc = perfect) (hO : i.isOpen = true) (hp : i.present = true) (hg : i.x.s.good = true) :
    (i.reading = false → ∀ d : List Byte, d.length ≤ 2 ^ 64 →
      Does (.addMdatData d) i (.returned none) { i.tick with x := { i.x with w := i.x.w.addMdatData d } }) ∧
    Does .tellCurrentMdatOffset i (.returned (some i.x.w.tellCurrentMdatOffset)) i.tick ∧
    (∃ j, Does .copyMdatData i (.returned none) j ∧ i.x.copyMdatData = .ok j.x) := by
  refine ⟨fun hr d hd => ?_, ?_, ?_⟩
  · show i.addMdatData d = _
    rw [Interm.addMdatData, if_neg (by rw [hO]; decide), if_neg (by rw [hr]; decide), hl]
    have e : min (perfect.fwrite i.clock) d.length = d.length := Nat.min_eq_right hd
    dsimp only
    rw [e, if_neg (by simp), List.take_length]
    rfl
  · show i.tellCurrentMdatOffset = _
    rw [Interm.tellCurrentMdatOffset, if_neg (by rw [hO]; decide), if_neg (by rw [hl]; simp [perfect])]
    rfl
  · have loop : ∀ (n r : Nat) (k : Interm), k.libc = perfect → k.x.s.good = true →
        match FaultyFaststart.copyLoop k.x.dev (fun _ => true) n r k.x.w.mdat k.x.s with
        | some (.ok (f, s)) => ∃ m, Interm.copyRounds n k = some (true, m) ∧ m.x = { k.x with w := { k.x.w with mdat := f }, s := s } ∧
            m.present = k.present ∧ m.libc = k.libc
        | some (.error _) => False
        | none => True := by
      intro n
      induction n with
      | zero => intros; trivial
      | succ n ih =>
        intro r k hk hkg
        rw [FaultyFaststart.copyLoop, Interm.copyRounds]
        by_cases hE : k.x.w.mdat.eof = true
        · rw [if_pos hE, if_pos hE]
          exact ⟨k, rfl, rfl, rfl, rfl⟩
        · rw [if_neg hE, if_neg hE]
          generalize COPY_MDAT_DATA_BUFFER_SIZE = K
          have hfr : k.libc.fread k.clock = true := by rw [hk]; rfl
          rw [if_pos hfr]
          generalize k.x.w.mdat.fread K = bf
          obtain ⟨buf, f⟩ := bf
          have hcg : (k.x.s.copyOut k.x.dev buf).good = true := by rw [FStream.copyOut_good]; exact hkg
          have hrec := ih (r + 1) { k.tick with reading := !f.eof, x := { k.x with w := { k.x.w with mdat := f }, s := k.x.s.copyOut k.x.dev buf } } hk hcg
          dsimp only at hrec ⊢
          simp only [if_true] at *
          rw [if_pos hcg, if_pos hcg]
          revert hrec
          generalize FaultyFaststart.copyLoop k.x.dev (fun _ => true) n (r + 1) f (k.x.s.copyOut k.x.dev buf) = q
          intro hrec
          match q, hrec with
          | none, _ => trivial
          | some (.ok (f', s')), hrec =>
            obtain ⟨m, h1, h2, h3, h4⟩ := hrec
            exact ⟨m, h1, h2, h3, h4⟩
    generalize hN : i.x.w.mdat.content.length / COPY_MDAT_DATA_BUFFER_SIZE + 1 = N
    obtain ⟨f, s, hends⟩ := copyLoop_ends i.x.dev N 0 i.x.w.mdat.rewind i.x.s hg rfl (Nat.zero_le _) (by
      rw [← hN]
      have hK : 0 < COPY_MDAT_DATA_BUFFER_SIZE := by decide
      generalize COPY_MDAT_DATA_BUFFER_SIZE = K at hK ⊢
      show i.x.w.mdat.content.length - 0 < _
      rw [Nat.add_one_mul]
      have hdm := Nat.div_add_mod i.x.w.mdat.content.length K
      have := Nat.mod_lt i.x.w.mdat.content.length hK
      rw [Nat.mul_comm] at hdm
      omega)
    have hloop := loop (N + 1) 0 { i.tick with reading := false, x := { i.x with w := { i.x.w with mdat := i.x.w.mdat.rewind } } } hl hg
    dsimp only at hloop
    rw [hends] at hloop
    obtain ⟨m, h1, h2, h3, h4⟩ := hloop
    have hml : m.libc = perfect := h4.trans hl
    have hmp : m.present = true := h3.trans hp
    refine ⟨{ m.tick.tick with isOpen := false, present := false }, ⟨N + 1, ?_⟩, ?_⟩
    · rw [Interm.copyMdatData, if_neg (by rw [hO]; decide), if_neg (by rw [hl]; simp [perfect]), h1]
      dsimp only
      rw [if_neg (by rw [hml]; simp [perfect])]
      rw [Interm.deleteIntermediateFile, if_pos]
      · rfl
      · show (m.present && m.libc.remove (m.clock + 1)) = true
        rw [hmp, hml]; rfl
    · rw [FaultyFaststart.copyMdatData, show i.x.w.mdat.content.length / COPY_MDAT_DATA_BUFFER_SIZE + 2 = N + 1 by rw [← hN], hends]
      show Except.ok _ = Except.ok m.x
      rw [h2]

/-- **C79** The other member functions, when they return, do not touch the intermediate file and the number of bytes counted: they are
calls of the kind `other` in a history. -/
theorem C79_others (i : Interm) (x : FaultyFaststart)
    (h : i.x.writeFtypBox = .ok x ∨ i.x.writeMoovBox = .ok x ∨ i.x.writeMdatHeader = .ok x ∨
      ∃ tracks w ts, i.x.members.appendTrakAndUdtaBoxInfo tracks = .ok (w, ts) ∧ x = { i.x with w }) :
    Does .other i (.returned none) { i with x } := by
  refine ⟨fun _ h => (by cases h), x, rfl, ?_⟩
  rcases h with h | h | h | ⟨tracks, w, ts, h, rfl⟩
  · rw [FaultyFaststart.writeFtypBox] at h
    split at h
    · cases h
    · cases h; exact ⟨rfl, rfl, rfl⟩
  · rw [FaultyFaststart.writeMoovBox] at h
    split at h
    · cases h
    · split at h
      · cases h
      · split at h
        · cases h
        · split at h
          · cases h
          · cases h; exact ⟨rfl, rfl, rfl⟩
  · rw [FaultyFaststart.writeMdatHeader] at h
    split at h
    · cases h
    · split at h
      · cases h
      · dsimp only at h
        split at h
        · cases h
        · split at h
          · cases h
          · split at h
            · cases h
            · cases h; exact ⟨rfl, rfl, rfl⟩
  · obtain ⟨h1, h2⟩ := append_mdat h
    exact ⟨rfl, h1, h2⟩

end Mp4
