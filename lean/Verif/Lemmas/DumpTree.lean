import Verif.Lemmas.Reader
import Verif.Props.DumpText

/-! # The text of trees of boxes -/

namespace Mp4
namespace DumpTree

open Spec DumpText DumpInj Numerals

mutual
/-- Every box has a header, and the path has one element more than there are levels above. -/
def Dumpable (d : Nat) : Tree → Prop
  | .node b p ls => (∃ h, b.header = some h) ∧ p.length = d + 1 ∧ DumpableList (d + 1) ls
def DumpableList (d : Nat) : List Tree → Prop
  | [] => True
  | t :: ts => Dumpable d t ∧ DumpableList d ts
end

theorem join_newline (l : List (List Byte)) (h : l ≠ []) : List.intercalate b!"\n" l ++ b!"\n" = l.flatMap (fun x => x ++ b!"\n") := by
  cases l with
  | nil => exact absurd rfl h
  | cons x l =>
    rw [intercalate_cons]
    clear h
    simp only [List.flatMap_cons, List.append_assoc]
    congr 1
    induction l with
    | nil => rfl
    | cons y l ih => simp only [List.flatMap_cons, List.append_assoc, List.cons_append, List.nil_append] at ih ⊢; rw [← ih]

theorem render_ne_nil {fs : List Field} (h : fs ≠ []) : render fs ≠ [] := by
  cases fs with
  | nil => exact absurd rfl h
  | cons f l => rw [render_cons]; simp

theorem boxText_ok (b : Box) (h : BoxHeader) (hb : b.header = some h) (hs : Shown b) (d : Nat) :
    ∃ s, b.toText = .ok s ∧ List.replicate (2 * d) 0x20#8 ++ s = Line.text ⟨d, h.type, h.offset, h.size, fieldsOf b.type b.data⟩ := by
  have := (C66_text b.type b.data).1 hs
  refine ⟨_, by rw [Box.toText, this]; simp only [bind, Except.bind, hb, pure, Except.pure]; rfl, ?_⟩
  simp only [BoxHeader.toText, format_field, format_lit, format_nil, str_plain, u_plain, Line.text, List.append_assoc, List.append_nil, List.cons_append,
    List.nil_append]
  congr 8
  cases hf : fieldsOf b.type b.data with
  | nil => simp [render_nil]
  | cons f l =>
    have hne := render_ne_nil (fs := f :: l) (by simp)
    cases hr : render (f :: l) with
    | nil => exact absurd hr hne
    | cons c r => simp

theorem boxText_bad (b : Box) (hs : ¬ Shown b) : ∃ m, b.toText = .error (.ub m) := by
  obtain ⟨m, this⟩ := (C66_text b.type b.data).2 hs
  exact ⟨m, by rw [Box.toText, this]; rfl⟩

mutual
theorem toText_ok (d : Nat) : ∀ t : Tree, Dumpable d t → t.All Shown → ∃ s, t.toText = .ok s ∧ s ++ b!"\n" = printed (linesOf d t)
  | .node b p ls => by
    intro h hs
    simp only [Dumpable] at h
    simp only [Tree.All] at hs
    obtain ⟨⟨hd, hh⟩, hp, hl⟩ := h
    obtain ⟨ss, e1, e2, e3⟩ := toTexts_ok (d + 1) ls hl hs.2
    obtain ⟨s, e4, e5⟩ := boxText_ok b hd hh hs.1 d
    have hp' : (p.length - 1) * 2 = 2 * d := by omega
    have hp0 : ¬ p.length = 0 := by omega
    rw [Tree.toText, e1]
    simp only [bind, Except.bind, if_neg hp0, e4, hp']
    cases ss with
    | nil =>
      refine ⟨_, rfl, ?_⟩
      have : printed (linesOfList (d + 1) ls) = [] := by rw [← e2]; rfl
      simp only [printed] at this
      simp only [linesOf, hh, Option.toList, printed, List.map_cons, List.map_nil, List.flatMap_append, this, List.flatMap_cons, List.flatMap_nil, ← e5, format_field,
        format_nil, str_plain, List.append_assoc, List.append_nil]
    | cons x l =>
      refine ⟨_, rfl, ?_⟩
      have : (Arg.join (List.map Arg.str (x :: l)) b!"\n").text .plain = List.intercalate b!"\n" (x :: l) := by
        simp only [Arg.text, joinSep_eq, List.map_map]
        congr 1
        exact List.map_id _
      simp only [format_field, format_lit, format_nil, str_plain, this, List.append_assoc, List.append_nil]
      rw [join_newline _ (by simp), e2]
      simp only [linesOf, hh, Option.toList, printed, List.map_cons, List.map_nil, List.flatMap_append, List.flatMap_cons, List.flatMap_nil, ← e5,
        List.append_assoc, List.append_nil]
theorem toTexts_ok (d : Nat) : ∀ ts : List Tree, DumpableList d ts → Tree.AllList Shown ts →
    ∃ ss, Tree.toTexts ts = .ok ss ∧ ss.flatMap (fun x => x ++ b!"\n") = printed (linesOfList d ts) ∧ ss.length = ts.length
  | [] => fun _ _ => ⟨[], by rw [Tree.toTexts], rfl, rfl⟩
  | t :: ts => by
    intro h hs
    simp only [DumpableList] at h
    simp only [Tree.AllList] at hs
    obtain ⟨s, e1, e2⟩ := toText_ok d t h.1 hs.1
    obtain ⟨ss, e3, e4, e5⟩ := toTexts_ok d ts h.2 hs.2
    refine ⟨s :: ss, by rw [Tree.toTexts, e1, e3]; rfl, ?_, by simp [e5]⟩
    rw [List.flatMap_cons, e2, e4, linesOfList, printed, printed, printed, List.flatMap_append]
end

mutual
theorem toText_bad (d : Nat) : ∀ t : Tree, Dumpable d t → ¬ t.All Shown → ∃ m, t.toText = .error (.ub m)
  | .node b p ls => by
    intro h hs
    simp only [Dumpable] at h
    simp only [Tree.All] at hs
    obtain ⟨⟨hd, hh⟩, hp, hl⟩ := h
    have hp0 : ¬ p.length = 0 := by omega
    rw [Tree.toText]
    by_cases hc : Tree.AllList Shown ls
    · obtain ⟨ss, e1, -, -⟩ := toTexts_ok (d + 1) ls hl hc
      obtain ⟨m, e2⟩ := boxText_bad b (fun hb => hs ⟨hb, hc⟩)
      rw [e1]
      simp only [bind, Except.bind, if_neg hp0, e2]
      exact ⟨m, rfl⟩
    · obtain ⟨m, e1⟩ := toTexts_bad (d + 1) ls hl hc
      rw [e1]
      exact ⟨m, rfl⟩
theorem toTexts_bad (d : Nat) : ∀ ts : List Tree, DumpableList d ts → ¬ Tree.AllList Shown ts → ∃ m, Tree.toTexts ts = .error (.ub m)
  | [] => fun _ h => absurd trivial h
  | t :: ts => by
    intro h hs
    simp only [DumpableList] at h
    simp only [Tree.AllList] at hs
    rw [Tree.toTexts]
    by_cases hc : t.All Shown
    · obtain ⟨s, e1, -⟩ := toText_ok d t h.1 hc
      obtain ⟨m, e2⟩ := toTexts_bad d ts h.2 (fun hb => hs ⟨hc, hb⟩)
      exact ⟨m, by rw [e1, e2]; rfl⟩
    · obtain ⟨m, e1⟩ := toText_bad d t h.1 hc
      exact ⟨m, by rw [e1]; rfl⟩
end

/-! ## Trees made by a reader -/

variable (sr : SimpleReader)

theorem readBox_dumpable (fuel : Nat) :
    (∀ path wave pos vs size t pos', sr.readBox fuel path wave pos = some ⟨vs, .ok (size, t, pos')⟩ → Dumpable path.length t ∧ t.headers = vs) ∧
    (∀ n path wave limit done pos vs ts pos', SimpleReader.readLoop (sr.readBox fuel path wave) limit n done pos = some ⟨vs, .ok (ts, pos')⟩ →
      DumpableList path.length ts ∧ Tree.headersList ts = vs) := by
  have loop : ∀ fuel, (∀ path wave pos vs size t pos', sr.readBox fuel path wave pos = some ⟨vs, .ok (size, t, pos')⟩ →
        Dumpable path.length t ∧ t.headers = vs) →
      ∀ n path wave limit done pos vs ts pos', SimpleReader.readLoop (sr.readBox fuel path wave) limit n done pos = some ⟨vs, .ok (ts, pos')⟩ →
      DumpableList path.length ts ∧ Tree.headersList ts = vs := by
    intro fuel ih n path wave limit
    induction n with
    | zero => intro _ _ _ _ _ h; rw [SimpleReader.readLoop] at h; cases h
    | succ n ihn =>
      intro done pos vs ts pos' hr
      rw [SimpleReader.readLoop] at hr
      split at hr
      · split at hr
        · cases hr
        · cases hr
        · rename_i us size t e hk
          obtain ⟨k1, k2⟩ := ih _ _ _ _ _ _ _ hk
          split at hr
          · cases hr
          · cases hr
          · rename_i ws ts' e' hq
            cases hr
            obtain ⟨q1, q2⟩ := ihn _ _ _ _ _ hq
            exact ⟨by rw [DumpableList]; exact ⟨k1, q1⟩, by rw [Tree.headersList, k2, q2]⟩
      · cases hr
        exact ⟨trivial, rfl⟩
  suffices h : ∀ path wave pos vs size t pos', sr.readBox fuel path wave pos = some ⟨vs, .ok (size, t, pos')⟩ → Dumpable path.length t ∧ t.headers = vs from
    ⟨h, loop fuel h⟩
  induction fuel with
  | zero => intro _ _ _ _ _ _ _ h; rw [SimpleReader.readBox] at h; cases h
  | succ fuel ih =>
    intro path wave pos vs size t pos' hr
    rw [sr.readBox_succ] at hr
    generalize hh : read_box_header ⟨sr.data, pos⟩ = x at hr
    cases x with
    | error e => rw [sr.body_header_error hh] at hr; cases hr
    | ok h =>
      generalize hc : sr.readContent wave h = y at hr
      cases y with
      | error e => rw [sr.body_content_error hh hc] at hr; cases hr
      | ok x =>
        obtain ⟨b, rbytes⟩ := x
        rw [sr.body_ok hh hc] at hr
        split at hr
        · cases hr
        · cases hr
        · rename_i us leafs e hk
          cases hr
          obtain ⟨q1, q2⟩ := loop fuel ih _ _ _ _ _ _ _ _ _ hk
          have hb := (sr.readContent_ok hc).2.1
          simp only at hb
          rw [List.length_append] at q1
          refine ⟨by rw [Dumpable]; exact ⟨⟨_, hb⟩, by simp, q1⟩, by rw [Tree.headers, hb, q2]; rfl⟩

theorem read_dumpable (vs : List BoxHeader) (ts : List Tree) (h : sr.read = some ⟨vs, .ok ts⟩) :
    DumpableList 0 ts ∧ Tree.headersList ts = vs := by
  rw [SimpleReader.read, SimpleReader.readWith] at h
  split at h
  · cases h
  · cases h
  · rename_i us us' e hk
    cases h
    exact (readBox_dumpable sr _).2 _ [] _ _ _ _ _ _ _ hk

theorem printBoxes_ok (ts : List Tree) (hd : DumpableList 0 ts) (hs : Tree.AllList Shown ts) : printBoxes ts = (printed (linesOfList 0 ts), .ok ()) := by
  induction ts with
  | nil => rfl
  | cons t ts ih =>
    simp only [DumpableList] at hd
    simp only [Tree.AllList] at hs
    obtain ⟨s, e1, e2⟩ := toText_ok 0 t hd.1 hs.1
    rw [printBoxes, e1]
    simp only [ih hd.2 hs.2, e2, linesOfList, printed, List.flatMap_append]

theorem printBoxes_bad (ts us : List Tree) (t : Tree) (hd : DumpableList 0 (ts ++ t :: us)) (hs : Tree.AllList Shown ts) (ht : ¬ t.All Shown) :
    ∃ m, printBoxes (ts ++ t :: us) = (printed (linesOfList 0 ts), .error (.ub m)) := by
  induction ts with
  | nil =>
    simp only [List.nil_append, DumpableList] at hd
    obtain ⟨m, e⟩ := toText_bad 0 t hd.1 ht
    exact ⟨m, by rw [List.nil_append, printBoxes, e]; rfl⟩
  | cons x ts ih =>
    simp only [List.cons_append, DumpableList] at hd
    simp only [Tree.AllList] at hs
    obtain ⟨s, e1, e2⟩ := toText_ok 0 x hd.1 hs.1
    obtain ⟨m, e3⟩ := ih hd.2 hs.2
    refine ⟨m, ?_⟩
    rw [List.cons_append, printBoxes, e1]
    simp only [e3, e2, linesOfList, printed, List.flatMap_append]

end DumpTree
end Mp4
