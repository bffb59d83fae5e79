import Verif.Lemmas.UninitReader
import Verif.Props.Registry
import Verif.Spec.Tree

/-!
# C87: what uninitialised members contain does not show

`env o` and `env' o` are what the members that nobody initialised contain in the object made for the box at offset `o`.
-/

namespace Mp4
open Spec

private theorem sameResult_of {x y : Except Err (List Tree)} (h : SameEx Tree.AlikeList x y) : SameResult x y := by
  cases x with
  | error e => cases y with
    | error e' => exact h
    | ok us => exact h.elim
  | ok ts => cases y with
    | error e' => exact h.elim
    | ok us => exact h

/-- **C87** The same file read twice, with anything in the members that neither constructor nor `readData` gives a value: the same headers
are read, and either both readings end with the same exception, or they give the same boxes with contents that print the same text, write
the same bits and have the same size.  The only exception is `default_length` of an `sgpd` box with alternative startup entries that has
no such field: there the two must agree. -/
theorem C87_same (file : Bool) (map : BoxMap Kind) (data : List Byte) (env env' : Nat → Env) (hf : ∀ o, (env o).Fresh)
    (hf' : ∀ o, (env' o).Fresh) (vs : List BoxHeader) (res : Except Err (List Tree))
    (hr : ({ file := file, env := env, map := map, data := data } : SimpleReader).read = some ⟨vs, res⟩)
    (hp : ∀ h ∈ vs, (∃ t, map.getBoxInstance h.type = .known .sgpd t) → NoLength (slice data (h.offset + h.headerSize) h.getDataSize) →
      (env h.offset).sgpd.default_length = (env' h.offset).sgpd.default_length) :
    ∃ res', ({ file := file, env := env', map := map, data := data } : SimpleReader).read = some ⟨vs, res'⟩ ∧ SameResult res res' := by
  obtain ⟨res', h1, h2⟩ := SimpleReader.read_blind ⟨file, env, map, data⟩ env' hf hf' vs res hr (fun h hh hk hn => by
    refine hp h hh ?_ hn
    unfold SimpleReader.classOf at hk
    dsimp only at hk
    cases hg : map.getBoxInstance h.type with
    | unsupported => rw [hg] at hk; cases hk
    | known k t => rw [hg] at hk; exact ⟨t, by rw [show k = .sgpd from hk]⟩)
  exact ⟨res', h1, sameResult_of h2⟩

/-- **C87** With the types the library knows and a file in which no `sgpd` box is met, nothing has to agree. -/
theorem C87_no_sgpd (file : Bool) (data : List Byte) (env env' : Nat → Env) (hf : ∀ o, (env o).Fresh)
    (hf' : ∀ o, (env' o).Fresh) (vs : List BoxHeader) (res : Except Err (List Tree))
    (hr : ({ file := file, env := env, map := stdBoxMap, data := data } : SimpleReader).read = some ⟨vs, res⟩)
    (hp : ∀ h ∈ vs, h.type ≠ fourcc "sgpd") :
    ∃ res', ({ file := file, env := env', map := stdBoxMap, data := data } : SimpleReader).read = some ⟨vs, res'⟩ ∧ SameResult res res' := by
  refine C87_same file stdBoxMap data env env' hf hf' vs res hr fun h hh ⟨t, hk⟩ _ => absurd ?_ (hp h hh)
  rw [(C49_registered h.type 0).1] at hk
  cases hq : registered h.type with
  | none => rw [hq] at hk; cases hk
  | some d =>
    rw [hq] at hk
    dsimp only at hk
    injection hk with h1 _
    unfold registered at hq
    rw [Option.map_eq_some_iff] at hq
    obtain ⟨g, hg, hgd⟩ := hq
    have hm := List.mem_of_find?_eq_some hg
    have hc := List.find?_some hg
    have hg1 : g.1 = .sgpd := by rw [← h1, ← hgd]
    have key : ∀ g ∈ registry, g.1 = Kind.sgpd → g.2.2 = [fourcc "sgpd"] := by decide +kernel
    rw [key g hm hg1] at hc
    simpa using hc

private theorem alike_nil_cons (u : Tree) (us : List Tree) (h : Tree.AlikeList [] (u :: us)) : False := by
  cases u; simp [Tree.AlikeList] at h

private theorem alike_cons_nil (u : Tree) (us : List Tree) (h : Tree.AlikeList (u :: us) []) : False := by
  cases u; simp [Tree.AlikeList] at h

mutual
private theorem text_same : ∀ t u : Tree, t.Alike u → t.toText = u.toText
  | .node b p ls, .node c q ms, h => by
    rw [Tree.Alike] at h
    obtain ⟨h1, h2, h3, h4, h5⟩ := h
    rw [Tree.toText, Tree.toText, texts_same ls ms h5, h3]
    have : b.toText = c.toText := by
      unfold Box.toText
      rw [← h1, ← h2, h4.text]
    rw [this]
private theorem texts_same : ∀ ts us : List Tree, Tree.AlikeList ts us → Tree.toTexts ts = Tree.toTexts us
  | [], [], _ => rfl
  | [], _ :: _, h => (alike_nil_cons _ _ h).elim
  | _ :: _, [], h => (alike_cons_nil _ _ h).elim
  | t :: ts, u :: us, h => by
    rw [Tree.AlikeList] at h
    rw [Tree.toTexts, Tree.toTexts, text_same t u h.1, texts_same ts us h.2]
end

private theorem print_same : ∀ ts us : List Tree, Tree.AlikeList ts us → printBoxes ts = printBoxes us
  | [], [], _ => rfl
  | [], _ :: _, h => (alike_nil_cons _ _ h).elim
  | _ :: _, [], h => (alike_cons_nil _ _ h).elim
  | t :: ts, u :: us, h => by
    rw [Tree.AlikeList] at h
    rw [printBoxes, printBoxes, text_same t u h.1, print_same ts us h.2]

/-- **C87** `read` prints the same, and ends in the same way. -/
theorem C87_dump (file : Bool) (map : BoxMap Kind) (data : List Byte) (env env' : Nat → Env) (hf : ∀ o, (env o).Fresh)
    (hf' : ∀ o, (env' o).Fresh) (vs : List BoxHeader) (res : Except Err (List Tree))
    (hr : ({ file := file, env := env, map := map, data := data } : SimpleReader).read = some ⟨vs, res⟩)
    (hp : ∀ h ∈ vs, (∃ t, map.getBoxInstance h.type = .known .sgpd t) → NoLength (slice data (h.offset + h.headerSize) h.getDataSize) →
      (env h.offset).sgpd.default_length = (env' h.offset).sgpd.default_length) :
    ({ file := file, env := env, map := map, data := data } : SimpleReader).dump
      = ({ file := file, env := env', map := map, data := data } : SimpleReader).dump := by
  obtain ⟨res', h1, h2⟩ := C87_same file map data env env' hf hf' vs res hr hp
  unfold SimpleReader.dump
  rw [hr, h1]
  cases res with
  | error e => cases res' with
    | error e' => rw [show e = e' from h2]
    | ok us => exact h2.elim
  | ok ts => cases res' with
    | error e' => exact h2.elim
    | ok us =>
      show some (printBoxes ts) = some (printBoxes us)
      rw [print_same ts us h2]

mutual
private theorem write_same : ∀ (t u : Tree) (os : OStream), t.Alike u → t.All (fun b => underWave b.data = false) →
    (t.write os).1 = (u.write os).1 ∧ (t.write os).2.2 = (u.write os).2.2
  | .node b p ls, .node c q ms, os, h, hw => by
    rw [Tree.Alike] at h
    rw [Tree.All] at hw
    obtain ⟨h1, h2, h3, h4, h5⟩ := h
    have hb : (b.write os).1 = (c.write os).1 ∧ (b.write os).2.2 = (c.write os).2.2 := by
      unfold Box.write
      rw [← h2, ← h4.written hw.1]
      cases b.header with
      | none => exact ⟨rfl, rfl⟩
      | some h => exact ⟨rfl, rfl⟩
    rw [Tree.write, Tree.write]
    dsimp only
    rw [← hb.1, ← hb.2]
    cases (b.write os).1 with
    | error e => exact ⟨rfl, rfl⟩
    | ok n => exact writes_same ls ms _ h5 hw.2
private theorem writes_same : ∀ (ts us : List Tree) (os : OStream), Tree.AlikeList ts us → Tree.AllList (fun b => underWave b.data = false) ts →
    (Tree.writeList ts os).1 = (Tree.writeList us os).1 ∧ (Tree.writeList ts os).2.2 = (Tree.writeList us os).2.2
  | [], [], _, _, _ => ⟨rfl, rfl⟩
  | [], _ :: _, _, h, _ => (alike_nil_cons _ _ h).elim
  | _ :: _, [], _, h, _ => (alike_cons_nil _ _ h).elim
  | t :: ts, u :: us, os, h, hw => by
    rw [Tree.AlikeList] at h
    rw [Tree.AllList] at hw
    obtain ⟨k1, k2⟩ := write_same t u os h.1 hw.1
    rw [Tree.writeList, Tree.writeList]
    dsimp only
    rw [← k1, ← k2]
    cases (t.write os).1 with
    | error e => exact ⟨rfl, rfl⟩
    | ok n => exact writes_same ts us _ h.2 hw.2
end

/-- **C87** Saving the boxes read with `BoxInfo::write` ends in the same way and leaves the same stream, unless there is a sample entry below
a `wave` box. -/
theorem C87_saved (ts us : List Tree) (h : Tree.AlikeList ts us) (hw : Tree.AllList (fun b => underWave b.data = false) ts) (os : OStream) :
    (Tree.writeList ts os).1 = (Tree.writeList us os).1 ∧ (Tree.writeList ts os).2.2 = (Tree.writeList us os).2.2 :=
  writes_same ts us os h hw

end Mp4
