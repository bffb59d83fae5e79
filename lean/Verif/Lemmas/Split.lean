import Verif.Lemmas.Concat

/-! # Reading the beginning of a file -/

namespace Mp4

theorem parse_shorter {left left' : Nat} {q q' : Prop} [Decidable q] [Decidable q'] {bytes more : List Byte} {o : Nat} {h : BoxHeader}
    (hp : parseHeader left' q' (bytes ++ more) o = .ok h) (hne : h.extendToEof = false) (hle : h.headerSize ≤ left) (hq : ¬ q)
    (hb : h.headerSize ≤ bytes.length) (h8 : h.headerSize = SMALL_HEADER_SIZE ∨ h.headerSize = LARGE_HEADER_SIZE) :
    parseHeader left q bytes o = .ok h := by
  unfold parseHeader at hp ⊢
  split at hp
  · cases hp
  split at hp
  · cases hp
  have hS : SMALL_HEADER_SIZE = 8 := rfl
  have hL : LARGE_HEADER_SIZE = 16 := rfl
  rw [if_neg (by omega), if_neg hq]
  match bytes, hb with
  | a :: b :: c :: d' :: t0 :: t1 :: t2 :: t3 :: rest, hb =>
    simp only [List.cons_append] at hp ⊢
    generalize (be_to_uint32 a b c d').toNat = v at hp ⊢
    by_cases h0 : v = 0
    · rw [if_pos h0] at hp
      injection hp with hp
      rw [← hp] at hne
      cases hne
    rw [if_neg h0] at hp ⊢
    by_cases h1 : v = 1
    · rw [if_pos h1] at hp ⊢
      split at hp
      · cases hp
      have h16 : h.headerSize = LARGE_HEADER_SIZE := by
        split at hp
        · injection hp with hp
          rw [← hp]
        · cases hp
      rw [if_neg (by omega)]
      rw [List.length_cons, List.length_cons, List.length_cons, List.length_cons, List.length_cons, List.length_cons,
        List.length_cons, List.length_cons] at hb
      match rest, hb with
      | _ :: _ :: _ :: _ :: _ :: _ :: _ :: _ :: _, _ => exact hp
      | [], hb => simp only [List.length_nil, List.length_cons] at hb; omega
      | [_], hb => simp only [List.length_nil, List.length_cons] at hb; omega
      | [_, _], hb => simp only [List.length_nil, List.length_cons] at hb; omega
      | [_, _, _], hb => simp only [List.length_nil, List.length_cons] at hb; omega
      | [_, _, _, _], hb => simp only [List.length_nil, List.length_cons] at hb; omega
      | [_, _, _, _, _], hb => simp only [List.length_nil, List.length_cons] at hb; omega
      | [_, _, _, _, _, _], hb => simp only [List.length_nil, List.length_cons] at hb; omega
      | [_, _, _, _, _, _, _], hb => simp only [List.length_nil, List.length_cons] at hb; omega
    · rw [if_neg h1] at hp ⊢
      exact hp
  | [], hb => simp only [List.length_nil, List.length_cons] at hb; omega
  | [_], hb => simp only [List.length_nil, List.length_cons] at hb; omega
  | [_, _], hb => simp only [List.length_nil, List.length_cons] at hb; omega
  | [_, _, _], hb => simp only [List.length_nil, List.length_cons] at hb; omega
  | [_, _, _, _], hb => simp only [List.length_nil, List.length_cons] at hb; omega
  | [_, _, _, _, _], hb => simp only [List.length_nil, List.length_cons] at hb; omega
  | [_, _, _, _, _, _], hb => simp only [List.length_nil, List.length_cons] at hb; omega
  | [_, _, _, _, _, _, _], hb => simp only [List.length_nil, List.length_cons] at hb; omega

theorem header_shorter (A B : List Byte) (pos : Nat) (h : BoxHeader) (hl : (A ++ B).length < 2 ^ 64)
    (hr : read_box_header ⟨A ++ B, pos⟩ = .ok h) (hne : h.extendToEof = false) (hp : pos + h.headerSize ≤ A.length) :
    read_box_header ⟨A, pos⟩ = .ok h := by
  obtain ⟨-, h8, -, -⟩ := read_box_header_ok (A ++ B) pos h (by omega) hr
  rw [List.length_append] at hl
  have hpos : pos ≤ A.length := by omega
  rw [read_box_header_parse] at hr ⊢
  have h3 : (A ++ B).drop pos = A.drop pos ++ B := by
    rw [List.drop_append, Nat.sub_eq_zero_of_le hpos, List.drop_zero]
  rw [h3] at hr
  refine parse_shorter hr hne ?_ (by omega) ?_ h8
  · rw [sub64_eq hpos (by omega)]; omega
  · rw [List.length_drop]; omega

namespace SimpleReader
variable (file : Bool) (env : Nat → Env) (map : BoxMap Kind) (A B : List Byte)

theorem content_shorter (hl : (A ++ B).length < 2 ^ 63) {wave : Bool} {pos : Nat} {h : BoxHeader} {x : Box × Nat}
    (hr : read_box_header ⟨A, pos⟩ = .ok h) (hc : (both file env map A B).readContent wave h = .ok x)
    (hd : h.offset + h.headerSize + h.getDataSize ≤ A.length) (hx : h.offset + h.headerSize + x.2 ≤ A.length) :
    (first env map A).readContent wave h = .ok x := by
  rw [List.length_append] at hl
  have hA : (first env map A).data.length = A.length := rfl
  have e1 : sub64 A.length h.offset = A.length - h.offset := sub64_eq (by omega) (by omega)
  rw [readContent_payload] at hc ⊢
  have hd' : slice (both file env map A B).data (h.offset + h.headerSize) h.getDataSize
      = slice (first env map A).data (h.offset + h.headerSize) h.getDataSize := by
    show ((A ++ B).drop _).take _ = (A.drop _).take _
    rw [List.drop_append, List.take_append_of_le_length (by rw [List.length_drop]; omega)]
  rw [hd'] at hc
  refine withPayload_ok hc ?_ ?_
  · rw [hA, e1, sub64_eq (by omega) (by omega)]
    omega
  · intro _ hh
    rw [hA] at hh
    omega

theorem loop_shorter (fuel : Nat) (path : List BoxType) (wave : Bool) (hl : (A ++ B).length < 2 ^ 63)
    (h : ∀ pos vs size t e, (both file env map A B).readBox fuel path wave pos = some ⟨vs, .ok (size, t, e)⟩ →
      (∀ h ∈ vs, h.extendToEof = false) → e ≤ A.length → (first env map A).readBox fuel path wave pos = some ⟨vs, .ok (size, t, e)⟩)
    (limit : Nat) (hlim : limit ≤ (A ++ B).length) : ∀ n done pos vs ts e, readLoop ((both file env map A B).readBox fuel path wave) limit n done pos
      = some ⟨vs, .ok (ts, e)⟩ → (∀ h ∈ vs, h.extendToEof = false) → e ≤ A.length →
    readLoop ((first env map A).readBox fuel path wave) limit n done pos = some ⟨vs, .ok (ts, e)⟩ := by
  intro n
  induction n with
  | zero => intro _ _ _ _ _ hr; cases hr
  | succ n ih =>
    intro done pos vs ts e hr hne he
    rw [readLoop] at hr ⊢
    split
    · next hb =>
      rw [if_pos hb] at hr
      cases hf : (both file env map A B).readBox fuel path wave pos with
      | none => rw [hf] at hr; cases hr
      | some r =>
        rw [hf] at hr
        obtain ⟨us, res⟩ := r
        cases res with
        | error x => cases hr
        | ok x =>
          obtain ⟨size, t, e'⟩ := x
          dsimp only at hr
          cases hq : readLoop ((both file env map A B).readBox fuel path wave) limit n (u64 (done + size)) e' with
          | none => rw [hq] at hr; cases hr
          | some r =>
            rw [hq] at hr
            obtain ⟨ws, res⟩ := r
            cases res with
            | error x => cases hr
            | ok x =>
              obtain ⟨ts', e''⟩ := x
              cases hr
              obtain ⟨-, k, -⟩ := (good (both file env map A B) hl fuel).2 _ _ _ _ _ _ _ hlim hq
              have k := Spec.Chain.le k
              rw [h pos us size t e' hf (fun x hx => hne x (List.mem_append.mpr (.inl hx))) (by omega)]
              dsimp only
              rw [ih _ _ _ _ _ hq (fun x hx => hne x (List.mem_append.mpr (.inr hx))) he]
    · next hb =>
      rw [if_neg hb] at hr
      exact hr

theorem box_shorter (hl : (A ++ B).length < 2 ^ 63) (fuel : Nat) : ∀ path wave pos vs size t e,
    (both file env map A B).readBox fuel path wave pos = some ⟨vs, .ok (size, t, e)⟩ → (∀ h ∈ vs, h.extendToEof = false) →
    e ≤ A.length → (first env map A).readBox fuel path wave pos = some ⟨vs, .ok (size, t, e)⟩ := by
  induction fuel with
  | zero => intro _ _ _ _ _ _ _ hr; cases hr
  | succ fuel ih =>
    intro path wave pos vs size t e hr hne he
    obtain ⟨hj, -, -, -, -, -, hge, -⟩ := (good (both file env map A B) hl (fuel + 1)).1 _ _ _ _ hr
    have hj : ∀ h ∈ vs, Spec.Fits _ h := hj
    have hge : pos + size ≤ e := hge
    rw [readBox_succ] at hr ⊢
    cases hh : read_box_header ⟨A ++ B, pos⟩ with
    | error x => rw [body_header_error _ (show read_box_header ⟨(both file env map A B).data, pos⟩ = _ from hh)] at hr; cases hr
    | ok h =>
      cases hc : (both file env map A B).readContent wave h with
      | error x => rw [body_content_error _ (show read_box_header ⟨(both file env map A B).data, pos⟩ = _ from hh) hc] at hr; cases hr
      | ok x =>
        obtain ⟨b, n⟩ := x
        rw [body_ok _ (show read_box_header ⟨(both file env map A B).data, pos⟩ = _ from hh) hc] at hr
        generalize hq : readLoop ((both file env map A B).readBox fuel (path ++ [b.type]) (decide (b.type = fourcc "wave"))) h.getDataSize
            fuel n (h.offset + h.headerSize + n) = q at hr
        match q, hr, hq with
        | some ⟨ws, .ok (ls, e')⟩, hr, hq =>
          cases hr
          obtain ⟨ho, h8, hp, hs⟩ := read_box_header_ok (A ++ B) pos h (by omega) hh
          have hfit : Spec.Fits (A ++ B).length h := hj h (List.mem_cons_self ..)
          have hds := (fits_of_check (by exact hl) ho h8 hp hs).2 hfit
          unfold Spec.Fits at hfit
          have hlim : h.getDataSize ≤ (A ++ B).length := by rw [hds]; omega
          obtain ⟨-, k, -⟩ := (good (both file env map A B) hl fuel).2 _ _ _ _ _ _ _ hlim hq
          have k := Spec.Chain.le k
          have hh' := header_shorter A B pos h (by omega) hh (hne h (List.mem_cons_self ..)) (by omega)
          rw [body_ok _ (show read_box_header ⟨(first env map A).data, pos⟩ = _ from hh')
            (content_shorter file env map A B hl hh' hc (by omega) (by show h.offset + h.headerSize + n ≤ _; omega)),
            loop_shorter file env map A B fuel _ _ hl (fun pos => ih _ _ pos) _ hlim _ _ _ _ _ _ hq
              (fun x hx => hne x (List.mem_cons_of_mem _ hx)) he]

end SimpleReader
end Mp4
