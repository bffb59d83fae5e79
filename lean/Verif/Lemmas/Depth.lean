import Verif.Spec.Depth
import Verif.Lemmas.Reader

namespace Mp4
attribute [local irreducible] BoxData.readData fourcc R.runC slice read_box_header

namespace SimpleReader
variable (sr : SimpleReader)

/-! ### enough room -/

theorem room_loop (hl : sr.data.length < 2 ^ 63) (fuel L D : Nat)
    (ih : 0 < D → ∀ path wave pos r, sr.data.length < pos + 8 * D → sr.readBox fuel path wave pos = some r →
      sr.stackBox L D path wave pos = some r) :
    ∀ n n' path wave limit done pos r, limit ≤ sr.data.length → n ≤ n' → sr.data.length < pos + 8 * D → (limit > done → 0 < D) →
      readLoop (sr.readBox fuel path wave) limit n done pos = some r →
      readLoop (sr.stackBox L D path wave) limit n' done pos = some r := by
  intro n n' path wave limit
  induction n generalizing n' with
  | zero => intro _ _ _ _ _ _ _ h; rw [readLoop] at h; cases h
  | succ n ihn =>
    intro done pos r hlim hn hD hd hr
    obtain ⟨n', rfl⟩ : ∃ m, n' = m + 1 := ⟨n' - 1, by omega⟩
    rw [readLoop] at hr ⊢
    split
    · rename_i hb
      rw [if_pos hb] at hr
      have hD0 := hd hb
      cases hk : sr.readBox fuel path wave pos with
      | none => rw [hk] at hr; cases hr
      | some q =>
        rw [ih hD0 _ _ _ _ hD hk]
        rw [hk] at hr
        obtain ⟨vs, res⟩ := q
        cases res with
        | error e => exact hr
        | ok x =>
          obtain ⟨size, t, e⟩ := x
          have hle := ((good sr hl fuel).1 _ _ _ _ hk).2
          have hle := hle.1.le
          simp only at hr ⊢
          cases hq : readLoop (sr.readBox fuel path wave) limit n (u64 (done + size)) e with
          | none => rw [hq] at hr; cases hr
          | some w =>
            rw [ihn n' _ _ _ hlim (by omega) (by omega) (fun _ => hD0) hq]; rw [hq] at hr; exact hr
    · rename_i hb
      rw [if_neg hb] at hr; exact hr

theorem room_box (hl : sr.data.length < 2 ^ 63) (fuel L D : Nat) (hL : fuel ≤ L) (hD0 : 0 < D) (path : List BoxType) (wave : Bool) (pos : Nat)
    (r : Run (Nat × Tree × Nat)) (hD : sr.data.length < pos + 8 * D) (hr : sr.readBox fuel path wave pos = some r) :
    sr.stackBox L D path wave pos = some r := by
  induction fuel generalizing D path wave pos r with
  | zero => rw [readBox] at hr; cases hr
  | succ fuel ih =>
    obtain ⟨D, rfl⟩ : ∃ m, D = m + 1 := ⟨D - 1, by omega⟩
    rw [readBox_succ] at hr
    rw [stackBox]
    generalize hh : read_box_header ⟨sr.data, pos⟩ = x
    cases x with
    | error e =>
      rw [sr.body_header_error hh] at hr ⊢
      exact hr
    | ok h =>
      generalize hc : sr.readContent wave h = y
      cases y with
      | error e =>
        rw [sr.body_content_error hh hc] at hr ⊢
        exact hr
      | ok x =>
        obtain ⟨b, rbytes⟩ := x
        obtain ⟨ho, h8, hp, hs⟩ := read_box_header_ok sr.data pos h (by omega) hh
        obtain ⟨hfit, hds⟩ := fits_of_check hl ho h8 hp hs
        obtain ⟨hg, hbh, -⟩ := sr.readContent_ok hc
        have hff := hfit.mp hg
        have hds := hds hff
        unfold Spec.Fits at hff
        rw [sr.body_ok hh hc] at hr ⊢
        generalize hk : readLoop (sr.readBox fuel (path ++ [b.type]) (decide (b.type = fourcc "wave")))
            h.getDataSize fuel rbytes (h.offset + h.headerSize + rbytes) = q at hr
        cases q with
        | none => cases hr
        | some q =>
          rw [room_loop sr hl fuel L D (fun h0 p w po r hlt hb => ih D (by omega) h0 p w po r hlt hb) fuel L _ _ _ _ _ _ (by omega) (by omega)
            (by rcases h8 with h8 | h8 <;> omega) (fun hgt => by rcases h8 with h8 | h8 <;> omega) hk]
          exact hr

/-! ### exactly the room needed -/

theorem exact_loop (fuel L D : Nat)
    (ih : ∀ path wave pos vs size t e, sr.readBox fuel path wave pos = some ⟨vs, .ok (size, t, e)⟩ →
      sr.stackBox L D path wave pos = if t.height ≤ D then some ⟨vs, .ok (size, t, e)⟩ else none) :
    ∀ n n' path wave limit done pos vs ts e, n ≤ n' →
      readLoop (sr.readBox fuel path wave) limit n done pos = some ⟨vs, .ok (ts, e)⟩ →
      readLoop (sr.stackBox L D path wave) limit n' done pos = if Tree.heightList ts ≤ D then some ⟨vs, .ok (ts, e)⟩ else none := by
  intro n n' path wave limit
  induction n generalizing n' with
  | zero => intro _ _ _ _ _ _ h; rw [readLoop] at h; cases h
  | succ n ihn =>
    intro done pos vs ts e hn hr
    obtain ⟨n', rfl⟩ : ∃ m, n' = m + 1 := ⟨n' - 1, by omega⟩
    rw [readLoop] at hr ⊢
    by_cases hb : limit > done
    · rw [if_pos hb] at hr ⊢
      generalize hk : sr.readBox fuel path wave pos = q at hr
      match q, hr with
      | some ⟨us, .ok (size, t, e1)⟩, hr =>
        dsimp only at hr
        generalize hq : readLoop (sr.readBox fuel path wave) limit n (u64 (done + size)) e1 = w at hr
        match w, hr with
        | some ⟨ws, .ok (ts', e2)⟩, hr =>
          cases hr
          rw [ih _ _ _ _ _ _ _ hk, Tree.heightList]
          by_cases h1 : t.height ≤ D
          · rw [if_pos h1]
            dsimp only
            rw [ihn n' _ _ _ _ _ (by omega) hq]
            by_cases h2 : Tree.heightList ts' ≤ D
            · rw [if_pos h2, if_pos (by omega)]
            · rw [if_neg h2, if_neg (by omega)]
          · rw [if_neg h1, if_neg (by omega)]
    · rw [if_neg hb] at hr ⊢
      cases hr
      rw [Tree.heightList, if_pos (Nat.zero_le _)]

theorem exact_box (fuel L : Nat) (hL : fuel ≤ L) : ∀ D path wave pos vs size t e,
    sr.readBox fuel path wave pos = some ⟨vs, .ok (size, t, e)⟩ →
      sr.stackBox L D path wave pos = if t.height ≤ D then some ⟨vs, .ok (size, t, e)⟩ else none := by
  induction fuel with
  | zero => intro _ _ _ _ _ _ _ _ hr; rw [readBox] at hr; cases hr
  | succ fuel ih =>
    intro D path wave pos vs size t e hr
    rw [readBox_succ] at hr
    cases D with
    | zero =>
      rw [stackBox]
      obtain ⟨b, p, ls⟩ := t
      rw [Tree.height, if_neg (by omega)]
    | succ D =>
      rw [stackBox]
      generalize hh : read_box_header ⟨sr.data, pos⟩ = x
      cases x with
      | error e => rw [sr.body_header_error hh] at hr; cases hr
      | ok h =>
        generalize hc : sr.readContent wave h = y
        cases y with
        | error e => rw [sr.body_content_error hh hc] at hr; cases hr
        | ok x =>
          obtain ⟨b, rbytes⟩ := x
          rw [sr.body_ok hh hc] at hr ⊢
          generalize hk : readLoop (sr.readBox fuel (path ++ [b.type]) (decide (b.type = fourcc "wave")))
              h.getDataSize fuel rbytes (h.offset + h.headerSize + rbytes) = q at hr
          match q, hr with
          | some ⟨us, .ok (leafs, e')⟩, hr =>
            cases hr
            rw [exact_loop sr fuel L D (ih (by omega) D) fuel L _ _ _ _ _ _ _ _ (by omega) hk, Tree.height]
            by_cases h1 : Tree.heightList leafs ≤ D
            · rw [if_pos h1, if_pos (by omega)]
            · rw [if_neg h1, if_neg (by omega)]

end SimpleReader
end Mp4
