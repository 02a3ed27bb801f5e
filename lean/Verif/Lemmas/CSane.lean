import Verif.Lemmas.CTrap

/-! # States that the shipped firmware can be in -/

namespace Asdf.C

open Spec

/-- The keymap is one of the first four and the DIP switches say so, or keymap 4 or 5 is selected. -/
def Sane (s : State) : Prop :=
  (∃ k, Shows fourMaps openLayout s k ∧ Follows k) ∨ ∃ k, Trapped k s ∧ 1 ≤ k

variable {s : State}

theorem Sane.rows (h : Sane s) : ∃ nc, numRows s = .ok nc ∧ nc.toNat ≤ 16 := by
  rcases h with ⟨k, h, _⟩ | ⟨k, h, _⟩
  · obtain ⟨free, hwf⟩ := h.wf
    obtain ⟨nc, h1, h2⟩ := numRows_ok fourMaps_facts hwf.idx hwf.maps
    have h2 : nc.toNat = 9 := h2
    exact ⟨nc, h1, by omega⟩
  · obtain ⟨_, _, _, _, hwf⟩ := h.wf
    obtain ⟨nc, h1, _, h3⟩ := trap_rows hwf
    exact ⟨nc, h1, h3⟩

theorem Sane.hooks (h : Sane s) : s.hooks[HOOK_ROW_SCANNER]? = some .archReadRow ∧ s.hooks[HOOK_EACH_SCAN]? = some .null := by
  rcases h with ⟨k, h, _⟩ | ⟨k, h, _⟩
  · obtain ⟨free, hwf⟩ := h.wf
    obtain ⟨hk2, _, hk4, _⟩ := hooksOk_facts (fourMaps_facts.parts hwf.idx).2.2.2
    rw [← hwf.hooks] at hk2 hk4
    exact ⟨hk2, hk4⟩
  · obtain ⟨_, _, _, _, hwf⟩ := h.wf
    obtain ⟨hk2, _, hk4, _⟩ := hooksOk_facts (trap_tables _ hwf.idx).2.2
    rw [← hwf.hooks] at hk2 hk4
    exact ⟨hk2, hk4⟩

theorem Sane.output (h : Sane s) : ∃ s', outputPhase s = .ok s' ∧ Sane s' := by
  rcases h with ⟨k, h, hf⟩ | ⟨k, h, hk⟩
  · obtain ⟨s1, e1, e2⟩ := h.output fourMaps_facts
    exact ⟨s1, e1, .inl ⟨_, e2, hf.output⟩⟩
  · obtain ⟨s1, e1, e2⟩ := trap_output h
    exact ⟨s1, e1, .inr ⟨k, e2, hk⟩⟩

/-- One row, whatever is read. -/
theorem Sane.row (h : Sane s) {row : Nat} {nc ks sk : UInt8} (hn : numRows s = .ok nc) (hlt : row < nc.toNat)
    (hsk : s.stable[row]? = some sk) :
    (∀ s1, scanCols shipped row 256 0 (ks ^^^ sk) ks s = .ok s1 → Sane s1) ∧
    (∀ e, scanCols shipped row 256 0 (ks ^^^ sk) ks s = .error e →
      ∀ c st b, fn_asdf_keyscan.body.loops[1]? = some (c, st, b) → ∀ (w n : Nat) (x : Extra) (rest : List (L × Val)) (keys),
        300 ≤ w → Fits x s →
        turns (evalE (run prog w (n + 15)) c) (exec (run prog w (n + 15)) w b) (evalE (run prog w (n + 15)) st) w
          (K x s (colEnv row rest 0 (ks ^^^ sk) ks) [] keys) = .err .oob) := by
  rcases h with ⟨k, h, hfo⟩ | ⟨k, h, hk⟩
  · have hcf := fourMaps_facts
    obtain ⟨free, hwf⟩ := h.wf
    obtain ⟨nc', h1, h2⟩ := numRows_ok hcf hwf.idx hwf.maps
    have h2 : nc'.toNat = 9 := h2
    rw [hn] at h1
    cases h1
    let inp : Input := fun _ => ks
    have b1 : ∀ c, 0 ≤ c → c < 8 → bitOf ks (c - 0) = sample inp row c := fun c _ _ => by simp [sample, inp]
    have b2 : ∀ c, 0 ≤ c → c < 8 → bitOf (ks ^^^ sk) (c - 0) = (sample inp row c != accepted s row c) :=
      fun c _ _ => by simp [sample, inp, bitOf_xor, accepted, hsk]
    refine ⟨fun s1 hs => ?_, fun e he c st b hl w n x rest keys hw F => ?_⟩
    · obtain ⟨c1, c2⟩ := shipped_scanCols (inp := inp) (r := row) (by omega) 8 (fuel := 256)
        (col := 0) (changed := ks ^^^ sk) (keys := ks) h hfo (by omega) (by omega) b1 b2
      by_cases hc : Calm inp ((List.range' 0 8).map fun c => (row, c)) k
      · have hx : ∀ x ∈ (List.range' 0 8).map fun c => (row, c), x.1 < 9 ∧ x.2 < 8 := by
          intro x hx
          simp only [List.mem_map, List.mem_range'_1] at hx
          obtain ⟨c, hc, rfl⟩ := hx
          exact ⟨by omega, by omega⟩
        obtain ⟨s2, g1, g2⟩ := h.keys hcf (openLayout_allowed inp) _ hx
        have hsc' := c1 hc
        rw [hs, g1] at hsc'
        cases hsc'
        exact .inl ⟨_, g2, follows_keys inp _ hx hfo⟩
      · rcases c2 hc with g | ⟨s2, m1, g1, g2, g3, g4⟩
        · rw [hs] at g; cases g
        · rw [hs] at g1
          cases g1
          exact .inr ⟨m1, g2, g3⟩
    · exact cols_shows c st b hl hw n [] keys (inp := inp) (by omega) _ 8 256 0 w _ _ x s k e F h hfo (by omega) (by omega)
        (by omega) b1 b2 he
  · obtain ⟨_, _, _, _, hwf⟩ := h.wf
    obtain ⟨nc', h1, _, h3⟩ := trap_rows hwf
    rw [hn] at h1
    cases h1
    refine ⟨fun s1 hs => ?_, fun e he c st b hl w n x rest keys hw F => ?_⟩
    · exact .inr (scanCols_trapped 8 256 0 k _ _ s s1 h hk (by omega) (by omega) (by omega) hs)
    · exact cols_trapped c st b hl hw n [] keys (by omega) _ 8 256 0 w k _ _ x s e F h hk (by omega) (by omega)
        (by omega) he

end Asdf.C
