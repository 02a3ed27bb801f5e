import Verif.Lemmas.Looks

/-! # What the boards can come to, whatever the keys do -/

namespace Asdf.C

open Avr Spec

theorem readable {B : Spec.Board} {T : Whole.Target} (hB : Built B T) : Readable T := by
  rcases hB with ⟨_, rfl⟩ | ⟨_, cols, _, rfl⟩
  · exact fun c row r _ => ⟨_, rfl⟩
  · intro c row r hr
    show ∃ q, M2560.readRow (cols c.keys) row r = .ok q
    have key := M328.forall_byte (P := fun row => row.toNat < 16 → (M2560.rowBytes row).isSome = true) (by decide +kernel) row hr
    unfold M2560.readRow
    split
    · next e => rw [e] at key; cases key
    · exact ⟨_, rfl⟩

theorem neverTrips_snoc {inps : List Input} {x : Input} (h : NeverTrips inps) (hx : ¬ Trips inps x) : NeverTrips (inps ++ [x]) := by
  intro pre inp post e
  rcases List.eq_nil_or_concat post with rfl | ⟨p, y, rfl⟩
  · obtain ⟨e1, e2⟩ := List.append_inj' e rfl
    cases e2
    cases e1
    exact hx
  · rw [List.concat_eq_append] at e
    have e : inps ++ [x] = (pre ++ inp :: p) ++ [y] := by rw [e]; simp
    obtain ⟨e1, _⟩ := List.append_inj' e rfl
    exact h pre inp p e1

/-- If the shipped firmware on a board has not failed, its state is one of two kinds, and the
hardware is initialised. -/
theorem life_sane {B : Spec.Board} {T : Whole.Target} (hB : Built B T) (r0 : Regs) (mxs : List (Nat → Whole.Contacts)) :
    ∀ wh, Whole.life T shipped r0 mxs = .ok wh → Sane wh.fw ∧ .archInit ∈ wh.fw.dev.trace := by
  obtain ⟨ready, hf⟩ := hB.onBoard
  have key : ∀ wh, Whole.life T shipped r0 mxs = .ok wh → .archInit ∈ wh.fw.dev.trace ∧
      (NeverTrips (mxs.map contactsRead) ∨ (ready wh.regs ∧ ∃ k, Trapped k wh.fw ∧ 1 ≤ k)) := by
    induction mxs using snoc_induction with
    | h0 =>
      intro wh e
      rw [life_same hf r0 [] .nil] at e
      exact ⟨whole_init hf fourMaps_facts r0 [] (fun mx _ => openLayout_allowed _) e, .inl .nil⟩
    | h1 mxs mx ih =>
      intro wh e
      rw [life_snoc] at e
      obtain ⟨w, e1, e2⟩ := bind_eq_ok.mp e
      obtain ⟨h1, h2⟩ := ih w e1
      have up : ∀ {w'}, Good B ready (physOf w) w' → .archInit ∈ w'.fw.dev.trace := by
        intro w' g
        obtain ⟨evs, _, t, _⟩ := g.path.trace
        have t : w'.fw.dev.trace = w.fw.dev.trace ++ evs := t
        rw [t]
        exact List.mem_append_left _ h1
      rcases h2 with h2 | ⟨hr, k, h3, h4⟩
      · by_cases ht : Trips (mxs.map contactsRead) (contactsRead mx)
        · obtain ⟨w', f1, f2, f3, f4⟩ := board_four hf r0 mxs
          rw [life_same hf r0 mxs h2, f1] at e1
          cases e1
          rcases (board_pass hf _ mx (p := physOf w) f2 f3 ⟨f4.ready, .refl _⟩).2 ht with e | ⟨w', m, g1, g2, gg, g3, g4⟩
          · rw [e] at e2; cases e2
          · rw [g1] at e2
            cases e2
            exact ⟨up gg, .inr ⟨gg.ready, m, g2, g3⟩⟩
        · have hn : NeverTrips ((mxs ++ [mx]).map contactsRead) := by
            rw [List.map_append]
            exact neverTrips_snoc h2 ht
          rw [← life_snoc, life_same hf r0 _ hn] at e
          exact ⟨whole_init hf fourMaps_facts r0 _ (fun mx _ => openLayout_allowed _) e, .inl hn⟩
      · rcases board_trap_pass hf (mx := mx) (p := physOf w) h3 ⟨hr, .refl _⟩ h4 with e | ⟨w', m, g1, g2, gg, g3, g4⟩
        · rw [e] at e2; cases e2
        · rw [g1] at e2
          cases e2
          exact ⟨up gg, .inr ⟨gg.ready, m, g2, g3⟩⟩
  intro wh e
  obtain ⟨h1, h2⟩ := key wh e
  refine ⟨?_, h1⟩
  rcases h2 with h2 | ⟨_, k, h3, h4⟩
  · obtain ⟨w', f1, f2, f3, f4⟩ := board_four hf r0 mxs
    rw [life_same hf r0 mxs h2, f1] at e
    cases e
    exact .inl ⟨_, f2, f3⟩
  · exact .inr ⟨k, h3, h4⟩

end Asdf.C
