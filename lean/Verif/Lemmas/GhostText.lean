import Verif.Lemmas.Ghosts
import Verif.Lemmas.Sockets

/-! # The interface board of a keyboard without diodes -/

namespace Asdf.Ghosts

open Pcb Spec Avr

/-- Both ends are nets of one board. -/
def Within (f : Nat → Net) : Link → Prop
  | .switch _ a b | .diode a b | .wire a b => (∃ x, a = f x) ∧ ∃ y, b = f y

theorem link_within {f : Nat → Net} {p : Part} {mk : Net → Net → Link} (hm : ∀ x y, Within f (mk (f x) (f y)))
    {i j : Nat} : ∀ l ∈ p.link f mk i j, Within f l := by
  intro l hl
  unfold Part.link at hl
  cases h1 : p.net i with
  | none => rw [h1] at hl; cases hl
  | some a =>
    cases h2 : p.net j with
    | none => rw [h1, h2] at hl; cases hl
    | some b =>
      rw [h1, h2] at hl
      rw [List.mem_singleton.mp hl]
      exact hm a b

theorem part_within (f : Nat → Net) (cut : Bool) (p : Part) : ∀ l ∈ p.links f cut, Within f l := by
  intro l hl
  have ends : ∀ x y, (∃ z, f x = f z) ∧ ∃ z, f y = f z := fun x y => ⟨⟨x, rfl⟩, y, rfl⟩
  unfold Part.links at hl
  generalize p.kind = k at hl
  cases k with
  | key =>
    rcases List.mem_append.mp hl with hl | hl
    · exact link_within (mk := .switch _) (fun x y => ends x y) l hl
    · exact link_within (mk := .diode) (fun x y => ends x y) l hl
  | diode => exact link_within (mk := .diode) (fun x y => ends x y) l hl
  | led => exact link_within (mk := .diode) (fun x y => ends x y) l hl
  | bypassed =>
    cases cut with
    | true => exact link_within (mk := .diode) (fun x y => ends x y) l hl
    | false => exact link_within (mk := .wire) (fun x y => ends x y) l hl
  | dip =>
    obtain ⟨i, _, hl⟩ := List.mem_flatMap.mp hl
    exact link_within (mk := .switch _) (fun x y => ends x y) l hl
  | _ => cases hl

theorem wired_within {f : Nat → Net} {l : Link} (h : Within f l) : Within f (wired l) := by
  cases l <;> exact h

/-- No link of the keyboard touches a net of the interface. -/
theorem bare_closed {A : Assembly} {n : Nat} (h : closedSet A.links [.io n] = true) :
    closedSet (bare A) [.io n] = true := by
  unfold closedSet at h ⊢
  rw [List.all_eq_true] at h ⊢
  intro l hl
  unfold bare at hl
  simp only [List.mem_append, List.mem_flatMap] at hl
  rcases hl with (⟨p, hp, hl⟩ | hl) | hl
  · have hw : Within .kb l := by
      unfold bareLinks at hl
      by_cases hk : p.kind = .led
      · rw [if_pos hk] at hl
        exact part_within _ _ p l hl
      · rw [if_neg hk] at hl
        obtain ⟨l', hl', rfl⟩ := List.mem_map.mp hl
        exact wired_within (part_within _ _ p l' hl')
    cases l with
    | _ => obtain ⟨⟨x, rfl⟩, y, rfl⟩ := hw; rfl
  · refine h l ?_
    unfold Assembly.links
    simp only [List.mem_append, List.mem_flatMap]
    exact .inl (.inr hl)
  · refine h l ?_
    unfold Assembly.links
    simp only [List.mem_append]
    exact .inr hl

theorem links_looser (A : Assembly) : Looser A.links (bare A) := by
  intro l hl
  unfold Assembly.links at hl
  unfold bare
  simp only [List.mem_append, List.mem_flatMap] at hl ⊢
  rcases hl with (⟨p, hp, hl⟩ | hl) | hl
  · unfold bareLinks
    by_cases hk : p.kind = .led
    · exact .inl (.inl (.inl ⟨p, hp, by rw [if_pos hk]; exact hl⟩))
    · exact .inr (.inl (.inl ⟨p, hp, by rw [if_neg hk]; exact List.mem_map.mpr ⟨l, hl, rfl⟩⟩))
  · exact .inl (.inl (.inr hl))
  · exact .inl (.inr hl)

/-- A net of the interface with nothing connected. -/
theorem bare_single {A : Assembly} {n : Nat} (h : closedSet A.links [.io n] = true) (closed : Sw → Bool)
    (low ext : Net → Prop) (he : ¬ ext (.io n)) :
    PulledLow (bare A) closed (fun m => low m ∨ ext m) (.io n) ↔
      PulledLow A.links closed (fun m => low m ∨ ext m) (.io n) :=
  (single_low (bare_closed h) closed low ext he).trans (single_low h closed low ext he).symm

theorem plug_io {A : Assembly} {k pin : Nat} {n : Net} (h : A.plug k pin = some n) : ∃ x, n = .io x := by
  unfold Assembly.plug at h
  obtain ⟨p, _, h⟩ := Option.bind_eq_some_iff.mp h
  obtain ⟨x, _, rfl⟩ := Option.map_eq_some_iff.mp h
  exact ⟨x, rfl⟩

end Asdf.Ghosts
