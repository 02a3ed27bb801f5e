import Verif.Spec.Adapter
import Verif.Props.Sockets

/-! # Property C85: the adapter -/

namespace Asdf.Props

open Avr Spec Pcb

/-- **C85.** Two lines of the sockets of the adapter are connected if and only if they
are the same signal; every line is connected to something, and there is nothing but
connectors on the board. -/
theorem C85_lines :
    (∀ x ∈ adapterSockets, ∀ l ∈ x.2, (adapterNet x.1 l.1).isSome = true) ∧
      (∀ x ∈ adapterSockets, ∀ y ∈ adapterSockets, ∀ l ∈ x.2, ∀ m ∈ y.2,
        (adapterNet x.1 l.1 = adapterNet y.1 m.1 ↔ l.2 = m.2)) ∧
      ∀ p ∈ Data.adapter, p.kind = .connector := by decide +kernel

/-- **C85, from a keyboard to a computer.** A cable from a socket of a keyboard's interface
to the socket of the adapter with the same lines, and a computer on another socket of the
adapter: a line of the computer's socket whose signal the keyboard's socket has is
connected to a pin of the keyboard's socket with this signal, and to none with another
signal. -/
theorem C85_keyboard (A : Assembly) (sockets : List (Nat × List (Nat × Signal)))
    (h : (A, sockets) ∈ plugged328 ++ plugged2560) (k j j' : Nat) (lines lines' : List (Nat × Signal))
    (hk : (k, lines) ∈ sockets) (hj : (j, lines) ∈ adapterSockets) (hj' : (j', lines') ∈ adapterSockets)
    (pin' : Nat) (σ : Signal) (hp' : (pin', σ) ∈ lines') :
    ((∃ pin, (pin, σ) ∈ lines) →
      ∃ pin, (pin, σ) ∈ lines ∧ (A.plug k pin).isSome = true ∧ adapterNet j pin = adapterNet j' pin') ∧
    ∀ pin τ, (pin, τ) ∈ lines → adapterNet j pin = adapterNet j' pin' → τ = σ := by
  constructor
  · rintro ⟨pin, hp⟩
    refine ⟨pin, hp, ?_, (C85_lines.2.1 _ hj _ hj' _ hp _ hp').mpr rfl⟩
    rcases List.mem_append.mp h with h | h
    · obtain ⟨n, hn, _⟩ := socket_net (sockets_328 _ h _ hk) hp
      rw [hn]; rfl
    · obtain ⟨n, hn, _⟩ := socket_net (sockets_2560 _ h _ hk) hp
      rw [hn]; rfl
  · intro pin τ hp e
    exact (C85_lines.2.1 _ hj _ hj' _ hp _ hp').mp e

/-- Every socket of the interfaces for a computer has a counterpart on the adapter; the
strobe of an Apple 2 socket reaches pin 3 of the Sol-20 socket. -/
example : (∀ x ∈ plugged328 ++ plugged2560, ∀ s ∈ x.2, s.2 ∈ adapterSockets.map (·.2)) ∧
    (classic328 false, sockets328) ∈ plugged328 ++ plugged2560 ∧ (1, apple2Socket) ∈ sockets328 ∧
    (1, apple2Socket) ∈ adapterSockets ∧ (5, solSocket) ∈ adapterSockets ∧
    (3, .strobe) ∈ solSocket ∧ (2, .strobe) ∈ apple2Socket := by
  refine ⟨?_, .head _, by decide, by decide, by decide, by decide, by decide⟩
  intro x hx
  have : x.2 ∈ [sockets328, sockets2560, socketsSol1] := by
    simp only [plugged328, plugged2560, List.cons_append, List.nil_append, List.mem_cons, List.not_mem_nil,
      or_false] at hx
    rcases hx with rfl | rfl | rfl | rfl | rfl | rfl | rfl | rfl | rfl | rfl | rfl | rfl | rfl <;> simp
  have key : ∀ y ∈ [sockets328, sockets2560, socketsSol1], ∀ s ∈ y, s.2 ∈ adapterSockets.map (·.2) := by
    decide
  exact key _ this

end Asdf.Props
