import Verif.Lemmas.Host
import Verif.Props.Channel
import Verif.Props.Interrupts

/-! # Property C78: exactly what the computer reads

A host that takes the data at every rising edge, or at every falling edge, of the
strobe (`Spec/Host.lean`), with no condition on the strobe polarity. -/

namespace Asdf.Props

open Avr Spec HostWires

/-- A run on a board, read by a host. -/
theorem life_reads {B : Board} {T : Whole.Target} (hB : Built B T) {cfg : Config} {L : Layout}
    (hc : cfgOk cfg L = true) (r0 : Regs) {mxs : List (Nat → Whole.Contacts)}
    (hin : ∀ mx ∈ mxs, Allowed L (contactsRead mx)) {w : Whole.Whole}
    (hw : Whole.life T cfg r0 mxs = .ok w) (edge : Bool) :
    latched B edge r0 w.log = hostReads edge (wiresOf B r0) w.fw.dev.trace := by
  obtain ⟨ready, hf⟩ := hB.onBoard
  obtain ⟨w', e1, _, _, hg⟩ := whole_life hf (cfgFacts hc) r0 mxs hin
  rw [e1] at hw
  have hs := Except.ok.inj hw
  subst hs
  exact (path_host hf.mem edge hg.path rfl rfl).1

/-- **C78.** On both boards, from any register contents at power-up and in every run, a
host that takes the data at one of the two edges of the strobe reads each code sent
exactly once, in order, in either polarity; and one byte more for each change of the
polarity that moves the strobe in that direction: the code sent last, or NUL if it was
the selection of a keymap that changed the polarity. -/
theorem C78_reads (B : Board) (T : Whole.Target) (hB : Built B T) (cfg : Config) (L : Layout)
    (hc : cfgOk cfg L = true) (r0 : Regs) (mxs : List (Nat → Whole.Contacts))
    (hin : ∀ mx ∈ mxs, Allowed L (contactsRead mx)) (edge : Bool) :
    ∃ w, Whole.life T cfg r0 mxs = .ok w ∧
      latched B edge r0 w.log = hostReads edge (wiresOf B r0) w.fw.dev.trace ∧
      (sends w.fw.dev.trace).Sublist (latched B edge r0 w.log) := by
  obtain ⟨w, e1, _⟩ := C59_whole_board B T hB cfg L hc r0 mxs hin
  have h := life_reads hB hc r0 hin e1 edge
  exact ⟨w, e1, h, by rw [h]; exact reads_sublist _ _ _⟩

/-- **C78, the shipped firmware.** The same for every safe use of the shipped firmware
(see C72). -/
theorem C78_shipped (B : Board) (T : Whole.Target) (hB : Built B T) (r0 : Regs)
    (mxs : List (Nat → Whole.Contacts)) (h : NeverTrips (mxs.map contactsRead)) (edge : Bool) :
    ∃ w, Whole.life T shipped r0 mxs = .ok w ∧
      latched B edge r0 w.log = hostReads edge (wiresOf B r0) w.fw.dev.trace ∧
      (sends w.fw.dev.trace).Sublist (latched B edge r0 w.log) := by
  obtain ⟨w, e1, e2, _⟩ := C75_board_safe B T hB r0 mxs h
  have hr := life_reads hB fourMaps_ok r0 (fun mx _ => openLayout_allowed _) e2 edge
  exact ⟨w, e1, hr, by rw [hr]; exact reads_sublist _ _ _⟩

theorem sends_hostSees (t : List Event) : sends t = (hostSees t).map Prod.snd := by
  fun_induction hostSees t with
  | case1 => rfl
  | case2 m c es ih => exact congrArg (c :: ·) ih
  | case3 c es ih => exact congrArg (c :: ·) ih
  | case4 e es h1 h2 ih =>
    rw [← ih]
    cases e with
    | send c => exact absurd rfl (h2 c)
    | _ => rfl

/-- In positive polarity, from a low strobe, nothing is added. -/
theorem reads_positive (edge : Bool) (t : List Event) (w : Wires) (hw : w.strobe = false)
    (hn : Event.negStrobe ∉ t) : hostReads edge w t = sends t := by
  have hlow : ∀ a : List Event, Event.negStrobe ∉ a → (a.foldl Wires.after w).strobe = false := by
    intro a
    induction a using snoc_induction with
    | h0 => intro _; exact hw
    | h1 a e ih =>
      intro h
      have := ih fun hc => h (List.mem_append_left _ hc)
      rw [List.foldl_append]
      cases e with
      | negStrobe => exact absurd (List.mem_append_right _ List.mem_cons_self) h
      | posStrobe => rfl
      | archInit => rfl
      | _ => exact this
  apply reads_exact
  intro a e b he hs
  rw [hlow a (fun hc => hn (by rw [he]; exact List.mem_append_left _ hc))] at hs
  rw [hlow (a ++ [e]) (fun hc => hn (by
    rw [he]
    rcases List.mem_append.mp hc with hc | hc
    · exact List.mem_append_left _ hc
    · rw [List.mem_singleton.mp hc]; exact List.mem_append_right _ List.mem_cons_self))]
  exact hs

/-- The shipped firmware on a board, as the computer reads it. -/
theorem board_host {B : Board} {T : Whole.Target} (hB : Built B T) (r0 : Regs)
    (h0 : level r0 B.strobe = false) {mxs : List (Nat → Whole.Contacts)} (sw : Bool)
    (h : NeverTrips (mxs.map contactsRead))
    (hsw : ∀ mx ∈ mxs, sample (contactsRead mx) 8 6 = sw) :
    ∃ w, Whole.life T shipped r0 mxs = .ok w ∧ ∀ edge, latched B edge r0 w.log =
        (channel (typed fourMaps openLayout (mxs.map contactsRead))
          (said fourMaps openLayout (mxs.map contactsRead))).host.map Prod.snd := by
  obtain ⟨w, e1, e2, e3, _⟩ := C75_board_safe B T hB r0 mxs h
  refine ⟨w, e1, fun edge => ?_⟩
  have hr := life_reads hB fourMaps_ok r0 (fun mx _ => openLayout_allowed _) e2 edge
  have hstrobe : placed fourMaps openLayout .strobeSelect [(8, 6)] = true ∧
      ∀ i ∈ openLayout.maps, SetupCmd.negStrobe ∉ fourMaps.setup i := by decide +kernel
  have hn := after_positive (cfgFacts fourMaps_ok) hstrobe.1 hstrobe.2 (mxs.map contactsRead)
    (fun inp _ => openLayout_allowed inp) (b := sw) (by
    intro inp hi
    obtain ⟨mx, hm, rfl⟩ := List.mem_map.mp hi
    exact hsw mx hm)
  rw [hr, reads_positive edge _ _ h0 (by rw [e3]; exact hn), sends_hostSees, e3,
    (after_onLine fourMaps openLayout _).host]

/-- **C78, from the keys to the computer.** The shipped firmware on either board, under
every interleaving of the timer interrupt and for every behaviour of the key contacts:
if the use is safe (C72) and switch 6 is not moved, the computer, whichever edge it
uses, has read exactly what the two queues of C77 let through of what was typed and
printed. -/
theorem C78_end_to_end (B : Board) (T : Whole.Target) (hB : Built B T) (r0 : Regs)
    (h0 : level r0 B.strobe = false) (flag : Bool) (l : List Machine.Step) (sw : Bool)
    (h : NeverTrips ((seen T shipped r0 flag l).map contactsRead))
    (hsw : ∀ mx ∈ seen T shipped r0 flag l, sample (contactsRead mx) 8 6 = sw) (edge : Bool) :
    ∃ m, Machine.life T shipped r0 flag l = .ok m ∧
      latched B edge r0 m.board.log =
        (channel (typed fourMaps openLayout ((seen T shipped r0 flag l).map contactsRead))
          (said fourMaps openLayout ((seen T shipped r0 flag l).map contactsRead))).host.map Prod.snd := by
  obtain ⟨m, h1, h2, _⟩ := machine_board (T := T) (cfg := shipped) (r0 := r0)
    (P := fun mxs => NeverTrips (mxs.map contactsRead))
    (fun a b hh pre inp post e => hh pre inp (post ++ b.map contactsRead) (by
      rw [List.map_append, e]; simp)) .nil
    (fun mxs h => by
      obtain ⟨w, e, _⟩ := C75_board_safe B T hB r0 mxs h
      exact ⟨w, e⟩) flag l h
  obtain ⟨w, e1, e2⟩ := board_host hB r0 h0 sw h hsw
  obtain rfl : m.board = w := Except.ok.inj (h2.symm.trans e1)
  exact ⟨m, h1, e2 edge⟩

/-- The key A and DIP switch 6 closed. -/
def contactsA6 : Nat → Whole.Contacts :=
  fun _ => ⟨fun r => if r = 8 then 0x40 else (contactsA r).keys r, 0, 0⟩

/-- The key A and switch 6 closed for ten scans, then open. -/
def switch6Opens : List (Nat → Whole.Contacts) :=
  List.replicate 10 contactsA6 ++ List.replicate 10 contactsNone

theorem switch6Opens_safe : NeverTrips (switch6Opens.map contactsRead) :=
  neverTrips_of (by decide +kernel)

/-- The hardware events of this run. -/
def switch6Events : List Event :=
  match powerUp shipped (switch6Opens.map contactsRead) with
  | .ok s => s.dev.trace
  | .error _ => []

theorem switch6Events_read : sends switch6Events = [0x61] ∧
    hostReads true (wiresOf m328 allZero) switch6Events = [0x61, 0x61] := by decide +kernel

/-- **C78, an extra character.** Switch 6 of the shipped firmware is opened while the
letter "a" is the code sent last: a computer that uses the rising edge reads "a" twice,
although it was sent once. -/
theorem C78_extra_character : NeverTrips (switch6Opens.map contactsRead) ∧
    ∃ w, Whole.life Whole.target328 shipped allZero switch6Opens = .ok w ∧
      sends w.fw.dev.trace = [0x61] ∧ latched m328 true allZero w.log = [0x61, 0x61] := by
  refine ⟨switch6Opens_safe, ?_⟩
  obtain ⟨w, e1, _, e2, _⟩ := C75_board_safe m328 Whole.target328 (.inl ⟨rfl, rfl⟩) allZero _
    switch6Opens_safe
  obtain ⟨w', f1, f2, _⟩ := C78_shipped m328 Whole.target328 (.inl ⟨rfl, rfl⟩) allZero _
    switch6Opens_safe true
  obtain rfl : w = w' := Except.ok.inj (e1.symm.trans f1)
  obtain ⟨s, g1, _, g2, _⟩ := C72_safe _ switch6Opens_safe
  have ht : switch6Events = w.fw.dev.trace := by
    unfold switch6Events
    rw [g1, e2]
    exact g2
  obtain ⟨h1, h2⟩ := switch6Events_read
  rw [ht] at h1 h2
  exact ⟨w, e1, h1, f2.trans h2⟩

/-- Non-vacuity of the other theorems: the strobe is low after a reset, and the rounds
of C74's example are a safe use with switch 6 open. -/
example : level allZero m328.strobe = false ∧ level allZero m2560.strobe = false ∧
    NeverTrips ((List.replicate 11 contactsA).map contactsRead) ∧
    (∀ mx ∈ List.replicate 11 contactsA, sample (contactsRead mx) 8 6 = false) ∧
    (channel (typed fourMaps openLayout ((List.replicate 11 contactsA).map contactsRead))
      (said fourMaps openLayout ((List.replicate 11 contactsA).map contactsRead))).host =
        [(false, 0x61)] := by
  refine ⟨by decide, by decide, neverTrips_of (by decide +kernel), ?_, by decide +kernel⟩
  intro mx hm
  rw [(List.mem_replicate.mp hm).2]
  decide

end Asdf.Props
