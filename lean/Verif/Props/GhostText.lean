import Verif.Spec.GhostText
import Verif.Lemmas.GhostText
import Verif.Props.Ghosts
import Verif.Props.CHw

/-! # Property C119, continued: from the switches of a keyboard without diodes to the computer -/

namespace Asdf.Props

open Avr Spec Pcb

/-- A socket shows what it shows with a keyboard that has diodes. -/
theorem seesBare {A : Assembly} {k : Nat} {lines : List (Nat × Signal)} {closed : Sw → Bool} {low high : Net → Prop}
    {v : Nat → Bool} (h : SeesBare A k lines closed low high v) : SeesLines A k lines closed low high v :=
  fun x hx hl n hn => ⟨fun hp => (h x hx hl n hn).1 ((Ghosts.links_looser A).pulled hp), (h x hx hl n hn).2⟩

theorem atBare328 {A : Assembly} {k : Nat} {lines : List (Nat × Signal)} {r : Regs} {v : Nat → Bool}
    (h : AtBare328 A k lines r v) : AtSocket328 A k lines r v := by
  obtain ⟨q, closed, ext, h1, h2⟩ := h
  exact ⟨q, closed, ext, h1, seesBare h2⟩

theorem atBare2560 {A : Assembly} {k : Nat} {lines : List (Nat × Signal)} {r : Regs} {v : Nat → Bool}
    (h : AtBare2560 A k lines r v) : AtSocket2560 A k lines r v := by
  obtain ⟨closed, ext, h1, h2⟩ := h
  exact ⟨closed, ext, h1, seesBare h2⟩

/-- **C119, from the switches to the computer, with the ATmega328P.**  A keyboard without diodes on which there is
never an open corner: the shift register loads the closed switches of every row, and the computer has read exactly
what the two queues of C77 let through of what these switches typed and printed (C90). -/
theorem C119_computer_328 (A : Assembly) (ps : List Place) (g : Sw → Bool) (h : (A, ps, g) ∈ bare328 true)
    (sockets : List (Nat × List (Nat × Signal))) (hA : (A, sockets) ∈ plugged328)
    (k : Nat) (lines : List (Nat × Signal)) (hk : (k, lines) ∈ sockets) (pin : Nat)
    (hpin : (pin, .strobe) ∈ lines) (sw : Nat → Sw → Bool) (W : C.Outside) (hS : SwitchWorld ps sw W)
    (hno : ∀ t, ¬ OpenCorner ps g (sw t))
    (hW : SafeWorld W) (b : Bool) (hb : ∀ t, sw t (.dip 7) = b) (r0 : Regs) (sr : UInt8)
    (polls w n : Nat) (hw : 65536 ≤ w) (hp : polls < w) (hn : 23 ≤ n) :
    (∀ t r q (ext : Net → Prop) x, (∀ p ∈ rowPins328, isOutput r p = true) → (∀ n, ext n → Outside A n) →
      ReadsLevels (bare A) (column328 A) (sw t) (fun n => Low328 A r q n ∨ ext n) x →
      x = ~~~ W.keys t (M328.rowLines r)) ∧
    ∃ times hi h log, BetweenLooks C.board328 W w n r0 sr polls times ∧ InOrder 0 hi times ∧
      textRun C.board328 W w n r0 sr polls = some h ∧
      hi ≤ h.time ∧ h.found = times.length ∧ h.found ≤ h.ints ∧
      statesOf h = boardStates m328 r0 [.archInit] ++ log ∧
      ∀ edge v vs, AtBare328 A k lines (boardAfter m328 r0 [.archInit]) v →
        Watches (AtBare328 A k lines) log vs →
        computerReads lines edge v vs =
          (channel (typed fourMaps openLayout (readingsAt ps sw times))
            (said fourMaps openLayout (readingsAt ps sw times))).host.map Prod.snd := by
  refine ⟨fun t r q ext x hr hext hx => ?_, ?_⟩
  · rw [hS t]
    exact C119_read_328 A ps g h r hr q (sw t) (hno t) ext hext x hx
  · obtain ⟨times, hi, hh, log, e0, e1, e2, e3, e4, e5, e6, e7⟩ := C90_computer_328 A ps (ghosts328 h).2 sockets hA k
      lines hk pin hpin sw W hS hW b hb r0 sr polls w n hw hp hn
    exact ⟨times, hi, hh, log, e0, e1, e2, e3, e4, e5, e6, fun edge v vs hv hvs =>
      e7 edge v vs (atBare328 hv) (watches_mono (fun _ _ => atBare328) hvs)⟩

/-- **C119, from the switches to the computer, with the ATmega2560.**  `cols closed r` is the byte at the column port
while the switches `closed` are closed and the registers are `r`, given by the levels on the board. -/
theorem C119_computer_2560 (A : Assembly) (ps : List Place) (g : Sw → Bool) (h : (A, ps, g) ∈ bare2560 true)
    (out : Net → Prop) (hout : ∀ n, out n → Outside A n) (cols : (Sw → Bool) → Regs → UInt8)
    (hcols : ∀ closed r, rowReady2560 r →
      ReadsLevels (bare A) (column2560 A) closed (fun n => Low2560 A r n ∨ out n) (cols closed r))
    (sockets : List (Nat × List (Nat × Signal))) (hA : (A, sockets) ∈ plugged2560)
    (k : Nat) (lines : List (Nat × Signal)) (hk : (k, lines) ∈ sockets) (pin : Nat)
    (hpin : (pin, .strobe) ∈ lines) :
    ∃ f, ∀ (sw : Nat → Sw → Bool) (W : C.Outside), SwitchWorld ps sw W → (∀ t, ¬ OpenCorner ps g (sw t)) →
      (∀ t r, rowReady2560 r → f (W.keys t) r = cols (sw t) r) ∧
      (SafeWorld W → ∀ b, (∀ t, sw t (.dip 7) = b) → ∀ (r0 : Regs) (sr : UInt8) (polls w n : Nat),
        65536 ≤ w → polls < w → 23 ≤ n →
        ∃ times hi h log, BetweenLooks (C.board2560 f) W w n r0 sr polls times ∧ InOrder 0 hi times ∧
          textRun (C.board2560 f) W w n r0 sr polls = some h ∧
          hi ≤ h.time ∧ h.found = times.length ∧ h.found ≤ h.ints ∧
          statesOf h = boardStates m2560 r0 [.archInit] ++ log ∧
          ∀ edge v vs, AtBare2560 A k lines (boardAfter m2560 r0 [.archInit]) v →
            Watches (AtBare2560 A k lines) log vs →
            computerReads lines edge v vs =
              (channel (typed fourMaps openLayout (readingsAt ps sw times))
                (said fourMaps openLayout (readingsAt ps sw times))).host.map Prod.snd) := by
  obtain ⟨f, hf, hfc⟩ := bare_columns A ps g h out hout cols hcols
  refine ⟨f, fun sw W hS hno => ⟨fun t r hr => ?_, fun hW b hb r0 sr polls w n hw hp hn => ?_⟩⟩
  · rw [hS t]
    exact hfc _ (hno t) r hr
  · obtain ⟨times, hi, hh, log, h0, h1, h2, h3, hf4, h4, h5, h6⟩ := text_watched (.inr ⟨f, hf, rfl, rfl, rfl⟩)
      (boards2560_places (ghosts2560 h).2) hS hW hb r0 sr hw hp hn
    exact ⟨times, hi, hh, log, h0, h1, h2, h3, hf4, h4, h5, fun edge v vs hv hvs => h6 lines pin hpin
      (seven_lines _ (List.mem_append_right _ hA) _ hk (List.any_eq_true.mpr ⟨_, hpin, rfl⟩)) edge v vs
      (shows_2560 hA hk (atBare2560 hv)) (watches_mono (fun _ _ hv => shows_2560 hA hk (atBare2560 hv)) hvs)⟩

/-! ## Non-vacuity -/

/-- The nets at the signal lines of the sockets have nothing connected. -/
theorem line_closed_328 {A : Assembly} {sockets : List (Nat × List (Nat × Signal))} (h : (A, sockets) ∈ plugged328)
    {k : Nat} {lines : List (Nat × Signal)} (hk : (k, lines) ∈ sockets) {x : Nat × Signal} (hx : x ∈ lines)
    (hl : x.2.isLine = true) {n : Net} (hn : A.plug k x.1 = some n) : closedSet A.links [n] = true := by
  obtain ⟨pin, σ⟩ := x
  obtain ⟨m, hm, ho⟩ := socket_net (sockets_328 _ h _ hk) hx
  rw [hn] at hm
  cases hm
  unfold lineOk328 at ho
  cases hs : signalPin m328 σ with
  | none =>
    cases σ with
    | plus5 => cases hl
    | ground => cases hl
    | _ => cases hs
  | some z =>
    obtain ⟨p, inv⟩ := z
    rw [hs] at ho
    cases inv with
    | false => exact (Bool.and_eq_true _ _ ▸ ho).1
    | true => exact (Bool.and_eq_true _ _ ▸ ho).1

theorem line_closed_2560 {A : Assembly} {sockets : List (Nat × List (Nat × Signal))} (h : (A, sockets) ∈ plugged2560)
    {k : Nat} {lines : List (Nat × Signal)} (hk : (k, lines) ∈ sockets) {x : Nat × Signal} (hx : x ∈ lines)
    (hl : x.2.isLine = true) {n : Net} (hn : A.plug k x.1 = some n) : closedSet A.links [n] = true := by
  obtain ⟨pin, σ⟩ := x
  obtain ⟨m, hm, ho⟩ := socket_net (sockets_2560 _ h _ hk) hx
  rw [hn] at hm
  cases hm
  unfold lineOk2560 at ho
  cases hs : signalPin m2560 σ with
  | none =>
    cases σ with
    | plus5 => cases hl
    | ground => cases hl
    | _ => cases hs
  | some z =>
    obtain ⟨p, inv⟩ := z
    rw [hs] at ho
    cases inv with
    | false => exact (Bool.and_eq_true _ _ ▸ ho).1
    | true => cases ho

/-- **C119, the lines** of the sockets carry the levels they carry with a keyboard that has diodes. -/
theorem C119_lines (A : Assembly) (sockets : List (Nat × List (Nat × Signal)))
    (h : (A, sockets) ∈ plugged328 ∨ (A, sockets) ∈ plugged2560) (k : Nat) (lines : List (Nat × Signal))
    (hk : (k, lines) ∈ sockets) (x : Nat × Signal) (hx : x ∈ lines) (hl : x.2.isLine = true) (n : Net)
    (hn : A.plug k x.1 = some n) (closed : Sw → Bool) (low ext : Net → Prop) (he : ¬ ext n) :
    PulledLow (bare A) closed (fun m => low m ∨ ext m) n ↔ PulledLow A.links closed (fun m => low m ∨ ext m) n := by
  have hc : closedSet A.links [n] = true := h.elim (line_closed_328 · hk hx hl hn) (line_closed_2560 · hk hx hl hn)
  obtain ⟨m, rfl⟩ := Ghosts.plug_io hn
  exact Ghosts.bare_single hc closed low ext he

/-- So something can be seen at every socket, whatever the registers contain. -/
example (A : Assembly) (sockets : List (Nat × List (Nat × Signal))) (h : (A, sockets) ∈ plugged328) (k : Nat)
    (lines : List (Nat × Signal)) (hk : (k, lines) ∈ sockets) (r : Regs) : ∃ v, AtBare328 A k lines r v := by
  obtain ⟨v, q, closed, ext, h1, h2⟩ := C87_visible_328 A sockets h k lines hk r
  exact ⟨v, q, closed, ext, h1, fun x hx hl n hn => ⟨fun hp => (h2 x hx hl n hn).1
    ((C119_lines A sockets (.inl h) k lines hk x hx hl n hn closed _ ext (h1 x hx hl n hn)).mp hp), (h2 x hx hl n hn).2⟩⟩

example (A : Assembly) (sockets : List (Nat × List (Nat × Signal))) (h : (A, sockets) ∈ plugged2560) (k : Nat)
    (lines : List (Nat × Signal)) (hk : (k, lines) ∈ sockets) (r : Regs) : ∃ v, AtBare2560 A k lines r v := by
  obtain ⟨v, closed, ext, h1, h2⟩ := C87_visible_2560 A sockets h k lines hk r
  exact ⟨v, closed, ext, h1, fun x hx hl n hn => ⟨fun hp => (h2 x hx hl n hn).1
    ((C119_lines A sockets (.inr h) k lines hk x hx hl n hn closed _ ext (h1 x hx hl n hn)).mp hp), (h2 x hx hl n hn).2⟩⟩

theorem steady_world (ps : List Place) (sw : Sw → Bool) :
    SwitchWorld ps (fun _ => sw) ⟨fun _ => closedKeys ps sw, fun _ _ => 0, fun _ => true⟩ := fun _ => rfl

/-- One key is closed. -/
def holdsA (s : Sw) : Bool := s = .key 54

/-- The boards are among those with sockets, and a keyboard on which at most two switches are closed at a time has
no open corner. -/
example : (∃ s, (classic328 true, s) ∈ plugged328) ∧ (∃ s, (classicEnc true, s) ∈ plugged2560) ∧
    SwitchWorld classicPlaces (fun _ => holdsA) ⟨fun _ => closedKeys classicPlaces holdsA, fun _ _ => 0, fun _ => true⟩ ∧
    ¬ OpenCorner classicPlaces classicGuarded holdsA := by
  have h1 : (classic328 true, sockets328) ∈ plugged328 := by
    unfold plugged328
    exact List.mem_cons_of_mem _ List.mem_cons_self
  have h2 : (classicEnc true, sockets2560) ∈ plugged2560 := by
    unfold plugged2560
    iterate 6 apply List.mem_cons_of_mem
    exact List.mem_cons_self
  have h3 : ∀ s, holdsA s = true → s = .key 54 ∨ s = .key 54 := by
    intro s h
    unfold holdsA at h
    exact .inl (of_decide_eq_true h)
  have h4 : classicPlaces ∈ [classicPlaces, solPlaces] := List.mem_cons_self
  exact ⟨⟨_, h1⟩, ⟨_, h2⟩, steady_world _ _, C119_two_switches _ h4 _ _ _ _ h3⟩

end Asdf.Props
