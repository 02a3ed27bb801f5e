import Verif.Lemmas.Computer
import Verif.Props.Chars

/-! # Property C87: from the key switches to the computer's socket

`Spec/Computer.lean` says what a computer may see at the pins of its socket while the
controller's registers have given contents, and what it reads when it takes the data lines
at an edge of the strobe line. -/

namespace Asdf.Props

open Avr Pcb Spec HostWires

/-! ## Any firmware configuration -/

/-- **C87, on the ATmega328P interface.**  In every run, from any register contents, at
every socket: a computer that watches the lines of the socket from the end of the
initialisation of the hardware on, and takes the data lines at one edge of the strobe line,
reads what C78 says, as far as the socket has lines for the bits; whatever switches are
closed at any time, and whatever else is connected to the keyboard. -/
theorem C87_socket_328 (cfg : Config) (L : Layout) (hc : cfgOk cfg L = true) (r0 : Regs)
    (mxs : List (Nat → Whole.Contacts)) (hin : ∀ mx ∈ mxs, Allowed L (contactsRead mx)) :
    ∃ w t l, Whole.life Whole.target328 cfg r0 mxs = .ok w ∧ w.fw.dev.trace = .archInit :: t ∧
      w.log = boardStates m328 r0 [.archInit] ++ l ∧
      ∀ A sockets, (A, sockets) ∈ plugged328 → ∀ k lines, (k, lines) ∈ sockets → ∀ pin,
        (pin, .strobe) ∈ lines → ∀ edge v vs,
          AtSocket328 A k lines (boardAfter m328 r0 [.archInit]) v →
          Watches (AtSocket328 A k lines) l vs →
          computerReads lines edge v vs = (hostReads edge ⟨false, 0⟩ t).map (· &&& lineBits lines) := by
  have hB : Built m328 Whole.target328 := .inl ⟨rfl, rfl⟩
  obtain ⟨w, e1, _⟩ := C59_whole_board m328 _ hB cfg L hc r0 mxs hin
  obtain ⟨t, l, h1, h2, h3⟩ := life_watched hB hc r0 hin e1
  refine ⟨w, t, l, e1, h1, h2, fun A sockets h k lines hk pin hs edge v vs hv hvs => ?_⟩
  exact h3 lines pin hs edge v vs (shows_328 h hk hv) (watches_mono (fun _ _ => shows_328 h hk) hvs)

/-- **C87, on the boards with the ATmega2560.** -/
theorem C87_socket_2560 (T : Whole.Target) (hB : Built m2560 T) (cfg : Config) (L : Layout)
    (hc : cfgOk cfg L = true) (r0 : Regs)
    (mxs : List (Nat → Whole.Contacts)) (hin : ∀ mx ∈ mxs, Allowed L (contactsRead mx)) :
    ∃ w t l, Whole.life T cfg r0 mxs = .ok w ∧ w.fw.dev.trace = .archInit :: t ∧
      w.log = boardStates m2560 r0 [.archInit] ++ l ∧
      ∀ A sockets, (A, sockets) ∈ plugged2560 → ∀ k lines, (k, lines) ∈ sockets → ∀ pin,
        (pin, .strobe) ∈ lines → ∀ edge v vs,
          AtSocket2560 A k lines (boardAfter m2560 r0 [.archInit]) v →
          Watches (AtSocket2560 A k lines) l vs →
          computerReads lines edge v vs = (hostReads edge ⟨false, 0⟩ t).map (· &&& lineBits lines) := by
  obtain ⟨w, e1, _⟩ := C59_whole_board m2560 _ hB cfg L hc r0 mxs hin
  obtain ⟨t, l, h1, h2, h3⟩ := life_watched hB hc r0 hin e1
  refine ⟨w, t, l, e1, h1, h2, fun A sockets h k lines hk pin hs edge v vs hv hvs => ?_⟩
  exact h3 lines pin hs edge v vs (shows_2560 h hk hv) (watches_mono (fun _ _ => shows_2560 h hk) hvs)

/-! ## The shipped firmware -/

/-- The four keymaps send ASCII codes only. -/
theorem four_ascii (inps : List Input) : ∀ x ∈ sends (Kb.after fourMaps openLayout inps).trace, x.toNat < 0x80 := by
  have h := after_genuine fourMaps_facts inps fun inp _ => openLayout_allowed inp
  intro x hx
  rcases mem_heard hx with hx | hx
  · obtain ⟨i, hi, text, ht, hm⟩ := h.sent _ hx
    have := List.all_eq_true.mp (shipped_messages_ascii i hi _ ht) x hm
    simpa using this
  · obtain ⟨hlt, i, hi, r, c, sh, ca, ct, hr, hcl, e⟩ := h.sent _ hx
    have := shipped_keys_ascii i hi r hr c hcl sh ca ct
    have e : codeUnder shipped i shippedLayout.cols r c sh ca ct = x := e
    rw [e] at this
    exact this hlt

/-- Every socket for a computer has the seven lines of an ASCII code. -/
theorem seven_lines : ∀ x ∈ plugged328 ++ plugged2560, ∀ y ∈ x.2, y.2.any (·.2 == .strobe) = true →
    lineBits y.2 &&& 0x7f = 0x7f := by decide +kernel

theorem ascii_lines {m c : Code} (hm : m &&& 0x7f = 0x7f) (hc : c.toNat < 0x80) : c &&& m = c := by
  have h1 : c &&& 0x7f = c := by
    have : ∀ n, n < 0x80 → (UInt8.ofNat n &&& 0x7f) = UInt8.ofNat n := by decide +kernel
    have := this c.toNat hc
    rwa [UInt8.ofNat_toNat] at this
  calc c &&& m = (c &&& 0x7f) &&& m := by rw [h1]
    _ = c &&& (m &&& 0x7f) := by rw [UInt8.and_assoc, UInt8.and_comm 0x7f m]
    _ = c := by rw [hm, h1]

/-- DIP switch 7, which selects the polarity of the strobe, is at row 8, column 6. -/
theorem dip7 {ps : List Place} (hps : ps ∈ [classicPlaces, solPlaces]) (sw : Nat → Sw → Bool) :
    sample (pressed ps sw) 8 6 = sw 8 (.dip 7) := by
  have key : ∀ ps ∈ [classicPlaces, solPlaces], (∀ p ∈ ps, p.col < 8) ∧
      (∀ p ∈ ps, p.row = 8 → p.col = 6 → p.sw = .dip 7) ∧
      ∃ p ∈ ps, p.col = 6 ∧ p.row = 8 ∧ p.sw = .dip 7 := by decide +kernel
  obtain ⟨h1, h2, p, hp, h3, h4, h5⟩ := key ps hps
  unfold sample pressed
  rw [Bool.eq_iff_iff, closedKeys_bit h1 (sw 8) 8 6 (by decide)]
  constructor
  · rintro ⟨q, hq, k1, k2, k3⟩
    rw [h2 q hq k3 k1] at k2
    exact k2
  · exact fun h => ⟨p, hp, h3, h5 ▸ h, h4⟩

/-- The shipped firmware on a board, watched at a socket. -/
theorem board_watched {B : Board} {T : Whole.Target} (hB : Built B T) (r0 : Regs)
    {mxs : List (Nat → Whole.Contacts)} (sw : Bool) (h : NeverTrips (mxs.map contactsRead))
    (hsw : ∀ mx ∈ mxs, sample (contactsRead mx) 8 6 = sw) :
    ∃ w log, Whole.life T shipped r0 mxs = .ok w ∧
      w.log = boardStates B r0 [.archInit] ++ log ∧
      ∀ (lines : List (Nat × Signal)) (pin : Nat), (pin, .strobe) ∈ lines → lineBits lines &&& 0x7f = 0x7f →
        ∀ (edge : Bool) (v : Nat → Bool) (vs : List (Nat → Bool)),
          Shows B lines (boardAfter B r0 [.archInit]) v → Watches (Shows B lines) log vs →
          computerReads lines edge v vs =
            (channel (typed fourMaps openLayout (mxs.map contactsRead))
              (said fourMaps openLayout (mxs.map contactsRead))).host.map Prod.snd := by
  obtain ⟨w, e1, e2, e3, _⟩ := C75_board_safe B T hB r0 mxs h
  obtain ⟨t, log, ht, hlog, key⟩ := life_watched hB fourMaps_ok r0 (fun mx _ => openLayout_allowed _) e2
  have hstrobe : placed fourMaps openLayout .strobeSelect [(8, 6)] = true ∧
      ∀ i ∈ openLayout.maps, SetupCmd.negStrobe ∉ fourMaps.setup i := by decide +kernel
  have hn := after_positive (cfgFacts fourMaps_ok) hstrobe.1 hstrobe.2 (mxs.map contactsRead)
    (fun inp _ => openLayout_allowed inp) (b := sw) (by
    intro inp hi
    obtain ⟨mx, hm, rfl⟩ := List.mem_map.mp hi
    exact hsw mx hm)
  have hascii := four_ascii (mxs.map contactsRead)
  rw [← e3, ht] at hn hascii
  refine ⟨w, log, e1, hlog, fun lines pin hp hb edge v vs hv hvs => ?_⟩
  have hsend : sends (.archInit :: t) = sends t := rfl
  rw [key lines pin hp edge v vs hv hvs,
    reads_positive edge t ⟨false, 0⟩ rfl fun hc => hn (List.mem_cons_of_mem _ hc), ← hsend]
  have hid : (sends (.archInit :: t)).map (· &&& lineBits lines) = sends (.archInit :: t) := by
    have : ∀ (l : List Code), (∀ x ∈ l, x.toNat < 0x80) → l.map (· &&& lineBits lines) = l := by
      intro l hl
      induction l with
      | nil => rfl
      | cons c l ih =>
        rw [List.map_cons, ascii_lines hb (hl c List.mem_cons_self),
          ih fun x hx => hl x (List.mem_cons_of_mem _ hx)]
    exact this _ hascii
  rw [hid, ← ht, e3, sends_hostSees, (after_onLine fourMaps openLayout _).host]

/-- The shipped firmware on a machine, watched at a socket. -/
theorem machine_watched {B : Board} {T : Whole.Target} (hB : Built B T) (r0 : Regs) (flag : Bool)
    (l : List Machine.Step) (sw : Bool)
    (h : NeverTrips ((seen T shipped r0 flag l).map contactsRead))
    (hsw : ∀ mx ∈ seen T shipped r0 flag l, sample (contactsRead mx) 8 6 = sw) :
    ∃ m log, Machine.life T shipped r0 flag l = .ok m ∧
      m.board.log = boardStates B r0 [.archInit] ++ log ∧
      ∀ (lines : List (Nat × Signal)) (pin : Nat), (pin, .strobe) ∈ lines → lineBits lines &&& 0x7f = 0x7f →
        ∀ (edge : Bool) (v : Nat → Bool) (vs : List (Nat → Bool)),
          Shows B lines (boardAfter B r0 [.archInit]) v → Watches (Shows B lines) log vs →
          computerReads lines edge v vs =
            (channel (typed fourMaps openLayout ((seen T shipped r0 flag l).map contactsRead))
              (said fourMaps openLayout ((seen T shipped r0 flag l).map contactsRead))).host.map Prod.snd := by
  obtain ⟨m, h1, h2, _⟩ := machine_board (T := T) (cfg := shipped) (r0 := r0)
    (P := fun mxs => NeverTrips (mxs.map contactsRead))
    (fun a b hh pre inp post e => hh pre inp (post ++ b.map contactsRead) (by
      rw [List.map_append, e]; simp)) .nil
    (fun mxs h => by
      obtain ⟨w, e, _⟩ := C75_board_safe B T hB r0 mxs h
      exact ⟨w, e⟩) flag l h
  obtain ⟨w, log, e1, e2, e3⟩ := board_watched hB r0 sw h hsw
  obtain rfl : m.board = w := Except.ok.inj (h2.symm.trans e1)
  exact ⟨m, log, h1, e2, e3⟩

theorem boards328_places {A : Assembly} {ps : List Place} (h : (A, ps) ∈ boards328 classicPlaces solPlaces) :
    ps ∈ [classicPlaces, solPlaces] := by
  simp only [boards328, List.mem_cons, Prod.mk.injEq, List.not_mem_nil, or_false] at h
  rcases h with ⟨_, rfl⟩ | ⟨_, rfl⟩ | ⟨_, rfl⟩ | ⟨_, rfl⟩
  · exact List.mem_cons_self
  · exact List.mem_cons_self
  · exact List.mem_cons_of_mem _ List.mem_cons_self
  · exact List.mem_cons_of_mem _ List.mem_cons_self

theorem boards2560_places {A : Assembly} {ps : List Place} (h : (A, ps) ∈ boards2560 classicPlaces solPlaces) :
    ps ∈ [classicPlaces, solPlaces] := by
  simp only [boards2560, List.mem_cons, Prod.mk.injEq, List.not_mem_nil, or_false] at h
  rcases h with ⟨_, rfl⟩ | ⟨_, rfl⟩ | ⟨_, rfl⟩ | ⟨_, rfl⟩ | ⟨_, rfl⟩ | ⟨_, rfl⟩ | ⟨_, rfl⟩ | ⟨_, rfl⟩ | ⟨_, rfl⟩
  · exact List.mem_cons_self
  · exact List.mem_cons_self
  · exact List.mem_cons_of_mem _ List.mem_cons_self
  · exact List.mem_cons_of_mem _ List.mem_cons_self
  · exact List.mem_cons_of_mem _ List.mem_cons_self
  · exact List.mem_cons_self
  · exact List.mem_cons_self
  · exact List.mem_cons_of_mem _ List.mem_cons_self
  · exact List.mem_cons_of_mem _ List.mem_cons_self

theorem switches_dip7 {ps : List Place} (hps : ps ∈ [classicPlaces, solPlaces])
    {mxs : List (Nat → Whole.Contacts)} {passes : List (Nat → Sw → Bool)}
    (hk : mxs.map contactsRead = passes.map (pressed ps)) {b : Bool}
    (hd : ∀ sw ∈ passes, sw 8 (.dip 7) = b) : ∀ mx ∈ mxs, sample (contactsRead mx) 8 6 = b := by
  intro mx hm
  have : contactsRead mx ∈ passes.map (pressed ps) := hk ▸ List.mem_map_of_mem hm
  obtain ⟨sw, h1, h2⟩ := List.mem_map.mp this
  rw [← h2, dip7 hps, hd sw h1]

/-- **C87, from the switches to the computer, on the ATmega328P interface.**  The shipped
firmware, on any of the keyboards with this interface, under every interleaving of the timer
interrupt, for every behaviour of the key switches (`passes`: in each pass through the body
of the main loop, the switches that are closed while each row is read), at every socket for
a computer, whichever edge of the strobe the computer uses: if the use is safe (C72) and DIP
switch 7 is not moved, the computer has read, without loss of a bit, exactly what the two
queues of C77 let through of what these switches typed and printed. -/
theorem C87_shipped_328 (A : Assembly) (ps : List Place) (h : (A, ps) ∈ boards328 classicPlaces solPlaces)
    (sockets : List (Nat × List (Nat × Signal))) (hA : (A, sockets) ∈ plugged328)
    (k : Nat) (lines : List (Nat × Signal)) (hk : (k, lines) ∈ sockets) (pin : Nat)
    (hp : (pin, .strobe) ∈ lines) (r0 : Regs) (flag : Bool) (l : List Machine.Step)
    (passes : List (Nat → Sw → Bool))
    (hpass : (seen Whole.target328 shipped r0 flag l).map contactsRead = passes.map (pressed ps))
    (hsafe : NeverTrips (passes.map (pressed ps)))
    (b : Bool) (hdip : ∀ sw ∈ passes, sw 8 (.dip 7) = b) :
    ∃ m log, Machine.life Whole.target328 shipped r0 flag l = .ok m ∧
      m.board.log = boardStates m328 r0 [.archInit] ++ log ∧
      ∀ edge v vs, AtSocket328 A k lines (boardAfter m328 r0 [.archInit]) v →
        Watches (AtSocket328 A k lines) log vs →
        computerReads lines edge v vs =
          (channel (typed fourMaps openLayout (passes.map (pressed ps)))
            (said fourMaps openLayout (passes.map (pressed ps)))).host.map Prod.snd := by
  rw [← hpass] at hsafe
  obtain ⟨m, log, h1, h2, h3⟩ := machine_watched (.inl ⟨rfl, rfl⟩) r0 flag l b hsafe
    (switches_dip7 (boards328_places h) hpass hdip)
  refine ⟨m, log, h1, h2, fun edge v vs hv hvs => ?_⟩
  rw [hpass] at h3
  exact h3 lines pin hp
    (seven_lines _ (List.mem_append_left _ hA) _ hk (List.any_eq_true.mpr ⟨_, hp, rfl⟩)) edge v vs
    (shows_328 hA hk hv) (watches_mono (fun _ _ => shows_328 hA hk) hvs)

/-- **C87, from the switches to the computer, with the ATmega2560.**  The same for each of
the nine keyboards; `cols closed r` is the byte the controller reads at its column port
while the switches `closed` are closed and the registers are `r`, given by the levels on
the board. -/
theorem C87_shipped_2560 (A : Assembly) (ps : List Place) (h : (A, ps) ∈ boards2560 classicPlaces solPlaces)
    (out : Net → Prop) (hout : ∀ n, out n → Outside A n) (cols : (Sw → Bool) → Regs → UInt8)
    (hcols : ∀ closed r, rowReady2560 r →
      ReadsLevels A.links (column2560 A) closed (fun n => Low2560 A r n ∨ out n) (cols closed r))
    (sockets : List (Nat × List (Nat × Signal))) (hA : (A, sockets) ∈ plugged2560)
    (k : Nat) (lines : List (Nat × Signal)) (hk : (k, lines) ∈ sockets) (pin : Nat)
    (hp : (pin, .strobe) ∈ lines) :
    ∃ T, Built m2560 T ∧
      (∀ closed other sr row r, rowReady2560 r →
        T.read ⟨closedKeys ps closed, other, sr⟩ row r = M2560.readRow (cols closed) row r) ∧
      ∀ (r0 : Regs) (flag : Bool) (l : List Machine.Step) (passes : List (Nat → Sw → Bool)),
        (seen T shipped r0 flag l).map contactsRead = passes.map (pressed ps) →
        NeverTrips (passes.map (pressed ps)) →
        ∀ b, (∀ sw ∈ passes, sw 8 (.dip 7) = b) →
          ∃ m log, Machine.life T shipped r0 flag l = .ok m ∧
            m.board.log = boardStates m2560 r0 [.archInit] ++ log ∧
            ∀ edge v vs, AtSocket2560 A k lines (boardAfter m2560 r0 [.archInit]) v →
              Watches (AtSocket2560 A k lines) log vs →
              computerReads lines edge v vs =
                (channel (typed fourMaps openLayout (passes.map (pressed ps)))
                  (said fourMaps openLayout (passes.map (pressed ps)))).host.map Prod.snd := by
  obtain ⟨T, hB, hread⟩ := C80_built A ps h out hout cols hcols
  refine ⟨T, hB, hread, fun r0 flag l passes hpass hsafe b hdip => ?_⟩
  rw [← hpass] at hsafe
  obtain ⟨m, log, h1, h2, h3⟩ := machine_watched hB r0 flag l b hsafe
    (switches_dip7 (boards2560_places h) hpass hdip)
  refine ⟨m, log, h1, h2, fun edge v vs hv hvs => ?_⟩
  rw [hpass] at h3
  exact h3 lines pin hp
    (seven_lines _ (List.mem_append_right _ hA) _ hk (List.any_eq_true.mpr ⟨_, hp, rfl⟩)) edge v vs
    (shows_2560 hA hk hv) (watches_mono (fun _ _ => shows_2560 hA hk) hvs)

/-! ## Non-vacuity -/

/-- Something can be seen at every socket, whatever the registers contain. -/
theorem C87_visible_328 (A : Assembly) (sockets : List (Nat × List (Nat × Signal)))
    (h : (A, sockets) ∈ plugged328) (k : Nat) (lines : List (Nat × Signal)) (hk : (k, lines) ∈ sockets)
    (r : Regs) : ∃ v, AtSocket328 A k lines r v := by
  classical
  refine ⟨fun pin => decide (∃ n, A.plug k pin = some n ∧ High328 A r n), true, fun _ => true, fun _ => False,
    fun _ _ _ _ _ hc => hc, fun x hx hl n hn => ⟨fun hlow => ?_, fun hh => decide_eq_true ⟨n, hn, hh⟩⟩⟩
  refine decide_eq_false fun ⟨n', hn', hh⟩ => ?_
  obtain rfl : n = n' := Option.some.inj (hn.symm.trans hn')
  obtain ⟨pin, σ⟩ := x
  obtain ⟨n', hn', hd⟩ := C82_lines_328 A sockets h k lines hk pin σ hx
    (by rintro rfl; cases hl) (by rintro rfl; cases hl)
  obtain rfl : n = n' := Option.some.inj (hn.symm.trans hn')
  obtain ⟨d1, d2⟩ := hd r true (fun _ => true) (fun _ => False) id
  cases (d1.mp hlow).symm.trans (d2.mp hh)

theorem C87_visible_2560 (A : Assembly) (sockets : List (Nat × List (Nat × Signal)))
    (h : (A, sockets) ∈ plugged2560) (k : Nat) (lines : List (Nat × Signal)) (hk : (k, lines) ∈ sockets)
    (r : Regs) : ∃ v, AtSocket2560 A k lines r v := by
  classical
  refine ⟨fun pin => decide (∃ n, A.plug k pin = some n ∧ High2560 A r n), fun _ => true, fun _ => False,
    fun _ _ _ _ _ hc => hc, fun x hx hl n hn => ⟨fun hlow => ?_, fun hh => decide_eq_true ⟨n, hn, hh⟩⟩⟩
  refine decide_eq_false fun ⟨n', hn', hh⟩ => ?_
  obtain rfl : n = n' := Option.some.inj (hn.symm.trans hn')
  obtain ⟨pin, σ⟩ := x
  obtain ⟨n', hn', hd⟩ := C82_lines_2560 A sockets h k lines hk pin σ hx
    (by rintro rfl; cases hl) (by rintro rfl; cases hl)
  obtain rfl : n = n' := Option.some.inj (hn.symm.trans hn')
  obtain ⟨d1, d2⟩ := hd r (fun _ => true) (fun _ => False) id
  cases (d1.mp hlow).symm.trans (d2.mp hh)

/-- The levels on a board give the bytes that `C87_shipped_2560` asks for. -/
example (A : Assembly) (out : Net → Prop) : ∃ cols : (Sw → Bool) → Regs → UInt8, ∀ closed r,
    ReadsLevels A.links (column2560 A) closed (fun n => Low2560 A r n ∨ out n) (cols closed r) := by
  classical
  refine ⟨fun closed r => (List.range 8).foldl (fun b c => if decide (∀ n, column2560 A c = some n →
    ¬ PulledLow A.links closed (fun n => Low2560 A r n ∨ out n) n) then b ||| oneBit c else b) 0,
    fun closed r c n hc hn => ?_⟩
  rw [foldl_bits _ c hc _ fun i hi => List.mem_range.mp hi]
  have : (List.range 8).contains c = true := by simpa using hc
  rw [this, bitOf_zero, Bool.false_or, Bool.true_and, decide_eq_false_iff_not]
  constructor
  · intro h
    refine Classical.byContradiction fun hp => h fun n' hn' => ?_
    rw [hn] at hn'
    cases hn'
    exact hp
  · exact fun hp h => h n hn hp

theorem seenFrom_sub {T : Whole.Target} {cfg : Config} (l : List Machine.Step) (m : Machine.Machine) :
    ∀ mx ∈ seenFrom T cfg m l, .main mx ∈ l := by
  induction l generalizing m with
  | nil => exact nofun
  | cons x l ih =>
    intro mx hm
    rw [seenFrom] at hm
    rcases List.mem_append.mp hm with hm | hm
    · cases x with
      | isr => cases hm
      | main mx' =>
        unfold seenNow at hm
        dsimp only at hm
        split at hm
        · rw [List.mem_singleton.mp hm]; exact List.mem_cons_self
        · cases hm
    · split at hm
      · exact List.mem_cons_of_mem _ (ih _ mx hm)
      · cases hm

/-- The key labelled A of the classic keyboard is held. -/
def switchA : Nat → Sw → Bool := fun _ s => s = .key 54

/-- The contacts that this makes on the board. -/
def switchAContacts : Nat → Whole.Contacts := fun row => ⟨closedKeys classicPlaces (switchA row), 0, 0⟩

def switchASteps : List Machine.Step := (List.replicate 11 (machineRound switchAContacts)).flatten

/-- Eleven rounds with the key A held satisfy the hypotheses of `C87_shipped_328`, and the
computer reads "a". -/
example : (classic328 true, classicPlaces) ∈ boards328 classicPlaces solPlaces ∧
    (classic328 true, sockets328) ∈ plugged328 ∧ (1, apple2Socket) ∈ sockets328 ∧
    (2, .strobe) ∈ apple2Socket ∧
    (seen Whole.target328 shipped allZero false switchASteps).map contactsRead =
      (List.replicate 11 switchA).map (pressed classicPlaces) ∧
    NeverTrips ((List.replicate 11 switchA).map (pressed classicPlaces)) ∧
    (∀ sw ∈ List.replicate 11 switchA, sw 8 (.dip 7) = false) ∧
    (channel (typed fourMaps openLayout ((List.replicate 11 switchA).map (pressed classicPlaces)))
      (said fourMaps openLayout ((List.replicate 11 switchA).map (pressed classicPlaces)))).host =
        [(false, 0x61)] := by
  refine ⟨.tail _ (.head _), .tail _ (.head _), .head _, by decide, ?_, neverTrips_of (by decide +kernel), ?_,
    by decide +kernel⟩
  · have h1 : (seen Whole.target328 shipped allZero false switchASteps).length = 11 := by decide +kernel
    have h2 : seen Whole.target328 shipped allZero false switchASteps = List.replicate 11 switchAContacts := by
      refine List.eq_replicate_iff.mpr ⟨h1, fun mx hm => ?_⟩
      unfold seen at hm
      split at hm
      · have h3 := seenFrom_sub _ _ mx hm
        obtain ⟨x, h4, h5⟩ := List.mem_flatten.mp h3
        rw [(List.mem_replicate.mp h4).2] at h5
        rcases List.mem_cons.mp h5 with h6 | h6
        · cases h6
        · exact Machine.Step.main.inj (List.mem_replicate.mp h6).2
      · cases hm
    rw [h2, List.map_replicate, List.map_replicate]
    rfl
  · intro sw hs
    rw [(List.mem_replicate.mp hs).2]
    rfl

end Asdf.Props
