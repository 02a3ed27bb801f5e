import Verif.Lemmas.Sockets
import Verif.Lemmas.SocketPins
import Verif.Props.Lamps

/-! # Properties C82 and C83: the sockets for the computers, and the lamps on the boards -/

namespace Asdf.Props

open Avr Pcb Spec

/-! ## C82 -/

theorem sockets_328 : ∀ x ∈ plugged328, ∀ y ∈ x.2, socketOk x.1 lineOk328 y = true := by decide +kernel

theorem sockets_2560 : ∀ x ∈ plugged2560, ∀ y ∈ x.2, socketOk x.1 lineOk2560 y = true := by decide +kernel

theorem socket_net {A : Assembly} {f : Assembly → Signal → Net → Bool} {x : Nat × List (Nat × Signal)}
    (h : socketOk A f x = true) {pin : Nat} {σ : Signal} (hp : (pin, σ) ∈ x.2) :
    ∃ n, A.plug x.1 pin = some n ∧ f A σ n = true := by
  have := List.all_eq_true.mp h _ hp
  dsimp only at this
  cases hn : A.plug x.1 pin with
  | none => rw [hn] at this; cases this
  | some n => rw [hn] at this; exact ⟨n, rfl, this⟩

/-- **C82, the supply.**  On every board, the supply pins of every socket are at the supply
and the ground of the controller. -/
theorem C82_supply (A : Assembly) (sockets : List (Nat × List (Nat × Signal)))
    (h : (A, sockets) ∈ plugged328 ++ plugged2560) (k : Nat) (lines : List (Nat × Signal))
    (hk : (k, lines) ∈ sockets) (pin : Nat) :
    ((pin, .plus5) ∈ lines → A.plug k pin = some (.io A.vcc)) ∧
      ((pin, .ground) ∈ lines → A.plug k pin = some (.io A.gnd)) := by
  rcases List.mem_append.mp h with h | h
  · constructor
    · intro hp
      obtain ⟨n, h1, h2⟩ := socket_net (sockets_328 _ h _ hk) hp
      rw [h1, ← sameNet_eq h2]
    · intro hp
      obtain ⟨n, h1, h2⟩ := socket_net (sockets_328 _ h _ hk) hp
      rw [h1, ← sameNet_eq h2]
  · constructor
    · intro hp
      obtain ⟨n, h1, h2⟩ := socket_net (sockets_2560 _ h _ hk) hp
      rw [h1, ← sameNet_eq h2]
    · intro hp
      obtain ⟨n, h1, h2⟩ := socket_net (sockets_2560 _ h _ hk) hp
      rw [h1, ← sameNet_eq h2]

/-- **C82, the lines** of the ATmega328P interface.  For every keyboard on it, every socket
and every signal line of the socket, every contents of the registers, every state of the
keys, and whatever the other wires that leave the board carry: the line is low exactly
when the signal's driver drives it low, and is driven high exactly when the signal's driver
drives it high. -/
theorem C82_lines_328 (A : Assembly) (sockets : List (Nat × List (Nat × Signal)))
    (h : (A, sockets) ∈ plugged328) (k : Nat) (lines : List (Nat × Signal)) (hk : (k, lines) ∈ sockets)
    (pin : Nat) (σ : Signal) (hp : (pin, σ) ∈ lines) (h1 : σ ≠ .plus5) (h2 : σ ≠ .ground) :
    ∃ n, A.plug k pin = some n ∧ ∀ (r : Regs) (q : Bool) (closed : Sw → Bool) (ext : Net → Prop), ¬ ext n →
      (PulledLow A.links closed (fun m => Low328 A r q m ∨ ext m) n ↔ signalDrive m328 r σ = some .low) ∧
        (High328 A r n ↔ signalDrive m328 r σ = some .high) := by
  obtain ⟨n, hn, ho⟩ := socket_net (sockets_328 _ h _ hk) hp
  refine ⟨n, hn, fun r q closed ext he => ?_⟩
  unfold lineOk328 at ho
  unfold signalDrive
  cases hs : signalPin m328 σ with
  | none =>
    cases σ with
    | plus5 => exact absurd rfl h1
    | ground => exact absurd rfl h2
    | _ => cases hs
  | some x =>
    obtain ⟨p, inv⟩ := x
    rw [hs] at ho
    have one : ∀ {P : Pin → Prop}, (∃ z ∈ [p], P z) ↔ P p := by
      intro P
      simp
    cases inv with
    | false =>
      rw [Bool.and_eq_true] at ho
      rw [single_low ho.1 closed _ ext he, pins328_low ho.2, pins328_high ho.2, one, one]
      exact ⟨⟨congrArg some, Option.some.inj⟩, congrArg some, Option.some.inj⟩
    | true =>
      rw [Bool.and_eq_true] at ho
      rw [single_low ho.1 closed _ ext he, (inverted328 ho.2 r).1, (inverted328 ho.2 r).2]
      dsimp only
      cases drive r p <;> decide

/-- **C82, the lines** of the boards with the ATmega2560. -/
theorem C82_lines_2560 (A : Assembly) (sockets : List (Nat × List (Nat × Signal)))
    (h : (A, sockets) ∈ plugged2560) (k : Nat) (lines : List (Nat × Signal)) (hk : (k, lines) ∈ sockets)
    (pin : Nat) (σ : Signal) (hp : (pin, σ) ∈ lines) (h1 : σ ≠ .plus5) (h2 : σ ≠ .ground) :
    ∃ n, A.plug k pin = some n ∧ ∀ (r : Regs) (closed : Sw → Bool) (ext : Net → Prop), ¬ ext n →
      (PulledLow A.links closed (fun m => Low2560 A r m ∨ ext m) n ↔ signalDrive m2560 r σ = some .low) ∧
        (High2560 A r n ↔ signalDrive m2560 r σ = some .high) := by
  obtain ⟨n, hn, ho⟩ := socket_net (sockets_2560 _ h _ hk) hp
  refine ⟨n, hn, fun r closed ext he => ?_⟩
  unfold lineOk2560 at ho
  unfold signalDrive
  cases hs : signalPin m2560 σ with
  | none =>
    cases σ with
    | plus5 => exact absurd rfl h1
    | ground => exact absurd rfl h2
    | _ => cases hs
  | some x =>
    obtain ⟨p, inv⟩ := x
    rw [hs] at ho
    have one : ∀ {P : Pin → Prop}, (∃ z ∈ [p], P z) ↔ P p := by
      intro P
      simp
    cases inv with
    | false =>
      rw [Bool.and_eq_true] at ho
      unfold Low2560 High2560
      rw [single_low ho.1 closed _ ext he, onlyPinsAt_low ho.2, onlyPinsAt_high ho.2, one, one]
      exact ⟨⟨congrArg some, Option.some.inj⟩, congrArg some, Option.some.inj⟩
    | true => cases ho

/-- The data pins of a keyboard at work. -/
theorem data_drive (B : Board) (T : Whole.Target) (hB : Built B T) (cfg : Config) (L : Layout)
    (hc : cfgOk cfg L = true) (r0 : Regs) (mxs : List (Nat → Whole.Contacts))
    (hin : ∀ mx ∈ mxs, Allowed L (contactsRead mx)) (w : Whole.Whole)
    (hw : Whole.life T cfg r0 mxs = .ok w) : ∃ c, codeShown w.fw.dev.trace = some c ∧
      ∀ i, i < 8 → drive w.regs ⟨B.data, i⟩ = if bitOf c i then .high else .low := by
  obtain ⟨ready, hf⟩ := hB.onBoard
  obtain ⟨c, hc'⟩ := codeShown_of_init (whole_init hf (cfgFacts hc) r0 mxs hin hw)
  refine ⟨c, hc', fun i hi => ?_⟩
  have hp : (⟨B.data, i⟩ : Pin) ∈ pinsOf B.data := List.mem_map.mpr ⟨i, List.mem_range.mpr hi, rfl⟩
  have key : ∀ B ∈ boards, ∀ p ∈ pinsOf B.data, p ∉ rowPins B := by decide
  obtain ⟨h1, h2⟩ := C59_pins B T hB cfg L hc r0 mxs hin w hw ⟨B.data, i⟩ hi (key B hf.mem _ hp)
  have h3 := data_after hf.mem hp w.fw.dev.trace r0 none nofun c hc'
  have : pinSt w.regs ⟨B.data, i⟩ = (bitOf c i, true) := 
    (Prod.ext h1 h2 : pinSt w.regs ⟨B.data, i⟩ = pinSt (boardAfter B r0 w.fw.dev.trace) ⟨B.data, i⟩).trans h3
  rw [drive_eq, this]
  cases bitOf c i <;> rfl

theorem drive_low {b : Bool} : (if b then Drive.high else .low) = .low ↔ b = false := by cases b <;> decide
theorem drive_high {b : Bool} : (if b then Drive.high else .low) = .high ↔ b = true := by cases b <;> decide

/-- **C82, the code at the socket.**  A keyboard with the ATmega328P interface, at every
pass of every run from any register contents: the data lines of every socket carry, bit by
bit, the code that was sent last (zero since the keymap was selected). -/
theorem C82_code_328 (cfg : Config) (L : Layout)
    (hc : cfgOk cfg L = true) (r0 : Regs) (mxs : List (Nat → Whole.Contacts))
    (hin : ∀ mx ∈ mxs, Allowed L (contactsRead mx)) (w : Whole.Whole)
    (hw : Whole.life Whole.target328 cfg r0 mxs = .ok w) : ∃ c, codeShown w.fw.dev.trace = some c ∧
    ∀ A sockets, (A, sockets) ∈ plugged328 → ∀ k lines, (k, lines) ∈ sockets → ∀ pin i,
      i < 8 → (pin, .data i) ∈ lines → ∃ n, A.plug k pin = some n ∧
      ∀ (q : Bool) (closed : Sw → Bool) (ext : Net → Prop), ¬ ext n →
        (PulledLow A.links closed (fun m => Low328 A w.regs q m ∨ ext m) n ↔ bitOf c i = false) ∧
          (High328 A w.regs n ↔ bitOf c i = true) := by
  obtain ⟨c, h1, h2⟩ := data_drive m328 _ (.inl ⟨rfl, rfl⟩) cfg L hc r0 mxs hin w hw
  refine ⟨c, h1, ?_⟩
  intro A sockets h k lines hk pin i hi hp
  obtain ⟨n, hn, key⟩ := C82_lines_328 A sockets h k lines hk pin _ hp nofun nofun
  refine ⟨n, hn, fun q closed ext he => ?_⟩
  have hd : signalDrive m328 w.regs (.data i) = some (drive w.regs ⟨m328.data, i⟩) := rfl
  obtain ⟨k1, k2⟩ := key w.regs q closed ext he
  rw [k1, k2, hd, h2 i hi, Option.some.injEq, Option.some.injEq, drive_low, drive_high]
  exact ⟨Iff.rfl, Iff.rfl⟩

/-- **C82, the code at the socket**, on the boards with the ATmega2560. -/
theorem C82_code_2560 (cols : (Nat → UInt8) → Regs → UInt8) (hcols : ∀ keys, matrixColumns keys (cols keys))
    (cfg : Config) (L : Layout)
    (hc : cfgOk cfg L = true) (r0 : Regs) (mxs : List (Nat → Whole.Contacts))
    (hin : ∀ mx ∈ mxs, Allowed L (contactsRead mx)) (w : Whole.Whole)
    (hw : Whole.life (Whole.target2560 cols) cfg r0 mxs = .ok w) : ∃ c, codeShown w.fw.dev.trace = some c ∧
    ∀ A sockets, (A, sockets) ∈ plugged2560 → ∀ k lines, (k, lines) ∈ sockets → ∀ pin i,
      i < 8 → (pin, .data i) ∈ lines → ∃ n, A.plug k pin = some n ∧
      ∀ (closed : Sw → Bool) (ext : Net → Prop), ¬ ext n →
        (PulledLow A.links closed (fun m => Low2560 A w.regs m ∨ ext m) n ↔ bitOf c i = false) ∧
          (High2560 A w.regs n ↔ bitOf c i = true) := by
  obtain ⟨c, h1, h2⟩ := data_drive m2560 _ (.inr ⟨rfl, cols, hcols, rfl⟩) cfg L hc r0 mxs hin w hw
  refine ⟨c, h1, ?_⟩
  intro A sockets h k lines hk pin i hi hp
  obtain ⟨n, hn, key⟩ := C82_lines_2560 A sockets h k lines hk pin _ hp nofun nofun
  refine ⟨n, hn, fun closed ext he => ?_⟩
  have hd : signalDrive m2560 w.regs (.data i) = some (drive w.regs ⟨m2560.data, i⟩) := rfl
  obtain ⟨k1, k2⟩ := key w.regs closed ext he
  rw [k1, k2, hd, h2 i hi, Option.some.injEq, Option.some.injEq, drive_low, drive_high]
  exact ⟨Iff.rfl, Iff.rfl⟩

/-! ## C83 -/

/-- The check of the lamps of the ATmega328P interface. -/
def lampOk328 (A : Assembly) (x : Lamp) : Bool :=
  if x.led = PHYSICAL_LED1 then lampOk A (pins328Ok A [m328.led1]) (pins328Ok A []) (lampAt A x)
  else if x.led = PHYSICAL_LED2 then lampOk A (inverted328Ok A m328.led2) (pins328Ok A []) (lampAt A x)
  else if x.led = PHYSICAL_LED3 then lampOk A (inverted328Ok A m328.led3) (pins328Ok A []) (lampAt A x)
  else false

/-- The check of the lamps with the ATmega2560. -/
def lampOk2560 (A : Assembly) (x : Lamp) : Bool :=
  (pinOfDev m2560 x.led).length == 1 &&
    lampOk A (fun n => onlyPinsAt A pins2560 n (pinOfDev m2560 x.led)) (fun n => onlyPinsAt A pins2560 n [])
      (lampAt A x)

theorem lamps_328 : ∀ x ∈ lamps328, ∀ y ∈ x.2, lampOk328 x.1 y = true := by decide +kernel
theorem lamps_2560 : ∀ x ∈ lamps2560, ∀ y ∈ x.2, lampOk2560 x.1 y = true := by decide +kernel

/-- **C83, the lamp and its pin**, on the ATmega328P interface.  For every keyboard on it
and each of its lamps, for every contents of the registers and every state of the keys: the
lamp is lit exactly when the pin of its LED is driven to the level that means "on" in the
firmware. -/
theorem C83_lit_328 (A : Assembly) (lamps : List Lamp) (h : (A, lamps) ∈ lamps328) (x : Lamp) (hx : x ∈ lamps) :
    ∃ a k p, lampAt A x = some (a, k) ∧ pinOfDev m328 x.led = [p] ∧
      ∀ (r : Regs) (q : Bool) (closed : Sw → Bool),
        Lit A closed (Low328 A r q) a k ↔ meant m328 x.led true = some (drive r p) := by
  have ho := lamps_328 _ h x hx
  have none_low : ∀ (r : Regs) (q : Bool) n, pins328Ok A [] n = true → ¬ Low328 A r q n := by
    intro r q n hn hl
    obtain ⟨p, hp, _⟩ := (pins328_low hn r q).mp hl
    cases hp
  unfold lampOk328 at ho
  split at ho
  · next hl =>
    have key := fun (r : Regs) (q : Bool) => lamp_lit ho (low := Low328 A r q) (P := drive r m328.led1 = .low)
      (fun n hn => by rw [pins328_low hn]; simp) (none_low r q)
    obtain ⟨a, k, e1, _⟩ := key allZero false (fun _ => false)
    refine ⟨a, k, m328.led1, e1, by rw [hl]; rfl, fun r q closed => ?_⟩
    obtain ⟨a', k', e2, e3⟩ := key r q closed
    rw [show lampAt A x = some (a, k) from e1] at e2
    cases e2
    rw [e3, hl]
    show _ ↔ some Drive.low = some _
    rw [Option.some.injEq]
    exact eq_comm
  · split at ho
    · next hl =>
      have key := fun (r : Regs) (q : Bool) => lamp_lit ho (low := Low328 A r q) (P := drive r m328.led2 = .high)
        (fun n hn => (inverted328 hn r).1 q) (none_low r q)
      obtain ⟨a, k, e1, _⟩ := key allZero false (fun _ => false)
      refine ⟨a, k, m328.led2, e1, by rw [hl]; rfl, fun r q closed => ?_⟩
      obtain ⟨a', k', e2, e3⟩ := key r q closed
      rw [show lampAt A x = some (a, k) from e1] at e2
      cases e2
      rw [e3, hl]
      show _ ↔ some Drive.high = some _
      rw [Option.some.injEq]
      exact eq_comm
    · split at ho
      · next hl =>
        have key := fun (r : Regs) (q : Bool) => lamp_lit ho (low := Low328 A r q) (P := drive r m328.led3 = .high)
          (fun n hn => (inverted328 hn r).1 q) (none_low r q)
        obtain ⟨a, k, e1, _⟩ := key allZero false (fun _ => false)
        refine ⟨a, k, m328.led3, e1, by rw [hl]; rfl, fun r q closed => ?_⟩
        obtain ⟨a', k', e2, e3⟩ := key r q closed
        rw [show lampAt A x = some (a, k) from e1] at e2
        cases e2
        rw [e3, hl]
        show _ ↔ some Drive.high = some _
        rw [Option.some.injEq]
        exact eq_comm
      · cases ho

/-- **C83, the lamp and its pin**, with the ATmega2560. -/
theorem C83_lit_2560 (A : Assembly) (lamps : List Lamp) (h : (A, lamps) ∈ lamps2560) (x : Lamp) (hx : x ∈ lamps) :
    ∃ a k p, lampAt A x = some (a, k) ∧ pinOfDev m2560 x.led = [p] ∧
      ∀ (r : Regs) (closed : Sw → Bool),
        Lit A closed (Low2560 A r) a k ↔ meant m2560 x.led true = some (drive r p) := by
  have ho := lamps_2560 _ h x hx
  rw [lampOk2560, Bool.and_eq_true, beq_iff_eq] at ho
  obtain ⟨p, hp⟩ := List.length_eq_one_iff.mp ho.1
  have hlow : meant m2560 x.led true = some .low := by
    have key : ∀ x ∈ lamps2560, ∀ y ∈ x.2, meant m2560 y.led true = some .low := by decide +kernel
    exact key _ h x hx
  have key := fun (r : Regs) => lamp_lit ho.2 (low := Low2560 A r) (P := drive r p = .low)
    (fun n hn => by
      show LowAt A pins2560 r n ↔ _
      rw [onlyPinsAt_low hn, hp]
      simp)
    (fun n hn hl => by
      obtain ⟨p, hp, _⟩ := (onlyPinsAt_low hn r).mp hl
      cases hp)
  obtain ⟨a, k, e1, _⟩ := key allZero (fun _ => false)
  refine ⟨a, k, p, e1, hp, fun r closed => ?_⟩
  obtain ⟨a', k', e2, e3⟩ := key r closed
  rw [show lampAt A x = some (a, k) from e1] at e2
  cases e2
  rw [e3, hlow, Option.some.injEq]
  exact eq_comm

/-- The labels of the lamps in keys, and no LED and no key lamp is left out. -/
theorem C83_all : ∀ x ∈ lamps328 ++ lamps2560,
    (∀ y ∈ x.2, y.part.1 = .key → (findPart x.1.keyboard .key y.part.2).map (·.value) = some y.label) ∧
    (∀ p ∈ x.1.keyboard ++ (if x.1.keyboard.isEmpty then x.1.io else []),
      (p.kind = .led ∨ p.kind = .key ∧ p.net 3 ≠ none ∧ p.net 4 ≠ none) →
        ∃ y ∈ x.2, y.part = (p.kind, p.num)) := by decide +kernel

/-- What "on" means: on and off are different levels. -/
theorem meant_on : ∀ B ∈ boards, ∀ dev ∈ leds, ∀ b : Bool, meant B dev b ≠ none ∧
    (meant B dev b = meant B dev true ↔ b = true) := by decide +kernel

theorem lamp_leds : ∀ x ∈ lamps328 ++ lamps2560, ∀ y ∈ x.2, y.led ∈ leds := by decide +kernel

/-- **C83, what the lamps show**, on the ATmega328P interface: at every pass of every run
of every keymap list, a lamp whose LED was ever switched is lit exactly when the last value
was not 0. -/
theorem C83_shows_328 (cfg : Config) (L : Layout)
    (hc : cfgOk cfg L = true) (r0 : Regs) (mxs : List (Nat → Whole.Contacts))
    (hin : ∀ mx ∈ mxs, Allowed L (contactsRead mx)) (w : Whole.Whole)
    (hw : Whole.life Whole.target328 cfg r0 mxs = .ok w) (A : Assembly) (lamps : List Lamp)
    (h : (A, lamps) ∈ lamps328) (x : Lamp) (hx : x ∈ lamps) (v : UInt8)
    (hv : shown w.fw.dev.trace x.led = some v) :
    ∃ a k, lampAt A x = some (a, k) ∧ ∀ (q : Bool) (closed : Sw → Bool),
      (Lit A closed (Low328 A w.regs q) a k ↔ v ≠ 0) := by
  obtain ⟨a, k, p, e1, e2, e3⟩ := C83_lit_328 A lamps h x hx
  refine ⟨a, k, e1, fun q closed => ?_⟩
  have hl := lamp_leds _ (List.mem_append_left _ h) x hx
  have hm := C60_lamp m328 _ (.inl ⟨rfl, rfl⟩) cfg L hc r0 mxs hin w hw x.led hl p
    (by rw [e2]; exact List.mem_singleton.mpr rfl) v hv
  rw [e3, ← hm, eq_comm, (meant_on m328 (.head _) x.led hl _).2, decide_eq_true_eq]

/-- **C83, what the lamps show**, with the ATmega2560. -/
theorem C83_shows_2560 (cols : (Nat → UInt8) → Regs → UInt8) (hcols : ∀ keys, matrixColumns keys (cols keys))
    (cfg : Config) (L : Layout)
    (hc : cfgOk cfg L = true) (r0 : Regs) (mxs : List (Nat → Whole.Contacts))
    (hin : ∀ mx ∈ mxs, Allowed L (contactsRead mx)) (w : Whole.Whole)
    (hw : Whole.life (Whole.target2560 cols) cfg r0 mxs = .ok w) (A : Assembly) (lamps : List Lamp)
    (h : (A, lamps) ∈ lamps2560) (x : Lamp) (hx : x ∈ lamps) (v : UInt8)
    (hv : shown w.fw.dev.trace x.led = some v) :
    ∃ a k, lampAt A x = some (a, k) ∧ ∀ (closed : Sw → Bool),
      (Lit A closed (Low2560 A w.regs) a k ↔ v ≠ 0) := by
  obtain ⟨a, k, p, e1, e2, e3⟩ := C83_lit_2560 A lamps h x hx
  refine ⟨a, k, e1, fun closed => ?_⟩
  have hl := lamp_leds _ (List.mem_append_right _ h) x hx
  have hm := C60_lamp m2560 _ (.inr ⟨rfl, cols, hcols, rfl⟩) cfg L hc r0 mxs hin w hw x.led hl p
    (by rw [e2]; exact List.mem_singleton.mpr rfl) v hv
  rw [e3, ← hm, eq_comm, (meant_on m2560 (.tail _ (.head _)) x.led hl _).2, decide_eq_true_eq]

/-- Non-vacuity: the sockets have data lines and outputs, on a board with and a board
without diodes; after A was held for some passes its code is on the data lines, and bits of
both values with it. -/
example : (classic328 true, sockets328) ∈ plugged328 ∧ (1, apple2Socket) ∈ sockets328 ∧
    (12, Signal.data 0) ∈ apple2Socket ∧ (sol1, socketsSol1) ∈ plugged2560 ∧ (2, solSocket) ∈ socketsSol1 ∧
    (18, Signal.data 7) ∈ solSocket ∧ bitOf 0x61 0 = true ∧ bitOf 0x61 1 = false ∧
    (∀ mx ∈ List.replicate 12 contactsA, Allowed shippedLayout (contactsRead mx)) ∧
    ∀ T ∈ [Whole.target328, Whole.target2560 exampleColumns],
    (match Whole.life T shipped allZero (List.replicate 12 contactsA) with
    | .ok w => decide (codeShown w.fw.dev.trace = some 0x61)
    | .error _ => false) = true := by
  refine ⟨by simp [plugged328], by decide, by decide, by simp [plugged2560], by decide, by decide, by decide,
    by decide, ?_, by decide +kernel⟩
  intro mx hm
  rw [(List.mem_replicate.mp hm).2]
  exact allowed_of_row8 rfl

/-- Non-vacuity: the lamp of the CAPS LOCK key, and the one of the Sol's UPPER CASE; after
the CAPS key was pressed it was switched on. -/
example : (classic328 false, classicLamps) ∈ lamps328 ∧ (sol1, solLamps) ∈ lamps2560 ∧
    ⟨(.key, 9), "Caps_Lock", PHYSICAL_LED3⟩ ∈ classicLamps ∧ ⟨(.led, 1), "", PHYSICAL_LED1⟩ ∈ solLamps ∧
    (∀ mx ∈ List.replicate 10 contactsCaps, Allowed shippedLayout (contactsRead mx)) ∧
    ∀ T ∈ [Whole.target328, Whole.target2560 exampleColumns],
    (match Whole.life T shipped allZero (List.replicate 10 contactsCaps) with
    | .ok w => decide (shown w.fw.dev.trace PHYSICAL_LED3 = some 1)
    | .error _ => false) = true := by
  refine ⟨by simp [lamps328], by simp [lamps2560], by decide, by decide, ?_, by decide +kernel⟩
  intro mx hm
  rw [(List.mem_replicate.mp hm).2]
  exact allowed_of_row8 rfl

end Asdf.Props
