import Verif.Spec.Computer
import Verif.Props.Sockets
import Verif.Props.Matrix
import Verif.Props.Host

/-! # A computer at a socket: the outputs stay outputs, and the lines show them -/

namespace Asdf.Props

open Avr Pcb Spec HostWires

/-! ## The outputs to the computer stay outputs -/

/-- The pins of the strobe and the data lines. -/
def busPins (B : Board) : List Pin := B.strobe :: pinsOf B.data

/-- An access that leaves an output an output. -/
def keepsOut (p : Pin) (op : Op) : Bool :=
  (pinStep p (false, true) op).2 && (pinStep p (true, true) op).2

theorem keepsOut_leaves {p : Pin} {op : Op} (h : leaves p op = true) : keepsOut p op = true := by
  unfold keepsOut
  rw [leaves_iff h, leaves_iff h]
  rfl

/-- No hardware event makes them inputs again. -/
theorem bus_kept {B : Board} (hB : B ∈ boards) {p : Pin} (hp : p ∈ busPins B) (e : Event) :
    (B.opsOf e).all (keepsOut p) = true := by
  cases e with
  | out d v =>
    by_cases hd' : d < 13
    · have key : ∀ B ∈ boards, ∀ p ∈ busPins B, ∀ d, d < 13 →
          ∀ v ∈ [(0 : UInt8), 1], (B.opsOf (.out d v)).all (keepsOut p) = true := by decide +kernel
      rw [handler_bool hB]
      exact key B hB p hp d hd' _ (by split <;> decide)
    · rw [handler_none hB d (by omega)]; rfl
  | delayMs ms =>
    rw [delayMs_ops hB, List.all_eq_true]
    intro op ho
    rw [(List.mem_replicate.mp ho).2]
    exact keepsOut_leaves (leaves_delay _ _)
  | send c =>
    have key : ∀ n, n < 256 → ∀ B ∈ boards, ∀ p ∈ busPins B,
        (B.opsOf (.send (UInt8.ofNat n))).all (keepsOut p) = true := by decide +kernel
    have hk := key c.toNat c.toNat_lt B hB p hp
    rw [UInt8.ofNat_toNat] at hk
    exact hk
  | _ =>
    have key : ∀ e ∈ [Event.archInit, .posStrobe, .negStrobe, .delayShort, .delayLong], ∀ B ∈ boards,
        ∀ p ∈ busPins B, (B.opsOf e).all (keepsOut p) = true := by decide +kernel
    exact key _ (by decide) B hB p hp

/-- The strobe and the data lines are outputs. -/
def BusOut (B : Board) (r : Regs) : Prop := ∀ p ∈ busPins B, isOutput r p = true

theorem bus_bit {B : Board} (hB : B ∈ boards) {p : Pin} (hp : p ∈ busPins B) :
    p.bit < 8 ∧ p ∉ rowPins B := by
  have key : ∀ B ∈ boards, ∀ p ∈ busPins B, p.bit < 8 ∧ p ∉ rowPins B := by decide +kernel
  exact key B hB p hp

theorem kept_states {ops : List Op} {p : Pin} (h : ops.all (keepsOut p) = true) :
    ∀ (st : PinSt), st.2 = true → (∀ x ∈ pinSts p st ops, x.2 = true) ∧ (ops.foldl (pinStep p) st).2 = true := by
  induction ops with
  | nil => exact fun st hs => ⟨nofun, hs⟩
  | cons op ops ih =>
    intro st hs
    rw [List.all_cons, Bool.and_eq_true] at h
    have h1 : (pinStep p st op).2 = true := by
      have hk := h.1
      unfold keepsOut at hk
      rw [Bool.and_eq_true] at hk
      obtain ⟨a, b⟩ := st
      cases hs
      cases a
      · exact hk.1
      · exact hk.2
    obtain ⟨i1, i2⟩ := ih h.2 _ h1
    refine ⟨fun x hx => ?_, i2⟩
    rcases List.mem_cons.mp hx with rfl | hx
    · exact h1
    · exact i1 x hx

theorem bus_event {B : Board} (hB : B ∈ boards) {r : Regs} (h : BusOut B r) (e : Event) :
    BusOut B (boardAfter B r [e]) ∧ ∀ x ∈ boardStates B r [e], BusOut B x := by
  have h1 := fun p hp => kept_states (bus_kept hB hp e) (pinSt r p) (h p hp)
  constructor
  · intro p hp
    have := (h1 p hp).2
    rw [← exec_pin (fun _ => 0) p (bus_bit hB hp).1] at this
    rw [boardAfter_one]
    exact this
  · intro x hx p hp
    rw [boardStates_one] at hx
    exact (h1 p hp).1 _ (mem_states_pin hx p (bus_bit hB hp).1)

/-- Along a path the outputs stay outputs. -/
theorem bus_path {B : Board} (hB : B ∈ boards) {p q : Phys} (h : Path B p q) (h0 : BusOut B p.regs)
    {l : List Regs} (hl : q.log = p.log ++ l) : BusOut B q.regs ∧ ∀ x ∈ l, BusOut B x := by
  induction h generalizing l with
  | refl =>
    rw [List.self_eq_append_right.mp hl]
    exact ⟨h0, nofun⟩
  | @event q h e ih =>
    obtain ⟨_, l', _, h2⟩ := h.trace
    have h4 : l = l' ++ boardStates B q.regs [e] := by
      have hl : q.log ++ boardStates B q.regs [e] = p.log ++ l := hl
      rw [h2, List.append_assoc] at hl
      exact (List.append_cancel_left hl).symm
    subst h4
    obtain ⟨i1, i2⟩ := ih h2
    obtain ⟨j1, j2⟩ := bus_event hB i1 e
    refine ⟨j1, fun x hx => ?_⟩
    rcases List.mem_append.mp hx with hx | hx
    · exact i2 x hx
    · exact j2 x hx
  | @read q h l0 hl0 ih =>
    obtain ⟨_, l', _, h2⟩ := h.trace
    have h4 : l = l' ++ l0 := by
      have hl : q.log ++ l0 = p.log ++ l := hl
      rw [h2, List.append_assoc] at hl
      exact (List.append_cancel_left hl).symm
    subst h4
    obtain ⟨i1, i2⟩ := ih h2
    have hq : ∀ x ∈ l0, BusOut B x := fun x hx p hp =>
      ((hl0 x hx p (bus_bit hB hp).1 (bus_bit hB hp).2).2).trans (i1 p hp)
    refine ⟨?_, fun x hx => ?_⟩
    · rcases getLast_mem (l := l0) (d := q.regs) rfl with h | h
      · show BusOut B (l0.getLast?.getD q.regs)
        rw [h]; exact i1
      · exact hq _ h
    · rcases List.mem_append.mp hx with hx | hx
      · exact i2 x hx
      · exact hq x hx

/-- A life begins with the initialisation of the hardware. -/
theorem life_start {B : Board} {T : Whole.Target} (hB : Built B T) {cfg : Config} {L : Layout}
    (hc : cfgOk cfg L = true) (r0 : Regs) {mxs : List (Nat → Whole.Contacts)}
    (hin : ∀ mx ∈ mxs, Allowed L (contactsRead mx)) {w : Whole.Whole}
    (hw : Whole.life T cfg r0 mxs = .ok w) :
    B ∈ boards ∧ ∃ t l, w.fw.dev.trace = .archInit :: t ∧ w.log = boardStates B r0 [.archInit] ++ l ∧
      Path B ⟨[.archInit], boardAfter B r0 [.archInit], boardStates B r0 [.archInit]⟩ (physOf w) := by
  obtain ⟨ready, hf⟩ := hB.onBoard
  obtain ⟨s, a, free, e1, e2, _⟩ := boot_inv (cfgFacts hc)
  obtain ⟨evs, t1, _⟩ := boot_trace ((cfgFacts hc).parts (cfgFacts hc).zero).2.1 e1
  have e3 := goOn_eq hf ⟨State.zero, r0, []⟩ (s := s) (evs := s.dev.trace) rfl
  obtain ⟨w0, a1, a2, a3, a4⟩ := whole_powerUp hf (cfgFacts hc) r0
  have e4 : Whole.powerUp T cfg r0 = .ok (Whole.Whole.goOn T ⟨State.zero, r0, []⟩ s) := by
    unfold Whole.powerUp
    rw [e1, ok_bind]
  have e5 : w0 = ⟨s, boardAfter B r0 s.dev.trace, [] ++ boardStates B r0 s.dev.trace⟩ :=
    (Except.ok.inj (a1.symm.trans e4)).trans e3
  have hpath : Path B ⟨[.archInit], boardAfter B r0 [.archInit], boardStates B r0 [.archInit]⟩ (physOf w0) := by
    have := (Path.refl (B := B) ⟨[.archInit], boardAfter B r0 [.archInit], boardStates B r0 [.archInit]⟩).events evs
    rw [e5]
    unfold physOf
    rw [t1]
    have x1 : boardAfter B r0 (.archInit :: evs) = boardAfter B (boardAfter B r0 [.archInit]) evs :=
      boardAfter_append B r0 [.archInit] evs
    have x2 : boardStates B r0 (.archInit :: evs) =
        boardStates B r0 [.archInit] ++ boardStates B (boardAfter B r0 [.archInit]) evs :=
      boardStates_append B r0 [.archInit] evs
    rw [x1, x2]
    exact this
  obtain ⟨w', b1, _, _, b4⟩ := whole_run hf (cfgFacts hc) mxs hin a3 ⟨a4.ready, hpath⟩
  have e6 : Whole.life T cfg r0 mxs = .ok w' := by
    unfold Whole.life
    rw [a1, ok_bind, b1]
  rw [e6] at hw
  have hs := Except.ok.inj hw
  subst hs
  obtain ⟨t, l, h1, h2⟩ := b4.path.trace
  exact ⟨hf.mem, t, l, h1, h2, b4.path⟩

/-! ## The computer -/

/-- The lines of a socket show the strobe and the data pins. -/
def Shows (B : Board) (lines : List (Nat × Signal)) (r : Regs) (v : Nat → Bool) : Prop :=
  ∀ x ∈ lines, ∀ p, signalPin B x.2 = some (p, false) →
    (drive r p = .low → v x.1 = false) ∧ (drive r p = .high → v x.1 = true)

theorem shows_328 {A : Assembly} {sockets : List (Nat × List (Nat × Signal))}
    (h : (A, sockets) ∈ plugged328) {k : Nat} {lines : List (Nat × Signal)} (hk : (k, lines) ∈ sockets)
    {r : Regs} {v : Nat → Bool} (hv : AtSocket328 A k lines r v) : Shows m328 lines r v := by
  obtain ⟨q, closed, ext, hfree, hsee⟩ := hv
  rintro ⟨pin, σ⟩ hx p hp
  have hl : σ.isLine = true := by cases σ <;> first | rfl | cases hp
  obtain ⟨n, hn, hd⟩ := C82_lines_328 A sockets h k lines hk pin σ hx
    (by rintro rfl; cases hp) (by rintro rfl; cases hp)
  obtain ⟨d1, d2⟩ := hd r q closed ext (hfree _ hx hl n hn)
  obtain ⟨s1, s2⟩ := hsee _ hx hl n hn
  have e : signalDrive m328 r σ = some (drive r p) := by
    dsimp only at hp
    unfold signalDrive
    rw [hp]
  exact ⟨fun hl => s1 (d1.mpr (e.trans (congrArg some hl))), fun hh => s2 (d2.mpr (e.trans (congrArg some hh)))⟩

theorem shows_2560 {A : Assembly} {sockets : List (Nat × List (Nat × Signal))}
    (h : (A, sockets) ∈ plugged2560) {k : Nat} {lines : List (Nat × Signal)} (hk : (k, lines) ∈ sockets)
    {r : Regs} {v : Nat → Bool} (hv : AtSocket2560 A k lines r v) : Shows m2560 lines r v := by
  obtain ⟨closed, ext, hfree, hsee⟩ := hv
  rintro ⟨pin, σ⟩ hx p hp
  have hl : σ.isLine = true := by cases σ <;> first | rfl | cases hp
  obtain ⟨n, hn, hd⟩ := C82_lines_2560 A sockets h k lines hk pin σ hx
    (by rintro rfl; cases hp) (by rintro rfl; cases hp)
  obtain ⟨d1, d2⟩ := hd r closed ext (hfree _ hx hl n hn)
  obtain ⟨s1, s2⟩ := hsee _ hx hl n hn
  have e : signalDrive m2560 r σ = some (drive r p) := by
    dsimp only at hp
    unfold signalDrive
    rw [hp]
  exact ⟨fun hl => s1 (d1.mpr (e.trans (congrArg some hl))), fun hh => s2 (d2.mpr (e.trans (congrArg some hh)))⟩

/-- A driven pin shows its level. -/
theorem shows_level {B : Board} {lines : List (Nat × Signal)} {r : Regs} {v : Nat → Bool}
    (h : Shows B lines r v) {x : Nat × Signal} (hx : x ∈ lines) {p : Pin}
    (hp : signalPin B x.2 = some (p, false)) (ho : isOutput r p = true) : v x.1 = level r p := by
  obtain ⟨h1, h2⟩ := h x hx p hp
  unfold drive at h1 h2
  rw [ho] at h1 h2
  cases hl : level r p with
  | false => rw [hl] at h1; exact h1 rfl
  | true => rw [hl] at h2; exact h2 rfl

theorem foldl_bits (f : Nat → Bool) (c : Nat) (hc : c < 8) (l : List Nat) (hl : ∀ i ∈ l, i < 8) (b : UInt8) :
    bitOf (l.foldl (fun b i => if f i then b ||| oneBit i else b) b) c =
      (bitOf b c || (l.contains c && f c)) := by
  induction l generalizing b with
  | nil => simp
  | cons i l ih =>
    rw [List.foldl_cons, ih fun j hj => hl j (List.mem_cons_of_mem _ hj)]
    have one : ∀ i, i < 8 → ∀ c, c < 8 → bitOf (oneBit i) c = (c == i) := by decide
    rw [List.contains_cons]
    by_cases hi : c = i
    · subst hi
      cases hf : f c
      · simp
      · simp [bitOf_or, one c hc c hc]
    · have hb : bitOf (if f i then b ||| oneBit i else b) c = bitOf b c := by
        split
        · rw [bitOf_or, one i (hl i List.mem_cons_self) c hc]
          simp [hi]
        · rfl
      rw [hb]
      have : (c == i) = false := by simpa using hi
      rw [this, Bool.false_or]

theorem seesCode_bit (lines : List (Nat × Signal)) (v : Nat → Bool) (c : Nat) (hc : c < 8) :
    bitOf (seesCode lines v) c = seesSignal lines v (.data c) := by
  unfold seesCode
  rw [foldl_bits _ c hc _ fun i hi => List.mem_range.mp hi]
  have : (List.range 8).contains c = true := by simpa using hc
  rw [this]
  simp [bitOf]

/-- The data lines show the data port. -/
theorem code_shown {B : Board} {lines : List (Nat × Signal)} {r : Regs} {v : Nat → Bool}
    (h : Shows B lines r v) (ho : BusOut B r) : seesCode lines v = r.port B.data &&& lineBits lines := by
  refine byte_ext fun c hc => ?_
  have hp : (⟨B.data, c⟩ : Pin) ∈ busPins B :=
    List.mem_cons_of_mem _ (List.mem_map.mpr ⟨c, List.mem_range.mpr hc, rfl⟩)
  rw [bitOf_and, lineBits, seesCode_bit _ _ c hc, seesCode_bit _ _ c hc, Bool.eq_iff_iff]
  unfold seesSignal
  rw [Bool.and_eq_true, List.any_eq_true, List.any_eq_true]
  have key : ∀ x ∈ lines, (x.2 == Signal.data c) = true → v x.1 = bitOf (r.port B.data) c := by
    intro x hx he
    have he := beq_iff_eq.mp he
    exact shows_level h hx (p := ⟨B.data, c⟩) (by rw [he]; rfl) (ho _ hp)
  constructor
  · rintro ⟨x, hx, he⟩
    rw [Bool.and_eq_true] at he
    exact ⟨(key x hx he.1).symm.trans he.2, x, hx, by rw [he.1]; rfl⟩
  · rintro ⟨hb, x, hx, he⟩
    rw [Bool.and_true] at he
    exact ⟨x, hx, by rw [he, key x hx he, hb]; rfl⟩

/-- The strobe line shows the strobe. -/
theorem strobe_shown {B : Board} {lines : List (Nat × Signal)} {r : Regs} {v : Nat → Bool}
    (h : Shows B lines r v) (ho : BusOut B r) {pin : Nat} (hs : (pin, .strobe) ∈ lines) :
    seesSignal lines v .strobe = level r B.strobe := by
  have key : ∀ x ∈ lines, (x.2 == Signal.strobe) = true → v x.1 = level r B.strobe := by
    intro x hx he
    have he := beq_iff_eq.mp he
    exact shows_level h hx (by rw [he]; rfl) (ho _ List.mem_cons_self)
  unfold seesSignal
  rw [Bool.eq_iff_iff, List.any_eq_true]
  constructor
  · rintro ⟨x, hx, he⟩
    rw [Bool.and_eq_true] at he
    exact (key x hx he.1).symm.trans he.2
  · intro hl
    exact ⟨_, hs, by rw [key _ hs rfl, hl]; rfl⟩

/-- The computer reads what the pins carry. -/
theorem reads_shown {B : Board} {lines : List (Nat × Signal)} {pin : Nat} (hs : (pin, .strobe) ∈ lines)
    (edge : Bool) {l : List Regs} {vs : List (Nat → Bool)} (hw : Watches (Shows B lines) l vs) :
    ∀ {r : Regs} {v : Nat → Bool}, BusOut B r → Shows B lines r v → (∀ x ∈ l, BusOut B x) →
      computerReads lines edge v vs = (latched B edge r l).map (· &&& lineBits lines) := by
  induction hw with
  | nil => intros; rfl
  | @cons r' v' l vs h hl ih =>
    intro r v ho hv hall
    have ho' := hall r' List.mem_cons_self
    have := ih ho' h fun x hx => hall x (List.mem_cons_of_mem _ hx)
    rw [computerReads, latched, strobe_shown hv ho hs, strobe_shown h ho' hs, code_shown h ho', this]
    split <;> rfl

theorem watches_mono {P Q : Regs → (Nat → Bool) → Prop} (h : ∀ r v, P r v → Q r v) {l : List Regs}
    {vs : List (Nat → Bool)} (hw : Watches P l vs) : Watches Q l vs := by
  induction hw with
  | nil => exact .nil
  | cons h1 _ ih => exact .cons (h _ _ h1) ih

theorem init_out {B : Board} (hB : B ∈ boards) (r : Regs) : BusOut B (boardAfter B r [.archInit]) := by
  intro p hp
  have key : ∀ B ∈ boards, ∀ p ∈ busPins B, ∀ st ∈ allPinSt,
      ((B.opsOf .archInit).foldl (pinStep p) st).2 = true := by decide +kernel
  have := key B hB p hp _ (mem_allPinSt (pinSt r p))
  rw [← exec_pin (fun _ => 0) p (bus_bit hB hp).1] at this
  rw [boardAfter_one]
  exact this

/-- A run, watched at a socket. -/
theorem life_watched {B : Board} {T : Whole.Target} (hB : Built B T) {cfg : Config} {L : Layout}
    (hc : cfgOk cfg L = true) (r0 : Regs) {mxs : List (Nat → Whole.Contacts)}
    (hin : ∀ mx ∈ mxs, Allowed L (contactsRead mx)) {w : Whole.Whole}
    (hw : Whole.life T cfg r0 mxs = .ok w) :
    ∃ t l, w.fw.dev.trace = .archInit :: t ∧ w.log = boardStates B r0 [.archInit] ++ l ∧
      ∀ (lines : List (Nat × Signal)) (pin : Nat), (pin, .strobe) ∈ lines →
        ∀ (edge : Bool) (v : Nat → Bool) (vs : List (Nat → Bool)),
          Shows B lines (boardAfter B r0 [.archInit]) v → Watches (Shows B lines) l vs →
          computerReads lines edge v vs =
            (hostReads edge ⟨false, 0⟩ t).map (· &&& lineBits lines) := by
  obtain ⟨hm, t, l, h1, h2, h3⟩ := life_start hB hc r0 hin hw
  refine ⟨t, l, h1, h2, fun lines pin hs edge v vs hv hvs => ?_⟩
  have ho := init_out hm r0
  have hall := (bus_path hm h3 ho h2).2
  have hr := (path_host hm edge h3 h1 h2).1
  have hwires : wiresOf B (boardAfter B r0 [.archInit]) = ⟨false, 0⟩ := by
    rw [boardAfter_one, wire_exec hm, (event_wires hm edge .archInit _).2]
    rfl
  rw [reads_shown hs edge hvs ho hv hall]
  show (latched B edge (boardAfter B r0 [.archInit]) l).map _ = _
  rw [← hwires, ← hr]

end Asdf.Props
