import Verif.Lemmas.Pins
import Verif.Lemmas.Frame

/-! # Lemmas about the hardware events on both boards -/

namespace Asdf

open Avr Spec

/-- An output handler looks only at whether its value is zero. -/
theorem handler_bool {B : Board} (hB : B ∈ boards) (dev : Nat) (v : UInt8) :
    B.opsOf (.out dev v) = B.opsOf (.out dev (if v ≠ 0 then 1 else 0)) := by
  have h1 : ∀ (b : UInt8) (x y : List Op), (if b ≠ 0 then x else y) =
      (if (if b ≠ 0 then (1 : UInt8) else 0) ≠ 0 then x else y) := by
    intro b x y
    by_cases hb : b = 0
    · subst hb; rfl
    · rw [if_pos hb, if_pos hb]; rfl
  rcases List.mem_cons.mp hB with rfl | hB
  · show M328.handler dev v = M328.handler dev _
    unfold M328.handler M328.out1Set M328.out2Set M328.out3Set M328.out1OpenHi M328.out2OpenHi
      M328.out3OpenHi M328.out1OpenLo M328.out2OpenLo M328.out3OpenLo M328.led1Set M328.led2Set
      M328.led3Set M328.nullOutput
    by_cases hv : v = 0
    · subst hv; rfl
    · rw [if_pos hv]; simp only [if_pos hv]; rfl
  · rcases List.mem_cons.mp hB with rfl | hB
    · show M2560.handler dev v = M2560.handler dev _
      unfold M2560.handler M2560.out1Set M2560.out2Set M2560.out3Set M2560.out1OpenHi
        M2560.out2OpenHi M2560.out3OpenHi M2560.out1OpenLo M2560.out2OpenLo M2560.out3OpenLo
        M2560.led1Set M2560.led2Set M2560.led3Set M2560.nullOutput
      by_cases hv : v = 0
      · subst hv; rfl
      · rw [if_pos hv]; simp only [if_pos hv]; rfl
    · cases hB

/-- There is no other output. -/
theorem handler_none {B : Board} (hB : B ∈ boards) (dev : Nat) (hd : 13 ≤ dev) (v : UInt8) :
    B.opsOf (.out dev v) = [] := by
  have hne : ∀ k, k < 13 → ¬ dev = k := fun k hk hc => by omega
  rcases List.mem_cons.mp hB with rfl | hB
  · show M328.handler dev v = []
    unfold M328.handler
    repeat rw [if_neg (hne _ (by decide))]
    rfl
  · rcases List.mem_cons.mp hB with rfl | hB
    · show M2560.handler dev v = []
      unfold M2560.handler
      repeat rw [if_neg (hne _ (by decide))]
      rfl
    · cases hB

/-- All states of all pins. -/
def allPinSt : List PinSt := [(false, false), (false, true), (true, false), (true, true)]

theorem mem_allPinSt (st : PinSt) : st ∈ allPinSt := by
  obtain ⟨a, b⟩ := st
  cases a <;> cases b <;> decide

def driveOf (st : PinSt) : Drive :=
  match st.2, st.1 with
  | true, true => .high
  | true, false => .low
  | false, true => .pullup
  | false, false => .floating

theorem drive_eq (r : Regs) (p : Pin) : drive r p = driveOf (pinSt r p) := rfl

theorem boardStates_one (B : Board) (r : Regs) (e : Event) :
    boardStates B r [e] = states .sbi (fun _ => 0) r (B.opsOf e) := by
  rw [boardStates, List.flatMap_cons, List.flatMap_nil, List.append_nil]

theorem boardAfter_one (B : Board) (r : Regs) (e : Event) :
    boardAfter B r [e] = exec .sbi (fun _ => 0) r (B.opsOf e) := by
  rw [boardAfter, List.flatMap_cons, List.flatMap_nil, List.append_nil]


/-! ## The strobe -/

theorem leaves_delay (p : Pin) (us : Nat) : leaves p (.delayUs us) = true := by
  rfl

/-- Events that do not concern the strobe. -/
def strobeFree : Event → Bool
  | .send _ => false
  | .posStrobe => false
  | .negStrobe => false
  | .archInit => false
  | _ => true

theorem strobe_left {B : Board} (hB : B ∈ boards) {e : Event} (he : strobeFree e = true) :
    (B.opsOf e).all (leaves B.strobe) = true := by
  cases e with
  | out dev v =>
    by_cases hd : dev < 13
    · have key : ∀ B ∈ boards, ∀ dev, dev < 13 → ∀ v ∈ [(0 : UInt8), 1],
        (B.opsOf (.out dev v)).all (leaves B.strobe) = true := by decide +kernel
      rw [handler_bool hB]
      exact key B hB dev hd _ (by split <;> decide)
    · rw [handler_none hB dev (by omega)]; rfl
  | delayShort =>
    have key : ∀ B ∈ boards, (B.opsOf .delayShort).all (leaves B.strobe) = true := by decide +kernel
    exact key B hB
  | delayLong =>
    have key : ∀ B ∈ boards, (B.opsOf .delayLong).all (leaves B.strobe) = true := by decide +kernel
    exact key B hB
  | delayMs ms =>
    have : B.opsOf (.delayMs ms) = List.replicate ms.toNat (.delayUs 1000) := by
      rcases List.mem_cons.mp hB with rfl | hB
      · rfl
      · rcases List.mem_cons.mp hB with rfl | hB
        · rfl
        · cases hB
    rw [this, List.all_eq_true]
    intro op ho
    rw [(List.mem_replicate.mp ho).2]
    exact leaves_delay _ _
  | _ => cases he

theorem strobe_bit {B : Board} (hB : B ∈ boards) : B.strobe.bit < 8 := by
  have key : ∀ B ∈ boards, B.strobe.bit < 8 := by decide
  exact key B hB

theorem foldl_leaves {p : Pin} {ops : List Op} (h : ops.all (leaves p) = true) (st : PinSt) :
    ops.foldl (pinStep p) st = st := by
  induction ops with
  | nil => rfl
  | cons op ops ih =>
    rw [List.all_cons, Bool.and_eq_true] at h
    rw [List.foldl_cons, leaves_iff h.1, ih h.2]

/-- The effect of one event on the strobe pin. -/
theorem strobe_event {B : Board} (hB : B ∈ boards) (e : Event) (st : PinSt) (o : Option Bool)
    (h : ∀ l, o = some l → st = (l, true)) :
    ∀ l, idleStep o e = some l → (B.opsOf e).foldl (pinStep B.strobe) st = (l, true) := by
  intro l hl
  have key : ∀ B ∈ boards, ∀ st ∈ allPinSt,
      (B.opsOf .archInit).foldl (pinStep B.strobe) st = (false, true) ∧
      (B.opsOf .posStrobe).foldl (pinStep B.strobe) st = (false, true) ∧
      (B.opsOf .negStrobe).foldl (pinStep B.strobe) st = (true, true) := by decide +kernel
  obtain ⟨k1, k2, k3⟩ := key B hB st (mem_allPinSt st)
  cases e with
  | archInit => cases hl; exact k1
  | posStrobe => cases hl; exact k2
  | negStrobe => cases hl; exact k3
  | send c =>
    have hst := h l hl
    subst hst
    rcases List.mem_cons.mp hB with rfl | hB
    · cases l <;> rfl
    · rcases List.mem_cons.mp hB with rfl | hB
      · cases l <;> rfl
      · cases hB
  | _ =>
    rw [foldl_leaves (strobe_left hB rfl)]
    exact h l hl

theorem boardAfter_append (B : Board) (r : Regs) (t1 t2 : List Event) :
    boardAfter B r (t1 ++ t2) = boardAfter B (boardAfter B r t1) t2 := by
  unfold boardAfter
  rw [List.flatMap_append, exec_append]

theorem strobe_after {B : Board} (hB : B ∈ boards) (t : List Event) (r : Regs) (o : Option Bool)
    (h : ∀ l, o = some l → pinSt r B.strobe = (l, true)) :
    ∀ l, t.foldl idleStep o = some l → pinSt (boardAfter B r t) B.strobe = (l, true) := by
  induction t generalizing r o with
  | nil => exact h
  | cons e t ih =>
    intro l hl
    rw [List.foldl_cons] at hl
    have : boardAfter B r (e :: t) = boardAfter B (boardAfter B r [e]) t :=
      boardAfter_append B r [e] t
    rw [this]
    refine ih _ _ ?_ l hl
    intro l' hl'
    rw [boardAfter_one, exec_pin _ _ (strobe_bit hB)]
    exact strobe_event hB e _ o h l' hl'

/-- The strobe and the data port along the sending of a code. -/
theorem send_states {B : Board} (hB : B ∈ boards) (ext : Port → UInt8) (r : Regs) (c : Code) :
    (states .sbi ext r (B.opsOf (.send c))).map (fun x => (level x B.strobe, x.port B.data)) =
      [(level r B.strobe, c), (!level r B.strobe, c), (!level r B.strobe, c),
        (level r B.strobe, c)] := by
  have hs := states_pin ext B.strobe (strobe_bit hB) (B.opsOf (.send c)) r
  have hx : c ^^^ DATA_POLARITY = c := UInt8.xor_zero
  have hl : ∀ (l : List Regs) (a : List PinSt) (x1 x2 x3 x4 : Bool),
      l.map (pinSt · B.strobe) = a → a.map Prod.fst = [x1, x2, x3, x4] →
      l.map (fun x : Regs => x.port B.data) = [c, c, c, c] →
      l.map (fun x => (level x B.strobe, x.port B.data)) = [(x1, c), (x2, c), (x3, c), (x4, c)] := by
    intro l a x1 x2 x3 x4 h1 h2 h3
    subst h1
    rw [List.map_map] at h2
    match l, h2, h3 with
    | [y1, y2, y3, y4], h2, h3 =>
      simp only [List.map_cons, List.map_nil, List.cons.injEq, and_true, Function.comp] at h2 h3 ⊢
      exact ⟨Prod.ext h2.1 h3.1, Prod.ext h2.2.1 h3.2.1, Prod.ext h2.2.2.1 h3.2.2.1,
        Prod.ext h2.2.2.2 h3.2.2.2⟩
  refine hl _ _ _ _ _ _ hs ?_ ?_
  · have h4 : ∀ st : PinSt, (pinSts B.strobe st (B.opsOf (.send c))).map Prod.fst =
        [st.1, !st.1, !st.1, st.1] := by
      rcases List.mem_cons.mp hB with rfl | hB
      · intro ⟨a, b⟩; cases a <;> rfl
      · rcases List.mem_cons.mp hB with rfl | hB
        · intro ⟨a, b⟩; cases a <;> rfl
        · cases hB
    exact h4 (pinSt r B.strobe)
  · have h5 : (states .sbi ext r (B.opsOf (.send c))).map (fun x : Regs => x.port B.data) =
        [c ^^^ DATA_POLARITY, c ^^^ DATA_POLARITY, c ^^^ DATA_POLARITY, c ^^^ DATA_POLARITY] := by
      rcases List.mem_cons.mp hB with rfl | hB
      · rfl
      · rcases List.mem_cons.mp hB with rfl | hB
        · rfl
        · cases hB
    rw [h5, hx]

/-! ## What a host latches -/

theorem latched_cons (B : Board) (a : Bool) (r x : Regs) (l : List Regs) :
    latched B a r (x :: l) = if level r B.strobe ≠ a ∧ level x B.strobe = a then
      x.port B.data :: latched B a x l else latched B a x l := rfl

theorem latched_append (B : Board) (a : Bool) (ext : Port → UInt8) (o1 o2 : List Op) (r : Regs) :
    latched B a r (states .sbi ext r (o1 ++ o2)) =
      latched B a r (states .sbi ext r o1) ++
        latched B a (exec .sbi ext r o1) (states .sbi ext (exec .sbi ext r o1) o2) := by
  induction o1 generalizing r with
  | nil => rfl
  | cons op ops ih =>
    rw [List.cons_append, states, states, latched_cons, latched_cons, ih]
    split
    · rfl
    · rfl

theorem latched_quiet (B : Board) (a : Bool) (l : List Regs) (r : Regs)
    (h : ∀ x ∈ l, level x B.strobe = level r B.strobe) : latched B a r l = [] := by
  induction l generalizing r with
  | nil => rfl
  | cons x l ih =>
    have h1 := h x List.mem_cons_self
    rw [latched_cons, if_neg (by rw [h1]; exact fun hc => hc.1 hc.2)]
    exact ih x fun y hy => by rw [h y (List.mem_cons_of_mem _ hy), h1]

theorem latched_send {B : Board} (hB : B ∈ boards) (ext : Port → UInt8) (r : Regs) (c : Code)
    (a : Bool) (hr : level r B.strobe = !a) :
    latched B a r (states .sbi ext r (B.opsOf (.send c))) = [c] := by
  have h := send_states hB ext r c
  generalize states .sbi ext r (B.opsOf (.send c)) = l at h
  rw [hr] at h
  rcases l with _ | ⟨y1, _ | ⟨y2, _ | ⟨y3, _ | ⟨y4, _ | ⟨y5, l⟩⟩⟩⟩⟩
  case cons.cons.cons.cons.nil =>
    simp only [List.map_cons, List.map_nil, List.cons.injEq, and_true, Prod.mk.injEq,
      Bool.not_not] at h
    obtain ⟨⟨a1, _⟩, ⟨a2, b2⟩, ⟨a3, _⟩, ⟨a4, _⟩⟩ := h
    rw [latched_cons, hr, a1, if_neg (by cases a <;> decide), latched_cons, a1, a2,
      if_pos (by cases a <;> decide), b2, latched_cons, a2, a3, if_neg (by cases a <;> decide),
      latched_cons, a3, a4, if_neg (by cases a <;> decide)]
    rfl
  all_goals simp at h

theorem latched_events {B : Board} (hB : B ∈ boards) (a : Bool) (t : List Event)
    (ht : ∀ e ∈ t, keepsPolarity e = true) (r : Regs) (hr : pinSt r B.strobe = (!a, true)) :
    latched B a r (boardStates B r t) = sends t := by
  induction t generalizing r with
  | nil => rfl
  | cons e t ih =>
    have he := ht e List.mem_cons_self
    have h1 : pinSt (exec .sbi (fun _ => 0) r (B.opsOf e)) B.strobe = (!a, true) := by
      rw [exec_pin _ _ (strobe_bit hB)]
      refine strobe_event hB e _ (some (!a)) (fun l hl => by rw [← Option.some.inj hl]; exact hr)
        (!a) ?_
      cases e <;> first | rfl | cases he
    unfold boardStates
    rw [List.flatMap_cons, latched_append]
    have h2 := ih (fun x hx => ht x (List.mem_cons_of_mem _ hx)) _ h1
    unfold boardStates at h2
    rw [h2]
    by_cases hf : strobeFree e = true
    · have h3 : latched B a r (states .sbi (fun _ => 0) r (B.opsOf e)) = [] := by
        refine latched_quiet B a _ r fun x hx => ?_
        have := pin_unchanged (fun op ho => leaves_iff
          (List.all_eq_true.mp (strobe_left hB hf) op ho)) (pinSt r B.strobe) _
          (mem_states_pin hx B.strobe (strobe_bit hB))
        exact congrArg Prod.fst this
      rw [h3]
      cases e <;> first | rfl | cases hf
    · cases e with
      | send c =>
        rw [latched_send hB _ r c a (congrArg Prod.fst hr)]
        rfl
      | _ => first | exact absurd rfl hf | cases he

/-! ## The selected idle level in a run of the firmware -/

theorem idleLevel_append {t evs : List Event} (h : idleLevel t ≠ none) :
    idleLevel (t ++ evs) ≠ none := by
  unfold idleLevel at h ⊢
  rw [List.foldl_append]
  generalize t.foldl idleStep none = o at h
  induction evs generalizing o with
  | nil => exact h
  | cons e evs ih =>
    rw [List.foldl_cons]
    refine ih _ ?_
    cases e <;> first | exact h | (intro hc; cases hc)

theorem NoSend.idle {t t' : List Event} (hn : NoSend t t') (h : idleLevel t ≠ none) :
    idleLevel t' ≠ none := by
  obtain ⟨evs, rfl, _⟩ := hn
  exact idleLevel_append h

theorem idle_stable (cfg : Config) : Stable cfg fun s => idleLevel s.dev.trace ≠ none where
  frame s s' h1 _ _ _ _ h := by rw [h1]; exact h
  shift s s' n h hs := (setShiftState_ns h).idle hs
  caps s s' n h hs := (setCapsState_ns h).idle hs
  ctrl s x hs := hs
  virt s d code v _ h hs := (virtActivate_ns h).idle hs
  emit s e _ _ hs := idleLevel_append hs
  switch s s' i h hs := (keymapsSwitch_ns h).idle hs

theorem boot_idle {cfg : Config} (h0 : cfg.valid 0 = true) {s : State} (hb : boot cfg = .ok s) :
    idleLevel s.dev.trace ≠ none := by
  refine (idle_stable cfg).boot hb ?_
  intro s1 s2 _ _ _ _ _ h
  unfold keymapsSwitch at h
  rw [if_pos h0] at h
  obtain ⟨s3, h1, h2⟩ := bind_eq_ok.mp h
  have h3 : idleLevel s3.dev.trace ≠ none := by
    refine (keymapsReset_ns h1).idle ?_
    unfold idleLevel
    show (s1.dev.trace ++ [Event.archInit]).foldl idleStep none ≠ none
    rw [List.foldl_append]
    intro hc
    cases hc
  exact (foldlM_ns (fun _ _ _ => runCmd_ns) _ h2).idle h3

end Asdf
