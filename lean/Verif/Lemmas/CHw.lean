import Verif.Lemmas.CKeymaps
import Verif.Spec.CHw

/-! # The accesses to the hardware, and the interrupt -/

namespace Asdf.C

open Avr

/-- What every board has: the interrupt routine; nothing of its own for what the controller does. -/
class IsBoard (B : Board) : Prop where
  isr : wholeBody B .TIMER0_COMPA_vect = some A328.fn_TIMER0_COMPA_vect
  io_read : wholeBody B .io_read = none
  io_write : wholeBody B .io_write = none
  cli : wholeBody B .cli = none
  sei : wholeBody B .sei = none
  delay_us : wholeBody B .delay_us = none
  delay_ms : wholeBody B .delay_ms = none
  pgm : wholeBody B .pgm_read_byte = none
  print : wholeBody B .asdf_print = none
  tick : wholeBody B .asdf_arch_tick = some A328.fn_asdf_arch_tick
  wait : wholeBody B .asdf_arch_delay_ms = some A328.fn_asdf_arch_delay_ms
  clock : wholeBody B .asdf_arch_init_clock = some A328.fn_asdf_arch_init_clock
  timer : wholeBody B .arch_timer0_config = some A328.fn_arch_timer0_config
  short : wholeBody B .asdf_arch_pulse_delay_short = some A328.fn_asdf_arch_pulse_delay_short
  long : wholeBody B .asdf_arch_pulse_delay_long = some A328.fn_asdf_arch_pulse_delay_long
  null : wholeBody B .asdf_arch_null_output = some A328.fn_asdf_arch_null_output

instance : IsBoard board328 := ⟨rfl, rfl, rfl, rfl, rfl, rfl, rfl, rfl, rfl, rfl, rfl, rfl, rfl, rfl, rfl, rfl⟩
instance (cols : (Nat → UInt8) → Regs → UInt8) : IsBoard (board2560 cols) :=
  ⟨rfl, rfl, rfl, rfl, rfl, rfl, rfl, rfl, rfl, rfl, rfl, rfl, rfl, rfl, rfl, rfl⟩

/-- After the interrupt, if there is one. -/
def Hw.irq (W : Outside) (h : Hw) : Hw :=
  if h.regs.irq && W.fires h.time then { h with tick := 1, ints := h.ints + 1, time := h.time + 1 } else h

/-- An access that changes a register, or a delay. -/
def Hw.acc (B : Board) (W : Outside) (h : Hw) (op : Op) : Hw :=
  (h.irq W).go B W (access .sbi (fun _ => 0) (h.irq W).regs op) (us op)

/-- Reading. -/
def Hw.quiet (W : Outside) (h : Hw) : Hw := { h.irq W with time := (h.irq W).time + 1 }

/-- Looking at the timer flag. -/
def Hw.looked (W : Outside) (h : Hw) (k : Nat) : Hw :=
  { h.quiet W with polls := k, found := if (h.irq W).tick = 0 then (h.irq W).found else (h.irq W).found + 1 }

/-- Writing the variable `tick`. -/
def Hw.setTick (W : Outside) (h : Hw) (v : UInt8) : Hw := { h.irq W with tick := v, time := (h.irq W).time + 1 }

/-- Writing the variable `data_polarity`. -/
def Hw.setPol (W : Outside) (h : Hw) (v : UInt8) : Hw := { h.irq W with polarity := v, time := (h.irq W).time + 1 }

section
variable (m : G → Tree) (env e : List (L × Val)) (h : Hw)

@[crun] theorem KH_env : (KH m env h).env = env := rfl
@[crun] theorem KH_io : (KH m env h).io = h := rfl
@[crun] theorem KH_setEnv (h' : Hw) : (⟨(KH m env h).mem, e, h'⟩ : St Hw) = KH m e h' := rfl
@[crun] theorem KH_leave (n : Nat) : leave n (KH m env h) = KH m (env.drop (env.length - n)) h := rfl
@[crun] theorem KH_hw (h' : Hw) : (KH m env h).hw h' = KH m env h' := rfl
@[crun] theorem KH_load_var (y : L) : loadLoc (.var y) (KH m env h) =
    match local? y env with
    | some v => .ok v
    | none => .error .type := rfl
@[crun] theorem KH_store_var (y : L) (v : Val) : storeLoc (.var y) v (KH m env h) =
    match local? y env with
    | some old => (lift (store old v) (KH m env h)).bind fun w _ => .ok w (KH m (setLocal y w env) h)
    | none => .err .type := by
  unfold storeLoc
  cases h1 : local? y env with
  | none => simp [KH, h1]
  | some old => cases h' : store old v <;> simp [KH, h1, h', lift, Out.bind]

end

@[crun] theorem common_u16_u16 : common .u16 .u16 = .u16 := rfl
@[crun] theorem evalE_reg {ι : Type} (call : Call ι) (s : St ι) (r : R) : evalE call (.reg r) s = .ok (.reg r) s := rfl
@[crun] theorem exec_declU {ι : Type} (call : Call ι) (w : Nat) (s : St ι) (t : Ity) (x : L) :
    exec call w (.declU t x) s = .ok .next { s with env := (x, .undef t) :: s.env } := rfl
@[crun] theorem toPtr_reg (r : R) : toPtr (.reg r) = .ok (.reg r) := rfl

theorem irq_regs (W : Outside) (h : Hw) : (h.irq W).regs = h.regs := by unfold Hw.irq; split <;> rfl
theorem irq_log (W : Outside) (h : Hw) : (h.irq W).log = h.log := by unfold Hw.irq; split <;> rfl
theorem irq_pol (W : Outside) (h : Hw) : (h.irq W).polarity = h.polarity := by unfold Hw.irq; split <;> rfl
theorem irq_polls (W : Outside) (h : Hw) : (h.irq W).polls = h.polls := by unfold Hw.irq; split <;> rfl
theorem irq_found (W : Outside) (h : Hw) : (h.irq W).found = h.found := by unfold Hw.irq; split <;> rfl
theorem irq_sr (W : Outside) (h : Hw) : (h.irq W).sr = h.sr := by unfold Hw.irq; split <;> rfl
theorem irq_time (W : Outside) (h : Hw) : h.time ≤ (h.irq W).time := by
  unfold Hw.irq; split
  · exact Nat.le_succ _
  · exact Nat.le_refl _
theorem irq_credit (W : Outside) (h : Hw) : h.credit ≤ (h.irq W).credit := by
  unfold Hw.irq
  by_cases hi : (h.regs.irq && W.fires h.time) = true
  · rw [if_pos hi]
    unfold Hw.credit
    have : (1 : UInt8) ≠ 0 := by decide
    simp only [this, ↓reduceIte, Int.natCast_add]
    split <;> omega
  · rw [if_neg hi]
    exact Int.le_refl _

section
variable {B : Board} [hB : IsBoard B] (W : Outside) (m : G → Tree) (env : List (L × Val)) (h : Hw) (w n : Nat)

theorem hw_ext {f : F} {args : List Val} {s : St Hw} (hb : wholeBody B f = none) :
    run (hwProg B W) w (n + 1) f args s = hwExt B W (run (hwProg B W) w n) f args s := by
  simp only [run, hwProg, hb]
theorem hw_fn {f : F} {b : Fun} {args : List Val} {s : St Hw} (hb : wholeBody B f = some b) :
    run (hwProg B W) w (n + 1) f args s = apply (run (hwProg B W) w n) w b args s := by
  simp only [run, hwProg, hb]

theorem interrupt_eq : interrupt W (run (hwProg B W) w (n + 2)) (KH m env h) = .ok .unit (KH m env (h.irq W)) := by
  unfold interrupt
  by_cases hi : (h.regs.irq && W.fires h.time) = true
  · have e1 : h.regs.irq = true := by simp at hi; exact hi.1
    rw [if_pos (show ((KH m env h).io.regs.irq && W.fires (KH m env h).io.time) = true from hi)]
    have hb : wholeBody B .TIMER0_COMPA_vect = some A328.fn_TIMER0_COMPA_vect := hB.isr
    have hb2 : wholeBody B .io_write = none := hB.io_write
    rw [hw_fn W w (n + 1) hb]
    unfold A328.fn_TIMER0_COMPA_vect
    have k : ∀ env p d i c t po sr lg ints tm pl fo,
        run (hwProg B W) w (n + 1) .io_write [.reg .tick, .int .i16 1]
          (KH m env ⟨⟨p, d, i, c, false⟩, t, po, sr, lg, ints, tm, pl, fo⟩) =
        .ok (.int .u8 1) (KH m env ⟨⟨p, d, i, c, false⟩, 1, po, sr, lg, ints, tm + 1, pl, fo⟩) := by
      intro env p d i c t po sr lg ints tm pl fo
      rw [hw_ext W w n hb2]
      simp only [hwExt, interrupt, KH_io, Bool.false_and, Bool.false_eq_true, ↓reduceIte, bind_ok]
      rfl
    cgo [k]
    unfold Hw.irq
    rw [if_pos hi]
    rcases h with ⟨⟨p, d, i, c, q⟩, t, po, sr, lg, ints, tm, pl, fo⟩
    cases e1
    rfl
  · rw [if_neg (show ¬((KH m env h).io.regs.irq && W.fires (KH m env h).io.time) = true from hi)]
    unfold Hw.irq
    rw [if_neg hi]

/-- A primitive. -/
theorem prim_eq {f : F} {args : List Val} (hb : wholeBody B f = none) (h1 : f ≠ .pgm_read_byte) (h2 : f ≠ .asdf_print) :
    run (hwProg B W) w (n + 3) f args (KH m env h) = prim B W f args (KH m env (h.irq W)) := by
  rw [hw_ext W w (n + 2) hb]
  have : hwExt B W (run (hwProg B W) w (n + 2)) f args (KH m env h) =
      (interrupt W (run (hwProg B W) w (n + 2)) (KH m env h)).bind fun _ s => prim B W f args s := by
    unfold hwExt
    split
    · exact absurd rfl h1
    · exact absurd rfl h2
    · rfl
  rw [this, interrupt_eq]
  rfl

@[crun] theorem hw_set_bit (r : R) (t : Ity) (b : Int) :
    run (hwProg B W) w (n + 3) .set_bit [.reg r, .int t b] (KH m env h) =
      match cellOf r with
      | .port p => .ok .unit (KH m env (h.acc B W (.setPort p b.toNat)))
      | .ddr p => .ok .unit (KH m env (h.acc B W (.setDdr p b.toNat)))
      | .pin p => .ok .unit (KH m env (h.acc B W (.setPin p b.toNat)))
      | _ => .err .badCall := by
  rw [prim_eq W m env h w n rfl (by decide) (by decide)]
  cases hc : cellOf r <;> simp only [prim, hc, Hw.setBit] <;> rfl

@[crun] theorem hw_clear_bit (r : R) (t : Ity) (b : Int) :
    run (hwProg B W) w (n + 3) .clear_bit [.reg r, .int t b] (KH m env h) =
      match cellOf r with
      | .port p => .ok .unit (KH m env (h.acc B W (.clrPort p b.toNat)))
      | .ddr p => .ok .unit (KH m env (h.acc B W (.clrDdr p b.toNat)))
      | _ => .err .badCall := by
  rw [prim_eq W m env h w n rfl (by decide) (by decide)]
  cases hc : cellOf r <;> simp only [prim, hc, Hw.setBit] <;> rfl

@[crun] theorem hw_io_write (r : R) (t : Ity) (v : Int) :
    run (hwProg B W) w (n + 3) .io_write [.reg r, .int t v] (KH m env h) =
      .ok (.int .u8 (UInt8.ofInt v).toNat) (KH m env
      (match cellOf r with
      | .port p => h.acc B W (.wrPort p (UInt8.ofInt v))
      | .ddr p => h.acc B W (.wrDdr p (UInt8.ofInt v))
      | .pin p => (h.irq W).write B W (.pin p) (UInt8.ofInt v)
      | .io p => h.acc B W (.wrIo p (UInt8.ofInt v))
      | .tick => h.setTick W (UInt8.ofInt v)
      | .polarity => h.setPol W (UInt8.ofInt v))) := by
  rw [prim_eq W m env h w n hB.io_write (by decide) (by decide)]
  cases hc : cellOf r <;> simp only [prim, hc] <;> rfl

@[crun] theorem hw_io_read (r : R) :
    run (hwProg B W) w (n + 3) .io_read [.reg r] (KH m env h) =
      match cellOf r with
      | .tick =>
        match h.polls with
        | 0 => .stop (KH m env (h.irq W))
        | k + 1 => .ok (.int .u8 (h.irq W).tick.toNat) (KH m env (h.looked W k))
      | .port p => .ok (.int .u8 (h.regs.port p).toNat) (KH m env (h.quiet W))
      | .ddr p => .ok (.int .u8 (h.regs.ddr p).toNat) (KH m env (h.quiet W))
      | .polarity => .ok (.int .u8 h.polarity.toNat) (KH m env (h.quiet W))
      | c => .ok (.int .u8 ((h.irq W).read B W c).toNat) (KH m env (h.quiet W)) := by
  rw [prim_eq W m env h w n hB.io_read (by decide) (by decide)]
  have e1 := irq_polls W h
  have e2 := irq_regs W h
  have e3 := irq_pol W h
  unfold Hw.looked Hw.quiet
  generalize h.irq W = k at *
  rw [← e1, ← e2, ← e3]
  cases hp : k.polls <;> cases hc : cellOf r <;> simp only [prim, hc, KH_io, hp] <;> rfl

@[crun] theorem hw_cli : run (hwProg B W) w (n + 3) .cli [] (KH m env h) =
    .ok .unit (KH m env (h.acc B W (.irq false))) := by
  rw [prim_eq W m env h w n hB.cli (by decide) (by decide)]; rfl
@[crun] theorem hw_sei : run (hwProg B W) w (n + 3) .sei [] (KH m env h) =
    .ok .unit (KH m env (h.acc B W (.irq true))) := by
  rw [prim_eq W m env h w n hB.sei (by decide) (by decide)]; rfl
@[crun] theorem hw_delay_us (t : Ity) (v : Int) : run (hwProg B W) w (n + 3) .delay_us [.int t v] (KH m env h) =
    .ok .unit (KH m env (h.acc B W (.delayUs v.toNat))) := by
  rw [prim_eq W m env h w n hB.delay_us (by decide) (by decide)]; rfl
@[crun] theorem hw_delay_ms (t : Ity) (v : Int) : run (hwProg B W) w (n + 3) .delay_ms [.int t v] (KH m env h) =
    .ok .unit (KH m env (h.acc B W (.delayUs (1000 * v.toNat)))) := by
  rw [prim_eq W m env h w n hB.delay_ms (by decide) (by decide)]; rfl

end

attribute [crun] cellOf

/-! ## Progress -/

theorem timed_append (a b : List Op) : ∀ r, timed r (a ++ b) = timed r a ++ timed (Avr.exec .sbi (fun _ => 0) r a) b := by
  induction a with
  | nil => intro r; rfl
  | cons op a ih =>
    intro r
    simp only [List.cons_append, timed, ih]
    rfl

theorem timed_fst (a : List Op) : ∀ r, (timed r a).map Prod.fst = states .sbi (fun _ => 0) r a := by
  induction a with
  | nil => intro r; rfl
  | cons op a ih =>
    intro r
    simp only [timed, states, List.map_cons, ih]

theorem Hw.Kept.refl (h : Hw) : h.Kept h := .inl ⟨rfl, rfl⟩

theorem Hw.Kept.trans {a b c : Hw} (x : a.Kept b) (y : b.Kept c) : a.Kept c := by
  rcases x with ⟨x1, x2⟩ | ⟨x1, x2⟩
  · rcases y with ⟨y1, y2⟩ | ⟨y1, y2⟩
    · exact .inl ⟨y1.trans x1, y2.trans x2⟩
    · exact .inr ⟨by omega, y2⟩
  · rcases y with ⟨y1, y2⟩ | ⟨y1, y2⟩
    · exact .inr ⟨by omega, by rw [y2]; exact x2⟩
    · exact .inr ⟨by omega, y2⟩

theorem irq_kept (W : Outside) (h : Hw) : h.Kept (h.irq W) := by
  unfold Hw.irq
  split
  · exact .inr ⟨Nat.lt_succ_self _, show (1 : UInt8) ≠ 0 by decide⟩
  · exact .refl h

theorem exec_irq {ops : List Op} : ∀ {r : Regs}, r.irq = true → (∀ x ∈ timed r ops, x.1.irq = true) →
    (Avr.exec .sbi (fun _ => 0) r ops).irq = true := by
  induction ops with
  | nil => exact fun h _ => h
  | cons op ops ih =>
    intro r _ h
    exact ih (r := access .sbi (fun _ => 0) r op) (h _ List.mem_cons_self) fun x hx => h x (List.mem_cons_of_mem _ hx)

/-- An access that does not enable or disable interrupts. -/
def noIrq : Op → Bool
  | .irq _ => false
  | _ => true

theorem access_noIrq {op : Op} (h : noIrq op = true) (r : Regs) : (access .sbi (fun _ => 0) r op).irq = r.irq := by
  cases op with
  | irq => cases h
  | wrIo reg v =>
    cases reg with
    | clkpr =>
      simp only [access, writeIo]
      split
      · rfl
      · split <;> rfl
    | _ => rfl
  | _ => rfl

theorem exec_noIrq {ops : List Op} (h : ops.all noIrq = true) : ∀ r, (Avr.exec .sbi (fun _ => 0) r ops).irq = r.irq := by
  induction ops with
  | nil => exact fun r => rfl
  | cons op ops ih =>
    intro r
    rw [List.all_cons, Bool.and_eq_true] at h
    exact (ih h.2 (access .sbi (fun _ => 0) r op)).trans (access_noIrq h.1 r)

theorem exec_off {ops : List Op} (h : ops.all noIrq = true) (r : Regs) :
    (Avr.exec .sbi (fun _ => 0) r (.irq false :: ops)).irq = false :=
  exec_noIrq h (access .sbi (fun _ => 0) r (.irq false))

theorem Adv.refl (h : Hw) : Adv [] h h :=
  ⟨rfl, by simp [timed], rfl, rfl, rfl, Int.le_refl _, Nat.le_refl _, fun _ _ => .refl h⟩

theorem Adv.trans {a b : List Op} {h h1 h2 : Hw} (x : Adv a h h1) (y : Adv b h1 h2) : Adv (a ++ b) h h2 where
  regs := by rw [y.regs, x.regs, Avr.exec, Avr.exec, Avr.exec, List.foldl_append]
  log := by rw [y.log, x.log, x.regs, timed_append, List.append_assoc]
  polarity := y.polarity.trans x.polarity
  polls := y.polls.trans x.polls
  found := y.found.trans x.found
  credit := Int.le_trans x.credit y.credit
  time := Nat.le_trans x.time y.time
  kept hi hl := by
    rw [timed_append] at hl
    have ha := fun p hp => hl p (List.mem_append_left _ hp)
    refine (x.kept hi ha).trans (y.kept ?_ fun p hp => hl p (List.mem_append_right _ ?_))
    · rw [x.regs]; exact exec_irq hi ha
    · rw [x.regs] at hp; exact hp

variable {B : Board} {W : Outside} {h h' : Hw}

theorem adv_acc (op : Op) : Adv [op] h (h.acc B W op) where
  regs := by simp only [Hw.acc, Hw.go, irq_regs]; rfl
  log := by simp only [Hw.acc, Hw.go, irq_regs, irq_log]; rfl
  polarity := irq_pol W h
  polls := irq_polls W h
  found := irq_found W h
  credit := irq_credit W h
  time := Nat.le_trans (irq_time W h) (Nat.le_succ _)
  kept _ _ := irq_kept W h

theorem adv_quiet : Adv [] h (h.quiet W) where
  regs := irq_regs W h
  log := by simp only [Hw.quiet, irq_log, timed, List.append_nil]
  polarity := irq_pol W h
  polls := irq_polls W h
  found := irq_found W h
  credit := irq_credit W h
  time := Nat.le_trans (irq_time W h) (Nat.le_succ _)
  kept _ _ := irq_kept W h

theorem adv_setTick (hq : h.regs.irq = false) : Adv [] h (h.setTick W 0) where
  regs := irq_regs W h
  log := by simp only [Hw.setTick, irq_log, timed, List.append_nil]
  polarity := irq_pol W h
  polls := irq_polls W h
  found := irq_found W h
  credit := Int.le_trans (irq_credit W h) (by unfold Hw.setTick Hw.credit; simp; split <;> omega)
  time := Nat.le_trans (irq_time W h) (Nat.le_succ _)
  kept hi _ := by rw [hq] at hi; cases hi

theorem adv_setPol (hp : h.polarity = 0) : Adv [] h (h.setPol W 0) where
  regs := irq_regs W h
  log := by simp only [Hw.setPol, irq_log, timed, List.append_nil]
  polarity := hp.symm
  polls := irq_polls W h
  found := irq_found W h
  credit := irq_credit W h
  time := Nat.le_trans (irq_time W h) (Nat.le_succ _)
  kept _ _ := irq_kept W h

/-- Another access. -/
theorem Adv.acc {a : List Op} {op : Op} (x : Adv a h h') : Adv (a ++ [op]) h (h'.acc B W op) := x.trans (adv_acc op)
theorem Adv.quiet {a : List Op} (x : Adv a h h') : Adv a h (h'.quiet W) := by
  simpa using x.trans adv_quiet
theorem Adv.setTick {a : List Op} (x : Adv a h h')
    (hq : (Avr.exec .sbi (fun _ => 0) h.regs a).irq = false) : Adv a h (h'.setTick W 0) := by
  simpa using x.trans (adv_setTick (by rw [x.regs]; exact hq))
theorem Adv.setPol {a : List Op} (x : Adv a h h') (hp : h.polarity = 0) : Adv a h (h'.setPol W 0) := by
  simpa using x.trans (adv_setPol (x.polarity.trans hp))

/-- Several accesses. -/
def Hw.accs (B : Board) (W : Outside) (h : Hw) (ops : List Op) : Hw := ops.foldl (fun h op => h.acc B W op) h

theorem adv_accs (ops : List Op) : ∀ h, Adv ops h (h.accs B W ops) := by
  induction ops with
  | nil => exact Adv.refl
  | cons op ops ih => intro h; exact (adv_acc op).trans (ih _)

theorem Adv.accs {a ops : List Op} (x : Adv a h h') : Adv (a ++ ops) h (h'.accs B W ops) :=
  x.trans (adv_accs ops h')

theorem Adv.cast {a b : List Op} (x : Adv a h h') (e : a = b) : Adv b h h' := e ▸ x

@[crun] theorem KH_accs1 (op : Op) : h.acc B W op = h.accs B W [op] := rfl
@[crun] theorem KH_accs2 (a b : List Op) : (h.accs B W a).accs B W b = h.accs B W (a ++ b) := by
  simp only [Hw.accs, List.foldl_append]

/-- Another access with the same effect. -/
theorem Adv.one {op op' : Op} (x : Adv [op] h h')
    (e : access .sbi (fun _ => 0) h.regs op = access .sbi (fun _ => 0) h.regs op') (e' : us op = us op') :
    Adv [op'] h h' :=
  { x with
    regs := x.regs.trans e
    log := x.log.trans (by simp only [timed, e, e'])
    kept := fun hi hl => x.kept hi (by simpa only [timed, e, e'] using hl) }

/-- Enter the body of a function of the hardware layer. -/
macro "hfn" f:ident : tactic => `(tactic| (rw [hw_fn (b := $f) _ _ _ rfl]; unfold $f))

theorem u8_ne {v : UInt8} (hv : v ≠ 0) : ((v.toNat : Int) = 0) = False := by
  rw [eq_iff_iff, iff_false]
  intro e
  exact hv (UInt8.toNat_inj.1 (by simpa using e))

theorem conv_ofInt8 (n : Int) : conv .u8 n = (UInt8.ofInt n).toNat := (toNat_ofInt8 n).symm

/-! ## Functions that are the same on both boards -/

attribute [crun] A328.Mac.TMR0A_POS A328.Mac.TMR0IMSK_POS A328.Mac.TMR0B_POS A328.Mac.TICK_COUNT A328.Mac.TIMER0_WFM_CTC
  A328.Mac.TIMER0_DIV64 A328.Mac.TIMER0_INT_ON_COMA A328.Mac.CLKPCE A328.Mac.SYSCLK_DIV1 A328.Mac.ASDF_LED1_BIT
  A328.Mac.ASDF_LED2_BIT A328.Mac.ASDF_LED3_BIT A328.Mac.ASDF_OUT1_BIT A328.Mac.ASDF_OUT2_BIT A328.Mac.ASDF_OUT3_BIT
  A328.Mac.ASDF_STROBE_BIT A328.Mac.ALL_OUTPUTS A328.Mac.ASDF_COLCLK_BIT A328.Mac.ASDF_COLMODE_BIT A328.Mac.ASDF_COL_BIT
  A328.Mac.ASDF_ROW_MASK A328.Mac.ASDF_PULSE_DELAY_SHORT_US A328.Mac.ASDF_PULSE_DELAY_LONG_MS
  A328.Mac.ASDF_DEFAULT_DATA_POLARITY A328.Mac.ASDF_DEFAULT_STROBE_POLARITY A328.Mac.ASDF_POSITIVE_POLARITY
  A328.Mac.ASDF_ROW_OFFSET A328.Mac.ASDF_MAX_COLS A328.Mac.ASDF_STROBE_LENGTH_US

section
variable {B : Board} [hB : IsBoard B] (W : Outside) (m : G → Tree) (env : List (L × Val)) (h : Hw) (w n : Nat)

theorem nullOutput (t : Ity) (v : UInt8) : run (hwProg B W) w (n + 1) .asdf_arch_null_output [.int t v.toNat] (KH m env h) =
    .ok .unit (KH m env (h.accs B W ([]))) := by
  rw [hw_fn (b := A328.fn_asdf_arch_null_output) W w _ hB.null]
  unfold A328.fn_asdf_arch_null_output
  cgo []
  rfl

theorem delayShort : run (hwProg B W) w (n + 4) .asdf_arch_pulse_delay_short [] (KH m env h) =
    .ok .unit (KH m env (h.accs B W delayShortOps)) := by
  rw [hw_fn (b := A328.fn_asdf_arch_pulse_delay_short) W w _ hB.short]
  unfold A328.fn_asdf_arch_pulse_delay_short
  unfold delayShortOps
  cgo []

theorem delayLong : run (hwProg B W) w (n + 4) .asdf_arch_pulse_delay_long [] (KH m env h) =
    .ok .unit (KH m env (h.accs B W delayLongOps)) := by
  rw [hw_fn (b := A328.fn_asdf_arch_pulse_delay_long) W w _ hB.long]
  unfold A328.fn_asdf_arch_pulse_delay_long
  unfold delayLongOps
  cgo []

theorem initClock : run (hwProg B W) w (n + 4) .asdf_arch_init_clock [] (KH m env h) =
    .ok .unit (KH m env (h.accs B W initClockOps)) := by
  rw [hw_fn (b := A328.fn_asdf_arch_init_clock) W w _ hB.clock]
  unfold A328.fn_asdf_arch_init_clock
  unfold initClockOps
  cgo [show binop .bor (.int .i16 7) (.int .i16 0) = .ok (.int .i16 7) from rfl]
  rfl

theorem timer0Config (t : Ity) : run (hwProg B W) w (n + 4) .arch_timer0_config [.int t 131842] (KH m env h) =
    .ok .unit (KH m env (h.accs B W (timer0ConfigOps TIMER0_BITS))) := by
  rw [hw_fn (b := A328.fn_arch_timer0_config) W w _ hB.timer]
  unfold A328.fn_arch_timer0_config
  have e0 : binop .shr (.int .u32 131842) (.int .i16 0) = .ok (.int .u32 131842) := rfl
  have e1 : binop .shr (.int .u32 131842) (.int .i16 16) = .ok (.int .u32 2) := rfl
  have e2 : binop .shr (.int .u32 131842) (.int .i16 8) = .ok (.int .u32 515) := rfl
  have f0 : binop .band (.int .u32 131842) (.int .i16 255) = .ok (.int .u32 2) := rfl
  have f1 : binop .band (.int .u32 2) (.int .i16 255) = .ok (.int .u32 2) := rfl
  have f2 : binop .band (.int .u32 515) (.int .i16 255) = .ok (.int .u32 3) := rfl
  cgo [show conv .u32 131842 = 131842 from rfl, e0, e1, e2, f0, f1, f2]
  rfl

theorem tick_stop (hp : h.polls = 0) : run (hwProg B W) w (n + 4) .asdf_arch_tick [] (KH m env h) =
    .stop (KH m [] (h.irq W)) := by
  rw [hw_fn (b := A328.fn_asdf_arch_tick) W w _ hB.tick]
  unfold A328.fn_asdf_arch_tick
  cgo [hp]

theorem tick_ok {k : Nat} (hp : h.polls = k + 1) : run (hwProg B W) w (n + 4) .asdf_arch_tick [] (KH m env h) =
    .ok (.int .u8 (h.irq W).tick.toNat) (KH m env ((h.looked W k).setTick W 0)) := by
  rw [hw_fn (b := A328.fn_asdf_arch_tick) W w _ hB.tick]
  unfold A328.fn_asdf_arch_tick
  cgo [hp]
  rfl

theorem loop_wait (v : UInt16) (c : Expr × Expr × Stmt) (hc : c ∈ A328.fn_asdf_arch_delay_ms.body.loops) (k : Nat) :
    ∀ (j : Nat) (h : Hw) (f : Nat), j + k = v.toNat → k < f →
    turns (evalE (run (hwProg B W) w (n + 3)) c.1) (exec (run (hwProg B W) w (n + 3)) w c.2.2)
      (evalE (run (hwProg B W) w (n + 3)) c.2.1) f
      (KH m [(.i, .int .u16 j), (.delay_ms, .int .u16 v.toNat)] h) =
    .ok .next (KH m [(.i, .int .u16 v.toNat), (.delay_ms, .int .u16 v.toNat)]
      (h.accs B W (List.replicate k (.delayUs 1000)))) := by
  have hv := v.toNat_lt
  obtain rfl := List.mem_singleton.1 hc
  induction k with
  | zero =>
    intro j h f hj hf
    obtain ⟨f, rfl⟩ := Nat.exists_eq_succ_of_ne_zero (by omega : f ≠ 0)
    obtain rfl : j = v.toNat := by omega
    rw [turns_succ]
    cgo [show (((v.toNat : Int) < v.toNat) = False) by simp]
    rfl
  | succ k ih =>
    intro j h f hj hf
    obtain ⟨f, rfl⟩ := Nat.exists_eq_succ_of_ne_zero (by omega : f ≠ 0)
    rw [turns_succ]
    have e := ih (j + 1) (h.accs B W [.delayUs 1000]) f (by omega) (by omega)
    have e1 : (((j : Int) < v.toNat) = True) := by simp; omega
    have e2 : ((j : Int) + 1) % 65536 = ((j + 1 : Nat) : Int) := by omega
    cgo [e1, e2, e]
    rfl

theorem wait (t : Ity) (v : UInt16) (hw : 65536 ≤ w) :
    run (hwProg B W) w (n + 4) .asdf_arch_delay_ms [.int t v.toNat] (KH m env h) =
    .ok .unit (KH m env (h.accs B W (delayMsOps v))) := by
  have hv := v.toNat_lt
  rw [hw_fn (b := A328.fn_asdf_arch_delay_ms) W w _ hB.wait]
  unfold A328.fn_asdf_arch_delay_ms
  have e := loop_wait (B := B) W m w n v _ (List.mem_singleton.2 rfl) v.toNat 0 h w (by omega) (by omega)
  simp only [Int.cast_ofNat_Int] at e
  unfold delayMsOps
  cgo [e]

end

end Asdf.C
