import Verif.Lemmas.CHw328

/-! # The row reader of the ATmega328P board, in a world that changes while it runs -/

namespace Asdf.C.A328

open Avr

variable {W : Outside} {h : Hw}

/-- The accesses of `asdf_arch_read_row`. -/
def readOps (row : UInt8) : List Op :=
  M328.loadOps row ++ (List.range MAX_COLS).flatMap fun _ => [.setPort .B 2, .clrPort .B 2]

theorem read_us (row : UInt8) : ((readOps row).map us).sum = 0 := rfl

theorem world_fold (keys : Nat → UInt8) (ops : List Op) : ∀ w : M328.World,
    (ops.foldl (M328.World.exec keys) w).regs = Avr.exec .sbi (fun _ => 0) w.regs ops ∧
    (ops.foldl (M328.World.exec keys) w).log = w.log ++ states .sbi (fun _ => 0) w.regs ops := by
  induction ops with
  | nil => intro w; simp [Avr.exec, states]
  | cons op ops ih =>
    intro w
    obtain ⟨a, b⟩ := ih (w.exec keys op)
    exact ⟨a, b.trans (by simp [M328.World.exec, states])⟩

theorem states_append (a b : List Op) : ∀ r, states .sbi (fun _ => 0) r (a ++ b) =
    states .sbi (fun _ => 0) r a ++ states .sbi (fun _ => 0) (Avr.exec .sbi (fun _ => 0) r a) b := by
  induction a with
  | nil => intro r; rfl
  | cons op a ih => intro r; simp only [List.cons_append, states, ih]; rfl

theorem bits_fold (keys : Nat → UInt8) (other : UInt8) (l : List Nat) : ∀ st : UInt8 × M328.World,
    (l.foldl (M328.readBit keys other) st).2.regs =
      Avr.exec .sbi (fun _ => 0) st.2.regs (l.flatMap fun _ => [.setPort .B 2, .clrPort .B 2]) ∧
    (l.foldl (M328.readBit keys other) st).2.log =
      st.2.log ++ states .sbi (fun _ => 0) st.2.regs (l.flatMap fun _ => [.setPort .B 2, .clrPort .B 2]) := by
  induction l with
  | nil => intro st; simp [Avr.exec, states]
  | cons i l ih =>
    intro st
    obtain ⟨a, b⟩ := ih (M328.readBit keys other st i)
    exact ⟨a, b.trans (by simp [M328.readBit, M328.World.exec, states])⟩

/-- The register states the row reader goes through. -/
theorem readRow_log (keys : Nat → UInt8) (other row : UInt8) (w : M328.World) :
    (M328.readRow keys other row w).2.regs = Avr.exec .sbi (fun _ => 0) w.regs (readOps row) ∧
    (M328.readRow keys other row w).2.log = w.log ++ states .sbi (fun _ => 0) w.regs (readOps row) := by
  obtain ⟨a, b⟩ := bits_fold keys other (List.range MAX_COLS) (0, (M328.loadOps row).foldl (M328.World.exec keys) w)
  obtain ⟨c, d⟩ := world_fold keys (M328.loadOps row) w
  refine ⟨a.trans ?_, b.trans ?_⟩
  · rw [c, readOps, Avr.exec, Avr.exec, Avr.exec, List.foldl_append]
  · rw [c, d, readOps, states_append, List.append_assoc]

/-! ## The shift register -/

/-- The hardware and the model agree. -/
def Sim (h : Hw) (w : M328.World) : Prop := h.regs = w.regs ∧ h.sr = w.sr

/-- The access does not load the shift register. -/
def NoLoad (old new : Regs) : Prop :=
  ¬ ((old.port .B &&& oneBit 2 = 0) ∧ (new.port .B &&& oneBit 2 ≠ 0) ∧ new.port .B &&& oneBit 1 = 0)

theorem shiftReg_any {old new : Regs} (hn : NoLoad old new) (k k' : Nat → UInt8) (sr : UInt8) :
    M328.shiftReg k old new sr = M328.shiftReg k' old new sr := by
  unfold M328.shiftReg
  unfold NoLoad at hn
  by_cases h1 : old.port .B &&& oneBit 2 = 0 ∧ new.port .B &&& oneBit 2 ≠ 0
  · by_cases h2 : new.port .B &&& oneBit 1 = 0
    · exact absurd ⟨h1.1, h1.2, h2⟩ hn
    · simp only [h2, ↓reduceIte]
  · simp only [h1, ↓reduceIte]

theorem sim_acc {w : M328.World} {keys : Nat → UInt8} {op op' : Op} (s : Sim h w)
    (e : access .sbi (fun _ => 0) h.regs op = access .sbi (fun _ => 0) h.regs op')
    (hk : keys = W.keys (h.irq W).time ∨ NoLoad h.regs (access .sbi (fun _ => 0) h.regs op')) :
    Sim (h.acc board328 W op) (w.exec keys op') := by
  obtain ⟨s1, s2⟩ := s
  have r : (h.acc board328 W op).regs = access .sbi (fun _ => 0) h.regs op' := by
    rw [← e]; exact congrArg (fun r => access .sbi (fun _ => 0) r op) (irq_regs W h)
  refine ⟨by rw [r, s1]; rfl, ?_⟩
  have q : (h.acc board328 W op).sr = M328.shiftReg (W.keys (h.irq W).time) h.regs (access .sbi (fun _ => 0) h.regs op') h.sr := by
    rw [← e]
    simp only [Hw.acc, Hw.go, irq_regs, irq_sr]
    rfl
  rw [q]
  simp only [M328.World.exec, ← s1, ← s2]
  rcases hk with rfl | hk
  · rfl
  · exact shiftReg_any hk _ _ _

theorem sim_quiet {w : M328.World} (s : Sim h w) : Sim (h.quiet W) w :=
  ⟨(irq_regs W h).trans s.1, (irq_sr W h).trans s.2⟩

theorem bits_all : ∀ i : Fin 256, let x := UInt8.ofFin i
    ((x &&& ~~~ (oneBit 1)) &&& oneBit 2 = x &&& oneBit 2) ∧ ((x ||| oneBit 1) &&& oneBit 2 = x &&& oneBit 2) ∧
    ((x &&& ~~~ (oneBit 2)) &&& oneBit 2 = 0) ∧ ((x ||| oneBit 2) &&& oneBit 1 = x &&& oneBit 1) ∧
    ((x &&& ~~~ (oneBit 2)) &&& oneBit 1 = x &&& oneBit 1) ∧ ((x ||| oneBit 1) &&& oneBit 1 ≠ 0) := by
  decide +kernel
theorem bits_of (x : UInt8) :
    ((x &&& ~~~ (oneBit 1)) &&& oneBit 2 = x &&& oneBit 2) ∧ ((x ||| oneBit 1) &&& oneBit 2 = x &&& oneBit 2) ∧
    ((x &&& ~~~ (oneBit 2)) &&& oneBit 2 = 0) ∧ ((x ||| oneBit 2) &&& oneBit 1 = x &&& oneBit 1) ∧
    ((x &&& ~~~ (oneBit 2)) &&& oneBit 1 = x &&& oneBit 1) ∧ ((x ||| oneBit 1) &&& oneBit 1 ≠ 0) := bits_all x.toFin

theorem noload_mix (r : Regs) (k v : UInt8) : NoLoad r (access .sbi (fun _ => 0) r (.mixPort .C k v)) :=
  fun ⟨a, b, _⟩ => b a
theorem noload_clr1 (r : Regs) : NoLoad r (access .sbi (fun _ => 0) r (.clrPort .B 1)) := fun ⟨a, b, _⟩ =>
  b ((bits_of (r.port .B)).1.trans a)
theorem noload_set1 (r : Regs) : NoLoad r (access .sbi (fun _ => 0) r (.setPort .B 1)) := fun ⟨a, b, _⟩ =>
  b ((bits_of (r.port .B)).2.1.trans a)
theorem noload_clr2 (r : Regs) : NoLoad r (access .sbi (fun _ => 0) r (.clrPort .B 2)) := fun ⟨_, b, _⟩ =>
  b (bits_of (r.port .B)).2.2.1
theorem noload_set2 {r : Regs} (hr : r.port .B &&& oneBit 1 ≠ 0) :
    NoLoad r (access .sbi (fun _ => 0) r (.setPort .B 2)) := fun ⟨_, _, c⟩ =>
  hr ((bits_of (r.port .B)).2.2.2.1.symm.trans c)

theorem sim_loaded (row : UInt8) (h : Hw) : ∃ t, h.time ≤ t ∧ t < (loaded W row h).time ∧
    Sim (loaded W row h) ((M328.loadOps row).foldl (M328.World.exec (W.keys t)) ⟨h.regs, h.sr, []⟩) ∧
    (loaded W row h).regs.port .B &&& oneBit 1 ≠ 0 := by
  let h1 := (h.quiet W).acc board328 W (.wrPort .C ((h.regs.port .C &&& ~~~ 0x0f) ||| (row &&& 0x0f)))
  let h2 := h1.acc board328 W (.clrPort .B 1)
  let h3 := h2.acc board328 W (.setPort .B 2)
  let h4 := h3.acc board328 W (.clrPort .B 2)
  let h5 := h4.acc board328 W (.setPort .B 1)
  have e5 : loaded W row h = h5 := rfl
  have a2 : Adv _ h h2 := (((adv_quiet (W := W)).acc (B := board328) (W := W)).acc (B := board328) (W := W))
  have a5 : Adv _ h3 h5 := (adv_acc (B := board328) (W := W) (.clrPort .B 2)).acc (op := .setPort .B 1)
  have l3 : (h2.irq W).time < h3.time := Nat.lt_succ_self _
  refine ⟨(h2.irq W).time, Nat.le_trans a2.time (irq_time W h2), Nat.lt_of_lt_of_le l3 (e5 ▸ a5.time), ?_, ?_⟩
  · rw [e5]
    have s0 : Sim (h.quiet W) ⟨h.regs, h.sr, []⟩ := sim_quiet ⟨rfl, rfl⟩
    have q : (h.quiet W).regs = h.regs := irq_regs W h
    have s1 := sim_acc (W := W) (keys := W.keys (h2.irq W).time)
      (op := .wrPort .C ((h.regs.port .C &&& ~~~ 0x0f) ||| (row &&& 0x0f)))
      (op' := .mixPort .C (~~~ 0x0f) ((row &&& 0x0f) <<< 0)) s0 (by rw [q]; simp [access]) (.inr (noload_mix _ _ _))
    have s2 := sim_acc (W := W) (keys := W.keys (h2.irq W).time) (op := .clrPort .B 1) s1 rfl (.inr (noload_clr1 _))
    have s3 := sim_acc (W := W) (keys := W.keys (h2.irq W).time) (op := .setPort .B 2) s2 rfl (.inl rfl)
    have s4 := sim_acc (W := W) (keys := W.keys (h2.irq W).time) (op := .clrPort .B 2) s3 rfl (.inr (noload_clr2 _))
    exact sim_acc (W := W) (keys := W.keys (h2.irq W).time) (op := .setPort .B 1) s4 rfl (.inr (noload_set1 _))
  · rw [e5]
    have : h5.regs.port .B = h4.regs.port .B ||| oneBit 1 := by
      show (access .sbi (fun _ => 0) (h4.irq W).regs (.setPort .B 1)).port .B = _
      rw [irq_regs]; rfl
    rw [this]
    exact (bits_of _).2.2.2.2.2

/-- Pin B0 carries the output of the shift register; the other pins do not matter. -/
theorem pin_bit (r : Regs) (o o' s : UInt8) :
    ((~~~ (pinValue r .B ((o &&& ~~~ 1) ||| (s &&& 1)))) >>> (0 : UInt8)) &&& (1 : UInt8) =
    ((~~~ (pinValue r .B ((o' &&& ~~~ 1) ||| (s &&& 1)))) >>> (0 : UInt8)) &&& (1 : UInt8) := by
  unfold pinValue
  generalize r.port .B = p
  generalize r.ddr .B = d
  have e : ∀ a b : UInt8, a &&& 1 = b &&& 1 → ((~~~ a) >>> (0 : UInt8)) &&& (1 : UInt8) = ((~~~ b) >>> (0 : UInt8)) &&& (1 : UInt8) := by
    intro a b hab
    have k : ∀ i : Fin 256, ((~~~ (UInt8.ofFin i)) >>> (0 : UInt8)) &&& (1 : UInt8) = (UInt8.ofFin i &&& (1 : UInt8)) ^^^ (1 : UInt8) := by decide +kernel
    exact (k a.toFin).trans ((congrArg (· ^^^ 1) hab).trans (k b.toFin).symm)
  apply e
  apply UInt8.toBitVec_inj.1
  apply BitVec.eq_of_getLsbD_eq
  intro i hi
  match i, hi with
  | 0, _ => simp
  | i + 1, hi => simp [BitVec.getLsbD_one]

theorem sim_bit {c c' : UInt8} {w : M328.World} {keys : Nat → UInt8} (other : UInt8) (i : Nat) (s : Sim h w)
    (hb : h.regs.port .B &&& oneBit 1 ≠ 0) (hc : c = c') :
    (hwBit W (c, h) i).1 = (M328.readBit keys other (c', w) i).1 ∧
    Sim (hwBit W (c, h) i).2 (M328.readBit keys other (c', w) i).2 ∧
    (hwBit W (c, h) i).2.regs.port .B &&& oneBit 1 ≠ 0 := by
  subst hc
  refine ⟨?_, ?_, ?_⟩
  · simp only [hwBit, M328.readBit, Hw.read, irq_regs, irq_sr, M328.World.pinB, ← s.1, ← s.2]
    rw [pin_bit h.regs other (W.other (h.irq W).time .B) h.sr]
    rfl
  · have s1 := sim_acc (W := W) (keys := keys) (op := .setPort .B 2) (sim_quiet (W := W) s) rfl
      (.inr (noload_set2 (by rw [show (h.quiet W).regs = h.regs from irq_regs W h]; exact hb)))
    exact sim_acc (W := W) (keys := keys) (op := .clrPort .B 2) s1 rfl (.inr (noload_clr2 _))
  · have a : Adv _ h (hwBit W (c, h) i).2 := (adv_quiet (W := W)).accs
    rw [a.regs]
    show ((h.regs.port .B ||| oneBit 2) &&& ~~~ (oneBit 2)) &&& oneBit 1 ≠ (0 : UInt8)
    rw [(bits_of _).2.2.2.2.1, (bits_of _).2.2.2.1]
    exact hb

theorem sim_bits (other : UInt8) (keys : Nat → UInt8) (l : List Nat) : ∀ {c : UInt8} {h : Hw} {w : M328.World},
    Sim h w → h.regs.port .B &&& oneBit 1 ≠ 0 →
    (l.foldl (hwBit W) (c, h)).1 = (l.foldl (M328.readBit keys other) (c, w)).1 := by
  induction l with
  | nil => intro c h w _ _; rfl
  | cons i l ih =>
    intro c h w s hb
    obtain ⟨a, b, d⟩ := sim_bit (W := W) (keys := keys) other i s hb (rfl : c = c)
    have := ih (c := (hwBit W (c, h) i).1) b d
    rw [List.foldl_cons, List.foldl_cons]
    refine this.trans ?_
    rw [a]

theorem adv_bits (l : List Nat) : ∀ (c : UInt8) (h : Hw),
    Adv (l.flatMap fun _ => [.setPort .B 2, .clrPort .B 2]) h (l.foldl (hwBit W) (c, h)).2 := by
  induction l with
  | nil => intro c h; exact Adv.refl h
  | cons i l ih =>
    intro c h
    have a : Adv _ h (hwBit W (c, h) i).2 := (adv_quiet (W := W)).accs
    exact a.trans (ih _ _)

theorem adv_loaded (row : UInt8) (h : Hw) : Adv (M328.loadOps row) h (loaded W row h) := by
  have a : Adv [.mixPort .C (~~~ 0x0f) ((row &&& 0x0f) <<< 0)] h
      ((h.quiet W).accs board328 W [.wrPort .C ((h.regs.port .C &&& ~~~ 0x0f) ||| (row &&& 0x0f))]) :=
    ((Adv.refl h).quiet.accs (ops := [_])).one (by simp [access]) rfl
  exact a.accs (B := board328) (W := W) (ops := [.clrPort .B 1, .setPort .B 2, .clrPort .B 2, .setPort .B 1])

/-- `asdf_arch_read_row` reads the row the way the model does, with the keys as they are at some
moment between start and end. -/
theorem read_row_is (m : G → Tree) (env : List (L × Val)) (w n : Nat) (t : Ity) (row : UInt8) (hw : 9 ≤ w) :
    ∃ v h' k,
    run (hwProg board328 W) w (n + 4) .asdf_arch_read_row [.int t row.toNat] (KH m env h) =
      .ok (.int .u8 v.toNat) (KH m env h') ∧ Adv (readOps row) h h' ∧ h.time ≤ k ∧ k < h'.time ∧
    ∀ other, v = (M328.readRow (W.keys k) other row ⟨h.regs, h.sr, []⟩).1 := by
  obtain ⟨k, h1, h2, s, hb⟩ := sim_loaded (W := W) row h
  have a := adv_bits (W := W) (List.range' 0 8) 0 (loaded W row h)
  refine ⟨_, _, k, read_row W m env h w n t row hw, (adv_loaded row h).trans a, h1, Nat.lt_of_lt_of_le h2 a.time, ?_⟩
  exact fun other => sim_bits (W := W) other (W.keys k) (List.range' 0 8) s hb

end Asdf.C.A328
