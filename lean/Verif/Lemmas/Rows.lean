import Verif.Lemmas.Boards

/-! # Lemmas about the row readers of both boards -/

namespace Asdf

open Avr Spec

/-! ## ATmega328P -/

namespace M328

open Avr.M328

/-- All register accesses of one row read. -/
def rowOps (row : UInt8) (n : Nat) : List Op :=
  loadOps row ++ (List.range n).flatMap fun _ => [.setPort .B 2, .clrPort .B 2]

theorem readBits_world (keys : Nat → UInt8) (other : UInt8) (l : List Nat) (c : UInt8) (w : World) :
    (l.foldl (readBit keys other) (c, w)).2 =
      (l.flatMap fun _ => [Op.setPort .B 2, Op.clrPort .B 2]).foldl (World.exec keys) w := by
  induction l generalizing c w with
  | nil => rfl
  | cons x l ih =>
    rw [List.foldl_cons, List.flatMap_cons, List.foldl_append]
    exact ih _ _

theorem world_log (keys : Nat → UInt8) (ops : List Op) (w : World) :
    (ops.foldl (World.exec keys) w).log = w.log ++ states .sbi (fun _ => 0) w.regs ops ∧
    (ops.foldl (World.exec keys) w).regs = exec .sbi (fun _ => 0) w.regs ops := by
  induction ops generalizing w with
  | nil => exact ⟨(List.append_nil _).symm, rfl⟩
  | cons op ops ih =>
    rw [List.foldl_cons]
    obtain ⟨h1, h2⟩ := ih (w.exec keys op)
    rw [h1, h2]
    refine ⟨?_, rfl⟩
    show (w.log ++ [access .sbi (fun _ => 0) w.regs op]) ++ _ = _
    rw [List.append_assoc]
    rfl

theorem readRow_world (keys : Nat → UInt8) (other row : UInt8) (w : World) :
    (readRow keys other row w).2 = (rowOps row 8).foldl (World.exec keys) w := by
  unfold readRow
  rw [readBits_world]
  unfold rowOps
  rw [List.foldl_append]
  rfl

theorem rowOps_touch (row : UInt8) : touchesOnly rowPins328 (rowOps row 8) = true := by
  have key : ∀ n, n < 256 → touchesOnly rowPins328 (rowOps (UInt8.ofNat n) 8) = true := by
    decide +kernel
  have := key row.toNat row.toNat_lt
  rwa [UInt8.ofNat_toNat] at this

/-- The conditions inside the reading loop. -/
structure InLoop (w : World) : Prop where
  clk : w.regs.port .B &&& oneBit 2 = 0
  mode : w.regs.port .B &&& oneBit 1 ≠ 0
  col : bitOf (w.regs.ddr .B) 0 = false

theorem forall_byte {P : UInt8 → Prop} (h : ∀ n, n < 256 → P (UInt8.ofNat n)) (x : UInt8) : P x := by
  have := h x.toNat x.toNat_lt
  rwa [UInt8.ofNat_toNat] at this

theorem clock_bytes (b : UInt8) (h1 : b &&& oneBit 2 = 0) (h2 : b &&& oneBit 1 ≠ 0) :
    (b ||| oneBit 2) &&& oneBit 2 ≠ 0 ∧ (b ||| oneBit 2) &&& oneBit 1 ≠ 0 ∧
    (b ||| oneBit 2) &&& ~~~ (oneBit 2) = b := by
  have key := forall_byte (P := fun b : UInt8 => b &&& oneBit 2 = 0 → b &&& oneBit 1 ≠ 0 →
      (b ||| oneBit 2) &&& oneBit 2 ≠ 0 ∧ (b ||| oneBit 2) &&& oneBit 1 ≠ 0 ∧
      (b ||| oneBit 2) &&& ~~~ (oneBit 2) = b) (by decide +kernel)
  exact key b h1 h2

theorem load_bytes (b : UInt8) (h1 : b &&& oneBit 2 = 0) :
    (b &&& ~~~ (oneBit 1)) &&& oneBit 2 = 0 ∧
    ((b &&& ~~~ (oneBit 1)) ||| oneBit 2) &&& oneBit 2 ≠ 0 ∧
    ((b &&& ~~~ (oneBit 1)) ||| oneBit 2) &&& oneBit 1 = 0 ∧
    (((b &&& ~~~ (oneBit 1)) ||| oneBit 2) &&& ~~~ (oneBit 2)) &&& oneBit 2 = 0 ∧
    ((((b &&& ~~~ (oneBit 1)) ||| oneBit 2) &&& ~~~ (oneBit 2)) ||| oneBit 1) &&& oneBit 2 = 0 ∧
    ((((b &&& ~~~ (oneBit 1)) ||| oneBit 2) &&& ~~~ (oneBit 2)) ||| oneBit 1) &&& oneBit 1 ≠ 0 := by
  have key := forall_byte (P := fun b : UInt8 => b &&& oneBit 2 = 0 →
    (b &&& ~~~ (oneBit 1)) &&& oneBit 2 = 0 ∧
    ((b &&& ~~~ (oneBit 1)) ||| oneBit 2) &&& oneBit 2 ≠ 0 ∧
    ((b &&& ~~~ (oneBit 1)) ||| oneBit 2) &&& oneBit 1 = 0 ∧
    (((b &&& ~~~ (oneBit 1)) ||| oneBit 2) &&& ~~~ (oneBit 2)) &&& oneBit 2 = 0 ∧
    ((((b &&& ~~~ (oneBit 1)) ||| oneBit 2) &&& ~~~ (oneBit 2)) ||| oneBit 1) &&& oneBit 2 = 0 ∧
    ((((b &&& ~~~ (oneBit 1)) ||| oneBit 2) &&& ~~~ (oneBit 2)) ||| oneBit 1) &&& oneBit 1 ≠ 0) (by decide +kernel)
  exact key b h1

theorem shiftReg_eq (keys : Nat → UInt8) (old new : Regs) (sr : UInt8) :
    shiftReg keys old new sr =
      if (old.port .B &&& oneBit 2 = 0) ∧ (new.port .B &&& oneBit 2 ≠ 0) then
        if new.port .B &&& oneBit 1 = 0 then ~~~ (keys (rowLines new)) else sr >>> 1
      else sr := rfl

theorem port_set (keys : Nat → UInt8) (w : World) (p : Port) (b : Nat) :
    (w.exec keys (.setPort p b)).regs.port p = w.regs.port p ||| oneBit b := if_pos rfl

theorem port_clr (keys : Nat → UInt8) (w : World) (p : Port) (b : Nat) :
    (w.exec keys (.clrPort p b)).regs.port p = w.regs.port p &&& ~~~ (oneBit b) := if_pos rfl

/-- One clock pulse in shift mode. -/
theorem clock_pulse (keys : Nat → UInt8) {w : World} (h : InLoop w) :
    InLoop ((w.exec keys (.setPort .B 2)).exec keys (.clrPort .B 2)) ∧
    ((w.exec keys (.setPort .B 2)).exec keys (.clrPort .B 2)).sr = w.sr >>> 1 := by
  obtain ⟨b1, b2, b3⟩ := clock_bytes _ h.clk h.mode
  have p1 : (w.exec keys (.setPort .B 2)).regs.port .B = w.regs.port .B ||| oneBit 2 := port_set _ _ _ _
  have p2 : ((w.exec keys (.setPort .B 2)).exec keys (.clrPort .B 2)).regs.port .B =
      w.regs.port .B := by
    rw [port_clr, p1, b3]
  have s1 : (w.exec keys (.setPort .B 2)).sr = w.sr >>> 1 := by
    show shiftReg keys w.regs (w.exec keys (.setPort .B 2)).regs w.sr = _
    rw [shiftReg_eq, p1, if_pos ⟨h.clk, b1⟩, if_neg b2]
  have s2 : ((w.exec keys (.setPort .B 2)).exec keys (.clrPort .B 2)).sr = w.sr >>> 1 := by
    show shiftReg keys (w.exec keys (.setPort .B 2)).regs
      ((w.exec keys (.setPort .B 2)).exec keys (.clrPort .B 2)).regs
      (w.exec keys (.setPort .B 2)).sr = _
    rw [shiftReg_eq, p1, if_neg (fun hc => b1 hc.1), s1]
  exact ⟨⟨by rw [p2]; exact h.clk, by rw [p2]; exact h.mode, h.col⟩, s2⟩

/-- The bit read from the column pin. -/
theorem pinB_bit {w : World} (h : InLoop w) (other : UInt8) : bitOf (w.pinB other) 0 = bitOf w.sr 0 := by
  unfold World.pinB pinValue
  rw [bitOf_or, bitOf_and, bitOf_and, bitOf_or, bitOf_and, bitOf_and, bitOf_not _ _ (by decide),
    bitOf_not _ _ (by decide), h.col]
  have : bitOf 1 0 = true := by decide
  rw [this]
  simp

theorem bit_place (x : UInt8) (i j : Nat) (hi : i < 8) (hj : j < 8) :
    bitOf ((((~~~ x) >>> 0) &&& 1) <<< UInt8.ofNat i) j = (decide (j = i) && !bitOf x 0) := by
  have key : ∀ i, i < 8 → ∀ j, j < 8 → ∀ y ∈ [(0 : UInt8), 1],
      bitOf (y <<< UInt8.ofNat i) j = (decide (j = i) && decide (y = 1)) := by decide +kernel
  have h1 : (((~~~ x) >>> 0) &&& 1 = 0 ∧ bitOf x 0 = true) ∨
      (((~~~ x) >>> 0) &&& 1 = 1 ∧ bitOf x 0 = false) := by
    have : ∀ n, n < 256 → (fun x : UInt8 => (((~~~ x) >>> 0) &&& 1 = 0 ∧ bitOf x 0 = true) ∨
      (((~~~ x) >>> 0) &&& 1 = 1 ∧ bitOf x 0 = false)) (UInt8.ofNat n) := by decide +kernel
    have := this x.toNat x.toNat_lt
    rwa [UInt8.ofNat_toNat] at this
  rcases h1 with ⟨h1, h2⟩ | ⟨h1, h2⟩
  · rw [h1, h2, key i hi j hj 0 (by decide)]; rfl
  · rw [h1, h2, key i hi j hj 1 (by decide)]; rfl

/-- The reading loop after `k` iterations. -/
theorem loop_bits (keys : Nat → UInt8) (other : UInt8) {w : World} (h : InLoop w) (k : Nat)
    (hk : k ≤ 8) :
    let st := (List.range k).foldl (readBit keys other) (0, w)
    InLoop st.2 ∧ (∀ j, bitOf st.2.sr j = bitOf w.sr (j + k)) ∧
      ∀ j, j < 8 → bitOf st.1 j = (decide (j < k) && !bitOf w.sr j) := by
  induction k with
  | zero =>
    refine ⟨h, fun _ => rfl, fun j _ => ?_⟩
    show bitOf 0 j = _
    rw [bitOf_zero]
    simp
  | succ k ih =>
    obtain ⟨i1, i2, i3⟩ := ih (by omega)
    rw [List.range_succ, List.foldl_append]
    generalize (List.range k).foldl (readBit keys other) (0, w) = st at i1 i2 i3
    obtain ⟨c1, c2⟩ := clock_pulse keys i1
    refine ⟨c1, fun j => ?_, fun j hj => ?_⟩
    · show bitOf ((st.2.exec keys (.setPort .B 2)).exec keys (.clrPort .B 2)).sr j = _
      rw [c2, bitOf_shiftRight, i2]
      congr 1
      omega
    · show bitOf (st.1 ||| ((((~~~ (st.2.pinB other)) >>> 0) &&& 1) <<< UInt8.ofNat k)) j = _
      rw [bitOf_or, i3 j hj, bit_place _ k j (by omega) hj, pinB_bit i1, i2]
      by_cases hjk : j = k
      · subst hjk
        simp
      · have h1 : decide (j < k + 1) = decide (j < k) := by
          rw [decide_eq_decide]; omega
        rw [h1, decide_eq_false hjk]
        simp

/-- Loading the shift register with the selected row. -/
theorem load (keys : Nat → UInt8) (row : UInt8) {w : World} (h : rowReady328 w.regs) :
    InLoop ((loadOps row).foldl (World.exec keys) w) ∧
    ((loadOps row).foldl (World.exec keys) w).sr = ~~~ (keys (row.toNat % 16)) := by
  obtain ⟨_, hcol, hclk⟩ := h
  have hclk : w.regs.port .B &&& oneBit 2 = 0 := by
    have key := forall_byte (P := fun b : UInt8 => bitOf b 2 = false → b &&& oneBit 2 = 0) (by decide +kernel)
    exact key _ hclk
  obtain ⟨b1, b2, b3, b4, b5, b6⟩ := load_bytes _ hclk
  unfold loadOps
  rw [List.foldl_cons, List.foldl_cons, List.foldl_cons, List.foldl_cons, List.foldl_cons,
    List.foldl_nil]
  generalize e1 : w.exec keys (.mixPort .C (~~~ 0x0f) ((row &&& 0x0f) <<< 0)) = w1
  generalize e2 : w1.exec keys (.clrPort .B 1) = w2
  generalize e3 : w2.exec keys (.setPort .B 2) = w3
  generalize e4 : w3.exec keys (.clrPort .B 2) = w4
  generalize e5 : w4.exec keys (.setPort .B 1) = w5
  have p1 : w1.regs.port .B = w.regs.port .B := by rw [← e1]; rfl
  have p2 : w2.regs.port .B = w.regs.port .B &&& ~~~ (oneBit 1) := by
    rw [← e2, ← p1]; exact port_clr _ _ _ _
  have p3 : w3.regs.port .B = (w.regs.port .B &&& ~~~ (oneBit 1)) ||| oneBit 2 := by
    rw [← e3, ← p2]; exact port_set _ _ _ _
  have p4 : w4.regs.port .B = ((w.regs.port .B &&& ~~~ (oneBit 1)) ||| oneBit 2) &&& ~~~ (oneBit 2) := by
    rw [← e4, ← p3]; exact port_clr _ _ _ _
  have p5 : w5.regs.port .B =
      (((w.regs.port .B &&& ~~~ (oneBit 1)) ||| oneBit 2) &&& ~~~ (oneBit 2)) ||| oneBit 1 := by
    rw [← e5, ← p4]; exact port_set _ _ _ _
  have c3 : w3.regs.port .C = (w.regs.port .C &&& ~~~ (0x0f : UInt8)) ||| ((row &&& 0x0f) <<< 0) := by
    rw [← e3, ← e2, ← e1]; rfl
  have d5 : w5.regs.ddr = w.regs.ddr := by rw [← e5, ← e4, ← e3, ← e2, ← e1]; rfl
  have s3 : w3.sr = ~~~ (keys (rowLines w3.regs)) := by
    have : w3.sr = shiftReg keys w2.regs w3.regs w2.sr := by rw [← e3]; rfl
    rw [this, shiftReg_eq, p2, p3, if_pos ⟨b1, b2⟩, if_pos b3]
  have s4 : w4.sr = w3.sr := by
    have : w4.sr = shiftReg keys w3.regs w4.regs w3.sr := by rw [← e4]; rfl
    rw [this, shiftReg_eq, p3, p4, if_neg fun hc => b2 hc.1]
  have s5 : w5.sr = w4.sr := by
    have : w5.sr = shiftReg keys w4.regs w5.regs w4.sr := by rw [← e5]; rfl
    rw [this, shiftReg_eq, p4, p5, if_neg fun hc => hc.2 b5]
  have hrow : rowLines w3.regs = row.toNat % 16 := by
    unfold rowLines
    rw [c3]
    have k1 := forall_byte (P := fun x : UInt8 => (x &&& 0x0f) <<< 0 = UInt8.ofNat (x.toNat % 16))
      (by decide +kernel) row
    have k2 := forall_byte (P := fun x : UInt8 => ∀ m, m < 16 →
      (((x &&& ~~~ 0x0f) ||| UInt8.ofNat m) &&& 0x0f).toNat = m) (by decide +kernel) (w.regs.port .C)
    rw [k1]
    exact k2 _ (Nat.mod_lt _ (by decide))
  refine ⟨⟨by rw [p5]; exact b5, by rw [p5]; exact b6, by rw [d5]; exact hcol⟩, ?_⟩
  rw [s5, s4, s3, hrow]

theorem readRow_bits (keys : Nat → UInt8) (other row : UInt8) {w : World} (h : rowReady328 w.regs)
    (j : Nat) (hj : j < 8) :
    bitOf (readRow keys other row w).1 j = bitOf (keys (row.toNat % 16)) j := by
  obtain ⟨h1, h2⟩ := load keys row h
  have h3 := (loop_bits keys other h1 8 (by omega)).2.2 j hj
  unfold readRow
  show bitOf ((List.range 8).foldl (readBit keys other) (0, (loadOps row).foldl (World.exec keys) w)).1 j = _
  rw [h3, h2, bitOf_not _ _ hj, decide_eq_true hj]
  simp

/-- What `rowReady328` asks of each pin. -/
def okPin (p : Pin) (st : PinSt) : Bool :=
  if p = ⟨.B, 0⟩ then !st.2 else if p = ⟨.B, 2⟩ then st.2 && !st.1 else st.2

def readyPins : List Pin := ⟨.B, 0⟩ :: rowPins328

theorem rowReady_iff (r : Regs) : rowReady328 r ↔ ∀ p ∈ readyPins, okPin p (pinSt r p) = true := by
  constructor
  · rintro ⟨h1, h2, h3⟩ p hp
    unfold okPin pinSt
    rcases List.mem_cons.mp hp with rfl | hp
    · rw [if_pos rfl, h2]; rfl
    · have hne : p ≠ ⟨.B, 0⟩ := by
        have : ∀ p ∈ rowPins328, p ≠ ⟨.B, 0⟩ := by decide
        exact this p hp
      rw [if_neg hne]
      split
      · rename_i h
        subst h
        rw [h3, h1 _ hp]; rfl
      · exact h1 p hp
  · intro h
    have hne : ∀ p ∈ rowPins328, p ≠ ⟨.B, 0⟩ ∧ p ∈ readyPins := by decide
    have h0 := h ⟨.B, 0⟩ (by decide)
    have h2 := h ⟨.B, 2⟩ (by decide)
    unfold okPin at h0 h2
    rw [if_pos rfl] at h0
    rw [if_neg (by decide), if_pos rfl, Bool.and_eq_true] at h2
    refine ⟨fun p hp => ?_, Eq.trans (Bool.not_not _).symm (congrArg (!·) h0),
      Eq.trans (Bool.not_not _).symm (congrArg (!·) h2.2)⟩
    have h1 := h p (hne p hp).2
    unfold okPin at h1
    rw [if_neg (hne p hp).1] at h1
    split at h1
    · exact (Bool.and_eq_true _ _ ▸ h1 : _ ∧ _).1
    · exact h1

theorem event_left {e : Event} (he : e ≠ .archInit) {p : Pin} (hp : p ∈ readyPins) :
    (m328.opsOf e).all (leaves p) = true := by
  cases e with
  | archInit => exact absurd rfl he
  | out dev v =>
    by_cases hd : dev < 13
    · have key : ∀ dev, dev < 13 → ∀ v ∈ [(0 : UInt8), 1], ∀ p ∈ readyPins,
        (m328.opsOf (.out dev v)).all (leaves p) = true := by decide +kernel
      rw [handler_bool List.mem_cons_self]
      exact key dev hd _ (by split <;> decide) p hp
    · rw [handler_none List.mem_cons_self dev (by omega)]; rfl
  | send c =>
    have key := forall_byte (P := fun c => ∀ p ∈ readyPins,
      (m328.opsOf (.send c)).all (leaves p) = true) (by decide +kernel) c
    exact key p hp
  | delayMs ms =>
    show (List.replicate ms.toNat (Op.delayUs 1000)).all (leaves p) = true
    rw [List.all_eq_true]
    intro op ho
    rw [(List.mem_replicate.mp ho).2]
    exact leaves_delay _ _
  | delayShort =>
    have key : ∀ p ∈ readyPins, (m328.opsOf .delayShort).all (leaves p) = true := by decide +kernel
    exact key p hp
  | delayLong =>
    have key : ∀ p ∈ readyPins, (m328.opsOf .delayLong).all (leaves p) = true := by decide +kernel
    exact key p hp
  | posStrobe =>
    have key : ∀ p ∈ readyPins, (m328.opsOf .posStrobe).all (leaves p) = true := by decide +kernel
    exact key p hp
  | negStrobe =>
    have key : ∀ p ∈ readyPins, (m328.opsOf .negStrobe).all (leaves p) = true := by decide +kernel
    exact key p hp

theorem readyPins_bit {p : Pin} (hp : p ∈ readyPins) : p.bit < 8 := by
  have : ∀ p ∈ readyPins, p.bit < 8 := by decide
  exact this p hp

theorem ready_init (r : Regs) : rowReady328 (boardAfter m328 r [.archInit]) := by
  rw [rowReady_iff]
  intro p hp
  have key : ∀ p ∈ readyPins, ∀ st ∈ allPinSt,
      okPin p ((m328.opsOf .archInit).foldl (pinStep p) st) = true := by decide +kernel
  rw [boardAfter_one, exec_pin _ _ (readyPins_bit hp)]
  exact key p hp _ (mem_allPinSt _)

theorem ready_event {r : Regs} (h : rowReady328 r) (e : Event) :
    rowReady328 (boardAfter m328 r [e]) := by
  by_cases he : e = .archInit
  · subst he; exact ready_init r
  · rw [rowReady_iff] at h ⊢
    intro p hp
    rw [boardAfter_one, exec_pin _ _ (readyPins_bit hp), foldl_leaves (event_left he hp)]
    exact h p hp

theorem ready_read {r : Regs} (h : rowReady328 r) (keys : Nat → UInt8) (other row sr : UInt8) :
    rowReady328 (readRow keys other row ⟨r, sr, []⟩).2.regs := by
  rw [rowReady_iff] at h ⊢
  intro p hp
  rw [readRow_world, (world_log keys _ _).2, exec_pin _ _ (readyPins_bit hp)]
  have key := forall_byte (P := fun row => ∀ p ∈ readyPins, ∀ st ∈ allPinSt,
    okPin p st = true → okPin p ((rowOps row 8).foldl (pinStep p) st) = true) (by decide +kernel) row
  exact key p hp _ (mem_allPinSt _) (h p hp)

theorem ready_reached {r : Regs} (h : Reached328 r) : rowReady328 r := by
  induction h with
  | init r => exact ready_init r
  | event _ e ih => exact ready_event ih e
  | read _ keys other row sr ih => exact ready_read ih keys other row sr

end M328

/-! ## ATmega2560 -/

namespace M2560

open Avr.M2560

theorem rowBytes_eq (row : UInt8) (h : row.toNat < 31) :
    ∃ lo hi, rowBytes row = some (lo, hi) ∧ (∀ n, n < 8 → bitOf lo n = decide (n ≠ row.toNat)) ∧
      ∀ n, n < 8 → bitOf hi n = decide (n + 8 ≠ row.toNat) := by
  have key : ∀ n, n < 31 → ∃ lo hi, rowBytes (UInt8.ofNat n) = some (lo, hi) ∧
      (∀ k, k < 8 → bitOf lo k = decide (k ≠ n)) ∧ ∀ k, k < 8 → bitOf hi k = decide (k + 8 ≠ n) := by
    intro n hn
    have key : ∀ n, n < 31 → ∀ x ∈ (rowBytes (UInt8.ofNat n)),
        (∀ k, k < 8 → bitOf x.1 k = decide (k ≠ n)) ∧ ∀ k, k < 8 → bitOf x.2 k = decide (k + 8 ≠ n) := by
      decide +kernel
    have hs : ∀ n, n < 31 → (rowBytes (UInt8.ofNat n)).isSome = true := by decide +kernel
    obtain ⟨x, hx⟩ := Option.isSome_iff_exists.mp (hs n hn)
    exact ⟨x.1, x.2, hx, (key n hn x hx).1, (key n hn x hx).2⟩
  have := key row.toNat h
  rwa [UInt8.ofNat_toNat] at this

/-- The row lines after a row was selected. -/
theorem lines (r : Regs) (lo hi : UInt8) (k : Nat) (hlo : ∀ n, n < 8 → bitOf lo n = decide (n ≠ k))
    (hhi : ∀ n, n < 8 → bitOf hi n = decide (n + 8 ≠ k)) (n : Nat) (hn : n < 16) :
    level (exec .sbi (fun _ => 0) r (rowOps lo hi)) (rowLine2560 n) = decide (n ≠ k) := by
  unfold rowLine2560
  split
  · rename_i h
    exact hlo n h
  · rename_i h
    refine Eq.trans (hhi (n - 8) (by omega)) ?_
    have : n - 8 + 8 = n := by omega
    rw [this]

theorem readRow_ok (cols : Regs → UInt8) (row : UInt8) (r : Regs) (h : row.toNat < 31) :
    ∃ lo hi, readRow cols row r = .ok (~~~ (pinValue (exec .sbi (fun _ => 0) r (rowOps lo hi)) .C
        (cols (exec .sbi (fun _ => 0) r (rowOps lo hi)))), states .sbi (fun _ => 0) r (rowOps lo hi)) ∧
      (∀ n, n < 8 → bitOf lo n = decide (n ≠ row.toNat)) ∧
      ∀ n, n < 8 → bitOf hi n = decide (n + 8 ≠ row.toNat) := by
  obtain ⟨lo, hi, e, h1, h2⟩ := rowBytes_eq row h
  refine ⟨lo, hi, ?_, h1, h2⟩
  unfold readRow
  rw [e]

theorem states_last (r : Regs) (lo hi : UInt8) :
    (states .sbi (fun _ => 0) r (rowOps lo hi)).getLast? =
      some (exec .sbi (fun _ => 0) r (rowOps lo hi)) := rfl

theorem exec_ddr (r : Regs) (lo hi : UInt8) :
    (exec .sbi (fun _ => 0) r (rowOps lo hi)).ddr = r.ddr := rfl

theorem exec_portC (r : Regs) (lo hi : UInt8) :
    (exec .sbi (fun _ => 0) r (rowOps lo hi)).port .C = r.port .C := rfl

/-- Reading an input pin. -/
theorem pinValue_input (r : Regs) (p : Port) (ext : UInt8) (b : Nat) (hb : b < 8)
    (h : isOutput r ⟨p, b⟩ = false) : bitOf (pinValue r p ext) b = bitOf ext b := by
  have h : bitOf (r.ddr p) b = false := h
  unfold pinValue
  rw [bitOf_or, bitOf_and, bitOf_and, bitOf_not _ _ hb, h]
  simp

def readyPins : List Pin := pinsOf .A ++ pinsOf .J ++ pinsOf .C

def okPin (p : Pin) (st : PinSt) : Bool := if p.port = .C then st.1 && !st.2 else st.2

theorem rowReady_iff (r : Regs) : rowReady2560 r ↔ ∀ p ∈ readyPins, okPin p (pinSt r p) = true := by
  constructor
  · rintro ⟨h1, h2⟩ p hp
    have : ∀ p ∈ readyPins, (p.port = .C ∧ p.bit < 8) ∨
        (p.port ≠ .C ∧ ∃ n, n < 16 ∧ p = rowLine2560 n) := by decide
    unfold okPin pinSt
    rcases this p hp with ⟨hc, hb⟩ | ⟨hc, n, hn, rfl⟩
    · obtain ⟨q, b⟩ := p
      cases hc
      obtain ⟨h3, h4⟩ := h2 b hb
      rw [if_pos rfl, h3, h4]; rfl
    · rw [if_neg hc]; exact h1 n hn
  · intro h
    refine ⟨fun n hn => ?_, fun b hb => ?_⟩
    · have key : ∀ n, n < 16 → (rowLine2560 n).port ≠ .C ∧ rowLine2560 n ∈ readyPins := by decide
      have h1 := h _ (key n hn).2
      unfold okPin at h1
      rw [if_neg (key n hn).1] at h1
      exact h1
    · have key : ∀ b, b < 8 → (⟨.C, b⟩ : Pin) ∈ readyPins := by decide
      have h1 := h _ (key b hb)
      unfold okPin at h1
      rw [if_pos rfl, Bool.and_eq_true] at h1
      exact ⟨Eq.trans (Bool.not_not _).symm (congrArg (!·) h1.2), h1.1⟩

theorem event_left {e : Event} (he : e ≠ .archInit) {p : Pin} (hp : p ∈ readyPins) :
    (m2560.opsOf e).all (leaves p) = true := by
  have hB : m2560 ∈ boards := List.mem_cons_of_mem _ List.mem_cons_self
  cases e with
  | archInit => exact absurd rfl he
  | out dev v =>
    by_cases hd : dev < 13
    · have key : ∀ dev, dev < 13 → ∀ v ∈ [(0 : UInt8), 1], ∀ p ∈ readyPins,
        (m2560.opsOf (.out dev v)).all (leaves p) = true := by decide +kernel
      rw [handler_bool hB]
      exact key dev hd _ (by split <;> decide) p hp
    · rw [handler_none hB dev (by omega)]; rfl
  | send c =>
    have key := M328.forall_byte (P := fun c => ∀ p ∈ readyPins,
      (m2560.opsOf (.send c)).all (leaves p) = true) (by decide +kernel) c
    exact key p hp
  | delayMs ms =>
    show (List.replicate ms.toNat (Op.delayUs 1000)).all (leaves p) = true
    rw [List.all_eq_true]
    intro op ho
    rw [(List.mem_replicate.mp ho).2]
    exact leaves_delay _ _
  | delayShort =>
    have key : ∀ p ∈ readyPins, (m2560.opsOf .delayShort).all (leaves p) = true := by decide +kernel
    exact key p hp
  | delayLong =>
    have key : ∀ p ∈ readyPins, (m2560.opsOf .delayLong).all (leaves p) = true := by decide +kernel
    exact key p hp
  | posStrobe =>
    have key : ∀ p ∈ readyPins, (m2560.opsOf .posStrobe).all (leaves p) = true := by decide +kernel
    exact key p hp
  | negStrobe =>
    have key : ∀ p ∈ readyPins, (m2560.opsOf .negStrobe).all (leaves p) = true := by decide +kernel
    exact key p hp

theorem readyPins_bit {p : Pin} (hp : p ∈ readyPins) : p.bit < 8 := by
  have : ∀ p ∈ readyPins, p.bit < 8 := by decide
  exact this p hp

theorem ready_init (r : Regs) : rowReady2560 (boardAfter m2560 r [.archInit]) := by
  rw [rowReady_iff]
  intro p hp
  have key : ∀ p ∈ readyPins, ∀ st ∈ allPinSt,
      okPin p ((m2560.opsOf .archInit).foldl (pinStep p) st) = true := by decide +kernel
  rw [boardAfter_one, exec_pin _ _ (readyPins_bit hp)]
  exact key p hp _ (mem_allPinSt _)

theorem ready_event {r : Regs} (h : rowReady2560 r) (e : Event) :
    rowReady2560 (boardAfter m2560 r [e]) := by
  by_cases he : e = .archInit
  · subst he; exact ready_init r
  · rw [rowReady_iff] at h ⊢
    intro p hp
    rw [boardAfter_one, exec_pin _ _ (readyPins_bit hp), foldl_leaves (event_left he hp)]
    exact h p hp

theorem ready_read {r r' : Regs} (h : rowReady2560 r) (cols : Regs → UInt8) (row v : UInt8)
    (l : List Regs) (hr : readRow cols row r = .ok (v, l)) (hl : l.getLast? = some r') :
    rowReady2560 r' := by
  by_cases hrow : row.toNat < 31
  · obtain ⟨lo, hi, e, _, _⟩ := readRow_ok cols row r hrow
    rw [e] at hr
    injection hr with hr
    rw [Prod.mk.injEq] at hr
    rw [← hr.2, states_last] at hl
    injection hl with hl
    subst hl
    exact h
  · have : readRow cols row r = .error .overflow := by
      unfold readRow rowBytes
      rw [if_neg hrow]
    rw [this] at hr
    cases hr

theorem ready_reached {r : Regs} (h : Reached2560 r) : rowReady2560 r := by
  induction h with
  | init r => exact ready_init r
  | event _ e ih => exact ready_event ih e
  | read _ cols row v l hr hl ih => exact ready_read ih cols row v l hr hl

end M2560

end Asdf
