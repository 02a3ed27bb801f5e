import Verif.Lemmas.CAlike
import Verif.Lemmas.CHw

/-! # A run does not depend on the future -/

namespace Asdf.C

open Avr

/-- The outside worlds do the same up to the time `T`. -/
def SameUntil (T : Nat) (W W' : Outside) : Prop :=
  ∀ t, t ≤ T → W.keys t = W'.keys t ∧ W.other t = W'.other t ∧ W.fires t = W'.fires t

/-- The time is over. -/
def Past (T : Nat) (h : Hw) : Prop := T < h.time

variable {B : Board} {W W' : Outside} {T : Nat}

theorem prim_same {f : F} {args : List Val} {s : St Hw} (hk : W.keys s.io.time = W'.keys s.io.time)
    (ho : W.other s.io.time = W'.other s.io.time) : prim B W f args s = prim B W' f args s := by
  rcases s with ⟨m, e, h⟩
  unfold prim
  split <;> simp only [Hw.setBit, Hw.write, Hw.read, Hw.go] <;> simp only [hk, ho]

theorem write_time (h : Hw) (c : Cell) (v : UInt8) : (h.write B W c v).time = h.time + 1 := by
  cases c <;> rfl

theorem prim_past {f : F} {args : List Val} {s : St Hw} (hs : Past T s.io) : OG (Past T) (prim B W f args s) := by
  have up : ∀ {g : Hw}, g.time = s.io.time + 1 → Past T g := fun e => by
    unfold Past at hs ⊢
    omega
  unfold prim
  split
  · split
    · exact hs
    · exact up rfl
    · exact up rfl
  · exact up (write_time _ _ _)
  · split
    · next h e =>
      refine up ?_
      unfold Hw.setBit at e
      split at e
      · cases e; exact write_time _ _ _
      · cases e; exact write_time _ _ _
      · split at e
        · cases e; exact write_time _ _ _
        · cases e
      · cases e
    · exact .inr ⟨_, hs⟩
  · split
    · next h e =>
      refine up ?_
      unfold Hw.setBit at e
      split at e
      · cases e; exact write_time _ _ _
      · cases e; exact write_time _ _ _
      · split at e
        · cases e; exact write_time _ _ _
        · cases e
      · cases e
    · exact .inr ⟨_, hs⟩
  · exact up rfl
  · exact up rfl
  · exact up rfl
  · exact up rfl
  · exact .inr ⟨_, hs⟩

theorem prim_alike (hW : SameUntil T W W') (f : F) (args : List Val) (s : St Hw) :
    Alike (Past T) s (prim B W f args s) (prim B W' f args s) := by
  by_cases hs : Past T s.io
  · exact ⟨.inr (prim_past hs), fun _ => prim_past hs⟩
  · obtain ⟨a, b, _⟩ := hW s.io.time (Nat.le_of_not_lt hs)
    exact ⟨.inl (prim_same a b), fun h => absurd h hs⟩

theorem interrupt_alike {G : Hw → Prop} (hG : ∀ h g : Hw, h.time = g.time → G h → G g)
    (hW : ∀ h, ¬ G h → W.fires h.time = W'.fires h.time) {c d : Call Hw}
    (hc : ∀ f args s, Alike G s (c f args s) (d f args s))
    (s : St Hw) : Alike G s (interrupt W c s) (interrupt W' d s) := by
  have hit : ∀ {x : Bool}, Alike G s
      (if x then (c .TIMER0_COMPA_vect []
        (s.hw { s.io with regs := { s.io.regs with irq := false }, ints := s.io.ints + 1 })).bind
        fun v s => .ok v (s.hw { s.io with regs := { s.io.regs with irq := true } }) else .ok .unit s)
      (if x then (d .TIMER0_COMPA_vect []
        (s.hw { s.io with regs := { s.io.regs with irq := false }, ints := s.io.ints + 1 })).bind
        fun v s => .ok v (s.hw { s.io with regs := { s.io.regs with irq := true } }) else .ok .unit s) := by
    intro x
    refine .ite (.bind ?_ fun v t => .same fun h => hG t.io _ rfl h) (.ok rfl)
    exact ⟨(hc _ _ _).1, fun h => (hc .TIMER0_COMPA_vect []
      (s.hw { s.io with regs := { s.io.regs with irq := false }, ints := s.io.ints + 1 })).2 (hG s.io _ rfl h)⟩
  by_cases hs : G s.io
  · refine ⟨.inr ?_, fun _ => ?_⟩ <;> exact hit.2 hs
  · refine ⟨?_, fun h => absurd h hs⟩
    unfold interrupt
    rw [← hW _ hs]
    exact hit.1

theorem print_alike {G : Hw → Prop} {c d : Call Hw} (hc : ∀ f args s, Alike G s (c f args s) (d f args s)) :
    ∀ (t : List Code) (s : St Hw), Alike G s (printAll c t s) (printAll d t s)
  | [], _ => .ok rfl
  | _ :: cs, s => .bind (hc _ _ s) fun _ s => print_alike hc cs s

theorem ext_alike {G : Hw → Prop} (hG : ∀ h g : Hw, h.time = g.time → G h → G g)
    (hW : ∀ h, ¬ G h → W.fires h.time = W'.fires h.time)
    (hp : ∀ f args s, Alike G s (prim B W f args s) (prim B W' f args s)) {c d : Call Hw}
    (hc : ∀ f args s, Alike G s (c f args s) (d f args s))
    (f : F) (args : List Val) (s : St Hw) : Alike G s (hwExt B W c f args s) (hwExt B W' d f args s) := by
  unfold hwExt
  split
  · exact .lift
  · exact .ite .err (print_alike hc _ _)
  · exact .bind (interrupt_alike hG hW hc s) fun _ s => hp _ _ s

/-- The types of the parameters are given without calls. -/
def PlainBoard (B : Board) : Prop := ∀ f b, wholeBody B f = some b → b.params.all (plainTy ·.2) = true

theorem runs_alike [IsBoard B] (hB : PlainBoard B) {G : Hw → Prop} (hG : ∀ h g : Hw, h.time = g.time → G h → G g)
    (hW : ∀ h, ¬ G h → W.fires h.time = W'.fires h.time)
    (hp : ∀ f args s, Alike G s (prim B W f args s) (prim B W' f args s)) {w w' : Nat} (hw : w ≤ w') :
    ∀ (n n' : Nat), n ≤ n' → ∀ (f : F) (args : List Val) (s : St Hw),
    Alike G s (run (hwProg B W) w n f args s) (run (hwProg B W') w' n' f args s) := by
  intro n
  induction n with
  | zero => exact fun _ _ _ _ _ => .fuel
  | succ n ih =>
    intro n' hn f args s
    obtain ⟨n', rfl⟩ : ∃ k, n' = k + 1 := ⟨n' - 1, by omega⟩
    have ih := ih n' (Nat.le_of_succ_le_succ hn)
    cases hb : wholeBody B f with
    | some b =>
      rw [hw_fn W w n hb, hw_fn W' w' n' hb]
      exact apply_alike ih hw b (hB f b hb) args s
    | none =>
      rw [hw_ext W w n hb, hw_ext W' w' n' hb]
      exact ext_alike hG hW hp ih f args s

/-- Until the time `T` the future after it does not matter. -/
theorem run_alike [IsBoard B] (hB : PlainBoard B) (hW : SameUntil T W W') (w n : Nat) (f : F) (args : List Val) (s : St Hw) :
    Alike (Past T) s (run (hwProg B W) w n f args s) (run (hwProg B W') w n f args s) :=
  runs_alike hB (fun h g e hh => Nat.lt_of_lt_of_eq hh e)
    (fun h hh => (hW h.time (Nat.le_of_not_lt hh)).2.2) (prim_alike hW) (Nat.le_refl w) n n (Nat.le_refl n) f args s

/-- The bounds on the run do not matter if they are large enough. -/
theorem run_bounds [IsBoard B] (hB : PlainBoard B) {w w' n n' : Nat} (hw : w ≤ w') (hn : n ≤ n') (f : F) (args : List Val)
    (s : St Hw) : run (hwProg B W) w n f args s = run (hwProg B W) w' n' f args s ∨
      run (hwProg B W) w n f args s = .err .fuel := by
  have := (runs_alike (W := W) (W' := W) hB (G := fun _ => False) (fun _ _ _ h => h) (fun _ _ => rfl)
    (fun _ _ _ => .same fun h => h.elim) hw n n' hn f args s).1
  rcases this with h | h
  · exact .inl h
  · refine .inr ?_
    cases e : run (hwProg B W) w n f args s with
    | ok a t => rw [e] at h; exact h.elim
    | stop t => rw [e] at h; exact h.elim
    | err r =>
      rw [e] at h
      rcases h with rfl | ⟨_, h⟩
      · rfl
      · exact h.elim

theorem plain_328 : PlainBoard board328 := by
  intro f b h
  have key : ((wholeBody board328 f).map fun b => b.params.all (plainTy ·.2)) ≠ some false := by
    cases f <;> exact (nofun)
  rw [h] at key
  simpa using key

theorem plain_2560 (cols : (Nat → UInt8) → Regs → UInt8) : PlainBoard (board2560 cols) := by
  intro f b h
  have key : ((wholeBody (board2560 cols) f).map fun b => b.params.all (plainTy ·.2)) ≠ some false := by
    cases f <;> exact (nofun)
  rw [h] at key
  simpa using key

end Asdf.C
