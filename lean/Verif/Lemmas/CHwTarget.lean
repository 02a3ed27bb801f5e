import Verif.Lemmas.CHw328Read
import Verif.Lemmas.CHw2560

/-! # Both boards: the text does what the model says -/

namespace Asdf.C

open Avr

section
variable {B : Board} [IsBoard B] (W : Outside) (w n : Nat) (s : St Hw)

theorem hw_arg8 {f : F} {p : L} {b : Stmt} (hb : wholeBody B f = some ⟨[(p, .int .u8)], none, b⟩) (t : Ity) (i : Int) :
    run (hwProg B W) w (n + 1) f [.int t i] s = run (hwProg B W) w (n + 1) f [.int .u8 (UInt8.ofInt i).toNat] s := by
  rw [hw_fn W w n hb, hw_fn W w n hb]
  simp only [apply, bindArgs, coerce, toInt, lift, conv_ofInt8, ofInt_u8]

theorem hw_arg16 {f : F} {p : L} {b : Stmt} (hb : wholeBody B f = some ⟨[(p, .int .u16)], none, b⟩) (t : Ity) (i : Int) :
    run (hwProg B W) w (n + 1) f [.int t i] s = run (hwProg B W) w (n + 1) f [.int .u16 (UInt16.ofInt i).toNat] s := by
  have e : ∀ i : Int, conv .u16 i = (UInt16.ofInt i).toNat := fun i => (toNat_ofInt16 i).symm
  rw [hw_fn W w n hb, hw_fn W w n hb]
  simp only [apply, bindArgs, coerce, toInt, lift, e, ofInt_u16]

end

variable (W : Outside) (m : G → Tree) (env : List (L × Val)) (h : Hw) (w n : Nat)

theorem event328 {f : F} {args : List Val} {e : Event} (he : callEvent f args = some e) (hp : h.polarity = 0)
    (hw : 65536 ≤ w) : ∃ h', run (hwProg board328 W) w (n + 6) f args (KH m env h) = .ok .unit (KH m env h') ∧
      Adv (M328.opsOf e) h h' := by
  unfold callEvent at he
  split at he
  · cases he
    exact A328.init W m env h w n hp
  · next t i =>
    cases he
    obtain ⟨h', a, b⟩ := A328.send W m env h w (n + 2) hp .u8 (UInt8.ofInt i)
    exact ⟨h', (hw_arg8 W w (n + 5) _ rfl t i).trans a, b⟩
  · cases he
    exact ⟨_, A328.posStrobe W m env h w (n + 2), adv_accs _ _⟩
  · cases he
    exact ⟨_, A328.negStrobe W m env h w (n + 2), adv_accs _ _⟩
  · cases he
    exact ⟨_, delayShort (B := board328) W m env h w (n + 2), adv_accs _ _⟩
  · cases he
    exact ⟨_, delayLong (B := board328) W m env h w (n + 2), adv_accs _ _⟩
  · next t i =>
    cases he
    exact ⟨_, (hw_arg16 W w (n + 5) _ rfl t i).trans (wait (B := board328) W m env h w (n + 2) .u16 _ hw), adv_accs _ _⟩
  · next t i _ _ =>
    obtain ⟨d, hd, he⟩ := Option.map_eq_some_iff.1 he
    subst he
    unfold outputOf at hd
    split at hd <;> cases hd
    · exact ⟨_, (hw_arg8 W w (n + 5) _ rfl t i).trans (nullOutput (B := board328) W m env h w (n + 5) .u8 _), adv_accs _ _⟩
    · exact ⟨_, (hw_arg8 W w (n + 5) _ rfl t i).trans (A328.out1Set W m env h w (n + 2) .u8 _), adv_accs _ _⟩
    · exact ⟨_, (hw_arg8 W w (n + 5) _ rfl t i).trans (A328.out1OpenHi W m env h w (n + 2) .u8 _), adv_accs _ _⟩
    · exact ⟨_, (hw_arg8 W w (n + 5) _ rfl t i).trans (A328.out1OpenLo W m env h w (n + 2) .u8 _), adv_accs _ _⟩
    · exact ⟨_, (hw_arg8 W w (n + 5) _ rfl t i).trans (A328.out2Set W m env h w (n + 2) .u8 _), adv_accs _ _⟩
    · exact ⟨_, (hw_arg8 W w (n + 5) _ rfl t i).trans (A328.out2OpenHi W m env h w (n + 4) .u8 _), adv_accs _ _⟩
    · exact ⟨_, (hw_arg8 W w (n + 5) _ rfl t i).trans (A328.out2OpenLo W m env h w (n + 4) .u8 _), adv_accs _ _⟩
    · exact ⟨_, (hw_arg8 W w (n + 5) _ rfl t i).trans (A328.out3Set W m env h w (n + 2) .u8 _), adv_accs _ _⟩
    · exact ⟨_, (hw_arg8 W w (n + 5) _ rfl t i).trans (A328.out3OpenHi W m env h w (n + 2) .u8 _), adv_accs _ _⟩
    · exact ⟨_, (hw_arg8 W w (n + 5) _ rfl t i).trans (A328.out3OpenLo W m env h w (n + 2) .u8 _), adv_accs _ _⟩
    · exact ⟨_, (hw_arg8 W w (n + 5) _ rfl t i).trans (A328.led1Set W m env h w (n + 2) .u8 _), adv_accs _ _⟩
    · exact ⟨_, (hw_arg8 W w (n + 5) _ rfl t i).trans (A328.led2Set W m env h w (n + 2) .u8 _), adv_accs _ _⟩
    · exact ⟨_, (hw_arg8 W w (n + 5) _ rfl t i).trans (A328.led3Set W m env h w (n + 2) .u8 _), adv_accs _ _⟩
  · cases he

theorem event2560 (cols : (Nat → UInt8) → Regs → UInt8) {f : F} {args : List Val} {e : Event} (he : callEvent f args = some e) (hp : h.polarity = 0)
    (hw : 65536 ≤ w) : ∃ h', run (hwProg (board2560 cols) W) w (n + 6) f args (KH m env h) = .ok .unit (KH m env h') ∧
      Adv (M2560.opsOf e) h h' := by
  unfold callEvent at he
  split at he
  · cases he
    exact A2560.init cols W m env h w n hp
  · next t i =>
    cases he
    obtain ⟨h', a, b⟩ := A2560.send cols W m env h w (n + 2) hp .u8 (UInt8.ofInt i)
    exact ⟨h', (hw_arg8 W w (n + 5) _ rfl t i).trans a, b⟩
  · cases he
    exact ⟨_, A2560.posStrobe cols W m env h w (n + 2), adv_accs _ _⟩
  · cases he
    exact ⟨_, A2560.negStrobe cols W m env h w (n + 2), adv_accs _ _⟩
  · cases he
    exact ⟨_, delayShort (B := (board2560 cols)) W m env h w (n + 2), adv_accs _ _⟩
  · cases he
    exact ⟨_, delayLong (B := (board2560 cols)) W m env h w (n + 2), adv_accs _ _⟩
  · next t i =>
    cases he
    exact ⟨_, (hw_arg16 W w (n + 5) _ rfl t i).trans (wait (B := (board2560 cols)) W m env h w (n + 2) .u16 _ hw), adv_accs _ _⟩
  · next t i _ _ =>
    obtain ⟨d, hd, he⟩ := Option.map_eq_some_iff.1 he
    subst he
    unfold outputOf at hd
    split at hd <;> cases hd
    · exact ⟨_, (hw_arg8 W w (n + 5) _ rfl t i).trans (nullOutput (B := (board2560 cols)) W m env h w (n + 5) .u8 _), adv_accs _ _⟩
    · exact ⟨_, (hw_arg8 W w (n + 5) _ rfl t i).trans (A2560.out1Set cols W m env h w (n + 2) .u8 _), adv_accs _ _⟩
    · exact ⟨_, (hw_arg8 W w (n + 5) _ rfl t i).trans (A2560.out1OpenHi cols W m env h w (n + 2) .u8 _), adv_accs _ _⟩
    · exact ⟨_, (hw_arg8 W w (n + 5) _ rfl t i).trans (A2560.out1OpenLo cols W m env h w (n + 2) .u8 _), adv_accs _ _⟩
    · exact ⟨_, (hw_arg8 W w (n + 5) _ rfl t i).trans (A2560.out2Set cols W m env h w (n + 2) .u8 _), adv_accs _ _⟩
    · exact ⟨_, (hw_arg8 W w (n + 5) _ rfl t i).trans (A2560.out2OpenHi cols W m env h w (n + 2) .u8 _), adv_accs _ _⟩
    · exact ⟨_, (hw_arg8 W w (n + 5) _ rfl t i).trans (A2560.out2OpenLo cols W m env h w (n + 2) .u8 _), adv_accs _ _⟩
    · exact ⟨_, (hw_arg8 W w (n + 5) _ rfl t i).trans (A2560.out3Set cols W m env h w (n + 2) .u8 _), adv_accs _ _⟩
    · exact ⟨_, (hw_arg8 W w (n + 5) _ rfl t i).trans (A2560.out3OpenHi cols W m env h w (n + 2) .u8 _), adv_accs _ _⟩
    · exact ⟨_, (hw_arg8 W w (n + 5) _ rfl t i).trans (A2560.out3OpenLo cols W m env h w (n + 2) .u8 _), adv_accs _ _⟩
    · exact ⟨_, (hw_arg8 W w (n + 5) _ rfl t i).trans (A2560.led1Set cols W m env h w (n + 2) .u8 _), adv_accs _ _⟩
    · exact ⟨_, (hw_arg8 W w (n + 5) _ rfl t i).trans (A2560.led2Set cols W m env h w (n + 2) .u8 _), adv_accs _ _⟩
    · exact ⟨_, (hw_arg8 W w (n + 5) _ rfl t i).trans (A2560.led3Set cols W m env h w (n + 2) .u8 _), adv_accs _ _⟩
  · cases he

theorem serves328 : Serves board328 Whole.target328 where
  event W m env h w n f args e he hp hw := event328 W m env h w n he hp hw
  read W m env h w n t row hw := by
    obtain ⟨v, h', k, a, b, c, d, e⟩ := A328.read_row_is (W := W) (h := h) m env w (n + 2) t row hw
    refine ⟨k, c, ?_⟩
    have l := (A328.readRow_log (W.keys k) (W.other k .B) row ⟨h.regs, h.sr, []⟩).2
    have r : Whole.target328.read ⟨W.keys k, W.other k .B, h.sr⟩ row h.regs =
        .ok (v, states .sbi (fun _ => 0) h.regs (A328.readOps row)) := by
      rw [e (W.other k .B)]
      exact congrArg (fun l => Except.ok (_, l)) l
    rw [r]
    exact ⟨h', _, a, d, b, rfl, A328.read_us row⟩

theorem serves2560 (cols : (Nat → UInt8) → Regs → UInt8) : Serves (board2560 cols) (Whole.target2560 cols) where
  event W m env h w n f args e he hp hw := event2560 W m env h w n cols he hp hw
  read W m env h w n t row hw := by
    by_cases hr : row.toNat < 31
    · obtain ⟨v, h', k, a, b, c, d, e⟩ := A2560.read_row_is cols W m env h w (n + 2) t row hr
      refine ⟨k, c, ?_⟩
      show match M2560.readRow (cols (W.keys k)) row h.regs with
        | .error _ => _
        | .ok (v, l) => _
      rw [e]
      exact ⟨h', _, a, d, b, rfl, rfl⟩
    · refine ⟨h.time, Nat.le_refl _, ?_⟩
      show match M2560.readRow (cols (W.keys h.time)) row h.regs with
        | .error _ => _
        | .ok (v, l) => _
      have : M2560.readRow (cols (W.keys h.time)) row h.regs = .error .overflow := by
        simp [M2560.readRow, M2560.rowBytes, hr]
      rw [this]
      exact A2560.read_row_over cols W m env h w (n + 2) t row (by omega)

end Asdf.C
