import Verif.Lemmas.CHwMain
import Verif.Lemmas.CHwCausal

/-! # The main loop, turn by turn -/

namespace Asdf.C

open Avr

/-! ## The bound on the run does not matter until it is reached -/

/-- The same, with a bound that is larger by `k`. -/
def Shift (k : Nat) (h g : Hw) : Prop := g = { h with polls := h.polls + k }

variable {B : Board} {W : Outside} {k w : Nat}

theorem SRel.shift {s t : St Hw} (h : SRel (Shift k) s t) : t = ⟨s.mem, s.env, { s.io with polls := s.io.polls + k }⟩ := by
  rcases s with ⟨m, e, h⟩
  rcases t with ⟨m', e', h'⟩
  obtain ⟨h1, h2, h3⟩ := h
  cases h1
  cases h2
  cases h3
  rfl

theorem prim_shift (f : F) (args : List Val) (s t : St Hw) (h : SRel (Shift k) s t) :
    ORel (Shift k) (prim B W f args s) (prim B W f args t) := by
  obtain rfl := h.shift
  rcases s with ⟨m, e, ⟨rg, tk, po, sr, lg, ints, tm, pl, fo⟩⟩
  have fin : ∀ {v : Val} {g g' : Hw}, Shift k g g' →
      ORel (Shift k) (.ok v ⟨m, e, g⟩) (.ok v (⟨m, e, g'⟩ : St Hw)) := fun hg => ORel.ok ⟨rfl, rfl, hg⟩
  have hgo : ∀ r u, Shift k ((⟨rg, tk, po, sr, lg, ints, tm, pl, fo⟩ : Hw).go B W r u)
      ((⟨rg, tk, po, sr, lg, ints, tm, pl + k, fo⟩ : Hw).go B W r u) := fun _ _ => rfl
  have hwr : ∀ c v, Shift k ((⟨rg, tk, po, sr, lg, ints, tm, pl, fo⟩ : Hw).write B W c v)
      ((⟨rg, tk, po, sr, lg, ints, tm, pl + k, fo⟩ : Hw).write B W c v) := fun c v => by cases c <;> rfl
  have hset : ∀ c b on, ORel (Shift k)
      (match (⟨rg, tk, po, sr, lg, ints, tm, pl, fo⟩ : Hw).setBit B W c b on with
        | some h => .ok Val.unit (⟨m, e, h⟩ : St Hw)
        | none => .err .badCall)
      (match (⟨rg, tk, po, sr, lg, ints, tm, pl + k, fo⟩ : Hw).setBit B W c b on with
        | some h => .ok Val.unit (⟨m, e, h⟩ : St Hw)
        | none => .err .badCall) := by
    intro c b on
    cases c <;> cases on <;> first
      | exact ORel.err
      | exact fin (hwr _ _)
  unfold prim
  split
  · next r =>
    cases hc : cellOf r with
    | tick =>
      cases pl with
      | zero => exact ORel.stop
      | succ pl => 
        rw [show pl + 1 + k = pl + k + 1 by omega]
        exact fin rfl
    | _ => exact fin rfl
  · exact fin (hwr _ _)
  · exact hset _ _ _
  · exact hset _ _ _
  · exact fin (hgo _ _)
  · exact fin (hgo _ _)
  · exact fin (hgo _ _)
  · exact fin (hgo _ _)
  · exact ORel.err

theorem interrupt_shift {c d : Call Hw} (hc : CRel (Shift k) c d) (s t : St Hw) (h : SRel (Shift k) s t) :
    ORel (Shift k) (interrupt W c s) (interrupt W d t) := by
  obtain rfl := h.shift
  unfold interrupt
  refine ORel.ite (ORel.bind (hc _ _ _ _ ⟨rfl, rfl, rfl⟩) fun v s t h => ?_) (ORel.ok h)
  obtain rfl := h.shift
  exact ORel.ok ⟨rfl, rfl, rfl⟩

theorem print_shift {c d : Call Hw} (hc : CRel (Shift k) c d) : ∀ (t : List Code) (s s' : St Hw),
    SRel (Shift k) s s' → ORel (Shift k) (printAll c t s) (printAll d t s')
  | [], _, _, h => ORel.ok h
  | _ :: cs, _, _, h => ORel.bind (hc _ _ _ _ h) fun _ s t h => print_shift hc cs s t h

theorem run_shift [IsBoard B] (W : Outside) (k w : Nat) : ∀ n, CRel (Shift k) (run (hwProg B W) w n) (run (hwProg B W) w n) := by
  intro n
  induction n with
  | zero => exact fun _ _ _ _ _ => ORel.err
  | succ n ih =>
    intro f args s t h
    cases hb : wholeBody B f with
    | some b =>
      rw [hw_fn W w n hb, hw_fn W w n hb]
      exact apply_rel ih w b args s t h
    | none =>
      rw [hw_ext W w n hb, hw_ext W w n hb]
      unfold hwExt
      split
      · exact ORel.lift h
      · exact ORel.ite ORel.err (print_shift ih _ _ _ h)
      · exact ORel.bind (interrupt_shift ih s t h) fun _ s t h => prim_shift _ _ s t h

/-! ## One turn -/

section
variable {T : Whole.Target} {r0 : Regs} [IsBoard B]

/-- What the main loop leaves after looking at the flag. -/
abbrev Hw.seen (W : Outside) (h : Hw) : Hw := (({ h with polls := 1 } : Hw).looked W 0).setTick W 0

theorem turn_idle (L3 : Expr × Expr × Stmt) (hl : fn_main.body.loops[0]? = some L3) (n : Nat) (m : G → Tree) (h : Hw)
    (ht : (h.irq W).tick = 0) :
    exec (run (hwProg B W) w (n + 22)) w L3.2.2 (KH m [] { h with polls := 1 }) = .ok .next (KH m [] (h.seen W)) := by
  have k0 := tick_ok (B := B) W m [] { h with polls := 1 } w (n + 18) (k := 0) rfl
  have ht : (({ h with polls := 1 } : Hw).irq W).tick = 0 := by
    rw [← ht]; unfold Hw.irq; split <;> rfl
  rw [ht] at k0
  cases hl
  cgo [k0]

variable (S : Serves B T) (hw : 65536 ≤ w)
include S hw

theorem turn_scan (L3 : Expr × Expr × Stmt) (hl : fn_main.body.loops[0]? = some L3) (n : Nat) (x : Extra) (wh : Whole.Whole)
    (h : Hw) (F : Fits x wh.fw) (o1 : On T r0 wh (h.seen W)) (ht : (h.irq W).tick ≠ 0) :
    ∃ mx hi, Sampled W (h.seen W).time hi mx ∧ (∀ wh', Whole.pass T shipped wh mx = .ok wh' →
      ∃ x' h', Fits x' wh'.fw ∧ On T r0 wh' h' ∧ Fwd (h.seen W) h' ∧ hi ≤ h'.time ∧
        exec (run (hwProg B W) w (n + 22)) w L3.2.2 (KH (encMem x wh.fw) [] { h with polls := 1 }) =
          .ok .next (KH (encMem x' wh'.fw) [] h')) ∧
      (Readable T → Sane wh.fw → ∀ e, Whole.pass T shipped wh mx = .error e →
        exec (run (hwProg B W) w (n + 22)) w L3.2.2 (KH (encMem x wh.fw) [] { h with polls := 1 }) = .err .oob) := by
  have triv : ∀ h : Hw, Sampled W h.time h.time (fun _ => ⟨W.keys h.time, 0, 0⟩) :=
    fun h r => ⟨h.time, Nat.le_refl _, Nat.le_refl _, rfl⟩
  have k0 := tick_ok (B := B) W (encMem x wh.fw) [] { h with polls := 1 } w (n + 18) (k := 0) rfl
  have hirq : (({ h with polls := 1 } : Hw).irq W).tick = (h.irq W).tick := by
    unfold Hw.irq; split <;> rfl
  rw [hirq] at k0
  have ht' : (((h.irq W).tick.toNat : Nat) : Int) ≠ 0 := by
    intro hz
    apply ht
    apply UInt8.toNat_inj.mp
    rw [Int.ofNat_eq_zero.mp hz]
    rfl
  generalize (h.irq W).tick.toNat = tk at k0 ht'
  change run (hwProg B W) w (n + 18 + 4) .asdf_arch_tick [] (KH (encMem x wh.fw) [] { h with polls := 1 }) =
    .ok (.int .u8 tk) (KH (encMem x wh.fw) [] (h.seen W)) at k0
  generalize h.seen W = h1 at k0 o1
  generalize ({ h with polls := 1 } : Hw) = h0 at k0
  cases hop : outputPhase wh.fw with
  | error e =>
    refine ⟨_, _, triv h1, fun wh' hh => ?_, fun _ hs => ?_⟩
    · simp [Whole.pass, hop, bind, Except.bind] at hh
    · obtain ⟨s', h1, _⟩ := hs.output
      rw [hop] at h1
      cases h1
  | ok s3 =>
    have hop' := hop
    simp only [outputPhase, bind_eq_ok] at hop'
    obtain ⟨⟨code, s2⟩, h2, h3⟩ := hop'
    have k2 := c_next_code F h2 [] [] none w (n + 13)
    have F2 := k2.1
    obtain ⟨g2, es2, k2, htr2, a2⟩ := moveCall' S hw (W := W) o1.pol k2.2
    have hlt : (code.toNat : Int) < 160 ↔ code < INVALID_CODE := by
      rw [UInt8.lt_iff_toNat_lt]
      have : INVALID_CODE.toNat = 160 := rfl
      omega
    have k2 : run (hwProg B W) w (n + 22) .asdf_next_code [] (KH (encMem x wh.fw) [] h1) = _ := k2
    have tail : ∀ g, Fits x s3 → On T r0 (wh.goOn T s3) g → Fwd h1 g →
        ∃ mx hi, Sampled W h1.time hi mx ∧ (∀ wh', Whole.pass T shipped wh mx = .ok wh' →
          ∃ x' h', Fits x' wh'.fw ∧ On T r0 wh' h' ∧ Fwd h1 h' ∧ hi ≤ h'.time ∧
            run (hwProg B W) w (n + 22) .asdf_keyscan [] (KH (encMem x s3) [(.code, .int .u8 code.toNat)] g) =
              .ok .unit (KH (encMem x' wh'.fw) [(.code, .int .u8 code.toNat)] h')) ∧
          (Readable T → Sane wh.fw → ∀ e, Whole.pass T shipped wh mx = .error e →
            run (hwProg B W) w (n + 22) .asdf_keyscan [] (KH (encMem x s3) [(.code, .int .u8 code.toNat)] g) = .err .oob) := by
      intro g F3 o3 f3
      obtain ⟨mx, hi, hs, hr, herr⟩ := hw_keyscan S hw (W := W) n x (wh.goOn T s3) g F3 o3 [(.code, .int .u8 code.toNat)]
      refine ⟨mx, hi, fun r => ?_, fun wh' hh => ?_, fun hR hsane e hh => ?_⟩
      · obtain ⟨k, a, b, d⟩ := hs r
        exact ⟨k, Nat.le_trans f3.time a, b, d⟩
      · simp only [Whole.pass, hop, ok_bind] at hh
        obtain ⟨x4, g4, F4, o4, f4, hi4, k4⟩ := hr wh' hh
        exact ⟨x4, g4, F4, o4, f3.trans f4, hi4, k4⟩
      · simp only [Whole.pass, hop, ok_bind] at hh
        obtain ⟨s', h1, h2⟩ := hsane.output
        rw [hop] at h1
        cases h1
        exact herr hR h2 e hh
    by_cases hc : code < INVALID_CODE
    · simp only [hc, ↓reduceIte, callOutput, bind_eq_ok] at h3
      obtain ⟨f, hf, h3⟩ := h3
      obtain ⟨v, hv, kf⟩ := c_hook_get F2 (by decide) hf .i16
      have pol2 : g2.polarity = 0 := a2.polarity.trans o1.pol
      obtain ⟨g3, es3, kf, htr3, a3⟩ := moveCall' S hw (W := W) pol2 (kf [(.code, .int .u8 code.toNat)] [] none w (n + 14))
      have kf : run (hwProg B W) w (n + 22) .asdf_hook_get [.int .i16 3] (KH (encMem x s2) [(.code, .int .u8 code.toNat)] g2) = _ := kf
      split at h3
      · cases h3
        cases hv
        have F3 := fits_emit F2 (.send code)
        obtain ⟨g4, k4, a4⟩ := S.event W (encMem x s2) [(.output_function, .fn .asdf_arch_send_code), (.code, .int .u8 code.toNat)] g3 w (n + 16)
          .asdf_arch_send_code [.int .u8 code.toNat] (.send code) (by simp only [callEvent, ofInt_u8]) (a3.polarity.trans pol2) hw
        have k4 : run (hwProg B W) w (n + 22) .asdf_arch_send_code [.int .u8 code.toNat]
          (KH (encMem x s2) [(.output_function, .fn .asdf_arch_send_code), (.code, .int .u8 code.toNat)] g3) = _ := k4
        have htr : (s2.emit (.send code)).dev.trace = wh.fw.dev.trace ++ (es2 ++ es3 ++ [.send code]) := by
          show s2.dev.trace ++ [.send code] = _
          rw [htr3, htr2]
          simp only [List.append_assoc]
        have a := (a2.trans a3).trans a4
        obtain ⟨mx, hi, hs, hr, herr⟩ := tail g4 F3 (on_goOn o1 htr (a.cast (by simp))) (Fwd.of a)
        refine ⟨mx, hi, hs, fun wh' hh => ?_, fun hR hsane e hh => ?_⟩
        · obtain ⟨x', h', F', o', f', t', k5⟩ := hr wh' hh
          refine ⟨x', h', F', o', f', t', ?_⟩
          have k5 : run (hwProg B W) w (n + 22) .asdf_keyscan [] (KH (encMem x s2) [(.code, .int .u8 code.toNat)] g4) = _ := k5
          cases hl
          cgo [k0, ht', k2, hlt, hc, kf, k4, k5]
        · have k5 : run (hwProg B W) w (n + 22) .asdf_keyscan [] (KH (encMem x s2) [(.code, .int .u8 code.toNat)] g4) = _ :=
            herr hR hsane e hh
          cases hl
          cgo [k0, ht', k2, hlt, hc, kf, k4, k5]
      · cases h3
    · simp only [hc, ↓reduceIte] at h3
      cases h3
      obtain ⟨mx, hi, hs, hr, herr⟩ := tail g2 F2 (on_goOn o1 htr2 a2) (Fwd.of a2)
      refine ⟨mx, hi, hs, fun wh' hh => ?_, fun hR hsane e hh => ?_⟩
      · obtain ⟨x', h', F', o', f', t', k5⟩ := hr wh' hh
        refine ⟨x', h', F', o', f', t', ?_⟩
        cases hl
        cgo [k0, ht', k2, hlt, hc, k5]
      · have k5 := herr hR hsane e hh
        cases hl
        cgo [k0, ht', k2, hlt, hc, k5]

end

end Asdf.C
