import Verif.Lemmas.CHwSim
import Verif.Lemmas.CSane

/-! # `asdf_keyscan` and `main` on a board -/

namespace Asdf.C

open Avr

@[crun] theorem KH_load_obj (x : Extra) (s : State) (env : List (L × Val)) (h : Hw) (g : G) (p : List Sel) :
    loadLoc (.obj g p) (KH (encMem x s) env h) = loadLoc (.obj g p) (K x s env [] none) := rfl

theorem last_state (ops : List Op) : ∀ r : Regs,
    (states .sbi (fun _ => 0) r ops).getLast?.getD r = Avr.exec .sbi (fun _ => 0) r ops := by
  induction ops with
  | nil => intro r; rfl
  | cons op ops ih =>
    intro r
    have := ih (access .sbi (fun _ => 0) r op)
    simp only [states, List.getLast?_cons, Option.getD_some]
    exact this

theorem scanRows_congr (T : Whole.Target) (reader : HookFn) {mx mx' : Nat → Whole.Contacts} : ∀ (fuel row : Nat) (wh : Whole.Whole),
    (∀ r, row ≤ r → mx r = mx' r) →
    Whole.scanRows T shipped reader mx fuel row wh = Whole.scanRows T shipped reader mx' fuel row wh := by
  intro fuel
  induction fuel with
  | zero => intro row wh _; rfl
  | succ fuel ih =>
    intro row wh h
    unfold Whole.scanRows
    rw [h row (Nat.le_refl _)]
    have e : ∀ wh, Whole.scanRows T shipped reader mx fuel (row + 1) wh = Whole.scanRows T shipped reader mx' fuel (row + 1) wh :=
      fun wh => ih _ _ fun r hr => h r (by omega)
    simp only [e]

/-- The rows of the matrix can be read. -/
def Readable (T : Whole.Target) : Prop := ∀ c (row : UInt8) r, row.toNat < 16 → ∃ q, T.read c row r = .ok q

variable {B : Board} {T : Whole.Target} {W : Outside} {w : Nat} {r0 : Regs} [IsBoard B] (S : Serves B T) (hw : 65536 ≤ w)
include S hw

theorem hw_rows (c st b) (hl : fn_asdf_keyscan.body.loops[0]? = some (c, st, b)) (n : Nat) {reader : HookFn} {v : Val}
    (hv : HookIs reader v) :
    ∀ (fuel row m : Nat) (row0 : Int) (x : Extra) (wh : Whole.Whole) (h : Hw), Fits x wh.fw → On T r0 wh h → row0 = row →
      row < 256 → fuel ≤ m →
      ∃ mx hi, Sampled W h.time hi mx ∧ (∀ wh', Whole.scanRows T shipped reader mx fuel row wh = .ok wh' →
        ∃ x' a h', Fits x' wh'.fw ∧ On T r0 wh' h' ∧ Fwd h h' ∧ hi ≤ h'.time ∧
          turns (evalE (run (hwProg B W) w (n + 21)) c) (exec (run (hwProg B W) w (n + 21)) w b)
            (evalE (run (hwProg B W) w (n + 21)) st) m
            (KH (encMem x wh.fw) [(.row, .int .u8 row0), (.row_reader, v)] h) =
          .ok .next (KH (encMem x' wh'.fw) [(.row, a), (.row_reader, v)] h')) ∧
        (Readable T → Sane wh.fw → reader = .archReadRow → row ≤ 16 → 16 < row + fuel →
          ∀ e, Whole.scanRows T shipped reader mx fuel row wh = .error e →
          turns (evalE (run (hwProg B W) w (n + 21)) c) (exec (run (hwProg B W) w (n + 21)) w b)
            (evalE (run (hwProg B W) w (n + 21)) st) m
            (KH (encMem x wh.fw) [(.row, .int .u8 row0), (.row_reader, v)] h) = .err .oob) := by
  cases hl
  intro fuel
  have triv : ∀ h : Hw, Sampled W h.time h.time (fun _ => ⟨W.keys h.time, 0, 0⟩) :=
    fun h r => ⟨h.time, Nat.le_refl _, Nat.le_refl _, rfl⟩
  induction fuel with
  | zero =>
    intro row m row0 x wh h _ _ _ _ _
    exact ⟨_, _, triv h, fun wh' hh => (by cases hh), fun _ _ _ _ _ => by omega⟩
  | succ fuel ih =>
    rintro row m _ x wh h F o rfl hrow hm
    obtain ⟨m, rfl⟩ : ∃ k, m = k + 1 := ⟨m - 1, by omega⟩
    cases hn : numRows wh.fw with
    | error e =>
      refine ⟨_, _, triv h, fun wh' hh => ?_, fun _ hs => ?_⟩
      · simp [Whole.scanRows, hn, bind, Except.bind] at hh
      · obtain ⟨nc, h1, _⟩ := hs.rows
        rw [hn] at h1
        cases h1
    | ok nc =>
      have hnc := nc.toNat_lt
      obtain ⟨h1, k1, o1, f1⟩ := moveCall S hw (W := W) o (c_num_rows (x := x) hn
        [(.row, .int .u8 row), (.row_reader, v)] [] none w (n + 13))
      rw [goOn_self] at o1
      by_cases hlt : row < nc.toNat
      · have hlt' : (row : Int) < nc.toNat := by omega
        by_cases hr : reader = .archReadRow
        · subst hr
          cases hv
          obtain ⟨k, hk, hread⟩ := S.read W (encMem x wh.fw) [(.row, .int .u8 row), (.row_reader, .fn .asdf_arch_read_row)]
            h1 w (n + 15) .u8 (UInt8.ofNat row) (by omega)
          have e8 : (UInt8.ofNat row).toNat = row := UInt8.toNat_ofNat_of_lt' hrow
          rw [e8, o1.regs] at hread
          cases hT : T.read ⟨W.keys k, W.other k .B, h1.sr⟩ (UInt8.ofNat row) wh.regs with
          | error e =>
            refine ⟨fun _ => ⟨W.keys k, W.other k .B, h1.sr⟩, k, fun r => ⟨k, Nat.le_trans f1.time hk, Nat.le_refl _, rfl⟩, fun wh' hh => ?_,
              fun hR hs => ?_⟩
            · simp [Whole.scanRows, hn, hlt, Whole.callReader, hT, bind, Except.bind] at hh
            · obtain ⟨nc', g1, g2⟩ := hs.rows
              rw [hn] at g1
              cases g1
              obtain ⟨q, hq⟩ := hR ⟨W.keys k, W.other k .B, h1.sr⟩ (UInt8.ofNat row) wh.regs (by omega)
              rw [hT] at hq
              cases hq
          | ok q =>
            obtain ⟨ks, l⟩ := q
            rw [hT] at hread
            obtain ⟨h2, ops, k2, hk2, a2, rfl, hus⟩ := hread
            have o2 : On T r0 { wh with regs := (states .sbi (fun _ => 0) wh.regs ops).getLast?.getD wh.regs, log := wh.log ++ states .sbi (fun _ => 0) wh.regs ops } h2 := by
              refine ⟨?_, ?_, a2.polarity.trans o1.pol, ?_⟩
              · rw [a2.regs, last_state, o1.regs]
              · rw [a2.log, List.map_append, timed_fst, o1.log, o1.regs]
              · rw [← o1.regs] at hT
                have st := o1.story.read hT hus
                rw [← a2.log, ← a2.regs] at st
                exact st
            have bad : ∀ e : UB, (rd wh.fw.stable row >>= fun st => scanCols shipped row 256 0 (ks ^^^ st) ks wh.fw) = .error e →
                ∃ mx hi, Sampled W h.time hi mx ∧ ∀ wh', Whole.scanRows T shipped .archReadRow mx (fuel + 1) row wh = .ok wh' → False := by
              intro e he
              refine ⟨fun _ => ⟨W.keys k, W.other k .B, h1.sr⟩, k, fun r => ⟨k, Nat.le_trans f1.time hk, Nat.le_refl _, rfl⟩, fun wh' hh => ?_⟩
              simp only [Whole.scanRows, hn, hlt, Whole.callReader, hT, bind_eq_ok, ok_bind, ↓reduceIte] at hh
              obtain ⟨st, h3, s, h4, -⟩ := hh
              rw [h3] at he
              simp only [ok_bind] at he
              rw [h4] at he
              cases he
            cases hsk : rd wh.fw.stable row with
            | error e =>
              obtain ⟨mx, hi, a, b⟩ := bad e (by rw [hsk]; rfl)
              refine ⟨mx, hi, a, fun wh' hh => (b wh' hh).elim, fun _ hs => ?_⟩
              obtain ⟨nc', g1, g2⟩ := hs.rows
              rw [hn] at g1
              cases g1
              rw [rd_ok (show row < wh.fw.stable.length by rw [F.stable]; omega)] at hsk
              cases hsk
            | ok sk =>
              cases hs1 : scanCols shipped row 256 0 (ks ^^^ sk) ks wh.fw with
              | error e =>
                obtain ⟨mx, hi, a, b⟩ := bad e (by rw [hsk]; exact hs1)
                refine ⟨mx, hi, a, fun wh' hh => (b wh' hh).elim, fun _ hs _ _ _ _ _ => ?_⟩
                have hsk := rd_eq_ok.1 hsk
                have e1 := (hs.row hn hlt hsk).2 e hs1 _ _ _ rfl w n x [(.row_reader, .fn .asdf_arch_read_row)] none (by omega) F
                have k3 := moveTurns_err S hw (W := W) o2 e1
                have hx := binop_xor .u8 rfl ks sk
                have z : ((0 : Nat) : Int) = 0 := rfl
                simp only [colEnv, z] at k3
                rw [turns_succ]
                cgo [k1, hlt', k2, Int.toNat_natCast, hsk, hx, k3]
              | ok s1 =>
                obtain ⟨x1, a1, b1, d1, F1, e1⟩ := loop_cols _ _ _ rfl (by omega : 300 ≤ w) n [] none hrow
                  [(.row_reader, .fn .asdf_arch_read_row)] 256 0 w 0 (ks ^^^ sk) ks x wh.fw s1 F rfl (by omega) (by omega) hs1
                obtain ⟨h3, k3, o3, f3⟩ := moveTurns S hw (W := W) o2 e1
                obtain ⟨mx, hi, hsam, hrest, herr⟩ := ih (row + 1) m ((row : Int) + 1) x1 _ h3 F1 o3 (by omega) (by omega) (by omega)
                have t03 : h.time ≤ h3.time := Nat.le_trans f1.time (Nat.le_trans a2.time f3.time)
                refine ⟨fun r => if r = row then ⟨W.keys k, W.other k .B, h1.sr⟩ else mx r, max k hi, fun r => ?_, fun wh' hh => ?_,
                  fun hR hs _ _ hf e hh => ?_⟩
                · by_cases hr : r = row
                  · exact ⟨k, Nat.le_trans f1.time hk, by omega, by simp only [if_pos hr]⟩
                  · obtain ⟨j, j1, j2, j3⟩ := hsam r
                    exact ⟨j, by omega, by omega, by simp only [if_neg hr]; exact j3⟩
                · simp only [Whole.scanRows, hn, hlt, Whole.callReader, hT, bind_eq_ok, ok_bind, ↓reduceIte, hsk, hs1] at hh
                  rw [scanRows_congr T _ (mx' := mx) _ _ _ (fun r hr => if_neg (by omega))] at hh
                  obtain ⟨x', a, h', F', o', f', hi', e'⟩ := hrest wh' hh
                  have t3 := f'.time
                  have t2 := f3.time
                  refine ⟨x', a, h', F', o', f1.trans ((Fwd.of a2).trans (f3.trans f')), by omega, ?_⟩
                  have hsk := rd_eq_ok.1 hsk
                  have hx := binop_xor .u8 rfl ks sk
                  dsimp only [Whole.Whole.goOn] at e'
                  rw [turns_succ]
                  cgo [k1, hlt', k2, Int.toNat_natCast, hsk, hx, k3, e']
                · obtain ⟨nc', g1, g2⟩ := hs.rows
                  rw [hn] at g1
                  cases g1
                  have hsk' := rd_eq_ok.1 hsk
                  simp only [Whole.scanRows, hn, hlt, Whole.callReader, hT, ok_bind, ↓reduceIte, hsk, hs1] at hh
                  rw [scanRows_congr T _ (mx' := mx) _ _ _ (fun r hr => if_neg (by omega))] at hh
                  have e' := herr hR ((hs.row hn hlt hsk').1 s1 hs1) rfl (by omega) (by omega) e hh
                  have hx := binop_xor .u8 rfl ks sk
                  dsimp only [Whole.Whole.goOn] at e'
                  rw [turns_succ]
                  cgo [k1, hlt', k2, Int.toNat_natCast, hsk', hx, k3, e']
        · refine ⟨_, _, triv h, fun wh' hh => ?_, fun _ _ h => absurd h hr⟩
          have : ∀ c, Whole.callReader T reader c row wh = .error .badCall := by
            intro c
            unfold Whole.callReader
            cases reader <;> first | rfl | exact absurd rfl hr
          simp [Whole.scanRows, hn, hlt, this, bind, Except.bind] at hh
      · refine ⟨_, _, triv h, fun wh' hh => ?_, fun _ _ _ _ _ e hh => ?_⟩
        · have hh : (.ok wh : Res Whole.Whole) = .ok wh' := by
            rw [← hh]; simp [Whole.scanRows, hn, hlt, bind, Except.bind]
          cases hh
          have hlt' : ¬ (row : Int) < nc.toNat := by omega
          refine ⟨x, .int .u8 row, h1, F, o1, f1, f1.time, ?_⟩
          rw [turns_succ]
          cgo [k1, hlt']
        · simp [Whole.scanRows, hn, hlt, bind, Except.bind] at hh

theorem hw_keyscan (n : Nat) (x : Extra) (wh : Whole.Whole) (h : Hw) (F : Fits x wh.fw) (o : On T r0 wh h) (env : List (L × Val)) :
    ∃ mx hi, Sampled W h.time hi mx ∧ (∀ wh', Whole.keyscan T shipped mx wh = .ok wh' →
      ∃ x' h', Fits x' wh'.fw ∧ On T r0 wh' h' ∧ Fwd h h' ∧ hi ≤ h'.time ∧
        run (hwProg B W) w (n + 22) .asdf_keyscan [] (KH (encMem x wh.fw) env h) =
          .ok .unit (KH (encMem x' wh'.fw) env h')) ∧
      (Readable T → Sane wh.fw → ∀ e, Whole.keyscan T shipped mx wh = .error e →
        run (hwProg B W) w (n + 22) .asdf_keyscan [] (KH (encMem x wh.fw) env h) = .err .oob) := by
  have triv : Sampled W h.time h.time (fun _ => ⟨W.keys h.time, 0, 0⟩) :=
    fun r => ⟨h.time, Nat.le_refl _, Nat.le_refl _, rfl⟩
  cases hg : hookGet wh.fw.hooks HOOK_ROW_SCANNER with
  | error e =>
    refine ⟨_, _, triv, fun wh' hh => ?_, fun _ hs => ?_⟩
    · simp [Whole.keyscan, hg, bind, Except.bind] at hh
    · unfold hookGet at hg
      rw [if_pos (hookValid_iff.mpr (by decide)), rd_some hs.hooks.1] at hg
      cases hg
  | ok reader =>
    cases he : hookExecute wh.fw HOOK_EACH_SCAN with
    | error e =>
      refine ⟨_, _, triv, fun wh' hh => ?_, fun _ hs => ?_⟩
      · simp [Whole.keyscan, hg, he, bind, Except.bind] at hh
      · unfold hookExecute at he
        rw [if_pos (hookValid_iff.mpr (by decide)), rd_some hs.hooks.2] at he
        cases he
    | ok s1 =>
      obtain ⟨v, hv, k1⟩ := c_hook_get F (by decide) hg .i16
      obtain ⟨h1, k1, o1, f1⟩ := moveCall S hw (W := W) o (k1 [] [] none w (n + 13))
      rw [goOn_self] at o1
      have k2 := c_hook_execute F (by decide) he .i16 [(.row_reader, v)] [] none w (n + 8)
      obtain ⟨h2, k2', o2, f2⟩ := moveCall S hw (W := W) o1 k2.2
      obtain ⟨mx, hi, hs, hr, herr⟩ := hw_rows S hw _ _ _ rfl n hv 256 0 w 0 x (wh.goOn T s1) h2 k2.1 o2 rfl (by omega) (by omega)
      refine ⟨mx, hi, fun r => ?_, fun wh' hh => ?_, fun hR hsane e hh => ?_⟩
      · obtain ⟨k, a, b, c⟩ := hs r
        exact ⟨k, Nat.le_trans (f1.trans f2).time a, b, c⟩
      · simp only [Whole.keyscan, hg, he, ok_bind] at hh
        obtain ⟨x', a, h', F', o', f', hi', e⟩ := hr wh' hh
        refine ⟨x', h', F', o', f1.trans (f2.trans f'), hi', ?_⟩
        have hp := (hookIs_ptr hv).1
        have k1 : run (hwProg B W) w (n + 21) .asdf_hook_get [.int .i16 2] (KH (encMem x wh.fw) [] h) = _ := k1
        have k2 : run (hwProg B W) w (n + 21) .asdf_hook_execute [.int .i16 4] (KH (encMem x wh.fw) [(.row_reader, v)] h1) = _ := k2'
        dsimp only [Whole.Whole.goOn] at e
        rw [hw_fn (b := fn_asdf_keyscan) W w (n + 21) (body_whole rfl)]
        unfold fn_asdf_keyscan
        cgo [k1, hp, k2, e]
      · simp only [Whole.keyscan, hg, he, ok_bind] at hh
        have hA := hg
        unfold hookGet at hA
        rw [if_pos (hookValid_iff.mpr (by decide)), rd_some hsane.hooks.1] at hA
        have hB := he
        unfold hookExecute at hB
        rw [if_pos (hookValid_iff.mpr (by decide)), rd_some hsane.hooks.2] at hB
        have hA := (Except.ok.inj hA).symm
        have hB : wh.fw = s1 := Except.ok.inj hB
        have e := herr hR (hB ▸ hsane) hA (by omega) (by omega) e hh
        have hp := (hookIs_ptr hv).1
        have k1 : run (hwProg B W) w (n + 21) .asdf_hook_get [.int .i16 2] (KH (encMem x wh.fw) [] h) = _ := k1
        have k2 : run (hwProg B W) w (n + 21) .asdf_hook_execute [.int .i16 4] (KH (encMem x wh.fw) [(.row_reader, v)] h1) = _ := k2'
        dsimp only [Whole.Whole.goOn] at e
        rw [hw_fn (b := fn_asdf_keyscan) W w (n + 21) (body_whole rfl)]
        unfold fn_asdf_keyscan
        cgo [k1, hp, k2, e]

omit S hw [IsBoard B] in
/-- Looking at the timer flag. -/
theorem poll_on {k : Nat} {wh : Whole.Whole} {h : Hw} (o : On T r0 wh h) :
    On T r0 wh ((h.looked W k).setTick W 0) ∧
    ((h.looked W k).setTick W 0).polls = k ∧
    ((h.looked W k).setTick W 0).found = h.found + (if (h.irq W).tick = 0 then 0 else 1) ∧
    h.time ≤ ((h.looked W k).setTick W 0).time ∧
    h.credit + (if (h.irq W).tick = 0 then 0 else 1) ≤ ((h.looked W k).setTick W 0).credit := by
  refine ⟨⟨?_, ?_, ?_, ?_⟩, ?_, ?_, ?_, ?_⟩
  · simp only [Hw.setTick, irq_regs, Hw.looked, Hw.quiet, o.regs]
  · simp only [Hw.setTick, irq_log, Hw.looked, Hw.quiet, o.log]
  · simp only [Hw.setTick, irq_pol, Hw.looked, Hw.quiet, o.pol]
  · simp only [Hw.setTick, irq_log, irq_regs, Hw.looked, Hw.quiet]
    exact o.story
  · simp only [Hw.setTick, irq_polls, Hw.looked]
  · simp only [Hw.setTick, irq_found, Hw.looked]
    split <;> rfl
  · have h1 := irq_time W h
    have h2 := irq_time W (h.looked W k)
    simp only [Hw.setTick, Hw.looked, Hw.quiet] at h2 ⊢
    omega
  · have h1 := irq_credit W h
    have h2 : (h.irq W).ints ≤ ((h.looked W k).irq W).ints := by
      have e : (h.irq W).ints = (h.looked W k).ints := rfl
      rw [e]
      generalize (h.looked W k) = g
      unfold Hw.irq
      split
      · exact Nat.le_succ _
      · exact Nat.le_refl _
    unfold Hw.credit at h1 ⊢
    simp only [Hw.setTick, ↓reduceIte]
    split at h1 <;> simp_all <;> omega

theorem hw_loop (L3 : Expr × Expr × Stmt) (hl : fn_main.body.loops[0]? = some L3) (n : Nat) :
    ∀ (p m : Nat) (x : Extra) (wh : Whole.Whole) (h : Hw), Fits x wh.fw → On T r0 wh h → h.polls = p → p < m →
      ∃ mxs hi, SampledAll W h.time hi mxs ∧ ∀ wh', mxs.foldlM (Whole.pass T shipped) wh = .ok wh' →
        ∃ x' h', Fits x' wh'.fw ∧ On T r0 wh' h' ∧ h'.polls = 0 ∧ h'.found = h.found + mxs.length ∧ h.credit + mxs.length ≤ h'.credit ∧ hi ≤ h'.time ∧
          turns (evalE (run (hwProg B W) w (n + 22)) L3.1) (exec (run (hwProg B W) w (n + 22)) w L3.2.2)
            (evalE (run (hwProg B W) w (n + 22)) L3.2.1) m (KH (encMem x wh.fw) [] h) =
          .stop (KH (encMem x' wh'.fw) [] h') := by
  intro p
  have triv : ∀ h : Hw, SampledAll W h.time h.time [fun _ => ⟨W.keys h.time, 0, 0⟩] :=
    fun h => ⟨h.time, fun r => ⟨h.time, Nat.le_refl _, Nat.le_refl _, rfl⟩, Nat.le_refl _⟩
  have more : ∀ {a b c : Nat} {mxs}, a ≤ b → SampledAll W b c mxs → SampledAll W a c mxs := by
    intro a b c mxs hab hs
    cases mxs with
    | nil => exact Nat.le_trans hab hs
    | cons mx mxs =>
      obtain ⟨mid, h1, h2⟩ := hs
      refine ⟨mid, fun r => ?_, h2⟩
      obtain ⟨k, h3, h4, h5⟩ := h1 r
      exact ⟨k, Nat.le_trans hab h3, h4, h5⟩
  induction p with
  | zero =>
    intro m x wh h F o hp hm
    obtain ⟨m, rfl⟩ : ∃ k, m = k + 1 := ⟨m - 1, by omega⟩
    refine ⟨[], h.time, Nat.le_refl _, fun wh' hh => ?_⟩
    cases hh
    refine ⟨x, h.irq W, F, ⟨?_, ?_, ?_, ?_⟩, ?_, ?_, ?_, irq_time W h, ?_⟩
    · rw [irq_regs, o.regs]
    · rw [irq_log, o.log]
    · rw [irq_pol, o.pol]
    · rw [irq_log, irq_regs]; exact o.story
    · rw [irq_polls, hp]
    · rw [irq_found]
      rfl
    · simpa using irq_credit W h
    · cases hl
      rw [turns_succ]
      have k0 := tick_stop (B := B) W (encMem x wh.fw) [] h w (n + 18) hp
      cgo [k0]
  | succ p ih =>
    intro m x wh h F o hp hm
    obtain ⟨m, rfl⟩ : ∃ k, m = k + 1 := ⟨m - 1, by omega⟩
    have k0 := tick_ok (B := B) W (encMem x wh.fw) [] h w (n + 18) hp
    obtain ⟨o1, p1, d1, t1, c1⟩ := poll_on (W := W) (k := p) o
    generalize ((h.looked W p).setTick W 0) = h1 at k0 o1 p1 d1 t1 c1
    by_cases ht : (h.irq W).tick = 0
    · obtain ⟨mxs, hi, hs, hr⟩ := ih m x wh h1 F o1 p1 (by omega)
      refine ⟨mxs, hi, more t1 hs, fun wh' hh => ?_⟩
      obtain ⟨x', h', F', o', p', d', c', t', e⟩ := hr wh' hh
      refine ⟨x', h', F', o', p', ?_, ?_, t', ?_⟩
      · rw [d', d1, if_pos ht]
        omega
      · rw [if_pos ht] at c1
        omega
      · cases hl
        rw [turns_succ]
        rw [ht] at k0
        cgo [k0, e]
    · have ht' : (((h.irq W).tick.toNat : Nat) : Int) ≠ 0 := by
        intro hz
        apply ht
        apply UInt8.toNat_inj.mp
        rw [Int.ofNat_eq_zero.mp hz]
        rfl
      rw [if_neg ht] at c1 d1
      cases hop : outputPhase wh.fw with
      | error e =>
        refine ⟨_, _, triv h, fun wh' hh => ?_⟩
        simp [Whole.pass, hop, bind, Except.bind] at hh
      | ok s3 =>
        have hop' := hop
        simp only [outputPhase, bind_eq_ok] at hop'
        obtain ⟨⟨code, s2⟩, h2, h3⟩ := hop'
        have k2 := c_next_code F h2 [] [] none w (n + 13)
        have F2 := k2.1
        obtain ⟨g2, es2, k2, htr2, a2⟩ := moveCall' S hw (W := W) o1.pol k2.2
        have hlt : (code.toNat : Int) < 160 ↔ code < INVALID_CODE := by
          rw [UInt8.lt_iff_toNat_lt]
          have : INVALID_CODE.toNat = 160 := rfl
          omega
        have k2 : run (hwProg B W) w (n + 22) .asdf_next_code [] (KH (encMem x wh.fw) [] h1) = _ := k2
        have tail : ∀ g, Fits x s3 → On T r0 (wh.goOn T s3) g → Fwd h1 g →
            ∃ mxs hi, SampledAll W h.time hi mxs ∧ ∀ wh', mxs.foldlM (Whole.pass T shipped) wh = .ok wh' →
              ∃ x' h' x4 s4 g4, Fits x' wh'.fw ∧ On T r0 wh' h' ∧ h'.polls = 0 ∧ h'.found = h.found + mxs.length ∧ h.credit + mxs.length ≤ h'.credit ∧ hi ≤ h'.time ∧
                run (hwProg B W) w (n + 22) .asdf_keyscan [] (KH (encMem x s3) [(.code, .int .u8 code.toNat)] g) =
                  .ok .unit (KH (encMem x4 s4) [(.code, .int .u8 code.toNat)] g4) ∧
                turns (evalE (run (hwProg B W) w (n + 22)) L3.1) (exec (run (hwProg B W) w (n + 22)) w L3.2.2)
                  (evalE (run (hwProg B W) w (n + 22)) L3.2.1) m (KH (encMem x4 s4) [] g4) =
                .stop (KH (encMem x' wh'.fw) [] h') := by
          intro g F3 o3 f3
          obtain ⟨mx, hi, hs, hr, _⟩ := hw_keyscan S hw (W := W) n x (wh.goOn T s3) g F3 o3 [(.code, .int .u8 code.toNat)]
          have hs' : Sampled W h.time hi mx := fun r => by
            obtain ⟨k, a, b, d⟩ := hs r
            exact ⟨k, Nat.le_trans t1 (Nat.le_trans f3.time a), b, d⟩
          cases hk : Whole.keyscan T shipped mx (wh.goOn T s3) with
          | error e =>
            refine ⟨[mx], hi, ⟨hi, hs', Nat.le_refl _⟩, fun wh' hh => ?_⟩
            simp [Whole.pass, hop, hk, bind, Except.bind] at hh
          | ok wh4 =>
            obtain ⟨x4, g4, F4, o4, f4, hi4, k4⟩ := hr wh4 hk
            obtain ⟨mxs, hi', hs2, hr2⟩ := ih m x4 wh4 g4 F4 o4 (f4.polls.trans (f3.polls.trans p1)) (by omega)
            refine ⟨mx :: mxs, hi', ⟨hi, hs', more hi4 hs2⟩, fun wh' hh => ?_⟩
            simp only [List.foldlM_cons, Whole.pass, hop, hk, ok_bind] at hh
            obtain ⟨x', h', F', o', p', d', c', t', e⟩ := hr2 wh' hh
            refine ⟨x', h', x4, wh4.fw, g4, F', o', p', ?_, ?_, t', k4, e⟩
            · rw [d', f4.found, f3.found, d1, List.length_cons]
              omega
            have c3 := (f3.trans f4).credit
            simp only [List.length_cons]
            omega
        by_cases hc : code < INVALID_CODE
        · simp only [hc, ↓reduceIte, callOutput, bind_eq_ok] at h3
          obtain ⟨f, hf, h3⟩ := h3
          obtain ⟨v, hv, kf⟩ := c_hook_get F2 (by decide) hf .i16
          have pol2 : g2.polarity = 0 := a2.polarity.trans o1.pol
          obtain ⟨g3, es3, kf, htr3, a3⟩ := moveCall' S hw (W := W) pol2 (kf [(.code, .int .u8 code.toNat)] [] none w (n + 14))
          have kf : run (hwProg B W) w (n + 22) .asdf_hook_get [.int .i16 3] (KH (encMem x s2) [(.code, .int .u8 code.toNat)] g2) = _ := kf
          split at h3
          · cases h3
            cases hv
            have F3 := fits_emit F2 (.send code)
            obtain ⟨g4, k4, a4⟩ := S.event W (encMem x s2) [(.output_function, .fn .asdf_arch_send_code), (.code, .int .u8 code.toNat)] g3 w (n + 16)
              .asdf_arch_send_code [.int .u8 code.toNat] (.send code) (by simp only [callEvent, ofInt_u8]) (a3.polarity.trans pol2) hw
            have k4 : run (hwProg B W) w (n + 22) .asdf_arch_send_code [.int .u8 code.toNat]
              (KH (encMem x s2) [(.output_function, .fn .asdf_arch_send_code), (.code, .int .u8 code.toNat)] g3) = _ := k4
            have htr : (s2.emit (.send code)).dev.trace = wh.fw.dev.trace ++ (es2 ++ es3 ++ [.send code]) := by
              show s2.dev.trace ++ [.send code] = _
              rw [htr3, htr2]
              simp only [List.append_assoc]
            have a := (a2.trans a3).trans a4
            obtain ⟨mxs, hi, hs, hr⟩ := tail g4 F3 (on_goOn o1 htr (a.cast (by simp))) (Fwd.of a)
            refine ⟨mxs, hi, hs, fun wh' hh => ?_⟩
            obtain ⟨x', h', x5, s5, g5, F', o', p', d', c', t', k5, e⟩ := hr wh' hh
            refine ⟨x', h', F', o', p', d', c', t', ?_⟩
            have k5 : run (hwProg B W) w (n + 22) .asdf_keyscan [] (KH (encMem x s2) [(.code, .int .u8 code.toNat)] g4) = _ := k5
            cases hl
            rw [turns_succ]
            cgo [k0, ht', k2, hlt, hc, kf, k4, k5, e]
          · cases h3
        · simp only [hc, ↓reduceIte] at h3
          cases h3
          obtain ⟨mxs, hi, hs, hr⟩ := tail g2 F2 (on_goOn o1 htr2 a2) (Fwd.of a2)
          refine ⟨mxs, hi, hs, fun wh' hh => ?_⟩
          obtain ⟨x', h', x5, s5, g5, F', o', p', d', c', t', k5, e⟩ := hr wh' hh
          refine ⟨x', h', F', o', p', d', c', t', ?_⟩
          cases hl
          rw [turns_succ]
          cgo [k0, ht', k2, hlt, hc, k5, e]

theorem hw_main (r0 : Regs) (sr : UInt8) (polls n : Nat) (hp : polls < w) :
    ∃ mxs hi, SampledAll W 0 hi mxs ∧ ∀ wh, Whole.life T shipped r0 mxs = .ok wh →
      ∃ x h, Fits x wh.fw ∧ On T r0 wh h ∧ h.polls = 0 ∧ h.found = mxs.length ∧ mxs.length ≤ h.ints ∧ hi ≤ h.time ∧
        run (hwProg B W) w (n + 23) .main [] (KH mem0 [] (Hw.reset r0 sr polls)) = .stop (KH (encMem x wh.fw) [] h) := by
  cases hb : boot shipped with
  | error e =>
    refine ⟨[], 0, Nat.le_refl _, fun wh hh => ?_⟩
    simp [Whole.life, Whole.powerUp, hb, bind, Except.bind] at hh
  | ok s0 =>
    obtain ⟨x1, F1, k1⟩ := c_asdf_init (w := w) fits_zero hb (by omega) (n + 4)
    have o0 : On T r0 ⟨State.zero, r0, []⟩ (Hw.reset r0 sr polls) := ⟨rfl, rfl, rfl, .reset⟩
    have k1 : run prog w (n + 16) .asdf_init [] (K x0 (⟨State.zero, r0, []⟩ : Whole.Whole).fw [] [] none) = _ := k1 [] [] none
    obtain ⟨h1, k1, o1, f1⟩ := moveCall S hw (W := W) o0 k1
    obtain ⟨mxs, hi, hs, hr⟩ := hw_loop S hw (W := W) _ rfl n polls w x1 _ h1 F1 o1 f1.polls hp
    refine ⟨mxs, hi, ?_, fun wh hh => ?_⟩
    · cases mxs with
      | nil => exact Nat.zero_le _
      | cons mx mxs =>
        obtain ⟨mid, a, b⟩ := hs
        refine ⟨mid, fun r => ?_, b⟩
        obtain ⟨k, _, c, d⟩ := a r
        exact ⟨k, Nat.zero_le _, c, d⟩
    · simp only [Whole.life, Whole.powerUp, hb, ok_bind] at hh
      obtain ⟨x, h, F, o, p, d, c, t, e⟩ := hr wh hh
      refine ⟨x, h, F, o, p, ?_, ?_, t, ?_⟩
      · rw [d, f1.found]
        exact Nat.zero_add _
      · have c0 : (Hw.reset r0 sr polls).credit = 0 := rfl
        have c1 := f1.credit
        rw [c0] at c1
        have : h.credit ≤ h.ints := by
          unfold Hw.credit
          split <;> omega
        omega
      · rw [hw_fn (b := fn_main) W w (n + 22) (body_whole rfl), mem0_eq]
        have k1 : run (hwProg B W) w (n + 22) .asdf_init [] (KH (encMem x0 State.zero) [] (Hw.reset r0 sr polls)) = _ := k1
        have e : _ = Out.stop (KH (encMem x wh.fw) [] h) := e
        dsimp only [Whole.Whole.goOn] at e
        unfold fn_main
        cgo [k1, e]

end Asdf.C
