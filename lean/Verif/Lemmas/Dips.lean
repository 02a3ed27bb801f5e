import Verif.Lemmas.Agree
import Verif.Lemmas.Switches

/-! # The strobe polarity and autorepeat switches, in terms of the readings -/

namespace Asdf

open Spec

/-! ## Strobe polarity -/

theorem idle_keep (t es : List Event) (h : ∀ e ∈ es, ∀ o, idleStep o e = o) :
    idleLevel (t ++ es) = idleLevel t := by
  unfold idleLevel
  rw [List.foldl_append]
  generalize t.foldl idleStep none = o
  induction es generalizing o with
  | nil => rfl
  | cons e es ih =>
    rw [List.foldl_cons, h e List.mem_cons_self]
    exact ih (fun x hx => h x (List.mem_cons_of_mem _ hx)) o

theorem act_keeps (a : Outputs) (v : Nat) (fn : VFun) :
    ∀ e ∈ (a.act v fn).2, ∀ o, idleStep o e = o := by
  have hd : ∀ (a : Outputs) (g : UInt8 → UInt8), ∀ e ∈ (a.drive v g).2, ∀ o, idleStep o e = o := by
    intro a g e he o
    unfold Outputs.drive at he
    obtain ⟨p, _, rfl⟩ := List.mem_map.mp he
    rfl
  have hp : ∀ d : Event, (∀ o, idleStep o d = o) → ∀ e ∈ (a.pulse v d).2, ∀ o, idleStep o e = o := by
    intro d hd' e he o
    unfold Outputs.pulse at he
    simp only [List.mem_append, List.mem_singleton] at he
    rcases he with (he | rfl) | he
    · exact hd _ _ e he o
    · exact hd' o
    · exact hd _ _ e he o
  cases fn with
  | nofunc => intro e he; cases he
  | setHi => exact hd _ _
  | setLo => exact hd _ _
  | toggle => exact hd _ _
  | pulseShort => exact hp .delayShort (fun _ => rfl)
  | pulseLong => exact hp .delayLong (fun _ => rfl)

theorem apply_idle (k : Kb) (v : Nat) (fn : VFun) :
    idleLevel (k.apply v fn).trace = idleLevel k.trace :=
  idle_keep _ _ (act_keeps _ _ _)

theorem setShift_idle (k : Kb) (x y : Bool) :
    idleLevel (k.setShift x y).trace = idleLevel k.trace :=
  apply_idle { k with held := x, locked := y } _ _

theorem flipCaps_idle (k : Kb) : idleLevel k.flipCaps.trace = idleLevel k.trace :=
  apply_idle { k with caps := !k.caps } _ _

theorem setup_idle (cmds : List SetupCmd) (k : Kb) (h : SetupCmd.negStrobe ∉ cmds) :
    idleLevel (cmds.foldl Kb.setup1 k).trace = idleLevel k.trace := by
  induction cmds generalizing k with
  | nil => rfl
  | cons c cmds ih =>
    rw [List.foldl_cons, ih _ (fun hm => h (List.mem_cons_of_mem _ hm))]
    cases c with
    | capsActivate => exact flipCaps_idle k
    | negStrobe => exact absurd List.mem_cons_self h
    | _ => rfl

theorem install_idle (cfg : Config) (k : Kb) (i : UInt8)
    (h : SetupCmd.negStrobe ∉ cfg.setup i) : idleLevel (k.install cfg i).trace = some false := by
  unfold Kb.install
  rw [setup_idle _ _ h]
  exact idleLevel_snoc _ _

theorem select_idle_kb (cfg : Config) (k : Kb) (i : UInt8)
    (h : cfg.valid i = true → SetupCmd.negStrobe ∉ cfg.setup i) :
    idleLevel (k.select cfg i).trace =
      if i ≠ k.map ∧ cfg.valid i = true then some false else idleLevel k.trace := by
  unfold Kb.select
  by_cases hi : i ≠ k.map ∧ cfg.valid i = true
  · rw [if_pos hi, if_pos hi]; exact install_idle cfg k i (h hi.2)
  · rw [if_neg hi, if_neg hi]

theorem function_idle (cfg : Config) (k : Kb) (n : Nat) :
    idleLevel (k.function cfg n).trace = idleLevel k.trace := by
  unfold Kb.function
  split <;> rfl

/-- What an accepted press or release of a key with action `a` does to the idle level. -/
def idleAct (cfg : Config) (map : UInt8) (p : Bool) (o : Option Bool) : Action → Option Bool
  | .strobeSelect => some (!p)
  | .mapsel b =>
    let i := if p then map ||| b else map &&& ~~~b
    if i ≠ map ∧ cfg.valid i = true then some false else o
  | _ => o

theorem press_idle {cfg : Config} (hN : ∀ i, cfg.valid i = true → SetupCmd.negStrobe ∉ cfg.setup i)
    (k : Kb) (code : Code) :
    idleLevel (k.press cfg code).trace =
      idleAct cfg k.map true (idleLevel k.trace) (decodeAction code) := by
  by_cases hc : code.toNat ≤ 0xA0
  · rw [press_code cfg k code hc]
    rcases decode_le hc with e | e <;> rw [e] <;> rfl
  · rw [press_act cfg k code (by omega)]
    cases decodeAction code with
    | shift => exact setShift_idle k _ _
    | shiftlockOn => exact setShift_idle k _ _
    | shiftlockToggle => exact setShift_idle k _ _
    | caps => exact flipCaps_idle k
    | hereIs => exact function_idle cfg k _
    | mapsel b => exact select_idle_kb cfg k _ (hN _)
    | strobeSelect => exact idleLevel_snoc _ _
    | virt v => exact apply_idle k _ _
    | fn n =>
      show idleLevel (if n ≤ 10 then k.function cfg n else k).trace = _
      split
      · exact function_idle cfg k _
      · rfl
    | _ => rfl

theorem release_idle {cfg : Config} (hN : ∀ i, cfg.valid i = true → SetupCmd.negStrobe ∉ cfg.setup i)
    (k : Kb) (code : Code) :
    idleLevel (k.release cfg code).trace =
      idleAct cfg k.map false (idleLevel k.trace) (decodeAction code) := by
  by_cases hc : code.toNat ≤ 0xA0
  · rw [release_code cfg k code hc]
    rcases decode_le hc with e | e <;> rw [e] <;> rfl
  · rw [release_act cfg k code (by omega)]
    cases decodeAction code with
    | shift => exact setShift_idle k _ _
    | mapsel b => exact select_idle_kb cfg k _ (hN _)
    | strobeSelect => exact idleLevel_snoc _ _
    | _ => rfl

theorem four_setup : ∀ i, fourMaps.valid i = true → SetupCmd.negStrobe ∉ fourMaps.setup i := by
  have h : ∀ n, n < 256 → fourMaps.valid (UInt8.ofNat n) = true →
      SetupCmd.negStrobe ∉ fourMaps.setup (UInt8.ofNat n) := by decide +kernel
  intro i hi
  have := h i.toNat i.toNat_lt
  rw [UInt8.ofNat_toNat] at this
  exact this hi

theorem four_switches : placed fourMaps openLayout .strobeSelect [(8, 6)] = true ∧
    placed fourMaps openLayout .autorepeatSelect [(8, 7)] = true := by decide +kernel

/-- What a sample of a key does, up to debouncing. -/
theorem key_effect (cfg : Config) (L : Layout) (k : Kb) (p : Bool) (r c : Nat) :
    (((k.deb r c).step p).on ≠ (k.deb r c).on ∧ ((k.deb r c).step p).on = p ∧
      k.key cfg L p r c = if p then (stepDeb k p r c).press cfg (k.code cfg L r c)
        else (stepDeb k p r c).release cfg (k.code cfg L r c)) ∨
    (((k.deb r c).step p).on = (k.deb r c).on ∧ (k.key cfg L p r c).trace = k.trace ∧
      (k.key cfg L p r c).rpt.rest = k.rpt.rest) := by
  unfold Kb.key
  by_cases hne : p ≠ (k.deb r c).on
  · rw [if_pos hne]
    by_cases hl : (k.deb r c).left ≤ 1
    · left
      have hst : ((k.deb r c).step p).on = p := by
        unfold Deb.step; rw [if_neg hne, if_pos hl]
      rw [if_pos hl, hst]
      exact ⟨hne, rfl, rfl⟩
    · right
      rw [if_neg hl]
      refine ⟨?_, rfl, rfl⟩
      unfold Deb.step; rw [if_neg hne, if_neg hl]
  · right
    rw [if_neg hne]
    refine ⟨?_, ?_⟩
    · unfold Deb.step; rw [if_pos (Classical.not_not.mp hne)]
    · split
      · split
        · refine ⟨rfl, ?_⟩
          show (if _ then _ else _ : Rpt).rest = _
          split <;> rfl
        · exact ⟨rfl, rfl⟩
      · exact ⟨rfl, rfl⟩

theorem idle_key {k : Kb} (h : Follows k) {r c : Nat} (hr : r < 9) (hc : c < 8) (p : Bool) :
    idleLevel (k.key fourMaps openLayout p r c).trace =
      if ((k.deb r c).step p).on = (k.deb r c).on then idleLevel k.trace
      else if r = 8 ∧ (c = 0 ∨ c = 1) then some false
      else if r = 8 ∧ c = 6 then some (!((k.deb r c).step p).on)
      else idleLevel k.trace := by
  have hm : k.map ∈ openLayout.maps := by rw [h]; exact twoBits_mem _ _
  rcases key_effect fourMaps openLayout k p r c with ⟨h1, h2, h3⟩ | ⟨h1, h2, _⟩
  · rw [if_neg h1, h3]
    have hi : idleLevel (if p then (stepDeb k p r c).press fourMaps (k.code fourMaps openLayout r c)
        else (stepDeb k p r c).release fourMaps (k.code fourMaps openLayout r c)).trace =
        idleAct fourMaps k.map p (idleLevel k.trace)
          (decodeAction (k.code fourMaps openLayout r c)) := by
      cases p with
      | true => exact press_idle four_setup _ _
      | false => exact release_idle four_setup _ _
    rw [hi]
    obtain ⟨P1, P2, P4, P8⟩ := four_placed
    have i1 := kb_placed P1 hm (r := r) (c := c) hr hc
    have i2 := kb_placed P2 hm (r := r) (c := c) hr hc
    have i4 := kb_placed P4 hm (r := r) (c := c) hr hc
    have i8 := kb_placed P8 hm (r := r) (c := c) hr hc
    have i6 := kb_placed four_switches.1 hm (r := r) (c := c) hr hc
    cases hd : decodeAction (k.code fourMaps openLayout r c) with
    | mapsel b =>
      rw [hd] at i1 i2 i4 i8
      rw [h2] at h1
      rcases decode_mapsel hd with rfl | rfl | rfl | rfl
      · obtain ⟨rfl, rfl⟩ : r = 8 ∧ c = 0 := by simpa using i1
        have a1 : (8 : Nat) = 8 ∧ ((0 : Nat) = 0 ∨ (0 : Nat) = 1) := ⟨rfl, Or.inl rfl⟩
        rw [if_pos a1, h]
        have : ∀ p x y : Bool, p ≠ x → ∀ o,
            idleAct fourMaps (twoBits x y) p o (.mapsel 1) = some false := by
          intro p x y hp o
          cases p <;> cases x <;> cases y <;> first | exact absurd rfl hp | rfl
        exact this _ _ _ h1 _
      · obtain ⟨rfl, rfl⟩ : r = 8 ∧ c = 1 := by simpa using i2
        have a1 : (8 : Nat) = 8 ∧ ((1 : Nat) = 0 ∨ (1 : Nat) = 1) := ⟨rfl, Or.inr rfl⟩
        rw [if_pos a1, h]
        have : ∀ p x y : Bool, p ≠ y → ∀ o,
            idleAct fourMaps (twoBits x y) p o (.mapsel 2) = some false := by
          intro p x y hp o
          cases p <;> cases x <;> cases y <;> first | exact absurd rfl hp | rfl
        exact this _ _ _ h1 _
      · obtain ⟨rfl, rfl⟩ : r = 8 ∧ c = 2 := by simpa using i4
        rw [if_neg (by decide), if_neg (by decide), h]
        have : ∀ p x y : Bool, ∀ o, idleAct fourMaps (twoBits x y) p o (.mapsel 4) = o := by
          intro p x y o
          cases p <;> cases x <;> cases y <;> rfl
        exact this _ _ _ _
      · obtain ⟨rfl, rfl⟩ : r = 8 ∧ c = 3 := by simpa using i8
        rw [if_neg (by decide), if_neg (by decide), h]
        have : ∀ p x y : Bool, ∀ o, idleAct fourMaps (twoBits x y) p o (.mapsel 8) = o := by
          intro p x y o
          cases p <;> cases x <;> cases y <;> rfl
        exact this _ _ _ _
    | strobeSelect =>
      rw [hd] at i6
      obtain ⟨rfl, rfl⟩ : r = 8 ∧ c = 6 := by simpa using i6
      have a1 : (8 : Nat) = 8 ∧ (6 : Nat) = 6 := ⟨rfl, rfl⟩
      rw [if_neg (by decide), if_pos a1, h2]
      rfl
    | _ =>
      rw [hd] at i1 i2 i6
      have n1 : ¬ (r = 8 ∧ (c = 0 ∨ c = 1)) := by
        rintro ⟨rfl, rfl | rfl⟩
        · have := i1.mpr (by simp); cases this
        · have := i2.mpr (by simp); cases this
      have n2 : ¬ (r = 8 ∧ c = 6) := by
        rintro ⟨rfl, rfl⟩
        have := i6.mpr (by simp); cases this
      rw [if_neg n1, if_neg n2]
      rfl
  · rw [if_pos h1, h2]

theorem output_idle (k : Kb) : idleLevel k.output.trace = idleLevel k.trace := by
  unfold Kb.output
  split
  · exact idle_keep _ _ (by simp; exact ⟨fun _ => rfl, fun _ => rfl⟩)
  · split
    · apply idle_keep
      intro e he o
      split at he
      · rw [List.mem_singleton.mp he]; rfl
      · cases he
    · rfl

theorem idle_keys_other (inp : Input) (xs : List (Nat × Nat))
    (hx : ∀ x ∈ xs, x.1 < 9 ∧ x.2 < 8 ∧ x ≠ (8, 0) ∧ x ≠ (8, 1) ∧ x ≠ (8, 6)) {k : Kb}
    (h : Follows k) : idleLevel (keysKb inp xs k).trace = idleLevel k.trace := by
  induction xs generalizing k with
  | nil => rfl
  | cons x xs ih =>
    obtain ⟨h1, h2, h3, h4, h5⟩ := hx x List.mem_cons_self
    obtain ⟨r, c⟩ := x
    have h0 : ¬ (r = 8 ∧ (c = 0 ∨ c = 1)) := by
      rintro ⟨rfl, rfl | rfl⟩
      · exact h3 rfl
      · exact h4 rfl
    have h6 : ¬ (r = 8 ∧ c = 6) := by
      rintro ⟨rfl, rfl⟩
      exact h5 rfl
    show idleLevel (keysKb inp xs _).trace = _
    rw [ih (fun y hy => hx y (List.mem_cons_of_mem _ hy)) (h.key h1 h2 _), idle_key h h1 h2,
      if_neg h0, if_neg h6]
    split <;> rfl

theorem keysKb_append (inp : Input) (xs ys : List (Nat × Nat)) (k : Kb) :
    keysKb inp (xs ++ ys) k = keysKb inp ys (keysKb inp xs k) := by
  unfold keysKb
  rw [List.foldl_append]

/-- The order in which the switches are handled in a scan. -/
theorem keys_split6 : keysOf openLayout =
      (keysOf openLayout).take 64 ++ ([(8, 0)] ++ ([(8, 1)] ++
        ([(8, 2), (8, 3), (8, 4), (8, 5)] ++ ([(8, 6)] ++ [(8, 7)])))) ∧
    (∀ x ∈ (keysOf openLayout).take 64,
      x.1 < 9 ∧ x.2 < 8 ∧ x ≠ (8, 0) ∧ x ≠ (8, 1) ∧ x ≠ (8, 6)) := by decide +kernel

theorem take64_other : ((keysOf openLayout).take 64).Nodup ∧
    ∀ c, c < 8 → (8, c) ∉ (keysOf openLayout).take 64 := by decide +kernel

/-- The idle level after a pass: a change of the strobe switch decides, otherwise a
change of the keymap switches selects positive polarity. -/
theorem idle_pass (inp : Input) {k : Kb} (h : Follows k) :
    idleLevel (k.pass fourMaps openLayout inp).trace =
      if ((k.deb 8 6).step (sample inp 8 6)).on ≠ (k.deb 8 6).on then
        some (!((k.deb 8 6).step (sample inp 8 6)).on)
      else if ((k.deb 8 0).step (sample inp 8 0)).on ≠ (k.deb 8 0).on ∨
        ((k.deb 8 1).step (sample inp 8 1)).on ≠ (k.deb 8 1).on then some false
      else idleLevel k.trace := by
  show idleLevel (keysKb inp (keysOf openLayout) k.output).trace = _
  rw [keys_split6.1]
  simp only [keysKb_append]
  obtain ⟨hn, hnot⟩ := take64_other
  have hA := keys_split6.2
  generalize hk0 : keysKb inp ((keysOf openLayout).take 64) k.output = k0
  have f0 : Follows k0 := hk0 ▸ follows_keys inp _ (fun x hx => ⟨(hA x hx).1, (hA x hx).2.1⟩) h.output
  have t0 : idleLevel k0.trace = idleLevel k.trace := by
    rw [← hk0, idle_keys_other inp _ hA h.output, output_idle]
  have d0 : ∀ c, c < 8 → k0.deb 8 c = k.deb 8 c := by
    intro c hc
    rw [← hk0, keysKb_deb inp _ hn, if_neg (hnot c hc), output_deb]
  generalize hk1 : keysKb inp [(8, 0)] k0 = k1
  have f1 : Follows k1 := hk1 ▸ f0.key (by decide) (by decide) _
  have t1 := idle_key f0 (r := 8) (c := 0) (by decide) (by decide) (sample inp 8 0)
  rw [show k0.key fourMaps openLayout (sample inp 8 0) 8 0 = k1 from hk1] at t1
  have d1 : ∀ c, c < 8 → c ≠ 0 → k1.deb 8 c = k.deb 8 c := by
    intro c hc h0
    rw [← hk1, keysKb_deb inp _ (by simp), if_neg (by simpa using h0), d0 c hc]
  generalize hk2 : keysKb inp [(8, 1)] k1 = k2
  have f2 : Follows k2 := hk2 ▸ f1.key (by decide) (by decide) _
  have t2 := idle_key f1 (r := 8) (c := 1) (by decide) (by decide) (sample inp 8 1)
  rw [show k1.key fourMaps openLayout (sample inp 8 1) 8 1 = k2 from hk2] at t2
  have d2 : ∀ c, c < 8 → c ≠ 0 → c ≠ 1 → k2.deb 8 c = k.deb 8 c := by
    intro c hc h0 h1
    rw [← hk2, keysKb_deb inp _ (by simp), if_neg (by simpa using h1), d1 c hc h0]
  generalize hk3 : keysKb inp [(8, 2), (8, 3), (8, 4), (8, 5)] k2 = k3
  have f3 : Follows k3 := hk3 ▸ follows_keys inp _ (by decide) f2
  have t3 : idleLevel k3.trace = idleLevel k2.trace := by
    rw [← hk3]; exact idle_keys_other inp _ (by decide) f2
  have d3 : k3.deb 8 6 = k.deb 8 6 := by
    rw [← hk3, keysKb_deb inp _ (by decide), if_neg (by decide),
      d2 6 (by decide) (by decide) (by decide)]
  generalize hk4 : keysKb inp [(8, 6)] k3 = k4
  have f4 : Follows k4 := hk4 ▸ f3.key (by decide) (by decide) _
  have t4 := idle_key f3 (r := 8) (c := 6) (by decide) (by decide) (sample inp 8 6)
  rw [show k3.key fourMaps openLayout (sample inp 8 6) 8 6 = k4 from hk4] at t4
  rw [idle_keys_other inp _ (by decide) f4, t4, t3, t2, t1, t0, d3,
    d1 1 (by decide) (by decide), d0 0 (by decide)]
  have a0 : (8 : Nat) = 8 ∧ ((0 : Nat) = 0 ∨ (0 : Nat) = 1) := ⟨rfl, Or.inl rfl⟩
  have a1 : (8 : Nat) = 8 ∧ ((1 : Nat) = 0 ∨ (1 : Nat) = 1) := ⟨rfl, Or.inr rfl⟩
  have a6 : ¬ ((8 : Nat) = 8 ∧ ((6 : Nat) = 0 ∨ (6 : Nat) = 1)) := by decide
  have b6 : (8 : Nat) = 8 ∧ (6 : Nat) = 6 := ⟨rfl, rfl⟩
  rw [if_pos a0, if_pos a1, if_neg a6, if_pos b6]
  by_cases c6 : ((k.deb 8 6).step (sample inp 8 6)).on = (k.deb 8 6).on
  · rw [if_pos c6, if_neg (not_not_intro c6)]
    by_cases c1 : ((k.deb 8 1).step (sample inp 8 1)).on = (k.deb 8 1).on
    · rw [if_pos c1]
      by_cases c0 : ((k.deb 8 0).step (sample inp 8 0)).on = (k.deb 8 0).on
      · rw [if_pos c0, if_neg (fun hh => hh.elim (fun x => x c0) (fun x => x c1))]
      · rw [if_neg c0, if_pos (Or.inl c0)]
    · rw [if_neg c1, if_pos (Or.inr c1)]
  · rw [if_neg c6, if_pos c6]

/-! ## Autorepeat -/

/-- What an accepted press or release of a key with action `a` does to the autorepeat
delay. -/
def restAct (p : Bool) (n : Nat) : Action → Nat
  | .autorepeatSelect => if p then 525 else 0
  | _ => n

theorem auto_rest (r : Rpt) (on : Bool) : (r.auto on).rest = if on then 525 else 0 := by
  unfold Rpt.auto
  dsimp only
  split <;> rfl

theorem select_rest (cfg : Config) (k : Kb) (i : UInt8) :
    (k.select cfg i).rpt.rest = k.rpt.rest := by
  unfold Kb.select
  split
  · exact congrArg Rpt.rest (setup_rest (cfg.setup i) _).rpt
  · rfl

theorem function_rest (cfg : Config) (k : Kb) (n : Nat) :
    (k.function cfg n).rpt.rest = k.rpt.rest := by
  unfold Kb.function
  split <;> rfl

theorem press_rest (cfg : Config) (k : Kb) (code : Code) :
    (k.press cfg code).rpt.rest = restAct true k.rpt.rest (decodeAction code) := by
  by_cases hc : code.toNat ≤ 0xA0
  · rw [press_code cfg k code hc]
    have : (k.type code).rpt.rest = k.rpt.rest := by
      show (if _ then _ else _ : Rpt).rest = _
      split <;> rfl
    rw [this]
    rcases decode_le hc with e | e <;> rw [e] <;> rfl
  · rw [press_act cfg k code (by omega)]
    cases decodeAction code with
    | «repeat» =>
      show (k.rpt.press).rest = _
      unfold Rpt.press
      split <;> rfl
    | hereIs => exact function_rest cfg k _
    | mapsel b => exact select_rest cfg k _
    | autorepeatSelect => exact auto_rest _ _
    | fn n =>
      show (if n ≤ 10 then k.function cfg n else k).rpt.rest = _
      split
      · exact function_rest cfg k _
      · rfl
    | _ => rfl

theorem release_rest (cfg : Config) (k : Kb) (code : Code) :
    (k.release cfg code).rpt.rest = restAct false k.rpt.rest (decodeAction code) := by
  by_cases hc : code.toNat ≤ 0xA0
  · rw [release_code cfg k code hc]
    rcases decode_le hc with e | e <;> rw [e] <;> rfl
  · rw [release_act cfg k code (by omega)]
    cases decodeAction code with
    | mapsel b => exact select_rest cfg k _
    | autorepeatSelect => exact auto_rest _ _
    | _ => rfl

theorem rest_key {k : Kb} (h : Follows k) {r c : Nat} (hr : r < 9) (hc : c < 8) (p : Bool) :
    (k.key fourMaps openLayout p r c).rpt.rest =
      if r = 8 ∧ c = 7 ∧ ((k.deb r c).step p).on ≠ (k.deb r c).on then
        (if ((k.deb r c).step p).on then 525 else 0)
      else k.rpt.rest := by
  have hm : k.map ∈ openLayout.maps := by rw [h]; exact twoBits_mem _ _
  rcases key_effect fourMaps openLayout k p r c with ⟨h1, h2, h3⟩ | ⟨h1, _, h2⟩
  · rw [h3]
    have hi : (if p then (stepDeb k p r c).press fourMaps (k.code fourMaps openLayout r c)
        else (stepDeb k p r c).release fourMaps (k.code fourMaps openLayout r c)).rpt.rest =
        restAct p k.rpt.rest (decodeAction (k.code fourMaps openLayout r c)) := by
      cases p with
      | true => exact press_rest _ _ _
      | false => exact release_rest _ _ _
    rw [hi]
    have i7 := kb_placed four_switches.2 hm (r := r) (c := c) hr hc
    by_cases hrc : r = 8 ∧ c = 7
    · obtain ⟨rfl, rfl⟩ := hrc
      rw [i7.mpr (by simp), if_pos ⟨rfl, rfl, h1⟩, h2]
      rfl
    · rw [if_neg (fun hh => hrc ⟨hh.1, hh.2.1⟩)]
      cases hd : decodeAction (k.code fourMaps openLayout r c) with
      | autorepeatSelect =>
        rw [hd] at i7
        exact absurd (by simpa using i7) hrc
      | _ => rfl
  · rw [if_neg (fun hh => hh.2.2 h1), h2]

theorem output_rest (k : Kb) : k.output.rpt = k.rpt := by
  unfold Kb.output
  split
  · rfl
  · split <;> rfl

theorem rest_keys_other (inp : Input) (xs : List (Nat × Nat))
    (hx : ∀ x ∈ xs, x.1 < 9 ∧ x.2 < 8 ∧ x ≠ (8, 7)) {k : Kb}
    (h : Follows k) : (keysKb inp xs k).rpt.rest = k.rpt.rest := by
  induction xs generalizing k with
  | nil => rfl
  | cons x xs ih =>
    obtain ⟨h1, h2, h3⟩ := hx x List.mem_cons_self
    obtain ⟨r, c⟩ := x
    show (keysKb inp xs _).rpt.rest = _
    rw [ih (fun y hy => hx y (List.mem_cons_of_mem _ hy)) (h.key h1 h2 _), rest_key h h1 h2,
      if_neg (fun hh => h3 (Prod.ext hh.1 hh.2.1))]

theorem keys_split7 : keysOf openLayout = (keysOf openLayout).take 71 ++ [(8, 7)] ∧
    (∀ x ∈ (keysOf openLayout).take 71, x.1 < 9 ∧ x.2 < 8 ∧ x ≠ (8, 7)) ∧
    ((keysOf openLayout).take 71).Nodup ∧ (8, 7) ∉ (keysOf openLayout).take 71 := by
  decide +kernel

theorem rest_pass (inp : Input) {k : Kb} (h : Follows k) :
    (k.pass fourMaps openLayout inp).rpt.rest =
      if ((k.deb 8 7).step (sample inp 8 7)).on ≠ (k.deb 8 7).on then
        (if ((k.deb 8 7).step (sample inp 8 7)).on then 525 else 0)
      else k.rpt.rest := by
  obtain ⟨h1, h2, h3, h4⟩ := keys_split7
  show (keysKb inp (keysOf openLayout) k.output).rpt.rest = _
  rw [h1, keysKb_append]
  have hf := follows_keys inp _ (fun x hx => ⟨(h2 x hx).1, (h2 x hx).2.1⟩) h.output
  have ht := rest_key hf (r := 8) (c := 7) (by decide) (by decide) (sample inp 8 7)
  show (Kb.key fourMaps openLayout (sample inp 8 7) _ 8 7).rpt.rest = _
  rw [ht, rest_keys_other inp _ h2 h.output, output_rest, keysKb_deb inp _ h3, if_neg h4, output_deb]
  by_cases hc : ((k.deb 8 7).step (sample inp 8 7)).on ≠ (k.deb 8 7).on
  · rw [if_pos ⟨rfl, rfl, hc⟩, if_pos hc]
  · rw [if_neg (fun hh => hc hh.2.2), if_neg hc]

end Asdf
