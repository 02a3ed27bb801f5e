import Verif.Lemmas.Calls
import Verif.Lemmas.Kb
import Verif.Spec.Swaps

/-! # A keymap switch is moved: the abstract keyboard -/

namespace Asdf

open Spec

namespace Swaps

open Typist Loose Movers Holds Repeats Calls

/-! ## The selection of a keymap -/

theorem setup_caps (cmds : List SetupCmd) (k : Kb) :
    (cmds.foldl Kb.setup1 k).caps =
      cmds.foldl (fun b c => match c with | .capsActivate => !b | _ => b) k.caps := by
  induction cmds generalizing k with
  | nil => rfl
  | cons c cmds ih =>
    rw [List.foldl_cons, List.foldl_cons, ih]
    cases c <;> rfl

theorem install_caps (k : Kb) : ∀ i < 4, (k.install fourMaps (UInt8.ofNat i)).caps =
    if UInt8.ofNat i = 2 then !k.caps else k.caps := by
  intro i hi
  have h : ∀ i < 4, ∀ b : Bool, (fourMaps.setup (UInt8.ofNat i)).foldl
      (fun b c => match c with | .capsActivate => !b | _ => b) b = if UInt8.ofNat i = 2 then !b else b := by
    decide +kernel
  exact (setup_caps _ _).trans (h i hi _)

theorem four_valid : ∀ i < 4, fourMaps.valid (UInt8.ofNat i) = true := by decide +kernel

/-- The abstract keyboard after keymap `i` was selected. -/
structure Selected (k k' : Kb) (i : UInt8) : Prop where
  map : k'.map = i
  mods : k'.mods = { k.mods with caps := if i = 2 then !k.mods.caps else k.mods.caps }
  last : k'.last = k.last
  rpt : k'.rpt = k.rpt
  deb : k'.deb = k.deb

theorem install_selected (k : Kb) {i : UInt8} (hi : i.toNat < 4) : Selected k (k.install fourMaps i) i := by
  have h := setup_rest (fourMaps.setup i) (Kb.emit { k with map := i, outs := Outputs.initial } [.archInit])
  have hc := install_caps k i.toNat hi
  rw [UInt8.ofNat_toNat] at hc
  refine ⟨h.map, ?_, h.last, h.rpt, h.deb⟩
  show ModKeys.mk (k.install fourMaps i).held (k.install fourMaps i).locked (k.install fourMaps i).caps
    (k.install fourMaps i).ctrl = _
  rw [hc, show (k.install fourMaps i).held = _ from h.held, show (k.install fourMaps i).locked = _ from h.locked,
    show (k.install fourMaps i).ctrl = _ from h.ctrl]
  rfl

theorem select_selected (k : Kb) {i : UInt8} (hi : i.toNat < 4) (hne : i ≠ k.map) :
    Selected k (k.select fourMaps i) i := by
  have hv := four_valid i.toNat hi
  rw [UInt8.ofNat_toNat] at hv
  unfold Kb.select
  rw [if_pos ⟨hne, hv⟩]
  exact install_selected k hi

/-! ## The switches -/

theorem spelled_lt (down : List (Nat × Nat)) : (spelled down).toNat < 4 := by
  unfold spelled
  split <;> split <;> decide

/-- The codes of the two switches. -/
theorem switch_code : ∀ i < 4, ∀ sh cp ct : Bool, codeUnder fourMaps (UInt8.ofNat i) 8 8 0 sh cp ct = 0xA8 ∧
    codeUnder fourMaps (UInt8.ofNat i) 8 8 1 sh cp ct = 0xA9 := by decide +kernel

/-- The code of a keymap switch. -/
def switchCode (z : Nat × Nat) : Code := if z = (8, 0) then 0xA8 else 0xA9

theorem mods_switch {i : UInt8} (hi : i.toNat < 4) (m : ModKeys) {z : Nat × Nat} (hz : z = (8, 0) ∨ z = (8, 1)) :
    m.code fourMaps openLayout i z.1 z.2 = switchCode z := by
  have h := switch_code i.toNat hi (m.held || m.locked) m.caps m.ctrl
  rw [UInt8.ofNat_toNat] at h
  rcases hz with rfl | rfl
  · exact h.1
  · exact h.2

/-- The bit of a keymap switch. -/
def switchBit (z : Nat × Nat) : UInt8 := if z = (8, 0) then 1 else 2

theorem press_switch (k : Kb) {z : Nat × Nat} (hz : z = (8, 0) ∨ z = (8, 1)) :
    k.press fourMaps (switchCode z) = k.select fourMaps (k.map ||| switchBit z) ∧
    k.release fourMaps (switchCode z) = k.select fourMaps (k.map &&& ~~~ switchBit z) := by
  rcases hz with rfl | rfl <;> exact ⟨rfl, rfl⟩

theorem spelled_toggled {down : List (Nat × Nat)} (hn : down.Nodup) {z : Nat × Nat} (hz : z = (8, 0) ∨ z = (8, 1)) :
    spelled (toggled down z) = (if z ∈ down then spelled down &&& ~~~ switchBit z else spelled down ||| switchBit z) ∧
    spelled (toggled down z) ≠ spelled down := by
  have m0 := mem_toggled hn (z := z) (p := (8, 0))
  have m1 := mem_toggled hn (z := z) (p := (8, 1))
  unfold spelled switchBit
  rcases hz with rfl | rfl
  · by_cases a : (8, 0) ∈ down <;> by_cases b : (8, 1) ∈ down <;> simp [m0, m1, a, b] <;> decide
  · by_cases a : (8, 0) ∈ down <;> by_cases b : (8, 1) ∈ down <;> simp [m0, m1, a, b] <;> decide

theorem spelled_keys {down : List (Nat × Nat)} (hn : down.Nodup) {z : Nat × Nat} (hz : z.1 < 8) :
    spelled (toggled down z) = spelled down := by
  have h : ∀ c, ((8, c) ∈ toggled down z ↔ (8, c) ∈ down) := by
    intro c
    have : (8, c) ≠ z := fun e => by rw [← e] at hz; exact absurd hz (Nat.lt_irrefl 8)
    simp [mem_toggled hn, this]
  unfold spelled
  simp only [h]

/-! ## The scan in which the switch is accepted -/

theorem switch_codes (z : Nat × Nat) : 0xA0 < (switchCode z).toNat ∧ (switchCode z).toNat ≠ 0xA7 ∧
    (switchCode z).toNat < 0xB7 := by
  unfold switchCode
  split <;> decide

theorem swap_scan {pre : List Input} {inp : Input} {z : Nat × Nat} (hz : z = (8, 0) ∨ z = (8, 1))
    (h : OneScan openLayout pre inp z) {i i' : UInt8} (hi : i.toNat < 4) (hi' : i'.toNat < 4) (hne : i' ≠ i)
    (hmap : (Kb.after fourMaps openLayout pre).map = i)
    (hnext : i' = if downAfter pre z.1 z.2 then i &&& ~~~ switchBit z else i ||| switchBit z)
    (hl : (Kb.after fourMaps openLayout pre).last = 0xA0)
    (hq : ∀ y ∈ keysOf openLayout, y ≠ z → downAfter pre y.1 y.2 = true →
      (Kb.after fourMaps openLayout pre).code fourMaps openLayout y.1 y.2 ≠ 0xA0)
    (hq' : ∀ y ∈ keysOf openLayout, y ≠ z → downAfter pre y.1 y.2 = true →
      ∀ m : ModKeys, m.code fourMaps openLayout i' y.1 y.2 ≠ 0xA0) :
    let k := Kb.after fourMaps openLayout pre
    let k' := Kb.after fourMaps openLayout (pre ++ [inp])
    k'.map = i' ∧ k'.mods = { k.mods with caps := if i' = 2 then !k.mods.caps else k.mods.caps } ∧
      k'.last = 0xA0 ∧ k'.rpt.delay = k.rpt.delay ∧ k.logPass fourMaps openLayout Kb.typedBy inp = [] ∧
      k.logPass fourMaps openLayout Kb.saidBy inp = [] := by
  intro k k'
  obtain ⟨o1, o2⟩ := output_same k
  obtain ⟨A, B, hAB⟩ := List.append_of_mem h.here
  have hnd := keysOf_nodup openLayout
  rw [hAB] at hnd
  obtain ⟨nA, nzB, hdis⟩ := List.nodup_append.mp hnd
  obtain ⟨nz, nB⟩ := List.nodup_cons.mp nzB
  have hzA : z ∉ A := fun e => hdis z e z List.mem_cons_self rfl
  have inA : ∀ y ∈ A, y ∈ keysOf openLayout ∧ y ≠ z := fun y hy =>
    ⟨by rw [hAB]; exact List.mem_append_left _ hy, fun e => hzA (e ▸ hy)⟩
  have inB : ∀ y ∈ B, y ∈ keysOf openLayout ∧ y ≠ z ∧ y ∉ A := fun y hy =>
    ⟨by rw [hAB]; exact List.mem_append_right _ (List.mem_cons_of_mem _ hy), fun e => nz (e ▸ hy),
      fun e => hdis y e y (List.mem_cons_of_mem _ hy) rfl⟩
  have hcode : ∀ r c, k.output.code fourMaps openLayout r c = k.code fourMaps openLayout r c := fun r c => o1.code r c
  have hstill : ∀ y ∈ keysOf openLayout, y ≠ z →
      ((k.output.deb y.1 y.2).step (sample inp y.1 y.2)).on = (k.output.deb y.1 y.2).on := by
    intro y hy e
    obtain ⟨s1, s2⟩ := step_eq (cfg := fourMaps) pre inp hy
    rw [s2, s1, h.same y hy e]
  -- the keys before
  obtain ⟨a1, a2, a3, a4, a5⟩ := keys_quiet (cfg := fourMaps) (L := openLayout) (inp := inp) A nA (k := k.output)
    (fun y hy => hstill y (inA y hy).1 (inA y hy).2) (fun y hy hd => by
      rw [hcode, o1.last, hl]
      rw [(step_eq (cfg := fourMaps) pre inp (inA y hy).1).1] at hd
      exact hq y (inA y hy).1 (inA y hy).2 hd)
  have a1' := o1.trans a1
  have hdA : ∀ y, y ∉ A → (A.foldl (fun k y => k.key fourMaps openLayout (sample inp y.1 y.2) y.1 y.2) k.output).deb y.1 y.2 =
    k.output.deb y.1 y.2 := fun y hy => keys_deb A hy
  generalize hkA : A.foldl (fun k y => k.key fourMaps openLayout (sample inp y.1 y.2) y.1 y.2) k.output = kA at *
  -- the switch
  obtain ⟨z1, z2⟩ := step_eq (cfg := fourMaps) pre inp h.here
  have hzd := hdA z hzA
  have hon : (kA.deb z.1 z.2).on = downAfter pre z.1 z.2 := by rw [hzd, z1]
  obtain ⟨t1, t2⟩ := key_turn (k := kA) (s := sample inp z.1 z.2) (r := z.1) (c := z.2)
    (by rw [hzd, z2, z1, h.turn])
  rw [hon] at t1
  have hmA : kA.map = i := a1'.map.trans hmap
  have hcz : kA.code fourMaps openLayout z.1 z.2 = switchCode z := by
    rw [code_eq hmA]
    exact mods_switch hi _ hz
  obtain ⟨hgt, hn7, hlt⟩ := switch_codes z
  have hkz : Selected (stepDeb kA (sample inp z.1 z.2) z.1 z.2) (kA.key fourMaps openLayout (sample inp z.1 z.2) z.1 z.2) i' := by
    obtain ⟨s1, s2⟩ := press_switch (stepDeb kA (sample inp z.1 z.2) z.1 z.2) hz
    have hmS : (stepDeb kA (sample inp z.1 z.2) z.1 z.2).map = i := hmA
    rw [hmS] at s1 s2
    cases hd : downAfter pre z.1 z.2
    · rw [hd] at t1 hon hnext
      rw [if_neg (by decide)] at hnext
      have e : kA.key fourMaps openLayout (sample inp z.1 z.2) z.1 z.2 =
          (stepDeb kA (sample inp z.1 z.2) z.1 z.2).press fourMaps (switchCode z) := by
        unfold Kb.key
        rw [t1, hon, if_pos (by decide), if_pos t2, if_pos (by decide), hcz]
        rfl
      rw [e, s1, ← hnext]
      exact select_selected _ hi' (by rw [hmS]; exact hne)
    · rw [hd] at t1 hon hnext
      rw [if_pos rfl] at hnext
      have e : kA.key fourMaps openLayout (sample inp z.1 z.2) z.1 z.2 =
          (stepDeb kA (sample inp z.1 z.2) z.1 z.2).release fourMaps (switchCode z) := by
        unfold Kb.key
        rw [t1, hon, if_pos (by decide), if_pos t2, if_neg (by decide), hcz]
        rfl
      rw [e, s2, ← hnext]
      exact select_selected _ hi' (by rw [hmS]; exact hne)
  have hty : kA.typedBy fourMaps openLayout (sample inp z.1 z.2) z.1 z.2 = [] := by
    unfold Kb.typedBy
    rw [if_pos (by rw [t1, hon]; cases downAfter pre z.1 z.2 <;> decide), hcz, if_neg (by omega)]
  have hsa : kA.saidBy fourMaps openLayout (sample inp z.1 z.2) z.1 z.2 = [] := by
    unfold Kb.saidBy
    dsimp only
    rw [hcz]
    split
    · rw [if_neg fun e => Nat.lt_irrefl _ (Nat.lt_of_le_of_lt e.1 hlt)]
    · rfl
  obtain ⟨k1, k2, k3, k4, k5⟩ := hkz
  generalize hkZ : kA.key fourMaps openLayout (sample inp z.1 z.2) z.1 z.2 = kZ at *
  have hkd : ∀ y, y ≠ z → kZ.deb y.1 y.2 = kA.deb y.1 y.2 := by
    intro y hy
    rw [← hkZ, key_deb, if_neg]
    rintro ⟨e1, e2⟩
    exact hy (Prod.ext e1 e2)
  have hlZ : kZ.last = 0xA0 := k3.trans (a1'.last.trans hl)
  -- the switches after
  have hdB : ∀ y ∈ B, kZ.deb y.1 y.2 = k.output.deb y.1 y.2 := fun y hy => by
    rw [hkd y (inB y hy).2.1, hdA y (inB y hy).2.2]
  obtain ⟨b1, b2, b3, b4, b5⟩ := keys_quiet (cfg := fourMaps) (L := openLayout) (inp := inp) B nB (k := kZ)
    (fun y hy => by rw [hdB y hy]; exact hstill y (inB y hy).1 (inB y hy).2.1) (fun y hy hd => by
      rw [code_eq k1, hlZ]
      rw [hdB y hy, (step_eq (cfg := fourMaps) pre inp (inB y hy).1).1] at hd
      exact hq' y (inB y hy).1 (inB y hy).2.1 hd _)
  have hk' : k' = B.foldl (fun k y => k.key fourMaps openLayout (sample inp y.1 y.2) y.1 y.2) kZ := by
    show Kb.after fourMaps openLayout (pre ++ [inp]) = _
    rw [after_snoc]
    unfold Kb.pass
    rw [hAB, List.foldl_append, List.foldl_cons, hkA, hkZ]
  rw [hk']
  have hmods : (stepDeb kA (sample inp z.1 z.2) z.1 z.2).mods = k.mods := a1'.mods
  rw [hmods] at k2
  refine ⟨b1.map.trans k1, b1.mods.trans k2, b1.last.trans hlZ, ?_, ?_, ?_⟩
  · rw [b3, k4]
    show kA.rpt.delay = _
    rw [a3, o2]
  · show Kb.logKeys _ _ _ _ _ _ = _
    rw [hAB, logKeys_append, a4, hkA]
    show [] ++ (_ ++ _) = _
    rw [hty, hkZ, b4]
    rfl
  · show Kb.logKeys _ _ _ _ _ _ = _
    rw [hAB, logKeys_append, a5, hkA]
    show [] ++ (_ ++ _) = _
    rw [hsa, hkZ, b5]
    rfl

/-! ## The movement -/

/-- DIP switches have no character in any of the keymaps 0 to 3. -/
theorem dips_functional : ∀ i < 4, ∀ c < 8, c ≠ 4 → ∀ sh cp ct : Bool,
    0xA0 < (codeUnder fourMaps (UInt8.ofNat i) 8 8 c sh cp ct).toNat := by decide +kernel

/-- The typing can go on after the movement. -/
theorem free_swap {s : Session} (hF : Free (spelled s.down) s) (h4 : (8, 4) ∉ s.down) {z : Nat × Nat}
    (hM : MaySwap s z) : Free (spelled (s.swap z).down) (s.swap z) := by
  obtain ⟨hz, hmods⟩ := hM
  have hz1 : z.1 = 8 ∧ z.2 < 8 ∧ z.2 ≠ 4 := by rcases hz with rfl | rfl <;> decide
  have hdown : ∀ p ∈ (s.swap z).down, Functional fourMaps openLayout (spelled (s.swap z).down) p.1 p.2 ∧
      (p.1 < 8 → IsModKey fourMaps openLayout (spelled (s.swap z).down) p.1 p.2) := by
    intro p hp
    have hdip : p.1 = 8 → p.2 < 8 → p.2 ≠ 4 → Functional fourMaps openLayout (spelled (s.swap z).down) p.1 p.2 := by
      intro h1 h2 h3 m
      have := dips_functional _ (spelled_lt (s.swap z).down) p.2 h2 h3 (m.held || m.locked) m.caps m.ctrl
      rw [UInt8.ofNat_toNat] at this
      rw [h1]
      exact this
    rcases (mem_toggled hF.fine.nodup).mp hp with ⟨hpz, hp⟩ | ⟨rfl, _⟩
    · obtain ⟨i1, i2⟩ := hF.fine.inside p hp
      by_cases h8 : p.1 < 8
      · have := hmods p hp h8
        exact ⟨modKey_functional this, fun _ => this⟩
      · refine ⟨hdip (by omega) i2 fun e => h4 ?_, fun h => absurd h h8⟩
        rwa [show ((8, 4) : Nat × Nat) = p from Prod.ext (by omega) e.symm]
    · exact ⟨hdip hz1.1 hz1.2.1 hz1.2.2, fun h => by omega⟩
  refine ⟨⟨?_, toggled_nodup hF.fine.nodup z, ?_⟩, hF.last, hdown⟩
  · intro p hp
    rcases (mem_toggled hF.fine.nodup).mp hp with ⟨_, hp⟩ | ⟨rfl, _⟩
    · exact hF.fine.inside p hp
    · exact ⟨by omega, hz1.2.1⟩
  · intro p hp
    refine ⟨fun y hy => ?_, fun _ e => ?_⟩
    · have hl : (s.swap z).hand.last = none := hF.last
      rw [hl] at hy
      cases hy
    · have := (hdown p hp).1 (s.swap z).hand.mods
      rw [e] at this
      exact absurd this (by decide)

/-- A keymap switch is moved. -/
theorem swap_part {s : Session} (hF : Free (spelled s.down) s) (h4 : (8, 4) ∉ s.down) {v : KeyMove}
    (hM : MaySwap s v.key) (hb : v.bounce.length ≤ 9) (hs : 10 ≤ v.steady) {d : Nat} {pre : List Input}
    (hpre : Settled openLayout pre (posDown s.down)) (hc : Calm (spelled s.down) d s.hand.mods pre) :
    Logs fourMaps openLayout pre (v.readings s.down) (List.replicate (v.readings s.down).length [])
      (List.replicate (v.readings s.down).length []) ∧
    Calm (spelled (s.swap v.key).down) d (s.swap v.key).hand.mods (pre ++ v.readings s.down) ∧
    Settled openLayout (pre ++ v.readings s.down) (posDown (s.swap v.key).down) := by
  have hF' := free_swap hF h4 hM
  have hz := hM.1
  have hz1 : v.key.1 < 9 ∧ v.key.2 < 8 := by rcases hz with e | e <;> rw [e] <;> decide
  have hpl := fun q hq => (hF.fine.inside q hq).2
  have M := moves_any hpl hF.fine.nodup (v := v) hz1.1 hz1.2 hb hs
  have hset := M.settled hpre
  have hq0 : ∀ y ∈ keysOf openLayout, posDown s.down y.1 y.2 = true →
      s.hand.mods.code fourMaps openLayout (spelled s.down) y.1 y.2 ≠ 0xA0 :=
    fun y hy hd => (hF.fine.held y hy hd).2 hF.last
  have hq1 : ∀ y ∈ keysOf openLayout, posDown (toggled s.down v.key) y.1 y.2 = true →
      ∀ m : ModKeys, m.code fourMaps openLayout (spelled (s.swap v.key).down) y.1 y.2 ≠ 0xA0 := by
    intro y _ hd m e
    have := (hF'.down y (of_decide_eq_true hd)).1 m
    rw [e] at this
    exact absurd this (by decide)
  have A1 := Stays.take M hpre
  obtain ⟨inp1, e1, e2, A3, A4⟩ := accepted M hpre
  have D1 := Stays.drop M hpre
  obtain ⟨n1, n2⟩ := spelled_toggled hF.fine.nodup hz
  have hlen := M.size
  have hsame := M.same
  generalize hR1 : v.readings s.down = R1 at *
  generalize acceptAt (posDown s.down v.key.1 v.key.2) v.bounce = j1 at *
  -- until the movement is accepted
  obtain ⟨a1, a2, a3⟩ := quiet_part (cfg := fourMaps) _ _ A1 (fun y hy hd => by
    rw [hc.code, hc.last]
    exact hq0 y hy hd)
  have ha := hc.same a2 a3
  have hAd : ∀ y ∈ keysOf openLayout, downAfter (pre ++ R1.take j1) y.1 y.2 = posDown s.down y.1 y.2 := by
    intro y hy
    have := A1 (R1.take j1).length (Nat.le_refl _) y hy
    rwa [List.take_length] at this
  -- the scan
  obtain ⟨b1, b2, b3, b4, b5, b6⟩ := swap_scan hz A3 (i := spelled s.down) (i' := spelled (s.swap v.key).down)
    (spelled_lt _) (spelled_lt _) n2 ha.map
    (by
      show spelled (toggled s.down v.key) = _
      rw [n1, A4]
      show _ = if decide (v.key ∈ s.down) = true then _ else _
      simp only [decide_eq_true_eq])
    ha.last
    (fun y hy e hd => by
      rw [ha.code]
      rw [hAd y hy] at hd
      exact hq0 y hy hd)
    (fun y hy e hd => by
      rw [hAd y hy, ← hsame y.1 y.2 e] at hd
      exact hq1 y hy hd)
  rw [ha.mods] at b2
  have hscan := Logs.one b5 b6
  have hb1 : Calm (spelled (s.swap v.key).down) d (s.swap v.key).hand.mods (pre ++ R1.take j1 ++ [inp1]) :=
    ⟨b1, b2, b3, b4.trans ha.delay⟩
  rw [List.append_assoc, ← e2] at hb1
  -- until the end
  obtain ⟨d1, d2, d3⟩ := quiet_part (cfg := fourMaps) _ _ D1 (fun y hy hd => by
    rw [hb1.code, hb1.last]
    exact hq1 y hy hd _)
  have hd1 := hb1.same d2 d3
  rw [List.append_assoc, List.take_append_drop] at hd1
  have d1' : Out fourMaps openLayout (pre ++ R1.take j1 ++ [inp1]) (R1.drop (j1 + 1))
      (List.replicate (R1.drop (j1 + 1)).length []) := by
    rw [List.append_assoc, ← e2]
    exact d1
  have hout := (Logs.of a1).append (hscan.append (Logs.of d1'))
  rw [← e1] at hout
  refine ⟨?_, hd1, hset⟩
  have hl := congrArg List.length e1
  simp only [List.length_append, List.length_singleton] at hl
  simp only [List.length_replicate, show [[]] = List.replicate 1 ([] : List Code) from rfl,
    List.replicate_append_replicate] at hout
  rw [hl]
  exact hout

/-! ## Switches that are not moved -/

theorem still_read {vs : List KeyMove} {z : Nat × Nat} (hz1 : z.1 < 9) (hz2 : z.2 < 8) {down : List (Nat × Nat)}
    (hnd : down.Nodup) (hpl : ∀ p ∈ down, p.2 < 8)
    (hin : ∀ v ∈ vs, v.key ≠ z ∧ v.key.1 < 9 ∧ v.key.2 < 8) (hst : Steady vs) :
    ∀ inp ∈ keysRead down vs, sample inp z.1 z.2 = posDown down z.1 z.2 := by
  induction vs generalizing down with
  | nil => exact fun inp hi => (List.not_mem_nil hi).elim
  | cons v vs ih =>
    obtain ⟨hb, hs⟩ := hst v List.mem_cons_self
    obtain ⟨hne, i1, i2⟩ := hin v List.mem_cons_self
    have M := moves_any hpl hnd i1 i2 hb hs
    intro inp hi
    rcases List.mem_append.mp hi with hi | hi
    · have hrest := M.rest z.1 z.2 hz1 hz2 (Ne.symm hne)
      have : sample inp z.1 z.2 ∈ samplesOf (v.readings down) z.1 z.2 := List.mem_map.mpr ⟨inp, hi, rfl⟩
      rw [hrest] at this
      exact (List.mem_replicate.mp this).2
    · rw [ih (toggled_nodup hnd _) (toggled_cols hnd hpl i2) (fun w hw => hin w (List.mem_cons_of_mem _ hw))
        (fun w hw => hst w (List.mem_cons_of_mem _ hw)) inp hi]
      exact M.same z.1 z.2 (Ne.symm hne)

end Swaps

end Asdf
