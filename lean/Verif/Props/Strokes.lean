import Verif.Lemmas.Strokes
import Verif.Props.Typist
import Verif.Props.Legends

/-! # Property C91: key strokes on the classic keyboard -/

namespace Asdf.Props

open Spec Avr Pcb Typist

/-- The keyboard at rest: keymap 0, autorepeat after 525 scans, no modifiers, nothing closed,
nothing waiting. -/
structure Rested (pre : List Input) : Prop where
  map : (Kb.after fourMaps openLayout pre).map = 0
  delay : (Kb.after fourMaps openLayout pre).rpt.delay = 525
  mods : (Kb.after fourMaps openLayout pre).mods = ModKeys.none
  last : (Kb.after fourMaps openLayout pre).last = 0xA0
  keys : (Kb.after fourMaps openLayout pre).keys = []
  msgs : (Kb.after fourMaps openLayout pre).msgs = []
  settled : Settled openLayout pre (fun _ _ => false)

/-- What the host has received, message characters (`true`) and keystrokes. -/
def received (inps : List Input) : List (Bool × Code) :=
  (channel (typed fourMaps openLayout inps) (said fourMaps openLayout inps)).host

theorem rested_nil : Rested [] := by
  refine ⟨by decide +kernel, by decide +kernel, by decide +kernel, by decide +kernel, by decide +kernel,
    by decide +kernel, fun r c _ _ => rfl⟩

theorem Settled.down {L : Layout} {pre : List Input} {S : Down} (h : Settled L pre S) {r c : Nat} (hr : r < L.rows)
    (hc : c < L.cols) : downAfter pre r c = S r c := by
  unfold downAfter debounced
  rw [h r c hr hc]

/-- A text after which the keyboard is at rest again. -/
theorem Rested.text {pre more : List Input} (h : Rested pre)
    (hn : Neat fourMaps openLayout 0 ModKeys.none pre more)
    (hb : Brief fourMaps openLayout 0 525 pre more)
    (hm : modsAt fourMaps openLayout 0 ModKeys.none pre more = ModKeys.none)
    (hs : Settled openLayout (pre ++ more) (fun _ _ => false))
    (h1 : ∀ u ∈ typist fourMaps openLayout 0 ModKeys.none pre more, u.length ≤ 1)
    (hl : (typist fourMaps openLayout 0 ModKeys.none pre more).getLast?.getD [] = []) :
    Rested (pre ++ more) ∧ received (pre ++ more) =
      received pre ++ (typist fourMaps openLayout 0 ModKeys.none pre more).flatten.map (false, ·) := by
  have hrest : ∀ r c, r < openLayout.rows → c < openLayout.cols → downAfter pre r c = true →
      Functional fourMaps openLayout (Kb.after fourMaps openLayout pre).map r c := by
    intro r c hr hc e
    rw [Settled.down h.settled hr hc] at e
    cases e
  obtain ⟨q1, q2, q3⟩ := channel_text (more := more) rfl h.last hrest (by rw [h.map, h.mods]; exact hn)
    (by rw [h.map, h.delay]; exact hb) ⟨h.keys, h.msgs⟩ (by rw [h.map, h.mods]; exact h1)
  rw [h.map, h.mods] at q2 q3
  have hready : Ready fourMaps openLayout 0 525 pre [] ModKeys.none := by
    constructor
    · rw [List.append_nil]; exact h.map
    · rw [List.append_nil]; exact h.delay
    · rw [List.append_nil]; exact h.mods
    · intro r c hr hc e
      rw [List.append_nil, Settled.down h.settled hr hc] at e
      cases e
    · rw [List.append_nil]
      exact .inl h.last
  have hend := hready.ends (more := more) (by rw [List.append_nil]; exact hn) hb
  rw [List.append_nil, hm, List.nil_append] at hend
  have hon := after_onLine fourMaps openLayout (pre ++ more)
  refine ⟨⟨hend.map, hend.delay, hend.mods, hend.last fun r c hr hc e => ?_, by rw [hon.keys, q2, hl],
    by rw [hon.msgs, q1], hs⟩, ?_⟩
  · rw [Settled.down hs hr hc] at e
    cases e
  · rw [q2, hl, List.map_nil, List.append_nil] at q3
    exact q3

/-- Exactly these keys are down. -/
def placesDown (l : List Place) : Down := fun r c => l.any fun p => r == p.row && c == p.col

theorem reads_keys {l : List Place} (hl : ∀ p ∈ l, p ∈ classicPlaces) :
    Reads openLayout (keysClosed l) (placesDown l) := fun _ _ _ hc => sample_only hl hc

/-- The SHIFT keys are SHIFT keys under all modifiers. -/
theorem shift_code : ∀ q ∈ classicPlaces, q.label = "L_Shift" ∨ q.label = "R_Shift" →
    ∀ s c t, codeUnder fourMaps 0 8 q.row q.col s c t = 0xA1 := by decide +kernel

/-- So is the CTRL key. -/
theorem ctrl_code : ∀ q ∈ classicPlaces, q.label = "CTRL" →
    ∀ s c t, codeUnder fourMaps 0 8 q.row q.col s c t = 0xA5 := by decide +kernel

/-- The control characters. -/
theorem ctrl_char : ∀ p ∈ classicPlaces, ∀ l ∈ charLegends, l.label = p.label → 0x40 ≤ l.plain.toNat →
    l.plain.toNat ≤ 0x7A → codeUnder fourMaps 0 8 p.row p.col false false true = l.plain &&& 0x1F ∧
      (l.plain &&& 0x1F).toNat < 0xA0 := by decide +kernel

theorem char_code {p : Place} (hp : p ∈ classicPlaces) {l : Legend} (hl : l ∈ charLegends) (he : l.label = p.label) :
    ModKeys.none.code fourMaps openLayout 0 p.row p.col = l.plain ∧
    (ModKeys.mk true false false false).code fourMaps openLayout 0 p.row p.col = l.shifted ∧
    l.plain.toNat < 0xA0 ∧ l.shifted.toNat < 0xA0 := by
  obtain ⟨h1, h2, _⟩ := C81_classic p hp l hl he
  exact ⟨h1, h2 false, legend_codes l hl⟩

theorem char_not_mod {x : Code} (h : x.toNat < 0xA0) : isModCode x = false := by
  simp only [isModCode, Bool.and_eq_false_iff, decide_eq_false_iff_not]
  omega

theorem place_in {p : Place} (hp : p ∈ classicPlaces) : (p.row, p.col) ∈ keysOf openLayout :=
  (mem_keysOf openLayout).mpr ⟨classic_rows.1 p hp, places_cols p (List.mem_append_left _ hp)⟩

theorem down_single {z : Nat × Nat} {l : List Place}
    (h : ∀ p ∈ l, (p.row, p.col) = z ∨ Functional fourMaps openLayout 0 p.row p.col) :
    Single fourMaps openLayout 0 z (placesDown l) := by
  intro r c _ _ e
  simp only [placesDown, List.any_eq_true, Bool.and_eq_true, beq_iff_eq] at e
  obtain ⟨p, hp, rfl, rfl⟩ := e
  exact h p hp

theorem placesDown_eq {l : List Place} {p : Place} {r c : Nat} :
    placesDown (p :: l) r c = (decide ((r, c) = (p.row, p.col)) || placesDown l r c) := by
  simp only [placesDown, List.any_cons, Prod.mk.injEq]
  congr 1
  rw [Bool.eq_iff_iff]
  simp

/-- A key is pressed and released, while some SHIFT keys are held. -/
theorem stroke_key {sh : List Place} {m : ModKeys} {p : Place} {x : Code} {pre : List Input}
    (hsh : ∀ q ∈ sh, q ∈ classicPlaces ∧ Functional fourMaps openLayout 0 q.row q.col) (hp : p ∈ classicPlaces)
    (hx : m.code fourMaps openLayout 0 p.row p.col = x) (hlt : x.toNat < 0xA0)
    (hpre : Settled openLayout pre (placesDown sh)) {n k : Nat} (hn : 10 ≤ n) (hk : 10 ≤ k) :
    let more := List.replicate n (keysClosed (sh ++ [p])) ++ List.replicate k (keysClosed sh)
    typist fourMaps openLayout 0 m pre more =
      List.replicate 9 [] ++ [[x]] ++ List.replicate (n - 10) [] ++ List.replicate k [] ∧
    modsAt fourMaps openLayout 0 m pre more = m ∧ Neat fourMaps openLayout 0 m pre more ∧
    Settled openLayout (pre ++ more) (placesDown sh) := by
  intro more
  have hnf : ¬ Functional fourMaps openLayout 0 p.row p.col := fun e => by
    have := e m
    rw [hx] at this
    omega
  have hmem : ∀ q ∈ sh ++ [p], q ∈ classicPlaces := by
    intro q hq
    rcases List.mem_append.mp hq with hq | hq
    · exact (hsh q hq).1
    · rw [List.mem_singleton.mp hq]; exact hp
  have R1 := reads_keys hmem
  have R2 := reads_keys fun q hq => (hsh q hq).1
  have s1 : Single fourMaps openLayout 0 (p.row, p.col) (placesDown sh) :=
    down_single fun q hq => .inr (hsh q hq).2
  have hstep : ∀ r c, placesDown (sh ++ [p]) r c = (placesDown sh r c || decide ((r, c) = (p.row, p.col))) := by
    intro r c
    simp only [placesDown, List.any_append, List.any_cons, List.any_nil, Bool.or_false, Prod.mk.injEq]
    congr 1
    rw [Bool.eq_iff_iff]
    simp
  have s2 : Single fourMaps openLayout 0 (p.row, p.col) (placesDown (sh ++ [p])) := by
    refine down_single fun q hq => ?_
    rcases List.mem_append.mp hq with hq | hq
    · exact .inr (hsh q hq).2
    · rw [List.mem_singleton.mp hq]; exact .inl rfl
  have hpin := place_in hp
  have hout : placesDown sh p.row p.col = false := by
    cases e : placesDown sh p.row p.col
    · rfl
    · simp only [placesDown, List.any_eq_true, Bool.and_eq_true, beq_iff_eq] at e
      obtain ⟨q, hq, e1, e2⟩ := e
      have := (hsh q hq).2
      rw [← e1, ← e2] at this
      exact absurd this hnf
  have hin : placesDown (sh ++ [p]) p.row p.col = true := by
    rw [hstep]; simp
  have hch : ∀ r c, placesDown sh r c ≠ placesDown (sh ++ [p]) r c → (r, c) = (p.row, p.col) := by
    intro r c hne
    rw [hstep] at hne
    by_cases e : (r, c) = (p.row, p.col)
    · exact e
    · simp [e] at hne
  have sor : Single fourMaps openLayout 0 (p.row, p.col)
      (fun r c => placesDown sh r c || placesDown (sh ++ [p]) r c) := by
    intro r c hr hc e
    rcases (Bool.or_eq_true _ _).mp e with e | e
    · exact s1 r c hr hc e
    · exact s2 r c hr hc e
  have sor' : Single fourMaps openLayout 0 (p.row, p.col)
      (fun r c => placesDown (sh ++ [p]) r c || placesDown sh r c) := by
    intro r c hr hc e
    rcases (Bool.or_eq_true _ _).mp e with e | e
    · exact s2 r c hr hc e
    · exact s1 r c hr hc e
  have hz : (m.code fourMaps openLayout 0 (p.row, p.col).1 (p.row, p.col).2).toNat < 0xA0 := by
    show (m.code fourMaps openLayout 0 p.row p.col).toNat < 0xA0
    rw [hx]; exact hlt
  have N1 : NeatScan fourMaps openLayout 0 m (placesDown sh) (placesDown (sh ++ [p])) :=
    neat_char hz (fun r c _ _ hne => hch r c hne) sor
  have N2 : NeatScan fourMaps openLayout 0 m (placesDown (sh ++ [p])) (placesDown sh) :=
    neat_char hz (fun r c _ _ hne => hch r c fun e => hne e.symm) sor'
  have t1 : typeKeys fourMaps openLayout 0 (placesDown sh) (placesDown (sh ++ [p])) (keysOf openLayout) m =
      ([x], m) := by
    rw [typeKeys_one _ (keysOf_nodup openLayout) hpin (fun y _ hy => Decidable.byContradiction fun e =>
      hy (hch y.1 y.2 e)) (by rw [hout, hin]; decide), hx, char_not_mod hlt, hin]
    rfl
  have t2 : typeKeys fourMaps openLayout 0 (placesDown (sh ++ [p])) (placesDown sh) (keysOf openLayout) m =
      ([], m) := by
    rw [typeKeys_one _ (keysOf_nodup openLayout) hpin (fun y _ hy => Decidable.byContradiction fun e =>
      hy (hch y.1 y.2 fun e' => e e'.symm)) (by rw [hout, hin]; decide), hx, char_not_mod hlt, hout]
    rfl
  obtain ⟨a1, a2, a3⟩ := phase (neat_still s1 m) (neat_still s2 m) hpre R1 N1 hn t1
  have hset := hpre.next R1 hn
  obtain ⟨b1, b2, b3⟩ := phase (neat_still s2 m) (neat_still s1 m) hset R2 N2 hk t2
  show typist _ _ _ _ _ (_ ++ _) = _ ∧ modsAt _ _ _ _ _ (_ ++ _) = _ ∧ Neat _ _ _ _ _ (_ ++ _) ∧ _
  rw [typist_append, modsAt_append, neat_append, a1, a2, b1, b2]
  refine ⟨?_, rfl, ⟨a3, b3⟩, ?_⟩
  · have : List.replicate 9 [] ++ [[]] ++ List.replicate (k - 10) [] = List.replicate k ([] : List Code) := by
      rw [show [[]] = List.replicate 1 ([] : List Code) from rfl, List.replicate_append_replicate,
        List.replicate_append_replicate]
      congr 1
      omega
    rw [this]
  · rw [← List.append_assoc]
    exact hset.next R2 hk

/-- A modifier key is pressed (`b`) or released. -/
theorem stroke_mod {q : Place} {m : ModKeys} (b : Bool) {pre : List Input} (hq : q ∈ classicPlaces)
    {y : Code} (hy : isModCode y = true) (hqy : ∀ m : ModKeys, m.code fourMaps openLayout 0 q.row q.col = y)
    (hpre : Settled openLayout pre (placesDown (if b then [] else [q]))) {n : Nat} (hn : 10 ≤ n) :
    let more := List.replicate n (keysClosed (if b then [q] else []))
    typist fourMaps openLayout 0 m pre more = List.replicate n [] ∧
    modsAt fourMaps openLayout 0 m pre more = m.event y b ∧
    Neat fourMaps openLayout 0 m pre more ∧
    Settled openLayout (pre ++ more) (placesDown (if b then [q] else [])) := by
  intro more
  have hmod : IsModKey fourMaps openLayout 0 q.row q.col := ⟨y, hy, hqy⟩
  have hf := modKey_functional hmod
  have s1 : ∀ b : Bool, Single fourMaps openLayout 0 (q.row, q.col) (placesDown (if b then [] else [q])) := by
    intro b
    refine down_single fun p hp => ?_
    cases b
    · rw [List.mem_singleton.mp hp]; exact .inl rfl
    · cases hp
  have s2 := s1 (!b)
  have e2 : (if (!b) = true then ([] : List Place) else [q]) = if b then [q] else [] := by cases b <;> rfl
  rw [e2] at s2
  have R : Reads openLayout (keysClosed (if b then [q] else [])) (placesDown (if b then [q] else [])) := by
    refine reads_keys fun p hp => ?_
    cases b
    · cases hp
    · rw [List.mem_singleton.mp hp]; exact hq
  have hval : ∀ r c, placesDown (if b then [] else [q]) r c = (!b && decide ((r, c) = (q.row, q.col))) ∧
      placesDown (if b then [q] else []) r c = (b && decide ((r, c) = (q.row, q.col))) := by
    intro r c
    have e0 : placesDown [] r c = false := rfl
    cases b <;> simp only [Bool.false_eq_true, if_false, if_true, placesDown_eq, e0] <;> simp
  have hch : ∀ r c, placesDown (if b then [] else [q]) r c ≠ placesDown (if b then [q] else []) r c →
      (r, c) = (q.row, q.col) := by
    intro r c hne
    rw [(hval r c).1, (hval r c).2] at hne
    by_cases e : (r, c) = (q.row, q.col)
    · exact e
    · simp [e] at hne
  have N : NeatScan fourMaps openLayout 0 m (placesDown (if b then [] else [q])) (placesDown (if b then [q] else [])) := by
    refine neat_mod (z := (q.row, q.col)) hmod (fun r c _ _ hne => hch r c hne) fun r c _ _ e => ?_
    rw [(hval r c).1, (hval r c).2] at e
    by_cases he : (r, c) = (q.row, q.col)
    · injection he with h1 h2
      rw [h1, h2]
      exact hf
    · simp [he] at e
  have hcode := hqy m
  have t : typeKeys fourMaps openLayout 0 (placesDown (if b then [] else [q])) (placesDown (if b then [q] else []))
      (keysOf openLayout) m = ([], m.event y b) := by
    rw [typeKeys_one _ (keysOf_nodup openLayout) (place_in hq) (fun y _ hy => Decidable.byContradiction fun e =>
      hy (hch y.1 y.2 e)) (by rw [(hval _ _).1, (hval _ _).2]; cases b <;> simp), hcode, (hval _ _).2]
    rw [hy]
    cases b <;> simp
  obtain ⟨a1, a2, a3⟩ := phase (neat_still (s1 b) m) (neat_still s2 _) hpre R N hn t
  refine ⟨?_, a2, a3, hpre.next R hn⟩
  show typist _ _ _ _ _ (List.replicate n _) = _
  rw [a1, show [([], m.event y b).1] = List.replicate 1 ([] : List Code) from rfl,
    List.replicate_append_replicate, List.replicate_append_replicate]
  congr 1
  omega

theorem replicate_falses (a b : Nat) : List.replicate a false ++ List.replicate b false =
    List.replicate (a + b) false := List.replicate_append_replicate

/-- One key stroke. -/
theorem Rested.stroke {pre : List Input} (h : Rested pre) {s : Stroke} {x : Code} (ht : s.Types x) :
    Rested (pre ++ s.readings) ∧ received (pre ++ s.readings) = received pre ++ [(false, x)] := by
  obtain ⟨sh, p, lead, hold, tail, gap⟩ := s
  obtain ⟨hp, t1, t2, t3, l, hl, he, hcase⟩ := ht
  dsimp only at hp t1 t2 t3 he hcase
  obtain ⟨c1, c2, c3, c4⟩ := char_code hp hl he
  have hempty : Settled openLayout pre (placesDown []) := h.settled
  cases sh with
  | none =>
    dsimp only at hcase
    subst hcase
    obtain ⟨a1, a2, a3, a4⟩ := stroke_key (sh := []) (fun q hq => by cases hq) hp c1 c3 hempty t1 t3
    have hb : Brief fourMaps openLayout 0 525 pre (Stroke.readings ⟨none, p, lead, hold, tail, gap⟩) := by
      refine brief_of_pulse h.settled fun r c hr hc hf => ⟨rfl, ?_⟩
      show ∃ A B C, B ≤ 525 ∧ samplesOf (_ ++ _) r c = _
      rw [samples_append, samples_replicate, samples_replicate,
        reads_keys (l := [p]) (fun q hq => by rw [List.mem_singleton.mp hq]; exact hp) r c hr hc,
        reads_keys (l := []) (fun q hq => by cases hq) r c hr hc]
      by_cases e : (r, c) = (p.row, p.col)
      · exact ⟨0, hold, gap, t2, by rw [placesDown_eq]; simp [e, placesDown]⟩
      · exact ⟨hold + gap, 0, 0, by omega, by rw [placesDown_eq]; simp [e, placesDown]⟩
    have := h.text a3 hb a2 a4 (by
      rw [a1]
      intro u hu
      simp only [List.mem_append, List.mem_replicate, List.mem_singleton] at hu
      rcases hu with ((hu | hu) | hu) | hu
      · rw [hu.2]; decide
      · rw [hu]; exact Nat.le_refl _
      · rw [hu.2]; decide
      · rw [hu.2]; decide) (by
      rw [a1, List.getLast?_append, List.getLast?_replicate, if_neg (by omega)]
      rfl)
    rw [a1] at this
    refine ⟨this.1, this.2.trans ?_⟩
    simp
  | some q =>
    obtain ⟨hq, h1, h2, hmodes⟩ := hcase
    obtain ⟨y, hy, hqy, hback, hx, hlt⟩ : ∃ y, isModCode y = true ∧
        (∀ m : ModKeys, m.code fourMaps openLayout 0 q.row q.col = y) ∧
        (ModKeys.none.event y true).event y false = ModKeys.none ∧
        (ModKeys.none.event y true).code fourMaps openLayout 0 p.row p.col = x ∧ x.toNat < 0xA0 := by
      rcases hmodes with ⟨hql, rfl⟩ | ⟨hql, g1, g2, rfl⟩
      · exact ⟨0xA1, rfl, fun m => shift_code q hq hql _ _ _, rfl, c2, c4⟩
      · obtain ⟨k1, k2⟩ := ctrl_char p hp l hl he g1 g2
        exact ⟨0xA5, rfl, fun m => ctrl_code q hq hql _ _ _, rfl, k1, k2⟩
    have hqf := modKey_functional (⟨y, hy, hqy⟩ : IsModKey fourMaps openLayout 0 q.row q.col)
    obtain ⟨a1, a2, a3, a4⟩ := stroke_mod (m := ModKeys.none) true hq hy hqy hempty h1
    obtain ⟨b1, b2, b3, b4⟩ := stroke_key (sh := [q]) (fun q' hq' => by
      rw [List.mem_singleton.mp hq']; exact ⟨hq, hqf⟩) hp hx hlt a4 t1 h2
    obtain ⟨d1, d2, d3, d4⟩ := stroke_mod (m := ModKeys.none.event y true) false hq hy hqy b4 t3
    have er : Stroke.readings ⟨some q, p, lead, hold, tail, gap⟩ =
        List.replicate lead (keysClosed [q]) ++
          ((List.replicate hold (keysClosed ([q] ++ [p])) ++ List.replicate tail (keysClosed [q])) ++
            List.replicate gap (keysClosed [])) := by
      simp [Stroke.readings]
    simp only [if_true, Bool.false_eq_true, if_false] at a1 a2 a3 a4 b1 b2 b3 b4 d1 d2 d3 d4
    have a2' : modsAt fourMaps openLayout 0 ModKeys.none pre (List.replicate lead (keysClosed [q])) =
      ModKeys.none.event y true := a2
    have T : typist fourMaps openLayout 0 ModKeys.none pre (Stroke.readings ⟨some q, p, lead, hold, tail, gap⟩) =
        List.replicate lead [] ++ ((List.replicate 9 [] ++ [[x]] ++ List.replicate (hold - 10) [] ++
          List.replicate tail []) ++ List.replicate gap []) := by
      rw [er, typist_append, a1, a2', typist_append, b1, b2, d1]
    have M : modsAt fourMaps openLayout 0 ModKeys.none pre (Stroke.readings ⟨some q, p, lead, hold, tail, gap⟩) =
        ModKeys.none := by
      rw [er, modsAt_append, a2', modsAt_append, b2, d2, hback]
    have N : Neat fourMaps openLayout 0 ModKeys.none pre (Stroke.readings ⟨some q, p, lead, hold, tail, gap⟩) := by
      rw [er, neat_append, a2', neat_append, b2]
      exact ⟨a3, b3, d3⟩
    have hne : ¬ ((p.row, p.col) = (q.row, q.col)) := by
      intro e
      injection e with e1 e2
      rw [← e1, ← e2] at hqf
      have := hqf ModKeys.none
      rw [c1] at this
      omega
    have hb : Brief fourMaps openLayout 0 525 pre (Stroke.readings ⟨some q, p, lead, hold, tail, gap⟩) := by
      refine brief_of_pulse h.settled fun r c hr hc hf => ⟨rfl, ?_⟩
      have hcq : ¬ ((r, c) = (q.row, q.col)) := by
        intro e
        injection e with e1 e2
        rw [e1, e2] at hf
        exact hf hqf
      rw [er]
      simp only [samples_append, samples_replicate]
      rw [reads_keys (l := [q]) (fun z hz => by rw [List.mem_singleton.mp hz]; exact hq) r c hr hc,
        reads_keys (l := [q] ++ [p]) (fun z hz => by
          rcases List.mem_append.mp hz with hz | hz <;> rw [List.mem_singleton.mp hz]
          · exact hq
          · exact hp) r c hr hc,
        reads_keys (l := []) (fun q hq => by cases hq) r c hr hc, List.singleton_append, placesDown_eq, placesDown_eq,
        placesDown_eq, decide_eq_false hcq]
      have e0 : placesDown [] r c = false := rfl
      rw [e0]
      by_cases e : (r, c) = (p.row, p.col)
      · exact ⟨lead, hold, tail + gap, t2, by simp [e]⟩
      · exact ⟨lead + (hold + tail + gap), 0, 0, by omega, by simp [e]⟩
    have d5 : Settled openLayout (pre ++ Stroke.readings ⟨some q, p, lead, hold, tail, gap⟩) (placesDown []) := by
      rw [er]
      simpa using d4
    have := h.text N hb M d5 (by
      rw [T]
      intro u hu
      simp only [List.mem_append, List.mem_replicate, List.mem_singleton] at hu
      rcases hu with hu | ((((hu | hu) | hu) | hu) | hu)
      · rw [hu.2]; decide
      · rw [hu.2]; decide
      · rw [hu]; exact Nat.le_refl _
      · rw [hu.2]; decide
      · rw [hu.2]; decide
      · rw [hu.2]; decide) (by
      rw [T, List.getLast?_append, List.getLast?_append, List.getLast?_replicate, if_neg (by omega)]
      rfl)
    rw [T] at this
    refine ⟨this.1, this.2.trans ?_⟩
    simp

/-- A text. -/
theorem Rested.strokes {pre : List Input} (h : Rested pre) {ss : List (Stroke × Code)}
    (ht : ∀ s ∈ ss, s.1.Types s.2) :
    Rested (pre ++ strokesRead ss) ∧ received (pre ++ strokesRead ss) = received pre ++ ss.map (fun s => (false, s.2)) := by
  induction ss generalizing pre with
  | nil => simpa [strokesRead] using h
  | cons s ss ih =>
    obtain ⟨h1, h2⟩ := h.stroke (ht s List.mem_cons_self)
    obtain ⟨h3, h4⟩ := ih h1 fun z hz => ht z (List.mem_cons_of_mem _ hz)
    have e : pre ++ strokesRead (s :: ss) = pre ++ s.1.readings ++ strokesRead ss := by
      simp [strokesRead]
    rw [e]
    refine ⟨h3, ?_⟩
    rw [h4, h2, List.append_assoc]
    rfl

/-- Nothing is closed for a while. -/
theorem Rested.idle {pre : List Input} (h : Rested pre) (n : Nat) :
    Rested (pre ++ List.replicate n (keysClosed [])) ∧
      received (pre ++ List.replicate n (keysClosed [])) = received pre := by
  have R := reads_keys (l := []) (fun q hq => by cases hq)
  have hS : Single fourMaps openLayout 0 (0, 0) (fun _ _ => false) := by
    intro r c _ _ e
    cases e
  obtain ⟨a1, a2, a3⟩ := still (neat_still hS ModKeys.none) (keysClosed []) n pre (fun j _ r c hr hc => by
    rw [h.settled.during R j hr hc]
    split <;> rfl)
  have hb : Brief fourMaps openLayout 0 525 pre (List.replicate n (keysClosed [])) := by
    refine brief_of_pulse h.settled fun r c hr hc hf => ⟨rfl, n, 0, 0, by omega, ?_⟩
    rw [samples_replicate, R r c hr hc]
    simp [placesDown]
  have := h.text a3 hb a2 (h.settled.stay R n) (by
    rw [a1]
    intro u hu
    rw [(List.mem_replicate.mp hu).2]
    decide) (by
    rw [a1, List.getLast?_replicate]
    split <;> rfl)
  rw [a1] at this
  refine ⟨this.1, this.2.trans ?_⟩
  simp

/-- Keys that are not DIP switches. -/
theorem keys_not_dip {l : List Place} (hl : ∀ p ∈ l, p ∈ classicPlaces ∧ p.row ≠ 8) {n : Nat} (hn : n < 8) :
    sample (keysClosed l) 8 n = false := by
  have e := sample_only (fun p hp => (hl p hp).1) (r := 8) hn
  refine Eq.trans e ?_
  rw [List.any_eq_false]
  intro p hp hb
  rw [Bool.and_eq_true, beq_iff_eq] at hb
  exact (hl p hp).2 hb.1.symm

theorem char_not_dip {p : Place} (hp : p ∈ classicPlaces) {l : Legend} (hl : l ∈ charLegends)
    (he : l.label = p.label) : p.row ≠ 8 := fun h8 => by
  have hd := (classic_rows.2 p hp).mp h8
  rw [← he] at hd
  exact absurd hd ((by decide : ∀ x ∈ charLegends, x.label ∉ (dipFunctions.map (·.1)) ++ ["DIP 5"]) l hl)

/-- What is typed from power-up, and where the keys are: none of them is a DIP switch. -/
theorem strokes_dips {start : Nat} {ss : List (Stroke × Code)} (ht : ∀ s ∈ ss, s.1.Types s.2) :
    ∀ inp ∈ List.replicate start (keysClosed []) ++ strokesRead ss, ∀ n, n < 8 → sample inp 8 n = false := by
  have key := fun l (hl : ∀ p ∈ l, p ∈ classicPlaces ∧ p.row ≠ 8) n (hn : n < 8) => keys_not_dip hl hn
  have k0 := key [] (fun p hp => by cases hp)
  intro inp hi
  rcases List.mem_append.mp hi with hi | hi
  · rw [(List.mem_replicate.mp hi).2]
    exact k0
  · obtain ⟨⟨⟨sh, p, lead, hold, tail, gap⟩, x⟩, hs, hr⟩ := List.mem_flatMap.mp hi
    obtain ⟨hp, _, _, _, l, hl, he, hcase⟩ := ht _ hs
    dsimp only at hp he hcase hr
    have hp8 := char_not_dip hp hl he
    cases sh with
    | none =>
      rcases List.mem_append.mp hr with hr | hr <;> rw [(List.mem_replicate.mp hr).2]
      · refine key [p] fun z hz => ?_
        rw [List.mem_singleton.mp hz]
        exact ⟨hp, hp8⟩
      · exact k0
    | some q =>
      obtain ⟨hq, _, _, hmodes⟩ := hcase
      have hq8 : q.row ≠ 8 := fun h8 => by
        have hd := (classic_rows.2 q hq).mp h8
        rcases hmodes with ⟨e | e, _⟩ | ⟨e, _⟩ <;> rw [e] at hd <;> exact absurd hd (by decide)
      have k1 := key [q] fun z hz => by
        rw [List.mem_singleton.mp hz]
        exact ⟨hq, hq8⟩
      rcases List.mem_append.mp hr with hr | hr
      · rcases List.mem_append.mp hr with hr | hr
        · rcases List.mem_append.mp hr with hr | hr <;> rw [(List.mem_replicate.mp hr).2]
          · exact k1
          · refine key [q, p] fun z hz => ?_
            rcases List.mem_cons.mp hz with rfl | hz
            · exact ⟨hq, hq8⟩
            · rw [List.mem_singleton.mp hz]
              exact ⟨hp, hp8⟩
        · rw [(List.mem_replicate.mp hr).2]
          exact k1
      · rw [(List.mem_replicate.mp hr).2]
        exact k0

theorem strokes_received {start : Nat} {ss : List (Stroke × Code)} (ht : ∀ s ∈ ss, s.1.Types s.2) :
    let inps := List.replicate start (keysClosed []) ++ strokesRead ss
    Rested inps ∧ received inps = ss.map (fun s => (false, s.2)) := by
  obtain ⟨h1, h2⟩ := rested_nil.idle start
  obtain ⟨h3, h4⟩ := h1.strokes ht
  rw [List.nil_append] at h2 h3 h4
  exact ⟨h3, h4.trans (by rw [h2]; rfl)⟩

/-- **C91, key strokes.**  The classic keyboard after power-up, all DIP switches open, some scans
without a key: whatever text is typed with clean key strokes (with or without SHIFT or CTRL), the host
receives exactly that text, all of it as keystrokes, and nothing is left waiting. -/
theorem C91_strokes (start : Nat) (ss : List (Stroke × Code)) (ht : ∀ s ∈ ss, s.1.Types s.2) :
    ∃ s, powerUp shipped (List.replicate start (keysClosed []) ++ strokesRead ss) = .ok s ∧
      sends s.dev.trace = ss.map Prod.snd ∧ hostSees s.dev.trace = ss.map (fun s => (false, s.2)) ∧
      keystrokes s = [] ∧ messages s = [] := by
  obtain ⟨h1, h2⟩ := strokes_received (start := start) ht
  obtain ⟨s, e1, e2, e3, e4⟩ := C77_shipped _ (never_of_open fun inp hi => strokes_dips ht inp hi 2 (by omega))
  have hon := after_onLine fourMaps openLayout (List.replicate start (keysClosed []) ++ strokesRead ss)
  refine ⟨s, e1, ?_, e2.trans h2, by rw [e3, ← hon.keys]; exact h1.keys, by rw [e4, ← hon.msgs]; exact h1.msgs⟩
  rw [sends_hostSees, e2, show (channel _ _).host = _ from h2, List.map_map]
  rfl

/-- The DIP switches of the classic keyboard are in row 8. -/
theorem classic_dips : ∀ p ∈ classicPlaces, p.row = 8 → ∃ n ∈ [1, 2, 3, 4, 5, 6, 7, 8], p.sw = .dip n := by
  decide +kernel

/-- A world with the DIP switches open is safe. -/
theorem safe_of_open {sw : Nat → Sw → Bool} {W : C.Outside} (hS : SwitchWorld classicPlaces sw W)
    (hd : ∀ t n, sw t (.dip n) = false) : SafeWorld W := by
  have key : ∀ c, c < 8 → ∀ t, bitOf (W.keys t 8) c = false := by
    intro c hc t
    rw [hS t]
    cases e : bitOf (closedKeys classicPlaces (sw t) 8) c
    · rfl
    · obtain ⟨p, hp, _, h2, h3⟩ := (closedKeys_bit (fun p hp => places_cols p (List.mem_append_left _ hp))
        (sw t) 8 c hc).mp e
      obtain ⟨n, _, hn⟩ := classic_dips p hp h3
      rw [hn, hd t n] at h2
      cases h2
  exact C90_safe_settings W false false (key 1 (by omega)) (key 2 (by omega)) (.inl rfl)

/-- **C91, key strokes, from the switches to the computer.**  The classic keyboard on the
ATmega328P interface, DIP switches open, in any electrical state at power-up, run by the text of the
firmware: if the switches, at the moments when the rows are read, are those of a text typed with
clean key strokes, the computer reads exactly that text. -/
theorem C91_strokes_computer_328 (A : Assembly) (h : (A, classicPlaces) ∈ boards328 classicPlaces solPlaces)
    (sockets : List (Nat × List (Nat × Signal))) (hA : (A, sockets) ∈ plugged328)
    (k : Nat) (lines : List (Nat × Signal)) (hk : (k, lines) ∈ sockets) (pin : Nat)
    (hpin : (pin, .strobe) ∈ lines) (sw : Nat → Sw → Bool) (W : C.Outside) (hS : SwitchWorld classicPlaces sw W)
    (hd : ∀ t n, sw t (.dip n) = false) (r0 : Regs) (sr : UInt8)
    (polls w n : Nat) (hw : 65536 ≤ w) (hp : polls < w) (hn : 23 ≤ n) :
    ∃ times hi h log, BetweenLooks C.board328 W w n r0 sr polls times ∧ InOrder 0 hi times ∧ textRun C.board328 W w n r0 sr polls = some h ∧
      hi ≤ h.time ∧ h.found = times.length ∧ h.found ≤ h.ints ∧
      statesOf h = boardStates m328 r0 [.archInit] ++ log ∧
      ∀ start ss, (∀ s ∈ ss, s.1.Types s.2) →
        readingsAt classicPlaces sw times = List.replicate start (keysClosed []) ++ strokesRead ss →
        ∀ edge v vs, AtSocket328 A k lines (boardAfter m328 r0 [.archInit]) v →
          Watches (AtSocket328 A k lines) log vs → computerReads lines edge v vs = ss.map Prod.snd := by
  obtain ⟨times, hi, hh, log, e0, e1, e2, e3, e4, e5, e6, e7⟩ := C90_computer_328 A _ h sockets hA k lines hk pin
    hpin sw W hS (safe_of_open hS hd) false (fun t => hd t 7) r0 sr polls w n hw hp hn
  refine ⟨times, hi, hh, log, e0, e1, e2, e3, e4, e5, e6, ?_⟩
  intro start ss ht hread edge v vs hv hvs
  rw [e7 edge v vs hv hvs, hread, show (channel _ _).host = _ from (strokes_received ht).2, List.map_map]
  rfl

/-- **C91, key strokes, from the switches to the computer,** with the ATmega2560. -/
theorem C91_strokes_computer_2560 (A : Assembly) (h : (A, classicPlaces) ∈ boards2560 classicPlaces solPlaces)
    (out : Net → Prop) (hout : ∀ n, out n → Outside A n) (cols : (Sw → Bool) → Regs → UInt8)
    (hcols : ∀ closed r, rowReady2560 r →
      ReadsLevels A.links (column2560 A) closed (fun n => Low2560 A r n ∨ out n) (cols closed r))
    (sockets : List (Nat × List (Nat × Signal))) (hA : (A, sockets) ∈ plugged2560)
    (k : Nat) (lines : List (Nat × Signal)) (hk : (k, lines) ∈ sockets) (pin : Nat)
    (hpin : (pin, .strobe) ∈ lines) :
    ∃ f, (∀ closed r, rowReady2560 r → f (closedKeys classicPlaces closed) r = cols closed r) ∧
      ∀ (sw : Nat → Sw → Bool) (W : C.Outside), SwitchWorld classicPlaces sw W →
      (∀ t n, sw t (.dip n) = false) → ∀ (r0 : Regs) (sr : UInt8) (polls w n : Nat),
        65536 ≤ w → polls < w → 23 ≤ n →
        ∃ times hi h log, BetweenLooks (C.board2560 f) W w n r0 sr polls times ∧ InOrder 0 hi times ∧ textRun (C.board2560 f) W w n r0 sr polls = some h ∧
          hi ≤ h.time ∧ h.found = times.length ∧ h.found ≤ h.ints ∧
          statesOf h = boardStates m2560 r0 [.archInit] ++ log ∧
          ∀ start ss, (∀ s ∈ ss, s.1.Types s.2) →
            readingsAt classicPlaces sw times = List.replicate start (keysClosed []) ++ strokesRead ss →
            ∀ edge v vs, AtSocket2560 A k lines (boardAfter m2560 r0 [.archInit]) v →
              Watches (AtSocket2560 A k lines) log vs → computerReads lines edge v vs = ss.map Prod.snd := by
  obtain ⟨f, hf, hrun⟩ := C90_computer_2560 A _ h out hout cols hcols sockets hA k lines hk pin hpin
  refine ⟨f, hf, fun sw W hS hd r0 sr polls w n hw hp hn => ?_⟩
  obtain ⟨times, hi, hh, log, e0, e1, e2, e3, e4, e5, e6, e7⟩ := hrun sw W hS (safe_of_open hS hd) false
    (fun t => hd t 7) r0 sr polls w n hw hp hn
  refine ⟨times, hi, hh, log, e0, e1, e2, e3, e4, e5, e6, ?_⟩
  intro start ss ht hread edge v vs hv hvs
  rw [e7 edge v vs hv hvs, hread, show (channel _ _).host = _ from (strokes_received ht).2, List.map_map]
  rfl

/-! ## Rollover -/

/-- One of two keys with different characters is pressed or released. -/
theorem toggle {S S' U : Down} {z : Nat × Nat} {m : ModKeys} {x : Code} {pre : List Input} {R : Input}
    (hx : m.code fourMaps openLayout 0 z.1 z.2 = x) (hlt : x.toNat < 0xA0) (hz : z ∈ keysOf openLayout)
    (hS : ∀ r c, S r c = true → U r c = true) (hS' : ∀ r c, S' r c = true → U r c = true)
    (hU : ∀ r c r' c', U r c = true → U r' c' = true → m.code fourMaps openLayout 0 r c =
      m.code fourMaps openLayout 0 r' c' → r = r' ∧ c = c')
    (hch : ∀ r c, S r c ≠ S' r c → (r, c) = z) (hne : S z.1 z.2 ≠ S' z.1 z.2)
    (h : Settled openLayout pre S) (hR : Reads openLayout R S') {n : Nat} (hn : 10 ≤ n) :
    typist fourMaps openLayout 0 m pre (List.replicate n R) =
      List.replicate 9 [] ++ [if S' z.1 z.2 then [x] else []] ++ List.replicate (n - 10) [] ∧
    modsAt fourMaps openLayout 0 m pre (List.replicate n R) = m ∧
    Neat fourMaps openLayout 0 m pre (List.replicate n R) ∧
    Settled openLayout (pre ++ List.replicate n R) S' := by
  have hscan : ∀ b a : Down, (∀ r c, b r c = true → U r c = true) → (∀ r c, a r c = true → U r c = true) →
      (∀ r c, b r c ≠ a r c → (r, c) = z) → NeatScan fourMaps openLayout 0 m b a := by
    intro b a hb ha hc0
    have hor : ∀ r c, (b r c || a r c) = true → U r c = true := by
      intro r c e
      rcases (Bool.or_eq_true _ _).mp e with e | e
      · exact hb r c e
      · exact ha r c e
    refine ⟨fun r c _ _ e => ?_, fun r c _ _ e hm => ?_, ?_⟩
    · have := hc0 r c e
      subst this
      exact .inr (by rw [hx]; exact hlt)
    · have := hc0 r c e
      subst this
      have hf := modKey_functional hm m
      rw [hx] at hf
      omega
    · intro r c r' c' _ _ _ _ e1 e2 _ e3
      exact hU r c r' c' (hor r c e1) (hor r' c' e2) e3
  have t : typeKeys fourMaps openLayout 0 S S' (keysOf openLayout) m = (if S' z.1 z.2 then [x] else [], m) := by
    rw [typeKeys_one _ (keysOf_nodup openLayout) hz (fun y _ hy => Decidable.byContradiction fun e =>
      hy (hch y.1 y.2 e)) hne, hx, char_not_mod hlt]
    rfl
  obtain ⟨a1, a2, a3⟩ := phase (hscan S S hS hS fun r c e => absurd rfl e)
    (hscan S' S' hS' hS' fun r c e => absurd rfl e) h hR (hscan S S' hS hS' hch) hn t
  exact ⟨a1, a2, a3, h.next hR hn⟩

/-- Two keys that overlap: the second one is pressed before the first one is released. -/
theorem roll_neat {pre : List Input} (h : Rested pre) {p q : Place} (hp : p ∈ classicPlaces)
    (hq : q ∈ classicPlaces) {l l' : Legend} (hl : l ∈ charLegends) (he : l.label = p.label)
    (hl' : l' ∈ charLegends) (he' : l'.label = q.label) (hd : l.plain ≠ l'.plain) {n1 n2 n3 n4 : Nat} (h1 : 10 ≤ n1)
    (h2 : 10 ≤ n2) (h3 : 10 ≤ n3) (h4 : 10 ≤ n4) (h5 : n1 + n2 ≤ 525) (h6 : n2 + n3 ≤ 525) :
    Neat fourMaps openLayout 0 ModKeys.none pre (rollRead p q n1 n2 n3 n4) ∧
    Brief fourMaps openLayout 0 525 pre (rollRead p q n1 n2 n3 n4) ∧
    modsAt fourMaps openLayout 0 ModKeys.none pre (rollRead p q n1 n2 n3 n4) = ModKeys.none ∧
    Settled openLayout (pre ++ rollRead p q n1 n2 n3 n4) (placesDown []) ∧
    typist fourMaps openLayout 0 ModKeys.none pre (rollRead p q n1 n2 n3 n4) =
      (List.replicate 9 [] ++ [[l.plain]] ++ List.replicate (n1 - 10) []) ++
        ((List.replicate 9 [] ++ [[l'.plain]] ++ List.replicate (n2 - 10) []) ++
          ((List.replicate 9 [] ++ [[]] ++ List.replicate (n3 - 10) []) ++
            (List.replicate 9 [] ++ [[]] ++ List.replicate (n4 - 10) []))) := by
  obtain ⟨c1, _, c3, _⟩ := char_code hp hl he
  obtain ⟨d1, _, d3, _⟩ := char_code hq hl' he'
  have hne : (p.row, p.col) ≠ (q.row, q.col) := by
    intro e
    injection e with e1 e2
    rw [e1, e2, d1] at c1
    exact hd c1.symm
  have v0 : ∀ r c, placesDown [] r c = false := fun _ _ => rfl
  have vp : ∀ r c, placesDown [p] r c = decide ((r, c) = (p.row, p.col)) := fun r c => by
    rw [placesDown_eq, v0, Bool.or_false]
  have vq : ∀ r c, placesDown [q] r c = decide ((r, c) = (q.row, q.col)) := fun r c => by
    rw [placesDown_eq, v0, Bool.or_false]
  have vpq : ∀ r c, placesDown [p, q] r c =
      (decide ((r, c) = (p.row, p.col)) || decide ((r, c) = (q.row, q.col))) := fun r c => by
    rw [placesDown_eq, vq]
  have hU : ∀ r c r' c', placesDown [p, q] r c = true → placesDown [p, q] r' c' = true →
      ModKeys.none.code fourMaps openLayout 0 r c = ModKeys.none.code fourMaps openLayout 0 r' c' →
      r = r' ∧ c = c' := by
    intro r c r' c' e1 e2 e3
    rw [vpq, Bool.or_eq_true, decide_eq_true_eq, decide_eq_true_eq, Prod.mk.injEq, Prod.mk.injEq] at e1 e2
    rcases e1 with ⟨rfl, rfl⟩ | ⟨rfl, rfl⟩ <;> rcases e2 with ⟨rfl, rfl⟩ | ⟨rfl, rfl⟩
    · exact ⟨rfl, rfl⟩
    · rw [c1, d1] at e3
      exact absurd e3 hd
    · rw [c1, d1] at e3
      exact absurd e3.symm hd
    · exact ⟨rfl, rfl⟩
  have Rp := reads_keys (l := [p]) (fun z hz => by rw [List.mem_singleton.mp hz]; exact hp)
  have Rq := reads_keys (l := [q]) (fun z hz => by rw [List.mem_singleton.mp hz]; exact hq)
  have R0 := reads_keys (l := []) (fun z hz => by cases hz)
  have Rpq := reads_keys (l := [p, q]) (fun z hz => by
    rcases List.mem_cons.mp hz with rfl | hz
    · exact hp
    · rw [List.mem_singleton.mp hz]; exact hq)
  have u0 : ∀ r c, placesDown [] r c = true → placesDown [p, q] r c = true := fun r c e => by
    rw [v0] at e; cases e
  have up : ∀ r c, placesDown [p] r c = true → placesDown [p, q] r c = true := fun r c e => by
    rw [vp] at e; rw [vpq, e]; rfl
  have uq : ∀ r c, placesDown [q] r c = true → placesDown [p, q] r c = true := fun r c e => by
    rw [vq] at e; rw [vpq, e, Bool.or_true]
  have h0 : Settled openLayout pre (placesDown []) := h.settled
  obtain ⟨a1, a2, a3, a4⟩ := toggle (z := (p.row, p.col)) c1 c3 (place_in hp) u0 up hU (fun r c e => by
    rw [v0, vp] at e
    by_cases ez : (r, c) = (p.row, p.col)
    · exact ez
    · simp [ez] at e) (by rw [v0, vp]; simp) h0 Rp h1
  obtain ⟨b1, b2, b3, b4⟩ := toggle (z := (q.row, q.col)) d1 d3 (place_in hq) up (fun _ _ e => e) hU (fun r c e => by
    rw [vpq, vp] at e
    by_cases ez : (r, c) = (q.row, q.col)
    · exact ez
    · simp [ez] at e) (by rw [vpq, vp, decide_eq_false hne.symm]; simp) a4 Rpq h2
  obtain ⟨e1, e2, e3, e4⟩ := toggle (z := (p.row, p.col)) c1 c3 (place_in hp) (fun _ _ e => e) uq hU (fun r c e => by
    rw [vpq, vq] at e
    by_cases ez : (r, c) = (p.row, p.col)
    · exact ez
    · simp [ez] at e) (by rw [vpq, vq, decide_eq_false hne]; simp) b4 Rq h3
  obtain ⟨f1, f2, f3, f4⟩ := toggle (z := (q.row, q.col)) d1 d3 (place_in hq) uq u0 hU (fun r c e => by
    rw [vq, v0] at e
    by_cases ez : (r, c) = (q.row, q.col)
    · exact ez
    · simp [ez] at e) (by rw [vq, v0]; simp) e4 R0 h4
  have wp : placesDown [p] p.row p.col = true := by rw [vp]; simp
  have wpq : placesDown [p, q] q.row q.col = true := by rw [vpq]; simp
  have wq : placesDown [q] p.row p.col = false := by rw [vq, decide_eq_false hne]
  dsimp only at a1 b1 e1 f1
  rw [wp] at a1
  rw [wpq] at b1
  rw [wq] at e1
  rw [v0] at f1
  have T : typist fourMaps openLayout 0 ModKeys.none pre (rollRead p q n1 n2 n3 n4) =
      (List.replicate 9 [] ++ [[l.plain]] ++ List.replicate (n1 - 10) []) ++
        ((List.replicate 9 [] ++ [[l'.plain]] ++ List.replicate (n2 - 10) []) ++
          ((List.replicate 9 [] ++ [[]] ++ List.replicate (n3 - 10) []) ++
            (List.replicate 9 [] ++ [[]] ++ List.replicate (n4 - 10) []))) := by
    unfold rollRead
    rw [typist_append, a1, a2, typist_append, b1, b2, typist_append, e1, e2, f1]
    rfl
  have M : modsAt fourMaps openLayout 0 ModKeys.none pre (rollRead p q n1 n2 n3 n4) = ModKeys.none := by
    unfold rollRead
    rw [modsAt_append, a2, modsAt_append, b2, modsAt_append, e2, f2]
  have N : Neat fourMaps openLayout 0 ModKeys.none pre (rollRead p q n1 n2 n3 n4) := by
    unfold rollRead
    rw [neat_append, a2, neat_append, b2, neat_append, e2]
    exact ⟨a3, b3, e3, f3⟩
  have hset : Settled openLayout (pre ++ rollRead p q n1 n2 n3 n4) (placesDown []) := by
    unfold rollRead
    simpa using f4
  have hb : Brief fourMaps openLayout 0 525 pre (rollRead p q n1 n2 n3 n4) := by
    refine brief_of_pulse h.settled fun r c hr hc hf => ⟨rfl, ?_⟩
    unfold rollRead
    simp only [samples_append, samples_replicate]
    rw [Rp r c hr hc, Rq r c hr hc, Rpq r c hr hc, R0 r c hr hc, vp, vq, vpq, v0]
    by_cases ep : (r, c) = (p.row, p.col)
    · have eq : ¬ (r, c) = (q.row, q.col) := fun e => hne (ep.symm.trans e)
      refine ⟨0, n1 + n2, n3 + n4, h5, ?_⟩
      rw [decide_eq_true ep, decide_eq_false eq]
      simp [← List.replicate_append_replicate]
    · by_cases eq : (r, c) = (q.row, q.col)
      · refine ⟨n1, n2 + n3, n4, h6, ?_⟩
        rw [decide_eq_true eq, decide_eq_false ep]
        simp [← List.replicate_append_replicate]
      · refine ⟨n1 + (n2 + (n3 + n4)), 0, 0, by omega, ?_⟩
        rw [decide_eq_false eq, decide_eq_false ep]
        simp
  exact ⟨N, hb, M, hset, T⟩

theorem Rested.rollover {pre : List Input} (h : Rested pre) {p q : Place} (hp : p ∈ classicPlaces)
    (hq : q ∈ classicPlaces) {l l' : Legend} (hl : l ∈ charLegends) (he : l.label = p.label)
    (hl' : l' ∈ charLegends) (he' : l'.label = q.label) (hd : l.plain ≠ l'.plain) {n1 n2 n3 n4 : Nat} (h1 : 10 ≤ n1)
    (h2 : 10 ≤ n2) (h3 : 10 ≤ n3) (h4 : 10 ≤ n4) (h5 : n1 + n2 ≤ 525) (h6 : n2 + n3 ≤ 525) :
    Rested (pre ++ rollRead p q n1 n2 n3 n4) ∧
      received (pre ++ rollRead p q n1 n2 n3 n4) = received pre ++ [(false, l.plain), (false, l'.plain)] := by
  obtain ⟨N, hb, M, hset, T⟩ := roll_neat h hp hq hl he hl' he' hd h1 h2 h3 h4 h5 h6
  have := h.text N hb M hset (by
    rw [T]
    intro u hu
    simp only [List.mem_append, List.mem_replicate, List.mem_singleton] at hu
    rcases hu with ((hu | hu) | hu) | ((hu | hu) | hu) | ((hu | hu) | hu) | (hu | hu) | hu
    all_goals first
      | (rw [hu.2]; exact Nat.zero_le _)
      | (rw [hu]; exact Nat.le_refl _)
      | (rw [hu]; exact Nat.zero_le _)) (by
    have e : List.replicate 9 [] ++ [[]] ++ List.replicate (n4 - 10) [] = List.replicate n4 ([] : List Code) := by
      rw [show [[]] = List.replicate 1 ([] : List Code) from rfl, List.replicate_append_replicate,
        List.replicate_append_replicate]
      congr 1
      omega
    rw [T, e, List.getLast?_append, List.getLast?_append, List.getLast?_append, List.getLast?_replicate,
      if_neg (by omega)]
    rfl)
  rw [T] at this
  refine ⟨this.1, this.2.trans ?_⟩
  simp

/-- **C91, rollover.**  After any text typed with clean key strokes, two keys with different
characters that overlap arrive in the order in which they were pressed. -/
theorem C91_rollover (start : Nat) (ss : List (Stroke × Code)) (ht : ∀ s ∈ ss, s.1.Types s.2) (p q : Place)
    (hp : p ∈ classicPlaces) (hq : q ∈ classicPlaces) (l l' : Legend) (hl : l ∈ charLegends)
    (he : l.label = p.label) (hl' : l' ∈ charLegends) (he' : l'.label = q.label) (hd : l.plain ≠ l'.plain)
    (n1 n2 n3 n4 : Nat) (h1 : 10 ≤ n1) (h2 : 10 ≤ n2) (h3 : 10 ≤ n3) (h4 : 10 ≤ n4) (h5 : n1 + n2 ≤ 525)
    (h6 : n2 + n3 ≤ 525) :
    ∃ s, powerUp shipped (List.replicate start (keysClosed []) ++ strokesRead ss ++ rollRead p q n1 n2 n3 n4) = .ok s ∧
      sends s.dev.trace = ss.map Prod.snd ++ [l.plain, l'.plain] ∧ keystrokes s = [] ∧ messages s = [] := by
  obtain ⟨r1, r2⟩ := strokes_received (start := start) ht
  obtain ⟨g1, g2⟩ := r1.rollover hp hq hl he hl' he' hd h1 h2 h3 h4 h5 h6
  have hp8 := char_not_dip hp hl he
  have hq8 := char_not_dip hq hl' he'
  have hsafe : NeverTrips (List.replicate start (keysClosed []) ++ strokesRead ss ++ rollRead p q n1 n2 n3 n4) := by
    refine never_of_open fun inp hi => ?_
    rcases List.mem_append.mp hi with hi | hi
    · exact strokes_dips ht inp hi 2 (by omega)
    · have hcl : ∃ k : List Place, (∀ z ∈ k, z = p ∨ z = q) ∧ inp = keysClosed k := by
        simp only [rollRead, List.mem_append, List.mem_replicate] at hi
        rcases hi with hi | hi | hi | hi
        · exact ⟨_, fun z hz => .inl (List.mem_singleton.mp hz), hi.2⟩
        · refine ⟨_, fun z hz => ?_, hi.2⟩
          rcases List.mem_cons.mp hz with e | e
          · exact .inl e
          · exact .inr (List.mem_singleton.mp e)
        · exact ⟨_, fun z hz => .inr (List.mem_singleton.mp hz), hi.2⟩
        · exact ⟨_, (fun z hz => by cases hz), hi.2⟩
      obtain ⟨k, hk, rfl⟩ := hcl
      refine keys_not_dip (fun z hz => ?_) (by omega)
      rcases hk z hz with rfl | rfl
      · exact ⟨hp, hp8⟩
      · exact ⟨hq, hq8⟩
  obtain ⟨s, e1, e2, e3, e4⟩ := C77_shipped _ hsafe
  have hon := after_onLine fourMaps openLayout
    (List.replicate start (keysClosed []) ++ strokesRead ss ++ rollRead p q n1 n2 n3 n4)
  refine ⟨s, e1, ?_, by rw [e3, ← hon.keys]; exact g1.keys, by rw [e4, ← hon.msgs]; exact g1.msgs⟩
  rw [sends_hostSees, e2, show (channel _ _).host = _ from g2, r2, List.map_append, List.map_map]
  rfl

/-! ## Any text can be typed -/

/-- A clean key stroke for a character, if there is a key for it. -/
def strokeFor (x : Code) : Option Stroke :=
  classicPlaces.findSome? fun p => charLegends.findSome? fun l =>
    if l.label = p.label then
      if l.plain = x then some ⟨none, p, 0, 10, 0, 10⟩
      else if l.shifted = x then some ⟨some ⟨.key 39, "L_Shift", 0, 2⟩, p, 10, 10, 10, 10⟩
      else if 0x40 ≤ l.plain.toNat ∧ l.plain.toNat ≤ 0x7A ∧ l.plain &&& 0x1F = x then
        some ⟨some ⟨.key 53, "CTRL", 0, 6⟩, p, 10, 10, 10, 10⟩
      else none
    else none

theorem strokeFor_types {x : Code} {s : Stroke} (h : strokeFor x = some s) : s.Types x := by
  obtain ⟨p, hp, h⟩ := List.exists_of_findSome?_eq_some h
  obtain ⟨l, hl, h⟩ := List.exists_of_findSome?_eq_some h
  by_cases he : l.label = p.label
  · rw [if_pos he] at h
    by_cases h1 : l.plain = x
    · rw [if_pos h1] at h
      cases h
      exact ⟨hp, Nat.le_refl 10, show 10 ≤ 525 by decide, Nat.le_refl 10, l, hl, he, h1.symm⟩
    · rw [if_neg h1] at h
      by_cases h2 : l.shifted = x
      · rw [if_pos h2] at h
        cases h
        exact ⟨hp, Nat.le_refl 10, show 10 ≤ 525 by decide, Nat.le_refl 10, l, hl, he, by decide +kernel,
          Nat.le_refl 10, Nat.le_refl 10, .inl ⟨.inl rfl, h2.symm⟩⟩
      · rw [if_neg h2] at h
        by_cases h3 : 0x40 ≤ l.plain.toNat ∧ l.plain.toNat ≤ 0x7A ∧ l.plain &&& 0x1F = x
        · rw [if_pos h3] at h
          cases h
          exact ⟨hp, Nat.le_refl 10, show 10 ≤ 525 by decide, Nat.le_refl 10, l, hl, he, by decide +kernel,
            Nat.le_refl 10, Nat.le_refl 10, .inr ⟨rfl, h3.1, h3.2.1, h3.2.2.symm⟩⟩
        · rw [if_neg h3] at h
          cases h
  · rw [if_neg he] at h
    cases h

theorem onKeys_stroke : ∀ n, n < 256 → onKeys (UInt8.ofNat n) = true → (strokeFor (UInt8.ofNat n)).isSome = true := by
  decide +kernel

/-- **C91, any text.**  Every text made of ASCII characters other than `^`, `_`, 0x1E and 0x1F can be typed
with clean key strokes, and then the host receives it. -/
theorem C91_any_text (text : List Code) (h : ∀ x ∈ text, onKeys x = true) :
    ∃ ss : List (Stroke × Code), (∀ s ∈ ss, s.1.Types s.2) ∧ ss.map Prod.snd = text ∧
      ∃ s, powerUp shipped (strokesRead ss) = .ok s ∧ sends s.dev.trace = text ∧
        keystrokes s = [] ∧ messages s = [] := by
  have key : ∃ ss : List (Stroke × Code), (∀ s ∈ ss, s.1.Types s.2) ∧ ss.map Prod.snd = text := by
    induction text with
    | nil => exact ⟨[], (fun s hs => by cases hs), rfl⟩
    | cons x text ih =>
      obtain ⟨ss, h1, h2⟩ := ih fun y hy => h y (List.mem_cons_of_mem _ hy)
      have hx := onKeys_stroke x.toNat x.toNat_lt (by rw [UInt8.ofNat_toNat]; exact h x List.mem_cons_self)
      rw [UInt8.ofNat_toNat] at hx
      obtain ⟨s, hs⟩ := Option.isSome_iff_exists.mp hx
      refine ⟨(s, x) :: ss, fun z hz => ?_, by rw [List.map_cons, h2]⟩
      rcases List.mem_cons.mp hz with rfl | hz
      · exact strokeFor_types hs
      · exact h1 z hz
  obtain ⟨ss, h1, h2⟩ := key
  obtain ⟨s, e1, e2, _, e3, e4⟩ := C91_strokes 0 ss h1
  exact ⟨ss, h1, h2, s, e1, e2.trans h2, e3, e4⟩

/-! ## Non-vacuity -/

/-- "Hi!": SHIFT-H, I, SHIFT-1. -/
def hello : List (Stroke × Code) :=
  [(⟨some ⟨.key 39, "L_Shift", 0, 2⟩, ⟨.key 45, "H", 3, 3⟩, 20, 30, 10, 25⟩, ch 'H'),
   (⟨none, ⟨.key 4, "I", 4, 1⟩, 0, 40, 0, 10⟩, ch 'i'),
   (⟨some ⟨.key 35, "R_Shift", 0, 1⟩, ⟨.key 31, "1", 7, 7⟩, 15, 525, 12, 10⟩, ch '!')]

example : ∀ s ∈ hello, s.1.Types s.2 := by
  intro s hs
  simp only [hello, List.mem_cons, List.not_mem_nil, or_false] at hs
  rcases hs with rfl | rfl | rfl
  · exact ⟨by decide +kernel, by decide, by decide, by decide, ⟨"H", ch 'h', ch 'H'⟩, by decide, rfl,
      by decide +kernel, by decide, by decide, .inl ⟨by decide, rfl⟩⟩
  · exact ⟨by decide +kernel, by decide, by decide, by decide, ⟨"I", ch 'i', ch 'I'⟩, by decide, rfl, rfl⟩
  · exact ⟨by decide +kernel, by decide, by decide, by decide, ⟨"1", ch '1', ch '!'⟩, by decide, rfl,
      by decide +kernel, by decide, by decide, .inl ⟨by decide, rfl⟩⟩

/-- The hypotheses of the general theorem are met by the two overlapping keys H and I. -/
example : let more := rollRead ⟨.key 45, "H", 3, 3⟩ ⟨.key 4, "I", 4, 1⟩ 20 15 20 10
    Neat fourMaps openLayout 0 ModKeys.none [] more ∧ Brief fourMaps openLayout 0 525 [] more ∧
    (typist fourMaps openLayout 0 ModKeys.none [] more).flatten = [ch 'h', ch 'i'] := by
  obtain ⟨N, hb, _, _, T⟩ := roll_neat rested_nil (p := ⟨.key 45, "H", 3, 3⟩) (q := ⟨.key 4, "I", 4, 1⟩)
    (l := ⟨"H", ch 'h', ch 'H'⟩) (l' := ⟨"I", ch 'i', ch 'I'⟩) (by decide +kernel) (by decide +kernel) (by decide) rfl
    (by decide) rfl (by decide) (n1 := 20) (n2 := 15) (n3 := 20) (n4 := 10) (by decide) (by decide) (by decide)
    (by decide) (by decide) (by decide)
  exact ⟨N, hb, by rw [T]; rfl⟩

/-- Two keys for the rollover. -/
example : (⟨.key 45, "H", 3, 3⟩ : Place) ∈ classicPlaces ∧ (⟨.key 4, "I", 4, 1⟩ : Place) ∈ classicPlaces ∧
    (⟨"H", ch 'h', ch 'H'⟩ : Legend) ∈ charLegends ∧ (⟨"I", ch 'i', ch 'I'⟩ : Legend) ∈ charLegends ∧
    ch 'h' ≠ ch 'i' := by
  refine ⟨by decide +kernel, by decide +kernel, by decide, by decide, by decide⟩

example : ∀ x ∈ "10 PRINT \"Hello, world\"\n".toList.map ch, onKeys x = true := by decide

end Asdf.Props
