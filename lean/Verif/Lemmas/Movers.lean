import Verif.Lemmas.Bounce
import Verif.Lemmas.Pins
import Verif.Spec.Movers

/-! # Movements of keys at positions of the matrix -/

namespace Asdf

open Spec Avr Typist Loose

namespace Movers

variable {i : UInt8}

/-- Exactly these keys are down. -/
def posDown (l : List (Nat × Nat)) : Down := fun r c => decide ((r, c) ∈ l)

theorem one_bit : ∀ c < 8, ∀ d < 8, bitOf (oneBit d) c = decide (d = c) := by decide +kernel

theorem closed_bit {r c : Nat} (hc : c < 8) (l : List (Nat × Nat)) (hl : ∀ p ∈ l, p.2 < 8) (b : UInt8) :
    bitOf (l.foldl (fun b x => if x.1 = r then b ||| oneBit x.2 else b) b) c = (bitOf b c || decide ((r, c) ∈ l)) := by
  induction l generalizing b with
  | nil => simp
  | cons p l ih =>
    rw [List.foldl_cons, ih fun q hq => hl q (List.mem_cons_of_mem _ hq)]
    by_cases h : p.1 = r
    · rw [if_pos h, bitOf_or, one_bit c hc p.2 (hl p List.mem_cons_self), Bool.or_assoc]
      congr 1
      rw [Bool.eq_iff_iff]
      simp only [Bool.or_eq_true, decide_eq_true_eq, List.mem_cons, Prod.ext_iff]
      constructor
      · rintro (e | e)
        · exact .inl ⟨h.symm, by omega⟩
        · exact .inr e
      · rintro (e | e)
        · exact .inl (by omega)
        · exact .inr e
    · rw [if_neg h]
      congr 1
      rw [Bool.eq_iff_iff]
      simp only [decide_eq_true_eq, List.mem_cons, Prod.ext_iff]
      exact ⟨.inr, fun e => e.elim (fun e => absurd e.1.symm h) id⟩

theorem reads_closed {l : List (Nat × Nat)} (hl : ∀ p ∈ l, p.2 < 8) : Reads openLayout (closedAt l) (posDown l) := by
  intro r c _ hc
  show bitOf _ c = _
  unfold closedAt
  rw [closed_bit hc l hl, bitOf_zero]
  rfl

theorem mem_toggled {down : List (Nat × Nat)} (hn : down.Nodup) {z p : Nat × Nat} :
    p ∈ toggled down z ↔ (p ≠ z ∧ p ∈ down) ∨ (p = z ∧ z ∉ down) := by
  unfold toggled
  by_cases h : z ∈ down
  · rw [if_pos h, hn.mem_erase_iff]
    simp [h]
  · rw [if_neg h, List.mem_cons]
    constructor
    · rintro (rfl | hp)
      · exact .inr ⟨rfl, h⟩
      · exact .inl ⟨fun e => h (e ▸ hp), hp⟩
    · rintro (⟨_, hp⟩ | ⟨rfl, _⟩)
      · exact .inr hp
      · exact .inl rfl

theorem toggled_nodup {down : List (Nat × Nat)} (h : down.Nodup) (z : Nat × Nat) : (toggled down z).Nodup := by
  unfold toggled
  split
  · exact h.erase z
  · exact List.nodup_cons.mpr ⟨by assumption, h⟩

theorem posDown_off {l l' : List (Nat × Nat)} {z : Nat × Nat} (h : ∀ p, p ≠ z → (p ∈ l ↔ p ∈ l')) {r c : Nat}
    (hz : (r, c) ≠ z) : posDown l r c = posDown l' r c := by
  unfold posDown
  rw [Bool.eq_iff_iff, decide_eq_true_eq, decide_eq_true_eq]
  exact h (r, c) hz

/-- What holds of the state during the typing. -/
structure Fine (i : UInt8) (s : Session) : Prop where
  inside : ∀ p ∈ s.down, p.1 < 9 ∧ p.2 < 8
  nodup : s.down.Nodup
  holds : ∀ p ∈ s.down, Holds fourMaps openLayout i s.hand p

theorem Fine.next {s : Session} (h : Fine i s) {z : Nat × Nat} (hz : MayToggle i s z) : Fine i (s.move i z) := by
  obtain ⟨h1, h2, _, h4⟩ := hz
  refine ⟨?_, toggled_nodup h.nodup z, fun p hp => (h4 p hp).hold rfl rfl⟩
  intro p hp
  rcases (mem_toggled h.nodup).mp hp with ⟨_, hp⟩ | ⟨rfl, _⟩
  · exact h.inside p hp
  · exact ⟨by omega, h2⟩

theorem Fine.held {s : Session} (h : Fine i s) : ∀ x ∈ keysOf openLayout, posDown s.down x.1 x.2 = true →
    Holds fourMaps openLayout i s.hand x := by
  intro x _ e
  exact h.holds x (of_decide_eq_true e)

theorem pos_in {z : Nat × Nat} (h1 : z.1 < 8) (h2 : z.2 < 8) : z ∈ keysOf openLayout :=
  (mem_keysOf openLayout).mpr ⟨Nat.lt_succ_of_lt h1, h2⟩

/-! ## One movement -/

theorem moves_any {down : List (Nat × Nat)} (hpl : ∀ p ∈ down, p.2 < 8) (hnd : down.Nodup) {v : KeyMove}
    (hz1 : v.key.1 < 9) (hz2 : v.key.2 < 8) (hb : v.bounce.length ≤ 9) (hs : 10 ≤ v.steady) :
    OneMoves openLayout (posDown down) (posDown (toggled down v.key)) v.key v.bounce v.steady (v.readings down) := by
  obtain ⟨z, bs, n⟩ := v
  dsimp only at hz1 hz2 hb hs ⊢
  have hset : ∀ b : Bool, ∀ p, p ∈ (if b then z :: down.erase z else down.erase z) ↔ (p ≠ z ∧ p ∈ down) ∨ (p = z ∧ b = true) := by
    intro b p
    cases b
    · rw [if_neg (by decide), hnd.mem_erase_iff]
      simp
    · rw [if_pos rfl, List.mem_cons, hnd.mem_erase_iff]
      simp [or_comm]
  have hin : ∀ b : Bool, ∀ p ∈ (if b then z :: down.erase z else down.erase z), p.2 < 8 := by
    intro b p hp
    rcases (hset b p).mp hp with ⟨_, hp⟩ | ⟨rfl, _⟩
    · exact hpl p hp
    · exact hz2
  have hmov : ∀ p ∈ toggled down z, p.2 < 8 := by
    intro p hp
    rcases (mem_toggled hnd).mp hp with ⟨_, hp⟩ | ⟨rfl, _⟩
    · exact hpl p hp
    · exact hz2
  have hoff : ∀ p, p ≠ z → (p ∈ toggled down z ↔ p ∈ down) := by
    intro p hp
    rw [mem_toggled hnd]
    simp [hp]
  have hboff : ∀ b : Bool, ∀ p, p ≠ z → (p ∈ (if b then z :: down.erase z else down.erase z) ↔ p ∈ down) := by
    intro b p hp
    rw [hset]
    simp [hp]
  have hr : z.1 < openLayout.rows := hz1
  have hc : z.2 < openLayout.cols := hz2
  refine ⟨hb, hs, ?_, hr, hc, ?_, ?_, ?_, ?_⟩
  · simp [KeyMove.readings]
  · show decide (z ∈ toggled down z) = !decide (z ∈ down)
    by_cases e : z ∈ down <;> simp [mem_toggled hnd, e]
  · exact fun r c e => posDown_off hoff e
  · show samplesOf (List.map _ bs ++ List.replicate n (closedAt (toggled down z))) z.1 z.2 = _
    rw [samples_append, samples_replicate, reads_closed hmov z.1 z.2 hr hc]
    congr 1
    show List.map _ (List.map _ bs) = _
    rw [List.map_map]
    refine Eq.trans (List.map_congr_left fun b _ => ?_) (List.map_id bs)
    show sample (closedAt (if b then z :: down.erase z else down.erase z)) z.1 z.2 = b
    rw [reads_closed (hin b) z.1 z.2 hr hc]
    show decide (z ∈ _) = b
    rw [Bool.eq_iff_iff, decide_eq_true_eq, hset b z]
    simp
  · intro r c hr hc e
    rw [List.eq_replicate_iff]
    refine ⟨by rw [samplesOf, List.length_map], ?_⟩
    intro y hy
    obtain ⟨inp, hi, rfl⟩ := List.mem_map.mp hy
    rcases List.mem_append.mp hi with hi | hi
    · obtain ⟨b, _, rfl⟩ := List.mem_map.mp hi
      refine (reads_closed (hin b) r c hr hc).trans ?_
      exact posDown_off (hboff b) e
    · rw [(List.mem_replicate.mp hi).2]
      refine (reads_closed hmov r c hr hc).trans ?_
      exact posDown_off hoff e

theorem moves_one {down : List (Nat × Nat)} (hpl : ∀ p ∈ down, p.2 < 8) (hnd : down.Nodup) {v : KeyMove}
    (hz1 : v.key.1 < 8) (hz2 : v.key.2 < 8) (hb : v.bounce.length ≤ 9) (hs : 10 ≤ v.steady) :
    OneMoves openLayout (posDown down) (posDown (toggled down v.key)) v.key v.bounce v.steady (v.readings down) :=
  moves_any hpl hnd (Nat.lt_succ_of_lt hz1) hz2 hb hs

theorem one_moves {s : Session} (h : Fine i s) {v : KeyMove} (hM : MayToggle i s v.key)
    (hb : v.bounce.length ≤ 9) (hs : 10 ≤ v.steady) :
    OneMoves openLayout (posDown s.down) (posDown (toggled s.down v.key)) v.key v.bounce v.steady
      (v.readings s.down) :=
  moves_one (fun p hp => (h.inside p hp).2) h.nodup hM.1 hM.2.1 hb hs

/-- One movement of a key. -/
theorem one_movement {s : Session} (h : Fine i s) {v : KeyMove} (hM : MayToggle i s v.key)
    (hb : v.bounce.length ≤ 9) (hs : 10 ≤ v.steady) {pre : List Input}
    (hpre : Settled openLayout pre (posDown s.down)) :
    (∃ j k, typist fourMaps openLayout i s.hand.mods pre (v.readings s.down) =
      List.replicate j [] ++ ([s.text i v.key] ++ List.replicate k [])) ∧
    handAt fourMaps openLayout i s.hand pre (v.readings s.down) = (s.move i v.key).hand ∧
    Tidy fourMaps openLayout i s.hand pre (v.readings s.down) := by
  have hn := h.next hM
  have M := one_moves h hM hb hs
  obtain ⟨hz1, hz2, ht, _⟩ := hM
  have hzin := pos_in hz1 hz2
  generalize hzz : v.key = z at *
  have hj : acceptAt (posDown s.down z.1 z.2) v.bounce < (v.readings s.down).length := by
    have := (accept_bounds (posDown s.down z.1 z.2) hb).2
    rw [M.size]
    omega
  have hdur := fun k hk r c hr hc => M.during hpre (k := k) hk (r := r) (c := c) hr hc
  have hch : ∀ x ∈ keysOf openLayout, x ≠ z →
      posDown s.down x.1 x.2 = posDown (s.move i z).down x.1 x.2 := fun x _ e => (M.same x.1 x.2 e).symm
  have hb0 : posDown s.down z.1 z.2 = decide (z ∈ s.down) := rfl
  have ha0 : posDown (s.move i z).down z.1 z.2 = decide (z ∉ s.down) := by
    show decide (z ∈ toggled s.down z) = _
    by_cases e : z ∈ s.down <;> simp [mem_toggled h.nodup, e]
  have hne : posDown s.down z.1 z.2 ≠ posDown (s.move i z).down z.1 z.2 := by
    rw [hb0, ha0]
    by_cases e : z ∈ s.down <;> simp [e]
  obtain ⟨t1, t2⟩ := tidy_one (cfg := fourMaps) (L := openLayout) (i := i) (b := posDown s.down)
    (a := posDown (s.move i z).down) (h := s.hand) (h' := (s.move i z).hand) (keysOf openLayout)
    (keysOf_nodup openLayout) hzin hch (fun x hx _ => h.held x hx) (fun x hx _ => hn.held x hx)
    (by rw [hb0, ha0]; exact ht) (by rw [hb0, ha0]; rfl)
  have hone := typeKeys_one (cfg := fourMaps) (L := openLayout) (i := i) (b := posDown s.down)
    (a := posDown (s.move i z).down) _ (keysOf_nodup openLayout) hzin hch hne s.hand.mods
  have hu : (typeKeys fourMaps openLayout i (posDown s.down) (posDown (s.move i z).down) (keysOf openLayout)
      s.hand.mods).1 = s.text i z := by
    rw [hone, ha0]
    unfold Session.text Session.code
    by_cases e : z ∈ s.down <;> by_cases e' : isModCode (s.hand.mods.code fourMaps openLayout i z.1 z.2) = true <;>
      simp [e, e']
  obtain ⟨a1, a2, a3⟩ := phase_list h.held hn.held t1 t2 hj hdur hu
  exact ⟨⟨_, _, a1⟩, a2, a3⟩

/-! ## All movements -/

theorem text_one (s : Session) (z : Nat × Nat) : (s.text i z).length ≤ 1 := by
  unfold Session.text
  split
  · exact Nat.zero_le _
  · split
    · exact Nat.zero_le _
    · exact Nat.le_refl _

theorem entries {j k : Nat} {w : List Code} (hw : w.length ≤ 1) :
    (∀ u ∈ List.replicate j [] ++ ([w] ++ List.replicate k []), u.length ≤ 1) ∧
    (List.replicate j [] ++ ([w] ++ List.replicate k [])).flatten = w := by
  constructor
  · intro u hu
    simp only [List.mem_append, List.mem_replicate, List.mem_singleton] at hu
    rcases hu with hu | hu | hu
    · rw [hu.2]; exact Nat.zero_le _
    · rw [hu]; exact hw
    · rw [hu.2]; exact Nat.zero_le _
  · simp

theorem sound_cons {dips : List (Nat × Nat)} {s : Session} {v : KeyMove} {vs : List KeyMove}
    (h : Sound i dips s ((v :: vs).map (·.key))) (hs : Steady (v :: vs)) :
    MayToggle i s v.key ∧ v.bounce.length ≤ 9 ∧ 10 ≤ v.steady ∧ Sound i dips (s.move i v.key) (vs.map (·.key)) ∧ Steady vs :=
  ⟨h.1, (hs v List.mem_cons_self).1, (hs v List.mem_cons_self).2, h.2, fun w hw => hs w (List.mem_cons_of_mem _ hw)⟩

theorem moves_typed {dips : List (Nat × Nat)} (hdip : ∀ p ∈ dips, p.1 = 8) {s : Session} {vs : List KeyMove}
    (h : Fine i s) (hc : Sound i dips s (vs.map (·.key))) (hst : Steady vs)
    {pre : List Input} (hpre : Settled openLayout pre (posDown s.down)) :
    Tidy fourMaps openLayout i s.hand pre (keysRead s.down vs) ∧
    (∀ u ∈ typist fourMaps openLayout i s.hand.mods pre (keysRead s.down vs), u.length ≤ 1) ∧
    (typist fourMaps openLayout i s.hand.mods pre (keysRead s.down vs)).flatten = sessionText i s (vs.map (·.key)) ∧
    (typist fourMaps openLayout i s.hand.mods pre (keysRead s.down vs)).getLast?.getD [] = [] := by
  induction vs generalizing s pre with
  | nil =>
    exact ⟨trivial, fun u hu => (List.not_mem_nil hu).elim, rfl, rfl⟩
  | cons v vs ih =>
    obtain ⟨hM, hb, hs, hc, hst⟩ := sound_cons hc hst
    obtain ⟨⟨j, k, a1⟩, a2, a3⟩ := one_movement h hM hb hs hpre
    have M := one_moves h hM hb hs
    obtain ⟨b1, b4, b5, b6⟩ := ih (h.next hM) hc hst (M.settled hpre)
    obtain ⟨c1, c2⟩ := entries (j := j) (k := k) (text_one (i := i) s v.key)
    have et : typist fourMaps openLayout i s.hand.mods pre (keysRead s.down (v :: vs)) =
        typist fourMaps openLayout i s.hand.mods pre (v.readings s.down) ++
          typist fourMaps openLayout i (s.move i v.key).hand.mods (pre ++ v.readings s.down)
            (keysRead (s.move i v.key).down vs) := by
      have em : (s.move i v.key).hand.mods = modsAt fourMaps openLayout i s.hand.mods pre (v.readings s.down) := by
        rw [← handAt_mods, a2]
      rw [em]
      exact typist_append _ _ _ _
    refine ⟨?_, ?_, ?_, ?_⟩
    · refine (tidy_append _ _ _ _).mpr ⟨a3, ?_⟩
      rw [a2]
      exact b1
    · rw [et, a1]
      intro u hu
      rcases List.mem_append.mp hu with hu | hu
      · exact c1 u hu
      · exact b4 u hu
    · rw [et, List.flatten_append, b5, a1, c2]
      rfl
    · rw [et, List.getLast?_append]
      cases vs with
      | nil =>
        have hd : toggled s.down v.key = dips := hc
        have hk : v.key ∈ s.down := Decidable.byContradiction fun e => by
          have hmem : v.key ∈ toggled s.down v.key := (mem_toggled h.nodup).mpr (.inr ⟨rfl, e⟩)
          rw [hd] at hmem
          have := hdip _ hmem
          have := hM.1
          omega
        rw [a1, Session.text, if_pos hk]
        show (Option.or none _).getD [] = []
        rw [Option.none_or]
        have : List.replicate j [] ++ ([[]] ++ List.replicate k []) = List.replicate (j + (1 + k)) ([] : List Code) := by
          rw [show [[]] = List.replicate 1 ([] : List Code) from rfl, List.replicate_append_replicate,
            List.replicate_append_replicate]
        rw [this, List.getLast?_replicate]
        split <;> rfl
      | cons v' vs' =>
        have hlen : (typist fourMaps openLayout i (s.move i v.key).hand.mods (pre ++ v.readings s.down)
            (keysRead (s.move i v.key).down (v' :: vs'))).length ≠ 0 := by
          rw [typist_length]
          have := (hst v' List.mem_cons_self).2
          simp only [keysRead, KeyMove.readings, List.length_append, List.length_replicate]
          omega
        generalize typist fourMaps openLayout i (s.move i v.key).hand.mods (pre ++ v.readings s.down)
            (keysRead (s.move i v.key).down (v' :: vs')) = T at b6 hlen ⊢
        cases e : T.getLast? with
        | none =>
          rw [List.getLast?_eq_none_iff] at e
          rw [e] at hlen
          exact absurd rfl hlen
        | some u =>
          rw [e] at b6
          exact b6

/-! ## How long keys are held -/

theorem heldFor_le {d a : Nat} {z : Nat × Nat} {vs : List KeyMove} (h : HeldFor d z (some a) vs) : a ≤ d := by
  induction vs generalizing a with
  | nil => exact h
  | cons v vs ih =>
    unfold HeldFor at h
    split at h
    · omega
    · have := ih h
      omega

theorem runs_moves {dips : List (Nat × Nat)} {d : Nat} {s : Session} {vs : List KeyMove} (h : Fine i s)
    (hc : Sound i dips s (vs.map (·.key))) (hst : Steady vs)
    {pre : List Input} (hpre : Settled openLayout pre (posDown s.down)) {r c : Nat} (hr : r < openLayout.rows)
    (hcc : c < openLayout.cols) :
    (posDown s.down r c = false → HeldFor d (r, c) none vs → RunsOk d 0 (downs r c pre (keysRead s.down vs))) ∧
    (∀ a A, posDown s.down r c = true → a + 9 ≤ A → HeldFor d (r, c) (some A) vs →
      RunsOk d a (downs r c pre (keysRead s.down vs))) := by
  induction vs generalizing s pre with
  | nil => exact ⟨fun _ _ => trivial, fun _ _ _ _ _ => trivial⟩
  | cons v vs ih =>
    obtain ⟨hM, hb, hs, hc, hst⟩ := sound_cons hc hst
    have M := one_moves h hM hb hs
    obtain ⟨i1, i2⟩ := ih (h.next hM) hc hst (M.settled hpre)
    have ed : downs r c pre (keysRead s.down (v :: vs)) = downs r c pre (v.readings s.down) ++
        downs r c (pre ++ v.readings s.down) (keysRead (toggled s.down v.key) vs) := downs_append _ _ _ _ _
    have hD := M.downs hpre hr hcc
    have hlen : (v.readings s.down).length = v.scans := M.size
    obtain ⟨k1, k2⟩ := accept_bounds (posDown s.down v.key.1 v.key.2) hb
    generalize acceptAt (posDown s.down v.key.1 v.key.2) v.bounce = j at hD k1 k2
    have hD' : downs r c pre (v.readings s.down) = List.replicate j (posDown s.down r c) ++
      List.replicate (v.scans - j) (posDown (toggled s.down v.key) r c) := by rw [hD, hlen]
    have hsc : v.scans = v.bounce.length + v.steady := rfl
    rw [ed, hD']
    have hturn : v.key = (r, c) → posDown (toggled s.down v.key) r c = !posDown s.down r c := by
      intro e
      have := M.turn
      rw [e] at this ⊢
      exact this
    have hsame : v.key ≠ (r, c) → posDown (toggled s.down v.key) r c = posDown s.down r c :=
      fun e => M.same r c e.symm
    constructor
    · intro h0 hh
      unfold HeldFor at hh
      rw [runsOk_append, runsOk_append, lastRun_append, h0, lastRun_zero]
      by_cases e : v.key = (r, c)
      · rw [if_pos e] at hh
        have hn : posDown (toggled s.down v.key) r c = true := by rw [hturn e, h0]; rfl
        have hle := heldFor_le hh
        rw [hn, lastRun_true]
        exact ⟨⟨runsOk_false _ _ _, runsOk_true (by omega)⟩, i2 _ _ hn (by omega) hh⟩
      · rw [if_neg e] at hh
        have hn : posDown (toggled s.down v.key) r c = false := by rw [hsame e, h0]
        rw [hn, lastRun_zero]
        exact ⟨⟨runsOk_false _ _ _, runsOk_false _ _ _⟩, i1 hn hh⟩
    · intro a A h1 hA hh
      unfold HeldFor at hh
      rw [runsOk_append, runsOk_append, lastRun_append, h1, lastRun_true]
      by_cases e : v.key = (r, c)
      · rw [if_pos e] at hh
        have hn : posDown (toggled s.down v.key) r c = false := by rw [hturn e, h1]; rfl
        rw [hn, lastRun_false, if_neg (by omega)]
        exact ⟨⟨runsOk_true (by omega), runsOk_false _ _ _⟩, i1 hn hh.2⟩
      · rw [if_neg e] at hh
        have hn : posDown (toggled s.down v.key) r c = true := by rw [hsame e, h1]
        have hle := heldFor_le hh
        rw [hn, lastRun_true]
        exact ⟨⟨runsOk_true (by omega), runsOk_true (by omega)⟩, i2 _ _ hn (by omega) hh⟩

/-- No key is held long enough to be repeated. -/
theorem moves_brief {dips : List (Nat × Nat)} {d : Nat} {s : Session} {vs : List KeyMove} (h : Fine i s)
    (hc : Sound i dips s (vs.map (·.key))) (hst : Steady vs)
    (hdown : ∀ p ∈ s.down, Functional fourMaps openLayout i p.1 p.2) (hh : KeysBrief i d vs) {pre : List Input}
    (hpre : Settled openLayout pre (posDown s.down)) :
    Brief fourMaps openLayout i d pre (keysRead s.down vs) := by
  intro r c hr hcc hf hd
  have hnot : (r, c) ∉ s.down := fun e => hf (hdown (r, c) e)
  have hout : posDown s.down r c = false := decide_eq_false hnot
  have h0 : downAfter pre r c = false := by
    unfold downAfter debounced
    rw [hpre r c hr hcc]
    exact hout
  have hz : HeldFor d (r, c) none vs := hh (r, c) fun e => hf (modKey_functional e)
  have hruns := (runs_moves h hc hst hpre hr hcc).1 hout hz
  exact brief_of_runs h0 hruns hd

/-! ## Nothing moves for a while first -/

theorem stay_down {S : Down} {R : Input} (hR : Reads openLayout R S) {pre : List Input} (hpre : Settled openLayout pre S)
    (n : Nat) {r c : Nat} (hr : r < openLayout.rows) (hc : c < openLayout.cols) :
    downAfter (pre ++ List.replicate n R) r c = S r c := by
  unfold downAfter debounced
  rw [hpre.stay hR n r c hr hc]

theorem lead_still {s : Session} (h : Fine i s) {pre : List Input} (hpre : Settled openLayout pre (posDown s.down))
    (n : Nat) :
    typist fourMaps openLayout i s.hand.mods pre (List.replicate n (closedAt s.down)) = List.replicate n [] ∧
    handAt fourMaps openLayout i s.hand pre (List.replicate n (closedAt s.down)) = s.hand ∧
    Tidy fourMaps openLayout i s.hand pre (List.replicate n (closedAt s.down)) := by
  have hR := reads_closed (l := s.down) fun p hp => (h.inside p hp).2
  have := still_list (i := i) h.held (List.replicate n (closedAt s.down)) pre fun k _ r c hr hc => by
    rw [List.take_replicate]
    exact stay_down hR hpre _ hr hc
  rwa [List.length_replicate] at this

theorem lead_typed {dips : List (Nat × Nat)} (hdip : ∀ p ∈ dips, p.1 = 8) {s : Session} {vs : List KeyMove}
    (h : Fine i s) (hc : Sound i dips s (vs.map (·.key))) (hst : Steady vs)
    {pre : List Input} (hpre : Settled openLayout pre (posDown s.down)) (n : Nat) :
    let more := List.replicate n (closedAt s.down) ++ keysRead s.down vs
    Tidy fourMaps openLayout i s.hand pre more ∧
    (∀ u ∈ typist fourMaps openLayout i s.hand.mods pre more, u.length ≤ 1) ∧
    (typist fourMaps openLayout i s.hand.mods pre more).flatten = sessionText i s (vs.map (·.key)) ∧
    (typist fourMaps openLayout i s.hand.mods pre more).getLast?.getD [] = [] := by
  intro more
  obtain ⟨a1, a2, a3⟩ := lead_still h hpre n
  have hR := reads_closed (l := s.down) fun p hp => (h.inside p hp).2
  obtain ⟨b1, b2, b3, b4⟩ := moves_typed hdip h hc hst (hpre.stay hR n)
  have et : typist fourMaps openLayout i s.hand.mods pre more = List.replicate n [] ++
      typist fourMaps openLayout i s.hand.mods (pre ++ List.replicate n (closedAt s.down)) (keysRead s.down vs) := by
    rw [typist_append, a1, ← handAt_mods, a2]
  refine ⟨(tidy_append _ _ _ _).mpr ⟨a3, by rw [a2]; exact b1⟩, ?_, ?_, ?_⟩
  · rw [et]
    intro u hu
    rcases List.mem_append.mp hu with hu | hu
    · rw [(List.mem_replicate.mp hu).2]; exact Nat.zero_le _
    · exact b2 u hu
  · rw [et, List.flatten_append, b3]
    simp
  · rw [et, List.getLast?_append]
    generalize typist fourMaps openLayout i s.hand.mods (pre ++ List.replicate n (closedAt s.down))
      (keysRead s.down vs) = T at b4
    cases e : T.getLast? with
    | none =>
      rw [Option.none_or, List.getLast?_replicate]
      split <;> rfl
    | some u =>
      rw [e] at b4
      exact b4

theorem lead_brief {dips : List (Nat × Nat)} {d : Nat} {s : Session} {vs : List KeyMove} (h : Fine i s)
    (hc : Sound i dips s (vs.map (·.key))) (hst : Steady vs)
    (hdown : ∀ p ∈ s.down, Functional fourMaps openLayout i p.1 p.2) (hh : KeysBrief i d vs) {pre : List Input}
    (hpre : Settled openLayout pre (posDown s.down)) (n : Nat) :
    Brief fourMaps openLayout i d pre (List.replicate n (closedAt s.down) ++ keysRead s.down vs) := by
  intro r c hr hcc hf hd
  have hnot : (r, c) ∉ s.down := fun e => hf (hdown (r, c) e)
  have hout : posDown s.down r c = false := decide_eq_false hnot
  have hR := reads_closed (l := s.down) fun p hp => (h.inside p hp).2
  have h0 : downAfter pre r c = false := by
    have := stay_down hR hpre 0 hr hcc
    rw [List.replicate_zero, List.append_nil] at this
    exact this.trans hout
  have hz : HeldFor d (r, c) none vs := hh (r, c) fun e => hf (modKey_functional e)
  have hruns := (runs_moves h hc hst (hpre.stay hR n) hr hcc).1 hout hz
  refine brief_of_runs h0 ?_ hd
  have e1 := downs_const r c false (List.replicate n (closedAt s.down)) pre fun k _ _ => by
    rw [List.take_replicate]
    exact (stay_down hR hpre _ hr hcc).trans hout
  rw [downs_append, e1, List.length_replicate, runsOk_append, lastRun_zero]
  exact ⟨runsOk_false _ _ _, hruns⟩

theorem toggled_cols {down : List (Nat × Nat)} (hnd : down.Nodup) (hpl : ∀ p ∈ down, p.2 < 8) {z : Nat × Nat}
    (hz : z.2 < 8) : ∀ p ∈ toggled down z, p.2 < 8 := by
  intro p hp
  rcases (mem_toggled hnd).mp hp with ⟨_, hp⟩ | ⟨rfl, _⟩
  · exact hpl p hp
  · exact hz

/-- The readings of the DIP switches. -/
theorem dips_read {vs : List KeyMove} {down : List (Nat × Nat)} (hnd : down.Nodup) (hpl : ∀ p ∈ down, p.2 < 8)
    (hin : ∀ v ∈ vs, v.key.1 < 8 ∧ v.key.2 < 8) (hst : Steady vs) :
    ∀ inp ∈ keysRead down vs, ∀ n, n < 8 → sample inp 8 n = posDown down 8 n := by
  induction vs generalizing down with
  | nil => exact fun inp hi => (List.not_mem_nil hi).elim
  | cons v vs ih =>
    obtain ⟨hb, hs⟩ := hst v List.mem_cons_self
    obtain ⟨z1, z2⟩ := hin v List.mem_cons_self
    have M := moves_one hpl hnd z1 z2 hb hs
    intro inp hi n hn
    have hz : (8, n) ≠ v.key := fun e => by
      rw [← e] at z1
      exact absurd z1 (Nat.lt_irrefl 8)
    rcases List.mem_append.mp hi with hi | hi
    · have hrest := M.rest 8 n (by decide) hn hz
      have : sample inp 8 n ∈ samplesOf (v.readings down) 8 n := List.mem_map.mpr ⟨inp, hi, rfl⟩
      rw [hrest] at this
      exact (List.mem_replicate.mp this).2
    · rw [ih (toggled_nodup hnd _) (toggled_cols hnd hpl z2) (fun w hw => hin w (List.mem_cons_of_mem _ hw))
        (fun w hw => hst w (List.mem_cons_of_mem _ hw)) inp hi n hn]
      exact M.same 8 n hz

theorem sound_inside {s : Session} {dips : List (Nat × Nat)} {zs : List (Nat × Nat)} (hc : Sound i dips s zs) :
    ∀ z ∈ zs, z.1 < 8 ∧ z.2 < 8 := by
  induction zs generalizing s with
  | nil => exact fun z hz => (List.not_mem_nil hz).elim
  | cons w zs ih =>
    obtain ⟨hM, hc⟩ := hc
    intro z hz
    rcases List.mem_cons.mp hz with rfl | hz
    · exact ⟨hM.1, hM.2.1⟩
    · exact ih hc z hz

theorem read_dips {s : Session} {dips : List (Nat × Nat)} {vs : List KeyMove} (h : Fine i s)
    (hc : Sound i dips s (vs.map (·.key))) (hst : Steady vs) :
    ∀ inp ∈ keysRead s.down vs, ∀ n, n < 8 → sample inp 8 n = posDown s.down 8 n :=
  dips_read h.nodup (fun p hp => (h.inside p hp).2) (fun v hv => sound_inside hc _ (List.mem_map_of_mem hv)) hst

end Movers

end Asdf
