import Verif.Props.Movers
import Verif.Props.Fingers
import Verif.Spec.AnyBoard

/-! # Property C105: from the fingers to the computer, on any board with any of the keymaps 0 to 3 -/

namespace Asdf.Props

open Spec Avr Pcb Movers

/-! ## The readings of one scan -/

theorem byte_ext {x y : UInt8} (h : ∀ c, c < 8 → bitOf x c = bitOf y c) : x = y := by
  have : x.toBitVec = y.toBitVec := BitVec.eq_of_getLsbD_eq fun i hi => h i hi
  exact UInt8.toBitVec_inj.mp this

/-- A scan that finds these positions closed. -/
theorem reading_iff {ps : List Place} (hps : ∀ p ∈ ps, p.col < 8) {sw : Nat → Sw → Bool} {f : Nat → Nat}
    {l : List (Nat × Nat)} (hl : ∀ z ∈ l, z.2 < 8)
    (h : ∀ r c, (∃ p ∈ ps, spotOf p = (r, c) ∧ sw (f r) p.sw = true) ↔ (r, c) ∈ l) :
    (pressed ps fun row => sw (f row)) = closedAt l := by
  funext row
  refine byte_ext fun c hc => ?_
  have e : bitOf (closedAt l row) c = decide ((row, c) ∈ l) := by
    unfold closedAt
    rw [closed_bit hc l hl, bitOf_zero, Bool.false_or]
  rw [e, Bool.eq_iff_iff, decide_eq_true_eq, ← h row c]
  show bitOf (closedKeys ps (sw (f row)) row) c = true ↔ _
  rw [closedKeys_bit hps _ row c hc]
  constructor
  · rintro ⟨p, hp, h1, h2, h3⟩
    exact ⟨p, hp, by unfold spotOf; rw [h1, h3], h2⟩
  · rintro ⟨p, hp, h1, h2⟩
    unfold spotOf at h1
    injection h1 with h1 h3
    exact ⟨p, hp, h3, h2, h1⟩

theorem cols_of {ps : List Place} (hps : ∀ p ∈ ps, p.col < 8) {l : List (Nat × Nat)}
    (hl : ∀ z ∈ l, ∃ p ∈ ps, spotOf p = z) : ∀ z ∈ l, z.2 < 8 := by
  intro z hz
  obtain ⟨p, hp, rfl⟩ := hl z hz
  exact hps p hp

theorem reading_at {ps : List Place} (hps : ∀ p ∈ ps, p.col < 8) {sw : Nat → Sw → Bool} {f : Nat → Nat}
    {l : List (Nat × Nat)} (hl : ∀ z ∈ l, ∃ p ∈ ps, spotOf p = z)
    (h : ∀ p ∈ ps, sw (f p.row) p.sw = decide (spotOf p ∈ l)) :
    (pressed ps fun row => sw (f row)) = closedAt l := by
  refine reading_iff hps (cols_of hps hl) fun r c => ?_
  constructor
  · rintro ⟨p, hp, e, h1⟩
    have : p.row = r := congrArg Prod.fst e
    rw [← this, h p hp] at h1
    rw [← e]
    exact of_decide_eq_true h1
  · intro hz
    obtain ⟨p, hp, e⟩ := hl _ hz
    have : p.row = r := congrArg Prod.fst e
    refine ⟨p, hp, e, ?_⟩
    rw [← this, h p hp, e]
    exact decide_eq_true hz

/-- A scan while one contact bounces. -/
theorem reading_bounce {ps : List Place} (hps : ∀ p ∈ ps, p.col < 8) {sw : Nat → Sw → Bool} {f : Nat → Nat}
    {l : List (Nat × Nat)} (hn : l.Nodup) (hl : ∀ z ∈ l, ∃ p ∈ ps, spotOf p = z) {z : Nat × Nat}
    (hz : ∃ p ∈ ps, spotOf p = z) (hzc : z.2 < 8)
    (h : ∀ p ∈ ps, spotOf p ≠ z → sw (f p.row) p.sw = decide (spotOf p ∈ l)) :
    (pressed ps fun row => sw (f row)) =
      closedAt (if bitOf (pressed ps (fun row => sw (f row)) z.1) z.2 then z :: l.erase z else l.erase z) := by
  have hbit : bitOf (pressed ps (fun row => sw (f row)) z.1) z.2 = true ↔
      ∃ p ∈ ps, spotOf p = z ∧ sw (f z.1) p.sw = true := by
    show bitOf (closedKeys ps (sw (f z.1)) z.1) z.2 = true ↔ _
    rw [closedKeys_bit hps _ _ _ hzc]
    constructor
    · rintro ⟨p, hp, h1, h2, h3⟩
      exact ⟨p, hp, by unfold spotOf; rw [h1, h3], h2⟩
    · rintro ⟨p, hp, h1, h2⟩
      subst h1
      exact ⟨p, hp, rfl, h2, rfl⟩
  generalize bitOf (pressed ps (fun row => sw (f row)) z.1) z.2 = b at hbit ⊢
  have hset : ∀ q, q ∈ (if b then z :: l.erase z else l.erase z) ↔ (q ≠ z ∧ q ∈ l) ∨ (q = z ∧ b = true) := by
    intro q
    cases b
    · rw [if_neg (by decide), hn.mem_erase_iff]
      simp
    · rw [if_pos rfl, List.mem_cons, hn.mem_erase_iff]
      simp [or_comm]
  refine reading_iff hps (fun q hq => ?_) fun r c => ?_
  · rcases (hset q).mp hq with ⟨_, hq⟩ | ⟨rfl, _⟩
    · exact cols_of hps hl q hq
    · exact hzc
  · rw [hset, hbit]
    constructor
    · rintro ⟨p, hp, e, h1⟩
      by_cases hpz : spotOf p = z
      · refine .inr ⟨by rw [← e, hpz], p, hp, hpz, ?_⟩
        rw [← hpz, e]
        exact h1
      · have : p.row = r := congrArg Prod.fst e
        rw [← this, h p hp hpz] at h1
        rw [← e]
        exact .inl ⟨hpz, of_decide_eq_true h1⟩
    · rintro (⟨h1, h2⟩ | ⟨h1, p, hp, h2, h3⟩)
      · obtain ⟨p, hp, e⟩ := hl _ h2
        have : p.row = r := congrArg Prod.fst e
        refine ⟨p, hp, e, ?_⟩
        rw [← this, h p hp (by rw [e]; exact h1), e]
        exact decide_eq_true h2
      · refine ⟨p, hp, by rw [h2, h1], ?_⟩
        rw [← h1] at h3
        exact h3

/-! ## The keys that are down -/

/-- The keys that are down after some movements. -/
theorem mem_toggles {zs : List (Nat × Nat)} {down : List (Nat × Nat)} (hn : down.Nodup) (p : Nat × Nat) :
    p ∈ zs.foldl toggled down ↔ (zs.countP (fun z => z = p) + if p ∈ down then 1 else 0) % 2 = 1 := by
  induction zs generalizing down with
  | nil =>
    rw [List.foldl_nil, List.countP_nil]
    by_cases h : p ∈ down <;> simp [h]
  | cons z zs ih =>
    rw [List.foldl_cons, ih (toggled_nodup hn z), List.countP_cons]
    by_cases hz : z = p
    · subst hz
      by_cases h : z ∈ down
      · simp only [mem_toggled hn, h]
        simp
        omega
      · simp only [mem_toggled hn, h]
        simp
    · have hm : (p ∈ toggled down z) = (p ∈ down) := by
        rw [mem_toggled hn]
        have : p ≠ z := fun e => hz e.symm
        simp [this]
      simp only [hm]
      simp [hz]

theorem mem_spots {zs : List (Nat × Nat)} {down : List (Nat × Nat)} {p : Nat × Nat}
    (h : p ∈ zs.foldl toggled down) : p ∈ down ∨ p ∈ zs := by
  induction zs generalizing down with
  | nil => exact .inl h
  | cons z zs ih =>
    rcases ih h with h | h
    · unfold toggled at h
      split at h
      · exact .inl (List.mem_of_mem_erase h)
      · rcases List.mem_cons.mp h with rfl | h
        · exact .inr List.mem_cons_self
        · exact .inl h
    · exact .inr (List.mem_cons_of_mem _ h)

section
variable {lo hi : Nat} {times : List (Nat → Nat)} {sw : Nat → Sw → Bool} {done rest : List SpotMove}

/-- A key that does not bounce in this scan: it is closed if it is down. -/
theorem spot_read (hT : InOrder lo hi times) {ps : List Place} {dips : List (Nat × Nat)} (hn : dips.Nodup)
    {ms : List SpotMove} (hF : SwitchesMove ps dips sw ms) (hms : ms.Perm (done ++ rest))
    {k : Nat} (hk : k < times.length) {p : Place} (hp : p ∈ ps)
    (hdone : ∀ m ∈ done, m.key = spotOf p → scansBefore times m.key.1 m.ends ≤ k)
    (hrest : ∀ m ∈ rest, m.key = spotOf p → m.begins ≤ m.ends ∧ k < scansBefore times m.key.1 m.begins) :
    sw (times[k] p.row) p.sw = decide (spotOf p ∈ (done.map (·.key)).foldl toggled dips) := by
  have h1 : ∀ m ∈ done, m.key = spotOf p → m.ends ≤ times[k] p.row := by
    intro m hm e
    have h3 : scansBefore times p.row m.ends ≤ k := by
      have := hdone m hm e
      rwa [e] at this
    have h2 := scansBefore_iff hT p.row m.ends hk
    omega
  have h2 : ∀ m ∈ rest, m.key = spotOf p → times[k] p.row < m.begins ∧ times[k] p.row < m.ends := by
    intro m hm e
    obtain ⟨h3, h4⟩ := hrest m hm e
    have h4 : k < scansBefore times p.row m.begins := by rwa [e] at h4
    have h2 := scansBefore_iff hT p.row m.begins hk
    omega
  have hcount : ms.countP (fun m => m.key = spotOf p ∧ m.ends ≤ times[k] p.row) =
      (done.map (·.key)).countP (fun z => z = spotOf p) := by
    rw [hms.countP_eq, List.countP_append, List.countP_map]
    have e1 : done.countP (fun m => decide (m.key = spotOf p ∧ m.ends ≤ times[k] p.row)) =
        done.countP ((fun z => decide (z = spotOf p)) ∘ (·.key)) := by
      refine List.countP_congr fun m hm => ?_
      simp only [decide_eq_true_eq, Function.comp]
      exact ⟨fun h => h.1, fun h => ⟨h, h1 m hm h⟩⟩
    have e2 : rest.countP (fun m => decide (m.key = spotOf p ∧ m.ends ≤ times[k] p.row)) = 0 := by
      rw [List.countP_eq_zero]
      intro m hm
      simp only [decide_eq_true_eq]
      rintro ⟨h3, h4⟩
      have := h2 m hm h3
      omega
    rw [e1, e2, Nat.add_zero]
  rw [hF (times[k] p.row) p hp ?_, hcount, Bool.eq_iff_iff, decide_eq_true_eq, mem_toggles hn]
  · by_cases h : spotOf p ∈ dips
    · rw [decide_eq_true h, Bool.true_xor, if_pos h, Bool.not_eq_true', decide_eq_false_iff_not]
      omega
    · rw [decide_eq_false h, Bool.false_xor, if_neg h, decide_eq_true_eq]
      omega
  · intro m hm e
    rcases List.mem_append.mp (hms.mem_iff.mp hm) with hm | hm
    · have := h1 m hm e
      omega
    · have := (h2 m hm e).1
      omega

end

theorem goodTimes_ge {times : List (Nat → Nat)} {ms : List SpotMove} (h : GoodTimes times ms) {k : Nat}
    (hk : k ≤ untilMove times ms) : ∀ m ∈ ms, m.begins ≤ m.ends ∧ k ≤ scansBefore times m.key.1 m.begins := by
  induction ms generalizing k with
  | nil => exact fun m hm => (List.not_mem_nil hm).elim
  | cons n ms ih =>
    obtain ⟨h1, h2, h3, h4⟩ := h
    have hk : k ≤ scansBefore times n.key.1 n.begins := hk
    intro m hm
    rcases List.mem_cons.mp hm with rfl | hm
    · exact ⟨h1, hk⟩
    · refine ih h4 (k := k) ?_ m hm
      have := scansBefore_mono times n.key.1 h1
      omega

/-! ## All scans -/

/-- The movements in scans that belong to movements in time. -/
def Fits (times : List (Nat → Nat)) : List SpotMove → List KeyMove → Prop
  | m :: ms, v :: vs => v.key = m.key ∧
      v.bounce.length = scansBefore times m.key.1 m.ends - scansBefore times m.key.1 m.begins ∧
      v.steady = untilMove times ms - scansBefore times m.key.1 m.ends ∧ Fits times ms vs
  | [], [] => True
  | _, _ => False

theorem spots_read {lo hi : Nat} {times : List (Nat → Nat)} (hT : InOrder lo hi times) {sw : Nat → Sw → Bool}
    {ps : List Place} (hps : ∀ p ∈ ps, p.col < 8) {dips : List (Nat × Nat)} (hnd : dips.Nodup)
    {ms : List SpotMove} (hF : SwitchesMove ps dips sw ms) (hthere : ∀ m ∈ ms, ∃ p ∈ ps, spotOf p = m.key)
    (hdips : ∀ z ∈ dips, ∃ p ∈ ps, spotOf p = z) (rest done : List SpotMove) (hms : ms = done ++ rest)
    (down : List (Nat × Nat)) (hdown : down = (done.map (·.key)).foldl toggled dips) (hok : down.Nodup)
    (ho : ∀ m ∈ rest, m.key.2 < 8) (hw : GoodTimes times rest) (k : Nat)
    (hdone : ∀ m ∈ done, scansBefore times m.key.1 m.ends ≤ k) (hk : k ≤ untilMove times rest) :
    ∃ vs : List KeyMove, readingsAt ps sw (times.drop k) =
        List.replicate (untilMove times rest - k) (closedAt down) ++ keysRead down vs ∧
      vs.map (·.key) = rest.map (·.key) ∧ Fits times rest vs ∧ (∀ v ∈ vs, v.bounce.length ≤ 9 ∧ 10 ≤ v.steady) ∧
      (∀ z d, HeldScans times d z none rest → HeldFor d z none vs) ∧
      (∀ z d a, a ≤ untilMove times rest → HeldScans times d z (some a) rest →
        HeldFor d z (some (untilMove times rest - a)) vs) := by
  have here : ∀ down : List (Nat × Nat), ∀ {done rest : List SpotMove}, ms = done ++ rest →
      down = (done.map (·.key)).foldl toggled dips → ∀ z ∈ down, ∃ p ∈ ps, spotOf p = z := by
    intro down done rest hms hdown z hz
    rw [hdown] at hz
    rcases mem_spots hz with hz | hz
    · exact hdips z hz
    · obtain ⟨m, hm, rfl⟩ := List.mem_map.mp hz
      exact hthere m (by rw [hms]; exact List.mem_append_left _ hm)
  induction rest generalizing done down k with
  | nil =>
    refine ⟨[], ?_, rfl, trivial, fun v hv => (List.not_mem_nil hv).elim, fun _ _ _ => trivial, ?_⟩
    · show List.map _ (times.drop k) = _
      rw [show keysRead down [] = [] from rfl, List.append_nil, List.eq_replicate_iff, List.length_map,
        List.length_drop]
      refine ⟨rfl, fun R hR => ?_⟩
      obtain ⟨f, hf, rfl⟩ := List.mem_map.mp hR
      rw [← List.take_length (l := times.drop k)] at hf
      obtain ⟨j, hj, h1, _, rfl⟩ := mem_slice hf
      refine reading_at hps (here down hms hdown) fun p hp => ?_
      rw [hdown]
      exact spot_read hT hnd hF (by rw [hms]) hj hp (fun m hm _ => Nat.le_trans (hdone m hm) h1)
        (fun m hm => (List.not_mem_nil hm).elim)
    · intro z d a _ hh
      have hh : times.length ≤ a + d := hh
      show times.length - a ≤ d
      omega
  | cons m rest ih =>
    obtain ⟨w1, w2, w3, w4⟩ := hw
    have hM := ho m List.mem_cons_self
    have hk : k ≤ scansBefore times m.key.1 m.begins := hk
    have hAB := scansBefore_mono times m.key.1 w1
    have hlater := goodTimes_ge w4 (k := scansBefore times m.key.1 m.ends + 10) w3
    obtain ⟨vs, i1, i2, i0, i3, i4, i5⟩ := ih (done ++ [m]) (by rw [hms, List.append_assoc]; rfl) (toggled down m.key)
      (by rw [List.map_append, List.foldl_append, ← hdown]; rfl) (toggled_nodup hok _) (fun n hn => ho n (List.mem_cons_of_mem _ hn)) w4
      (scansBefore times m.key.1 m.ends) (fun n hn => by
        rcases List.mem_append.mp hn with hn | hn
        · have := hdone n hn
          omega
        · rw [List.mem_singleton.mp hn]
          exact Nat.le_refl _) (by omega)
    have eB := scansBefore_le times m.key.1 m.ends
    have hnext : untilMove times (m :: rest) = scansBefore times m.key.1 m.begins := rfl
    generalize hA : scansBefore times m.key.1 m.begins = A at *
    generalize hB : scansBefore times m.key.1 m.ends = B at *
    let bs : List Bool := ((times.drop A).take (B - A)).map fun f =>
      bitOf (pressed ps (fun row => sw (f row)) m.key.1) m.key.2
    have hbs : bs.length = B - A := by
      simp only [bs, List.length_map, List.length_take, List.length_drop]
      omega
    have hhere := here down hms hdown
    have hother : ∀ j (hj : j < times.length), k ≤ j → j < B → ∀ p ∈ ps, spotOf p ≠ m.key →
        sw (times[j] p.row) p.sw = decide (spotOf p ∈ down) := by
      intro j hj h1 h2 p hp hne
      rw [hdown]
      refine spot_read hT hnd hF (rest := m :: rest) (by rw [hms]) hj hp (fun n hn _ => Nat.le_trans (hdone n hn) h1)
        fun n hn e => ?_
      rcases List.mem_cons.mp hn with rfl | hn
      · exact absurd e.symm hne
      · have := hlater n hn
        omega
    have r1 : readingsAt ps sw ((times.drop k).take (A - k)) =
        List.replicate (A - k) (closedAt down) := by
      show List.map _ _ = _
      rw [List.eq_replicate_iff, List.length_map, List.length_take, List.length_drop]
      refine ⟨by omega, fun R hR => ?_⟩
      obtain ⟨f, hf, rfl⟩ := List.mem_map.mp hR
      obtain ⟨j, hj, h1, h2, rfl⟩ := mem_slice hf
      refine reading_at hps hhere fun p hp => ?_
      rw [hdown]
      refine spot_read hT hnd hF (rest := m :: rest) (by rw [hms]) hj hp (fun n hn _ => Nat.le_trans (hdone n hn) h1)
        fun n hn e => ?_
      rcases List.mem_cons.mp hn with rfl | hn
      · rw [hA]
        exact ⟨w1, by omega⟩
      · have := hlater n hn
        omega
    have r2 : readingsAt ps sw ((times.drop A).take (B - A)) = bs.map fun b =>
        closedAt (if b then m.key :: down.erase m.key else down.erase m.key) := by
      show List.map _ _ = List.map _ (List.map _ _)
      rw [List.map_map]
      refine List.map_congr_left fun f hf => ?_
      obtain ⟨j, hj, h1, h2, rfl⟩ := mem_slice hf
      exact reading_bounce hps hok hhere (hthere m (by rw [hms]; exact List.mem_append_right _ List.mem_cons_self))
        hM fun p hp hne => hother j hj (by omega) (by omega) p hp hne
    refine ⟨⟨m.key, bs, untilMove times rest - B⟩ :: vs, ?_, ?_, ⟨rfl, ?_, ?_, i0⟩, ?_, ?_, ?_⟩
    · rw [hnext, drop_split times hk, drop_split times hAB]
      show List.map _ (_ ++ (_ ++ _)) = _
      rw [List.map_append, List.map_append]
      have e : ∀ l, List.map (fun t : Nat → Nat => pressed ps fun row => sw (t row)) l =
        readingsAt ps sw l := fun _ => rfl
      rw [e, e, e, r1, r2, i1]
      simp only [keysRead, KeyMove.readings, List.append_assoc]
    · rw [List.map_cons, List.map_cons, i2]
    · rw [hA, hB, ← hbs]
    · rw [hB]
    · intro v hv
      rcases List.mem_cons.mp hv with rfl | hv
      · rw [hbs]
        dsimp only
        omega
      · exact i3 v hv
    · intro z d hh
      unfold HeldScans at hh
      unfold HeldFor
      dsimp only
      by_cases e : m.key = z
      · rw [if_pos e] at hh ⊢
        rw [← e, hA] at hh
        have := i5 m.key d A (by omega) hh
        have es : KeyMove.scans ⟨m.key, bs, untilMove times rest - B⟩ = untilMove times rest - A := by
          show bs.length + (untilMove times rest - B) = _
          rw [hbs]
          omega
        rw [es, ← e]
        exact this
      · rw [if_neg e] at hh ⊢
        exact i4 z d hh
    · intro z d a ha hh
      unfold HeldScans at hh
      unfold HeldFor
      dsimp only
      rw [hnext] at ha ⊢
      by_cases e : m.key = z
      · rw [if_pos e] at hh ⊢
        refine ⟨?_, i4 z d hh.2⟩
        have h1 := hh.1
        rw [← e, hB] at h1
        rw [hbs]
        omega
      · rw [if_neg e] at hh ⊢
        have := i5 z d a (by omega) hh
        have es : A - a + KeyMove.scans ⟨m.key, bs, untilMove times rest - B⟩ = untilMove times rest - a := by
          show A - a + (bs.length + (untilMove times rest - B)) = _
          rw [hbs]
          omega
        rw [es]
        exact this

theorem hands_dips {ps : List Place} (hps : ps ∈ [classicPlaces, solPlaces]) :
    ∀ n < 8, ∃ p ∈ ps, spotOf p = (8, n) ∧ p.sw = .dip (n + 1) := by
  rcases List.mem_cons.mp hps with rfl | h
  · decide +kernel
  · rw [List.mem_singleton.mp h]
    decide +kernel

theorem hands_cols {ps : List Place} (hps : ps ∈ [classicPlaces, solPlaces]) : ∀ p ∈ ps, p.col < 8 := by
  intro p hp
  rcases List.mem_cons.mp hps with rfl | h
  · exact places_cols p (List.mem_append_left _ hp)
  · rw [List.mem_singleton.mp h] at hp
    exact places_cols p (List.mem_append_right _ hp)

/-- What is read are movements of keys, scan by scan. -/
theorem hands_moves {lo hi : Nat} {times : List (Nat → Nat)} (hT : InOrder lo hi times) {sw : Nat → Sw → Bool}
    {ps : List Place} (hps : ps ∈ [classicPlaces, solPlaces]) {d : UInt8} {ms : List SpotMove}
    (hF : SwitchesMove ps (dipsOf d) sw ms) (hH : Hands ps d times ms) :
    ∃ start vs, readingsAt ps sw times = List.replicate start (closedAt (dipsOf d)) ++ keysRead (dipsOf d) vs ∧
      10 ≤ start ∧ vs.map (·.key) = ms.map (·.key) ∧ Steady vs ∧ KeysBrief (d &&& 3) 525 vs := by
  obtain ⟨hf, hd, _⟩ := start_fine hH.setting
  obtain ⟨vs, h1, h2, _, h3, h4, _⟩ := spots_read hT (hands_cols hps) hf.nodup hF hH.there
    (fun z hz => by
      obtain ⟨p, hp, e, _⟩ := hands_dips hps z.2 (hf.inside z hz).2
      refine ⟨p, hp, e.trans ?_⟩
      rw [← (hd z hz).1])
    ms [] rfl (dipsOf d) rfl hf.nodup (fun m hm => (sound_inside hH.order _ (List.mem_map_of_mem hm)).2) hH.timing 0 (fun m hm => (List.not_mem_nil hm).elim) (Nat.zero_le _)
  exact ⟨untilMove times ms, vs, h1, hH.first, h2, h3, fun z hz => h4 z 525 (hH.held z hz)⟩

/-- **C105, from the fingers.**  A matrix of the classic keyboard or of the Sol keyboard, the DIP switches set
to one of the keymaps 0 to 3, read at any times, one scan after the other: whatever keys move, on contacts
that bounce, if the movements are careful measured by these scans, the host receives exactly the codes of
the keys that were pressed, in the selected keymap and under the modifiers of that moment. -/
theorem C105_fingers (lo hi : Nat) (times : List (Nat → Nat)) (hT : InOrder lo hi times) (sw : Nat → Sw → Bool)
    (ps : List Place) (hps : ps ∈ [classicPlaces, solPlaces]) (d : UInt8) (ms : List SpotMove)
    (hF : SwitchesMove ps (dipsOf d) sw ms) (hH : Hands ps d times ms) :
    ∃ s, powerUp shipped (readingsAt ps sw times) = .ok s ∧
      sends s.dev.trace = sessionText (d &&& 3) (Session.start d) (ms.map (·.key)) ∧
      hostSees s.dev.trace = (sessionText (d &&& 3) (Session.start d) (ms.map (·.key))).map (false, ·) ∧
      keystrokes s = [] ∧ messages s = [] := by
  obtain ⟨start, vs, h1, h2, h3, h4, h5⟩ := hands_moves hT hps hF hH
  rw [h1, ← h3]
  exact C104_bounce d hH.setting start h2 vs (by rw [h3]; exact hH.order) h4 h5

/-! ## The boards -/

theorem sound_rows {i : UInt8} {dips : List (Nat × Nat)} (zs : List (Nat × Nat)) :
    ∀ s : Session, Sound i dips s zs → ∀ z ∈ zs, z.1 < 8 := by
  induction zs with
  | nil => exact fun _ _ z hz => (List.not_mem_nil hz).elim
  | cons w zs ih =>
    intro s h z hz
    obtain ⟨hM, h⟩ := h
    rcases List.mem_cons.mp hz with rfl | hz
    · exact hM.1
    · exact ih _ h z hz

/-- The DIP switches do not move. -/
theorem dips_still {sw : Nat → Sw → Bool} {ps : List Place} {d : UInt8} {ms : List SpotMove}
    (hF : SwitchesMove ps (dipsOf d) sw ms) (hrow : ∀ m ∈ ms, m.key.1 < 8) (t : Nat) :
    ∀ p ∈ ps, p.row = 8 → sw t p.sw = decide (spotOf p ∈ dipsOf d) := by
  intro p hp h8
  have hno : ∀ m ∈ ms, m.key ≠ spotOf p := fun m hm e => by
    have h1 := hrow m hm
    rw [e] at h1
    have h1 : p.row < 8 := h1
    omega
  rw [hF t p hp fun m hm e => absurd e (hno m hm), List.countP_eq_zero.mpr fun m hm => by
    simp only [decide_eq_true_eq]
    exact fun h => hno m hm h.1]
  exact Bool.xor_false _

/-- A world with such DIP switches is safe. -/
theorem dips_safe {sw : Nat → Sw → Bool} {ps : List Place} (hps : ps ∈ [classicPlaces, solPlaces]) {d : UInt8}
    (hs : Setting d) {W : C.Outside} (hS : SwitchWorld ps sw W)
    (hd : ∀ t, ∀ p ∈ ps, p.row = 8 → sw t p.sw = decide (spotOf p ∈ dipsOf d)) : SafeWorld W := by
  have key : ∀ c, c < 8 → ∀ t, bitOf (W.keys t 8) c = decide ((8, c) ∈ dipsOf d) := by
    intro c hc t
    rw [hS t, Bool.eq_iff_iff, decide_eq_true_eq, closedKeys_bit (hands_cols hps) (sw t) 8 c hc]
    constructor
    · rintro ⟨p, hp, h1, h2, h3⟩
      rw [hd t p hp h3] at h2
      have := of_decide_eq_true h2
      unfold spotOf at this
      rwa [h1, h3] at this
    · intro h
      obtain ⟨p, hp, e, _⟩ := hands_dips hps c hc
      refine ⟨p, hp, congrArg Prod.snd e, ?_, congrArg Prod.fst e⟩
      rw [hd t p hp (congrArg Prod.fst e), e]
      exact decide_eq_true h
  exact C90_safe_settings W _ _ (key 1 (by omega)) (key 2 (by omega))
    (.inl (decide_eq_false fun h => ((start_fine hs).2.1 (8, 2) h).2 rfl))

theorem dips_dip7 {sw : Nat → Sw → Bool} {ps : List Place} (hps : ps ∈ [classicPlaces, solPlaces]) {d : UInt8}
    (hd : ∀ t, ∀ p ∈ ps, p.row = 8 → sw t p.sw = decide (spotOf p ∈ dipsOf d)) (t : Nat) :
    sw t (.dip 7) = decide ((8, 6) ∈ dipsOf d) := by
  obtain ⟨p, hp, e, h⟩ := hands_dips hps 6 (by omega)
  have := hd t p hp (congrArg Prod.fst e)
  rwa [e, h] at this

theorem hands_received {lo hi : Nat} {times : List (Nat → Nat)} (hT : InOrder lo hi times) {sw : Nat → Sw → Bool}
    {ps : List Place} (hps : ps ∈ [classicPlaces, solPlaces]) {d : UInt8} {ms : List SpotMove}
    (hF : SwitchesMove ps (dipsOf d) sw ms) (hH : Hands ps d times ms) :
    (channel (typed fourMaps openLayout (readingsAt ps sw times)) (said fourMaps openLayout (readingsAt ps sw times))).host =
      (sessionText (d &&& 3) (Session.start d) (ms.map (·.key))).map (false, ·) := by
  obtain ⟨start, vs, h1, h2, h3, h4, h5⟩ := hands_moves hT hps hF hH
  rw [h1, ← h3]
  exact (session_received hH.setting h2 (by rw [h3]; exact hH.order) h4 h5).2.2.1

/-- **C105, from the fingers to the computer.**  Each keyboard on the ATmega328P interface, in any electrical
state at power-up, run by the text of the firmware, with the DIP switches set to one of the keymaps 0 to 3:
whatever keys move, on contacts that bounce, if the movements are careful measured by the scans of that run,
the computer reads exactly the text that was typed. -/
theorem C105_computer_328 (A : Assembly) (ps : List Place) (h : (A, ps) ∈ boards328 classicPlaces solPlaces)
    (sockets : List (Nat × List (Nat × Signal))) (hA : (A, sockets) ∈ plugged328)
    (k : Nat) (lines : List (Nat × Signal)) (hk : (k, lines) ∈ sockets) (pin : Nat)
    (hpin : (pin, .strobe) ∈ lines) (sw : Nat → Sw → Bool) (W : C.Outside) (hS : SwitchWorld ps sw W)
    (d : UInt8) (hd : Setting d) (ms : List SpotMove) (hF : SwitchesMove ps (dipsOf d) sw ms)
    (ho : Sound (d &&& 3) (dipsOf d) (Session.start d) (ms.map (·.key))) (r0 : Regs) (sr : UInt8)
    (polls w n : Nat) (hw : 65536 ≤ w) (hp : polls < w) (hn : 23 ≤ n) :
    ∃ times hi h log, BetweenLooks C.board328 W w n r0 sr polls times ∧ InOrder 0 hi times ∧
      textRun C.board328 W w n r0 sr polls = some h ∧
      hi ≤ h.time ∧ h.found = times.length ∧ h.found ≤ h.ints ∧
      statesOf h = boardStates m328 r0 [.archInit] ++ log ∧
      (Hands ps d times ms →
        ∀ edge v vs, AtSocket328 A k lines (boardAfter m328 r0 [.archInit]) v →
          Watches (AtSocket328 A k lines) log vs →
          computerReads lines edge v vs = sessionText (d &&& 3) (Session.start d) (ms.map (·.key))) := by
  have hps := boards328_places h
  have hs := fun t => dips_still hF (fun m hm => sound_rows _ _ ho _ (List.mem_map_of_mem hm)) t
  obtain ⟨times, hi, hh, log, e0, e1, e2, e3, e4, e5, e6, e7⟩ := C90_computer_328 A ps h sockets hA k lines hk pin
    hpin sw W hS (dips_safe hps hd hS hs) _ (dips_dip7 hps hs) r0 sr polls w n hw hp hn
  refine ⟨times, hi, hh, log, e0, e1, e2, e3, e4, e5, e6, ?_⟩
  intro hH edge v vs hv hvs
  rw [e7 edge v vs hv hvs, show (channel _ _).host = _ from hands_received e1 hps hF hH, List.map_map]
  exact List.map_id _

/-- **C105, from the fingers to the computer,** with the ATmega2560. -/
theorem C105_computer_2560 (A : Assembly) (ps : List Place) (h : (A, ps) ∈ boards2560 classicPlaces solPlaces)
    (out : Net → Prop) (hout : ∀ n, out n → Outside A n) (cols : (Sw → Bool) → Regs → UInt8)
    (hcols : ∀ closed r, rowReady2560 r →
      ReadsLevels A.links (column2560 A) closed (fun n => Low2560 A r n ∨ out n) (cols closed r))
    (sockets : List (Nat × List (Nat × Signal))) (hA : (A, sockets) ∈ plugged2560)
    (k : Nat) (lines : List (Nat × Signal)) (hk : (k, lines) ∈ sockets) (pin : Nat)
    (hpin : (pin, .strobe) ∈ lines) :
    ∃ f, (∀ closed r, rowReady2560 r → f (closedKeys ps closed) r = cols closed r) ∧
      ∀ (sw : Nat → Sw → Bool) (W : C.Outside), SwitchWorld ps sw W → ∀ d, Setting d →
      ∀ (ms : List SpotMove), SwitchesMove ps (dipsOf d) sw ms →
      Sound (d &&& 3) (dipsOf d) (Session.start d) (ms.map (·.key)) →
      ∀ (r0 : Regs) (sr : UInt8) (polls w n : Nat), 65536 ≤ w → polls < w → 23 ≤ n →
        ∃ times hi h log, BetweenLooks (C.board2560 f) W w n r0 sr polls times ∧ InOrder 0 hi times ∧
          textRun (C.board2560 f) W w n r0 sr polls = some h ∧
          hi ≤ h.time ∧ h.found = times.length ∧ h.found ≤ h.ints ∧
          statesOf h = boardStates m2560 r0 [.archInit] ++ log ∧
          (Hands ps d times ms →
            ∀ edge v vs, AtSocket2560 A k lines (boardAfter m2560 r0 [.archInit]) v →
              Watches (AtSocket2560 A k lines) log vs →
              computerReads lines edge v vs = sessionText (d &&& 3) (Session.start d) (ms.map (·.key))) := by
  have hps := boards2560_places h
  obtain ⟨f, hf, hrun⟩ := C90_computer_2560 A ps h out hout cols hcols sockets hA k lines hk pin hpin
  refine ⟨f, hf, fun sw W hS d hd ms hF ho r0 sr polls w n hw hp hn => ?_⟩
  have hs := fun t => dips_still hF (fun m hm => sound_rows _ _ ho _ (List.mem_map_of_mem hm)) t
  obtain ⟨times, hi, hh, log, e0, e1, e2, e3, e4, e5, e6, e7⟩ := hrun sw W hS (dips_safe hps hd hS hs) _
    (dips_dip7 hps hs) r0 sr polls w n hw hp hn
  refine ⟨times, hi, hh, log, e0, e1, e2, e3, e4, e5, e6, ?_⟩
  intro hH edge v vs hv hvs
  rw [e7 edge v vs hv hvs, show (channel _ _).host = _ from hands_received e1 hps hF hH, List.map_map]
  exact List.map_id _

/-! ## Non-vacuity -/

instance decGoodTimes (times : List (Nat → Nat)) : (ms : List SpotMove) → Decidable (GoodTimes times ms)
  | [] => inferInstanceAs (Decidable True)
  | m :: ms =>
    have := decGoodTimes times ms
    inferInstanceAs (Decidable (m.begins ≤ m.ends ∧
      scansBefore times m.key.1 m.ends ≤ scansBefore times m.key.1 m.begins + 9 ∧
      scansBefore times m.key.1 m.ends + 10 ≤ untilMove times ms ∧ GoodTimes times ms))

instance decHeldScans (times : List (Nat → Nat)) (d : Nat) (z : Nat × Nat) :
    (o : Option Nat) → (ms : List SpotMove) → Decidable (HeldScans times d z o ms)
  | none, [] => inferInstanceAs (Decidable True)
  | some a, [] => inferInstanceAs (Decidable (times.length ≤ a + d))
  | none, m :: ms => decHeldScans times d z (if m.key = z then some (scansBefore times z.1 m.begins) else none) ms
  | some a, m :: ms =>
    have := decHeldScans times d z none ms
    have := decHeldScans times d z (some a) ms
    inferInstanceAs (Decidable (if m.key = z then
      scansBefore times z.1 m.ends ≤ a + d ∧ HeldScans times d z none ms else HeldScans times d z (some a) ms))

theorem heldScans_never {times : List (Nat → Nat)} {d : Nat} {z : Nat × Nat} {ms : List SpotMove}
    (h : ∀ m ∈ ms, m.key ≠ z) : HeldScans times d z none ms := by
  induction ms with
  | nil => trivial
  | cons m ms ih =>
    unfold HeldScans
    rw [if_neg (h m List.mem_cons_self)]
    exact ih fun w hw => h w (List.mem_cons_of_mem _ hw)

theorem held_of {times : List (Nat → Nat)} {i : UInt8} {d : Nat} {ms : List SpotMove}
    (h : ∀ m ∈ ms, ¬ IsModKey fourMaps openLayout i m.key.1 m.key.2 → HeldScans times d m.key none ms) :
    ∀ z, ¬ IsModKey fourMaps openLayout i z.1 z.2 → HeldScans times d z none ms := by
  intro z hz
  by_cases e : ∃ m ∈ ms, m.key = z
  · obtain ⟨m, hm, rfl⟩ := e
    exact h m hm hz
  · exact heldScans_never fun m hm e' => e ⟨m, hm, e'⟩

/-- Switches that move in this way; while it bounces a contact is closed at even times. -/
def switchesFor (ps : List Place) (dips : List (Nat × Nat)) (ms : List SpotMove) (t : Nat) (s : Sw) : Bool :=
  ps.any fun p => p.sw == s &&
    if ms.any fun m => m.key == spotOf p && decide (m.begins ≤ t) && decide (t < m.ends) then t % 2 == 0
    else decide (spotOf p ∈ dips) ^^ decide ((ms.countP fun m => m.key = spotOf p ∧ m.ends ≤ t) % 2 = 1)

theorem move_switchesFor {ps : List Place} (hinj : ∀ p ∈ ps, ∀ q ∈ ps, p.sw = q.sw → p = q)
    (dips : List (Nat × Nat)) (ms : List SpotMove) : SwitchesMove ps dips (switchesFor ps dips ms) ms := by
  intro t p hp hno
  have hb : (ms.any fun m => m.key == spotOf p && decide (m.begins ≤ t) && decide (t < m.ends)) = false := by
    rw [List.any_eq_false]
    intro m hm e
    simp only [Bool.and_eq_true, beq_iff_eq, decide_eq_true_eq] at e
    exact hno m hm e.1.1 ⟨e.1.2, e.2⟩
  rw [Bool.eq_iff_iff, switchesFor, List.any_eq_true]
  constructor
  · rintro ⟨q, hq, e⟩
    rw [Bool.and_eq_true, beq_iff_eq] at e
    have := hinj q hq p hp e.1
    subst this
    rw [hb] at e
    exact e.2
  · intro e
    refine ⟨p, hp, ?_⟩
    rw [hb, Bool.and_eq_true]
    exact ⟨beq_self_eq_true _, e⟩

/-- Keymap 2 (caps lock is on at first), DIP switches 6 and 7 closed as well: `A`, then CAPS LOCK, then `b`
with the contacts bouncing for up to 8 milliseconds. -/
def abTimed : List SpotMove :=
  [⟨(1, 6), 11300, 18000⟩, ⟨(0, 0), 45000, 49000⟩, ⟨(1, 6), 78000, 80000⟩, ⟨(0, 0), 95432, 101000⟩,
   ⟨(2, 4), 120000, 128000⟩, ⟨(2, 4), 150000, 151000⟩]

theorem abTimed_classic : Hands classicPlaces 0xC2 (everyMs 170) abTimed :=
  ⟨rfl, by decide +kernel, by decide +kernel, by decide +kernel, by decide +kernel, held_of (by decide +kernel)⟩

theorem abTimed_sol : Hands solPlaces 0xC2 (everyMs 170) abTimed :=
  ⟨rfl, by decide +kernel, by decide +kernel, by decide +kernel, by decide +kernel, held_of (by decide +kernel)⟩

example : InOrder 0 170000 (everyMs 170) ∧
    SwitchesMove classicPlaces (dipsOf 0xC2) (switchesFor classicPlaces (dipsOf 0xC2) abTimed) abTimed ∧
    sessionText (0xC2 &&& 3) (Session.start 0xC2) (abTimed.map (·.key)) = [ch 'A', ch 'b'] :=
  ⟨everyMs_inOrder 170, move_switchesFor places_inj _ _, by decide +kernel⟩

example : SwitchesMove solPlaces (dipsOf 0xC2) (switchesFor solPlaces (dipsOf 0xC2) abTimed) abTimed :=
  move_switchesFor (by decide +kernel) _ _

end Asdf.Props
