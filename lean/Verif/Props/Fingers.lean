import Verif.Props.Bounce
import Verif.Spec.Fingers

/-! # Property C99: text typed on contacts that bounce, in time -/

namespace Asdf.Props

open Spec Avr Pcb Typist

/-! ## The moments when the rows are read -/

theorem inOrder_ge {lo hi : Nat} {times : List (Nat → Nat)} (h : InOrder lo hi times) :
    ∀ f ∈ times, ∀ row, lo ≤ f row := by
  induction times generalizing lo with
  | nil => exact fun f hf => (List.not_mem_nil hf).elim
  | cons g times ih =>
    obtain ⟨mid, h1, h2⟩ := h
    intro f hf row
    rcases List.mem_cons.mp hf with rfl | hf
    · exact (h1 row).1
    · have := ih h2 f hf row
      have := h1 row
      omega

/-- The scans that read a row before `t` are the first ones. -/
theorem scansBefore_iff {lo hi : Nat} {times : List (Nat → Nat)} (h : InOrder lo hi times) (row t : Nat) {k : Nat}
    (hk : k < times.length) : times[k] row < t ↔ k < scansBefore times row t := by
  induction times generalizing lo k with
  | nil => exact absurd hk (Nat.not_lt_zero _)
  | cons g times ih =>
    obtain ⟨mid, h1, h2⟩ := h
    have hge := inOrder_ge h2
    by_cases hg : g row < t
    · have e : scansBefore (g :: times) row t = scansBefore times row t + 1 := by
        unfold scansBefore
        rw [List.countP_cons_of_pos (by simpa using hg)]
      rw [e]
      cases k with
      | zero => exact ⟨fun _ => Nat.succ_pos _, fun _ => hg⟩
      | succ k =>
        rw [List.getElem_cons_succ, ih h2 (by simpa using hk)]
        omega
    · have e : scansBefore (g :: times) row t = 0 := by
        unfold scansBefore
        rw [List.countP_eq_zero]
        intro f hf
        have hle : g row ≤ f row := by
          rcases List.mem_cons.mp hf with rfl | hf
          · exact Nat.le_refl _
          · exact Nat.le_trans (h1 row).2 (hge f hf row)
        simp only [decide_eq_true_eq]
        omega
      rw [e]
      have hle : ∀ f ∈ g :: times, g row ≤ f row := by
        intro f hf
        rcases List.mem_cons.mp hf with rfl | hf
        · exact Nat.le_refl _
        · exact Nat.le_trans (h1 row).2 (hge f hf row)
      have := hle _ (List.getElem_mem hk)
      omega

theorem scansBefore_mono (times : List (Nat → Nat)) (row : Nat) {t u : Nat} (h : t ≤ u) :
    scansBefore times row t ≤ scansBefore times row u := by
  refine List.countP_mono_left fun f _ hf => ?_
  simp only [decide_eq_true_eq] at hf ⊢
  omega

theorem scansBefore_le (times : List (Nat → Nat)) (row t : Nat) : scansBefore times row t ≤ times.length :=
  List.countP_le_length

theorem mem_slice {times : List (Nat → Nat)} {a n : Nat} {f : Nat → Nat} (h : f ∈ (times.drop a).take n) :
    ∃ k, ∃ hk : k < times.length, a ≤ k ∧ k < a + n ∧ times[k] = f := by
  obtain ⟨k, hk, rfl⟩ := List.mem_iff_getElem.mp h
  rw [List.length_take, List.length_drop] at hk
  refine ⟨a + k, by omega, by omega, by omega, ?_⟩
  rw [List.getElem_take, List.getElem_drop]

theorem drop_split (times : List (Nat → Nat)) {a b : Nat} (h : a ≤ b) :
    times.drop a = (times.drop a).take (b - a) ++ times.drop b := by
  have e : times.drop b = (times.drop a).drop (b - a) := by
    rw [List.drop_drop]
    congr 1
    omega
  rw [e, List.take_append_drop]

/-! ## The readings of one scan -/

theorem closedKeys_congr {ps : List Place} {f g : Sw → Bool} {row : Nat}
    (h : ∀ p ∈ ps, p.row = row → f p.sw = g p.sw) : closedKeys ps f row = closedKeys ps g row := by
  unfold closedKeys
  have key : ∀ b : UInt8,
      ps.foldl (fun b p => if p.row = row ∧ f p.sw = true then b ||| oneBit p.col else b) b =
      ps.foldl (fun b p => if p.row = row ∧ g p.sw = true then b ||| oneBit p.col else b) b := by
    induction ps with
    | nil => exact fun _ => rfl
    | cons p ps ih =>
      intro b
      rw [List.foldl_cons, List.foldl_cons, ih fun q hq => h q (List.mem_cons_of_mem _ hq)]
      congr 1
      by_cases e : p.row = row
      · rw [h p List.mem_cons_self e]
      · rw [if_neg fun e' => e e'.1, if_neg fun e' => e e'.1]
  exact key 0

theorem sw_mem {l : List Place} (hl : ∀ p ∈ l, p ∈ classicPlaces) {p : Place} (hp : p ∈ classicPlaces) :
    (l.map (·.sw)).contains p.sw = decide (p ∈ l) := by
  rw [Bool.eq_iff_iff, List.contains_iff_mem, decide_eq_true_eq, List.mem_map]
  constructor
  · rintro ⟨q, hq, e⟩
    rw [← places_inj q (hl q hq) p hp e]
    exact hq
  · exact fun h => ⟨p, h, rfl⟩

/-- A scan that finds these keys closed. -/
theorem reading_eq {sw : Nat → Sw → Bool} {f : Nat → Nat} {l : List Place} (hl : ∀ p ∈ l, p ∈ classicPlaces)
    (h : ∀ p ∈ classicPlaces, sw (f p.row) p.sw = decide (p ∈ l)) :
    (pressed classicPlaces fun row => sw (f row)) = keysClosed l := by
  funext row
  refine closedKeys_congr fun p hp e => ?_
  rw [sw_mem hl hp, ← h p hp, e]

/-- The keys that are down after some movements. -/
theorem mem_fold {zs : List Place} {down : List Place} (hn : down.Nodup) (p : Place) :
    p ∈ zs.foldl moved down ↔ (zs.countP (fun z => z = p) + if p ∈ down then 1 else 0) % 2 = 1 := by
  induction zs generalizing down with
  | nil =>
    rw [List.foldl_nil, List.countP_nil]
    by_cases h : p ∈ down <;> simp [h]
  | cons z zs ih =>
    rw [List.foldl_cons, ih (moved_nodup hn z), List.countP_cons]
    by_cases hz : z = p
    · subst hz
      by_cases h : z ∈ down
      · simp only [mem_moved hn, h]
        simp
        omega
      · simp only [mem_moved hn, h]
        simp
    · have hm : (p ∈ moved down z) = (p ∈ down) := by
        rw [mem_moved hn]
        have : p ≠ z := fun e => hz e.symm
        simp [this]
      simp only [hm]
      simp [hz]

section
variable {lo hi : Nat} {times : List (Nat → Nat)} {sw : Nat → Sw → Bool} {done rest : List TimedMove}

/-- A key that does not bounce in this scan: it is closed if it is down. -/
theorem key_read (hT : InOrder lo hi times) {ms : List TimedMove} (hF : SwitchesFollow sw ms) (hms : ms.Perm (done ++ rest))
    {k : Nat} (hk : k < times.length) {p : Place} (hp : p ∈ classicPlaces)
    (hdone : ∀ m ∈ done, m.key = p → scansBefore times m.key.row m.ends ≤ k)
    (hrest : ∀ m ∈ rest, m.key = p → m.begins ≤ m.ends ∧ k < scansBefore times m.key.row m.begins) :
    sw (times[k] p.row) p.sw = decide (p ∈ (done.map (·.key)).foldl moved []) := by
  have h1 : ∀ m ∈ done, m.key = p → m.ends ≤ times[k] p.row := by
    intro m hm e
    have := hdone m hm e
    rw [e] at this
    have h2 := scansBefore_iff hT p.row m.ends hk
    omega
  have h2 : ∀ m ∈ rest, m.key = p → times[k] p.row < m.begins ∧ times[k] p.row < m.ends := by
    intro m hm e
    obtain ⟨h3, h4⟩ := hrest m hm e
    rw [e] at h4
    have h2 := scansBefore_iff hT p.row m.begins hk
    omega
  have hcount : ms.countP (fun m => m.key = p ∧ m.ends ≤ times[k] p.row) = (done.map (·.key)).countP (fun z => z = p) := by
    rw [hms.countP_eq, List.countP_append, List.countP_map]
    have e1 : done.countP (fun m => decide (m.key = p ∧ m.ends ≤ times[k] p.row)) =
        done.countP ((fun z => decide (z = p)) ∘ (·.key)) := by
      refine List.countP_congr fun m hm => ?_
      simp only [decide_eq_true_eq, Function.comp]
      exact ⟨fun h => h.1, fun h => ⟨h, h1 m hm h⟩⟩
    have e2 : rest.countP (fun m => decide (m.key = p ∧ m.ends ≤ times[k] p.row)) = 0 := by
      rw [List.countP_eq_zero]
      intro m hm
      simp only [decide_eq_true_eq]
      rintro ⟨h3, h4⟩
      have := h2 m hm h3
      omega
    rw [e1, e2, Nat.add_zero]
  rw [hF (times[k] p.row) p hp ?_, hcount, decide_eq_decide, mem_fold List.nodup_nil]
  · simp
  · intro m hm e
    rcases List.mem_append.mp (hms.mem_iff.mp hm) with hm | hm
    · have := h1 m hm e
      omega
    · have := (h2 m hm e).1
      omega

end

theorem wellTimed_ge {times : List (Nat → Nat)} {ms : List TimedMove} (h : WellTimed times ms) {k : Nat}
    (hk : k ≤ untilNext times ms) : ∀ m ∈ ms, m.begins ≤ m.ends ∧ k ≤ scansBefore times m.key.row m.begins := by
  induction ms generalizing k with
  | nil => exact fun m hm => (List.not_mem_nil hm).elim
  | cons n ms ih =>
    obtain ⟨h1, h2, h3, h4⟩ := h
    have hk : k ≤ scansBefore times n.key.row n.begins := hk
    intro m hm
    rcases List.mem_cons.mp hm with rfl | hm
    · exact ⟨h1, hk⟩
    · refine ih h4 (k := k) ?_ m hm
      have := scansBefore_mono times n.key.row h1
      omega

theorem untilNext_le (times : List (Nat → Nat)) (ms : List TimedMove) : untilNext times ms ≤ times.length := by
  cases ms with
  | nil => exact Nat.le_refl _
  | cons m ms => exact scansBefore_le _ _ _

/-! ## All scans -/

theorem fingers_read {lo hi : Nat} {times : List (Nat → Nat)} (hT : InOrder lo hi times) {sw : Nat → Sw → Bool}
    {ms : List TimedMove} (hF : SwitchesFollow sw ms) (rest done : List TimedMove) (hms : ms = done ++ rest)
    (s : Fingers) (hdown : s.down = (done.map (·.key)).foldl moved []) (hok : DownOk s)
    (ho : Orderly s (rest.map (·.key))) (hw : WellTimed times rest) (k : Nat)
    (hdone : ∀ m ∈ done, scansBefore times m.key.row m.ends ≤ k) (hk : k ≤ untilNext times rest) :
    ∃ vs : List Movement, readingsAt classicPlaces sw (times.drop k) =
        List.replicate (untilNext times rest - k) (keysClosed s.down) ++ movesRead s.down vs ∧
      vs.map (·.key) = rest.map (·.key) ∧ (∀ v ∈ vs, v.bounce.length ≤ 9 ∧ 10 ≤ v.steady) ∧
      (∀ z d, HeldTimes times d z none rest → HeldAtMost d z none vs) ∧
      (∀ z d a, a ≤ untilNext times rest → HeldTimes times d z (some a) rest →
        HeldAtMost d z (some (untilNext times rest - a)) vs) := by
  induction rest generalizing done s k with
  | nil =>
    refine ⟨[], ?_, rfl, fun v hv => (List.not_mem_nil hv).elim, fun _ _ _ => trivial, ?_⟩
    · show List.map _ (times.drop k) = _
      rw [show movesRead s.down [] = [] from rfl, List.append_nil, List.eq_replicate_iff, List.length_map,
        List.length_drop]
      refine ⟨rfl, fun R hR => ?_⟩
      obtain ⟨f, hf, rfl⟩ := List.mem_map.mp hR
      rw [← List.take_length (l := times.drop k)] at hf
      obtain ⟨j, hj, h1, _, rfl⟩ := mem_slice hf
      refine reading_eq hok.places fun p hp => ?_
      rw [hdown]
      exact key_read hT hF (by rw [hms]) hj hp (fun m hm _ => Nat.le_trans (hdone m hm) h1)
        (fun m hm => (List.not_mem_nil hm).elim)
    · intro z d a _ hh
      have hh : times.length ≤ a + d := hh
      show times.length - a ≤ d
      omega
  | cons m rest ih =>
    obtain ⟨w1, w2, w3, w4⟩ := hw
    obtain ⟨hM, ho⟩ := ho
    have hk : k ≤ scansBefore times m.key.row m.begins := hk
    have hAB := scansBefore_mono times m.key.row w1
    have hlater := wellTimed_ge w4 (k := scansBefore times m.key.row m.ends + 10) w3
    obtain ⟨vs, i1, i2, i3, i4, i5⟩ := ih (done ++ [m]) (by rw [hms, List.append_assoc]; rfl) (s.move m.key)
      (by rw [List.map_append, List.foldl_append, ← hdown]; rfl) (hok.next hM) ho w4
      (scansBefore times m.key.row m.ends) (fun n hn => by
        rcases List.mem_append.mp hn with hn | hn
        · have := hdone n hn
          omega
        · rw [List.mem_singleton.mp hn]
          exact Nat.le_refl _) (by omega)
    have eB := scansBefore_le times m.key.row m.ends
    have hnext : untilNext times (m :: rest) = scansBefore times m.key.row m.begins := rfl
    generalize hA : scansBefore times m.key.row m.begins = A at *
    generalize hB : scansBefore times m.key.row m.ends = B at *
    let bs : List Bool := ((times.drop A).take (B - A)).map fun f => sw (f m.key.row) m.key.sw
    have hbs : bs.length = B - A := by
      simp only [bs, List.length_map, List.length_take, List.length_drop]
      omega
    have hset : ∀ b : Bool, ∀ p, p ∈ (if b then m.key :: s.down.erase m.key else s.down.erase m.key) ↔
        (p ≠ m.key ∧ p ∈ s.down) ∨ (p = m.key ∧ b = true) := by
      intro b p
      cases b
      · rw [if_neg (by decide), hok.nodup.mem_erase_iff]
        simp
      · rw [if_pos rfl, List.mem_cons, hok.nodup.mem_erase_iff]
        simp [or_comm]
    have hother : ∀ j (hj : j < times.length), k ≤ j → j < B → ∀ p ∈ classicPlaces, p ≠ m.key →
        sw (times[j] p.row) p.sw = decide (p ∈ s.down) := by
      intro j hj h1 h2 p hp hne
      rw [hdown]
      refine key_read hT hF (rest := m :: rest) (by rw [hms]) hj hp (fun n hn _ => Nat.le_trans (hdone n hn) h1)
        fun n hn e => ?_
      rcases List.mem_cons.mp hn with rfl | hn
      · exact absurd e.symm hne
      · have := hlater n hn
        omega
    have r1 : readingsAt classicPlaces sw ((times.drop k).take (A - k)) =
        List.replicate (A - k) (keysClosed s.down) := by
      show List.map _ _ = _
      rw [List.eq_replicate_iff, List.length_map, List.length_take, List.length_drop]
      refine ⟨by omega, fun R hR => ?_⟩
      obtain ⟨f, hf, rfl⟩ := List.mem_map.mp hR
      obtain ⟨j, hj, h1, h2, rfl⟩ := mem_slice hf
      refine reading_eq hok.places fun p hp => ?_
      rw [hdown]
      refine key_read hT hF (rest := m :: rest) (by rw [hms]) hj hp (fun n hn _ => Nat.le_trans (hdone n hn) h1)
        fun n hn e => ?_
      rcases List.mem_cons.mp hn with rfl | hn
      · rw [hA]
        exact ⟨w1, by omega⟩
      · have := hlater n hn
        omega
    have r2 : readingsAt classicPlaces sw ((times.drop A).take (B - A)) = bs.map fun b =>
        keysClosed (if b then m.key :: s.down.erase m.key else s.down.erase m.key) := by
      show List.map _ _ = List.map _ (List.map _ _)
      rw [List.map_map]
      refine List.map_congr_left fun f hf => ?_
      obtain ⟨j, hj, h1, h2, rfl⟩ := mem_slice hf
      refine reading_eq (fun p hp => ?_) fun p hp => ?_
      · rcases (hset _ p).mp hp with ⟨_, hp⟩ | ⟨rfl, _⟩
        · exact hok.places p hp
        · exact hM.1
      · rw [Bool.eq_iff_iff, decide_eq_true_eq, hset]
        by_cases e : p = m.key
        · subst e
          simp
        · rw [hother j hj (by omega) (by omega) p hp e]
          simp [e]
    refine ⟨⟨m.key, bs, untilNext times rest - B⟩ :: vs, ?_, ?_, ?_, ?_, ?_⟩
    · rw [hnext, drop_split times hk, drop_split times hAB]
      show List.map _ (_ ++ (_ ++ _)) = _
      rw [List.map_append, List.map_append]
      have e : ∀ l, List.map (fun t : Nat → Nat => pressed classicPlaces fun row => sw (t row)) l =
        readingsAt classicPlaces sw l := fun _ => rfl
      rw [e, e, e, r1, r2, i1]
      simp only [movesRead, Movement.readings, List.append_assoc]
      rfl
    · rw [List.map_cons, List.map_cons, i2]
    · intro v hv
      rcases List.mem_cons.mp hv with rfl | hv
      · rw [hbs]
        dsimp only
        omega
      · exact i3 v hv
    · intro z d hh
      unfold HeldTimes at hh
      unfold HeldAtMost
      dsimp only
      by_cases e : m.key = z
      · rw [if_pos e] at hh ⊢
        rw [← e, hA] at hh
        have := i5 m.key d A (by omega) hh
        have es : Movement.scans ⟨m.key, bs, untilNext times rest - B⟩ = untilNext times rest - A := by
          show bs.length + (untilNext times rest - B) = _
          rw [hbs]
          omega
        rw [es, ← e]
        exact this
      · rw [if_neg e] at hh ⊢
        exact i4 z d hh
    · intro z d a ha hh
      unfold HeldTimes at hh
      unfold HeldAtMost
      dsimp only
      rw [hnext] at ha ⊢
      by_cases e : m.key = z
      · rw [if_pos e] at hh ⊢
        refine ⟨?_, i4 z d hh.2⟩
        have h1 := hh.1
        rw [← e, hB] at h1
        rw [hbs]
        omega
      · rw [if_neg e] at hh ⊢
        have := i5 z d a (by omega) hh
        have es : A - a + Movement.scans ⟨m.key, bs, untilNext times rest - B⟩ = untilNext times rest - a := by
          show A - a + (bs.length + (untilNext times rest - B)) = _
          rw [hbs]
          omega
        rw [es]
        exact this

/-- The scans find the movements of the keys, one after the other. -/
theorem fingers_moves {lo hi : Nat} {times : List (Nat → Nat)} (hT : InOrder lo hi times) {sw : Nat → Sw → Bool}
    {ms : List TimedMove} (hF : SwitchesFollow sw ms) (hC : CarefulFingers times ms) :
    ∃ start vs, readingsAt classicPlaces sw times = List.replicate start (keysClosed []) ++ movesRead [] vs ∧
      Careful .rest vs ∧ AllHeldAtMost 525 vs ∧ movesText .rest vs = keysText .rest (ms.map (·.key)) := by
  obtain ⟨vs, h1, h2, h3, h4, _⟩ := fingers_read hT hF ms [] rfl .rest rfl downOk_rest hC.order hC.timing 0
    (fun m hm => (List.not_mem_nil hm).elim) (Nat.zero_le _)
  rw [List.drop_zero, Nat.sub_zero] at h1
  refine ⟨_, vs, h1, ⟨by rw [h2]; exact hC.order, h3⟩, fun z hz hl => h4 z 525 (hC.held z hz hl), ?_⟩
  unfold movesText
  rw [h2]

theorem fingers_received {lo hi : Nat} {times : List (Nat → Nat)} (hT : InOrder lo hi times) {sw : Nat → Sw → Bool}
    {ms : List TimedMove} (hF : SwitchesFollow sw ms) (hC : CarefulFingers times ms) :
    received (readingsAt classicPlaces sw times) = (keysText .rest (ms.map (·.key))).map (false, ·) := by
  obtain ⟨start, vs, h1, h2, h3, h4⟩ := fingers_moves hT hF hC
  rw [h1, (moves_received h2 h3).2.1, h4]

/-- **C99, in time.**  The classic keyboard after power-up, DIP switches open.  The rows are read one
after the other, at any times; the keys are pressed and released at any times, overlapping as they
like, and their contacts bounce in any way.  If a bounce is over before ten scans have seen it, ten
scans pass between two movements, and no key is held for more than 525 scans, the host receives
exactly the text that was typed. -/
theorem C99_fingers (lo hi : Nat) (times : List (Nat → Nat)) (hT : InOrder lo hi times) (sw : Nat → Sw → Bool)
    (ms : List TimedMove) (hF : SwitchesFollow sw ms) (hC : CarefulFingers times ms) :
    ∃ s, powerUp shipped (readingsAt classicPlaces sw times) = .ok s ∧
      sends s.dev.trace = keysText .rest (ms.map (·.key)) ∧
      hostSees s.dev.trace = (keysText .rest (ms.map (·.key))).map (false, ·) ∧
      keystrokes s = [] ∧ messages s = [] := by
  obtain ⟨start, vs, h1, h2, h3, h4⟩ := fingers_moves hT hF hC
  rw [h1, ← h4]
  exact C99_bounce start vs h2 h3

/-- The DIP switches do not move. -/
theorem follows_open {sw : Nat → Sw → Bool} {ms : List TimedMove} (hF : SwitchesFollow sw ms)
    (ho : Orderly .rest (ms.map (·.key))) (t : Nat) : ∀ p ∈ classicPlaces, p.row = 8 → sw t p.sw = false := by
  have hrow : ∀ (zs : List Place) (s : Fingers), Orderly s zs → ∀ z ∈ zs, z.row ≠ 8 := by
    intro zs
    induction zs with
    | nil => exact fun _ _ z hz => (List.not_mem_nil hz).elim
    | cons w zs ih =>
      intro s h z hz
      obtain ⟨hM, h⟩ := h
      rcases List.mem_cons.mp hz with rfl | hz
      · exact mayMove_row hM
      · exact ih _ h z hz
  intro p hp h8
  have hno : ∀ m ∈ ms, m.key ≠ p := fun m hm e =>
    hrow _ _ ho m.key (List.mem_map_of_mem hm) (by rw [e]; exact h8)
  rw [hF t p hp fun m hm e => absurd e (hno m hm), List.countP_eq_zero.mpr fun m hm => by
    simp only [decide_eq_true_eq]
    exact fun h => hno m hm h.1]
  rfl

theorem dip_places : ∀ n ∈ [1, 2, 3, 4, 5, 6, 7, 8], ∃ p ∈ classicPlaces, p.sw = .dip n ∧ p.row = 8 := by
  decide +kernel

/-- A world with the DIP switches open is safe. -/
theorem safe_of_rows {sw : Nat → Sw → Bool} {W : C.Outside} (hS : SwitchWorld classicPlaces sw W)
    (hd : ∀ t, ∀ p ∈ classicPlaces, p.row = 8 → sw t p.sw = false) : SafeWorld W := by
  have key : ∀ c, c < 8 → ∀ t, bitOf (W.keys t 8) c = false := by
    intro c hc t
    rw [hS t]
    cases e : bitOf (closedKeys classicPlaces (sw t) 8) c
    · rfl
    · obtain ⟨p, hp, _, h2, h3⟩ := (closedKeys_bit (fun p hp => places_cols p (List.mem_append_left _ hp))
        (sw t) 8 c hc).mp e
      rw [hd t p hp h3] at h2
      cases h2
  exact C90_safe_settings W false false (key 1 (by omega)) (key 2 (by omega)) (.inl rfl)

theorem dip7_open {sw : Nat → Sw → Bool} (hd : ∀ t, ∀ p ∈ classicPlaces, p.row = 8 → sw t p.sw = false) (t : Nat) :
    sw t (.dip 7) = false := by
  obtain ⟨p, hp, e, h8⟩ := dip_places 7 (by decide)
  rw [← e]
  exact hd t p hp h8

/-- **C99, from the fingers to the computer.**  The classic keyboard on the ATmega328P interface, in
any electrical state at power-up, run by the text of the firmware: whatever keys move, on contacts
that bounce, if the movements are careful measured by the scans of that run, the computer reads
exactly the text that was typed. -/
theorem C99_computer_328 (A : Assembly) (h : (A, classicPlaces) ∈ boards328 classicPlaces solPlaces)
    (sockets : List (Nat × List (Nat × Signal))) (hA : (A, sockets) ∈ plugged328)
    (k : Nat) (lines : List (Nat × Signal)) (hk : (k, lines) ∈ sockets) (pin : Nat)
    (hpin : (pin, .strobe) ∈ lines) (sw : Nat → Sw → Bool) (W : C.Outside) (hS : SwitchWorld classicPlaces sw W)
    (ms : List TimedMove) (hF : SwitchesFollow sw ms) (ho : Orderly .rest (ms.map (·.key))) (r0 : Regs) (sr : UInt8)
    (polls w n : Nat) (hw : 65536 ≤ w) (hp : polls < w) (hn : 23 ≤ n) :
    ∃ times hi h log, BetweenLooks C.board328 W w n r0 sr polls times ∧ InOrder 0 hi times ∧ textRun C.board328 W w n r0 sr polls = some h ∧
      hi ≤ h.time ∧ h.found = times.length ∧ h.found ≤ h.ints ∧
      statesOf h = boardStates m328 r0 [.archInit] ++ log ∧
      (CarefulFingers times ms →
        ∀ edge v vs, AtSocket328 A k lines (boardAfter m328 r0 [.archInit]) v →
          Watches (AtSocket328 A k lines) log vs →
          computerReads lines edge v vs = keysText .rest (ms.map (·.key))) := by
  have hd := fun t => follows_open hF ho t
  obtain ⟨times, hi, hh, log, e0, e1, e2, e3, e4, e5, e6, e7⟩ := C90_computer_328 A _ h sockets hA k lines hk pin
    hpin sw W hS (safe_of_rows hS hd) false (dip7_open hd) r0 sr polls w n hw hp hn
  refine ⟨times, hi, hh, log, e0, e1, e2, e3, e4, e5, e6, ?_⟩
  intro hC edge v vs hv hvs
  rw [e7 edge v vs hv hvs, show (channel _ _).host = _ from fingers_received e1 hF hC, List.map_map]
  exact List.map_id _

/-- **C99, from the fingers to the computer,** with the ATmega2560. -/
theorem C99_computer_2560 (A : Assembly) (h : (A, classicPlaces) ∈ boards2560 classicPlaces solPlaces)
    (out : Net → Prop) (hout : ∀ n, out n → Outside A n) (cols : (Sw → Bool) → Regs → UInt8)
    (hcols : ∀ closed r, rowReady2560 r →
      ReadsLevels A.links (column2560 A) closed (fun n => Low2560 A r n ∨ out n) (cols closed r))
    (sockets : List (Nat × List (Nat × Signal))) (hA : (A, sockets) ∈ plugged2560)
    (k : Nat) (lines : List (Nat × Signal)) (hk : (k, lines) ∈ sockets) (pin : Nat)
    (hpin : (pin, .strobe) ∈ lines) :
    ∃ f, (∀ closed r, rowReady2560 r → f (closedKeys classicPlaces closed) r = cols closed r) ∧
      ∀ (sw : Nat → Sw → Bool) (W : C.Outside), SwitchWorld classicPlaces sw W →
      ∀ (ms : List TimedMove), SwitchesFollow sw ms → Orderly .rest (ms.map (·.key)) →
      ∀ (r0 : Regs) (sr : UInt8) (polls w n : Nat), 65536 ≤ w → polls < w → 23 ≤ n →
        ∃ times hi h log, BetweenLooks (C.board2560 f) W w n r0 sr polls times ∧ InOrder 0 hi times ∧ textRun (C.board2560 f) W w n r0 sr polls = some h ∧
          hi ≤ h.time ∧ h.found = times.length ∧ h.found ≤ h.ints ∧
          statesOf h = boardStates m2560 r0 [.archInit] ++ log ∧
          (CarefulFingers times ms →
            ∀ edge v vs, AtSocket2560 A k lines (boardAfter m2560 r0 [.archInit]) v →
              Watches (AtSocket2560 A k lines) log vs →
              computerReads lines edge v vs = keysText .rest (ms.map (·.key))) := by
  obtain ⟨f, hf, hrun⟩ := C90_computer_2560 A _ h out hout cols hcols sockets hA k lines hk pin hpin
  refine ⟨f, hf, fun sw W hS ms hF ho r0 sr polls w n hw hp hn => ?_⟩
  have hd := fun t => follows_open hF ho t
  obtain ⟨times, hi, hh, log, e0, e1, e2, e3, e4, e5, e6, e7⟩ := hrun sw W hS (safe_of_rows hS hd) false
    (dip7_open hd) r0 sr polls w n hw hp hn
  refine ⟨times, hi, hh, log, e0, e1, e2, e3, e4, e5, e6, ?_⟩
  intro hC edge v vs hv hvs
  rw [e7 edge v vs hv hvs, show (channel _ _).host = _ from fingers_received e1 hF hC, List.map_map]
  exact List.map_id _

/-! ## Non-vacuity -/

instance decTimed (times : List (Nat → Nat)) : (ms : List TimedMove) → Decidable (WellTimed times ms)
  | [] => inferInstanceAs (Decidable True)
  | m :: ms =>
    have := decTimed times ms
    inferInstanceAs (Decidable (m.begins ≤ m.ends ∧
      scansBefore times m.key.row m.ends ≤ scansBefore times m.key.row m.begins + 9 ∧
      scansBefore times m.key.row m.ends + 10 ≤ untilNext times ms ∧ WellTimed times ms))

instance decHeldTimes (times : List (Nat → Nat)) (d : Nat) (z : Place) :
    (o : Option Nat) → (ms : List TimedMove) → Decidable (HeldTimes times d z o ms)
  | none, [] => inferInstanceAs (Decidable True)
  | some a, [] => inferInstanceAs (Decidable (times.length ≤ a + d))
  | none, m :: ms => decHeldTimes times d z (if m.key = z then some (scansBefore times z.row m.begins) else none) ms
  | some a, m :: ms =>
    have := decHeldTimes times d z none ms
    have := decHeldTimes times d z (some a) ms
    inferInstanceAs (Decidable (if m.key = z then
      scansBefore times z.row m.ends ≤ a + d ∧ HeldTimes times d z none ms else HeldTimes times d z (some a) ms))

/-- Switches that move in this way; while it bounces a contact is closed at even times. -/
def switchesOf (ms : List TimedMove) (t : Nat) (s : Sw) : Bool :=
  classicPlaces.any fun p => p.sw == s &&
    if ms.any fun m => m.key == p && decide (m.begins ≤ t) && decide (t < m.ends) then t % 2 == 0
    else decide ((ms.countP fun m => m.key = p ∧ m.ends ≤ t) % 2 = 1)

theorem follows_switchesOf (ms : List TimedMove) : SwitchesFollow (switchesOf ms) ms := by
  intro t p hp hno
  have hb : (ms.any fun m => m.key == p && decide (m.begins ≤ t) && decide (t < m.ends)) = false := by
    rw [List.any_eq_false]
    intro m hm e
    simp only [Bool.and_eq_true, beq_iff_eq, decide_eq_true_eq] at e
    exact hno m hm e.1.1 ⟨e.1.2, e.2⟩
  rw [Bool.eq_iff_iff, switchesOf, List.any_eq_true]
  constructor
  · rintro ⟨q, hq, e⟩
    rw [Bool.and_eq_true, beq_iff_eq] at e
    have := places_inj q hq p hp e.1
    subst this
    rw [hb] at e
    exact e.2
  · intro e
    refine ⟨p, hp, ?_⟩
    rw [hb, Bool.and_eq_true]
    exact ⟨beq_self_eq_true _, e⟩

/-- Scans every millisecond, a row every 20 microseconds. -/
def everyMs (n : Nat) : List (Nat → Nat) := (List.range n).map fun k row => 1000 * k + 20 * min row 8

theorem everyMs_inOrder (n : Nat) : InOrder 0 (1000 * n) (everyMs n) := by
  have key : ∀ m k, InOrder (1000 * k) (1000 * (k + m))
      ((List.range' k m).map fun k row => 1000 * k + 20 * min row 8) := by
    intro m
    induction m with
    | zero => exact fun k => Nat.le_refl _
    | succ m ih =>
      intro k
      refine ⟨1000 * (k + 1), fun row => ?_, ?_⟩
      · show 1000 * k ≤ 1000 * k + 20 * min row 8 ∧ 1000 * k + 20 * min row 8 ≤ 1000 * (k + 1)
        omega
      have := ih (k + 1)
      rw [show k + 1 + m = k + (m + 1) by omega] at this
      exact this
  have := key n 0
  rw [Nat.zero_add] at this
  unfold everyMs
  rw [List.range_eq_range']
  exact this

/-- `H` with SHIFT, which is released first, then `i` and `h` overlapping; the contacts bounce for up to 7 milliseconds. -/
def hihTimed : List TimedMove :=
  [⟨keyShift, 5300, 8000⟩, ⟨keyH, 31234, 36001⟩, ⟨keyShift, 78000, 80000⟩, ⟨keyH, 95432, 101000⟩,
   ⟨keyI, 120000, 127000⟩, ⟨keyH, 150000, 150000⟩, ⟨keyI, 170000, 173210⟩, ⟨keyH, 190000, 191000⟩]

example : InOrder 0 205000 (everyMs 205) ∧ SwitchesFollow (switchesOf hihTimed) hihTimed ∧
    CarefulFingers (everyMs 205) hihTimed ∧ keysText .rest (hihTimed.map (·.key)) = [ch 'H', ch 'i', ch 'h'] := by
  refine ⟨everyMs_inOrder 205, follows_switchesOf _, ⟨?_, ?_, ?_⟩, ?_⟩ <;> decide +kernel

end Asdf.Props
