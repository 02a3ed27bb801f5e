import Verif.Spec.OsiBoard
import Verif.Lemmas.BoardRoles

/-! # Property C86: the OSI interface -/

namespace Asdf.Props

open Pcb Spec Asdf.Pcb.Roles

/-! ## The latches -/

theorem osi_latch5 (w a b s : Bool) (d old : Nat → Bool) :
    ∃ f, latchAfter 5 ⟨w, a, b, s, d⟩ old = some f ∧
      (if w && s && !a && !b then ∀ i, i < 8 → f i = !d i else f = old) := by
  cases w <;> cases a <;> cases b <;> cases s
  all_goals first
    | exact ⟨_, rfl, rfl⟩
    | exact ⟨_, rfl, fun i hi => by
        match i, hi with
        | 0, _ | 1, _ | 2, _ | 3, _ | 4, _ | 5, _ | 6, _ | 7, _ => rfl⟩

theorem osi_latch6 (w a b s : Bool) (d old : Nat → Bool) :
    ∃ f, latchAfter 6 ⟨w, a, b, s, d⟩ old = some f ∧
      (if w && s && a && !b then ∀ i, i < 8 → f i = !d i else f = old) := by
  cases w <;> cases a <;> cases b <;> cases s
  all_goals first
    | exact ⟨_, rfl, rfl⟩
    | exact ⟨_, rfl, fun i hi => by
        match i, hi with
        | 0, _ | 1, _ | 2, _ | 3, _ | 4, _ | 5, _ | 6, _ | 7, _ => rfl⟩

/-- The chips U1 to U6 are what the model takes them for. -/
theorem C86_chips : (List.range' 1 6).map (fun u => (findPart Data.osi .chip u).map (·.value)) =
    [some "74LS138", some "74LS04", some "74HC240", some "74LS240", some "74LS373", some "74LS373"] := by
  decide +kernel

/-- The outputs of the two latches are always enabled (pin 1 is low). -/
theorem C86_latches_enabled : osiPin 5 1 = osiBus 8 ∧ osiPin 6 1 = osiBus 8 ∧ osiBus 8 = some 18 := by
  decide +kernel

/-- **C86, writing.**  Every bus cycle has a definite effect on the two latches.  A write
with the keyboard selected at the first address stores the byte, inverted, in the row
latch; at the second address in the sound latch.  Nothing else changes either latch. -/
theorem C86_write (L : Latches) (c : Cycle) : ∃ L', L.after c = some L' ∧
    (if c.write && atKeys c then ∀ i, i < 8 → L'.rows i = !c.data i else L'.rows = L.rows) ∧
    (if c.write && atSound c then ∀ i, i < 8 → L'.sound i = !c.data i else L'.sound = L.sound) := by
  obtain ⟨w, a, b, s, d⟩ := c
  obtain ⟨f, hf, h1⟩ := osi_latch5 w a b s d L.rows
  obtain ⟨g, hg, h2⟩ := osi_latch6 w a b s d L.sound
  refine ⟨⟨f, g⟩, ?_, ?_, ?_⟩
  · unfold Latches.after
    rw [hf, hg]
  · rw [Bool.and_assoc, Bool.and_assoc] at h1
    simpa only [atKeys, Bool.and_assoc] using h1
  · rw [Bool.and_assoc, Bool.and_assoc] at h2
    simpa only [atSound, Bool.and_assoc] using h2

/-- **C86, reading.**  The interface drives the data lines exactly in a read with the
keyboard selected at the first address, and then data line `i` is the inverted column
line `i`. -/
theorem C86_read (c : Cycle) (hr : c.write = false) (columns : Nat → Bool) (i : Nat) (hi : i < 8) :
    busRead c columns i = if atKeys c then some (!columns i) else none := by
  obtain ⟨w, a, b, s, d⟩ := c
  cases hr
  cases a <;> cases b <;> cases s <;>
    match i, hi with
    | 0, _ | 1, _ | 2, _ | 3, _ | 4, _ | 5, _ | 6, _ | 7, _ => rfl

/-- The chips drive no data line in a write: the level of a data line is the computer's. -/
theorem C86_write_lines (c : Cycle) (hw : c.write = true) (columns : Nat → Bool) (i : Nat) (hi : i < 8) :
    busRead c columns i = some (c.data i) := by
  obtain ⟨w, a, b, s, d⟩ := c
  cases hw
  cases a <;> cases b <;> cases s <;>
    match i, hi with
    | 0, _ | 1, _ | 2, _ | 3, _ | 4, _ | 5, _ | 6, _ | 7, _ => rfl

/-- Cycles other than a write at the first address keep the row latch. -/
theorem latches_keep (cs : List Cycle) (h : ∀ c ∈ cs, (c.write && atKeys c) = false) (L : Latches) :
    ∃ L', latchesAfter L cs = some L' ∧ L'.rows = L.rows := by
  induction cs generalizing L with
  | nil => exact ⟨L, rfl, rfl⟩
  | cons c cs ih =>
    obtain ⟨L1, h1, h2, _⟩ := C86_write L c
    rw [h c List.mem_cons_self] at h2
    obtain ⟨L2, h3, h4⟩ := ih (fun x hx => h x (List.mem_cons_of_mem _ hx)) L1
    refine ⟨L2, ?_, h4.trans h2⟩
    rw [latchesAfter, h1]
    exact h3

/-! ## The matrix -/

def osiCol (c : Nat) : Option Net := (osiColumn c).map .io
def osiDrv (i : Nat) : Option Net := (osiPin 5 (latchOut i)).map .io

def osiRoles : Roles := ⟨classicOsi_kb, classicOsi_io⟩

/-- A switch between two nets outside the matrix. -/
def looseLink (R : Roles) : Link → Bool
  | .switch _ a b => R.at a = .free && R.at b = .free
  | _ => false

/-- No net is pulled low but as its role says, also with switches outside the matrix. -/
theorem roles_sound_loose {ls : List Link} {ps : List Place} {R : Roles}
    (hls : (ls.all fun l => linkOk ps R l || looseLink R l) = true) {closed : Sw → Bool}
    {low : Net → Prop} {lowRow : Nat → Prop} (hlow : ∀ n, low n → (R.at n).Low ps closed lowRow)
    {n : Net} (h : PulledLow ls closed low n) : (R.at n).Low ps closed lowRow := by
  induction h with
  | driven h => exact hlow _ h
  | @through a b l hl hp _ ih =>
    have hk := List.all_eq_true.mp hls l hl
    rw [Bool.or_eq_true] at hk
    rcases hk with hk | hk
    · exact roles_sound (ls := [l]) (by simp [hk]) (low := fun m => (R.at m).Low ps closed lowRow)
        (fun _ h => h) (.through List.mem_cons_self hp (.driven ih))
    · cases l with
      | switch s x y =>
        simp only [looseLink, Bool.and_eq_true, decide_eq_true_eq] at hk
        obtain ⟨_, ⟨rfl, rfl⟩ | ⟨rfl, rfl⟩⟩ := hp
        · rw [hk.1]
          trivial
        · rw [hk.2]
          trivial
      | diode x y => cases hk
      | wire x y => cases hk

theorem osi_links : ∀ cut, 
    ((osiLinks cut).all fun l => linkOk osiPlaces osiRoles l || looseLink osiRoles l) = true := by
  decide +kernel

theorem osi_ways : ∀ cut, waysOk (osiLinks cut) osiCol osiDrv osiPlaces classicOsi_ways = true := by
  decide +kernel

theorem osi_rows : ∀ p ∈ osiPlaces, p.row < 8 := by decide +kernel

theorem osi_gnd : osiRoles.at (.io 18) = .free := by decide +kernel

theorem osi_drivers : ∀ i, i < 8 → ∀ m, osiPin 5 (latchOut i) = some m → osiRoles.at (.io m) = .row i := by
  intro i hi m hm
  have h : ∀ i < 8, (osiPin 5 (latchOut i)).all fun m => osiRoles.at (.io m) = .row i := by decide +kernel
  have := h i hi
  rw [hm, Option.all_some] at this
  exact of_decide_eq_true this

theorem osi_cols : ∀ c, c < 8 → ∃ m, osiColumn c = some m ∧ osiRoles.at (.io m) = .col c := by
  intro c hc
  have h : ∀ c < 8, (osiColumn c).any fun m => osiRoles.at (.io m) = .col c := by decide +kernel
  have := h c hc
  rw [Option.any_eq_true] at this
  obtain ⟨m, hm, h⟩ := this
  exact ⟨m, hm, of_decide_eq_true h⟩

/-- **C86, the matrix.**  Whatever keys are pressed, a column line is low exactly when a
pressed key of that column is in a row whose latch output is low: no ghost keys. -/
theorem C86_matrix (cut : Bool) (closed : Sw → Bool) (L : Latches) (c : Nat) (hc : c < 8) :
    ∃ m, osiColumn c = some m ∧ (PulledLow (osiLinks cut) closed (LowOsi L) (.io m) ↔
      ∃ p ∈ osiPlaces, p.col = c ∧ closed p.sw = true ∧ L.rows p.row = false) := by
  obtain ⟨m, hm, hrole⟩ := osi_cols c hc
  refine ⟨m, hm, fun h => ?_, ?_⟩
  · have := roles_sound_loose (osi_links cut) (lowRow := fun r => L.rows r = false) (fun n hn => ?_) h
    · rw [hrole] at this
      exact this
    · rcases hn with rfl | ⟨i, k, hi, hl, hk, rfl⟩
      · rw [osi_gnd]
        trivial
      · rw [osi_drivers i hi k hk]
        exact hl
  · rintro ⟨p, hp, rfl, hs, hr⟩
    obtain ⟨_, _, w, a, k, hw, ha, hca, hk, hdk⟩ := ways_sound (osi_ways cut) hp
    rw [osiCol, hm] at hca
    cases hca
    rw [osiDrv, Option.map_eq_some_iff] at hdk
    obtain ⟨j, hj, rfl⟩ := hdk
    exact way_sound hs hw ha hk (.driven (.inr ⟨_, j, osi_rows p hp, hr, hj, rfl⟩))

/-- **C86.**  A computer writes a byte to the first address of the keyboard; after any
further bus cycles but such a write, it reads the first address.  Bit `i` of what it
reads is 1 exactly when some pressed key is in column `i` and in a row whose bit of the
byte is 1. -/
theorem C86_scan (cut : Bool) (L : Latches) (wr : Cycle) (hw : (wr.write && atKeys wr) = true)
    (cs : List Cycle) (hcs : ∀ c ∈ cs, (c.write && atKeys c) = false)
    (rd : Cycle) (hr : rd.write = false) (hk : atKeys rd = true) :
    ∃ L', latchesAfter L (wr :: cs) = some L' ∧ ∀ closed columns, OsiColumns cut closed L' columns →
      ∀ i, i < 8 → ∃ level, busRead rd columns i = some level ∧
        (level = true ↔ ∃ p ∈ osiPlaces, p.col = i ∧ closed p.sw = true ∧ wr.data p.row = true) := by
  obtain ⟨L1, h1, h2, _⟩ := C86_write L wr
  rw [hw, if_pos rfl] at h2
  obtain ⟨L2, h3, h4⟩ := latches_keep cs hcs L1
  refine ⟨L2, ?_, fun closed columns hcol i hi => ⟨!columns i, ?_, ?_⟩⟩
  · rw [latchesAfter, h1]
    exact h3
  · rw [C86_read rd hr columns i hi, hk, if_pos rfl]
  · obtain ⟨m, hm, hiff⟩ := C86_matrix cut closed L2 i hi
    rw [Bool.not_eq_true', hcol i m hi hm, hiff]
    constructor
    · rintro ⟨p, hp, hc, hs, hl⟩
      rw [h4, h2 _ (osi_rows p hp)] at hl
      exact ⟨p, hp, hc, hs, by simpa using hl⟩
    · rintro ⟨p, hp, hc, hs, hl⟩
      refine ⟨p, hp, hc, hs, ?_⟩
      rw [h4, h2 _ (osi_rows p hp), hl]
      rfl

/-- The keys have the labels printed on the classic keyboard. -/
theorem C86_labels : ∀ p ∈ osiPlaces, p.sw ≠ .dip 1 → switchLabel Data.classic p.sw = some p.label := by
  decide +kernel

/-- Every key of the keyboard is in the matrix but three: SHIFT LOCK, BREAK and the power
light, whose lines go to their own circuits. -/
theorem C86_all_keys : ∀ p ∈ Data.classic, p.kind = .key →
    p.num ∈ [32, 34, 61] ∨ ∃ q ∈ osiPlaces, q.sw = .key p.num := by decide +kernel

/-- Every column line has a pull-up resistor. -/
theorem C86_pullups : ∀ c < 8, ∃ m ∈ osiColumn c, ∃ p ∈ Data.osi, p.kind = .pullups ∧
    p.net 1 = osiBus 16 ∧ ∃ x ∈ p.pads, x.1 ≠ 1 ∧ x.2 = m := by decide +kernel

/-- Key A alone, with row 1 written: bit 6. -/
example : ∃ L', latchesAfter ⟨fun _ => true, fun _ => true⟩ [⟨true, false, false, true, fun i => i == 1⟩] =
    some L' ∧ ∀ columns, OsiColumns true (fun s => s = .key 54) L' columns →
      busRead ⟨false, false, false, true, fun _ => false⟩ columns 6 = some true ∧
      busRead ⟨false, false, false, true, fun _ => false⟩ columns 5 = some false := by
  obtain ⟨L', h1, h2⟩ := C86_scan true ⟨fun _ => true, fun _ => true⟩
    ⟨true, false, false, true, fun i => i == 1⟩ rfl [] (by simp)
    ⟨false, false, false, true, fun _ => false⟩ rfl rfl
  refine ⟨L', h1, fun columns hc => ?_⟩
  obtain ⟨a, ha, h6⟩ := h2 _ columns hc 6 (by decide)
  obtain ⟨b, hb, h5⟩ := h2 _ columns hc 5 (by decide)
  have e6 : a = true := h6.mpr (by decide +kernel)
  have e5 : b = false := by
    cases b with
    | false => rfl
    | true => exact absurd (h5.mp rfl) (by decide +kernel)
  rw [ha, hb, e6, e5]
  exact ⟨rfl, rfl⟩

end Asdf.Props
