import Verif.Lemmas.Typable
import Verif.Lemmas.Shift
import Verif.Props.Letters
import Verif.Props.Typing

/-! # Properties C68 to C71: caps lock, the character set, SHIFT keys, message keys -/

namespace Asdf.Props

open Spec

/-! ## C68: caps lock changes letters only -/

/-- **C68 is false.** On keymap 2 caps lock turns the DEL key into a key without
function and the `^` key into REPEAT. -/
theorem C68_false :
    codeUnder shipped 2 8 1 0 false false false = 0x7F ∧
    codeUnder shipped 2 8 1 0 false true false = 0xA0 ∧
    codeUnder shipped 2 8 5 4 false false false = 0x5E ∧
    decodeAction (codeUnder shipped 2 8 5 4 false true false) = .repeat := by decide +kernel

set_option synthInstance.maxSize 1000 in
/-- **C68 (tables, partial).** In every keymap caps lock turns small letters into
capitals and changes nothing else; it changes nothing at all under SHIFT or CTRL.
Missing: the two keys of `C68_false`. -/
theorem C68_caps_changes_letters_only_partial : ∀ i ∈ shippedNumbers, ∀ r < rowsOf i,
    ∀ c < colsOf i, ¬ (i = 2 ∧ (r, c) ∈ [(1, 0), (5, 4)]) → ∀ shift ctrl : Bool,
      codeUnder shipped i (colsOf i) r c shift true ctrl =
        if shift || ctrl then codeUnder shipped i (colsOf i) r c shift false ctrl
        else withCaps (codeUnder shipped i (colsOf i) r c false false false) := by
  decide +kernel

/-- **C68 (at run time, partial).** At any moment of any run with keymaps 0 to 3, with
caps lock on: a key gives what it gives without caps lock, in capitals if it is a letter;
under SHIFT or CTRL exactly what it gives without caps lock. -/
theorem C68_caps_at_run_time_partial (inps : List Input)
    (hin : ∀ inp ∈ inps, Allowed shippedLayout inp) (r c : Nat) (hr : r < 9) (hc : c < 8)
    (k : Kb) (hk : k = Kb.after shipped shippedLayout inps) (hcaps : k.caps = true)
    (hex : ¬ (k.map = 2 ∧ (r, c) ∈ [(1, 0), (5, 4)])) :
    ∃ s, (boot shipped >>= fun s0 => run shipped s0 inps) = .ok s ∧
      lookupKeycode s r c = .ok
        (if (k.held || k.locked) || k.ctrl then
          codeUnder shipped k.map 8 r c (k.held || k.locked) false k.ctrl
        else withCaps (codeUnder shipped k.map 8 r c false false false)) := by
  obtain ⟨s0, e1, e2⟩ := Shows.start (cfgFacts shipped_ok)
  obtain ⟨s1, g1, g2⟩ := e2.run (cfgFacts shipped_ok) inps hin
  obtain ⟨_, w⟩ := g2.wf
  have hm : k.map ∈ shippedLayout.maps := by
    have := w.idx
    rw [g2.map] at this
    rw [hk]
    exact this
  obtain ⟨s, f1, _, _, _, _, f6⟩ := C55_whole_keyboard shipped shippedLayout shipped_ok inps hin
  refine ⟨s, f1, ?_⟩
  rw [(f6 r c hr hc).2, ← hk]
  have hall : ∀ i ∈ shippedLayout.maps, i ∈ shippedNumbers ∧ rowsOf i = 9 ∧ colsOf i = 8 := by
    decide +kernel
  obtain ⟨h1, h2, h3⟩ := hall _ hm
  have := C68_caps_changes_letters_only_partial k.map h1 r (by rw [h2]; exact hr) c
    (by rw [h3]; exact hc) hex (k.held || k.locked) k.ctrl
  rw [h3] at this
  rw [← this]
  show Except.ok (codeUnder shipped k.map 8 r c (k.held || k.locked) k.caps k.ctrl) = _
  rw [hcaps]

/-- On keymap 2, which starts with caps lock on, P is a capital. -/
example : (∀ inp ∈ List.replicate 10 (closing 8 1), Allowed shippedLayout inp) ∧
    (Kb.after shipped shippedLayout (List.replicate 10 (closing 8 1))).map = 2 ∧
    (Kb.after shipped shippedLayout (List.replicate 10 (closing 8 1))).caps = true ∧
    codeUnder shipped 2 8 1 1 false true false = 0x50 := by
  refine ⟨?_, by decide +kernel, by decide +kernel, by decide +kernel⟩
  intro inp hi
  rw [(List.mem_replicate.mp hi).2]
  intro r c hr hcl hb
  simp only [shippedLayout, Bool.and_eq_true, beq_iff_eq] at hb
  obtain ⟨rfl, rfl⟩ := hb
  decide

/-! ## C69: every ASCII character can be typed -/

/-- **C69 (exactly which).** The ASCII codes that can be typed with a keymap are exactly
those not in its list `missing`. -/
theorem C69_character_set_partial : ∀ i ∈ shippedNumbers, ∀ n < 128,
    CanType i (UInt8.ofNat n) ↔ n ∉ missing i := by
  intro i hi n hn
  have hv : (UInt8.ofNat n).toNat = n := by
    rw [UInt8.toNat_ofNat']
    exact Nat.mod_eq_of_lt (by omega)
  have hne : UInt8.ofNat n ≠ 0xA0 := by
    intro h
    have := congrArg UInt8.toNat h
    rw [hv] at this
    have h2 : (0xA0 : UInt8).toNat = 160 := rfl
    omega
  have h := shipped_chars i hi n hn
  rw [canType_iff (shipped_fourTables i hi) hne, hv]
  constructor
  · rintro ⟨t, ht, hm⟩ hmiss
    have h1 : ((tablesOf shipped i).any fun t => (keyEntries t).contains n) = true :=
      List.any_eq_true.mpr ⟨t, ht, List.contains_iff_mem.mpr hm⟩
    rw [h1, List.contains_iff_mem.mpr hmiss] at h
    cases h
  · intro hmiss
    have h2 : (missing i).contains n = false := by
      cases hc : (missing i).contains n with
      | false => rfl
      | true => exact absurd (List.contains_iff_mem.mp hc) hmiss
    rw [h2] at h
    obtain ⟨t, ht, hm⟩ := List.any_eq_true.mp h
    exact ⟨t, ht, List.contains_iff_mem.mp hm⟩

/-- **C69 is false.** `^` and `_` cannot be typed with the classic keymaps, and no keymap
can type all ASCII codes. -/
theorem C69_false : (¬ CanType 0 0x5E ∧ ¬ CanType 0 0x5F ∧ ¬ CanType 1 0x5E ∧ ¬ CanType 1 0x5F) ∧
    ∀ i ∈ shippedNumbers, ∃ n < 128, ¬ CanType i (UInt8.ofNat n) := by
  refine ⟨⟨?_, ?_, ?_, ?_⟩, ?_⟩
  · exact fun h => (C69_character_set_partial 0 (by decide) 0x5E (by decide)).mp h (by decide)
  · exact fun h => (C69_character_set_partial 0 (by decide) 0x5F (by decide)).mp h (by decide)
  · exact fun h => (C69_character_set_partial 1 (by decide) 0x5E (by decide)).mp h (by decide)
  · exact fun h => (C69_character_set_partial 1 (by decide) 0x5F (by decide)).mp h (by decide)
  · have : ∀ i ∈ shippedNumbers, ∃ n < 128, n ∈ missing i := by
      decide +kernel
    intro i hi
    obtain ⟨n, hn, hm⟩ := this i hi
    exact ⟨n, hn, fun h => (C69_character_set_partial i hi n hn).mp h hm⟩

/-- **C69 (printable characters on the Apple keymaps).** With keymap 2 every printable
character can be typed; with keymap 3 every one but the small letters. -/
theorem C69_apple_prints_all_partial : (∀ n, 32 ≤ n → n < 127 → CanType 2 (UInt8.ofNat n)) ∧
    (∀ n, 32 ≤ n → n < 127 → isLetter (UInt8.ofNat n) = false ∨ n < 0x61 →
      CanType 3 (UInt8.ofNat n)) := by
  have h2 : ∀ n < 127, 32 ≤ n → n ∉ missing 2 := by decide +kernel
  have h3 : ∀ n < 127, 32 ≤ n → isLetter (UInt8.ofNat n) = false ∨ n < 0x61 → n ∉ missing 3 := by
    decide +kernel
  exact ⟨fun n h g => (C69_character_set_partial 2 (by decide) n (by omega)).mpr (h2 n g h),
    fun n h g e => (C69_character_set_partial 3 (by decide) n (by omega)).mpr (h3 n g h e)⟩

/-- **C69 (typing it).** A character that can be typed with keymap `i` below 4 has a key
and modifiers such that in every reachable state with that keymap and those modifiers,
with nothing pending and the other keys at rest, holding that key for eleven or more
passes makes the host receive the character. -/
theorem C69_typed_partial (i : UInt8) (hi : i ∈ shippedLayout.maps) (n : Nat) (hn : n < 128)
    (hmiss : n ∉ missing i) :
    ∃ r c shift caps ctrl, r < 8 ∧ c < 8 ∧ ∀ s, Reachable shipped shippedLayout s → s.curIdx = i →
      (s.mods.shift != 0) = shift → (s.mods.caps != 0) = caps → (s.mods.ctrl != 0) = ctrl →
      keystrokes s = [] → messages s = [] → debOf s r c = Deb.init →
      ∀ inps, 11 ≤ inps.length → (∀ inp ∈ inps, Allowed shippedLayout inp ∧
        sample inp r c = true ∧ OthersRest shippedLayout s r c inp) →
      ∃ s' evs, run shipped s inps = .ok s' ∧ s'.dev.trace = s.dev.trace ++ evs ∧
        (sends evs).head? = some (UInt8.ofNat n) := by
  have hall : ∀ i ∈ shippedLayout.maps, i ∈ shippedNumbers ∧ rowsOf i = 9 ∧ colsOf i = 8 := by
    decide +kernel
  obtain ⟨h1, h2, h3⟩ := hall i hi
  obtain ⟨r, c, sh, ca, ct, hr, hd, hc, e⟩ := (C69_character_set_partial i h1 n hn).mpr hmiss
  rw [h3] at hc e
  unfold DIP_ROW at hd
  refine ⟨r, c, sh, ca, ct, by omega, hc, ?_⟩
  intro s hs hidx hsh hca hct hk hm hfresh inps hlen hin
  have hv : (UInt8.ofNat n).toNat = n := by
    rw [UInt8.toNat_ofNat']
    exact Nat.mod_eq_of_lt (by omega)
  have hcode : codeOf s shippedLayout.cols r c = UInt8.ofNat n := by
    obtain ⟨ks, ms, a, free, hw⟩ := hs.inv (cfgFacts shipped_ok)
    have hmaps := hw.maps
    rw [← e]
    unfold codeOf activeTable codeUnder tablesOf
    rw [hsh, hca, hct, hmaps, hidx, List.getElem?_map]
    show entryAt _ 8 r c = entryAt _ 8 r c
    cases (mapsOf (shipped.setup i))[tableFor sh ca ct]? <;> rfl
  obtain ⟨s', evs, g1, g2, g3, _⟩ := C48_hold_sends shipped shippedLayout shipped_ok s hs hk hm r c
    (by show r < 9; omega) hc (by have := congrArg Deb.on hfresh; exact this) _ hcode
    (by rw [hv]; omega) inps hin
  refine ⟨s', evs, g1, g2, ?_⟩
  have hcnt : counter s r c = 10 := congrArg Deb.left hfresh
  have hpos : 0 < (List.range inps.length).countP
      (holdDue (counter s r c) (pressDelay s (UInt8.ofNat n))) := by
    rw [List.countP_pos_iff]
    refine ⟨10, List.mem_range.mpr (by omega), ?_⟩
    rw [hcnt]
    rfl
  rw [g3]
  obtain ⟨m, hm'⟩ := Nat.exists_eq_succ_of_ne_zero (Nat.pos_iff_ne_zero.mp hpos)
  rw [hm', List.replicate_succ]
  rfl

/-- After power-up `a` has a key with no modifiers, and the state is one of those meant. -/
example : Reachable shipped shippedLayout (after []) ∧ (after []).curIdx = 0 ∧
    ((after []).mods.shift != 0) = false ∧ ((after []).mods.caps != 0) = false ∧
    ((after []).mods.ctrl != 0) = false ∧ keystrokes (after []) = [] ∧ messages (after []) = [] ∧
    debOf (after []) 1 6 = Deb.init ∧ 0x61 ∉ missing 0 ∧
    codeUnder shipped 0 8 1 6 false false false = 0x61 :=
  ⟨after_reachable (by decide +kernel) (fun _ h => by cases h), by decide +kernel,
    by decide +kernel, by decide +kernel, by decide +kernel, by decide +kernel, by decide +kernel,
    by decide +kernel, by decide, by decide +kernel⟩

/-! ## C70: SHIFT works while any SHIFT key is held -/

/-- The two SHIFT keys of keymaps 0 to 3. -/
theorem shipped_shift_keys : placed shipped shippedLayout .shift [(0, 1), (0, 2)] = true := by
  decide +kernel

/-- Both SHIFT keys are pressed, then one of them is released. -/
def oneShiftReleased : List Input :=
  List.replicate 10 (fun i => if i = 0 then 0x06 else 0) ++ List.replicate 10 (closing 0 2)

/-- **C70 is false.** Both SHIFT keys are pressed and one is released: the other is still
held, but A types a small letter. -/
theorem C70_false : ∃ inps : List Input, (∀ inp ∈ inps, Allowed shippedLayout inp) ∧
    runsOk inps = true ∧ accepted (after inps) 0 2 = true ∧
    lookupKeycode (after inps) 1 6 = .ok 0x61 ∧ (after inps).mods.shift = 0 := by
  refine ⟨oneShiftReleased, ?_, by decide +kernel, by decide +kernel, by decide +kernel,
    by decide +kernel⟩
  intro inp hi
  refine allowed_of_row8 ?_
  rcases List.mem_append.mp hi with hi | hi <;> rw [(List.mem_replicate.mp hi).2] <;> rfl

/-- **C70 (partial).** If of the SHIFT keys only one is ever closed, SHIFT is in force
exactly while that key is held (or while shift lock is on).  Missing: two SHIFT keys held
together, see `C70_false`. -/
theorem C70_one_shift_key_partial (cfg : Config) (L : Layout) (hc : cfgOk cfg L = true)
    (P : List (Nat × Nat)) (hP : placed cfg L .shift P = true) (r c : Nat) (hrc : (r, c) ∈ P)
    (hr : r < L.rows) (hcl : c < L.cols)
    (inps : List Input) (hin : ∀ inp ∈ inps, Allowed L inp)
    (hone : ∀ inp ∈ inps, ∀ x ∈ P, x ≠ (r, c) → sample inp x.1 x.2 = false) :
    ∃ s, (boot cfg >>= fun s0 => run cfg s0 inps) = .ok s ∧
      (s.mods.shift &&& 1 ≠ 0 ↔ accepted s r c = true) ∧
      (accepted s r c = true → s.mods.shift ≠ 0) := by
  have hcf := cfgFacts hc
  obtain ⟨s0, e1, e2⟩ := Shows.start hcf
  obtain ⟨s, g1, g2⟩ := e2.run hcf inps hin
  have hh := after_held hcf hP hrc inps hin hone
  have hd : accepted s r c = ((Kb.after cfg L inps).deb r c).on := by
    have := g2.deb r c hr hcl
    show (debOf s r c).on = _
    rw [this]
    rfl
  have hs : s.mods.shift = shiftCode (Kb.after cfg L inps).held (Kb.after cfg L inps).locked :=
    g2.shift
  refine ⟨s, by rw [e1, ok_bind, g1], ?_, ?_⟩
  · rw [hs, hd, hh]
    cases ((Kb.after cfg L inps).deb r c).on <;> cases (Kb.after cfg L inps).locked <;> decide
  · rw [hs, hd, hh]
    cases ((Kb.after cfg L inps).deb r c).on <;> cases (Kb.after cfg L inps).locked <;> decide

/-- The left SHIFT key alone meets the hypotheses and is accepted. -/
example : (∀ inp ∈ List.replicate 10 (closing 0 1), Allowed shippedLayout inp) ∧
    (∀ inp ∈ List.replicate 10 (closing 0 1), ∀ x ∈ [(0, 1), (0, 2)], x ≠ (0, 1) →
      sample inp x.1 x.2 = false) ∧
    accepted (after (List.replicate 10 (closing 0 1))) 0 1 = true := by
  refine ⟨?_, ?_, by decide +kernel⟩
  · intro inp hi
    rw [(List.mem_replicate.mp hi).2]
    exact allowed_of_row8 rfl
  · intro inp hi
    rw [(List.mem_replicate.mp hi).2]
    decide

/-! ## C71: every message has a key -/

/-- **C71 (partial).** On keymaps 0, 1 and 2 every function that prints a message has a
key; on keymap 3 the identification message has one. -/
theorem C71_messages_have_keys_partial :
    (∀ i ∈ ([0, 1, 2] : List UInt8), ∀ n < 12, Prints i n → HasFunctionKey i n) ∧
    HasFunctionKey 3 10 := by
  have hp : ∀ i ∈ ([0, 1, 2] : List UInt8), ∀ n < 12, Prints i n →
      n = 10 ∨ (n = 9 ∧ i ≠ 2) ∨ (n = 3 ∧ i = 2) := by decide +kernel
  refine ⟨?_, ⟨6, by decide +kernel, 5, by decide +kernel, false, false, true, by decide +kernel⟩⟩
  intro i hi n hn h
  have hi' : i = 0 ∨ i = 1 ∨ i = 2 := by simpa using hi
  rcases hp i hi n hn h with rfl | ⟨rfl, hne⟩ | ⟨rfl, rfl⟩
  · rcases hi' with rfl | rfl | rfl <;>
      exact ⟨6, by decide +kernel, 5, by decide +kernel, false, false, true, by decide +kernel⟩
  · rcases hi' with rfl | rfl | rfl
    · exact ⟨6, by decide +kernel, 6, by decide +kernel, false, false, true, by decide +kernel⟩
    · exact ⟨6, by decide +kernel, 6, by decide +kernel, false, false, true, by decide +kernel⟩
    · exact absurd rfl hne
  · exact ⟨7, by decide +kernel, 5, by decide +kernel, false, false, true, by decide +kernel⟩

/-- No key of keymap 3 has function 9, none of keymaps 4 and 5 any function but 11. -/
theorem no_function_key : ∀ x ∈ ([(3, 9), (4, 10), (5, 9), (5, 10)] : List (UInt8 × Nat)),
    ∀ r < rowsOf x.1, ∀ c < colsOf x.1, ∀ shift caps ctrl : Bool,
      decodeAction (codeUnder shipped x.1 (colsOf x.1) r c shift caps ctrl) ≠ .fn x.2 := by
  decide +kernel

/-- **C71 is false.** The keyboard test of keymap 3 is assigned to function 9, which no
key of the keymap has; the messages of keymaps 4 and 5 have no keys either. -/
theorem C71_false : ∀ x ∈ ([(3, 9), (4, 10), (5, 9), (5, 10)] : List (UInt8 × Nat)),
    Prints x.1 x.2 ∧ ¬ HasFunctionKey x.1 x.2 := by
  intro x hx
  refine ⟨?_, ?_⟩
  · have : ∀ x ∈ ([(3, 9), (4, 10), (5, 9), (5, 10)] : List (UInt8 × Nat)), Prints x.1 x.2 := by
      decide +kernel
    exact this x hx
  · rintro ⟨r, hr, c, hc, sh, ca, ct, e⟩
    exact no_function_key x hx r hr c hc sh ca ct e

end Asdf.Props
