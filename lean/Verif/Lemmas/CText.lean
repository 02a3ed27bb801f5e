import Verif.Lemmas.CTextLex1
import Verif.Lemmas.CTextLex2
import Verif.Lemmas.CTextLex3
import Verif.Lemmas.CTextUnits328
import Verif.Lemmas.CTextUnits2560
import Verif.Spec.CText

/-! # The text of the firmware and the programs in `Model/CSource.lean` and `Model/CArch*.lean` -/

namespace Asdf.C

theorem assoc_map {α β : Type} (g : α → β) (x : Nat) : ∀ l : List (Nat × α),
    (assoc x l).map g = assoc x (l.map fun e => (e.1, g e.2))
  | [] => rfl
  | (y, v) :: l => by
    have ih := assoc_map g x l
    unfold assoc
    cases h : Nat.beq y x
    · simpa [h] using ih
    · simp [h]

theorem headerText_toks (b : Chip) :
    ((headerText b).map fun e => (e.1, lex (bytes e.2))) = headerToks b := by
  cases b
  · simp only [headerText, List.map_cons, List.map_nil, lex_asdf_h, lex_asdf_buffer_h, lex_asdf_config_h, lex_asdf_keymaps_h, lex_asdf_modifiers_h,
    lex_asdf_print_h, lex_asdf_keymap_defs_dipswitch_h, lex_asdf_keymap_classic_h,
    lex_asdf_keymap_apple2_add_map_h, lex_asdf_ascii_h, lex_asdf_hook_h, lex_asdf_keymap_setup_h_in,
    lex_asdf_repeat_h, lex_asdf_keymap_apple2_h, lex_asdf_keymap_ace1000_add_map_h,
    lex_asdf_arch_atmega328p_h, lex_asdf_physical_h, lex_asdf_virtual_h,
    lex_asdf_keymap_classic_add_map_h, lex_asdf_keymap_apple2_caps_h, lex_asdf_keymap_sol_h,
    lex_asdf_keymap_ace1000_h]
    rfl
  · simp only [headerText, List.map_cons, List.map_nil, lex_asdf_h, lex_asdf_buffer_h, lex_asdf_config_h, lex_asdf_keymaps_h, lex_asdf_modifiers_h,
    lex_asdf_print_h, lex_asdf_keymap_defs_dipswitch_h, lex_asdf_keymap_classic_h,
    lex_asdf_keymap_apple2_add_map_h, lex_asdf_ascii_h, lex_asdf_hook_h, lex_asdf_keymap_setup_h_in,
    lex_asdf_repeat_h, lex_asdf_keymap_apple2_h, lex_asdf_keymap_ace1000_add_map_h,
    lex_asdf_physical_h, lex_asdf_virtual_h, lex_asdf_keymap_classic_add_map_h,
    lex_asdf_keymap_apple2_caps_h, lex_asdf_keymap_sol_h, lex_asdf_keymap_ace1000_h,
    lex_asdf_arch_atmega2560_h]
    rfl

theorem includes_eq (b : Chip) : includes b = headersOf b := by
  funext x
  exact (assoc_map (fun l => lex (bytes l)) x (headerText b)).trans (congrArg (assoc x) (headerText_toks b))

theorem translate_eq {hw : Bool} {b : Chip} {t : List Nat} {ts : List Tok} {p : List Item} (h : lex t = ts)
    (h2 : compile hw (headersOf b) ts = some p) : translate hw b t = some p := by
  unfold translate
  rw [includes_eq, h, h2]

/-- The definitions in the portable files. -/
def portableItems : List Item :=
  unit_asdf_buffer_c ++ (unit_asdf_repeat_c ++ (unit_asdf_physical_c ++ (unit_asdf_virtual_c ++ (unit_asdf_hook_c ++ (unit_asdf_modifiers_c ++ (unit_asdf_keymaps_c ++ (unit_asdf_c ++ (unit_main_c ++ (unit_asdf_keymap_setup_c ++ (unit_asdf_keymap_classic_add_map_c ++ (unit_asdf_keymap_classic_c ++ (unit_asdf_keymap_classic_caps_c ++ (unit_asdf_keymap_apple2_add_map_c ++ (unit_asdf_keymap_apple2_c ++ (unit_asdf_keymap_apple2_caps_c ++ (unit_asdf_keymap_sol_c ++ (unit_asdf_keymap_ace1000_add_map_c ++ (unit_asdf_keymap_ace1000_c ++ []))))))))))))))))))

theorem translateAll_cons {b : Chip} {t : List Nat} {ts : List (List Nat)} {p q : List Item}
    (h : translate false b t = some p) (h2 : translateAll b ts = some q) :
    translateAll b (t :: ts) = some (p ++ q) := by
  unfold translateAll
  rw [h, h2]
  rfl

theorem portable_m328 : translateAll .m328 portableTexts = some portableItems :=
  translateAll_cons (translate_eq lex_asdf_buffer_c m328_asdf_buffer_c) <|
  translateAll_cons (translate_eq lex_asdf_repeat_c m328_asdf_repeat_c) <|
  translateAll_cons (translate_eq lex_asdf_physical_c m328_asdf_physical_c) <|
  translateAll_cons (translate_eq lex_asdf_virtual_c m328_asdf_virtual_c) <|
  translateAll_cons (translate_eq lex_asdf_hook_c m328_asdf_hook_c) <|
  translateAll_cons (translate_eq lex_asdf_modifiers_c m328_asdf_modifiers_c) <|
  translateAll_cons (translate_eq lex_asdf_keymaps_c m328_asdf_keymaps_c) <|
  translateAll_cons (translate_eq lex_asdf_c m328_asdf_c) <|
  translateAll_cons (translate_eq lex_main_c m328_main_c) <|
  translateAll_cons (translate_eq rfl m328_asdf_keymap_setup_c) <|
  translateAll_cons (translate_eq lex_asdf_keymap_classic_add_map_c m328_asdf_keymap_classic_add_map_c) <|
  translateAll_cons (translate_eq lex_asdf_keymap_classic_c m328_asdf_keymap_classic_c) <|
  translateAll_cons (translate_eq lex_asdf_keymap_classic_caps_c m328_asdf_keymap_classic_caps_c) <|
  translateAll_cons (translate_eq lex_asdf_keymap_apple2_add_map_c m328_asdf_keymap_apple2_add_map_c) <|
  translateAll_cons (translate_eq lex_asdf_keymap_apple2_c m328_asdf_keymap_apple2_c) <|
  translateAll_cons (translate_eq lex_asdf_keymap_apple2_caps_c m328_asdf_keymap_apple2_caps_c) <|
  translateAll_cons (translate_eq lex_asdf_keymap_sol_c m328_asdf_keymap_sol_c) <|
  translateAll_cons (translate_eq lex_asdf_keymap_ace1000_add_map_c m328_asdf_keymap_ace1000_add_map_c) <|
  translateAll_cons (translate_eq lex_asdf_keymap_ace1000_c m328_asdf_keymap_ace1000_c) <|
  rfl

theorem portable_m2560 : translateAll .m2560 portableTexts = some portableItems :=
  translateAll_cons (translate_eq lex_asdf_buffer_c m2560_asdf_buffer_c) <|
  translateAll_cons (translate_eq lex_asdf_repeat_c m2560_asdf_repeat_c) <|
  translateAll_cons (translate_eq lex_asdf_physical_c m2560_asdf_physical_c) <|
  translateAll_cons (translate_eq lex_asdf_virtual_c m2560_asdf_virtual_c) <|
  translateAll_cons (translate_eq lex_asdf_hook_c m2560_asdf_hook_c) <|
  translateAll_cons (translate_eq lex_asdf_modifiers_c m2560_asdf_modifiers_c) <|
  translateAll_cons (translate_eq lex_asdf_keymaps_c m2560_asdf_keymaps_c) <|
  translateAll_cons (translate_eq lex_asdf_c m2560_asdf_c) <|
  translateAll_cons (translate_eq lex_main_c m2560_main_c) <|
  translateAll_cons (translate_eq rfl m2560_asdf_keymap_setup_c) <|
  translateAll_cons (translate_eq lex_asdf_keymap_classic_add_map_c m2560_asdf_keymap_classic_add_map_c) <|
  translateAll_cons (translate_eq lex_asdf_keymap_classic_c m2560_asdf_keymap_classic_c) <|
  translateAll_cons (translate_eq lex_asdf_keymap_classic_caps_c m2560_asdf_keymap_classic_caps_c) <|
  translateAll_cons (translate_eq lex_asdf_keymap_apple2_add_map_c m2560_asdf_keymap_apple2_add_map_c) <|
  translateAll_cons (translate_eq lex_asdf_keymap_apple2_c m2560_asdf_keymap_apple2_c) <|
  translateAll_cons (translate_eq lex_asdf_keymap_apple2_caps_c m2560_asdf_keymap_apple2_caps_c) <|
  translateAll_cons (translate_eq lex_asdf_keymap_sol_c m2560_asdf_keymap_sol_c) <|
  translateAll_cons (translate_eq lex_asdf_keymap_ace1000_add_map_c m2560_asdf_keymap_ace1000_add_map_c) <|
  translateAll_cons (translate_eq lex_asdf_keymap_ace1000_c m2560_asdf_keymap_ace1000_c) <|
  rfl

/-- The definitions in the hardware layers. -/
def archItems : Chip → List Item
  | .m328 => unit_asdf_arch_atmega328p_c
  | .m2560 => unit_asdf_arch_atmega2560_c

theorem arch_text (b : Chip) : translate true b (archText b) = some (archItems b) := by
  cases b
  · exact translate_eq lex_asdf_arch_atmega328p_c m328_asdf_arch_atmega328p_c
  · exact translate_eq lex_asdf_arch_atmega2560_c m2560_asdf_arch_atmega2560_c

theorem portable_text (b : Chip) : translateAll b portableTexts = some portableItems := by
  cases b
  · exact portable_m328
  · exact portable_m2560

theorem portable_defs (f : F) : defsOf f portableItems = (body f).toList := by
  cases f <;> rfl

theorem portable_objs (g : G) : objsOf g portableItems = [mem0 g] := by
  cases g <;> rfl

theorem arch_defs (b : Chip) (f : F) : defsOf f (archItems b) = (layerOf b f).toList := by
  cases b <;> cases f <;> rfl

theorem defsOf_append (f : F) (q : List Item) : ∀ p, defsOf f (p ++ q) = defsOf f p ++ defsOf f q
  | [] => rfl
  | i :: p => by
    have ih := defsOf_append f q p
    cases i with
    | fn g b =>
      show (if g = f then b :: defsOf f (p ++ q) else defsOf f (p ++ q)) =
        (if g = f then b :: defsOf f p else defsOf f p) ++ defsOf f q
      rw [ih]
      split <;> rfl
    | obj => exact ih
    | var => exact ih

/-- No function is defined both in the portable part and in a hardware layer. -/
theorem one_or_other (b : Chip) (f : F) : body f = none ∨ layerOf b f = none := by
  cases b <;> cases f <;> first | exact .inl rfl | exact .inr rfl

theorem linked_eq (b : Chip) (X : Board) (hX : X.body = layerOf b) :
    linked portableItems (archItems b) = wholeBody X := by
  have h : ∀ f, only (defsOf f (portableItems ++ archItems b)) = (body f).orElse fun _ => X.body f := by
    intro f
    rw [defsOf_append, portable_defs, arch_defs, hX]
    rcases one_or_other b f with h | h
    · rw [h]; cases layerOf b f <;> rfl
    · rw [h]; cases body f <;> rfl
  have h1 : ∀ f, f = .set_bit ∨ f = .clear_bit ∨
      (linked portableItems (archItems b) f = only (defsOf f (portableItems ++ archItems b)) ∧
        wholeBody X f = (body f).orElse fun _ => X.body f) := by
    intro f
    cases f <;> first | exact .inl rfl | exact .inr (.inl rfl) | exact .inr (.inr ⟨rfl, rfl⟩)
  funext f
  rcases h1 f with rfl | rfl | h1
  · rfl
  · rfl
  · rw [h1.1, h1.2, h]

theorem linkedMem_eq : linkedMem portableItems = mem0 := by
  funext g
  unfold linkedMem
  rw [portable_objs]
  rfl

theorem arch_vars (b : Chip) : varsOf (archItems b) = [(.tick, 0), (.data_polarity, 0)] := by
  cases b <;> rfl

end Asdf.C
