import Verif.Lemmas.CText
import Verif.Lemmas.CNameTable
import Verif.Props.CHw

/-! # Property C96: the programs of C88, C89 and C90 are the text of the source files

`Model/CText.lean` is a copy of the source files.  Translating it by the rules of C
(`Model/CLex.lean`, `Model/CParse.lean`, `Model/CUnits.lean`) gives exactly the functions and the
initial values of the static variables in `Model/CSource.lean`, `Model/CArch328.lean` and
`Model/CArch2560.lean`. -/

namespace Asdf.Props

open Avr Spec Pcb

/-- **C96, the portable files.**  With the headers for either controller, the text of the portable
source files is understood, and it defines exactly the functions of C88, each once, and
exactly the static variables, each once, with the initial values of C88. -/
theorem C96_portable (b : C.Chip) : ∃ p, C.translateAll b C.portableTexts = some p ∧
    (∀ f, C.defsOf f p = (C.body f).toList) ∧ (∀ g, C.objsOf g p = [C.mem0 g]) :=
  ⟨C.portableItems, C.portable_text b, C.portable_defs, C.portable_objs⟩

/-- **C96, the hardware layers.** -/
theorem C96_hardware (b : C.Chip) : ∃ p, C.translate true b (C.archText b) = some p ∧
    (∀ f, C.defsOf f p = (C.layerOf b f).toList) ∧ C.varsOf p = [(.tick, 0), (.data_polarity, 0)] :=
  ⟨C.archItems b, C.arch_text b, C.arch_defs b, C.arch_vars b⟩

/-- **C96, names.**  Two different names in the text never stand for the same function, static
variable, register, local variable or member of a structure. -/
theorem C96_names (x y : C.Name) :
    (∀ f, C.tableF.get x = some f → C.tableF.get y = some f → x = y) ∧
    (∀ g, C.tableG.get x = some g → C.tableG.get y = some g → x = y) ∧
    (∀ r, C.tableR.get x = some r → C.tableR.get y = some r → x = y) ∧
    (∀ l, C.tableL.get x = some l → C.tableL.get y = some l → x = y) ∧
    (∀ m, C.tableFld.get x = some m → C.tableFld.get y = some m → x = y) := by
  have h1 : ∀ a ∈ C.namesF, ∀ b ∈ C.namesF, a.2 = b.2 → a.1 = b.1 := by decide +kernel
  have h2 : ∀ a ∈ C.namesG, ∀ b ∈ C.namesG, a.2 = b.2 → a.1 = b.1 := by decide +kernel
  have h3 : ∀ a ∈ C.namesR, ∀ b ∈ C.namesR, a.2 = b.2 → a.1 = b.1 := by decide +kernel
  have h4 : ∀ a ∈ C.namesL, ∀ b ∈ C.namesL, a.2 = b.2 → a.1 = b.1 := by decide +kernel
  have h5 : ∀ a ∈ C.namesFld, ∀ b ∈ C.namesFld, a.2 = b.2 → a.1 = b.1 := by decide +kernel
  exact ⟨fun _ h h' => h1 _ (C.of_get h) _ (C.of_get h') rfl, fun _ h h' => h2 _ (C.of_get h) _ (C.of_get h') rfl,
    fun _ h h' => h3 _ (C.of_get h) _ (C.of_get h') rfl, fun _ h h' => h4 _ (C.of_get h) _ (C.of_get h') rfl,
    fun _ h h' => h5 _ (C.of_get h) _ (C.of_get h') rfl⟩

/-- **C96, the run.**  Running the source files is the run that C90 is about. -/
theorem C96_run (b : C.Chip) (X : C.Board) (hX : X.body = C.layerOf b) (W : C.Outside) (w n : Nat) (r0 : Regs)
    (sr : UInt8) (polls : Nat) : C.sourceRun b X W w n r0 sr polls = textRun X W w n r0 sr polls := by
  unfold C.sourceRun textRun C.hwProg C.KH C.Hw.reset
  rw [C.portable_text, C.arch_text]
  simp only [C.linked_eq b X hX, C.linkedMem_eq, C.arch_vars]
  rfl


/-- **C96, from the source files to the host.**  C90 for the source files themselves: translated by
the rules of C, linked and run from reset on either board, in a world where every use is safe,
they make the host read what the abstract keyboard says. -/
theorem C96_safe (b : C.Chip) (X : C.Board) (hb : X.body = C.layerOf b) (B : Board) (T : Whole.Target)
    (hX : Compiled X B T) (W : C.Outside)
    (hW : SafeWorld W) (r0 : Regs) (sr : UInt8) (polls w n : Nat) (hw : 65536 ≤ w) (hp : polls < w)
    (hn : 23 ≤ n) :
    ∃ mxs hi h, C.SampledAll W 0 hi mxs ∧ C.sourceRun b X W w n r0 sr polls = some h ∧
      h.found = mxs.length ∧ h.found ≤ h.ints ∧ hi ≤ h.time ∧
      ∀ edge, latched B edge r0 (statesOf h) =
        hostReads edge (wiresOf B r0) (Kb.after fourMaps openLayout (mxs.map contactsRead)).trace := by
  rw [C96_run b X hb]
  exact C90_safe X B T hX W hW r0 sr polls w n hw hp hn

/-! Examples: both boards have the hardware layers that C96 is about; and some texts with their
meaning. -/

example : C.board328.body = C.layerOf .m328 ∧ (C.board2560 exampleColumns).body = C.layerOf .m2560 ∧
    C.board328.body ≠ C.layerOf .m2560 :=
  ⟨rfl, rfl, fun h => absurd (congrFun h .asdf_arch_osi_read_row) (by decide)⟩

-- precedence and associativity
example : C.says "int main(void) { return 1 + 2 * 3 - 20 / 6 % 2 - 1; }\n" = some (.int .i16 5) := by decide +kernel

-- a missing semicolon
example : C.says "int main(void) { return 1 + 2 }\n" = none := by decide +kernel

-- macros, comments, spliced lines
example : C.says "#define N 4\n#define SQ(a) ((a) /* a² */ * \\\n (a))\nint main(void) { return SQ(N + 1); } // end\n" =
    some (.int .i16 25) := by decide +kernel

-- bytes wrap around, but are promoted to int
example : C.says "int main(void) { uint8_t row = 255; row++; return row; }\n" = some (.int .i16 0) ∧
    C.says "int main(void) { uint8_t row = 200; return row + row; }\n" = some (.int .i16 400) ∧
    C.says "int main(void) { return 30000 + 30000; }\n" = none := by decide +kernel

-- a table and a loop
example : C.says "static uint8_t buffer_pool[4] = { 5, [2] = 7 };\nint main(void) { uint8_t row = 0;
    for (uint8_t i = 0; i < 4; i++) row += buffer_pool[i]; return row; }\n" = some (.int .i16 12) := by decide +kernel

-- an enumeration and a switch that falls through
example : C.says "typedef enum { A = 3, B, C } t;\nint main(void) { uint8_t row = 0;
    switch (B) { case A: row = 1; case B: row = 2; case C: row += 5; break; default: row = 9; } return row; }\n" =
    some (.int .i16 7) := by decide +kernel

end Asdf.Props
