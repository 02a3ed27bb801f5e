import Verif.Model.Main
import Verif.Spec.Queue
import Verif.Spec.Keymap
import Verif.Spec.Modifiers

/-! # Specification vocabulary for scanning and typing -/

namespace Asdf.Spec

/-! ## What is pending in a buffer -/

/-- The codes that `n` successive `asdf_buffer_get` calls return. -/
def drain (b : BufState) (h : Int) : Nat → List Code
  | 0 => []
  | n + 1 => match bufGet b h with
    | .ok (c, b') => c :: drain b' h n
    | .error _ => []

/-- The codes pending in buffer `h`, oldest first: the results of as many gets as
the buffer holds codes. -/
def pending (b : BufState) (h : Int) : List Code :=
  match b.bufs[h.toNat]? with
  | some d => drain b h d.count.toNat
  | none => []

/-- Pending keystrokes. -/
def keystrokes (s : State) : List Code := pending s.buf s.kcBuf

/-- Pending message characters. -/
def messages (s : State) : List Code := pending s.buf s.msgBuf

/-- A put or a get. -/
def BufOp.isPutGet : BufOp → Bool
  | .put _ _ => true
  | .get _ => true
  | _ => false

/-- The buffers of an initialised keyboard: the two reservations of `asdf_init`
followed by any puts and gets. -/
def BuffersReady (s : State) : Prop :=
  s.kcBuf = 0 ∧ s.msgBuf = 1 ∧ ∃ ops outs, (∀ op ∈ ops, BufOp.isPutGet op = true) ∧
    runBuf BufState.zero ([.init, .new 16, .new 128] ++ ops) = .ok (s.buf, outs)

/-- Text with a carriage return inserted before every line feed. -/
def withCR (text : List Code) : List Code :=
  text.flatMap fun c => if c = 0x0A then [0x0D, 0x0A] else [c]

/-- The codes sent to the host in a trace of hardware effects. -/
def sends (t : List Event) : List Code :=
  t.filterMap fun e => match e with
    | .send c => some c
    | _ => none

/-- `c` is an interleaving of `a` and `b` that keeps the order of both. -/
inductive Interleaved : List Code → List Code → List Code → Prop
  | nil : Interleaved [] [] []
  | left {a b c : List Code} (x : Code) (h : Interleaved a b c) : Interleaved (x :: a) b (x :: c)
  | right {a b c : List Code} (x : Code) (h : Interleaved a b c) : Interleaved a (x :: b) (x :: c)

/-! ## Debouncing -/

/-- Bit `c` of byte `x`. -/
def bitOf (x : UInt8) (c : Nat) : Bool := x.toBitVec.getLsbD c

/-- The accepted (debounced) state of the key in row `r`, column `c`. -/
def accepted (s : State) (r c : Nat) : Bool := bitOf ((s.stable[r]?).getD 0) c

/-- The debounce count of the key in row `r`, column `c`. -/
def counter (s : State) (r c : Nat) : Nat := ((((s.counters[r]?).getD [])[c]?).getD 0).toNat

/-- The sample of key `(r, c)` in one reading of the matrix. -/
def sample (inp : Input) (r c : Nat) : Bool := bitOf (inp r) c

/-- The samples of one key in a sequence of readings. -/
def samplesOf (inps : List Input) (r c : Nat) : List Bool := inps.map fun inp => sample inp r c

/-- A debouncer for one key: accepted state and remaining count. -/
structure Deb where
  on : Bool
  left : Nat
  deriving DecidableEq, Repr

/-- A key after power-up. -/
def Deb.init : Deb := ⟨false, 10⟩

/-- One sample: equal to the accepted state, nothing happens (in particular the
count is *not* restarted); different, the count goes down, and at zero the
change is accepted. -/
def Deb.step (d : Deb) (p : Bool) : Deb :=
  if p = d.on then d else if d.left ≤ 1 then ⟨p, 10⟩ else ⟨d.on, d.left - 1⟩

/-- The debounced state after a sample history since power-up. -/
def debounced (samples : List Bool) : Bool := (samples.foldl Deb.step Deb.init).on

/-- The accepted events (`true` press, `false` release) along a sample history. -/
def Deb.events (d : Deb) : List Bool → List Bool
  | [] => []
  | p :: ps =>
    if p ≠ d.on ∧ d.left ≤ 1 then p :: (d.step p).events ps else (d.step p).events ps

/-- A list alternates, beginning with `first`. -/
def Alternates : Bool → List Bool → Prop
  | _, [] => True
  | first, x :: xs => x = first ∧ Alternates (!first) xs

/-- The debouncer of the key in row `r`, column `c`. -/
def debOf (s : State) (r c : Nat) : Deb := ⟨accepted s r c, counter s r c⟩

/-! ## Keyboards whose keymaps the scanner can handle -/

/-- The dimensions shared by a set of keymaps, and the positions that are
assumed never to be closed. -/
structure Layout where
  rows : Nat
  cols : Nat
  maps : List UInt8
  blocked : Nat → Nat → Bool

/-- Entry `(r, c)` of a row-major table. -/
def entryAt (t : List Code) (cols r c : Nat) : Code := (t[r * cols + c]?).getD 0xA0

/-- The table of the active modifier. -/
def activeTable (s : State) : List Code :=
  match s.maps[tableFor (s.mods.shift != 0) (s.mods.caps != 0) (s.mods.ctrl != 0)]? with
  | some e => e.matrix.getD []
  | none => []

/-- The current mapping of the key in row `r`, column `c`. -/
def codeOf (s : State) (cols r c : Nat) : Code := entryAt (activeTable s) cols r c

/-- If `code` is a map-select action, then from every keymap of the layout it
leads to a keymap of the layout or to a missing one. -/
def mapselOk (cfg : Config) (L : Layout) (code : Code) : Bool :=
  match decodeAction code with
  | .mapsel b => L.maps.all fun i =>
      (L.maps.contains (i ||| b) || !cfg.valid (i ||| b)) &&
      (L.maps.contains (i &&& ~~~b) || !cfg.valid (i &&& ~~~b))
  | _ => true

/-- One table: the layout's dimensions, complete, and no key of the layout leads
to a keymap outside it. -/
def tableOk (cfg : Config) (L : Layout) (e : MapEntry) : Bool :=
  e.rows.toNat == L.rows && e.cols.toNat == L.cols &&
  match e.matrix with
  | none => false
  | some t => decide (L.rows * L.cols ≤ t.length) &&
      (List.range L.rows).all fun r => (List.range L.cols).all fun c =>
        L.blocked r c || mapselOk cfg L (entryAt t L.cols r c)

/-- A hook that is empty or prints a text of transmittable codes. -/
def quietHook : HookFn → Bool
  | .null => true
  | .print text => text.all fun c => decide (c.toNat < 0xA0)
  | _ => false

/-- The hooks of a keymap: standard scanner and output, nothing on every scan,
messages on the user hooks. -/
def hooksOk (h : List HookFn) : Bool :=
  h[2]? == some .archReadRow && h[3]? == some .archSendCode && h[4]? == some .null &&
  (List.range 10).all fun n => match h[5 + n]? with
    | some f => quietHook f
    | none => false

/-- One keymap.  The number must be below four because the scanner looks up the
dimensions in the modifier table with the keymap number. -/
def keymapOk (cfg : Config) (L : Layout) (i : UInt8) : Bool :=
  decide (i.toNat < 4) && cfg.valid i && (mapsOf (cfg.setup i)).all (tableOk cfg L) &&
    hooksOk (hooksOf (cfg.setup i))

/-- The configuration is fit for the layout. -/
def cfgOk (cfg : Config) (L : Layout) : Bool :=
  decide (1 ≤ L.rows) && decide (L.rows ≤ 16) && decide (1 ≤ L.cols) && decide (L.cols ≤ 8) &&
    L.maps.contains 0 && L.maps.all (keymapOk cfg L)

/-! ## Runs -/

/-- All tables of a list have at least `R` rows and `C` columns. -/
def dimsOk (R C : Nat) (m : List MapEntry) : Bool :=
  m.all fun e => decide (R ≤ e.rows.toNat) && decide (C ≤ e.cols.toNat)

/-- Every valid keymap has at least `R` rows and `C` columns. -/
def CfgDims (cfg : Config) (R C : Nat) : Prop :=
  ∀ i, cfg.valid i = true → dimsOk R C (mapsOf (cfg.setup i)) = true

/-- A reading of the matrix that respects the layout's assumption. -/
def Allowed (L : Layout) (inp : Input) : Prop :=
  ∀ r c, r < L.rows → c < L.cols → L.blocked r c = true → sample inp r c = false

/-- The reading shows no key event: every key of the layout is sampled in its
accepted state, and no held key has the code that is due for repetition. -/
def Quiet (L : Layout) (s : State) (inp : Input) : Prop :=
  ∀ r c, r < L.rows → c < L.cols → sample inp r c = accepted s r c ∧
    (accepted s r c = true → codeOf s L.cols r c ≠ s.lastKey)

/-- All keys except `(r, c)` rest: none is sampled in a changed state, and no held
one has the code of `(r, c)`, the code due for repetition, or the reserved value
(so held modifiers and other held code keys are fine). -/
def OthersRest (L : Layout) (s : State) (r c : Nat) (inp : Input) : Prop :=
  ∀ r' c', r' < L.rows → c' < L.cols → ¬ (r' = r ∧ c' = c) → sample inp r' c' = accepted s r' c' ∧
    (accepted s r' c' = true → codeOf s L.cols r' c' ≠ s.lastKey ∧
      codeOf s L.cols r' c' ≠ codeOf s L.cols r c ∧ codeOf s L.cols r' c' ≠ 0xA0)

/-- States reachable from power-up by main-loop passes with allowed readings. -/
def Reachable (cfg : Config) (L : Layout) (s : State) : Prop :=
  ∃ s0 inps, boot cfg = .ok s0 ∧ (∀ inp ∈ inps, Allowed L inp) ∧ run cfg s0 inps = .ok s

end Asdf.Spec
