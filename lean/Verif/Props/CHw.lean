import Verif.Lemmas.CHwHead
import Verif.Lemmas.CHwTarget
import Verif.Lemmas.CHwBits
import Verif.Spec.CBoard
import Verif.Props.Computer
import Verif.Props.Safety

/-! # Properties C89 and C90: the text of the hardware layer, and of the whole firmware

`Model/CArch328.lean` and `Model/CArch2560.lean` are the text of the two hardware layers,
`Model/CSource.lean` that of the rest, `Model/CHw.lean` says what the controller and the circuit
around it do.  C89 is about the functions of the hardware layers, C90 about `main()`. -/

namespace Asdf.Props

open Avr Spec Pcb

/-! ## C89 -/

/-- **C89, ATmega328P.** -/
theorem C89_atmega328p : C.Serves C.board328 Whole.target328 := C.serves328

/-- **C89, ATmega2560.**  `cols` gives the levels that the key matrix puts on the column pins. -/
theorem C89_atmega2560 (cols : (Nat → UInt8) → Regs → UInt8) :
    C.Serves (C.board2560 cols) (Whole.target2560 cols) := C.serves2560 cols

/-- **C89, the reader for OSI keyboards.** -/
theorem C89_osi_reader (cols : (Nat → UInt8) → Regs → UInt8) (W : C.Outside) (m : C.G → C.Tree)
    (env : List (C.L × C.Val)) (h : C.Hw) (w n : Nat) (t : C.Ity) (row : UInt8) :
    (31 ≤ row.toNat ∧ C.run (C.hwProg (C.board2560 cols) W) w (n + 5) .asdf_arch_osi_read_row
        [.int t row.toNat] (C.KH m env h) = .err .overflow) ∨
      ∃ v h' k ops, C.run (C.hwProg (C.board2560 cols) W) w (n + 5) .asdf_arch_osi_read_row
        [.int t row.toNat] (C.KH m env h) = .ok (.int .u8 v.toNat) (C.KH m env h') ∧
        C.Adv ops h h' ∧ h.time ≤ k ∧ k < h'.time ∧
        M2560.osiReadRow (cols (W.keys k)) row h.regs = .ok (v, states .sbi (fun _ => 0) h.regs ops) := by
  by_cases hr : row.toNat < 31
  · exact .inr (C.A2560.osi_read_row_is cols W m env h w n t row hr)
  · exact .inl ⟨by omega, C.A2560.osi_over cols W m env h w n t row (by omega)⟩

/-- **C89, `set_bit`.**  The text of `set_bit` for an output or direction register, executed as it
stands, does to the registers what the one instruction does that the compiler makes of it, whether
or not an interrupt comes in the middle. -/
theorem C89_set_bit (X : C.Board) [C.IsBoard X] (W : C.Outside) (m : C.G → C.Tree) (env : List (C.L × C.Val))
    (h : C.Hw) (w n : Nat) (b : Nat) (hb : b < 8) (f : C.Fun) (hf : f = C.A328.fn_set_bit ∨ f = C.A2560.fn_set_bit)
    (r : C.R) (op : Op) (ho : C.bitOp true (C.cellOf r) b = some op) :
    ∃ h', C.apply (C.run (C.hwProg X W) w (n + 3)) w f [.reg r, .int .u8 b] (C.KH m env h) =
      .ok .unit (C.KH m env h') ∧ C.Adv [op] h h' := by
  have : f = C.A328.fn_set_bit := by rcases hf with rfl | rfl <;> rfl
  subst this
  exact C.text_set_bit W m env h w n r b hb op ho

/-- **C89, `clear_bit`.** -/
theorem C89_clear_bit (X : C.Board) [C.IsBoard X] (W : C.Outside) (m : C.G → C.Tree) (env : List (C.L × C.Val))
    (h : C.Hw) (w n : Nat) (b : Nat) (hb : b < 8) (f : C.Fun) (hf : f = C.A328.fn_clear_bit ∨ f = C.A2560.fn_clear_bit)
    (r : C.R) (op : Op) (ho : C.bitOp false (C.cellOf r) b = some op) :
    ∃ h', C.apply (C.run (C.hwProg X W) w (n + 3)) w f [.reg r, .int .u8 b] (C.KH m env h) =
      .ok .unit (C.KH m env h') ∧ C.Adv [op] h h' := by
  have : f = C.A328.fn_clear_bit := by rcases hf with rfl | rfl <;> rfl
  subst this
  exact C.text_clear_bit W m env h w n r b hb op ho

/-- Non-vacuity: the call that sends a code is an event; the row reader has a row to read on
either board; bit 3 of the strobe port can be set. -/
example : C.callEvent .asdf_arch_send_code [.int .u8 0x41] = some (.send 0x41) ∧
    (∃ x, Whole.target328.read ⟨closing 1 6, 0, 0⟩ 1 allZero = .ok x) ∧
    (∃ x, (Whole.target2560 exampleColumns).read ⟨closing 1 6, 0, 0⟩ 1 allZero = .ok x) ∧
    C.bitOp true (C.cellOf .PORTB) 3 = some (.setPort .B 3) :=
  ⟨rfl, ⟨_, rfl⟩, ⟨_, rfl⟩, rfl⟩

/-! ## C90 -/

theorem compiled_built {X : C.Board} {B : Board} {T : Whole.Target} (h : Compiled X B T) : Built B T := by
  rcases h with ⟨_, rfl, rfl⟩ | ⟨cols, hc, _, rfl, rfl⟩
  · exact .inl ⟨rfl, rfl⟩
  · exact .inr ⟨rfl, cols, hc, rfl⟩

theorem text_on {X : C.Board} {B : Board} {T : Whole.Target} (hX : Compiled X B T) (W : C.Outside)
    (r0 : Regs) (sr : UInt8) {polls w n : Nat} (hw : 65536 ≤ w) (hp : polls < w) (hn : 23 ≤ n) :
    ∃ mxs hi, C.SampledAll W 0 hi mxs ∧ ∀ wh, Whole.life T shipped r0 mxs = .ok wh →
      ∃ h, textRun X W w n r0 sr polls = some h ∧ C.On T r0 wh h ∧
        h.found = mxs.length ∧ h.found ≤ h.ints ∧ hi ≤ h.time := by
  obtain ⟨n, rfl⟩ : ∃ k, n = k + 23 := ⟨n - 23, by omega⟩
  have key : ∀ {X T} [C.IsBoard X], C.Serves X T → _ := fun {X T} _ S =>
    C.hw_main (B := X) (T := T) (W := W) S hw r0 sr polls n hp
  have fin : ∀ {X T}, (∃ mxs hi, C.SampledAll W 0 hi mxs ∧ ∀ wh, Whole.life T shipped r0 mxs = .ok wh →
      ∃ x h, C.Fits x wh.fw ∧ C.On T r0 wh h ∧ h.polls = 0 ∧ h.found = mxs.length ∧ mxs.length ≤ h.ints ∧ hi ≤ h.time ∧
        C.run (C.hwProg X W) w (n + 23) .main [] (C.KH C.mem0 [] (C.Hw.reset r0 sr polls)) =
          .stop (C.KH (C.encMem x wh.fw) [] h)) →
      ∃ mxs hi, C.SampledAll W 0 hi mxs ∧ ∀ wh, Whole.life T shipped r0 mxs = .ok wh →
        ∃ h, textRun X W w (n + 23) r0 sr polls = some h ∧ C.On T r0 wh h ∧
          h.found = mxs.length ∧ h.found ≤ h.ints ∧ hi ≤ h.time := by
    rintro X T ⟨mxs, hi, h1, h2⟩
    refine ⟨mxs, hi, h1, fun wh hwh => ?_⟩
    obtain ⟨x, h, _, o, _, d, i, t, e⟩ := h2 wh hwh
    refine ⟨h, ?_, o, d, by omega, t⟩
    unfold textRun
    rw [e]
    rfl
  rcases hX with ⟨rfl, _, rfl⟩ | ⟨cols, _, rfl, _, rfl⟩
  · exact fin (key C89_atmega328p)
  · exact fin (key (C89_atmega2560 cols))

/-- **C90.**  The text of the whole firmware, run from reset on either board, whatever is in the
registers and whatever the keys, the other pins and the timer do at every moment: there are
readings of the matrix, each row taken from the keys that were closed at some moment during the
scan, one scan for each time the timer flag was found set, such that if the model of the board handles these
readings, then the run of the text has a meaning, and leaves the same registers and went through
the same register states in the same order. -/
theorem C90_text (X : C.Board) (B : Board) (T : Whole.Target) (hX : Compiled X B T) (W : C.Outside)
    (r0 : Regs) (sr : UInt8) (polls w n : Nat) (hw : 65536 ≤ w) (hp : polls < w) (hn : 23 ≤ n) :
    ∃ mxs hi, C.SampledAll W 0 hi mxs ∧ ∀ wh, Whole.life T shipped r0 mxs = .ok wh →
      ∃ h, textRun X W w n r0 sr polls = some h ∧ statesOf h = wh.log ∧ h.regs = wh.regs ∧
        h.found = mxs.length ∧ h.found ≤ h.ints ∧ hi ≤ h.time := by
  obtain ⟨mxs, hi, h1, h2⟩ := text_on hX W r0 sr hw hp hn
  refine ⟨mxs, hi, h1, fun wh hwh => ?_⟩
  obtain ⟨h, e, o, r⟩ := h2 wh hwh
  exact ⟨h, e, o.log, o.regs, r⟩

/-- **C90, safe use.**  In a world where every use is safe (C72), the run of the text always has a
meaning, and a host that takes the data at one of the edges of the strobe reads what C78 says for
the abstract keyboard that is given the readings of the matrix. -/
theorem C90_safe (X : C.Board) (B : Board) (T : Whole.Target) (hX : Compiled X B T) (W : C.Outside)
    (hW : SafeWorld W) (r0 : Regs) (sr : UInt8) (polls w n : Nat) (hw : 65536 ≤ w) (hp : polls < w)
    (hn : 23 ≤ n) :
    ∃ mxs hi h, C.SampledAll W 0 hi mxs ∧ textRun X W w n r0 sr polls = some h ∧
      h.found = mxs.length ∧ h.found ≤ h.ints ∧ hi ≤ h.time ∧
      ∀ edge, latched B edge r0 (statesOf h) =
        hostReads edge (wiresOf B r0) (Kb.after fourMaps openLayout (mxs.map contactsRead)).trace := by
  obtain ⟨mxs, hi, h1, h2⟩ := C90_text X B T hX W r0 sr polls w n hw hp hn
  have hs := hW hi mxs h1
  obtain ⟨wh, e1, _, e2, _⟩ := C75_board_safe B T (compiled_built hX) r0 mxs hs
  obtain ⟨h, k1, k2, k3, kf, k4, k5⟩ := h2 wh e1
  refine ⟨mxs, hi, h, h1, k1, kf, k4, k5, fun edge => ?_⟩
  obtain ⟨wh', f1, f2, _⟩ := C78_shipped B T (compiled_built hX) r0 mxs hs edge
  obtain rfl : wh = wh' := Except.ok.inj (e1.symm.trans f1)
  rw [k2, f2, e2]

/-- What the keys of a world do, all its scans read. -/
theorem sampled_reads {W : C.Outside} {r c : Nat} {b : Bool} (hb : ∀ t, bitOf (W.keys t r) c = b) :
    ∀ {mxs lo hi}, C.SampledAll W lo hi mxs → ∀ mx ∈ mxs, sample (contactsRead mx) r c = b := by
  intro mxs
  induction mxs with
  | nil => intro _ _ _ mx hm; cases hm
  | cons x mxs ih =>
    intro lo hi hs mx hm
    obtain ⟨mid, h1, h2⟩ := hs
    rcases List.mem_cons.mp hm with rfl | hm
    · obtain ⟨k, _, _, h3⟩ := h1 r
      unfold sample contactsRead
      rw [h3, ← hb k]
    · exact ih h2 mx hm

/-- **C90, which worlds are safe.**  DIP switches 1 and 2 are not moved, and switch 2 is open or
switch 1 is closed. -/
theorem C90_safe_settings (W : C.Outside) (x y : Bool) (h1 : ∀ t, bitOf (W.keys t 8) 1 = x)
    (h2 : ∀ t, bitOf (W.keys t 8) 2 = y) (hxy : y = false ∨ x = true) : SafeWorld W := by
  intro hi mxs hs
  have g1 := sampled_reads h1 hs
  have g2 := sampled_reads h2 hs
  have key : ∀ inps : List Input, (∀ i ∈ inps, sample i 8 1 = x) → (∀ i ∈ inps, sample i 8 2 = y) →
      dip inps 2 = true → dip inps 1 = true := by
    intro inps k1 k2
    have conv : ∀ (c : Nat) (b : Bool), (∀ i ∈ inps, sample i 8 c = b) →
        dip inps c = debounced (List.replicate inps.length b) := by
      intro c b hb
      unfold dip samplesOf
      congr 1
      rw [List.eq_replicate_iff]
      refine ⟨by simp, fun z hz => ?_⟩
      obtain ⟨i, hi, rfl⟩ := List.mem_map.mp hz
      exact hb i hi
    rw [conv 1 x k1, conv 2 y k2, Asdf.debounced_constant, Asdf.debounced_constant]
    rcases hxy with rfl | rfl
    · intro h; simp at h
    · cases y
      · intro h; simp at h
      · exact id
  intro pre inp post e ht
  have hsub : ∀ i ∈ pre ++ [inp], ∃ mx ∈ mxs, contactsRead mx = i := by
    intro i hi
    have : i ∈ mxs.map contactsRead := by
      rw [e]
      rcases List.mem_append.mp hi with h | h
      · exact List.mem_append_left _ h
      · exact List.mem_append_right _ (List.mem_singleton.mp h ▸ List.mem_cons_self)
    exact List.mem_map.mp this
  have := key (pre ++ [inp]) (fun i hi => by obtain ⟨mx, hm, rfl⟩ := hsub i hi; exact g1 mx hm)
    (fun i hi => by obtain ⟨mx, hm, rfl⟩ := hsub i hi; exact g2 mx hm) ht.2.1
  rw [ht.2.2] at this
  cases this

/-- **C90, from the keys to the computer.**  If moreover DIP switch 6 is not moved and the strobe is
low at reset, the computer, whichever edge it uses, has read exactly what the two queues of C77
let through of what was typed and printed. -/
theorem C90_host (X : C.Board) (B : Board) (T : Whole.Target) (hX : Compiled X B T) (W : C.Outside)
    (hW : SafeWorld W) (b : Bool) (hb : ∀ t, bitOf (W.keys t 8) 6 = b) (r0 : Regs)
    (h0 : level r0 B.strobe = false) (sr : UInt8) (polls w n : Nat) (hw : 65536 ≤ w) (hp : polls < w)
    (hn : 23 ≤ n) :
    ∃ mxs hi h, C.SampledAll W 0 hi mxs ∧ textRun X W w n r0 sr polls = some h ∧
      h.found = mxs.length ∧ h.found ≤ h.ints ∧ hi ≤ h.time ∧
      ∀ edge, latched B edge r0 (statesOf h) =
        (channel (typed fourMaps openLayout (mxs.map contactsRead))
          (said fourMaps openLayout (mxs.map contactsRead))).host.map Prod.snd := by
  obtain ⟨mxs, hi, h1, h2⟩ := C90_text X B T hX W r0 sr polls w n hw hp hn
  obtain ⟨wh, e1, e2⟩ := board_host (compiled_built hX) r0 h0 b (hW hi mxs h1) (sampled_reads hb h1)
  obtain ⟨h, k1, k2, k3, kf, k4, k5⟩ := h2 wh e1
  refine ⟨mxs, hi, h, h1, k1, kf, k4, k5, fun edge => ?_⟩
  rw [k2, e2]

/-! ## From the switches to the socket -/

theorem sampled_times {ps : List Place} {sw : Nat → Sw → Bool} {W : C.Outside} (hW : SwitchWorld ps sw W) :
    ∀ {mxs lo hi}, C.SampledAll W lo hi mxs →
      ∃ times, InOrder lo hi times ∧ times.length = mxs.length ∧ mxs.map contactsRead = readingsAt ps sw times := by
  intro mxs
  induction mxs with
  | nil => intro lo hi h; exact ⟨[], h, rfl, rfl⟩
  | cons mx mxs ih =>
    intro lo hi ⟨mid, h1, h2⟩
    obtain ⟨times, g1, g2, g3⟩ := ih h2
    let t : Nat → Nat := fun r => (h1 r).choose
    have ht : ∀ r, lo ≤ t r ∧ t r ≤ mid ∧ (mx r).keys = W.keys (t r) := fun r => (h1 r).choose_spec
    refine ⟨t :: times, ⟨mid, fun r => ⟨(ht r).1, (ht r).2.1⟩, g1⟩, by simp [g2], ?_⟩
    rw [List.map_cons, g3]
    unfold readingsAt
    rw [List.map_cons]
    congr 1
    funext r
    unfold contactsRead pressed
    rw [(ht r).2.2, hW]

/-- The looks of a safe run at the timer flag. -/
theorem text_heads {X : C.Board} {B : Board} {T : Whole.Target} (hX : Compiled X B T) {W : C.Outside} (hW : SafeWorld W)
    (r0 : Regs) (sr : UInt8) {w n : Nat} (hw : 65536 ≤ w) (hn : 23 ≤ n) :
    ∃ f : Nat → C.Head, (∀ p, (f p).Good T W r0) ∧ (∀ p, (f p).Next W (f (p + 1))) ∧ (f 0).mxs = [] ∧
      ∀ p, p < w → textRun X W w n r0 sr p = some ((f p).h.irq W) := by
  obtain ⟨n, rfl⟩ : ∃ k, n = k + 23 := ⟨n - 23, by omega⟩
  have hsafe : ∀ hi mxs, C.SampledAll W 0 hi mxs → ∃ wh, Whole.life T shipped r0 mxs = .ok wh := fun hi mxs h1 => by
    obtain ⟨wh, e1, _⟩ := C75_board_safe B T (compiled_built hX) r0 mxs (hW hi mxs h1)
    exact ⟨wh, e1⟩
  have fin : ∀ {X : C.Board} [C.IsBoard X], C.Serves X T → ∃ f : Nat → C.Head, (∀ p, (f p).Good T W r0) ∧
      (∀ p, (f p).Next W (f (p + 1))) ∧ (f 0).mxs = [] ∧
      ∀ p, p < w → textRun X W w (n + 23) r0 sr p = some ((f p).h.irq W) := by
    intro X _ S
    obtain ⟨f, h1, h2, h3, h4⟩ := C.heads S hw hsafe sr n
    refine ⟨f, h1, h2, h3, fun p hp => ?_⟩
    unfold textRun
    rw [h4 p hp]
    rfl
  rcases hX with ⟨rfl, _, rfl⟩ | ⟨cols, _, rfl, _, rfl⟩
  · exact fin C89_atmega328p
  · exact fin (C89_atmega2560 cols)

theorem readAt_readings {ps : List Place} {sw : Nat → Sw → Bool} {W : C.Outside} (hW : SwitchWorld ps sw W)
    {times : List (Nat → Nat)} {mxs : List (Nat → Whole.Contacts)} (h : C.ReadAt W times mxs) :
    mxs.map contactsRead = readingsAt ps sw times := by
  have h := congrArg (List.map fun (k : Nat → Nat → UInt8) r => k r r) h
  rw [List.map_map, List.map_map] at h
  refine (show _ = _ from h).trans ?_
  unfold readingsAt
  refine congrArg (fun g => times.map g) ?_
  funext t r
  exact congrFun (hW (t r)) r

/-- The scans of a run fall between its looks. -/
theorem heads_between {X : C.Board} {T : Whole.Target} {W : C.Outside} {r0 : Regs} {sr : UInt8} {w n : Nat}
    {f : Nat → C.Head} (g : ∀ p, (f p).Good T W r0) (hn : ∀ p, (f p).Next W (f (p + 1)))
    (hr : ∀ p, p < w → textRun X W w n r0 sr p = some ((f p).h.irq W)) {polls : Nat} (hp : polls < w) :
    BetweenLooks X W w n r0 sr polls (f polls).times := by
  intro p hpp
  obtain ⟨d, rfl⟩ : ∃ d, polls = p + d := ⟨polls - p, by omega⟩
  obtain ⟨-, ts, e, ht⟩ := C.later_times g hn p d
  have hlen := (g p).length
  refine ⟨_, hr p (by omega), ?_, fun i hi row => ?_⟩
  · rw [e, List.length_append, C.irq_found]
    omega
  · rw [C.irq_found, ← hlen]
    constructor
    · intro h
      have e' : (f (p + d)).times[i] = (f p).times[i] := by
        simp only [e, List.getElem_append_left h]
      rw [e']
      exact Nat.le_trans (C.inOrder_upto (g p).order _ (List.getElem_mem _) row) (C.irq_time W _)
    · intro h
      have hi' : i - (f p).times.length < ts.length := by
        rw [e, List.length_append] at hi
        omega
      have e' : (f (p + d)).times[i] = ts[i - (f p).times.length] := by
        simp only [e, List.getElem_append_right h]
      rw [e']
      exact ht _ (List.getElem_mem _) row

/-- The text on a board, watched at a socket. -/
theorem text_watched {X : C.Board} {B : Board} {T : Whole.Target} (hX : Compiled X B T) {ps : List Place}
    (hps : ps ∈ [classicPlaces, solPlaces]) {sw : Nat → Sw → Bool} {W : C.Outside} (hS : SwitchWorld ps sw W)
    (hW : SafeWorld W) {b : Bool} (hb : ∀ t, sw t (.dip 7) = b) (r0 : Regs) (sr : UInt8) {polls w n : Nat}
    (hw : 65536 ≤ w) (hp : polls < w) (hn : 23 ≤ n) :
    ∃ times hi h log, BetweenLooks X W w n r0 sr polls times ∧ InOrder 0 hi times ∧ textRun X W w n r0 sr polls = some h ∧ hi ≤ h.time ∧
      h.found = times.length ∧ h.found ≤ h.ints ∧ statesOf h = boardStates B r0 [.archInit] ++ log ∧
      ∀ (lines : List (Nat × Signal)) (pin : Nat), (pin, .strobe) ∈ lines → lineBits lines &&& 0x7f = 0x7f →
        ∀ (edge : Bool) (v : Nat → Bool) (vs : List (Nat → Bool)),
          Shows B lines (boardAfter B r0 [.archInit]) v → Watches (Shows B lines) log vs →
          computerReads lines edge v vs =
            (channel (typed fourMaps openLayout (readingsAt ps sw times))
              (said fourMaps openLayout (readingsAt ps sw times))).host.map Prod.snd := by
  obtain ⟨f, g, hn, -, hr⟩ := text_heads hX hW r0 sr hw hn
  have hbetween := heads_between g hn hr hp
  have g := g polls
  have g3 := readAt_readings hS g.reads
  have hsw : ∀ mx ∈ (f polls).mxs, sample (contactsRead mx) 8 6 = b := by
    intro mx hm
    have : contactsRead mx ∈ readingsAt ps sw (f polls).times := g3 ▸ List.mem_map_of_mem hm
    obtain ⟨t, _, e⟩ := List.mem_map.mp this
    rw [← e, dip7 hps, hb]
  have h1 := g.reads.sampled g.order
  obtain ⟨wh, log, e1, e2, e3⟩ := board_watched (compiled_built hX) r0 b (hW _ _ h1) hsw
  rw [g.life] at e1
  cases e1
  rw [g3] at e3
  have hlen := g.length
  have hc := C.irq_credit W (f polls).h
  have hc' := g.credit
  have hf := g.found
  have hi : ((f polls).h.irq W).credit ≤ ((f polls).h.irq W).ints := by
    unfold C.Hw.credit
    split <;> omega
  refine ⟨(f polls).times, (f polls).h.time, _, log, hbetween, g.order, hr polls hp, C.irq_time W _, ?_, ?_, ?_, e3⟩
  · rw [C.irq_found, hlen]
  · rw [C.irq_found]
    omega
  · rw [← e2]
    exact (C.irq_on g.on).log

/-- **C90, from the switches to the computer, on the ATmega328P interface.**  The text of the
firmware on any of the keyboards with this interface, for every behaviour of the key switches,
of the other pins and of the timer, at every socket for a computer, whichever edge of the strobe
the computer uses: if the use is safe and DIP switch 7 is not moved, the computer has read exactly
what the two queues of C77 let through of what the switches typed and printed, read at moments in
the order of the scans, one scan for each time the timer flag was found set. -/
theorem C90_computer_328 (A : Assembly) (ps : List Place) (h : (A, ps) ∈ boards328 classicPlaces solPlaces)
    (sockets : List (Nat × List (Nat × Signal))) (hA : (A, sockets) ∈ plugged328)
    (k : Nat) (lines : List (Nat × Signal)) (hk : (k, lines) ∈ sockets) (pin : Nat)
    (hpin : (pin, .strobe) ∈ lines) (sw : Nat → Sw → Bool) (W : C.Outside) (hS : SwitchWorld ps sw W)
    (hW : SafeWorld W) (b : Bool) (hb : ∀ t, sw t (.dip 7) = b) (r0 : Regs) (sr : UInt8)
    (polls w n : Nat) (hw : 65536 ≤ w) (hp : polls < w) (hn : 23 ≤ n) :
    ∃ times hi h log, BetweenLooks C.board328 W w n r0 sr polls times ∧ InOrder 0 hi times ∧ textRun C.board328 W w n r0 sr polls = some h ∧
      hi ≤ h.time ∧ h.found = times.length ∧ h.found ≤ h.ints ∧ statesOf h = boardStates m328 r0 [.archInit] ++ log ∧
      ∀ edge v vs, AtSocket328 A k lines (boardAfter m328 r0 [.archInit]) v →
        Watches (AtSocket328 A k lines) log vs →
        computerReads lines edge v vs =
          (channel (typed fourMaps openLayout (readingsAt ps sw times))
            (said fourMaps openLayout (readingsAt ps sw times))).host.map Prod.snd := by
  obtain ⟨times, hi, g, log, h0, h1, h2, h3, hf4, h4, h5, h6⟩ := text_watched (.inl ⟨rfl, rfl, rfl⟩)
    (boards328_places h) hS hW hb r0 sr hw hp hn
  refine ⟨times, hi, g, log, h0, h1, h2, h3, hf4, h4, h5, fun edge v vs hv hvs => ?_⟩
  exact h6 lines pin hpin
    (seven_lines _ (List.mem_append_left _ hA) _ hk (List.any_eq_true.mpr ⟨_, hpin, rfl⟩)) edge v vs
    (shows_328 hA hk hv) (watches_mono (fun _ _ => shows_328 hA hk) hvs)

/-- **C90, from the switches to the computer, with the ATmega2560.**  The same for each of the nine
keyboards; `cols closed r` is the byte at the column port while the switches `closed` are closed
and the registers are `r`, given by the levels on the board. -/
theorem C90_computer_2560 (A : Assembly) (ps : List Place) (h : (A, ps) ∈ boards2560 classicPlaces solPlaces)
    (out : Net → Prop) (hout : ∀ n, out n → Outside A n) (cols : (Sw → Bool) → Regs → UInt8)
    (hcols : ∀ closed r, rowReady2560 r →
      ReadsLevels A.links (column2560 A) closed (fun n => Low2560 A r n ∨ out n) (cols closed r))
    (sockets : List (Nat × List (Nat × Signal))) (hA : (A, sockets) ∈ plugged2560)
    (k : Nat) (lines : List (Nat × Signal)) (hk : (k, lines) ∈ sockets) (pin : Nat)
    (hpin : (pin, .strobe) ∈ lines) :
    ∃ f, (∀ closed r, rowReady2560 r → f (closedKeys ps closed) r = cols closed r) ∧
      ∀ (sw : Nat → Sw → Bool) (W : C.Outside), SwitchWorld ps sw W → SafeWorld W →
      ∀ b, (∀ t, sw t (.dip 7) = b) → ∀ (r0 : Regs) (sr : UInt8) (polls w n : Nat),
        65536 ≤ w → polls < w → 23 ≤ n →
        ∃ times hi h log, BetweenLooks (C.board2560 f) W w n r0 sr polls times ∧ InOrder 0 hi times ∧ textRun (C.board2560 f) W w n r0 sr polls = some h ∧
          hi ≤ h.time ∧ h.found = times.length ∧ h.found ≤ h.ints ∧ statesOf h = boardStates m2560 r0 [.archInit] ++ log ∧
          ∀ edge v vs, AtSocket2560 A k lines (boardAfter m2560 r0 [.archInit]) v →
            Watches (AtSocket2560 A k lines) log vs →
            computerReads lines edge v vs =
              (channel (typed fourMaps openLayout (readingsAt ps sw times))
                (said fourMaps openLayout (readingsAt ps sw times))).host.map Prod.snd := by
  obtain ⟨f, hf, hfc⟩ := columns_2560 A ps h out hout cols hcols
  refine ⟨f, hfc, fun sw W hS hW b hb r0 sr polls w n hw hp hn => ?_⟩
  obtain ⟨times, hi, g, log, h0, h1, h2, h3, hf4, h4, h5, h6⟩ := text_watched (.inr ⟨f, hf, rfl, rfl, rfl⟩)
    (boards2560_places h) hS hW hb r0 sr hw hp hn
  refine ⟨times, hi, g, log, h0, h1, h2, h3, hf4, h4, h5, fun edge v vs hv hvs => ?_⟩
  exact h6 lines pin hpin
    (seven_lines _ (List.mem_append_right _ hA) _ hk (List.any_eq_true.mpr ⟨_, hpin, rfl⟩)) edge v vs
    (shows_2560 hA hk hv) (watches_mono (fun _ _ => shows_2560 hA hk) hvs)

/-! ## Non-vacuity -/

/-- The key A is held, and the timer asks for an interrupt all the time. -/
def worldA : C.Outside := ⟨fun _ => closing 1 6, fun _ _ => 0, fun _ => true⟩

example : SafeWorld worldA := C90_safe_settings worldA false false
  (fun _ => show bitOf (closing 1 6 8) 1 = false by decide) (fun _ => show bitOf (closing 1 6 8) 2 = false by decide) (.inl rfl)

/-- What the firmware text has done after this many looks at the timer flag: what the host has read,
how often the flag was found set. -/
def sawA (polls : Nat) : Option (List Code × Nat) :=
  (textRun (C.board2560 exampleColumns) worldA 65536 23 allZero 0 polls).map fun h =>
    (latched m2560 true allZero (statesOf h), h.found)

/-- The text runs: two scans. -/
example : sawA 2 = some ([], 2) := by decide +kernel

end Asdf.Props
