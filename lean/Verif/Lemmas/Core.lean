import Verif.Lemmas.Bits
import Verif.Lemmas.Buffer
import Verif.Lemmas.Keymaps
import Verif.Lemmas.Repeat

/-! # The invariant of the keyboard state, and the actions that preserve it -/

namespace Asdf

open Spec

/-! ## Pending codes -/

theorem drain_rel {b : BufState} {qs : Queues} (h : BufRel b qs) {i : Nat} (hi : i < qs.length)
    (n : Nat) (hn : n ≤ qs[i].items.length) : drain b (i : Int) n = qs[i].items.take n := by
  induction n generalizing b qs with
  | zero => simp [drain]
  | succ n ih =>
    obtain ⟨b', h1, h2⟩ := h.get hi
    have hi' : i < (qs.modify i Queue.pop).length := by simpa using hi
    have hq : (qs.modify i Queue.pop)[i]'hi' = qs[i].pop := by
      rw [List.getElem_modify]; simp
    have := ih h2 hi' (by rw [hq]; simp only [Queue.pop, List.length_tail]; omega)
    unfold drain
    rw [h1]
    simp only [this, hq, Queue.pop]
    cases hit : qs[i].items with
    | nil => rw [hit] at hn; simp at hn
    | cons x xs => simp [Queue.front, hit]

theorem pending_rel {b : BufState} {qs : Queues} (h : BufRel b qs) {i : Nat} (hi : i < qs.length) :
    pending b (i : Int) = qs[i].items := by
  obtain ⟨d, hd, hr⟩ := h.get_desc hi
  unfold pending
  rw [show ((i : Int)).toNat = i from rfl, hd]
  show drain b (i : Int) d.count.toNat = _
  rw [hr.count, drain_rel h hi _ (Nat.le_refl _), List.take_length]

/-- The two queues of the keyboard. -/
def twoQ (ks ms : List Code) : Queues := [⟨16, ks⟩, ⟨128, ms⟩]

/-- Enqueue into a list bounded by `cap`. -/
def putL (cap : Nat) (l : List Code) (c : Code) : List Code :=
  if l.length < cap then l ++ [c] else l

theorem Queue.put_putL (cap : Nat) (l : List Code) (c : Code) :
    Spec.Queue.put ⟨cap, l⟩ c = ⟨cap, putL cap l c⟩ := by
  unfold Spec.Queue.put putL
  split <;> rfl

/-! ## The invariant -/

/-- Keystrokes are codes or 0xA0; message characters are codes. -/
def CodesOk (ks ms : List Code) : Prop :=
  (∀ c ∈ ks, c.toNat ≤ 0xA0) ∧ (∀ c ∈ ms, c.toNat < 0xA0)

/-- Everything that holds of the keyboard state between any two key events. -/
structure WF (cfg : Config) (L : Layout) (s : State) (ks ms : List Code) (a : Outputs)
    (free : List Nat) : Prop where
  buf : BufRel s.buf (twoQ ks ms)
  kc : s.kcBuf = 0
  mb : s.msgBuf = 1
  dev : DevRel s.dev a free
  idx : s.curIdx ∈ L.maps
  maps : s.maps = mapsOf (cfg.setup s.curIdx)
  hooks : s.hooks = hooksOf (cfg.setup s.curIdx)
  stableLen : s.stable.length = 16
  cntLen : s.counters.length = 16
  cntRow : ∀ (r : Nat) (row : List UInt8), s.counters[r]? = some row → row.length = 8
  cntVal : ∀ (r : Nat) (row : List UInt8) (c : Nat) (x : UInt8), s.counters[r]? = some row → row[c]? = some x →
    1 ≤ x.toNat ∧ x.toNat ≤ 10
  rep : RepInv s.rep
  last : s.lastKey.toNat ≤ 0xA0
  blocked : ∀ r c, r < L.rows → c < L.cols → L.blocked r c = true → accepted s r c = false
  codes : CodesOk ks ms

theorem WF.keystrokes {cfg L s ks ms a free} (h : WF cfg L s ks ms a free) :
    Spec.keystrokes s = ks := by
  unfold Spec.keystrokes
  rw [h.kc]
  exact pending_rel h.buf (i := 0) (by simp [twoQ])

theorem WF.messages {cfg L s ks ms a free} (h : WF cfg L s ks ms a free) :
    Spec.messages s = ms := by
  unfold Spec.messages
  rw [h.mb]
  exact pending_rel h.buf (i := 1) (by simp [twoQ])

/-- Facts about a configuration fit for a layout. -/
structure CfgFacts (cfg : Config) (L : Layout) : Prop where
  rows1 : 1 ≤ L.rows
  rows16 : L.rows ≤ 16
  cols1 : 1 ≤ L.cols
  cols8 : L.cols ≤ 8
  zero : 0 ∈ L.maps
  keymap : ∀ i ∈ L.maps, keymapOk cfg L i = true

theorem cfgFacts {cfg : Config} {L : Layout} (h : cfgOk cfg L = true) : CfgFacts cfg L := by
  simp only [cfgOk, Bool.and_eq_true, decide_eq_true_eq, List.all_eq_true,
    List.contains_iff_mem] at h
  obtain ⟨⟨⟨⟨⟨h1, h2⟩, h3⟩, h4⟩, h5⟩, h6⟩ := h
  exact ⟨h1, h2, h3, h4, h5, h6⟩

theorem CfgFacts.parts {cfg : Config} {L : Layout} (h : CfgFacts cfg L) {i : UInt8}
    (hi : i ∈ L.maps) : i.toNat < 4 ∧ cfg.valid i = true ∧
      (∀ e ∈ mapsOf (cfg.setup i), tableOk cfg L e = true) ∧
      hooksOk (hooksOf (cfg.setup i)) = true := by
  have hk := h.keymap i hi
  simp only [keymapOk, Bool.and_eq_true, decide_eq_true_eq, List.all_eq_true] at hk
  exact ⟨hk.1.1.1, hk.1.1.2, hk.1.2, hk.2⟩

/-- What a fit table provides. -/
theorem tableOk_facts {cfg : Config} {L : Layout} {e : MapEntry} (h : tableOk cfg L e = true) :
    e.rows.toNat = L.rows ∧ e.cols.toNat = L.cols ∧ ∃ t, e.matrix = some t ∧
      L.rows * L.cols ≤ t.length ∧
      ∀ r c, r < L.rows → c < L.cols → L.blocked r c = true ∨
        mapselOk cfg L (entryAt t L.cols r c) = true := by
  unfold tableOk at h
  cases hm : e.matrix with
  | none => rw [hm] at h; simp at h
  | some t =>
    rw [hm] at h
    simp only [Bool.and_eq_true, beq_iff_eq, decide_eq_true_eq, List.all_eq_true,
      List.mem_range, Bool.or_eq_true] at h
    exact ⟨h.1.1, h.1.2, t, rfl, h.2.1, fun r c hr hc => h.2.2 r hr c hc⟩

theorem hooksOk_facts {h : List HookFn} (hk : hooksOk h = true) :
    h[2]? = some .archReadRow ∧ h[3]? = some .archSendCode ∧ h[4]? = some .null ∧
    ∀ n, n < 10 → ∃ f, h[5 + n]? = some f ∧ quietHook f = true := by
  simp only [hooksOk, Bool.and_eq_true, beq_iff_eq, List.all_eq_true, List.mem_range] at hk
  refine ⟨hk.1.1.1, hk.1.1.2, hk.1.2, ?_⟩
  intro n hn
  have := hk.2 n hn
  cases hf : h[5 + n]? with
  | none => rw [hf] at this; cases this
  | some f => rw [hf] at this; exact ⟨f, rfl, this⟩

theorem tableFor_lt (a b c : Bool) : tableFor a b c < 4 := by
  cases a <;> cases b <;> cases c <;> decide

theorem modifierIndex_ok (m : Mods) :
    modifierIndex m = .ok (tableFor (m.shift != 0) (m.caps != 0) (m.ctrl != 0)) := by
  unfold modifierIndex activeModifiers tableFor
  by_cases h1 : m.shift = 0 <;> by_cases h2 : m.caps = 0 <;> by_cases h3 : m.ctrl = 0 <;>
    simp [h1, h2, h3, bne] <;> rfl

/-- The entry of the table of any modifier in a good keymap. -/
theorem maps_entry {cfg : Config} {L : Layout} (hc : CfgFacts cfg L) {s : State}
    (hi : s.curIdx ∈ L.maps) (hm : s.maps = mapsOf (cfg.setup s.curIdx)) {m : Nat} (hlt : m < 4) :
    ∃ e, s.maps[m]? = some e ∧ tableOk cfg L e = true := by
  have hl : m < s.maps.length := by rw [hm, mapsOf_length]; exact hlt
  refine ⟨s.maps[m], List.getElem?_eq_getElem hl, ?_⟩
  apply (hc.parts hi).2.2.1
  rw [← hm]
  exact List.getElem_mem _

theorem numRows_ok {cfg : Config} {L : Layout} (hc : CfgFacts cfg L) {s : State}
    (hi : s.curIdx ∈ L.maps) (hm : s.maps = mapsOf (cfg.setup s.curIdx)) :
    ∃ n, numRows s = .ok n ∧ n.toNat = L.rows := by
  obtain ⟨e, h1, h2⟩ := maps_entry hc hi hm (tableFor_lt (s.mods.shift != 0) (s.mods.caps != 0)
    (s.mods.ctrl != 0))
  refine ⟨e.rows, ?_, (tableOk_facts h2).1⟩
  unfold numRows
  rw [modifierIndex_ok, ok_bind, rd_some h1, ok_bind]

theorem numCols_ok {cfg : Config} {L : Layout} (hc : CfgFacts cfg L) {s : State}
    (hi : s.curIdx ∈ L.maps) (hm : s.maps = mapsOf (cfg.setup s.curIdx)) :
    ∃ n, numCols s = .ok n ∧ n.toNat = L.cols := by
  obtain ⟨e, h1, h2⟩ := maps_entry hc hi hm (tableFor_lt (s.mods.shift != 0) (s.mods.caps != 0)
    (s.mods.ctrl != 0))
  refine ⟨e.cols, ?_, (tableOk_facts h2).2.1⟩
  unfold numCols
  rw [modifierIndex_ok, ok_bind, rd_some h1, ok_bind]

theorem idx_lt {r c rows cols : Nat} (hr : r < rows) (hc : c < cols) :
    r * cols + c < rows * cols := by
  have : (r + 1) * cols ≤ rows * cols := Nat.mul_le_mul_right _ hr
  rw [Nat.add_mul, Nat.one_mul] at this
  omega

theorem u8_ne_zero {x : UInt8} (h : 1 ≤ x.toNat) : x ≠ 0 := by
  intro hc; rw [hc] at h; simp at h

/-- Lookup of a key code in a good keymap. -/
theorem lookup_ok {cfg : Config} {L : Layout} (hc : CfgFacts cfg L) {s : State}
    (hi : s.curIdx ∈ L.maps) (hm : s.maps = mapsOf (cfg.setup s.curIdx)) {r c : Nat}
    (hr : r < L.rows) (hcc : c < L.cols) :
    lookupKeycode s r c = .ok (codeOf s L.cols r c) ∧
      (L.blocked r c = true ∨ mapselOk cfg L (codeOf s L.cols r c) = true) := by
  obtain ⟨e, h1, h2⟩ := maps_entry hc hi hm (tableFor_lt (s.mods.shift != 0) (s.mods.caps != 0)
    (s.mods.ctrl != 0))
  obtain ⟨f, g1, g2⟩ := maps_entry hc hi hm ((hc.parts hi).1)
  obtain ⟨_, _, t, ht, hlen, hms⟩ := tableOk_facts h2
  obtain ⟨f1, f2, _⟩ := tableOk_facts g2
  have hat : activeTable s = t := by
    unfold activeTable; rw [h1]; simp [ht]
  have hlt : r * L.cols + c < t.length := Nat.lt_of_lt_of_le (idx_lt hr hcc) hlen
  have hcode : codeOf s L.cols r c = t[r * L.cols + c] := by
    unfold codeOf entryAt; rw [hat, List.getElem?_eq_getElem hlt]; rfl
  constructor
  · unfold lookupKeycode getCode
    rw [modifierIndex_ok, ok_bind, rd_some g1, ok_bind, if_pos, rd_some h1, ok_bind]
    · simp only [ht]
      rw [f2, rd_ok hlt, hcode]
    · refine ⟨u8_ne_zero ?_, u8_ne_zero ?_⟩
      · rw [f2]; exact hc.cols1
      · rw [f1]; exact hc.rows1
  · have := hms r c hr hcc
    unfold codeOf; rw [hat]; exact this

/-! ## Putting codes into the two buffers -/

theorem putCode_ok {s : State} {ks ms : List Code} (hb : BufRel s.buf (twoQ ks ms))
    (hk : s.kcBuf = 0) (c : Code) :
    ∃ b', putCode s c = .ok { s with buf := b' } ∧ BufRel b' (twoQ (putL 16 ks c) ms) := by
  obtain ⟨b', h1, h2⟩ := hb.put (i := 0) (by simp [twoQ]) c
  refine ⟨b', ?_, ?_⟩
  · unfold putCode; rw [hk, show (0 : Int) = ((0 : Nat) : Int) from rfl, h1]; rfl
  · have : (twoQ ks ms).modify 0 (fun q => q.put c) = twoQ (putL 16 ks c) ms := by
      simp [twoQ, Queue.put_putL]
    rw [this] at h2; exact h2

theorem putMsg_ok {s : State} {ks ms : List Code} (hb : BufRel s.buf (twoQ ks ms))
    (hk : s.msgBuf = 1) (c : Code) :
    ∃ b', putMsg s c = .ok { s with buf := b' } ∧ BufRel b' (twoQ ks (putL 128 ms c)) := by
  obtain ⟨b', h1, h2⟩ := hb.put (i := 1) (by simp [twoQ]) c
  refine ⟨b', ?_, ?_⟩
  · unfold putMsg; rw [hk, show (1 : Int) = ((1 : Nat) : Int) from rfl, h1]; rfl
  · have : (twoQ ks ms).modify 1 (fun q => q.put c) = twoQ ks (putL 128 ms c) := by
      simp [twoQ, Queue.put_putL]
    rw [this] at h2; exact h2

theorem putc_ok {s : State} {ks ms : List Code} (hb : BufRel s.buf (twoQ ks ms))
    (hk : s.msgBuf = 1) (c : Code) :
    ∃ b', putc s c = .ok { s with buf := b' } ∧
      BufRel b' (twoQ ks ((withCR [c]).foldl (putL 128) ms)) := by
  unfold putc
  by_cases h : c = 0x0A
  · subst h
    obtain ⟨b1, h1, h2⟩ := putMsg_ok hb hk 0x0D
    obtain ⟨b2, h3, h4⟩ := putMsg_ok (s := { s with buf := b1 }) h2 hk 0x0A
    refine ⟨b2, ?_, h4⟩
    rw [if_pos rfl, h1, ok_bind]; exact h3
  · obtain ⟨b1, h1, h2⟩ := putMsg_ok hb hk c
    refine ⟨b1, ?_, ?_⟩
    · rw [if_neg h, ok_bind]; exact h1
    · simpa [withCR, h] using h2

theorem print_ok (text : List Code) {s : State} {ks ms : List Code}
    (hb : BufRel s.buf (twoQ ks ms)) (hk : s.msgBuf = 1) :
    ∃ b', print s text = .ok { s with buf := b' } ∧
      BufRel b' (twoQ ks ((withCR text).foldl (putL 128) ms)) := by
  unfold print
  induction text generalizing s ms with
  | nil => exact ⟨s.buf, rfl, hb⟩
  | cons c text ih =>
    obtain ⟨b1, h1, h2⟩ := putc_ok hb hk c
    obtain ⟨b2, h3, h4⟩ := ih (s := { s with buf := b1 }) h2 hk
    refine ⟨b2, ?_, ?_⟩
    · rw [List.foldlM_cons, h1, ok_bind]; exact h3
    · have : withCR (c :: text) = withCR [c] ++ withCR text := by simp [withCR]
      rw [this, List.foldl_append]; exact h4

theorem putL_prefix (cap : Nat) (l : List Code) (c : Code) : l <+: putL cap l c := by
  unfold putL; split
  · exact List.prefix_append _ _
  · exact List.prefix_rfl

theorem foldl_putL_prefix (cap : Nat) (cs l : List Code) : l <+: cs.foldl (putL cap) l := by
  induction cs generalizing l with
  | nil => exact List.prefix_rfl
  | cons c cs ih => exact (putL_prefix cap l c).trans (ih _)

theorem foldl_putL_full (cap : Nat) (cs l : List Code) (h : cap ≤ l.length) :
    cs.foldl (putL cap) l = l := by
  induction cs with
  | nil => rfl
  | cons c cs ih =>
    rw [List.foldl_cons, show putL cap l c = l by unfold putL; rw [if_neg (by omega)]]
    exact ih

/-- Enqueueing a text keeps as much of it as fits. -/
theorem foldl_putL_take (cap : Nat) (cs l : List Code) :
    cs.foldl (putL cap) l = l ++ cs.take (cap - l.length) := by
  induction cs generalizing l with
  | nil => simp
  | cons c cs ih =>
    by_cases h : l.length < cap
    · rw [List.foldl_cons, show putL cap l c = l ++ [c] by unfold putL; rw [if_pos h], ih]
      obtain ⟨k, hk⟩ : ∃ k, cap - l.length = k + 1 := ⟨cap - l.length - 1, by omega⟩
      rw [hk, List.take_succ_cons, List.append_assoc]
      congr 2
      simp; congr 1; omega
    · rw [foldl_putL_full _ _ _ (by omega), show cap - l.length = 0 by omega]; simp

theorem foldl_putL (cap : Nat) (cs l : List Code) (h : l.length + cs.length ≤ cap) :
    cs.foldl (putL cap) l = l ++ cs := by
  induction cs generalizing l with
  | nil => simp
  | cons c cs ih =>
    simp at h
    rw [List.foldl_cons, show putL cap l c = l ++ [c] by unfold putL; rw [if_pos (by omega)]]
    rw [ih _ (by simp; omega)]
    simp

theorem putL_codes {n cap : Nat} {ks : List Code} {c : Code} (h : ∀ c ∈ ks, c.toNat ≤ n)
    (hc : c.toNat ≤ n) : ∀ x ∈ putL cap ks c, x.toNat ≤ n := by
  unfold putL
  split
  · intro x hx
    rcases List.mem_append.mp hx with hx | hx
    · exact h x hx
    · rw [List.mem_singleton.mp hx]; exact hc
  · exact h

theorem withCR_codes {text : List Code} (ht : quietHook (.print text) = true) :
    ∀ x ∈ withCR text, x.toNat < 0xA0 := by
  intro x hx
  have ht : (text.all fun c => decide (c.toNat < 0xA0)) = true := ht
  simp only [List.all_eq_true, decide_eq_true_eq] at ht
  unfold withCR at hx
  obtain ⟨c, hc, hx⟩ := List.mem_flatMap.mp hx
  split at hx
  · rcases List.mem_cons.mp hx with hx | hx
    · rw [hx]; decide
    · rw [List.mem_singleton.mp hx]; decide
  · rw [List.mem_singleton.mp hx]; exact ht c hc

theorem foldl_putL_codes {cap : Nat} {ms text : List Code} (ht : quietHook (.print text) = true)
    (h : ∀ c ∈ ms, c.toNat < 0xA0) :
    ∀ x ∈ (withCR text).foldl (putL cap) ms, x.toNat < 0xA0 := by
  intro x hx
  rw [foldl_putL_take] at hx
  rcases List.mem_append.mp hx with hx | hx
  · exact h x hx
  · exact withCR_codes ht x (List.mem_of_mem_take hx)

/-! ## Actions -/

/-- The parts of the state that no action touches. -/
structure Kept (s s' : State) : Prop where
  stable : s'.stable = s.stable
  counters : s'.counters = s.counters
  kc : s'.kcBuf = s.kcBuf
  mb : s'.msgBuf = s.msgBuf

theorem Kept.rfl' (s : State) : Kept s s := ⟨rfl, rfl, rfl, rfl⟩

theorem Kept.acc {s s' : State} (h : Kept s s') (r c : Nat) :
    accepted s' r c = accepted s r c := by
  unfold accepted; rw [h.stable]

/-- Does the action print a message? -/
def printsMessage : Action → Bool
  | .nothing | .hereIs | .fn _ => true
  | _ => false

/-- Condition on map-select actions. -/
def actionOk (cfg : Config) (L : Layout) : Action → Prop
  | .mapsel b => ∀ i ∈ L.maps, (i ||| b ∈ L.maps ∨ cfg.valid (i ||| b) = false) ∧
      (i &&& ~~~b ∈ L.maps ∨ cfg.valid (i &&& ~~~b) = false)
  | .virt v => v < 12
  | _ => True

theorem actionOk_of {cfg : Config} {L : Layout} {code : Code} (h : mapselOk cfg L code = true) :
    actionOk cfg L (decodeAction code) := by
  cases hd : decodeAction code with
  | mapsel b =>
    unfold mapselOk at h
    rw [hd] at h
    simp only [List.all_eq_true, Bool.and_eq_true, Bool.or_eq_true, List.contains_iff_mem,
      Bool.not_eq_true'] at h
    exact h
  | virt v =>
    show v < 12
    have : ∀ n, n < 256 → ∀ v, decodeAction (UInt8.ofNat n) = .virt v → v < 12 := by
      intro n hn v hv
      have h2 : ∀ n, n < 256 → (match decodeAction (UInt8.ofNat n) with
        | .virt v => decide (v < 12) | _ => true) = true := by decide +kernel
      have := h2 n hn
      rw [hv] at this
      simpa using this
    exact this code.toNat code.toNat_lt v (by rw [UInt8.ofNat_toNat]; exact hd)
  | _ => trivial

theorem select_ok {cfg : Config} {L : Layout} (hc : CfgFacts cfg L) {s : State} {ks ms a free}
    (h : WF cfg L s ks ms a free) {i : UInt8} (hi : i ∈ L.maps ∨ cfg.valid i = false) :
    ∃ s' a' free', keymapsSelect cfg s i = .ok s' ∧ WF cfg L s' ks ms a' free' ∧ Kept s s' ∧
      s'.lastKey = s.lastKey ∧ s'.rep = s.rep ∧ s'.mods.shift = s.mods.shift ∧
      s'.mods.ctrl = s.mods.ctrl ∧ s'.buf = s.buf := by
  unfold keymapsSelect
  by_cases he : i ≠ s.curIdx
  · rw [if_pos he]
    rcases hi with hi | hi
    · obtain ⟨d', f', h1, h2⟩ := keymapsSwitch_ok (cfg := cfg) (s := s) (i := i)
        (hc.parts hi).2.1 (by rw [h.maps, mapsOf_length])
      refine ⟨_, (outsOf s.mods.caps (cfg.setup i)).2, f', h1, ?_, ⟨rfl, rfl, rfl, rfl⟩, rfl, rfl, rfl, rfl, rfl⟩
      exact ⟨h.buf, h.kc, h.mb, h2, hi, rfl, rfl, h.stableLen, h.cntLen, h.cntRow, h.cntVal, h.rep,
        h.last, h.blocked, h.codes⟩
    · exact ⟨s, a, free, keymapsSwitch_invalid (by simp [hi]), h, Kept.rfl' s, rfl, rfl, rfl, rfl,
        rfl⟩
  · rw [if_neg he]
    exact ⟨s, a, free, rfl, h, Kept.rfl' s, rfl, rfl, rfl, rfl, rfl⟩

theorem hookExecute_ok {cfg : Config} {L : Layout} (hc : CfgFacts cfg L) {s : State} {ks ms a free}
    (h : WF cfg L s ks ms a free) {n : Nat} (hn : n < 10) :
    ∃ b' ms', hookExecute s (5 + n) = .ok { s with buf := b' } ∧
      WF cfg L { s with buf := b' } ks ms' a free ∧ ms <+: ms' := by
  obtain ⟨f, h1, h2⟩ := (hooksOk_facts (hc.parts h.idx).2.2.2).2.2.2 n hn
  rw [← h.hooks] at h1
  unfold hookExecute
  rw [if_pos (hookValid_iff.mpr (by omega)), rd_some h1, ok_bind]
  cases f with
  | null => exact ⟨s.buf, ms, rfl, h, List.prefix_rfl⟩
  | print text =>
    obtain ⟨b', e1, e2⟩ := print_ok text h.buf h.mb
    exact ⟨b', _, e1, ⟨e2, h.kc, h.mb, h.dev, h.idx, h.maps, h.hooks, h.stableLen, h.cntLen,
      h.cntRow, h.cntVal, h.rep, h.last, h.blocked, h.codes.1, foldl_putL_codes h2 h.codes.2⟩,
      foldl_putL_prefix _ _ _⟩
  | nullPtr => simp [quietHook] at h2
  | archReadRow => simp [quietHook] at h2
  | archSendCode => simp [quietHook] at h2
  | keyscan => simp [quietHook] at h2

theorem WF.withRep {cfg L s ks ms a free} (h : WF cfg L s ks ms a free) {r : RepState}
    (hr : RepInv r) : WF cfg L { s with rep := r } ks ms a free :=
  ⟨h.buf, h.kc, h.mb, h.dev, h.idx, h.maps, h.hooks, h.stableLen, h.cntLen, h.cntRow, h.cntVal, hr,
    h.last, h.blocked, h.codes⟩

theorem WF.withDevMods {cfg L s ks ms a free} (h : WF cfg L s ks ms a free) {d : Dev} {a' free'}
    (m : Mods) (hd : DevRel d a' free') : WF cfg L { s with mods := m, dev := d } ks ms a' free' :=
  ⟨h.buf, h.kc, h.mb, hd, h.idx, h.maps, h.hooks, h.stableLen, h.cntLen, h.cntRow, h.cntVal, h.rep,
    h.last, h.blocked, h.codes⟩

theorem activateAction_ok {cfg : Config} {L : Layout} (hc : CfgFacts cfg L) {s : State}
    {ks ms a free} (h : WF cfg L s ks ms a free) {act : Action} (ha : actionOk cfg L act) :
    ∃ s' ms' a' free', activateAction cfg s act = .ok s' ∧ WF cfg L s' ks ms' a' free' ∧
      Kept s s' ∧ s'.lastKey = s.lastKey ∧ (printsMessage act = false → s'.buf = s.buf) ∧ ms <+: ms' := by
  have hS : ∀ new, ∃ s' ms' a' free', setShiftState s new = .ok s' ∧
      WF cfg L s' ks ms' a' free' ∧ Kept s s' ∧ s'.lastKey = s.lastKey ∧
      (printsMessage act = false → s'.buf = s.buf) ∧ ms <+: ms' := by
    intro new
    obtain ⟨d', e1, _, e3⟩ := setShiftState_ok h.dev new
    exact ⟨_, ms, _, free, e1, h.withDevMods _ e3, ⟨rfl, rfl, rfl, rfl⟩, rfl, fun _ => rfl, List.prefix_rfl⟩
  have hH : ∀ n, n < 10 → printsMessage act = true → ∃ s' ms' a' free', hookExecute s (5 + n) = .ok s' ∧
      WF cfg L s' ks ms' a' free' ∧ Kept s s' ∧ s'.lastKey = s.lastKey ∧
      (printsMessage act = false → s'.buf = s.buf) ∧ ms <+: ms' := by
    intro n hn hp
    obtain ⟨b', ms', e1, e2, e3⟩ := hookExecute_ok hc h hn
    exact ⟨_, ms', a, free, e1, e2, ⟨rfl, rfl, rfl, rfl⟩, rfl, (fun hf => by rw [hp] at hf; cases hf), e3⟩
  cases act with
  | shift => exact hS _
  | shiftlockOn => exact hS _
  | shiftlockToggle => exact hS _
  | caps =>
    obtain ⟨d', e1, _, e3⟩ := setCapsState_ok h.dev (s.mods.caps ^^^ 1)
    exact ⟨_, ms, _, free, e1, h.withDevMods _ e3, ⟨rfl, rfl, rfl, rfl⟩, rfl, fun _ => rfl, List.prefix_rfl⟩
  | ctrl =>
    exact ⟨_, ms, a, free, rfl, h.withDevMods _ h.dev, ⟨rfl, rfl, rfl, rfl⟩, rfl, fun _ => rfl, List.prefix_rfl⟩
  | «repeat» =>
    exact ⟨_, ms, a, free, rfl, h.withRep h.rep.activate, ⟨rfl, rfl, rfl, rfl⟩, rfl, fun _ => rfl, List.prefix_rfl⟩
  | autorepeatSelect =>
    exact ⟨_, ms, a, free, rfl, h.withRep h.rep.autoOn, ⟨rfl, rfl, rfl, rfl⟩, rfl, fun _ => rfl, List.prefix_rfl⟩
  | strobeSelect =>
    exact ⟨_, ms, a, free, rfl, h.withDevMods s.mods (h.dev.emit _), ⟨rfl, rfl, rfl, rfl⟩, rfl,
      fun _ => rfl, List.prefix_rfl⟩
  | mapsel b =>
    obtain ⟨s', a', f', e1, e2, e3, e4, _, _, _, e5⟩ := select_ok hc h (ha s.curIdx h.idx).1
    exact ⟨s', ms, a', f', e1, e2, e3, e4, fun _ => e5, List.prefix_rfl⟩
  | virt v =>
    obtain ⟨d', e1, _, e3⟩ := h.dev.activate (v := v) ha
    refine ⟨{ s with dev := d' }, ms, _, free, ?_, h.withDevMods s.mods e3, ⟨rfl, rfl, rfl, rfl⟩,
      rfl, fun _ => rfl, List.prefix_rfl⟩
    simp only [activateAction, e1, ok_bind]
  | nothing => exact hH 0 (by omega) rfl
  | hereIs => exact hH 0 (by omega) rfl
  | fn n =>
    show ∃ s' ms' a' free', (if 1 ≤ n ∧ n ≤ 10 then hookExecute s (HOOK_USER_1 + (n - 1))
      else .ok s) = .ok s' ∧ _
    by_cases hn : 1 ≤ n ∧ n ≤ 10
    · rw [if_pos hn]; exact hH (n - 1) (by omega) rfl
    · rw [if_neg hn]; exact ⟨s, ms, a, free, rfl, h, Kept.rfl' s, rfl, fun _ => rfl, List.prefix_rfl⟩
  | other => exact ⟨s, ms, a, free, rfl, h, Kept.rfl' s, rfl, fun _ => rfl, List.prefix_rfl⟩

theorem deactivateAction_ok {cfg : Config} {L : Layout} (hc : CfgFacts cfg L) {s : State}
    {ks ms a free} (h : WF cfg L s ks ms a free) {act : Action} (ha : actionOk cfg L act) :
    ∃ s' a' free', deactivateAction cfg s act = .ok s' ∧ WF cfg L s' ks ms a' free' ∧
      Kept s s' ∧ s'.lastKey = s.lastKey ∧ s'.buf = s.buf := by
  cases act with
  | shift =>
    obtain ⟨d', e1, _, e3⟩ := setShiftState_ok h.dev 0
    exact ⟨_, _, free, e1, h.withDevMods _ e3, ⟨rfl, rfl, rfl, rfl⟩, rfl, rfl⟩
  | ctrl =>
    exact ⟨_, a, free, rfl, h.withDevMods _ h.dev, ⟨rfl, rfl, rfl, rfl⟩, rfl, rfl⟩
  | «repeat» =>
    exact ⟨_, a, free, rfl, h.withRep h.rep.deactivate, ⟨rfl, rfl, rfl, rfl⟩, rfl, rfl⟩
  | autorepeatSelect =>
    exact ⟨_, a, free, rfl, h.withRep h.rep.autoOff, ⟨rfl, rfl, rfl, rfl⟩, rfl, rfl⟩
  | strobeSelect =>
    exact ⟨_, a, free, rfl, h.withDevMods s.mods (h.dev.emit _), ⟨rfl, rfl, rfl, rfl⟩, rfl, rfl⟩
  | mapsel b =>
    obtain ⟨s', a', f', e1, e2, e3, e4, _, _, _, e5⟩ := select_ok hc h (ha s.curIdx h.idx).2
    exact ⟨s', a', f', e1, e2, e3, e4, e5⟩
  | nothing => exact ⟨s, a, free, rfl, h, Kept.rfl' s, rfl, rfl⟩
  | shiftlockOn => exact ⟨s, a, free, rfl, h, Kept.rfl' s, rfl, rfl⟩
  | shiftlockToggle => exact ⟨s, a, free, rfl, h, Kept.rfl' s, rfl, rfl⟩
  | caps => exact ⟨s, a, free, rfl, h, Kept.rfl' s, rfl, rfl⟩
  | hereIs => exact ⟨s, a, free, rfl, h, Kept.rfl' s, rfl, rfl⟩
  | virt _ => exact ⟨s, a, free, rfl, h, Kept.rfl' s, rfl, rfl⟩
  | fn _ => exact ⟨s, a, free, rfl, h, Kept.rfl' s, rfl, rfl⟩
  | other => exact ⟨s, a, free, rfl, h, Kept.rfl' s, rfl, rfl⟩

theorem gt_invalid {code : Code} : code > INVALID_CODE ↔ 0xA0 < code.toNat := by
  rw [gt_iff_lt, UInt8.lt_iff_toNat_lt]; rfl

/-- A code (or NOTHING) key is activated. -/
theorem activateKey_code {cfg : Config} {L : Layout} {s : State} {ks ms a free}
    (h : WF cfg L s ks ms a free) {code : Code} (hcode : code.toNat ≤ 0xA0) :
    ∃ b', activateKey cfg s code = .ok { s with
        buf := b', lastKey := code,
        rep := if s.lastKey ≠ code then repResetCount s.rep else s.rep } ∧
      WF cfg L { s with
        buf := b', lastKey := code,
        rep := if s.lastKey ≠ code then repResetCount s.rep else s.rep } (putL 16 ks code) ms a free := by
  obtain ⟨b', e1, e2⟩ := putCode_ok h.buf h.kc code
  have hrep : RepInv (if s.lastKey ≠ code then repResetCount s.rep else s.rep) := by
    split
    · exact h.rep.resetCount
    · exact h.rep
  refine ⟨b', ?_, ⟨e2, h.kc, h.mb, h.dev, h.idx, h.maps, h.hooks, h.stableLen, h.cntLen, h.cntRow,
    h.cntVal, hrep, hcode, h.blocked, putL_codes h.codes.1 hcode, h.codes.2⟩⟩
  unfold activateKey
  rw [if_neg (by rw [gt_invalid]; omega), e1, ok_bind]
  by_cases hl : s.lastKey ≠ code
  · rw [if_pos hl, if_pos hl]
  · rw [if_neg hl, if_neg hl]
    have hl' : s.lastKey = code := by simpa using hl
    subst hl'
    rfl

/-- A code (or NOTHING) key is deactivated. -/
theorem deactivateKey_code {cfg : Config} {s : State} {code : Code} (hcode : code.toNat ≤ 0xA0) :
    deactivateKey cfg s code =
      .ok { s with lastKey := if s.lastKey = code then INVALID_CODE else s.lastKey } := by
  unfold deactivateKey
  rw [if_neg (by rw [gt_invalid]; omega)]
  split <;> rfl

/-- Keystrokes after a press of a key mapped to `code`. -/
def keysAfterPress (ks : List Code) (code : Code) : List Code :=
  if code.toNat ≤ 0xA0 then putL 16 ks code else ks

theorem activateKey_ok {cfg : Config} {L : Layout} (hc : CfgFacts cfg L) {s : State}
    {ks ms a free} (h : WF cfg L s ks ms a free) {code : Code}
    (ha : mapselOk cfg L code = true) :
    ∃ s' ms' a' free', activateKey cfg s code = .ok s' ∧
      WF cfg L s' (keysAfterPress ks code) ms' a' free' ∧ Kept s s' ∧ ms <+: ms' := by
  by_cases hcode : code.toNat ≤ 0xA0
  · obtain ⟨b', e1, e2⟩ := activateKey_code h hcode
    refine ⟨_, ms, a, free, e1, ?_, ⟨rfl, rfl, rfl, rfl⟩, List.prefix_rfl⟩
    unfold keysAfterPress; rw [if_pos hcode]; exact e2
  · obtain ⟨s', ms', a', f', e1, e2, e3, _, _, e6⟩ := activateAction_ok hc h (actionOk_of ha)
    refine ⟨s', ms', a', f', ?_, ?_, e3, e6⟩
    · unfold activateKey; rw [if_pos (by rw [gt_invalid]; omega), e1]
    · unfold keysAfterPress; rw [if_neg hcode]; exact e2

theorem WF.withLast {cfg L s ks ms a free} (h : WF cfg L s ks ms a free) {k : Code}
    (hk : k.toNat ≤ 0xA0) : WF cfg L { s with lastKey := k } ks ms a free :=
  ⟨h.buf, h.kc, h.mb, h.dev, h.idx, h.maps, h.hooks, h.stableLen, h.cntLen, h.cntRow, h.cntVal,
    h.rep, hk, h.blocked, h.codes⟩

theorem deactivateKey_ok {cfg : Config} {L : Layout} (hc : CfgFacts cfg L) {s : State}
    {ks ms a free} (h : WF cfg L s ks ms a free) {code : Code}
    (ha : mapselOk cfg L code = true) :
    ∃ s' a' free', deactivateKey cfg s code = .ok s' ∧ WF cfg L s' ks ms a' free' ∧ Kept s s' ∧
      s'.buf = s.buf := by
  by_cases hcode : code.toNat ≤ 0xA0
  · refine ⟨_, a, free, deactivateKey_code hcode, h.withLast ?_, ⟨rfl, rfl, rfl, rfl⟩, rfl⟩
    split
    · decide
    · exact h.last
  · obtain ⟨s', a', f', e1, e2, e3, _, e5⟩ := deactivateAction_ok hc h (actionOk_of ha)
    refine ⟨s', a', f', ?_, e2, e3, e5⟩
    unfold deactivateKey; rw [if_pos (by rw [gt_invalid]; omega), e1]

end Asdf
