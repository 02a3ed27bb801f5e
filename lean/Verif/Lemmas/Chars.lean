import Verif.Lemmas.Kb
import Verif.Spec.Chars

/-! # Lemmas for C66 and C67: where the characters come from -/

namespace Asdf

open Spec

/-! ## What the host receives -/

theorem heard_append (t u : List Event) (h : EndsWell t) : heard (t ++ u) = heard t ++ heard u := by
  induction t using heard.induct with
  | case1 => rfl
  | case2 m c es ih =>
    rw [List.cons_append, List.cons_append, heard, heard, ih h.tail'.tail', List.cons_append]
  | case3 c es ih =>
    rw [List.cons_append, heard, heard, ih h.tail', List.cons_append]
  | case4 e es h1 h2 ih =>
    rw [heard, List.cons_append, heard, ih h.tail']
    · intro m c es' he hs
      cases es with
      | nil => exact absurd (by rw [he]; rfl) (h m)
      | cons e' es =>
        rw [List.cons_append] at hs
        injection hs with g1 g2
        exact h1 m c es he (by rw [g1])
    · exact h2
    · exact h1
    · exact h2

theorem heard_quiet {es : List Event} (h : Quiet es) : heard es = [] := by
  induction es with
  | nil => rfl
  | cons e es ih =>
    have := h e List.mem_cons_self
    rw [heard, ih h.tail]
    · intro m c es' he _
      exact this.2 m he
    · intro c he
      exact this.1 c he

theorem mem_heard {t : List Event} {c : Code} (h : c ∈ sends t) :
    (true, c) ∈ heard t ∨ (false, c) ∈ heard t := by
  induction t using heard.induct with
  | case1 => cases h
  | case2 m x es ih =>
    rw [heard]
    rcases List.mem_cons.mp (show c ∈ x :: sends es from h) with h | h
    · rw [h]; exact .inl List.mem_cons_self
    · exact (ih h).imp (List.mem_cons_of_mem _) (List.mem_cons_of_mem _)
  | case3 x es ih =>
    rw [heard]
    rcases List.mem_cons.mp (show c ∈ x :: sends es from h) with h | h
    · rw [h]; exact .inr List.mem_cons_self
    · exact (ih h).imp (List.mem_cons_of_mem _) (List.mem_cons_of_mem _)
  | case4 e es h1 h2 ih =>
    rw [show heard (e :: es) = heard es by rw [heard]; exact h1; exact h2]
    refine ih ?_
    cases e with
    | send x => exact absurd rfl (h2 x)
    | _ => exact h

/-! ## Line ends -/

theorem Spec.CrBeforeLf.append {a b : List (Bool × Code)} (ha : CrBeforeLf a) (hb : CrBeforeLf b) :
    CrBeforeLf (a ++ b) := by
  intro i hi
  by_cases h : i < a.length
  · rw [List.getElem?_append_left h] at hi
    obtain ⟨j, e, hj⟩ := ha i hi
    exact ⟨j, e, by rw [List.getElem?_append_left (by omega)]; exact hj⟩
  · rw [List.getElem?_append_right (by omega)] at hi
    obtain ⟨j, e, hj⟩ := hb _ hi
    refine ⟨i - 1, by omega, ?_⟩
    rw [List.getElem?_append_right (by omega), show i - 1 - a.length = j by omega]
    exact hj

theorem Spec.CrBeforeLf.take {a : List (Bool × Code)} (ha : CrBeforeLf a) (n : Nat) :
    CrBeforeLf (a.take n) := by
  intro i hi
  have hlt : i < (a.take n).length := (List.getElem?_eq_some_iff.mp hi).1
  rw [List.length_take] at hlt
  rw [List.getElem?_take_of_lt (by omega)] at hi
  obtain ⟨j, e, hj⟩ := ha i hi
  exact ⟨j, e, by rw [List.getElem?_take_of_lt (by omega)]; exact hj⟩

theorem Spec.CrBeforeLf.nil : CrBeforeLf [] := fun i h => by cases h

theorem Spec.CrBeforeLf.key (c : Code) : CrBeforeLf [(false, c)] := by
  intro i h
  cases i with
  | zero => cases h
  | succ i => cases h

theorem Spec.CrBeforeLf.text (text : List Code) : CrBeforeLf ((withCR text).map (true, ·)) := by
  induction text with
  | nil => exact .nil
  | cons c cs ih =>
    have e : withCR (c :: cs) = (if c = 0x0A then [0x0D, 0x0A] else [c]) ++ withCR cs := rfl
    rw [e, List.map_append]
    refine CrBeforeLf.append ?_ ih
    by_cases h : c = 0x0A
    · rw [if_pos h]
      intro i hi
      match i, hi with
      | 0, hi => exact absurd hi (by decide)
      | 1, _ => exact ⟨0, rfl, rfl⟩
      | i + 2, hi => cases hi
    · rw [if_neg h]
      intro i hi
      match i, hi with
      | 0, hi =>
        exact absurd (congrArg Prod.snd (Option.some.inj hi)) h
      | i + 1, hi => cases hi

/-! ## The repeating code -/

theorem select_last (cfg : Config) (k : Kb) (i : UInt8) : (k.select cfg i).last = k.last := by
  unfold Kb.select
  split
  · exact (setup_rest (cfg.setup i) _).last
  · rfl

theorem function_last (cfg : Config) (k : Kb) (n : Nat) : (k.function cfg n).last = k.last := by
  unfold Kb.function
  split <;> rfl

theorem press_last (cfg : Config) (k : Kb) (code : Code) :
    (k.press cfg code).last = k.last ∨ (code.toNat ≤ 0xA0 ∧ (k.press cfg code).last = code) := by
  by_cases hc : code.toNat ≤ 0xA0
  · refine .inr ⟨hc, ?_⟩
    rw [press_code cfg k code hc]
    rfl
  · refine .inl ?_
    unfold Kb.press
    split
    all_goals first
      | exact select_last cfg k _
      | exact function_last cfg k _
      | rfl
      | skip
    rw [if_neg hc]

theorem release_last (cfg : Config) (k : Kb) (code : Code) :
    (k.release cfg code).last = k.last ∨ (k.release cfg code).last = 0xA0 := by
  unfold Kb.release
  split
  all_goals first
    | exact .inl (select_last cfg k _)
    | exact .inl rfl
    | skip
  split
  · show (if k.last = code then _ else _) = _ ∨ (if k.last = code then _ else _) = _
    split
    · exact .inr rfl
    · exact .inl rfl
  · exact .inl rfl

theorem key_last (cfg : Config) (L : Layout) (k : Kb) (p : Bool) (r c : Nat) :
    (k.key cfg L p r c).last = k.last ∨ (k.key cfg L p r c).last = 0xA0 ∨
      ((k.code cfg L r c).toNat ≤ 0xA0 ∧ (k.key cfg L p r c).last = k.code cfg L r c) := by
  unfold Kb.key
  split
  · split
    · split
      · rcases press_last cfg _ (k.code cfg L r c) with h | h
        · exact .inl h
        · exact .inr (.inr h)
      · rcases release_last cfg _ (k.code cfg L r c) with h | h
        · exact .inl h
        · exact .inr (.inl h)
    · exact .inl rfl
  · split
    · split
      · exact .inl rfl
      · exact .inl rfl
    · exact .inl rfl

/-! ## The invariant -/

/-- Everything sent or waiting comes from the keymaps. -/
structure Genuine (cfg : Config) (L : Layout) (k : Kb) : Prop where
  ends : EndsWell k.trace
  fits : QueueFits k
  sent : ∀ x ∈ heard k.trace, if x.1 = true then InMessage cfg L x.2 else OnKeyboard cfg L x.2
  msgs : ∀ x ∈ k.msgs, InMessage cfg L x
  keys : ∀ x ∈ k.keys, x = 0xA0 ∨ OnKeyboard cfg L x
  last : k.last = 0xA0 ∨ OnKeyboard cfg L k.last
  lf : CrBeforeLf (heard k.trace ++ k.msgs.map (true, ·))

theorem code_on {cfg : Config} {L : Layout} {k : Kb} (hm : k.map ∈ L.maps) {r c : Nat}
    (hr : r < L.rows) (hc : c < L.cols) (h : (k.code cfg L r c).toNat ≤ 0xA0) :
    k.code cfg L r c = 0xA0 ∨ OnKeyboard cfg L (k.code cfg L r c) := by
  by_cases he : k.code cfg L r c = 0xA0
  · exact .inl he
  · refine .inr ⟨?_, k.map, hm, r, c, _, _, _, hr, hc, rfl⟩
    have : (k.code cfg L r c).toNat ≠ 0xA0 := fun h => he (UInt8.toNat_inj.mp h)
    omega

theorem text_from {cfg : Config} {L : Layout} {k : Kb} (hm : k.map ∈ L.maps) (n : Nat) :
    (∀ x ∈ k.text cfg n, InMessage cfg L x) ∧ CrBeforeLf ((k.text cfg n).map (true, ·)) := by
  unfold Kb.text
  cases hh : (hooksOf (cfg.setup k.map))[4 + n]? with
  | none => exact ⟨fun x h => (by cases h), .nil⟩
  | some f =>
    cases f with
    | print text => exact ⟨fun x h => ⟨k.map, hm, text, List.mem_of_getElem? hh, h⟩, .text text⟩
    | _ => exact ⟨fun x h => (by cases h), .nil⟩

theorem said_from {cfg : Config} {L : Layout} {k : Kb} (hm : k.map ∈ L.maps) (p : Bool) (r c : Nat) :
    (∀ x ∈ k.saidBy cfg L p r c, InMessage cfg L x) ∧
      CrBeforeLf ((k.saidBy cfg L p r c).map (true, ·)) := by
  unfold Kb.saidBy
  split
  · dsimp only
    split
    · exact text_from hm 1
    · split
      · exact text_from hm _
      · exact ⟨fun x h => (by cases h), .nil⟩
  · exact ⟨fun x h => (by cases h), .nil⟩

theorem Genuine.start (cfg : Config) (L : Layout) : Genuine cfg L (Kb.start cfg) := by
  have h := typing_install cfg (k := blankKb) ⟨Nat.zero_le _, Nat.zero_le _⟩ 0
  obtain ⟨es, q, e⟩ := h.trace
  have e : (Kb.start cfg).trace = [] ++ es := e
  obtain ⟨h1, h2, h3, h4, _, _⟩ := start_flow cfg
  rw [List.nil_append] at e
  have hh : heard (Kb.start cfg).trace = [] := by rw [e]; exact heard_quiet q
  refine ⟨h1, h2, ?_, ?_, ?_, ?_, ?_⟩
  · rw [hh]; intro x hx; cases hx
  · rw [h4]; intro x hx; cases hx
  · rw [h3]; intro x hx; cases hx
  · exact .inl (setup_rest (cfg.setup 0) (Kb.emit blankKb [.archInit])).last
  · rw [hh, h4]; exact .nil

theorem Genuine.output {cfg : Config} {L : Layout} {k : Kb} (h : Genuine cfg L k) :
    Genuine cfg L k.output := by
  obtain ⟨_, _, he, hf⟩ := output_flow h.ends h.fits
  have hl : k.output.last = k.last := by
    unfold Kb.output
    split
    · rfl
    · split <;> rfl
  cases hm : k.msgs with
  | cons m ms =>
    have ho : k.output = Kb.emit { k with msgs := ms } [.delayMs k.pause, .send m] := by
      unfold Kb.output; simp only [hm]
    have hh : heard k.output.trace = heard k.trace ++ [(true, m)] := by
      rw [ho]
      show heard (k.trace ++ _) = _
      rw [heard_append _ _ h.ends]
      rfl
    have h1 : k.output.msgs = ms := by rw [ho]; rfl
    have h2 : k.output.keys = k.keys := by rw [ho]; rfl
    refine ⟨he, hf, ?_, ?_, ?_, by rw [hl]; exact h.last, ?_⟩
    · rw [hh]
      intro x hx
      rcases List.mem_append.mp hx with hx | hx
      · exact h.sent x hx
      · rw [List.mem_singleton.mp hx]
        exact h.msgs m (by rw [hm]; exact List.mem_cons_self)
    · rw [h1]
      intro x hx
      exact h.msgs x (by rw [hm]; exact List.mem_cons_of_mem _ hx)
    · rw [h2]; exact h.keys
    · have := h.lf
      rw [hm] at this
      rw [hh, h1, List.append_assoc]
      exact this
  | nil =>
    cases hk : k.keys with
    | cons c cs =>
      have ho : k.output = Kb.emit { k with keys := cs }
          (if c.toNat < 0xA0 then [.send c] else []) := by
        unfold Kb.output; simp only [hm, hk]
      have hh : heard k.output.trace = heard k.trace ++ (if c.toNat < 0xA0 then [(false, c)] else []) := by
        rw [ho]
        show heard (k.trace ++ _) = _
        rw [heard_append _ _ h.ends]
        split <;> rfl
      have h1 : k.output.msgs = k.msgs := by rw [ho]; rfl
      have h2 : k.output.keys = cs := by rw [ho]; rfl
      have hlf := h.lf
      rw [hm] at hlf
      refine ⟨he, hf, ?_, by rw [h1]; exact h.msgs, ?_, by rw [hl]; exact h.last, ?_⟩
      · rw [hh]
        intro x hx
        rcases List.mem_append.mp hx with hx | hx
        · exact h.sent x hx
        · by_cases hc : c.toNat < 0xA0
          · rw [if_pos hc] at hx
            rw [List.mem_singleton.mp hx]
            rcases h.keys c (by rw [hk]; exact List.mem_cons_self) with g | g
            · rw [g] at hc; exact absurd hc (by decide)
            · exact g
          · rw [if_neg hc] at hx; cases hx
      · rw [h2]
        intro x hx
        exact h.keys x (by rw [hk]; exact List.mem_cons_of_mem _ hx)
      · rw [hh, h1, hm]
        refine CrBeforeLf.append (CrBeforeLf.append ?_ ?_) .nil
        · rw [← List.append_nil (heard k.trace)]; exact hlf
        · split
          · exact .key c
          · exact .nil
    | nil =>
      have ho : k.output = k := by
        unfold Kb.output; simp only [hm, hk]
      rw [ho]; exact h

theorem Genuine.key {cfg : Config} {L : Layout} {k : Kb} (h : Genuine cfg L k) (hm : k.map ∈ L.maps)
    (p : Bool) {r c : Nat} (hr : r < L.rows) (hc : c < L.cols) :
    Genuine cfg L (k.key cfg L p r c) := by
  have ht := typing_key cfg L h.fits p r c
  obtain ⟨es, q, e⟩ := ht.trace
  have hh : heard (k.key cfg L p r c).trace = heard k.trace := by
    rw [e, heard_append _ _ h.ends, heard_quiet q, List.append_nil]
  obtain ⟨s1, s2⟩ := said_from (cfg := cfg) (L := L) hm p r c
  have htyped : ∀ x ∈ k.typedBy cfg L p r c, x = 0xA0 ∨ OnKeyboard cfg L x := by
    intro x hx
    unfold Kb.typedBy at hx
    split at hx
    · split at hx
      · rename_i hcond
        rw [List.mem_singleton.mp hx]
        exact code_on hm hr hc hcond.2.2
      · cases hx
    · split at hx
      · rw [List.mem_singleton.mp hx]; exact h.last
      · cases hx
  refine ⟨by rw [e]; exact h.ends.append q.endsWell, ht.fits, by rw [hh]; exact h.sent, ?_, ?_, ?_, ?_⟩
  · rw [ht.msgs]
    intro x hx
    rcases List.mem_append.mp (List.mem_of_mem_take hx) with hx | hx
    · exact h.msgs x hx
    · exact s1 x hx
  · rw [ht.keys]
    intro x hx
    rcases List.mem_append.mp (List.mem_of_mem_take hx) with hx | hx
    · exact h.keys x hx
    · exact htyped x hx
  · rcases key_last cfg L k p r c with g | g | ⟨g1, g⟩
    · rw [g]; exact h.last
    · exact .inl g
    · rw [g]; exact code_on hm hr hc g1
  · rw [hh, ht.msgs, List.map_take, List.map_append, List.take_append,
      List.take_of_length_le (by rw [List.length_map]; exact h.fits.2), ← List.append_assoc]
    exact h.lf.append (s2.take _)

theorem after_genuine {cfg : Config} {L : Layout} (hcf : CfgFacts cfg L) (inps : List Input)
    (hin : ∀ inp ∈ inps, Allowed L inp) : Genuine cfg L (Kb.after cfg L inps) :=
  after_induction hcf (Q := fun _ _ _ => True) (Genuine.start cfg L) (fun _ h => h.output)
    (fun _ p _ _ hm _ hr hc _ h => h.key hm p hr hc) inps hin (fun _ _ _ _ _ _ => trivial)

end Asdf
