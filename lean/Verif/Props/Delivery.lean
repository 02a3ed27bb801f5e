import Verif.Lemmas.Delivery
import Verif.Lemmas.Noise
import Verif.Props.Typed

/-! # Properties C63, C64: how long codes wait; contact noise -/

namespace Asdf.Props

open Spec

/-- Two parts of a run, on the firmware and on the abstract keyboard. -/
theorem two_parts (cfg : Config) (L : Layout) (hc : cfgOk cfg L = true) (inps more : List Input)
    (h1 : ∀ inp ∈ inps, Allowed L inp) (h2 : ∀ inp ∈ more, Allowed L inp) :
    ∃ s s', (boot cfg >>= fun s0 => run cfg s0 inps) = .ok s ∧ run cfg s more = .ok s' ∧
      s.dev.trace = (Kb.after cfg L inps).trace ∧ keystrokes s = (Kb.after cfg L inps).keys ∧
      messages s = (Kb.after cfg L inps).msgs ∧
      s'.dev.trace = (Kb.after cfg L (inps ++ more)).trace ∧
      keystrokes s' = (Kb.after cfg L (inps ++ more)).keys ∧
      messages s' = (Kb.after cfg L (inps ++ more)).msgs := by
  obtain ⟨s, e1, e2, e3, e4, _⟩ := C55_whole_keyboard cfg L hc inps h1
  obtain ⟨s', f1, f2, f3, f4, _⟩ := C55_whole_keyboard cfg L hc (inps ++ more) (by
    intro inp hi
    rcases List.mem_append.mp hi with hi | hi
    · exact h1 inp hi
    · exact h2 inp hi)
  refine ⟨s, s', e1, ?_, e2, e3, e4, f2, f3, f4⟩
  cases hb : boot cfg with
  | error e => rw [hb] at e1; cases e1
  | ok s0 =>
    rw [hb, ok_bind] at e1 f1
    unfold run at e1 f1 ⊢
    rw [List.foldlM_append, e1] at f1
    exact f1

/-! ## C63 -/

/-- **C63 (exactly when).** After any run, as long as no message is printed, every pass
sends the next item that was waiting, messages first, whatever keys are operated
meanwhile. -/
theorem C63_one_per_pass (cfg : Config) (L : Layout) (hc : cfgOk cfg L = true)
    (inps more : List Input) (h1 : ∀ inp ∈ inps, Allowed L inp) (h2 : ∀ inp ∈ more, Allowed L inp)
    (hs : ∀ m ∈ (said cfg L (inps ++ more)).drop inps.length, m = []) :
    ∃ s s', (boot cfg >>= fun s0 => run cfg s0 inps) = .ok s ∧ run cfg s more = .ok s' ∧
      (more.length ≤ (messages s).length + (keystrokes s).length →
        msgSends s'.dev.trace = msgSends s.dev.trace ++ (messages s).take more.length ∧
        keySends s'.dev.trace = keySends s.dev.trace ++
          sendable ((keystrokes s).take (more.length - (messages s).length))) := by
  obtain ⟨s, s', e1, e2, e3, e4, e5, e6, _, _⟩ := two_parts cfg L hc inps more h1 h2
  refine ⟨s, s', e1, e2, fun hn => ?_⟩
  obtain ⟨g1, g2⟩ := after_good cfg L inps
  rw [said_drop] at hs
  rw [e4, e5] at hn
  rw [e3, e4, e5, e6, after_append]
  exact drain_exact cfg L more g1 g2 hs hn

/-- **C63 (delivery).** After any run, after as many further passes as items are
waiting, all of them have been sent, if no message is printed meanwhile: no keystroke
waits longer, whatever keys are operated. -/
theorem C63_delivered (cfg : Config) (L : Layout) (hc : cfgOk cfg L = true)
    (inps more : List Input) (h1 : ∀ inp ∈ inps, Allowed L inp) (h2 : ∀ inp ∈ more, Allowed L inp)
    (hs : ∀ m ∈ (said cfg L (inps ++ more)).drop inps.length, m = []) :
    ∃ s s', (boot cfg >>= fun s0 => run cfg s0 inps) = .ok s ∧ run cfg s more = .ok s' ∧
      (messages s).length ≤ 128 ∧ (keystrokes s).length ≤ 16 ∧
      ((messages s).length + (keystrokes s).length ≤ more.length →
        (msgSends s.dev.trace ++ messages s) <+: msgSends s'.dev.trace ∧
        (keySends s.dev.trace ++ sendable (keystrokes s)) <+: keySends s'.dev.trace) := by
  obtain ⟨s, s', e1, e2, e3, e4, e5, e6, _, _⟩ := two_parts cfg L hc inps more h1 h2
  obtain ⟨g1, g2⟩ := after_good cfg L inps
  refine ⟨s, s', e1, e2, by rw [e5]; exact g2.2, by rw [e4]; exact g2.1, fun hn => ?_⟩
  rw [said_drop] at hs
  rw [e4, e5] at hn
  rw [e3, e4, e5, e6, after_append]
  generalize hA : Kb.after cfg L inps = k at *
  obtain ⟨a, b, rfl, hl⟩ : ∃ a b, more = a ++ b ∧ a.length = k.msgs.length + k.keys.length :=
    ⟨more.take (k.msgs.length + k.keys.length), more.drop (k.msgs.length + k.keys.length),
      (List.take_append_drop _ _).symm, by rw [List.length_take]; omega⟩
  rw [log_append] at hs
  obtain ⟨d1, d2⟩ := drain_exact cfg L a g1 g2 (fun m hm => hs m (List.mem_append_left _ hm))
    (by omega)
  have hg := after_good cfg L (inps ++ a)
  rw [after_append, hA] at hg
  obtain ⟨m1, m2⟩ := sends_grow cfg L b hg.1 hg.2
  rw [d1, List.take_of_length_le (by omega)] at m1
  rw [d2, List.take_of_length_le (by omega)] at m2
  rw [List.foldl_append]
  exact ⟨m1, m2⟩

/-- **C63 (messages).** Message characters wait for nothing but earlier ones: after as
many passes as are waiting they are sent, whatever is typed or printed meanwhile. -/
theorem C63_messages_delivered (cfg : Config) (L : Layout) (hc : cfgOk cfg L = true)
    (inps more : List Input) (h1 : ∀ inp ∈ inps, Allowed L inp)
    (h2 : ∀ inp ∈ more, Allowed L inp) :
    ∃ s s', (boot cfg >>= fun s0 => run cfg s0 inps) = .ok s ∧ run cfg s more = .ok s' ∧
      ((messages s).length ≤ more.length →
        (msgSends s.dev.trace ++ messages s) <+: msgSends s'.dev.trace) := by
  obtain ⟨s, s', e1, e2, e3, e4, e5, e6, _, _⟩ := two_parts cfg L hc inps more h1 h2
  refine ⟨s, s', e1, e2, fun hn => ?_⟩
  obtain ⟨g1, g2⟩ := after_good cfg L inps
  rw [e5] at hn
  rw [e3, e5, e6, after_append]
  generalize hA : Kb.after cfg L inps = k at *
  obtain ⟨a, b, rfl, hl⟩ : ∃ a b, more = a ++ b ∧ a.length = k.msgs.length :=
    ⟨more.take k.msgs.length, more.drop k.msgs.length,
      (List.take_append_drop _ _).symm, by rw [List.length_take]; omega⟩
  have d1 := drain_msgs cfg L a g1 g2 (List.append_nil _).symm hl
  have hg := after_good cfg L (inps ++ a)
  rw [after_append, hA] at hg
  obtain ⟨m1, _⟩ := sends_grow cfg L b hg.1 hg.2
  rw [d1] at m1
  rw [List.foldl_append]
  exact m1

/-- **C63 (all of it).** If there was always room (see C58) and then nothing is typed or
printed for 144 passes, the host has received exactly the codes typed, and nothing is
waiting any more. -/
theorem C63_everything_typed_arrives (cfg : Config) (L : Layout) (hc : cfgOk cfg L = true)
    (inps more : List Input) (h1 : ∀ inp ∈ inps, Allowed L inp) (h2 : ∀ inp ∈ more, Allowed L inp)
    (hroom : ∀ before inp rest, inps = before ++ inp :: rest →
      (Kb.after cfg L before).output.keys.length +
        ((Kb.after cfg L before).logPass cfg L Kb.typedBy inp).length ≤ 16)
    (hs : ∀ m ∈ (said cfg L (inps ++ more)).drop inps.length, m = [])
    (ht : ∀ t ∈ (typed cfg L (inps ++ more)).drop inps.length, t = [])
    (hlen : 144 ≤ more.length) :
    ∃ s s', (boot cfg >>= fun s0 => run cfg s0 inps) = .ok s ∧ run cfg s more = .ok s' ∧
      keySends s'.dev.trace = sendable (typed cfg L inps).flatten ∧
      keystrokes s' = [] ∧ messages s' = [] := by
  obtain ⟨s, s', e1, e2, e3, e4, e5, e6, e7, e8⟩ := two_parts cfg L hc inps more h1 h2
  refine ⟨s, s', e1, e2, ?_⟩
  obtain ⟨g1, g2⟩ := after_good cfg L inps
  have hk := g2.1
  have hm := g2.2
  rw [said_drop] at hs
  rw [typed_drop] at ht
  have hflow := after_keys_exact cfg L inps hroom
  obtain ⟨q1, q2⟩ := drain_quiet cfg L more g1 g2 hs ht
  obtain ⟨t, t', f1, f2, _, _, f3⟩ := C63_delivered cfg L hc inps more h1 h2 (by rw [said_drop]; exact hs)
  rw [e1] at f1
  cases f1
  rw [e2] at f2
  cases f2
  rw [e4, e5, e3] at f3
  obtain ⟨_, f3⟩ := f3 (by omega)
  have k1 : keystrokes s' = [] := by
    rw [e7, after_append, q1, List.drop_of_length_le (by omega)]
  refine ⟨?_, k1, by rw [e8, after_append, q2, List.drop_of_length_le (by omega)]⟩
  have f3 : keyFlow (Kb.after cfg L inps) <+: keySends s'.dev.trace := f3
  rw [hflow] at f3
  have hsub := (after_sublist cfg L (inps ++ more)).1
  unfold keyFlow at hsub
  rw [← e6, ← e7, k1, typed_append, List.flatten_append] at hsub
  have hnil : ((Kb.after cfg L inps).log cfg L Kb.typedBy more).flatten = [] := by
    apply List.eq_nil_iff_forall_not_mem.mpr
    intro x hx
    obtain ⟨l, hl, hx⟩ := List.mem_flatten.mp hx
    rw [ht l hl] at hx
    cases hx
  rw [hnil, List.append_nil] at hsub
  have hsub : (keySends s'.dev.trace ++ []).Sublist (sendable (typed cfg L inps).flatten) := hsub
  rw [List.append_nil] at hsub
  exact (f3.eq_of_length (Nat.le_antisymm f3.length_le hsub.length_le)).symm

/-- Typing the letter A, then waiting 144 passes, meets the hypotheses of all of these:
one code is waiting after the first part, nothing is typed or printed in the second, and
there always was room. -/
example : cfgOk shipped shippedLayout = true ∧
    (∀ inp ∈ typedA, Allowed shippedLayout inp) ∧
    (∀ inp ∈ List.replicate 144 noKeys, Allowed shippedLayout inp) ∧
    keystrokes (after typedA) = [0x61] ∧
    (∀ m ∈ (said shipped shippedLayout (typedA ++ List.replicate 144 noKeys)).drop typedA.length,
      m = []) ∧
    (∀ t ∈ (typed shipped shippedLayout (typedA ++ List.replicate 144 noKeys)).drop typedA.length,
      t = []) ∧
    (∀ before inp rest, typedA = before ++ inp :: rest →
      (Kb.after shipped shippedLayout before).output.keys.length +
        ((Kb.after shipped shippedLayout before).logPass shipped shippedLayout
          Kb.typedBy inp).length ≤ 16) := by
  have ho : ∀ inp ∈ List.replicate 144 noKeys, ∀ r c, r < shippedLayout.rows →
      c < shippedLayout.cols → sample inp r c = false := by
    intro inp hi r c _ _
    rw [(List.mem_replicate.mp hi).2]
    simp [sample, noKeys, bitOf]
  refine ⟨shipped_ok, ?_, ?_, by decide +kernel, ?_, ?_, ?_⟩
  · intro inp hi
    rw [(List.mem_replicate.mp hi).2]
    exact allowed_of_row8 rfl
  · intro inp hi
    rw [(List.mem_replicate.mp hi).2]
    exact allowed_of_row8 rfl
  · rw [said_drop]; exact (open_log _ _ _ ho _).2
  · rw [typed_drop]; exact (open_log _ _ _ ho _).1
  · intro a x b e
    have hl : a.length < 10 := by
      have := congrArg List.length e
      rw [List.length_append, List.length_cons, show typedA.length = 10 from rfl] at this
      omega
    have ha : a = List.replicate a.length (closing 1 6) := by
      apply List.eq_replicate_of_mem
      intro y hy
      have : y ∈ typedA := by rw [e]; exact List.mem_append_left _ hy
      exact (List.mem_replicate.mp this).2
    have hx : x = closing 1 6 := by
      have : x ∈ typedA := by rw [e]; exact List.mem_append_right _ List.mem_cons_self
      exact (List.mem_replicate.mp this).2
    rw [ha, hx]
    have all : ∀ n, n < 10 → (Kb.after shipped shippedLayout
        (List.replicate n (closing 1 6))).output.keys.length +
        ((Kb.after shipped shippedLayout (List.replicate n (closing 1 6))).logPass shipped
          shippedLayout Kb.typedBy (closing 1 6)).length ≤ 16 := by decide +kernel
    exact all _ hl

/-! ## C64 -/

/-- **C64 (released).** After any run, if no key is sampled closed any more, then at the
latest after 144 passes nothing is waiting and the host never receives anything again. -/
theorem C64_released_falls_silent (cfg : Config) (L : Layout) (hc : cfgOk cfg L = true)
    (inps more rest : List Input) (h1 : ∀ inp ∈ inps, Allowed L inp)
    (hopen : ∀ inp ∈ more ++ rest, ∀ r c, r < L.rows → c < L.cols → sample inp r c = false)
    (hlen : 144 ≤ more.length) :
    ∃ s s', (boot cfg >>= fun s0 => run cfg s0 (inps ++ more)) = .ok s ∧ run cfg s rest = .ok s' ∧
      keystrokes s = [] ∧ messages s = [] ∧ keystrokes s' = [] ∧ messages s' = [] ∧
      keySends s'.dev.trace = keySends s.dev.trace ∧
      msgSends s'.dev.trace = msgSends s.dev.trace := by
  have ha : ∀ inp ∈ more ++ rest, Allowed L inp := fun inp hi r c hr hcl _ => hopen inp hi r c hr hcl
  obtain ⟨s, s', e1, e2, e3, e4, e5, f3, f4, f5⟩ := two_parts cfg L hc (inps ++ more) rest (by
    intro inp hi
    rcases List.mem_append.mp hi with hi | hi
    · exact h1 inp hi
    · exact ha inp (List.mem_append_left _ hi)) (fun inp hi => ha inp (List.mem_append_right _ hi))
  obtain ⟨g1, g2⟩ := after_good cfg L inps
  have hk := g2.1
  have hm := g2.2
  have ol := open_log cfg L more (fun inp hi => hopen inp (List.mem_append_left _ hi))
    (Kb.after cfg L inps)
  obtain ⟨q1, q2⟩ := drain_quiet cfg L more g1 g2 ol.2 ol.1
  rw [← after_append, List.drop_of_length_le (by omega)] at q1 q2
  have ol' := open_log cfg L rest (fun inp hi => hopen inp (List.mem_append_right _ hi))
    (Kb.after cfg L (inps ++ more))
  obtain ⟨g3, g4⟩ := after_good cfg L (inps ++ more)
  obtain ⟨r1, r2⟩ := drain_quiet cfg L rest g3 g4 ol'.2 ol'.1
  rw [← after_append, q1, List.drop_nil] at r1
  rw [← after_append, q2, List.drop_nil] at r2
  have stop : ∀ (l : List Input) (k : Kb), EndsWell k.trace → QueueFits k → k.keys = [] →
      k.msgs = [] → (∀ t ∈ k.log cfg L Kb.typedBy l, t = []) →
      (∀ t ∈ k.log cfg L Kb.saidBy l, t = []) →
      keySends (l.foldl (Kb.pass cfg L) k).trace = keySends k.trace ∧
      msgSends (l.foldl (Kb.pass cfg L) k).trace = msgSends k.trace := by
    intro l
    induction l with
    | nil => exact fun _ _ _ _ _ _ _ => ⟨rfl, rfl⟩
    | cons x l ih =>
      intro k he hf hk hm ht hs
      obtain ⟨p1, p2, p3, p4, p5, p6⟩ := pass_flow cfg L he hf x
      obtain ⟨o1, o2, o3, o4⟩ := output_key he hm
      rw [ht _ List.mem_cons_self, o1, hk] at p3
      rw [hs _ List.mem_cons_self, o2] at p4
      obtain ⟨i1, i2⟩ := ih (k.pass cfg L x) p2 p1 p3 p4
        (fun t h => ht t (List.mem_cons_of_mem _ h)) (fun t h => hs t (List.mem_cons_of_mem _ h))
      rw [List.foldl_cons, i1, i2, p5, p6, o3, o4, hk]
      exact ⟨List.append_nil _, rfl⟩
  obtain ⟨t1, t2⟩ := stop rest _ g3 g4 q1 q2 ol'.1 ol'.2
  rw [← after_append] at t1 t2
  exact ⟨s, s', e1, e2, e4.trans q1, e5.trans q2, f4.trans r1, f5.trans r2,
    by rw [f3, e3]; exact t1, by rw [f3, e3]; exact t2⟩

/-- **C64 (noise).** Let `noisy` be any set of keys.  Two runs in which the other keys
behave alike and each noisy key is sampled closed in fewer than ten scans are
indistinguishable: the same was done to the hardware, the same is waiting, and the same
keys are accepted.  So contact noise on keys that are up has no effect at all. -/
theorem C64_noise_has_no_effect (cfg : Config) (L : Layout) (hc : cfgOk cfg L = true)
    (noisy : Nat → Nat → Bool) (runs : List (Input × Input))
    (h1 : ∀ x ∈ runs, Allowed L x.1 ∧ Allowed L x.2)
    (hsame : ∀ x ∈ runs, ∀ r c, r < L.rows → c < L.cols → noisy r c = false →
      sample x.1 r c = sample x.2 r c)
    (hfew : ∀ r c, r < L.rows → c < L.cols → noisy r c = true →
      (samplesOf (runs.map (·.1)) r c).count true < 10 ∧
      (samplesOf (runs.map (·.2)) r c).count true < 10) :
    ∃ s s', (boot cfg >>= fun s0 => run cfg s0 (runs.map (·.1))) = .ok s ∧
      (boot cfg >>= fun s0 => run cfg s0 (runs.map (·.2))) = .ok s' ∧
      s'.dev.trace = s.dev.trace ∧ keystrokes s' = keystrokes s ∧ messages s' = messages s ∧
      s'.curIdx = s.curIdx ∧
      ∀ r c, r < L.rows → c < L.cols → accepted s' r c = accepted s r c ∧
        lookupKeycode s' r c = lookupKeycode s r c := by
  obtain ⟨s, e1, e2, e3, e4, e5, e6⟩ := C55_whole_keyboard cfg L hc (runs.map (·.1)) (by
    intro inp hi
    obtain ⟨x, hx, rfl⟩ := List.mem_map.mp hi
    exact (h1 x hx).1)
  obtain ⟨s', f1, f2, f3, f4, f5, f6⟩ := C55_whole_keyboard cfg L hc (runs.map (·.2)) (by
    intro inp hi
    obtain ⟨x, hx, rfl⟩ := List.mem_map.mp hi
    exact (h1 x hx).2)
  obtain ⟨a1, a2⟩ := Alike.after cfg L (S := noisy) runs hsame hfew
  refine ⟨s, s', e1, f1, ?_, ?_, ?_, ?_, ?_⟩
  · rw [f2, e2, a1]; rfl
  · rw [f3, e3, a1]; rfl
  · rw [f4, e4, a1]; rfl
  · rw [f5, e5, a1]; rfl
  · intro r c hr hcl
    obtain ⟨x1, x2⟩ := e6 r c hr hcl
    obtain ⟨y1, y2⟩ := f6 r c hr hcl
    refine ⟨?_, ?_⟩
    · rw [x1, y1]
      cases hn : noisy r c with
      | false => rw [a2 r c hn]
      | true =>
        obtain ⟨z1, z2⟩ := hfew r c hr hcl hn
        rw [after_deb cfg L _ hr hcl, after_deb cfg L _ hr hcl, deb_few _ z1, deb_few _ z2]
    · rw [x2, y2, a1]; rfl

/-- **C64 (silence).** As long as every key was sampled closed in fewer than ten scans
since power-up, for any number of scans, nothing at all was done to the hardware after
the initialisation, and nothing is waiting. -/
theorem C64_untouched_is_silent (cfg : Config) (L : Layout) (hc : cfgOk cfg L = true)
    (inps : List Input) (h1 : ∀ inp ∈ inps, Allowed L inp)
    (hfew : ∀ r c, r < L.rows → c < L.cols → (samplesOf inps r c).count true < 10) :
    ∃ s0 s, boot cfg = .ok s0 ∧ run cfg s0 inps = .ok s ∧
      s.dev.trace = s0.dev.trace ∧ sends s.dev.trace = [] ∧ keystrokes s = [] ∧ messages s = [] := by
  obtain ⟨s0, s, e1, e2, e3, e4, e5, f3, f4, f5⟩ :=
    two_parts cfg L hc [] inps (fun _ h => by cases h) h1
  have hb : boot cfg = .ok s0 := by
    cases hb : boot cfg with
    | error e => rw [hb] at e1; cases e1
    | ok t => rw [hb] at e1; exact e1
  obtain ⟨d, hd⟩ := after_idle cfg L inps hfew
  obtain ⟨_, _, g1, g2, _⟩ := start_flow cfg
  rw [List.nil_append, hd] at f3 f4 f5
  have ht : s.dev.trace = s0.dev.trace := by rw [f3, e3]; rfl
  refine ⟨s0, s, hb, e2, ht, ?_, f4.trans g1, f5.trans g2⟩
  rw [ht, e3]
  have hq := typing_install cfg (k := blankKb) ⟨Nat.zero_le _, Nat.zero_le _⟩ 0
  obtain ⟨es, q, e⟩ := hq.trace
  have e : (Kb.start cfg).trace = [] ++ es := e
  show sends (Kb.start cfg).trace = []
  rw [e, List.nil_append]
  unfold sends
  rw [List.filterMap_eq_nil_iff]
  intro x hx
  have := (q x hx).1
  cases x <;> first | rfl | exact absurd rfl (this _)

/-- Nine scans of noise on one key while A is typed: the hypotheses of C64 hold, and A is
typed all the same. -/
def noisyA : List (Input × Input) :=
  List.replicate 9 (fun i => if i = 1 then 0x40 else if i = 3 then 0x10 else 0, closing 1 6) ++
    [(closing 1 6, closing 1 6)]

example : (∀ x ∈ noisyA, Allowed shippedLayout x.1 ∧ Allowed shippedLayout x.2) ∧
    (∀ x ∈ noisyA, ∀ r, r < shippedLayout.rows → ∀ c, c < shippedLayout.cols →
      (fun r c => r == 3 && c == 4) r c = false → sample x.1 r c = sample x.2 r c) ∧
    (∀ r, r < shippedLayout.rows → ∀ c, c < shippedLayout.cols →
      (fun r c => r == 3 && c == 4) r c = true →
      (samplesOf (noisyA.map (·.1)) r c).count true < 10 ∧
      (samplesOf (noisyA.map (·.2)) r c).count true < 10) ∧
    (samplesOf (noisyA.map (·.1)) 3 4).count true = 9 ∧
    keystrokes (after (noisyA.map (·.1))) = [0x61] := by
  refine ⟨?_, by decide +kernel, by decide +kernel, by decide +kernel, by decide +kernel⟩
  intro x hx
  rcases List.mem_append.mp hx with hx | hx
  · rw [(List.mem_replicate.mp hx).2]
    exact ⟨allowed_of_row8 rfl, allowed_of_row8 rfl⟩
  · rw [List.mem_singleton.mp hx]
    exact ⟨allowed_of_row8 rfl, allowed_of_row8 rfl⟩

/-- Nine scans of noise on one key meet the hypotheses of `C64_untouched_is_silent`. -/
example : (∀ r, r < shippedLayout.rows → ∀ c, c < shippedLayout.cols →
    (samplesOf (List.replicate 9 (closing 3 4)) r c).count true < 10) := by decide +kernel

end Asdf.Props
