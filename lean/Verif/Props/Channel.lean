import Verif.Lemmas.Channel
import Verif.Props.Typed
import Verif.Props.Safety

/-! # Property C77: exactly what is lost on the way to the host

C58 is false of the firmware because its queues are bounded.  Here is the exact rule:
what the host receives, what is waiting and what is lost is the function `channel`
(`Spec/Channel.lean`) of what was typed and printed in each pass. -/

namespace Asdf.Props

open Spec

/-- **C77.** After every run, what the host has received, in order, and what is waiting
is what two queues of 16 and 128 places with one output per pass make of what was
typed and printed. -/
theorem C77_exact (cfg : Config) (L : Layout) (hc : cfgOk cfg L = true)
    (inps : List Input) (hin : ∀ inp ∈ inps, Allowed L inp) :
    ∃ s, powerUp cfg inps = .ok s ∧
      hostSees s.dev.trace = (channel (typed cfg L inps) (said cfg L inps)).host ∧
      keystrokes s = (channel (typed cfg L inps) (said cfg L inps)).keys ∧
      messages s = (channel (typed cfg L inps) (said cfg L inps)).msgs := by
  obtain ⟨s, e1, e2, e3, e4, _⟩ := C55_whole_keyboard cfg L hc inps hin
  have h := after_onLine cfg L inps
  exact ⟨s, e1, by rw [e2]; exact h.host, by rw [e3]; exact h.keys, by rw [e4]; exact h.msgs⟩

/-- **C77, the shipped firmware.** The same for every safe run of the shipped firmware
(see C72), whatever switches are operated. -/
theorem C77_shipped (inps : List Input) (h : NeverTrips inps) :
    ∃ s, powerUp shipped inps = .ok s ∧
      hostSees s.dev.trace =
        (channel (typed fourMaps openLayout inps) (said fourMaps openLayout inps)).host ∧
      keystrokes s =
        (channel (typed fourMaps openLayout inps) (said fourMaps openLayout inps)).keys ∧
      messages s =
        (channel (typed fourMaps openLayout inps) (said fourMaps openLayout inps)).msgs := by
  obtain ⟨s, e1, _, e2, e3, e4, _⟩ := C72_safe inps h
  have h := after_onLine fourMaps openLayout inps
  exact ⟨s, e1, by rw [e2]; exact h.host, by rw [e3]; exact h.keys, by rw [e4]; exact h.msgs⟩

/-- **C77, accounting.** Every code typed that can be sent has been received, is waiting
or was lost for want of room, and only once; the same for messages. -/
theorem C77_accounting (cfg : Config) (L : Layout) (hc : cfgOk cfg L = true)
    (inps : List Input) (hin : ∀ inp ∈ inps, Allowed L inp) :
    ∃ s, powerUp cfg inps = .ok s ∧
      (keySends s.dev.trace ++ sendable (keystrokes s) ++
        sendable (channel (typed cfg L inps) (said cfg L inps)).lostKeys).Perm
          (sendable (typed cfg L inps).flatten) ∧
      (msgSends s.dev.trace ++ messages s ++
        (channel (typed cfg L inps) (said cfg L inps)).lostMsgs).Perm
          (said cfg L inps).flatten := by
  obtain ⟨s, e1, e2, e3, e4⟩ := C77_exact cfg L hc inps hin
  obtain ⟨h1, h2⟩ := hostSees_split s.dev.trace
  have hl := typed_length cfg L inps
  have hp := channel_perm _ _ (hl.1.trans hl.2.symm)
  refine ⟨s, e1, ?_, ?_⟩
  · rw [h1, e2, e3]; exact hp.1
  · rw [h2, e2, e4]; exact hp.2

/-- **C77, complete delivery.** The keystrokes sent and waiting are exactly the codes
typed if and only if no code that can be sent was lost for want of room. -/
theorem C77_complete_iff (cfg : Config) (L : Layout) (hc : cfgOk cfg L = true)
    (inps : List Input) (hin : ∀ inp ∈ inps, Allowed L inp) :
    ∃ s, powerUp cfg inps = .ok s ∧
      (keySends s.dev.trace ++ sendable (keystrokes s) = sendable (typed cfg L inps).flatten ↔
        sendable (channel (typed cfg L inps) (said cfg L inps)).lostKeys = []) := by
  obtain ⟨s, e1, h1, _⟩ := C77_accounting cfg L hc inps hin
  obtain ⟨s', e1', h2, _⟩ := C58_subsequence cfg L hc inps hin
  obtain rfl : s = s' := Except.ok.inj (e1.symm.trans e1')
  have hl := h1.length_eq
  rw [List.length_append] at hl
  refine ⟨s, e1, ?_, ?_⟩
  · intro h
    rw [h] at hl
    exact List.eq_nil_of_length_eq_zero (by omega)
  · intro h
    rw [h] at hl
    exact h2.eq_of_length hl

/-- Non-vacuity: a letter is typed and received.  With seventeen keys pressed in the
same pass the seventeenth code is lost.  Below, a message character goes before the
keystrokes. -/
example : cfgOk shipped shippedLayout = true ∧ (∀ inp ∈ typedA, Allowed shippedLayout inp) ∧
    NeverTrips typedA := by
  refine ⟨shipped_ok, ?_, ?_⟩
  · intro inp hi
    rw [(List.mem_replicate.mp hi).2]
    exact allowed_of_row8 rfl
  · exact neverTrips_of (by decide +kernel)

example : (channel (typed shipped shippedLayout (List.replicate 10 seventeenKeys))
      (said shipped shippedLayout (List.replicate 10 seventeenKeys))).lostKeys.length = 1 ∧
    channel [[1, 2], [3], []] [[9], [], []] =
      { keys := [2, 3], msgs := [], host := [(true, 9), (false, 1)], lostKeys := [], lostMsgs := [] } := by
  decide +kernel

/-- CTRL is held, function key 9 is pressed twice and function key 10 once. -/
def cutLine : List Input :=
  let keys (b : UInt8) : Input := fun i => if i = 0 then 0x40 else if i = 6 then b else 0
  List.replicate 10 (keys 0x40) ++ List.replicate 10 (keys 0) ++
    List.replicate 10 (keys 0x40) ++ List.replicate 8 (keys 0) ++ List.replicate 10 (keys 0x20)

theorem cutLine_said : said shipped shippedLayout cutLine =
    List.replicate 9 [] ++ [withCR applesoftKeyboardTestText] ++
      List.replicate 19 [] ++ [withCR applesoftKeyboardTestText] ++
      List.replicate 17 [] ++ [withCR classicIdMessageText] := by decide +kernel

theorem channel_msgs (ts ms : List (List Code)) (h : ts.length = ms.length) (q : Line) :
    ((ts.zip ms).foldl (fun q x => q.send.add x.1 x.2) q).msgs =
      ms.foldl (fun l m => l.tail ++ m.take (128 - l.tail.length)) q.msgs := by
  induction ms generalizing ts q with
  | nil => rw [List.zip_nil_right]; rfl
  | cons m ms ih =>
    cases ts with
    | nil => cases h
    | cons t ts =>
      rw [List.zip_cons_cons, List.foldl_cons, List.foldl_cons, ih ts (Nat.succ.inj h)]
      congr 1
      have : q.send.msgs = q.msgs.tail := by
        unfold Line.send
        split <;> simp_all
      show q.send.msgs ++ m.take (128 - q.send.msgs.length) = _
      rw [this]

/-- **C77, a cut line end.** Messages are cut wherever the room ends: in this run the
carriage return at the end of the identification is waiting and its line feed is lost. -/
theorem C77_line_end_cut : (∀ inp ∈ cutLine, Allowed shippedLayout inp) ∧
    ∃ s, powerUp shipped cutLine = .ok s ∧
    (∃ l, (said shipped shippedLayout cutLine).flatten = l ++ withCR classicIdMessageText) ∧
    (∃ l, withCR classicIdMessageText = l ++ [0x0D, 0x0A] ∧ ∃ m, messages s = m ++ l ++ [0x0D]) := by
  have hin : ∀ inp ∈ cutLine, Allowed shippedLayout inp := by
    intro inp h
    simp only [cutLine, List.mem_append, List.mem_replicate] at h
    rcases h with (((⟨_, rfl⟩ | ⟨_, rfl⟩) | ⟨_, rfl⟩) | ⟨_, rfl⟩) | ⟨_, rfl⟩ <;> exact allowed_of_row8 rfl
  obtain ⟨s, e1, _, _, e4⟩ := C77_exact shipped shippedLayout shipped_ok cutLine hin
  have hl := typed_length shipped shippedLayout cutLine
  refine ⟨hin, s, e1, ⟨withCR applesoftKeyboardTestText ++ withCR applesoftKeyboardTestText, ?_⟩,
    classicIdMessageText.take 17, by decide +kernel,
    (withCR applesoftKeyboardTestText).drop 38 ++ (withCR applesoftKeyboardTestText).take 62, ?_⟩
  · rw [cutLine_said]
    decide +kernel
  · rw [e4, channel, channel_msgs _ _ (hl.1.trans hl.2.symm), cutLine_said]
    decide +kernel

end Asdf.Props
