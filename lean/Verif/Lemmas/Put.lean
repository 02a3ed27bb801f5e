import Verif.Lemmas.Core

/-! # Filling the two buffers -/

namespace Asdf

open Spec

theorem putAllL_take (cap : Nat) (xs ys : List Code) (h : ys.length ≤ cap) :
    xs.foldl (putL cap) ys = (ys ++ xs).take cap := by
  induction xs generalizing ys with
  | nil => rw [List.append_nil, List.take_of_length_le h]; rfl
  | cons x xs ih =>
    rw [List.foldl_cons]
    by_cases hl : ys.length < cap
    · rw [show putL cap ys x = ys ++ [x] from if_pos hl, ih _ (by simp; omega)]; simp
    · rw [show putL cap ys x = ys from if_neg hl, ih _ h, List.take_append_of_le_length (by omega),
        List.take_append_of_le_length (by omega)]

theorem putCodes_ok (xs ks ms : List Code) {s : State} (hb : BufRel s.buf (twoQ ks ms))
    (hk : s.kcBuf = 0) (hm : s.msgBuf = 1) :
    ∃ s', xs.foldlM putCode s = .ok s' ∧ BufRel s'.buf (twoQ (xs.foldl (putL 16) ks) ms) ∧
      s'.kcBuf = 0 ∧ s'.msgBuf = 1 := by
  induction xs generalizing s ks with
  | nil => exact ⟨s, rfl, hb, hk, hm⟩
  | cons x xs ih =>
    obtain ⟨b', h1, h2⟩ := hb.put (i := 0) (by simp [twoQ]) x
    have hq : (twoQ ks ms).modify 0 (fun q => q.put x) = twoQ (putL 16 ks x) ms := by
      simp [twoQ, Queue.put_putL]
    rw [hq] at h2
    obtain ⟨s', g1, g2⟩ := ih (putL 16 ks x) (s := { s with buf := b' }) h2 hk hm
    refine ⟨s', ?_, g2⟩
    have hp : putCode s x = .ok { s with buf := b' } := by
      unfold putCode
      rw [hk]
      show (bufPut s.buf ((0 : Nat) : Int) x >>= _) = _
      rw [h1, ok_bind]
    rw [List.foldlM_cons, hp, ok_bind, g1]

theorem putMsgs_ok (xs ks ms : List Code) {s : State} (hb : BufRel s.buf (twoQ ks ms))
    (hk : s.kcBuf = 0) (hm : s.msgBuf = 1) :
    ∃ s', xs.foldlM putMsg s = .ok s' ∧ BufRel s'.buf (twoQ ks (xs.foldl (putL 128) ms)) ∧
      s'.kcBuf = 0 ∧ s'.msgBuf = 1 := by
  induction xs generalizing s ms with
  | nil => exact ⟨s, rfl, hb, hk, hm⟩
  | cons x xs ih =>
    obtain ⟨b', h1, h2⟩ := hb.put (i := 1) (by simp [twoQ]) x
    have hq : (twoQ ks ms).modify 1 (fun q => q.put x) = twoQ ks (putL 128 ms x) := by
      simp [twoQ, Queue.put_putL]
    rw [hq] at h2
    obtain ⟨s', g1, g2⟩ := ih (putL 128 ms x) (s := { s with buf := b' }) h2 hk hm
    refine ⟨s', ?_, g2⟩
    have hp : putMsg s x = .ok { s with buf := b' } := by
      unfold putMsg
      rw [hm]
      show (bufPut s.buf ((1 : Nat) : Int) x >>= _) = _
      rw [h1, ok_bind]
    rw [List.foldlM_cons, hp, ok_bind, g1]

end Asdf
