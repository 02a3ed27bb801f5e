import Verif.Lemmas.Boards
import Verif.Spec.Sockets

/-! # The data port along the hardware events -/

namespace Asdf

open Avr Spec

theorem delayMs_ops {B : Board} (hB : B ∈ boards) (ms : UInt16) :
    B.opsOf (.delayMs ms) = List.replicate ms.toNat (.delayUs 1000) := by
  rcases List.mem_cons.mp hB with rfl | hB
  · rfl
  · rcases List.mem_cons.mp hB with rfl | hB
    · rfl
    · cases hB

/-- Only a code and the initialisation reach the data port. -/
theorem data_left {B : Board} (hB : B ∈ boards) {p : Pin} (hp : p ∈ pinsOf B.data) {e : Event}
    (h1 : e ≠ .archInit) (h2 : ∀ c, e ≠ .send c) : (B.opsOf e).all (leaves p) = true := by
  cases e with
  | out d v =>
    by_cases hd' : d < 13
    · have key : ∀ B ∈ boards, ∀ p ∈ pinsOf B.data, ∀ d, d < 13 →
          ∀ v ∈ [(0 : UInt8), 1], (B.opsOf (.out d v)).all (leaves p) = true := by decide +kernel
      rw [handler_bool hB]
      exact key B hB p hp d hd' _ (by split <;> decide)
    · rw [handler_none hB d (by omega)]; rfl
  | delayMs ms =>
    rw [delayMs_ops hB, List.all_eq_true]
    intro op ho
    rw [(List.mem_replicate.mp ho).2]
    exact leaves_delay _ _
  | delayShort =>
    have key : ∀ B ∈ boards, ∀ p ∈ pinsOf B.data, (B.opsOf .delayShort).all (leaves p) = true := by
      decide +kernel
    exact key B hB p hp
  | delayLong =>
    have key : ∀ B ∈ boards, ∀ p ∈ pinsOf B.data, (B.opsOf .delayLong).all (leaves p) = true := by
      decide +kernel
    exact key B hB p hp
  | posStrobe =>
    have key : ∀ B ∈ boards, ∀ p ∈ pinsOf B.data, (B.opsOf .posStrobe).all (leaves p) = true := by
      decide +kernel
    exact key B hB p hp
  | negStrobe =>
    have key : ∀ B ∈ boards, ∀ p ∈ pinsOf B.data, (B.opsOf .negStrobe).all (leaves p) = true := by
      decide +kernel
    exact key B hB p hp
  | archInit => exact absurd rfl h1
  | send c => exact absurd rfl (h2 c)

/-- The data port after some events. -/
theorem data_after {B : Board} (hB : B ∈ boards) {p : Pin} (hp : p ∈ pinsOf B.data) (t : List Event)
    (r : Regs) (o : Option Code) (h : ∀ c, o = some c → pinSt r p = (bitOf c p.bit, true)) :
    ∀ c, t.foldl codeStep o = some c → pinSt (boardAfter B r t) p = (bitOf c p.bit, true) := by
  have hbit : p.bit < 8 := by
    have key : ∀ B ∈ boards, ∀ p ∈ pinsOf B.data, p.bit < 8 := by decide
    exact key B hB p hp
  induction t generalizing r o with
  | nil => exact h
  | cons e t ih =>
    intro c hc
    have : boardAfter B r (e :: t) = boardAfter B (boardAfter B r [e]) t := boardAfter_append B r [e] t
    rw [this]
    refine ih _ _ ?_ c hc
    intro c' hc'
    rw [boardAfter_one, exec_pin _ p hbit]
    by_cases h1 : e = .archInit
    · subst h1
      cases hc'
      have key : ∀ B ∈ boards, ∀ p ∈ pinsOf B.data, ∀ st ∈ allPinSt,
          (B.opsOf .archInit).foldl (pinStep p) st = (bitOf 0 p.bit, true) := by decide +kernel
      exact key B hB p hp _ (mem_allPinSt _)
    · by_cases h2 : ∀ c, e ≠ .send c
      · rw [foldl_leaves (data_left hB hp h1 h2)]
        refine h c' ?_
        cases e with
        | archInit => exact absurd rfl h1
        | send c => exact absurd rfl (h2 c)
        | _ => exact hc'
      · cases e with
        | send c1 =>
          cases o with
          | none => cases hc'
          | some c0 =>
            have : c1 = c' := Option.some.inj hc'
            subst this
            have key : ∀ n, n < 256 → ∀ B ∈ boards, ∀ p ∈ pinsOf B.data, ∀ st ∈ allPinSt, st.2 = true →
                (B.opsOf (.send (UInt8.ofNat n))).foldl (pinStep p) st = (bitOf (UInt8.ofNat n) p.bit, true) := by
              decide +kernel
            have hk := key c1.toNat c1.toNat_lt B hB p hp _ (mem_allPinSt (pinSt r p))
              (congrArg Prod.snd (h c0 rfl))
            rw [UInt8.ofNat_toNat] at hk
            exact hk
        | _ => exact absurd (fun c => nofun) h2

/-- An initialisation leaves the data port with a byte. -/
theorem codeShown_of_init {t : List Event} (h : .archInit ∈ t) : ∃ c, codeShown t = some c := by
  have keep : ∀ (t : List Event) (o : Option Code), o ≠ none → t.foldl codeStep o ≠ none := by
    intro t
    induction t with
    | nil => exact fun o h => h
    | cons e t ih =>
      intro o ho
      refine ih _ ?_
      cases e with
      | archInit => exact nofun
      | send c =>
        cases o with
        | none => exact absurd rfl ho
        | some _ => exact nofun
      | _ => exact ho
  obtain ⟨t1, t2, rfl⟩ := List.append_of_mem h
  have : codeShown (t1 ++ .archInit :: t2) ≠ none := by
    unfold codeShown
    rw [List.foldl_append, List.foldl_cons]
    exact keep t2 _ nofun
  exact Option.ne_none_iff_exists'.mp this

end Asdf
