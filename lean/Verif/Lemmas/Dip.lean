import Verif.Lemmas.Actions

/-! # The selected keymap follows DIP switches 0 and 1 -/

namespace Asdf

open Spec

theorem decode_mapsel {c : Code} {b : UInt8} (h : decodeAction c = .mapsel b) :
    b = 1 ∨ b = 2 ∨ b = 4 ∨ b = 8 := by
  have hall : ∀ n, n < 256 → (match decodeAction (UInt8.ofNat n) with
      | .mapsel b => b == 1 || b == 2 || b == 4 || b == 8
      | _ => true) = true := by decide +kernel
  have := hall c.toNat c.toNat_lt
  rw [UInt8.ofNat_toNat, h] at this
  simp only [Bool.or_eq_true, beq_iff_eq] at this
  rcases this with ((h | h) | h) | h
  · exact Or.inl h
  · exact Or.inr (Or.inl h)
  · exact Or.inr (Or.inr (Or.inl h))
  · exact Or.inr (Or.inr (Or.inr h))

/-- The keymap number that DIP switches 0 and 1 spell. -/
def lowDip (s : State) : UInt8 :=
  UInt8.ofNat ((accepted s 8 0).toNat + 2 * (accepted s 8 1).toNat)

theorem shipped_mapsel : placed shipped shippedLayout (.mapsel 1) [(8, 0)] = true ∧
    placed shipped shippedLayout (.mapsel 2) [(8, 1)] = true ∧
    placed shipped shippedLayout (.mapsel 4) [(8, 2)] = true ∧
    placed shipped shippedLayout (.mapsel 8) [(8, 3)] = true := by decide +kernel

theorem idxPress_1 (y : Bool) :
    idxPress shipped (UInt8.ofNat (false.toNat + 2 * y.toNat)) (.mapsel 1) =
      UInt8.ofNat (true.toNat + 2 * y.toNat) := by cases y <;> rfl

theorem idxPress_2 (x : Bool) :
    idxPress shipped (UInt8.ofNat (x.toNat + 2 * false.toNat)) (.mapsel 2) =
      UInt8.ofNat (x.toNat + 2 * true.toNat) := by cases x <;> rfl

theorem idxPress_8 (x y : Bool) :
    idxPress shipped (UInt8.ofNat (x.toNat + 2 * y.toNat)) (.mapsel 8) =
      UInt8.ofNat (x.toNat + 2 * y.toNat) := by cases x <;> cases y <;> rfl

theorem idxRelease_1 (y : Bool) :
    idxRelease shipped (UInt8.ofNat (true.toNat + 2 * y.toNat)) (.mapsel 1) =
      UInt8.ofNat (false.toNat + 2 * y.toNat) := by cases y <;> rfl

theorem idxRelease_2 (x : Bool) :
    idxRelease shipped (UInt8.ofNat (x.toNat + 2 * true.toNat)) (.mapsel 2) =
      UInt8.ofNat (x.toNat + 2 * false.toNat) := by cases x <;> rfl

theorem idxRelease_4 (x y : Bool) :
    idxRelease shipped (UInt8.ofNat (x.toNat + 2 * y.toNat)) (.mapsel 4) =
      UInt8.ofNat (x.toNat + 2 * y.toNat) := by cases x <;> cases y <;> rfl

theorem idxRelease_8 (x y : Bool) :
    idxRelease shipped (UInt8.ofNat (x.toNat + 2 * y.toNat)) (.mapsel 8) =
      UInt8.ofNat (x.toNat + 2 * y.toNat) := by cases x <;> cases y <;> rfl

theorem idx_follows (hcf : CfgFacts shipped shippedLayout) {s : State} {log : List KeyEv}
    (h : History shipped shippedLayout s log) : s.curIdx = lowDip s := by
  induction h with
  | boot hb =>
    obtain ⟨s0, _, _, e1, _, e3⟩ := boot_inv hcf
    rw [e1] at hb
    cases hb
    have h0 : accepted _ 8 0 = false := congrArg Deb.on (e3 8 0 (by decide) (by decide))
    have h1 : accepted _ 8 1 = false := congrArg Deb.on (e3 8 1 (by decide) (by decide))
    unfold lowDip
    rw [h0, h1]
    obtain ⟨_, _, _, g, _⟩ := boot_ok (cfg := shipped) rfl
    rw [e1] at g
    cases g
    rfl
  | output hs ho ih =>
    obtain ⟨⟨ks, ms, a, free, hw⟩, _⟩ := hs.inv hcf
    obtain ⟨_, h2, _, h4⟩ := outputPhase_parts hcf hw ho
    rw [h2, ih]
    unfold lowDip
    rw [h4, h4]
  | @key s s' log hs r c p hr hc hp hk ih =>
    obtain ⟨⟨ks, ms, a, free, hw⟩, _⟩ := hs.inv hcf
    have hml : s.maps.length = 4 := by rw [hw.maps]; exact mapsOf_length _
    obtain ⟨P1, P2, P4, P8⟩ := shipped_mapsel
    have i1 := placed_iff P1 hcf hw hr hc
    have i2 := placed_iff P2 hcf hw hr hc
    have i4 := placed_iff P4 hcf hw hr hc
    have i8 := placed_iff P8 hcf hw hr hc
    have acc := keyStep_accepted hcf hw hr hc hp hk
    have same : s'.curIdx = s.curIdx → (r, c) ∉ [((8 : Nat), (0 : Nat))] →
        (r, c) ∉ [((8 : Nat), (1 : Nat))] → s'.curIdx = lowDip s' := by
      intro hi n0 n1
      rw [hi, ih]
      unfold lowDip
      rw [acc 8 0 (by decide) (by intro hx; apply n0; rw [← hx.1, ← hx.2]; simp),
        acc 8 1 (by decide) (by intro hx; apply n1; rw [← hx.1, ← hx.2]; simp)]
    have other : (∀ b, decodeAction (codeOf s shippedLayout.cols r c) ≠ .mapsel b) →
        s'.curIdx = s.curIdx → s'.curIdx = lowDip s' := by
      intro hn hi
      exact same hi (fun hx => hn 1 (i1.mpr hx)) (fun hx => hn 2 (i2.mpr hx))
    rcases keyStep_cases hcf hw hr hc hp hk with ⟨_, hi, _, _, hac⟩ | ⟨hpt, hacc, _, ha⟩ |
      ⟨_, hacc, _, ha⟩
    · rcases hac with hac | hac
      · rw [hi, ih]
        unfold lowDip
        rw [hac 8 0 (by decide), hac 8 1 (by decide)]
      · refine other ?_ hi
        intro b hb
        rcases decode_le hac with e | e <;> rw [e] at hb <;> cases hb
    · obtain ⟨_, _, _, hq⟩ := activateAction_parts (s := flipCell s r c true) hml ha
      have hidx : s'.curIdx = idxPress shipped (lowDip s)
          (decodeAction (codeOf s shippedLayout.cols r c)) := by rw [← ih]; exact hq
      clear hq
      have hpa := press_accepted hcf hw hr hc (hp hpt) ha
      cases hd : decodeAction (codeOf s shippedLayout.cols r c) with
      | mapsel b =>
        rw [hd] at hidx
        rcases decode_mapsel hd with rfl | rfl | rfl | rfl
        · obtain ⟨rfl, rfl⟩ : r = 8 ∧ c = 0 := by simpa using i1.mp hd
          rw [hidx]
          unfold lowDip
          rw [hacc, hpa, acc 8 1 (by decide) (by decide), idxPress_1]
        · obtain ⟨rfl, rfl⟩ : r = 8 ∧ c = 1 := by simpa using i2.mp hd
          rw [hidx]
          unfold lowDip
          rw [hacc, hpa, acc 8 0 (by decide) (by decide), idxPress_2]
        · obtain ⟨rfl, rfl⟩ : r = 8 ∧ c = 2 := by simpa using i4.mp hd
          exact absurd (hp hpt) (by decide)
        · obtain ⟨rfl, rfl⟩ : r = 8 ∧ c = 3 := by simpa using i8.mp hd
          rw [hidx]
          unfold lowDip
          rw [acc 8 0 (by decide) (by decide), acc 8 1 (by decide) (by decide), idxPress_8]
      | _ =>
        refine other (by rw [hd]; intro b hb; cases hb) ?_
        rw [hidx, hd, ih]
        rfl
    · obtain ⟨_, _, _, hq⟩ := deactivateAction_parts (s := flipCell s r c false) hml ha
      have hidx : s'.curIdx = idxRelease shipped (lowDip s)
          (decodeAction (codeOf s shippedLayout.cols r c)) := by rw [← ih]; exact hq
      clear hq
      have hpa := release_accepted hcf hw hr hc hacc ha
      cases hd : decodeAction (codeOf s shippedLayout.cols r c) with
      | mapsel b =>
        rw [hd] at hidx
        rcases decode_mapsel hd with rfl | rfl | rfl | rfl
        · obtain ⟨rfl, rfl⟩ : r = 8 ∧ c = 0 := by simpa using i1.mp hd
          rw [hidx]
          unfold lowDip
          rw [hacc, hpa, acc 8 1 (by decide) (by decide), idxRelease_1]
        · obtain ⟨rfl, rfl⟩ : r = 8 ∧ c = 1 := by simpa using i2.mp hd
          rw [hidx]
          unfold lowDip
          rw [hacc, hpa, acc 8 0 (by decide) (by decide), idxRelease_2]
        · obtain ⟨rfl, rfl⟩ : r = 8 ∧ c = 2 := by simpa using i4.mp hd
          rw [hidx]
          unfold lowDip
          rw [acc 8 0 (by decide) (by decide), acc 8 1 (by decide) (by decide), idxRelease_4]
        · obtain ⟨rfl, rfl⟩ : r = 8 ∧ c = 3 := by simpa using i8.mp hd
          rw [hidx]
          unfold lowDip
          rw [acc 8 0 (by decide) (by decide), acc 8 1 (by decide) (by decide), idxRelease_8]
      | _ =>
        refine other (by rw [hd]; intro b hb; cases hb) ?_
        rw [hidx, hd, ih]
        rfl

end Asdf
